import Verif.LayoutCB32
/-
Properties C01 and C03 (single-node part) of properties.jsonl.

`MutuallyInverse L coords index` (Verif/LayoutCB.lean) says: for every index below the volume, `coords`
returns an in-range coordinate and `index` takes it back; for every in-range coordinate, `index` returns an index
below the volume and `coords` takes it back; no call stops the program or is undefined.
-/
namespace Verif.Layout
open Verif Outcome

/-! ### C01 -/

/-- C01, lexicographic ordering: any number of dimensions, any positive extents with volume below 2^31. -/
theorem C01_lexico (L : List Nat) (hne : L ≠ []) (hp : ∀ l ∈ L, 0 < l) (hv : nsites L < 2 ^ 31) :
    MutuallyInverse L (siteCoordsLex L) (linearSiteIndexLex L) := by
  constructor
  · intro i hi
    refine ⟨digits i L, crtesn_eq hp i, digits_inRange hi, ?_⟩
    unfold linearSiteIndexLex
    rw [localSite_eq (digits_inRange hi) hne hv, rank_digits hi]
  · intro c hc
    refine ⟨rank c L, localSite_eq hc hne hv, rank_lt hc, ?_⟩
    unfold siteCoordsLex
    rw [crtesn_eq hp, digits_rank hc]

/-- C01, two-colour checkerboard: first extent even. -/
theorem C01_cb2 (l0 : Nat) (ls : List Nat) (heven : l0 % 2 = 0) (hp : ∀ l ∈ l0 :: ls, 0 < l)
    (hv : nsites (l0 :: ls) < 2 ^ 31) :
    MutuallyInverse (l0 :: ls) (siteCoordsCB2 (l0 :: ls)) (linearSiteIndexCB2 (l0 :: ls)) := by
  obtain ⟨h, rfl⟩ : ∃ h, l0 = 2 * h := ⟨l0 / 2, by omega⟩
  simp only [List.mem_cons, forall_eq_or_imp] at hp
  have hh : 0 < h := by omega
  simp only [nsites] at hv
  have hV : nsites (2 * h :: ls) = 2 * (h * nsites ls) := by simp [nsites, Nat.mul_assoc]
  constructor
  · intro i hi
    rw [hV] at hi
    refine ⟨_, siteCoordsCB2_eq hh hp.2 hv hi, ?_, ?_⟩
    · have hA := dig2_A (h := h) (ls := ls) _ (Nat.mod_lt i (Nat.mul_pos hh (nsites_pos hp.2)))
      exact ⟨by omega, hA.2.1⟩
    · have hA := dig2_A (h := h) (ls := ls) _ (Nat.mod_lt i (Nat.mul_pos hh (nsites_pos hp.2)))
      unfold cbCoords
      rw [linearSiteIndexCB2_eq hh hp.2 hv (by omega) hA.2.1]
      exact congrArg ok (cbIndex_cbCoords (R := fun r => InRange r ls) dig2_A hi)
  · intro c hc
    match c, hc with
    | c0 :: cs, hc =>
      have key := cbCoords_cbIndex (f := List.sum) (dig := dig2 h ls) (R := fun r => InRange r ls) dig2_B hc.1 hc.2
      exact ⟨_, linearSiteIndexCB2_eq hh hp.2 hv hc.1 hc.2, by rw [hV]; exact key.1,
        by rw [siteCoordsCB2_eq hh hp.2 hv key.1, key.2]⟩

/-- C01, 3D checkerboard with the last direction fastest: at least two dimensions, first extent even. -/
theorem C01_cb3d (l0 : Nat) (mid : List Nat) (t : Nat) (heven : l0 % 2 = 0)
    (hp : ∀ l ∈ l0 :: (mid ++ [t]), 0 < l) (hv : nsites (l0 :: (mid ++ [t])) < 2 ^ 31) :
    MutuallyInverse (l0 :: (mid ++ [t])) (siteCoordsCB3D (l0 :: (mid ++ [t])))
      (linearSiteIndexCB3D (l0 :: (mid ++ [t]))) := by
  obtain ⟨h, rfl⟩ : ∃ h, l0 = 2 * h := ⟨l0 / 2, by omega⟩
  simp only [List.mem_cons, List.mem_append, List.not_mem_nil, or_false, forall_eq_or_imp] at hp
  have hh : 0 < h := by omega
  have hm : ∀ l ∈ mid, 0 < l := fun l hl => hp.2 l (Or.inl hl)
  have ht : 0 < t := hp.2 t (Or.inr rfl)
  have hls : ∀ l ∈ mid ++ [t], 0 < l := by
    intro l hl; exact hp.2 l (by simpa using hl)
  simp only [nsites] at hv
  have hV : nsites (2 * h :: (mid ++ [t])) = 2 * (h * nsites (mid ++ [t])) := by simp [nsites, Nat.mul_assoc]
  constructor
  · intro i hi
    rw [hV] at hi
    have hA := dig3_A (h := h) (mid := mid) ht _ (Nat.mod_lt i (Nat.mul_pos hh (nsites_pos hls)))
    refine ⟨_, siteCoordsCB3D_eq hh hm ht hv hi, ⟨by omega, hA.2.1⟩, ?_⟩
    unfold cbCoords
    rw [linearSiteIndexCB3D_eq hh hm ht hv (by omega) hA.2.1]
    exact congrArg ok (cbIndex_cbCoords (R := fun r => InRange r (mid ++ [t])) (dig3_A ht) hi)
  · intro c hc
    match c, hc with
    | c0 :: cs, hc =>
      have key := cbCoords_cbIndex (f := spatialSum) (dig := dig3 h mid t)
        (R := fun r => InRange r (mid ++ [t])) dig3_B hc.1 hc.2
      exact ⟨_, linearSiteIndexCB3D_eq hh hm ht hv hc.1 hc.2, by rw [hV]; exact key.1,
        by rw [siteCoordsCB3D_eq hh hm ht hv key.1, key.2]⟩

theorem exists_doubled {ls : List Nat} (h : ∀ l ∈ ls, l % 2 = 0) : ∃ ks : List Nat, ls = ks.map (2 * ·) := by
  induction ls with
  | nil => exact ⟨[], rfl⟩
  | cons a b ih =>
    simp only [List.mem_cons, forall_eq_or_imp] at h
    obtain ⟨ks, rfl⟩ := ih h.2
    exact ⟨(a / 2) :: ks, by simp; omega⟩

/-- C01, 32-colour checkerboard (2^(Nd+1) sublattices): first extent a multiple of 4, the others even. -/
theorem C01_cb32 (l0 : Nat) (ls : List Nat) (h4 : l0 % 4 = 0) (heven : ∀ l ∈ ls, l % 2 = 0)
    (hp : ∀ l ∈ l0 :: ls, 0 < l) (hv : nsites (l0 :: ls) < 2 ^ 31) :
    MutuallyInverse (l0 :: ls) (siteCoordsCB32 (l0 :: ls)) (linearSiteIndexCB32 (l0 :: ls)) := by
  obtain ⟨h, rfl⟩ : ∃ h, l0 = 4 * h := ⟨l0 / 4, by omega⟩
  obtain ⟨ks, rfl⟩ := exists_doubled heven
  simp only [List.mem_cons, forall_eq_or_imp] at hp
  have hh : 0 < h := by omega
  have hks : ∀ l ∈ ks, 0 < l := by
    intro l hl
    have := hp.2 (2 * l) (List.mem_map.2 ⟨l, hl, rfl⟩)
    omega
  have hs : nsites (4 * h :: ks.map (2 * ·)) = 2 ^ (ks.length + 2) * (h * nsites ks) := by
    simp only [nsites, nsites_double]
    rw [Nat.pow_add, show 2 ^ 2 = 4 from rfl]
    ac_rfl
  rw [hs] at hv
  have hV : 0 < h * nsites ks := Nat.mul_pos hh (nsites_pos hks)
  constructor
  · intro i hi
    rw [hs] at hi
    obtain ⟨c0, cs, e, h0, hc, hix, _⟩ := index32_coords32 hi hV
    exact ⟨c0 :: cs, by rw [siteCoordsCB32_eq hh hks hv, e], ⟨h0, hc⟩,
      by rw [linearSiteIndexCB32_eq hh hks hv h0 hc, hix]⟩
  · intro c hc
    match c, hc with
    | c0 :: cs, hc =>
      have key := coords32_index32 hc.1 hc.2
      exact ⟨_, linearSiteIndexCB32_eq hh hks hv hc.1 hc.2, by rw [hs]; exact key.1,
        by rw [siteCoordsCB32_eq hh hks hv, key.2]⟩

-- the hypotheses of the four theorems are met by real lattices
example : ([4, 3, 2, 5] : List Nat) ≠ [] ∧ (∀ l ∈ [4, 3, 2, 5], 0 < l) ∧ nsites [4, 3, 2, 5] < 2 ^ 31 := by decide
example : (4 % 2 = 0) ∧ (∀ l ∈ [4, 3, 2, 5], 0 < l) ∧ nsites [4, 3, 2, 5] < 2 ^ 31 := by decide
example : (8 % 4 = 0) ∧ (∀ l ∈ [2, 6, 4], l % 2 = 0) ∧ (∀ l ∈ [8, 2, 6, 4], 0 < l) ∧ nsites [8, 2, 6, 4] < 2 ^ 31 := by
  decide
-- and the functions really compute (not a vacuous `ok`)
example : siteCoordsCB2 [4, 3, 2, 5] 77 = ok [2, 2, 0, 1] ∧ linearSiteIndexCB2 [4, 3, 2, 5] [2, 2, 0, 1] = ok 77 := by
  decide
example : siteCoordsCB3D [4, 3, 2, 5] 77 = ok [2, 1, 0, 2] ∧ linearSiteIndexCB3D [4, 3, 2, 5] [2, 1, 0, 2] = ok 77 := by
  decide
example : siteCoordsCB32 [8, 2, 6, 4] 77 = ok [4, 1, 5, 0] ∧ linearSiteIndexCB32 [8, 2, 6, 4] [4, 1, 5, 0] = ok 77 := by
  decide
/-- the evenness condition is needed: with an odd first extent the two-colour ordering is not a bijection. -/
theorem C01_cb2_odd_fails : ¬ MutuallyInverse [3, 2] (siteCoordsCB2 [3, 2]) (linearSiteIndexCB2 [3, 2]) := by
  intro h
  obtain ⟨c, h1, _, h3⟩ := h.1 2 (by decide)
  have e : siteCoordsCB2 [3, 2] 2 = ok [0, 0] := by decide
  rw [e] at h1
  injection h1 with h1
  subst h1
  have e2 : linearSiteIndexCB2 [3, 2] [0, 0] = ok 0 := by decide
  rw [e2] at h3
  exact absurd h3 (by decide)
/-- with first extent 1 the two-colour ordering divides by zero. -/
theorem C01_cb2_extent_one_ub : siteCoordsCB2 [1, 2] 0 = ub := by decide

/-! ### C03 (single node) -/

/-- C03, two-colour ordering: index `i` is an even site iff it lies in the first half. -/
theorem C03_cb2 (l0 : Nat) (ls : List Nat) (heven : l0 % 2 = 0) (hp : ∀ l ∈ l0 :: ls, 0 < l)
    (hv : nsites (l0 :: ls) < 2 ^ 31) (i : Nat) (hi : i < nsites (l0 :: ls)) (c : List Nat)
    (hc : siteCoordsCB2 (l0 :: ls) i = ok c) : c.sum % 2 = 0 ↔ i < nsites (l0 :: ls) / 2 := by
  obtain ⟨h, rfl⟩ : ∃ h, l0 = 2 * h := ⟨l0 / 2, by omega⟩
  simp only [List.mem_cons, forall_eq_or_imp] at hp
  have hV : nsites (2 * h :: ls) = 2 * (h * nsites ls) := by simp [nsites, Nat.mul_assoc]
  rw [hV] at hi ⊢
  simp only [nsites] at hv
  rw [siteCoordsCB2_eq (by omega) hp.2 hv hi] at hc
  injection hc with hc
  subst hc
  have := cb_colour (f := List.sum) (dig := dig2 h ls) hi
  simp only [cbCoords, List.sum_cons]
  rw [this]; omega

/-- C03, 3D ordering: index `i` has even spatial coordinate sum iff it lies in the first half. -/
theorem C03_cb3d (l0 : Nat) (mid : List Nat) (t : Nat) (heven : l0 % 2 = 0)
    (hp : ∀ l ∈ l0 :: (mid ++ [t]), 0 < l) (hv : nsites (l0 :: (mid ++ [t])) < 2 ^ 31)
    (i : Nat) (hi : i < nsites (l0 :: (mid ++ [t]))) (c : List Nat)
    (hc : siteCoordsCB3D (l0 :: (mid ++ [t])) i = ok c) :
    c.dropLast.sum % 2 = 0 ↔ i < nsites (l0 :: (mid ++ [t])) / 2 := by
  obtain ⟨h, rfl⟩ : ∃ h, l0 = 2 * h := ⟨l0 / 2, by omega⟩
  simp only [List.mem_cons, List.mem_append, List.not_mem_nil, or_false, forall_eq_or_imp] at hp
  have hm : ∀ l ∈ mid, 0 < l := fun l hl => hp.2 l (Or.inl hl)
  have ht : 0 < t := hp.2 t (Or.inr rfl)
  have hV : nsites (2 * h :: (mid ++ [t])) = 2 * (h * nsites (mid ++ [t])) := by simp [nsites, Nat.mul_assoc]
  rw [hV] at hi ⊢
  simp only [nsites] at hv
  rw [siteCoordsCB3D_eq (by omega) hm ht hv hi] at hc
  injection hc with hc
  subst hc
  have hcol := cb_colour (f := spatialSum) (dig := dig3 h mid t) hi
  have hne : (dig3 h mid t (i % (h * nsites (mid ++ [t])))).2 ≠ [] := by simp [dig3]
  unfold cbCoords
  rw [List.dropLast_cons_of_ne_nil hne, List.sum_cons]
  unfold spatialSum at hcol ⊢
  rw [hcol]; omega

/-- the even half has exactly as many sites as the odd half (both `vol/2`), so with `C03_cb2` each colour is one
contiguous range of that length. -/
theorem C03_halves (l0 : Nat) (ls : List Nat) (heven : l0 % 2 = 0) :
    nsites (l0 :: ls) / 2 + nsites (l0 :: ls) / 2 = nsites (l0 :: ls) := by
  obtain ⟨h, rfl⟩ : ∃ h, l0 = 2 * h := ⟨l0 / 2, by omega⟩
  have hV : nsites (2 * h :: ls) = 2 * (h * nsites ls) := by simp [nsites, Nat.mul_assoc]
  omega

example : siteCoordsCB2 [4, 3, 2, 5] 59 = ok [3, 2, 1, 4] ∧ ([3, 2, 1, 4] : List Nat).sum % 2 = 0 ∧ 59 < 120 / 2 := by
  decide

end Verif.Layout
