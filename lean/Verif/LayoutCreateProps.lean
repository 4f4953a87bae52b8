import Verif.LayoutCreate
/-
Property C106: `Layout::create` accepts a lattice exactly when it can lay it out, and stops otherwise.
-/
namespace Verif.LayoutCreate
open Verif Outcome Verif.Layout Verif.ParLayout Verif.LatticeIO

/-! ## One node: accepted exactly when the slots number the sites -/

theorem accept_of_mutual {nd : Nat} {L : List Nat} {coords : Nat → Outcome (List Nat)} {index : List Nat → Outcome Nat} (hl : L.length = nd)
    (hv : volume L = ok (nsites L)) (h : MutuallyInverse L coords index) : scalarCreate true nd L coords index = ok () :=
  scalarCreate_iff.2 ⟨hl, hv, fun i hi => by
    obtain ⟨c, h1, _, h3⟩ := h.1 i hi
    exact ⟨c, h1, h3⟩⟩

/-- C106, lexicographic ordering: accepted iff the volume fits an `int` at every step and the two functions number the sites -/
theorem C106_scalar_lexico (nd : Nat) (hnd : 0 < nd) (L : List Nat) :
    scalarCreate true nd L (Layout.siteCoordsLex L) (Layout.linearSiteIndexLex L) = ok () ↔
      L.length = nd ∧ volume L = ok (nsites L) ∧ MutuallyInverse L (Layout.siteCoordsLex L) (Layout.linearSiteIndexLex L) := by
  constructor
  · intro h
    obtain ⟨hl, hv, hs⟩ := scalarCreate_iff.1 h
    refine ⟨hl, hv, ?_⟩
    rcases Nat.eq_zero_or_pos (nsites L) with h0 | h0
    · exact mutual_zero h0
    · exact C01_lexico L (by intro e; subst e; simp at hl; omega) (pos_of_nsites_pos h0) (volume_ok hv).2
  · rintro ⟨h1, h2, h3⟩
    exact accept_of_mutual h1 h2 h3

theorem even_of_box {l0 : Nat} {ls : List Nat} (h0 : 0 < nsites (l0 :: ls)) (h : nsites (l0 :: ls) ≤ nsites (2 * (l0 / 2) :: ls)) : l0 % 2 = 0 := by
  have hf : List.Forall₂ (· ≤ ·) (2 * (l0 / 2) :: ls) (l0 :: ls) :=
    List.Forall₂.cons (Nat.mul_div_le l0 2) (List.forall₂_same.2 fun x _ => Nat.le_refl x)
  have e := nsites_eq hf h0 h
  injection e with e _
  omega

/-- C106, two-colour ordering -/
theorem C106_scalar_cb2 (nd : Nat) (hnd : 0 < nd) (L : List Nat) :
    scalarCreate true nd L (Layout.siteCoordsCB2 L) (Layout.linearSiteIndexCB2 L) = ok () ↔
      L.length = nd ∧ volume L = ok (nsites L) ∧ MutuallyInverse L (Layout.siteCoordsCB2 L) (Layout.linearSiteIndexCB2 L) := by
  constructor
  · intro h
    obtain ⟨hl, hv, hs⟩ := scalarCreate_iff.1 h
    refine ⟨hl, hv, ?_⟩
    rcases Nat.eq_zero_or_pos (nsites L) with h0 | h0
    · exact mutual_zero h0
    · cases L with
      | nil => simp at hl; omega
      | cons l0 ls =>
        refine C01_cb2 l0 ls (even_of_box h0 (box_le hs fun i c hc => ?_)) (pos_of_nsites_pos h0) (volume_ok hv).2
        obtain ⟨a, as, e, hb⟩ := cb2_box hc
        injection e with e1 e2
        subst e1; subst e2
        exact hb
  · rintro ⟨h1, h2, h3⟩
    exact accept_of_mutual h1 h2 h3

/-- C106, two-colour ordering, in terms of the extents: a lattice that fits is refused exactly when its first extent is odd -/
theorem C106_scalar_cb2_which (l0 : Nat) (ls : List Nat) (hp : ∀ l ∈ l0 :: ls, 0 < l) (hv : nsites (l0 :: ls) < 2 ^ 31) :
    scalarCreate true (ls.length + 1) (l0 :: ls) (Layout.siteCoordsCB2 (l0 :: ls)) (Layout.linearSiteIndexCB2 (l0 :: ls)) = ok () ↔ l0 % 2 = 0 := by
  constructor
  · intro h
    obtain ⟨_, _, hs⟩ := scalarCreate_iff.1 h
    refine even_of_box (nsites_pos hp) (box_le hs fun i c hc => ?_)
    obtain ⟨a, as, e, hb⟩ := cb2_box hc
    injection e with e1 e2
    subst e1; subst e2
    exact hb
  · intro h
    exact accept_of_mutual (by simp) (volume_eq hp hv) (C01_cb2 l0 ls h hp hv)

/-- C106, three-dimensional checkerboard (at least two directions) -/
theorem C106_scalar_cb3d (nd : Nat) (hnd : 2 ≤ nd) (L : List Nat) :
    scalarCreate true nd L (Layout.siteCoordsCB3D L) (Layout.linearSiteIndexCB3D L) = ok () ↔
      L.length = nd ∧ volume L = ok (nsites L) ∧ MutuallyInverse L (Layout.siteCoordsCB3D L) (Layout.linearSiteIndexCB3D L) := by
  constructor
  · intro h
    obtain ⟨hl, hv, hs⟩ := scalarCreate_iff.1 h
    refine ⟨hl, hv, ?_⟩
    rcases Nat.eq_zero_or_pos (nsites L) with h0 | h0
    · exact mutual_zero h0
    · cases L with
      | nil => simp at hl; omega
      | cons l0 ls =>
        obtain ⟨mid, t, rfl⟩ : ∃ mid t, ls = mid ++ [t] := by
          have hne : ls ≠ [] := by intro e; subst e; simp at hl; omega
          exact ⟨ls.dropLast, ls.getLast hne, (List.dropLast_concat_getLast hne).symm⟩
        exact C01_cb3d l0 mid t (even_of_box h0 (box_le hs fun i c hc => cb3d_box hc)) (pos_of_nsites_pos h0) (volume_ok hv).2
  · rintro ⟨h1, h2, h3⟩
    exact accept_of_mutual h1 h2 h3

theorem halves_le (ls : List Nat) : List.Forall₂ (· ≤ ·) (ls.map fun l => 2 * (l / 2)) ls := by
  induction ls with
  | nil => exact .nil
  | cons l ls ih => exact .cons (Nat.mul_div_le l 2) ih

theorem even_of_halves : ∀ {ls : List Nat}, (ls.map fun l => 2 * (l / 2)) = ls → ∀ l ∈ ls, l % 2 = 0
  | [], _ => by simp
  | l :: ls, h => by
    simp only [List.map_cons, List.cons.injEq] at h
    simp only [List.mem_cons, forall_eq_or_imp]
    exact ⟨by omega, even_of_halves h.2⟩

theorem four_of_box {l0 : Nat} {ls : List Nat} (h0 : 0 < nsites (l0 :: ls))
    (h : nsites (l0 :: ls) ≤ nsites (4 * (l0 / 4) :: ls.map fun l => 2 * (l / 2))) : l0 % 4 = 0 ∧ ∀ l ∈ ls, l % 2 = 0 := by
  have e := nsites_eq (.cons (Nat.mul_div_le l0 4) (halves_le ls)) h0 h
  injection e with e1 e2
  exact ⟨by omega, even_of_halves e2⟩

/-- C106, 32-colour ordering -/
theorem C106_scalar_cb32 (nd : Nat) (hnd : 0 < nd) (L : List Nat) :
    scalarCreate true nd L (siteCoordsCB32 L) (linearSiteIndexCB32 L) = ok () ↔
      L.length = nd ∧ volume L = ok (nsites L) ∧ MutuallyInverse L (siteCoordsCB32 L) (linearSiteIndexCB32 L) := by
  constructor
  · intro h
    obtain ⟨hl, hv, hs⟩ := scalarCreate_iff.1 h
    refine ⟨hl, hv, ?_⟩
    rcases Nat.eq_zero_or_pos (nsites L) with h0 | h0
    · exact mutual_zero h0
    · cases L with
      | nil => simp at hl; omega
      | cons l0 ls =>
        obtain ⟨h4, he⟩ := four_of_box h0 (box_le hs fun i c hc => cb32_box hc)
        exact C01_cb32 l0 ls h4 he (pos_of_nsites_pos h0) (volume_ok hv).2
  · rintro ⟨h1, h2, h3⟩
    exact accept_of_mutual h1 h2 h3

/-- C106, 32-colour ordering, in terms of the extents -/
theorem C106_scalar_cb32_which (l0 : Nat) (ls : List Nat) (hp : ∀ l ∈ l0 :: ls, 0 < l) (hv : nsites (l0 :: ls) < 2 ^ 31) :
    scalarCreate true (ls.length + 1) (l0 :: ls) (siteCoordsCB32 (l0 :: ls)) (linearSiteIndexCB32 (l0 :: ls)) = ok () ↔
      l0 % 4 = 0 ∧ ∀ l ∈ ls, l % 2 = 0 := by
  constructor
  · intro h
    obtain ⟨_, _, hs⟩ := scalarCreate_iff.1 h
    exact four_of_box (nsites_pos hp) (box_le hs fun i c hc => cb32_box hc)
  · rintro ⟨h4, he⟩
    exact accept_of_mutual (by simp) (volume_eq hp hv) (C01_cb32 l0 ls h4 he hp hv)

/-! ### the cases of the theorems -/

example : scalarCreate true 2 [4, 3] (Layout.siteCoordsCB2 [4, 3]) (Layout.linearSiteIndexCB2 [4, 3]) = ok () := by decide
example : scalarCreate true 2 [3, 4] (Layout.siteCoordsCB2 [3, 4]) (Layout.linearSiteIndexCB2 [3, 4]) = abort := by decide
example : scalarCreate true 2 [1, 4] (Layout.siteCoordsCB2 [1, 4]) (Layout.linearSiteIndexCB2 [1, 4]) = ub := by decide
example : scalarCreate true 2 [4, 2] (siteCoordsCB32 [4, 2]) (linearSiteIndexCB32 [4, 2]) = ok () := by decide
example : scalarCreate true 3 [2, 3, 2] (Layout.siteCoordsCB3D [2, 3, 2]) (Layout.linearSiteIndexCB3D [2, 3, 2]) = ok () := by decide
example : scalarCreate true 2 [0, 4] (Layout.siteCoordsCB2 [0, 4]) (Layout.linearSiteIndexCB2 [0, 4]) = ok () := by decide

/-! ## Lattices larger than an `int` -/

theorem volLoop_large : ∀ {L : List Nat} {v : Nat}, (∀ l ∈ L, 0 < l) → 0 < v → v < 2 ^ 31 → 2 ^ 31 ≤ v * nsites L → volLoop L v = ub
  | [], v, _, _, hv, h => by simp [nsites] at h; omega
  | l :: L, v, hp, h0, hv, h => by
    simp only [List.mem_cons, forall_eq_or_imp] at hp
    simp only [volLoop, ckInt]
    split
    · rename_i hl
      exact volLoop_large hp.2 (Nat.mul_pos h0 hp.1) hl (by simpa only [nsites, Nat.mul_assoc] using h)
    · rfl

/-- C106 fails for large lattices: at 2^31 sites or more (256^4 is 2^32) the signed product overflows before any test; on no build is the lattice refused -/
theorem C106_large_refuted (L : List Nat) (hp : ∀ l ∈ L, 0 < l) (h : 2 ^ 31 ≤ nsites L) (coords : Nat → Outcome (List Nat))
    (index : List Nat → Outcome Nat) (dbg : Bool) (o : Order) (m : Machine) (inner : Nat) :
    scalarCreate true L.length L coords index = ub ∧ parCreate dbg o true L.length L m = ub ∧ vecCreate inner o true L.length L m = ub := by
  have e : volume L = ub := volLoop_large hp Nat.one_pos (by norm_num) (by omega)
  refine ⟨?_, ?_, ?_⟩
  · simp [scalarCreate, e]
  · simp [parCreate, e]
  · simp [vecCreate, e]

example : (∀ l ∈ [256, 256, 256, 256], 0 < l) ∧ 2 ^ 31 ≤ nsites [256, 256, 256, 256] := by decide

end Verif.LayoutCreate
