import Verif.ParLayoutCB
/-
Property C02 (distributed layout) and the multi-node part of C03.

`Geom.Good` (Verif/ParLayout.lean) is the statement: every in-range coordinate has an owner node and a slot from
which `siteCoords` gives the coordinate back, and every (node, slot) holds an in-range coordinate that `nodeNumber`
and `linearSiteIndex` map back; nothing stops or is undefined.
-/
namespace Verif.ParLayout
open Verif Outcome Verif.Layout

/-- lexicographic ordering as a geometry -/
def geomLex (L : List Nat) (m : Machine) (S : List Nat) : Geom :=
  { L := L, nodes := nsites m.size, sites := nsites S, siteCoords := siteCoordsLex m S,
    nodeNumber := nodeNumber m S, linearSiteIndex := linearSiteIndexLex S }
/-- two-colour ordering as a geometry -/
def geomCB2 (L : List Nat) (m : Machine) (S : List Nat) : Geom :=
  { L := L, nodes := nsites m.size, sites := nsites S, siteCoords := siteCoordsCB2 m S,
    nodeNumber := nodeNumber m S, linearSiteIndex := linearSiteIndexCB2 S }
/-- 3D checkerboard ordering as a geometry -/
def geomCB3D (L : List Nat) (m : Machine) (S : List Nat) : Geom :=
  { L := L, nodes := nsites m.size, sites := nsites S, siteCoords := siteCoordsCB3D m S,
    nodeNumber := nodeNumber m S, linearSiteIndex := linearSiteIndexCB3D S }

/-- the extents of the sub-grid are those the code computes -/
theorem C02_subgrid (L S : List Nat) (m : Machine) (hcut : Cut L m.size S) (hp : ∀ p ∈ m.size, 0 < p) :
    subgrid L m = ok S := subgrid_eq hcut hp

/-- C02, lexicographic ordering: any machine grid that cuts the lattice into equal non-empty blocks. -/
theorem C02_lexico (L S : List Nat) (m : Machine) (hm : m.Good) (hcut : Cut L m.size S) (hne : L ≠ [])
    (hS : ∀ s ∈ S, 0 < s) (hP : ∀ p ∈ m.size, 0 < p) (hv : nsites L < 2 ^ 31) : (geomLex L m S).Good := by
  have hlen := cut_lengths hcut
  have hSne : S ≠ [] := by
    intro e; subst e
    exact hne (List.length_eq_zero_iff.1 (by simpa using hlen.2))
  have hvS := cut_pos_bound hcut hv (nsites_pos hP)
  refine good_of_local hcut hm rfl (geomLex L m S) rfl rfl rfl rfl (fun _ r => rank r S) (fun _ i => digits i S) ?_ ?_
  · intro p r hp hr
    refine ⟨?_, rank_lt hr, digits_rank hr⟩
    show linearSiteIndexLex S _ = _
    unfold linearSiteIndexLex
    rw [zipMod_block (by rw [hp.length_eq, hlen.1]) hr, ok_bind, localSite_eq hr hSne hvS]
  · intro n i hn hi
    refine ⟨?_, digits_inRange hi, rank_digits hi⟩
    show siteCoordsLex m S n i = _
    have hc := (hm.1 n hn).1
    unfold siteCoordsLex
    rw [zipMul_eq (by rw [hc.length_eq, hlen.1]), ok_bind, crtesn_eq hS, ok_bind]
    apply zipAdd_eq
    simp [mulL, (digits_inRange hi).length_eq, hc.length_eq, hlen.1]

/-- C02, two-colour ordering: in addition the first extent of each block is even. -/
theorem C02_cb2 (L S : List Nat) (s0 : Nat) (m : Machine) (hm : m.Good) (hcut : Cut L m.size (s0 :: S))
    (heven : s0 % 2 = 0) (hS : ∀ s ∈ s0 :: S, 0 < s) (hv : nsites L < 2 ^ 31) :
    (geomCB2 L m (s0 :: S)).Good := by
  obtain ⟨h, rfl⟩ : ∃ h, s0 = 2 * h := ⟨s0 / 2, by omega⟩
  simp only [List.mem_cons, forall_eq_or_imp] at hS
  have hh : 0 < h := by omega
  obtain ⟨l0, L, rfl⟩ : ∃ a b, L = a :: b := by
    cases L with
    | nil => have := (cut_lengths hcut).2; simp at this
    | cons a b => exact ⟨a, b, rfl⟩
  obtain ⟨p0, P, hP⟩ : ∃ a b, m.size = a :: b := by
    cases hms : m.size with
    | nil => have := (cut_lengths hcut).1; simp [hms] at this
    | cons a b => exact ⟨a, b, rfl⟩
  rw [hP] at hcut
  obtain ⟨hl0, hcut'⟩ := hcut
  have hV : nsites (2 * h :: S) = 2 * (h * nsites S) := by simp [nsites, Nat.mul_assoc]
  refine good_of_local (L := l0 :: L) (P := p0 :: P) (S := 2 * h :: S) ⟨hl0, hcut'⟩ hm hP
    (geomCB2 (l0 :: L) m (2 * h :: S)) rfl (by simp [geomCB2, hP]) rfl rfl
    (fun p r => match p, r with
      | _ :: p, y :: r => cbIndex (gsum p S) (h * nsites S) (rk2 h S) y r
      | _, _ => 0)
    (fun p i => match p with
      | _ :: p => cbCoords (gsum p S) (h * nsites S) (dig2 h S) i
      | _ => []) ?_ ?_
  · intro p r hp hr
    match p, r, hp, hr with
    | a :: p, y :: r, hp, hr =>
      have key := cbCoords_cbIndex (f := gsum p S) (dig := dig2 h S) (R := fun r => InRange r S) dig2_B hr.1 hr.2
      exact ⟨linearSiteIndexCB2_eq hcut' hl0 hv hp.1 hp.2 hr.1 hr.2, by rw [hV]; exact key.1, key.2⟩
  · intro n i hn hi
    rw [hV] at hi
    have hc := (hm.1 n (by rw [hP]; exact hn)).1
    rw [hP] at hc
    match hcf : m.coordFrom n, hc with
    | a :: p, hc =>
      have hA := dig2_A (h := h) (ls := S) _ (Nat.mod_lt i (Nat.mul_pos hh (nsites_pos hS.2)))
      exact ⟨siteCoordsCB2_eq hcut' hl0 hh hS.2 hv hcf hc.1 hc.2 hi, ⟨by omega, hA.2.1⟩,
        cbIndex_cbCoords (R := fun r => InRange r S) dig2_A hi⟩

/-- C02, 3D checkerboard: at least two dimensions, first extent of each block even. -/
theorem C02_cb3d (L S : List Nat) (s0 st : Nat) (m : Machine) (hm : m.Good) (hcut : Cut L m.size (s0 :: (S ++ [st])))
    (heven : s0 % 2 = 0) (hS : ∀ s ∈ s0 :: (S ++ [st]), 0 < s) (hv : nsites L < 2 ^ 31) :
    (geomCB3D L m (s0 :: (S ++ [st]))).Good := by
  obtain ⟨h, rfl⟩ : ∃ h, s0 = 2 * h := ⟨s0 / 2, by omega⟩
  have hS0 := hS (2 * h) (by simp)
  have hS' : ∀ s ∈ S ++ [st], 0 < s := fun s hs => hS s (by simp only [List.mem_cons]; exact Or.inr hs)
  have hst : 0 < st := hS' st (by simp)
  have hh : 0 < h := by omega
  obtain ⟨l0, L, rfl⟩ : ∃ a b, L = a :: b := by
    cases L with
    | nil => have := (cut_lengths hcut).2; simp at this
    | cons a b => exact ⟨a, b, rfl⟩
  obtain ⟨p0, P, hP⟩ : ∃ a b, m.size = a :: b := by
    cases hms : m.size with
    | nil => have := (cut_lengths hcut).1; simp [hms] at this
    | cons a b => exact ⟨a, b, rfl⟩
  rw [hP] at hcut
  obtain ⟨hl0, hcut'⟩ := hcut
  have hV : nsites (2 * h :: (S ++ [st])) = 2 * (h * nsites (S ++ [st])) := by simp [nsites, Nat.mul_assoc]
  refine good_of_local (L := l0 :: L) (P := p0 :: P) (S := 2 * h :: (S ++ [st])) ⟨hl0, hcut'⟩ hm hP
    (geomCB3D (l0 :: L) m (2 * h :: (S ++ [st]))) rfl (by simp [geomCB3D, hP]) rfl rfl
    (fun p r => match p, r with
      | _ :: p, y :: r => cbIndex (gsum3 p (S ++ [st])) (h * nsites (S ++ [st])) (rk3 h S st) y r
      | _, _ => 0)
    (fun p i => match p with
      | _ :: p => cbCoords (gsum3 p (S ++ [st])) (h * nsites (S ++ [st])) (dig3 h S st) i
      | _ => []) ?_ ?_
  · intro p r hp hr
    match p, r, hp, hr with
    | a :: p, y :: r, hp, hr =>
      have key := cbCoords_cbIndex (f := gsum3 p (S ++ [st])) (dig := dig3 h S st)
        (R := fun r => InRange r (S ++ [st])) dig3_B hr.1 hr.2
      exact ⟨linearSiteIndexCB3D_eq hcut' hl0 hv hp.1 hp.2 hr.1 hr.2, by rw [hV]; exact key.1, key.2⟩
  · intro n i hn hi
    rw [hV] at hi
    have hc := (hm.1 n (by rw [hP]; exact hn)).1
    rw [hP] at hc
    match hcf : m.coordFrom n, hc with
    | a :: p, hc =>
      have hA := dig3_A (h := h) (mid := S) hst _ (Nat.mod_lt i (Nat.mul_pos hh (nsites_pos hS')))
      exact ⟨siteCoordsCB3D_eq hcut' hl0 hh hS' hv hcf hc.1 hc.2 hi, ⟨by omega, hA.2.1⟩,
        cbIndex_cbCoords (R := fun r => InRange r (S ++ [st])) (dig3_A hst) hi⟩

/-! ### single-node builds are the one-node case of the same interface -/

/-- a single-node ordering as a geometry with one node (`nodeNumber` is constant 0,
lib/qdp_scalar_layout.cc, `nodeNumber(coord)` returns 0) -/
def geomScalar (L : List Nat) (coords : Nat → Outcome (List Nat)) (index : List Nat → Outcome Nat) : Geom :=
  { L := L, nodes := 1, sites := nsites L, siteCoords := fun _ i => coords i, nodeNumber := fun _ => ok 0,
    linearSiteIndex := index }

theorem C02_scalar (L : List Nat) (coords : Nat → Outcome (List Nat)) (index : List Nat → Outcome Nat)
    (h : MutuallyInverse L coords index) : (geomScalar L coords index).Good := by
  constructor
  · intro c hc
    obtain ⟨i, h1, h2, h3⟩ := h.2 c hc
    exact ⟨0, i, rfl, by simp [geomScalar], h1, h2, h3⟩
  · intro n i hn hi
    obtain ⟨c, h1, h2, h3⟩ := h.1 i hi
    have : n = 0 := by simp [geomScalar] at hn; exact hn
    subst this
    exact ⟨c, h1, h2, rfl, h3⟩

/-! ### the parity halves on each node (C03, multi-node) -/

theorem C03_par_cb2 (L S : List Nat) (s0 : Nat) (m : Machine) (hm : m.Good) (hcut : Cut L m.size (s0 :: S))
    (heven : s0 % 2 = 0) (hS : ∀ s ∈ s0 :: S, 0 < s) (hv : nsites L < 2 ^ 31)
    (n i : Nat) (hn : n < nsites m.size) (hi : i < nsites (s0 :: S)) (c : List Nat)
    (hc : siteCoordsCB2 m (s0 :: S) n i = ok c) : c.sum % 2 = 0 ↔ i < nsites (s0 :: S) / 2 := by
  obtain ⟨h, rfl⟩ : ∃ h, s0 = 2 * h := ⟨s0 / 2, by omega⟩
  simp only [List.mem_cons, forall_eq_or_imp] at hS
  have hh : 0 < h := by omega
  obtain ⟨l0, L, rfl⟩ : ∃ a b, L = a :: b := by
    cases L with
    | nil => have := (cut_lengths hcut).2; simp at this
    | cons a b => exact ⟨a, b, rfl⟩
  obtain ⟨p0, P, hP⟩ : ∃ a b, m.size = a :: b := by
    cases hms : m.size with
    | nil => have := (cut_lengths hcut).1; simp [hms] at this
    | cons a b => exact ⟨a, b, rfl⟩
  have hcf := (hm.1 n hn).1
  rw [hP] at hcut hcf
  obtain ⟨hl0, hcut'⟩ := hcut
  have hV : nsites (2 * h :: S) = 2 * (h * nsites S) := by simp [nsites, Nat.mul_assoc]
  rw [hV] at hi ⊢
  match hcf' : m.coordFrom n, hcf with
  | a :: p, hcf =>
    rw [siteCoordsCB2_eq hcut' hl0 hh hS.2 hv hcf' hcf.1 hcf.2 hi] at hc
    injection hc with hc
    subst hc
    have hcol := cb_colour (f := gsum p S) (dig := dig2 h S) hi
    have hdiv : 2 * (h * nsites S) / 2 = h * nsites S := by omega
    rw [hdiv, ← hcol]
    simp only [cbCoords, addL, mulL, List.zipWith_cons_cons, List.sum_cons, gsum]
    have : a * (2 * h) = 2 * (a * h) := by rw [Nat.mul_left_comm]
    omega

theorem C03_par_cb3d (L S : List Nat) (s0 st : Nat) (m : Machine) (hm : m.Good)
    (hcut : Cut L m.size (s0 :: (S ++ [st]))) (heven : s0 % 2 = 0) (hS : ∀ s ∈ s0 :: (S ++ [st]), 0 < s)
    (hv : nsites L < 2 ^ 31) (n i : Nat) (hn : n < nsites m.size) (hi : i < nsites (s0 :: (S ++ [st])))
    (c : List Nat) (hc : siteCoordsCB3D m (s0 :: (S ++ [st])) n i = ok c) :
    c.dropLast.sum % 2 = 0 ↔ i < nsites (s0 :: (S ++ [st])) / 2 := by
  obtain ⟨h, rfl⟩ : ∃ h, s0 = 2 * h := ⟨s0 / 2, by omega⟩
  have hS0 := hS (2 * h) (by simp)
  have hS' : ∀ s ∈ S ++ [st], 0 < s := fun s hs => hS s (by simp only [List.mem_cons]; exact Or.inr hs)
  have hst : 0 < st := hS' st (by simp)
  have hh : 0 < h := by omega
  obtain ⟨l0, L, rfl⟩ : ∃ a b, L = a :: b := by
    cases L with
    | nil => have := (cut_lengths hcut).2; simp at this
    | cons a b => exact ⟨a, b, rfl⟩
  obtain ⟨p0, P, hP⟩ : ∃ a b, m.size = a :: b := by
    cases hms : m.size with
    | nil => have := (cut_lengths hcut).1; simp [hms] at this
    | cons a b => exact ⟨a, b, rfl⟩
  have hcf := (hm.1 n hn).1
  rw [hP] at hcut hcf
  obtain ⟨hl0, hcut'⟩ := hcut
  have hV : nsites (2 * h :: (S ++ [st])) = 2 * (h * nsites (S ++ [st])) := by simp [nsites, Nat.mul_assoc]
  rw [hV] at hi ⊢
  match hcf' : m.coordFrom n, hcf with
  | a :: p, hcf =>
    rw [siteCoordsCB3D_eq hcut' hl0 hh hS' hv hcf' hcf.1 hcf.2 hi] at hc
    injection hc with hc
    subst hc
    have hA := dig3_A (h := h) (mid := S) hst _ (Nat.mod_lt i (Nat.mul_pos hh (nsites_pos hS')))
    have hcol := cb_colour (f := gsum3 p (S ++ [st])) (dig := dig3 h S st) hi
    have hdiv : 2 * (h * nsites (S ++ [st])) / 2 = h * nsites (S ++ [st]) := by omega
    rw [hdiv, ← hcol]
    have hne : addL (mulL p (S ++ [st])) (dig3 h S st (i % (h * nsites (S ++ [st])))).2 ≠ [] := by
      intro he
      have := congrArg List.length he
      simp [addL, mulL, hcf.2.length_eq, (cut_lengths hcut').1, hA.2.1.length_eq] at this
    simp only [addL, mulL] at hne
    simp only [cbCoords, addL, mulL, List.zipWith_cons_cons]
    rw [List.dropLast_cons_of_ne_nil hne]
    simp only [List.sum_cons, gsum3, addL, mulL]
    have : a * (2 * h) = 2 * (a * h) := by rw [Nat.mul_left_comm]
    omega

/-! ### a concrete machine meeting the hypotheses -/

/-- a machine that numbers its nodes lexicographically -/
def lexMachine (P : List Nat) : Machine :=
  { size := P, nodeFrom := fun c => rank c P, coordFrom := fun n => digits n P }

theorem lexMachine_good (P : List Nat) : (lexMachine P).Good :=
  ⟨fun _ hn => ⟨digits_inRange hn, rank_digits hn⟩, fun _ hp => ⟨rank_lt hp, digits_rank hp⟩⟩

example : (lexMachine [2, 1, 3, 1]).Good ∧ Cut [8, 3, 6, 5] (lexMachine [2, 1, 3, 1]).size [4, 3, 2, 5] ∧
    nsites [8, 3, 6, 5] < 2 ^ 31 := ⟨lexMachine_good _, by simp [Cut, lexMachine], by decide⟩
example : siteCoordsCB2 (lexMachine [2, 1, 3, 1]) [4, 3, 2, 5] 5 77 = ok [6, 2, 4, 1] ∧
    nodeNumber (lexMachine [2, 1, 3, 1]) [4, 3, 2, 5] [6, 2, 4, 1] = ok 5 ∧
    linearSiteIndexCB2 [4, 3, 2, 5] [6, 2, 4, 1] = ok 77 := by decide
/-- the even-block condition is needed: an odd block extent breaks the two-colour ordering. -/
theorem C02_cb2_odd_block_fails : ¬ (geomCB2 [6, 2] (lexMachine [2, 1]) [3, 2]).Good := by
  intro h
  obtain ⟨c, h1, _, _, h4⟩ := h.2 0 2 (by decide) (by decide)
  have e : siteCoordsCB2 (lexMachine [2, 1]) [3, 2] 0 2 = ok [0, 0] := by decide
  simp only [geomCB2] at h1 h4
  rw [e] at h1
  injection h1 with h1
  subst h1
  have e2 : linearSiteIndexCB2 [3, 2] [0, 0] = ok 0 := by decide
  rw [e2] at h4
  exact absurd h4 (by decide)

end Verif.ParLayout
