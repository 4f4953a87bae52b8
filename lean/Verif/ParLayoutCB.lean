import Verif.ParLayout
/- Helper lemmas: closed forms of the checkerboarded multi-node orderings. -/
namespace Verif.ParLayout
open Verif Outcome Verif.Layout

/-- parity contribution of the coordinates other than the first, block origin included -/
def gsum (p S : List Nat) (r : List Nat) : Nat := (addL (mulL p S) r).sum

theorem inRange_pos_of_mem {p P : List Nat} (h : InRange p P) : 0 < nsites P := nsites_pos h.pos

theorem cut_pos_bound {L P S : List Nat} (hc : Cut L P S) (hL : nsites L < 2 ^ 31) (hP : 0 < nsites P) :
    nsites S < 2 ^ 31 := by
  rw [cut_nsites hc] at hL
  have : 1 * nsites S ≤ nsites P * nsites S := Nat.mul_le_mul_right _ hP
  omega

theorem halfmod (a h y : Nat) (hy : y < 2 * h) : (a * (2 * h) + y) / 2 % h = y / 2 := by
  have e : a * (2 * h) = 2 * (h * a) := by rw [Nat.mul_left_comm, Nat.mul_comm a h]
  rw [e]
  have : (2 * (h * a) + y) / 2 = y / 2 + h * a := by omega
  rw [this, Nat.add_mul_mod_self_left, Nat.mod_eq_of_lt (by omega)]

section
variable {l0 p0 h : Nat} {L P S : List Nat} {m : Machine}

theorem linearSiteIndexCB2_eq (hcut : Cut L P S) (hl0 : l0 = p0 * (2 * h))
    (hv : nsites (l0 :: L) < 2 ^ 31) {a : Nat} {p : List Nat} {y : Nat} {r : List Nat}
    (ha : a < p0) (hp : InRange p P) (hy : y < 2 * h) (hr : InRange r S) :
    linearSiteIndexCB2 (2 * h :: S) (addL (mulL (a :: p) (2 * h :: S)) (y :: r))
      = ok (cbIndex (gsum p S) (h * nsites S) (rk2 h S) y r) := by
  have hcut' : Cut (l0 :: L) (p0 :: P) (2 * h :: S) := ⟨hl0, hcut⟩
  have hlen := (cut_lengths hcut).1
  have hpos : 0 < nsites (p0 :: P) := inRange_pos_of_mem (p := a :: p) ⟨ha, hp⟩
  have hvS := cut_pos_bound hcut' hv hpos
  have hh : 0 < h := by omega
  have hS := hr.pos
  have hx : y / 2 < h := by omega
  have hglob := inRange_block hcut' (p := a :: p) ⟨ha, hp⟩ (r := y :: r) ⟨hy, hr⟩
  have hsum := sum_lt_nsites hglob
  have hlt := (cbCoords_cbIndex (f := gsum p S) (dig := dig2 h S) (R := fun r => InRange r S) dig2_B hy hr).1
  simp only [nsites, Nat.mul_assoc] at hvS
  have e : (2 * (h * nsites S)) >>> 1 = h * nsites S := by rw [Nat.shiftRight_eq_div_pow]; omega
  have e' : (2 * h) >>> 1 = h := by rw [Nat.shiftRight_eq_div_pow]; omega
  unfold linearSiteIndexCB2
  rw [vol_cb hh hS (by rw [Nat.mul_assoc]; exact hvS)]
  simp only [ok_bind, addL, mulL, List.zipWith_cons_cons, e, e'] at hsum ⊢
  rw [ckInt_of_lt (by omega)]
  have e2 : (a * (2 * h) + y) >>> 1 = (a * (2 * h) + y) / 2 := by rw [Nat.shiftRight_eq_div_pow]
  have hmod := zipMod_block (p := p) (s := S) (r := r) (by rw [hp.length_eq, hlen]) hr
  simp only [addL, mulL] at hmod
  simp only [ok_bind, e2, cmod_pos hh, halfmod _ _ _ hy, hmod]
  rw [localSite_eq (c := y / 2 :: r) (L := h :: S) ⟨hx, hr⟩ (by simp) (by simp only [nsites]; omega)]
  simp only [ok_bind, and_one, List.sum_cons]
  have hpar : (a * (2 * h) + y + (List.zipWith (· + ·) (List.zipWith (· * ·) p S) r).sum) % 2
      = (y + gsum p S r) % 2 := by
    unfold gsum addL mulL
    have : a * (2 * h) = 2 * (a * h) := by rw [Nat.mul_left_comm]
    omega
  rw [hpar]
  unfold cbIndex rk2 at hlt ⊢
  rw [ckInt_of_lt (by omega)]

theorem siteCoordsCB2_eq (hcut : Cut L P S) (hl0 : l0 = p0 * (2 * h)) (hh : 0 < h) (hS : ∀ s ∈ S, 0 < s)
    (hv : nsites (l0 :: L) < 2 ^ 31) {n i a : Nat} {p : List Nat} (hco : m.coordFrom n = a :: p)
    (ha : a < p0) (hp : InRange p P) (hi : i < 2 * (h * nsites S)) :
    siteCoordsCB2 m (2 * h :: S) n i
      = ok (addL (mulL (a :: p) (2 * h :: S)) (cbCoords (gsum p S) (h * nsites S) (dig2 h S) i)) := by
  have hcut' : Cut (l0 :: L) (p0 :: P) (2 * h :: S) := ⟨hl0, hcut⟩
  have hlen := (cut_lengths hcut).1
  have hpos : 0 < nsites (p0 :: P) := inRange_pos_of_mem (p := a :: p) ⟨ha, hp⟩
  have hvS := cut_pos_bound hcut' hv hpos
  simp only [nsites, Nat.mul_assoc] at hvS
  have hV : 0 < h * nsites S := Nat.mul_pos hh (nsites_pos hS)
  have hA := dig2_A (h := h) (ls := S) _ (Nat.mod_lt i hV)
  have hglob := inRange_block hcut hp hA.2.1
  have hsum := sum_lt_nsites hglob
  have h2 := div_lt_two hi
  have hl0pos : 1 ≤ l0 := by
    rw [hl0]; exact Nat.mul_pos (by omega) (by omega)
  have hl0two : 2 ≤ l0 := by
    rw [hl0]
    have : 1 * (2 * h) ≤ p0 * (2 * h) := Nat.mul_le_mul_right _ (by omega)
    omega
  have hbig : 2 * nsites L ≤ nsites (l0 :: L) := Nat.mul_le_mul_right _ hl0two
  have e : (2 * (h * nsites S)) >>> 1 = h * nsites S := by rw [Nat.shiftRight_eq_div_pow]; omega
  have e' : (2 * h) >>> 1 = h := by rw [Nat.shiftRight_eq_div_pow]; omega
  unfold siteCoordsCB2
  rw [vol_cb hh hS (by rw [Nat.mul_assoc]; exact hvS), hco, zipMul_eq (by simp [hp.length_eq, hlen])]
  have hlen2 : (mulL p S).length = (digits (i % (h * nsites S) / h) S).length := by
    have := hA.2.1.length_eq
    simp only [dig2] at this
    simp [mulL, this, hp.length_eq, hlen]
  simp only [ok_bind, halveFirst, e, e', cdiv_pos hV, cmod_pos hV,
    crtesn_eq (L := h :: S) (by simp; exact ⟨hh, hS⟩), digits, mulL, List.zipWith_cons_cons]
  have hz := zipAdd_eq hlen2
  simp only [mulL] at hz
  rw [hz]
  simp only [ok_bind]
  have hb : i / (h * nsites S) + (addL (List.zipWith (· * ·) p S) (digits (i % (h * nsites S) / h) S)).sum < 2 ^ 31 := by
    have : (addL (List.zipWith (· * ·) p S) (digits (i % (h * nsites S) / h) S)).sum < nsites L := hsum
    generalize i / (h * nsites S) = d at *
    omega
  rw [ckInt_of_lt hb]
  simp [cbCoords, dig2, gsum, addL, mulL, Nat.add_assoc]

end

/-! ### 3D checkerboard -/

/-- parity contribution of the middle coordinates -/
def gsum3 (p S : List Nat) (r : List Nat) : Nat := (addL (mulL p S) r).dropLast.sum

section
variable {l0 p0 h : Nat} {L P S : List Nat} {lt pt st : Nat} {m : Machine}

theorem addL_mulL_snoc {p S r : List Nat} {x s z : Nat} (h1 : p.length = S.length) (h2 : r.length = S.length) :
    addL (mulL (p ++ [x]) (S ++ [s])) (r ++ [z]) = addL (mulL p S) r ++ [x * s + z] := by
  simp only [addL, mulL]
  rw [List.zipWith_append h1, List.zipWith_append (by simp [h1, h2])]
  rfl

theorem cut_snoc {L P S : List Nat} {a b c : Nat} : Cut (L ++ [a]) (P ++ [b]) (S ++ [c]) → L.length = P.length →
    P.length = S.length → Cut L P S ∧ a = b * c := by
  induction L generalizing P S with
  | nil =>
    intro h h1 h2
    have e1 : P = [] := List.length_eq_zero_iff.1 (by simpa using h1.symm)
    subst e1
    have e2 : S = [] := List.length_eq_zero_iff.1 (by simpa using h2.symm)
    subst e2
    simpa [Cut] using h
  | cons l L ih =>
    intro h h1 h2
    obtain ⟨q, P, rfl⟩ : ∃ q P', P = q :: P' := by
      cases P with
      | nil => simp at h1
      | cons a b => exact ⟨a, b, rfl⟩
    obtain ⟨s, S, rfl⟩ : ∃ q S', S = q :: S' := by
      cases S with
      | nil => simp at h2
      | cons a b => exact ⟨a, b, rfl⟩
    simp only [List.cons_append, Cut] at h ⊢
    have := ih h.2 (by simpa using h1) (by simpa using h2)
    exact ⟨⟨h.1, this.1⟩, this.2⟩

theorem dropLast_bound {c L : List Nat} (h : InRange c L) : c.dropLast.sum < nsites L := by
  rcases List.eq_nil_or_concat c with rfl | ⟨c', z, rfl⟩
  · have : 0 < nsites L := nsites_pos h.pos
    simpa using this
  · have := sum_lt_nsites h
    simp only [List.concat_eq_append, List.sum_append] at this
    simp only [List.concat_eq_append, List.dropLast_concat]
    omega

theorem linearSiteIndexCB3D_eq (hcut : Cut L P (S ++ [st])) (hl0 : l0 = p0 * (2 * h))
    (hv : nsites (l0 :: L) < 2 ^ 31) {a : Nat} {p : List Nat} {y : Nat} {r : List Nat}
    (ha : a < p0) (hp : InRange p P) (hy : y < 2 * h) (hr : InRange r (S ++ [st])) :
    linearSiteIndexCB3D (2 * h :: (S ++ [st])) (addL (mulL (a :: p) (2 * h :: (S ++ [st]))) (y :: r))
      = ok (cbIndex (gsum3 p (S ++ [st])) (h * nsites (S ++ [st])) (rk3 h S st) y r) := by
  have hcut' : Cut (l0 :: L) (p0 :: P) (2 * h :: (S ++ [st])) := ⟨hl0, hcut⟩
  have hlen := (cut_lengths hcut).1
  have hpos : 0 < nsites (p0 :: P) := inRange_pos_of_mem (p := a :: p) ⟨ha, hp⟩
  have hvS := cut_pos_bound hcut' hv hpos
  have hh : 0 < h := by omega
  have hS := hr.pos
  have hx : y / 2 < h := by omega
  have hglob := inRange_block hcut' (p := a :: p) ⟨ha, hp⟩ (r := y :: r) ⟨hy, hr⟩
  have hsum := dropLast_bound hglob
  have hlt := (cbCoords_cbIndex (f := gsum3 p (S ++ [st])) (dig := dig3 h S st)
    (R := fun r => InRange r (S ++ [st])) dig3_B hy hr).1
  simp only [nsites, Nat.mul_assoc] at hvS
  have e : (2 * (h * nsites (S ++ [st]))) / 2 = h * nsites (S ++ [st]) := by omega
  have e' : (2 * h) / 2 = h := by omega
  have hne : addL (mulL p (S ++ [st])) r ≠ [] := by
    intro he
    have := congrArg List.length he
    simp [addL, mulL, hp.length_eq, hlen, hr.length_eq] at this
  unfold linearSiteIndexCB3D
  rw [vol_cb hh hS (by rw [Nat.mul_assoc]; exact hvS)]
  simp only [ok_bind, addL, mulL, List.zipWith_cons_cons, e, e'] at hsum ⊢
  rw [ckInt_of_lt (by omega)]
  have hmod := zipMod_block (p := p) (s := S ++ [st]) (r := r) (by rw [hp.length_eq, hlen]) hr
  simp only [addL, mulL] at hmod hne
  simp only [ok_bind, cmod_pos hh, halfmod _ _ _ hy, hmod]
  have hl3 : localSite3d (y / 2 :: r) (h :: (S ++ [st])) = ok (rk3 h S st (y / 2) r) := by
    obtain ⟨r', z, rfl, hr1, hr2⟩ := inRange_snoc hr
    have := localSite3d_eq (c := y / 2 :: r') (L := h :: S) (t := z) (l := st)
      (inRange_append.2 ⟨⟨hx, hr1⟩, hr2⟩) (by rw [List.cons_append]; simp only [nsites]; omega)
    simpa [rk3] using this
  rw [hl3, List.dropLast_cons_of_ne_nil hne]
  simp only [ok_bind, and_one, List.sum_cons]
  have hpar : (a * (2 * h) + y + (List.zipWith (· + ·) (List.zipWith (· * ·) p (S ++ [st])) r).dropLast.sum) % 2
      = (y + gsum3 p (S ++ [st]) r) % 2 := by
    unfold gsum3 addL mulL
    have : a * (2 * h) = 2 * (a * h) := by rw [Nat.mul_left_comm]
    omega
  rw [hpar]
  unfold cbIndex at hlt ⊢
  rw [ckInt_of_lt (by omega)]

theorem siteCoordsCB3D_eq (hcut : Cut L P (S ++ [st])) (hl0 : l0 = p0 * (2 * h)) (hh : 0 < h)
    (hS : ∀ s ∈ S ++ [st], 0 < s)
    (hv : nsites (l0 :: L) < 2 ^ 31) {n i a : Nat} {p : List Nat} (hco : m.coordFrom n = a :: p)
    (ha : a < p0) (hp : InRange p P) (hi : i < 2 * (h * nsites (S ++ [st]))) :
    siteCoordsCB3D m (2 * h :: (S ++ [st])) n i
      = ok (addL (mulL (a :: p) (2 * h :: (S ++ [st])))
          (cbCoords (gsum3 p (S ++ [st])) (h * nsites (S ++ [st])) (dig3 h S st) i)) := by
  have hcut' : Cut (l0 :: L) (p0 :: P) (2 * h :: (S ++ [st])) := ⟨hl0, hcut⟩
  have hlen := (cut_lengths hcut).1
  have hpos : 0 < nsites (p0 :: P) := inRange_pos_of_mem (p := a :: p) ⟨ha, hp⟩
  have hvS := cut_pos_bound hcut' hv hpos
  simp only [nsites, Nat.mul_assoc] at hvS
  have hst : 0 < st := hS st (by simp)
  have hS' : ∀ s ∈ S, 0 < s := fun s hs => hS s (by simp [hs])
  have hV : 0 < h * nsites (S ++ [st]) := Nat.mul_pos hh (nsites_pos hS)
  have hA := dig3_A (h := h) (mid := S) hst _ (Nat.mod_lt i hV)
  have hglob := inRange_block hcut hp hA.2.1
  have hsum := dropLast_bound hglob
  have h2 := div_lt_two hi
  have hl0two : 2 ≤ l0 := by
    rw [hl0]
    have : 1 * (2 * h) ≤ p0 * (2 * h) := Nat.mul_le_mul_right _ (by omega)
    omega
  have hbig : 2 * nsites L ≤ nsites (l0 :: L) := Nat.mul_le_mul_right _ hl0two
  have e : (2 * (h * nsites (S ++ [st]))) / 2 = h * nsites (S ++ [st]) := by omega
  have e' : (2 * h) / 2 = h := by omega
  unfold siteCoordsCB3D
  rw [vol_cb hh hS (by rw [Nat.mul_assoc]; exact hvS), hco, zipMul_eq (by simp [hp.length_eq, hlen])]
  have hcr : crtesn3d (i % (h * nsites (S ++ [st]))) (h :: (S ++ [st])) =
      ok ((dig3 h S st (i % (h * nsites (S ++ [st])))).1 :: (dig3 h S st (i % (h * nsites (S ++ [st])))).2) := by
    rw [← List.cons_append, crtesn3d_eq (by simp; exact ⟨hh, hS'⟩) hst]
    simp [digits, dig3]
  have hlen2 : (mulL p (S ++ [st])).length = (dig3 h S st (i % (h * nsites (S ++ [st])))).2.length := by
    have := hA.2.1.length_eq
    rw [this]
    simp [mulL, hp.length_eq, hlen]
  simp only [ok_bind, e, e', cdiv_pos hV, cmod_pos hV, hcr, mulL, List.zipWith_cons_cons]
  have hz := zipAdd_eq hlen2
  simp only [mulL] at hz
  rw [hz]
  simp only [ok_bind]
  have hb : i / (h * nsites (S ++ [st])) + (addL (List.zipWith (· * ·) p (S ++ [st]))
      (dig3 h S st (i % (h * nsites (S ++ [st])))).2).dropLast.sum < 2 ^ 31 := by
    have : (addL (List.zipWith (· * ·) p (S ++ [st])) (dig3 h S st (i % (h * nsites (S ++ [st])))).2).dropLast.sum
      < nsites L := hsum
    generalize i / (h * nsites (S ++ [st])) = d at *
    omega
  rw [ckInt_of_lt hb]
  simp [cbCoords, gsum3, addL, mulL, Nat.add_assoc]

end

end Verif.ParLayout
