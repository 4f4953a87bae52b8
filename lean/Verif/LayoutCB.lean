import Verif.Layout
/- Helper lemmas: closed forms of the checkerboarded orderings of `Verif.Layout`. -/
namespace Verif.Layout
open Verif Outcome

/-- `index`/`coords` are mutually inverse on a lattice of extents `L`, never stop, never hit UB. -/
def MutuallyInverse (L : List Nat) (coords : Nat → Outcome (List Nat)) (index : List Nat → Outcome Nat) : Prop :=
  (∀ i, i < nsites L → ∃ c, coords i = ok c ∧ InRange c L ∧ index c = ok i) ∧
  (∀ c, InRange c L → ∃ i, index c = ok i ∧ i < nsites L ∧ coords i = ok c)

/-- one pair of a coarse coordinate and colour bit -/
def cbCoords (f : List Nat → Nat) (V : Nat) (dig : Nat → Nat × List Nat) (i : Nat) : List Nat :=
  (2 * (dig (i % V)).1 + (i / V + f (dig (i % V)).2) % 2) :: (dig (i % V)).2

def cbIndex (f : List Nat → Nat) (V : Nat) (rk : Nat → List Nat → Nat) (c0 : Nat) (cs : List Nat) : Nat :=
  rk (c0 / 2) cs + ((c0 + f cs) % 2) * V

section
variable {f : List Nat → Nat} {V : Nat} {dig : Nat → Nat × List Nat} {rk : Nat → List Nat → Nat}
  {h : Nat} {R : List Nat → Prop}

theorem div_lt_two {i V : Nat} (hi : i < 2 * V) : i / V < 2 := by
  apply Nat.div_lt_of_lt_mul; omega

theorem cbIndex_cbCoords (hA : ∀ p, p < V → (dig p).1 < h ∧ R (dig p).2 ∧ rk (dig p).1 (dig p).2 = p)
    {i : Nat} (hi : i < 2 * V) :
    cbIndex f V rk (2 * (dig (i % V)).1 + (i / V + f (dig (i % V)).2) % 2) (dig (i % V)).2 = i := by
  have hV : 0 < V := by omega
  have hm : i % V < V := Nat.mod_lt _ hV
  have h1 := (hA _ hm).2.2
  have h2 : i / V < 2 := div_lt_two hi
  unfold cbIndex
  have e1 : (2 * (dig (i % V)).1 + (i / V + f (dig (i % V)).2) % 2) / 2 = (dig (i % V)).1 := by omega
  have e2 : (2 * (dig (i % V)).1 + (i / V + f (dig (i % V)).2) % 2 + f (dig (i % V)).2) % 2 = i / V := by
    generalize i / V = d at *
    omega
  rw [e1, e2, h1, Nat.mul_comm]
  exact Nat.mod_add_div i V

theorem cbCoords_cbIndex (hB : ∀ x r, x < h → R r → rk x r < V ∧ dig (rk x r) = (x, r))
    {c0 : Nat} {cs : List Nat} (h0 : c0 < 2 * h) (hr : R cs) :
    cbIndex f V rk c0 cs < 2 * V ∧ cbCoords f V dig (cbIndex f V rk c0 cs) = c0 :: cs := by
  have hb := hB (c0 / 2) cs (by omega) hr
  have hlt := hb.1
  have hp : (c0 + f cs) % 2 < 2 := Nat.mod_lt _ (by omega)
  have hle : (c0 + f cs) % 2 * V ≤ 1 * V := Nat.mul_le_mul_right _ (by omega)
  have hdiv : cbIndex f V rk c0 cs / V = (c0 + f cs) % 2 := by
    unfold cbIndex
    rw [Nat.add_mul_div_right _ _ (by omega), Nat.div_eq_of_lt hlt, Nat.zero_add]
  have hmod : cbIndex f V rk c0 cs % V = rk (c0 / 2) cs := by
    unfold cbIndex
    rw [Nat.add_mul_mod_self_right, Nat.mod_eq_of_lt hlt]
  constructor
  · unfold cbIndex; omega
  · unfold cbCoords
    rw [hdiv, hmod, hb.2]
    simp only [List.cons.injEq, and_true]
    omega

theorem cb_colour {i : Nat} (hi : i < 2 * V) :
    ((2 * (dig (i % V)).1 + (i / V + f (dig (i % V)).2) % 2) + f (dig (i % V)).2) % 2 = 0 ↔ i < V := by
  have h2 : i / V < 2 := div_lt_two hi
  have h3 : i / V = 0 ↔ i < V := by
    constructor
    · intro h; have := (Nat.div_eq_zero_iff).1 h; omega
    · intro h; exact Nat.div_eq_of_lt h
  rw [← h3]
  generalize i / V = d at *
  omega

end

theorem and_one (n : Nat) : n &&& 1 = n % 2 := by simp

/-! ### 2-checkerboard -/

def dig2 (h : Nat) (ls : List Nat) (p : Nat) : Nat × List Nat := (p % h, digits (p / h) ls)
def rk2 (h : Nat) (ls : List Nat) (x : Nat) (r : List Nat) : Nat := rank (x :: r) (h :: ls)

theorem dig2_A {h : Nat} {ls : List Nat} (p : Nat) (hp : p < h * nsites ls) :
    (dig2 h ls p).1 < h ∧ InRange (dig2 h ls p).2 ls ∧ rk2 h ls (dig2 h ls p).1 (dig2 h ls p).2 = p := by
  have h1 := digits_inRange (L := h :: ls) (p := p) (by simpa [nsites] using hp)
  have h2 := rank_digits (L := h :: ls) (p := p) (by simpa [nsites] using hp)
  simp only [digits, InRange] at h1 h2
  exact ⟨h1.1, h1.2, h2⟩

theorem dig2_B {h : Nat} {ls : List Nat} (x : Nat) (r : List Nat) (hx : x < h) (hr : InRange r ls) :
    rk2 h ls x r < h * nsites ls ∧ dig2 h ls (rk2 h ls x r) = (x, r) := by
  have h1 := rank_lt (c := x :: r) (L := h :: ls) ⟨hx, hr⟩
  have h2 := digits_rank (c := x :: r) (L := h :: ls) ⟨hx, hr⟩
  simp only [digits, List.cons.injEq] at h2
  refine ⟨by simpa [nsites, rk2] using h1, ?_⟩
  unfold dig2 rk2
  rw [h2.1, h2.2]

section
variable {h : Nat} {ls : List Nat} (hp : 0 < h) (hls : ∀ l ∈ ls, 0 < l) (hv : 2 * h * nsites ls < 2 ^ 31)
include hp hls hv

theorem vol_cb : volume (2 * h :: ls) = ok (2 * (h * nsites ls)) := by
  rw [volume_eq (by simp; exact ⟨hp, hls⟩) (by simpa [nsites] using hv)]
  simp [nsites, Nat.mul_assoc]

theorem siteCoordsCB2_eq {i : Nat} (hi : i < 2 * (h * nsites ls)) :
    siteCoordsCB2 (2 * h :: ls) i = ok (cbCoords List.sum (h * nsites ls) (dig2 h ls) i) := by
  have hV : 0 < h * nsites ls := Nat.mul_pos hp (nsites_pos hls)
  have hm : i % (h * nsites ls) < h * nsites ls := Nat.mod_lt _ hV
  have hr := (dig2_A _ hm).2.1
  have hs := sum_lt_nsites hr
  have h2 := div_lt_two hi
  unfold siteCoordsCB2
  have e : (2 * (h * nsites ls)) >>> 1 = h * nsites ls := by rw [Nat.shiftRight_eq_div_pow]; omega
  have e' : (2 * h) >>> 1 = h := by rw [Nat.shiftRight_eq_div_pow]; omega
  simp only [vol_cb hp hls hv, ok_bind, e, halveFirst, e', cdiv_pos hV, cmod_pos hV,
    crtesn_eq (L := h :: ls) (by simp; exact ⟨hp, hls⟩), digits]
  have hb : i / (h * nsites ls) + (digits (i % (h * nsites ls) / h) ls).sum < 2 ^ 31 := by
    have : (digits (i % (h * nsites ls) / h) ls).sum < nsites ls := hs
    have h3 : 1 * nsites ls ≤ h * nsites ls := Nat.mul_le_mul_right _ hp
    rw [Nat.mul_assoc] at hv
    omega
  rw [ckInt_of_lt hb]
  simp [cbCoords, dig2]

theorem linearSiteIndexCB2_eq {c0 : Nat} {cs : List Nat} (h0 : c0 < 2 * h) (hr : InRange cs ls) :
    linearSiteIndexCB2 (2 * h :: ls) (c0 :: cs) = ok (cbIndex List.sum (h * nsites ls) (rk2 h ls) c0 cs) := by
  have hc : InRange (c0 :: cs) (2 * h :: ls) := ⟨h0, hr⟩
  have hs := sum_lt_nsites hc
  have hx : c0 / 2 < h := by omega
  have hlt := (cbCoords_cbIndex (f := List.sum) (dig := dig2 h ls) (R := fun r => InRange r ls) dig2_B h0 hr).1
  simp only [nsites] at hs
  rw [Nat.mul_assoc] at hs hv
  unfold linearSiteIndexCB2
  have e : (2 * (h * nsites ls)) >>> 1 = h * nsites ls := by rw [Nat.shiftRight_eq_div_pow]; omega
  have e' : (2 * h) >>> 1 = h := by rw [Nat.shiftRight_eq_div_pow]; omega
  have e'' : c0 >>> 1 = c0 / 2 := by rw [Nat.shiftRight_eq_div_pow]
  have hls' : localSite (c0 / 2 :: cs) (h :: ls) = ok (rank (c0 / 2 :: cs) (h :: ls)) :=
    localSite_eq ⟨hx, hr⟩ (by simp) (by simp only [nsites]; omega)
  simp only [vol_cb hp hls (by rw [Nat.mul_assoc]; exact hv), ok_bind, e, halveFirst, e', e'', hls',
    ckInt_of_lt (show (c0 :: cs).sum < 2 ^ 31 by omega), and_one]
  unfold cbIndex at hlt ⊢
  simp only [List.sum_cons, rk2] at hlt ⊢
  rw [ckInt_of_lt (by omega)]

end

/-! ### 3D checkerboard: extents `2h :: mid ++ [t]` -/

def dig3 (h : Nat) (mid : List Nat) (t : Nat) (p : Nat) : Nat × List Nat :=
  ((p / t) % h, digits (p / t / h) mid ++ [p % t])

/-- spatial remainder of a coordinate, time component last -/
def rk3 (h : Nat) (mid : List Nat) (t : Nat) (x : Nat) (r : List Nat) : Nat :=
  r.getLast?.getD 0 + t * rank (x :: r.dropLast) (h :: mid)

theorem inRange_snoc {r mid : List Nat} {t : Nat} (h : InRange r (mid ++ [t])) :
    ∃ a z, r = a ++ [z] ∧ InRange a mid ∧ z < t := by
  have hl := h.length_eq
  have hne : r ≠ [] := by intro e; subst e; simp at hl
  refine ⟨r.dropLast, r.getLast hne, (List.dropLast_concat_getLast hne).symm, ?_⟩
  rw [← List.dropLast_concat_getLast hne] at h
  exact inRange_append.1 h

theorem dig3_A {h : Nat} {mid : List Nat} {t : Nat} (ht : 0 < t) (p : Nat) (hp : p < h * nsites (mid ++ [t])) :
    (dig3 h mid t p).1 < h ∧ InRange (dig3 h mid t p).2 (mid ++ [t]) ∧
      rk3 h mid t (dig3 h mid t p).1 (dig3 h mid t p).2 = p := by
  rw [nsites_append, ← Nat.mul_assoc] at hp
  have hq : p / t < nsites (h :: mid) := by
    simp only [nsites]; exact (Nat.div_lt_iff_lt_mul ht).2 hp
  have h1 := digits_inRange hq
  have h2 := rank_digits hq
  simp only [digits, InRange] at h1 h2
  refine ⟨h1.1, inRange_append.2 ⟨h1.2, Nat.mod_lt _ ht⟩, ?_⟩
  simp only [rk3, dig3, List.getLast?_append, List.getLast?_singleton, Option.some_or, Option.getD_some,
    List.dropLast_concat, h2]
  exact Nat.mod_add_div p t

theorem dig3_B {h : Nat} {mid : List Nat} {t : Nat} (x : Nat) (r : List Nat) (hx : x < h)
    (hr : InRange r (mid ++ [t])) :
    rk3 h mid t x r < h * nsites (mid ++ [t]) ∧ dig3 h mid t (rk3 h mid t x r) = (x, r) := by
  obtain ⟨a, z, rfl, ha, hz⟩ := inRange_snoc hr
  have h1 := rank_lt (c := x :: a) (L := h :: mid) ⟨hx, ha⟩
  have h2 := digits_rank (c := x :: a) (L := h :: mid) ⟨hx, ha⟩
  simp only [digits, List.cons.injEq] at h2
  have e : rk3 h mid t x (a ++ [z]) = z + t * rank (x :: a) (h :: mid) := by
    simp [rk3]
  rw [e]
  constructor
  · rw [nsites_append, ← Nat.mul_assoc]
    simp only [nsites] at h1
    have : t * (rank (x :: a) (h :: mid) + 1) ≤ t * (h * nsites mid) := Nat.mul_le_mul_left _ h1
    rw [Nat.mul_add, Nat.mul_comm t (h * nsites mid)] at this
    omega
  · unfold dig3
    have ht : 0 < t := by omega
    rw [Nat.add_mul_div_left _ _ ht, Nat.div_eq_of_lt hz, Nat.zero_add, Nat.add_mul_mod_self_left,
      Nat.mod_eq_of_lt hz, h2.1, h2.2]

/-- parity function of the 3D checkerboard: all but the last of the remaining coordinates -/
def spatialSum (r : List Nat) : Nat := r.dropLast.sum

section
variable {h : Nat} {mid : List Nat} {t : Nat} (hp : 0 < h) (hls : ∀ l ∈ mid, 0 < l) (ht : 0 < t)
  (hv : 2 * h * nsites (mid ++ [t]) < 2 ^ 31)
include hp hls ht hv

theorem siteCoordsCB3D_eq {i : Nat} (hi : i < 2 * (h * nsites (mid ++ [t]))) :
    siteCoordsCB3D (2 * h :: (mid ++ [t])) i
      = ok (cbCoords spatialSum (h * nsites (mid ++ [t])) (dig3 h mid t) i) := by
  have hls' : ∀ l ∈ mid ++ [t], 0 < l := by
    intro l hl; simp only [List.mem_append, List.mem_singleton] at hl
    rcases hl with hl | rfl
    · exact hls l hl
    · exact ht
  have hV : 0 < h * nsites (mid ++ [t]) := Nat.mul_pos hp (nsites_pos hls')
  have hm : i % (h * nsites (mid ++ [t])) < h * nsites (mid ++ [t]) := Nat.mod_lt _ hV
  have hr := (dig3_A ht _ hm).2.1
  have hr' := inRange_append.1 hr
  have hs := sum_lt_nsites hr'.1
  have h2 := div_lt_two hi
  unfold siteCoordsCB3D
  have e : (2 * (h * nsites (mid ++ [t]))) / 2 = h * nsites (mid ++ [t]) := by omega
  have e' : (2 * h) / 2 = h := by omega
  have hcr : crtesn3d (i % (h * nsites (mid ++ [t]))) (h :: (mid ++ [t])) =
      ok (digits (i % (h * nsites (mid ++ [t])) / t) (h :: mid) ++ [i % (h * nsites (mid ++ [t])) % t]) := by
    rw [← List.cons_append]
    exact crtesn3d_eq (by simp; exact ⟨hp, hls⟩) ht _
  have hb : i / (h * nsites (mid ++ [t])) + (digits (i % (h * nsites (mid ++ [t])) / t / h) mid).sum < 2 ^ 31 := by
    have h3 : 1 * nsites mid ≤ h * nsites mid := Nat.mul_le_mul_right _ hp
    have h4 : h * nsites mid * 1 ≤ h * nsites mid * t := Nat.mul_le_mul_left _ ht
    have h5 : 2 * h * nsites (mid ++ [t]) = 2 * (h * nsites mid * t) := by
      rw [nsites_append, Nat.mul_assoc, Nat.mul_assoc]
    have hs' : (digits (i % (h * nsites (mid ++ [t])) / t / h) mid).sum < nsites mid := hs
    generalize i / (h * nsites (mid ++ [t])) = d at *
    omega
  simp only [vol_cb hp hls' hv, ok_bind, e, e', cdiv_pos hV, cmod_pos hV, hcr, digits, List.cons_append,
    List.dropLast_concat]
  rw [ckInt_of_lt hb]
  simp [cbCoords, dig3, spatialSum]

theorem linearSiteIndexCB3D_eq {c0 : Nat} {cs : List Nat} (h0 : c0 < 2 * h) (hr : InRange cs (mid ++ [t])) :
    linearSiteIndexCB3D (2 * h :: (mid ++ [t])) (c0 :: cs)
      = ok (cbIndex spatialSum (h * nsites (mid ++ [t])) (rk3 h mid t) c0 cs) := by
  have hls' : ∀ l ∈ mid ++ [t], 0 < l := by
    intro l hl; simp only [List.mem_append, List.mem_singleton] at hl
    rcases hl with hl | rfl
    · exact hls l hl
    · exact ht
  have hlt := (cbCoords_cbIndex (f := spatialSum) (dig := dig3 h mid t)
    (R := fun r => InRange r (mid ++ [t])) dig3_B h0 hr).1
  obtain ⟨a, z, rfl, ha, hz⟩ := inRange_snoc hr
  have hc : InRange (c0 :: a) (2 * h :: mid) := ⟨h0, ha⟩
  have hs := sum_lt_nsites hc
  have hx : c0 / 2 < h := by omega
  have hvol : h * nsites (mid ++ [t]) = nsites (h :: mid ++ [t]) := by simp [nsites]
  have hv' : nsites (h :: mid ++ [t]) < 2 ^ 31 := by rw [← hvol]; rw [Nat.mul_assoc] at hv; omega
  unfold linearSiteIndexCB3D
  have e : (2 * (h * nsites (mid ++ [t]))) / 2 = h * nsites (mid ++ [t]) := by omega
  have e' : (2 * h) / 2 = h := by omega
  have hl3 : localSite3d (c0 / 2 :: (a ++ [z])) (h :: (mid ++ [t])) = ok (z + t * rank (c0 / 2 :: a) (h :: mid)) := by
    have := localSite3d_eq (c := c0 / 2 :: a) (L := h :: mid) (t := z) (l := t)
      (inRange_append.2 ⟨⟨hx, ha⟩, hz⟩) hv'
    simpa using this
  have hd : (c0 :: (a ++ [z])).dropLast = c0 :: a := by
    rw [← List.cons_append, List.dropLast_concat]
  have hsum : (c0 :: a).sum < 2 ^ 31 := by
    have h4 : nsites (2 * h :: mid) * 1 ≤ nsites (2 * h :: mid) * t := Nat.mul_le_mul_left _ ht
    have : 2 * h * nsites (mid ++ [t]) = nsites (2 * h :: mid) * t := by
      simp [nsites_append, nsites, Nat.mul_assoc]
    omega
  simp only [vol_cb hp hls' hv, ok_bind, e, e', hd, ckInt_of_lt hsum, hl3, and_one]
  unfold cbIndex at hlt ⊢
  simp only [List.sum_cons, rk3, spatialSum, List.getLast?_append, List.getLast?_singleton, Option.some_or,
    Option.getD_some, List.dropLast_concat] at hlt ⊢
  rw [ckInt_of_lt]
  rw [Nat.mul_assoc] at hv
  omega

end

end Verif.Layout
