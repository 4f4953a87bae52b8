import Verif.LayoutCB
/- Helper lemmas: closed form of the 32-checkerboard (2^(Nd+1) sublattices) ordering. -/
namespace Verif.Layout
open Verif Outcome

theorem xor_mod_two (a b : Nat) : (a ^^^ b) % 2 = (a + b) % 2 := by
  have h := @Nat.xor_mod_two_pow a b 1
  simp only [Nat.pow_one] at h
  rw [h]
  rcases Nat.mod_two_eq_zero_or_one a with ha | ha <;> rcases Nat.mod_two_eq_zero_or_one b with hb | hb <;>
    rw [ha, hb] <;> simp <;> omega

theorem even_xor_bit (q b : Nat) (hb : b < 2) : (2 * q) ^^^ b = 2 * q + b := by
  have h1 := @Nat.xor_div_two (2 * q) b
  have h2 := xor_mod_two (2 * q) b
  have e1 : 2 * q / 2 = q := by omega
  have e2 : b / 2 = 0 := by omega
  rw [e1, e2, Nat.xor_zero] at h1
  omega

theorem bit_extract (s m : Nat) : (s &&& (1 <<< m)) >>> m = (s >>> m) % 2 := by
  rw [Nat.shiftRight_and_distrib, Nat.shiftLeft_shiftRight, Nat.and_one_is_mod]

theorem bit_extract_pred (s n : Nat) (hn : 0 < n) : (s &&& (1 <<< n)) >>> (n - 1) = 2 * ((s >>> n) % 2) := by
  have h := bit_extract s n
  obtain ⟨k, rfl⟩ : ∃ k, n = k + 1 := ⟨n - 1, by omega⟩
  simp only [Nat.add_sub_cancel]
  have h2 : (s &&& 1 <<< (k + 1)) >>> (k + 1) = ((s &&& 1 <<< (k + 1)) >>> k) / 2 := by
    rw [Nat.shiftRight_succ]
  have h3 : ((s &&& 1 <<< (k + 1)) >>> k) % 2 = 0 := by
    rw [Nat.shiftRight_and_distrib]
    have : (1 <<< (k + 1)) >>> k = 2 := by
      rw [Nat.shiftLeft_eq, Nat.shiftRight_eq_div_pow, Nat.pow_succ]
      rw [Nat.one_mul, Nat.mul_div_cancel_left _ (Nat.pow_pos (by omega))]
    rw [this]
    have h4 := @Nat.and_mod_two_pow (s >>> k) 2 1
    simpa using h4
  omega

/-- low `m` bits are untouched by `s ^^^ (cb << n)` when `m < n` -/
theorem flip_low (s cb n m : Nat) (hm : m < n) : ((s ^^^ (cb <<< n)) >>> m) % 2 = (s >>> m) % 2 := by
  rw [Nat.shiftRight_xor_distrib, xor_mod_two]
  have : ((cb <<< n) >>> m) % 2 = 0 := by
    obtain ⟨d, rfl⟩ : ∃ d, n = m + (d + 1) := ⟨n - m - 1, by omega⟩
    rw [Nat.shiftLeft_eq, Nat.shiftRight_eq_div_pow, Nat.pow_add, ← Nat.mul_assoc, Nat.mul_right_comm,
      Nat.mul_div_cancel _ (Nat.pow_pos (by omega)), Nat.pow_succ, ← Nat.mul_assoc]
    omega
  omega

theorem flip_top (s cb n : Nat) : ((s ^^^ (cb <<< n)) >>> n) % 2 = (s / 2 ^ n + cb) % 2 := by
  rw [Nat.shiftRight_xor_distrib, xor_mod_two, Nat.shiftLeft_shiftRight, Nat.shiftRight_eq_div_pow]

/-- `2*q_m + (m-th bit of s)` -/
def addBits : Nat → List Nat → List Nat
  | _, [] => []
  | s, q :: qs => (2 * q + s % 2) :: addBits (s / 2) qs

theorem addBits_length (s : Nat) (q : List Nat) : (addBits s q).length = q.length := by
  induction q generalizing s with
  | nil => rfl
  | cons a b ih => simp [addBits, ih]

theorem xorBits_eq (s cb n : Nat) (q : List Nat) (m : Nat) (hm : m + q.length ≤ n) :
    xorBits (s ^^^ (cb <<< n)) m (q.map (· <<< 1)) = addBits (s >>> m) q := by
  induction q generalizing m with
  | nil => simp [xorBits, addBits]
  | cons a b ih =>
    simp only [List.length_cons] at hm
    simp only [List.map_cons, xorBits, addBits]
    rw [ih (m + 1) (by omega), bit_extract, flip_low _ _ _ _ (by omega), Nat.shiftLeft_eq, Nat.pow_one,
      Nat.mul_comm a 2, even_xor_bit _ _ (Nat.mod_lt _ (by omega)), Nat.shiftRight_succ]

theorem addBits_half (s : Nat) (q : List Nat) : (addBits s q).map (· >>> 1) = q := by
  induction q generalizing s with
  | nil => rfl
  | cons a b ih =>
    simp only [addBits, List.map_cons, ih, List.cons.injEq, and_true]
    rw [Nat.shiftRight_eq_div_pow]; omega

theorem sublOf_addBits (s : Nat) (q : List Nat) : sublOf (addBits s q) = s % 2 ^ q.length := by
  induction q generalizing s with
  | nil => simp [addBits, sublOf, Nat.mod_one]
  | cons a b ih =>
    simp only [addBits, sublOf, ih, List.length_cons, Nat.and_one_is_mod, Nat.shiftLeft_eq, Nat.pow_one]
    rw [Nat.pow_succ, Nat.mul_comm (2 ^ b.length) 2, Nat.mod_mul]
    omega

theorem sublOf_lt (c : List Nat) : sublOf c < 2 ^ c.length := by
  induction c with
  | nil => simp [sublOf]
  | cons a b ih =>
    simp only [sublOf, List.length_cons, Nat.and_one_is_mod, Nat.shiftLeft_eq, Nat.pow_succ]
    omega

theorem addBits_sublOf (c : List Nat) (k : Nat) :
    addBits (sublOf c + k * 2 ^ c.length) (c.map (· >>> 1)) = c := by
  induction c generalizing k with
  | nil => rfl
  | cons a b ih =>
    simp only [sublOf, List.map_cons, addBits, List.length_cons, Nat.and_one_is_mod, Nat.shiftLeft_eq, Nat.pow_one]
    have e : (sublOf b * 2 + a % 2 + k * 2 ^ (b.length + 1)) / 2 = sublOf b + k * 2 ^ b.length := by
      rw [Nat.pow_succ, ← Nat.mul_assoc]; omega
    have e2 : (sublOf b * 2 + a % 2 + k * 2 ^ (b.length + 1)) % 2 = a % 2 := by
      rw [Nat.pow_succ, ← Nat.mul_assoc]; omega
    rw [e, e2, ih, Nat.shiftRight_eq_div_pow]
    simp only [Nat.pow_one, List.cons.injEq, and_true]
    omega

theorem addBits_inRange (s : Nat) : ∀ {q ls : List Nat}, InRange q ls → InRange (addBits s q) (ls.map (2 * ·))
  | [], [], _ => by simp [addBits, InRange]
  | a :: b, l :: ls, h => by
      simp only [addBits, List.map_cons, InRange]
      exact ⟨by have := h.1; omega, addBits_inRange (s / 2) h.2⟩
  | [], _ :: _, h => by simp [InRange] at h
  | _ :: _, [], h => by simp [InRange] at h

theorem half_inRange : ∀ {c ls : List Nat}, InRange c (ls.map (2 * ·)) → InRange (c.map (· >>> 1)) ls
  | [], [], _ => by simp [InRange]
  | a :: b, l :: ls, h => by
      simp only [List.map_cons, InRange] at h ⊢
      exact ⟨by rw [Nat.shiftRight_eq_div_pow]; omega, half_inRange h.2⟩
  | [], _ :: _, h => by simp [InRange] at h
  | _ :: _, [], h => by simp [InRange] at h

theorem nsites_double (ls : List Nat) : nsites (ls.map (2 * ·)) = 2 ^ ls.length * nsites ls := by
  induction ls with
  | nil => simp [nsites]
  | cons l ls ih =>
    simp only [List.map_cons, nsites, ih, List.length_cons, Nat.pow_succ]
    ac_rfl

/-- closed form of `siteCoordsCB32` -/
def coords32 (h : Nat) (ls : List Nat) (i : Nat) : List Nat :=
  let V := h * nsites ls
  let d := dig2 h ls (i % V)
  let s := i / V
  (4 * d.1 + s % 2 + 2 * ((s / 2 ^ (ls.length + 1) + d.2.sum) % 2)) :: addBits (s / 2) d.2

/-- sublattice number of a coordinate -/
def subl32 (c0 : Nat) (cs : List Nat) : Nat :=
  sublOf (c0 :: cs) + ((c0 / 2 + (cs.map (· >>> 1)).sum) % 2) * 2 ^ (cs.length + 1)

/-- closed form of `linearSiteIndexCB32` -/
def index32 (h : Nat) (ls : List Nat) (c0 : Nat) (cs : List Nat) : Nat :=
  rank ((c0 / 4) :: cs.map (· >>> 1)) (h :: ls) + subl32 c0 cs * (h * nsites ls)

theorem index32_coords32 {h : Nat} {ls : List Nat} {i : Nat}
    (hi : i < 2 ^ (ls.length + 2) * (h * nsites ls)) (hV : 0 < h * nsites ls) :
    ∃ c0 cs, coords32 h ls i = c0 :: cs ∧ c0 < 4 * h ∧ InRange cs (ls.map (2 * ·)) ∧ index32 h ls c0 cs = i ∧
      subl32 c0 cs = i / (h * nsites ls) := by
  have hm : i % (h * nsites ls) < h * nsites ls := Nat.mod_lt _ hV
  obtain ⟨hA, hB, hC⟩ := dig2_A (h := h) (ls := ls) _ hm
  have hs : i / (h * nsites ls) < 2 ^ (ls.length + 2) := Nat.div_lt_of_lt_mul (by rw [Nat.mul_comm]; exact hi)
  refine ⟨_, _, rfl, ?_, addBits_inRange _ hB, ?_⟩
  · omega
  · have hlen : (addBits (i / (h * nsites ls) / 2) (dig2 h ls (i % (h * nsites ls))).2).length = ls.length := by
      rw [addBits_length, hB.length_eq]
    have hsub : subl32 (4 * (dig2 h ls (i % (h * nsites ls))).1 + i / (h * nsites ls) % 2 +
        2 * ((i / (h * nsites ls) / 2 ^ (ls.length + 1) + (dig2 h ls (i % (h * nsites ls))).2.sum) % 2))
        (addBits (i / (h * nsites ls) / 2) (dig2 h ls (i % (h * nsites ls))).2) = i / (h * nsites ls) := by
      unfold subl32
      rw [addBits_half, hlen]
      simp only [sublOf, sublOf_addBits, hB.length_eq, Nat.and_one_is_mod, Nat.shiftLeft_eq, Nat.pow_one]
      generalize i / (h * nsites ls) = s at *
      generalize (dig2 h ls (i % (h * nsites ls))).2.sum = S
      generalize (dig2 h ls (i % (h * nsites ls))).1 = x
      have ht : s / 2 ^ (ls.length + 1) < 2 := by
        apply Nat.div_lt_of_lt_mul; rw [Nat.pow_succ] at hs; exact hs
      have e1 : ((4 * x + s % 2 + 2 * ((s / 2 ^ (ls.length + 1) + S) % 2)) / 2 + S) % 2 = s / 2 ^ (ls.length + 1) := by
        generalize s / 2 ^ (ls.length + 1) = top at *
        omega
      have e2 : (s / 2) % 2 ^ ls.length * 2 + (4 * x + s % 2 + 2 * ((s / 2 ^ (ls.length + 1) + S) % 2)) % 2
          = s % 2 ^ (ls.length + 1) := by
        rw [Nat.pow_succ, Nat.mul_comm (2 ^ ls.length) 2, Nat.mod_mul]
        generalize (s / (2 * 2 ^ ls.length) + S) % 2 = z
        omega
      rw [e1, e2, Nat.mul_comm]
      exact Nat.mod_add_div s _
    refine ⟨?_, hsub⟩
    unfold index32
    rw [hsub, addBits_half]
    have e3 : (4 * (dig2 h ls (i % (h * nsites ls))).1 + i / (h * nsites ls) % 2 +
        2 * ((i / (h * nsites ls) / 2 ^ (ls.length + 1) + (dig2 h ls (i % (h * nsites ls))).2.sum) % 2)) / 4
        = (dig2 h ls (i % (h * nsites ls))).1 := by omega
    rw [e3]
    have : rank ((dig2 h ls (i % (h * nsites ls))).1 :: (dig2 h ls (i % (h * nsites ls))).2) (h :: ls)
        = i % (h * nsites ls) := hC
    rw [this, Nat.mul_comm (i / (h * nsites ls))]
    exact Nat.mod_add_div i _

theorem coords32_index32 {h : Nat} {ls : List Nat} {c0 : Nat} {cs : List Nat}
    (h0 : c0 < 4 * h) (hc : InRange cs (ls.map (2 * ·))) :
    index32 h ls c0 cs < 2 ^ (ls.length + 2) * (h * nsites ls) ∧ coords32 h ls (index32 h ls c0 cs) = c0 :: cs := by
  have hx : c0 / 4 < h := by omega
  have hq := half_inRange hc
  obtain ⟨hB1, hB2⟩ := dig2_B (h := h) (ls := ls) _ _ hx hq
  have hlen : cs.length = ls.length := by have := hc.length_eq; simpa using this
  have hV : 0 < h * nsites ls := by omega
  have hsub : subl32 c0 cs < 2 ^ (ls.length + 2) := by
    unfold subl32
    have h1 := sublOf_lt (c0 :: cs)
    have h2 : (c0 / 2 + (cs.map (· >>> 1)).sum) % 2 * 2 ^ (cs.length + 1) ≤ 1 * 2 ^ (cs.length + 1) :=
      Nat.mul_le_mul_right _ (by omega)
    rw [hlen] at h2 ⊢
    simp only [List.length_cons, hlen] at h1
    rw [Nat.pow_succ 2 (ls.length + 1)]
    omega
  have hdiv : index32 h ls c0 cs / (h * nsites ls) = subl32 c0 cs := by
    unfold index32
    rw [Nat.add_mul_div_right _ _ hV, Nat.div_eq_of_lt (show rank _ _ < _ from hB1), Nat.zero_add]
  have hmod : index32 h ls c0 cs % (h * nsites ls) = rk2 h ls (c0 / 4) (cs.map (· >>> 1)) := by
    unfold index32
    rw [Nat.add_mul_mod_self_right, Nat.mod_eq_of_lt (show rank _ _ < _ from hB1)]; rfl
  constructor
  · have h1 : (subl32 c0 cs + 1) * (h * nsites ls) ≤ 2 ^ (ls.length + 2) * (h * nsites ls) :=
      Nat.mul_le_mul_right _ hsub
    have h2 : rank ((c0 / 4) :: cs.map (· >>> 1)) (h :: ls) < h * nsites ls := hB1
    rw [Nat.add_mul] at h1
    unfold index32
    omega
  · unfold coords32
    simp only [hdiv, hmod, hB2]
    have e1 : subl32 c0 cs % 2 = c0 % 2 := by
      unfold subl32
      simp only [sublOf, Nat.and_one_is_mod, Nat.shiftLeft_eq, Nat.pow_succ, ← Nat.mul_assoc]
      omega
    have e2 : subl32 c0 cs / 2 ^ (ls.length + 1) = (c0 / 2 + (cs.map (· >>> 1)).sum) % 2 := by
      unfold subl32
      have h1 := sublOf_lt (c0 :: cs)
      simp only [List.length_cons] at h1
      rw [hlen] at h1 ⊢
      rw [Nat.add_mul_div_right _ _ (Nat.pow_pos (by omega)), Nat.div_eq_of_lt h1, Nat.zero_add]
    have e3 : subl32 c0 cs / 2 = sublOf cs + ((c0 / 2 + (cs.map (· >>> 1)).sum) % 2) * 2 ^ cs.length := by
      unfold subl32
      simp only [sublOf, Nat.and_one_is_mod, Nat.shiftLeft_eq, Nat.pow_succ, ← Nat.mul_assoc]
      omega
    rw [e1, e2, e3, addBits_sublOf]
    simp only [List.cons.injEq, and_true]
    omega

section
variable {h : Nat} {ls : List Nat} (hp : 0 < h) (hls : ∀ l ∈ ls, 0 < l)
  (hv : 2 ^ (ls.length + 2) * (h * nsites ls) < 2 ^ 31)
include hp hls hv

theorem vol_cb32 : volume (4 * h :: ls.map (2 * ·)) = ok (2 ^ (ls.length + 2) * (h * nsites ls)) := by
  have hs : nsites (4 * h :: ls.map (2 * ·)) = 2 ^ (ls.length + 2) * (h * nsites ls) := by
    simp only [nsites, nsites_double]
    rw [Nat.pow_add, show 2 ^ 2 = 4 from rfl]
    ac_rfl
  rw [volume_eq ?_ (by rw [hs]; exact hv), hs]
  intro l hl
  simp only [List.mem_cons, List.mem_map] at hl
  rcases hl with rfl | ⟨a, ha, rfl⟩
  · omega
  · have := hls a ha; omega

omit hp hls hv in
theorem shift_vol32 : (2 ^ (ls.length + 2) * (h * nsites ls)) >>> (ls.length + 2) = h * nsites ls := by
  rw [Nat.shiftRight_eq_div_pow, Nat.mul_div_cancel_left _ (Nat.pow_pos (by omega))]

omit hp hls hv in
theorem coarse_extents : cb32Coarse (4 * h :: ls.map (2 * ·)) = ok (h :: ls) := by
  simp only [cb32Coarse, Outcome.ok.injEq, List.cons.injEq, List.map_map]
  constructor
  · rw [Nat.shiftRight_eq_div_pow]; omega
  · conv => rhs; rw [← List.map_id ls]
    apply List.map_congr_left
    intro a _
    simp only [Function.comp, Nat.shiftRight_eq_div_pow, id]; omega

theorem siteCoordsCB32_eq {i : Nat} :
    siteCoordsCB32 (4 * h :: ls.map (2 * ·)) i = ok (coords32 h ls i) := by
  have hV : 0 < h * nsites ls := Nat.mul_pos hp (nsites_pos hls)
  have hm : i % (h * nsites ls) < h * nsites ls := Nat.mod_lt _ hV
  have hB := (dig2_A (h := h) (ls := ls) _ hm).2.1
  have hsum := sum_lt_nsites hB
  have hpow : 1 * (h * nsites ls) ≤ 2 ^ (ls.length + 2) * (h * nsites ls) :=
    Nat.mul_le_mul_right _ (Nat.pow_pos (by omega))
  have h3 : 1 * nsites ls ≤ h * nsites ls := Nat.mul_le_mul_right _ hp
  unfold siteCoordsCB32
  simp only [vol_cb32 hp hls hv, ok_bind, List.length_cons, List.length_map, shift_vol32,
    coarse_extents, cdiv_pos hV, cmod_pos hV, crtesn_eq (L := h :: ls) (by simp; exact ⟨hp, hls⟩), digits]
  have hb : (digits (i % (h * nsites ls) / h) ls).sum < 2 ^ 31 := by
    have : (digits (i % (h * nsites ls) / h) ls).sum < nsites ls := hsum
    omega
  have hlen : (digits (i % (h * nsites ls) / h) ls).length = ls.length := hB.length_eq
  rw [ckInt_of_lt hb]
  simp only [ok_bind, xorBits, pure_def, Outcome.ok.injEq]
  unfold coords32
  simp only [dig2]
  rw [xorBits_eq _ _ _ _ _ (by omega), bit_extract, flip_low _ _ _ _ (by omega), bit_extract_pred _ _ (by omega),
    flip_top, Nat.shiftRight_eq_div_pow _ 0, Nat.pow_zero, Nat.div_one, Nat.and_one_is_mod, Nat.shiftLeft_eq]
  simp only [List.cons.injEq]
  generalize i / (h * nsites ls) = s at *
  generalize (digits (i % (h * nsites ls) / h) ls).sum = S
  generalize i % (h * nsites ls) % h = x
  constructor
  · have e : x * 2 ^ 2 = 2 * (2 * x) := by omega
    rw [e, even_xor_bit _ _ (Nat.mod_lt _ (by omega)), Nat.add_mod_mod]
    have hb : (s / 2 ^ (ls.length + 1) + S) % 2 < 2 := Nat.mod_lt _ (by omega)
    generalize (s / 2 ^ (ls.length + 1) + S) % 2 = b at hb ⊢
    have hx := @Nat.xor_div_two (2 * (2 * x) + s % 2) (2 * b)
    have hx2 := xor_mod_two (2 * (2 * x) + s % 2) (2 * b)
    have e1 : (2 * (2 * x) + s % 2) / 2 = 2 * x := by omega
    have e2 : 2 * b / 2 = b := by omega
    rw [e1, e2] at hx
    rw [even_xor_bit _ _ hb] at hx
    omega
  · rw [Nat.shiftRight_eq_div_pow]

theorem linearSiteIndexCB32_eq {c0 : Nat} {cs : List Nat} (h0 : c0 < 4 * h) (hc : InRange cs (ls.map (2 * ·))) :
    linearSiteIndexCB32 (4 * h :: ls.map (2 * ·)) (c0 :: cs) = ok (index32 h ls c0 cs) := by
  have hV : 0 < h * nsites ls := Nat.mul_pos hp (nsites_pos hls)
  have hlt := (coords32_index32 h0 hc).1
  have hlen : cs.length = ls.length := by have := hc.length_eq; simpa using this
  have hx : c0 / 4 < h := by omega
  have hq := half_inRange hc
  have hq2 : InRange (c0 / 2 :: cs.map (· >>> 1)) (2 * h :: ls) := ⟨by omega, hq⟩
  have hs := sum_lt_nsites hq2
  have hpow : 2 * (h * nsites ls) ≤ 2 ^ (ls.length + 2) * (h * nsites ls) :=
    Nat.mul_le_mul_right _ (by rw [Nat.pow_succ]; have := Nat.pow_pos (a := 2) (n := ls.length + 1) (by omega); omega)
  have hsum : c0 / 2 + (cs.map (· >>> 1)).sum < 2 ^ 31 := by
    simp only [List.sum_cons, nsites, Nat.mul_assoc] at hs
    omega
  have e0 : c0 >>> 1 = c0 / 2 := by rw [Nat.shiftRight_eq_div_pow]
  have e1 : c0 >>> 2 = c0 / 4 := by rw [Nat.shiftRight_eq_div_pow]
  have hl : localSite (c0 / 4 :: cs.map (· >>> 1)) (h :: ls) = ok (rank (c0 / 4 :: cs.map (· >>> 1)) (h :: ls)) :=
    localSite_eq ⟨hx, hq⟩ (by simp) (by simp only [nsites]; omega)
  unfold linearSiteIndexCB32
  have hcc : cb32Coarse (c0 :: cs) = ok (c0 / 4 :: cs.map (· >>> 1)) := by simp only [cb32Coarse, e1]
  simp only [vol_cb32 hp hls hv, ok_bind, List.length_cons, List.length_map, shift_vol32,
    coarse_extents, List.map_cons, List.sum_cons, e0, ckInt_of_lt hsum, hcc, hl,
    Nat.and_one_is_mod]
  unfold index32 subl32 at hlt ⊢
  rw [hlen] at hlt ⊢
  rw [Nat.shiftLeft_eq ((c0 / 2 + (cs.map (· >>> 1)).sum) % 2), ckInt_of_lt (by omega)]

end

end Verif.Layout
