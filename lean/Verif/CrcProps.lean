import Verif.Crc
import Mathlib.RingTheory.AdjoinRoot
import Mathlib.RingTheory.Polynomial.Basic
import Mathlib.Algebra.CharP.Two
import Mathlib.Algebra.Field.ZMod
import Mathlib.Tactic.LinearCombination
/-
C19 - C21: the checksum as a polynomial remainder over GF(2), incrementality, burst errors.
-/
namespace Verif.Crc
open Verif Outcome Polynomial

/-! ## Specification: polynomials over the two-element field -/

/-- the CRC-32 generator polynomial, IEEE 802.3 -/
noncomputable def G : (ZMod 2)[X] :=
  X ^ 32 + X ^ 26 + X ^ 23 + X ^ 22 + X ^ 16 + X ^ 12 + X ^ 11 + X ^ 10 + X ^ 8 + X ^ 7 + X ^ 5 + X ^ 4 + X ^ 2 + X + 1

/-- a 32-bit word, least significant bit first (the "reflected" convention) -/
noncomputable def reg (c : BitVec 32) : (ZMod 2)[X] := ∑ i ∈ Finset.range 32, if c.getLsbD i then X ^ (31 - i) else 0

/-- a byte, least significant bit first -/
noncomputable def bytePoly (b : BitVec 8) : (ZMod 2)[X] := ∑ i ∈ Finset.range 8, if b.getLsbD i then X ^ (7 - i) else 0

/-- a message, first byte most significant -/
noncomputable def msg : List (BitVec 8) → (ZMod 2)[X]
  | [] => 0
  | b :: bs => bytePoly b * X ^ (8 * bs.length) + msg bs

/-- bit `p` of a message in transmission order: byte `p / 8`, least significant bit first -/
def bit (bs : List (BitVec 8)) (p : Nat) : Bool := (bs[p / 8]?.getD 0).getLsbD (p % 8)

/-! ## Lemmas -/

theorem add_self (p : (ZMod 2)[X]) : p + p = 0 := CharTwo.add_self_eq_zero p

theorem reg_xor (a b : BitVec 32) : reg (a ^^^ b) = reg a + reg b := by
  simp only [reg, ← Finset.sum_add_distrib]
  apply Finset.sum_congr rfl
  intro i _
  rw [BitVec.getLsbD_xor]
  cases a.getLsbD i <;> cases b.getLsbD i <;> simp [add_self]

theorem reg_mem (c : BitVec 32) : reg c ∈ degreeLT (ZMod 2) 32 := by
  apply Submodule.sum_mem
  intro i hi
  split
  · rw [mem_degreeLT, degree_X_pow]
    exact_mod_cast (by omega : 31 - i < 32)
  · exact Submodule.zero_mem _

theorem reg_degree (c : BitVec 32) : (reg c).degree < 32 := by
  have := mem_degreeLT.1 (reg_mem c); exact_mod_cast this

theorem reg_P0 : X ^ 32 + reg P0 = G := by
  simp only [reg, Finset.sum_range_succ, Finset.sum_range_zero, G]
  simp
  ring

theorem G_monic : G.Monic := by rw [← reg_P0]; exact monic_X_pow_add (reg_degree P0)

theorem G_degree : G.degree = 32 := by
  rw [← reg_P0, degree_add_eq_left_of_degree_lt]
  · simp
  · rw [degree_X_pow]; exact_mod_cast reg_degree P0

theorem X_mul_sum (n : Nat) (f : Nat → Bool) :
    X * (∑ i ∈ Finset.range (n + 1), if f i then (X : (ZMod 2)[X]) ^ (n - i) else 0) =
      (if f 0 then X ^ (n + 1) else 0) + ∑ i ∈ Finset.range n, if f (i + 1) then X ^ (n - i) else 0 := by
  rw [Finset.mul_sum, Finset.sum_range_succ', add_comm]
  congr 1
  · cases f 0
    · simp
    · simp [pow_succ']
  · apply Finset.sum_congr rfl
    intro i hi
    have hi := Finset.mem_range.1 hi
    cases f (i + 1)
    · simp
    · simp only [if_true]
      rw [← pow_succ']; congr 1; omega

theorem reg_shift (c : BitVec 32) : X * reg c = (if c.getLsbD 0 then X ^ 32 else 0) + reg (c >>> 1) := by
  have h := X_mul_sum 31 (fun i => c.getLsbD i)
  have e : (∑ i ∈ Finset.range 31, if c.getLsbD (i + 1) then (X : (ZMod 2)[X]) ^ (31 - i) else 0) = reg (c >>> 1) := by
    rw [reg, Finset.sum_range_succ _ 31]
    have h31 : (c >>> 1).getLsbD 31 = false := by
      rw [BitVec.getLsbD_ushiftRight]; exact BitVec.getLsbD_of_ge _ _ (by omega)
    rw [h31, if_neg (by simp), add_zero]
    apply Finset.sum_congr rfl
    intro i hi
    rw [BitVec.getLsbD_ushiftRight, Nat.add_comm 1 i]
  rw [e] at h
  exact h

theorem reg_bitStep (c : BitVec 32) : reg (bitStep P0 c) = X * reg c + if c.getLsbD 0 then G else 0 := by
  rw [reg_shift, ← reg_P0]
  by_cases h : c.getLsbD 0 = true
  · have e : bitStep P0 c = P0 ^^^ (c >>> 1) := if_pos ((and_one_ne c).2 h)
    rw [e, if_pos h, if_pos h, reg_xor]
    have := add_self (X ^ 32 : (ZMod 2)[X])
    generalize (X ^ 32 : (ZMod 2)[X]) = y at *
    linear_combination -this
  · have e : bitStep P0 c = c >>> 1 := if_neg (fun e => h ((and_one_ne c).1 e))
    rw [e, if_neg h, if_neg h, zero_add, add_zero]

/-- the residue class -/
noncomputable abbrev cl : (ZMod 2)[X] →+* AdjoinRoot G := AdjoinRoot.mk G

theorem cl_bitStep (c : BitVec 32) : cl (reg (bitStep P0 c)) = cl X * cl (reg c) := by
  rw [reg_bitStep, map_add, map_mul]
  split
  · simp [AdjoinRoot.mk_self]
  · simp

theorem cl_step8 (c : BitVec 32) : cl (reg (step8 c)) = cl X ^ 8 * cl (reg c) := by
  simp only [step8, cl_bitStep]; ring

theorem reg_byte (b : BitVec 8) : reg (b.zeroExtend 32) = bytePoly b * X ^ 24 := by
  simp only [reg, bytePoly, Finset.sum_mul]
  rw [Finset.range_eq_Ico, ← Finset.sum_Ico_consecutive _ (Nat.zero_le 8) (by omega : 8 ≤ 32)]
  have h1 : (∑ i ∈ Finset.Ico 8 32, if (b.zeroExtend 32).getLsbD i then (X : (ZMod 2)[X]) ^ (31 - i) else 0) = 0 := by
    apply Finset.sum_eq_zero
    intro i hi
    have := (Finset.mem_Ico.1 hi).1
    have h0 : (b.zeroExtend 32).getLsbD i = false := by
      rw [BitVec.getLsbD_setWidth, BitVec.getLsbD_of_ge _ _ this, Bool.and_false]
    rw [h0]; simp
  rw [h1, add_zero]
  apply Finset.sum_congr rfl
  intro i hi
  have := (Finset.mem_Ico.1 hi).2
  have h0 : (b.zeroExtend 32).getLsbD i = b.getLsbD i := by
    rw [BitVec.getLsbD_setWidth]; simp; omega
  rw [h0]
  split
  · rw [← pow_add]; congr 1; omega
  · simp

theorem cl_feed (bs : List (BitVec 8)) (c : BitVec 32) :
    cl (reg (feed c bs)) = cl (reg c * X ^ (8 * bs.length) + msg bs * X ^ 32) := by
  induction bs generalizing c with
  | nil => simp [feed, msg]
  | cons b bs ih =>
    have : feed c (b :: bs) = feed (step8 (c ^^^ b.zeroExtend 32)) bs := rfl
    rw [this, ih, map_add, map_mul, cl_step8, reg_xor, reg_byte, msg]
    simp only [map_mul, map_pow, map_add, List.length_cons]
    generalize cl (reg c) = r
    generalize cl (bytePoly b) = q
    generalize cl X = x
    generalize cl (msg bs) = m
    generalize bs.length = n
    ring

theorem reg_inj {a b : BitVec 32} (h : reg a = reg b) : a = b := by
  have key : ∀ (c : BitVec 32) i, i < 32 → ((reg c).coeff (31 - i) = if c.getLsbD i then 1 else 0) := by
    intro c i hi
    rw [reg, finsetSum_coeff, Finset.sum_eq_single i]
    · split <;> simp
    · intro j hj hne
      have := Finset.mem_range.1 hj
      split
      · rw [coeff_X_pow, if_neg (by omega)]
      · simp
    · intro h; exact absurd (Finset.mem_range.2 hi) h
  apply BitVec.eq_of_getLsbD_eq
  intro i hi
  have h1 := key a i hi
  have h2 := key b i hi
  rw [h] at h1
  rw [h1] at h2
  cases ha : a.getLsbD i <;> cases hb : b.getLsbD i <;> simp [ha, hb] at h2 ⊢

/-! ## C19, C20 -/

/-- C19. The checksum of `bs` continued from `crc`, complemented, is the remainder modulo the CRC-32 polynomial of the
message times x^32 with the complemented start value added in front; `reg` is injective, so this determines the
checksum.  The 8-way unrolled loop computes it for every length. -/
theorem C19_crc (crc : BitVec 32) (bs : List (BitVec 8)) :
    ∃ c, crc32 crc (some bs) = ok c ∧
      reg (c ^^^ 0xffffffff) = (reg (crc ^^^ 0xffffffff) * X ^ (8 * bs.length) + msg bs * X ^ 32) %ₘ G ∧
      ∀ c', reg c' = reg (c ^^^ 0xffffffff) → c' = c ^^^ 0xffffffff := by
  refine ⟨_, crc32_eq crc bs, ?_, fun c' h => reg_inj h⟩
  rw [BitVec.xor_assoc, BitVec.xor_self, BitVec.xor_zero]
  have h := AdjoinRoot.mk_eq_mk.1 (cl_feed bs (crc ^^^ 0xffffffff))
  rw [← modByMonic_eq_of_dvd_sub G_monic h, eq_comm, modByMonic_eq_self_iff G_monic, G_degree]
  exact reg_degree _

/-- C19. The build with a dynamic table computes the same table. -/
theorem C19_table : makeTable = table := makeTable_eq

/-- C20. Checksumming in two pieces equals checksumming the whole; an empty buffer keeps the checksum; a null pointer
returns 0 whatever the checksum was. -/
theorem C20_incremental (crc : BitVec 32) (a b : List (BitVec 8)) :
    (do let c ← crc32 crc (some a); crc32 c (some b)) = crc32 crc (some (a ++ b)) ∧
    crc32 crc (some []) = ok crc ∧ crc32 crc none = ok 0 := by
  refine ⟨?_, ?_, rfl⟩
  · rw [crc32_eq, ok_bind, crc32_eq, crc32_eq, BitVec.xor_assoc, BitVec.xor_self, BitVec.xor_zero, feed_append]
  · rw [crc32_eq]
    simp only [feed, List.foldl_nil]
    rw [BitVec.xor_assoc, BitVec.xor_self, BitVec.xor_zero]

/-- C20. Any number of pieces. -/
theorem C20_pieces (crc : BitVec 32) (pieces : List (List (BitVec 8))) :
    pieces.foldl (fun o p => do let c ← o; crc32 c (some p)) (ok crc) = crc32 crc (some pieces.flatten) := by
  induction pieces generalizing crc with
  | nil => rw [List.flatten_nil, (C20_incremental crc [] []).2.1]; rfl
  | cons p ps ih =>
    rw [List.foldl_cons, ok_bind, List.flatten_cons, ← (C20_incremental crc p ps.flatten).1]
    obtain ⟨c, hc, -⟩ := C19_crc crc p
    rw [hc, ok_bind, ih]

/-! ## C21 -/

theorem bytePoly_coeff (b : BitVec 8) (k : Nat) :
    (bytePoly b).coeff k = if k < 8 ∧ b.getLsbD (7 - k) then 1 else 0 := by
  rw [bytePoly, finsetSum_coeff]
  by_cases hk : k < 8
  · rw [Finset.sum_eq_single (7 - k)]
    · simp only [hk, true_and]
      split
      · rw [coeff_X_pow, if_pos (by omega)]
      · simp
    · intro j hj hne
      have := Finset.mem_range.1 hj
      split
      · rw [coeff_X_pow, if_neg (by omega)]
      · simp
    · intro h; exact absurd (Finset.mem_range.2 (by omega)) h
  · rw [if_neg (by omega)]
    apply Finset.sum_eq_zero
    intro j hj
    have := Finset.mem_range.1 hj
    split
    · rw [coeff_X_pow, if_neg (by omega)]
    · simp

theorem msg_coeff (bs : List (BitVec 8)) (k : Nat) :
    (msg bs).coeff k = if k < 8 * bs.length ∧ bit bs (8 * bs.length - 1 - k) then 1 else 0 := by
  induction bs with
  | nil => simp [msg]
  | cons b bs ih =>
    rw [msg, coeff_add, ih, coeff_mul_X_pow', bytePoly_coeff]
    simp only [List.length_cons]
    by_cases h : 8 * bs.length ≤ k
    · rw [if_pos h, if_neg (by omega : ¬ (k < 8 * bs.length ∧ _)), add_zero]
      by_cases h8 : k - 8 * bs.length < 8
      · have e1 : (8 * (bs.length + 1) - 1 - k) / 8 = 0 := by omega
        have e2 : (8 * (bs.length + 1) - 1 - k) % 8 = 7 - (k - 8 * bs.length) := by omega
        have e3 : k < 8 * (bs.length + 1) := by omega
        simp only [bit, e1, e2, h8, e3, true_and, List.getElem?_cons_zero, Option.getD_some]
      · rw [if_neg (by omega), if_neg (by omega)]
    · rw [if_neg h, zero_add]
      have e1 : (8 * (bs.length + 1) - 1 - k) / 8 = (8 * bs.length - 1 - k) / 8 + 1 := by omega
      have e2 : (8 * (bs.length + 1) - 1 - k) % 8 = (8 * bs.length - 1 - k) % 8 := by omega
      have e3 : k < 8 * (bs.length + 1) := by omega
      have e4 : k < 8 * bs.length := by omega
      simp only [bit, e1, e2, e3, e4, true_and, List.getElem?_cons_succ]

theorem bit_ext {a b : List (BitVec 8)} (hlen : a.length = b.length) (h : ∀ p, bit a p = bit b p) : a = b := by
  apply List.ext_getElem hlen
  intro j h1 h2
  apply BitVec.eq_of_getLsbD_eq
  intro i hi
  have := h (8 * j + i)
  simp only [bit, show (8 * j + i) / 8 = j by omega, show (8 * j + i) % 8 = i by omega, List.getElem?_eq_getElem h1,
    List.getElem?_eq_getElem h2, Option.getD_some] at this
  exact this

theorem G_coprime_X : IsCoprime G (X : (ZMod 2)[X]) := by
  refine ⟨1, X ^ 31 + X ^ 25 + X ^ 22 + X ^ 21 + X ^ 15 + X ^ 11 + X ^ 10 + X ^ 9 + X ^ 7 + X ^ 6 + X ^ 4 + X ^ 3 + X + 1, ?_⟩
  have h2 : (2 : (ZMod 2)[X]) = 0 := by
    have := add_self (1 : (ZMod 2)[X])
    rw [← this]; norm_num
  have : (1 : (ZMod 2)[X]) * G + (X ^ 31 + X ^ 25 + X ^ 22 + X ^ 21 + X ^ 15 + X ^ 11 + X ^ 10 + X ^ 9 + X ^ 7 + X ^ 6 +
      X ^ 4 + X ^ 3 + X + 1) * X = 1 + 2 * (X ^ 32 + X ^ 26 + X ^ 23 + X ^ 22 + X ^ 16 + X ^ 12 + X ^ 11 + X ^ 10 + X ^ 8 +
      X ^ 7 + X ^ 5 + X ^ 4 + X ^ 2 + X) := by
    rw [G]; ring
  rw [this, h2, zero_mul, add_zero]

/-- equal checksums mean the generator divides the difference of the messages -/
theorem dvd_of_crc_eq {crc : BitVec 32} {a b : List (BitVec 8)} (hlen : a.length = b.length)
    (h : crc32 crc (some a) = crc32 crc (some b)) : G ∣ msg a - msg b := by
  rw [crc32_eq, crc32_eq] at h
  injection h with h
  have h' : feed (crc ^^^ 0xffffffff) a = feed (crc ^^^ 0xffffffff) b := by
    have := congrArg (· ^^^ (0xffffffff : BitVec 32)) h
    simpa [BitVec.xor_assoc] using this
  have h1 := cl_feed a (crc ^^^ 0xffffffff)
  rw [h', cl_feed b, AdjoinRoot.mk_eq_mk] at h1
  rw [hlen] at h1
  have e : reg (crc ^^^ 0xffffffff) * X ^ (8 * b.length) + msg b * X ^ 32 -
      (reg (crc ^^^ 0xffffffff) * X ^ (8 * b.length) + msg a * X ^ 32) = (msg b - msg a) * X ^ 32 := by ring
  rw [e] at h1
  have h2 := (G_coprime_X.pow_right (n := 32)).dvd_of_dvd_mul_right h1
  rw [← neg_sub, dvd_neg] at h2
  exact h2

/-- C21. Two different buffers of equal length that agree outside some window of 32 consecutive bits have different
checksums, whatever the starting checksum. -/
theorem C21_burst (crc : BitVec 32) (a b : List (BitVec 8)) (hlen : a.length = b.length) (hne : a ≠ b) (s : Nat)
    (hwin : ∀ p, p < s ∨ s + 32 ≤ p → bit a p = bit b p) : crc32 crc (some a) ≠ crc32 crc (some b) := by
  intro h
  have hd := dvd_of_crc_eq hlen h
  have hD : ∀ k, (k < 8 * a.length - (s + 32) ∨ 8 * a.length ≤ k + s) → (msg a - msg b).coeff k = 0 := by
    intro k hk
    rw [coeff_sub, msg_coeff, msg_coeff, ← hlen]
    by_cases hk2 : k < 8 * a.length
    · rw [hwin _ (by omega), sub_self]
    · rw [if_neg (by omega), if_neg (by omega), sub_self]
  obtain ⟨E, hE⟩ := X_pow_dvd_iff.2 (fun d (hd : d < 8 * a.length - (s + 32)) => hD d (Or.inl hd))
  rw [hE] at hd
  have hGE := (G_coprime_X.pow_right (n := 8 * a.length - (s + 32))).dvd_of_dvd_mul_left hd
  have hdeg : E.degree < 32 := by
    have : ∀ m, 32 ≤ m → E.coeff m = 0 := by
      intro m hm
      have := hD (m + (8 * a.length - (s + 32))) (Or.inr (by omega))
      rwa [hE, coeff_X_pow_mul] at this
    exact (degree_lt_iff_coeff_zero E 32).2 this
  have hE0 := eq_zero_of_dvd_of_degree_lt hGE (by rw [G_degree]; exact hdeg)
  apply hne
  rw [hE0, mul_zero] at hE
  have hm : msg a = msg b := sub_eq_zero.1 hE
  apply bit_ext hlen
  intro p
  by_cases hp : p < 8 * a.length
  · have h1 := msg_coeff a (8 * a.length - 1 - p)
    have h2 := msg_coeff b (8 * a.length - 1 - p)
    rw [hm] at h1
    rw [h1, ← hlen, show 8 * a.length - 1 - (8 * a.length - 1 - p) = p by omega] at h2
    have h3 : 8 * a.length - 1 - p < 8 * a.length := by omega
    simp only [h3, true_and] at h2
    cases ha : bit a p <;> cases hb : bit b p <;> simp [ha, hb] at h2 ⊢
  · have : bit a p = false := by
      simp only [bit]
      rw [List.getElem?_eq_none (by omega)]; simp
    rw [this]
    simp only [bit]
    rw [List.getElem?_eq_none (by omega)]; simp

/-- C21. In particular a change confined to four consecutive bytes, e.g. one 32-bit word or one byte, is detected. -/
theorem C21_word (crc : BitVec 32) (pre w w' post : List (BitVec 8)) (hw : w.length = w'.length) (h4 : w.length ≤ 4)
    (hne : w ≠ w') : crc32 crc (some (pre ++ w ++ post)) ≠ crc32 crc (some (pre ++ w' ++ post)) := by
  apply C21_burst crc _ _ (by simp [hw]) (by simpa using hne) (8 * pre.length)
  intro p hp
  simp only [bit]
  congr 1
  rcases hp with hp | hp
  · rw [List.append_assoc, List.append_assoc, List.getElem?_append_left (by omega), List.getElem?_append_left (by omega)]
  · have h1 : pre.length + w.length ≤ p / 8 := by omega
    rw [List.getElem?_append_right (by simp; omega), List.getElem?_append_right (by simp; omega)]
    simp [hw]

/-! ### witnesses -/
/-- the standard check value: CRC-32 of the ASCII string "123456789" -/
example : crc32 0 (some [0x31, 0x32, 0x33, 0x34, 0x35, 0x36, 0x37, 0x38, 0x39]) = ok 0xcbf43926 := by decide +kernel
example : bit [0x01, 0x80] 0 = true ∧ bit [0x01, 0x80] 15 = true ∧ bit [0x01, 0x80] 8 = false := by decide
-- an allowed burst straddling bytes
example : ∀ p, p < 7 ∨ 7 + 32 ≤ p → bit [1, 0xff, 3] p = bit [0x81, 0, 3] p := by
  intro p hp
  rcases hp with h | h
  · have : ∀ p, p < 7 → bit [1, 0xff, 3] p = bit [0x81, 0, 3] p := by decide
    exact this p h
  · simp only [bit]; rw [List.getElem?_eq_none (by simp; omega), List.getElem?_eq_none (by simp; omega)]

end Verif.Crc
