import Verif.LayoutProps
import Mathlib.Tactic.Ring
/-
47-bit seeds: model of `PSeed` (include/qdp_primseed.h) with its inner type fixed to the library's choice
`RScalar<INTEGER32>`, `INTEGER32 = int` (include/qdp_scalarsite_defs.h:75, include/qdp_precision.h:20).
Every product and sum is checked for signed 32-bit overflow (`ckInt`).
-/
namespace Verif.Seed
open Verif Outcome

/-! ## Model -/

/-- the four limbs of a `PSeed` -/
structure PSeed where
  e0 : Nat
  e1 : Nat
  e2 : Nat
  e3 : Nat
deriving Repr, DecidableEq

/-- `PSeed = int`, include/qdp_primseed.h:51-62 (`>>` of a negative int is an arithmetic shift) -/
def assign (x : Int) : PSeed :=
  ⟨(x % 4096).toNat, (x / 2 ^ 12 % 4096).toNat, (x / 2 ^ 24 % 4096).toNat, 0⟩

/-- `i += a*b` on 32-bit ints -/
def addMul (i a b : Nat) : Outcome Nat := do
  let p ← ckInt (a * b)
  ckInt (i + p)

/-- `operator*`, include/qdp_primseed.h:337-385 -/
def mul (s1 s2 : PSeed) : Outcome PSeed := do
  let i3 ← ckInt (s1.e3 * s2.e0)
  let i3 ← addMul i3 s1.e2 s2.e1
  let i3 ← addMul i3 s1.e1 s2.e2
  let i3 ← addMul i3 s1.e0 s2.e3
  let i2 ← ckInt (s1.e2 * s2.e0)
  let i2 ← addMul i2 s1.e1 s2.e1
  let i2 ← addMul i2 s1.e0 s2.e2
  let i1 ← ckInt (s1.e1 * s2.e0)
  let i1 ← addMul i1 s1.e0 s2.e1
  let i0 ← ckInt (s1.e0 * s2.e0)
  let d0 := i0 &&& 4095
  let i1 ← ckInt (i1 + (i0 >>> 12))
  let d1 := i1 &&& 4095
  let i2 ← ckInt (i2 + (i1 >>> 12))
  let d2 := i2 &&& 4095
  let i3 ← ckInt (i3 + (i2 >>> 12))
  let d3 := i3 &&& 2047
  return ⟨d0, d1, d2, d3⟩

/-- `operator|`, include/qdp_primseed.h:395-405 -/
def or (l r : PSeed) : PSeed := ⟨l.e0 ||| r.e0, l.e1 ||| r.e1, l.e2 ||| r.e2, l.e3 ||| r.e3⟩

/-- `operator<<` by an integer, include/qdp_primseed.h:440-464 -/
def shl (s1 : PSeed) (s : Nat) : Outcome PSeed := do
  let i0 ← ckInt (s1.e0 <<< s)
  let i1 ← ckInt (s1.e1 <<< s)
  let i2 ← ckInt (s1.e2 <<< s)
  let i3 ← ckInt (s1.e3 <<< s)
  let d0 := i0 &&& 4095
  let i0 := i0 >>> 12
  let i1 := i1 ||| (i0 &&& 4095)
  let d1 := i1 &&& 4095
  let i1 := i1 >>> 12
  let i2 := i2 ||| (i1 &&& 4095)
  let d2 := i2 &&& 4095
  let i2 := i2 >>> 12
  let i3 := i3 ||| (i2 &&& 4095)
  let d3 := i3 &&& 2047
  return ⟨d0, d1, d2, d3⟩

/-- the comparison `==`, include/qdp_primseed.h:278-288 -/
def eqSeed (l r : PSeed) : Bool := l.e0 == r.e0 && l.e1 == r.e1 && l.e2 == r.e2 && l.e3 == r.e3

/-- round a non-negative number of units to `p` significant bits, ties to even (IEEE-754 default rounding).
Scaling by a power of two does not change the result, so the unit is irrelevant. -/
def roundTo (p n : Nat) : Nat :=
  if n < 2 ^ p then n
  else
    let sh := n.log2 + 1 - p
    let q := n / 2 ^ sh
    let r := n % 2 ^ sh
    if r > 2 ^ (sh - 1) ∨ (r = 2 ^ (sh - 1) ∧ q % 2 = 1) then (q + 1) * 2 ^ sh else q * 2 ^ sh

/-- `seedToFloat`, include/qdp_primseed.h:475-504, in a format with `p` significant bits.
The result `n` stands for the number `n / 2^47`: the code's `twom12 * d` are exact scalings by powers of two, kept
here as a change of unit (2^-12, 2^-24, 2^-36, 2^-47). -/
def seedToFloat (p : Nat) (s : PSeed) : Nat :=
  let d := roundTo p s.e0
  let d := roundTo p (s.e1 * 2 ^ 12 + d)
  let d := roundTo p (s.e2 * 2 ^ 24 + d)
  roundTo p (s.e3 * 2 ^ 36 + d)

/-- `seedToFloat` with exact arithmetic -/
def seedToExact (s : PSeed) : Nat :=
  let d := s.e0
  let d := s.e1 * 2 ^ 12 + d
  let d := s.e2 * 2 ^ 24 + d
  s.e3 * 2 ^ 36 + d

/-- what `sranf` returns, lib/qdp_random.cc:217-222: the value in the format of `Real` (`p` bits) cast to `float` -/
def sranfValue (p : Nat) (s : PSeed) : Nat := roundTo 24 (seedToFloat p s)

/-! ## Specification -/

/-- limbs within 12,12,12,11 bits -/
def PSeed.Ok (s : PSeed) : Prop := s.e0 < 4096 ∧ s.e1 < 4096 ∧ s.e2 < 4096 ∧ s.e3 < 2048

instance (s : PSeed) : Decidable s.Ok := by unfold PSeed.Ok; infer_instance

/-- the integer a seed stands for -/
def PSeed.val (s : PSeed) : Nat := s.e0 + 2 ^ 12 * s.e1 + 2 ^ 24 * s.e2 + 2 ^ 36 * s.e3

/-! ## Lemmas -/

theorem val_lt {s : PSeed} (h : s.Ok) : s.val < 2 ^ 47 := by
  obtain ⟨h0, h1, h2, h3⟩ := h
  simp only [PSeed.val]; omega

theorem val_inj {s t : PSeed} (hs : s.Ok) (ht : t.Ok) (h : s.val = t.val) : s = t := by
  obtain ⟨h0, h1, h2, h3⟩ := hs
  obtain ⟨k0, k1, k2, k3⟩ := ht
  simp only [PSeed.val] at h
  cases s; cases t
  simp only [PSeed.mk.injEq] at *
  omega

theorem and4095 (n : Nat) : n &&& 4095 = n % 4096 := Nat.and_two_pow_sub_one_eq_mod n 12
theorem and2047 (n : Nat) : n &&& 2047 = n % 2048 := Nat.and_two_pow_sub_one_eq_mod n 11

theorem addMul_ok {i a b : Nat} (h : i + a * b < 2 ^ 31) : addMul i a b = ok (i + a * b) := by
  simp only [addMul, ckInt_of_lt (show a * b < 2 ^ 31 by omega), ok_bind, ckInt_of_lt h]

theorem mul_spec {a b : PSeed} (ha : a.Ok) (hb : b.Ok) :
    ∃ c, mul a b = ok c ∧ c.Ok ∧ c.val = a.val * b.val % 2 ^ 47 := by
  obtain ⟨a0, a1, a2, a3⟩ := a
  obtain ⟨b0, b1, b2, b3⟩ := b
  obtain ⟨ha0, ha1, ha2, ha3⟩ := ha
  obtain ⟨hb0, hb1, hb2, hb3⟩ := hb
  simp only at ha0 ha1 ha2 ha3 hb0 hb1 hb2 hb3
  have bnd : ∀ {x y : Nat}, x < 4096 → y < 4096 → x * y ≤ 16769025 := by
    intro x y hx hy
    exact Nat.mul_le_mul (show x ≤ 4095 by omega) (show y ≤ 4095 by omega)
  have q00 := bnd ha0 hb0
  have q10 := bnd ha1 hb0
  have q01 := bnd ha0 hb1
  have q20 := bnd ha2 hb0
  have q11 := bnd ha1 hb1
  have q02 := bnd ha0 hb2
  have q30 := bnd (show a3 < 4096 by omega) hb0
  have q21 := bnd ha2 hb1
  have q12 := bnd ha1 hb2
  have q03 := bnd ha0 (show b3 < 4096 by omega)
  have hprod : (PSeed.mk a0 a1 a2 a3).val * (PSeed.mk b0 b1 b2 b3).val =
      a0 * b0 + 2 ^ 12 * (a1 * b0 + a0 * b1) + 2 ^ 24 * (a2 * b0 + a1 * b1 + a0 * b2) +
      2 ^ 36 * (a3 * b0 + a2 * b1 + a1 * b2 + a0 * b3) +
      2 ^ 48 * (a3 * b1 + a2 * b2 + a1 * b3) + 2 ^ 60 * (a3 * b2 + a2 * b3) + 2 ^ 72 * (a3 * b3) := by
    simp only [PSeed.val]
    ring
  rw [hprod]
  generalize a3 * b1 + a2 * b2 + a1 * b3 = r4
  generalize a3 * b2 + a2 * b3 = r5
  generalize a3 * b3 = r6
  simp only [mul]
  generalize a0 * b0 = p00 at *
  simp only [addMul]
  generalize a1 * b0 = p10 at *
  generalize a0 * b1 = p01 at *
  generalize a2 * b0 = p20 at *
  generalize a1 * b1 = p11 at *
  generalize a0 * b2 = p02 at *
  generalize a3 * b0 = p30 at *
  generalize a2 * b1 = p21 at *
  generalize a1 * b2 = p12 at *
  generalize a0 * b3 = p03 at *
  clear hprod bnd ha0 ha1 ha2 ha3 hb0 hb1 hb2 hb3
  have s12 : ∀ n : Nat, n >>> 12 = n / 4096 := fun n => by rw [Nat.shiftRight_eq_div_pow]
  simp only [s12, and4095, and2047]
  simp only [ckInt_of_lt (show p30 < 2 ^ 31 by omega), ckInt_of_lt (show p21 < 2 ^ 31 by omega),
    ckInt_of_lt (show p12 < 2 ^ 31 by omega), ckInt_of_lt (show p03 < 2 ^ 31 by omega),
    ckInt_of_lt (show p20 < 2 ^ 31 by omega), ckInt_of_lt (show p11 < 2 ^ 31 by omega),
    ckInt_of_lt (show p02 < 2 ^ 31 by omega), ckInt_of_lt (show p10 < 2 ^ 31 by omega),
    ckInt_of_lt (show p01 < 2 ^ 31 by omega), ckInt_of_lt (show p00 < 2 ^ 31 by omega),
    ckInt_of_lt (show p30 + p21 < 2 ^ 31 by omega), ckInt_of_lt (show p30 + p21 + p12 < 2 ^ 31 by omega),
    ckInt_of_lt (show p30 + p21 + p12 + p03 < 2 ^ 31 by omega), ckInt_of_lt (show p20 + p11 < 2 ^ 31 by omega),
    ckInt_of_lt (show p20 + p11 + p02 < 2 ^ 31 by omega), ckInt_of_lt (show p10 + p01 < 2 ^ 31 by omega), ok_bind,
    ckInt_of_lt (show p10 + p01 + p00 / 4096 < 2 ^ 31 by omega),
    ckInt_of_lt (show p20 + p11 + p02 + (p10 + p01 + p00 / 4096) / 4096 < 2 ^ 31 by omega),
    ckInt_of_lt (show p30 + p21 + p12 + p03 + (p20 + p11 + p02 + (p10 + p01 + p00 / 4096) / 4096) / 4096 < 2 ^ 31 by
      omega), pure_def, Outcome.ok.injEq, exists_eq_left', PSeed.Ok, PSeed.val]
  refine ⟨⟨by omega, by omega, by omega, by omega⟩, ?_⟩
  omega

theorem assign_val (x : Int) : (assign x).Ok ∧ ((assign x).val : Int) = x % 2 ^ 36 := by
  simp only [PSeed.Ok, PSeed.val, assign]
  omega

theorem shl_spec {a : PSeed} (ha : a.Ok) {s : Nat} (hs : s ≤ 12) :
    ∃ c, shl a s = ok c ∧ c.Ok ∧ c.val = a.val * 2 ^ s % 2 ^ 47 := by
  obtain ⟨a0, a1, a2, a3⟩ := a
  obtain ⟨ha0, ha1, ha2, ha3⟩ := ha
  simp only at ha0 ha1 ha2 ha3
  have hp : 2 ^ s ≤ 4096 := Nat.pow_le_pow_right (by omega) hs
  have hp0 : 0 < 2 ^ s := Nat.two_pow_pos s
  have bnd : ∀ {x : Nat}, x < 4096 → x * 2 ^ s ≤ 4095 * 2 ^ s := fun hx => Nat.mul_le_mul_right _ (by omega)
  have hor : ∀ x y : Nat, y < 2 ^ s → (x * 2 ^ s) ||| y = x * 2 ^ s + y := by
    intro x y hy
    rw [← Nat.shiftLeft_eq, Nat.shiftLeft_add_eq_or_of_lt hy]
  have s12 : ∀ n : Nat, n >>> 12 = n / 4096 := fun n => by rw [Nat.shiftRight_eq_div_pow]
  have small : ∀ x, x < 4096 * 2 ^ s → x / 4096 < 2 ^ s := fun x hx => Nat.div_lt_of_lt_mul hx
  have b0 := bnd ha0
  have b1 := bnd ha1
  have b2 := bnd ha2
  have b3 := bnd (show a3 < 4096 by omega)
  have c0 := small (a0 * 2 ^ s) (by omega)
  simp only [shl, Nat.shiftLeft_eq, ckInt_of_lt (show a0 * 2 ^ s < 2 ^ 31 by omega),
    ckInt_of_lt (show a1 * 2 ^ s < 2 ^ 31 by omega), ckInt_of_lt (show a2 * 2 ^ s < 2 ^ 31 by omega),
    ckInt_of_lt (show a3 * 2 ^ s < 2 ^ 31 by omega), ok_bind, s12, and4095, and2047, pure_def]
  have m0 : a0 * 2 ^ s / 4096 % 4096 = a0 * 2 ^ s / 4096 := Nat.mod_eq_of_lt (by omega)
  rw [m0, hor a1 _ c0]
  have c1 := small (a1 * 2 ^ s + a0 * 2 ^ s / 4096) (by omega)
  have m1 : (a1 * 2 ^ s + a0 * 2 ^ s / 4096) / 4096 % 4096 = (a1 * 2 ^ s + a0 * 2 ^ s / 4096) / 4096 :=
    Nat.mod_eq_of_lt (by omega)
  rw [m1, hor a2 _ c1]
  have c2 := small (a2 * 2 ^ s + (a1 * 2 ^ s + a0 * 2 ^ s / 4096) / 4096) (by omega)
  have m2 : (a2 * 2 ^ s + (a1 * 2 ^ s + a0 * 2 ^ s / 4096) / 4096) / 4096 % 4096 =
      (a2 * 2 ^ s + (a1 * 2 ^ s + a0 * 2 ^ s / 4096) / 4096) / 4096 := Nat.mod_eq_of_lt (by omega)
  rw [m2, hor a3 _ c2]
  refine ⟨_, rfl, ?_, ?_⟩
  · simp only [PSeed.Ok]; omega
  · have e : (PSeed.mk a0 a1 a2 a3).val * 2 ^ s =
        a0 * 2 ^ s + 2 ^ 12 * (a1 * 2 ^ s) + 2 ^ 24 * (a2 * 2 ^ s) + 2 ^ 36 * (a3 * 2 ^ s) := by
      simp only [PSeed.val, Nat.add_mul, Nat.mul_assoc]
    rw [e]
    simp only [PSeed.val]
    generalize a0 * 2 ^ s = x0
    generalize a1 * 2 ^ s = x1
    generalize a2 * 2 ^ s = x2
    generalize a3 * 2 ^ s = x3
    omega

theorem roundTo_le {p n k : Nat} (hp : 0 < p) (h : n ≤ 2 ^ k) : roundTo p n ≤ 2 ^ k := by
  unfold roundTo
  split
  · exact h
  · next hn =>
    have hn : 2 ^ p ≤ n := by omega
    have hn0 : n ≠ 0 := by have := Nat.two_pow_pos p; omega
    have hlog1 : 2 ^ n.log2 ≤ n := Nat.log2_self_le hn0
    have hlog2 : n < 2 ^ (n.log2 + 1) := Nat.lt_log2_self
    have hpl : p ≤ n.log2 := by
      have : 2 ^ p < 2 ^ (n.log2 + 1) := Nat.lt_of_le_of_lt hn hlog2
      have := (Nat.pow_lt_pow_iff_right (by omega : 1 < 2)).1 this
      omega
    have hlk : n.log2 ≤ k := by
      have : 2 ^ n.log2 ≤ 2 ^ k := Nat.le_trans hlog1 h
      exact (Nat.pow_le_pow_iff_right (by omega : 1 < 2)).1 this
    have hspl : 2 ^ (n.log2 + 1) = 2 ^ p * 2 ^ (n.log2 + 1 - p) := by
      rw [← Nat.pow_add]; congr 1; omega
    simp only []
    generalize hsh : n.log2 + 1 - p = sh at *
    have hq : n / 2 ^ sh < 2 ^ p := by
      apply Nat.div_lt_of_lt_mul; rw [Nat.mul_comm, ← hspl]; exact hlog2
    have hdm := Nat.div_add_mod n (2 ^ sh)
    rcases Nat.lt_or_ge n.log2 k with hlt | hge
    · have hle : 2 ^ p * 2 ^ sh ≤ 2 ^ k := by
        rw [← hspl]; exact Nat.pow_le_pow_right (by omega) hlt
      split
      · exact Nat.le_trans (Nat.mul_le_mul_right _ hq) hle
      · exact Nat.le_trans (Nat.mul_le_mul_right _ (Nat.le_of_lt hq)) hle
    · -- then n = 2^k, a power of two
      have hk : n.log2 = k := by omega
      have hnk : n = 2 ^ k := by rw [hk] at hlog1; omega
      have hshk : sh ≤ k := by omega
      have hmod : n % 2 ^ sh = 0 := by
        rw [hnk]
        exact Nat.mod_eq_zero_of_dvd (Nat.pow_dvd_pow 2 hshk)
      have hpos := Nat.two_pow_pos (sh - 1)
      rw [hmod, if_neg (by omega)]
      rw [Nat.mul_comm]
      omega

theorem exact_eq (s : PSeed) : seedToExact s = s.val := by
  simp only [seedToExact, PSeed.val]; omega

theorem roundTo_small {p n : Nat} (h : n < 2 ^ p) : roundTo p n = n := by simp [roundTo, h]

end Verif.Seed
