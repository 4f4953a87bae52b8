import Verif.Seed
/-
C11 and C16: seed arithmetic and the conversion of a seed to a deviate.
-/
namespace Verif.Seed
open Verif Outcome

/-- C11. The product of two well-formed seeds is well-formed, stands for the product modulo 2^47, and is computed
without 32-bit overflow (`mul` returns `ok`). -/
theorem C11_mul (a b : PSeed) (ha : a.Ok) (hb : b.Ok) :
    ∃ c, mul a b = ok c ∧ c.Ok ∧ c.val = a.val * b.val % 2 ^ 47 := mul_spec ha hb

/-- C11. Multiplication determines the seed: the limbs are the unique well-formed ones for that residue. -/
theorem C11_unique (a b c d : PSeed) (ha : a.Ok) (hb : b.Ok) (hd : d.Ok) (hc : mul a b = ok c)
    (h : d.val = a.val * b.val % 2 ^ 47) : d = c := by
  obtain ⟨c', h1, h2, h3⟩ := mul_spec ha hb
  rw [hc] at h1; injection h1 with h1; subst h1
  exact val_inj hd h2 (by rw [h, h3])

/-- C11. Shifting left by up to 12 bits multiplies by a power of two modulo 2^47. -/
theorem C11_shl (a : PSeed) (ha : a.Ok) (s : Nat) (hs : s ≤ 12) :
    ∃ c, shl a s = ok c ∧ c.Ok ∧ c.val = a.val * 2 ^ s % 2 ^ 47 := shl_spec ha hs

theorem or_pow (k a b x y : Nat) (ha : a < 2 ^ k) (hb : b < 2 ^ k) :
    (a + 2 ^ k * x) ||| (b + 2 ^ k * y) = (a ||| b) + 2 ^ k * (x ||| y) := by
  have hab : a ||| b < 2 ^ k := Nat.or_lt_two_pow ha hb
  rw [Nat.add_comm a, Nat.add_comm b, Nat.add_comm (a ||| b), Nat.two_pow_add_eq_or_of_lt ha, Nat.two_pow_add_eq_or_of_lt hb,
    Nat.two_pow_add_eq_or_of_lt hab]
  have : 2 ^ k * (x ||| y) = 2 ^ k * x ||| 2 ^ k * y := by
    rw [Nat.mul_comm, Nat.mul_comm _ x, Nat.mul_comm _ y, ← Nat.shiftLeft_eq, ← Nat.shiftLeft_eq, ← Nat.shiftLeft_eq, Nat.shiftLeft_or_distrib]
  rw [this]
  ac_rfl

/-- C11. `|` of two well-formed seeds is well-formed and is the bitwise or of the integers they stand for. -/
theorem C11_or (a b : PSeed) (ha : a.Ok) (hb : b.Ok) : (Seed.or a b).Ok ∧ (Seed.or a b).val = a.val ||| b.val := by
  obtain ⟨a0, a1, a2, a3⟩ := ha
  obtain ⟨b0, b1, b2, b3⟩ := hb
  refine ⟨⟨Nat.or_lt_two_pow (n := 12) a0 b0, Nat.or_lt_two_pow (n := 12) a1 b1, Nat.or_lt_two_pow (n := 12) a2 b2,
    Nat.or_lt_two_pow (n := 11) a3 b3⟩, ?_⟩
  have e : ∀ s : PSeed, s.val = s.e0 + 2 ^ 12 * (s.e1 + 2 ^ 12 * (s.e2 + 2 ^ 12 * s.e3)) := by
    intro s; simp only [PSeed.val]; ring
  rw [e, e, e, or_pow 12 _ _ _ _ a0 b0, or_pow 12 _ _ _ _ a1 b1, or_pow 12 _ _ _ _ a2 b2]
  rfl

example : (Seed.or ⟨1, 2, 4, 1024⟩ ⟨2, 2, 3, 1023⟩) = ⟨3, 2, 7, 2047⟩ := rfl

/-- C11. Any 32-bit int assigned to a seed gives a well-formed seed congruent to it modulo 2^36 (a negative int is
therefore not congruent modulo 2^47). -/
theorem C11_assign (x : Int) : (assign x).Ok ∧ ((assign x).val : Int) = x % 2 ^ 36 := assign_val x

/-- C11. `==` on seeds is equality of the represented integers. -/
theorem C11_eq (a b : PSeed) (ha : a.Ok) (hb : b.Ok) : eqSeed a b = true ↔ a.val = b.val := by
  have : eqSeed a b = true ↔ a = b := by
    cases a; cases b
    simp [eqSeed, and_assoc]
  rw [this]
  exact ⟨fun h => by rw [h], fun h => val_inj ha hb h⟩

/-- C16. Without rounding the deviate is val/2^47: in [0,1) and different for different seeds. -/
theorem C16_exact (s t : PSeed) (hs : s.Ok) (ht : t.Ok) :
    seedToExact s = s.val ∧ seedToExact s < 2 ^ 47 ∧ (seedToExact s = seedToExact t → s = t) := by
  refine ⟨exact_eq s, by rw [exact_eq]; exact val_lt hs, fun h => val_inj hs ht ?_⟩
  rwa [exact_eq, exact_eq] at h

/-- C16. In any precision the deviate lies in [0,1] (closed). -/
theorem C16_closed (p : Nat) (hp : 0 < p) (s : PSeed) (hs : s.Ok) :
    seedToFloat p s ≤ 2 ^ 47 ∧ sranfValue p s ≤ 2 ^ 47 := by
  obtain ⟨h0, h1, h2, h3⟩ := hs
  have key : seedToFloat p s ≤ 2 ^ 47 := by
    unfold seedToFloat
    have d0 : roundTo p s.e0 ≤ 2 ^ 12 := roundTo_le hp (by omega)
    have d1 : roundTo p (s.e1 * 2 ^ 12 + roundTo p s.e0) ≤ 2 ^ 24 := roundTo_le hp (by omega)
    have d2 : roundTo p (s.e2 * 2 ^ 24 + roundTo p (s.e1 * 2 ^ 12 + roundTo p s.e0)) ≤ 2 ^ 36 :=
      roundTo_le hp (by omega)
    exact roundTo_le hp (by omega)
  exact ⟨key, roundTo_le (by omega) key⟩

/-- C16. With at least 47 significant bits (double precision) nothing is rounded before the cast to float. -/
theorem C16_double (p : Nat) (hp : 47 ≤ p) (s : PSeed) (hs : s.Ok) : seedToFloat p s = s.val := by
  have hlt : ∀ n, n < 2 ^ 47 → roundTo p n = n := fun n hn =>
    roundTo_small (lt_of_lt_of_le hn (Nat.pow_le_pow_right (by omega) hp))
  obtain ⟨h0, h1, h2, h3⟩ := hs
  simp only [seedToFloat, PSeed.val]
  rw [hlt s.e0 (by omega), hlt (s.e1 * 2 ^ 12 + s.e0) (by omega),
    hlt (s.e2 * 2 ^ 24 + (s.e1 * 2 ^ 12 + s.e0)) (by omega), hlt _ (by omega)]
  omega

/-- C16. The cast of the exact deviate to float is 1 for exactly the top 2^22 seeds, and below 1 for every other. -/
theorem C16_float_one (n : Nat) (hn : n < 2 ^ 47) : roundTo 24 n = 2 ^ 47 ↔ 2 ^ 47 - 2 ^ 22 ≤ n := by
  by_cases h46 : 2 ^ 46 ≤ n
  · have hlog : n.log2 = 46 := (Nat.log2_eq_iff (by omega)).2 ⟨h46, hn⟩
    have hsmall : ¬ n < 2 ^ 24 := by omega
    unfold roundTo
    rw [if_neg hsmall, hlog]
    simp only [show 46 + 1 - 24 = 23 from rfl, show 23 - 1 = 22 from rfl]
    split <;> omega
  · have := roundTo_le (p := 24) (n := n) (k := 46) (by omega) (by omega)
    constructor
    · intro h; omega
    · intro h; omega

/-- C16, refutation of the half-open interval in single precision: with `Real = float` the largest seed gives
exactly 1.0. -/
theorem C16_reaches_one : (⟨4095, 4095, 4095, 2047⟩ : PSeed).Ok ∧
    seedToFloat 24 ⟨4095, 4095, 4095, 2047⟩ = 2 ^ 47 ∧ sranfValue 53 ⟨4095, 4095, 4095, 2047⟩ = 2 ^ 47 := by decide

/-! ### witnesses -/
example : (⟨11, 0, 0, 0⟩ : PSeed).Ok ∧ (⟨1645, 712, 1498, 1222⟩ : PSeed).Ok := by decide
example : mul ⟨4095, 4095, 4095, 2047⟩ ⟨4095, 4095, 4095, 2047⟩ = ok ⟨1, 0, 0, 0⟩ := by decide
example : mul ⟨11, 0, 0, 0⟩ ⟨1645, 712, 1498, 1222⟩ = ok ⟨1711, 3740, 95, 1158⟩ := by decide
example : shl ⟨4095, 1, 2, 2047⟩ 12 = ok ⟨0, 4095, 1, 2⟩ := by decide
example : eqSeed ⟨1, 2, 3, 4⟩ ⟨1, 2, 3, 5⟩ = false := by decide
-- an int with sign: -1 is assigned as 2^36 - 1
example : (assign (-1)).val = 2 ^ 36 - 1 := by decide
example : seedToFloat 24 ⟨1711, 3740, 95, 1158⟩ < 2 ^ 47 := by decide

end Verif.Seed
