import Verif.FloatText
import Mathlib.Tactic.Linarith
import Mathlib.Tactic.Positivity
import Mathlib.Tactic.Ring
import Mathlib.Tactic.FieldSimp
import Mathlib.Tactic.NormNum
/-
Rounding to binary and to decimal digits.
-/
namespace Verif.FloatText
open Verif

/-! ## the next integer -/

theorem halfEven_err (r : ℚ) : |(halfEven r : ℚ) - r| ≤ 1 / 2 := by
  have h1 := Int.floor_le r
  have h2 := Int.lt_floor_add_one r
  unfold halfEven
  dsimp only
  split_ifs <;> rw [abs_le] <;> push_cast <;> constructor <;> linarith

theorem halfEven_of_near {r : ℚ} {n : Int} (h : |r - n| < 1 / 2) : halfEven r = n := by
  have h1 := halfEven_err r
  rw [abs_le] at h1
  rw [abs_lt] at h
  have a : ((halfEven r : ℤ) : ℚ) - n < 1 := by linarith
  have b : (-1 : ℚ) < ((halfEven r : ℤ) : ℚ) - n := by linarith
  have a' : halfEven r - n < 1 := by exact_mod_cast a
  have b' : -1 < halfEven r - n := by exact_mod_cast b
  omega

theorem halfEven_best (r : ℚ) (n : Int) : |(halfEven r : ℚ) - r| ≤ |(n : ℚ) - r| := by
  by_cases h : |(n : ℚ) - r| < 1 / 2
  · rw [abs_sub_comm] at h
    rw [halfEven_of_near h]
  · exact (halfEven_err r).trans (not_lt.1 h)

theorem halfEven_nonneg {r : ℚ} (h : 0 ≤ r) : 0 ≤ halfEven r := by
  by_contra hn
  have : halfEven r ≤ -1 := by omega
  have h2 : ((halfEven r : ℤ) : ℚ) ≤ -1 := by exact_mod_cast this
  have h1 := halfEven_err r
  rw [abs_le] at h1
  linarith

theorem halfEven_le {r : ℚ} {n : Int} (h : r ≤ n) : halfEven r ≤ n := by
  by_contra hn
  have : n + 1 ≤ halfEven r := by omega
  have h2 : (n : ℚ) + 1 ≤ ((halfEven r : ℤ) : ℚ) := by exact_mod_cast this
  have h1 := halfEven_err r
  rw [abs_le] at h1
  linarith

theorem le_halfEven {r : ℚ} {n : Int} (h : (n : ℚ) ≤ r) : n ≤ halfEven r := by
  by_contra hn
  have : halfEven r + 1 ≤ n := by omega
  have h2 : ((halfEven r : ℤ) : ℚ) + 1 ≤ n := by exact_mod_cast this
  have h1 := halfEven_err r
  rw [abs_le] at h1
  linarith

/-- of two integers at the same distance, the even one -/
theorem halfEven_tie {r : ℚ} (h : |(halfEven r : ℚ) - r| = 1 / 2) : halfEven r % 2 = 0 := by
  have h1 := Int.floor_le r
  have h2 := Int.lt_floor_add_one r
  revert h
  unfold halfEven
  dsimp only
  split_ifs with a b c
  · intro h
    rw [abs_of_nonpos (by linarith)] at h
    linarith
  · intro h
    push_cast at h
    rw [abs_of_nonneg (by linarith)] at h
    linarith
  · intro _; exact c
  · intro _; omega

/-! ## multiples of a unit -/

theorem near_grid {x g : ℚ} (hg : 0 < g) {n : Int} (h : |x - n * g| < g / 2) : halfEven (x / g) = n := by
  apply halfEven_of_near
  have : x / g - n = (x - n * g) / g := by field_simp
  rw [this, abs_div, abs_of_pos hg, div_lt_iff₀ hg]
  linarith

theorem grid_best {x g : ℚ} (hg : 0 < g) (n : Int) : |halfEven (x / g) * g - x| ≤ |n * g - x| := by
  have e : ∀ k : ℤ, (k : ℚ) * g - x = (k - x / g) * g := by intro k; field_simp
  rw [e, e, abs_mul, abs_mul]
  exact mul_le_mul_of_nonneg_right (halfEven_best _ n) (abs_nonneg _)

theorem grid_err {x g : ℚ} (hg : 0 < g) : |halfEven (x / g) * g - x| ≤ g / 2 := by
  have e : (halfEven (x / g) : ℚ) * g - x = (halfEven (x / g) - x / g) * g := by field_simp
  rw [e, abs_mul, abs_of_pos hg]
  have := mul_le_mul_of_nonneg_right (halfEven_err (x / g)) hg.le
  linarith

/-! ## binary -/

theorem zp (e : Int) : (0 : ℚ) < 2 ^ e := zpow_pos (by norm_num) e
theorem zt (e : Int) : (0 : ℚ) < 10 ^ e := zpow_pos (by norm_num) e

theorem rep_mul {m : Nat} {e e' : Int} (h : e ≤ e') : ((m : ℚ) * 2 ^ e') = ((m * 2 ^ (e' - e).toNat : Nat) : ℚ) * 2 ^ e := by
  have : e' = ((e' - e).toNat : Int) + e := by omega
  conv_lhs => rw [this]
  rw [zpow_add₀ (by norm_num), zpow_natCast]
  push_cast
  ring

/-- distance of two numbers of a format -/
theorem gap {F : Fmt} {x z : ℚ} (hx : Rep F x) (hz : Rep F z) (h : x < z) : z * 2 ^ (-(F.p : Int)) ≤ z - x := by
  obtain ⟨m, e, rfl, hm, -, -⟩ := hz
  obtain ⟨m', e', rfl, hm', -, -⟩ := hx
  have key : ∀ (c : Int) (a b : Nat), (b : ℚ) * 2 ^ c < a * 2 ^ c → (b < 2 ^ F.p) →
      (a : ℚ) * 2 ^ c * 2 ^ (-(F.p : Int)) ≤ a * 2 ^ c - b * 2 ^ c := by
    intro c a b hab hb
    have hab' : b < a := by
      have := lt_of_mul_lt_mul_right hab (zp c).le
      exact_mod_cast this
    have hp : (0 : ℚ) < 2 ^ F.p := by positivity
    rw [zpow_neg, zpow_natCast]
    have h1 : (b : ℚ) ≤ 2 ^ F.p - 1 := by
      have : (b : ℚ) + 1 ≤ 2 ^ F.p := by exact_mod_cast hb
      linarith
    have h2 : (b : ℚ) + 1 ≤ a := by exact_mod_cast hab'
    -- a / 2^p <= a - b
    have h3 : (a : ℚ) * (2 ^ F.p)⁻¹ ≤ a - b := by
      rw [← div_eq_mul_inv, div_le_iff₀ hp]
      have hp1 : (1 : ℚ) ≤ 2 ^ F.p := one_le_pow₀ (by norm_num)
      nlinarith
    calc (a : ℚ) * 2 ^ c * (2 ^ F.p)⁻¹ = (a * (2 ^ F.p)⁻¹) * 2 ^ c := by ring
      _ ≤ (a - b) * 2 ^ c := mul_le_mul_of_nonneg_right h3 (zp c).le
      _ = _ := by ring
  rcases le_total e e' with he | he
  · rw [rep_mul he] at h ⊢
    have hab := lt_of_mul_lt_mul_right h (zp e).le
    have : m' * 2 ^ (e' - e).toNat < m := by exact_mod_cast hab
    exact key e m _ h (by omega)
  · rw [rep_mul he] at h ⊢
    exact key e' _ m' h hm'

theorem rep_nonneg {F : Fmt} {x : ℚ} (h : Rep F x) : 0 ≤ x := by
  obtain ⟨m, e, rfl, -⟩ := h
  exact mul_nonneg (Nat.cast_nonneg _) (zp _).le

theorem rep_top {F : Fmt} {x : ℚ} (h : Rep F x) : x ≤ F.top := by
  obtain ⟨m, e, rfl, hm, -, he⟩ := h
  have h1 : (m : ℚ) ≤ 2 ^ F.p - 1 := by
    have : (m : ℚ) + 1 ≤ 2 ^ F.p := by exact_mod_cast hm
    linarith
  have h2 : (2 : ℚ) ^ e ≤ 2 ^ F.emax := zpow_le_zpow_right₀ (by norm_num) he
  calc (m : ℚ) * 2 ^ e ≤ (2 ^ F.p - 1) * 2 ^ e := mul_le_mul_of_nonneg_right h1 (zp e).le
    _ ≤ _ := mul_le_mul_of_nonneg_left h2 (by have : (0 : ℚ) ≤ m := by positivity
                                              linarith)

theorem top_rep {F : Fmt} (h : F.emin ≤ F.emax) : Rep F F.top := by
  refine ⟨2 ^ F.p - 1, F.emax, ?_, ?_, h, le_rfl⟩
  · have : 1 ≤ 2 ^ F.p := Nat.one_le_two_pow
    push_cast [Nat.cast_sub this]
    rfl
  · have : 0 < 2 ^ F.p := by positivity
    omega

/-- the unit in the last place -/
abbrev unit (F : Fmt) (v : ℚ) : Int := max F.emin (Int.log 2 v - F.p + 1)

theorem log2_le {v : ℚ} (h : 0 < v) : (2 : ℚ) ^ Int.log 2 v ≤ v := by
  have := Int.zpow_log_le_self (b := 2) (by norm_num) h
  exact_mod_cast this
theorem lt_log2 (v : ℚ) : v < (2 : ℚ) ^ (Int.log 2 v + 1) := by
  have := Int.lt_zpow_succ_log_self (b := 2) (by norm_num) v
  exact_mod_cast this
theorem log10_le {v : ℚ} (h : 0 < v) : (10 : ℚ) ^ Int.log 10 v ≤ v := by
  have := Int.zpow_log_le_self (b := 10) (by norm_num) h
  exact_mod_cast this
theorem lt_log10 (v : ℚ) : v < (10 : ℚ) ^ (Int.log 10 v + 1) := by
  have := Int.lt_zpow_succ_log_self (b := 10) (by norm_num) v
  exact_mod_cast this

/-- rounding is as near as any number of the format -/
theorem round_best {F : Fmt} (hp : 0 < F.p) {v y : ℚ} (hv : 0 < v) (hy : Rep F y) : |round F v - v| ≤ |y - v| := by
  obtain ⟨m, e, rfl, hm, h1, h2⟩ := hy
  show |halfEven (v / 2 ^ unit F v) * 2 ^ unit F v - v| ≤ _
  by_cases he : unit F v ≤ e
  · rw [rep_mul he]
    exact_mod_cast grid_best (zp _) ((m * 2 ^ (e - unit F v).toNat : Nat) : Int)
  · have hu : unit F v = Int.log 2 v - F.p + 1 := by
      unfold unit at *
      omega
    rw [hu]
    have hk := grid_best (x := v) (zp (Int.log 2 v - F.p + 1)) ((2 ^ (F.p - 1) : Nat) : Int)
    refine hk.trans ?_
    have e1 : (((2 ^ (F.p - 1) : Nat) : Int) : ℚ) * 2 ^ (Int.log 2 v - F.p + 1) = 2 ^ Int.log 2 v := by
      push_cast
      rw [← zpow_natCast, ← zpow_add₀ (by norm_num)]
      congr 1
      omega
    rw [e1]
    have h3 : (m : ℚ) * 2 ^ e ≤ 2 ^ Int.log 2 v := by
      have a : (m : ℚ) ≤ 2 ^ F.p := by exact_mod_cast hm.le
      have b : (2 : ℚ) ^ e ≤ 2 ^ (Int.log 2 v - F.p) := zpow_le_zpow_right₀ (by norm_num) (by omega)
      calc (m : ℚ) * 2 ^ e ≤ 2 ^ F.p * 2 ^ (Int.log 2 v - F.p) := mul_le_mul a b (zp _).le (by positivity)
        _ = _ := by rw [← zpow_natCast, ← zpow_add₀ (by norm_num)]; congr 1; omega
    have h4 := log2_le hv
    rw [abs_of_nonpos (by linarith), abs_of_nonpos (by linarith)]
    linarith

theorem round_rep {F : Fmt} (hp : 0 < F.p) {v : ℚ} (hv : 0 < v) (hm : F.emin ≤ F.emax) (ht : round F v ≤ F.top) : Rep F (round F v) := by
  have hr : round F v = halfEven (v / 2 ^ unit F v) * 2 ^ unit F v := rfl
  have h0 : 0 ≤ halfEven (v / 2 ^ unit F v) := halfEven_nonneg (div_nonneg hv.le (zp _).le)
  obtain ⟨n, hn⟩ := Int.eq_ofNat_of_zero_le h0
  have hle : halfEven (v / 2 ^ unit F v) ≤ ((2 ^ F.p : Nat) : Int) := by
    apply halfEven_le
    rw [div_le_iff₀ (zp _)]
    have h1 := lt_log2 v
    have h2 : (2 : ℚ) ^ (Int.log 2 v + 1) ≤ 2 ^ ((F.p : Int) + unit F v) := zpow_le_zpow_right₀ (by norm_num) (by unfold unit; omega)
    rw [zpow_add₀ (by norm_num) (F.p : Int), zpow_natCast] at h2
    push_cast
    linarith
  rw [hn] at hr hle
  rw [hr] at ht ⊢
  have hn2 : n ≤ 2 ^ F.p := by exact_mod_cast hle
  have hem : F.emin ≤ unit F v := le_max_left _ _
  have hp' : 2 ^ F.p = 2 * 2 ^ (F.p - 1) := by
    rw [← pow_succ']
    congr 1
    omega
  have hpos : 0 < 2 ^ (F.p - 1) := Nat.two_pow_pos _
  have top_lt : F.top < 2 ^ F.p * 2 ^ F.emax := by
    unfold Fmt.top
    have := zp F.emax
    nlinarith
  rcases Nat.lt_or_ge n (2 ^ F.p) with h | h
  · by_cases he : unit F v ≤ F.emax
    · exact ⟨n, _, rfl, h, hem, he⟩
    · -- exponent too large: then the value is beyond the top, or zero
      exfalso
      have hu : unit F v = Int.log 2 v - F.p + 1 := by unfold unit at *; omega
      have hn3 : ((2 ^ (F.p - 1) : Nat) : Int) ≤ halfEven (v / 2 ^ unit F v) := by
        apply le_halfEven
        rw [le_div_iff₀ (zp _), hu]
        push_cast
        rw [← zpow_natCast, ← zpow_add₀ (by norm_num)]
        refine le_trans (le_of_eq ?_) (log2_le hv)
        congr 1
        omega
      rw [hn] at hn3
      have hn4 : 2 ^ (F.p - 1) ≤ n := by exact_mod_cast hn3
      have h5 : (2 : ℚ) ^ (F.emax + 1) ≤ 2 ^ unit F v := zpow_le_zpow_right₀ (by norm_num) (by omega)
      have h6 : ((2 : ℚ) ^ (F.p - 1)) ≤ n := by exact_mod_cast hn4
      have h7 : (2 : ℚ) ^ F.p = 2 * 2 ^ (F.p - 1) := by exact_mod_cast hp'
      have h8 : (2 : ℚ) ^ (F.p - 1) * 2 ^ (F.emax + 1) ≤ n * 2 ^ unit F v := mul_le_mul h6 h5 (zp _).le (by positivity)
      rw [zpow_add₀ (by norm_num), zpow_one] at h8
      rw [h7] at top_lt
      push_cast at ht
      nlinarith
  · have hn5 : n = 2 ^ F.p := by omega
    subst hn5
    have e1 : (((2 ^ F.p : Nat) : Int) : ℚ) * 2 ^ unit F v = ((2 ^ (F.p - 1) : Nat) : ℚ) * 2 ^ (unit F v + 1) := by
      rw [zpow_add₀ (by norm_num), zpow_one]
      have h7 : (2 : ℚ) ^ F.p = 2 * 2 ^ (F.p - 1) := by exact_mod_cast hp'
      push_cast
      rw [h7]
      ring
    refine ⟨2 ^ (F.p - 1), unit F v + 1, e1, by omega, by omega, ?_⟩
    by_contra he
    have h5 : (2 : ℚ) ^ F.emax ≤ 2 ^ unit F v := zpow_le_zpow_right₀ (by norm_num) (by omega)
    have h8 : (2 : ℚ) ^ F.p * 2 ^ F.emax ≤ 2 ^ F.p * 2 ^ unit F v := mul_le_mul_of_nonneg_left h5 (by positivity)
    push_cast at ht
    linarith

theorem round_self {F : Fmt} (hp : 0 < F.p) {x : ℚ} (hx : 0 < x) (h : Rep F x) : round F x = x := by
  have := round_best hp hx h
  rw [sub_self, abs_zero] at this
  have := abs_eq_zero.1 (le_antisymm this (abs_nonneg _))
  linarith

theorem round_nearest {F : Fmt} (hp : 0 < F.p) {v : ℚ} (hv : 0 < v) (hm : F.emin ≤ F.emax) (ht : round F v ≤ F.top) : Nearest F v (round F v) :=
  ⟨round_rep hp hv hm ht, fun _ hy => round_best hp hv hy⟩

/-- error of rounding to a normal number -/
theorem round_err {F : Fmt} {v : ℚ} (hv : 0 < v) (hn : F.emin ≤ Int.log 2 v - F.p + 1) : |round F v - v| ≤ v * 2 ^ (-(F.p : Int)) := by
  have h := grid_err (x := v) (zp (unit F v))
  refine h.trans ?_
  have hu : unit F v = Int.log 2 v - F.p + 1 := by unfold unit; omega
  have h1 := log2_le hv
  have e : (2 : ℚ) ^ unit F v / 2 = 2 ^ Int.log 2 v * 2 ^ (-(F.p : Int)) := by
    rw [hu, ← zpow_add₀ (by norm_num), div_eq_iff (by norm_num)]
    rw [show (2 : ℚ) ^ (Int.log 2 v + -(F.p : Int)) * 2 = 2 ^ (Int.log 2 v + -(F.p : Int)) * 2 ^ (1 : Int) by norm_num, ← zpow_add₀ (by norm_num)]
    congr 1
  rw [e]
  exact mul_le_mul_of_nonneg_right h1 (zp _).le

theorem round_nonneg {F : Fmt} {v : ℚ} (hv : 0 < v) : 0 ≤ round F v := by
  have h0 : 0 ≤ halfEven (v / 2 ^ unit F v) := halfEven_nonneg (div_nonneg hv.le (zp _).le)
  have : (0 : ℚ) ≤ (halfEven (v / 2 ^ unit F v) : ℚ) := by exact_mod_cast h0
  exact mul_nonneg this (zp _).le

/-! ## decimal -/

/-- the value of digits and exponent -/
def decVal (P : Nat) (d : Nat × Int) : ℚ := d.1 * 10 ^ (d.2 - P + 1)

theorem dec_cases {P : Nat} (hP : 0 < P) {x : ℚ} (hx : 0 < x) :
    decVal P (dec P x) = halfEven (x / 10 ^ (Int.log 10 x - P + 1)) * 10 ^ (Int.log 10 x - P + 1) ∧
    10 ^ (P - 1) ≤ (dec P x).1 ∧ (dec P x).1 < 10 ^ P := by
  have h0 : 0 ≤ halfEven (x / 10 ^ (Int.log 10 x - P + 1)) := halfEven_nonneg (div_nonneg hx.le (zt _).le)
  obtain ⟨n, hn⟩ := Int.eq_ofNat_of_zero_le h0
  have hP' : 10 ^ P = 10 * 10 ^ (P - 1) := by rw [← pow_succ']; congr 1; omega
  have hlo : ((10 ^ (P - 1) : Nat) : Int) ≤ halfEven (x / 10 ^ (Int.log 10 x - P + 1)) := by
    apply le_halfEven
    rw [le_div_iff₀ (zt _)]
    push_cast
    rw [← zpow_natCast, ← zpow_add₀ (by norm_num)]
    refine le_trans (le_of_eq ?_) (log10_le hx)
    congr 1
    omega
  have hhi : halfEven (x / 10 ^ (Int.log 10 x - P + 1)) ≤ ((10 ^ P : Nat) : Int) := by
    apply halfEven_le
    rw [div_le_iff₀ (zt _)]
    push_cast
    rw [← zpow_natCast, ← zpow_add₀ (by norm_num)]
    refine le_trans (lt_log10 x).le (le_of_eq ?_)
    congr 1
    omega
  rw [hn] at hlo hhi
  have hlo' : 10 ^ (P - 1) ≤ n := by exact_mod_cast hlo
  have hhi' : n ≤ 10 ^ P := by exact_mod_cast hhi
  have hpos : 0 < 10 ^ (P - 1) := Nat.pos_of_ne_zero (by positivity)
  unfold dec decVal
  dsimp only
  rw [hn]
  simp only [Int.toNat_natCast]
  split_ifs with h
  · subst h
    refine ⟨?_, le_rfl, by omega⟩
    push_cast
    rw [← zpow_natCast, ← zpow_natCast, ← zpow_add₀ (by norm_num), ← zpow_add₀ (by norm_num)]
    congr 1
    omega
  · exact ⟨by push_cast; ring, hlo', by omega⟩

theorem dec_pos {P : Nat} (hP : 0 < P) {x : ℚ} (hx : 0 < x) : 0 < decVal P (dec P x) := by
  have h := (dec_cases hP hx).2.1
  have : 0 < (dec P x).1 := lt_of_lt_of_le (Nat.pos_of_ne_zero (by positivity)) h
  have : (0 : ℚ) < (dec P x).1 := by exact_mod_cast this
  exact mul_pos this (zt _)

theorem dec_dec {P : Nat} (hP : 0 < P) {x : ℚ} (hx : 0 < x) : Dec P (decVal P (dec P x)) := by
  have h := dec_cases hP hx
  refine ⟨_, _, rfl, ?_, h.2.2⟩
  exact lt_of_lt_of_le (Nat.pos_of_ne_zero (by positivity)) h.2.1

theorem dec_err {P : Nat} (hP : 0 < P) {x : ℚ} (hx : 0 < x) : |decVal P (dec P x) - x| ≤ x * 10 ^ (1 - (P : Int)) / 2 := by
  rw [(dec_cases hP hx).1]
  refine (grid_err (zt _)).trans ?_
  have h1 := log10_le hx
  have e : (10 : ℚ) ^ (Int.log 10 x - P + 1) = 10 ^ Int.log 10 x * 10 ^ (1 - (P : Int)) := by
    rw [← zpow_add₀ (by norm_num)]; congr 1; omega
  rw [e]
  have := mul_le_mul_of_nonneg_right h1 (zt (1 - (P : Int))).le
  linarith

theorem dec_best {P : Nat} (hP : 0 < P) {x : ℚ} (hx : 0 < x) : NearestDec P x (decVal P (dec P x)) := by
  refine ⟨dec_dec hP hx, ?_⟩
  rintro y ⟨a, s, rfl, ha, ha'⟩
  rw [(dec_cases hP hx).1]
  set q := Int.log 10 x - P + 1 with hq
  by_cases hs : q ≤ s
  · have e : (a : ℚ) * 10 ^ s = (((a * 10 ^ (s - q).toNat : Nat) : Int) : ℚ) * 10 ^ q := by
      have : s = ((s - q).toNat : Int) + q := by omega
      conv_lhs => rw [this]
      rw [zpow_add₀ (by norm_num), zpow_natCast]
      push_cast
      ring
    rw [e]
    exact grid_best (zt _) _
  · have hk := grid_best (x := x) (zt q) ((10 ^ (P - 1) : Nat) : Int)
    refine hk.trans ?_
    have e1 : (((10 ^ (P - 1) : Nat) : Int) : ℚ) * 10 ^ q = 10 ^ Int.log 10 x := by
      push_cast
      rw [← zpow_natCast, ← zpow_add₀ (by norm_num)]
      congr 1
      omega
    rw [e1]
    have h3 : (a : ℚ) * 10 ^ s ≤ 10 ^ Int.log 10 x := by
      have b1 : (a : ℚ) ≤ 10 ^ P := by exact_mod_cast ha'.le
      have b2 : (10 : ℚ) ^ s ≤ 10 ^ (Int.log 10 x - P) := zpow_le_zpow_right₀ (by norm_num) (by omega)
      calc (a : ℚ) * 10 ^ s ≤ 10 ^ P * 10 ^ (Int.log 10 x - P) := mul_le_mul b1 b2 (zt _).le (by positivity)
        _ = _ := by rw [← zpow_natCast, ← zpow_add₀ (by norm_num)]; congr 1; omega
    have h4 := log10_le hx
    rw [abs_of_nonpos (by linarith), abs_of_nonpos (by linarith)]
    linarith

/-- the digits of a number near a number of `P` digits are its digits -/
theorem dec_eq {P a : Nat} {s : Int} (hP : 0 < P) (ha : 10 ^ (P - 1) ≤ a) (ha' : a < 10 ^ P) {v t : ℚ} (hv : 0 < v) (ht : 2 * 10 ^ P * t < 1)
    (h : |v - a * 10 ^ s| ≤ a * 10 ^ s * t) : dec P v = (a, s + P - 1) := by
  have hP' : 10 ^ P = 10 * 10 ^ (P - 1) := by rw [← pow_succ']; congr 1; omega
  have hs := zt s
  have haq : (a : ℚ) + 1 ≤ 10 ^ P := by exact_mod_cast ha'
  have haq' : (10 : ℚ) ^ (P - 1) ≤ a := by exact_mod_cast ha
  have hPq : (10 : ℚ) ^ P = 10 * 10 ^ (P - 1) := by exact_mod_cast hP'
  have ht0 : 0 ≤ t := by
    by_contra hn
    have h1 : (0 : ℚ) < a := lt_of_lt_of_le (by positivity) haq'
    have h2 := abs_nonneg (v - a * 10 ^ s)
    have h3 : (a : ℚ) * 10 ^ s * t < 0 := mul_neg_of_pos_of_neg (mul_pos h1 hs) (not_le.1 hn)
    linarith
  have hat : (a : ℚ) * t < 1 / 2 := by nlinarith
  have hab2 : |v - a * 10 ^ s| < 10 ^ s / 2 := by
    refine lt_of_le_of_lt h ?_
    have := mul_lt_mul_of_pos_right hat hs
    linarith
  have hab := abs_lt.1 hab2
  have hup : v < 10 ^ (s + P) := by
    rw [zpow_add₀ (by norm_num), zpow_natCast]
    nlinarith
  by_cases hc : (10 : ℚ) ^ (s + P - 1) ≤ v
  · have hl : Int.log 10 v = s + P - 1 := by
      apply le_antisymm
      · have : Int.log 10 v < s + P := by
          by_contra hn
          have := zpow_le_zpow_right₀ (by norm_num : (1 : ℚ) ≤ 10) (not_lt.1 hn)
          have := log10_le hv
          linarith
        omega
      · by_contra hn
        have := zpow_le_zpow_right₀ (by norm_num : (1 : ℚ) ≤ 10) (show Int.log 10 v + 1 ≤ s + P - 1 by omega)
        have := lt_log10 v
        linarith
    have hh : halfEven (v / 10 ^ s) = (a : Int) := near_grid hs (by push_cast; exact hab2)
    unfold dec
    dsimp only
    rw [hl, show s + P - 1 - P + 1 = s by ring, hh, Int.toNat_natCast, if_neg (by omega)]
  · rw [not_le] at hc
    -- the power of ten itself
    have h10 : (10 : ℚ) ^ (s + P - 1) = 10 ^ (P - 1) * 10 ^ s := by
      rw [← zpow_natCast, ← zpow_add₀ (by norm_num)]; congr 1; omega
    have ha2 : a = 10 ^ (P - 1) := by
      by_contra hne
      have : 10 ^ (P - 1) + 1 ≤ a := by omega
      have : (10 : ℚ) ^ (P - 1) + 1 ≤ a := by exact_mod_cast this
      nlinarith
    have hlow : (10 : ℚ) ^ (s + P - 2) ≤ v := by
      have e : (10 : ℚ) ^ (s + P - 1) = 10 * 10 ^ (s + P - 2) := by
        rw [show s + (P : Int) - 1 = 1 + (s + P - 2) by ring, zpow_add₀ (by norm_num), zpow_one]
      have h1 : (10 : ℚ) ^ (P - 1) * 10 ^ s ≤ a * 10 ^ s := mul_le_mul_of_nonneg_right haq' hs.le
      have h2 : (10 : ℚ) ^ s ≤ 10 ^ (P - 1) * 10 ^ s := le_mul_of_one_le_left hs.le (one_le_pow₀ (by norm_num))
      linarith
    have hl : Int.log 10 v = s + P - 2 := by
      apply le_antisymm
      · by_contra hn
        have := zpow_le_zpow_right₀ (by norm_num : (1 : ℚ) ≤ 10) (show s + P - 1 ≤ Int.log 10 v by omega)
        have := log10_le hv
        linarith
      · by_contra hn
        have := zpow_le_zpow_right₀ (by norm_num : (1 : ℚ) ≤ 10) (show Int.log 10 v + 1 ≤ s + P - 2 by omega)
        have := lt_log10 v
        linarith
    have e1 : (10 : ℚ) ^ s = 10 * 10 ^ (s - 1) := by
      rw [show s = 1 + (s - 1) by ring, zpow_add₀ (by norm_num), zpow_one]; ring_nf
    have hh : halfEven (v / 10 ^ (s - 1)) = ((10 ^ P : Nat) : Int) := by
      apply near_grid (zt _)
      have e2 : (((10 ^ P : Nat) : Int) : ℚ) * 10 ^ (s - 1) = a * 10 ^ s := by
        rw [ha2, e1]
        push_cast
        rw [hPq]
        ring
      rw [e2]
      refine lt_of_le_of_lt h ?_
      rw [← e2]
      push_cast
      have := mul_lt_mul_of_pos_right ht (zt (s - 1))
      linarith
    unfold dec
    dsimp only
    rw [hl, show s + (P : Int) - 2 - P + 1 = s - 1 by ring, hh, Int.toNat_natCast, if_pos rfl, ha2]
    congr 1
    ring

/-- logarithms of numbers between powers -/
theorem log2_eq {v : ℚ} {k : Int} (h1 : 2 ^ k ≤ v) (h2 : v < 2 ^ (k + 1)) : Int.log 2 v = k := by
  have hv : 0 < v := lt_of_lt_of_le (zp k) h1
  apply le_antisymm
  · by_contra hn
    have := zpow_le_zpow_right₀ (by norm_num : (1 : ℚ) ≤ 2) (show k + 1 ≤ Int.log 2 v by omega)
    have := log2_le hv
    linarith
  · by_contra hn
    have := zpow_le_zpow_right₀ (by norm_num : (1 : ℚ) ≤ 2) (show Int.log 2 v + 1 ≤ k by omega)
    have := lt_log2 v
    linarith

theorem log10_eq {v : ℚ} {k : Int} (h1 : 10 ^ k ≤ v) (h2 : v < 10 ^ (k + 1)) : Int.log 10 v = k := by
  have hv : 0 < v := lt_of_lt_of_le (zt k) h1
  apply le_antisymm
  · by_contra hn
    have := zpow_le_zpow_right₀ (by norm_num : (1 : ℚ) ≤ 10) (show k + 1 ≤ Int.log 10 v by omega)
    have := log10_le hv
    linarith
  · by_contra hn
    have := zpow_le_zpow_right₀ (by norm_num : (1 : ℚ) ≤ 10) (show Int.log 10 v + 1 ≤ k by omega)
    have := lt_log10 v
    linarith

theorem round_le_top {F : Fmt} (hp : 0 < F.p) (hm : F.emin ≤ F.emax) {v : ℚ} (hv : 0 < v) (h : v ≤ F.top) : round F v ≤ F.top := by
  have := round_best hp hv (top_rep hm)
  rw [abs_of_nonneg (by linarith : 0 ≤ F.top - v)] at this
  have := le_abs_self (round F v - v)
  linarith

/-- rounding gives a number of a format with the same precision and large enough exponents -/
theorem round_rep_big {F : Fmt} (hp : 0 < F.p) {v : ℚ} (hv : 0 < v) : ∃ E : Int, F.emax ≤ E ∧ Rep ⟨F.p, F.emin, E⟩ (round F v) := by
  have h0 : 0 ≤ halfEven (v / 2 ^ unit F v) := halfEven_nonneg (div_nonneg hv.le (zp _).le)
  refine ⟨max (max F.emax F.emin) (unit F v + 1), by omega, ?_⟩
  refine round_rep (F := ⟨F.p, F.emin, max (max F.emax F.emin) (unit F v + 1)⟩) hp hv (by show F.emin ≤ max (max F.emax F.emin) _; omega) ?_
  refine round_le_top (F := ⟨F.p, F.emin, max (max F.emax F.emin) (unit F v + 1)⟩) hp (by show F.emin ≤ max (max F.emax F.emin) _; omega) hv ?_
  unfold Fmt.top
  dsimp only
  have h1 := lt_log2 v
  have h2 : (2 : ℚ) ^ (Int.log 2 v + 1) ≤ 2 ^ ((F.p : Int) - 1 + (unit F v + 1)) := zpow_le_zpow_right₀ (by norm_num) (by unfold unit; omega)
  have h3 : (2 : ℚ) ^ (unit F v + 1) ≤ 2 ^ (max (max F.emax F.emin) (unit F v + 1)) := zpow_le_zpow_right₀ (by norm_num) (by omega)
  have h4 : (2 : ℚ) ^ ((F.p : Int) - 1) ≤ 2 ^ F.p - 1 := by
    have e : (2 : ℚ) ^ F.p = 2 * 2 ^ ((F.p : Int) - 1) := by
      rw [← zpow_natCast, show (F.p : Int) = 1 + ((F.p : Int) - 1) by ring, zpow_add₀ (by norm_num)]
      norm_num
    have : (1 : ℚ) ≤ 2 ^ ((F.p : Int) - 1) := one_le_zpow₀ (by norm_num) (by omega)
    linarith
  rw [zpow_add₀ (by norm_num) ((F.p : Int) - 1)] at h2
  have h5 := mul_le_mul h4 h3 (zp _).le (by linarith [zp ((F.p : Int) - 1)])
  linarith

end Verif.FloatText
