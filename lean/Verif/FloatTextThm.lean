import Verif.FloatTextArr
/-
Arrays of floating-point numbers as text: what is read back.
-/
namespace Verif.FloatText
open Verif Outcome ByteOrder Verif.ArchiveHdr Verif.XmlNum

set_option exponentiation.threshold 2000

theorem f32_ok : 0 < f32.p ∧ f32.emin ≤ f32.emax := by decide
theorem f64_ok : 0 < f64.p ∧ f64.emin ≤ f64.emax := by decide

theorem top32 : f32.top = (2 ^ 24 - 1) * 2 ^ (104 : Int) := rfl
theorem top64 : f64.top = (2 ^ 53 - 1) * 2 ^ (971 : Int) := rfl

theorem read_fits {F : Fmt} {P : Nat} (hP : 0 < P) (l : List Fl) (dummy : Fl) (h : ∀ x ∈ l, Fits F P x) :
    readArray F (writeArray P l) dummy = ok (l.map (back F P)) ∧ readList F (writeArray P l) dummy = ok (l.map (back F P)) := by
  obtain ⟨s, e, h1, h2⟩ := array_all (F := F) hP l dummy h
  have hf := fill_loop F ((writeArray P l).length + 1) (stream (writeArray P l)) dummy
  unfold readArray readList
  dsimp only
  rw [hf, e]
  simp [h1]

theorem back_reads {F : Fmt} {P : Nat} (hP : 0 < P) (hp : 0 < F.p) (hm : F.emin ≤ F.emax) {x : Fl} (h : Fits F P x) : Reads F P x (back F P x) := by
  cases x with
  | inf _ => exact h.elim
  | nan _ => exact h.elim
  | fin neg x =>
    rcases h with rfl | ⟨h0, ht⟩
    · exact ⟨neg, 0, 0, rfl, by simp [back], Or.inl ⟨rfl, rfl⟩⟩
    · refine ⟨neg, x, _, rfl, by rw [back, if_neg h0.ne'], Or.inr ⟨h0, _, dec_best hP h0, round_nearest hp (dec_pos hP h0) hm ht⟩⟩

theorem forall₂_map {α β : Type} {R : α → β → Prop} {f : α → β} : ∀ (l : List α), (∀ x ∈ l, R x (f x)) → List.Forall₂ R l (l.map f)
  | [], _ => .nil
  | x :: l, h => .cons (h x (by simp)) (forall₂_map l fun y hy => h y (by simp [hy]))

/-- digits of a number below a power of ten -/
theorem dec_le {P : Nat} (hP : 0 < P) {x : ℚ} (hx : 0 < x) : decVal P (dec P x) ≤ 10 ^ (Int.log 10 x + 1) := by
  rw [(dec_cases hP hx).1]
  have h1 := lt_log10 x
  have e : (10 : ℚ) ^ (Int.log 10 x + 1) = ((10 ^ P : Nat) : Int) * 10 ^ (Int.log 10 x - P + 1) := by
    push_cast
    rw [← zpow_natCast, ← zpow_add₀ (by norm_num)]
    congr 1
    ring
  have h2 : halfEven (x / 10 ^ (Int.log 10 x - P + 1)) ≤ ((10 ^ P : Nat) : Int) := by
    apply halfEven_le
    rw [div_le_iff₀ (zt _), ← e]
    exact h1.le
  rw [e]
  exact mul_le_mul_of_nonneg_right (by exact_mod_cast h2) (zt _).le

theorem halfEven_lt {r : ℚ} {n : Int} (h : r + 1 / 2 < n + 1) : halfEven r ≤ n := by
  have h1 := (abs_le.1 (halfEven_err r)).2
  have : ((halfEven r : Int) : ℚ) < n + 1 := by linarith
  have : halfEven r < n + 1 := by exact_mod_cast this
  omega

/-- every finite `float` is read without error from seven digits -/
theorem float_fits {x : Fl} (h : Finite f32 x) : Fits f32 prec32 x := by
  cases x with
  | inf _ => exact h.elim
  | nan _ => exact h.elim
  | fin neg x =>
    have h0 := rep_nonneg h
    rcases h0.eq_or_lt with h0 | h0
    · exact Or.inl h0.symm
    · refine Or.inr ⟨h0, round_le_top f32_ok.1 f32_ok.2 (dec_pos (by decide) h0) ?_⟩
      have ht := rep_top h
      rw [top32] at ht ⊢
      by_cases hl : Int.log 10 x < 38
      · refine (dec_le (by decide) h0).trans ?_
        have := zpow_le_zpow_right₀ (by norm_num : (1 : ℚ) ≤ 10) (show Int.log 10 x + 1 ≤ 38 by omega)
        refine this.trans (by norm_num)
      · have hl2 : Int.log 10 x = 38 := by
          by_contra hn
          have := zpow_le_zpow_right₀ (by norm_num : (1 : ℚ) ≤ 10) (show 39 ≤ Int.log 10 x by omega)
          have := log10_le h0
          norm_num at this ht
          linarith
        rw [(dec_cases (by decide) h0).1, hl2]
        have hh : halfEven (x / 10 ^ ((38 : Int) - (prec32 : Nat) + 1)) ≤ 3402823 := by
          apply halfEven_lt
          have : x / 10 ^ ((38 : Int) - (prec32 : Nat) + 1) ≤ 340282347 / 100 := by
            rw [div_le_iff₀ (zt _)]
            refine ht.trans ?_
            norm_num [prec32]
          push_cast
          linarith
        have : ((halfEven (x / 10 ^ ((38 : Int) - (prec32 : Nat) + 1)) : Int) : ℚ) ≤ 3402823 := by exact_mod_cast hh
        refine (mul_le_mul_of_nonneg_right this (zt _).le).trans ?_
        norm_num [prec32]

/-- the bound for `double`: the middle between the two 15-digit numbers around the largest `double` -/
def limit64 : ℚ := 1797693134862315 * 10 ^ 293

theorem log_big {x : ℚ} (h0 : 0 < x) (ht : x ≤ f64.top) (hl : ¬Int.log 10 x < 308) : Int.log 10 x = 308 := by
  by_contra hn
  have := zpow_le_zpow_right₀ (by norm_num : (1 : ℚ) ≤ 10) (show 309 ≤ Int.log 10 x by omega)
  have := log10_le h0
  rw [top64] at ht
  norm_num at this ht
  linarith

theorem double_dec_le {x : ℚ} (h : Rep f64 x) (hx : x < limit64) (h0 : 0 < x) : decVal prec64 (dec prec64 x) ≤ f64.top := by
  have ht := rep_top h
  by_cases hl : Int.log 10 x < 308
  · refine (dec_le (by decide) h0).trans ?_
    have := zpow_le_zpow_right₀ (by norm_num : (1 : ℚ) ≤ 10) (show Int.log 10 x + 1 ≤ 308 by omega)
    refine this.trans ?_
    rw [top64]
    norm_num
  · rw [(dec_cases (by decide) h0).1, log_big h0 ht hl]
    have hh : halfEven (x / 10 ^ ((308 : Int) - (prec64 : Nat) + 1)) ≤ 179769313486231 := by
      apply halfEven_lt
      have : x / 10 ^ ((308 : Int) - (prec64 : Nat) + 1) < 1797693134862315 / 10 := by
        rw [div_lt_iff₀ (zt _)]
        refine hx.trans_le ?_
        norm_num [prec64, limit64]
      push_cast
      linarith
    have : ((halfEven (x / 10 ^ ((308 : Int) - (prec64 : Nat) + 1)) : Int) : ℚ) ≤ 179769313486231 := by exact_mod_cast hh
    refine (mul_le_mul_of_nonneg_right this (zt _).le).trans ?_
    rw [top64]
    norm_num [prec64]

theorem double_fits {neg : Bool} {x : ℚ} (h : Rep f64 x) (hx : x < limit64) : Fits f64 prec64 (.fin neg x) := by
  have h0 := rep_nonneg h
  rcases h0.eq_or_lt with h0 | h0
  · exact Or.inl h0.symm
  · exact Or.inr ⟨h0, round_le_top f64_ok.1 f64_ok.2 (dec_pos (by decide) h0) (double_dec_le h hx h0)⟩

theorem double_big {neg : Bool} {x : ℚ} (h : Rep f64 x) (hx : limit64 ≤ x) : TooBig f64 prec64 (.fin neg x) := by
  have h0 : 0 < x := lt_of_lt_of_le (by unfold limit64; norm_num) hx
  have ht := rep_top h
  refine ⟨h0, ?_⟩
  have hl : Int.log 10 x = 308 := by
    apply log_big h0 ht
    intro hl
    have := zpow_le_zpow_right₀ (by norm_num : (1 : ℚ) ≤ 10) (show Int.log 10 x + 1 ≤ 308 by omega)
    have := lt_log10 x
    unfold limit64 at hx
    norm_num at this hx
    linarith
  have hr1 : (1797693134862315 : ℚ) / 10 ≤ x / 10 ^ ((308 : Int) - (prec64 : Nat) + 1) := by
    rw [le_div_iff₀ (zt _)]
    refine le_trans ?_ hx
    norm_num [prec64, limit64]
  have hr2 : x / 10 ^ ((308 : Int) - (prec64 : Nat) + 1) ≤ 17976931348623158 / 100 := by
    rw [div_le_iff₀ (zt _)]
    refine ht.trans ?_
    rw [top64]
    norm_num [prec64]
  have hh : halfEven (x / 10 ^ ((308 : Int) - (prec64 : Nat) + 1)) = 179769313486232 := by
    have he := abs_le.1 (halfEven_err (x / 10 ^ ((308 : Int) - (prec64 : Nat) + 1)))
    have ht := halfEven_tie (r := x / 10 ^ ((308 : Int) - (prec64 : Nat) + 1))
    generalize x / 10 ^ ((308 : Int) - (prec64 : Nat) + 1) = r at *
    have h1 : (179769313486231 : Int) ≤ halfEven r := by
      have : (179769313486231 : ℚ) ≤ ((halfEven r : Int) : ℚ) := by linarith
      exact_mod_cast this
    have h2 : halfEven r < (179769313486233 : Int) := by
      have : ((halfEven r : Int) : ℚ) < 179769313486233 := by linarith
      exact_mod_cast this
    by_contra hn
    have h3 : halfEven r = 179769313486231 := by omega
    rw [h3] at he ht
    have := ht (by
      push_cast at he ⊢
      rw [abs_sub_comm, abs_of_nonneg (by linarith)]
      linarith)
    omega
  have hd : decVal prec64 (dec prec64 x) = 179769313486232 * 10 ^ (294 : Int) := by
    rw [(dec_cases (by decide) h0).1, hl, hh]
    norm_num [prec64]
  rw [hd]
  have hpos : (0 : ℚ) < 179769313486232 * 10 ^ (294 : Int) := mul_pos (by norm_num) (zt _)
  have hb := round_best (F := ⟨53, -1074, 2000⟩) (v := 179769313486232 * 10 ^ (294 : Int)) (y := 2 ^ (1024 : Int)) (by norm_num) hpos
    ⟨1, 1024, by norm_num, by norm_num, by norm_num, by norm_num⟩
  have e : round ⟨53, -1074, 2000⟩ (179769313486232 * 10 ^ (294 : Int)) = round f64 (179769313486232 * 10 ^ (294 : Int)) := rfl
  rw [e] at hb
  rw [abs_sub_comm (2 ^ (1024 : Int)), abs_of_nonneg (a := 179769313486232 * 10 ^ (294 : Int) - 2 ^ (1024 : Int)) (by norm_num)] at hb
  have := neg_abs_le (round f64 (179769313486232 * 10 ^ (294 : Int)) - 179769313486232 * 10 ^ (294 : Int))
  have h4 : f64.top < 2 ^ (1024 : Int) := by rw [top64]; norm_num
  linarith

/-! ## what is read back -/

/-- Arrays of finite `float` numbers: read without error, as many as were written, and every number is the `float` next to the seven-digit number next to it.
(The claim is that they are the same numbers; see `C96_false_float`.) -/
theorem C96_float_partial (l : List Fl) (hl : ∀ x ∈ l, Finite f32 x) (dummy : Fl) :
    ∃ l', readArray f32 (writeArray prec32 l) dummy = ok l' ∧ readList f32 (writeArray prec32 l) dummy = ok l' ∧ List.Forall₂ (Reads f32 prec32) l l' := by
  have h : ∀ x ∈ l, Fits f32 prec32 x := fun x hx => float_fits (hl x hx)
  obtain ⟨h1, h2⟩ := read_fits (by decide) l dummy h
  exact ⟨_, h1, h2, forall₂_map l fun x hx => back_reads (by decide) f32_ok.1 f32_ok.2 (h x hx)⟩

/-- the same for `double`, fifteen digits and numbers below 1.797693134862315e308 -/
theorem C96_double_partial (l : List Fl) (hl : ∀ x ∈ l, ∃ neg a, x = .fin neg a ∧ Rep f64 a ∧ a < limit64) (dummy : Fl) :
    ∃ l', readArray f64 (writeArray prec64 l) dummy = ok l' ∧ readList f64 (writeArray prec64 l) dummy = ok l' ∧ List.Forall₂ (Reads f64 prec64) l l' := by
  have h : ∀ x ∈ l, Fits f64 prec64 x := by
    intro x hx
    obtain ⟨neg, a, rfl, h1, h2⟩ := hl x hx
    exact double_fits h1 h2
  obtain ⟨h1, h2⟩ := read_fits (by decide) l dummy h
  exact ⟨_, h1, h2, forall₂_map l fun x hx => back_reads (by decide) f64_ok.1 f64_ok.2 (h x hx)⟩

/-- numbers that have at most `P` decimal digits are read back as they are -/
theorem C96_exact_partial {F : Fmt} {P : Nat} (hP : 0 < P) (hp : 0 < F.p) (l : List Fl)
    (hl : ∀ x ∈ l, ∃ neg a, x = .fin neg a ∧ Rep F a ∧ (a = 0 ∨ Dec P a)) (dummy : Fl) :
    readArray F (writeArray P l) dummy = ok l ∧ readList F (writeArray P l) dummy = ok l := by
  have key : ∀ x ∈ l, Fits F P x ∧ back F P x = x := by
    intro x hx
    obtain ⟨neg, a, rfl, h1, h2⟩ := hl x hx
    by_cases ha : a = 0
    · subst ha
      exact ⟨Or.inl rfl, by simp [back]⟩
    · have h0 : 0 < a := lt_of_le_of_ne (rep_nonneg h1) (Ne.symm ha)
      have hd : decVal P (dec P a) = a := by
        have := (dec_best hP h0).2 a (h2.resolve_left ha)
        rw [sub_self, abs_zero] at this
        have := abs_eq_zero.1 (le_antisymm this (abs_nonneg _))
        linarith
      have hr : round F (decVal P (dec P a)) = a := by rw [hd, round_self hp h0 h1]
      exact ⟨Or.inr ⟨h0, by rw [hr]; exact rep_top h1⟩, by rw [back, if_neg ha, hr]⟩
  have e : l.map (back F P) = l := by
    conv_rhs => rw [← List.map_id l]
    exact List.map_congr_left fun x hx => (key x hx).2
  have := read_fits hP l dummy fun x hx => (key x hx).1
  rwa [e] at this

/-- how far off the numbers are: less than one unit of the last digit -/
theorem back_err {F : Fmt} {P : Nat} (hP : 0 < P) (hp : 0 < F.p) {x : ℚ} (h0 : 0 < x) (h : Rep F x) :
    |round F (decVal P (dec P x)) - x| ≤ x * 10 ^ (1 - (P : Int)) := by
  have h1 := round_best hp (dec_pos hP h0) h
  have h2 := dec_err hP h0
  rw [abs_sub_comm x] at h1
  have h3 := abs_add_le (round F (decVal P (dec P x)) - decVal P (dec P x)) (decVal P (dec P x) - x)
  rw [sub_add_sub_cancel] at h3
  linarith

theorem err_list {F : Fmt} {P : Nat} (hP : 0 < P) (hp : 0 < F.p) (l : List Fl) (hl : ∀ x ∈ l, Finite F x ∧ Fits F P x) (dummy : Fl) :
    ∃ l', readArray F (writeArray P l) dummy = ok l' ∧
      List.Forall₂ (fun x z => ∃ neg a b, x = Fl.fin neg a ∧ z = .fin neg b ∧ |b - a| ≤ a * 10 ^ (1 - (P : Int))) l l' := by
  refine ⟨_, (read_fits hP l dummy fun x hx => (hl x hx).2).1, forall₂_map l fun x hx => ?_⟩
  obtain ⟨h1, h2⟩ := hl x hx
  cases x with
  | inf _ => exact h1.elim
  | nan _ => exact h1.elim
  | fin neg x =>
    rcases h2 with rfl | ⟨h0, ht⟩
    · exact ⟨neg, 0, 0, rfl, by simp [back], by simp⟩
    · exact ⟨neg, x, _, rfl, by rw [back, if_neg h0.ne'], back_err hP hp h0 h1⟩

/-- relative errors: 10^-6 for `float` -/
theorem C96_error_float (l : List Fl) (hl : ∀ x ∈ l, Finite f32 x) (dummy : Fl) :
    ∃ l', readArray f32 (writeArray prec32 l) dummy = ok l' ∧
      List.Forall₂ (fun x z => ∃ neg a b, x = Fl.fin neg a ∧ z = .fin neg b ∧ |b - a| ≤ a / 10 ^ 6) l l' := by
  obtain ⟨l', h1, h2⟩ := err_list (F := f32) (P := prec32) (by decide) f32_ok.1 l (fun x hx => ⟨hl x hx, float_fits (hl x hx)⟩) dummy
  refine ⟨l', h1, h2.imp ?_⟩
  rintro x z ⟨neg, a, b, e1, e2, h⟩
  refine ⟨neg, a, b, e1, e2, h.trans (le_of_eq ?_)⟩
  norm_num [prec32]
  ring

/-- 10^-14 for `double` -/
theorem C96_error_double (l : List Fl) (hl : ∀ x ∈ l, ∃ neg a, x = .fin neg a ∧ Rep f64 a ∧ a < limit64) (dummy : Fl) :
    ∃ l', readArray f64 (writeArray prec64 l) dummy = ok l' ∧
      List.Forall₂ (fun x z => ∃ neg a b, x = Fl.fin neg a ∧ z = .fin neg b ∧ |b - a| ≤ a / 10 ^ 14) l l' := by
  obtain ⟨l', h1, h2⟩ := err_list (F := f64) (P := prec64) (by decide) f64_ok.1 l (fun x hx => by
    obtain ⟨neg, a, rfl, h1, h2⟩ := hl x hx
    exact ⟨h1, double_fits h1 h2⟩) dummy
  refine ⟨l', h1, h2.imp ?_⟩
  rintro x z ⟨neg, a, b, e1, e2, h⟩
  refine ⟨neg, a, b, e1, e2, h.trans (le_of_eq ?_)⟩
  norm_num [prec64]
  ring

/-- with enough digits every finite number would be read back as it is -/
theorem C96_enough {F : Fmt} {P : Nat} (hp : 0 < F.p) (hP : 2 ^ F.p < 10 ^ (P - 1)) (l : List Fl) (hl : ∀ x ∈ l, Finite F x) (dummy : Fl) :
    readArray F (writeArray P l) dummy = ok l ∧ readList F (writeArray P l) dummy = ok l := by
  have hP0 : 0 < P := by
    rcases Nat.eq_zero_or_pos P with rfl | h
    · have : 1 ≤ 2 ^ F.p := Nat.one_le_two_pow
      simp at hP
    · exact h
  have hpow : (10 : ℚ) ^ (1 - (P : Int)) < 2 ^ (-(F.p : Int)) := by
    rw [show (1 : Int) - P = -((P - 1 : Nat) : Int) by omega, zpow_neg, zpow_neg, zpow_natCast, zpow_natCast]
    apply inv_strictAnti₀ (by positivity)
    exact_mod_cast hP
  have key : ∀ x ∈ l, Fits F P x ∧ back F P x = x := by
    intro x hx
    have h1 := hl x hx
    cases x with
    | inf _ => exact h1.elim
    | nan _ => exact h1.elim
    | fin neg a =>
      by_cases ha : a = 0
      · subst ha
        exact ⟨Or.inl rfl, by simp [back]⟩
      · have h0 : 0 < a := lt_of_le_of_ne (rep_nonneg h1) (Ne.symm ha)
        have hr : round F (decVal P (dec P a)) = a := by
          obtain ⟨E, hE, hz⟩ := round_rep_big (F := F) hp (dec_pos hP0 h0)
          have ha' : Rep ⟨F.p, F.emin, E⟩ a := by
            obtain ⟨m, e, h2, h3, h4, h5⟩ := h1
            exact ⟨m, e, h2, h3, h4, h5.trans hE⟩
          have he := back_err hP0 hp h0 h1
          have hm := mul_lt_mul_of_pos_left hpow h0
          rcases lt_trichotomy (round F (decVal P (dec P a))) a with h | h | h
          · have := gap hz ha' h
            have := neg_abs_le (round F (decVal P (dec P a)) - a)
            linarith
          · exact h
          · have h6 := gap ha' hz h
            have := le_abs_self (round F (decVal P (dec P a)) - a)
            have := mul_lt_mul_of_pos_right h (zp (-(F.p : Int)))
            linarith
        exact ⟨Or.inr ⟨h0, by rw [hr]; exact rep_top h1⟩, by rw [back, if_neg ha, hr]⟩
  have e : l.map (back F P) = l := by
    conv_rhs => rw [← List.map_id l]
    exact List.map_congr_left fun x hx => (key x hx).2
  have := read_fits hP0 l dummy fun x hx => (key x hx).1
  rwa [e] at this

/-- nine digits for `float`, seventeen for `double` -/
theorem C96_nine_seventeen (l : List Fl) (dummy : Fl) :
    ((∀ x ∈ l, Finite f32 x) → readArray f32 (writeArray 9 l) dummy = ok l) ∧ ((∀ x ∈ l, Finite f64 x) → readArray f64 (writeArray 17 l) dummy = ok l) :=
  ⟨fun h => (C96_enough (by decide) (by decide) l h dummy).1, fun h => (C96_enough (by decide) (by decide) l h dummy).1⟩

/-- with the digits of the writers they are not: 1 + 2^-23 and 1 + 2^-52 are read back as 1 -/
theorem C96_false_float (dummy : Fl) : Finite f32 (.fin false (1 + 2 ^ (-23 : Int))) ∧
    readArray f32 (writeArray prec32 [.fin false (1 + 2 ^ (-23 : Int))]) dummy = ok [.fin false 1] := by
  have hd : dec prec32 (1 + 2 ^ (-23 : Int)) = (10 ^ 6, 0) := by
    have hl : Int.log 10 (1 + 2 ^ (-23 : Int) : ℚ) = 0 := log10_eq (by norm_num) (by norm_num)
    unfold dec
    dsimp only
    rw [hl, show (0 : Int) - (prec32 : Nat) + 1 = -6 by decide, near_grid (zt (-6)) (n := 1000000) (by norm_num [abs_lt])]
    decide
  have hr : Rep f32 (1 + 2 ^ (-23 : Int)) := ⟨2 ^ 23 + 1, -23, by norm_num, by decide, by decide, by decide⟩
  refine ⟨hr, ?_⟩
  rw [(read_fits (by decide) _ dummy (by intro x hx; simp only [List.mem_singleton] at hx; subst hx; exact float_fits hr)).1]
  have h1 : decVal prec32 ((10 : Nat) ^ 6, (0 : Int)) = 1 := by norm_num [decVal, prec32]
  have h2 : round f32 1 = 1 := round_self f32_ok.1 (by norm_num) ⟨1, 0, by norm_num, by decide, by decide, by decide⟩
  simp only [List.map_cons, List.map_nil, back, hd, h1, h2]
  rw [if_neg (by norm_num)]

theorem C96_false_double (dummy : Fl) : Finite f64 (.fin false (1 + 2 ^ (-52 : Int))) ∧
    readArray f64 (writeArray prec64 [.fin false (1 + 2 ^ (-52 : Int))]) dummy = ok [.fin false 1] := by
  have hd : dec prec64 (1 + 2 ^ (-52 : Int)) = (10 ^ 14, 0) := by
    apply dec_eq (P := prec64) (a := 10 ^ 14) (s := -14) (t := 3 / 10 ^ 16) (by decide) (by decide) (by decide)
    · norm_num
    · norm_num [prec64]
    · norm_num
  have hr : Rep f64 (1 + 2 ^ (-52 : Int)) := ⟨2 ^ 52 + 1, -52, by norm_num, by decide, by decide, by decide⟩
  refine ⟨hr, ?_⟩
  rw [(read_fits (by decide) _ dummy (by
    intro x hx; simp only [List.mem_singleton] at hx; subst hx; exact double_fits hr (by unfold limit64; norm_num))).1]
  have h1 : decVal prec64 ((10 : Nat) ^ 14, (0 : Int)) = 1 := by norm_num [decVal, prec64]
  have h2 : round f64 1 = 1 := round_self f64_ok.1 (by norm_num) ⟨1, 0, by norm_num, by decide, by decide, by decide⟩
  simp only [List.map_cons, List.map_nil, back, hd, h1, h2]
  rw [if_neg (by norm_num)]

/-! ## the text of what is read -/

/-- the text of a number with fifteen digits: a `double` next to it has the same digits -/
theorem C96_text_double {d z : ℚ} (hd : Dec prec64 d) (h1 : 2 ^ (-1022 : Int) ≤ d) (h2 : d ≤ f64.top) (hz : Nearest f64 d z) : dec prec64 z = dec prec64 d := by
  have h0 : 0 < d := lt_of_lt_of_le (zp _) h1
  have hP : 0 < prec64 := by decide
  have hv : decVal prec64 (dec prec64 d) = d := by
    have := (dec_best hP h0).2 d hd
    rw [sub_self, abs_zero] at this
    have := abs_eq_zero.1 (le_antisymm this (abs_nonneg _))
    linarith
  have hlog : (-1022 : Int) ≤ Int.log 2 d := by
    by_contra hn
    have := zpow_le_zpow_right₀ (by norm_num : (1 : ℚ) ≤ 2) (show Int.log 2 d + 1 ≤ -1022 by omega)
    have := lt_log2 d
    linarith
  have hr := round_err (F := f64) h0 (by show (-1074 : Int) ≤ Int.log 2 d - (53 : Nat) + 1; omega)
  have hn := hz.2 _ (round_rep f64_ok.1 h0 f64_ok.2 (round_le_top f64_ok.1 f64_ok.2 h0 h2))
  have he : |z - d| ≤ d * 2 ^ (-(53 : Int)) := hn.trans hr
  have hc := dec_cases hP h0
  have hz0 : 0 < z := by
    have h3 := neg_abs_le (z - d)
    have h4 : d * 2 ^ (-(53 : Int)) < d := by
      have := mul_lt_mul_of_pos_left (show (2 : ℚ) ^ (-(53 : Int)) < 1 by norm_num) h0
      linarith
    linarith
  have hv2 : ((dec prec64 d).1 : ℚ) * 10 ^ ((dec prec64 d).2 - (prec64 : Nat) + 1) = d := hv
  rw [dec_eq (P := prec64) (a := (dec prec64 d).1) (s := (dec prec64 d).2 - (prec64 : Nat) + 1) (t := 2 ^ (-(53 : Int))) hP hc.2.1 hc.2.2 hz0
    (by norm_num [prec64]) (by rw [hv2]; exact he)]
  ext
  · rfl
  · simp only []
    omega

/-- So numbers that come from a text of at most fifteen digits (a `double` to which `d` is nearer than to any other one) are read back as they are. -/
theorem C96_literals_partial (l : List Fl) (hl : ∀ x ∈ l, ∃ neg a, x = .fin neg a ∧ (a = 0 ∨ ∃ d, Dec prec64 d ∧ 2 ^ (-1022 : Int) ≤ d ∧ d ≤ f64.top ∧
      Nearest f64 d a ∧ ∀ b, Nearest f64 d b → b = a)) (dummy : Fl) :
    readArray f64 (writeArray prec64 l) dummy = ok l := by
  have hP : 0 < prec64 := by decide
  have key : ∀ x ∈ l, Fits f64 prec64 x ∧ back f64 prec64 x = x := by
    intro x hx
    obtain ⟨neg, a, rfl, h⟩ := hl x hx
    by_cases ha : a = 0
    · subst ha
      exact ⟨Or.inl rfl, by simp [back]⟩
    · obtain ⟨d, h1, h2, h3, h4, h5⟩ := h.resolve_left ha
      have h0 : 0 < a := lt_of_le_of_ne (rep_nonneg h4.1) (Ne.symm ha)
      have hd0 : 0 < d := lt_of_lt_of_le (zp _) h2
      have hv : decVal prec64 (dec prec64 a) = d := by
        rw [C96_text_double h1 h2 h3 h4]
        have := (dec_best hP hd0).2 d h1
        rw [sub_self, abs_zero] at this
        have := abs_eq_zero.1 (le_antisymm this (abs_nonneg _))
        linarith
      have ht := round_le_top f64_ok.1 f64_ok.2 hd0 h3
      have hr : round f64 d = a := h5 _ (round_nearest f64_ok.1 hd0 f64_ok.2 ht)
      exact ⟨Or.inr ⟨h0, by rw [hv]; exact ht⟩, by rw [back, if_neg ha, hv, hr]⟩
  have e : l.map (back f64 prec64) = l := by
    conv_rhs => rw [← List.map_id l]
    exact List.map_congr_left fun x hx => (key x hx).2
  rw [(read_fits hP l dummy fun x hx => (key x hx).1).1, e]

/-- for `float` and seven digits this is not so: 8.589973e9 is read as 8589973504, which is written as 8.589974e9 -/
theorem C96_text_float_false : ∃ d z : ℚ, Dec prec32 d ∧ Nearest f32 d z ∧ dec prec32 d = (8589973, 9) ∧ dec prec32 z = (8589974, 9) := by
  have hr : round f32 8589973000 = 8589973504 := by
    have hl : Int.log 2 (8589973000 : ℚ) = 33 := log2_eq (by norm_num) (by norm_num)
    unfold round
    dsimp only
    rw [hl, show max f32.emin ((33 : Int) - f32.p + 1) = 10 by decide, near_grid (zp 10) (n := 8388646) (by norm_num [abs_lt])]
    norm_num
  refine ⟨8589973000, 8589973504, ⟨8589973, 3, by norm_num, by norm_num, by decide⟩, ?_, ?_, ?_⟩
  · rw [← hr]
    exact round_nearest f32_ok.1 (by norm_num) f32_ok.2 (by rw [hr, top32]; norm_num)
  · have := dec_eq (P := prec32) (a := 8589973) (s := 3) (t := 0) (v := 8589973000) (by decide) (by decide) (by decide) (by norm_num) (by norm_num) (by norm_num)
    rw [this]
    decide
  · have hl : Int.log 10 (8589973504 : ℚ) = 9 := log10_eq (by norm_num) (by norm_num)
    unfold dec
    dsimp only
    rw [hl, show (9 : Int) - (prec32 : Nat) + 1 = 3 by decide, near_grid (zt 3) (n := 8589974) (by norm_num [abs_lt])]
    decide

/-- `double`: writing what was read gives the same text again (numbers in the normal range) -/
theorem C96_rewrite_double (l : List Fl) (hl : ∀ x ∈ l, ∃ neg a, x = .fin neg a ∧ Rep f64 a ∧ (a = 0 ∨ 2 ^ (-1021 : Int) ≤ a) ∧ a < limit64) (dummy : Fl) :
    ∃ l', readArray f64 (writeArray prec64 l) dummy = ok l' ∧ writeArray prec64 l' = writeArray prec64 l := by
  have hf : ∀ x ∈ l, Fits f64 prec64 x := by
    intro x hx
    obtain ⟨neg, a, rfl, h1, -, h2⟩ := hl x hx
    exact double_fits h1 h2
  refine ⟨_, (read_fits (by decide) l dummy hf).1, ?_⟩
  have key : ∀ x ∈ l, showF prec64 (back f64 prec64 x) = showF prec64 x := by
    intro x hx
    have hfx := hf x hx
    obtain ⟨neg, a, rfl, h1, h2, h3⟩ := hl x hx
    by_cases ha : a = 0
    · subst ha
      simp [back]
    · have h0 : 0 < a := lt_of_le_of_ne (rep_nonneg h1) (Ne.symm ha)
      have hP : 0 < prec64 := by decide
      have h2 := h2.resolve_left ha
      obtain ⟨-, ht⟩ := hfx.resolve_left ha
      have hd0 := dec_pos hP h0
      have hdd := dec_dec hP h0
      have hb := dec_err hP h0
      have hc := dec_cases hP h0
      -- the digits of the digits
      have hdec : dec prec64 (decVal prec64 (dec prec64 a)) = dec prec64 a := by
        rw [dec_eq (P := prec64) (a := (dec prec64 a).1) (s := (dec prec64 a).2 - (prec64 : Nat) + 1) (t := 0) hP hc.2.1 hc.2.2 hd0
          (by norm_num) (by simp [decVal])]
        ext
        · rfl
        · simp only []
          omega
      have hlow : 2 ^ (-1022 : Int) ≤ decVal prec64 (dec prec64 a) := by
        have h5 := neg_abs_le (decVal prec64 (dec prec64 a) - a)
        have h6 : (10 : ℚ) ^ (1 - ((prec64 : Nat) : Int)) / 2 ≤ 1 / 2 := by norm_num [prec64]
        have h7 := mul_le_mul_of_nonneg_left h6 h0.le
        have h8 : (2 : ℚ) ^ (-1021 : Int) = 2 * 2 ^ (-1022 : Int) := by
          rw [show (-1021 : Int) = 1 + -1022 by norm_num, zpow_add₀ (by norm_num), zpow_one]
        linarith
      have hhigh : decVal prec64 (dec prec64 a) ≤ f64.top := double_dec_le h1 h3 h0
      have := C96_text_double hdd hlow hhigh (round_nearest f64_ok.1 hd0 f64_ok.2 ht)
      have hz0 : round f64 (decVal prec64 (dec prec64 a)) ≠ 0 := by
        have he := back_err hP f64_ok.1 h0 h1
        intro hz
        rw [hz, zero_sub, abs_neg, abs_of_pos h0] at he
        have := mul_lt_mul_of_pos_left (show (10 : ℚ) ^ (1 - ((prec64 : Nat) : Int)) < 1 by norm_num [prec64]) h0
        linarith
      rw [back, if_neg ha, showF, showF, if_neg ha, if_neg hz0, this, hdec]
  cases l with
  | nil => rfl
  | cons x l =>
    simp only [List.map_cons, writeArray, List.flatMap_map]
    rw [key x (by simp)]
    congr 1
    have : ∀ m : List Fl, (∀ y ∈ m, showF prec64 (back f64 prec64 y) = showF prec64 y) →
        (m.flatMap fun y => 32 :: showF prec64 (back f64 prec64 y)) = m.flatMap fun y => 32 :: showF prec64 y := by
      intro m
      induction m with
      | nil => intro _; rfl
      | cons y m ih =>
        intro h
        simp only [List.flatMap_cons]
        rw [h y (by simp), ih fun z hz => h z (by simp [hz])]
    exact this l fun y hy => key y (by simp [hy])

/-! ## numbers that are not read -/

/-- the values of a `float` or `double` -/
def Value (F : Fmt) : Fl → Prop
  | .fin _ x => Rep F x
  | _ => True

/-- the numbers in front of the first that is not read -/
theorem first_bad {α : Type} {p : α → Prop} [DecidablePred p] : ∀ l : List α, (∃ x ∈ l, ¬p x) → ∃ pre y post, l = pre ++ y :: post ∧ (∀ x ∈ pre, p x) ∧ ¬p y
  | [], h => by simp at h
  | x :: l, h => by
    by_cases hx : p x
    · obtain ⟨pre, y, post, e, h1, h2⟩ := first_bad l (by
        obtain ⟨z, hz, hn⟩ := h
        rcases List.mem_cons.1 hz with rfl | hz
        · exact absurd hx hn
        · exact ⟨z, hz, hn⟩)
      refine ⟨x :: pre, y, post, by rw [e]; rfl, ?_, h2⟩
      intro z hz
      rcases List.mem_cons.1 hz with rfl | hz
      · exact hx
      · exact h1 z hz
    · exact ⟨[], x, l, rfl, by simp, hx⟩

/-- An array with an infinite number or a NaN can be written but not read. -/
theorem C96_nonfinite {F : Fmt} {P : Nat} (hP : 0 < P) (l : List Fl) (hl : ∀ x ∈ l, Value F x) (h : ∃ y ∈ l, ∀ neg z, y ≠ .fin neg z) (dummy : Fl) :
    readArray F (writeArray P l) dummy = abort := by
  classical
  obtain ⟨y, hy, hn⟩ := h
  obtain ⟨pre, z, post, rfl, h1, h2⟩ := first_bad (p := Fits F P) l ⟨y, hy, by
    cases y with
    | fin neg x => exact absurd rfl (hn neg x)
    | inf _ => exact id
    | nan _ => exact id⟩
  have word : (∀ neg x, z ≠ .fin neg x) → readArray F (writeArray P (pre ++ z :: post)) dummy = abort := by
    intro hz
    obtain ⟨t, ht⟩ := array_word (F := F) hP pre post z dummy h1 hz
    unfold readArray
    dsimp only
    rw [ht]
    rfl
  cases z with
  | inf neg => exact word (by simp)
  | nan neg => exact word (by simp)
  | fin neg x =>
    have hx0 := rep_nonneg (hl (.fin neg x) (by simp))
    have hbig : TooBig F P (.fin neg x) := by
      have h3 : ¬(x = 0 ∨ 0 < x ∧ round F (decVal P (dec P x)) ≤ F.top) := h2
      push Not at h3
      have hx : 0 < x := lt_of_le_of_ne hx0 (Ne.symm h3.1)
      exact ⟨hx, h3.2 hx⟩
    have hpost : post ≠ [] := by
      rintro rfl
      simp only [List.mem_append, List.mem_singleton] at hy
      rcases hy with hy | rfl
      · have := h1 y hy
        cases y with
        | fin neg x => exact hn neg x rfl
        | inf _ => exact this
        | nan _ => exact this
      · exact hn neg x rfl
    unfold readArray
    dsimp only
    rw [array_big (F := F) hP pre post _ dummy h1 hbig]
    simp [hpost]

/-- read as a list it is cut off in front of that number, and no error is reported -/
theorem C96_nonfinite_list (pre post : List Fl) (y : Fl) (hy : ∀ neg z, y ≠ .fin neg z) (hl : ∀ x ∈ pre, Finite f32 x) (dummy : Fl) :
    ∃ l', readList f32 (writeArray prec32 (pre ++ y :: post)) dummy = ok l' ∧ List.Forall₂ (Reads f32 prec32) pre l' := by
  have h : ∀ x ∈ pre, Fits f32 prec32 x := fun x hx => float_fits (hl x hx)
  obtain ⟨t, ht⟩ := array_word (F := f32) (by decide) pre post y dummy h hy
  refine ⟨_, ?_, forall₂_map pre fun x hx => back_reads (by decide) f32_ok.1 f32_ok.2 (h x hx)⟩
  unfold readList
  rw [ht]

/-- The largest numbers of type `double` are written as 1.79769313486232e+308, which is out of range.  At the end of an array such a number is missing after
reading, and no error is reported; elsewhere the array is not read. -/
theorem C96_largest (pre post : List Fl) (hl : ∀ x ∈ pre, ∃ neg a, x = .fin neg a ∧ Rep f64 a ∧ a < limit64) (neg : Bool) (x : ℚ) (hx : Rep f64 x)
    (hb : limit64 ≤ x) (dummy : Fl) :
    (∃ l', readArray f64 (writeArray prec64 (pre ++ [.fin neg x])) dummy = ok l' ∧ List.Forall₂ (Reads f64 prec64) pre l') ∧
    (post ≠ [] → readArray f64 (writeArray prec64 (pre ++ .fin neg x :: post)) dummy = abort) := by
  have h : ∀ x ∈ pre, Fits f64 prec64 x := by
    intro x hx
    obtain ⟨neg, a, rfl, h1, h2⟩ := hl x hx
    exact double_fits h1 h2
  have hbig := double_big (neg := neg) hx hb
  constructor
  · refine ⟨_, ?_, forall₂_map pre fun x hx => back_reads (by decide) f64_ok.1 f64_ok.2 (h x hx)⟩
    have hf := fill_loop f64 ((writeArray prec64 (pre ++ [.fin neg x])).length + 1) (stream (writeArray prec64 (pre ++ [.fin neg x]))) dummy
    unfold readArray
    dsimp only
    rw [hf, array_big (F := f64) (by decide) pre [] _ dummy h hbig]
    simp
  · intro hpost
    unfold readArray
    dsimp only
    rw [array_big (F := f64) (by decide) pre post _ dummy h hbig]
    simp [hpost]

/-- the largest `double` is one of them -/
theorem C96_largest_ex : Rep f64 f64.top ∧ limit64 ≤ f64.top := ⟨top_rep f64_ok.2, by rw [top64]; unfold limit64; norm_num⟩

/-- the loop of the readers ends, for every text, within the rounds of the model -/
theorem C96_stops (F : Fmt) (t : List Byte) (dummy : Fl) : (loop F (t.length + 1) (stream t) dummy).2.fail = true := loop_stops F _ _ _ (by simp [stream])

/-! ## examples -/

/-- -0.75, 1/3 to 24 bits, 2^-149 and 0 are finite -/
example : Finite f32 (.fin true (3 / 4)) ∧ Finite f32 (.fin false (11184811 / 33554432)) ∧ Finite f32 (.fin false (2 ^ (-149 : Int))) ∧ Finite f32 (.fin true 0) :=
  ⟨⟨3, -2, by norm_num, by decide, by decide, by decide⟩, ⟨11184811, -25, by norm_num, by decide, by decide, by decide⟩,
    ⟨1, -149, by norm_num, by decide, by decide, by decide⟩, ⟨0, 0, by norm_num, by decide, by decide, by decide⟩⟩

/-- the text of -0.75 and 8589973504 -/
example : writeArray prec32 [.fin true (3 / 4), .fin false 8589973504] = [45, 48, 46, 55, 53, 32, 56, 46, 53, 56, 57, 57, 55, 52, 101, 43, 48, 57] := by
  have h1 : dec prec32 (3 / 4) = (7500000, -1) := by
    have := dec_eq (P := prec32) (a := 7500000) (s := -7) (t := 0) (v := 3 / 4) (by decide) (by decide) (by decide) (by norm_num) (by norm_num) (by norm_num)
    rw [this]
    decide
  have h2 : dec prec32 8589973504 = (8589974, 9) := by
    have hl : Int.log 10 (8589973504 : ℚ) = 9 := log10_eq (by norm_num) (by norm_num)
    unfold dec
    dsimp only
    rw [hl, show (9 : Int) - (prec32 : Nat) + 1 = 3 by decide, near_grid (zt 3) (n := 8589974) (by norm_num [abs_lt])]
    decide
  simp only [writeArray, showF, List.flatMap_cons, List.flatMap_nil, h1, h2]
  rw [if_neg (by norm_num), if_neg (by norm_num)]
  decide

/-- 0.1: the next `double` is unique -/
example : Dec prec64 (1 / 10) ∧ Nearest f64 (1 / 10) (3602879701896397 / 2 ^ 55) := by
  refine ⟨⟨1, -1, by norm_num, by norm_num, by decide⟩, ?_⟩
  have hr : round f64 (1 / 10) = 3602879701896397 / 2 ^ 55 := by
    have hl : Int.log 2 (1 / 10 : ℚ) = -4 := log2_eq (by norm_num) (by norm_num)
    unfold round
    dsimp only
    rw [hl, show max f64.emin ((-4 : Int) - f64.p + 1) = -56 by decide, near_grid (zp (-56)) (n := 7205759403792794) (by norm_num [abs_lt])]
    norm_num
  rw [← hr]
  exact round_nearest f64_ok.1 (by norm_num) f64_ok.2 (by rw [hr, top64]; norm_num)

/-- a number with fifteen digits -/
example : Rep f64 (10 ^ 15 - 1) ∧ Dec prec64 (10 ^ 15 - 1) :=
  ⟨⟨10 ^ 15 - 1, 0, by norm_num, by decide, by decide, by decide⟩, ⟨10 ^ 15 - 1, 0, by norm_num, by norm_num, by decide⟩⟩

end Verif.FloatText
