import Verif.ArchiveFile
/-
C101, plaquette and link trace as text: six digits are written into the header, and what `sscanf` reads is within 10^-6 of the number.
-/
namespace Verif.ArchiveFile
open Verif Outcome ByteOrder Verif.ArchiveHdr Verif.FloatText
open Verif.XmlNum (takeSign)

/-! ## the characters -/

theorem text_clean {l : List Nat} (h : ∀ d ∈ l, d < 10) : CleanText (text l) := by
  intro b hb
  obtain ⟨d, hd, rfl⟩ := List.mem_map.1 hb
  obtain ⟨-, h1, h2, -⟩ := digit_facts d (by have := h d hd; omega)
  exact ⟨h1, h2⟩

theorem clean_cons {b : Byte} {l : List Byte} (h1 : b ≠ 10 ∧ b ≠ 0) (h : CleanText l) : CleanText (b :: l) := by
  intro c hc
  rcases List.mem_cons.1 hc with rfl | hc
  · exact h1
  · exact h c hc

theorem strip_length (l : List Nat) : (strip l).length ≤ l.length := by
  obtain ⟨k, e⟩ := strip_eq l
  have := congrArg List.length e
  simp at this
  omega

theorem frac_ok {l : List Nat} (h : ∀ d ∈ l, d < 10) : CleanText (fracText l) ∧ (fracText l).length ≤ l.length + 1 := by
  unfold fracText
  split_ifs
  · exact ⟨by intro b hb; simp at hb, by simp⟩
  · refine ⟨clean_cons (by decide) (text_clean (strip_lt h)), ?_⟩
    simpa [text] using strip_length l

theorem exp_ok {X : Int} (h : X.natAbs < 1000) : CleanText (expText X) ∧ (expText X).length ≤ 5 := by
  have hd : ∀ d ∈ (if X.natAbs < 10 then [0, X.natAbs] else (Nat.digits 10 X.natAbs).reverse), d < 10 := by
    intro d hd
    split_ifs at hd with h1
    · simp only [List.mem_cons, List.not_mem_nil, or_false] at hd
      omega
    · exact Nat.digits_lt_base (by norm_num) (List.mem_reverse.1 hd)
  refine ⟨?_, ?_⟩
  · refine CleanText.append ?_ (text_clean hd)
    refine clean_cons (by decide) (clean_cons ?_ (by intro b hb; simp at hb))
    split_ifs <;> decide
  · have : (if X.natAbs < 10 then [0, X.natAbs] else (Nat.digits 10 X.natAbs).reverse).length ≤ 3 := by
      split_ifs
      · simp
      · rw [List.length_reverse]
        exact (Nat.digits_length_le_iff (by norm_num) _).2 h
    simp only [expText, text, List.length_append, List.length_map, List.length_cons, List.length_nil]
    omega

theorem dec_ok (a : Nat) {X : Int} (h : X.natAbs < 1000) : CleanText (decText 6 a X) ∧ (decText 6 a X).length < 20 := by
  have hlt := digs_lt 6 a
  have hlen := digs_length 6 a
  unfold decText
  split_ifs with h1 h2
  · have hi : ∀ d ∈ (digs 6 a).take (X.toNat + 1), d < 10 := fun d hd => hlt d (List.mem_of_mem_take hd)
    have hf : ∀ d ∈ (digs 6 a).drop (X.toNat + 1), d < 10 := fun d hd => hlt d (List.mem_of_mem_drop hd)
    refine ⟨(text_clean hi).append (frac_ok hf).1, ?_⟩
    have := (frac_ok hf).2
    simp only [List.length_append, text, List.length_map, List.length_take, hlen, List.length_drop] at this ⊢
    omega
  · have hf : ∀ d ∈ List.replicate (-X - 1).toNat 0 ++ digs 6 a, d < 10 := by
      intro d hd
      rcases List.mem_append.1 hd with hd | hd
      · rw [List.eq_of_mem_replicate hd]; omega
      · exact hlt d hd
    refine ⟨(text_clean (by simp)).append (frac_ok hf).1, ?_⟩
    have := (frac_ok hf).2
    simp only [List.length_append, text, List.length_map, List.length_replicate, hlen, List.length_cons, List.length_nil] at this ⊢
    omega
  · have hi : ∀ d ∈ (digs 6 a).take 1, d < 10 := fun d hd => hlt d (List.mem_of_mem_take hd)
    have hf : ∀ d ∈ (digs 6 a).drop 1, d < 10 := fun d hd => hlt d (List.mem_of_mem_drop hd)
    refine ⟨((text_clean hi).append (frac_ok hf).1).append (exp_ok h).1, ?_⟩
    have := (frac_ok hf).2
    have := (exp_ok h).2
    simp only [List.length_append, text, List.length_map, List.length_take, hlen, List.length_drop] at *
    omega

/-! ## the numbers -/

set_option exponentiation.threshold 2000 in
theorem log_range {q : ℚ} (h : Rep f64 q) (h0 : 0 < q) (h2 : q ≤ 2) : -324 ≤ Int.log 10 q ∧ Int.log 10 q ≤ 0 := by
  constructor
  · refine (Int.zpow_le_iff_le_log (by norm_num) h0).1 ?_
    obtain ⟨m, e, rfl, -, he, -⟩ := h
    have hm : (1 : ℚ) ≤ m := by
      have : m ≠ 0 := by rintro rfl; simp at h0
      exact_mod_cast Nat.one_le_iff_ne_zero.2 this
    have h3 : (2 : ℚ) ^ (-1074 : Int) ≤ 2 ^ e := zpow_le_zpow_right₀ (by norm_num) he
    have h4 : ((10 : Nat) : ℚ) ^ (-324 : Int) ≤ 2 ^ (-1074 : Int) := by norm_num
    nlinarith [zp e]
  · have : Int.log 10 q ≤ Int.log 10 (2 : ℚ) := Int.log_mono_right h0 h2
    have e : Int.log 10 (2 : ℚ) = 0 := log10_eq (by norm_num) (by norm_num)
    omega

theorem dec_exp (P : Nat) (q : ℚ) : (dec P q).2 = Int.log 10 q ∨ (dec P q).2 = Int.log 10 q + 1 := by
  unfold dec
  dsimp only
  split_ifs
  · right; rfl
  · left; rfl

/-- the text of a number of moderate size has no line break and is short -/
theorem show_ok {neg : Bool} {q : ℚ} (h : Rep f64 q) (h2 : q ≤ 2) : CleanText (showF 6 (.fin neg q)) ∧ (showF 6 (.fin neg q)).length < 100 := by
  have hm : CleanText (minus neg) ∧ (minus neg).length ≤ 1 := by
    cases neg
    · exact ⟨by intro b hb; simp [minus] at hb, by decide⟩
    · exact ⟨by unfold CleanText; decide, by decide⟩
  rw [showF]
  split_ifs with h0
  · refine ⟨hm.1.append (text_clean (by simp)), ?_⟩
    have := hm.2
    simp only [List.length_append, text, List.length_map, List.length_cons, List.length_nil]
    omega
  · have hq : 0 < q := lt_of_le_of_ne (rep_nonneg h) (Ne.symm h0)
    have hr := log_range h hq h2
    have he := dec_exp 6 q
    obtain ⟨d1, d2⟩ := dec_ok (dec 6 q).1 (X := (dec 6 q).2) (by omega)
    refine ⟨hm.1.append d1, ?_⟩
    have := hm.2
    rw [List.length_append]
    omega

set_option exponentiation.threshold 2000 in
theorem fits_six {neg : Bool} {q : ℚ} (h : Rep f64 q) (h2 : q ≤ 2) : Fits f64 6 (.fin neg q) := by
  rcases (rep_nonneg h).eq_or_lt with h0 | h0
  · exact Or.inl h0.symm
  · refine Or.inr ⟨h0, round_le_top f64_ok.1 f64_ok.2 (dec_pos (by decide) h0) ?_⟩
    refine (dec_le (by decide) h0).trans ?_
    have : (10 : ℚ) ^ (Int.log 10 q + 1) ≤ 10 ^ (1 : Int) := zpow_le_zpow_right₀ (by norm_num) (by have := (log_range h h0 h2).2; omega)
    refine this.trans ?_
    rw [top64]
    norm_num

/-- the first character of a number is a sign or a digit -/
theorem show_head (neg : Bool) {q : ℚ} (h0 : 0 ≤ q) : ∃ d t, showF 6 (.fin neg q) = minus neg ++ digitByte d :: t ∧ d < 10 := by
  rw [showF]
  split_ifs with h
  · exact ⟨0, [], rfl, by decide⟩
  · have hq : 0 < q := lt_of_le_of_ne h0 (Ne.symm h)
    obtain ⟨ds, k, ex, -, -, -, -, d, t, h4, h5⟩ := scan_dec (P := 6) (by decide) (dec_cases (by decide) hq).2.2 (dec 6 q).2 (r := []) (by intro b hb; simp at hb)
    exact ⟨d, t, by rw [h4], h5⟩

theorem digit_ne (d : Nat) (hd : d < 10) : digitByte d ≠ 110 ∧ digitByte d ≠ 105 ∧ isSpace (digitByte d) = false ∧ digitByte d ≠ 45 ∧ digitByte d ≠ 43 := by
  revert d
  decide

theorem show_nospace (neg : Bool) {q : ℚ} (h0 : 0 ≤ q) : (showF 6 (.fin neg q)).dropWhile isSpace = showF 6 (.fin neg q) := by
  obtain ⟨d, t, e, hd⟩ := show_head neg h0
  rw [e]
  cases neg
  · exact List.dropWhile_cons_of_neg (by rw [(digit_ne d hd).2.2.1]; decide)
  · exact List.dropWhile_cons_of_neg (by decide)

/-- what `sscanf` makes of the printed number -/
theorem scan_show {neg : Bool} {q : ℚ} (h : Rep f64 q) (h2 : q ≤ 2) :
    scanF ((showF 6 (.fin neg q)).dropWhile isSpace) = some (back f64 6 (.fin neg q), []) := by
  obtain ⟨d, t, e, hd⟩ := show_head neg (rep_nonneg h)
  obtain ⟨n1, n2, n3, n4, n5⟩ := digit_ne d hd
  have hdrop := show_nospace neg (rep_nonneg h)
  have hsign : (takeSign (showF 6 (.fin neg q))).2 = digitByte d :: t := by
    rw [e]
    cases neg
    · show (takeSign (digitByte d :: t)).2 = _
      rw [takeSign, if_neg n4, if_neg n5]
    · rfl
  have hx := extract_fin (F := f64) (P := 6) (by decide) (w := []) (r := []) (by intro b hb; simp at hb) (by intro b hb; simp at hb) (fits_six (neg := neg) h h2) (.fin false 0)
  simp only [List.nil_append, List.append_nil] at hx
  rw [hdrop, scanF]
  dsimp only
  rw [hsign, if_neg (by rw [List.cons_prefix_cons]; exact fun h => n1 h.1.symm), if_neg (by rw [List.cons_prefix_cons]; exact fun h => n2 h.1.symm), hx]
  simp

theorem rescan_six {neg : Bool} {q : ℚ} (h : Rep f64 q) (h2 : q ≤ 2) (old : Fl) : rescan six old (.fin neg q) = back f64 6 (.fin neg q) := by
  have h1 := scan_show (neg := neg) h h2
  have h3 := show_nospace neg (rep_nonneg h)
  simp only [rescan, six, sscanf, h3]
  rw [h3] at h1
  rw [h1]

/-- six digits of a number not far above one -/
theorem six_near {neg : Bool} {q : ℚ} (h : Rep f64 q) {η : ℚ} (hη : q ≤ 1 + η) (h1 : 1 / (2 * 10 ^ 6) ≤ η) (h2 : η ≤ 1) :
    ∃ z, back f64 6 (.fin neg q) = .fin neg z ∧ |z - q| ≤ 2 * η := by
  have hq2 : q ≤ 2 := by linarith
  obtain ⟨neg', a, b, e1, e2, h3⟩ := back_reads (F := f64) (P := 6) (by decide) f64_ok.1 f64_ok.2 (fits_six (neg := neg) h hq2)
  obtain ⟨rfl, rfl⟩ := Fl.fin.inj e1
  refine ⟨b, e2, ?_⟩
  rcases h3 with ⟨rfl, rfl⟩ | ⟨h0, d, hd, hn⟩
  · rw [sub_zero, abs_zero]
    linarith [show (0 : ℚ) < 1 / (2 * 10 ^ 6) by norm_num]
  · have hdec : |d - q| ≤ η := by
      by_cases hq : q ≤ 1
      · have hk : 0 ≤ halfEven (q * 10 ^ 6) := halfEven_nonneg (by positivity)
        have hk1 : halfEven (q * 10 ^ 6) ≤ 10 ^ 6 := halfEven_le (by push_cast; linarith)
        obtain ⟨k, hk'⟩ := Int.eq_ofNat_of_zero_le hk
        have herr : |(k : ℚ) / 10 ^ 6 - q| ≤ 1 / (2 * 10 ^ 6) := by
          have := halfEven_err (q * 10 ^ 6)
          rw [hk'] at this
          have e : (k : ℚ) / 10 ^ 6 - q = ((k : ℚ) - q * 10 ^ 6) / 10 ^ 6 := by field_simp
          rw [e, abs_div, abs_of_pos (show (0 : ℚ) < 10 ^ 6 by norm_num), div_le_iff₀ (by norm_num)]
          have e2 : ((k : Int) : ℚ) = k := by simp
          rw [e2] at this
          linarith
        rcases Nat.eq_zero_or_pos k with hk0 | hk0
        · -- smaller than every such decimal: the digits are those of the number itself
          have := hd.2 _ (dec_dec (P := 6) (by decide) h0)
          have h5 := dec_err (P := 6) (by decide) h0
          rw [hk0] at herr
          simp only [Nat.cast_zero, zero_div, zero_sub, abs_neg, abs_of_pos h0] at herr
          have e : (10 : ℚ) ^ (1 - ((6 : Nat) : Int)) = 1 / 10 ^ 5 := by norm_num
          rw [e] at h5
          have : q * (1 / 10 ^ 5) / 2 ≤ 1 / (2 * 10 ^ 6) := by linarith
          linarith
        · have hk2 : k ≤ 10 ^ 6 := by
            have : (k : Int) ≤ 10 ^ 6 := by rw [← hk']; exact hk1
            exact_mod_cast this
          have hD : Dec 6 ((k : ℚ) / 10 ^ 6) := by
            rcases Nat.lt_or_ge k (10 ^ 6) with hlt | hge
            · exact ⟨k, -6, by rw [zpow_neg, div_eq_mul_inv]; norm_num, hk0, hlt⟩
            · have : k = 10 ^ 6 := by omega
              subst this
              exact ⟨1, 0, by norm_num, by decide, by decide⟩
          exact (hd.2 _ hD).trans (herr.trans h1)
      · have hD : Dec 6 (1 : ℚ) := ⟨1, 0, by norm_num, by decide, by decide⟩
        refine (hd.2 _ hD).trans ?_
        rw [abs_le]
        constructor <;> linarith
    have h4 := hn.2 q h
    rw [abs_sub_comm q] at h4
    have h5 := abs_add_le (b - d) (d - q)
    rw [sub_add_sub_cancel] at h5
    linarith

end Verif.ArchiveFile
