import Verif.FloatTextNum
/-
The characters: what is printed is read as the decimal number it stands for.
-/
namespace Verif.FloatText
open Verif Outcome ByteOrder Verif.ArchiveHdr Verif.XmlNum

/-- the number digits stand for -/
def val (l : List Nat) : Nat := l.foldl (fun a d => a * 10 + d) 0

theorem foldl_val (l : List Nat) : ∀ c, l.foldl (fun a d => a * 10 + d) c = c * 10 ^ l.length + val l := by
  induction l with
  | nil => intro c; simp [val]
  | cons d l ih =>
    intro c
    simp only [val, List.foldl_cons, List.length_cons]
    rw [ih, ih (0 * 10 + d)]
    ring

theorem val_append (l m : List Nat) : val (l ++ m) = val l * 10 ^ m.length + val m := by
  rw [val, List.foldl_append, foldl_val]
  rfl

theorem digs_length : ∀ k a, (digs k a).length = k
  | 0, _ => rfl
  | k + 1, a => by simp [digs, digs_length k]

theorem digs_lt : ∀ k a, ∀ d ∈ digs k a, d < 10
  | 0, _, d, h => by simp [digs] at h
  | k + 1, a, d, h => by
    simp only [digs, List.mem_append, List.mem_singleton] at h
    rcases h with h | rfl
    · exact digs_lt k _ d h
    · omega

theorem digs_val : ∀ k a, a < 10 ^ k → val (digs k a) = a
  | 0, a, h => by simp at h; simp [digs, val, h]
  | k + 1, a, h => by
    rw [digs, val_append, digs_val k (a / 10) (by rw [pow_succ] at h; omega)]
    simp [val]
    omega

theorem val_zeros (k : Nat) : val (List.replicate k 0) = 0 := by
  induction k with
  | zero => rfl
  | succ k ih => rw [List.replicate_succ', val_append, ih]; simp [val]

theorem strip_eq (l : List Nat) : ∃ k, l = strip l ++ List.replicate k 0 := by
  have h := List.takeWhile_append_dropWhile (p := fun d => decide (d = 0)) (l := l.reverse)
  have ht : ∀ m : List Nat, m.takeWhile (fun d => decide (d = 0)) = List.replicate (m.takeWhile (fun d => decide (d = 0))).length 0 := by
    intro m
    apply List.eq_replicate_iff.2 ⟨rfl, ?_⟩
    intro b hb
    have := List.all_takeWhile (p := fun d => decide (d = 0)) (l := m)
    rw [List.all_eq_true] at this
    simpa using this b hb
  refine ⟨(l.reverse.takeWhile (fun d => decide (d = 0))).length, ?_⟩
  have := congrArg List.reverse h
  rw [List.reverse_append, List.reverse_reverse] at this
  conv_lhs => rw [← this]
  unfold strip
  congr 1
  conv_lhs => rw [ht]
  rw [List.reverse_replicate]

theorem strip_lt {l : List Nat} (h : ∀ d ∈ l, d < 10) : ∀ d ∈ strip l, d < 10 := by
  intro d hd
  obtain ⟨k, e⟩ := strip_eq l
  exact h d (by rw [e]; simp [hd])

/-- what is behind a number: nothing, or a character that does not continue it -/
def Stop (r : List Byte) : Prop := ∀ b ∈ r.head?, digitVal 10 b = none ∧ b ≠ 46 ∧ b ≠ 101 ∧ b ≠ 69

theorem stop_digit {r : List Byte} (h : Stop r) : ∀ b ∈ r.head?, digitVal 10 b = none := fun b hb => (h b hb).1

def expDigs (n : Nat) : List Nat := if n < 10 then [0, n] else (Nat.digits 10 n).reverse

theorem expDigs_ok (n : Nat) : expDigs n ≠ [] ∧ (∀ d ∈ expDigs n, d < 10) ∧ val (expDigs n) = n := by
  unfold expDigs
  split_ifs with h
  · refine ⟨by simp, ?_, by simp [val]⟩
    intro d hd
    simp at hd
    omega
  · refine ⟨?_, digits_rev_lt 10 (Or.inl rfl) n, foldl_digits 10 n⟩
    rw [Ne, List.reverse_eq_nil_iff]
    exact Nat.digits_ne_nil_iff_ne_zero.2 (by omega)

/-- the integer part and the fraction -/
theorem scan_parts {i f : List Nat} (hi : ∀ d ∈ i, d < 10) (hf : ∀ d ∈ f, d < 10) {r : List Byte}
    (hr : ∀ b ∈ r.head?, digitVal 10 b = none) (hr' : r.head? ≠ some 46) :
    (takeDigits 10 (text i ++ fracText f ++ r)).1 = i ∧
    takeFrac (takeDigits 10 (text i ++ fracText f ++ r)).2 = (strip f, r) := by
  unfold fracText text
  split_ifs with h
  · rw [h, List.append_nil, takeDigits_map 10 (Or.inl rfl) i r hi hr]
    refine ⟨rfl, ?_⟩
    cases r with
    | nil => rfl
    | cons b r =>
      dsimp only
      rw [takeFrac, if_neg]
      rintro rfl
      exact hr' rfl
  · rw [List.append_assoc, takeDigits_map 10 (Or.inl rfl) i _ hi (by simp only [List.cons_append, List.head?_cons]; intro b hb; simp at hb; subst hb; decide)]
    refine ⟨rfl, ?_⟩
    dsimp only [List.cons_append]
    rw [takeFrac, if_pos rfl, takeDigits_map 10 (Or.inl rfl) _ r (strip_lt hf) hr]

theorem scan_fixed {i f : List Nat} (hi : ∀ d ∈ i, d < 10) (hf : ∀ d ∈ f, d < 10) {r : List Byte} (hr : Stop r) :
    scan (text i ++ fracText f ++ r) = (i ++ strip f, (strip f).length, none, r) := by
  obtain ⟨h1, h2⟩ := scan_parts hi hf (stop_digit hr) (fun e => (hr _ e).2.1 rfl)
  unfold scan
  simp only [h1, h2]
  cases r with
  | nil => rfl
  | cons b r =>
    have hb := (hr b rfl).2.2
    rw [takeExp, if_neg (by rintro ⟨-, h | h⟩; exacts [hb.1 h, hb.2 h])]

theorem scan_sci {i f : List Nat} (hn : i ≠ []) (hi : ∀ d ∈ i, d < 10) (hf : ∀ d ∈ f, d < 10) (X : Int) {r : List Byte} (hr : Stop r) :
    scan (text i ++ fracText f ++ (expText X ++ r)) = (i ++ strip f, (strip f).length, some (some X), r) := by
  have e : expText X = 101 :: (if X < 0 then 45 else 43) :: text (expDigs X.natAbs) := rfl
  rw [e]
  obtain ⟨h1, h2⟩ := scan_parts (r := 101 :: (if X < 0 then (45 : Byte) else 43) :: text (expDigs X.natAbs) ++ r) hi hf
    (by intro b hb; simp at hb; subst hb; decide) (by simp)
  obtain ⟨g1, g2, g3⟩ := expDigs_ok X.natAbs
  unfold scan
  rw [List.cons_append, List.cons_append] at h1 h2
  simp only [List.cons_append, h1, h2]
  rw [takeExp, if_pos ⟨by simp [hn], Or.inl rfl⟩]
  have hs : takeSign ((if X < 0 then (45 : Byte) else 43) :: (text (expDigs X.natAbs) ++ r)) = (decide (X < 0), text (expDigs X.natAbs) ++ r) := by
    by_cases hX : X < 0 <;> simp [takeSign, hX]
  rw [hs]
  simp only [text, takeDigits_map 10 (Or.inl rfl) _ r g2 (stop_digit hr), g1, if_false]
  have : ((expDigs X.natAbs).foldl (fun a d => a * 10 + d) 0) = X.natAbs := g3
  rw [this]
  by_cases hX : X < 0
  · simp only [hX, decide_true, if_true]
    rw [show -(X.natAbs : Int) = X by omega]
  · simp only [hX, decide_false, Bool.false_eq_true, if_false]
    rw [show (X.natAbs : Int) = X by omega]

/-- zeros at the end do not change the number -/
theorem strip_val (i f : List Nat) (X : Int) :
    ((val (i ++ strip f) : ℚ)) * 10 ^ (X - (strip f).length) = val (i ++ f) * 10 ^ (X - f.length) := by
  obtain ⟨k, e⟩ := strip_eq f
  conv_rhs => rw [e]
  rw [← List.append_assoc, val_append (i ++ strip f), val_zeros, List.length_append]
  simp only [List.length_replicate, Nat.add_zero]
  push_cast
  rw [show X - (((strip f).length : Int) + k) = (X - (strip f).length) - k by ring, zpow_sub₀ (by norm_num) (X - (strip f).length), zpow_natCast]
  field_simp

/-- the text of a decimal number: it is read completely, as this number -/
theorem scan_dec {P a : Nat} (hP : 0 < P) (ha : a < 10 ^ P) (X : Int) {r : List Byte} (hr : Stop r) :
    ∃ (ds : List Nat) (k : Nat) (ex : Option (Option Int)), scan (decText P a X ++ r) = (ds, k, ex, r) ∧ ds ≠ [] ∧ ex ≠ some none ∧
      ((val ds : ℚ)) * 10 ^ ((ex.getD none).getD 0 - k) = a * 10 ^ (X - P + 1) ∧ (∃ d t, decText P a X = digitByte d :: t ∧ d < 10) := by
  have hlt := digs_lt P a
  have hlen := digs_length P a
  have hval := digs_val P a ha
  have first : ∀ l : List Nat, l ≠ [] → (∀ d ∈ l, d < 10) → ∀ u, ∃ d t, text l ++ u = digitByte d :: t ∧ d < 10 := by
    intro l hl hd u
    obtain ⟨x, xs, rfl⟩ := List.exists_cons_of_ne_nil hl
    exact ⟨x, _, rfl, hd x (by simp)⟩
  have htake : ∀ n, (digs P a).take (n + 1) ≠ [] := by
    intro n h
    have := congrArg List.length h
    simp [hlen] at this
    omega
  unfold decText
  split_ifs with h1 h2
  · have hi : ∀ d ∈ (digs P a).take (X.toNat + 1), d < 10 := fun d hd => hlt d (List.mem_of_mem_take hd)
    have hf : ∀ d ∈ (digs P a).drop (X.toNat + 1), d < 10 := fun d hd => hlt d (List.mem_of_mem_drop hd)
    refine ⟨_, _, none, scan_fixed hi hf hr, by simp [htake], by simp, ?_, first _ (htake _) hi _⟩
    have := strip_val ((digs P a).take (X.toNat + 1)) ((digs P a).drop (X.toNat + 1)) 0
    rw [List.take_append_drop, hval, List.length_drop, hlen] at this
    simp only [Option.getD_none]
    rw [this]
    congr 2
    omega
  · have hf : ∀ d ∈ List.replicate (-X - 1).toNat 0 ++ digs P a, d < 10 := by
      intro d hd
      rcases List.mem_append.1 hd with hd | hd
      · rw [List.eq_of_mem_replicate hd]; omega
      · exact hlt d hd
    refine ⟨_, _, none, scan_fixed (by simp) hf hr, by simp, by simp, ?_, first _ (by simp) (by simp) _⟩
    have := strip_val [0] (List.replicate (-X - 1).toNat 0 ++ digs P a) 0
    simp only [Option.getD_none]
    rw [this, List.length_append, List.length_replicate, hlen, ← List.append_assoc, val_append, hval,
      show [0] ++ List.replicate (-X - 1).toNat 0 = List.replicate ((-X - 1).toNat + 1) 0 by rw [List.replicate_succ]; rfl, val_zeros]
    push_cast
    rw [zero_mul, zero_add]
    congr 2
    omega
  · have hi : ∀ d ∈ (digs P a).take 1, d < 10 := fun d hd => hlt d (List.mem_of_mem_take hd)
    have hf : ∀ d ∈ (digs P a).drop 1, d < 10 := fun d hd => hlt d (List.mem_of_mem_drop hd)
    have hs := scan_sci (htake 0) hi hf X hr
    refine ⟨_, _, some (some X), by rw [List.append_assoc]; exact hs, by simp [htake 0], by simp, ?_, ?_⟩
    · have := strip_val ((digs P a).take 1) ((digs P a).drop 1) X
      rw [List.take_append_drop, hval, List.length_drop, hlen] at this
      simp only [Option.getD_some]
      rw [this]
      congr 2
      omega
    · rw [List.append_assoc]
      exact first _ (htake 0) hi _

/-! ## one `>>` -/

/-- what comes back: `x` is printed with `P` digits and read -/
def back (F : Fmt) (P : Nat) : Fl → Fl
  | .fin neg x => if x = 0 then .fin neg 0 else .fin neg (round F (decVal P (dec P x)))
  | y => y

/-- the number read is not out of range -/
def Fits (F : Fmt) (P : Nat) : Fl → Prop
  | .fin _ x => x = 0 ∨ 0 < x ∧ round F (decVal P (dec P x)) ≤ F.top
  | _ => False

/-- the number read is out of range -/
def TooBig (F : Fmt) (P : Nat) : Fl → Prop
  | .fin _ x => 0 < x ∧ F.top < round F (decVal P (dec P x))
  | _ => False

theorem digit_clear (neg : Bool) {u : List Byte} {d : Nat} {t : List Byte} (e : u = digitByte d :: t) (hd : d < 10) :
    Clear (if neg then some true else none) u := by
  intro _
  obtain ⟨h1, _, _, h2, h3, _⟩ := digit_facts d (by omega)
  exact ⟨_, _, e, h1, h2, h3⟩

theorem minus_eq (neg : Bool) : minus neg = signText (if neg then some true else none) := by cases neg <;> rfl

theorem extract_text {F : Fmt} {w : List Byte} (hw : Blank w) (neg : Bool) {u : List Byte} (hu : Clear (if neg then some true else none) u) (dummy : Fl) :
    extract F ⟨w ++ (minus neg ++ u), false, false⟩ dummy =
      if (scan u).1 = [] ∨ (scan u).2.2.1 = some none then (⟨(scan u).2.2.2, (scan u).2.2.2 = [], true⟩, .fin false 0)
      else (⟨(scan u).2.2.2, (scan u).2.2.2 = [], !(conv F neg (val (scan u).1) (((scan u).2.2.1.getD none).getD 0 - (scan u).2.1)).2⟩,
        (conv F neg (val (scan u).1) (((scan u).2.2.1.getD none).getD 0 - (scan u).2.1)).1) := by
  obtain ⟨h1, h2, h3⟩ := front hw hu
  rw [← minus_eq, List.append_assoc] at h1
  rw [← minus_eq] at h2 h3
  have h4 : decide ((if neg then some true else none) = some true) = neg := by cases neg <;> simp
  rw [h4] at h3
  simp only [extract, Bool.or_self, Bool.false_eq_true, if_false, h1, h2, h3]
  rfl

/-- a finite number -/
theorem extract_fin {F : Fmt} {P : Nat} (hP : 0 < P) {w r : List Byte} (hw : Blank w) (hr : Stop r) {x : Fl} (hx : Fits F P x) (dummy : Fl) :
    extract F ⟨w ++ (showF P x ++ r), false, false⟩ dummy = (⟨r, r = [], false⟩, back F P x) := by
  cases x with
  | inf _ => exact hx.elim
  | nan _ => exact hx.elim
  | fin neg x =>
    by_cases h0 : x = 0
    · subst h0
      have hs : scan (text [0] ++ r) = ([0], 0, none, r) := by
        have := scan_fixed (i := [0]) (f := []) (by simp) (by simp) hr
        simpa [fracText, strip] using this
      have hc : Clear (if neg then some true else none) (text [0] ++ r) := digit_clear neg (d := 0) (t := r) rfl (by omega)
      have := extract_text (F := F) hw neg hc dummy
      rw [hs] at this
      simp only [showF, if_true, List.append_assoc, back]
      rw [this]
      simp [val, conv]
    · obtain hx | ⟨hx, ht⟩ := hx
      · exact absurd hx h0
      obtain ⟨ds, k, ex, hs, h1, h2, h3, d, t, h4, h5⟩ := scan_dec hP (dec_cases hP hx).2.2 (dec P x).2 hr
      have hc : Clear (if neg then some true else none) (decText P (dec P x).1 (dec P x).2 ++ r) :=
        digit_clear neg (t := t ++ r) (by rw [h4]; rfl) h5
      have := extract_text (F := F) hw neg hc dummy
      rw [hs] at this
      simp only [showF, h0, if_false, List.append_assoc, back]
      rw [this]
      dsimp only
      rw [if_neg (by simp [h1, h2])]
      have hv : val ds ≠ 0 := by
        intro e
        rw [e] at h3
        have := dec_pos hP hx
        unfold decVal at this
        rw [← h3] at this
        simp at this
      have hconv : conv F neg (val ds) ((ex.getD none).getD 0 - k) = (.fin neg (round F (decVal P (dec P x))), true) := by
        unfold conv
        rw [if_neg hv]
        dsimp only
        rw [h3]
        exact if_pos ht
      rw [hconv]
      rfl

/-- a number whose digits are beyond the range -/
theorem extract_big {F : Fmt} {P : Nat} (hP : 0 < P) {w r : List Byte} (hw : Blank w) (hr : Stop r) {x : Fl} (hx : TooBig F P x) (dummy : Fl) :
    (extract F ⟨w ++ (showF P x ++ r), false, false⟩ dummy).1 = ⟨r, r = [], true⟩ := by
  cases x with
  | inf _ => exact hx.elim
  | nan _ => exact hx.elim
  | fin neg x =>
    obtain ⟨hx, ht⟩ := hx
    have h0 : x ≠ 0 := hx.ne'
    obtain ⟨ds, k, ex, hs, h1, h2, h3, d, t, h4, h5⟩ := scan_dec hP (dec_cases hP hx).2.2 (dec P x).2 hr
    have hc : Clear (if neg then some true else none) (decText P (dec P x).1 (dec P x).2 ++ r) :=
      digit_clear neg (t := t ++ r) (by rw [h4]; rfl) h5
    have := extract_text (F := F) hw neg hc dummy
    rw [hs] at this
    simp only [showF, h0, if_false, List.append_assoc]
    rw [this]
    dsimp only
    rw [if_neg (by simp [h1, h2])]
    have hv : val ds ≠ 0 := by
      intro e
      rw [e] at h3
      have := dec_pos hP hx
      unfold decVal at this
      rw [← h3] at this
      simp at this
    have hconv : (conv F neg (val ds) ((ex.getD none).getD 0 - k)).2 = false := by
      unfold conv
      rw [if_neg hv]
      dsimp only
      rw [h3]
      rw [show round F ((dec P x).1 * 10 ^ ((dec P x).2 - P + 1)) = round F (decVal P (dec P x)) from rfl, if_neg (not_le.2 ht)]
    rw [hconv]
    rfl

/-- `inf` and `nan` are not numbers for `>>` -/
theorem extract_word {F : Fmt} {P : Nat} {w r : List Byte} (hw : Blank w) {x : Fl} (hx : ∀ neg y, x ≠ .fin neg y) (dummy : Fl) :
    ∃ t, t ≠ [] ∧ (extract F ⟨w ++ (showF P x ++ r), false, false⟩ dummy).1 = ⟨t, false, true⟩ := by
  have key : ∀ (neg : Bool) (b : Byte) (u : List Byte), isSpace b = false → b ≠ 45 → b ≠ 43 → digitVal 10 b = none → b ≠ 46 →
      (extract F ⟨w ++ (minus neg ++ (b :: u)), false, false⟩ dummy).1 = ⟨b :: u, false, true⟩ := by
    intro neg b u h1 h2 h3 h4 h5
    rw [extract_text hw neg (u := b :: u) (by intro _; exact ⟨b, u, rfl, h1, h2, h3⟩)]
    have ht : takeDigits 10 (b :: u) = ([], b :: u) := by rw [takeDigits, h4]
    have hs : scan (b :: u) = ([], 0, none, b :: u) := by
      unfold scan
      rw [ht]
      dsimp only
      rw [takeFrac, if_neg h5]
      rfl
    rw [hs]
    simp
  cases x with
  | fin neg y => exact absurd rfl (hx neg y)
  | inf neg =>
    refine ⟨_, ?_, by rw [showF, List.append_assoc]; exact key neg 105 _ (by decide) (by decide) (by decide) (by decide) (by decide)⟩
    simp
  | nan neg =>
    refine ⟨_, ?_, by rw [showF, List.append_assoc]; exact key neg 110 _ (by decide) (by decide) (by decide) (by decide) (by decide)⟩
    simp

end Verif.FloatText
