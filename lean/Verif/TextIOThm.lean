import Verif.TextIO
/-
Text files and text buffers: what is read back.
-/
namespace Verif.TextIO
open Verif ByteOrder Verif.ArchiveHdr Verif.XmlNum Verif.FloatText

set_option exponentiation.threshold 2000

/-! ## writing -/

theorem put_end {o : Out} (hf : o.fail = false) (h : o.pos = o.content.length) (t : List Byte) :
    o.put t = ⟨o.content ++ t, (o.content ++ t).length, false⟩ := by
  unfold Out.put
  rw [hf, h]
  simp

theorem writeAll_end : ∀ (l : List Item) (o : Out), o.fail = false → o.pos = o.content.length →
    writeAll o l = ⟨o.content ++ l.flatMap fun x => shown x.1 x.2, (o.content ++ l.flatMap fun x => shown x.1 x.2).length, false⟩
  | [], o, hf, h => by
    obtain ⟨c, p, f⟩ := o
    simp at hf h
    subst hf h
    simp [writeAll]
  | x :: l, o, hf, h => by
    have e : writeAll o (x :: l) = writeAll (o.put (shown x.1 x.2)) l := rfl
    rw [e, put_end hf h, writeAll_end l _ rfl rfl]
    simp

/-- what is written to a new buffer or file is its content -/
theorem C97_written (l : List Item) : (writeAll Out.new l).content = l.flatMap (fun x => shown x.1 x.2) ∧ (writeAll Out.new l).fail = false := by
  rw [writeAll_end l Out.new rfl rfl]
  simp [Out.new]

/-! ## reading -/

/-- six digits are in range for every finite number -/
theorem fits32 {x : Fl} (h : Finite FloatText.f32 x) : Fits FloatText.f32 6 x := by
  cases x with
  | inf _ => exact h.elim
  | nan _ => exact h.elim
  | fin neg x =>
    have h0 := rep_nonneg h
    rcases h0.eq_or_lt with h0 | h0
    · exact Or.inl h0.symm
    · refine Or.inr ⟨h0, round_le_top f32_ok.1 f32_ok.2 (dec_pos (by decide) h0) ?_⟩
      have ht := rep_top h
      rw [top32] at ht ⊢
      by_cases hl : Int.log 10 x < 38
      · refine (dec_le (by decide) h0).trans ?_
        have := zpow_le_zpow_right₀ (by norm_num : (1 : ℚ) ≤ 10) (show Int.log 10 x + 1 ≤ 38 by omega)
        refine this.trans (by norm_num)
      · have hl2 : Int.log 10 x = 38 := by
          by_contra hn
          have := zpow_le_zpow_right₀ (by norm_num : (1 : ℚ) ≤ 10) (show 39 ≤ Int.log 10 x by omega)
          have := log10_le h0
          norm_num at this ht
          linarith
        rw [(dec_cases (by decide) h0).1, hl2]
        have hh : halfEven (x / 10 ^ ((38 : Int) - (6 : Nat) + 1)) ≤ 340282 := by
          apply halfEven_lt
          have : x / 10 ^ ((38 : Int) - (6 : Nat) + 1) ≤ 3402824 / 10 := by
            rw [div_le_iff₀ (zt _)]
            refine ht.trans ?_
            norm_num
          push_cast at this ⊢
          linarith
        have : ((halfEven (x / 10 ^ ((38 : Int) - (6 : Nat) + 1)) : Int) : ℚ) ≤ 340282 := by exact_mod_cast hh
        refine (mul_le_mul_of_nonneg_right this (zt _).le).trans ?_
        norm_num

theorem fits64 {x : Fl} (h : Finite FloatText.f64 x) : Fits FloatText.f64 6 x := by
  cases x with
  | inf _ => exact h.elim
  | nan _ => exact h.elim
  | fin neg x =>
    have h0 := rep_nonneg h
    rcases h0.eq_or_lt with h0 | h0
    · exact Or.inl h0.symm
    · refine Or.inr ⟨h0, round_le_top f64_ok.1 f64_ok.2 (dec_pos (by decide) h0) ?_⟩
      have ht := rep_top h
      by_cases hl : Int.log 10 x < 308
      · refine (dec_le (by decide) h0).trans ?_
        have := zpow_le_zpow_right₀ (by norm_num : (1 : ℚ) ≤ 10) (show Int.log 10 x + 1 ≤ 308 by omega)
        refine this.trans ?_
        rw [top64]
        norm_num
      · rw [(dec_cases (by decide) h0).1, log_big h0 ht hl]
        have hh : halfEven (x / 10 ^ ((308 : Int) - (6 : Nat) + 1)) ≤ 179769 := by
          apply halfEven_lt
          have : x / 10 ^ ((308 : Int) - (6 : Nat) + 1) ≤ 1797694 / 10 := by
            rw [div_le_iff₀ (zt _)]
            refine ht.trans ?_
            rw [top64]
            norm_num
          push_cast at this ⊢
          linarith
        have : ((halfEven (x / 10 ^ ((308 : Int) - (6 : Nat) + 1)) : Int) : ℚ) ≤ 179769 := by exact_mod_cast hh
        refine (mul_le_mul_of_nonneg_right this (zt _).le).trans ?_
        rw [top64]
        norm_num

theorem blank_stop {w r : List Byte} (hw : Blank w) (hr : w = [] → r = []) : Stop (w ++ r) := by
  intro b hb
  cases w with
  | nil => rw [hr rfl] at hb; simp at hb
  | cons a w =>
    simp at hb
    subst hb
    have := hw a (by simp)
    refine ⟨?_, ?_, ?_, ?_⟩
    · rw [digitVal_none]
      rintro d hd rfl
      obtain ⟨h1, -⟩ := digit_facts d (by omega)
      rw [h1] at this
      simp at this
    all_goals
      rintro rfl
      revert this
      decide

/-- white space in front, the value, white space or the end behind -/
theorem extract_plain {x : Item} (h : Plain x) {w u r : List Byte} (hw : Blank w) (hu : Blank u) (hr : u = [] → r = []) (old : x.1.V) :
    (extractVal x.1 ⟨w ++ (shown x.1 x.2 ++ (u ++ r)), false, false⟩ old).1.rest = u ++ r ∧
    (extractVal x.1 ⟨w ++ (shown x.1 x.2 ++ (u ++ r)), false, false⟩ old).1.fail = false ∧
    (u ++ r ≠ [] → (extractVal x.1 ⟨w ++ (shown x.1 x.2 ++ (u ++ r)), false, false⟩ old).1.eof = false) ∧
    Same x.1 x.2 (extractVal x.1 ⟨w ++ (shown x.1 x.2 ++ (u ++ r)), false, false⟩ old).2 := by
  have hs := blank_stop hu hr
  obtain ⟨t, v⟩ := x
  cases t with
  | str =>
    obtain ⟨hne, hv⟩ := h
    have h1 : (w ++ (v ++ (u ++ r))).dropWhile isSpace = v ++ (u ++ r) := by
      apply dropWhile_blank w _ hw
      intro b t e
      cases v with
      | nil => exact absurd rfl hne
      | cons a v => simp at e; rw [← e.1]; exact (hv a (by simp)).1
    have htw : ∀ (v : List Byte), (∀ b ∈ v, isSpace b = false ∧ b ≠ 0) → (v ++ (u ++ r)).takeWhile (fun b => !isSpace b) = v ∧
        (v ++ (u ++ r)).dropWhile (fun b => !isSpace b) = u ++ r := by
      intro v
      induction v with
      | nil =>
        intro _
        cases u with
        | nil => rw [hr rfl]; simp
        | cons a u => have := hu a (by simp); simp [this]
      | cons a v ih =>
        intro hv
        obtain ⟨i1, i2⟩ := ih fun b hb => hv b (by simp [hb])
        have := (hv a (by simp)).1
        simp only [List.cons_append, List.takeWhile_cons, List.dropWhile_cons, this, Bool.not_false, if_true]
        exact ⟨by rw [i1], i2⟩
    have hc : cString v = v := by
      unfold cString
      have : ∀ v : List Byte, (∀ b ∈ v, isSpace b = false ∧ b ≠ 0) → v.takeWhile (fun b => decide (b ≠ 0)) = v := by
        intro v
        induction v with
        | nil => intro _; rfl
        | cons a v ih =>
          intro hv
          have ha := (hv a (by simp)).2
          rw [List.takeWhile_cons, if_pos (by simpa using ha), ih fun b hb => hv b (by simp [hb])]
      exact this v hv
    have hne2 : v ++ (u ++ r) ≠ [] := by simp [hne]
    have hx : extractStr ⟨w ++ (v ++ (u ++ r)), false, false⟩ old = (⟨u ++ r, u ++ r = [], false⟩, v) := by
      unfold extractStr
      simp only [Bool.or_self, Bool.false_eq_true, if_false, h1, hne2, (htw v hv).1, (htw v hv).2]
    show (extractStr ⟨w ++ (v ++ (u ++ r)), false, false⟩ old).1.rest = _ ∧ (extractStr ⟨w ++ (v ++ (u ++ r)), false, false⟩ old).1.fail = _ ∧
      (_ → (extractStr ⟨w ++ (v ++ (u ++ r)), false, false⟩ old).1.eof = _) ∧ v = cString (extractStr ⟨w ++ (v ++ (u ++ r)), false, false⟩ old).2
    rw [hx]
    exact ⟨rfl, rfl, fun hn => decide_eq_false hn, hc.symm⟩
  | chr =>
    have hb : isSpace v = false := h
    have h1 : (w ++ (v :: (u ++ r))).dropWhile isSpace = v :: (u ++ r) := by
      apply dropWhile_blank w _ hw
      intro b t e
      simp at e
      rw [← e.1]
      exact hb
    have hx : extractChr ⟨w ++ (v :: (u ++ r)), false, false⟩ old = (⟨u ++ r, false, false⟩, v) := by
      unfold extractChr
      simp only [Bool.or_self, Bool.false_eq_true, if_false, h1]
    show (extractChr ⟨w ++ (v :: (u ++ r)), false, false⟩ old).1.rest = _ ∧ (extractChr ⟨w ++ (v :: (u ++ r)), false, false⟩ old).1.fail = _ ∧
      (_ → (extractChr ⟨w ++ (v :: (u ++ r)), false, false⟩ old).1.eof = _) ∧ v = (extractChr ⟨w ++ (v :: (u ++ r)), false, false⟩ old).2
    rw [hx]
    exact ⟨rfl, rfl, fun _ => rfl, rfl⟩
  | num T =>
    obtain ⟨hT, hv⟩ := h
    obtain ⟨k, hk, hkw, ht, hz⟩ := show_tok v
    have hg : Tok.Good { k with ws := w } := ⟨hw, hk.ne, hk.lt⟩
    have e : w ++ (showInt v ++ (u ++ r)) = Tok.text { k with ws := w } ++ (u ++ r) := by
      rw [← ht]
      simp [Tok.text, hkw]
    have hx := extract_good T hT hg (noDigit_iff.2 (stop_digit hs)) (value_self hT (k := { k with ws := w }) hz hv) old
    rw [← e] at hx
    show (XmlNum.extract T ⟨w ++ (showInt v ++ (u ++ r)), false, false⟩ old).1.rest = _ ∧ (XmlNum.extract T ⟨w ++ (showInt v ++ (u ++ r)), false, false⟩ old).1.fail = _ ∧
      (_ → (XmlNum.extract T ⟨w ++ (showInt v ++ (u ++ r)), false, false⟩ old).1.eof = _) ∧ v = (XmlNum.extract T ⟨w ++ (showInt v ++ (u ++ r)), false, false⟩ old).2
    rw [stream] at hx
    rw [hx]
    exact ⟨rfl, rfl, fun hn => decide_eq_false hn, rfl⟩
  | f32 =>
    have hx := extract_fin (F := FloatText.f32) (P := digits) (by decide) hw hs (fits32 h) old
    show (FloatText.extract FloatText.f32 ⟨w ++ (showF digits v ++ (u ++ r)), false, false⟩ old).1.rest = _ ∧
      (FloatText.extract FloatText.f32 ⟨w ++ (showF digits v ++ (u ++ r)), false, false⟩ old).1.fail = _ ∧
      (_ → (FloatText.extract FloatText.f32 ⟨w ++ (showF digits v ++ (u ++ r)), false, false⟩ old).1.eof = _) ∧
      Reads _ _ v (FloatText.extract FloatText.f32 ⟨w ++ (showF digits v ++ (u ++ r)), false, false⟩ old).2
    rw [hx]
    exact ⟨rfl, rfl, fun hn => decide_eq_false hn, back_reads (by decide) f32_ok.1 f32_ok.2 (fits32 h)⟩
  | f64 =>
    have hx := extract_fin (F := FloatText.f64) (P := digits) (by decide) hw hs (fits64 h) old
    show (FloatText.extract FloatText.f64 ⟨w ++ (showF digits v ++ (u ++ r)), false, false⟩ old).1.rest = _ ∧
      (FloatText.extract FloatText.f64 ⟨w ++ (showF digits v ++ (u ++ r)), false, false⟩ old).1.fail = _ ∧
      (_ → (FloatText.extract FloatText.f64 ⟨w ++ (showF digits v ++ (u ++ r)), false, false⟩ old).1.eof = _) ∧
      Reads _ _ v (FloatText.extract FloatText.f64 ⟨w ++ (showF digits v ++ (u ++ r)), false, false⟩ old).2
    rw [hx]
    exact ⟨rfl, rfl, fun hn => decide_eq_false hn, back_reads (by decide) f64_ok.1 f64_ok.2 (fits64 h)⟩

theorem shown_ne {x : Item} (h : Plain x) : shown x.1 x.2 ≠ [] := by
  obtain ⟨t, v⟩ := x
  intro e
  cases t with
  | str => exact h.1 e
  | chr => simp [shown] at e
  | num T =>
    obtain ⟨k, hk, hkw, ht, hz⟩ := show_tok v
    have e : showInt v = [] := e
    rw [← ht] at e
    simp [Tok.text] at e
    exact hk.ne e.2.2
  | f32 => exact showF_ne (P := digits) (by decide) (fits32 h) e
  | f64 => exact showF_ne (P := digits) (by decide) (fits64 h) e

def joined (l : List (Item × List Byte)) : List Byte := l.flatMap fun x => shown x.1.1 x.1.2 ++ x.2

theorem read_joined : ∀ (l : List (Item × List Byte)) (m : List Var), (∀ x ∈ l, Plain x.1) → Spaced l → Fitting l m → ∀ w e, Blank w →
    (l ≠ [] → e = false) → (readAll ⟨w ++ joined l, e, false⟩ m).1.fail = false ∧ Got l (readAll ⟨w ++ joined l, e, false⟩ m).2
  | [], _, _, _, .nil, w, e, _, _ => ⟨rfl, .nil⟩
  | (⟨t, v⟩, u) :: l, ⟨_, n⟩ :: m, hp, hs, .cons hm, w, e, hw, he => by
    have he := he (by simp)
    subst he
    have hu : Blank u ∧ (l ≠ [] → u ≠ []) ∧ Spaced l := by
      cases l with
      | nil => exact ⟨hs, by simp, trivial⟩
      | cons y l => exact ⟨hs.2.1, fun _ => hs.1, hs.2.2⟩
    have hr : u = [] → joined l = [] := by
      intro h
      cases l with
      | nil => rfl
      | cons y l => exact absurd h (hu.2.1 (by simp))
    have ej : joined ((⟨t, v⟩, u) :: l) = shown t v ++ (u ++ joined l) := by simp [joined]
    obtain ⟨h1, h2, h3, h4⟩ := extract_plain (x := ⟨t, v⟩) (hp (⟨t, v⟩, u) (by simp)) hw hu.1 hr (n 0)
    dsimp only at h1 h2 h3 h4
    rw [ej]
    have hst : (read t ⟨w ++ (shown t v ++ (u ++ joined l)), false, false⟩ n).1 =
        ⟨u ++ joined l, (extractVal t ⟨w ++ (shown t v ++ (u ++ joined l)), false, false⟩ (n 0)).1.eof, false⟩ := by
      show (extractVal t ⟨w ++ (shown t v ++ (u ++ joined l)), false, false⟩ (n 0)).1 = _
      generalize extractVal t ⟨w ++ (shown t v ++ (u ++ joined l)), false, false⟩ (n 0) = q at h1 h2
      obtain ⟨⟨a, b, c⟩, d⟩ := q
      simp only at h1 h2
      subst h1 h2
      rfl
    obtain ⟨i1, i2⟩ := read_joined l m (fun y hy => hp y (by simp [hy])) hu.2.2 hm u
      (extractVal t ⟨w ++ (shown t v ++ (u ++ joined l)), false, false⟩ (n 0)).1.eof hu.1 (by
        intro hl
        apply h3
        have := hu.2.1 hl
        simp [this])
    simp only [readAll]
    rw [hst]
    refine ⟨i1, .cons ?_ ?_ i2⟩
    · intro k
      simpa [read, broadcast] using h4
    · intro k
      rfl

/-- Values written with white space behind each of them, to a new buffer or file, are read back on every node: strings without white space, characters and
integers as they are, floating-point numbers to six digits.  (The claim has neither condition; see `C97_false` and the theorems after it.) -/
theorem C97_round_trip_partial (l : List (Item × List Byte)) (m : List Var) (hp : ∀ x ∈ l, Plain x.1) (hs : Spaced l) (hm : Fitting l m) :
    (readAll (stream (writeAll Out.new (writes l)).content) m).1.fail = false ∧ Got l (readAll (stream (writeAll Out.new (writes l)).content) m).2 := by
  rw [(C97_written _).1]
  have e : ((writes l).flatMap fun x => shown x.1 x.2) = joined l := by
    unfold writes joined
    rw [List.flatMap_assoc]
    congr 1
    funext x
    simp [shown]
  rw [e]
  have := read_joined l m hp hs hm [] false (by intro b hb; simp at hb) (fun _ => rfl)
  simpa [stream] using this

/-- `12 abc`, a newline and `1.5` -/
example : ∃ l : List (Item × List Byte), l.length = 3 ∧ (∀ x ∈ l, Plain x.1) ∧ Spaced l ∧
    (writes l).flatMap (fun x => shown x.1 x.2) = [49, 50, 32, 97, 98, 99, 10] ++ showF digits (.fin false (3 / 2)) := by
  refine ⟨[(⟨.num i32, (12 : Int)⟩, [32]), (⟨.str, [97, 98, 99]⟩, [10]), (⟨.f64, Fl.fin false (3 / 2)⟩, [])], rfl, ?_, ?_, ?_⟩
  · intro x hx
    simp only [List.mem_cons, List.not_mem_nil, or_false] at hx
    rcases hx with rfl | rfl | rfl
    · exact ⟨by simp [nums], by decide, by decide⟩
    · exact ⟨by decide, by decide⟩
    · exact ⟨3, -1, by norm_num, by decide, by decide, by decide⟩
  · refine ⟨by decide, ?_, by decide, ?_, by intro b hb; simp at hb⟩ <;> (intro b hb; simp at hb; subst hb; decide)
  · have h : showInt 12 = [49, 50] := by decide
    simp [writes, shown, h]

/-- after a read all nodes have the same value, also if it failed, and the same answer to `fail` -/
theorem C97_nodes (t : Ty) (s : IS) (v : NodeVal t) (junk : Nat → Bool) (i j : Nat) :
    (read t s v).2 i = (read t s v).2 j ∧ failed (read t s v).1 junk i = (read t s v).1.fail := ⟨rfl, by simp [failed, broadcast]⟩

/-- a string as it is copied to the other nodes -/
def held : (t : Ty) → t.V → t.V
  | .str, s => cString s
  | .chr, b => b
  | .num _, z => z
  | .f32, x => x
  | .f64, x => x

/-- a read after a failure, or at the end of the text, fails; every node gets the value the variable has on the primary node -/
theorem C97_after_failure (t : Ty) (s : IS) (h : s.eof = true ∨ s.fail = true) (v : NodeVal t) :
    (read t s v).1 = { s with fail := true } ∧ ∀ k, (read t s v).2 k = held t (v 0) := by
  have h : (s.eof || s.fail) = true := by simpa using h
  cases t <;> simp [read, extractVal, extractStr, extractChr, XmlNum.extract, FloatText.extract, broadcast, held, h]

/-! ## objects of several numbers -/

theorem inp_out : ∀ o : Obj, o.inp = o.out
  | .real => rfl
  | .complex => rfl
  | .vec n o => by simp only [Obj.inp, Obj.out, inp_out o]
  | .mat n o => by simp only [Obj.inp, Obj.out, inp_out o]

theorem mem_out : ∀ (o : Obj) (k : o.Ix), k ∈ o.out
  | .real, () => by simp [Obj.out]
  | .complex, b => by cases b <;> simp [Obj.out]
  | .vec n o, (i, k) => by
    simp only [Obj.out, List.mem_flatMap, List.mem_map]
    exact ⟨i, List.mem_finRange i, k, mem_out o k, rfl⟩
  | .mat n o, (i, j, k) => by
    simp only [Obj.out, List.mem_flatMap, List.mem_map]
    exact ⟨j, List.mem_finRange j, i, List.mem_finRange i, k, mem_out o k, rfl⟩

theorem nodup_out : ∀ o : Obj, o.out.Nodup
  | .real => by simp [Obj.out]
  | .complex => by simp [Obj.out]
  | .vec n o => by
    simp only [Obj.out]
    rw [List.nodup_flatMap]
    refine ⟨fun i _ => (nodup_out o).map fun a b h => (Prod.mk.inj h).2, ?_⟩
    refine (List.nodup_finRange n).imp ?_
    intro i i' h x hx hx'
    simp only [List.mem_map] at hx hx'
    obtain ⟨k, -, rfl⟩ := hx
    obtain ⟨k', -, e⟩ := hx'
    exact h (Prod.mk.inj e).1.symm
  | .mat n o => by
    simp only [Obj.out]
    rw [List.nodup_flatMap]
    constructor
    · intro j _
      rw [List.nodup_flatMap]
      refine ⟨fun i _ => (nodup_out o).map fun a b h => (Prod.mk.inj (Prod.mk.inj h).2).2, ?_⟩
      refine (List.nodup_finRange n).imp ?_
      intro i i' h x hx hx'
      simp only [List.mem_map] at hx hx'
      obtain ⟨k, -, rfl⟩ := hx
      obtain ⟨k', -, e⟩ := hx'
      exact h (Prod.mk.inj e).1.symm
    · refine (List.nodup_finRange n).imp ?_
      intro j j' h x hx hx'
      simp only [List.mem_flatMap, List.mem_map] at hx hx'
      obtain ⟨i, -, k, -, rfl⟩ := hx
      obtain ⟨i', -, k', -, e⟩ := hx'
      exact h (Prod.mk.inj (Prod.mk.inj e).2).1.symm

/-- how many numbers there are -/
def Obj.count : Obj → Nat
  | .real => 1
  | .complex => 2
  | .vec n o => n * o.count
  | .mat n o => n * n * o.count

theorem length_out : ∀ o : Obj, o.out.length = o.count
  | .real => rfl
  | .complex => rfl
  | .vec n o => by simp [Obj.out, Obj.count, length_out o]
  | .mat n o => by simp [Obj.out, Obj.count, length_out o]; ring

/-- the text of a negative number begins with the sign -/
theorem negative_stop {x : Fl} (h : Negative x) (r : List Byte) : Stop (showF digits x ++ r) := by
  have : ∃ t, showF digits x = 45 :: t := by
    cases x with
    | fin neg x => have h : neg = true := h; subst h; exact ⟨_, rfl⟩
    | inf neg => have h : neg = true := h; subst h; exact ⟨_, rfl⟩
    | nan neg => have h : neg = true := h; subst h; exact ⟨_, rfl⟩
  obtain ⟨t, ht⟩ := this
  intro b hb
  rw [ht] at hb
  simp at hb
  subst hb
  decide

theorem read_negative {ι : Type} [DecidableEq ι] {F : Fmt} (v : ι → Fl) (hf : ∀ k, Fits F digits (v k)) : ∀ (l : List ι), l.Nodup → (∀ k ∈ l.tail, Negative (v k)) →
    ∀ (e : Bool) (u : ι → Fl) (r : List Byte), Stop r → (l ≠ [] → e = false) → (l = [] → r = [] → e = true) →
      (readEntries F l ⟨(l.flatMap fun k => showF digits (v k)) ++ r, e, false⟩ u).1.rest = r ∧
      (readEntries F l ⟨(l.flatMap fun k => showF digits (v k)) ++ r, e, false⟩ u).1.fail = false ∧
      ∀ k, (readEntries F l ⟨(l.flatMap fun k => showF digits (v k)) ++ r, e, false⟩ u).2 k = if k ∈ l then back F digits (v k) else u k
  | [], _, _, e, u, r, _, _, _ => ⟨rfl, rfl, fun k => by simp [readEntries]⟩
  | a :: l, hd, hn, e, u, r, hr, he, _ => by
    have he := he (by simp)
    subst he
    have hst : Stop ((l.flatMap fun k => showF digits (v k)) ++ r) := by
      cases l with
      | nil => simpa using hr
      | cons b l =>
        rw [List.flatMap_cons, List.append_assoc]
        exact negative_stop (hn b (by simp)) _
    have hx := extract_fin (F := F) (P := digits) (w := []) (by decide) (by intro b hb; simp at hb) hst (hf a) (u a)
    rw [List.nil_append] at hx
    have hl : (l.flatMap fun k => showF digits (v k)) ++ r = [] → l = [] := by
      intro h
      cases l with
      | nil => rfl
      | cons b l =>
        have := showF_ne (P := digits) (by decide) (hf b)
        simp [this] at h
    obtain ⟨i1, i2, i3⟩ := read_negative v hf l (List.nodup_cons.1 hd).2 (fun k hk => hn k (by
        simp only [List.tail_cons]
        exact List.mem_of_mem_tail hk)) (decide (((l.flatMap fun k => showF digits (v k)) ++ r) = [])) (Function.update u a (back F digits (v a))) r hr
      (fun h => decide_eq_false fun h' => h (hl h')) (by
        intro h1 h2
        subst h1 h2
        rfl)
    have e1 : readEntries F (a :: l) ⟨((a :: l).flatMap fun k => showF digits (v k)) ++ r, false, false⟩ u =
        readEntries F l ⟨(l.flatMap fun k => showF digits (v k)) ++ r, decide (((l.flatMap fun k => showF digits (v k)) ++ r) = []), false⟩
          (Function.update u a (back F digits (v a))) := by
      rw [readEntries, List.flatMap_cons, List.append_assoc, hx]
    rw [e1]
    refine ⟨i1, i2, fun k => ?_⟩
    rw [i3 k]
    by_cases hk : k = a
    · subst hk
      simp [(List.nodup_cons.1 hd).1]
    · simp [hk]

/-- Objects of several numbers are written without anything between the numbers.  They are read back if each number but the first begins with a minus sign. -/
theorem C97_negative_partial {F : Fmt} (hF : F = FloatText.f32 ∨ F = FloatText.f64) (o : Obj) (v u : o.Ix → Fl) (hv : ∀ k, Finite F (v k))
    (hn : ∀ k ∈ o.out.tail, Negative (v k)) :
    (readObj F o (stream (writeObj o v)) u).1.fail = false ∧ ∀ k, Reads F 6 (v k) ((readObj F o (stream (writeObj o v)) u).2 k) := by
  have hf : ∀ k, Fits F digits (v k) := by
    intro k
    rcases hF with rfl | rfl
    · exact fits32 (hv k)
    · exact fits64 (hv k)
  have h0 : F.emin ≤ F.emax ∧ 0 < F.p := by
    rcases hF with rfl | rfl
    · exact ⟨f32_ok.2, f32_ok.1⟩
    · exact ⟨f64_ok.2, f64_ok.1⟩
  unfold readObj
  rw [inp_out]
  by_cases hl : o.out = []
  · rw [hl]
    refine ⟨rfl, fun k => ?_⟩
    have := mem_out o k
    rw [hl] at this
    simp at this
  · obtain ⟨-, h2, h3⟩ := read_negative v hf o.out (nodup_out o) hn false u [] (by intro b hb; simp at hb) (fun _ => rfl) (fun h => absurd h hl)
    rw [List.append_nil] at h2 h3
    refine ⟨h2, fun k => ?_⟩
    have := h3 k
    rw [if_pos (mem_out o k)] at this
    show Reads F 6 (v k) ((readEntries F o.out ⟨writeObj o v, false, false⟩ u).2 k)
    rw [show (readEntries F o.out ⟨writeObj o v, false, false⟩ u).2 k = back F digits (v k) from this]
    exact back_reads (by decide) h0.2 h0.1 (hf k)

theorem text_ones : ∀ n : Nat, scan (text (List.replicate (n + 1) 1)) = (List.replicate (n + 1) 1, 0, none, []) := by
  intro n
  have h := takeDigits_map 10 (Or.inl rfl) (List.replicate (n + 1) 1) [] (by intro d hd; rw [List.eq_of_mem_replicate hd]; omega) (by simp)
  rw [List.append_nil] at h
  unfold scan text
  rw [h]
  simp [takeFrac, takeExp]

theorem one_text : showF digits (.fin false 1) = text [1] := by
  have h1 : FloatText.dec digits 1 = (100000, 0) := by
    have := dec_eq (P := digits) (a := 100000) (s := -5) (t := 0) (v := 1) (by decide) (by decide) (by decide) (by norm_num) (by norm_num) (by norm_num)
    rw [this]
    decide
  rw [showF, if_neg (by norm_num), h1]
  decide

theorem readEntries_eof {ι : Type} [DecidableEq ι] {F : Fmt} : ∀ (l : List ι) (s : IS) (u : ι → Fl), s.eof = true ∨ s.fail = true →
    (readEntries F l s u).2 = u ∧ (l ≠ [] → (readEntries F l s u).1.fail = true) ∧ (s.fail = true → (readEntries F l s u).1.fail = true)
  | [], _, _, _ => ⟨rfl, by simp, id⟩
  | k :: l, s, u, h => by
    have e : FloatText.extract F s (u k) = ({ s with fail := true }, u k) := by
      unfold FloatText.extract
      rw [if_pos (by simpa using h)]
    obtain ⟨h1, h2, h3⟩ := readEntries_eof (F := F) l { s with fail := true } u (Or.inr rfl)
    rw [readEntries, e, Function.update_eq_self]
    exact ⟨h1, fun _ => h3 rfl, fun _ => h3 rfl⟩

/-- Otherwise they need not be: an object of at least two numbers, all of them 1, is not read back.  The first variable gets all digits, the others keep
their values, and the reader fails. -/
theorem C97_false (F : Fmt) (o : Obj) (h2 : 2 ≤ o.count) (u : o.Ix → Fl) :
    (readObj F o (stream (writeObj o fun _ => .fin false 1)) u).1.fail = true ∧
    ∀ k ∈ o.out.tail, (readObj F o (stream (writeObj o fun _ => .fin false 1)) u).2 k = u k := by
  unfold readObj
  rw [inp_out]
  have hlen := length_out o
  have hnd := nodup_out o
  have hw : ∀ l : List o.Ix, (l.flatMap fun _ => showF digits (.fin false 1)) = text (List.replicate l.length 1) := by
    intro l
    induction l with
    | nil => rfl
    | cons a l ih => rw [List.flatMap_cons, ih, one_text]; rfl
  unfold writeObj
  rw [hw]
  cases ho : o.out with
  | nil => rw [ho] at hlen; simp at hlen; omega
  | cons a l =>
    rw [ho] at hlen hnd
    have hl : l ≠ [] := by
      rintro rfl
      simp at hlen
      omega
    have hc : Clear none (text (List.replicate (l.length + 1) 1)) := by
      intro _
      exact ⟨digitByte 1, text (List.replicate l.length 1), rfl, by decide, by decide, by decide⟩
    have hx := extract_text (F := F) (w := []) (by intro b hb; simp at hb) false (u := text (List.replicate (l.length + 1) 1)) (by simpa using hc) (u a)
    rw [text_ones] at hx
    have e1 : (FloatText.extract F (stream (text (List.replicate (a :: l).length 1))) (u a)).1.eof = true := by
      have : stream (text (List.replicate (a :: l).length 1)) = ⟨[] ++ (minus false ++ text (List.replicate (l.length + 1) 1)), false, false⟩ := rfl
      rw [this, hx, if_neg (by simp [List.replicate_succ])]
      rfl
    obtain ⟨h3, h4, -⟩ := readEntries_eof (F := F) l _ (Function.update u a (FloatText.extract F (stream (text (List.replicate (a :: l).length 1))) (u a)).2) (Or.inl e1)
    refine ⟨h4 hl, fun k hk => ?_⟩
    rw [readEntries, h3]
    have : k ≠ a := by
      rintro rfl
      exact (List.nodup_cons.1 hnd).1 hk
    simp [this]

/-- a complex number, a spin vector, a colour matrix -/
example : Obj.count .complex = 2 ∧ Obj.count (.vec 4 (.vec 3 .complex)) = 24 ∧ Obj.count (.mat 3 .complex) = 18 := by decide

/-- 1 - i is read back -/
example : ∀ k ∈ Obj.complex.out.tail, Negative ((fun b : Bool => if b then Fl.fin true 1 else .fin false 1) k) := by
  intro k hk
  simp [Obj.out] at hk
  subst hk
  rfl

/-- Seeds are read back: a newline is written behind each of the four numbers. -/
theorem C97_seed (v u : Fin 4 → Int) (hv : ∀ i, -2 ^ 31 ≤ v i ∧ v i < 2 ^ 31) (r : List Byte) :
    readSeed (stream (writeSeed v ++ r)) u = (⟨10 :: r, false, false⟩, v) := by
  have hT : i32 ∈ nums := by simp [nums]
  have one : ∀ (w : List Byte) (z : Int) (t : List Byte) (d : Int), Blank w → -2 ^ 31 ≤ z ∧ z < 2 ^ 31 →
      XmlNum.extract i32 ⟨w ++ (showInt z ++ (10 :: t)), false, false⟩ d = (⟨10 :: t, false, false⟩, z) := by
    intro w z t d hw hz
    obtain ⟨k, hk, hkw, ht, hkz⟩ := show_tok z
    have hg : Tok.Good { k with ws := w } := ⟨hw, hk.ne, hk.lt⟩
    have e : w ++ (showInt z ++ (10 :: t)) = Tok.text { k with ws := w } ++ (10 :: t) := by
      rw [← ht]
      simp [Tok.text, hkw]
    have hx := extract_good i32 hT hg (t := 10 :: t) (noDigit_iff.2 (by intro b hb; simp at hb; subst hb; decide))
      (value_self hT (k := { k with ws := w }) hkz ⟨hz.1, by show z ≤ 2 ^ 31 - 1; omega⟩) d
    rw [← e] at hx
    exact hx
  have hb : Blank [10] := by intro b hb; simp at hb; subst hb; decide
  have h0 : ∀ t d, XmlNum.extract i32 ⟨showInt (v 0) ++ (10 :: t), false, false⟩ d = (⟨10 :: t, false, false⟩, v 0) :=
    fun t d => one [] (v 0) t d (by intro b hb; simp at hb) (hv 0)
  have h1 : ∀ t d, XmlNum.extract i32 ⟨10 :: (showInt (v 1) ++ (10 :: t)), false, false⟩ d = (⟨10 :: t, false, false⟩, v 1) := fun t d => one [10] (v 1) t d hb (hv 1)
  have h2 : ∀ t d, XmlNum.extract i32 ⟨10 :: (showInt (v 2) ++ (10 :: t)), false, false⟩ d = (⟨10 :: t, false, false⟩, v 2) := fun t d => one [10] (v 2) t d hb (hv 2)
  have h3 : ∀ t d, XmlNum.extract i32 ⟨10 :: (showInt (v 3) ++ (10 :: t)), false, false⟩ d = (⟨10 :: t, false, false⟩, v 3) := fun t d => one [10] (v 3) t d hb (hv 3)
  have l4 : List.finRange 4 = [0, 1, 2, 3] := by decide
  have ew : writeSeed v ++ r = showInt (v 0) ++ (10 :: (showInt (v 1) ++ (10 :: (showInt (v 2) ++ (10 :: (showInt (v 3) ++ 10 :: r)))))) := by
    simp [writeSeed, l4]
  unfold readSeed
  rw [ew, stream, l4]
  simp only [List.foldl_cons, List.foldl_nil, h0, h1, h2, h3]
  congr 1
  funext i
  match i with
  | 0 => simp [Function.update]
  | 1 => simp [Function.update]
  | 2 => simp [Function.update]
  | 3 => simp [Function.update]

/-- the largest seed and the smallest numbers fit -/
example : ∀ i : Fin 4, -2 ^ 31 ≤ (fun i : Fin 4 => if i = 3 then (-2 ^ 31 : Int) else 4095 - i) i ∧ (fun i : Fin 4 => if i = 3 then (-2 ^ 31 : Int) else 4095 - i) i < 2 ^ 31 := by
  decide

/-! ## what the numbers are worth -/

/-- The number a reader makes of six digits differs from the number written by at most 10⁻⁵ of it; a zero stays zero. -/
theorem C97_error {F : Fmt} {neg : Bool} {x : ℚ} (hx : Finite F (.fin neg x)) {z : Fl} (h : Reads F 6 (.fin neg x) z) :
    ∃ y, z = .fin neg y ∧ |y - x| ≤ x / 10 ^ 5 := by
  obtain ⟨neg', a, b, e, rfl, h⟩ := h
  obtain ⟨rfl, rfl⟩ := Fl.fin.inj e
  refine ⟨b, rfl, ?_⟩
  rcases h with ⟨rfl, rfl⟩ | ⟨h0, d, h1, h2⟩
  · simp
  · have h3 := (h1.2 _ (dec_dec (P := 6) (by decide) h0)).trans (dec_err (by decide) h0)
    have h4 := h2.2 x hx
    rw [abs_sub_comm x] at h4
    have h5 := abs_add_le (b - d) (d - x)
    rw [sub_add_sub_cancel] at h5
    have e : (10 : ℚ) ^ (1 - ((6 : Nat) : Int)) = 1 / 10 ^ 5 := by norm_num
    rw [e] at h3
    linarith

/-- The claim with exact equality is false: the `float` 1234567 is read as 1234570. -/
theorem C97_digits_false (u : NodeVal .f32) : Plain ⟨.f32, Fl.fin false 1234567⟩ ∧
    (read .f32 (stream (writeAll Out.new [⟨.f32, Fl.fin false 1234567⟩]).content) u).2 = fun _ => Fl.fin false 1234570 := by
  have hr : Rep FloatText.f32 1234567 := ⟨1234567, 0, by norm_num, by decide, by decide, by decide⟩
  refine ⟨hr, ?_⟩
  have hd : FloatText.dec digits 1234567 = (123457, 6) := by
    have hl : Int.log 10 (1234567 : ℚ) = 6 := log10_eq (by norm_num) (by norm_num)
    unfold FloatText.dec
    dsimp only
    rw [hl, show (6 : Int) - (digits : Nat) + 1 = 1 by decide, near_grid (zt 1) (n := 123457) (by norm_num [abs_lt])]
    decide
  have h1 : decVal digits (123457, 6) = 1234570 := by norm_num [decVal, digits]
  have h2 : round FloatText.f32 1234570 = 1234570 := round_self f32_ok.1 (by norm_num) ⟨1234570, 0, by norm_num, by decide, by decide, by decide⟩
  have hx := extract_fin (F := FloatText.f32) (P := digits) (w := []) (r := []) (x := .fin false 1234567) (by decide) (by intro b hb; simp at hb) (by intro b hb; simp at hb)
    (fits32 (x := .fin false 1234567) hr) (u 0)
  rw [List.nil_append, List.append_nil] at hx
  rw [(C97_written _).1]
  funext k
  simp only [read, broadcast, if_true, List.flatMap_cons, List.flatMap_nil, List.append_nil, shown, extractVal]
  show (FloatText.extract FloatText.f32 ⟨showF digits (.fin false 1234567), false, false⟩ (u 0)).2 = _
  rw [hx, back, if_neg (by norm_num), hd, h1, h2]

theorem at_end (x : Item) (hp : Plain x) (hc : x.1 ≠ .chr) (old : x.1.V) : (extractVal x.1 (stream (shown x.1 x.2)) old).1.eof = true := by
  have hnil : Blank [] := by intro b hb; simp at hb
  obtain ⟨h1, -⟩ := extract_plain hp hnil hnil (r := []) (fun _ => rfl) old
  obtain ⟨t, v⟩ := x
  simp only [List.nil_append, List.append_nil] at h1
  cases t with
  | chr => exact absurd rfl hc
  | str =>
    have hd : v.dropWhile isSpace = v := by simpa using dropWhile_blank [] v hnil (fun b t e => (hp.2 b (by rw [e]; simp)).1)
    have hd2 : v.dropWhile (fun b => !isSpace b) = [] := by
      have : ∀ v : List Byte, (∀ b ∈ v, isSpace b = false ∧ b ≠ 0) → v.dropWhile (fun b => !isSpace b) = [] := by
        intro v
        induction v with
        | nil => intro _; rfl
        | cons a v ih =>
          intro hv
          rw [List.dropWhile_cons, if_pos (by simp [(hv a (by simp)).1]), ih fun b hb => hv b (by simp [hb])]
      exact this v hp.2
    have hv : v ≠ [] := hp.1
    simp [extractVal, extractStr, stream, shown, hd, hd2, hv]
  | num T =>
    obtain ⟨k, hk, hkw, ht, hz⟩ := show_tok v
    have hx := extract_good T hp.1 hk (t := []) (noDigit_iff.2 (by simp)) (value_self hp.1 hz hp.2) old
    rw [List.append_nil, ht] at hx
    show (XmlNum.extract T (stream (showInt v)) old).1.eof = true
    rw [hx]
    rfl
  | f32 =>
    have hx := extract_fin (F := FloatText.f32) (P := digits) (r := []) (by decide) hnil (by intro b hb; simp at hb) (fits32 hp) old
    rw [List.nil_append, List.append_nil] at hx
    show (FloatText.extract FloatText.f32 ⟨showF digits v, false, false⟩ old).1.eof = true
    rw [hx]
    rfl
  | f64 =>
    have hx := extract_fin (F := FloatText.f64) (P := digits) (r := []) (by decide) hnil (by intro b hb; simp at hb) (fits64 hp) old
    rw [List.nil_append, List.append_nil] at hx
    show (FloatText.extract FloatText.f64 ⟨showF digits v, false, false⟩ old).1.eof = true
    rw [hx]
    rfl

/-! ## text without white space, white space without text -/

/-- two strings without white space between them are read as one, and the second variable keeps its value -/
theorem C97_joined (a b : List Byte) (ha : Plain ⟨.str, a⟩) (hb : Plain ⟨.str, b⟩) (u v : NodeVal .str) :
    (readAll (stream (writeAll Out.new [⟨.str, a⟩, ⟨.str, b⟩]).content) [⟨.str, u⟩, ⟨.str, v⟩]).1.fail = true ∧
    (readAll (stream (writeAll Out.new [⟨.str, a⟩, ⟨.str, b⟩]).content) [⟨.str, u⟩, ⟨.str, v⟩]).2 = [⟨.str, fun _ => a ++ b⟩, ⟨.str, fun _ => cString (v 0)⟩] := by
  have hp : Plain ⟨.str, a ++ b⟩ := ⟨by simp [ha.1], fun c hc => (List.mem_append.1 hc).elim (ha.2 c) (hb.2 c)⟩
  have h4 := (extract_plain hp (w := []) (u := []) (r := []) (by intro b hb; simp at hb) (by intro b hb; simp at hb) (fun _ => rfl) (u 0)).2.2.2
  have h5 := at_end ⟨.str, a ++ b⟩ hp (by simp) (u 0)
  have ew : (writeAll Out.new [⟨.str, a⟩, ⟨.str, b⟩]).content = a ++ b := by rw [(C97_written _).1]; simp [shown]
  rw [ew]
  have h6 := C97_after_failure .str (read .str (stream (a ++ b)) u).1 (Or.inl h5) v
  refine ⟨?_, ?_⟩
  · show (read .str (read .str (stream (a ++ b)) u).1 v).1.fail = true
    rw [h6.1]
  · simp only [readAll]
    have e1 : (read .str (read .str (stream (a ++ b)) u).1 v).2 = fun _ => cString (v 0) := funext h6.2
    have e2 : (read .str (stream (a ++ b)) u).2 = fun _ => a ++ b := by
      funext k
      have : a ++ b = (extractVal .str ⟨[] ++ (a ++ b ++ ([] ++ [])), false, false⟩ (u 0)).2 := h4
      rw [List.nil_append, List.append_nil, List.append_nil] at this
      exact this.symm
    rw [e1, e2]

/-- a string with white space inside is cut there; the next read gives the rest of it -/
theorem C97_cut (a b : List Byte) (ha : Plain ⟨.str, a⟩) (hb : Plain ⟨.str, b⟩) (w : List Byte) (hw : Blank w) (hn : w ≠ []) (u v : NodeVal .str) :
    (readAll (stream (writeAll Out.new [⟨.str, a ++ w ++ b⟩]).content) [⟨.str, u⟩, ⟨.str, v⟩]).1.fail = false ∧
    Got [(⟨.str, a⟩, w), (⟨.str, b⟩, [])] (readAll (stream (writeAll Out.new [⟨.str, a ++ w ++ b⟩]).content) [⟨.str, u⟩, ⟨.str, v⟩]).2 := by
  have := C97_round_trip_partial [(⟨.str, a⟩, w), (⟨.str, b⟩, [])] [⟨.str, u⟩, ⟨.str, v⟩] (by
      intro x hx
      simp only [List.mem_cons, List.not_mem_nil, or_false] at hx
      rcases hx with rfl | rfl
      · exact ha
      · exact hb) ⟨hn, hw, by intro b hb; simp at hb⟩ (.cons (.cons .nil))
  have e : (writeAll Out.new (writes [(⟨.str, a⟩, w), (⟨.str, b⟩, [])])).content = (writeAll Out.new [⟨.str, a ++ w ++ b⟩]).content := by
    rw [(C97_written _).1, (C97_written _).1]
    simp [writes, shown]
  rw [← e]
  exact this

/-- an empty string is not read back: the variable keeps its value and the reader fails -/
theorem C97_empty (u : NodeVal .str) :
    (readAll (stream (writeAll Out.new [⟨.str, []⟩]).content) [⟨.str, u⟩]).1.fail = true ∧
    (readAll (stream (writeAll Out.new [⟨.str, []⟩]).content) [⟨.str, u⟩]).2 = [⟨.str, fun _ => cString (u 0)⟩] := by
  rw [(C97_written _).1]
  exact ⟨rfl, rfl⟩

/-- two numbers without white space between them: 1 and 2 become 12 -/
theorem C97_false_numbers (u v : NodeVal (.num i32)) :
    (readAll (stream (writeAll Out.new [⟨.num i32, (1 : Int)⟩, ⟨.num i32, (2 : Int)⟩]).content) [⟨.num i32, u⟩, ⟨.num i32, v⟩]).1.fail = true ∧
    (readAll (stream (writeAll Out.new [⟨.num i32, (1 : Int)⟩, ⟨.num i32, (2 : Int)⟩]).content) [⟨.num i32, u⟩, ⟨.num i32, v⟩]).2 =
      [⟨.num i32, fun _ => (12 : Int)⟩, ⟨.num i32, fun _ => v 0⟩] := by
  have hp : Plain ⟨.num i32, (12 : Int)⟩ := ⟨by simp [nums], by decide, by decide⟩
  have h4 := (extract_plain hp (w := []) (u := []) (r := []) (by intro b hb; simp at hb) (by intro b hb; simp at hb) (fun _ => rfl) (u 0)).2.2.2
  have h5 := at_end ⟨.num i32, (12 : Int)⟩ hp (by simp) (u 0)
  have ew : (writeAll Out.new [⟨.num i32, (1 : Int)⟩, ⟨.num i32, (2 : Int)⟩]).content = shown (.num i32) (12 : Int) := by rw [(C97_written _).1]; decide
  rw [ew]
  have h6 := C97_after_failure (.num i32) (read (.num i32) (stream (shown (.num i32) (12 : Int))) u).1 (Or.inl h5) v
  refine ⟨?_, ?_⟩
  · show (read (.num i32) (read (.num i32) (stream (shown (.num i32) (12 : Int))) u).1 v).1.fail = true
    rw [h6.1]
  · simp only [readAll]
    have e1 : (read (.num i32) (read (.num i32) (stream (shown (.num i32) (12 : Int))) u).1 v).2 = fun _ => v 0 := funext h6.2
    have e2 : (read (.num i32) (stream (shown (.num i32) (12 : Int))) u).2 = fun _ => (12 : Int) := by
      funext k
      have : (12 : Int) = (extractVal (.num i32) ⟨[] ++ (shown (.num i32) (12 : Int) ++ ([] ++ [])), false, false⟩ (u 0)).2 := h4
      rw [List.nil_append, List.append_nil, List.append_nil] at this
      exact this.symm
    rw [e1, e2]

/-! ## opening -/

/-- A buffer writer opened with a text writes over the text, not behind it. -/
theorem C97_initial (s : List Byte) (l : List Item) :
    (writeAll (Out.new.openBuffer s) l).content = (l.flatMap fun x => shown x.1 x.2) ++ s.drop (l.flatMap fun x => shown x.1 x.2).length := by
  have h : ∀ (l : List Item) (p s : List Byte), (writeAll ⟨p ++ s, p.length, false⟩ l).content =
      p ++ (l.flatMap fun x => shown x.1 x.2) ++ s.drop (l.flatMap fun x => shown x.1 x.2).length := by
    intro l
    induction l with
    | nil => intro p s; simp [writeAll]
    | cons x l ih =>
      intro p s
      have e : writeAll ⟨p ++ s, p.length, false⟩ (x :: l) = writeAll ⟨(p ++ shown x.1 x.2) ++ s.drop (shown x.1 x.2).length, (p ++ shown x.1 x.2).length, false⟩ l := by
        show writeAll (Out.put _ _) l = _
        simp [Out.put, List.drop_append, List.drop_eq_nil_of_le]
      rw [e, ih]
      simp [List.drop_drop]
  simpa [Out.new, Out.openBuffer] using h l [] s

/-- so the text is not the beginning of what is written: `hello` and then `12` gives `12llo` -/
theorem C97_initial_false : ∃ (s : List Byte) (l : List Item), (writeAll (Out.new.openBuffer s) l).content ≠ s ++ l.flatMap fun x => shown x.1 x.2 := by
  refine ⟨[104, 101, 108, 108, 111], [⟨.num i32, (12 : Int)⟩], ?_⟩
  rw [C97_initial]
  decide

/-- A buffer reader that has come to the end stays there when it is opened with another text: all reads fail. -/
theorem C97_reopen (s : IS) (h : s.eof = true ∨ s.fail = true) (text : List Byte) (t : Ty) (v : NodeVal t) :
    (read t (openBuffer s text) v).1.fail = true ∧ ∀ k, (read t (openBuffer s text) v).2 k = held t (v 0) := by
  have := C97_after_failure t (openBuffer s text) (by simpa [openBuffer] using h) v
  exact ⟨by rw [this.1], this.2⟩

/-- that is where it is after a number or a string at the very end of the text was read -/
theorem C97_at_end (x : Item) (hp : Plain x) (hc : x.1 ≠ .chr) (v : NodeVal x.1) : (read x.1 (stream (shown x.1 x.2)) v).1.eof = true :=
  at_end x hp hc (v 0)

/-- A file that is opened while one is open is not read, and what is written then is lost; `is_open` is true. -/
theorem C97_twice (s : IS) (text : List Byte) (t : Ty) (v : NodeVal t) (o : Out) (l : List Item) :
    (read t (openFile true s text) v).1.fail = true ∧ (∀ k, (read t (openFile true s text) v).2 k = held t (v 0)) ∧
    (writeAll (o.openFile true) l).content = o.content := by
  have := C97_after_failure t (openFile true s text) (Or.inr rfl) v
  refine ⟨by rw [this.1], this.2, ?_⟩
  have h : ∀ (l : List Item) (o : Out), o.fail = true → (writeAll o l) = o := by
    intro l
    induction l with
    | nil => intro o _; rfl
    | cons x l ih =>
      intro o ho
      have e : o.put (shown x.1 x.2) = o := by simp [Out.put, ho]
      show writeAll (o.put _) l = o
      rw [e, ih o ho]
  rw [h l _ rfl]
  rfl

/-- a file opened after the one before was closed is read from the beginning, whatever the state was -/
theorem C97_file (s : IS) (text : List Byte) (o : Out) : openFile false s text = stream text ∧ o.openFile false = Out.new := ⟨rfl, rfl⟩

end Verif.TextIO
