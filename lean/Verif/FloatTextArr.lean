import Verif.FloatTextRead
/-
Arrays of floating-point numbers as text: the loops of the readers.
-/
namespace Verif.FloatText
open Verif Outcome ByteOrder Verif.ArchiveHdr Verif.XmlNum

def seq (P : Nat) (l : List Fl) : List Byte := l.flatMap fun y => 32 :: showF P y

theorem seq_stop (P : Nat) (l : List Fl) : Stop (seq P l) := by
  intro b hb
  cases l with
  | nil => simp [seq] at hb
  | cons x l =>
    simp [seq] at hb
    subst hb
    decide

theorem blank_one : Blank [32] := by
  intro b hb
  simp at hb
  subst hb
  decide

theorem blank_nil : Blank [] := by intro b hb; simp at hb

theorem fill_loop (F : Fmt) : ∀ (n : Nat) (s : IS) (d : Fl), fill F (loop F n s d).1.length s d = (loop F n s d).1
  | 0, _, _ => rfl
  | n + 1, s, d => by
    rw [loop]
    split_ifs with h
    · rfl
    · simp only [List.length_cons, fill]
      rw [fill_loop F n]

/-- the loop over numbers that fit -/
theorem loop_seq {F : Fmt} {P : Nat} (hP : 0 < P) : ∀ (pre post : List Fl) (k : Nat) (d : Fl), (∀ x ∈ pre, Fits F P x) →
    ∃ d', loop F (pre.length + k) ⟨seq P (pre ++ post), decide (seq P (pre ++ post) = []), false⟩ d =
      (pre.map (back F P) ++ (loop F k ⟨seq P post, decide (seq P post = []), false⟩ d').1, (loop F k ⟨seq P post, decide (seq P post = []), false⟩ d').2)
  | [], post, k, d, _ => ⟨d, by simp⟩
  | x :: pre, post, k, d, h => by
    have e : seq P (x :: pre ++ post) = [32] ++ (showF P x ++ seq P (pre ++ post)) := by simp [seq]
    have hx := extract_fin hP blank_one (seq_stop P (pre ++ post)) (h x (by simp)) d
    obtain ⟨d', hd'⟩ := loop_seq hP pre post k (back F P x) (fun y hy => h y (by simp [hy]))
    refine ⟨d', ?_⟩
    rw [List.length_cons, show pre.length + 1 + k = pre.length + k + 1 by omega, loop, e]
    rw [show decide (([32] ++ (showF P x ++ seq P (pre ++ post)) : List Byte) = []) = false by simp, hx]
    simp only [Bool.false_eq_true, if_false]
    rw [hd']
    simp

/-- what is left behind the numbers `pre` -/
def left (P : Nat) (pre post : List Fl) : List Byte := if pre = [] then writeArray P post else seq P post

theorem loop_write {F : Fmt} {P : Nat} (hP : 0 < P) (pre post : List Fl) (k : Nat) (d : Fl) (h : ∀ x ∈ pre, Fits F P x) :
    ∃ d', loop F (pre.length + k) (stream (writeArray P (pre ++ post))) d =
      (pre.map (back F P) ++ (loop F k ⟨left P pre post, decide (pre ≠ [] ∧ left P pre post = []), false⟩ d').1,
        (loop F k ⟨left P pre post, decide (pre ≠ [] ∧ left P pre post = []), false⟩ d').2) := by
  cases pre with
  | nil => exact ⟨d, by simp [left, stream]⟩
  | cons x pre =>
    have e : writeArray P (x :: pre ++ post) = [] ++ (showF P x ++ seq P (pre ++ post)) := rfl
    have hx := extract_fin hP blank_nil (seq_stop P (pre ++ post)) (h x (by simp)) d
    obtain ⟨d', hd'⟩ := loop_seq (F := F) hP pre post k (back F P x) (fun y hy => h y (by simp [hy]))
    refine ⟨d', ?_⟩
    rw [List.length_cons, show pre.length + 1 + k = pre.length + k + 1 by omega, loop, e, stream, hx]
    simp only [Bool.false_eq_true, if_false]
    rw [hd']
    simp [left]

theorem showF_ne {F : Fmt} {P : Nat} (hP : 0 < P) {x : Fl} (h : Fits F P x) : showF P x ≠ [] := by
  intro e
  have h1 := extract_fin (F := F) hP (w := []) (r := []) blank_nil (by intro b hb; simp at hb) h (.fin false 0)
  rw [e] at h1
  have h2 : (extract F ⟨[] ++ ([] ++ []), false, false⟩ (.fin false 0)).1.fail = true := rfl
  rw [h1] at h2
  simp at h2

theorem write_length {F : Fmt} {P : Nat} (hP : 0 < P) (pre post : List Fl) (h : ∀ x ∈ pre, Fits F P x) : pre.length ≤ (writeArray P (pre ++ post)).length := by
  have hs : ∀ l : List Fl, l.length ≤ (seq P l).length := by
    intro l
    induction l with
    | nil => simp
    | cons x l ih => simp only [seq, List.flatMap_cons, List.length_append, List.length_cons] at ih ⊢; omega
  cases pre with
  | nil => simp
  | cons x pre =>
    have e : writeArray P (x :: pre ++ post) = showF P x ++ seq P (pre ++ post) := rfl
    have h1 := List.length_pos_iff.2 (showF_ne hP (h x (by simp)))
    have h2 := hs (pre ++ post)
    rw [e]
    simp only [List.length_append, List.length_cons] at h2 ⊢
    omega

/-- the loop in `readArray`: the numbers in front, then the rest -/
theorem loop_array {F : Fmt} {P : Nat} (hP : 0 < P) (pre post : List Fl) (d : Fl) (h : ∀ x ∈ pre, Fits F P x) :
    ∃ d' k, loop F ((writeArray P (pre ++ post)).length + 1) (stream (writeArray P (pre ++ post))) d =
      (pre.map (back F P) ++ (loop F (k + 1) ⟨left P pre post, decide (pre ≠ [] ∧ left P pre post = []), false⟩ d').1,
        (loop F (k + 1) ⟨left P pre post, decide (pre ≠ [] ∧ left P pre post = []), false⟩ d').2) := by
  have hl := write_length hP pre post h
  obtain ⟨k, hk⟩ := Nat.exists_eq_add_of_le hl
  rw [hk, show pre.length + k + 1 = pre.length + (k + 1) by omega]
  obtain ⟨d', h'⟩ := loop_write (F := F) hP pre post (k + 1) d h
  exact ⟨d', k, h'⟩

/-- the rest begins with a number -/
theorem left_cons (P : Nat) (pre : List Fl) (y : Fl) (post : List Fl) : ∃ w, Blank w ∧ left P pre (y :: post) = w ++ (showF P y ++ seq P post) := by
  unfold left
  split_ifs
  · exact ⟨[], blank_nil, rfl⟩
  · exact ⟨[32], blank_one, by simp [seq]⟩

theorem loop_fail {F : Fmt} {k : Nat} {s : IS} {d : Fl} (h : (extract F s d).1.fail = true) : loop F (k + 1) s d = ([], (extract F s d).1) := by
  rw [loop]
  simp only [h, if_true]

theorem array_all {F : Fmt} {P : Nat} (hP : 0 < P) (l : List Fl) (d : Fl) (h : ∀ x ∈ l, Fits F P x) :
    ∃ s : IS, loop F ((writeArray P l).length + 1) (stream (writeArray P l)) d = (l.map (back F P), s) ∧ s.eof = true ∧ s.fail = true := by
  obtain ⟨d', k, e⟩ := loop_array (F := F) hP l [] d h
  rw [List.append_nil] at e
  have hl : left P l [] = [] := by unfold left; split_ifs <;> rfl
  have hf : (extract F ⟨left P l [], decide (l ≠ [] ∧ left P l [] = []), false⟩ d').1 = ⟨[], true, true⟩ := by
    rw [hl]
    cases l <;> simp [extract]
  rw [loop_fail (k := k) (d := d') (congrArg IS.fail hf), hf] at e
  exact ⟨_, by simpa using e, rfl, rfl⟩

theorem array_big {F : Fmt} {P : Nat} (hP : 0 < P) (pre post : List Fl) (y : Fl) (d : Fl) (h : ∀ x ∈ pre, Fits F P x) (hy : TooBig F P y) :
    loop F ((writeArray P (pre ++ y :: post)).length + 1) (stream (writeArray P (pre ++ y :: post))) d =
      (pre.map (back F P), ⟨seq P post, decide (post = []), true⟩) := by
  obtain ⟨d', k, e⟩ := loop_array (F := F) hP pre (y :: post) d h
  obtain ⟨w, hw, hl⟩ := left_cons P pre y post
  have hne : left P pre (y :: post) ≠ [] := by
    intro hn
    rw [hn] at hl
    have h1 := extract_big (F := F) hP hw (seq_stop P post) hy d
    rw [← hl] at h1
    cases hs : seq P post with
    | nil =>
      have : showF P y = [] := by
        have := congrArg List.length hl
        simp only [List.length_append, List.length_nil] at this
        exact List.length_eq_zero_iff.1 (by omega)
      obtain ⟨neg, x, rfl⟩ : ∃ neg x, y = .fin neg x := by
        cases y with
        | fin neg x => exact ⟨neg, x, rfl⟩
        | inf _ => exact hy.elim
        | nan _ => exact hy.elim
      obtain ⟨hx, -⟩ := hy
      obtain ⟨_, _, _, _, _, _, _, dd, t, ht, -⟩ := scan_dec (P := P) (a := (dec P x).1) hP (dec_cases hP hx).2.2 (dec P x).2 (r := []) (by intro b hb; simp at hb)
      rw [showF, if_neg hx.ne', ht] at this
      simp at this
    | cons b t => rw [hs] at hl; simp at hl
  have hf : extract F ⟨left P pre (y :: post), decide (pre ≠ [] ∧ left P pre (y :: post) = []), false⟩ d' =
      extract F ⟨w ++ (showF P y ++ seq P post), false, false⟩ d' := by
    rw [← hl]
    simp [hne]
  have hb := extract_big (F := F) hP hw (seq_stop P post) hy d'
  rw [loop_fail (k := k) (d := d') (by rw [hf, hb]), hf, hb, List.append_nil] at e
  rw [e]
  cases post <;> simp [seq]

theorem array_word {F : Fmt} {P : Nat} (hP : 0 < P) (pre post : List Fl) (y : Fl) (d : Fl) (h : ∀ x ∈ pre, Fits F P x) (hy : ∀ neg z, y ≠ .fin neg z) :
    ∃ t, loop F ((writeArray P (pre ++ y :: post)).length + 1) (stream (writeArray P (pre ++ y :: post))) d = (pre.map (back F P), ⟨t, false, true⟩) := by
  obtain ⟨d', k, e⟩ := loop_array (F := F) hP pre (y :: post) d h
  obtain ⟨w, hw, hl⟩ := left_cons P pre y post
  obtain ⟨t, ht, hb⟩ := extract_word (F := F) (P := P) (r := seq P post) hw hy d'
  have hne : left P pre (y :: post) ≠ [] := by
    intro hn
    rw [← hl, hn] at hb
    have : (extract F ⟨[], false, false⟩ d').1.eof = true := rfl
    rw [hb] at this
    simp at this
  have hf : extract F ⟨left P pre (y :: post), decide (pre ≠ [] ∧ left P pre (y :: post) = []), false⟩ d' =
      extract F ⟨w ++ (showF P y ++ seq P post), false, false⟩ d' := by
    rw [← hl]
    simp [hne]
  rw [loop_fail (k := k) (d := d') (by rw [hf, hb]), hf, hb, List.append_nil] at e
  exact ⟨t, e⟩

/-! every successful extraction takes characters -/

theorem takeDigits_length (l : List Byte) : (takeDigits 10 l).1.length + (takeDigits 10 l).2.length = l.length := by
  have := congrArg List.length (takeDigits_spec l).1
  simp at this
  omega

theorem takeFrac_length (l : List Byte) : (takeFrac l).1.length + (takeFrac l).2.length ≤ l.length := by
  cases l with
  | nil => simp [takeFrac]
  | cons b r =>
    rw [takeFrac]
    split_ifs
    · have := takeDigits_length r
      simp
      omega
    · simp

theorem takeSign_length (l : List Byte) : (takeSign l).2.length ≤ l.length := by
  cases l with
  | nil => simp [takeSign]
  | cons b r => rw [takeSign]; split_ifs <;> simp

theorem takeExp_length (ds : List Nat) (l : List Byte) : (takeExp ds l).2.length ≤ l.length := by
  cases l with
  | nil => simp [takeExp]
  | cons b r =>
    rw [takeExp]
    split_ifs
    · have := takeDigits_length (takeSign r).2
      have := takeSign_length r
      simp
      omega
    · simp

theorem extract_shorter {F : Fmt} {s : IS} {d : Fl} (h : (extract F s d).1.fail = false) : (extract F s d).1.rest.length < s.rest.length := by
  unfold extract at h ⊢
  dsimp only at h ⊢
  split_ifs at h ⊢ with h1 h2 h3
  · dsimp only at h3 ⊢
    push Not at h3
    have h4 : (s.rest.dropWhile isSpace).length ≤ s.rest.length := (List.dropWhile_sublist _).length_le
    have h5 := takeSign_length (s.rest.dropWhile isSpace)
    generalize (takeSign (s.rest.dropWhile isSpace)).2 = u at *
    have h6 := takeDigits_length u
    have h7 := takeFrac_length (takeDigits 10 u).2
    have h8 := takeExp_length ((takeDigits 10 u).1 ++ (takeFrac (takeDigits 10 u).2).1) (takeFrac (takeDigits 10 u).2).2
    have h9 : 0 < ((takeDigits 10 u).1 ++ (takeFrac (takeDigits 10 u).2).1).length := List.length_pos_iff.2 h3.1
    rw [List.length_append] at h9
    unfold scan
    dsimp only
    omega

theorem loop_stops (F : Fmt) : ∀ (n : Nat) (s : IS) (d : Fl), s.rest.length < n → (loop F n s d).2.fail = true
  | 0, s, _, h => by omega
  | n + 1, s, d, h => by
    rw [loop]
    split_ifs with hf
    · exact hf
    · have := extract_shorter (F := F) (s := s) (d := d) (by simpa using hf)
      exact loop_stops F n _ _ (by omega)

end Verif.FloatText
