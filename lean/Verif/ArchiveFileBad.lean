import Verif.ArchiveFileThm
/-
C101, files that are damaged, or written in another way than the header says.
-/
namespace Verif.ArchiveFile
open Verif Outcome ByteOrder Verif.Layout Verif.ParLayout Verif.Subset Verif.BinIO Verif.LatticeIO Verif.Archive Verif.ArchiveHdr
open Verif.FloatText (Fl showF f64)
open Verif.Gauge (plaq siteSum planeSum GaugeField)

/-! ## Every file of the right length holds values -/

/-- the `i`-th piece of `k` bytes -/
def piece {α : Type} (k i : Nat) (l : List α) : List α := (l.drop (i * k)).take k

theorem pieces_flat {α : Type} (k : Nat) (l : List α) : ∀ n, ((List.range n).flatMap fun i => piece k i l) = l.take (n * k)
  | 0 => by simp
  | n + 1 => by rw [List.range_succ, List.flatMap_append, pieces_flat k l n, List.flatMap_singleton, piece, Nat.succ_mul, List.take_add]

theorem piece_length {α : Type} {k i : Nat} {l : List α} (h : (i + 1) * k ≤ l.length) : (piece k i l).length = k := by
  rw [piece, List.length_take, List.length_drop]
  have := Nat.succ_mul i k
  simp only [Nat.succ_eq_add_one] at this
  omega

/-- pieces of a piece -/
theorem piece_piece {α : Type} (k n i j : Nat) (hj : j < n) (l : List α) : piece k j (piece (n * k) i l) = piece k (i * n + j) l := by
  unfold piece
  rw [List.drop_take, List.take_take, List.drop_drop]
  congr 1
  · have : (j + 1) * k ≤ n * k := Nat.mul_le_mul_right k hj
    rw [Nat.succ_mul] at this
    omega
  · ring_nf

/-- the values of the file `b`: `mat` of `fs` bytes for link after link -/
def valsOf (L : List Nat) (mat fs : Nat) (b : List Byte) : Nat → List Nat → List (List Byte) := fun dd c =>
  (List.range mat).map fun j => piece fs j (piece (mat * fs) (rank c L * 4 + dd) b)

theorem valsOf_ok {L : List Nat} {mat fs : Nat} {b : List Byte} (hb : nsites L * (4 * (mat * fs)) ≤ b.length) : IsVals L 4 mat fs (valsOf L mat fs b) := by
  intro dd c hd hc
  refine ⟨by simp [valsOf], fun w hw => ?_⟩
  obtain ⟨j, hj, rfl⟩ := List.mem_map.1 hw
  have hj' := List.mem_range.1 hj
  have hr := rank_lt hc
  have h1 : (rank c L * 4 + dd + 1) * (mat * fs) ≤ b.length := by
    refine le_trans ?_ hb
    rw [← Nat.mul_assoc (nsites L) 4]
    exact Nat.mul_le_mul_right _ (by omega)
  refine piece_length ?_
  rw [piece_length h1]
  exact Nat.mul_le_mul_right _ hj'

theorem valsOf_flat {L : List Nat} {mat fs : Nat} {b : List Byte} : valBytes L 4 (valsOf L mat fs b) = b.take (nsites L * (4 * (mat * fs))) := by
  have e1 : ∀ dd c, (valsOf L mat fs b dd c).flatten = piece (mat * fs) (rank c L * 4 + dd) b := by
    intro dd c
    rw [valsOf, ← List.flatMap_def, pieces_flat]
    exact List.take_of_length_le (by rw [piece, List.length_take]; omega)
  rw [valBytes, ← pieces_flat]
  refine List.flatMap_congr fun r hr => ?_
  have e2 : (List.range 4).flatMap (fun dd => (valsOf L mat fs b dd (digits r L)).flatten) =
      (List.range 4).flatMap fun dd => piece (mat * fs) dd (piece (4 * (mat * fs)) r b) := by
    refine List.flatMap_congr fun dd hd => ?_
    rw [e1, rank_digits (List.mem_range.1 hr), piece_piece _ _ _ _ (List.mem_range.1 hd)]
  rw [e2, pieces_flat]
  exact List.take_of_length_le (by rw [piece, List.length_take]; omega)

theorem words_append : ∀ {a : List Byte} (b : List Byte), a.length % 4 = 0 → wordsOf true (a ++ b) = wordsOf true a ++ wordsOf true b
  | [], b, _ => rfl
  | [_], b, h => by simp at h
  | [_, _], b, h => by simp at h
  | [_, _, _], b, h => by simp at h
  | b0 :: b1 :: b2 :: b3 :: t, b, h => by
    have := words_append (a := t) b (by simp at h; omega)
    simp only [List.cons_append, wordsOf, this]

theorem words_flatMap {α : Type} {e : α → List Byte} : ∀ {l : List α}, (∀ x ∈ l, (e x).length % 4 = 0) →
    (l.flatMap e).length % 4 = 0 ∧ wordsOf true (l.flatMap e) = l.flatMap fun x => wordsOf true (e x)
  | [], _ => ⟨rfl, rfl⟩
  | x :: l, h => by
    obtain ⟨h1, h2⟩ := words_flatMap (e := e) (l := l) fun y hy => h y (List.mem_cons_of_mem _ hy)
    have h0 := h x List.mem_cons_self
    refine ⟨by rw [List.flatMap_cons, List.length_append]; omega, ?_⟩
    rw [List.flatMap_cons, List.flatMap_cons, words_append _ h0, h2]

/-- the checksum of values of four bytes is the sum of the words of the file -/
theorem valSum_words {L : List Nat} {mat : Nat} {v : Nat → List Nat → List (List Byte)} (hv : IsVals L 4 mat 4 v) :
    valSum L 4 v = (wordsOf true (valBytes L 4 v)).sum := by
  have h1 : ∀ r ∈ List.range (nsites L), ∀ dd ∈ List.range 4, ((v dd (digits r L)).flatten).length % 4 = 0 ∧
      wordsOf true (v dd (digits r L)).flatten = (v dd (digits r L)).flatMap fun w => wordsOf true w := by
    intro r hr dd hd
    have := words_flatMap (e := id) (l := v dd (digits r L)) fun w hw => by
      rw [id, (hv dd _ (List.mem_range.1 hd) (digits_inRange (List.mem_range.1 hr))).2 w hw]
    simpa [List.flatMap_id'] using this
  have h2 : ∀ r ∈ List.range (nsites L), _ := fun r hr => words_flatMap (e := fun dd => (v dd (digits r L)).flatten) (l := List.range 4) fun dd hd => (h1 r hr dd hd).1
  rw [valBytes, (words_flatMap fun r hr => (h2 r hr).1).2, ← valSum_list, List.flatMap_def, List.sum_flatten, List.map_map]
  congr 1
  refine List.map_congr_left fun r hr => ?_
  rw [Function.comp, (h2 r hr).2, List.flatMap_def, List.sum_flatten, List.map_map]
  congr 1
  refine List.map_congr_left fun dd hd => ?_
  rw [Function.comp, (h1 r hr dd hd).2, List.flatMap_def, List.sum_flatten, List.map_map]
  rfl

/-! ## One word changed -/

theorem words_len4 {w : List Byte} (h : w.length = 4) : ∃ x, wordsOf true w = [x] ∧ w = store32 true x := by
  obtain ⟨a, b, c, d, rfl⟩ := len4 h
  refine ⟨a ++ b ++ c ++ d, rfl, ?_⟩
  have ext : ∀ a b c d : Byte, BitVec.extractLsb' (n := 32) 24 8 (a ++ b ++ c ++ d) = a ∧ BitVec.extractLsb' (n := 32) 16 8 (a ++ b ++ c ++ d) = b ∧
      BitVec.extractLsb' (n := 32) 8 8 (a ++ b ++ c ++ d) = c ∧ BitVec.extractLsb' (n := 32) 0 8 (a ++ b ++ c ++ d) = d := by
    intro a b c d
    refine ⟨?_, ?_, ?_, ?_⟩ <;> apply BitVec.eq_of_getLsbD_eq <;> intro i hi <;>
      simp only [BitVec.getLsbD_extractLsb', cat4_bit, hi, decide_true, Bool.true_and]
    · rw [if_neg (by omega), if_neg (by omega), if_neg (by omega)]; congr 1; omega
    · rw [if_neg (by omega), if_neg (by omega), if_pos (by omega)]; congr 1; omega
    · rw [if_neg (by omega), if_pos (by omega)]; congr 1; omega
    · rw [if_pos (by omega)]; congr 1; omega
  obtain ⟨e1, e2, e3, e4⟩ := ext a b c d
  simp only [store32, if_true, e1, e2, e3, e4]

/-- the sum changes when one word of the file does -/
theorem sum_changes {a w w' c : List Byte} (ha : a.length % 4 = 0) (hw : w.length = 4) (hw' : w'.length = 4) (hne : w' ≠ w) :
    (wordsOf true (a ++ w' ++ c)).sum ≠ (wordsOf true (a ++ w ++ c)).sum := by
  obtain ⟨x, hx, ex⟩ := words_len4 hw
  obtain ⟨y, hy, ey⟩ := words_len4 hw'
  rw [List.append_assoc, List.append_assoc, words_append _ ha, words_append _ ha, words_append _ (by omega), words_append _ (by omega), hx, hy]
  simp only [List.sum_append, List.sum_cons, List.sum_nil, add_zero]
  intro h
  have : y = x := by
    have := add_right_cancel (add_left_cancel h)
    exact this
  subst this
  exact hne (ey.trans ex.symm)

theorem archBytes_length {K : Type} (N : Num K) (L : List Nat) {mat : Nat} (hm : mat = 12 ∨ mat = 18) (f : Nat → List Nat → Link K) :
    (archBytes N L 4 mat f).length = nsites L * (4 * (mat * 4)) := by
  have h1 : ∀ m, ((linkWords N mat m).flatMap (store32 true)).length = 4 * mat := by
    intro m
    rw [flatMap_len 4 _ _ fun a _ => rfl, linkWords_length N hm]
  rw [archBytes, flatMap_len (4 * mat * 4) _ _ fun r _ => by rw [flatMap_len (4 * mat) _ _ fun dd _ => h1 _, List.length_range], List.length_range]
  ring

/-- a payload of the right length whose words do not add up is refused -/
theorem bad_sum {R : Host} (hR : R.Runs) (mes : (Nat → Archive.Field ℝ) → Outcome (Fl × Fl)) (h0 h : Hdr Fl) (F0 : Nat → Archive.Field ℝ) {T P : List Byte}
    (hT : ∀ d, d.Sees T → readHdr six R.g.L h0 d = ok (recovered six R.g.L h0 h, d.skip T)) (hP : P.length = nsites R.g.L * (4 * (12 * 4)))
    (hs : (wordsOf true P).sum ≠ h.checksum) : readFile R mes h0 F0 (opened (T ++ P)) = abort := by
  have hv := valsOf_ok (L := R.g.L) (mat := 12) (fs := 4) (b := P) hP.ge
  have e : valBytes R.g.L 4 (valsOf R.g.L 12 4 P) = P := by rw [valsOf_flat, List.take_of_length_le hP.le]
  obtain ⟨F', -, er⟩ := read_file (X := []) hR (mes := mes) h0 h F0 hv hT
  rw [List.append_nil, e, valSum_words hv, e, if_pos hs] at er
  exact er

/-- **C101, damage.**  Whichever 32-bit word of the links is changed in the file of a field of SU(3) links, every machine refuses the file. -/
theorem C101_one_word {W R : Host} (hW : W.Runs) (hR : R.Runs) (hL : R.g.L = W.g.L) (h4 : W.g.L.length = 4) (hn : ∀ n ∈ W.g.L, n < 2 ^ 31)
    {mesW : (Nat → Archive.Field ℝ) → Outcome (Fl × Fl)} {h : Hdr Fl} (hh : HdrOk h) (hm : h.mat = 12) {F : Nat → Archive.Field ℝ} {f : Links}
    (hF : HoldsG W.g 4 F f) (hsu : SpecialUnitary W.g.L f) (hmW : Measured W.g mesW tolMes f) :
    ∃ h' D T P, writeFile W mesW h F newFile = ok (h', D) ∧ D.data = T ++ P ∧ P = archBytes W.N W.g.L 4 12 f ∧ P.length = 4 * (48 * nsites W.g.L) ∧
      ∀ k w, k < 48 * nsites W.g.L → w.length = 4 → w ≠ (P.drop (4 * k)).take 4 → ∀ mesR h0 F0,
        readFile R mesR h0 F0 (opened (T ++ (P.take (4 * k) ++ w ++ P.drop (4 * k + 4)))) = abort := by
  obtain ⟨p, l, T, D, hp, hl, e, hD, hT⟩ := write_file hW h4 hn hh (Or.inl hm) hF hmW (avgPlaq_le hsu) (avgLink_le hsu)
  rw [hm] at e hD hT
  have hlen : (archBytes W.N W.g.L 4 12 f).length = 4 * (48 * nsites W.g.L) := by rw [archBytes_length _ _ (Or.inl rfl)]; ring
  refine ⟨_, D, T, archBytes W.N W.g.L 4 12 f, e, hD, rfl, hlen, fun k w hk hw hne mesR h0 F0 => ?_⟩
  have hsum : (wordsOf true (archBytes W.N W.g.L 4 12 f)).sum = fieldSum W.N W.g.L 4 12 f := by
    rw [← valBytes_arch, ← valSum_words (wordVals_ok W.N (Or.inl rfl) f _ _), valSum_field]
  generalize archBytes W.N W.g.L 4 12 f = P at *
  have hP : P = P.take (4 * k) ++ (P.drop (4 * k)).take 4 ++ P.drop (4 * k + 4) := by
    rw [← List.take_add, List.take_append_drop]
  have h4k : (P.take (4 * k)).length = 4 * k := by rw [List.length_take]; omega
  have h4w : ((P.drop (4 * k)).take 4).length = 4 := by rw [List.length_take, List.length_drop]; omega
  refine bad_sum hR mesR h0 _ F0 (fun d => by rw [hL]; exact hT d h0) ?_ ?_
  · rw [hL, List.length_append, List.length_append, List.length_drop, h4k, hw]
    omega
  · show _ ≠ fieldSum W.N W.g.L 4 12 f
    rw [← hsum]
    conv_rhs => rw [hP]
    exact sum_changes (by omega) h4w hw hne

/-! ## What acceptance means -/

/-- **C101, acceptance.**  Whatever the file: if the field is loaded then the sum of the words read is the checksum of the header, and
plaquette and link trace differ from those of the header by at most 1e-5, unless one of the four is not a number. -/
theorem C101_checked {R : Host} {mes : (Nat → Archive.Field ℝ) → Outcome (Fl × Fl)} {h0 h : Hdr Fl} {F0 F' : Nat → Archive.Field ℝ} {d : Dev}
    (hr : readFile R mes h0 F0 d = ok (h, F')) : ∃ d1 d2 p l, readHdr six R.g.L h0 d = ok (h, d1) ∧
      R.readData h.mat h.fsize F0 d1 = ok ((F', h.checksum), d2) ∧ mes F' = ok (p, l) ∧
      (∀ s x t y, h.plaq = .fin s x → p = .fin t y → |signed s x - signed t y| ≤ 1 / 10 ^ 5) ∧
      (∀ s x t y, h.link = .fin s x → l = .fin t y → |signed s x - signed t y| ≤ 1 / 10 ^ 5) := by
  rw [readFile] at hr
  obtain ⟨q, e1, hr⟩ := bind_eq_ok.1 hr
  obtain ⟨r, e2, hr⟩ := bind_eq_ok.1 hr
  split_ifs at hr with hc
  obtain ⟨m, e3, hr⟩ := bind_eq_ok.1 hr
  split_ifs at hr with h1 h2
  obtain ⟨rfl, rfl⟩ := Prod.mk.inj (ok.inj hr)
  refine ⟨q.2, r.2, m.1, m.2, e1, ?_, e3, fun s x t y hs ht => ?_, fun s x t y hs ht => ?_⟩
  · rw [e2, ← not_not.1 hc]
  · rw [hs, ht, far, decide_eq_true_iff, not_lt] at h1
    exact h1
  · rw [hs, ht, far, decide_eq_true_iff, not_lt] at h2
    exact h2

/-- **C101, not a number.**  A payload whose plaquette and link trace are not numbers passes both checks, whatever the header says. -/
theorem C101_nan {R : Host} (hR : R.Runs) {mes : (Nat → Archive.Field ℝ) → Outcome (Fl × Fl)} (h0 h : Hdr Fl) (F0 : Nat → Archive.Field ℝ) {T P : List Byte}
    (hT : ∀ d, d.Sees T → readHdr six R.g.L h0 d = ok (recovered six R.g.L h0 h, d.skip T)) (hP : P.length = nsites R.g.L * (4 * (12 * 4)))
    (hs : (wordsOf true P).sum = h.checksum)
    (hmes : ∀ F, HoldsG R.g 4 F (fun dd c => linkFrom R.N 12 4 R.sj (valsOf R.g.L 12 4 P dd c)) → ∃ a b, mes F = ok (.nan a, .nan b)) :
    ∃ F', readFile R mes h0 F0 (opened (T ++ P)) = ok (recovered six R.g.L h0 h, F') := by
  have hv := valsOf_ok (L := R.g.L) (mat := 12) (fs := 4) (b := P) hP.ge
  have e : valBytes R.g.L 4 (valsOf R.g.L 12 4 P) = P := by rw [valsOf_flat, List.take_of_length_le hP.le]
  obtain ⟨F', hF', er⟩ := read_file (X := []) hR (mes := mes) h0 h F0 hv hT
  obtain ⟨a, b, em⟩ := hmes F' hF'
  rw [List.append_nil, e, valSum_words hv, e, if_neg (fun hne => hne hs), em, ok_bind] at er
  refine ⟨F', ?_⟩
  have hf : ∀ x s, far x (.nan s) = false := by intro x s; cases x <;> rfl
  simpa only [hf, if_false, Bool.false_eq_true] using er

end Verif.ArchiveFile
