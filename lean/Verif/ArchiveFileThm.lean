import Verif.ArchiveNear
import Verif.ArchiveText
/-
C101: a gauge field saved by `writeArchiv(header, u, file)` is loaded by `readArchiv(header, u, file)`.
-/
namespace Verif.ArchiveFile
open Verif Outcome ByteOrder Verif.Layout Verif.ParLayout Verif.Subset Verif.BinIO Verif.LatticeIO Verif.Archive Verif.ArchiveHdr
open Verif.FloatText (Fl showF f64)
open Verif.Gauge (plaq siteSum planeSum GaugeField)

/-! ## The binary part on either kind of machine -/

theorem holds_zero {g : Geom} (h1 : g.nodes = 1) {F : Nat → Archive.Field ℝ} {f : Links} (h : HoldsG g 4 F f) : HoldsG g 4 (fun _ => F 0) f := by
  intro n i c dd hn hi hc hd
  obtain rfl : n = 0 := by omega
  exact h 0 i c dd hn hi hc hd

theorem checksum_eq {M : Host} (hM : M.Runs) {mat : Nat} (hm : mat = 12 ∨ mat = 18) {F : Nat → Archive.Field ℝ} {f : Links} (h : HoldsG M.g 4 F f) :
    M.checksum mat F = ok (fieldSum M.N M.g.L 4 mat f) := by
  obtain ⟨hg, -, hc⟩ := hM
  unfold Host.checksum
  split at hc
  · exact C45_checksum_single M.be M.N M.g hg hc 4 mat hm M.junk (F 0) f (holds_zero hc h)
  · exact C45_checksum_par M.be M.N M.g hg 4 mat hm M.junk F f h

theorem write_eq {M : Host} (hM : M.Runs) {mat : Nat} (hm : mat = 12 ∨ mat = 18) {F : Nat → Archive.Field ℝ} {f : Links} (h : HoldsG M.g 4 F f) (d : Dev) :
    M.writeData mat F d = ok (d.put (archBytes M.N M.g.L 4 mat f)) := by
  obtain ⟨hg, -, hc⟩ := hM
  obtain ⟨hs, hp⟩ := C45_file M.be M.N M.g hg 4 mat hm M.junk f d
  unfold Host.writeData
  split at hc
  · exact hs (F 0) hc (holds_zero hc h)
  · exact hp F (by rcases hm with rfl | rfl <;> norm_num) h

theorem read_eq {M : Host} (hM : M.Runs) {mat fs : Nat} (hm : mat = 12 ∨ mat = 18) (hfs : fs = 4 ∨ fs = 8) {v : Nat → List Nat → List (List Byte)}
    (hv : IsVals M.g.L 4 mat fs v) (F : Nat → Archive.Field ℝ) {d : Dev} (hd : d.Sees (valBytes M.g.L 4 v)) :
    ∃ F', M.readData mat fs F d = ok ((F', valSum M.g.L 4 v), d.skip (valBytes M.g.L 4 v)) ∧
      HoldsG M.g 4 F' fun dd c => linkFrom M.N mat fs M.sj (v dd c) := by
  obtain ⟨hg, h0, hc⟩ := hM
  unfold Host.readData
  split at hc
  · obtain ⟨F', h1, h2⟩ := read_single M.be M.N M.g hg hc 4 mat fs hm hfs M.sj v hv (F 0) d hd
    refine ⟨fun _ => F', ?_, h2⟩
    rw [h1]
    rfl
  · obtain ⟨F', h1, h2⟩ := read_par M.be M.N M.g hg 4 mat fs hm hfs (by rcases hm with rfl | rfl <;> rcases hfs with rfl | rfl <;> norm_num) M.sj v hv F d hd
    refine ⟨fun n => if n < M.g.nodes then F' n else F' 0, ?_, ?_⟩
    · rw [mapO_ok (h := fun n => ((F' n, valSum M.g.L 4 v), d.skip (valBytes M.g.L 4 v))) fun n hn => h1 n (List.mem_range.1 hn), ok_bind,
        rd_of_lt (i := 0) (by simpa using h0), ok_bind]
      simp only [List.getElem_map, List.getElem_range]
      congr 3
      funext n
      by_cases hn : n < M.g.nodes
      · simp [List.getD_eq_getElem?_getD, hn]
      · simp [List.getD_eq_getElem?_getD, hn]
    · intro n i c dd hn hi hc' hd'
      simp only [hn, if_true]
      exact h2 n i c dd hn hi hc' hd'

/-! ## Plaquette and link trace in the header -/

/-- the accuracy asked of the machines that compute plaquette and link trace -/
def tolMes : ℚ := 3 / (2 * 10 ^ 6)

theorem signed_abs (neg : Bool) (q : ℚ) : |signed neg q| = |q| := by cases neg <;> simp [signed]
theorem signed_sub (neg : Bool) (p q : ℚ) : |signed neg p - signed neg q| = |p - q| := by
  cases neg
  · rfl
  · simp only [signed, if_true]
    rw [neg_sub_neg, abs_sub_comm]

/-- a number not far from one that the machine computes to within `tolMes` -/
theorem near_le {x : Fl} {r : ℝ} (h : Near tolMes x r) (hr : |r| ≤ 1) : ∃ neg q, x = .fin neg q ∧ FloatText.Rep f64 q ∧ q ≤ 1 + tolMes ∧ |(signed neg q : ℝ) - r| ≤ tolMes := by
  obtain ⟨neg, q, rfl, hq, h1⟩ := h
  refine ⟨neg, q, rfl, hq, ?_, h1⟩
  have h2 : |((signed neg q : ℚ) : ℝ)| ≤ 1 + tolMes := by
    have := abs_sub_abs_le_abs_sub ((signed neg q : ℚ) : ℝ) r
    linarith
  have h3 : |signed neg q| ≤ 1 + tolMes := by exact_mod_cast h2
  rw [signed_abs] at h3
  exact (le_abs_self q).trans h3

theorem tolMes_lo : 1 / (2 * 10 ^ 6) ≤ tolMes := by unfold tolMes; norm_num
theorem tolMes_hi : tolMes ≤ 1 := by unfold tolMes; norm_num

/-- what the header gives back for it -/
theorem back_near {x : Fl} {r : ℝ} (h : Near tolMes x r) (hr : |r| ≤ 1) (old : Fl) :
    ∃ neg z, rescan six old x = .fin neg z ∧ |(signed neg z : ℝ) - r| ≤ 3 * tolMes := by
  obtain ⟨neg, q, rfl, hq, hle, h1⟩ := near_le h hr
  have h2 : q ≤ 2 := by have := tolMes_hi; linarith
  obtain ⟨z, hz, hzq⟩ := six_near (neg := neg) hq hle tolMes_lo tolMes_hi
  refine ⟨neg, z, by rw [rescan_six hq h2, hz], ?_⟩
  have h3 : |((signed neg z : ℚ) : ℝ) - ((signed neg q : ℚ) : ℝ)| ≤ 2 * tolMes := by
    rw [← signed_sub neg] at hzq
    exact_mod_cast hzq
  have := abs_sub_le ((signed neg z : ℚ) : ℝ) ((signed neg q : ℚ) : ℝ) r
  linarith

/-- the check passes when the number has moved by at most 3.1e-6 -/
theorem not_far {x y : Fl} {r s : ℝ} (hx : Near tolMes x r) (hr : |r| ≤ 1) (hy : Near tolMes y s) (h : |s - r| ≤ 31 / 10 ^ 7) (old : Fl) :
    far (rescan six old x) y = false := by
  obtain ⟨neg, z, e, h1⟩ := back_near hx hr old
  obtain ⟨neg', q, rfl, -, h2⟩ := hy
  rw [e, far, decide_eq_false_iff_not, not_lt]
  have h3 : |((signed neg z : ℚ) : ℝ) - ((signed neg' q : ℚ) : ℝ)| ≤ 1 / 10 ^ 5 := by
    have e1 : ((signed neg z : ℚ) : ℝ) - ((signed neg' q : ℚ) : ℝ) = (((signed neg z : ℚ) : ℝ) - r) + -(s - r) + -(((signed neg' q : ℚ) : ℝ) - s) := by ring
    rw [e1]
    have := abs_add_three (((signed neg z : ℚ) : ℝ) - r) (-(s - r)) (-(((signed neg' q : ℚ) : ℝ) - s))
    rw [abs_neg, abs_neg] at this
    have ht : (tolMes : ℝ) = 3 / (2 * 10 ^ 6) := by simp [tolMes]
    rw [ht] at h1 h2
    linarith
  have h4 : ((|signed neg z - signed neg' q| : ℚ) : ℝ) ≤ ((1 / 10 ^ 5 : ℚ) : ℝ) := by push_cast; exact h3
  exact Rat.cast_le.1 h4

/-- the check fails when it has moved by more than 2e-5 -/
theorem is_far {x y : Fl} {r s : ℝ} (hx : Near tolMes x r) (hr : |r| ≤ 1) (hy : Near tolMes y s) (h : 2 / 10 ^ 5 ≤ |s - r|) (old : Fl) :
    far (rescan six old x) y = true := by
  obtain ⟨neg, z, e, h1⟩ := back_near hx hr old
  obtain ⟨neg', q, rfl, -, h2⟩ := hy
  rw [e, far, decide_eq_true_iff]
  have h3 : 1 / 10 ^ 5 < |((signed neg z : ℚ) : ℝ) - ((signed neg' q : ℚ) : ℝ)| := by
    have e1 : s - r = (((signed neg z : ℚ) : ℝ) - r) + -(((signed neg z : ℚ) : ℝ) - ((signed neg' q : ℚ) : ℝ)) + -(((signed neg' q : ℚ) : ℝ) - s) := by ring
    rw [e1] at h
    have := abs_add_three (((signed neg z : ℚ) : ℝ) - r) (-(((signed neg z : ℚ) : ℝ) - ((signed neg' q : ℚ) : ℝ))) (-(((signed neg' q : ℚ) : ℝ) - s))
    rw [abs_neg, abs_neg] at this
    have ht : (tolMes : ℝ) = 3 / (2 * 10 ^ 6) := by simp [tolMes]
    rw [ht] at h1 h2
    linarith
  have h4 : ((1 / 10 ^ 5 : ℚ) : ℝ) < ((|signed neg z - signed neg' q| : ℚ) : ℝ) := by push_cast; exact h3
  exact Rat.cast_lt.1 h4

theorem near_text {x : Fl} {r : ℝ} (h : Near tolMes x r) (hr : |r| ≤ 1) : CleanText (six.print x) ∧ (six.print x).length < 100 := by
  obtain ⟨neg, q, rfl, hq, hle, h1⟩ := near_le h hr
  exact show_ok hq (by have := tolMes_hi; linarith)

/-! ## Writing -/

/-- the header that is written -/
def filled (h : Hdr Fl) (p l : Fl) (c : BitVec 32) : Hdr Fl := { h with plaq := p, link := l, checksum := c }

/-- an empty file -/
def newFile : Dev := ⟨[], 0, 0⟩
/-- a file opened for reading -/
def opened (data : List Byte) : Dev := ⟨data, 0, 0⟩

theorem put_new (bs : List Byte) : (newFile.put bs).data = bs := by
  show overwrite [] 0 bs = bs
  unfold overwrite
  split
  · rename_i h
    exact h.symm
  · simp

theorem opened_sees (a b : List Byte) : (opened (a ++ b)).Sees a := List.prefix_append a b

/-- what `writeArchiv` leaves in a new file: header, then links -/
theorem write_file {W : Host} (hW : W.Runs) (h4 : W.g.L.length = 4) (hn : ∀ n ∈ W.g.L, n < 2 ^ 31) {mes : (Nat → Archive.Field ℝ) → Outcome (Fl × Fl)}
    {h : Hdr Fl} (hh : HdrOk h) (hm : h.mat = 12 ∨ h.mat = 18) {F : Nat → Archive.Field ℝ} {f : Links} (hF : HoldsG W.g 4 F f)
    (hmes : Measured W.g mes tolMes f) (hp1 : |avgPlaq W.g.L (mats f)| ≤ 1) (hl1 : |avgLink W.g.L (mats f)| ≤ 1) :
    ∃ p l T D, Near tolMes p (avgPlaq W.g.L (mats f)) ∧ Near tolMes l (avgLink W.g.L (mats f)) ∧
      writeFile W mes h F newFile = ok (filled h p l (fieldSum W.N W.g.L 4 h.mat f), D) ∧ D.data = T ++ archBytes W.N W.g.L 4 h.mat f ∧
      ∀ d h0, d.Sees T → readHdr six W.g.L h0 d = ok (recovered six W.g.L h0 (filled h p l (fieldSum W.N W.g.L 4 h.mat f)), d.skip T) := by
  obtain ⟨p, l, e, hp, hl⟩ := hmes F hF
  obtain ⟨hb, hs, hv⟩ := hh
  obtain ⟨T, t1, t2⟩ := C46_fields_partial W.be six W.g.L h4 hn (filled h p l (fieldSum W.N W.g.L 4 h.mat f))
    ⟨hb, hs, hv, near_text hp hp1, near_text hl hl1⟩
  refine ⟨p, l, T, newFile.put (T ++ archBytes W.N W.g.L 4 h.mat f), hp, hl, ?_, put_new _, t2⟩
  rw [writeFile, e, ok_bind, checksum_eq hW hm hF, ok_bind]
  show (do
    let d ← writeHdr W.be six W.g.L (filled h p l (fieldSum W.N W.g.L 4 h.mat f)) newFile
    let d ← W.writeData h.mat F d
    ok (filled h p l (fieldSum W.N W.g.L 4 h.mat f), d)) = _
  rw [t1, ok_bind, write_eq hW hm hF, ok_bind, put_put]

/-! ## Reading -/

/-- conversions to `float` by the machine that writes, from `float` by the machine that reads -/
def through (W R : Host) : Num ℝ := ⟨W.N.toW, R.N.of32, R.N.of64⟩

theorem loaded_eq (W R : Host) (f : Links) (dd : Nat) (c : List Nat) :
    linkFrom R.N 12 4 R.sj (wordVals W.N 12 f dd c) = storedField (through W R) f dd c :=
  C44_third_row (through W R) f R.sj dd c

/-- what `readArchiv` makes of a file: header text, and values of the right number and size -/
theorem read_file {R : Host} (hR : R.Runs) {mes : (Nat → Archive.Field ℝ) → Outcome (Fl × Fl)} (h0 h : Hdr Fl) (F0 : Nat → Archive.Field ℝ)
    {T X : List Byte} {v : Nat → List Nat → List (List Byte)} (hv : IsVals R.g.L 4 12 4 v)
    (hT : ∀ d, d.Sees T → readHdr six R.g.L h0 d = ok (recovered six R.g.L h0 h, d.skip T)) :
    ∃ F', HoldsG R.g 4 F' (fun dd c => linkFrom R.N 12 4 R.sj (v dd c)) ∧ readFile R mes h0 F0 (opened (T ++ (valBytes R.g.L 4 v ++ X))) =
      (if valSum R.g.L 4 v ≠ h.checksum then abort else do
        let m ← mes F'
        if far (rescan six h0.plaq h.plaq) m.1 then abort
        else if far (rescan six h0.link h.link) m.2 then abort
        else ok (recovered six R.g.L h0 h, F')) := by
  have hd : (opened (T ++ (valBytes R.g.L 4 v ++ X))).Sees (T ++ valBytes R.g.L 4 v) := by
    rw [← List.append_assoc]
    exact opened_sees _ _
  obtain ⟨F', e, hF'⟩ := read_eq hR (mat := 12) (fs := 4) (Or.inl rfl) (Or.inl rfl) hv F0 (Sees.right hd)
  refine ⟨F', hF', ?_⟩
  rw [readFile, hT _ (Sees.left hd), ok_bind]
  show (R.readData 12 4 F0 _ >>= _) = _
  rw [e, ok_bind]
  rfl

/-- a field whose averages stay put is loaded -/
theorem loads {W R : Host} (hW : W.Runs) (hR : R.Runs) (hL : R.g.L = W.g.L) (h4 : W.g.L.length = 4) (hn : ∀ n ∈ W.g.L, n < 2 ^ 31)
    {mesW mesR : (Nat → Archive.Field ℝ) → Outcome (Fl × Fl)} {h : Hdr Fl} (hh : HdrOk h) (hm : h.mat = 12) {F : Nat → Archive.Field ℝ} {f : Links}
    (hF : HoldsG W.g 4 F f) (hmW : Measured W.g mesW tolMes f) (hmR : Measured R.g mesR tolMes (storedField (through W R) f))
    (hp1 : |avgPlaq W.g.L (mats f)| ≤ 1) (hl1 : |avgLink W.g.L (mats f)| ≤ 1)
    (hp2 : |avgPlaq W.g.L (mats (storedField (through W R) f)) - avgPlaq W.g.L (mats f)| ≤ 31 / 10 ^ 7)
    (hl2 : |avgLink W.g.L (mats (storedField (through W R) f)) - avgLink W.g.L (mats f)| ≤ 31 / 10 ^ 7) :
    ∃ h' D, writeFile W mesW h F newFile = ok (h', D) ∧ h'.checksum = fieldSum W.N W.g.L 4 12 f ∧
      Near tolMes h'.plaq (avgPlaq W.g.L (mats f)) ∧ Near tolMes h'.link (avgLink W.g.L (mats f)) ∧ ∀ h0 F0,
      ∃ F', readFile R mesR h0 F0 (opened D.data) = ok (recovered six W.g.L h0 h', F') ∧ HoldsG R.g 4 F' (storedField (through W R) f) := by
  obtain ⟨p, l, T, D, hp, hl, e, hD, hT⟩ := write_file hW h4 hn hh (Or.inl hm) hF hmW hp1 hl1
  rw [hm] at e hD hT
  refine ⟨_, D, e, rfl, hp, hl, fun h0 F0 => ?_⟩
  rw [← hL] at hT hD
  obtain ⟨F', hF', er⟩ := read_file (X := []) hR (mes := mesR) h0 _ F0 (wordVals_ok W.N (Or.inl rfl) f _ _) fun d => hT d h0
  have hF2 : HoldsG R.g 4 F' (storedField (through W R) f) := by
    simp only [loaded_eq W R f] at hF'
    exact hF'
  obtain ⟨p', l', em, hp', hl'⟩ := hmR F' hF2
  refine ⟨F', ?_, hF2⟩
  rw [List.append_nil, valBytes_arch, ← hD, valSum_field] at er
  rw [er, if_neg (by rw [hL]; exact fun hne => hne rfl), em, ok_bind, ← hL]
  rw [hL] at hp' hl'
  simp only [not_far hp hp1 hp' hp2 _, not_far hl hl1 hl' hl2 _, filled, if_false, Bool.false_eq_true]

/-- **C101, the round trip.**  A field of SU(3) links saved by any machine is accepted by every machine of the same lattice; the numbers
loaded are those saved to within 6/2^25, and those saved if they are exact as `float`; the header comes back. -/
theorem C101_round_trip {W R : Host} (hW : W.Runs) (hR : R.Runs) (hL : R.g.L = W.g.L) (h4 : W.g.L.length = 4) (hn : ∀ n ∈ W.g.L, n < 2 ^ 31)
    {mesW mesR : (Nat → Archive.Field ℝ) → Outcome (Fl × Fl)} {h : Hdr Fl} (hh : HdrOk h) (hm : h.mat = 12) {F : Nat → Archive.Field ℝ} {f : Links}
    (hF : HoldsG W.g 4 F f) (hsu : SpecialUnitary W.g.L f) (hN : Rounds (through W R) eps)
    (hmW : Measured W.g mesW tolMes f) (hmR : Measured R.g mesR tolMes (storedField (through W R) f)) :
    ∃ h' D f', writeFile W mesW h F newFile = ok (h', D) ∧ h'.checksum = fieldSum W.N W.g.L 4 12 f ∧
      Near tolMes h'.plaq (avgPlaq W.g.L (mats f)) ∧ Near tolMes h'.link (avgLink W.g.L (mats f)) ∧
      (∀ h0 F0, ∃ F', readFile R mesR h0 F0 (opened D.data) = ok (recovered six W.g.L h0 h', F') ∧ HoldsG R.g 4 F' f') ∧
      ∀ mu x, mu < 4 → InRange x W.g.L → (∀ i k, |(f' mu x i k).1 - (f mu x i k).1| ≤ 6 / 2 ^ 25 ∧ |(f' mu x i k).2 - (f mu x i k).2| ≤ 6 / 2 ^ 25) ∧
        (Exact (through W R) (f mu x) → f' mu x = f mu x) := by
  obtain ⟨h', D, h1, h2, h3, h5, h6⟩ := loads hW hR hL h4 hn hh hm hF hmW hmR (avgPlaq_le hsu) (avgLink_le hsu) (avgPlaq_near hN hsu) (avgLink_near hN hsu)
  refine ⟨h', D, _, h1, h2, h3, h5, h6, fun mu x hmu hx => ⟨fun i k => ?_, fun he => ?_⟩⟩
  · have := stored_near hN (hsu mu x hmu hx) i k
    have e : 6 * eps = 6 / 2 ^ 25 := by unfold eps; ring
    rwa [e] at this
  · show completed (rounded (through W R) (f mu x)) = f mu x
    rw [he, su3_completed _ (hsu mu x hmu hx)]

end Verif.ArchiveFile
