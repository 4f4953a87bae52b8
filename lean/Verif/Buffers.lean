import Verif.BinIO
/-
Property C119: binary buffers in memory.  `BinaryBufferWriter`, lib/qdp_io.cc:1346-1390, `BinaryBufferReader`, lib/qdp_io.cc:915-956,
with the reading and writing of their bases, lib/qdp_io.cc:551-607, 715-731, 1159-1180.

This is the primary node.  Bytes are those of the stream (big-endian); the swapping is the matter of C23.  The streams are those of
C++11: `str(s)` replaces the contents and puts both positions at 0, leaving the state; `clear()` is the state only; `read` in a state
that is not good only sets `failbit`; `seekg` clears `eofbit` first and then does nothing if `fail()`; a seek behind the end fails.
A checksum that was never initialised is `none`: calculating with it gives `none` again.
-/
namespace Verif.Buffers
open Verif Outcome ByteOrder BinIO

/-! ## the writer -/

/-- `BinaryBufferWriter`: contents, position for writing, checksum -/
structure WBuf where
  data : List Byte
  p : Nat
  crc : Option (BitVec 32)
deriving DecidableEq

/-- `BinaryBufferWriter()`, lib/qdp_io.cc:1347 -/
def WBuf.fresh : WBuf := ⟨[], 0, some 0⟩

/-- what a program does with a writer -/
inductive WOp
  | opn (s : List Byte)
  | write (bs : List Byte)
  | clear

/-- `open`, lib/qdp_io.cc:1354-1358; `writeArrayPrimaryNode`, 1159-1180; `clear`, 1383-1389 -/
def wstep (w : WBuf) : WOp → WBuf
  | .opn s => { w with data := s, p := 0 }
  | .write bs => ⟨overwrite w.data w.p bs, w.p + bs.length, w.crc.map (crcOf · bs)⟩
  | .clear => { w with crc := some 0 }

/-- `BinaryBufferWriter(s)`, lib/qdp_io.cc:1350: the checksum is not set -/
def WBuf.ofString (s : List Byte) : WBuf := wstep ⟨[], 0, none⟩ (.opn s)

def wrun (w : WBuf) (h : List WOp) : WBuf := h.foldl wstep w

/-- `str()`, lib/qdp_io.cc:1372-1381 -/
def WBuf.str (w : WBuf) : List Byte := w.data

/-- `getChecksum`, lib/qdp_io.cc:1187-1195: the value of an uninitialised variable is not determined -/
def WBuf.checksum (w : WBuf) : Outcome (BitVec 32) :=
  match w.crc with
  | none => ub
  | some c => ok c

/-! ## the reader -/

/-- `BinaryBufferReader`: contents, position, `eofbit`, `failbit`, checksum -/
structure RBuf where
  data : List Byte
  g : Nat
  eof : Bool
  fail : Bool
  crc : Option (BitVec 32)
deriving DecidableEq

/-- `BinaryBufferReader()`, lib/qdp_io.cc:916 -/
def RBuf.fresh : RBuf := ⟨[], 0, false, false, some 0⟩

/-- `open`, lib/qdp_io.cc:923-927 -/
def RBuf.opn (s : List Byte) (r : RBuf) : RBuf := { r with data := s, g := 0 }

/-- `BinaryBufferReader(s)`, lib/qdp_io.cc:919: the checksum is not set -/
def RBuf.ofString (s : List Byte) : RBuf := RBuf.opn s ⟨[], 0, false, false, none⟩

/-- `istream::read` into the variable `m` -/
def RBuf.raw (m : List Byte) (r : RBuf) : List Byte × RBuf :=
  if r.eof ∨ r.fail then (m, { r with fail := true })
  else if r.g + m.length ≤ r.data.length then ((r.data.drop r.g).take m.length, { r with g := r.g + m.length })
  else (r.data.drop r.g ++ m.drop (r.data.length - r.g), { r with g := r.data.length, eof := true, fail := true })

/-- `readArrayPrimaryNode`, lib/qdp_io.cc:715-731: the checksum is of what is in the variable, read or not -/
def RBuf.read (m : List Byte) (r : RBuf) : List Byte × RBuf :=
  let x := r.raw m
  (x.1, { x.2 with crc := x.2.crc.map (crcOf · x.1) })

/-- `seek`, lib/qdp_io.cc:551-557 (and `rewind`, 598-604, for 0) -/
def RBuf.seek (p : Nat) (r : RBuf) : RBuf :=
  if r.fail then { r with eof := false, crc := some 0 }
  else if p ≤ r.data.length then { r with g := p, eof := false, crc := some 0 }
  else { r with eof := false, fail := true, crc := some 0 }

/-- `clear`, lib/qdp_io.cc:949-955 -/
def RBuf.clear (r : RBuf) : RBuf := { r with eof := false, fail := false, crc := some 0 }

/-- what a program does with a reader; `read m`: into a variable that holds `m` -/
inductive ROp
  | opn (s : List Byte)
  | read (m : List Byte)
  | seek (p : Nat)
  | clear

/-- one step; with the contents of the variable after a read -/
def rstep (r : RBuf) : ROp → Option (List Byte) × RBuf
  | .opn s => (none, r.opn s)
  | .read m => (some (r.read m).1, (r.read m).2)
  | .seek p => (none, r.seek p)
  | .clear => (none, r.clear)

/-- a history: what the reads gave, and the object -/
def rrun : RBuf → List ROp → List (List Byte) × RBuf
  | r, [] => ([], r)
  | r, o :: os =>
      let x := rstep r o
      let y := rrun x.2 os
      (x.1.toList ++ y.1, y.2)

/-! ## specification -/

/-- everything written -/
def written : List WOp → List Byte
  | [] => []
  | .write bs :: h => bs ++ written h
  | _ :: h => written h

/-- the part of a history after the last `opn`, with its string (`s` if there is none) -/
def lastOpen (s : List Byte) (h : List WOp) : List WOp → List Byte × List WOp
  | [] => (s, h)
  | .opn t :: k => lastOpen t [] k
  | o :: k => lastOpen s (h ++ [o]) k

/-- the part of a history after the last `clear`, `none` if there is none -/
def lastClear (h : Option (List WOp)) : List WOp → Option (List WOp)
  | [] => h
  | .clear :: k => lastClear (some []) k
  | o :: k => lastClear (h.map (· ++ [o])) k

def Plain : WOp → Prop
  | .write _ => True
  | _ => False

/-- a reader as it is meant: the string opened last, cut by the reads, with positions; `none` when the reads want more than there is -/
def pieces (s : List Byte) (g : Nat) : List ROp → Option (List (List Byte))
  | [] => some []
  | .opn t :: h => pieces t 0 h
  | .read m :: h => if g + m.length ≤ s.length then (pieces s (g + m.length) h).map (((s.drop g).take m.length) :: ·) else none
  | .seek p :: h => if p ≤ s.length then pieces s p h else none
  | .clear :: h => pieces s g h

/-- the variables of the reads, as they are before -/
def vars : List ROp → List (List Byte)
  | [] => []
  | .read m :: h => m :: vars h
  | _ :: h => vars h

/-- the bytes read since the last `seek` or `clear`, `none` if there is none (`acc`: those read before) -/
def readSince (acc : Option (List Byte)) (s : List Byte) (g : Nat) : List ROp → Option (List Byte)
  | [] => acc
  | .opn t :: h => readSince acc t 0 h
  | .read m :: h => readSince (acc.map (· ++ (s.drop g).take m.length)) s (g + m.length) h
  | .seek p :: h => readSince (some []) s p h
  | .clear :: h => readSince (some []) s g h

def NoClear : ROp → Prop
  | .clear => False
  | _ => True

/-! ## proofs -/

theorem overwrite_front (s a b : List Byte) :
    overwrite (a ++ s.drop a.length) a.length b = (a ++ b) ++ s.drop (a ++ b).length := by
  unfold overwrite
  split
  · rename_i h; simp [h]
  · have : a.length - (a ++ List.drop a.length s).length = 0 := by simp
    rw [this]
    simp [List.drop_append, List.drop_drop, Nat.add_comm]

theorem written_append (h k : List WOp) : written (h ++ k) = written h ++ written k := by
  induction h with
  | nil => rfl
  | cons o h ih => cases o <;> simp [written, ih]

theorem wrun_data (s : List Byte) (h k : List WOp) (w : WBuf) (hd : w.data = written h ++ s.drop (written h).length)
    (hp : w.p = (written h).length) :
    (wrun w k).data = written (lastOpen s h k).2 ++ (lastOpen s h k).1.drop (written (lastOpen s h k).2).length ∧
    (wrun w k).p = (written (lastOpen s h k).2).length := by
  induction k generalizing s h w with
  | nil => exact ⟨hd, hp⟩
  | cons o k ih =>
    cases o with
    | opn t => exact ih t [] (wstep w (.opn t)) (by simp [wstep, written]) (by simp [wstep, written])
    | write bs =>
      apply ih s (h ++ [WOp.write bs]) (wstep w (WOp.write bs))
      · rw [written_append]
        simp only [wstep, hd, hp, written, List.append_nil]
        exact overwrite_front s (written h) bs
      · simp [wstep, hp, written_append, written]
    | clear =>
      apply ih s (h ++ [WOp.clear]) (wstep w WOp.clear)
      · rw [written_append]; simp [wstep, hd, written]
      · simp [wstep, hp, written_append, written]

theorem wrun_crc (h : Option (List WOp)) (k : List WOp) (w : WBuf) (hc : w.crc = h.map (fun x => crcOf 0 (written x))) :
    (wrun w k).crc = (lastClear h k).map (fun x => crcOf 0 (written x)) := by
  induction k generalizing h w with
  | nil => exact hc
  | cons o k ih =>
    cases o with
    | opn t =>
      apply ih (h.map (· ++ [WOp.opn t])) (wstep w (WOp.opn t))
      simp only [wstep, hc, Option.map_map]
      cases h <;> simp [written_append, written]
    | write bs =>
      apply ih (h.map (· ++ [WOp.write bs])) (wstep w (WOp.write bs))
      simp only [wstep, hc, Option.map_map]
      cases h <;> simp [written_append, written, crcOf_append]
    | clear =>
      apply ih (some []) (wstep w WOp.clear)
      simp [wstep, written, crcOf_nil]

theorem rrun_good (h : List ROp) (r : RBuf) (ps : List (List Byte)) (he : r.eof = false) (hf : r.fail = false)
    (hg : r.g ≤ r.data.length) (hp : pieces r.data r.g h = some ps) :
    (rrun r h).1 = ps ∧ (rrun r h).2.fail = false ∧ (rrun r h).2.eof = false := by
  induction h generalizing r ps with
  | nil => simp [pieces] at hp; subst hp; simp [rrun, he, hf]
  | cons o h ih =>
    cases o with
    | opn t =>
      have := ih (r.opn t) ps he hf (by simp [RBuf.opn]) hp
      simpa [rrun, rstep] using this
    | read m =>
      simp only [pieces] at hp
      split at hp
      · rename_i hle
        obtain ⟨qs, hq, rfl⟩ := Option.map_eq_some_iff.1 hp
        have e : r.read m = ((r.data.drop r.g).take m.length,
            { r with g := r.g + m.length, crc := r.crc.map (crcOf · ((r.data.drop r.g).take m.length)) }) := by
          simp [RBuf.read, RBuf.raw, he, hf, hle]
        have := ih (r.read m).2 qs (by rw [e]; exact he) (by rw [e]; exact hf) (by rw [e]; exact hle) (by rw [e]; exact hq)
        simp only [rrun, rstep, Option.toList_some, List.singleton_append]
        rw [this.1]
        exact ⟨by rw [e], this.2⟩
      · exact absurd hp (by simp)
    | seek p =>
      simp only [pieces] at hp
      split at hp
      · rename_i hle
        have e : r.seek p = { r with g := p, eof := false, crc := some 0 } := by simp [RBuf.seek, hf, hle]
        have := ih (r.seek p) ps (by rw [e]) (by rw [e]; exact hf) (by rw [e]; exact hle) (by rw [e]; exact hp)
        simpa [rrun, rstep] using this
      · exact absurd hp (by simp)
    | clear =>
      have := ih r.clear ps rfl rfl hg hp
      simpa [rrun, rstep] using this

theorem rrun_crc (h : List ROp) (r : RBuf) (acc : Option (List Byte)) (ps : List (List Byte)) (he : r.eof = false) (hf : r.fail = false)
    (hp : pieces r.data r.g h = some ps) (hc : r.crc = acc.map (crcOf 0)) :
    (rrun r h).2.crc = (readSince acc r.data r.g h).map (crcOf 0) := by
  induction h generalizing r acc ps with
  | nil => exact hc
  | cons o h ih =>
    cases o with
    | opn t => exact ih (r.opn t) acc ps he hf hp hc
    | read m =>
      simp only [pieces] at hp
      split at hp
      · rename_i hle
        obtain ⟨qs, hq, rfl⟩ := Option.map_eq_some_iff.1 hp
        have e : r.read m = ((r.data.drop r.g).take m.length,
            { r with g := r.g + m.length, crc := r.crc.map (crcOf · ((r.data.drop r.g).take m.length)) }) := by
          simp [RBuf.read, RBuf.raw, he, hf, hle]
        have := ih (r.read m).2 (acc.map (· ++ (r.data.drop r.g).take m.length)) qs (by rw [e]; exact he) (by rw [e]; exact hf)
          (by rw [e]; exact hq) (by rw [e]; simp only [hc]; cases acc <;> simp [crcOf_append])
        simp only [rrun, rstep, readSince]
        rw [this, e]
      · exact absurd hp (by simp)
    | seek p =>
      simp only [pieces] at hp
      split at hp
      · rename_i hle
        have e : r.seek p = { r with g := p, eof := false, crc := some 0 } := by simp [RBuf.seek, hf, hle]
        have := ih (r.seek p) (some []) ps (by rw [e]) (by rw [e]; exact hf) (by rw [e]; exact hp) (by rw [e]; simp [crcOf_nil])
        simp only [rrun, rstep, readSince]
        rw [this, e]
      · exact absurd hp (by simp)
    | clear => exact ih r.clear (some []) ps rfl rfl hp (by simp [RBuf.clear, crcOf_nil])

theorem rrun_stuck (h : List ROp) (hn : ∀ o ∈ h, NoClear o) (r : RBuf) (hf : r.fail = true) :
    (rrun r h).1 = vars h ∧ (rrun r h).2.fail = true := by
  induction h generalizing r with
  | nil => simp [rrun, vars, hf]
  | cons o h ih =>
    have hn' : ∀ o ∈ h, NoClear o := fun x hx => hn x (by simp [hx])
    cases o with
    | opn t =>
      have := ih hn' (r.opn t) hf
      simpa [rrun, rstep, vars] using this
    | read m =>
      have e : (r.read m).1 = m ∧ (r.read m).2.fail = true := by simp [RBuf.read, RBuf.raw, hf]
      have := ih hn' (r.read m).2 e.2
      simp only [rrun, rstep, vars, Option.toList_some, List.singleton_append]
      rw [this.1, e.1]
      exact ⟨rfl, this.2⟩
    | seek p =>
      have := ih hn' (r.seek p) (by simp [RBuf.seek, hf])
      simpa [rrun, rstep, vars] using this
    | clear => exact absurd (hn .clear (by simp)) (by simp [NoClear])

/-! ## theorems -/

/-- C119: a writer made without a string holds, after writes alone, exactly what was written, in order, and its checksum is that of
these bytes.  Missing for the full claim: `open` and `clear`, see `C119_writer_exact`. -/
theorem C119_writer_partial (h : List WOp) (hp : ∀ o ∈ h, Plain o) :
    (wrun .fresh h).str = written h ∧ (wrun .fresh h).checksum = ok (crcOf 0 (written h)) := by
  have h1 : ∀ k, (∀ o ∈ k, Plain o) → ∀ h0, lastOpen [] h0 k = ([], h0 ++ k) := by
    intro k
    induction k with
    | nil => intro _ h0; simp [lastOpen]
    | cons o k ih =>
      intro hk h0
      have hk' : ∀ o ∈ k, Plain o := fun x hx => hk x (by simp [hx])
      cases o with
      | write bs => simp [lastOpen, ih hk']
      | opn t => exact absurd (hk (.opn t) (by simp)) (by simp [Plain])
      | clear => exact absurd (hk .clear (by simp)) (by simp [Plain])
  have h2 : ∀ k, (∀ o ∈ k, Plain o) → ∀ h0, lastClear (some h0) k = some (h0 ++ k) := by
    intro k
    induction k with
    | nil => intro _ h0; simp [lastClear]
    | cons o k ih =>
      intro hk h0
      have hk' : ∀ o ∈ k, Plain o := fun x hx => hk x (by simp [hx])
      cases o with
      | write bs => simp [lastClear, ih hk']
      | opn t => exact absurd (hk (.opn t) (by simp)) (by simp [Plain])
      | clear => exact absurd (hk .clear (by simp)) (by simp [Plain])
  have d := (wrun_data [] [] h .fresh (by simp [WBuf.fresh, written]) (by simp [WBuf.fresh, written])).1
  have c := wrun_crc (some []) h .fresh (by simp [WBuf.fresh, written, crcOf_nil])
  rw [h1 h hp []] at d
  rw [h2 h hp []] at c
  refine ⟨by simpa [WBuf.str] using d, ?_⟩
  simp [WBuf.checksum, c]

/-- C119, what a writer really holds, for every history: the string opened last, its front replaced by what was written since; `clear`
plays no part. -/
theorem C119_writer_exact (s : List Byte) (h : List WOp) :
    (wrun .fresh h).str = written (lastOpen [] [] h).2 ++ (lastOpen [] [] h).1.drop (written (lastOpen [] [] h).2).length ∧
    (wrun (.ofString s) h).str = written (lastOpen s [] h).2 ++ (lastOpen s [] h).1.drop (written (lastOpen s [] h).2).length :=
  ⟨(wrun_data [] [] h .fresh (by simp [WBuf.fresh, written]) (by simp [WBuf.fresh, written])).1,
   (wrun_data s [] h (.ofString s) (by simp [WBuf.ofString, wstep, written]) (by simp [WBuf.ofString, wstep, written])).1⟩

/-- C119: the checksum of a writer is that of the bytes written since the last `clear`, or since the construction without a string;
after the construction from a string it has no value until the first `clear`. -/
theorem C119_checksum (s : List Byte) (h : List WOp) :
    (∃ k, lastClear (some []) h = some k ∧ (wrun .fresh h).checksum = ok (crcOf 0 (written k))) ∧
    (wrun (.ofString s) h).checksum = match lastClear none h with
      | none => ub
      | some k => ok (crcOf 0 (written k)) := by
  have c1 := wrun_crc (some []) h .fresh (by simp [WBuf.fresh, written, crcOf_nil])
  have c2 := wrun_crc none h (.ofString s) (by simp [WBuf.ofString, wstep])
  have hs : ∀ (k : List WOp) (x : List WOp), ∃ y, lastClear (some x) k = some y := by
    intro k
    induction k with
    | nil => intro x; exact ⟨x, rfl⟩
    | cons o k ih => intro x; cases o <;> exact ih _
  obtain ⟨k, hk⟩ := hs h []
  refine ⟨⟨k, hk, ?_⟩, ?_⟩
  · rw [hk] at c1; simp [WBuf.checksum, c1]
  · unfold WBuf.checksum
    rw [c2]
    cases lastClear none h <;> rfl

/-- C119, refuted: `clear` never empties the buffer; after any history `str` is what it was, and what is written next comes after it. -/
theorem C119_clear_refuted (w : WBuf) (h : List WOp) (bs : List Byte) :
    (wrun w (h ++ [.clear])).str = (wrun w h).str ∧
    (wrun .fresh [.write bs, .clear, .write bs]).str = bs ++ bs := by
  constructor
  · simp [wrun, WBuf.str, wstep]
  · have := (C119_writer_exact [] [.write bs, .clear, .write bs]).1
    simpa [lastOpen, written] using this

/-- C119, refuted: a writer made from, or opened with, a string does not go on after it but writes over it, and its checksum has no value. -/
theorem C119_string_refuted (s bs : List Byte) (hne : bs ++ s.drop bs.length ≠ s ++ bs) :
    (wrun (.ofString s) [.write bs]).str ≠ s ++ bs ∧ (wrun .fresh [.opn s, .write bs]).str ≠ s ++ bs ∧
    (wrun (.ofString s) [.write bs]).str.length = max s.length bs.length ∧
    (wrun (.ofString s) [.write bs]).checksum = ub := by
  have h1 := C119_writer_exact s [.write bs]
  have h2 := (C119_writer_exact s [.opn s, .write bs]).1
  simp only [lastOpen, written, List.nil_append, List.append_nil] at h1 h2
  refine ⟨by rw [h1.2]; exact hne, by rw [h2]; exact hne, ?_, rfl⟩
  rw [h1.2]
  simp only [List.length_append, List.length_drop]
  omega

/-- C119: as long as no read or seek goes beyond the end, the reads of a reader give the string opened last piece by piece, from the
places sought, and no failure is reported; for every history.  Missing for the full claim: histories with a read beyond the end. -/
theorem C119_reader_partial (h : List ROp) (s : List Byte) (ps : List (List Byte)) :
    (pieces [] 0 h = some ps → (rrun .fresh h).1 = ps ∧ (rrun .fresh h).2.fail = false) ∧
    (pieces s 0 h = some ps → (rrun (.ofString s) h).1 = ps ∧ (rrun (.ofString s) h).2.fail = false) := by
  constructor
  · intro hp
    have := rrun_good h .fresh ps rfl rfl (by simp [RBuf.fresh]) hp
    exact ⟨this.1, this.2.1⟩
  · intro hp
    have := rrun_good h (.ofString s) ps rfl rfl (by simp [RBuf.ofString, RBuf.opn]) hp
    exact ⟨this.1, this.2.1⟩

/-- C119: the checksum of a reader is that of the bytes read since the last `seek`, `rewind` or `clear`, or since the construction without
a string; after the construction from a string it has no value until then. -/
theorem C119_reader_checksum (h : List ROp) (s : List Byte) (ps : List (List Byte)) :
    (pieces [] 0 h = some ps → (rrun .fresh h).2.crc = (readSince (some []) [] 0 h).map (crcOf 0)) ∧
    (pieces s 0 h = some ps → (rrun (.ofString s) h).2.crc = (readSince none s 0 h).map (crcOf 0)) :=
  ⟨fun hp => rrun_crc h .fresh (some []) ps rfl rfl hp (by simp [RBuf.fresh, crcOf_nil]),
   fun hp => rrun_crc h (.ofString s) none ps rfl rfl hp rfl⟩

/-- C119: arrays written one after the other are read back one after the other from the string of the writer. -/
theorem C119_round_trip (bss ms : List (List Byte)) (hl : ms.map List.length = bss.map List.length) :
    (rrun (.ofString (wrun .fresh (bss.map .write)).str) (ms.map .read)).1 = bss := by
  have hw : (wrun .fresh (bss.map .write)).str = bss.flatten := by
    rw [(C119_writer_partial (bss.map .write) (by simp [Plain])).1]
    clear hl
    induction bss with
    | nil => rfl
    | cons b bss ih => simp [written, ih]
  rw [hw]
  apply ((C119_reader_partial _ _ _).2 _).1
  have : ∀ (bss ms : List (List Byte)) (pre : List Byte), ms.map List.length = bss.map List.length →
      pieces (pre ++ bss.flatten) pre.length (ms.map .read) = some bss := by
    intro bss
    induction bss with
    | nil =>
      intro ms pre hl
      simp at hl; subst hl
      rfl
    | cons b bss ih =>
      intro ms pre hl
      match ms, hl with
      | [], hl => simp at hl
      | m :: ms, hl =>
        simp only [List.map_cons, List.cons.injEq] at hl
        have := ih ms (pre ++ b) hl.2
        simp only [List.map_cons, pieces, List.flatten_cons, hl.1]
        rw [if_pos (by simp), ← List.append_assoc, show pre.length + b.length = (pre ++ b).length by simp, this]
        simp
  simpa using this bss ms [] hl

/-- C119, refuted: once a read went beyond the end, no `open`, `seek` or `rewind` brings the reader back: every later read leaves its
variable as it is, until `clear`. -/
theorem C119_stuck_refuted (r : RBuf) (m : List Byte) (hr : r.eof = true ∨ r.fail = true ∨ r.data.length < r.g + m.length)
    (h : List ROp) (hn : ∀ o ∈ h, NoClear o) :
    (rrun (r.read m).2 h).1 = vars h ∧ (rrun (r.read m).2 h).2.fail = true := by
  apply rrun_stuck h hn
  unfold RBuf.read RBuf.raw
  simp only
  split
  · rfl
  · rename_i h1
    simp only [not_or] at h1
    rw [if_neg (by
      rcases hr with h | h | h
      · exact absurd h h1.1
      · exact absurd h h1.2
      · omega)]

/-- C119: after `clear` and then `open` every reader is as good as a new one, whatever happened before. -/
theorem C119_clear_open (r : RBuf) (s : List Byte) (h : List ROp) (ps : List (List Byte)) (hp : pieces s 0 h = some ps) :
    (rrun (r.clear.opn s) h).1 = ps ∧ (rrun (r.clear.opn s) h).2.fail = false := by
  have := rrun_good h (r.clear.opn s) ps rfl rfl (by simp [RBuf.opn]) hp
  exact ⟨this.1, this.2.1⟩

/-! cases meeting the hypotheses -/

example : pieces [] 0 [.opn [1, 2, 3], .read [0], .read [0, 0], .seek 1, .read [9]] = some [[1], [2, 3], [2]] := by decide
example : ((rrun .fresh [.opn [1], .read [0, 0], .opn [5, 6], .seek 0, .read [7, 8]]).1) = [[1, 0], [7, 8]] := by decide +kernel
example : ([9] : List Byte) ++ ([1, 2] : List Byte).drop 1 ≠ [1, 2] ++ [9] := by decide
example : (wrun .fresh [.write [1, 2], .opn [7, 8, 9], .write [3]]).str = [3, 8, 9] := by decide +kernel

end Verif.Buffers
