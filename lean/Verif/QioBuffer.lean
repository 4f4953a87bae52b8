import Verif.Buffers
import Verif.QioField
/-
Property C125: a binary buffer as a record of a QIO file.  `QDPFileWriter::write(XMLBufferWriter&, BinaryBufferWriter&)`, lib/qdp_qdpio.cc:528-575, and
`QDPFileReader::read(XMLReader&, BinaryBufferReader&)`, lib/qdp_qdpio.cc:249-290, on many nodes.

QIO is taken as in `QioField`.  Of a global record it is taken in addition that all nodes have to state the same record, that `get` is called on one node,
which one is left open, and that `put` is called on all.  The buffers are those of C119; the streams of the nodes that are not the primary one
(node 0) are not used.  `QDPInternal::broadcast` gives all nodes the string of the primary node (C114, for strings shorter than 2^31).

Not modelled: the XML of the record (C73, C103); what becomes of a size of 2^31 or more when it is converted to `int` (counted as undefined).
-/
namespace Verif.QioBuffer
open Verif Outcome ByteOrder Verif.BinIO Verif.LatticeIO Verif.QioField Verif.Buffers Verif.Subset

/-! ## model -/

/-- `QDPInternal::broadcast`, lib/qdp_parscalar_specific.cc:253-290: `x` is what the nodes have, the result what node `n` has then -/
def broadcast {α : Type} (x : Nat → α) (_n : Nat) : α := x 0

/-- `BinaryBufferWriter::str` on node `n`, lib/qdp_io.cc:1372-1381 -/
def strOn (w : Nat → WBuf) (n : Nat) : List Byte := broadcast (fun k => if k = 0 then (w k).str else []) n

/-- what a node hands to QIO_create_record_info and QIO_write -/
structure Call where
  prec : Char
  typesize : Nat
  count : Nat
  datum : Nat
  word : Nat
  arg : List Byte

/-- the call of node `n`, lib/qdp_qdpio.cc:530-538 and 555-559 -/
def writeCall (w : Nat → WBuf) (n : Nat) : Outcome Call := do
  let ss := strOn w n
  let count ← ckInt ss.length
  ok ⟨'U', 1, count, ss.length * 1, 1, ss⟩

/-- the two nodes state the same record -/
def Call.agrees (a b : Call) : Bool :=
  a.prec == b.prec && a.typesize == b.typesize && a.count == b.count && a.datum == b.datum && a.word == b.word

/-- QIO_write of a global record by `N` nodes, with `QDPOScalarFactoryGet<char>` called on node `io` -/
def qioWriteGlobal (be : Bool) (N io : Nat) (call : Nat → Outcome Call) : Outcome Global := do
  let cs ← mapO call (List.range N)
  let c ← call io
  if cs.all (Call.agrees c) then do
    let b ← scGet 1 c.arg c.datum 0 c.count
    ok ⟨c.prec, c.typesize, c.count, order be c.word b⟩
  else ub

/-- `QDPFileWriter::write`, lib/qdp_qdpio.cc:528-575 -/
def writeBuf (be : Bool) (N io : Nat) (w : Nat → WBuf) : Outcome Global := qioWriteGlobal be N io (writeCall w)

/-- `BinaryBufferReader::open` on node `n`, lib/qdp_io.cc:924-928 -/
def openOn (s : List Byte) (r : Nat → RBuf) (n : Nat) : RBuf := if n = 0 then (r n).opn s else r n

/-- `QDPFileReader::read` on node `n`, lib/qdp_qdpio.cc:249-290; `resize` fills with zeros -/
def readBuf (be : Bool) (rec : Global) (r : Nat → RBuf) (n : Nat) : Outcome RBuf := do
  let from_disk := List.replicate rec.count 0
  let from_disk ← qioReadGlobal be rec 1 (from_disk.length * 1) 1 from_disk
  ok (openOn from_disk r n)

/-- `BinaryBufferReader::str` on node `n`, lib/qdp_io.cc:942-951 -/
def readerStrOn (r : Nat → RBuf) (n : Nat) : List Byte := broadcast (fun k => if k = 0 then (r k).data else []) n

/-! ## proofs -/

theorem order_one (be : Bool) (bs : List Byte) : order be 1 bs = bs := by
  have h := order_flat (be := be) (k := 1) (by decide) (bs.map fun b => [b]) (by simp)
  have e : (bs.map fun b => [b]).flatten = bs := by
    clear h
    induction bs with
    | nil => rfl
    | cons b bs ih => simp [ih]
  rw [e] at h
  rw [h, mem, List.map_map]
  have : (host be ∘ fun b : Byte => [b]) = fun b => [b] := by funext b; cases be <;> simp [host]
  rw [this, e]

theorem mapO_const {α β : Type} (f : α → Outcome β) (b : β) : ∀ l : List α, (∀ a ∈ l, f a = ok b) → mapO f l = ok (l.map fun _ => b)
  | [], _ => rfl
  | a :: l, h => by
    have ih := mapO_const f b l (fun x hx => h x (by simp [hx]))
    simp [mapO, h a (by simp), ih]

/-! ## theorems -/

/-- C125: whatever the number of nodes, whichever of them QIO asks for the data, and whatever the byte order: the record holds the bytes of the writer on the
primary node, one datum each.  Missing: buffers of 2^31 bytes and more. -/
theorem C125_record_partial (be : Bool) (N io : Nat) (w : Nat → WBuf) (hs : (w 0).str.length < 2 ^ 31) :
    writeBuf be N io w = ok ⟨'U', 1, (w 0).str.length, (w 0).str⟩ := by
  have hc : ∀ n, writeCall w n = ok ⟨'U', 1, (w 0).str.length, (w 0).str.length, 1, (w 0).str⟩ := by
    intro n; simp [writeCall, strOn, broadcast, ckInt_of_lt hs]
  rw [writeBuf, qioWriteGlobal, mapO_const _ _ _ (fun n _ => hc n), ok_bind, hc, ok_bind, if_pos (by simp [Call.agrees])]
  simp [scGet, slice_all, order_one]

/-- C125: reading such a record, on nodes of any number and byte order, opens the reader on the primary node with the bytes of the writer, at the beginning;
`str` then gives them on every node, and the readers of the other nodes are left alone.  Missing: buffers of 2^31 bytes and more. -/
theorem C125_round_trip_partial (be be' : Bool) (N io : Nat) (w : Nat → WBuf) (hs : (w 0).str.length < 2 ^ 31) :
    ∃ rec, writeBuf be N io w = ok rec ∧ ∀ r : Nat → RBuf, ∃ r' : Nat → RBuf, (∀ n, readBuf be' rec r n = ok (r' n)) ∧
      (r' 0).data = (w 0).str ∧ (r' 0).g = 0 ∧ (∀ n, readerStrOn r' n = (w 0).str) ∧ ∀ n, n ≠ 0 → r' n = r n := by
  refine ⟨_, C125_record_partial be N io w hs, fun r => ⟨openOn (w 0).str r, fun n => ?_, by simp [openOn, RBuf.opn], by simp [openOn, RBuf.opn],
    fun n => by simp [readerStrOn, broadcast, openOn, RBuf.opn], fun n hn => by simp [openOn, hn]⟩⟩
  simp [readBuf, qioReadGlobal, scPut, order_one, slice_all, blit_all]

def NoOpen : ROp → Prop
  | .opn _ => False
  | _ => True

theorem rrun_data (h : List ROp) (hn : ∀ o ∈ h, NoOpen o) (r : RBuf) : (rrun r h).2.data = r.data := by
  induction h generalizing r with
  | nil => rfl
  | cons o h ih =>
    have hn' : ∀ o ∈ h, NoOpen o := fun x hx => hn x (by simp [hx])
    rw [rrun, ih hn']
    cases o with
    | opn t => exact absurd (hn (.opn t) (by simp)) (by simp [NoOpen])
    | read m => simp only [rstep, RBuf.read, RBuf.raw]; split <;> (try split) <;> rfl
    | seek p => simp only [rstep, RBuf.seek]; split <;> (try split) <;> rfl
    | clear => rfl

/-- C125: `str` of a reader gives the whole record on every node, whatever was read, sought or cleared since.  Missing: buffers of 2^31 bytes and more. -/
theorem C125_str_partial (be be' : Bool) (N io : Nat) (w : Nat → WBuf) (hs : (w 0).str.length < 2 ^ 31) (r : Nat → RBuf) (h : List ROp) (hn : ∀ o ∈ h, NoOpen o) :
    ∃ rec r0, writeBuf be N io w = ok rec ∧ readBuf be' rec r 0 = ok r0 ∧
      ∀ n, readerStrOn (fun k => if k = 0 then (rrun r0 h).2 else r k) n = (w 0).str := by
  obtain ⟨rec, e, hr⟩ := C125_round_trip_partial be be' N io w hs
  obtain ⟨r', e', hd, -⟩ := hr r
  exact ⟨rec, r' 0, e, e' 0, fun n => by simp [readerStrOn, broadcast, rrun_data h hn, hd]⟩

/-- C125: arrays written one after the other to a new buffer on the primary node, the buffer written to a file and read again into a new one, are read back one
after the other, and the two checksums are equal.  Missing: buffers of 2^31 bytes and more. -/
theorem C125_arrays_partial (be be' : Bool) (N io : Nat) (bss ms : List (List Byte)) (hl : ms.map List.length = bss.map List.length)
    (hs : bss.flatten.length < 2 ^ 31) (w : Nat → WBuf) (hw : w 0 = wrun .fresh (bss.map .write)) (r : Nat → RBuf) (hr : r 0 = .fresh) :
    ∃ rec r', writeBuf be N io w = ok rec ∧ readBuf be' rec r 0 = ok r' ∧ (rrun r' (ms.map .read)).1 = bss ∧
      (rrun r' (ms.map .read)).2.fail = false ∧ ∃ c, (w 0).checksum = ok c ∧ (rrun r' (ms.map .read)).2.crc = some c := by
  have hwr : written (bss.map .write) = bss.flatten := by
    clear hl hs hw
    induction bss with
    | nil => rfl
    | cons b bss ih => simp [written, ih]
  have hp := C119_writer_partial (bss.map .write) (by simp [Plain])
  rw [hwr, ← hw] at hp
  obtain ⟨rec, e, h⟩ := C125_round_trip_partial be be' N io w (by rw [hp.1]; exact hs)
  obtain ⟨r', e', -⟩ := h r
  have hr' : r' 0 = RBuf.opn bss.flatten .fresh := by
    have h1 := e' 0
    rw [C125_record_partial be N io w (by rw [hp.1]; exact hs)] at e
    simp only [ok.injEq] at e
    subst e
    simp only [readBuf, qioReadGlobal, scPut, order_one, hp.1, hr, openOn] at h1
    simp [slice_all, blit_all] at h1
    exact h1.symm
  have key : ∀ (bss ms : List (List Byte)) (pre : List Byte) (acc : List Byte), ms.map List.length = bss.map List.length →
      pieces (pre ++ bss.flatten) pre.length (ms.map .read) = some bss ∧
      readSince (some acc) (pre ++ bss.flatten) pre.length (ms.map .read) = some (acc ++ bss.flatten) := by
    intro bss
    induction bss with
    | nil =>
      intro ms pre acc hl
      simp at hl; subst hl
      simp [pieces, readSince]
    | cons b bss ih =>
      intro ms pre acc hl
      match ms, hl with
      | [], hl => simp at hl
      | m :: ms, hl =>
        simp only [List.map_cons, List.cons.injEq] at hl
        have := ih ms (pre ++ b) (acc ++ b) hl.2
        simp only [List.map_cons, pieces, readSince, List.flatten_cons, hl.1]
        rw [if_pos (by simp), ← List.append_assoc, show pre.length + b.length = (pre ++ b).length by simp, this.1]
        refine ⟨by simp, ?_⟩
        have ht : List.take b.length (List.drop pre.length (pre ++ b ++ bss.flatten)) = b := by simp
        simp only [Option.map_some, ht]
        rw [this.2, List.append_assoc]
  have k := key bss ms [] [] hl
  simp only [List.nil_append, List.length_nil] at k
  have hg := rrun_good (ms.map .read) (r' 0) bss (by rw [hr']; rfl) (by rw [hr']; rfl) (by rw [hr']; simp [RBuf.opn]) (by rw [hr']; exact k.1)
  have hc := rrun_crc (ms.map .read) (r' 0) (some []) bss (by rw [hr']; rfl) (by rw [hr']; rfl) (by rw [hr']; exact k.1)
    (by rw [hr']; simp [RBuf.opn, RBuf.fresh, crcOf_nil])
  refine ⟨rec, r' 0, e, e' 0, hg.1, hg.2.1, crcOf 0 bss.flatten, hp.2, ?_⟩
  rw [hc, hr']
  simp only [RBuf.opn]
  rw [k.2]
  rfl

/-- C125, refuted: a reader that went beyond the end of its last record is not brought back by reading the next record: `str` shows the new bytes, but every
read leaves its variable as it is, until `clear`. -/
theorem C125_reused_refuted (be be' : Bool) (N io : Nat) (w : Nat → WBuf) (hs : (w 0).str.length < 2 ^ 31) (r : Nat → RBuf) (hf : (r 0).fail = true)
    (h : List ROp) (hn : ∀ o ∈ h, NoClear o) :
    ∃ rec r', writeBuf be N io w = ok rec ∧ readBuf be' rec r 0 = ok r' ∧ r'.data = (w 0).str ∧ (rrun r' h).1 = vars h ∧ (rrun r' h).2.fail = true := by
  refine ⟨_, (r 0).opn (w 0).str, C125_record_partial be N io w hs, ?_, rfl, rrun_stuck h hn _ hf⟩
  simp [readBuf, qioReadGlobal, scPut, order_one, slice_all, blit_all, openOn]

/-- C125, refuted: reading a record does not begin a new checksum: that of a used reader goes on from the bytes of the records before. -/
theorem C125_checksum_refuted (be : Bool) (rec : Global) (r : Nat → RBuf) (r' : RBuf) (h : readBuf be rec r 0 = ok r') : r'.crc = (r 0).crc := by
  obtain ⟨b, -, e⟩ := bind_eq_ok.1 h
  simp only [ok.injEq] at e
  subst e
  simp [openOn, RBuf.opn]

/-- C125: a global record of data of more than one byte is refused, unless it is empty; one of single bytes is read whatever its precision says.  (QIO keeps
`typesize * count` bytes for a record.) -/
theorem C125_other_records (be : Bool) (rec : Global) (hd : rec.data.length = rec.typesize * rec.count) (r : Nat → RBuf) (n : Nat) :
    (readBuf be rec r n = abort ↔ rec.typesize ≠ 1 ∧ rec.count ≠ 0) ∧
    (¬ (rec.typesize ≠ 1 ∧ rec.count ≠ 0) → readBuf be rec r n = ok (openOn rec.data r n)) := by
  have hok : ¬ (rec.typesize ≠ 1 ∧ rec.count ≠ 0) → readBuf be rec r n = ok (openOn rec.data r n) := by
    intro h
    have hc : rec.count = rec.typesize * rec.count := by
      by_cases h1 : rec.typesize = 1
      · simp [h1]
      · have : rec.count = 0 := by by_contra h2; exact h ⟨h1, h2⟩
        simp [this]
    have hl : rec.data.length = rec.count := by omega
    simp only [readBuf, qioReadGlobal, List.length_replicate, Nat.mul_one, scPut, order_one]
    rw [if_neg (by omega), slice_all _ hl, ok_bind, blit_all (by simp [hl]), ok_bind]
  refine ⟨⟨fun h => ?_, fun ⟨h1, h2⟩ => ?_⟩, hok⟩
  · by_contra hc
    rw [hok hc] at h
    exact absurd h (by simp)
  · simp only [readBuf, qioReadGlobal, List.length_replicate, Nat.mul_one]
    rw [if_pos (by
      intro h
      exact h1 (Nat.eq_of_mul_eq_mul_right (Nat.pos_of_ne_zero h2) (by omega)))]
    rfl

/-- C125: the record of a buffer is the one that an array of bytes would give (C75), and is read as such by an array of as many bytes. -/
theorem C125_as_array (cv : Word → Word → List Byte → List Byte) (be be' : Bool) (N io : Nat) (w : Nat → WBuf) (hs : (w 0).str.length < 2 ^ 31)
    (m : List Byte) (hm : m.length = (w 0).str.length) :
    writeBuf be N io w = writeSc be ⟨.u8, 1⟩ (w 0).str.length (w 0).str ∧
    ∃ rec, writeBuf be N io w = ok rec ∧ readSc cv be' ⟨.u8, 1⟩ (w 0).str.length rec m = ok (w 0).str := by
  rw [C125_record_partial be N io w hs]
  refine ⟨by simp [writeSc, scGet, Ty.size, Word.size, Word.prec, slice_all, order_one], _, rfl, ?_⟩
  simp [readSc, qioReadGlobal, Ty.size, Word.size, scPut, slice_all, order_one, blit_all, hm]

/-! ### cases -/

/-- three nodes, of which only the first has written, and QIO asks the last; a zero byte is in the middle -/
example : writeBuf false 3 2 (fun n => if n = 0 then wrun .fresh [.write [1, 0], .write [7]] else .fresh) = ok ⟨'U', 1, 3, [1, 0, 7]⟩ := by
  have := C125_record_partial false 3 2 (fun n => if n = 0 then wrun .fresh [.write [1, 0], .write [7]] else .fresh) (by decide)
  exact this

/-- a reader that failed before -/
example : (Buffers.rrun (RBuf.opn [5, 6] (RBuf.read [9] RBuf.fresh).2) [.read [3, 3]]).1 = [[3, 3]] := by decide

/-- a record of two doubles is refused -/
example (be : Bool) (r : Nat → RBuf) : readBuf be ⟨'D', 8, 2, List.replicate 16 0⟩ r 0 = abort :=
  (C125_other_records be _ (by simp) r 0).1.2 (by simp)

end Verif.QioBuffer
