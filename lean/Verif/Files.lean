import Mathlib.Data.List.Induction
import Verif.BinIO
/-
File objects: opening, closing and opening again.  `BinaryFileWriter`, lib/qdp_io.cc:1395-1447, `BinaryFileReader`, lib/qdp_io.cc:966-1007 (`TextFileReader`, `TextFileWriter`,
lib/qdp_io.cc:222-263, 470-518, are opened and closed in the same way), `XMLFileWriter`, lib/qdp_xmlio.cc:1319-1391, `QDPFileReader` and `QDPFileWriter`,
lib/qdp_qdpio.cc:106-190, 294-496.

This is the primary node (the others get the results of `is_open` and `fail` by broadcast, C110), the library is initialised, and there is one file object beside the file system.
Bytes written are in the file at once: buffers of the stream are not modelled, a reader does not see a file that is being written here.  The streams of the C++ library are those of
C++11: a successful `open` clears the state, an `open` of an open stream fails and leaves the file as it is.
-/
namespace Verif.Files
open Verif Outcome ByteOrder BinIO

abbrev Name := Nat

/-- the files that exist -/
abbrev FS := Name → Option (List Byte)

def upd (fs : FS) (p : Name) (c : List Byte) : FS := fun q => if q = p then some c else fs q

/-- a stream: the open file and the position in it, the state `fail()` -/
structure Stream where
  file : Option (Name × Nat)
  fail : Bool
deriving DecidableEq

/-! ## writers -/

/-- `std::ofstream::open(p, out | trunc)`; `can` says which files can be written -/
def openOut (can : Name → Bool) (p : Name) (s : Stream) (fs : FS) : Stream × FS :=
  if s.file.isSome then ({ s with fail := true }, fs)
  else if can p then (⟨some (p, 0), false⟩, upd fs p [])
  else ({ s with fail := true }, fs)

/-- `std::ostream::write` -/
def writeOut (bs : List Byte) (s : Stream) (fs : FS) : Stream × FS :=
  if s.fail ∨ bs = [] then (s, fs)
  else match s.file with
    | none => ({ s with fail := true }, fs)
    | some (p, pos) => (⟨some (p, pos + bs.length), false⟩, upd fs p (overwrite ((fs p).getD []) pos bs))

/-- `close` of a stream -/
def closeStd (s : Stream) : Stream := { s with file := none }

/-- a file object: the stream and the checksum -/
structure Obj where
  st : Stream
  crc : BitVec 32

/-- a new object -/
def fresh : Obj := ⟨⟨none, false⟩, 0⟩

/-- what the program does with a writer -/
inductive Op
  | opn (p : Name)
  | write (bs : List Byte)
  | close
  | flush

/-- `BinaryFileWriter::open`, lib/qdp_io.cc:1399-1407: an error only if the stream is not open afterwards.  With `strict`: `XMLFileWriter::open`, lib/qdp_xmlio.cc:1321-1336 (without
prologue): an error if the state of the stream is failed -/
def openW (strict : Bool) (can : Name → Bool) (p : Name) (x : Obj × FS) : Outcome (Obj × FS) :=
  let r := openOut can p x.1.st x.2
  if (if strict then !r.1.fail else r.1.file.isSome) then ok (⟨r.1, 0⟩, r.2) else abort

/-- `BinaryFileWriter`: `writeArrayPrimaryNode`, lib/qdp_io.cc:1159-1180, of the bytes that go to the file; `close`, lib/qdp_io.cc:1409-1418; `flush` -/
def stepW (strict : Bool) (can : Name → Bool) (x : Obj × FS) : Op → Outcome (Obj × FS)
  | .opn p => openW strict can p x
  | .write bs => ok (⟨(writeOut bs x.1.st x.2).1, crcOf x.1.crc bs⟩, (writeOut bs x.1.st x.2).2)
  | .close => ok (if x.1.st.file.isSome then { x.1 with st := closeStd x.1.st } else x.1, x.2)
  | .flush => ok x

def runW (strict : Bool) (can : Name → Bool) (x : Obj × FS) : List Op → Outcome (Obj × FS)
  | [] => ok x
  | o :: os => do
      let x ← stepW strict can x o
      runW strict can x os

/-! ### specification -/

/-- the file opened last and what was written since (last first) -/
def sinceRev : List Op → Option (Name × List Byte)
  | [] => none
  | .opn p :: _ => some (p, [])
  | .write bs :: h => (sinceRev h).map fun x => (x.1, x.2 ++ bs)
  | .close :: h => sinceRev h
  | .flush :: h => sinceRev h

def since (h : List Op) : Option (Name × List Byte) := sinceRev h.reverse

/-- a file is open after the operations (last first) -/
def isOpenRev : List Op → Bool
  | [] => false
  | .opn _ :: _ => true
  | .write _ :: h => isOpenRev h
  | .close :: _ => false
  | .flush :: h => isOpenRev h

/-- files are opened when none is open, and written when one is (last first) -/
def ProperRev : List Op → Prop
  | [] => True
  | .opn _ :: h => isOpenRev h = false ∧ ProperRev h
  | .write _ :: h => isOpenRev h = true ∧ ProperRev h
  | .close :: h => ProperRev h
  | .flush :: h => ProperRev h

def Proper (h : List Op) : Prop := ProperRev h.reverse

/-- the files as the program means them: `opn` empties a file, `write` appends to the file opened last (last first) -/
def meantRev (fs : FS) : List Op → FS
  | [] => fs
  | .opn p :: h => upd (meantRev fs h) p []
  | .write bs :: h => match sinceRev h with
    | none => meantRev fs h
    | some (p, c) => upd (meantRev fs h) p (c ++ bs)
  | .close :: h => meantRev fs h
  | .flush :: h => meantRev fs h

def meant (fs : FS) (h : List Op) : FS := meantRev fs h.reverse

/-! ### proofs -/

theorem runW_snoc (strict : Bool) (can : Name → Bool) (x : Obj × FS) (h : List Op) (o : Op) : runW strict can x (h ++ [o]) = (runW strict can x h >>= fun y => stepW strict can y o) := by
  induction h generalizing x with
  | nil =>
    simp only [List.nil_append, runW, ok_bind]
    cases stepW strict can x o <;> rfl
  | cons a h ih =>
    simp only [List.cons_append, runW]
    cases stepW strict can x a with
    | ok y => simp only [ok_bind]; exact ih y
    | abort => rfl
    | ub => rfl

theorem overwrite_end (c bs : List Byte) : overwrite c c.length bs = c ++ bs := by
  unfold overwrite
  split
  · rename_i h; simp [h]
  · simp [List.drop_eq_nil_of_le]

/-- without failure the object stands at the end of the file opened last, which holds what was written since -/
structure InvW (h : List Op) (fs0 : FS) (x : Obj × FS) : Prop where
  isopen : x.1.st.file.isSome = true → isOpenRev h.reverse = true
  content : x.1.st.fail = false → ∀ p c, since h = some (p, c) → x.2 p = some c
  pos : x.1.st.fail = false → ∀ p n, x.1.st.file = some (p, n) → ∃ c, since h = some (p, c) ∧ n = c.length
  crc : ∀ p c, since h = some (p, c) → x.1.crc = crcOf 0 c
  others : ∀ q, (∀ o ∈ h, o ≠ .opn q) → x.2 q = fs0 q
  named : ∀ p n, x.1.st.file = some (p, n) → .opn p ∈ h

theorem crcOf_append (c : BitVec 32) (a b : List Byte) : crcOf (crcOf c a) b = crcOf c (a ++ b) := by
  unfold crcOf Crc.feed
  rw [List.foldl_append, BitVec.xor_assoc, BitVec.xor_self, BitVec.xor_zero]

theorem since_snoc_write (h : List Op) (bs : List Byte) : since (h ++ [.write bs]) = (since h).map fun x => (x.1, x.2 ++ bs) := by simp [since, sinceRev]
theorem since_snoc_open (h : List Op) (p : Name) : since (h ++ [.opn p]) = some (p, []) := by simp [since, sinceRev]
theorem since_snoc_close (h : List Op) : since (h ++ [.close]) = since h := by simp [since, sinceRev]
theorem since_snoc_flush (h : List Op) : since (h ++ [.flush]) = since h := by simp [since, sinceRev]

theorem crcOf_nil (c : BitVec 32) : crcOf c [] = c := by
  unfold crcOf Crc.feed
  rw [List.foldl_nil, BitVec.xor_assoc, BitVec.xor_self, BitVec.xor_zero]

theorem stepW_inv {strict : Bool} {can : Name → Bool} {h : List Op} {fs0 : FS} {x y : Obj × FS} {o : Op} (m : InvW h fs0 x) (hs : stepW strict can x o = ok y) :
    InvW (h ++ [o]) fs0 y := by
  obtain ⟨⟨⟨file, fail⟩, crc⟩, fs⟩ := x
  have memr : ∀ q, (∀ o' ∈ h ++ [o], o' ≠ .opn q) → (∀ o' ∈ h, o' ≠ .opn q) := fun q hq o' ho => hq o' (by simp [ho])
  cases o with
  | opn p =>
    simp only [stepW, openW] at hs
    generalize hb : (if strict = true then !(openOut can p ⟨file, fail⟩ fs).1.fail else (openOut can p ⟨file, fail⟩ fs).1.file.isSome) = b at hs
    cases b with
    | true =>
      simp only [if_true, ok.injEq] at hs
      subst hs
      have hcond := hb
      clear hb
      unfold openOut at *
      by_cases hf : file.isSome
      · simp only [hf, if_true] at *
        refine ⟨fun _ => by simp [isOpenRev], fun hc => by simp at hc, fun hc => by simp at hc, fun p' c hp => ?_, fun q hq => m.others q (memr q hq), ?_⟩
        · rw [since_snoc_open] at hp; cases hp; exact (crcOf_nil 0).symm
        · intro p' n hpn; simp; exact .inl (m.named p' n hpn)
      · have hf' : file.isSome = false := by simpa using hf
        simp only [hf', Bool.false_eq_true, if_false] at hcond ⊢
        by_cases hcan : can p
        · simp only [hcan, if_true] at hcond ⊢
          refine ⟨fun _ => by simp [isOpenRev], fun _ p' c hp => ?_, fun _ p' n hp => ?_, fun p' c hp => ?_, fun q hq => ?_, ?_⟩
          · rw [since_snoc_open] at hp; cases hp; simp [upd]
          · simp only [Option.some.injEq, Prod.mk.injEq] at hp; obtain ⟨rfl, rfl⟩ := hp
            exact ⟨[], since_snoc_open h p, rfl⟩
          · rw [since_snoc_open] at hp; cases hp; exact (crcOf_nil 0).symm
          · have : q ≠ p := by rintro rfl; exact hq (.opn q) (by simp) rfl
            simp only [upd, this, if_false]
            exact m.others q (memr q hq)
          · intro p' n hpn
            simp only [Option.some.injEq, Prod.mk.injEq] at hpn; obtain ⟨rfl, rfl⟩ := hpn; simp
        · simp only [hcan, Bool.false_eq_true, if_false] at hcond
          cases strict <;> simp [hf'] at hcond
    | false => cases hs
  | write bs =>
    simp only [stepW, ok.injEq] at hs
    subst hs
    have hiso : isOpenRev (h ++ [Op.write bs]).reverse = isOpenRev h.reverse := by simp [isOpenRev]
    have hcrc : ∀ p c, since (h ++ [Op.write bs]) = some (p, c) → crcOf crc bs = crcOf 0 c := by
      intro p c hp
      rw [since_snoc_write] at hp
      obtain ⟨⟨p', c'⟩, e1, e2⟩ := Option.map_eq_some_iff.1 hp
      cases e2
      have := m.crc p' c' e1
      simp only at this
      rw [this, crcOf_append]
    have hmem : ∀ p', Op.opn p' ∈ h → Op.opn p' ∈ h ++ [Op.write bs] := fun p' hp => by simp [hp]
    unfold writeOut
    by_cases h1 : fail = true ∨ bs = []
    · simp only [if_pos h1]
      refine ⟨fun hc => hiso ▸ m.isopen hc, fun hc p c hp => ?_, fun hc p n hp => ?_, hcrc, fun q hq => m.others q (memr q hq), fun p n hp => hmem p (m.named p n hp)⟩
      · have hbs : bs = [] := h1.resolve_left (by simp at hc; simp [hc])
        subst hbs
        rw [since_snoc_write] at hp
        obtain ⟨⟨p', c'⟩, e1, e2⟩ := Option.map_eq_some_iff.1 hp
        cases e2
        simpa using m.content hc p' c' e1
      · have hbs : bs = [] := h1.resolve_left (by simp at hc; simp [hc])
        subst hbs
        obtain ⟨c, e1, e2⟩ := m.pos hc p n hp
        exact ⟨c, by rw [since_snoc_write, e1]; simp, e2⟩
    · simp only [if_neg h1]
      push Not at h1
      have hfail : fail = false := by simpa using h1.1
      cases file with
      | none =>
        simp only
        refine ⟨fun hc => by simp at hc, fun hc => by simp at hc, fun hc => by simp at hc, hcrc, fun q hq => m.others q (memr q hq), fun p n hp => by simp at hp⟩
      | some pn =>
        obtain ⟨p, n⟩ := pn
        simp only
        obtain ⟨c, e1, e2⟩ := m.pos hfail p n rfl
        have e3 := m.content hfail p c e1
        simp only at e3
        refine ⟨fun _ => hiso ▸ m.isopen rfl, fun _ p' c' hp => ?_, fun _ p' n' hp => ?_, hcrc, fun q hq => ?_, fun p' n' hp => ?_⟩
        · rw [since_snoc_write, e1] at hp
          simp only [Option.map_some, Option.some.injEq, Prod.mk.injEq] at hp
          obtain ⟨rfl, rfl⟩ := hp
          simp [upd, e3, e2, overwrite_end]
        · simp only [Option.some.injEq, Prod.mk.injEq] at hp
          obtain ⟨rfl, rfl⟩ := hp
          exact ⟨c ++ bs, by rw [since_snoc_write, e1]; rfl, by simp [e2]⟩
        · have : q ≠ p := by rintro rfl; exact memr q hq (.opn q) (m.named q n rfl) rfl
          simp only [upd, this, if_false]
          exact m.others q (memr q hq)
        · simp only [Option.some.injEq, Prod.mk.injEq] at hp
          obtain ⟨rfl, rfl⟩ := hp
          exact hmem p (m.named p n rfl)
  | close =>
    simp only [stepW, ok.injEq] at hs
    subst hs
    have e : (if file.isSome then ({ st := closeStd ⟨file, fail⟩, crc := crc } : Obj) else ⟨⟨file, fail⟩, crc⟩) = ⟨⟨none, fail⟩, crc⟩ := by
      cases file <;> simp [closeStd]
    simp only [e]
    refine ⟨fun hc => by simp at hc, fun hc p c hp => ?_, fun hc p n hp => by simp at hp, ?_, fun q hq => m.others q (memr q hq), fun p n hp => by simp at hp⟩
    · rw [since_snoc_close] at hp; exact m.content hc p c hp
    · rw [since_snoc_close]; exact m.crc
  | flush =>
    simp only [stepW, ok.injEq] at hs
    subst hs
    refine ⟨fun hc => ?_, fun hc p c hp => ?_, fun hc p n hp => ?_, ?_, fun q hq => m.others q (memr q hq), fun p n hp => ?_⟩
    · simp only [List.reverse_append, List.reverse_cons, List.reverse_nil, List.nil_append, List.singleton_append, isOpenRev]; exact m.isopen hc
    · rw [since_snoc_flush] at hp; exact m.content hc p c hp
    · rw [since_snoc_flush]; exact m.pos hc p n hp
    · rw [since_snoc_flush]; exact m.crc
    · simp [m.named p n hp]

theorem runW_inv (strict : Bool) (can : Name → Bool) (fs0 : FS) (h : List Op) (y : Obj × FS) (hr : runW strict can (fresh, fs0) h = ok y) : InvW h fs0 y := by
  induction h using List.reverseRecOn generalizing y with
  | nil =>
    simp only [runW, ok.injEq] at hr
    subst hr
    exact ⟨fun hc => by simp [fresh] at hc, fun _ p c hp => by simp [since, sinceRev] at hp, fun _ p n hp => by simp [fresh] at hp, fun p c hp => by simp [since, sinceRev] at hp, fun _ _ => rfl,
      fun p n hp => by simp [fresh] at hp⟩
  | append_singleton h o ih =>
    rw [runW_snoc, bind_eq_ok] at hr
    obtain ⟨x, h1, h2⟩ := hr
    exact stepW_inv (ih x h1) h2

/-- C115. Whatever the program did with a writer, right or wrong: if `fail()` is false, the file opened last holds everything written since, also after it was closed; the checksum is
always that of everything written since the last `open`; files that were never opened are as they were. -/
theorem C115_fail (strict : Bool) (can : Name → Bool) (fs0 : FS) (h : List Op) (o : Obj) (fs : FS) (hr : runW strict can (fresh, fs0) h = ok (o, fs)) :
    (o.st.fail = false → ∀ p c, since h = some (p, c) → fs p = some c) ∧ (∀ p c, since h = some (p, c) → o.crc = crcOf 0 c) ∧ ∀ q, (∀ x ∈ h, x ≠ .opn q) → fs q = fs0 q := by
  have m := runW_inv strict can fs0 h _ hr
  exact ⟨m.content, m.crc, m.others⟩

theorem proper_run (strict : Bool) (can : Name → Bool) (fs0 : FS) (h : List Op) (hp : Proper h) (hc : ∀ p, .opn p ∈ h → can p = true) :
    ∃ o fs, runW strict can (fresh, fs0) h = ok (o, fs) ∧ o.st.fail = false ∧ o.st.file.isSome = isOpenRev h.reverse ∧ fs = meant fs0 h := by
  induction h using List.reverseRecOn with
  | nil => exact ⟨_, _, rfl, rfl, rfl, rfl⟩
  | append_singleton h x ih =>
    have hp' : ProperRev h.reverse := by
      have := hp
      simp only [Proper, List.reverse_append, List.reverse_cons, List.reverse_nil, List.nil_append, List.singleton_append] at this
      cases x with
      | opn p => exact this.2
      | write bs => exact this.2
      | close => exact this
      | flush => exact this
    obtain ⟨o, fs, h1, h2, h3, h4⟩ := ih hp' (fun p hm => hc p (by simp [hm]))
    have m := runW_inv strict can fs0 h _ h1
    rw [runW_snoc, h1]
    simp only [ok_bind]
    obtain ⟨⟨file, fail⟩, crc⟩ := o
    simp only at h2 h3
    subst h2
    simp only [meant, List.reverse_append, List.reverse_cons, List.reverse_nil, List.nil_append, List.singleton_append]
    simp only [Proper, List.reverse_append, List.reverse_cons, List.reverse_nil, List.nil_append, List.singleton_append] at hp
    cases x with
    | opn p =>
      have hno : file.isSome = false := by rw [h3]; exact hp.1
      have hcan := hc p (by simp)
      refine ⟨⟨⟨some (p, 0), false⟩, 0⟩, upd fs p [], ?_, rfl, rfl, ?_⟩
      · simp [stepW, openW, openOut, hno, hcan]
      · rw [h4]; rfl
    | write bs =>
      have hyes : file.isSome = true := by rw [h3]; exact hp.1
      obtain ⟨⟨p, n⟩, rfl⟩ := Option.isSome_iff_exists.1 hyes
      obtain ⟨c, e1, e2⟩ := m.pos rfl p n rfl
      have e3 := m.content rfl p c e1
      simp only at e3
      have e4 : sinceRev h.reverse = some (p, c) := e1
      simp only [meantRev, e4, isOpenRev]
      refine ⟨_, _, rfl, ?_, ?_, ?_⟩
      · simp only [writeOut]; split <;> simp
      · simp only [writeOut]; split <;> simp [← h3]
      · simp only [writeOut]
        by_cases hb : bs = []
        · subst hb
          simp only [or_true, if_true, List.append_nil]
          rw [h4]
          funext q
          unfold upd
          split
          · rename_i hq; subst hq; rw [← h4]; exact e3
          · rfl
        · simp only [hb, or_self, Bool.false_eq_true, if_false]
          rw [e3, e2, h4]
          simp [overwrite_end, meant]
    | close =>
      refine ⟨_, _, rfl, ?_, ?_, ?_⟩
      · cases file <;> simp [closeStd]
      · cases file <;> simp [closeStd, isOpenRev]
      · rw [h4]; rfl
    | flush => exact ⟨_, _, rfl, rfl, h3, by rw [h4]; rfl⟩

/-- C115, partial. Programs that open a file when none is open and write when one is: no failure, and the files are those that the program means, whatever was done with the object
before.  Missing: opening while a file is open, see `C115_reopen_refuted`. -/
theorem C115_write_partial (strict : Bool) (can : Name → Bool) (fs0 : FS) (h : List Op) (hp : Proper h) (hc : ∀ p, .opn p ∈ h → can p = true) :
    ∃ o, runW strict can (fresh, fs0) h = ok (o, meant fs0 h) ∧ o.st.fail = false ∧ ∀ p c, since h = some (p, c) → meant fs0 h p = some c := by
  obtain ⟨o, fs, h1, h2, -, h4⟩ := proper_run strict can fs0 h hp hc
  refine ⟨o, by rw [h1, h4], h2, fun p c hs => ?_⟩
  rw [← h4]
  exact (runW_inv strict can fs0 h _ h1).content h2 p c hs

/-- C115, refutation. Opening a second file without closing the first: no error, `is_open()` is true; what is written then is in neither file, the second file is not even created, and
the checksum is that of the lost data.  After the next `close` and `open` nothing shows the loss. -/
theorem C115_reopen_refuted (can : Name → Bool) (fs0 : FS) (p q r : Name) (hp : can p = true) (hr : can r = true) (hpq : p ≠ q) (hqr : q ≠ r) (bs : List Byte) :
    ∃ o fs, runW false can (fresh, fs0) [.opn p, .opn q, .write bs] = ok (o, fs) ∧ o.st.file.isSome = true ∧ fs p = some [] ∧ fs q = fs0 q ∧ o.crc = crcOf 0 bs ∧ o.st.fail = true ∧
      ∃ o' fs', runW false can (fresh, fs0) [.opn p, .opn q, .write bs, .close, .opn r] = ok (o', fs') ∧ fs' q = fs0 q ∧ o'.st.fail = false := by
  have e : (q = p) = False := by simp [Ne.symm hpq]
  have e' : (q = r) = False := by simp [hqr]
  refine ⟨⟨⟨some (p, 0), true⟩, crcOf 0 bs⟩, upd fs0 p [], ?_, rfl, ?_, ?_, rfl, rfl, ⟨⟨some (r, 0), false⟩, 0⟩, upd (upd fs0 p []) r [], ?_, ?_, rfl⟩
  · simp [runW, stepW, openW, openOut, fresh, hp, writeOut]
  · simp [upd]
  · simp [upd, e]
  · simp [runW, stepW, openW, openOut, fresh, hp, hr, writeOut, closeStd]
  · simp [upd, e, e']

/-- C115. An `XMLFileWriter` that is open cannot be opened again: the program ends with an error, after any history. -/
theorem C115_xml_reopen (can : Name → Bool) (fs0 : FS) (h : List Op) (o : Obj) (fs : FS) (hr : runW true can (fresh, fs0) h = ok (o, fs)) (ho : o.st.file.isSome = true) (p : Name) :
    runW true can (fresh, fs0) (h ++ [.opn p]) = abort := by
  rw [runW_snoc, hr]
  simp [stepW, openW, openOut, ho]

/-! ## readers -/

/-- `std::ifstream::open(p, in)` -/
def openIn (fs : FS) (p : Name) (s : Stream) : Stream :=
  if s.file.isSome then { s with fail := true } else if (fs p).isSome then ⟨some (p, 0), false⟩ else { s with fail := true }

/-- `std::istream::read` into a buffer that holds `old`: what is there is copied, the rest of the buffer stays as it was -/
def readIn (fs : FS) (old : List Byte) (s : Stream) : List Byte × Stream :=
  if s.fail then (old, s)
  else match s.file with
    | none => (old, { s with fail := true })
    | some (p, pos) =>
      let got := (((fs p).getD []).drop pos).take old.length
      (got ++ old.drop got.length, ⟨some (p, pos + got.length), decide (got.length < old.length)⟩)

inductive Rp
  | opn (p : Name)
  | read (old : List Byte)
  | close

/-- `BinaryFileReader::open`, lib/qdp_io.cc:970-978; `readArrayPrimaryNode` on a host whose byte order is that of the file, lib/qdp_io.cc:715-731; `close`; what was read is
appended to the list -/
def stepR (fs : FS) (x : Obj × List (List Byte)) : Rp → Outcome (Obj × List (List Byte))
  | .opn p => if (openIn fs p x.1.st).file.isSome then ok (⟨openIn fs p x.1.st, 0⟩, []) else abort
  | .read old => ok (⟨(readIn fs old x.1.st).2, crcOf x.1.crc (readIn fs old x.1.st).1⟩, x.2 ++ [(readIn fs old x.1.st).1])
  | .close => ok (if x.1.st.file.isSome then { x.1 with st := closeStd x.1.st } else x.1, x.2)

def runR (fs : FS) (x : Obj × List (List Byte)) : List Rp → Outcome (Obj × List (List Byte))
  | [] => ok x
  | o :: os => do
      let x ← stepR fs x o
      runR fs x os

/-- the file opened last and the number of bytes asked for since (last first) -/
def askedRev : List Rp → Option (Name × Nat)
  | [] => none
  | .opn p :: _ => some (p, 0)
  | .read old :: h => (askedRev h).map fun x => (x.1, x.2 + old.length)
  | .close :: h => askedRev h

def asked (h : List Rp) : Option (Name × Nat) := askedRev h.reverse

theorem runR_snoc (fs : FS) (x : Obj × List (List Byte)) (h : List Rp) (o : Rp) : runR fs x (h ++ [o]) = (runR fs x h >>= fun y => stepR fs y o) := by
  induction h generalizing x with
  | nil =>
    simp only [List.nil_append, runR, ok_bind]
    cases stepR fs x o <;> rfl
  | cons a h ih =>
    simp only [List.cons_append, runR]
    cases stepR fs x a with
    | ok y => simp only [ok_bind]; exact ih y
    | abort => rfl
    | ub => rfl

structure InvR (fs : FS) (h : List Rp) (x : Obj × List (List Byte)) : Prop where
  content : x.1.st.fail = false → ∀ p n, asked h = some (p, n) → ∃ c, fs p = some c ∧ n ≤ c.length ∧ x.2.flatten = c.take n
  pos : x.1.st.fail = false → ∀ p n, x.1.st.file = some (p, n) → asked h = some (p, n)
  crc : asked h ≠ none → x.1.crc = crcOf 0 x.2.flatten

theorem asked_snoc_open (h : List Rp) (p : Name) : asked (h ++ [.opn p]) = some (p, 0) := by simp [asked, askedRev]
theorem asked_snoc_read (h : List Rp) (old : List Byte) : asked (h ++ [.read old]) = (asked h).map fun x => (x.1, x.2 + old.length) := by simp [asked, askedRev]
theorem asked_snoc_close (h : List Rp) : asked (h ++ [.close]) = asked h := by simp [asked, askedRev]

theorem stepR_inv {fs : FS} {h : List Rp} {x y : Obj × List (List Byte)} {o : Rp} (m : InvR fs h x) (hs : stepR fs x o = ok y) : InvR fs (h ++ [o]) y := by
  obtain ⟨⟨⟨file, fail⟩, crc⟩, got⟩ := x
  cases o with
  | opn p =>
    simp only [stepR] at hs
    split at hs
    · rename_i hc
      cases hs
      unfold openIn at *
      by_cases hf : file.isSome = true
      · simp only [hf, if_true] at *
        exact ⟨fun hc => by simp at hc, fun hc => by simp at hc, fun _ => (crcOf_nil 0).symm⟩
      · have hf' : file.isSome = false := by simpa using hf
        simp only [hf', Bool.false_eq_true, if_false] at hc ⊢
        by_cases hp : (fs p).isSome
        · obtain ⟨c, hc'⟩ := Option.isSome_iff_exists.1 hp
          simp only [hp, if_true] at hc ⊢
          refine ⟨fun _ p' n ha => ?_, fun _ p' n ha => ?_, fun _ => (crcOf_nil 0).symm⟩
          · rw [asked_snoc_open] at ha; cases ha; exact ⟨c, hc', Nat.zero_le _, by simp⟩
          · rw [asked_snoc_open]; exact ha
        · simp only [hp, Bool.false_eq_true, if_false] at hc
          simp [hf'] at hc
    · cases hs
  | read old =>
    simp only [stepR, ok.injEq] at hs
    subst hs
    have hcrc : ∀ b, asked (h ++ [.read old]) ≠ none → crcOf crc b = crcOf 0 (got ++ [b]).flatten := by
      intro b hb
      have hn : asked h ≠ none := by intro hn; rw [asked_snoc_read, hn] at hb; exact hb rfl
      have e := m.crc hn
      simp only at e
      rw [e, crcOf_append]
      simp
    unfold readIn
    by_cases hf : fail = true
    · subst hf
      simp only [if_true]
      exact ⟨fun hc => by simp at hc, fun hc => by simp at hc, hcrc old⟩
    · have hf : fail = false := by simpa using hf
      subst hf
      simp only [Bool.false_eq_true, if_false]
      cases file with
      | none => exact ⟨fun hc => by simp at hc, fun hc => by simp at hc, hcrc old⟩
      | some pn =>
        obtain ⟨p, n⟩ := pn
        simp only
        have e1 := m.pos rfl p n rfl
        obtain ⟨c, e2, e3, e4⟩ := m.content rfl p n e1
        simp only at e4
        rw [e2]
        simp only [Option.getD_some]
        refine ⟨fun hc p' n' ha => ?_, fun hc p' n' ha => ?_, hcrc _⟩
        · have hle : old.length ≤ (c.drop n).length := by
            simp only [decide_eq_false_iff_not, List.length_take, List.length_drop] at hc
            simp only [List.length_drop]; omega
          rw [asked_snoc_read, e1] at ha
          simp only [Option.map_some, Option.some.injEq, Prod.mk.injEq] at ha
          obtain ⟨rfl, rfl⟩ := ha
          simp only [List.length_drop] at hle
          refine ⟨c, e2, by omega, ?_⟩
          have hl : ((c.drop n).take old.length).length = old.length := by simp; omega
          simp only [hl, List.drop_length, List.append_nil]
          simp only [List.flatten_append, List.flatten_cons, List.flatten_nil, List.append_nil, e4]
          rw [List.take_add]
        · have hle : old.length ≤ (c.drop n).length := by
            simp only [decide_eq_false_iff_not, List.length_take, List.length_drop] at hc
            simp only [List.length_drop]; omega
          simp only [Option.some.injEq, Prod.mk.injEq] at ha
          obtain ⟨rfl, rfl⟩ := ha
          rw [asked_snoc_read, e1]
          simp only [List.length_drop] at hle
          simp only [Option.map_some, List.length_take, List.length_drop]
          rw [Nat.min_eq_left hle]
  | close =>
    simp only [stepR, ok.injEq] at hs
    subst hs
    have e : (if file.isSome then ({ st := closeStd ⟨file, fail⟩, crc := crc } : Obj) else ⟨⟨file, fail⟩, crc⟩) = ⟨⟨none, fail⟩, crc⟩ := by
      cases file <;> simp [closeStd]
    simp only [e]
    exact ⟨fun hc p n ha => by rw [asked_snoc_close] at ha; exact m.content hc p n ha, fun hc p n ha => by simp at ha, fun ha => by rw [asked_snoc_close] at ha; exact m.crc ha⟩

theorem runR_inv (fs : FS) (h : List Rp) (y : Obj × List (List Byte)) (hr : runR fs (fresh, []) h = ok y) : InvR fs h y := by
  induction h using List.reverseRecOn generalizing y with
  | nil =>
    simp only [runR, ok.injEq] at hr
    subst hr
    exact ⟨fun _ p n ha => by simp [asked, askedRev] at ha, fun _ p n ha => by simp [fresh] at ha, fun ha => by simp [asked, askedRev] at ha⟩
  | append_singleton h o ih =>
    rw [runR_snoc, bind_eq_ok] at hr
    obtain ⟨x, h1, h2⟩ := hr
    exact stepR_inv (ih x h1) h2

/-- C115. Whatever the program did with a reader: if `fail()` is false, what was read since the last `open`, in pieces of any sizes, is the beginning of the file opened last, and the
checksum is that of the bytes read. -/
theorem C115_read (fs : FS) (h : List Rp) (o : Obj) (got : List (List Byte)) (hr : runR fs (fresh, []) h = ok (o, got)) (hf : o.st.fail = false) (p : Name) (n : Nat)
    (ha : asked h = some (p, n)) : ∃ c, fs p = some c ∧ n ≤ c.length ∧ got.flatten = c.take n ∧ o.crc = crcOf 0 (c.take n) := by
  have m := runR_inv fs h _ hr
  obtain ⟨c, h1, h2, h3⟩ := m.content hf p n ha
  simp only at h3
  exact ⟨c, h1, h2, h3, by rw [← h3]; exact m.crc (by rw [ha]; simp)⟩

/-- C115, refutation. Opening a second file while the first is open, even one that does not exist: no error, and what is "read" then is what the variables held before, with a checksum
of it. -/
theorem C115_read_refuted (fs : FS) (p q : Name) (c old : List Byte) (hp : fs p = some c) :
    ∃ o, runR fs (fresh, []) [.opn p, .opn q, .read old] = ok (o, [old]) ∧ o.st.file.isSome = true ∧ o.crc = crcOf 0 old := by
  refine ⟨⟨⟨some (p, 0), true⟩, crcOf 0 old⟩, ?_, rfl, rfl⟩
  simp [runR, stepR, openIn, fresh, hp, readIn]

/-! ## QIO files -/

/-- `QDPFileReader`, `QDPFileWriter`: the handle, `is_open`, and the handles of the library that are not closed -/
structure Qio where
  handle : Nat
  iop : Bool
  live : List Nat
  next : Nat

/-- `open`, lib/qdp_qdpio.cc:113-178, 353-485, when the library succeeds: the member `qio_in` or `qio_out` is overwritten -/
def Qio.opn (s : Qio) : Qio := ⟨s.next, true, s.next :: s.live, s.next + 1⟩

/-- `close`, lib/qdp_qdpio.cc:181-190, 487-496, also called by the destructor -/
def Qio.close (s : Qio) : Qio := if s.iop then { s with iop := false, live := s.live.erase s.handle } else { s with iop := false }

/-- opening (`true`) and closing -/
def Qio.run (s : Qio) : List Bool → Qio
  | [] => s
  | b :: h => (if b then s.opn else s.close).run h

def Qio.fresh : Qio := ⟨0, false, [], 0⟩

/-- every `open` comes when no file is open -/
def Alternates : Bool → List Bool → Prop
  | _, [] => True
  | isopen, true :: h => isopen = false ∧ Alternates true h
  | _, false :: h => Alternates false h

theorem qio_alternates : ∀ (h : List Bool) (s : Qio), Alternates s.iop h → s.live = (if s.iop then [s.handle] else []) →
    (s.run h).live = (if (s.run h).iop then [(s.run h).handle] else []) := by
  intro h
  induction h with
  | nil => intro s _ hl; exact hl
  | cons b h ih =>
    intro s ha hl
    cases b with
    | true =>
      obtain ⟨h1, h2⟩ := ha
      rw [h1] at hl
      simp only [Bool.false_eq_true, if_false] at hl
      exact ih s.opn h2 (by simp [Qio.opn, hl])
    | false =>
      have e : s.close.iop = false := by unfold Qio.close; split <;> rfl
      refine ih s.close (by rw [e]; exact ha) ?_
      unfold Qio.close
      split
      · rename_i hi; simp [hl, hi]
      · rename_i hi; simp [hl, hi]

/-- C115, partial. If files are only opened when none is open, no handle of the library is left when the object is destroyed.  Missing: `C115_qio_refuted`. -/
theorem C115_qio_partial (h : List Bool) (ha : Alternates false h) : (Qio.fresh.run h).close.live = [] := by
  have := qio_alternates h Qio.fresh ha rfl
  unfold Qio.close
  split
  · rename_i hi; simp [this, hi]
  · rename_i hi; simp [this, hi]

theorem Qio.run_append (a b : List Bool) (s : Qio) : s.run (a ++ b) = (s.run a).run b := by
  induction a generalizing s with
  | nil => rfl
  | cons x a ih => exact ih _

/-- C115, refutation. Opening `n + 1` files without closing them leaves `n` open when the object is destroyed. -/
theorem C115_qio_refuted (n : Nat) : (Qio.fresh.run (List.replicate (n + 1) true)).close.live.length = n := by
  have key : ∀ n, (Qio.fresh.run (List.replicate (n + 1) true)).iop = true ∧ (Qio.fresh.run (List.replicate (n + 1) true)).live.length = n + 1 ∧
      (Qio.fresh.run (List.replicate (n + 1) true)).handle ∈ (Qio.fresh.run (List.replicate (n + 1) true)).live := by
    intro n
    induction n with
    | zero => exact ⟨rfl, rfl, by decide⟩
    | succ n ih =>
      rw [List.replicate_succ', Qio.run_append]
      simp only [Qio.run, if_true, Qio.opn]
      exact ⟨trivial, by simp [ih.2.1], by simp⟩
  obtain ⟨h1, h2, h3⟩ := key n
  unfold Qio.close
  rw [if_pos h1]
  simp only
  rw [List.length_erase_of_mem h3, h2]
  rfl

/-! ## witnesses -/
example : Proper [.opn 1, .write [5, 6], .flush, .write [7], .close, .close, .opn 2, .write [8]] := by simp [Proper, ProperRev, isOpenRev]
example : meant (fun _ => none) [.opn 1, .write [5, 6], .flush, .write [7], .close, .opn 2, .write [8]] 1 = some [5, 6, 7] := by decide
example : since [.opn 1, .write [5, 6], .close, .opn 2, .write [8], .close] = some (2, [8]) := by decide
example : ∃ o, runR (fun p => if p = 3 then some [1, 2, 3] else none) (fresh, []) [.opn 3, .read [9], .read [9, 9]] = ok (o, [[1], [2, 3]]) ∧ o.st.fail = false :=
  ⟨⟨⟨some (3, 3), false⟩, _⟩, rfl, rfl⟩
example : Alternates false [true, false, false, true] := by simp [Alternates]
end Verif.Files
