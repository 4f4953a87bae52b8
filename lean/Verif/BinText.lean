import Verif.BinCont
/-
lib/qdp_io.cc: newline-terminated strings, checksums of sequences of calls, seeking.
-/
namespace Verif.BinIO
open Verif Outcome ByteOrder

/-! ## C25: strings -/

/-- `istream::getline` into a buffer with room for `k` more characters and the terminator: the characters stored, the number of
characters taken from the stream, and failbit (set when the room is used up before the newline) -/
def getline : Nat → List Byte → List Byte × Nat × Bool
  | _, [] => ([], 0, false)
  | k, b :: t =>
      if b = 10 then ([], 1, false)
      else match k with
        | 0 => ([], 0, true)
        | k + 1 => (b :: (getline k t).1, (getline k t).2.1 + 1, (getline k t).2.2)

/-- `BinaryReader::read(std::string&, size_t)`, lib/qdp_io.cc:630-653: the string, failbit, the stream.  The string is what precedes the
first NUL; the checksum gets these characters and a newline. `getline` into no room at all leaves the buffer uninitialised. -/
def readLine (maxBytes : Nat) (d : Dev) : Outcome (List Byte × Bool × Dev) :=
  if maxBytes = 0 then ub else do
    let r := getline (maxBytes - 1) (d.data.drop d.pos)
    let s := r.1.takeWhile (· ≠ 0)
    let c ← Crc.crc32 d.crc (some s)
    let c ← Crc.crc32 c (some [10])
    ok (s, r.2.2 || (d.data.drop d.pos).isEmpty, { data := d.data, pos := d.pos + r.2.1, crc := c })

/-- `BinaryWriter::write(const std::string&)`, lib/qdp_io.cc:1096-1102 -/
def writeLine (be : Bool) (s : List Byte) (d : Dev) : Outcome Dev := do
  let (_, d) ← writeArray be s 1 s.length d
  (prim 1).write be [10] d

theorem writeLine_eq (be : Bool) (s : List Byte) (d : Dev) : writeLine be s d = ok (d.put (s ++ [10])) := by
  unfold writeLine
  rw [bytes_wr]
  simp only [ok_bind]
  rw [(prim_good 1 (by decide)).wr be [10] _ rfl, put_put]; rfl

theorem getline_stored (k : Nat) (l : List Byte) : (getline k l).1.length ≤ k ∧ ∀ b ∈ (getline k l).1, b ≠ 10 := by
  induction l generalizing k with
  | nil => simp [getline]
  | cons b t ih =>
    unfold getline
    by_cases hb : b = 10
    · simp [hb]
    · rw [if_neg hb]
      cases k with
      | zero => simp
      | succ k =>
        obtain ⟨h1, h2⟩ := ih k
        refine ⟨by simpa using h1, ?_⟩
        intro c hc
        rcases List.mem_cons.1 hc with rfl | hc
        · exact hb
        · exact h2 c hc

theorem getline_line (k : Nat) (s t : List Byte) (hs : ∀ b ∈ s, b ≠ 10) (hk : s.length ≤ k) :
    getline k (s ++ 10 :: t) = (s, s.length + 1, false) := by
  induction s generalizing k with
  | nil => cases k <;> rfl
  | cons b s ih =>
    cases k with
    | zero => simp at hk
    | succ k =>
      have hb := hs b (by simp)
      rw [List.cons_append, getline, if_neg hb]
      simp only [ih k (fun c hc => hs c (by simp [hc])) (by simpa using hk), List.length_cons]

theorem takeWhile_all (s : List Byte) (h : ∀ b ∈ s, b ≠ 0) : s.takeWhile (· ≠ 0) = s := by
  induction s with
  | nil => rfl
  | cons b s ih =>
    rw [List.takeWhile_cons, if_pos (by simpa using h b (by simp)), ih (fun c hc => h c (by simp [hc]))]

theorem mem_takeWhile {s : List Byte} {b : Byte} (h : b ∈ s.takeWhile (· ≠ 0)) : b ≠ 0 := by
  induction s with
  | nil => simp at h
  | cons c s ih =>
    rw [List.takeWhile_cons] at h
    by_cases hc : c = 0
    · simp [hc] at h
    · rw [if_pos (by simpa using hc)] at h
      rcases List.mem_cons.1 h with rfl | h
      · exact hc
      · exact ih h

theorem readLine_eq (maxBytes : Nat) (d : Dev) (s : List Byte) (h10 : ∀ b ∈ s, b ≠ 10) (h0 : ∀ b ∈ s, b ≠ 0) (hn : s.length < maxBytes)
    (hd : d.Sees (s ++ [10])) : readLine maxBytes d = ok (s, false, d.skip (s ++ [10])) := by
  obtain ⟨t, ht⟩ := hd
  have e : s ++ [10] ++ t = s ++ 10 :: t := by simp
  rw [e] at ht
  unfold readLine
  rw [if_neg (by omega), ← ht]
  simp only [getline_line (maxBytes - 1) s t h10 (by omega), takeWhile_all s h0, crc32_some, ok_bind, crcOf_append, Dev.skip,
    List.length_append, List.length_singleton]
  congr 3
  cases s <;> rfl

/-- C25. A string written with a line terminator and read back with limit `maxBytes`, in a stream with arbitrary data after it, comes
back iff it contains no newline and no NUL and is shorter than the limit; then the read succeeds, stops exactly after the terminator, and
the two checksums agree. -/
theorem C25_line (be : Bool) (s : List Byte) (maxBytes : Nat) (d : Dev) (data' : List Byte) :
    ∃ d', writeLine be s d = ok d' ∧
      (d'.data <+: data' →
        ((∃ f e, readLine maxBytes { data := data', pos := d.pos, crc := d.crc } = ok (s, f, e)) ↔
          (∀ b ∈ s, b ≠ 10 ∧ b ≠ 0) ∧ s.length < maxBytes) ∧
        ((∀ b ∈ s, b ≠ 10 ∧ b ≠ 0) → s.length < maxBytes →
          readLine maxBytes { data := data', pos := d.pos, crc := d.crc } = ok (s, false, { data := data', pos := d'.pos, crc := d'.crc }))) := by
  refine ⟨d.put (s ++ [10]), writeLine_eq be s d, fun hp => ?_⟩
  have hsees := put_sees d (s ++ [10]) data' hp d.crc
  have good : (∀ b ∈ s, b ≠ 10 ∧ b ≠ 0) → s.length < maxBytes →
      readLine maxBytes { data := data', pos := d.pos, crc := d.crc } =
        ok (s, false, { data := data', pos := (d.put (s ++ [10])).pos, crc := (d.put (s ++ [10])).crc }) := fun h hn =>
    readLine_eq maxBytes _ s (fun b hb => (h b hb).1) (fun b hb => (h b hb).2) hn hsees
  refine ⟨⟨?_, fun ⟨h, hn⟩ => ⟨_, _, good h hn⟩⟩, good⟩
  rintro ⟨f, e, h⟩
  unfold readLine at h
  by_cases h0 : maxBytes = 0
  · rw [if_pos h0] at h; cases h
  · rw [if_neg h0] at h
    simp only [crc32_some, ok_bind, ok.injEq, Prod.mk.injEq] at h
    obtain ⟨hs, -, -⟩ := h
    obtain ⟨h1, h2⟩ := getline_stored (maxBytes - 1) (data'.drop d.pos)
    generalize (getline (maxBytes - 1) (data'.drop d.pos)).1 = g at hs h1 h2
    have hsub : s <+: g := hs ▸ List.takeWhile_prefix _
    constructor
    · intro b hb
      refine ⟨h2 b (hsub.subset hb), ?_⟩
      rw [← hs] at hb
      exact mem_takeWhile hb
    · have := hsub.length_le
      omega

/-- both outcomes occur: `"hi"` fits into 3 bytes but not into 2 -/
example : (readLine 3 ⟨[104, 105, 10, 7], 0, 0⟩ matches ok ([104, 105], false, ⟨_, 3, _⟩)) ∧
    (readLine 2 ⟨[104, 105, 10, 7], 0, 0⟩ matches ok ([104], true, ⟨_, 1, _⟩)) := by decide +kernel

/-! ## C26: checksums of sequences of calls -/

/-- one call of a writer -/
inductive WOp where
  | array (be : Bool) (size : Nat) (buf : List Byte) (nmemb : Nat)
  | line (be : Bool) (s : List Byte)

/-- one call of a reader -/
inductive ROp where
  | array (be : Bool) (size nmemb : Nat)
  | line (maxBytes : Nat)

def WOp.run : WOp → Dev → Outcome Dev
  | .array be size buf nmemb, d => do
      let (_, d) ← writeArray be buf size nmemb d
      ok d
  | .line be s, d => writeLine be s d

def ROp.run : ROp → Dev → Outcome Dev
  | .array be size nmemb, d => do
      let (_, d) ← readArray be size nmemb d
      ok d
  | .line maxBytes, d => do
      let r ← readLine maxBytes d
      ok r.2.2

def runW : List WOp → Dev → Outcome Dev
  | [], d => ok d
  | o :: os, d => do
      let d ← o.run d
      runW os d

def runR : List ROp → Dev → Outcome Dev
  | [], d => ok d
  | o :: os, d => do
      let d ← o.run d
      runR os d

/-- `resetChecksum`, lib/qdp_io.cc:547-550 and its writer counterpart -/
def Dev.reset (d : Dev) : Dev := { d with crc := 0 }

/-- what a line read returns is what stands in the file up to a newline -/
def ROp.Clean : ROp → Dev → Prop
  | .array .., _ => True
  | .line maxBytes, d => ∃ s f e, readLine maxBytes d = ok (s, f, e) ∧ d.Sees (s ++ [10])

/-- all line reads of the sequence are clean -/
def CleanRun : List ROp → Dev → Prop
  | [], _ => True
  | o :: os, d => o.Clean d ∧ ∀ d', o.run d = ok d' → CleanRun os d'

theorem WOp.run_put (o : WOp) (d d' : Dev) (h : o.run d = ok d') : ∃ bs, d' = d.put bs := by
  cases o with
  | array be size buf nmemb =>
    simp only [WOp.run, writeArray] at h
    split at h
    · simp at h
    · cases be
      · simp only [Bool.false_eq_true, if_false] at h
        obtain ⟨⟨b, e⟩, h1, h2⟩ := bind_eq_ok.1 h
        obtain ⟨b1, hb1, h1⟩ := bind_eq_ok.1 h1
        rw [crc32_some, ok_bind, rawWrite_crc] at h1
        obtain ⟨b2, hb2, h1⟩ := bind_eq_ok.1 h1
        simp only [ok.injEq, Prod.mk.injEq] at h1 h2
        exact ⟨_, by rw [← h2, ← h1.2]⟩
      · simp only [if_true, crc32_some, ok_bind, rawWrite_crc, ok.injEq] at h
        exact ⟨_, h.symm⟩
  | line be s =>
    rw [WOp.run, writeLine_eq, ok.injEq] at h
    exact ⟨_, h.symm⟩

theorem runW_put (os : List WOp) (d d' : Dev) (h : runW os d = ok d') : ∃ bs, d' = d.put bs := by
  induction os generalizing d with
  | nil =>
    rw [runW, ok.injEq] at h
    exact ⟨[], by rw [put_nil, h]⟩
  | cons o os ih =>
    obtain ⟨e, h1, h2⟩ := bind_eq_ok.1 h
    obtain ⟨bs, rfl⟩ := o.run_put d e h1
    obtain ⟨bs', rfl⟩ := ih _ h2
    exact ⟨bs ++ bs', put_put _ _ _⟩

theorem ROp.run_skip (o : ROp) (d d' : Dev) (h : o.run d = ok d') (hc : o.Clean d) : ∃ bs, d.Sees bs ∧ d' = d.skip bs := by
  cases o with
  | array be size nmemb =>
    simp only [ROp.run, readArray, rawRead] at h
    split at h
    · rename_i hp
      have hl : ((d.data.drop d.pos).take (size * nmemb)).length = size * nmemb := by
        rw [List.length_take, List.length_drop]; omega
      refine ⟨(d.data.drop d.pos).take (size * nmemb), List.take_prefix _ _, ?_⟩
      simp only [ok_bind, crc32_some] at h
      have e : (⟨d.data, d.pos + size * nmemb, crcOf d.crc ((d.data.drop d.pos).take (size * nmemb))⟩ : Dev) =
          d.skip ((d.data.drop d.pos).take (size * nmemb)) := by rw [Dev.skip, hl]
      cases be
      · simp only [Bool.false_eq_true, if_false] at h
        obtain ⟨⟨b, f⟩, h1, h2⟩ := bind_eq_ok.1 h
        obtain ⟨b1, hb1, h1⟩ := bind_eq_ok.1 h1
        simp only [ok.injEq, Prod.mk.injEq] at h1 h2
        rw [← h2, ← h1.2, e]
      · simp only [if_true, ok_bind, ok.injEq] at h
        rw [← h, e]
    · simp at h
  | line maxBytes =>
    obtain ⟨s, f, e, h1, h2⟩ := hc
    refine ⟨s ++ [10], h2, ?_⟩
    rw [ROp.run, h1, ok_bind, ok.injEq] at h
    have hs : (∀ b ∈ s, b ≠ 10) ∧ (∀ b ∈ s, b ≠ 0) ∧ s.length < maxBytes := by
      have h1' := h1
      unfold readLine at h1'
      by_cases h0 : maxBytes = 0
      · rw [if_pos h0] at h1'; cases h1'
      · rw [if_neg h0] at h1'
        simp only [crc32_some, ok_bind, ok.injEq, Prod.mk.injEq] at h1'
        obtain ⟨hs, -, -⟩ := h1'
        obtain ⟨g1, g2⟩ := getline_stored (maxBytes - 1) (d.data.drop d.pos)
        generalize (getline (maxBytes - 1) (d.data.drop d.pos)).1 = g at hs g1 g2
        have hsub : s <+: g := hs ▸ List.takeWhile_prefix _
        refine ⟨fun b hb => g2 b (hsub.subset hb), fun b hb => ?_, ?_⟩
        · rw [← hs] at hb
          exact mem_takeWhile hb
        · have := hsub.length_le
          omega
    have := readLine_eq maxBytes d s hs.1 hs.2.1 hs.2.2 h2
    rw [this] at h1
    simp only [ok.injEq, Prod.mk.injEq, true_and] at h1
    rw [← h, ← h1.2]

theorem runR_skip (os : List ROp) (d d' : Dev) (h : runR os d = ok d') (hc : CleanRun os d) : ∃ bs, d.Sees bs ∧ d' = d.skip bs := by
  induction os generalizing d with
  | nil =>
    rw [runR, ok.injEq] at h
    exact ⟨[], List.nil_prefix, by rw [skip_nil, h]⟩
  | cons o os ih =>
    obtain ⟨e, h1, h2⟩ := bind_eq_ok.1 h
    obtain ⟨bs, hs, rfl⟩ := o.run_skip d e h1 hc.1
    obtain ⟨bs', hs', rfl⟩ := ih _ h2 (hc.2 _ h1)
    refine ⟨bs ++ bs', ?_, skip_skip _ _ _⟩
    obtain ⟨t, ht⟩ := hs
    obtain ⟨t', ht'⟩ := hs'
    refine ⟨t', ?_⟩
    simp only [Dev.skip] at ht'
    rw [← List.drop_drop, ← ht, List.drop_left] at ht'
    rw [List.append_assoc, ht', ht]

/-- C26. Bytes written by any sequence of calls after a reset, and read by any other sequence of calls after a reset that starts and ends
at the same places, give the same checksum, whatever the byte orders of the hosts, the element sizes and the lengths of the calls.
Missing for the full claim: line reads that return something else than the line in the file (`C26_truncated`), the little-endian readers
(`C26_little_endian`) and writes of nothing from a null pointer (`C26_null`) do break it. -/
theorem C26_checksum_partial (ws : List WOp) (rs : List ROp) (d d' e e' : Dev) (hw : runW ws d.reset = ok d')
    (hdata : d'.data <+: e.data) (hpos : e.pos = d.pos) (hr : runR rs e.reset = ok e') (hclean : CleanRun rs e.reset)
    (hend : e'.pos = d'.pos) : e'.crc = d'.crc := by
  obtain ⟨bs, rfl⟩ := runW_put ws _ _ hw
  obtain ⟨bs', hs', rfl⟩ := runR_skip rs _ _ hr hclean
  have hs := put_sees d.reset bs e.data hdata 0
  have hlen : bs'.length = bs.length := by
    simp only [Dev.skip, Dev.put, Dev.reset] at hend
    omega
  have heq : bs' = bs := by
    obtain ⟨t, ht⟩ := hs
    obtain ⟨t', ht'⟩ := hs'
    simp only [Dev.reset] at ht ht'
    rw [hpos, ← ht] at ht'
    exact (List.append_inj ht' hlen).1
  rw [heq]; rfl

/-- the hypotheses are met: 8 bytes written as two words by a little-endian host and a line, read as four half-words and a line -/
example : ∃ d' e', runW [.array false 4 [4, 3, 2, 1, 8, 7, 6, 5] 2, .line true [104, 105]] ⟨[], 0, 77⟩ = ok d' ∧
    runR [.array true 2 4, .line 9] ⟨d'.data, 0, 0⟩ = ok e' ∧ e'.pos = d'.pos ∧ e'.pos = 11 := by
  have : (runW [.array false 4 [4, 3, 2, 1, 8, 7, 6, 5] 2, .line true [104, 105]] ⟨[], 0, 77⟩ >>= fun d' =>
    runR [.array true 2 4, .line 9] ⟨d'.data, 0, 0⟩ >>= fun e' => ok (e'.pos == d'.pos && e'.pos == 11)) = ok true := by decide +kernel
  obtain ⟨d', h1, h⟩ := bind_eq_ok.1 this
  obtain ⟨e', h2, h⟩ := bind_eq_ok.1 h
  rw [ok.injEq, Bool.and_eq_true, beq_iff_eq, beq_iff_eq] at h
  exact ⟨d', e', h1, h2, h.1, h.2⟩

/-- A line longer than the buffer: the reader takes 1 byte of the record but adds 2 to its checksum; and reading the same three bytes
in a way that ends at the same place gives another checksum. -/
theorem C26_truncated : ∃ e e', readLine 2 ⟨[104, 105, 10], 0, 0⟩ = ok ([104], true, e) ∧
    runR [.array true 1 1] ⟨[104, 105, 10], 0, 0⟩ = ok e' ∧ e.pos = e'.pos ∧ e.crc ≠ e'.crc := by
  have : (readLine 2 ⟨[104, 105, 10], 0, 0⟩ >>= fun r => runR [.array true 1 1] ⟨[104, 105, 10], 0, 0⟩ >>= fun e' =>
    ok (r.1 == [104] && r.2.1 && r.2.2.pos == e'.pos && r.2.2.crc != e'.crc)) = ok true := by decide +kernel
  obtain ⟨⟨s, f, e⟩, h1, h⟩ := bind_eq_ok.1 this
  obtain ⟨e', h2, h⟩ := bind_eq_ok.1 h
  simp only [ok.injEq, Bool.and_eq_true, beq_iff_eq, bne_iff_ne] at h
  obtain ⟨⟨⟨rfl, rfl⟩, hp⟩, hc⟩ := h
  exact ⟨e, e', h1, h2, hp, hc⟩

/-- C26 fails for the little-endian readers: they never touch the checksum. -/
theorem C26_little_endian (be : Bool) (size nmemb : Nat) (d : Dev) (b : List Byte) (d' : Dev)
    (h : readArrayLE be size nmemb d = ok (b, d')) : d'.crc = d.crc ∧ d'.pos = d.pos + size * nmemb := by
  simp only [readArrayLE, rawRead] at h
  split at h
  · simp only [ok_bind] at h
    cases be
    · simp only [Bool.false_eq_true, if_false, ok.injEq, Prod.mk.injEq] at h
      rw [← h.2]; exact ⟨rfl, rfl⟩
    · simp only [if_true] at h
      obtain ⟨b1, hb1, h⟩ := bind_eq_ok.1 h
      simp only [ok.injEq, Prod.mk.injEq] at h
      rw [← h.2]; exact ⟨rfl, rfl⟩
  · simp at h

/-- `writeArrayPrimaryNode(NULL, size, 0)`, lib/qdp_io.cc:1159-1180, as for the elements of an empty multi1d: `crc32` of a null pointer -/
def writeNull (d : Dev) : Outcome Dev := do
  let c ← Crc.crc32 d.crc none
  ok { d with crc := c }

/-- C26 fails when nothing is written from a null pointer: the checksum of everything written before is lost. -/
theorem C26_null (d : Dev) : writeNull d = ok d.reset := rfl

/-! ## C55: seeking -/

/-- a memory buffer (`std::stringstream`): separate positions for reading and writing -/
structure Buf where
  data : List Byte
  gpos : Nat
  ppos : Nat
  crc : BitVec 32

/-- one step of a program on a read/write stream -/
inductive Act where
  | read (n : Nat)
  | write (bs : List Byte)
  | seek (p : Nat)

/-- on a file (one position).  `BinaryReaderWriter::seek`, lib/qdp_io.cc:1493-1499, calls `seekg` only. -/
def actFile : Act → Dev → Outcome Dev
  | .read n, d => do
      let (b, d) ← rawRead d n
      ok { d with crc := crcOf d.crc b }
  | .write bs, d => ok (d.put bs)
  | .seek p, d => ok { d with pos := p, crc := 0 }

/-- `BinaryReaderWriter::currentPosition`, lib/qdp_io.cc:1482-1490: `tellg` -/
def Dev.tell (d : Dev) : Nat := d.pos

/-- on a buffer; `seekg` moves the reading position only -/
def actBuf : Act → Buf → Outcome Buf
  | .read n, b =>
      if n = 0 ∨ b.gpos + n ≤ b.data.length then
        ok { b with gpos := b.gpos + n, crc := crcOf b.crc ((b.data.drop b.gpos).take n) }
      else ub
  | .write bs, b => ok { data := overwrite b.data b.ppos bs, gpos := b.gpos, ppos := b.ppos + bs.length, crc := crcOf b.crc bs }
  | .seek p, b => ok { b with gpos := p, crc := 0 }

def Buf.tell (b : Buf) : Nat := b.gpos

def runFile : List Act → Dev → Outcome Dev
  | [], d => ok d
  | a :: as, d => do
      let d ← actFile a d
      runFile as d

def runBuf : List Act → Buf → Outcome Buf
  | [], d => ok d
  | a :: as, d => do
      let d ← actBuf a d
      runBuf as d

/-- C55 for files: after any history, seeking to `p` and writing puts the bytes at `p`; the position reported is where the next byte
goes, before and after; and reading from `p` gives these bytes. Missing for the full claim: memory buffers, see `C55_buffer`. -/
theorem C55_file_partial (as : List Act) (d d' : Dev) (h : runFile as d = ok d') (p : Nat) (bs : List Byte) :
    ∃ e f, runFile (as ++ [.seek p]) d = ok e ∧ e.tell = p ∧ runFile (as ++ [.seek p, .write bs]) d = ok f ∧
      f.data = overwrite d'.data p bs ∧ f.tell = p + bs.length ∧ f.crc = crcOf 0 bs ∧
      ∃ g, rawRead { f with pos := p } bs.length = ok (bs, g) := by
  have app : ∀ (as bs : List Act) (d : Dev), runFile (as ++ bs) d = runFile as d >>= runFile bs := by
    intro as bs
    induction as with
    | nil => intro d; rfl
    | cons a as ih =>
      intro d
      simp only [List.cons_append, runFile]
      cases actFile a d with
      | ok x => exact ih x
      | abort => rfl
      | ub => rfl
  refine ⟨{ d' with pos := p, crc := 0 }, Dev.put { d' with pos := p, crc := 0 } bs, ?_, rfl, ?_, rfl, rfl, rfl, ?_⟩
  · rw [app, h]; rfl
  · rw [app, h]; rfl
  · have := put_sees { d' with pos := p, crc := 0 } bs _ List.prefix_rfl (Dev.put { d' with pos := p, crc := 0 } bs).crc
    exact ⟨_, rawRead_sees this⟩

example : runFile [.write [1, 2, 3], .seek 1, .read 1] ⟨[], 0, 0⟩ = ok ⟨[1, 2, 3], 2, crcOf 0 [2]⟩ := by decide +kernel

/-- C55 is false for memory buffers: after any history, where the next write lands does not depend on `seek`, the position reported does
not move with it, and it disagrees with the place of the write unless the program happened to seek to the end of its last write. -/
theorem C55_buffer (as : List Act) (b b' : Buf) (h : runBuf as b = ok b') (p : Nat) (bs : List Byte) :
    ∃ f, runBuf (as ++ [.seek p, .write bs]) b = ok f ∧ f.data = overwrite b'.data b'.ppos bs ∧ f.tell = p := by
  have app : ∀ (as bs : List Act) (d : Buf), runBuf (as ++ bs) d = runBuf as d >>= runBuf bs := by
    intro as bs
    induction as with
    | nil => intro d; rfl
    | cons a as ih =>
      intro d
      simp only [List.cons_append, runBuf]
      cases actBuf a d with
      | ok x => exact ih x
      | abort => rfl
      | ub => rfl
  exact ⟨_, by rw [app, h]; rfl, rfl, rfl⟩

/-- write three bytes, seek to the start, write one: a file holds `9 2 3`, a buffer holds `1 2 3 9` -/
theorem C55_differ :
    (runFile [.write [1, 2, 3], .seek 0, .write [9]] ⟨[], 0, 0⟩ >>= fun d => ok d.data) = ok [9, 2, 3] ∧
    (runBuf [.write [1, 2, 3], .seek 0, .write [9]] ⟨[], 0, 0, 0⟩ >>= fun d => ok d.data) = ok [1, 2, 3, 9] := by decide +kernel

end Verif.BinIO
