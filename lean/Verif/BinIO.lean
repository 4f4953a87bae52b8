import Verif.ByteOrder
import Verif.Crc
import Verif.Multi
import Verif.Util
import Mathlib.Tactic.Ring
/-
Binary readers and writers: lib/qdp_io.cc (BinaryReader, BinaryWriter), include/qdp_io.h (containers).

The model is the view of the primary node (the other nodes receive what it read by broadcast, assumed faithful).
A stream is a byte array with one position.  A read beyond the end leaves the caller's buffer uninitialised: `ub`.
Writes never fail (no full disk).  `be` is the byte order of the host that executes the call.
-/
namespace Verif.BinIO
open Verif Outcome ByteOrder

/-- a stream and the running checksum kept beside it -/
structure Dev where
  data : List Byte
  pos : Nat
  crc : BitVec 32
deriving DecidableEq

/-- bytes `bs` written at position `p`; a gap beyond the end is filled with zeros -/
def overwrite (data : List Byte) (p : Nat) (bs : List Byte) : List Byte :=
  if bs = [] then data
  else data.take p ++ List.replicate (p - data.length) 0 ++ bs ++ data.drop (p + bs.length)

/-- `ostream::write` -/
def rawWrite (d : Dev) (bs : List Byte) : Dev := { d with data := overwrite d.data d.pos bs, pos := d.pos + bs.length }

/-- `istream::read` -/
def rawRead (d : Dev) (n : Nat) : Outcome (List Byte × Dev) :=
  if n = 0 ∨ d.pos + n ≤ d.data.length then ok ((d.data.drop d.pos).take n, { d with pos := d.pos + n }) else ub

/-- `BinaryWriter::writeArrayPrimaryNode`, lib/qdp_io.cc:1159-1180 (and `writeArray` 1182-1185); returns the caller's buffer -/
def writeArray (be : Bool) (buf : List Byte) (size nmemb : Nat) (d : Dev) : Outcome (List Byte × Dev) :=
  if buf.length < size * nmemb then ub
  else if be then do
    let c ← Crc.crc32 d.crc (some (buf.take (size * nmemb)))
    ok (buf, rawWrite { d with crc := c } (buf.take (size * nmemb)))
  else do
    let b1 ← byteSwap be size nmemb buf
    let c ← Crc.crc32 d.crc (some (b1.take (size * nmemb)))
    let d := rawWrite { d with crc := c } (b1.take (size * nmemb))
    let b2 ← byteSwap be size nmemb b1
    ok (b2, d)

/-- `BinaryReader::readArrayPrimaryNode`, lib/qdp_io.cc:715-731 (and `readArray` 706-712) -/
def readArray (be : Bool) (size nmemb : Nat) (d : Dev) : Outcome (List Byte × Dev) := do
  let (b, d) ← rawRead d (size * nmemb)
  let c ← Crc.crc32 d.crc (some b)
  let d := { d with crc := c }
  if be then ok (b, d) else do
    let b ← byteSwap be size nmemb b
    ok (b, d)

/-- `BinaryReader::readArrayLittleEndian`, lib/qdp_io.cc:734-752 (`readArrayPrimaryNodeLittleEndian` 754-770) -/
def readArrayLE (be : Bool) (size nmemb : Nat) (d : Dev) : Outcome (List Byte × Dev) := do
  let (b, d) ← rawRead d (size * nmemb)
  if be then do
    let b ← byteSwap be size nmemb b
    ok (b, d)
  else ok (b, d)

/-! ## the specification side: what a record is -/

/-- the checksum after `bs` (C19 relates it to the CRC-32 polynomial) -/
def crcOf (c : BitVec 32) (bs : List Byte) : BitVec 32 := Crc.feed (c ^^^ 0xffffffff) bs ^^^ 0xffffffff

/-- the stream after record `bs` was written -/
def Dev.put (d : Dev) (bs : List Byte) : Dev :=
  { data := overwrite d.data d.pos bs, pos := d.pos + bs.length, crc := crcOf d.crc bs }
/-- the stream after record `bs` was read -/
def Dev.skip (d : Dev) (bs : List Byte) : Dev := { data := d.data, pos := d.pos + bs.length, crc := crcOf d.crc bs }
/-- the stream is positioned at record `bs` -/
def Dev.Sees (d : Dev) (bs : List Byte) : Prop := bs <+: d.data.drop d.pos

/-- a writer and reader for type `α` -/
structure Codec (α : Type) where
  write : Bool → α → Dev → Outcome Dev
  read : Bool → Dev → Outcome (α × Dev)

/-- The codec is right for the values `V`: there is one byte string per value, `enc x`, whatever the host, which `write` puts and `read`
takes off, consuming nothing else, both updating the checksum by exactly these bytes. -/
structure Good {α : Type} (c : Codec α) (V : α → Prop) (enc : α → List Byte) : Prop where
  wr : ∀ be x d, V x → c.write be x d = ok (d.put (enc x))
  rd : ∀ be x d, V x → d.Sees (enc x) → c.read be d = ok (x, d.skip (enc x))

/-- what the programs see: on any two hosts, a value written and read back is the same, the reader stands where the writer stood,
both have the same checksum, and the read changed nothing -/
def RoundTrip {α : Type} (c : Codec α) (V : α → Prop) : Prop :=
  ∀ be be' x d, V x → ∃ d', c.write be x d = ok d' ∧ c.write be' x d = ok d' ∧
    ∀ data', d'.data <+: data' → c.read be' { data := data', pos := d.pos, crc := d.crc } = ok (x, { d' with data := data' })

theorem crcOf_append (c : BitVec 32) (a b : List Byte) : crcOf (crcOf c a) b = crcOf c (a ++ b) := by
  unfold crcOf
  rw [Crc.feed_append, BitVec.xor_assoc, BitVec.xor_self, BitVec.xor_zero]

theorem crc32_some (c : BitVec 32) (bs : List Byte) : Crc.crc32 c (some bs) = ok (crcOf c bs) := Crc.crc32_eq c bs

theorem rawWrite_crc (d : Dev) (bs : List Byte) : rawWrite { d with crc := crcOf d.crc bs } bs = d.put bs := rfl

theorem pre_length (data : List Byte) (p : Nat) : (data.take p ++ List.replicate (p - data.length) (0 : Byte)).length = p := by
  rw [List.length_append, List.length_take, List.length_replicate]; omega

theorem overwrite_append (data : List Byte) (p : Nat) (a b : List Byte) :
    overwrite (overwrite data p a) (p + a.length) b = overwrite data p (a ++ b) := by
  by_cases ha : a = []
  · subst ha; simp [overwrite]
  by_cases hb : b = []
  · subst hb; simp [overwrite]
  have hp := pre_length data p
  have hab : a ++ b ≠ [] := by simp [ha]
  simp only [overwrite, ha, hb, hab, if_false]
  generalize data.take p ++ List.replicate (p - data.length) (0 : Byte) = pre at hp ⊢
  have h1 : (pre ++ a).length = p + a.length := by rw [List.length_append, hp]
  rw [List.take_append_of_le_length (by omega), List.take_of_length_le (by omega)]
  have h2 : p + a.length - (pre ++ a ++ data.drop (p + a.length)).length = 0 := by
    rw [List.length_append]; omega
  rw [h2, List.replicate_zero, List.append_nil]
  have h3 : p + a.length + b.length = (pre ++ a).length + b.length := by rw [h1]
  rw [h3, List.drop_length_add_append, List.drop_drop, List.length_append, ← List.append_assoc pre, Nat.add_assoc]

theorem overwrite_sees (data : List Byte) (p : Nat) (a : List Byte) : a <+: (overwrite data p a).drop p := by
  by_cases ha : a = []
  · subst ha; exact List.nil_prefix
  have hp := pre_length data p
  simp only [overwrite, ha, if_false]
  rw [List.append_assoc, List.drop_append_of_le_length (by omega), List.drop_of_length_le (by omega), List.nil_append]
  exact List.prefix_append _ _

theorem put_put (d : Dev) (a b : List Byte) : (d.put a).put b = d.put (a ++ b) := by
  simp only [Dev.put, overwrite_append, crcOf_append, List.length_append, Nat.add_assoc]

theorem skip_skip (d : Dev) (a b : List Byte) : (d.skip a).skip b = d.skip (a ++ b) := by
  simp only [Dev.skip, crcOf_append, List.length_append, Nat.add_assoc]

theorem crcOf_nil (c : BitVec 32) : crcOf c [] = c := by
  rw [crcOf, Crc.feed, List.foldl_nil, BitVec.xor_assoc, BitVec.xor_self, BitVec.xor_zero]

theorem put_nil (d : Dev) : d.put [] = d := by
  cases d
  simp only [Dev.put, overwrite, if_true, crcOf_nil, List.length_nil, Nat.add_zero]

theorem skip_nil (d : Dev) : d.skip [] = d := by
  cases d
  simp only [Dev.skip, crcOf_nil, List.length_nil, Nat.add_zero]

theorem Sees.left {d : Dev} {a b : List Byte} (h : d.Sees (a ++ b)) : d.Sees a :=
  (List.prefix_append a b).trans h

theorem Sees.right {d : Dev} {a b : List Byte} (h : d.Sees (a ++ b)) : (d.skip a).Sees b := by
  obtain ⟨t, ht⟩ := h
  refine ⟨t, ?_⟩
  simp only [Dev.skip]
  rw [← List.drop_drop, ← ht, List.append_assoc, List.drop_left]

theorem rawRead_sees {d : Dev} {bs : List Byte} (h : d.Sees bs) : rawRead d bs.length = ok (bs, { d with pos := d.pos + bs.length }) := by
  obtain ⟨t, ht⟩ := h
  have hl : (d.data.drop d.pos).length = bs.length + t.length := by rw [← ht, List.length_append]
  rw [List.length_drop] at hl
  have e : (d.data.drop d.pos).take bs.length = bs := by rw [← ht, List.take_left]
  unfold rawRead
  rw [if_pos (by omega), e]

/-- a record just written is seen from where the writing began -/
theorem put_sees (d : Dev) (bs : List Byte) (data' : List Byte) (h : (d.put bs).data <+: data') (c : BitVec 32) :
    Dev.Sees { data := data', pos := d.pos, crc := c } bs := by
  obtain ⟨t, rfl⟩ := h
  have h1 := overwrite_sees d.data d.pos bs
  simp only [Dev.Sees, Dev.put]
  by_cases hb : bs = []
  · subst hb; exact List.nil_prefix
  · have : d.pos ≤ (overwrite d.data d.pos bs).length := by
      have hp := pre_length d.data d.pos
      simp only [overwrite, hb, if_false, List.length_append] at hp ⊢
      omega
    rw [List.drop_append_of_le_length this]
    exact h1.trans (List.prefix_append _ _)

theorem Good.roundTrip {α : Type} {c : Codec α} {V : α → Prop} {enc : α → List Byte} (g : Good c V enc) : RoundTrip c V := by
  intro be be' x d hx
  refine ⟨d.put (enc x), g.wr be x d hx, g.wr be' x d hx, fun data' h => ?_⟩
  rw [g.rd be' x _ hx (put_sees d (enc x) data' h d.crc)]
  rfl

/-! ## C23: arrays of primitive values -/

/-- A value of `size` bytes is written most significant byte first; its image in the memory of the host -/
def host (be : Bool) (v : List Byte) : List Byte := if be then v else v.reverse
/-- an array of values in memory -/
def mem (be : Bool) (vs : List (List Byte)) : List Byte := (vs.map (host be)).flatten

theorem host_host (be : Bool) (v : List Byte) : host be (host be v) = v := by cases be <;> simp [host]
theorem host_length (be : Bool) (v : List Byte) : (host be v).length = v.length := by cases be <;> simp [host]

theorem mem_true (vs : List (List Byte)) : mem true vs = vs.flatten := by
  have : host true = id := by funext v; rfl
  rw [mem, this, List.map_id]

theorem flatten_length {size : Nat} (vs : List (List Byte)) (h : ∀ v ∈ vs, v.length = size) : vs.flatten.length = size * vs.length := by
  induction vs with
  | nil => rfl
  | cons v vs ih =>
    rw [List.flatten_cons, List.length_append, h v (by simp), ih (fun w hw => h w (by simp [hw])), List.length_cons]
    ring

theorem mem_length {size : Nat} (be : Bool) (vs : List (List Byte)) (h : ∀ v ∈ vs, v.length = size) :
    (mem be vs).length = size * vs.length := by
  rw [mem, flatten_length (size := size), List.length_map]
  intro v hv
  obtain ⟨w, hw, rfl⟩ := List.mem_map.1 hv
  rw [host_length, h w hw]

theorem revChunks_flatten {size : Nat} (vs : List (List Byte)) (t : List Byte) (h : ∀ v ∈ vs, v.length = size) :
    revChunks size vs.length (vs.flatten ++ t) = mem false vs ++ t := by
  induction vs with
  | nil => rfl
  | cons v vs ih =>
    have hv := h v (by simp)
    rw [List.length_cons, revChunks, List.flatten_cons, List.append_assoc, ← hv, List.take_left, List.drop_left, hv,
      ih (fun w hw => h w (by simp [hw]))]
    simp [mem, host]

theorem revChunks_mem {size : Nat} (vs : List (List Byte)) (t : List Byte) (h : ∀ v ∈ vs, v.length = size) :
    revChunks size vs.length (mem false vs ++ t) = vs.flatten ++ t := by
  have h' : ∀ v ∈ vs.map (host false), v.length = size := by
    intro v hv
    obtain ⟨w, hw, rfl⟩ := List.mem_map.1 hv
    rw [host_length, h w hw]
  have := revChunks_flatten (vs.map (host false)) t h'
  rw [List.length_map] at this
  rw [mem, this, mem, List.map_map, show host false ∘ host false = id from by funext v; simp [host_host], List.map_id]

theorem swap_eq (be : Bool) {size nmemb : Nat} {buf : List Byte} (hs : Supported size) (hn : size = 1 ∨ nmemb < 2 ^ 32)
    (hlen : nmemb * size ≤ buf.length) : byteSwap be size nmemb buf = ok (revChunks size nmemb buf) := by
  rcases hn with rfl | hn
  · rw [byteSwap, if_pos rfl, revChunks_one]
  · exact byteSwap_eq be hs hn hlen

theorem writeArray_eq (be : Bool) {size : Nat} (hs : Supported size) (vs : List (List Byte)) (h : ∀ v ∈ vs, v.length = size)
    (hn : size = 1 ∨ vs.length < 2 ^ 32) (t : List Byte) (d : Dev) :
    writeArray be (mem be vs ++ t) size vs.length d = ok (mem be vs ++ t, d.put vs.flatten) := by
  have hm := mem_length be vs h
  have hf := flatten_length vs h
  have hc : vs.length * size = size * vs.length := Nat.mul_comm _ _
  unfold writeArray
  rw [if_neg (by rw [List.length_append]; omega)]
  cases be
  · rw [if_neg (by decide), swap_eq false hs hn (by rw [List.length_append]; omega), ok_bind, revChunks_mem vs t h, ← hf,
      List.take_left, crc32_some, ok_bind, rawWrite_crc,
      swap_eq false hs hn (by rw [List.length_append]; omega), ok_bind, revChunks_flatten vs t h]
  · rw [if_pos rfl, mem_true, ← hf, List.take_left, crc32_some, ok_bind, rawWrite_crc]

theorem readArray_eq (be : Bool) {size : Nat} (hs : Supported size) (vs : List (List Byte)) (h : ∀ v ∈ vs, v.length = size)
    (hn : size = 1 ∨ vs.length < 2 ^ 32) (d : Dev) (hd : d.Sees vs.flatten) :
    readArray be size vs.length d = ok (mem be vs, d.skip vs.flatten) := by
  have hf := flatten_length vs h
  have hc : vs.length * size = size * vs.length := Nat.mul_comm _ _
  unfold readArray
  rw [← hf, rawRead_sees hd]
  simp only [ok_bind, crc32_some]
  cases be
  · have := revChunks_flatten vs [] h
    rw [List.append_nil, List.append_nil] at this
    rw [if_neg (by decide), swap_eq false hs hn (by omega), ok_bind, this]
    rfl
  · rw [if_pos rfl, mem_true]; rfl

/-- C23. For every array of values of a supported size, and both kinds of host on either side:
* the bytes put into the file are the values, most significant byte first — the same whatever the host;
* the caller's memory (the array and what follows it) is unchanged;
* reading them gives the array as the reading host represents it.
The full claim has no bound on the number of elements: see `C23_count` for what happens to 2^32 elements of more than a byte, and
`C23_size` for other element sizes. -/
theorem C23_portable_partial (size : Nat) (hs : Supported size) (vs : List (List Byte)) (h : ∀ v ∈ vs, v.length = size)
    (hn : size = 1 ∨ vs.length < 2 ^ 32) (t : List Byte) (d : Dev) (be be' : Bool) :
    ∃ d', writeArray be (mem be vs ++ t) size vs.length d = ok (mem be vs ++ t, d') ∧
      d'.data = overwrite d.data d.pos vs.flatten ∧ d'.pos = d.pos + size * vs.length ∧
      ∀ data' c, d'.data <+: data' → ∃ c', readArray be' size vs.length { data := data', pos := d.pos, crc := c } =
        ok (mem be' vs, { data := data', pos := d'.pos, crc := c' }) := by
  refine ⟨d.put vs.flatten, writeArray_eq be hs vs h hn t d, rfl, ?_, fun data' c hp => ?_⟩
  · rw [← flatten_length vs h]; rfl
  · exact ⟨_, readArray_eq be' hs vs h hn _ (put_sees d _ data' hp c)⟩

/-- With 2^32 elements or more a little-endian host never finishes (`C22_never_ends`); a big-endian host writes them. -/
theorem C23_count (size : Nat) (hs : Supported size) (h1 : size ≠ 1) (nmemb : Nat) (hn : 2 ^ 32 ≤ nmemb) (buf : List Byte)
    (hb : size * nmemb ≤ buf.length) (d : Dev) :
    writeArray false buf size nmemb d = ub ∧ ∃ d', writeArray true buf size nmemb d = ok (buf, d') := by
  constructor
  · rw [writeArray, if_neg (by omega), if_neg (by decide), byteSwap, if_neg h1,
      if_pos (by rcases hs with h | h | h | h | h <;> simp_all), if_neg (by omega), ub_bind]
  · exact ⟨_, by rw [writeArray, if_neg (by omega), if_pos rfl, crc32_some, ok_bind]⟩

/-- With any other element size a little-endian host stops the program; a big-endian host writes. -/
theorem C23_size (size : Nat) (hs : ¬ Supported size) (nmemb : Nat) (buf : List Byte) (hb : size * nmemb ≤ buf.length) (d : Dev) :
    writeArray false buf size nmemb d = abort ∧ ∃ d', writeArray true buf size nmemb d = ok (buf, d') := by
  unfold Supported at hs
  constructor
  · rw [writeArray, if_neg (by omega), if_neg (by decide), byteSwap, if_neg (by omega), if_neg (by omega), abort_bind]
  · exact ⟨_, by rw [writeArray, if_neg (by omega), if_pos rfl, crc32_some, ok_bind]⟩

/-- `bfwrite`, lib/qdp_byteorder.cc:192-212, on a stream accepting everything; no checksum is kept -/
def bfwrite (be : Bool) (buf : List Byte) (size nmemb : Nat) (d : Dev) : Outcome (List Byte × Dev) :=
  if buf.length < size * nmemb then ub
  else if be then ok (buf, rawWrite d (buf.take (size * nmemb)))
  else do
    let b1 ← byteSwap be size nmemb buf
    let d := rawWrite d (b1.take (size * nmemb))
    let b2 ← byteSwap be size nmemb b1
    ok (b2, d)

/-- `bfread`, lib/qdp_byteorder.cc:174-188; `fread` delivers as many whole elements as there are; returns their number, too -/
def bfread (be : Bool) (size nmemb : Nat) (d : Dev) : Outcome (Nat × List Byte × Dev) := do
  let n ← if size = 0 then ok 0 else ok (min nmemb ((d.data.length - d.pos) / size))
  let (b, d) ← rawRead d (size * n)
  if be then ok (n, b, d) else do
    let b ← byteSwap be size n b
    ok (n, b, d)

/-- C23 for the C-style functions. -/
theorem C23_bfread_bfwrite_partial (size : Nat) (hs : Supported size) (vs : List (List Byte)) (h : ∀ v ∈ vs, v.length = size)
    (hn : size = 1 ∨ vs.length < 2 ^ 32) (t : List Byte) (d : Dev) (be be' : Bool) :
    ∃ d', bfwrite be (mem be vs ++ t) size vs.length d = ok (mem be vs ++ t, d') ∧
      d'.data = overwrite d.data d.pos vs.flatten ∧
      ∀ data', d'.data <+: data' → bfread be' size vs.length { data := data', pos := d.pos, crc := d.crc } =
        ok (vs.length, mem be' vs, { data := data', pos := d'.pos, crc := d.crc }) := by
  have hf := flatten_length vs h
  have hc : vs.length * size = size * vs.length := Nat.mul_comm _ _
  refine ⟨rawWrite d vs.flatten, ?_, rfl, fun data' hp => ?_⟩
  · have hm := mem_length be vs h
    unfold bfwrite
    rw [if_neg (by rw [List.length_append]; omega)]
    cases be
    · rw [if_neg (by decide), swap_eq false hs hn (by rw [List.length_append]; omega), ok_bind, revChunks_mem vs t h, ← hf,
        List.take_left, swap_eq false hs hn (by rw [List.length_append]; omega), ok_bind, revChunks_flatten vs t h]
    · rw [if_pos rfl, mem_true, ← hf, List.take_left]
  · have hsee := put_sees d vs.flatten data' hp d.crc
    have hpos : 0 < size := by rcases hs with h | h | h | h | h <;> omega
    have hk : min vs.length ((data'.length - d.pos) / size) = vs.length := by
      apply Nat.min_eq_left
      rw [Nat.le_div_iff_mul_le hpos]
      have := hsee.length_le
      rw [List.length_drop, hf] at this
      simp only at this
      omega
    unfold bfread
    rw [if_neg (by omega), ok_bind]
    simp only [hk]
    rw [← hf, rawRead_sees hsee]
    simp only [ok_bind]
    cases be'
    · have := revChunks_flatten vs [] h
      rw [List.append_nil, List.append_nil] at this
      rw [if_neg (by decide), swap_eq false hs hn (by omega), ok_bind, this]
      rfl
    · rw [if_pos rfl, mem_true]; rfl

/-- two 4-byte values written by a little-endian host at the start of a file, read by both kinds of host -/
example : ∃ d', writeArray false [4, 3, 2, 1, 8, 7, 6, 5] 4 2 ⟨[], 0, 0⟩ = ok ([4, 3, 2, 1, 8, 7, 6, 5], d') ∧
    d'.data = [1, 2, 3, 4, 5, 6, 7, 8] ∧
    (∃ c, readArray true 4 2 ⟨d'.data, 0, 0⟩ = ok ([1, 2, 3, 4, 5, 6, 7, 8], ⟨d'.data, 8, c⟩)) ∧
    ∃ c, readArray false 4 2 ⟨d'.data, 0, 0⟩ = ok ([4, 3, 2, 1, 8, 7, 6, 5], ⟨d'.data, 8, c⟩) := by
  obtain ⟨d', h1, h2, h3, h4⟩ := C23_portable_partial 4 (by decide) [[1, 2, 3, 4], [5, 6, 7, 8]] (by decide) (by decide) [] ⟨[], 0, 0⟩ false true
  obtain ⟨d'', h1', -, -, h4'⟩ := C23_portable_partial 4 (by decide) [[1, 2, 3, 4], [5, 6, 7, 8]] (by decide) (by decide) [] ⟨[], 0, 0⟩ false false
  rw [h1] at h1'
  simp only [ok.injEq, Prod.mk.injEq, true_and] at h1'
  subst h1'
  refine ⟨d', h1, by rw [h2]; decide, ?_, ?_⟩
  · obtain ⟨c, hc⟩ := h4 d'.data 0 List.prefix_rfl
    rw [h3] at hc
    exact ⟨c, hc⟩
  · obtain ⟨c, hc⟩ := h4' d'.data 0 List.prefix_rfl
    rw [h3] at hc
    exact ⟨c, hc⟩

end Verif.BinIO
