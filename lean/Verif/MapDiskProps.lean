import Verif.MapDisk
/-
Lemmas on the stream operations of the disk map object, and C35.
-/
namespace Verif.MapDisk
open Verif Outcome ByteOrder Verif.BinIO Verif.MapObj

/-! ## C35: positions -/

/-- the pair of numbers a position is stored as on a host -/
def privOf (be : Bool) (n : Nat) : Nat × Nat := if be then (n / 2 ^ 64, n % 2 ^ 64) else (n % 2 ^ 64, n / 2 ^ 64)

theorem offOf_small {w n : Nat} (hw : 0 < w) (h : n < 2 ^ (w - 1)) : offOf w n = n := by
  have e : 2 ^ w = 2 * 2 ^ (w - 1) := by rw [show w = w - 1 + 1 by omega, Nat.pow_succ]; simp [Nat.mul_comm]
  unfold offOf
  rw [e]
  generalize 2 ^ (w - 1) = B at h
  apply Int.bmod_eq_of_le <;> omega

theorem ckOff_small {w n : Nat} (h : n < 2 ^ (w - 1)) : ckOff w (n : Int) = ok (n : Int) := by
  unfold ckOff
  have e : ((2 : Int) ^ (w - 1)) = ((2 ^ (w - 1) : Nat) : Int) := by simp
  rw [e]
  generalize 2 ^ (w - 1) = B at h
  rw [if_pos (by omega)]

theorem maxU_64 {P : Plat} (hb : P.bits = 64) : maxU P = ok 0 := by
  unfold maxU offOf
  rw [hb]
  decide

theorem maxU_big {P : Plat} (hb : 66 ≤ P.bits) : maxU P = ok (2 ^ 64) := by
  have hB : 2 ^ 65 ≤ 2 ^ (P.bits - 1) := Nat.pow_le_pow_right (by decide) (by omega)
  unfold maxU
  rw [offOf_small (by omega) (by omega)]
  have := ckOff_small (w := P.bits) (n := 2 ^ 64) (by omega)
  exact this

theorem u64_small (n : Nat) (h : n < 2 ^ 64) : u64 (n : Int) = n := by
  unfold u64; omega

/-- C35, undefined behaviour: with 64-bit `std::streamoff`, `max_uint64` is 0 and `convertToPrivate` divides by it, whatever the
position — on a machine where that has no meaning of its own, the behaviour is undefined for every file position. -/
theorem C35_undefined (P : Plat) (hb : P.bits = 64) (hd : P.div0 = false) (pos : Nat) : toPrivate P pos = ub := by
  unfold toPrivate
  rw [maxU_64 hb, ok_bind, divmod, if_pos rfl, hd]
  rfl

/-- C35, what holds: if `std::streamoff` has 66 bits or more, or has 64 and a division by zero gives quotient 0 and the dividend as
remainder, then converting any non-negative offset of the type (of less than 128 bits) and back gives the same offset, and the pair stored
is its high and low halves in the order the host uses.  The full claim has no such condition: see `C35_undefined`. -/
theorem C35_roundtrip_partial (P : Plat) (h : 66 ≤ P.bits ∨ (P.bits = 64 ∧ P.div0 = true)) (pos : Nat) (hp : pos < 2 ^ (P.bits - 1))
    (hp' : pos < 2 ^ 128) : toPrivate P pos = ok (privOf P.be pos) ∧ fromPrivate P (privOf P.be pos) = ok (pos : Int) := by
  have hlo : (if P.be then (privOf P.be pos).2 else (privOf P.be pos).1) = pos % 2 ^ 64 := by cases h : P.be <;> simp [privOf]
  have hhi : (if P.be then (privOf P.be pos).1 else (privOf P.be pos).2) = pos / 2 ^ 64 := by cases h : P.be <;> simp [privOf]
  have hdiv : pos / 2 ^ 64 < 2 ^ 64 := by omega
  rcases h with hb | ⟨hb, hd⟩
  · have hB : 2 ^ 65 ≤ 2 ^ (P.bits - 1) := Nat.pow_le_pow_right (by decide) (by omega)
    constructor
    · unfold toPrivate
      rw [maxU_big hb, ok_bind, divmod, if_neg (by decide), ok_bind]
      have e1 : u64 ((pos : Int).tmod (2 ^ 64)) = pos % 2 ^ 64 := by
        have : (pos : Int).tmod (2 ^ 64) = ((pos % 2 ^ 64 : Nat) : Int) := rfl
        rw [this, u64_small _ (by omega)]
      have e2 : u64 ((pos : Int).tdiv (2 ^ 64)) = pos / 2 ^ 64 := by
        have : (pos : Int).tdiv (2 ^ 64) = ((pos / 2 ^ 64 : Nat) : Int) := rfl
        rw [this, u64_small _ (by omega)]
      rw [e1, e2]
      rfl
    · unfold fromPrivate
      rw [maxU_big hb, ok_bind]
      simp only [hlo, hhi]
      rw [offOf_small (by omega) (by omega), offOf_small (by omega) (by omega)]
      have h1 : ((pos / 2 ^ 64 : Nat) : Int) * 2 ^ 64 = ((pos / 2 ^ 64 * 2 ^ 64 : Nat) : Int) := by push_cast; rfl
      rw [h1, ckOff_small (by omega), ok_bind]
      have h2 : ((pos % 2 ^ 64 : Nat) : Int) + ((pos / 2 ^ 64 * 2 ^ 64 : Nat) : Int) = (pos : Int) := by
        rw [← Int.natCast_add, Nat.mod_add_div' pos]
      rw [h2, ckOff_small hp]
  · rw [hb] at hp
    have hdz : pos / 2 ^ 64 = 0 := by omega
    have hmz : pos % 2 ^ 64 = pos := by omega
    constructor
    · unfold toPrivate
      rw [maxU_64 hb, ok_bind, divmod, if_pos rfl, hd, if_pos rfl, ok_bind, u64_small _ (by omega)]
      simp only [privOf, hdz, hmz]
    · unfold fromPrivate
      rw [maxU_64 hb, ok_bind]
      simp only [hlo, hhi, hdz, hmz]
      rw [hb, offOf_small (by decide) (by decide), offOf_small (by decide) (by omega)]
      have h1 : ((0 : Nat) : Int) * 0 = ((0 : Nat) : Int) := by simp
      rw [h1, ckOff_small (by decide), ok_bind]
      have h2 : (pos : Int) + ((0 : Nat) : Int) = (pos : Int) := by simp
      rw [h2, ckOff_small hp]

/-- an offset beyond 2^64 on a machine with 128-bit stream offsets, and the largest offset of a machine that defines division by zero -/
example : toPrivate ⟨false, 128, false, id⟩ (2 ^ 64 + 5) = ok (5, 1) ∧
    fromPrivate ⟨false, 128, false, id⟩ (5, 1) = ok ((2 ^ 64 + 5 : Nat) : Int) :=
  C35_roundtrip_partial ⟨false, 128, false, id⟩ (by decide) (2 ^ 64 + 5) (by decide) (by decide)
example : toPrivate ⟨true, 64, true, id⟩ (2 ^ 63 - 1) = ok (0, 2 ^ 63 - 1) :=
  (C35_roundtrip_partial ⟨true, 64, true, id⟩ (by decide) (2 ^ 63 - 1) (by decide) (by decide)).1

/-- a host on which file positions below 2^63 can be read, and iteration visits each entry once -/
structure Readable (P : Plat) : Prop where
  back : ∀ n, n < 2 ^ 63 → fromPrivate P (privOf P.be n) = ok (n : Int)
  iter : ∀ l, (P.iter l).Perm l

/-- a host on which file positions below 2^63 can be stored and read, and iteration visits each entry once -/
structure Usable (P : Plat) : Prop extends Readable P where
  fwd : ∀ n, n < 2 ^ 63 → toPrivate P n = ok (privOf P.be n)

/-- reading needs no division: hosts with 64-bit `std::streamoff` can read files, whatever a division by zero does there -/
theorem readable_of (P : Plat) (h : 66 ≤ P.bits ∨ P.bits = 64) (hi : ∀ l, (P.iter l).Perm l) : Readable P := by
  refine ⟨fun n hn => ?_, hi⟩
  have key : n < 2 ^ (P.bits - 1) := by
    have hB : 2 ^ 63 ≤ 2 ^ (P.bits - 1) := Nat.pow_le_pow_right (by decide) (by omega)
    omega
  rcases h with h | h
  · exact (C35_roundtrip_partial P (Or.inl h) n key (by omega)).2
  · have := (C35_roundtrip_partial { P with div0 := true } (Or.inr ⟨h, rfl⟩) n key (by omega)).2
    exact this

theorem usable_of (P : Plat) (h : 66 ≤ P.bits ∨ (P.bits = 64 ∧ P.div0 = true)) (hi : ∀ l, (P.iter l).Perm l) :
    Usable P := by
  have key : ∀ n, n < 2 ^ 63 → n < 2 ^ (P.bits - 1) := by
    intro n hn
    have hB : 2 ^ 63 ≤ 2 ^ (P.bits - 1) := Nat.pow_le_pow_right (by decide) (by omega)
    omega
  exact ⟨⟨fun n hn => (C35_roundtrip_partial P h n (key n hn) (by omega)).2, hi⟩,
    fun n hn => (C35_roundtrip_partial P h n (key n hn) (by omega)).1⟩

/-- the host of the examples: reads positions as 64-bit machines do, defines division by zero -/
def demoPlat : Plat := ⟨false, 64, true, id⟩
theorem demo_usable : Usable demoPlat := usable_of _ (by decide) (fun l => List.Perm.refl l)

/-! ## bytes of the small records -/

/-- a position in the file: 16 bytes, most significant first -/
def posBytes (n : Nat) : List Byte := be64 (n / 2 ^ 64) ++ be64 n

theorem be64_mod (n : Nat) : be64 (n % 2 ^ 64) = be64 n := by
  unfold be64
  have key : ∀ k, k ≤ 56 → BitVec.ofNat 8 (n % 2 ^ 64 / 2 ^ k) = BitVec.ofNat 8 (n / 2 ^ k) := by
    intro k hk
    apply BitVec.eq_of_toNat_eq
    simp only [BitVec.toNat_ofNat]
    rw [show (64 : Nat) = k + (64 - k) by omega, Nat.pow_add, Nat.mod_mul_right_div_self, Nat.mod_mod_of_dvd]
    exact Nat.pow_dvd_pow 2 (by omega)
  have k0 := key 0 (by omega)
  simp only [Nat.pow_zero, Nat.div_one] at k0
  rw [key 56 (by omega), key 48 (by omega), key 40 (by omega), key 32 (by omega), key 24 (by omega), key 16 (by omega),
    key 8 (by omega), k0]

theorem be64_length (n : Nat) : (be64 n).length = 8 := rfl
theorem posBytes_length (n : Nat) : (posBytes n).length = 16 := rfl

theorem load_be64 (n : Nat) : (be64 n).foldl (fun a b => a * 256 + b.toNat) 0 = n % 2 ^ 64 := by
  simp only [be64, List.foldl_cons, List.foldl_nil, BitVec.toNat_ofNat]
  omega

theorem store_pos (be : Bool) (n : Nat) : store64 be (privOf be n).1 ++ store64 be (privOf be n).2 = host be (posBytes n) := by
  cases be
  · simp [store64, privOf, host, posBytes]
    exact be64_mod n
  · simp [store64, privOf, host, posBytes]
    exact be64_mod n

theorem load_pos (be : Bool) (n : Nat) (hn : n < 2 ^ 128) :
    (load64 be ((host be (posBytes n)).take 8), load64 be ((host be (posBytes n)).drop 8)) = privOf be n := by
  have h1 : n / 2 ^ 64 % 2 ^ 64 = n / 2 ^ 64 := by omega
  cases be
  · have e : host false (posBytes n) = host false (be64 n) ++ host false (be64 (n / 2 ^ 64)) := by simp [host, posBytes]
    have ht : (host false (be64 n) ++ host false (be64 (n / 2 ^ 64))).take 8 = host false (be64 n) := rfl
    have hd : (host false (be64 n) ++ host false (be64 (n / 2 ^ 64))).drop 8 = host false (be64 (n / 2 ^ 64)) := rfl
    rw [e, ht, hd]
    simp only [load64, host_host, load_be64, privOf, h1]
    rfl
  · have e : host true (posBytes n) = host true (be64 (n / 2 ^ 64)) ++ host true (be64 n) := by simp [host, posBytes]
    have ht : (host true (be64 (n / 2 ^ 64)) ++ host true (be64 n)).take 8 = host true (be64 (n / 2 ^ 64)) := rfl
    have hd : (host true (be64 (n / 2 ^ 64)) ++ host true (be64 n)).drop 8 = host true (be64 n) := rfl
    rw [e, ht, hd]
    simp only [load64, host_host, load_be64, privOf, h1]
    rfl

theorem pos_wr (be : Bool) (n : Nat) (d : Dev) : posC.write be (privOf be n) d = ok (d.put (posBytes n)) := by
  have := writeArray_eq (size := 16) be (by decide) [posBytes n] (by simp [posBytes_length]) (by simp) [] d
  rw [mem_single, List.append_nil, List.length_singleton, List.flatten_singleton] at this
  simp only [posC, store_pos, this, ok_bind]

theorem pos_rd (be : Bool) (n : Nat) (hn : n < 2 ^ 128) (d : Dev) (hd : d.Sees (posBytes n)) :
    posC.read be d = ok (privOf be n, d.skip (posBytes n)) := by
  have := readArray_eq (size := 16) be (by decide) [posBytes n] (by simp [posBytes_length]) (by simp) d (by simpa using hd)
  rw [mem_single, List.length_singleton, List.flatten_singleton] at this
  simp only [posC, this, ok_bind, load_pos be n hn]

/-- an unsigned 32-bit number, most significant byte first -/
def w32 (w : BitVec 32) : List Byte := store32 true w
theorem w32_length (w : BitVec 32) : (w32 w).length = 4 := rfl

theorem u32_good : Good u32C (fun _ => True) w32 := by
  constructor
  · intro be w d _
    have := writeArray_eq (size := 4) be (by decide) [w32 w] (by simp [w32_length]) (by simp) [] d
    rw [mem_single, List.append_nil, List.length_singleton, List.flatten_singleton] at this
    simp only [u32C, store32_host be, show store32 true w = w32 w from rfl, this, ok_bind]
  · intro be w d _ hd
    have := readArray_eq (size := 4) be (by decide) [w32 w] (by simp [w32_length]) (by simp) d (by simpa using hd)
    rw [mem_single, List.length_singleton, List.flatten_singleton, w32, ← store32_host] at this
    have hl := load_store32 be w
    simp only [u32C, this, ok_bind, w32]
    cases be
    · simp only [store32, Bool.false_eq_true, if_false, intOf, List.reverse_cons, List.reverse_nil, List.nil_append, List.cons_append, ok.injEq] at hl ⊢
      rw [BitVec.eq_of_toInt_eq hl]
    · simp only [store32, if_true, intOf, ok.injEq] at hl ⊢
      rw [BitVec.eq_of_toInt_eq hl]

/-! ## bytes at a place -/

/-- `bs` stands in `data` from position `p` on -/
def At (data : List Byte) (p : Nat) (bs : List Byte) : Prop := bs <+: data.drop p

theorem at_iff {data bs : List Byte} {p : Nat} : At data p bs ↔ ∀ i, i < bs.length → data[p + i]? = bs[i]? := by
  unfold At
  constructor
  · rintro ⟨t, ht⟩ i hi
    have : (data.drop p)[i]? = bs[i]? := by rw [← ht, List.getElem?_append_left hi]
    rw [← this, List.getElem?_drop]
  · intro h
    rw [List.prefix_iff_eq_take]
    apply List.ext_getElem?
    intro i
    by_cases hi : i < bs.length
    · rw [List.getElem?_take_of_lt hi, List.getElem?_drop, h i hi]
    · rw [List.getElem?_eq_none (by omega), List.getElem?_eq_none]
      rw [List.length_take]; omega

theorem at_length {data bs : List Byte} {p : Nat} (h : At data p bs) (hb : bs ≠ []) : p + bs.length ≤ data.length := by
  have := List.IsPrefix.length_le h
  rw [List.length_drop] at this
  have : 0 < bs.length := List.length_pos_iff.2 hb
  omega

theorem at_append {data a b : List Byte} {p : Nat} : At data p (a ++ b) ↔ At data p a ∧ At data (p + a.length) b := by
  constructor
  · intro h
    refine ⟨(List.prefix_append a b).trans h, ?_⟩
    obtain ⟨t, ht⟩ := h
    refine ⟨t, ?_⟩
    rw [← List.drop_drop, ← ht, List.append_assoc, List.drop_left]
  · rintro ⟨⟨t, ht⟩, ⟨t', ht'⟩⟩
    refine ⟨t', ?_⟩
    rw [← List.drop_drop, ← ht, List.drop_left] at ht'
    rw [← ht, List.append_assoc, ht']

theorem overwrite_length (data : List Byte) (q : Nat) (b : List Byte) (hb : b ≠ []) :
    (overwrite data q b).length = max data.length (q + b.length) := by
  simp only [overwrite, hb, if_false, List.length_append, List.length_take, List.length_replicate, List.length_drop]
  omega

theorem overwrite_out {data : List Byte} {q : Nat} {b : List Byte} {i : Nat} (hi : i < data.length) (h : i < q ∨ q + b.length ≤ i) :
    (overwrite data q b)[i]? = data[i]? := by
  by_cases hb : b = []
  · simp [overwrite, hb]
  have hp := pre_length data q
  simp only [overwrite, hb, if_false]
  rcases h with h | h
  · rw [List.append_assoc, List.append_assoc, List.getElem?_append_left (by rw [List.length_take]; omega),
      List.getElem?_take_of_lt h]
  · rw [List.getElem?_append_right (by rw [List.length_append, hp]; omega), List.length_append, hp, List.getElem?_drop]
    congr 1; omega

/-- what stands elsewhere is not touched -/
theorem at_overwrite {data bs b : List Byte} {p q : Nat} (h : At data p bs) (hd : p + bs.length ≤ q ∨ q + b.length ≤ p) :
    At (overwrite data q b) p bs := by
  by_cases hb : bs = []
  · subst hb; exact List.nil_prefix
  have hl := at_length h hb
  rw [at_iff] at h ⊢
  intro i hi
  rw [overwrite_out (by omega) (by omega), h i hi]

theorem at_self (data : List Byte) (q : Nat) (b : List Byte) : At (overwrite data q b) q b := overwrite_sees data q b

theorem overwrite_end (data b : List Byte) : overwrite data data.length b = data ++ b := by
  by_cases hb : b = []
  · simp [overwrite, hb]
  · simp [overwrite, hb]

theorem at_prefix {data data' bs : List Byte} {p : Nat} (h : At data p bs) (hp : data <+: data') : At data' p bs := by
  by_cases hb : bs = []
  · subst hb; exact List.nil_prefix
  have hl := at_length h hb
  obtain ⟨t, rfl⟩ := hp
  rw [at_iff] at h ⊢
  intro i hi
  rw [List.getElem?_append_left (by omega), h i hi]

/-! ## stream operations on an open object -/

section
variable {st : St} {m : List (List Byte × (Nat × Nat))} {u : List Byte} {nm : String} {d : Dev} {rw' : Bool} {log : List (Nat × List Byte)}

theorem emit_eq {f : Dev → Outcome Dev} {bs : List Byte} (h : f d = ok (d.put bs)) :
    emit f ⟨st, m, u, nm, some d, true, log⟩ = ok ⟨st, m, u, nm, some (d.put bs), true, log ++ [(d.pos, bs)]⟩ := by
  have h1 : ((d.put bs).data.drop d.pos).take ((d.put bs).pos - d.pos) = bs := by
    have h2 := overwrite_sees d.data d.pos bs
    rw [List.prefix_iff_eq_take] at h2
    have h3 : (d.put bs).pos - d.pos = bs.length := by simp only [Dev.put]; omega
    rw [h3]; exact h2.symm
  simp only [emit, Bool.true_eq_false, if_false, h, ok_bind, h1]

theorem fetch_eq {α : Type} {f : Dev → Outcome (α × Dev)} {x : α} {bs : List Byte} (h : f d = ok (x, d.skip bs)) :
    fetch f ⟨st, m, u, nm, some d, rw', log⟩ = ok (x, ⟨st, m, u, nm, some (d.skip bs), rw', log⟩) := by
  simp only [fetch, h, ok_bind]

theorem seek_eq (p : Nat) : seek (p : Int) ⟨st, m, u, nm, some d, rw', log⟩ = ok ⟨st, m, u, nm, some ⟨d.data, p, 0⟩, rw', log⟩ := by
  simp only [seek, show ¬ ((p : Int) < 0) by omega, if_false, Int.toNat_natCast]

theorem seekEnd_eq : seekEnd ⟨st, m, u, nm, some d, rw', log⟩ = ok ⟨st, m, u, nm, some ⟨d.data, d.data.length, 0⟩, rw', log⟩ := rfl

theorem reset_eq : resetChecksum ⟨st, m, u, nm, some d, rw', log⟩ = ok ⟨st, m, u, nm, some ⟨d.data, d.pos, 0⟩, rw', log⟩ := rfl

/-! ## records -/

/-- a record: the value and its checksum -/
def recBytes {V : Type} (venc : V → List Byte) (v : V) : List Byte := venc v ++ w32 (crcOf 0 (venc v))

/-- an entry of the map in the file -/
def entBytes (e : List Byte × Nat) : List Byte := be32 e.1.length ++ e.1 ++ posBytes e.2
def mapBody (l : List (List Byte × Nat)) : List Byte := w32 (BitVec.ofNat 32 l.length) ++ l.flatMap entBytes
/-- the map in the file -/
def mapBytes (l : List (List Byte × Nat)) : List Byte := mapBody l ++ w32 (crcOf 0 (mapBody l))
/-- the file up to the link to the map -/
def header (u : List Byte) : List Byte := be32 magic.length ++ magic ++ w32 1 ++ (be32 u.length ++ u)
/-- its length -/
def hlen (u : List Byte) : Nat := 41 + u.length

theorem header_length (u : List Byte) : (header u).length = hlen u := by
  simp only [header, List.length_append, be32_length, w32_length, magic, List.length_cons, List.length_nil, hlen]
  omega

variable {V : Type} {vc : Codec V} {VV : V → Prop} {venc : V → List Byte}

theorem recBytes_length (v : V) : (recBytes venc v).length = (venc v).length + 4 := by
  rw [recBytes, List.length_append, w32_length]

theorem writeRecord_eq (P : Plat) (gv : Good vc VV venc) (v : V) (hv : VV v) :
    writeRecord vc P v ⟨st, m, u, nm, some d, true, log⟩ =
      ok ⟨st, m, u, nm, some ((⟨d.data, d.pos, 0⟩ : Dev).put (recBytes venc v)), true,
        log ++ [(d.pos, venc v), (d.pos + (venc v).length, w32 (crcOf 0 (venc v)))]⟩ := by
  unfold writeRecord
  rw [reset_eq, ok_bind, emit_eq (gv.wr P.be v _ hv), ok_bind]
  simp only [getChecksum, ok_bind]
  rw [emit_eq (u32_good.wr P.be _ _ trivial), put_put]
  simp only [Dev.put, recBytes, List.append_assoc, List.cons_append, List.nil_append]

/-- an entry of the map in memory -/
def ent (be : Bool) (e : List Byte × Nat) : List Byte × (Nat × Nat) := (e.1, privOf be e.2)

theorem writeEntries_eq (be : Bool) (l : List (List Byte × Nat)) (h : ∀ e ∈ l, e.1.length < 2 ^ 31) (d : Dev) :
    writeEntries be (l.map (ent be)) d = ok (d.put (l.flatMap entBytes)) := by
  induction l generalizing d with
  | nil => rw [List.map_nil, List.flatMap_nil, put_nil]; rfl
  | cons e t ih =>
    simp only [List.map_cons, writeEntries, ent]
    rw [C24_desc.wr be e.1 d (h e (by simp)), ok_bind, pos_wr, ok_bind]
    rw [ih (fun e he => h e (by simp [he])), put_put, put_put, List.flatMap_cons, entBytes]
    simp only [List.append_assoc]

theorem writeMapBinary_eq (P : Plat) (l : List (List Byte × Nat)) (hl : ∀ e ∈ l, e.1.length < 2 ^ 31)
    (hi : P.iter m = l.map (ent P.be)) (hm : m.length = l.length) :
    ∃ b1 b2 b3, b1 ++ b2 ++ b3 = mapBytes l ∧
    writeMapBinary P ⟨st, m, u, nm, some d, true, log⟩ =
      ok ⟨st, m, u, nm, some ((⟨d.data, d.pos, 0⟩ : Dev).put (mapBytes l)), true,
        log ++ [(d.pos, b1), (d.pos + b1.length, b2), (d.pos + b1.length + b2.length, b3)]⟩ := by
  refine ⟨w32 (BitVec.ofNat 32 l.length), l.flatMap entBytes, w32 (crcOf 0 (mapBody l)), rfl, ?_⟩
  · unfold writeMapBinary
    rw [reset_eq, ok_bind, emit_eq (u32_good.wr P.be _ _ trivial), ok_bind]
    simp only [hi]
    rw [emit_eq (writeEntries_eq P.be l hl _), ok_bind]
    simp only [getChecksum, ok_bind]
    rw [emit_eq (u32_good.wr P.be _ _ trivial), put_put, put_put, hm]
    simp only [Dev.put, crcOf_append]
    simp only [mapBytes, mapBody, List.append_assoc, List.cons_append, List.nil_append]

theorem closeWrite_eq (P : Plat) (hP : Usable P) (l : List (List Byte × Nat)) (hl : ∀ e ∈ l, e.1.length < 2 ^ 31)
    (hi : P.iter m = l.map (ent P.be)) (hm : m.length = l.length) (hs : d.data.length < 2 ^ 63) :
    ∃ b1 b2 b3, b1 ++ b2 ++ b3 = mapBytes l ∧
    closeWrite P ⟨.modified, m, u, nm, some d, true, log⟩ =
      ok ⟨.modified, m, u, nm,
        some ⟨overwrite (d.data ++ mapBytes l) (hlen u) (posBytes d.data.length),
          (overwrite (d.data ++ mapBytes l) (hlen u) (posBytes d.data.length)).length, 0⟩, true,
        log ++ [(d.data.length, b1), (d.data.length + b1.length, b2), (d.data.length + b1.length + b2.length, b3),
          (hlen u, posBytes d.data.length)]⟩ := by
  obtain ⟨b1, b2, b3, hb, hw⟩ := writeMapBinary_eq (st := .modified) (u := u) (nm := nm) (d := ⟨d.data, d.data.length, 0⟩) (log := log) P l hl hi hm
  refine ⟨b1, b2, b3, hb, ?_⟩
  unfold closeWrite
  simp only [seekEnd_eq, ok_bind, currentPosition, hP.fwd _ hs, hw, rewind]
  have h0 : seek 0 ⟨.modified, m, u, nm, some ((⟨d.data, d.data.length, 0⟩ : Dev).put (mapBytes l)), true,
      log ++ [(d.data.length, b1), (d.data.length + b1.length, b2), (d.data.length + b1.length + b2.length, b3)]⟩ =
      ok ⟨.modified, m, u, nm, some ⟨d.data ++ mapBytes l, 0, 0⟩, true,
      log ++ [(d.data.length, b1), (d.data.length + b1.length, b2), (d.data.length + b1.length + b2.length, b3)]⟩ := by
    rw [← overwrite_end]; rfl
  rw [h0, ok_bind]
  have h1 : (magic.length : Int) + 4 + (u.length : Int) + 4 + 4 = ((hlen u : Nat) : Int) := by
    simp only [magic, List.length_cons, List.length_nil, hlen]; omega
  simp only [writeSkipHeader, h1, seek_eq, ok_bind]
  rw [emit_eq (pos_wr P.be _ _), ok_bind, seekEnd_eq]
  simp only [Dev.put, List.append_assoc, List.cons_append, List.nil_append]

theorem sees_at {d : Dev} {bs : List Byte} : d.Sees bs ↔ At d.data d.pos bs := Iff.rfl

/-- keys of the entries are distinct from each other and from those of `m` -/
def Apart (m : List (List Byte × (Nat × Nat))) (l : List (List Byte × Nat)) : Prop :=
  (l.map (·.1)).Nodup ∧ ∀ e ∈ l, find m e.1 = none

theorem readEntries_eq (P : Plat) (l : List (List Byte × Nat)) (hl : ∀ e ∈ l, e.1.length < 2 ^ 31 ∧ e.2 < 2 ^ 128) (ha : Apart m l)
    (hd : d.Sees (l.flatMap entBytes)) :
    readEntries P l.length ⟨st, m, u, nm, some d, rw', log⟩ =
      ok ⟨st, m ++ l.map (ent P.be), u, nm, some (d.skip (l.flatMap entBytes)), rw', log⟩ := by
  induction l generalizing m d with
  | nil => simp only [List.length_nil, readEntries, List.map_nil, List.append_nil, List.flatMap_nil, skip_nil]
  | cons e t ih =>
    rw [List.flatMap_cons] at hd ⊢
    have hd1 := Sees.left hd
    have hd2 := Sees.right hd
    have he := hl e (by simp)
    simp only [entBytes] at hd1
    rw [List.length_cons, readEntries, fetch_eq (C24_desc.rd P.be e.1 d he.1 (Sees.left hd1))]
    simp only [ok_bind]
    rw [fetch_eq (pos_rd P.be e.2 he.2 _ (Sees.right hd1))]
    simp only [ok_bind, skip_skip]
    have hn := ha.2 e (by simp)
    have hins : insertNew m e.1 (privOf P.be e.2) = m ++ [ent P.be e] := by simp [insertNew, hn, ent]
    rw [hins, show be32 (e.1.length : Int) ++ e.1 ++ posBytes e.2 = entBytes e from rfl, ih (fun e he => hl e (by simp [he])) ?_ hd2]
    · simp only [skip_skip, List.append_assoc, List.map_cons, List.cons_append, List.nil_append]
    · have hnd := List.nodup_cons.1 ha.1
      refine ⟨hnd.2, fun f hf => ?_⟩
      rw [find_none]
      intro g hg
      rcases List.mem_append.1 hg with hg | hg
      · exact find_none.1 (ha.2 f (by simp [hf])) g hg
      · rw [List.mem_singleton] at hg
        subst hg
        intro heq
        apply hnd.1
        have : e.1 = f.1 := heq
        show e.1 ∈ _
        rw [this]
        exact List.mem_map_of_mem hf

theorem readMapBinary_eq (P : Plat) (hP : Readable P) (l : List (List Byte × Nat)) (hl : ∀ e ∈ l, e.1.length < 2 ^ 31 ∧ e.2 < 2 ^ 128)
    (ha : Apart m l) (hn : l.length < 2 ^ 32) (mp : Nat) (hmp : mp < 2 ^ 63) (hd : At d.data mp (mapBytes l)) :
    ∃ c, readMapBinary P (privOf P.be mp) ⟨st, m, u, nm, some d, rw', log⟩ =
      ok ⟨st, m ++ l.map (ent P.be), u, nm, some ⟨d.data, mp + (mapBytes l).length, c⟩, rw', log⟩ := by
  have hd : (⟨d.data, mp, 0⟩ : Dev).Sees (mapBytes l) := hd
  unfold mapBytes at hd
  have h1 := Sees.left hd
  have h2 := Sees.right hd
  rw [mapBody] at h1
  refine ⟨crcOf 0 (mapBytes l), ?_⟩
  · unfold readMapBinary
    rw [hP.back _ hmp, ok_bind, seek_eq, ok_bind, reset_eq, ok_bind]
    simp only
    rw [fetch_eq (u32_good.rd P.be _ _ trivial (Sees.left h1))]
    simp only [ok_bind, BitVec.toNat_ofNat, Nat.mod_eq_of_lt hn]
    rw [readEntries_eq P l hl ha (Sees.right h1), ok_bind, skip_skip]
    have hc : getChecksum ⟨st, m ++ l.map (ent P.be), u, nm,
        some ((⟨d.data, mp, 0⟩ : Dev).skip (w32 (BitVec.ofNat 32 l.length) ++ l.flatMap entBytes)), rw', log⟩ = ok (crcOf 0 (mapBody l)) := rfl
    simp only [hc, ok_bind]
    rw [show w32 (BitVec.ofNat 32 l.length) ++ l.flatMap entBytes = mapBody l from rfl, fetch_eq (u32_good.rd P.be _ _ trivial h2)]
    simp only [ok_bind, ne_eq, not_true, if_false]
    rw [skip_skip, show mapBody l ++ w32 (crcOf 0 (mapBody l)) = mapBytes l from rfl]
    rfl

theorem readCheckHeader_eq (P : Plat) (u' : List Byte) (hu : u'.length < 2 ^ 31) (mp : Nat) (hmp : mp < 2 ^ 128)
    (hd : At d.data 0 (header u')) (hd' : At d.data (hlen u') (posBytes mp)) :
    ∃ d', d'.data = d.data ∧ readCheckHeader P ⟨st, m, u, nm, some d, rw', log⟩ =
      ok (privOf P.be mp, ⟨st, m, u', nm, some d', rw', log⟩) := by
  rw [← header_length] at hd'
  have hall : (⟨d.data, 0, 0⟩ : Dev).Sees (header u' ++ posBytes mp) := at_append.2 ⟨hd, by rw [Nat.zero_add]; exact hd'⟩
  have h1 := Sees.left (Sees.left (Sees.left hall))
  have h2 := Sees.right (Sees.left (Sees.left hall))
  have h3 := Sees.right (Sees.left hall)
  have h4 := Sees.right hall
  refine ⟨(⟨d.data, 0, 0⟩ : Dev).skip (header u' ++ posBytes mp), rfl, ?_⟩
  · unfold readCheckHeader rewind
    have h0 : seek 0 ⟨st, m, u, nm, some d, rw', log⟩ = ok ⟨st, m, u, nm, some ⟨d.data, 0, 0⟩, rw', log⟩ := rfl
    rw [h0, ok_bind, fetch_eq (C24_desc.rd P.be magic _ (by decide) h1)]
    simp only [ok_bind, ne_eq, not_true, if_false]
    rw [fetch_eq (u32_good.rd P.be 1 _ trivial h2)]
    simp only [ok_bind]
    rw [skip_skip, fetch_eq (C24_desc.rd P.be u' _ hu h3)]
    simp only [ok_bind]
    rw [skip_skip]
    have e : fetch (posC.read P.be) ⟨st, m, u', nm, some ((⟨d.data, 0, 0⟩ : Dev).skip (header u')), rw', log⟩ = _ :=
      fetch_eq (pos_rd P.be mp hmp _ h4)
    rw [skip_skip] at e
    exact e

theorem openRead_eq (P : Plat) (hP : Readable P) (data : List Byte) (o : Obj) (ho : o.st = .init) (u' : List Byte) (hu : u'.length < 2 ^ 31)
    (mp : Nat) (hmp : mp < 2 ^ 63) (l : List (List Byte × Nat)) (hl : ∀ e ∈ l, e.1.length < 2 ^ 31 ∧ e.2 < 2 ^ 128)
    (ha : Apart o.map l) (hn : l.length < 2 ^ 32)
    (hd : At data 0 (header u')) (hd' : At data (hlen u') (posBytes mp)) (hm : At data mp (mapBytes l)) :
    ∃ c, openRead P nm rw' data o =
      ok ⟨.unchanged, o.map ++ l.map (ent P.be), u', nm, some ⟨data, mp + (mapBytes l).length, c⟩, rw', []⟩ := by
  obtain ⟨d', hd1, h1⟩ := readCheckHeader_eq (st := .init) (m := o.map) (u := o.user) (nm := nm) (rw' := rw') (log := [])
    (d := ⟨data, 0, 0⟩) P u' hu mp (by omega) hd hd'
  obtain ⟨c, h2⟩ := readMapBinary_eq (st := .init) (m := o.map) (u := u') (nm := nm) (rw' := rw') (log := []) (d := d') P hP l hl ha hn mp hmp
    (by rw [hd1]; exact hm)
  refine ⟨c, ?_⟩
  unfold openRead
  simp only [ho, h1, ok_bind, h2, hd1]

theorem openWrite_eq (P : Plat) (hP : Usable P) (o : Obj) (ho : o.st = .init) (hu : o.user.length < 2 ^ 31) :
    ∃ c log, openWrite P nm o =
      ok ⟨.modified, o.map, o.user, nm, some ⟨header o.user ++ posBytes (hlen o.user), hlen o.user + 16, c⟩, true, log⟩ := by
  suffices ∃ log, openWrite P nm o = ok ⟨.modified, o.map, o.user, nm,
      some ⟨header o.user ++ posBytes (hlen o.user), hlen o.user + 16, crcOf 0 (header o.user ++ posBytes (hlen o.user))⟩, true, log⟩ from
    ⟨_, this⟩
  · unfold openWrite
    simp only [ho]
    rw [emit_eq (C24_desc.wr P.be magic _ (by decide)), ok_bind, emit_eq (u32_good.wr P.be 1 _ trivial), ok_bind]
    simp only
    rw [emit_eq (C24_desc.wr P.be o.user _ hu), ok_bind]
    rw [put_put, put_put]
    have hh : (be32 ↑magic.length ++ magic ++ (w32 1 ++ (be32 ↑o.user.length ++ o.user))) = header o.user := by
      simp only [header, List.append_assoc]
    rw [hh]
    have hp : ((⟨[], 0, 0⟩ : Dev).put (header o.user)).pos = hlen o.user := by simp only [Dev.put, header_length, Nat.zero_add]
    simp only [currentPosition, ok_bind, hp, hP.fwd (hlen o.user) (by unfold hlen; omega)]
    rw [emit_eq (pos_wr P.be _ _), ok_bind, put_put]
    have hdata : ((⟨[], 0, 0⟩ : Dev).put (header o.user ++ posBytes (hlen o.user))) =
        ⟨header o.user ++ posBytes (hlen o.user), hlen o.user + 16, crcOf 0 (header o.user ++ posBytes (hlen o.user))⟩ := by
      have := overwrite_end [] (header o.user ++ posBytes (hlen o.user))
      simp only [List.length_nil, List.nil_append] at this
      simp only [Dev.put, this, List.length_append, header_length, posBytes_length, Nat.zero_add]
    rw [hdata]
    exact ⟨_, rfl⟩

end

end Verif.MapDisk
