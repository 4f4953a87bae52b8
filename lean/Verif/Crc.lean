import Verif.Basic
import Mathlib.Tactic.ByContra
/-
The checksum, lib/qdp_crc32.cc (the build without DYNAMIC_CRC_TABLE, and `make_crc_table` of the build with it).
-/
namespace Verif.Crc
open Verif Outcome

/-! ## Model -/

/-- `crc_table`, lib/qdp_crc32.cc:110-163 (copied mechanically) -/
def table : List (BitVec 32) :=
  [0x00000000, 0x77073096, 0xee0e612c, 0x990951ba, 0x076dc419, 0x706af48f, 0xe963a535, 0x9e6495a3,
   0x0edb8832, 0x79dcb8a4, 0xe0d5e91e, 0x97d2d988, 0x09b64c2b, 0x7eb17cbd, 0xe7b82d07, 0x90bf1d91,
   0x1db71064, 0x6ab020f2, 0xf3b97148, 0x84be41de, 0x1adad47d, 0x6ddde4eb, 0xf4d4b551, 0x83d385c7,
   0x136c9856, 0x646ba8c0, 0xfd62f97a, 0x8a65c9ec, 0x14015c4f, 0x63066cd9, 0xfa0f3d63, 0x8d080df5,
   0x3b6e20c8, 0x4c69105e, 0xd56041e4, 0xa2677172, 0x3c03e4d1, 0x4b04d447, 0xd20d85fd, 0xa50ab56b,
   0x35b5a8fa, 0x42b2986c, 0xdbbbc9d6, 0xacbcf940, 0x32d86ce3, 0x45df5c75, 0xdcd60dcf, 0xabd13d59,
   0x26d930ac, 0x51de003a, 0xc8d75180, 0xbfd06116, 0x21b4f4b5, 0x56b3c423, 0xcfba9599, 0xb8bda50f,
   0x2802b89e, 0x5f058808, 0xc60cd9b2, 0xb10be924, 0x2f6f7c87, 0x58684c11, 0xc1611dab, 0xb6662d3d,
   0x76dc4190, 0x01db7106, 0x98d220bc, 0xefd5102a, 0x71b18589, 0x06b6b51f, 0x9fbfe4a5, 0xe8b8d433,
   0x7807c9a2, 0x0f00f934, 0x9609a88e, 0xe10e9818, 0x7f6a0dbb, 0x086d3d2d, 0x91646c97, 0xe6635c01,
   0x6b6b51f4, 0x1c6c6162, 0x856530d8, 0xf262004e, 0x6c0695ed, 0x1b01a57b, 0x8208f4c1, 0xf50fc457,
   0x65b0d9c6, 0x12b7e950, 0x8bbeb8ea, 0xfcb9887c, 0x62dd1ddf, 0x15da2d49, 0x8cd37cf3, 0xfbd44c65,
   0x4db26158, 0x3ab551ce, 0xa3bc0074, 0xd4bb30e2, 0x4adfa541, 0x3dd895d7, 0xa4d1c46d, 0xd3d6f4fb,
   0x4369e96a, 0x346ed9fc, 0xad678846, 0xda60b8d0, 0x44042d73, 0x33031de5, 0xaa0a4c5f, 0xdd0d7cc9,
   0x5005713c, 0x270241aa, 0xbe0b1010, 0xc90c2086, 0x5768b525, 0x206f85b3, 0xb966d409, 0xce61e49f,
   0x5edef90e, 0x29d9c998, 0xb0d09822, 0xc7d7a8b4, 0x59b33d17, 0x2eb40d81, 0xb7bd5c3b, 0xc0ba6cad,
   0xedb88320, 0x9abfb3b6, 0x03b6e20c, 0x74b1d29a, 0xead54739, 0x9dd277af, 0x04db2615, 0x73dc1683,
   0xe3630b12, 0x94643b84, 0x0d6d6a3e, 0x7a6a5aa8, 0xe40ecf0b, 0x9309ff9d, 0x0a00ae27, 0x7d079eb1,
   0xf00f9344, 0x8708a3d2, 0x1e01f268, 0x6906c2fe, 0xf762575d, 0x806567cb, 0x196c3671, 0x6e6b06e7,
   0xfed41b76, 0x89d32be0, 0x10da7a5a, 0x67dd4acc, 0xf9b9df6f, 0x8ebeeff9, 0x17b7be43, 0x60b08ed5,
   0xd6d6a3e8, 0xa1d1937e, 0x38d8c2c4, 0x4fdff252, 0xd1bb67f1, 0xa6bc5767, 0x3fb506dd, 0x48b2364b,
   0xd80d2bda, 0xaf0a1b4c, 0x36034af6, 0x41047a60, 0xdf60efc3, 0xa867df55, 0x316e8eef, 0x4669be79,
   0xcb61b38c, 0xbc66831a, 0x256fd2a0, 0x5268e236, 0xcc0c7795, 0xbb0b4703, 0x220216b9, 0x5505262f,
   0xc5ba3bbe, 0xb2bd0b28, 0x2bb45a92, 0x5cb36a04, 0xc2d7ffa7, 0xb5d0cf31, 0x2cd99e8b, 0x5bdeae1d,
   0x9b64c2b0, 0xec63f226, 0x756aa39c, 0x026d930a, 0x9c0906a9, 0xeb0e363f, 0x72076785, 0x05005713,
   0x95bf4a82, 0xe2b87a14, 0x7bb12bae, 0x0cb61b38, 0x92d28e9b, 0xe5d5be0d, 0x7cdcefb7, 0x0bdbdf21,
   0x86d3d2d4, 0xf1d4e242, 0x68ddb3f8, 0x1fda836e, 0x81be16cd, 0xf6b9265b, 0x6fb077e1, 0x18b74777,
   0x88085ae6, 0xff0f6a70, 0x66063bca, 0x11010b5c, 0x8f659eff, 0xf862ae69, 0x616bffd3, 0x166ccf45,
   0xa00ae278, 0xd70dd2ee, 0x4e048354, 0x3903b3c2, 0xa7672661, 0xd06016f7, 0x4969474d, 0x3e6e77db,
   0xaed16a4a, 0xd9d65adc, 0x40df0b66, 0x37d83bf0, 0xa9bcae53, 0xdebb9ec5, 0x47b2cf7f, 0x30b5ffe9,
   0xbdbdf21c, 0xcabac28a, 0x53b39330, 0x24b4a3a6, 0xbad03605, 0xcdd70693, 0x54de5729, 0x23d967bf,
   0xb3667a2e, 0xc4614ab8, 0x5d681b02, 0x2a6f2b94, 0xb40bbe37, 0xc30c8ea1, 0x5a05df1b, 0x2d02ef8d]

/-- `DO1`, lib/qdp_crc32.cc:178 -/
def do1 (crc : BitVec 32) (b : BitVec 8) : Outcome (BitVec 32) := do
  let t ← rd table (((crc ^^^ b.zeroExtend 32) &&& 0xff#32).toNat)
  return t ^^^ (crc >>> 8)

/-- the final `do { DO1(buf); } while (--len)`, lib/qdp_crc32.cc:197-202 -/
def tail1 (crc : BitVec 32) : List (BitVec 8) → Outcome (BitVec 32)
  | [] => ok crc
  | b :: bs => do
      let crc ← do1 crc b
      tail1 crc bs

/-- `while (len >= 8) { DO8(buf); len -= 8; }`, lib/qdp_crc32.cc:192-196, then the tail -/
def loop8 (crc : BitVec 32) : List (BitVec 8) → Outcome (BitVec 32)
  | b0 :: b1 :: b2 :: b3 :: b4 :: b5 :: b6 :: b7 :: bs => do
      let crc ← do1 crc b0
      let crc ← do1 crc b1
      let crc ← do1 crc b2
      let crc ← do1 crc b3
      let crc ← do1 crc b4
      let crc ← do1 crc b5
      let crc ← do1 crc b6
      let crc ← do1 crc b7
      loop8 crc bs
  | bs => tail1 crc bs

/-- `crc32`, lib/qdp_crc32.cc:184-204; `none` is a null pointer -/
def crc32 (crc : BitVec 32) : Option (List (BitVec 8)) → Outcome (BitVec 32)
  | none => ok 0
  | some bs => do
      let c ← loop8 (crc ^^^ 0xffffffff) bs
      return c ^^^ 0xffffffff

/-- the exclusive-or pattern built by `make_crc_table`, lib/qdp_crc32.cc:89-96 -/
def polyOf (p : List Nat) : BitVec 32 := p.foldl (fun a n => a ||| (1#32 <<< (31 - n))) 0

/-- `p[]`, lib/qdp_crc32.cc:90 -/
def pTerms : List Nat := [0, 1, 2, 4, 5, 7, 8, 10, 11, 12, 16, 22, 23, 26]

/-- one step of the inner loop of `make_crc_table`, lib/qdp_crc32.cc:102 -/
def bitStep (poly c : BitVec 32) : BitVec 32 := if c &&& 1#32 ≠ 0#32 then poly ^^^ (c >>> 1) else c >>> 1

/-- `make_crc_table`, lib/qdp_crc32.cc:84-105 -/
def makeTable : List (BitVec 32) :=
  (List.range 256).map fun n => (List.range 8).foldl (fun c _ => bitStep (polyOf pTerms) c) (BitVec.ofNat 32 n)

/-! ## Lemmas -/

set_option maxRecDepth 100000 in
/-- `make_crc_table` builds exactly the built-in table (all 256 entries) -/
theorem makeTable_eq : makeTable = table := by decide +kernel

/-- the reflected polynomial -/
abbrev P0 : BitVec 32 := 0xedb88320

theorem polyOf_eq : polyOf pTerms = P0 := by decide

/-- eight steps of the shift register -/
def step8 (c : BitVec 32) : BitVec 32 :=
  bitStep P0 (bitStep P0 (bitStep P0 (bitStep P0 (bitStep P0 (bitStep P0 (bitStep P0 (bitStep P0 c)))))))

theorem and_one_ne (c : BitVec 32) : (c &&& 1#32 ≠ 0#32) ↔ c.getLsbD 0 = true := by
  constructor
  · intro h
    by_contra hn
    apply h
    apply BitVec.eq_of_getLsbD_eq
    intro i hi
    rw [BitVec.getLsbD_and]
    rcases Nat.eq_zero_or_pos i with rfl | hp
    · have : c.getLsbD 0 = false := by simpa using hn
      rw [this]; rfl
    · simp [BitVec.getLsbD_one, Nat.ne_of_gt hp]
  · intro h e
    have := congrArg (fun x => x.getLsbD 0) e
    simp only [BitVec.getLsbD_and, h] at this
    exact absurd this (by decide)

theorem bitStep_xor (a b : BitVec 32) : bitStep P0 (a ^^^ b) = bitStep P0 a ^^^ bitStep P0 b := by
  simp only [bitStep, and_one_ne, BitVec.getLsbD_xor, BitVec.ushiftRight_xor_distrib]
  generalize a >>> 1 = x
  generalize b >>> 1 = y
  generalize P0 = p
  cases a.getLsbD 0 <;> cases b.getLsbD 0 <;>
    simp only [Bool.xor_false, Bool.xor_true, Bool.not_true, Bool.not_false, Bool.false_eq_true, if_true,
      if_false] <;>
    ext i hi <;> simp only [BitVec.getElem_xor] <;> cases x[i] <;> cases y[i] <;> cases p[i] <;> rfl

theorem step8_xor (a b : BitVec 32) : step8 (a ^^^ b) = step8 a ^^^ step8 b := by
  simp only [step8, bitStep_xor]

theorem bitStep_even {c : BitVec 32} (h : c.getLsbD 0 = false) : bitStep P0 c = c >>> 1 := by
  rw [bitStep, if_neg]
  rw [and_one_ne, h]; simp

/-- a register whose low byte is zero is just shifted -/
theorem step8_shift {c : BitVec 32} (h : ∀ i, i < 8 → c.getLsbD i = false) : step8 c = c >>> 8 := by
  have h1 : ∀ k, k < 8 → (c >>> k).getLsbD 0 = false := by
    intro k hk; rw [BitVec.getLsbD_ushiftRight]; exact h _ (by omega)
  have h2 : ∀ k, k < 8 → bitStep P0 (c >>> k) = c >>> (k + 1) := by
    intro k hk; rw [bitStep_even (h1 k hk), ← BitVec.shiftRight_add]
  have h0 : bitStep P0 c = c >>> 1 := by
    have := h2 0 (by omega); simpa using this
  simp only [step8, h0, h2 1 (by omega), h2 2 (by omega), h2 3 (by omega), h2 4 (by omega), h2 5 (by omega),
    h2 6 (by omega), h2 7 (by omega)]

set_option maxRecDepth 100000 in
theorem table_step8 : table = (List.range 256).map fun n => step8 (BitVec.ofNat 32 n) := by decide +kernel

/-- one table step is eight bit steps of the register with the byte added -/
theorem do1_eq (crc : BitVec 32) (b : BitVec 8) : do1 crc b = ok (step8 (crc ^^^ b.zeroExtend 32)) := by
  generalize hx : crc ^^^ b.zeroExtend 32 = x
  have hlt : (x &&& 0xff#32).toNat < 256 := by
    rw [BitVec.toNat_and]
    exact Nat.lt_of_le_of_lt Nat.and_le_right (by decide)
  have hrd : rd table ((x &&& 0xff#32).toNat) = ok (step8 (x &&& 0xff#32)) := by
    rw [rd_eq_ok, table_step8, List.getElem?_map, List.getElem?_range hlt]
    simp
  have hsplit : x = (x &&& 0xff#32) ^^^ (x &&& 0xffffff00#32) := by
    ext i hi
    simp only [BitVec.getElem_xor, BitVec.getElem_and]
    have : ((0xff#32)[i] ^^ (0xffffff00#32)[i]) = true := by
      have : ∀ i (h : i < 32), ((0xff#32)[i] ^^ (0xffffff00#32)[i]) = true := by decide
      exact this i hi
    cases x[i] <;> simp_all
  have hhigh : step8 (x &&& 0xffffff00#32) = crc >>> 8 := by
    rw [step8_shift]
    · ext i hi
      rw [← hx]
      simp only [BitVec.getElem_ushiftRight, BitVec.getLsbD_and, BitVec.getLsbD_xor]
      have h1 : (b.zeroExtend 32).getLsbD (8 + i) = false := by
        simp [BitVec.getLsbD_of_ge]
      rw [h1, Bool.xor_false]
      by_cases h : 8 + i < 32
      · have : ∀ i, 8 + i < 32 → (0xffffff00#32).getLsbD (8 + i) = true := by
          intro i hi
          have : i < 24 := by omega
          revert this; clear hi
          revert i; decide
        rw [this i h, Bool.and_true]
      · rw [BitVec.getLsbD_of_ge _ _ (by omega), Bool.false_and]
    · intro i hi
      rw [BitVec.getLsbD_and]
      have : ∀ i, i < 8 → (0xffffff00#32).getLsbD i = false := by decide
      rw [this i hi, Bool.and_false]
  rw [do1, hx, hrd, ok_bind, ← hhigh, pure_def, ← step8_xor, ← hsplit]

/-- the register after the bytes, a byte at a time -/
def feed (c : BitVec 32) (bs : List (BitVec 8)) : BitVec 32 := bs.foldl (fun c b => step8 (c ^^^ b.zeroExtend 32)) c

theorem tail1_eq (bs : List (BitVec 8)) (c : BitVec 32) : tail1 c bs = ok (feed c bs) := by
  induction bs generalizing c with
  | nil => rfl
  | cons b bs ih => rw [tail1, do1_eq, ok_bind, ih]; rfl

theorem loop8_eq (bs : List (BitVec 8)) (c : BitVec 32) : loop8 c bs = ok (feed c bs) := by
  fun_induction loop8 c bs with
  | case1 c b0 b1 b2 b3 b4 b5 b6 b7 bs ih =>
    simp only [do1_eq, ok_bind, ih]
    rfl
  | case2 c bs => exact tail1_eq bs c

theorem feed_append (c : BitVec 32) (a b : List (BitVec 8)) : feed c (a ++ b) = feed (feed c a) b := by
  simp [feed]

theorem crc32_eq (c : BitVec 32) (bs : List (BitVec 8)) :
    crc32 c (some bs) = ok (feed (c ^^^ 0xffffffff) bs ^^^ 0xffffffff) := by
  rw [crc32, loop8_eq]; rfl

end Verif.Crc
