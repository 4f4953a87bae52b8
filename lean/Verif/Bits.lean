import Verif.Basic
import Verif.Where
/-
Property C130: bit operations, shifts and compound assignments of integer and boolean fields.

`Where` has the arithmetic and the comparisons; here the operators `& | ^ << >>`, the types of their results, and `+= -= *= /= %= |= &= ^= <<= >>=`.
`~` is declared (include/QDPOperators.h) but has no overload for `PScalar` or `RScalar`: an expression with it does not compile and is not modelled.
-/
set_option linter.unusedVariables false
namespace Verif.Bits
open Verif Outcome

/-- the word of a field: `int` (LatticeInteger) or `bool` (LatticeBoolean) -/
inductive K | int | bool
  deriving DecidableEq

inductive Op | ar (o : Where.Ar) | and | or | xor | shl | shr

/-- an int of C++ in 32 bits of two's complement -/
def w (x : Int) : BitVec 32 := BitVec.ofInt 32 x

/-- the operator applied to words (a bool is promoted to int): include/qdp_reality.h:941-1003; `+ - * / %` as in `Where`.  Bits of two's complement; a shift by a
negative count or by 32 or more is undefined; a left shift drops the bits that leave the word, as gcc documents -/
def Op.app : Op → Int → Int → Outcome Int
  | .ar o, x, y => o.app x y
  | .and, x, y => ok (w x &&& w y).toInt
  | .or, x, y => ok (w x ||| w y).toInt
  | .xor, x, y => ok (w x ^^^ w y).toInt
  | .shl, x, k => if 0 ≤ k ∧ k < 32 then ok (w x <<< k.toNat).toInt else ub
  | .shr, x, k => if 0 ≤ k ∧ k < 32 then ok ((w x).sshiftRight k.toNat).toInt else ub

/-- the word of the result: `Promote`, include/PETE/TypeComputations.h:79-330, through `BinaryReturn` of include/qdp_reality.h:588-591; the left operand for the
shifts: include/PETE/OperatorTags.h:569-590, include/qdp_reality.h:941-967 -/
def Op.ret : Op → K → K → K
  | .shl, a, _ => a
  | .shr, a, _ => a
  | _, .bool, .bool => .bool
  | _, _, _ => .int

/-- conversion of an int to the word: the constructor of `RScalar`, include/qdp_reality.h:34-45 -/
def conv : K → Int → Int
  | .int, z => z
  | .bool, z => if z = 0 then 0 else 1

/-- expressions: fields; operator of two of them; operator of one of them and an int of C++ -/
inductive T
  | fld (f : Nat)
  | bin (o : Op) (a b : T)
  | binN (o : Op) (a : T) (z : Int)

/-- the word of an expression, of fields of words `κ`; an int of C++ is converted to the word of the field next to it: include/QDPOperators.h:3560-4530,
6290-6700 -/
def kind (κ : Nat → K) : T → K
  | .fld f => κ f
  | .bin o a b => o.ret (kind κ a) (kind κ b)
  | .binN o a _ => o.ret (kind κ a) (kind κ a)

/-- `forEach` at a site (include/PETE/ForEach.h:91-142, include/PETE/OperatorTags.h:290-590): operands, operator, conversion to the word of the result -/
def ev (κ : Nat → K) (s : Nat → Int) : T → Outcome Int
  | .fld f => ok (s f)
  | .bin o a b => do let x ← ev κ s a; let y ← ev κ s b; let r ← o.app x y; ok (conv (o.ret (kind κ a) (kind κ b)) r)
  | .binN o a z => do let x ← ev κ s a; let r ← o.app x (conv (kind κ a) z); ok (conv (o.ret (kind κ a) (kind κ a)) r)

/-- `d = t` on the sites of a subset: include/qdp_qdptype.h:66-91, include/qdp_scalar_specific.h:150-236 and C47, C48 -/
def asg (κ : Nat → K) (d : Nat) (t : T) : List Nat → (Nat → Nat → Int) → Outcome (Nat → Nat → Int)
  | [], g => ok g
  | x :: xs, g => do
    let v ← ev κ (g x) t
    asg κ d t xs (Function.update g x (Function.update (g x) d (conv (κ d) v)))

/-- `d op= t`: include/qdp_qdptype.h:94-371 and include/qdp_qdpsubtype.h:128-486, each with the tag of its operator; the operator of the tag,
include/PETE/OperatorTags.h:590-748, is that of the word: include/qdp_primscalar.h:67-156, include/qdp_reality.h:70-159 -/
def comp (κ : Nat → K) (d : Nat) (o : Op) (t : T) : List Nat → (Nat → Nat → Int) → Outcome (Nat → Nat → Int)
  | [], g => ok g
  | x :: xs, g => do
    let v ← ev κ (g x) t
    let r ← o.app (g x d) v
    comp κ d o t xs (Function.update g x (Function.update (g x) d (conv (κ d) r)))

/-! ## specification -/

/-- bit `i` of an integer, in two's complement of any length -/
def bit (z : Int) (i : Nat) : Prop := z / 2 ^ i % 2 = 1

def I32 (z : Int) : Prop := -2 ^ 31 ≤ z ∧ z < 2 ^ 31

/-- the value of an expression in C++: a bool in arithmetic is an int -/
def cpp (s : Nat → Int) : T → Outcome Int
  | .fld f => ok (s f)
  | .bin o a b => do let x ← cpp s a; let y ← cpp s b; o.app x y
  | .binN o a z => do let x ← cpp s a; o.app x z

/-- a word of its kind -/
def Ok : K → Int → Prop
  | .int, z => I32 z
  | .bool, z => z = 0 ∨ z = 1

/-- words of the site -/
def Good (κ : Nat → K) (s : Nat → Int) : Prop := ∀ f, Ok (κ f) (s f)

def Op.bitwise : Op → Prop
  | .and | .or | .xor => True
  | _ => False

/-- no arithmetic of two booleans, no shift of a boolean, only the numbers 0 and 1 next to a boolean -/
def Fine (κ : Nat → K) : T → Prop
  | .fld _ => True
  | .bin o a b => Fine κ a ∧ Fine κ b ∧ (o.bitwise ∨ o.ret (kind κ a) (kind κ b) = .int)
  | .binN o a z => Fine κ a ∧ Ok (kind κ a) z ∧ (o.bitwise ∨ kind κ a = .int)

/-! ## bits -/

theorem toInt_bit (v : BitVec 32) (i : Nat) : bit v.toInt i ↔ (if i < 32 then v.getLsbD i else v.msb) = true := by
  have hlt : v.toNat < 2 ^ 32 := v.isLt
  unfold bit
  have hm := BitVec.msb_eq_decide v
  rw [BitVec.toInt_eq_toNat_cond]
  by_cases hi : i < 32
  · rw [if_pos hi]
    have hb : v.getLsbD i = true ↔ v.toNat / 2 ^ i % 2 = 1 := by
      rw [← BitVec.testBit_toNat, Nat.testBit_eq_decide_div_mod_eq]; simp
    rw [hb]
    have hp : (0 : Int) < 2 ^ i := by positivity
    split
    · norm_cast
    · have h2 : ((2 ^ 32 : Nat) : Int) = 2 ^ (31 - i) * 2 * 2 ^ i := by
        have : 32 = (31 - i) + 1 + i := by omega
        have h3 : (2 : Int) ^ 32 = 2 ^ ((31 - i) + 1 + i) := congrArg _ this
        rw [pow_add, pow_add, pow_one] at h3
        rw [← h3]; rfl
      rw [h2, Int.sub_mul_ediv_right _ _ (ne_of_gt hp)]
      rw [Int.sub_mul_emod_self_right]
      norm_cast
  · rw [if_neg hi, hm]
    have h32 : (2 : Int) ^ 32 ≤ 2 ^ i := pow_le_pow_right₀ (by norm_num) (by omega)
    split
    · rename_i h
      have : (v.toNat : Int) / 2 ^ i = 0 := Int.ediv_eq_zero_of_lt (by omega) (by norm_num at h32 ⊢; omega)
      rw [this]; simp; omega
    · rename_i h
      have : ((v.toNat : Int) - (2 ^ 32 : Nat)) / 2 ^ i = -1 := by
        rw [Int.ediv_eq_iff_of_pos (by positivity)]
        norm_num at h32 hlt ⊢
        constructor <;> omega
      rw [this]; simp; omega

theorem I32_toInt (v : BitVec 32) : I32 v.toInt := by
  have h1 := BitVec.le_toInt v
  have h2 := BitVec.toInt_lt (x := v)
  simpa [I32] using And.intro h1 h2

theorem toInt_w {x : Int} (h : I32 x) : (w x).toInt = x := by
  unfold w I32 at *
  rw [BitVec.toInt_ofInt]
  apply Int.bmod_eq_of_le <;> norm_num <;> omega

/-- an integer is given by its bits -/
theorem bit_inj {x y : Int} (hx : I32 x) (hy : I32 y) (h : ∀ i, i < 32 → (bit x i ↔ bit y i)) : x = y := by
  rw [← toInt_w hx, ← toInt_w hy]
  congr 1
  apply BitVec.eq_of_getLsbD_eq
  intro i hi
  have := h i hi
  have a := toInt_bit (w x) i
  have b := toInt_bit (w y) i
  rw [toInt_w hx, if_pos hi] at a
  rw [toInt_w hy, if_pos hi] at b
  rw [Bool.eq_iff_iff, ← a, ← b, this]

/-- `x & y`, `x | y` and `x ^ y` of ints are the ints whose bits are those of `x` and `y`, combined bit by bit -/
theorem C130_bits {x y : Int} (hx : I32 x) (hy : I32 y) :
    (∃ z, Op.and.app x y = ok z ∧ I32 z ∧ ∀ i, bit z i ↔ (bit x i ∧ bit y i))
    ∧ (∃ z, Op.or.app x y = ok z ∧ I32 z ∧ ∀ i, bit z i ↔ (bit x i ∨ bit y i))
    ∧ (∃ z, Op.xor.app x y = ok z ∧ I32 z ∧ ∀ i, bit z i ↔ ¬ (bit x i ↔ bit y i)) := by
  have bx := fun i => toInt_bit (w x) i
  have by' := fun i => toInt_bit (w y) i
  rw [toInt_w hx] at bx
  rw [toInt_w hy] at by'
  refine ⟨⟨_, rfl, I32_toInt _, fun i => ?_⟩, ⟨_, rfl, I32_toInt _, fun i => ?_⟩, ⟨_, rfl, I32_toInt _, fun i => ?_⟩⟩
  all_goals rw [toInt_bit, bx, by']
  all_goals split <;> simp [BitVec.msb_and, BitVec.msb_or, BitVec.msb_xor]

/-- `x << k` is `x·2^k` but for the bits that leave the word, and just that if it is an int; `x >> k` is the floor of `x/2^k`, for negative `x` also; other
counts are undefined -/
theorem C130_shift {x k : Int} (hx : I32 x) :
    (0 ≤ k ∧ k < 32 →
      (∃ z, Op.shl.app x k = ok z ∧ I32 z ∧ (2 ^ 32 : Int) ∣ z - x * 2 ^ k.toNat ∧ (I32 (x * 2 ^ k.toNat) → z = x * 2 ^ k.toNat))
      ∧ Op.shr.app x k = ok ⌊(x : ℚ) / 2 ^ k.toNat⌋)
    ∧ (¬ (0 ≤ k ∧ k < 32) → Op.shl.app x k = ub ∧ Op.shr.app x k = ub) := by
  constructor
  · intro hk
    constructor
    · have hd : (2 ^ 32 : Int) ∣ (w x <<< k.toNat).toInt - x * 2 ^ k.toNat := by
        rw [BitVec.toInt_shiftLeft]
        have hxn : ((w x).toNat : Int) = x % 2 ^ 32 := by simp [w, BitVec.toNat_ofInt]; omega
        have e1 : (2 ^ 32 : Int) ∣ (((w x).toNat <<< k.toNat : Nat) : Int).bmod (2 ^ 32) - (((w x).toNat <<< k.toNat : Nat) : Int) := by
          have := Int.bmod_emod (x := (((w x).toNat <<< k.toNat : Nat) : Int)) (m := 2 ^ 32)
          exact Int.dvd_of_emod_eq_zero (Int.emod_eq_emod_iff_emod_sub_eq_zero.1 (by simpa using this))
        have e2 : (2 ^ 32 : Int) ∣ (((w x).toNat <<< k.toNat : Nat) : Int) - x * 2 ^ k.toNat := by
          rw [Nat.shiftLeft_eq]
          push_cast
          rw [hxn, ← sub_mul]
          apply Dvd.dvd.mul_right
          exact ⟨- (x / 2 ^ 32), by have := Int.emod_add_mul_ediv x (2 ^ 32); linarith⟩
        have := dvd_add e1 e2
        simpa using this
      refine ⟨_, if_pos hk, I32_toInt _, hd, fun hr => ?_⟩
      have hz := I32_toInt (w x <<< k.toNat)
      obtain ⟨c, hc⟩ := hd
      unfold I32 at hz hr
      generalize (w x <<< k.toNat).toInt = z at *
      generalize x * 2 ^ k.toNat = u at *
      omega
    · simp only [Op.app]
      rw [if_pos hk, BitVec.toInt_sshiftRight, toInt_w hx, Int.shiftRight_eq_div_pow]
      congr 1
      have := Rat.floor_intCast_div_natCast x (2 ^ k.toNat)
      push_cast at this
      rw [this]
      norm_cast
  · intro hk
    exact ⟨if_neg hk, if_neg hk⟩

example : Op.and.app 12 10 = ok 8 ∧ Op.or.app 12 10 = ok 14 ∧ Op.xor.app (-1) 10 = ok (-11) ∧ Op.shl.app 3 4 = ok 48 ∧ Op.shr.app (-7) 1 = ok (-4)
    ∧ Op.shl.app 1 31 = ok (-2147483648) := by decide

/-! ## expressions -/

theorem ck_I32 {a r : Int} (h : Where.ck a = ok r) : I32 r := by
  unfold Where.ck at h
  split at h
  · cases h; assumption
  · cases h

theorem app_I32 {o : Op} {x y r : Int} (h : o.app x y = ok r) (hx : I32 x) (hy : I32 y) : I32 r := by
  cases o with
  | ar o =>
    cases o <;> simp only [Op.app, Where.Ar.app] at h
    · exact ck_I32 h
    · exact ck_I32 h
    · exact ck_I32 h
    · split at h
      · cases h
      · exact ck_I32 h
    · split at h
      · cases h
      · rename_i h0
        obtain ⟨u, -, hu⟩ := bind_eq_ok.1 h
        cases hu
        have h1 := Int.tmod_lt_of_pos x (b := y)
        have h3 : |x.tmod y| ≤ |x| := by
          rw [Int.abs_eq_natAbs, Int.abs_eq_natAbs, Int.natAbs_tmod]
          exact_mod_cast Nat.mod_le _ _
        have h4 : |x.tmod y| < |y| := by
          rw [Int.abs_eq_natAbs, Int.abs_eq_natAbs, Int.natAbs_tmod]
          exact_mod_cast Nat.mod_lt _ (by omega)
        unfold I32 at *
        rcases abs_cases x with ⟨e, _⟩ | ⟨e, _⟩ <;> rcases abs_cases y with ⟨e', _⟩ | ⟨e', _⟩ <;> rcases abs_cases (x.tmod y) with ⟨e2, _⟩ | ⟨e2, _⟩ <;> omega
  | and => cases h; exact I32_toInt _
  | or => cases h; exact I32_toInt _
  | xor => cases h; exact I32_toInt _
  | shl => simp only [Op.app] at h; split at h <;> cases h; exact I32_toInt _
  | shr => simp only [Op.app] at h; split at h <;> cases h; exact I32_toInt _

theorem Ok.i32 {k : K} {z : Int} (h : Ok k z) : I32 z := by
  cases k
  · exact h
  · rcases h with rfl | rfl <;> constructor <;> norm_num

theorem ok_conv {k : K} {z : Int} (h : I32 z) : Ok k (conv k z) := by
  cases k
  · exact h
  · by_cases hz : z = 0 <;> simp [Ok, conv, hz]

theorem conv_ok {k : K} {z : Int} (h : Ok k z) : conv k z = z := by
  cases k
  · rfl
  · rcases h with rfl | rfl <;> rfl

/-- bit operations of two booleans are booleans -/
theorem bool_app {o : Op} (ho : o.bitwise) {x y r : Int} (hx : Ok .bool x) (hy : Ok .bool y) (h : o.app x y = ok r) : Ok .bool r := by
  have e00 : Op.and.app 0 0 = ok 0 ∧ Op.and.app 0 1 = ok 0 ∧ Op.and.app 1 0 = ok 0 ∧ Op.and.app 1 1 = ok 1
      ∧ Op.or.app 0 0 = ok 0 ∧ Op.or.app 0 1 = ok 1 ∧ Op.or.app 1 0 = ok 1 ∧ Op.or.app 1 1 = ok 1
      ∧ Op.xor.app 0 0 = ok 0 ∧ Op.xor.app 0 1 = ok 1 ∧ Op.xor.app 1 0 = ok 1 ∧ Op.xor.app 1 1 = ok 0 := by decide
  obtain ⟨a1, a2, a3, a4, b1, b2, b3, b4, c1, c2, c3, c4⟩ := e00
  cases o <;> first | exact False.elim ho | skip
  all_goals rcases hx with rfl | rfl <;> rcases hy with rfl | rfl
  all_goals simp only [a1, a2, a3, a4, b1, b2, b3, b4, c1, c2, c3, c4, Outcome.ok.injEq] at h
  all_goals subst h
  all_goals first | exact Or.inl rfl | exact Or.inr rfl

theorem ok_ret {o : Op} {ka kb : K} {x y r : Int} (hx : Ok ka x) (hy : Ok kb y) (h : o.app x y = ok r)
    (hf : o.bitwise ∨ o.ret ka kb = .int) : conv (o.ret ka kb) r = r := by
  rcases hf with hf | hf
  · by_cases hk : ka = .bool ∧ kb = .bool
    · obtain ⟨rfl, rfl⟩ := hk
      have : o.ret .bool .bool = .bool := by cases o <;> rfl
      rw [this]
      exact conv_ok (bool_app hf hx hy h)
    · have : o.ret ka kb = .int := by
        cases o <;> first | exact False.elim hf | (cases ka <;> cases kb <;> simp_all [Op.ret])
      rw [this]; rfl
  · rw [hf]; rfl

/-- all C++ numbers are ints -/
def Nums : T → Prop
  | .fld _ => True
  | .bin _ a b => Nums a ∧ Nums b
  | .binN _ a z => Nums a ∧ I32 z

/-- the value of an expression is a word of its kind -/
theorem ev_word {κ : Nat → K} {s : Nat → Int} (hs : Good κ s) : ∀ (t : T) {v : Int}, Nums t → ev κ s t = ok v → Ok (kind κ t) v
  | .fld f, v, _, h => by cases h; exact hs f
  | .bin o a b, v, hn, h => by
    obtain ⟨x, hx, h⟩ := bind_eq_ok.1 h
    obtain ⟨y, hy, h⟩ := bind_eq_ok.1 h
    obtain ⟨r, hr, h⟩ := bind_eq_ok.1 h
    cases h
    exact ok_conv (app_I32 hr (ev_word hs a hn.1 hx).i32 (ev_word hs b hn.2 hy).i32)
  | .binN o a z, v, hn, h => by
    obtain ⟨x, hx, h⟩ := bind_eq_ok.1 h
    obtain ⟨r, hr, h⟩ := bind_eq_ok.1 h
    cases h
    exact ok_conv (app_I32 hr (ev_word hs a hn.1 hx).i32 (ok_conv hn.2 : Ok (kind κ a) _).i32)

theorem Fine.nums {κ : Nat → K} : ∀ {t : T}, Fine κ t → Nums t
  | .fld _, _ => trivial
  | .bin _ a b, h => ⟨Fine.nums h.1, Fine.nums h.2.1⟩
  | .binN _ a z, h => ⟨Fine.nums h.1, h.2.1.i32⟩

/-- the value of an expression at a site is the value of C++, for expressions without arithmetic of two booleans, without shifts of booleans and with no other
numbers than 0 and 1 next to booleans -/
theorem C130_value {κ : Nat → K} {s : Nat → Int} (hs : Good κ s) : ∀ (t : T), Fine κ t → ev κ s t = cpp s t
  | .fld f, _ => rfl
  | .bin o a b, h => by
    obtain ⟨ha, hb, hf⟩ := h
    simp only [ev, cpp]
    rw [← C130_value hs a ha, ← C130_value hs b hb]
    cases hx : ev κ s a with
    | ok x =>
      cases hy : ev κ s b with
      | ok y =>
        simp only [ok_bind]
        cases hr : o.app x y with
        | ok r => simp only [ok_bind]; rw [ok_ret (ev_word hs a ha.nums hx) (ev_word hs b hb.nums hy) hr hf]
        | _ => rfl
      | _ => rfl
    | _ => rfl
  | .binN o a z, h => by
    obtain ⟨ha, hz, hf⟩ := h
    simp only [ev, cpp]
    rw [← C130_value hs a ha]
    cases hx : ev κ s a with
    | ok x =>
      simp only [ok_bind]
      rw [conv_ok hz]
      cases hr : o.app x z with
      | ok r =>
        simp only [ok_bind]
        rw [ok_ret (ev_word hs a ha.nums hx) hz hr]
        rcases hf with hf | hf
        · exact Or.inl hf
        · right; rw [hf]; cases o <;> rfl
      | _ => rfl
    | _ => rfl

/-- `&`, `|` and `^` of boolean fields are the logical and, or, exclusive or -/
theorem C130_logic {κ : Nat → K} {s : Nat → Int} (hs : Good κ s) {f g : Nat} (hf : κ f = .bool) (hg : κ g = .bool) :
    ev κ s (.bin .and (.fld f) (.fld g)) = ok (if s f = 1 ∧ s g = 1 then 1 else 0)
    ∧ ev κ s (.bin .or (.fld f) (.fld g)) = ok (if s f = 1 ∨ s g = 1 then 1 else 0)
    ∧ ev κ s (.bin .xor (.fld f) (.fld g)) = ok (if s f = s g then 0 else 1) := by
  have h1 : s f = 0 ∨ s f = 1 := by have := hs f; rwa [hf] at this
  have h2 : s g = 0 ∨ s g = 1 := by have := hs g; rwa [hg] at this
  simp only [ev, kind, ok_bind, hf, hg]
  rcases h1 with e1 | e1 <;> rcases h2 with e2 | e2 <;> rw [e1, e2] <;> decide

/-- the sum of two boolean fields is not the number of those that are true: with both true it is 1, which C++ has as 2 -/
theorem C130_bool_refuted : ∃ (κ : Nat → K) (s : Nat → Int) (f g : Nat), Good κ s ∧ κ f = .bool ∧ κ g = .bool
    ∧ ev κ s (.bin (.ar .add) (.fld f) (.fld g)) = ok 1 ∧ cpp s (.bin (.ar .add) (.fld f) (.fld g)) = ok 2 :=
  ⟨fun _ => .bool, fun _ => 1, 0, 1, fun _ => Or.inr rfl, rfl, rfl, by decide, by decide⟩

/-- a boolean field shifted by an integer field stays boolean: `true << 3` is 1, which C++ has as 8 -/
theorem C130_shiftbool_refuted : ∃ (κ : Nat → K) (s : Nat → Int), Good κ s ∧ κ 0 = .bool ∧ κ 1 = .int
    ∧ ev κ s (.bin .shl (.fld 0) (.fld 1)) = ok 1 ∧ cpp s (.bin .shl (.fld 0) (.fld 1)) = ok 8 := by
  refine ⟨fun f => if f = 0 then .bool else .int, fun f => if f = 0 then 1 else 3, fun f => ?_, rfl, rfl, by decide, by decide⟩
  by_cases h : f = 0 <;> simp [h, Ok, I32]

/-- a number next to a boolean field is made a boolean: `b & 2` is `b`, which C++ has as 0 -/
theorem C130_number_refuted : ∃ (κ : Nat → K) (s : Nat → Int), Good κ s ∧ κ 0 = .bool
    ∧ ev κ s (.binN .and (.fld 0) 2) = ok 1 ∧ cpp s (.binN .and (.fld 0) 2) = ok 0 :=
  ⟨fun _ => .bool, fun _ => 1, fun _ => Or.inr rfl, rfl, by decide, by decide⟩

/-! ## compound assignment -/

/-- `d op= t` does what `d = d op t` does, for all operators, words and subsets, also where `t` reads `d`, and is undefined when that is -/
theorem C130_compound (κ : Nat → K) (d : Nat) (o : Op) (t : T) : ∀ (xs : List Nat) (g : Nat → Nat → Int),
    comp κ d o t xs g = asg κ d (.bin o (.fld d) t) xs g
  | [], g => rfl
  | x :: xs, g => by
    have hc : ∀ r, conv (κ d) (conv (o.ret (κ d) (kind κ t)) r) = conv (κ d) r := by
      intro r
      cases hd : κ d
      · have : o.ret .int (kind κ t) = .int := by cases o <;> cases kind κ t <;> rfl
        rw [this]; rfl
      · cases o.ret .bool (kind κ t)
        · rfl
        · by_cases h : r = 0 <;> simp [conv, h]
    simp only [comp, asg, ev, ok_bind, kind]
    cases ev κ (g x) t with
    | ok v =>
      simp only [ok_bind]
      cases o.app (g x d) v with
      | ok r => simp only [ok_bind, hc]; exact C130_compound κ d o t xs _
      | _ => rfl
    | _ => rfl

/-- `d op= t` on a subset: each of its sites gets the operator of C++ applied to the old number and to the value of `t` in C++, nothing else changes -/
theorem C130_assign {κ : Nat → K} {d : Nat} {o : Op} {t : T} (ht : Fine κ t) : ∀ (xs : List Nat) (g : Nat → Nat → Int) (v r : Nat → Int), xs.Nodup →
    (∀ x, Good κ (g x)) → (∀ x ∈ xs, cpp (g x) t = ok (v x) ∧ o.app (g x d) (v x) = ok (r x)) →
    ∃ g', comp κ d o t xs g = ok g' ∧ (∀ x ∈ xs, g' x d = conv (κ d) (r x)) ∧ (∀ x ∉ xs, g' x d = g x d) ∧ (∀ x f, f ≠ d → g' x f = g x f)
      ∧ ∀ x, Good κ (g' x)
  | [], g, v, r, _, hg, _ => ⟨g, rfl, by simp, by simp, by simp, hg⟩
  | x :: xs, g, v, r, hn, hg, h => by
    obtain ⟨hx, hn⟩ := List.nodup_cons.1 hn
    obtain ⟨h1, h2⟩ := h x (by simp)
    have h1' : ev κ (g x) t = ok (v x) := by rw [C130_value (hg x) t ht, h1]
    have hr : Ok (κ d) (conv (κ d) (r x)) := ok_conv (app_I32 h2 (hg x d).i32 (ev_word (hg x) t ht.nums h1').i32)
    have hg' : ∀ y, Good κ (Function.update g x (Function.update (g x) d (conv (κ d) (r x))) y) := by
      intro y f
      by_cases hy : y = x
      · subst hy
        rw [Function.update_self]
        by_cases hf : f = d
        · subst hf; rw [Function.update_self]; exact hr
        · rw [Function.update_of_ne hf]; exact hg y f
      · rw [Function.update_of_ne hy]; exact hg y f
    obtain ⟨g', e1, e2, e3, e4, e5⟩ := C130_assign ht xs (Function.update g x (Function.update (g x) d (conv (κ d) (r x)))) v r hn hg' (by
      intro y hy
      have : y ≠ x := fun e => hx (e ▸ hy)
      rw [Function.update_of_ne this]
      exact h y (by simp [hy]))
    refine ⟨g', ?_, ?_, ?_, ?_, e5⟩
    · simp only [comp, h1', ok_bind, h2]; exact e1
    · intro y hy
      rcases List.mem_cons.1 hy with rfl | hy
      · rw [e3 y hx, Function.update_self, Function.update_self]
      · exact e2 y hy
    · intro y hy
      have hyx : y ≠ x := fun e => hy (by simp [e])
      rw [e3 y (fun hh => hy (by simp [hh])), Function.update_of_ne hyx]
    · intro y f hf
      rw [e4 y f hf]
      by_cases hy : y = x
      · subst hy; rw [Function.update_self, Function.update_of_ne hf]
      · rw [Function.update_of_ne hy]

/-- `d op= t` is undefined as soon as the operator or `t` is undefined at one site of the subset -/
theorem C130_undefined {κ : Nat → K} {d : Nat} {o : Op} {t : T} (ht : Fine κ t) {xs : List Nat} {g : Nat → Nat → Int} {x : Nat} (hn : xs.Nodup)
    (hg : ∀ x, Good κ (g x)) (hx : x ∈ xs) (h : ∀ v r, ¬ (cpp (g x) t = ok v ∧ o.app (g x d) v = ok r)) : ∀ g', comp κ d o t xs g ≠ ok g' := by
  induction xs generalizing g with
  | nil => cases hx
  | cons y xs ih =>
    intro g' hc
    obtain ⟨hy, hn⟩ := List.nodup_cons.1 hn
    simp only [comp] at hc
    obtain ⟨v, hv, hc⟩ := bind_eq_ok.1 hc
    obtain ⟨r, hr, hc⟩ := bind_eq_ok.1 hc
    by_cases hxy : x = y
    · subst hxy
      exact h v r ⟨by rw [← C130_value (hg x) t ht]; exact hv, hr⟩
    · have hx' : x ∈ xs := by
        rcases List.mem_cons.1 hx with e | e
        · exact absurd e hxy
        · exact e
      refine ih hn ?_ hx' ?_ g' hc
      · intro z f
        by_cases hz : z = y
        · subst hz
          rw [Function.update_self]
          by_cases hf : f = d
          · subst hf; rw [Function.update_self]
            exact ok_conv (app_I32 hr (hg z f).i32 (ev_word (hg z) t ht.nums hv).i32)
          · rw [Function.update_of_ne hf]; exact hg z f
        · rw [Function.update_of_ne hz]; exact hg z f
      · intro v r
        rw [Function.update_of_ne hxy]
        exact h v r

/-- `d ^= d << e` on two sites of three -/
example : (do
      let g ← comp (fun _ => .int) 0 .xor (.bin .shl (.fld 0) (.fld 1)) [0, 2] (fun x f => if f = 0 then 5 else x)
      ok (g 0 0, g 1 0, g 2 0, g 2 1)) = ok (0, 5, 17, 2) := by decide

end Verif.Bits
