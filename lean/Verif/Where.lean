import Verif.Basic
import Verif.Component
import Mathlib.Data.Rat.Floor
/-
Property C128: comparisons, logical operators and `where` on fields.

Integer and boolean fields: expressions of them are trees of the expression templates, evaluated at a site.  Words are ints (undefined behaviour outside of
32 bits) and bools.  A C++ number in an expression is a rational number (a literal or variable of any type of C++) that is converted as the operator says.
`where` and `copymask` on objects of a site with spin and colour: as in `Component`, of real or complex numbers.
-/
set_option linter.unusedVariables false
namespace Verif.Where
open Verif Outcome

/-- integer or boolean -/
inductive K | int | bool

/-- `+ - * / %` of ints and `< <= > >= == !=` -/
inductive Ar | add | sub | mul | div | mod
inductive Cm | lt | le | gt | ge | eq | ne

/-- expressions: fields, `Integer` objects, operators with two fields or expressions; comparison with a C++ number; `where` with fields, and with a C++ number in
place of the third, of the second, or of both -/
inductive E : K → Type
  | fld (f : Nat) : E .int
  | bfld (f : Nat) : E .bool
  | obj (z : Int) : E .int
  | ar (o : Ar) (a b : E .int) : E .int
  | cm (o : Cm) (a b : E .int) : E .bool
  | cmN (o : Cm) (a : E .int) (q : ℚ) : E .bool
  | and (a b : E .bool) : E .bool
  | or (a b : E .bool) : E .bool
  | not (a : E .bool) : E .bool
  | wh (m : E .bool) (x y : E .int) : E .int
  | whR (m : E .bool) (x : E .int) (q : ℚ) : E .int
  | whL (m : E .bool) (q : ℚ) (y : E .int) : E .int
  | whB (m : E .bool) (q r : ℚ) : E .int

@[reducible] def Val : K → Type
  | .int => Int
  | .bool => Bool

/-- the numbers at a site -/
structure Site where
  i : Nat → Int
  b : Nat → Bool

/-- an int: overflow is undefined -/
def ck (n : Int) : Outcome Int := if -2 ^ 31 ≤ n ∧ n < 2 ^ 31 then ok n else ub

/-- the arithmetic of ints in C++ -/
def Ar.app : Ar → Int → Int → Outcome Int
  | .add, a, b => ck (a + b)
  | .sub, a, b => ck (a - b)
  | .mul, a, b => ck (a * b)
  | .div, a, b => if b = 0 then ub else ck (a.tdiv b)
  | .mod, a, b => if b = 0 then ub else do let _ ← ck (a.tdiv b); ok (a.tmod b)

/-- the comparisons of C++; of ints in the code and of any numbers in the specification -/
def Cm.app {α : Type} [LT α] [LE α] [DecidableEq α] [DecidableLT α] [DecidableLE α] : Cm → α → α → Bool
  | .lt, a, b => decide (a < b)
  | .le, a, b => decide (a ≤ b)
  | .gt, a, b => decide (b < a)
  | .ge, a, b => decide (b ≤ a)
  | .eq, a, b => decide (a = b)
  | .ne, a, b => decide (a ≠ b)

/-- conversion of a C++ number to int: the fraction is discarded -/
def toInt (q : ℚ) : Outcome Int := ck (if 0 ≤ q then ⌊q⌋ else ⌈q⌉)
/-- conversion of a C++ number to bool, and of a bool to int -/
def toBool (q : ℚ) : Bool := decide (q ≠ 0)
def ofBool (b : Bool) : Int := if b then 1 else 0

/-- `forEach` at a site.  All operands are evaluated before the operator is applied: include/PETE/ForEach.h:91-142, include/PETE/Combiners.h:232-254; then the
operators of words through include/qdp_primscalar.h:463-642, include/qdp_reality.h:941-1111, `where` through include/qdp_primscalar.h:1534,
include/qdp_reality.h:1706, include/qdp_simpleword.h:341-356.  A C++ number next to a field `l` is converted to the word type of `l`,
include/QDPOperators.h:3000-4530, for `where` to the word type of the first argument, which is the mask: include/QDPOperators.h:4569-4660.  The bool is then
promoted to int by the overloads of include/qdp_simpleword.h:341-356 -/
def ev (s : Site) : {k : K} → E k → Outcome (Val k)
  | _, .fld f => ok (s.i f)
  | _, .bfld f => ok (s.b f)
  | _, .obj z => ok z
  | _, .ar o a b => do let x ← ev s a; let y ← ev s b; o.app x y
  | _, .cm o a b => do let x ← ev s a; let y ← ev s b; ok (o.app (α := Int) x y)
  | _, .cmN o a q => do let x ← ev s a; let y ← toInt q; ok (o.app (α := Int) x y)
  | _, .and a b => do let x ← ev s a; let y ← ev s b; ok (Bool.and x y)
  | _, .or a b => do let x ← ev s a; let y ← ev s b; ok (Bool.or x y)
  | _, .not a => do let x ← ev s a; ok (Bool.not x)
  | _, .wh m x y => do let c ← ev s m; let a ← ev s x; let b ← ev s y; ok (if c = true then a else b)
  | _, .whR m x q => do let c ← ev s m; let a ← ev s x; ok (if c = true then a else ofBool (toBool q))
  | _, .whL m q y => do let c ← ev s m; let b ← ev s y; ok (if c = true then ofBool (toBool q) else b)
  | _, .whB m q r => do let c ← ev s m; ok (if c = true then ofBool (toBool q) else ofBool (toBool r))

/-- `d = e` on the sites of a subset: include/qdp_scalarsite_defs.h and C47, C48; the destination is field number `d` -/
def assign (d : Nat) (e : E .int) : List Nat → (Nat → Site) → Outcome (Nat → Site)
  | [], g => ok g
  | x :: xs, g => do
    let v ← ev (g x) e
    assign d e xs (Function.update g x { g x with i := Function.update (g x).i d v })

/-! ## specification: what C++ does with the numbers of the site -/

/-- `?:`, `&&` and `||` evaluate only what is needed; numbers are compared as they are; a number chosen by `?:` and stored in an int is cut -/
def val (s : Site) : {k : K} → E k → Outcome (Val k)
  | _, .fld f => ok (s.i f)
  | _, .bfld f => ok (s.b f)
  | _, .obj z => ok z
  | _, .ar o a b => do let x ← val s a; let y ← val s b; o.app x y
  | _, .cm o a b => do let x ← val s a; let y ← val s b; ok (o.app (α := Int) x y)
  | _, .cmN o a q => do let x ← val s a; ok (o.app (α := ℚ) ((x : Int) : ℚ) q)
  | _, .and a b => do let x ← val s a; if x = true then val s b else ok false
  | _, .or a b => do let x ← val s a; if x = true then ok true else val s b
  | _, .not a => do let x ← val s a; ok (Bool.not x)
  | _, .wh m x y => do let c ← val s m; if c = true then val s x else val s y
  | _, .whR m x q => do let c ← val s m; if c = true then val s x else toInt q
  | _, .whL m q y => do let c ← val s m; if c = true then toInt q else val s y
  | _, .whB m q r => do let c ← val s m; if c = true then toInt q else toInt r

/-- comparisons with integers of 32 bits only, `where` with the C++ numbers 0 and 1 only -/
def Plain : {k : K} → E k → Prop
  | _, .fld _ | _, .bfld _ | _, .obj _ => True
  | _, .ar _ a b => Plain a ∧ Plain b
  | _, .cm _ a b => Plain a ∧ Plain b
  | _, .cmN _ a q => Plain a ∧ ∃ z : Int, q = z ∧ -2 ^ 31 ≤ z ∧ z < 2 ^ 31
  | _, .and a b => Plain a ∧ Plain b
  | _, .or a b => Plain a ∧ Plain b
  | _, .not a => Plain a
  | _, .wh m x y => Plain m ∧ Plain x ∧ Plain y
  | _, .whR m x q => Plain m ∧ Plain x ∧ (q = 0 ∨ q = 1)
  | _, .whL m q y => Plain m ∧ Plain y ∧ (q = 0 ∨ q = 1)
  | _, .whB m q r => Plain m ∧ (q = 0 ∨ q = 1) ∧ (r = 0 ∨ r = 1)

/-- an expression with all its parts -/
def parts : {k : K} → E k → List (Σ k, E k)
  | _, .fld f => [⟨_, .fld f⟩]
  | _, .bfld f => [⟨_, .bfld f⟩]
  | _, .obj z => [⟨_, .obj z⟩]
  | _, .ar o a b => ⟨_, .ar o a b⟩ :: (parts a ++ parts b)
  | _, .cm o a b => ⟨_, .cm o a b⟩ :: (parts a ++ parts b)
  | _, .cmN o a q => ⟨_, .cmN o a q⟩ :: parts a
  | _, .and a b => ⟨_, .and a b⟩ :: (parts a ++ parts b)
  | _, .or a b => ⟨_, .or a b⟩ :: (parts a ++ parts b)
  | _, .not a => ⟨_, .not a⟩ :: parts a
  | _, .wh m x y => ⟨_, .wh m x y⟩ :: (parts m ++ (parts x ++ parts y))
  | _, .whR m x q => ⟨_, .whR m x q⟩ :: (parts m ++ parts x)
  | _, .whL m q y => ⟨_, .whL m q y⟩ :: (parts m ++ parts y)
  | _, .whB m q r => ⟨_, .whB m q r⟩ :: parts m

/-- every part has a value, those not needed too -/
def AllDefined (s : Site) {k : K} (e : E k) : Prop := ∀ p ∈ parts e, ∃ v, val s p.2 = ok v

/-- an int of 32 bits -/
def I32 (c : Int) : Prop := -2147483648 ≤ c ∧ c ≤ 2147483647

/-- the results of C++: exact, quotients towards zero with the remainder of the sign of the dividend, quotient and result in range -/
def Exact : Ar → Int → Int → Int → Prop
  | .add, a, b, c => c = a + b ∧ I32 c
  | .sub, a, b, c => c = a - b ∧ I32 c
  | .mul, a, b, c => c = a * b ∧ I32 c
  | .div, a, b, c => ∃ r, a = b * c + r ∧ r.natAbs < b.natAbs ∧ (0 ≤ a → 0 ≤ r) ∧ (a ≤ 0 → r ≤ 0) ∧ I32 c
  | .mod, a, b, c => ∃ q, a = b * q + c ∧ c.natAbs < b.natAbs ∧ (0 ≤ a → 0 ≤ c) ∧ (a ≤ 0 → c ≤ 0) ∧ I32 q

/-! ## proofs -/

theorem ck_iff (n c : Int) : ck n = ok c ↔ c = n ∧ I32 c := by
  unfold ck I32
  split
  · constructor
    · intro h; cases h; exact ⟨rfl, by omega⟩
    · rintro ⟨rfl, _⟩; rfl
  · constructor
    · intro h; cases h
    · rintro ⟨rfl, h⟩; omega

theorem tdiv_spec (a b : Int) (hb : b ≠ 0) : a = b * a.tdiv b + a.tmod b ∧ (a.tmod b).natAbs < b.natAbs ∧ (0 ≤ a → 0 ≤ a.tmod b) ∧ (a ≤ 0 → a.tmod b ≤ 0) := by
  refine ⟨(Int.mul_tdiv_add_tmod a b).symm, ?_, fun h => Int.tmod_nonneg b h, fun h => ?_⟩
  · rw [Int.natAbs_tmod]; exact Nat.mod_lt _ (Int.natAbs_pos.2 hb)
  · have := Int.tmod_nonneg b (show 0 ≤ -a by omega)
    rw [Int.neg_tmod] at this
    omega

theorem tdiv_unique {a b q r : Int} (h : a = b * q + r) (hr : r.natAbs < b.natAbs) (h1 : 0 ≤ a → 0 ≤ r) (h2 : a ≤ 0 → r ≤ 0) : q = a.tdiv b ∧ r = a.tmod b := by
  have hb : b ≠ 0 := by rintro rfl; simp at hr
  obtain ⟨e, l, p, m⟩ := tdiv_spec a b hb
  have hd : b * (q - a.tdiv b) = a.tmod b - r := by rw [Int.mul_sub]; omega
  have hlt : (a.tmod b - r).natAbs < b.natAbs := by
    rcases Int.le_total 0 a with ha | ha
    · have := h1 ha; have := p ha; omega
    · have := h2 ha; have := m ha; omega
  rw [← hd, Int.natAbs_mul] at hlt
  have hz : (q - a.tdiv b).natAbs = 0 := by
    rcases Nat.eq_zero_or_pos (q - a.tdiv b).natAbs with h | h
    · exact h
    · exact absurd hlt (by have := Nat.le_mul_of_pos_right b.natAbs h; omega)
  have hq : q = a.tdiv b := by omega
  refine ⟨hq, ?_⟩
  rw [hq, Int.sub_self, Int.mul_zero] at hd
  omega

theorem toInt_int (z : Int) : toInt z = ck z := by
  simp [toInt]

theorem cm_cast (o : Cm) (x z : Int) : o.app (α := ℚ) x z = o.app (α := Int) x z := by
  cases o <;> simp [Cm.app]

theorem bit {q : ℚ} (h : q = 0 ∨ q = 1) : toInt q = ok (ofBool (toBool q)) := by
  rcases h with rfl | rfl
  · rw [show (0 : ℚ) = ((0 : Int) : ℚ) by simp, toInt_int]; simp [ck, ofBool, toBool]
  · rw [show (1 : ℚ) = ((1 : Int) : ℚ) by simp, toInt_int]; simp [ck, ofBool, toBool]

theorem ok_of_bind {α β : Type} {x : Outcome α} {f : α → Outcome β} {b : β} (h : (x >>= f) = ok b) : ∃ a, x = ok a ∧ f a = ok b := by
  cases x with
  | ok a => exact ⟨a, rfl, h⟩
  | abort => cases h
  | ub => cases h

theorem app_iff (o : Ar) (a b c : Int) : o.app a b = ok c ↔ Exact o a b c := by
  cases o with
  | add => exact ck_iff _ _
  | sub => exact ck_iff _ _
  | mul => exact ck_iff _ _
  | div =>
    show (if b = 0 then ub else ck (a.tdiv b)) = ok c ↔ _
    constructor
    · intro h
      split at h
      · cases h
      · rename_i hb
        obtain ⟨rfl, hc⟩ := (ck_iff _ _).1 h
        obtain ⟨e, l, p, m⟩ := tdiv_spec a b hb
        exact ⟨a.tmod b, e, l, p, m, hc⟩
    · rintro ⟨r, e, l, p, m, hc⟩
      have hb : b ≠ 0 := by rintro rfl; simp at l
      rw [if_neg hb, ck_iff]
      exact ⟨(tdiv_unique e l p m).1, hc⟩
  | mod =>
    show (if b = 0 then ub else (do let _ ← ck (a.tdiv b); ok (a.tmod b))) = ok c ↔ _
    constructor
    · intro h
      split at h
      · cases h
      · rename_i hb
        obtain ⟨q, hq, h⟩ := ok_of_bind h
        obtain ⟨rfl, hc⟩ := (ck_iff _ _).1 hq
        cases h
        obtain ⟨e, l, p, m⟩ := tdiv_spec a b hb
        exact ⟨_, e, l, p, m, hc⟩
    · rintro ⟨q, e, l, p, m, hc⟩
      have hb : b ≠ 0 := by rintro rfl; simp at l
      obtain ⟨h1, h2⟩ := tdiv_unique e l p m
      rw [if_neg hb, (ck_iff _ _).2 ⟨rfl, h1 ▸ hc⟩, ok_bind, h2]

/-! ## theorems -/

/-- C128: arithmetic of integer fields is exact or undefined, division by zero and the quotient and remainder of -2^31 by -1 included -/
theorem C128_arith (o : Ar) (a b : Int) : (∀ c, o.app a b = ok c ↔ Exact o a b c) ∧ ((∀ c, ¬ Exact o a b c) → o.app a b = ub) := by
  refine ⟨app_iff o a b, fun h => ?_⟩
  have h' : ∀ c, o.app a b ≠ ok c := fun c hc => h c ((app_iff o a b c).1 hc)
  have hk : ∀ n, ck n = ub ∨ ∃ c, ck n = ok c := fun n => by unfold ck; split <;> simp
  cases o with
  | add => exact (hk _).resolve_right fun ⟨c, e⟩ => h' c e
  | sub => exact (hk _).resolve_right fun ⟨c, e⟩ => h' c e
  | mul => exact (hk _).resolve_right fun ⟨c, e⟩ => h' c e
  | div =>
    by_cases hb : b = 0
    · exact if_pos hb
    · have e : Ar.app .div a b = ck (a.tdiv b) := if_neg hb
      rw [e]
      exact (hk _).resolve_right fun ⟨c, e'⟩ => h' c (e.trans e')
  | mod =>
    by_cases hb : b = 0
    · exact if_pos hb
    · have e : Ar.app .mod a b = (do let _ ← ck (a.tdiv b); ok (a.tmod b)) := if_neg hb
      rw [e]
      rcases hk (a.tdiv b) with hc | ⟨c, hc⟩
      · rw [hc]; rfl
      · exact absurd (e.trans (by rw [hc, ok_bind])) (h' (a.tmod b))

/-- C128: the comparisons, by the sign of the difference -/
theorem C128_compare (a b : Int) : (Cm.app .lt a b = true ↔ 0 < b - a) ∧ (Cm.app .le a b = true ↔ 0 ≤ b - a) ∧ (Cm.app .gt a b = true ↔ b - a < 0) ∧
    (Cm.app .ge a b = true ↔ b - a ≤ 0) ∧ (Cm.app .eq a b = true ↔ b - a = 0) ∧ (Cm.app .ne a b = true ↔ b - a ≠ 0) := by
  refine ⟨?_, ?_, ?_, ?_, ?_, ?_⟩ <;> simp only [Cm.app, decide_eq_true_eq] <;> omega

/-- C128: with C++ numbers that the conversions do not change, whenever an expression has a value at a site it is the one of C++ with `?:`, `&&` and `||`. -/
theorem C128_value (s : Site) {k : K} (e : E k) (hp : Plain e) (v : Val k) (h : ev s e = ok v) : val s e = ok v := by
  induction e with
  | fld f => exact h
  | bfld f => exact h
  | obj z => exact h
  | ar o a b iha ihb =>
    obtain ⟨x, hx, h⟩ := ok_of_bind h
    obtain ⟨y, hy, h⟩ := ok_of_bind h
    rw [val, iha hp.1 x hx, ok_bind, ihb hp.2 y hy, ok_bind, h]
  | cm o a b iha ihb =>
    obtain ⟨x, hx, h⟩ := ok_of_bind h
    obtain ⟨y, hy, h⟩ := ok_of_bind h
    rw [val, iha hp.1 x hx, ok_bind, ihb hp.2 y hy, ok_bind, h]
  | cmN o a q iha =>
    obtain ⟨x, hx, h⟩ := ok_of_bind h
    obtain ⟨ha, z, rfl, hz⟩ := hp
    rw [toInt_int, ck, if_pos hz, ok_bind] at h
    rw [val, iha ha x hx, ok_bind, cm_cast]
    exact h
  | and a b iha ihb =>
    obtain ⟨x, hx, h⟩ := ok_of_bind h
    obtain ⟨y, hy, h⟩ := ok_of_bind h
    rw [val, iha hp.1 x hx, ok_bind]
    cases x
    · exact h
    · rw [if_pos rfl, ihb hp.2 y hy]; exact h
  | or a b iha ihb =>
    obtain ⟨x, hx, h⟩ := ok_of_bind h
    obtain ⟨y, hy, h⟩ := ok_of_bind h
    rw [val, iha hp.1 x hx, ok_bind]
    cases x
    · rw [if_neg (by simp), ihb hp.2 y hy]; exact h
    · exact h
  | not a iha =>
    obtain ⟨x, hx, h⟩ := ok_of_bind h
    rw [val, iha hp x hx, ok_bind, h]
  | wh m x y ihm ihx ihy =>
    obtain ⟨c, hc, h⟩ := ok_of_bind h
    obtain ⟨a, ha, h⟩ := ok_of_bind h
    obtain ⟨b, hb, h⟩ := ok_of_bind h
    rw [val, ihm hp.1 c hc, ok_bind, ← h]
    split
    · exact ihx hp.2.1 a ha
    · exact ihy hp.2.2 b hb
  | whR m x q ihm ihx =>
    obtain ⟨c, hc, h⟩ := ok_of_bind h
    obtain ⟨a, ha, h⟩ := ok_of_bind h
    rw [val, ihm hp.1 c hc, ok_bind, ← h]
    split
    · exact ihx hp.2.1 a ha
    · exact bit hp.2.2
  | whL m q y ihm ihy =>
    obtain ⟨c, hc, h⟩ := ok_of_bind h
    obtain ⟨a, ha, h⟩ := ok_of_bind h
    rw [val, ihm hp.1 c hc, ok_bind, ← h]
    split
    · exact bit hp.2.2
    · exact ihy hp.2.1 a ha
  | whB m q r ihm =>
    obtain ⟨c, hc, h⟩ := ok_of_bind h
    rw [val, ihm hp.1 c hc, ok_bind, ← h]
    split
    · exact bit hp.2.1
    · exact bit hp.2.2

theorem self_mem {k : K} (e : E k) : (⟨k, e⟩ : Σ k, E k) ∈ parts e := by cases e <;> simp [parts]

/-- C128: an expression has a value at a site exactly if all its parts have, also those C++ would not evaluate. -/
theorem C128_defined (s : Site) {k : K} (e : E k) (hp : Plain e) : (∃ v, ev s e = ok v) ↔ AllDefined s e := by
  constructor
  · intro ⟨v, h⟩ p hpm
    induction e with
    | fld f => simp only [parts, List.mem_singleton] at hpm; subst hpm; exact ⟨_, rfl⟩
    | bfld f => simp only [parts, List.mem_singleton] at hpm; subst hpm; exact ⟨_, rfl⟩
    | obj z => simp only [parts, List.mem_singleton] at hpm; subst hpm; exact ⟨_, rfl⟩
    | ar o a b iha ihb =>
      have hv := C128_value s _ hp v h
      obtain ⟨x, hx, h⟩ := ok_of_bind h
      obtain ⟨y, hy, h⟩ := ok_of_bind h
      simp only [parts, List.mem_cons, List.mem_append] at hpm
      rcases hpm with rfl | hpm | hpm
      · exact ⟨v, hv⟩
      · exact iha hp.1 x hx hpm
      · exact ihb hp.2 y hy hpm
    | cm o a b iha ihb =>
      have hv := C128_value s _ hp v h
      obtain ⟨x, hx, h⟩ := ok_of_bind h
      obtain ⟨y, hy, h⟩ := ok_of_bind h
      simp only [parts, List.mem_cons, List.mem_append] at hpm
      rcases hpm with rfl | hpm | hpm
      · exact ⟨v, hv⟩
      · exact iha hp.1 x hx hpm
      · exact ihb hp.2 y hy hpm
    | cmN o a q iha =>
      have hv := C128_value s _ hp v h
      obtain ⟨x, hx, h⟩ := ok_of_bind h
      simp only [parts, List.mem_cons] at hpm
      rcases hpm with rfl | hpm
      · exact ⟨v, hv⟩
      · exact iha hp.1 x hx hpm
    | and a b iha ihb =>
      have hv := C128_value s _ hp v h
      obtain ⟨x, hx, h⟩ := ok_of_bind h
      obtain ⟨y, hy, h⟩ := ok_of_bind h
      simp only [parts, List.mem_cons, List.mem_append] at hpm
      rcases hpm with rfl | hpm | hpm
      · exact ⟨v, hv⟩
      · exact iha hp.1 x hx hpm
      · exact ihb hp.2 y hy hpm
    | or a b iha ihb =>
      have hv := C128_value s _ hp v h
      obtain ⟨x, hx, h⟩ := ok_of_bind h
      obtain ⟨y, hy, h⟩ := ok_of_bind h
      simp only [parts, List.mem_cons, List.mem_append] at hpm
      rcases hpm with rfl | hpm | hpm
      · exact ⟨v, hv⟩
      · exact iha hp.1 x hx hpm
      · exact ihb hp.2 y hy hpm
    | not a iha =>
      have hv := C128_value s _ hp v h
      obtain ⟨x, hx, h⟩ := ok_of_bind h
      simp only [parts, List.mem_cons] at hpm
      rcases hpm with rfl | hpm
      · exact ⟨v, hv⟩
      · exact iha hp x hx hpm
    | wh m x y ihm ihx ihy =>
      have hv := C128_value s _ hp v h
      obtain ⟨c, hc, h⟩ := ok_of_bind h
      obtain ⟨a, ha, h⟩ := ok_of_bind h
      obtain ⟨b, hb, h⟩ := ok_of_bind h
      simp only [parts, List.mem_cons, List.mem_append] at hpm
      rcases hpm with rfl | hpm | hpm | hpm
      · exact ⟨v, hv⟩
      · exact ihm hp.1 c hc hpm
      · exact ihx hp.2.1 a ha hpm
      · exact ihy hp.2.2 b hb hpm
    | whR m x q ihm ihx =>
      have hv := C128_value s _ hp v h
      obtain ⟨c, hc, h⟩ := ok_of_bind h
      obtain ⟨a, ha, h⟩ := ok_of_bind h
      simp only [parts, List.mem_cons, List.mem_append] at hpm
      rcases hpm with rfl | hpm | hpm
      · exact ⟨v, hv⟩
      · exact ihm hp.1 c hc hpm
      · exact ihx hp.2.1 a ha hpm
    | whL m q y ihm ihy =>
      have hv := C128_value s _ hp v h
      obtain ⟨c, hc, h⟩ := ok_of_bind h
      obtain ⟨a, ha, h⟩ := ok_of_bind h
      simp only [parts, List.mem_cons, List.mem_append] at hpm
      rcases hpm with rfl | hpm | hpm
      · exact ⟨v, hv⟩
      · exact ihm hp.1 c hc hpm
      · exact ihy hp.2.1 a ha hpm
    | whB m q r ihm =>
      have hv := C128_value s _ hp v h
      obtain ⟨c, hc, h⟩ := ok_of_bind h
      simp only [parts, List.mem_cons] at hpm
      rcases hpm with rfl | hpm
      · exact ⟨v, hv⟩
      · exact ihm hp.1 c hc hpm
  · intro h
    induction e with
    | fld f => exact ⟨_, rfl⟩
    | bfld f => exact ⟨_, rfl⟩
    | obj z => exact ⟨_, rfl⟩
    | ar o a b iha ihb =>
      obtain ⟨x, hx⟩ := iha hp.1 fun p hpm => h p (by simp [parts, hpm])
      obtain ⟨y, hy⟩ := ihb hp.2 fun p hpm => h p (by simp [parts, hpm])
      obtain ⟨v, hv⟩ := h _ (self_mem _)
      simp only [val, C128_value s a hp.1 x hx, C128_value s b hp.2 y hy, ok_bind] at hv
      exact ⟨v, by rw [ev, hx, ok_bind, hy, ok_bind, hv]⟩
    | cm o a b iha ihb =>
      obtain ⟨x, hx⟩ := iha hp.1 fun p hpm => h p (by simp [parts, hpm])
      obtain ⟨y, hy⟩ := ihb hp.2 fun p hpm => h p (by simp [parts, hpm])
      exact ⟨_, by rw [ev, hx, ok_bind, hy, ok_bind]⟩
    | cmN o a q iha =>
      obtain ⟨x, hx⟩ := iha hp.1 fun p hpm => h p (by simp [parts, hpm])
      obtain ⟨ha, z, rfl, hz⟩ := hp
      exact ⟨_, by rw [ev, hx, ok_bind, toInt_int, ck, if_pos hz, ok_bind]⟩
    | and a b iha ihb =>
      obtain ⟨x, hx⟩ := iha hp.1 fun p hpm => h p (by simp [parts, hpm])
      obtain ⟨y, hy⟩ := ihb hp.2 fun p hpm => h p (by simp [parts, hpm])
      exact ⟨_, by rw [ev, hx, ok_bind, hy, ok_bind]⟩
    | or a b iha ihb =>
      obtain ⟨x, hx⟩ := iha hp.1 fun p hpm => h p (by simp [parts, hpm])
      obtain ⟨y, hy⟩ := ihb hp.2 fun p hpm => h p (by simp [parts, hpm])
      exact ⟨_, by rw [ev, hx, ok_bind, hy, ok_bind]⟩
    | not a iha =>
      obtain ⟨x, hx⟩ := iha hp fun p hpm => h p (by simp [parts, hpm])
      exact ⟨_, by rw [ev, hx, ok_bind]⟩
    | wh m x y ihm ihx ihy =>
      obtain ⟨c, hc⟩ := ihm hp.1 fun p hpm => h p (by simp [parts, hpm])
      obtain ⟨a, ha⟩ := ihx hp.2.1 fun p hpm => h p (by simp [parts, hpm])
      obtain ⟨b, hb⟩ := ihy hp.2.2 fun p hpm => h p (by simp [parts, hpm])
      exact ⟨_, by rw [ev, hc, ok_bind, ha, ok_bind, hb, ok_bind]⟩
    | whR m x q ihm ihx =>
      obtain ⟨c, hc⟩ := ihm hp.1 fun p hpm => h p (by simp [parts, hpm])
      obtain ⟨a, ha⟩ := ihx hp.2.1 fun p hpm => h p (by simp [parts, hpm])
      exact ⟨_, by rw [ev, hc, ok_bind, ha, ok_bind]⟩
    | whL m q y ihm ihy =>
      obtain ⟨c, hc⟩ := ihm hp.1 fun p hpm => h p (by simp [parts, hpm])
      obtain ⟨b, hb⟩ := ihy hp.2.1 fun p hpm => h p (by simp [parts, hpm])
      exact ⟨_, by rw [ev, hc, ok_bind, hb, ok_bind]⟩
    | whB m q r ihm =>
      obtain ⟨c, hc⟩ := ihm hp.1 fun p hpm => h p (by simp [parts, hpm])
      exact ⟨_, by rw [ev, hc, ok_bind]⟩

/-- C128: an assignment gives every site of the subset, in any order of them, the value of the expression with the fields as they were, the destination among them, and
leaves the other fields and sites -/
theorem C128_assign (d : Nat) (e : E .int) (hp : Plain e) (order : List Nat) (hn : order.Nodup) (g : Nat → Site) (h : ∀ x ∈ order, AllDefined (g x) e) :
    ∃ g', assign d e order g = ok g' ∧ ∀ x, (g' x).b = (g x).b ∧ (∀ f, f ≠ d → (g' x).i f = (g x).i f) ∧
      (if x ∈ order then val (g x) e = ok ((g' x).i d) else (g' x).i d = (g x).i d) := by
  induction order generalizing g with
  | nil => exact ⟨g, rfl, fun x => ⟨rfl, fun _ _ => rfl, by simp⟩⟩
  | cons a as ih =>
    obtain ⟨ha, has⟩ := List.nodup_cons.1 hn
    obtain ⟨v, hv⟩ := (C128_defined (g a) e hp).2 (h a (by simp))
    let s' : Site := { g a with i := Function.update (g a).i d v }
    obtain ⟨g', e', hg⟩ := ih has (Function.update g a s') fun x hx => by
      have hxa : x ≠ a := fun he => ha (he ▸ hx)
      rw [Function.update_of_ne hxa]
      exact h x (by simp [hx])
    refine ⟨g', by rw [assign, hv, ok_bind]; exact e', fun x => ?_⟩
    obtain ⟨h1, h2, h3⟩ := hg x
    by_cases hx : x = a
    · subst hx
      rw [Function.update_self] at h1 h2 h3
      rw [if_neg ha] at h3
      refine ⟨h1, fun f hf => (h2 f hf).trans (Function.update_of_ne hf _ _), ?_⟩
      rw [if_pos (by simp), h3, C128_value _ e hp v hv]
      simp [s']
    · rw [Function.update_of_ne hx] at h1 h2 h3
      exact ⟨h1, h2, by simpa [hx] using h3⟩

/-- C128, refuted: a guard does not guard.  `where(n != 0, m/n, c)` and `n != 0 && m/n > c` are undefined at every site with n = 0, where `n != 0 ? m/n : c` is c and
`n != 0 && m/n > c` of numbers is false. -/
theorem C128_guard_refuted (s : Site) (m n c : Nat) (h : s.i n = 0) :
    let g : E .bool := .cm .ne (.fld n) (.obj 0)
    let q : E .int := .ar .div (.fld m) (.fld n)
    Plain (.wh g q (.fld c)) ∧ ev s (.wh g q (.fld c)) = ub ∧ val s (.wh g q (.fld c)) = ok (s.i c) ∧
    ev s (.and g (.cm .gt q (.fld c))) = ub ∧ val s (.and g (.cm .gt q (.fld c))) = ok false := by
  intro g q
  refine ⟨by simp [Plain, g, q], ?_, ?_, ?_, ?_⟩ <;> simp only [ev, val, g, q, h, ok_bind, Ar.app, Cm.app] <;> rfl

/-- C128, refuted: a C++ number given to `where` is converted to the word type of the mask: where the mask is false, `where(m, n, z)` is 1 for every z but 0,
and `where(m, z, z')` is 1 for all of them. -/
theorem C128_number_refuted (s : Site) (m n : Nat) (q r : ℚ) (hq : q ≠ 0) (hr : r ≠ 0) :
    (s.b m = false → ev s (.whR (.bfld m) (.fld n) q) = ok 1) ∧ (s.b m = true → ev s (.whL (.bfld m) q (.fld n)) = ok 1) ∧
    ev s (.whB (.bfld m) q r) = ok 1 := by
  refine ⟨fun h => ?_, fun h => ?_, ?_⟩
  · simp [ev, ok_bind, h, ofBool, toBool, hq]
  · simp [ev, ok_bind, h, ofBool, toBool, hq]
  · simp [ev, ok_bind, ofBool, toBool, hq, hr]

/-- C128, refuted: a C++ number compared with an integer field is cut first: `n < q` is false for n between q - 1 and q, for every positive q that is no integer -/
theorem C128_cut_refuted (s : Site) (f : Nat) (q : ℚ) (h0 : 0 ≤ q) (h1 : ⌊q⌋ < 2 ^ 31) (hf : s.i f = ⌊q⌋) (hz : ((⌊q⌋ : Int) : ℚ) ≠ q) :
    ev s (.cmN .lt (.fld f) q) = ok false ∧ val s (.cmN .lt (.fld f) q) = ok true ∧
    ev s (.cmN .eq (.fld f) q) = ok true ∧ val s (.cmN .eq (.fld f) q) = ok false := by
  have hp : 0 ≤ ⌊q⌋ := Int.floor_nonneg.2 h0
  have ht : toInt q = ok ⌊q⌋ := by rw [toInt, if_pos h0, ck, if_pos ⟨by omega, h1⟩]
  have hl : ((⌊q⌋ : Int) : ℚ) < q := lt_of_le_of_ne (Int.floor_le q) hz
  refine ⟨?_, ?_, ?_, ?_⟩ <;> simp [ev, val, ok_bind, ht, hf, Cm.app, hl, hz]

/-! ## `where` and `copymask` with spin and colour -/

section
open Verif.Component
variable {α : Type}

/-- the numbers of the operands: `RScalar` or `RComplex`.  `where` of a real and a complex number, include/qdp_reality.h:2484-2493 and 2506-2515, takes `.real()` of the
`RScalar`, which has no such member (include/qdp_reality.h:27-250): such an expression does not compile, so both are of one kind -/
inductive Re | re | cx

@[reducible] def Num (α : Type) : Re → Type
  | .re => α
  | .cx => Verif.Site.Cx α

/-- `where` of words, include/qdp_simpleword.h:341-356 -/
def whW (a : Bool) (b c : α) : α := if a then b else c

/-- `where` of numbers: include/qdp_reality.h:1706-1709, 2463-2471 -/
def whN (a : Bool) : (r : Re) → Num α r → Num α r → Num α r
  | .re, b, c => whW a b c
  | .cx, b, c => (⟨whW a b.re c.re, whW a b.im c.im⟩ : Verif.Site.Cx α)

/-- `where` of objects: include/qdp_primscalar.h:1534-1537, include/qdp_primvector.h:1012-1021, include/qdp_primmatrix.h:1781-1792, include/qdp_primspinvec.h:755-764 -/
def whO (a : Bool) {r : Re} : (t : Ty) → Den (Num α r) t → Den (Num α r) t → Den (Num α r) t
  | .num, b, c => whN a r b c
  | .sca t, b, c => whO a t b c
  | .vec _ _ t, b, c => fun i => whO a t (b i) (c i)
  | .mat _ _ t, b, c => fun i => whO a t (b i) (c i)

/-- `copymask` of words, include/qdp_simpleword.h:81-103 -/
def cpW (d : α) (mask : Bool) (s : α) : α := if mask then s else d

/-- `copymask`: include/qdp_reality.h:1521-1525, 2339-2344, include/qdp_primscalar.h:1379-1382, include/qdp_primvector.h:788-792, include/qdp_primmatrix.h:1508-1513,
include/qdp_primspinvec.h:659-663 -/
def cpN (mask : Bool) : (r : Re) → Num α r → Num α r → Num α r
  | .re, d, s => cpW d mask s
  | .cx, d, s => (⟨cpW d.re mask s.re, cpW d.im mask s.im⟩ : Verif.Site.Cx α)
def cpO (mask : Bool) {r : Re} : (t : Ty) → Den (Num α r) t → Den (Num α r) t → Den (Num α r) t
  | .num, d, s => cpN mask r d s
  | .sca t, d, s => cpO mask t d s
  | .vec _ _ t, d, s => fun i => cpO mask t (d i) (s i)
  | .mat _ _ t, d, s => fun i => cpO mask t (d i) (s i)

/-- C128: `where` returns one of its operands as a whole -/
theorem C128_where (a : Bool) {r : Re} (t : Ty) (b c : Den (Num α r) t) : whO a t b c = if a = true then b else c := by
  induction t with
  | num => cases r <;> cases a <;> rfl
  | sca t ih => exact ih b c
  | vec k n t ih => funext i; show whO a t (b i) (c i) = _; rw [ih]; cases a <;> rfl
  | mat k n t ih => funext i; show whO a t (b i) (c i) = _; rw [ih]; cases a <;> rfl

/-- C128: `copymask` replaces the whole object if the mask is set and leaves it otherwise -/
theorem C128_copymask (mask : Bool) {r : Re} (t : Ty) (d s : Den (Num α r) t) : cpO mask t d s = if mask = true then s else d := by
  induction t with
  | num => cases r <;> cases mask <;> rfl
  | sca t ih => exact ih d s
  | vec k n t ih => funext i; show cpO mask t (d i) (s i) = _; rw [ih]; cases mask <;> rfl
  | mat k n t ih => funext i; show cpO mask t (d i) (s i) = _; rw [ih]; cases mask <;> rfl

end

/-! ### cases -/

/-- two fields and a mask -/
def s0 : Site := ⟨fun f => if f = 0 then 7 else 0, fun _ => false⟩
/-- `where(n0 > n1, n0 % 4, n1)` -/
def e0 : E .int := .wh (.cm .gt (.fld 0) (.fld 1)) (.ar .mod (.fld 0) (.obj 4)) (.fld 1)
example : Plain e0 := by simp [e0, Plain]
example : ev s0 e0 = ok 3 ∧ val s0 e0 = ok 3 := ⟨rfl, rfl⟩
example : AllDefined s0 e0 := (C128_defined s0 e0 (by simp [e0, Plain])).1 ⟨3, rfl⟩
example : ev s0 (.whR (.bfld 0) (.fld 0) 5) = ok 1 := (C128_number_refuted s0 0 0 5 5 (by norm_num) (by norm_num)).1 rfl
example : s0.i 1 = 0 := rfl
example : Ar.app .mod (-7) 4 = ok (-3) ∧ Ar.app .div (-7) 4 = ok (-1) ∧ Ar.app .mod (-2147483648) (-1) = ub := by refine ⟨?_, ?_, ?_⟩ <;> rfl
example : ev s0 (.wh (.cm .ne (.fld 1) (.obj 0)) (.ar .div (.fld 0) (.fld 1)) (.fld 0)) = ub := (C128_guard_refuted s0 0 1 0 rfl).2.1
/-- the hypotheses of `C128_cut_refuted`: 7 and 7.5 -/
example : (0 : ℚ) ≤ 15 / 2 ∧ ⌊(15 / 2 : ℚ)⌋ < 2 ^ 31 ∧ s0.i 0 = ⌊(15 / 2 : ℚ)⌋ ∧ ((⌊(15 / 2 : ℚ)⌋ : Int) : ℚ) ≠ 15 / 2 := by
  have h : ⌊(15 / 2 : ℚ)⌋ = 7 := by norm_num
  rw [h]; norm_num [s0]
/-- a masked assignment on two sites -/
example : ∃ g', assign 1 e0 [3, 5] (fun _ => s0) = ok g' ∧ (g' 3).i 1 = 3 ∧ (g' 4).i 1 = 0 := ⟨_, rfl, rfl, rfl⟩

end Verif.Where
