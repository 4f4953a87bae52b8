import Verif.Basic
import Mathlib.Analysis.Complex.Basic
import Mathlib.Algebra.Order.Floor.Ring
/-
Arithmetic of scalar and complex fields, with the word types of the operands: model of include/qdp_reality.h
(`RScalar`, `RComplex`), of the types of results (include/PETE/TypeComputations.h) and of C++ numbers in expressions
(include/QDPOperators.h).

Words: `int` is a 32-bit integer whose overflow is undefined; `float` and `double` are real numbers without rounding,
overflow or exceptional values, so a floating-point division by zero is outside the model (`ub`).  One site of a field
with trivial spin and colour; the levels OLattice, OScalar, PScalar pass the operation on site by site and element by
element (see Verif.Evaluate, Verif.SiteType).  `bool` fields and the integer operators `%`, `<<`, `&` ... are not
included.
-/
namespace Verif.Reality
open Verif Outcome

/-! ## Words -/

/-- the word types of fields with numbers: INTEGER32, REAL32, REAL64 (include/qdp_precision.h) -/
inductive Ty | int | float | double
deriving DecidableEq, Repr

/-- a value of a word type -/
inductive W
  | i (n : Int)
  | f (x : ℝ)
  | d (x : ℝ)

/-- the type of a word -/
def W.ty : W → Ty
  | .i _ => .int
  | .f _ => .float
  | .d _ => .double

/-- the number a word stands for -/
noncomputable def W.val : W → ℝ
  | .i n => n
  | .f x => x
  | .d x => x

/-- a 32-bit signed result -/
def ck (n : Int) : Outcome Int := if -2 ^ 31 ≤ n ∧ n < 2 ^ 31 then ok n else ub

/-- conversion of a number to int in C++: the fraction is discarded; undefined if the result does not fit -/
noncomputable def toInt (x : ℝ) : Outcome Int := ck (if 0 ≤ x then ⌊x⌋ else ⌈x⌉)

/-- conversion of a word to a word type -/
noncomputable def conv : Ty → W → Outcome W
  | .int, .i n => ok (.i n)
  | .int, .f x => do return .i (← toInt x)
  | .int, .d x => do return .i (← toInt x)
  | .float, w => ok (.f w.val)
  | .double, w => ok (.d w.val)

/-- built-in `+ - * /` of C++ -/
inductive Op | add | sub | mul | div
deriving DecidableEq, Repr

/-- on ints -/
def Op.onInt : Op → Int → Int → Outcome Int
  | .add, a, b => ck (a + b)
  | .sub, a, b => ck (a - b)
  | .mul, a, b => ck (a * b)
  | .div, a, b => if b = 0 then ub else ck (a.tdiv b)

/-- on floating-point numbers -/
noncomputable def Op.onReal : Op → ℝ → ℝ → Outcome ℝ
  | .add, a, b => ok (a + b)
  | .sub, a, b => ok (a - b)
  | .mul, a, b => ok (a * b)
  | .div, a, b => if b = 0 then ub else ok (a / b)

/-- the usual arithmetic conversions of C++: double if one is a double, otherwise float if one is a float, otherwise int -/
noncomputable def bin (op : Op) : W → W → Outcome W
  | .i a, .i b => do return .i (← op.onInt a b)
  | .d a, b => do return .d (← op.onReal a b.val)
  | a, .d b => do return .d (← op.onReal a.val b)
  | a, b => do return .f (← op.onReal a.val b.val)

/-- unary minus -/
noncomputable def neg : W → Outcome W
  | .i n => do return .i (← ck (-n))
  | .f x => ok (.f (-x))
  | .d x => ok (.d (-x))

/-- `Promote<T1,T2>`, include/PETE/TypeComputations.h:206-340 -/
def promote : Ty → Ty → Ty
  | .int, .int => .int
  | .int, .float => .float
  | .int, .double => .double
  | .float, .int => .float
  | .float, .float => .float
  | .float, .double => .double
  | .double, .int => .double
  | .double, .float => .double
  | .double, .double => .double

/-! ## RScalar, RComplex -/

/-- the complex part of a site: `RScalar<T>` (include/qdp_reality.h:27-190) or `RComplex<T>` (247-385); both numbers of
a complex have the type T, which `ty` reads off the real part -/
inductive V
  | s (x : W)
  | c (re im : W)

/-- `WordType`, include/qdp_reality.h:484-494 -/
def V.ty : V → Ty
  | .s x => x.ty
  | .c re _ => re.ty

/-- the type is that of both parts -/
def V.Ok : V → Prop
  | .s _ => True
  | .c re im => re.ty = im.ty

/-- `Ret_t(re, im)`: the parts are converted to the type of the result, include/qdp_reality.h:262-264 -/
noncomputable def mk (t : Ty) (re im : W) : Outcome V := do
  let a ← conv t re
  let b ← conv t im
  return .c a b

/-- `RScalar<T>(x)`, include/qdp_reality.h:35-43 -/
noncomputable def mkS (t : Ty) (x : W) : Outcome V := do return .s (← conv t x)

/-- unary minus, include/qdp_reality.h:870-874, 1830-1836 -/
noncomputable def negV : V → Outcome V
  | .s x => do mkS x.ty (← neg x)
  | .c re im => do mk re.ty (← neg re) (← neg im)

/-- `operator+`, include/qdp_reality.h:878-881, 1842-1870 -/
noncomputable def addV (l r : V) : Outcome V :=
  let t := promote l.ty r.ty
  match l, r with
  | .s a, .s b => do mkS t (← bin .add a b)
  | .c a b, .c x y => do mk t (← bin .add a x) (← bin .add b y)
  | .c a b, .s x => do mk t (← bin .add a x) b
  | .s a, .c x y => do mk t (← bin .add a x) y

/-- `operator-`, include/qdp_reality.h:886-889, 1876-1904 -/
noncomputable def subV (l r : V) : Outcome V :=
  let t := promote l.ty r.ty
  match l, r with
  | .s a, .s b => do mkS t (← bin .sub a b)
  | .c a b, .c x y => do mk t (← bin .sub a x) (← bin .sub b y)
  | .c a b, .s x => do mk t (← bin .sub a x) b
  | .s a, .c x y => do mk t (← bin .sub a x) (← neg y)

/-- `operator*`, include/qdp_reality.h:894-897, 1910-1938 -/
noncomputable def mulV (l r : V) : Outcome V :=
  let t := promote l.ty r.ty
  match l, r with
  | .s a, .s b => do mkS t (← bin .mul a b)
  | .c a b, .c x y => do
      mk t (← bin .sub (← bin .mul a x) (← bin .mul b y)) (← bin .add (← bin .mul a y) (← bin .mul b x))
  | .c a b, .s x => do mk t (← bin .mul a x) (← bin .mul b x)
  | .s a, .c x y => do mk t (← bin .mul a x) (← bin .mul a y)

/-- `T2(1.0)` in a word type -/
def one : Ty → W
  | .int => .i 1
  | .float => .f 1
  | .double => .d 1

/-- `operator/`, include/qdp_reality.h:933-938, 2000-2034; `tmp` has the type T2 of the divisor -/
noncomputable def divV (l r : V) : Outcome V :=
  let t := promote l.ty r.ty
  match l, r with
  | .s a, .s b => do mkS t (← bin .div a b)
  | .c a b, .c x y => do
      let tmp ← conv x.ty (← bin .div (one x.ty) (← bin .add (← bin .mul x x) (← bin .mul y y)))
      mk t (← bin .mul (← bin .add (← bin .mul a x) (← bin .mul b y)) tmp)
        (← bin .mul (← bin .sub (← bin .mul b x) (← bin .mul a y)) tmp)
  | .c a b, .s x => do
      let tmp ← conv x.ty (← bin .div (one x.ty) x)
      mk t (← bin .mul a tmp) (← bin .mul b tmp)
  | .s a, .c x y => do
      let tmp ← conv x.ty (← bin .div (one x.ty) (← bin .add (← bin .mul x x) (← bin .mul y y)))
      mk t (← bin .mul (← bin .mul a x) tmp) (← bin .mul (← bin .mul (← neg a) y) tmp)

/-- `+ - * /` of fields -/
noncomputable def opV : Op → V → V → Outcome V
  | .add => addV
  | .sub => subV
  | .mul => mulV
  | .div => divV

/-- functions of one real argument, `sin`, `cos`, `exp`, `sqrt` ... (include/qdp_reality.h:1230-1353, `return
sin(s1.elem())`).  The result has the type of the argument: no `UnaryReturn<int,FnSin>` is defined, so the general
template applies (include/PETE/TypeComputations.h:60-63).  There are no such functions of complex fields: `ub` stands
for a program that is refused. -/
noncomputable def fnV (g : ℝ → ℝ) : V → Outcome V
  | .s x => mkS x.ty (.d (g x.val))
  | .c _ _ => ub

/-! ## Expressions -/

/-- an expression on the right of a statement, at one site: fields, unary minus, `+ - * /` of two expressions, of an
expression and a C++ number (include/QDPOperators.h:3719-3733 and alike for expression templates, 6407-6421), of a C++
number and an expression (4279-4293, 6967-6981), functions of one argument -/
inductive E
  | field (v : V)
  | neg (e : E)
  | bin (op : Op) (l r : E)
  | numR (op : Op) (l : E) (x : W)
  | numL (op : Op) (x : W) (r : E)
  | fn (g : ℝ → ℝ) (e : E)

/-- the word type of the container of an expression, computed from the types alone: `BinaryReturn`, `UnaryReturn` of the
containers, e.g. include/qdp_reality.h:480-500 -/
def E.ty : E → Ty
  | .field v => v.ty
  | .neg e => e.ty
  | .bin _ l r => promote l.ty r.ty
  | .numR _ l _ => promote l.ty l.ty
  | .numL _ _ r => promote r.ty r.ty
  | .fn _ e => e.ty

/-- the value of an expression at a site.  A C++ number is converted to the word type of the other operand:
the parameter of the operator has the type `const WordType<C1>::Type_t&`, include/QDPOperators.h:3724, 4284. -/
noncomputable def eval : E → Outcome V
  | .field v => ok v
  | .neg e => do negV (← eval e)
  | .bin op l r => do opV op (← eval l) (← eval r)
  | .numR op l x => do
      let n ← conv l.ty x
      opV op (← eval l) (.s n)
  | .numL op x r => do
      let n ← conv r.ty x
      opV op (.s n) (← eval r)
  | .fn g e => do fnV g (← eval e)

/-! ## Compound assignment -/

/-- the memory of complex numbers -/
abbrev Mem := Nat → V

/-- `real() op= x`: computed in the common type, converted to the type of the left side -/
noncomputable def opAssignW (op : Op) (l x : W) : Outcome W := do conv l.ty (← bin op l x)

/-- `RComplex op= RComplex`: for `+=`, `-=` part by part, reading the right side again for the second part
(include/qdp_reality.h:328-346); for `*=`, `/=` through a temporary `d` (349-373).  `RComplex op= RScalar`: 281-312.
`RScalar op= RScalar`: 68-101.  `RScalar op= RComplex` does not exist (`ub`). -/
noncomputable def opAssign (op : Op) (m : Mem) (a b : Nat) : Outcome Mem :=
  match m a, m b with
  | .s l, .s x => do return Function.update m a (.s (← opAssignW op l x))
  | .s _, .c _ _ => ub
  | .c l k, .s x =>
    if op = .add ∨ op = .sub then do return Function.update m a (.c (← opAssignW op l x) k)
    else do
      let m1 := Function.update m a (.c (← opAssignW op l x) k)
      match m1 a, m1 b with
      | .c l1 k1, .s x1 => do return Function.update m1 a (.c l1 (← opAssignW op k1 x1))
      | _, _ => ub
  | .c l k, .c x _ =>
    if op = .add ∨ op = .sub then do
      let m1 := Function.update m a (.c (← opAssignW op l x) k)
      match m1 a, m1 b with
      | .c l1 k1, .c _ y1 => do return Function.update m1 a (.c l1 (← opAssignW op k1 y1))
      | _, _ => ub
    else do
      let t ← opV op (m a) (m b)
      match t with
      | .s _ => ub
      | .c re im => do
        -- RComplex<T> d = *this op rhs
        let d ← mk l.ty re im
        match d with
        | .s _ => ub
        | .c re im =>
          let m1 := Function.update m a (.c re k)
          match m1 a with
          | .c re1 _ => return Function.update m1 a (.c re1 im)
          | _ => ub

/-! ## Specification -/

/-- the complex number a site holds -/
noncomputable def V.val : V → ℂ
  | .s x => (x.val : ℂ)
  | .c re im => ⟨re.val, im.val⟩

/-- the operation on complex numbers -/
noncomputable def Op.den : Op → ℂ → ℂ → ℂ
  | .add, a, b => a + b
  | .sub, a, b => a - b
  | .mul, a, b => a * b
  | .div, a, b => a / b

/-- the number an expression stands for, irrespective of types -/
noncomputable def den : E → ℂ
  | .field v => v.val
  | .neg e => - den e
  | .bin op l r => op.den (den l) (den r)
  | .numR op l x => op.den (den l) x.val
  | .numL op x r => op.den x.val (den r)
  | .fn g e => (g (den e).re : ℂ)

/-- no divisor is zero -/
def NoZero : E → Prop
  | .field _ => True
  | .neg e => NoZero e
  | .bin op l r => NoZero l ∧ NoZero r ∧ (op = .div → den r ≠ 0)
  | .numR op l x => NoZero l ∧ (op = .div → x.val ≠ 0)
  | .numL op _ r => NoZero r ∧ (op = .div → den r ≠ 0)
  | .fn _ e => NoZero e

/-- every field is of its type -/
def E.Ok : E → Prop
  | .field v => v.Ok
  | .neg e => e.Ok
  | .bin _ l r => l.Ok ∧ r.Ok
  | .numR _ l _ => l.Ok
  | .numL _ _ r => r.Ok
  | .fn _ e => e.Ok

/-- every field is of floating-point type, functions are applied to real expressions -/
def isReal : E → Bool
  | .field (.s _) => true
  | .field (.c _ _) => false
  | .neg e => isReal e
  | .bin _ l r => isReal l && isReal r
  | .numR _ l _ => isReal l
  | .numL _ _ r => isReal r
  | .fn _ _ => true

def Floating : E → Prop
  | .field v => v.ty ≠ .int
  | .neg e => Floating e
  | .bin _ l r => Floating l ∧ Floating r
  | .numR _ l _ => Floating l
  | .numL _ _ r => Floating r
  | .fn _ e => Floating e ∧ isReal e = true

/-- integer fields may occur, except where types matter: a C++ number next to an integer expression is an int; the
argument of a function is of floating-point type; an integer divisor divides only a real expression that is not integer
(a C++ number is converted to the type of the other operand first) -/
def Fine : E → Prop
  | .field _ => True
  | .neg e => Fine e
  | .bin op l r => Fine l ∧ Fine r ∧
      (op = .div → r.ty ≠ .int ∨ (isReal l = true ∧ isReal r = true ∧ l.ty ≠ .int))
  | .numR op l x => Fine l ∧ (l.ty = .int → x.ty = .int) ∧ (op = .div → l.ty ≠ .int)
  | .numL op x r => Fine r ∧ (r.ty = .int → x.ty = .int) ∧ (op = .div → r.ty ≠ .int)
  | .fn _ e => Fine e ∧ e.ty ≠ .int

end Verif.Reality
