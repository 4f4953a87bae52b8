import Mathlib.Algebra.Ring.Defs
import Mathlib.Algebra.Group.Pi.Basic
import Mathlib.Data.Fin.Basic
/-
The types of one site and the operators on them: real and complex numbers, and the scalars, vectors and matrices built of them level by
level (colour inside spin).

Arithmetic is exact, over any commutative ring in place of the words (float, double).  A PScalar is the same as its element.  A vector or a
matrix of N = n+1 is a function of its indices: N = 0 is not modelled.  Functions are total; where the C++ has no overload (so that the program
does not compile) the value given here is arbitrary and a predicate beside the function says so.
-/
set_option linter.unusedVariables false
namespace Verif.Site

/-- which index a vector or matrix carries: PColorVector, PColorMatrix or PSpinVector, PSpinMatrix -/
inductive Kind | color | spin
  deriving DecidableEq

/-- `RScalar`, `RComplex` (include/qdp_reality.h), `PScalar` (include/qdp_primscalar.h:25), `PVector` (include/qdp_primvector.h),
`PMatrix` (include/qdp_primmatrix.h); `vec k n`, `mat k n` stand for N = n+1 -/
inductive Ty
  | rs | rc
  | sca (t : Ty)
  | vec (k : Kind) (n : Nat) (t : Ty)
  | mat (k : Kind) (n : Nat) (t : Ty)
  deriving DecidableEq

/-- `RComplex`, include/qdp_reality.h: real and imaginary part -/
@[ext] structure Cx (K : Type) where
  re : K
  im : K

section
variable (K : Type)

/-- the values of a type -/
@[reducible] def Den : Ty → Type
  | .rs => K
  | .rc => Cx K
  | .sca t => Den t
  | .vec _ n t => Fin (n + 1) → Den t
  | .mat _ n t => Fin (n + 1) → Fin (n + 1) → Den t
end

/-! ## loops -/

/-- `d = f(0); for(int k=1; k < N; ++k) d += f(k);`, as in include/qdp_primmatrix.h:657-661 -/
def accum {A : Type} (add : A → A → A) (n : Nat) (f : Fin (n + 1) → A) : A :=
  Fin.foldl n (fun d k => add d (f k.succ)) (f 0)

/-- `d = f(0,0); for(k=1..) d += f(0,k); for(j=1..) for(k=0..) d += f(j,k);`, as in include/qdp_primmatrix.h:1059-1065 -/
def accum2 {A : Type} (add : A → A → A) (n : Nat) (f : Fin (n + 1) → Fin (n + 1) → A) : A :=
  Fin.foldl n (fun d j => Fin.foldl (n + 1) (fun d k => add d (f j.succ k)) d) (accum add n (f 0))

section
variable {K : Type} [CommRing K]

/-! ## addition and the zero element -/

/-- `operator+`, `+=` of equal types: include/qdp_reality.h:878-881, 1842-1848, include/qdp_primscalar.h:411-414,
include/qdp_primvector.h:378-385, include/qdp_primmatrix.h:388-397 -/
def add : (t : Ty) → Den K t → Den K t → Den K t
  | .rs, x, y => x + y
  | .rc, x, y => ⟨x.re + y.re, x.im + y.im⟩
  | .sca t, x, y => add t x y
  | .vec _ _ t, x, y => fun i => add t (x i) (y i)
  | .mat _ _ t, x, y => fun i j => add t (x i j) (y i j)

/-- the arbitrary value of what does not compile -/
def junk : (t : Ty) → Den K t
  | .rs => 0
  | .rc => ⟨0, 0⟩
  | .sca t => junk t
  | .vec _ _ t => fun _ => junk t
  | .mat _ _ t => fun _ _ => junk t

/-! ## products -/

end

/-- the pairs of types that `operator*` accepts, with the type of the result (the BinaryReturn of OpMultiply) -/
inductive Mul : Ty → Ty → Ty → Type
  /-- include/qdp_reality.h:894-897 -/
  | rr : Mul .rs .rs .rs
  /-- include/qdp_reality.h:1921-1927 -/
  | rc : Mul .rs .rc .rc
  /-- include/qdp_reality.h:1932-1938 -/
  | cr : Mul .rc .rs .rc
  /-- include/qdp_reality.h:1910-1916 -/
  | cc : Mul .rc .rc .rc
  /-- include/qdp_primscalar.h:427-430 -/
  | ss {a b c} (p : Mul a b c) : Mul (.sca a) (.sca b) (.sca c)
  /-- include/qdp_primmatrix.h:578-586 -/
  | sm {a b c} (k : Kind) (n : Nat) (p : Mul a b c) : Mul (.sca a) (.mat k n b) (.mat k n c)
  /-- include/qdp_primmatrix.h:504-512 -/
  | ms {a b c} (k : Kind) (n : Nat) (p : Mul a b c) : Mul (.mat k n a) (.sca b) (.mat k n c)
  /-- include/qdp_primmatrix.h:651-664 -/
  | mm {a b c} (k : Kind) (n : Nat) (p : Mul a b c) : Mul (.mat k n a) (.mat k n b) (.mat k n c)
  /-- include/qdp_primvector.h:428-435 -/
  | sv {a b c} (k : Kind) (n : Nat) (p : Mul a b c) : Mul (.sca a) (.vec k n b) (.vec k n c)
  /-- include/qdp_primvector.h:403-410 -/
  | vs {a b c} (k : Kind) (n : Nat) (p : Mul a b c) : Mul (.vec k n a) (.sca b) (.vec k n c)
  /-- include/qdp_primvector.h:453-465 -/
  | mv {a b c} (k : Kind) (n : Nat) (p : Mul a b c) : Mul (.mat k n a) (.vec k n b) (.vec k n c)

section
variable {K : Type} [CommRing K]

/-- `operator*`, at the lines named beside the constructors of `Mul` -/
def mul : {a b c : Ty} → Mul a b c → Den K a → Den K b → Den K c
  | _, _, _, .rr, l, r => l * r
  | _, _, _, .rc, l, r => ⟨l * r.re, l * r.im⟩
  | _, _, _, .cr, l, r => ⟨l.re * r, l.im * r⟩
  | _, _, _, .cc, l, r => ⟨l.re * r.re - l.im * r.im, l.re * r.im + l.im * r.re⟩
  | _, _, _, @Mul.ss _ _ c p, l, r => (mul p l r : Den K c)
  | _, _, _, .sm _ _ p, l, r => fun i j => mul p l (r i j)
  | _, _, _, .ms _ _ p, l, r => fun i j => mul p (l i j) r
  | _, _, _, @Mul.mm _ _ c _ n p, l, r => fun i j => accum (add c) n fun k => mul p (l i k) (r k j)
  | _, _, _, .sv _ _ p, l, r => fun i => mul p l (r i)
  | _, _, _, .vs _ _ p, l, r => fun i => mul p (l i) r
  | _, _, _, @Mul.mv _ _ c _ n p, l, r => fun i => accum (add c) n fun j => mul p (l i j) (r j)

/-- `adjMultiply`: include/qdp_reality.h:902-908, 1944-1958, include/qdp_primscalar.h:435-438, include/qdp_primmatrix.h:522-530,
596-604, 674-687, include/qdp_primvector.h:440-447, 470-482 -/
def adjMul : {a b c : Ty} → Mul a b c → Den K a → Den K b → Den K c
  | _, _, _, .rr, l, r => l * r
  | _, _, _, .rc, l, r => junk .rc
  | _, _, _, .cr, l, r => junk .rc
  | _, _, _, .cc, l, r => ⟨l.re * r.re + l.im * r.im, l.re * r.im - l.im * r.re⟩
  | _, _, _, @Mul.ss _ _ c p, l, r => (adjMul p l r : Den K c)
  | _, _, _, .sm _ _ p, l, r => fun i j => adjMul p l (r i j)
  | _, _, _, .ms _ _ p, l, r => fun i j => adjMul p (l j i) r
  | _, _, _, @Mul.mm _ _ c _ n p, l, r => fun i j => accum (add c) n fun k => adjMul p (l k i) (r k j)
  | _, _, _, .sv _ _ p, l, r => fun i => adjMul p l (r i)
  | _, _, _, @Mul.vs _ _ c k n p, l, r => junk (.vec k n c)
  | _, _, _, @Mul.mv _ _ c _ n p, l, r => fun i => accum (add c) n fun j => adjMul p (l j i) (r j)

/-- `multiplyAdj`: include/qdp_reality.h:913-919, 1963-1976, include/qdp_primscalar.h:443-446, include/qdp_primmatrix.h:540-548,
614-622, 697-710, include/qdp_primvector.h:415-422 -/
def mulAdj : {a b c : Ty} → Mul a b c → Den K a → Den K b → Den K c
  | _, _, _, .rr, l, r => l * r
  | _, _, _, .rc, l, r => junk .rc
  | _, _, _, .cr, l, r => junk .rc
  | _, _, _, .cc, l, r => ⟨l.re * r.re + l.im * r.im, l.im * r.re - l.re * r.im⟩
  | _, _, _, @Mul.ss _ _ c p, l, r => (mulAdj p l r : Den K c)
  | _, _, _, .sm _ _ p, l, r => fun i j => mulAdj p l (r j i)
  | _, _, _, .ms _ _ p, l, r => fun i j => mulAdj p (l i j) r
  | _, _, _, @Mul.mm _ _ c _ n p, l, r => fun i j => accum (add c) n fun k => mulAdj p (l i k) (r j k)
  | _, _, _, @Mul.sv _ _ c k n p, l, r => junk (.vec k n c)
  | _, _, _, .vs _ _ p, l, r => fun i => mulAdj p (l i) r
  | _, _, _, @Mul.mv _ _ c k n p, l, r => junk (.vec k n c)

/-- `adjMultiplyAdj`: include/qdp_reality.h:924-930, 1981-1994, include/qdp_primscalar.h:459-462, include/qdp_primmatrix.h:558-566,
632-640, 720-733 -/
def adjMulAdj : {a b c : Ty} → Mul a b c → Den K a → Den K b → Den K c
  | _, _, _, .rr, l, r => l * r
  | _, _, _, .rc, l, r => junk .rc
  | _, _, _, .cr, l, r => junk .rc
  | _, _, _, .cc, l, r => ⟨l.re * r.re - l.im * r.im, -(l.re * r.im + l.im * r.re)⟩
  | _, _, _, @Mul.ss _ _ c p, l, r => (adjMulAdj p l r : Den K c)
  | _, _, _, .sm _ _ p, l, r => fun i j => adjMulAdj p l (r j i)
  | _, _, _, .ms _ _ p, l, r => fun i j => adjMulAdj p (l j i) r
  | _, _, _, @Mul.mm _ _ c _ n p, l, r => fun i j => accum (add c) n fun k => adjMulAdj p (l k i) (r j k)
  | _, _, _, @Mul.sv _ _ c k n p, l, r => junk (.vec k n c)
  | _, _, _, @Mul.vs _ _ c k n p, l, r => junk (.vec k n c)
  | _, _, _, @Mul.mv _ _ c k n p, l, r => junk (.vec k n c)

end

/-- the products with an overload of `adjMultiply` at every level -/
def Mul.HasAdjMul : {a b c : Ty} → Mul a b c → Prop
  | _, _, _, .rr => True
  | _, _, _, .rc => False
  | _, _, _, .cr => False
  | _, _, _, .cc => True
  | _, _, _, .ss p | _, _, _, .sm _ _ p | _, _, _, .ms _ _ p | _, _, _, .mm _ _ p | _, _, _, .sv _ _ p | _, _, _, .mv _ _ p => p.HasAdjMul
  | _, _, _, .vs _ _ _ => False

/-- the products with an overload of `multiplyAdj` at every level -/
def Mul.HasMulAdj : {a b c : Ty} → Mul a b c → Prop
  | _, _, _, .rr => True
  | _, _, _, .rc => False
  | _, _, _, .cr => False
  | _, _, _, .cc => True
  | _, _, _, .ss p | _, _, _, .sm _ _ p | _, _, _, .ms _ _ p | _, _, _, .mm _ _ p | _, _, _, .vs _ _ p => p.HasMulAdj
  | _, _, _, .sv _ _ _ | _, _, _, .mv _ _ _ => False

/-- the products with an overload of `adjMultiplyAdj` at every level -/
def Mul.HasAdjMulAdj : {a b c : Ty} → Mul a b c → Prop
  | _, _, _, .rr => True
  | _, _, _, .rc => False
  | _, _, _, .cr => False
  | _, _, _, .cc => True
  | _, _, _, .ss p | _, _, _, .sm _ _ p | _, _, _, .ms _ _ p | _, _, _, .mm _ _ p => p.HasAdjMulAdj
  | _, _, _, .vs _ _ _ | _, _, _, .sv _ _ _ | _, _, _, .mv _ _ _ => False

/-! ## functions of one argument -/

/-- no level is a vector: `adj`, `transpose`, `trace` have no overload for PVector -/
def NoVec : Ty → Prop
  | .rs | .rc => True
  | .sca t | .mat _ _ t => NoVec t
  | .vec _ _ _ => False

section
variable {K : Type} [CommRing K]

/-- `adj`: include/qdp_reality.h:1112-1118, 2079-2091, include/qdp_primscalar.h:643-646, include/qdp_primmatrix.h:846-855 -/
def adj : (t : Ty) → Den K t → Den K t
  | .rs, x => x
  | .rc, x => ⟨x.re, -x.im⟩
  | .sca t, x => adj t x
  | .vec k n t, x => junk (.vec k n t)
  | .mat _ _ t, x => fun i j => adj t (x j i)

/-- `conj`: include/qdp_reality.h:1124-1127, 2096-2102, include/qdp_primscalar.h:652-655, include/qdp_primvector.h:620-628,
include/qdp_primmatrix.h:866-875 -/
def conj : (t : Ty) → Den K t → Den K t
  | .rs, x => x
  | .rc, x => ⟨x.re, -x.im⟩
  | .sca t, x => conj t x
  | .vec _ _ t, x => fun i => conj t (x i)
  | .mat _ _ t, x => fun i j => conj t (x i j)

/-- `transpose`: include/qdp_reality.h:1133-1139, 2107-2118, include/qdp_primscalar.h:661-664, include/qdp_primmatrix.h:886-895 -/
def transpose : (t : Ty) → Den K t → Den K t
  | .rs, x => x
  | .rc, x => ⟨x.re, x.im⟩
  | .sca t, x => transpose t x
  | .vec k n t, x => junk (.vec k n t)
  | .mat _ _ t, x => fun i j => transpose t (x j i)

end

/-- the type of a trace: the UnaryReturn of FnTrace -/
@[reducible] def trTy : Ty → Ty
  | .rs => .rs
  | .rc => .rc
  | .sca t => .sca (trTy t)
  | .vec _ _ t => .sca (trTy t)
  | .mat _ _ t => .sca (trTy t)

/-- the type of a real part: the UnaryReturn of FnReal, FnImag -/
@[reducible] def reTy : Ty → Ty
  | .rs => .rs
  | .rc => .rs
  | .sca t => .sca (reTy t)
  | .vec k n t => .vec k n (reTy t)
  | .mat k n t => .mat k n (reTy t)

section
variable {K : Type} [CommRing K]

/-- `trace`: include/qdp_reality.h:1152-1158, 2129-2136, include/qdp_primscalar.h:671-674, include/qdp_primmatrix.h:907-916 -/
def trace : (t : Ty) → Den K t → Den K (trTy t)
  | .rs, x => x
  | .rc, x => ⟨x.re, x.im⟩
  | .sca t, x => trace t x
  | .vec _ _ t, x => junk (trTy t)
  | .mat _ n t, x => accum (A := Den K (trTy t)) (add (trTy t)) n fun i => trace t (x i i)

/-- `real`: include/qdp_reality.h:1209-1212, 2191-2194, include/qdp_primscalar.h:764-767, include/qdp_primvector.h:501-509,
include/qdp_primmatrix.h:1242-1251 -/
def real : (t : Ty) → Den K t → Den K (reTy t)
  | .rs, x => x
  | .rc, x => x.re
  | .sca t, x => real t x
  | .vec _ _ t, x => fun i => real t (x i)
  | .mat _ _ t, x => fun i j => real t (x i j)

/-- `imag`: include/qdp_reality.h:1218-1222, 2204-2207, include/qdp_primscalar.h:773-776, include/qdp_primvector.h:515-523,
include/qdp_primmatrix.h:1262-1271 -/
def imag : (t : Ty) → Den K t → Den K (reTy t)
  | .rs, x => 0
  | .rc, x => x.im
  | .sca t, x => imag t x
  | .vec _ _ t, x => fun i => imag t (x i)
  | .mat _ _ t, x => fun i j => imag t (x i j)

/-- `realTrace`: include/qdp_reality.h:1169-1175, 2147-2151, include/qdp_primscalar.h:680-683, include/qdp_primmatrix.h:927-936 -/
def realTrace : (t : Ty) → Den K t → Den K (reTy (trTy t))
  | .rs, x => x
  | .rc, x => x.re
  | .sca t, x => realTrace t x
  | .vec _ _ t, x => junk (reTy (trTy t))
  | .mat _ n t, x => accum (A := Den K (reTy (trTy t))) (add (reTy (trTy t))) n fun i => realTrace t (x i i)

/-- `imagTrace`: include/qdp_reality.h:1186-1192, 2162-2166, include/qdp_primscalar.h:689-692, include/qdp_primmatrix.h:947-956 -/
def imagTrace : (t : Ty) → Den K t → Den K (reTy (trTy t))
  | .rs, x => x
  | .rc, x => x.im
  | .sca t, x => imagTrace t x
  | .vec _ _ t, x => junk (reTy (trTy t))
  | .mat _ n t, x => accum (A := Den K (reTy (trTy t))) (add (reTy (trTy t))) n fun i => imagTrace t (x i i)

/-! ## traces of products -/

/-- `traceMultiply`: include/qdp_reality.h:1197-1203, 2171-2180, include/qdp_primscalar.h:723-726, include/qdp_primmatrix.h:1055-1106 -/
def traceMul : {a b c : Ty} → Mul a b c → Den K a → Den K b → Den K (trTy c)
  | _, _, _, .rr, l, r => l * r
  | _, _, _, .rc, l, r => junk .rc
  | _, _, _, .cr, l, r => junk .rc
  | _, _, _, .cc, l, r => ⟨l.re * r.re - l.im * r.im, l.re * r.im + l.im * r.re⟩
  | _, _, _, @Mul.ss _ _ c p, l, r => (traceMul p l r : Den K (trTy c))
  | _, _, _, @Mul.sm _ _ c _ n p, l, r => accum (A := Den K (trTy c)) (add (trTy c)) n fun k => traceMul p l (r k k)
  | _, _, _, @Mul.ms _ _ c _ n p, l, r => accum (A := Den K (trTy c)) (add (trTy c)) n fun k => traceMul p (l k k) r
  | _, _, _, @Mul.mm _ _ c _ n p, l, r => accum2 (A := Den K (trTy c)) (add (trTy c)) n fun j k => traceMul p (l j k) (r k j)
  | _, _, _, @Mul.sv _ _ c _ _ p, l, r => junk (trTy c)
  | _, _, _, @Mul.vs _ _ c _ _ p, l, r => junk (trTy c)
  | _, _, _, @Mul.mv _ _ c _ _ p, l, r => junk (trTy c)

end

/-- the products with an overload of `traceMultiply` at every level -/
def Mul.HasTraceMul : {a b c : Ty} → Mul a b c → Prop
  | _, _, _, .rr => True
  | _, _, _, .rc => False
  | _, _, _, .cr => False
  | _, _, _, .cc => True
  | _, _, _, .ss p | _, _, _, .sm _ _ p | _, _, _, .ms _ _ p | _, _, _, .mm _ _ p => p.HasTraceMul
  | _, _, _, .vs _ _ _ | _, _, _, .sv _ _ _ | _, _, _, .mv _ _ _ => False

/-- the type of `traceColor` (κ = color), `traceSpin` (κ = spin): include/qdp_primcolormat.h:293-296, include/qdp_primspinmat.h:364-367,
include/qdp_primmatrix.h:960-963, 980-983 -/
def trkTy (κ : Kind) : Ty → Ty
  | .rs => .rs
  | .rc => .rc
  | .sca t => .sca (trkTy κ t)
  | .vec k n t => .vec k n (trkTy κ t)
  | .mat k n t => if k = κ then .sca t else .mat k n (trkTy κ t)

section
variable {K : Type} [CommRing K]

/-- the value of a matrix type chosen by the kind -/
def pick {κ k : Kind} {n : Nat} {s t : Ty} (x : Den K s) (y : Fin (n + 1) → Fin (n + 1) → Den K t) :
    Den K (if k = κ then .sca s else .mat k n t) :=
  if h : k = κ then cast (by rw [if_pos h]) x else cast (by rw [if_neg h]) y

/-- `traceColor`, `traceSpin`: include/qdp_primcolormat.h:300-311, include/qdp_primspinmat.h:370-381, include/qdp_primmatrix.h:967-996,
include/qdp_primscalar.h:698-710 -/
def traceK (κ : Kind) : (t : Ty) → Den K t → Den K (trkTy κ t)
  | .rs, x => x
  | .rc, x => x
  | .sca t, x => traceK κ t x
  | .vec _ _ t, x => junk (.vec _ _ (trkTy κ t))
  | .mat k n t, x => pick (accum (add t) n fun i => x i i) (fun i j => traceK κ t (x i j))

/-- `traceColorMultiply`, `traceSpinMultiply`: include/qdp_primcolormat.h:322-376, include/qdp_primspinmat.h:391-445,
include/qdp_primmatrix.h:1118-1231; of two PScalars they are `traceMultiply` of the elements, include/qdp_primscalar.h:731-742, which compiles when
the type of the result is the one expected.  The PSpinMatrix, PScalar version of `traceSpinMultiply` (include/qdp_primspinmat.h:413-425) has a template
parameter that cannot be deduced, so it is never chosen. -/
def traceKMul (κ : Kind) : {a b c : Ty} → Mul a b c → Den K a → Den K b → Den K (trkTy κ c)
  | _, _, _, .rr, l, r => junk .rs
  | _, _, _, .rc, l, r => junk .rc
  | _, _, _, .cr, l, r => junk .rc
  | _, _, _, .cc, l, r => junk .rc
  | _, _, _, @Mul.ss _ _ c p, l, r => if h : trTy c = trkTy κ c then (cast (congrArg (Den K) h) (traceMul p l r) : Den K (trkTy κ c)) else junk (trkTy κ c)
  | _, _, _, @Mul.sm _ _ c k n p, l, r =>
      pick (accum (add c) n fun i => mul p l (r i i)) (fun i j => traceKMul κ p l (r i j))
  | _, _, _, @Mul.ms _ _ c k n p, l, r =>
      pick (if κ = .spin then junk c else accum (add c) n fun i => mul p (l i i) r) (fun i j => traceKMul κ p (l i j) r)
  | _, _, _, @Mul.mm _ _ c k n p, l, r =>
      pick (accum2 (add c) n fun j k => mul p (l j k) (r k j)) (fun i j => accum (add (trkTy κ c)) n fun k => traceKMul κ p (l i k) (r k j))
  | _, _, _, @Mul.sv _ _ c k n p, l, r => junk (.vec k n (trkTy κ c))
  | _, _, _, @Mul.vs _ _ c k n p, l, r => junk (.vec k n (trkTy κ c))
  | _, _, _, @Mul.mv _ _ c k n p, l, r => junk (.vec k n (trkTy κ c))

end

/-- the products for which `traceColorMultiply`, `traceSpinMultiply` compile -/
def Mul.HasTraceKMul (κ : Kind) : {a b c : Ty} → Mul a b c → Prop
  | _, _, _, .rr | _, _, _, .rc | _, _, _, .cr | _, _, _, .cc => False
  | _, _, _, @Mul.ss _ _ c p => p.HasTraceMul ∧ trTy c = trkTy κ c
  | _, _, _, .sm k _ p | _, _, _, .mm k _ p => k = κ ∨ p.HasTraceKMul κ
  | _, _, _, .ms k _ p => (k = κ ∧ κ ≠ .spin) ∨ (k ≠ κ ∧ p.HasTraceKMul κ)
  | _, _, _, .vs _ _ _ | _, _, _, .sv _ _ _ | _, _, _, .mv _ _ _ => False

/-! ## inner and outer products -/

/-- the pairs of types that `localInnerProduct` accepts, with the type of the result -/
inductive Inner : Ty → Ty → Ty → Type
  /-- include/qdp_reality.h:1655-1658 -/
  | rr : Inner .rs .rs .rs
  /-- include/qdp_reality.h:2405-2411 -/
  | cc : Inner .rc .rc .rc
  /-- include/qdp_primscalar.h:1483-1486 -/
  | ss {a b d} (p : Inner a b d) : Inner (.sca a) (.sca b) (.sca d)
  /-- include/qdp_primmatrix.h:1686-1695 -/
  | sm {a b d} (k : Kind) (n : Nat) (p : Inner a b d) : Inner (.sca a) (.mat k n b) (.sca d)
  /-- include/qdp_primmatrix.h:1667-1676 -/
  | ms {a b d} (k : Kind) (n : Nat) (p : Inner a b d) : Inner (.mat k n a) (.sca b) (.sca d)
  /-- include/qdp_primmatrix.h:1644-1657 -/
  | mm {a b d} (k : Kind) (n : Nat) (p : Inner a b d) : Inner (.mat k n a) (.mat k n b) (.sca d)
  /-- include/qdp_primvector.h:912-921 -/
  | vv {a b d} (k : Kind) (n : Nat) (p : Inner a b d) : Inner (.vec k n a) (.vec k n b) (.sca d)

section
variable {K : Type} [CommRing K]

/-- `localInnerProduct`, at the lines named beside the constructors of `Inner` -/
def lip : {a b d : Ty} → Inner a b d → Den K a → Den K b → Den K d
  | _, _, _, .rr, l, r => l * r
  | _, _, _, .cc, l, r => ⟨l.re * r.re + l.im * r.im, l.re * r.im - l.im * r.re⟩
  | _, _, _, @Inner.ss _ _ d p, l, r => (lip p l r : Den K d)
  | _, _, _, @Inner.sm _ _ d _ n p, l, r => accum (A := Den K d) (add d) n fun k => lip p l (r k k)
  | _, _, _, @Inner.ms _ _ d _ n p, l, r => accum (A := Den K d) (add d) n fun k => lip p (l k k) r
  | _, _, _, @Inner.mm _ _ d _ n p, l, r => accum2 (A := Den K d) (add d) n fun j k => lip p (l k j) (r k j)
  | _, _, _, @Inner.vv _ _ d _ n p, l, r => accum (A := Den K d) (add d) n fun i => lip p (l i) (r i)

/-- `localInnerProductReal`: include/qdp_reality.h:1675-1678, 2428-2431, include/qdp_primscalar.h:1502-1505, include/qdp_primvector.h:940-949,
include/qdp_primmatrix.h:1715-1728, 1757-1766; the PMatrix, PScalar version (include/qdp_primmatrix.h:1738-1747) takes the element (k,k) of a PScalar
and does not compile -/
def lipReal : {a b d : Ty} → Inner a b d → Den K a → Den K b → Den K (reTy d)
  | _, _, _, .rr, l, r => l * r
  | _, _, _, .cc, l, r => l.re * r.re + l.im * r.im
  | _, _, _, @Inner.ss _ _ d p, l, r => (lipReal p l r : Den K (reTy d))
  | _, _, _, @Inner.sm _ _ d _ n p, l, r => accum (A := Den K (reTy d)) (add (reTy d)) n fun k => lipReal p l (r k k)
  | _, _, _, @Inner.ms _ _ d _ n p, l, r => junk (reTy d)
  | _, _, _, @Inner.mm _ _ d _ n p, l, r => accum2 (A := Den K (reTy d)) (add (reTy d)) n fun j k => lipReal p (l k j) (r k j)
  | _, _, _, @Inner.vv _ _ d _ n p, l, r => accum (A := Den K (reTy d)) (add (reTy d)) n fun i => lipReal p (l i) (r i)

end

/-- the pairs for which `localInnerProductReal` compiles -/
def Inner.HasReal : {a b d : Ty} → Inner a b d → Prop
  | _, _, _, .rr | _, _, _, .cc => True
  | _, _, _, .ss p | _, _, _, .sm _ _ p | _, _, _, .mm _ _ p | _, _, _, .vv _ _ p => p.HasReal
  | _, _, _, .ms _ _ _ => False

/-- the type of `localInnerProduct(x,x)` -/
@[reducible] def ipTy : Ty → Ty
  | .rs => .rs
  | .rc => .rc
  | .sca t => .sca (ipTy t)
  | .vec _ _ t => .sca (ipTy t)
  | .mat _ _ t => .sca (ipTy t)

/-- a type with itself -/
def Inner.self : (t : Ty) → Inner t t (ipTy t)
  | .rs => .rr
  | .rc => .cc
  | .sca t => .ss (Inner.self t)
  | .vec k n t => .vv k n (Inner.self t)
  | .mat k n t => .mm k n (Inner.self t)

section
variable {K : Type} [CommRing K]

/-- `localNorm2`: include/qdp_reality.h:1635-1638, 2385-2388, include/qdp_primscalar.h:1437-1440, include/qdp_primvector.h:887-896,
include/qdp_primmatrix.h:1614-1627 -/
def norm2 : (t : Ty) → Den K t → Den K (reTy (ipTy t))
  | .rs, x => x * x
  | .rc, x => x.re * x.re + x.im * x.im
  | .sca t, x => norm2 t x
  | .vec _ n t, x => accum (A := Den K (reTy (ipTy t))) (add (reTy (ipTy t))) n fun i => norm2 t (x i)
  | .mat _ n t, x => accum2 (A := Den K (reTy (ipTy t))) (add (reTy (ipTy t))) n fun i j => norm2 t (x i j)

end

/-- the pairs of types that `outerProduct` accepts -/
inductive Outer : Ty → Ty → Ty → Type
  /-- include/qdp_reality.h:1416-1419 -/
  | rr : Outer .rs .rs .rs
  /-- include/qdp_reality.h:2314-2321 -/
  | rc : Outer .rs .rc .rc
  /-- include/qdp_reality.h:2302-2309 -/
  | cr : Outer .rc .rs .rc
  /-- include/qdp_reality.h:2290-2297 -/
  | cc : Outer .rc .rc .rc
  /-- include/qdp_primscalar.h:755-758 -/
  | ss {a b d} (p : Outer a b d) : Outer (.sca a) (.sca b) (.sca d)
  /-- include/qdp_primcolormat.h:416-425, include/qdp_primspinmat.h:512-521 -/
  | vv {a b d} (k : Kind) (n : Nat) (p : Outer a b d) : Outer (.vec k n a) (.vec k n b) (.mat k n d)

section
variable {K : Type} [CommRing K]

/-- `outerProduct`, at the lines named beside the constructors of `Outer` -/
def outer : {a b d : Ty} → Outer a b d → Den K a → Den K b → Den K d
  | _, _, _, .rr, l, r => l * r
  | _, _, _, .rc, l, r => ⟨l * r.re, -l * r.im⟩
  | _, _, _, .cr, l, r => ⟨l.re * r, l.im * r⟩
  | _, _, _, .cc, l, r => ⟨l.re * r.re + l.im * r.im, l.im * r.re - l.re * r.im⟩
  | _, _, _, @Outer.ss _ _ d p, l, r => (outer p l r : Den K d)
  | _, _, _, .vv _ _ p, l, r => fun i j => outer p (l i) (r j)

/-- `traceSpinOuterProduct(PSpinVector, PSpinVector)`, include/qdp_primspinmat.h:535-544 -/
def traceSpinOuter {a b d : Ty} {n : Nat} (p : Outer a b d) (l : Den K (.vec .spin n a)) (r : Den K (.vec .spin n b)) : Den K d :=
  accum (A := Den K d) (add d) n fun i => outer p (l i) (r i)

end

end Verif.Site
