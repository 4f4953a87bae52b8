import Verif.Vec
import Mathlib.Algebra.Ring.Pi
/-
The library with vectors built for SSE (QDP_USE_SSE == 1, include/qdp.h:216-232): lib/qdp_scalarvecsite_sse.cc, include/scalarvecsite_sse/.

A vector of four floats (`vReal32`, `ILattice<REAL32,4>`) is one number of the ring `Fin 4 → K`: every instruction of these files works on the four
lanes separately.  Arithmetic is exact.  A colour matrix of four sites is 72 floats: the real parts of element (r,c) start at float 24 r + 8 c, the
imaginary parts four floats later.  All offsets are multiples of four; a vector is looked up by the offset of its first float.

Simplifications: operands are aligned (movaps).  The compiler keeps the registers between two `__asm__` statements, although none of them names the
registers it sets.  In the branch for subsets that are not contiguous the source uses a variable `i` that is not declared
(lib/qdp_scalarvecsite_sse.cc:53), so the file does not compile; the model is that of `int i = tab[j]`.
-/
namespace Verif.VecSse
open Verif Outcome Verif.Subset Verif.LatticeIO

/-! ## Model -/

/-- the pointers of the macro: destination, left and right operand -/
inductive Ptr where
  | cc | aa | bb
deriving DecidableEq, Repr

/-- a memory operand `*(p+off)` or `*(p+off+8*j)` -/
structure Opnd where
  p : Ptr
  off : Nat
  col : Bool
deriving DecidableEq, Repr

/-- an instruction; `%n` is a number of the operand list, `%%xmmk` a number of a register; source before destination -/
inductive Ins where
  /-- `movaps %n,%%xmmx` -/
  | load (n x : Nat)
  /-- `movaps %%xmmx,%%xmmy` -/
  | mov (x y : Nat)
  /-- `movaps %%xmmx,%n` -/
  | store (x n : Nat)
  /-- `mulps %n,%%xmmx` -/
  | mulm (n x : Nat)
  /-- `addps %%xmmx,%%xmmy` -/
  | add (x y : Nat)
  /-- `subps %%xmmx,%%xmmy` -/
  | sub (x y : Nat)
deriving DecidableEq, Repr

/-- an `__asm__` statement -/
structure Asm where
  ins : List Ins
  ops : List Opnd

section
variable {R : Type} [CommRing R]

/-- the registers, and the vectors of the fields at one outer site -/
structure St (R : Type) where
  reg : Nat → R
  mem : Nat → Nat → R

def Asm.op (a : Asm) (n : Nat) : Opnd := a.ops.getD n ⟨.cc, 0, false⟩
def Opnd.addr (o : Opnd) (j : Nat) : Nat := if o.col then o.off + 8 * j else o.off

def St.get (s : St R) (σ : Ptr → Nat) (j : Nat) (o : Opnd) : R := s.mem (σ o.p) (o.addr j)
def St.put (s : St R) (σ : Ptr → Nat) (j : Nat) (o : Opnd) (x : R) : St R :=
  { s with mem := fun f k => if f = σ o.p ∧ k = o.addr j then x else s.mem f k }
def St.set (s : St R) (y : Nat) (x : R) : St R := { s with reg := fun z => if z = y then x else s.reg z }

/-- one instruction of statement `a` in the macro for column `j`; pointer `p` points to the matrix of field `σ p` -/
def step (σ : Ptr → Nat) (j : Nat) (a : Asm) (s : St R) : Ins → St R
  | .load n x => s.set x (s.get σ j (a.op n))
  | .mov x y => s.set y (s.reg x)
  | .store x n => s.put σ j (a.op n) (s.reg x)
  | .mulm n x => s.set x (s.reg x * s.get σ j (a.op n))
  | .add x y => s.set y (s.reg y + s.reg x)
  | .sub x y => s.set y (s.reg y - s.reg x)

/-- the `__asm__` statements of the macro in turn -/
def runAsm (σ : Ptr → Nat) (j : Nat) (as : List Asm) (s : St R) : St R := as.foldl (fun s a => a.ins.foldl (step σ j a) s) s

/-- the three uses of the macro `m`, include/scalarvecsite_sse/qdp_scalarvecsite_sse_linalg.h:291-293, lib/qdp_scalarvecsite_sse.cc:44-46 -/
def mulSite (m : List Asm) (σ : Ptr → Nat) (s : St R) : St R := runAsm σ 2 m (runAsm σ 1 m (runAsm σ 0 m s))

/-- the objects of `operator*` as fields: `d`, `l`, `r` -/
def locals : Ptr → Nat
  | .cc => 0
  | .aa => 1
  | .bb => 2

/-- `operator*(PMatrix, PMatrix)`, include/scalarvecsite_sse/qdp_scalarvecsite_sse_linalg.h:277-296: `d` is a local variable (field 0) with any
contents `d0`, as the registers -/
def matMul (m : List Asm) (reg d0 l r : Nat → R) : Nat → R :=
  (mulSite m locals ⟨reg, fun f => if f = 0 then d0 else if f = 1 then l else r⟩).mem 0

/-- fields: field, outer site, offset -/
abbrev Mem (R : Type) := Nat → Nat → Nat → R

/-- one round of the loop, lib/qdp_scalarvecsite_sse.cc:38-47, at outer site `i` of `n`; the registers are left over from the round before -/
def round (m : List Asm) (n : Nat) (σ : Ptr → Nat) (s : (Nat → R) × Mem R) (i : Nat) : Outcome ((Nat → R) × Mem R) :=
  if i < n then
    let t := mulSite m σ ⟨s.1, fun f => s.2 f i⟩
    ok (t.reg, fun f o => if o = i then t.mem f else s.2 f o)
  else ub

/-- one round of the loop over a table, lib/qdp_scalarvecsite_sse.cc:52-55: `d.elem(i).elem() = l.elem(i).elem() * r.elem(i).elem()` -/
def roundTab (m : List Asm) (n : Nat) (σ : Ptr → Nat) (junk : Nat → R) (s : (Nat → R) × Mem R) (i : Nat) : Outcome ((Nat → R) × Mem R) :=
  if i < n then
    let w := matMul m s.1 junk (s.2 (σ .aa) i) (s.2 (σ .bb) i)
    ok (s.1, fun f o => if f = σ .cc ∧ o = i then w else s.2 f o)
  else ub

/-- `evaluate(LatticeColorMatrix = LatticeColorMatrix * LatticeColorMatrix, Subset)`, lib/qdp_scalarvecsite_sse.cc:18-58; INNER_LOG is 2,
`n` the number of outer sites, `σ` the fields of destination and operands -/
def evaluate (m : List Asm) (n : Nat) (σ : Ptr → Nat) (sub : Sub) (junk reg : Nat → R) (F : Mem R) : Outcome (Mem R) := do
  let s ← if sub.ordRep then
      let istart : Int := sub.start / 2 ^ 2
      let iend : Int := sub.stop / 2 ^ 2
      foldO (fun s (j : Nat) => round m n σ s (istart + (j : Int)).toNat) (reg, F) (List.range (iend + 1 - istart).toNat)
    else foldO (fun s (i : Int) => roundTab m n σ junk s i.toNat) (reg, F) sub.table
  return s.2

/-- the operators of `RComplex<ILattice<REAL32,4>>`, include/scalarvecsite_sse/qdp_scalarvecsite_sse_linalg.h:186-270; real part before imaginary part -/
def cadd (l r : R × R) : R × R := (l.1 + r.1, l.2 + r.2)
def csub (l r : R × R) : R × R := (l.1 - r.1, l.2 - r.2)
def cmul (l r : R × R) : R × R := (l.1 * r.1 - l.2 * r.2, l.1 * r.2 + l.2 * r.1)
def adjMultiply (l r : R × R) : R × R := (l.1 * r.1 + l.2 * r.2, l.1 * r.2 - l.2 * r.1)
def multiplyAdj (l r : R × R) : R × R := (l.1 * r.1 + l.2 * r.2, l.2 * r.1 - l.1 * r.2)
def adjMultiplyAdj (l r : R × R) : R × R := (l.1 * r.1 - l.2 * r.2, 0 - (l.1 * r.2 + l.2 * r.1))

end

/-- `vmk1`, include/qdp_scalarvecsite_sse.h: the same number in the four lanes -/
def vmk1 {K : Type} (x : K) : Fin 4 → K := fun _ => x

/-- scalar times colour matrix, include/scalarvecsite_sse/qdp_scalarvecsite_sse_blas.h:27-60: the 18 products one after another -/
def scaleMat {K : Type} [CommRing K] (a : K) (r d0 : Nat → Fin 4 → K) : Nat → Fin 4 → K :=
  [(0, 0), (0, 1), (0, 2), (1, 0), (1, 1), (1, 2), (2, 0), (2, 1), (2, 2)].foldl (fun d (e : Nat × Nat) =>
    let k := 24 * e.1 + 8 * e.2
    let d := fun z => if z = k then vmk1 a * r k else d z
    fun z => if z = k + 4 then vmk1 a * r (k + 4) else d z) d0

end Verif.VecSse
