import Verif.SiteLoop
import Verif.SiteFlat
/-
The unrolled products of 3 by 3 complex matrices and vectors: include/scalarsite_generic/qdp_scalarsite_generic_linalg.h and the macros it
uses.

An object is its sequence of words: real part before imaginary part, rows of a matrix one after the other, spin slowest (the order has no influence
on the results; it only names the components).  A statement of a macro is one instruction.
-/
set_option linter.unusedVariables false
namespace Verif.Su3
open Verif Verif.Site Verif.SiteLoop

/-! ## model -/

/-- `=`, `+=`, `-=` -/
inductive Op | set | add | sub
  deriving DecidableEq

/-- which factor is conjugated: `adjMultiply` or `multiplyAdj` of complex numbers -/
inductive Side | left | right
  deriving DecidableEq

/-- a statement of a macro with the operands aa, bb and the result cc -/
inductive Stm
  /-- `cc.(d) op aa.(x) * bb.(y)` for words, as in include/scalarsite_generic/generic_mat_vec.h:8-13 -/
  | word (d : Nat) (op : Op) (x y : Nat)
  /-- `cc.elem(d) = f(aa.elem(x),bb.elem(y)) + …` for complex elements, as in include/scalarsite_generic/generic_mult_an.h:3-5 -/
  | prods (s : Side) (d : Nat) (ts : List (Nat × Nat))
  /-- `cc.elem(d) = aa.elem(x) + bb.elem(y)` for complex elements, as in include/scalarsite_generic/generic_addvec.h:3 -/
  | sum (d x y : Nat)

/-- a macro applied to elements of the operands that begin at the words `oa`, `ob`, `oc` -/
structure Call where
  stms : List Stm
  oa : Nat
  ob : Nat
  oc : Nat

section
variable {K : Type} [CommRing K]

def Op.app : Op → K → K → K
  | .set, _, v => v
  | .add, o, v => o + v
  | .sub, o, v => o - v

/-- the element `k` of an object -/
def cpx (A : Nat → K) (k : Nat) : Cx K := ⟨A (2 * k), A (2 * k + 1)⟩

/-- the two factors of a term, include/qdp_reality.h:1951-1958 and 1970-1976 -/
def Side.app : Side → Cx K → Cx K → Cx K
  | .left, x, y => adjMul .cc x y
  | .right, x, y => mulAdj .cc x y

/-- `t0 + t1 + …`, include/qdp_reality.h:1842-1848 -/
def sumTerms (s : Side) (A B : Nat → K) : List (Nat × Nat) → Cx K
  | [] => ⟨0, 0⟩
  | t :: ts => ts.foldl (fun z t => add .rc z (s.app (cpx A t.1) (cpx B t.2))) (s.app (cpx A t.1) (cpx B t.2))

/-- a part of a complex number -/
def part (z : Cx K) (k : Nat) : K := if k % 2 = 0 then z.re else z.im

/-- what a statement leaves in word `k` of the result -/
def Stm.at (A B : Nat → K) (old : K) (k : Nat) : Stm → K
  | .word d op x y => if k = d then op.app old (A x * B y) else old
  | .prods s d ts => if k / 2 = d then part (sumTerms s A B ts) k else old
  | .sum d x y => if k / 2 = d then part (add .rc (cpx A x) (cpx B y)) k else old

end

/-- a statement with the places its operands begin at -/
structure Ins where
  stm : Stm
  oa : Nat
  ob : Nat
  oc : Nat

def Call.ins (c : Call) : List Ins := c.stms.map fun s => ⟨s, c.oa, c.ob, c.oc⟩

section
variable {K : Type} [CommRing K]

/-- the same for an object that the result is a part of -/
def Ins.at (A B : Nat → K) (old : K) (j : Nat) (x : Ins) : K :=
  if x.oc ≤ j then x.stm.at (fun k => A (x.oa + k)) (fun k => B (x.ob + k)) old (j - x.oc) else old

/-- a statement of a macro applied to the objects number `a`, `b`, `c` -/
def act (a b c : Nat) (x : Ins) (_ : Unit) (v : View (Nat → K)) : Unit × View (Nat → K) :=
  ((), Function.update v c fun j => x.at (v a) (v b) (v c j) j)

end

/-! ### the specialised operators -/

/-- an operator and the types it is specialised for -/
inductive Fn : Ty → Ty → Ty → Type
  | mul {a b c} (p : Mul a b c) : Fn a b c
  | adjMul {a b c} (p : Mul a b c) : Fn a b c
  | mulAdj {a b c} (p : Mul a b c) : Fn a b c
  | add (t : Ty) : Fn t t t

/-- a specialisation: `d` is a new object on which the macros are called in turn -/
structure Spec where
  l : Ty
  r : Ty
  d : Ty
  fn : Fn l r d
  calls : List Call

/-- the number of words of an object -/
def size : Ty → Nat
  | .rs => 1
  | .rc => 2
  | .sca t => size t
  | .vec _ n t => (n + 1) * size t
  | .mat _ n t => (n + 1) * ((n + 1) * size t)

section
variable {K : Type} [CommRing K]

/-- the words of an object -/
def words : (t : Ty) → Den K t → Nat → K
  | .rs, x => fun _ => x
  | .rc, x => fun k => part x k
  | .sca t, x => words t x
  | .vec _ n t, x => fun k => words t (x (Fin.ofNat (n + 1) (k / size t))) (k % size t)
  | .mat _ n t, x => fun k => words t (x (Fin.ofNat (n + 1) (k / size t / (n + 1))) (Fin.ofNat (n + 1) (k / size t % (n + 1)))) (k % size t)

/-- the words of the result; `g` is what the new object holds before -/
def Spec.run (s : Spec) (l : Den K s.l) (r : Den K s.r) (g : Nat → K) : Nat → K :=
  (runView (act 0 1 2) (s.calls.flatMap Call.ins) () fun f => if f = 0 then words s.l l else if f = 1 then words s.r r else g).2 2

/-! ## specification -/

/-- the general operators, as in Verif.SiteType -/
def Fn.app : {a b c : Ty} → Fn a b c → Den K a → Den K b → Den K c
  | _, _, _, .mul p => Site.mul p
  | _, _, _, .adjMul p => Site.adjMul p
  | _, _, _, .mulAdj p => Site.mulAdj p
  | _, _, _, .add t => Site.add t

/-! ## lemmas -/

theorem size_pos : ∀ t : Ty, 0 < size t
  | .rs => by decide
  | .rc => by decide
  | .sca t => size_pos t
  | .vec _ n t => Nat.mul_pos (by omega) (size_pos t)
  | .mat _ n t => Nat.mul_pos (by omega) (Nat.mul_pos (by omega) (size_pos t))

/-- an object is determined by its words -/
theorem words_inj : ∀ (t : Ty) (x y : Den K t), (∀ k, k < size t → words t x k = words t y k) → x = y
  | .rs, x, y, h => h 0 (by decide)
  | .rc, x, y, h => by
      have h0 := h 0 (by decide)
      have h1 := h 1 (by decide)
      exact Cx.ext h0 h1
  | .sca t, x, y, h => words_inj t x y h
  | .vec _ n t, x, y, h => by
      funext i
      refine words_inj t _ _ fun k hk => ?_
      have hb : i.val * size t + k < (n + 1) * size t := by
        calc _ < i.val * size t + size t := by omega
          _ = (i.val + 1) * size t := by ring
          _ ≤ _ := Nat.mul_le_mul_right _ i.isLt
      have := h (i.val * size t + k) hb
      simp only [words] at this
      have e1 : (i.val * size t + k) / size t = i.val := by
        rw [Nat.mul_comm, Nat.mul_add_div (size_pos t), Nat.div_eq_of_lt hk]; rfl
      have e2 : (i.val * size t + k) % size t = k := by rw [Nat.mul_comm, Nat.mul_add_mod, Nat.mod_eq_of_lt hk]
      rw [e1, e2] at this
      have e3 : Fin.ofNat (n + 1) i.val = i := Fin.ext (Nat.mod_eq_of_lt i.isLt)
      rwa [e3] at this
  | .mat _ n t, x, y, h => by
      funext i j
      refine words_inj t _ _ fun k hk => ?_
      have hb1 : i.val * (n + 1) + j.val < (n + 1) * (n + 1) := by
        calc _ < i.val * (n + 1) + (n + 1) := by omega
          _ = (i.val + 1) * (n + 1) := by ring
          _ ≤ _ := Nat.mul_le_mul_right _ i.isLt
      have hb : (i.val * (n + 1) + j.val) * size t + k < (n + 1) * ((n + 1) * size t) := by
        calc _ < (i.val * (n + 1) + j.val) * size t + size t := by omega
          _ = (i.val * (n + 1) + j.val + 1) * size t := by ring
          _ ≤ ((n + 1) * (n + 1)) * size t := Nat.mul_le_mul_right _ hb1
          _ = _ := by ring
      have := h ((i.val * (n + 1) + j.val) * size t + k) hb
      simp only [words] at this
      have e1 : ((i.val * (n + 1) + j.val) * size t + k) / size t = i.val * (n + 1) + j.val := by
        rw [Nat.mul_comm, Nat.mul_add_div (size_pos t), Nat.div_eq_of_lt hk]; rfl
      have e2 : ((i.val * (n + 1) + j.val) * size t + k) % size t = k := by rw [Nat.mul_comm, Nat.mul_add_mod, Nat.mod_eq_of_lt hk]
      have e3 : (i.val * (n + 1) + j.val) / (n + 1) = i.val := by
        rw [Nat.mul_comm, Nat.mul_add_div (by omega), Nat.div_eq_of_lt j.isLt]; rfl
      have e4 : (i.val * (n + 1) + j.val) % (n + 1) = j.val := by rw [Nat.mul_comm, Nat.mul_add_mod, Nat.mod_eq_of_lt j.isLt]
      rw [e1, e2, e3, e4] at this
      have e5 : Fin.ofNat (n + 1) i.val = i := Fin.ext (Nat.mod_eq_of_lt i.isLt)
      have e6 : Fin.ofNat (n + 1) j.val = j := Fin.ext (Nat.mod_eq_of_lt j.isLt)
      rwa [e5, e6] at this

/-- when the result is none of the operands, every word of it goes its own way -/
theorem run_apart {a b c : Nat} (hca : c ≠ a) (hcb : c ≠ b) : ∀ (p : List Ins) (v : View (Nat → K)),
    (runView (act a b c) p () v).2 = Function.update v c fun j => p.foldl (fun old x => x.at (v a) (v b) old j) (v c j)
  | [], v => by simp [runView]
  | x :: p, v => by
      rw [runView, run_apart hca hcb p]
      simp only [act, Function.update_self, Function.update_of_ne hca.symm, Function.update_of_ne hcb.symm, Function.update_idem, List.foldl_cons]

end
end Verif.Su3
