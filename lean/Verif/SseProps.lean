import Verif.SseTables
import Verif.Su3Eval
/-
The statements on fields of colour matrices in double precision of the library built for SSE.
-/
set_option linter.unusedVariables false
namespace Verif.Sse
open Verif Outcome Verif.Poly Verif.SiteLoop Verif.Subset Verif.Dispatch Verif.Blas Verif.Su3

/-! ## the model -/

/-- the products: `l*r`, `adj(l)*r`, `l*adj(r)`, `adj(l)*adj(r)` -/
inductive Kind where
  | mm | hm | mh | hh
deriving DecidableEq, Repr

/-- the assignments `=`, `+=`, `-=` -/
inductive Asg where
  | set | add | sub
deriving DecidableEq, Repr

/-- the kernel that the evaluation of `d op product` calls: lib/scalarsite_sse/qdp_scalarsite_linalg_double.cc:78-254
for `=`, 318-496 for `+=`, 734-918 for `-=` -/
def kern : Kind → Asg → Kern
  | .mm, .set => ssed_m_eq_mm
  | .hm, .set => ssed_m_eq_hm
  | .mh, .set => ssed_m_eq_mh
  | .hh, .set => ssed_m_eq_hh
  | .mm, _ => ssed_m_peq_amm
  | .hm, _ => ssed_m_peq_ahm
  | .mh, _ => ssed_m_peq_amh
  | .hh, _ => ssed_m_peq_ahh

/-- the kernel of the operators on single matrices: include/scalarsite_sse/qdp_scalarsite_sse_linalg_double.h:45-295 -/
def kernU : Kind → Kern
  | .mm => ssed_m_eq_mm_u
  | .hm => ssed_m_eq_hm_u
  | .mh => ssed_m_eq_mh_u
  | .hh => ssed_m_eq_hh_u

/-- the kernel of `d op l`: lib/scalarsite_sse/qdp_scalarsite_linalg_double.cc:562-599, 656-690, 696-729 -/
def kern1 : Asg → Kern
  | .set => ssed_m_eq_scal_m
  | .add => ssed_m_peq_m
  | .sub => ssed_m_meq_m

/-- the fields of the parameters -/
def fld3 (d l r p : Nat) : Nat := if p = 0 then d else if p = 1 then l else r

section
variable (K : Type) [CommRing K]

/-- exact numbers with the factor `a` -/
def ringNum (a : K) : Num K := ⟨ringOps K, 1, a⟩

variable {K}

/-- the factor: lib/scalarsite_sse/qdp_scalarsite_linalg_double.cc uses `one` for `+=` and `mone` for `-=`; the kernels for `=` use none -/
def factor : Asg → K
  | .sub => -1
  | _ => 1

/-- the statements of a kernel with fields number `d`, `l`, `r`; `before` are the registers before the call -/
def actK (k : Kern) (a : K) (before : Nat → K × K) (d l r : Nat) : Ins → (Nat → K × K) → View (Nat → K) → (Nat → K × K) × View (Nat → K) :=
  act (ringNum K a) (preRegs (ringNum K a) k.pre before) (fld3 d l r)

/-- the states of `d[subset] op product(l, r)`; `sse3` tells whether the library is compiled for SSE3 -/
def StmtReaches (sse3 : Bool) (q : Kind) (op : Asg) (d l r : Nat) (f : Form) (N T : Nat) (before : Nat → K × K) (l0 : Nat → Nat → K × K)
    (h : Interleave.Heap (Nat → K)) (s : Interleave.St (Nat → K) (Nat × Ins) (Nat → K × K)) : Prop :=
  Reaches (actK (kern q op) (factor op) before d l r) ((kern q op).body sse3) f N T l0 h s

/-- the states of `d[subset] op l` -/
def CopyReaches (sse3 : Bool) (op : Asg) (d l : Nat) (f : Form) (N T : Nat) (before : Nat → K × K) (l0 : Nat → Nat → K × K)
    (h : Interleave.Heap (Nat → K)) (s : Interleave.St (Nat → K) (Nat × Ins) (Nat → K × K)) : Prop :=
  Reaches (actK (kern1 op) 1 before d l l) ((kern1 op).body sse3) f N T l0 h s

/-! ## the specification -/

/-- the product of the generic library -/
def prodSite : Kind → Site.Den K colorMatrix → Site.Den K colorMatrix → Site.Den K colorMatrix
  | .mm => Site.mul (.ss (.mm .color 2 .cc))
  | .hm => Site.adjMul (.ss (.mm .color 2 .cc))
  | .mh => Site.mulAdj (.ss (.mm .color 2 .cc))
  | .hh => Site.adjMulAdj (.ss (.mm .color 2 .cc))

/-- the assignment -/
def assign : Asg → Site.Den K colorMatrix → Site.Den K colorMatrix → Site.Den K colorMatrix
  | .set, _, y => y
  | .add, x, y => fun i j => ⟨(x i j).re + (y i j).re, (x i j).im + (y i j).im⟩
  | .sub, x, y => fun i j => ⟨(x i j).re - (y i j).re, (x i j).im - (y i j).im⟩

/-- the operands with which the kernels work: the right operand is not the destination, and the left one is not unless it is taken as it is -/
def Safe (q : Kind) (d l r : Nat) : Prop := d ≠ r ∧ (d = l → q = .mm ∨ q = .mh)

end

/-! ## words of the product -/

section
variable {V : Type}

def cmulP (o : Ops V) (x y : V × V) : V × V := (o.sub (o.mul x.1 y.1) (o.mul x.2 y.2), o.add (o.mul x.1 y.2) (o.mul x.2 y.1))
def caddP (o : Ops V) (x y : V × V) : V × V := (o.add x.1 y.1, o.add x.2 y.2)
def conjP (o : Ops V) (x : V × V) : V × V := (x.1, o.neg x.2)
def ent (A : Nat → V) (i j : Nat) : V × V := (A (6 * i + 2 * j), A (6 * i + 2 * j + 1))
def Kind.lft (o : Ops V) (A : Nat → V) (i k : Nat) : Kind → V × V
  | .mm | .mh => ent A i k
  | .hm | .hh => conjP o (ent A k i)
def Kind.rgt (o : Ops V) (B : Nat → V) (k j : Nat) : Kind → V × V
  | .mm | .hm => ent B k j
  | .mh | .hh => conjP o (ent B j k)
def Kind.entry (q : Kind) (o : Ops V) (A B : Nat → V) (i j : Nat) : V × V :=
  caddP o (caddP o (cmulP o (q.lft o A i 0) (q.rgt o B 0 j)) (cmulP o (q.lft o A i 1) (q.rgt o B 1 j))) (cmulP o (q.lft o A i 2) (q.rgt o B 2 j))
def Kind.word (q : Kind) (o : Ops V) (A B : Nat → V) (k : Nat) : V := pick (q.entry o A B (k / 6) (k % 6 / 2)) (k % 2)

/-- a word after `d op product` -/
def newWord (q : Kind) (op : Asg) (n : Num V) (D A B : Nat → V) (k : Nat) : V := match op with
  | .set => q.word n.o A B k
  | _ => n.o.add (D k) (n.o.mul n.a (q.word n.o A B k))

/-- a word after `d op l` -/
def newWord1 (op : Asg) (n : Num V) (D A : Nat → V) (k : Nat) : V := match op with
  | .set => n.o.mul n.a (A k)
  | .add => n.o.add (D k) (A k)
  | .sub => n.o.sub (D k) (A k)

variable {W : Type} {n : Num V} {n' : Num W} {φ : V → W}

theorem word_hom {o : Ops V} {o' : Ops W} (H : Hom o o' φ) (q : Kind) (A B : Nat → V) (k : Nat) :
    φ (q.word o A B k) = q.word o' (fun j => φ (A j)) (fun j => φ (B j)) k := by
  have hp : ∀ (w : V × V) b, φ (pick w b) = pick (φ w.1, φ w.2) b := by intro w b; unfold pick; split <;> rfl
  unfold Kind.word
  rw [hp]
  congr 1
  cases q <;> simp only [Kind.entry, caddP, cmulP, Kind.lft, Kind.rgt, conjP, ent, H.add, H.sub, H.mul, H.neg]

theorem newWord_hom (hφ : NumHom n n' φ) (q : Kind) (op : Asg) (D A B : Nat → V) (k : Nat) :
    φ (newWord q op n D A B k) = newWord q op n' (fun j => φ (D j)) (fun j => φ (A j)) (fun j => φ (B j)) k := by
  cases op <;> simp only [newWord, hφ.hom.add, hφ.hom.mul, hφ.a, word_hom hφ.hom]

theorem newWord1_hom (hφ : NumHom n n' φ) (op : Asg) (D A : Nat → V) (k : Nat) :
    φ (newWord1 op n D A k) = newWord1 op n' (fun j => φ (D j)) (fun j => φ (A j)) k := by
  cases op <;> simp only [newWord1, hφ.hom.add, hφ.hom.sub, hφ.hom.mul, hφ.a]
end

/-! ## the kernels run with polynomials -/

def polyNum : Num Pol := ⟨polyOps, [([], 1)], var 54⟩
def vars (f k : Nat) : Pol := var (18 * f + k)
def varMem : List (List Pol) := (List.range 3).map fun f => (List.range 18).map (vars f)
def σL (p : Nat) : Nat := if p = 1 then 0 else p
def σR (p : Nat) : Nat := if p ≤ 1 then p else 0
def σA (_ : Nat) : Nat := 0

def expected (q : Kind) (op : Asg) (σ : Nat → Nat) : List Pol := (List.range 18).map (newWord q op polyNum (vars (σ 0)) (vars (σ 1)) (vars (σ 2)))
def expected1 (op : Asg) (σ : Nat → Nat) : List Pol := (List.range 18).map (newWord1 op polyNum (vars (σ 0)) (vars (σ 1)))

/-- the stores of a program stay inside the destination -/
def storesOk (p : List Ins) : Bool := p.all fun x => match x with
  | .st q k _ => q == 0 && Nat.blt (k + 1) 18
  | _ => true

set_option maxRecDepth 100000

theorem apart_set (s : Bool) (q : Kind) : Sym.result polyNum id ((kern q .set).body s) varMem = some (expected q .set id) := by
  cases s <;> cases q <;> decide +kernel
theorem apart_add (s : Bool) (q : Kind) : Sym.result polyNum id ((kern q .add).body s) varMem = some (expected q .add id) := by
  cases s <;> cases q <;> decide +kernel
theorem apart_u (s : Bool) (q : Kind) : Sym.result polyNum id ((kernU q).body s) varMem = some (expected q .set id) := by
  cases s <;> cases q <;> decide +kernel
theorem left_set (s : Bool) (q : Kind) (hq : q = .mm ∨ q = .mh) : Sym.result polyNum σL ((kern q .set).body s) varMem = some (expected q .set σL) := by
  rcases hq with rfl | rfl <;> cases s <;> decide +kernel
theorem left_add (s : Bool) (q : Kind) (hq : q = .mm ∨ q = .mh) : Sym.result polyNum σL ((kern q .add).body s) varMem = some (expected q .add σL) := by
  rcases hq with rfl | rfl <;> cases s <;> decide +kernel
theorem copy_apart (s : Bool) (op : Asg) : Sym.result polyNum id ((kern1 op).body s) varMem = some (expected1 op id) := by
  cases s <;> cases op <;> decide +kernel
theorem copy_left (s : Bool) (op : Asg) : Sym.result polyNum σA ((kern1 op).body s) varMem = some (expected1 op σA) := by
  cases s <;> cases op <;> decide +kernel
theorem kern_stores (s : Bool) (q : Kind) (op : Asg) : storesOk ((kern q op).body s) = true := by cases s <;> cases q <;> cases op <;> decide +kernel
theorem kernU_stores (s : Bool) (q : Kind) : storesOk ((kernU q).body s) = true := by cases s <;> cases q <;> decide +kernel
theorem kern1_stores (s : Bool) (op : Asg) : storesOk ((kern1 op).body s) = true := by cases s <;> cases op <;> decide +kernel
theorem set_noC (s : Bool) (q : Kind) : ((kern q .set).body s).all Ins.noC = true := by cases s <;> cases q <;> decide +kernel
theorem setU_noC (s : Bool) (q : Kind) : ((kernU q).body s).all Ins.noC = true := by cases s <;> cases q <;> decide +kernel
theorem copy_noC (s : Bool) (op : Asg) (h : op ≠ .set) : ((kern1 op).body s).all Ins.noC = true := by
  cases op
  · simp at h
  all_goals cases s <;> decide +kernel

end Verif.Sse
