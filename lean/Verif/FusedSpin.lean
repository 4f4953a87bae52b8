import Verif.Su3Thm
import Verif.SpinInline
/-
Products of links with projected spinors, evaluated in one pass over the sites: `h = adj(u) * spinProjectDir±(psi)`, `psi = spinReconstructDir±(u * h)`
and `psi += spinReconstructDir±(u * h)`; include/scalarsite_generic/generic_fused_spin_proj.h, generic_fused_spin_recon.h,
qdp_generic_fused_spin_proj_evaluates.h, qdp_generic_fused_spin_recon_evaluates.h and their wrappers.  (The headers are installed; the line that
includes them in include/qdp_scalarsite_generic.h:16 is commented out.)

An object of a site is its sequence of words: spin slowest, then colour, real part before imaginary part; a link row by row.  The functions with
direction and sign are numbered as in Verif.SpinTables: 0+, 0-, 1+, 1-, 2+, 2-, 3+, 3-.
-/
set_option linter.unusedVariables false
namespace Verif.FusedSpin
open Verif Outcome Verif.Spin Verif.SiteLoop Verif.Blas Verif.Subset Verif.Dispatch
open Verif.Su3 (Call mv av)

/-! ## model: which functions are called -/

/-- `operator*` on `adj(l)` and `spinProjectDir±(r)`: the node it makes, include/scalarsite_generic/generic_fused_spin_proj.h:53-79, 160-186, 267-293, 375-401,
482-508, 588-614, 692-718, 800-826 -/
def projNode : Fin 8 → Fin 8 := ![0, 1, 2, 3, 4, 5, 6, 7]

/-- the projection called for the node on one object, same file, lines 106-119, 213-226, 320-333, 428-441, 535-548, 641-654, 745-759, 853-867 -/
def projOne : Fin 8 → Fin 8 := ![0, 1, 2, 3, 4, 5, 6, 7]

/-- the projection passed to the threads on ordered subsets, include/scalarsite_generic/qdp_generic_fused_spin_proj_evaluates.h:50, 124, 201, 279, 356, 432,
511, 587 -/
def projOrdered : Fin 8 → Fin 8 := ![0, 1, 2, 3, 4, 5, 6, 7]

/-- and on the others, same file, lines 75, 150, 228, 305, 382, 459, 537, 615 -/
def projUnordered : Fin 8 → Fin 8 := ![0, 1, 2, 3, 4, 5, 6, 7]

/-- `spinReconstructDir±` of a product: the node it makes, include/scalarsite_generic/generic_fused_spin_recon.h:142-170, 73-101, 280-308, 211-239, 419-447,
350-378, 557-585, 489-517 -/
def reconNode : Fin 8 → Fin 8 := ![0, 1, 2, 3, 4, 5, 6, 7]

/-- the reconstruction called for the node on one object, same file, lines 619-637, 595-613, 666-683, 643-660, 712-730, 689-706, 760-777, 736-753 -/
def reconOne : Fin 8 → Fin 8 := ![0, 1, 2, 3, 4, 5, 6, 7]

/-- the reconstruction passed to the threads by `=` on ordered subsets, include/scalarsite_generic/qdp_generic_fused_spin_recon_evaluates.h:38, 111, 189, 263,
340, 415, 491, 566 -/
def reconOrdered : Fin 8 → Fin 8 := ![0, 1, 2, 3, 4, 5, 6, 7]

/-- and on the others, same file, lines 66, 138, 216, 290, 367, 441, 518, 591 -/
def reconUnordered : Fin 8 → Fin 8 := ![0, 1, 2, 3, 4, 5, 6, 7]

/-- the function passed by `+=` on ordered subsets, same file, lines 639, 714, 793, 866, 943, 1014, 1088, 1159 -/
def addOrdered : Fin 8 → Fin 8 := ![0, 1, 2, 3, 4, 5, 6, 7]

/-- and on the others, same file, lines 667, 742, 819, 892, 967, 1038, 1113, 1184 -/
def addUnordered : Fin 8 → Fin 8 := ![0, 1, 2, 3, 4, 5, 6, 7]

/-! ## model: the statements for one site -/

/-- the place of `tmp[k][col][c]` -/
def place (e : Src) (col : Nat) : Nat := (e.k * 3 + col) * 2 + if e.c then 1 else 0

section
variable {K : Type} [CommRing K]

/-- an array of `n` numbers read at any place; the programs below stay inside -/
def ext {n : Nat} (f : Fin n → K) (k : Nat) : K := if h : k < n then f ⟨k, h⟩ else 0

/-- `x ± tmp[..]` -/
def plus (x : K) (t : Nat → K) (e : Src) (col : Nat) : K := if e.minus then x - t (place e col) else x + t (place e col)

/-- statements of the loop over the sites that projects -/
inductive PIns where
  /-- `tmp[..] = *src++` inside `inlineSpinProjDir±` -/
  | load (k : Fin 24)
  /-- `*dst++ = tmp[..] ± tmp[..]` inside `inlineSpinProjDir±` -/
  | store (j : Fin 12) (e : Src × Src) (col : Nat)
  /-- a statement of `_inline_mult_adj_su3_mat_vec` -/
  | mul (x : Su3.Ins)

/-- the local variables of a thread: `tmp[4][3][2]` of the function called and the half spinor `tmp` of the loop -/
abbrev PLoc (K : Type) := (Fin 24 → K) × (Fin 12 → K)

/-- a statement, for the fields number `u`, `a`, `d` -/
def pAct (u a d : Nat) : PIns → PLoc K → View (Nat → K) → PLoc K × View (Nat → K)
  | .load k, l, v => ((Function.update l.1 k (v a k.val), l.2), v)
  | .store j e col, l, v => ((l.1, Function.update l.2 j (plus (ext l.1 (place e.1 col)) (ext l.1) e.2 col)), v)
  | .mul x, l, v => (l, Function.update v d fun j => x.at (v u) (ext l.2) (v d j) j)

end

/-- the stores of `inlineSpinProjDir±`, include/scalarsite_generic/generic_spin_proj_inlines.h: for each of the two spin components, each colour, the real and
the imaginary part -/
def projStores (t : Fin 4 → Src × Src) : List PIns :=
  [.store 0 (t 0) 0, .store 1 (t 1) 0, .store 2 (t 0) 1, .store 3 (t 1) 1, .store 4 (t 0) 2, .store 5 (t 1) 2,
   .store 6 (t 2) 0, .store 7 (t 3) 0, .store 8 (t 2) 1, .store 9 (t 3) 1, .store 10 (t 2) 2, .store 11 (t 3) 2]

/-- the products that follow, include/scalarsite_generic/qdp_generic_fused_spin_proj_evaluates_wrapper.h:37-38, 70-71 -/
def projCalls : List Call := [⟨av, 0, 0, 0⟩, ⟨av, 0, 6, 6⟩]

/-- the body of the loop, same file, lines 34-38 and 66-71; the body of the functions for one object, generic_fused_spin_proj.h:108-118, is the same -/
def projBody (f : Fin 8) : List PIns :=
  (List.finRange 24).map .load ++ (projStores (inProjT f) ++ (projCalls.flatMap Call.ins).map .mul)

/-- `evaluate(d, OpAssign, adj(u)*spinProjectDir±(a), s)`: the body by the kind of the subset,
include/scalarsite_generic/qdp_generic_fused_spin_proj_evaluates.h:45-50, 70-75 -/
def projProg (e : Fin 8) : Form → List PIns
  | .ordered _ _ => projBody (projOrdered (projNode e))
  | .unordered _ => projBody (projUnordered (projNode e))

section
variable {K : Type} [CommRing K]

/-- statements of the loop over the sites that reconstructs -/
inductive RIns where
  /-- a statement of `_inline_mult_su3_mat_vec` -/
  | mul (x : Su3.Ins)
  /-- `tmp[..] = *src++` inside `inline(Add)SpinReconDir±` -/
  | load (k : Fin 12)
  /-- `*dst++ = tmp[..]` or `*dst++ += tmp[..]` for the first two spin components -/
  | low (add : Bool) (j : Fin 12)
  /-- `*dst++ = ± tmp[..]` or `*dst++ ±= tmp[..]` for the others -/
  | high (add : Bool) (j : Fin 24) (e : Src) (col : Nat)

/-- the local variables of a thread: the half spinor `tmp` of the loop and `tmp[2][3][2]` of the function called -/
abbrev RLoc (K : Type) := (Fin 12 → K) × (Fin 12 → K)

/-- what a store of `x` leaves: `=` or `+=` -/
def put (add : Bool) (old x : K) : K := if add then old + x else x

/-- a statement, for the fields number `u`, `a`, `d` -/
def rAct (u a d : Nat) : RIns → RLoc K → View (Nat → K) → RLoc K × View (Nat → K)
  | .mul x, l, v => ((fun j => x.at (v u) (v a) (l.1 j) j.val, l.2), v)
  | .load k, l, v => ((l.1, Function.update l.2 k (l.1 k)), v)
  | .low add j, l, v => (l, Function.update v d (Function.update (v d) j.val (put add (v d j.val) (l.2 j))))
  | .high add j e col, l, v =>
    (l, Function.update v d (Function.update (v d) j.val (if add then plus (v d j.val) (ext l.2) e col
      else if e.minus then -ext l.2 (place e col) else ext l.2 (place e col))))

end

/-- the products, include/scalarsite_generic/qdp_generic_fused_spin_recon_evaluates_wrapper.h:36-37, 73-74 -/
def reconCalls : List Call := [⟨mv, 0, 0, 0⟩, ⟨mv, 0, 6, 6⟩]

/-- the stores to the last two spin components, include/scalarsite_generic/generic_spin_recon_inlines.h -/
def highStores (add : Bool) (t : Fin 4 → Src) : List RIns :=
  [.high add 12 (t 0) 0, .high add 13 (t 1) 0, .high add 14 (t 0) 1, .high add 15 (t 1) 1, .high add 16 (t 0) 2, .high add 17 (t 1) 2,
   .high add 18 (t 2) 0, .high add 19 (t 3) 0, .high add 20 (t 2) 1, .high add 21 (t 3) 1, .high add 22 (t 2) 2, .high add 23 (t 3) 2]

/-- the body of the loop, include/scalarsite_generic/qdp_generic_fused_spin_recon_evaluates_wrapper.h:35-40, 72-77 -/
def reconBody (add : Bool) (f : Fin 8) : List RIns :=
  (reconCalls.flatMap Call.ins).map .mul ++
    ((List.finRange 12).map .load ++ ((List.finRange 12).map (.low add) ++ highStores add ((if add then inAddReconT else inReconT) f)))

/-- `evaluate(d, op, spinReconstructDir±(u*a), s)` for `=` and `+=`: the body by the kind of the subset,
include/scalarsite_generic/qdp_generic_fused_spin_recon_evaluates.h:35-38, 62-66, 636-639, 663-667 -/
def reconProg (add : Bool) (e : Fin 8) : Form → List RIns
  | .ordered _ _ => reconBody add ((if add then addOrdered else reconOrdered) (reconNode e))
  | .unordered _ => reconBody add ((if add then addUnordered else reconUnordered) (reconNode e))

section
variable {K : Type} [CommRing K]

/-- `adjMultSprojDir±(a, b)` on one object, generic_fused_spin_proj.h:106-119 and the seven like it; `l` and `g` are what the new objects hold before -/
def projObj (e : Fin 8) (a b : Nat → K) (l : PLoc K) (g : Nat → K) : Nat → K :=
  (runView (pAct 0 1 2) (projBody (projOne (projNode e))) l fun f => if f = 0 then a else if f = 1 then b else g).2 2

/-- `sreconDir±(a, b)` on one object, generic_fused_spin_recon.h:595-613 and the seven like it -/
def reconObj (e : Fin 8) (a b : Nat → K) (l : RLoc K) (g : Nat → K) : Nat → K :=
  (runView (rAct 0 1 2) (reconBody false (reconOne (reconNode e))) l fun f => if f = 0 then a else if f = 1 then b else g).2 2

/-! ## specification -/

/-- the spinor with given words -/
def spinor (n : Nat) (w : Nat → K) : Fin n → ColVec K := fun a c => (w (6 * a.val + 2 * c.val), w (6 * a.val + 2 * c.val + 1))

/-- the link with given words -/
def link (w : Nat → K) : Fin 3 → Fin 3 → K × K := fun i j => (w (6 * i.val + 2 * j.val), w (6 * i.val + 2 * j.val + 1))

def cmul (x y : K × K) : K × K := (x.1 * y.1 - x.2 * y.2, x.1 * y.2 + x.2 * y.1)
def conj (x : K × K) : K × K := (x.1, -x.2)

/-- the matrix times a colour vector -/
def times (U : Fin 3 → Fin 3 → K × K) (x : ColVec K) : ColVec K := fun i => ∑ j, cmul (U i j) (x j)

/-- the adjoint of a matrix -/
def dag (U : Fin 3 → Fin 3 → K × K) : Fin 3 → Fin 3 → K × K := fun i j => conj (U j i)

end
end Verif.FusedSpin
