import Verif.LatticeIOProps
import Mathlib.Logic.Function.Basic
/-
Sublattices: include/qdp_outersubtype.h, include/qdp_qdpsubtype.h, include/qdp_globalfuncs_subtype.h and what of include/qdp_outer.h, include/qdp_qdptype.h,
include/qdp_newops.h, include/qdp_scalar_specific.h, include/qdp_parscalar_specific.h they call.

An `OSubLattice<T>` is either a view `a[s]` of a field, or has memory of its own with one element for each site of the subset, in the order of the site table.

Simplifications: one type `T` of elements (that of the field, of the right hand side and of products; a sum of types, if need be); the loops run in the order of
the site table (C47 and C48 for threads); allocation succeeds, in a block never used before, with any contents; lattices live throughout; a subset lives
throughout and its table is that of `Set::make` (C04); one node (the global sum of `sum` is C49).
-/
namespace Verif.SubLat
open Verif Outcome Verif.Subset Verif.LatticeIO

/-! ## Model -/

/-- blocks of memory: those of the lattices, and those of the allocator -/
inductive Blk where
  | lat (f : Nat)
  | mem (n : Nat)
deriving DecidableEq

/-- members of `OSubLattice<T>`, include/qdp_outersubtype.h:222-224: `F` (a block), `ownsMemory`, `s` (the number of a subset) -/
structure Obj where
  F : Option Blk
  owns : Bool
  s : Option Nat
deriving DecidableEq

/-- what stays the same: site tables of the subsets, `sitesOnNode()`, contents of fresh memory -/
structure Env (T : Type) where
  tab : Nat → List Nat
  sites : Nat
  junk : Nat → Nat → T

/-- memory blocks: none if not allocated, or freed -/
abbrev Heap (T : Type) := Blk → Option (List T)

/-- the state of a program: memory, first block never used, variables of type `OSubLattice<T>` (none: not constructed, or destroyed) -/
structure World (T : Type) where
  heap : Heap T
  next : Nat
  obj : Nat → Option Obj

variable {T : Type}

/-- `p[i]` -/
def get (h : Heap T) (b : Blk) (i : Nat) : Outcome T := match h b with
  | none => ub
  | some l => rd l i

/-- `p[i] = v` -/
def put (h : Heap T) (b : Blk) (i : Nat) (v : T) : Outcome (Heap T) := match h b with
  | none => ub
  | some l => if i < l.length then ok (Function.update h b (some (l.set i v))) else ub

/-- `op(p[i], v)` -/
def upd (op : T → T → T) (h : Heap T) (b : Blk) (i : Nat) (v : T) : Outcome (Heap T) := do
  let x ← get h b i
  put h b i (op x v)

/-- `alloc_mem()`, include/qdp_outersubtype.h:142-154: a block of `n` elements -/
def alloc (E : Env T) (n : Nat) (w : World T) : World T × Blk :=
  ({ w with heap := Function.update w.heap (.mem w.next) (some ((List.range n).map (E.junk w.next))), next := w.next + 1 }, .mem w.next)

/-- `free_mem()`, include/qdp_outersubtype.h:162-164: freeing anything but a live block is undefined -/
def free (h : Heap T) (b : Blk) : Outcome (Heap T) := match h b with
  | none => ub
  | some _ => ok (Function.update h b none)

/-- a right hand side: an expression of lattices, evaluated at one site at a time (`forEach(rhs, EvalLeaf1(i), OpCombine())`) -/
structure Rhs (T : Type) where
  args : List Nat
  fn : List T → T

def Rhs.at (e : Rhs T) (h : Heap T) (i : Nat) : Outcome T := do
  let vs ← mapO (fun f => get h (.lat f) i) e.args
  return e.fn vs

/-- `evaluate(OLattice, op, OLattice expression, s)`, include/qdp_parscalar_specific.h:384-410, include/qdp_scalar_specific.h:192-232: `b` is taken for a lattice -/
def evalLat (op : T → T → T) (e : Rhs T) (b : Blk) (tab : List Nat) (h : Heap T) : Outcome (Heap T) :=
  foldO (fun h i => do let v ← e.at h i; upd op h b i v) h tab

/-- `evaluate(OLattice, op, OScalar expression, s)`, include/qdp_parscalar_specific.h:339-376 -/
def evalScal (op : T → T → T) (v : T) (b : Blk) (tab : List Nat) (h : Heap T) : Outcome (Heap T) := foldO (fun h i => upd op h b i v) h tab

/-- `evaluate_F(T*, op, OLattice expression, s)`, include/qdp_parscalar_specific.h:422-455, include/qdp_scalar_specific.h:236-272 -/
def evalF (op : T → T → T) (e : Rhs T) (b : Blk) (tab : List Nat) (h : Heap T) : Outcome (Heap T) :=
  foldO (fun h j => do let i ← rd tab j; let v ← e.at h i; upd op h b j v) h (List.range tab.length)

/-- `evaluate_F(T*, op, OScalar expression, s)`, include/qdp_outer.h:240-247: "Subset is not used at this level" -/
def evalFScal (op : T → T → T) (v : T) (b : Blk) (h : Heap T) : Outcome (Heap T) := upd op h b 0 v

/-- `zero_rep(OLattice, s)`, include/qdp_parscalar_specific.h:614-628 -/
def zeroLat (zero : T) (b : Blk) (tab : List Nat) (h : Heap T) : Outcome (Heap T) := foldO (fun h i => put h b i zero) h tab

/-- `zero_rep_F`, include/qdp_globalfuncs_subtype.h:169-177 -/
def zeroF (zero : T) (b : Blk) (tab : List Nat) (h : Heap T) : Outcome (Heap T) := foldO (fun h j => put h b j zero) h (List.range tab.length)

/-- dereference of a pointer -/
def deref {α : Type} : Option α → Outcome α
  | none => ub
  | some a => ok a

/-- statements on variables of type `OSubLattice<T>` -/
inductive Op (T : Type) where
  /-- `OSubLattice<T> x;` -/
  | create (x : Nat)
  /-- `OSubLattice<T> x(a, s);`, the object `a[s]` -/
  | view (x f s : Nat)
  /-- `OSubLattice<T> x(s, a);` -/
  | own (x s f : Nat)
  /-- `OSubLattice<T> x(y);` -/
  | copy (x y : Nat)
  | setSubset (x s : Nat)
  | destroy (x : Nat)
  /-- `x op= v` for a number or an `OScalar` -/
  | scal (x : Nat) (op : T → T → T) (v : T)
  /-- `x = zero` -/
  | zero (x : Nat) (z : T)
  /-- `x op= lattice expression` -/
  | expr (x : Nat) (op : T → T → T) (e : Rhs T)
  /-- `pokeColor(x, r, ..)`, `pokeSpin(x, r, ..)`: `op` inserts the component -/
  | poke (x : Nat) (op : T → T → T) (e : Rhs T)
  /-- `x = y` -/
  | assign (x y : Nat)
  /-- `a = x` -/
  | toField (f x : Nat)
  /-- `z(localInnerProduct(x, a))`, `z(localInnerProduct(a, x))` and the colour versions -/
  | inner (z x f : Nat) (op : T → T → T)

/-- the variable `x` -/
def World.var (w : World T) (x : Nat) : Outcome Obj := deref (w.obj x)

/-- construct a variable, which must not exist -/
def World.declare (w : World T) (x : Nat) (o : Obj) : Outcome (World T) := match w.obj x with
  | none => ok { w with obj := Function.update w.obj x (some o) }
  | some _ => ub

/-- `setSubset`, include/qdp_outersubtype.h:120-129, on an object -/
def setSub (E : Env T) (s : Nat) (o : Obj) (w : World T) : Outcome (Obj × World T) := do
  match o.F with
  | none =>
    let r := alloc E (E.tab s).length w
    return (⟨some r.2, true, some s⟩, r.1)
  | some b =>
    if o.owns then do
      let h ← free w.heap b
      let r := alloc E (E.tab s).length { w with heap := h }
      return (⟨some r.2, true, some s⟩, r.1)
    else abort

/-- one statement -/
def step (E : Env T) (w : World T) : Op T → Outcome (World T)
  -- include/qdp_outersubtype.h:117
  | .create x => w.declare x ⟨none, false, none⟩
  -- include/qdp_outersubtype.h:101, include/qdp_outer.h:371-372
  | .view x f s => w.declare x ⟨some (.lat f), false, some s⟩
  -- include/qdp_outersubtype.h:132-139
  | .own x s f => do
    let r := alloc E (E.tab s).length w
    let h ← foldO (fun h j => do let i ← rd (E.tab s) j; let v ← get h (.lat f) i; put h r.2 j v) r.1.heap (List.range (E.tab s).length)
    ({ r.1 with heap := h } : World T).declare x ⟨some r.2, true, some s⟩
  -- include/qdp_outersubtype.h:102-113
  | .copy x y => do
    let o ← w.var y
    if o.owns then do
      let s ← deref o.s
      let r := alloc E (E.tab s).length w
      let b ← deref o.F
      let h ← foldO (fun h j => do let v ← get h b j; put h r.2 j v) r.1.heap (List.range (E.tab s).length)
      ({ r.1 with heap := h } : World T).declare x ⟨some r.2, true, some s⟩
    else w.declare x ⟨o.F, false, o.s⟩
  | .setSubset x s => do
    let o ← w.var x
    let r ← setSub E s o w
    return { r.2 with obj := Function.update r.2.obj x (some r.1) }
  -- include/qdp_outersubtype.h:156-160
  | .destroy x => do
    let o ← w.var x
    let h ← if o.owns then do let b ← deref o.F; free w.heap b else ok w.heap
    return { w with heap := h, obj := Function.update w.obj x none }
  -- include/qdp_qdpsubtype.h:40-50, 126-136 and the like
  | .scal x op v => do
    let o ← w.var x
    let s ← deref o.s
    let b ← deref o.F
    let h ← if o.owns then evalFScal op v b w.heap else evalScal op v b (E.tab s) w.heap
    return { w with heap := h }
  -- include/qdp_qdpsubtype.h:52-61
  | .zero x z => do
    let o ← w.var x
    let s ← deref o.s
    let b ← deref o.F
    let h ← if o.owns then zeroF z b (E.tab s) w.heap else zeroLat z b (E.tab s) w.heap
    return { w with heap := h }
  -- include/qdp_qdpsubtype.h:63-73, 115-124, 138-160 and the like
  | .expr x op e => do
    let o ← w.var x
    let s ← deref o.s
    let b ← deref o.F
    let h ← if o.owns then evalF op e b (E.tab s) w.heap else evalLat op e b (E.tab s) w.heap
    return { w with heap := h }
  -- include/qdp_newops.h:368-391, 442-467, 517-543, 593-618: no difference between views and others
  | .poke x op e => do
    let o ← w.var x
    let s ← deref o.s
    let b ← deref o.F
    let h ← evalLat op e b (E.tab s) w.heap
    return { w with heap := h }
  -- include/qdp_qdpsubtype.h:76-112
  | .assign x y => do
    let o ← w.var x
    let p ← w.var y
    if o.owns && p.owns then do
      let s ← deref o.s
      let t ← deref p.s
      if (E.tab s).length ≠ (E.tab t).length then abort
      else do
        let b ← deref o.F
        let c ← deref p.F
        let h ← foldO (fun h j => do let v ← get h c j; put h b j v) w.heap (List.range (E.tab s).length)
        return { w with heap := h }
    else abort
  -- include/qdp_qdptype.h:374-388
  | .toField f x => do
    let o ← w.var x
    if o.owns then do
      let s ← deref o.s
      let b ← deref o.F
      let h ← foldO (fun h j => do let i ← rd (E.tab s) j; let v ← get h b j; put h (.lat f) i v) w.heap (List.range (E.tab s).length)
      return { w with heap := h }
    else abort
  -- include/qdp_globalfuncs_subtype.h:32-74, 102-144
  | .inner z x f op => do
    let o ← w.var x
    if o.owns then do
      let s ← deref o.s
      let b ← deref o.F
      let r ← setSub E s ⟨none, false, none⟩ w
      let c ← deref r.1.F
      let h ← foldO (fun h j => do
          let i ← rd (E.tab s) j
          let u ← get h b j
          let v ← get h (.lat f) i
          put h c j (op u v)) r.2.heap (List.range (E.tab s).length)
      ({ r.2 with heap := h } : World T).declare z r.1
    else abort

/-- a program -/
def run (E : Env T) : List (Op T) → World T → Outcome (World T)
  | [], w => ok w
  | o :: os, w => do let w ← step E w o; run E os w

/-- `sum(OSubLattice)`, include/qdp_globalfuncs_subtype.h:148-166, up to the global sum -/
def sum (E : Env T) (add : T → T → T) (zero : T) (w : World T) (x : Nat) : Outcome T := do
  let o ← w.var x
  let s ← deref o.s
  let b ← deref o.F
  foldO (fun d j => do let v ← get w.heap b j; return add d v) zero (List.range (E.tab s).length)

/-- `x[s] op= v` for an `OScalar` `x`, include/qdp_outersubtype.h:24-26, 79-82, include/qdp_qdpsubtype.h:40-50 and the like, include/qdp_outer.h:43, 240-247;
`owns` is what `ownsMemory` holds, none if it was never set: without memory of its own the statement works on `C tmp(getF(),1.0)`, which for an `OScalar` is a copy -/
def subScal (op : T → T → T) (owns : Option Bool) (x v : T) : Outcome T := match owns with
  | none => ub
  | some true => ok (op x v)
  | some false => do
    let tmp := x
    let _tmp := op tmp v
    return x

/-- the constructor of `x[s]` sets `F` and `s` only -/
def subScalOwns : Option Bool := none

/-! ## Specification: a sublattice is the restriction of a field to the sites of its subset -/

/-- a variable: without subset; a name for the sites of a subset of a field; values at the sites of a subset -/
inductive AObj (T : Type) where
  | unset
  | view (f s : Nat)
  | own (s : Nat) (φ : Nat → T)

/-- the values of the lattices at their sites; the variables -/
structure Abs (T : Type) where
  field : Nat → Nat → T
  obj : Nat → Option (AObj T)

/-- the value of a right hand side at a site -/
def Rhs.val (e : Rhs T) (field : Nat → Nat → T) (i : Nat) : T := e.fn (e.args.map (fun f => field f i))

/-- at the sites of the subset the new value, elsewhere the old one -/
def on (E : Env T) (s : Nat) (new old : Nat → T) : Nat → T := fun i => if i ∈ E.tab s then new i else old i

/-- `x op= v` at the sites of the subset of `x` -/
def Abs.modify (E : Env T) (a : Abs T) (x : Nat) (new : T → Nat → T) : Abs T := match a.obj x with
  | some (.view f s) => { a with field := Function.update a.field f (on E s (fun i => new (a.field f i) i) (a.field f)) }
  | some (.own s φ) => { a with obj := Function.update a.obj x (some (.own s (on E s (fun i => new (φ i) i) φ))) }
  | _ => a

/-- what the statements are for; `junk` are the values of fresh memory at the sites -/
def want (E : Env T) (junk : Nat → T) (a : Abs T) : Op T → Abs T
  | .create x => { a with obj := Function.update a.obj x (some .unset) }
  | .view x f s => { a with obj := Function.update a.obj x (some (.view f s)) }
  | .own x s f => { a with obj := Function.update a.obj x (some (.own s (a.field f))) }
  | .copy x y => { a with obj := Function.update a.obj x (a.obj y) }
  | .setSubset x s => { a with obj := Function.update a.obj x (some (.own s junk)) }
  | .destroy x => { a with obj := Function.update a.obj x none }
  | .scal x op v => a.modify E x (fun y _ => op y v)
  | .zero x z => a.modify E x (fun _ _ => z)
  | .expr x op e => a.modify E x (fun y i => op y (e.val a.field i))
  | .poke x op e => a.modify E x (fun y i => op y (e.val a.field i))
  | .assign x y => match a.obj y with
    | some (.own t φ) => a.modify E x (fun old i => if i ∈ E.tab t then φ i else old)
    | _ => a
  | .toField f x => match a.obj x with
    | some (.own s φ) => { a with field := Function.update a.field f (on E s φ (a.field f)) }
    | _ => a
  | .inner z x f op => match a.obj x with
    | some (.own s φ) => { a with obj := Function.update a.obj z (some (.own s (fun i => op (φ i) (a.field f i)))) }
    | _ => a

end Verif.SubLat
