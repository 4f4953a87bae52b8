import Verif.Kernel
import Verif.Interleave
import Verif.Evaluate
import Verif.Spin
import Mathlib.Algebra.Field.Basic
/-
The specialisations of `evaluate` for expressions of vectors and scalars (include/scalarsite_generic/qdp_scalarsite_generic_blas.h,
..._cblas.h, ..._blas_g5.h and the wrappers): an expression type, an assignment operator, and the call of a kernel for each of the two kinds of
subsets.  The list of them is in `BlasTables`, the kernels in `KernelTables`.
-/
set_option linter.unusedSectionVars false
namespace Verif.Blas
open Verif Outcome Verif.Poly Verif.Kernel Verif.Subset Verif.Dispatch Verif.Spin

/-! ## expressions and entries -/

/-- `left()`, `right()`, `child()` of a node -/
inductive Dir where
  | l | r | c
deriving DecidableEq, Repr

/-- the place of a leaf in the expression -/
abbrev Path := List Dir

/-- `OpIdentity`, `FnChiralProjectPlus`, `FnChiralProjectMinus`, `FnTimesI` -/
inductive Fn where
  | id | projPlus | projMinus | timesI
deriving DecidableEq, Repr

/-- `OpAdd`, `OpSubtract`, `OpMultiply`, `OpGammaConstMultiply` -/
inductive Op2 where
  | add | sub | mul | gmul
deriving DecidableEq, Repr

/-- the type of the expression: a field of Dirac fermions, a number, a constant gamma matrix, functions of them -/
inductive Node where
  | vec
  | scal
  | gamma (n : Fin 16)
  | un (f : Fn) (a : Node)
  | bin (o : Op2) (a b : Node)
deriving DecidableEq, Repr

/-- `OpAssign`, `OpAddAssign`, `OpSubtractAssign`, `OpMultiplyAssign`, `OpDivideAssign` -/
inductive Asg where
  | assign | addAssign | subtractAssign | multiplyAssign | divideAssign
deriving DecidableEq, Repr

/-- what is passed to the kernel: the destination, the field at a leaf, the number at a leaf, minus it, one over it, the numbers one and minus one -/
inductive Arg where
  | dest
  | at (p : Path)
  | sc (p : Path)
  | neg (p : Path)
  | inv (p : Path)
  | one
  | mone
deriving DecidableEq, Repr

/-- a call: kernel and arguments in the order of its parameters -/
structure Use where
  kern : Kern
  args : List Arg

/-- a specialisation; `cplx` tells whether the numbers are complex -/
structure Entry where
  op : Asg
  rhs : Node
  cplx : Bool
  ordered : Use
  unordered : Use

/-! ## specification: what the statement means for one site -/

/-- spin, colour, real and imaginary part -/
abbrev Spinor (R : Type) := Fin 4 → Fin 3 → R × R

inductive Val (R : Type) where
  | vec (v : Spinor R)
  | re (a : R)
  | cx (z : R × R)
  | gamma (n : Fin 16)
  | bad

section spec
variable {R : Type} [Field R]

def scale (a : R) (v : Spinor R) : Spinor R := fun s c => (a * (v s c).1, a * (v s c).2)
/-- multiplication of complex numbers -/
def cscale (z : R × R) (v : Spinor R) : Spinor R := fun s c => (z.1 * (v s c).1 - z.2 * (v s c).2, z.1 * (v s c).2 + z.2 * (v s c).1)

def Val.add : Val R → Val R → Val R
  | .vec v, .vec w => .vec (v + w)
  | _, _ => .bad
def Val.sub : Val R → Val R → Val R
  | .vec v, .vec w => .vec (v - w)
  | _, _ => .bad
def Val.mul : Val R → Val R → Val R
  | .re a, .vec v => .vec (scale a v)
  | .vec v, .re a => .vec (scale a v)
  | .cx z, .vec v => .vec (cscale z v)
  | .vec v, .cx z => .vec (cscale z v)
  | _, _ => .bad
def Val.div : Val R → Val R → Val R
  | .vec v, .re a => .vec fun s c => ((v s c).1 / a, (v s c).2 / a)
  | _, _ => .bad
def Val.gmul : Val R → Val R → Val R
  | .gamma n, .vec v => .vec (mulVec (Spin.gamma basis n) v)
  | _, _ => .bad

def Fn.app : Fn → Val R → Val R
  | .id, v => v
  | .projPlus, .vec v => .vec (chiralPlus v)
  | .projMinus, .vec v => .vec (chiralMinus v)
  | .timesI, .vec v => .vec (Cpt.timesI v)
  | _, _ => .bad

def Op2.app : Op2 → Val R → Val R → Val R
  | .add => .add
  | .sub => .sub
  | .mul => .mul
  | .gmul => .gmul

/-- `a op= b` -/
def Asg.app : Asg → Val R → Val R → Val R
  | .assign, _, w => w
  | .addAssign, v, w => v.add w
  | .subtractAssign, v, w => v.sub w
  | .multiplyAssign, v, w => v.mul w
  | .divideAssign, v, w => v.div w

/-- what stands in a statement at run time: the number of the destination, of the field at every leaf, the number at every leaf -/
structure Inst (R : Type) where
  dest : Nat
  fld : Path → Nat
  num : Path → R × R

/-- the expression as `evaluate` takes it -/
def Node.expr (I : Inst R) (cplx : Bool) : Node → Path → Evaluate.Expr (Val R)
  | .vec, p => .field (I.fld p)
  | .scal, p => .scalar (if cplx then .cx (I.num p) else .re (I.num p).1)
  | .gamma n, _ => .scalar (.gamma n)
  | .un f a, p => .un f.app (a.expr I cplx (p ++ [.c]))
  | .bin o a b, p => .bin o.app (a.expr I cplx (p ++ [.l])) (b.expr I cplx (p ++ [.r]))

/-- the spinor at site `i` of field `f`: 24 numbers, spin slowest, then colour, real part before imaginary part -/
def spinor (h : Kernel.Heap R) (f i : Nat) : Spinor R :=
  fun s c => (h f (24 * i + (6 * s.val + 2 * c.val)), h f (24 * i + (6 * s.val + 2 * c.val + 1)))

def spinors (h : Kernel.Heap R) : Evaluate.Heap (Val R) := fun f i => .vec (spinor h f i)

end spec

/-! ## model -/

section model
variable {R : Type} [Field R]

/-- the argument passed for a parameter, e.g. include/scalarsite_generic/qdp_scalarsite_generic_blas_wrapper.h:38 -/
def Use.arg (u : Use) (p : Par) : Option Arg := ((u.kern.params.zip u.args).find? fun a => a.1 == p).map (·.2)

/-- the field behind a pointer, e.g. `yptr`: include/scalarsite_generic/qdp_scalarsite_generic_blas.h:75-76 -/
def Inst.ptr (I : Inst R) : Option Arg → Nat
  | some .dest => I.dest
  | some (.at p) => I.fld p
  | _ => 0

/-- the number behind a pointer to a scalar: its `j`-th component, e.g. `aptr`: include/scalarsite_generic/qdp_scalarsite_generic_blas.h:71-72 -/
def Inst.sval (I : Inst R) : Option Arg → Nat → R
  | some (.sc p), j => if j = 0 then (I.num p).1 else (I.num p).2
  | some (.neg p), j => if j = 0 then -(I.num p).1 else -(I.num p).2
  | some (.inv p), _ => (I.num p).1⁻¹
  | some .one, _ => 1
  | some .mone, _ => -1
  | _, _ => 0

/-- `s 0`, `s 1` from the first scalar, `s 2`, `s 3` from the second -/
def Use.scalars (u : Use) (I : Inst R) (k : Nat) : R := I.sval (u.arg (.s (2 * (k / 2)))) (k % 2)

/-- an instruction of a thread: enter the kernel for the sites `i, …, i + n - 1`, or a statement of the kernel -/
inductive Instr where
  | enter (i n : Nat)
  | run (st : Stmt)

/-- local variables of a thread: arguments and local variables of the kernel -/
abbrev TLoc (R : Type) := Call × Loc R

/-- one instruction; the fields have `N` sites.  Pointers to the first site: include/scalarsite_generic/qdp_scalarsite_generic_blas_wrapper.h:34-36, 71-72 -/
def instr (K : Kern) (N : Nat) (s : Nat → R) (px py pz : Nat) : Instr → TLoc R → Kernel.Heap R → Outcome (TLoc R × Kernel.Heap R)
  | .enter i n, _, h => if i + n ≤ N then ok ((⟨px, py, pz, 24 * i, 24 * n, 24 * N - 24 * (i + n)⟩, K.init), h) else ub
  | .run st, (c, l), h => match step (ringOps R) s c st l h with
    | ok (l', h') => ok ((c, l'), h')
    | _ => ub

def callProg (K : Kern) (c : Nat × Nat) : List Instr := .enter c.1 c.2 :: (K.prog c.2).map .run

/-- what `evaluate` uses of a subset: `start()` and `end() - start() + 1`, or the table; include/scalarsite_generic/qdp_scalarsite_generic_blas.h:74-79, 93-95 -/
inductive Form where
  | ordered (start n : Nat)
  | unordered (tab : List Nat)

def Form.of (s : Sub) : Form :=
  if s.ordRep then .ordered s.start.toNat (s.stop - s.start + 1).toNat else .unordered (s.table.map Int.toNat)

/-- the sites -/
def Form.table : Form → List Nat
  | .ordered start n => List.range' start n
  | .unordered tab => tab

/-- the number passed to `dispatch_to_threads` -/
def Form.size : Form → Nat
  | .ordered _ n => n
  | .unordered tab => tab.length

/-- the calls made by the user functions `ordered_…_evaluate_function` and `unordered_…_evaluate_function` for the range of one thread: the whole
range at once from `index = lo * 24` on, or site by site through the table; include/scalarsite_generic/qdp_scalarsite_generic_blas_wrapper.h:24-39, 58-84 (the others have the
same shape, asserted by tools/gen_entries.py) -/
def Form.calls : Form → Option (Nat × Nat) → Outcome (List (Nat × Nat))
  | .ordered _ _, none => ok []
  | .ordered start _, some (lo, hi) => do
      let _ ← ckInt (lo * 24)
      ok [(start + lo, hi - lo)]
  | .unordered tab, r => do
      let is ← mapO (rd tab) (share r)
      ok (is.map fun i => (i, 1))

/-- the calls of thread `t`; include/scalarsite_generic/qdp_scalarsite_generic_blas.h:83, 99 -/
def Form.threadCalls (f : Form) (rs : List (Option (Nat × Nat))) (t : Nat) : Outcome (List (Nat × Nat)) :=
  match rs[t]? with
  | none => ok []
  | some r => f.calls r

def Entry.use (e : Entry) : Form → Use
  | .ordered _ _ => e.ordered
  | .unordered _ => e.unordered

abbrev State (R : Type) := Interleave.St R Instr (TLoc R)

/-- the start of the parallel region -/
def startState (u : Use) (h : Kernel.Heap R) (C : Nat → List (Nat × Nat)) : State R :=
  ⟨h, fun t => ⟨(⟨0, 0, 0, 0, 0, 0⟩, u.kern.init), (C t).flatMap (callProg u.kern)⟩⟩

/-- the instructions of the threads for a statement -/
def Entry.step (e : Entry) (f : Form) (N : Nat) (I : Inst R) : Instr → TLoc R → Kernel.Heap R → Outcome (TLoc R × Kernel.Heap R) :=
  instr (e.use f).kern N ((e.use f).scalars I) (I.ptr ((e.use f).arg .x)) (I.ptr ((e.use f).arg .y)) (I.ptr ((e.use f).arg .out))

/-- the states reached by the statement `dest[subset] op= expression` with `T` threads -/
def Entry.Reaches (e : Entry) (f : Form) (N T : Nat) (I : Inst R) (h : Kernel.Heap R) (s : State R) : Prop :=
  ∃ rs, ∃ C : Nat → List (Nat × Nat), dispatch f.size T = ok rs ∧ (∀ t, f.threadCalls rs t = ok (C t)) ∧
    Relation.ReflTransGen (Interleave.Step (e.step f N I)) (startState (e.use f) h C) s

end model

/-! ## calls -/

section calls
variable {R : Type} [Field R] {K : Kern} {N : Nat} {s : Nat → R} {px py pz : Nat}

/-- what the kernel writes at number `k` of a site -/
def spAt (sp : List Pol) (k : Nat) : Pol := rename (shiftVar (sp.length * (k / sp.length))) (sp.getD (k % sp.length) [])

theorem stride_of_check {slack : Nat} {sp : List Pol} (h : checkRun K slack sp = true) : sp.length * K.mul = 24 := by
  unfold checkRun at h
  simp only at h
  split at h
  · split at h
    · simp only [Bool.and_eq_true, beq_iff_eq] at h
      exact h.1.2
    · simp at h
  · simp at h

theorem exec_instr {c : Call} : ∀ {p : List Stmt} {l l' : Loc R} {h h' : Kernel.Heap R}, exec (ringOps R) s c p l h = ok (l', h') →
    Interleave.run (instr K N s px py pz) (p.map .run) (c, l) h = ok ((c, l'), h')
  | [], l, l', h, h', e => by
      simp only [exec] at e
      injection e with e
      injection e with e1 e2
      subst e1 e2
      rfl
  | st :: p, l, l', h, h', e => by
      simp only [exec] at e
      split at e
      · next l1 h1 e1 =>
        simp only [List.map_cons, Interleave.run, instr, e1]
        exact exec_instr e
      · simp at e

/-- one call, in terms of sites; the registers are those of `K0` -/
theorem call_spec {K0 : Kern} (hreg : K0.nreg = K.nreg) {slack : Nat} {sp : List Pol} (hK : checkRun K slack sp = true) {i n : Nat} (hi : i + n ≤ N)
    (hs : slack ≤ 24 * N - 24 * (i + n))
    (l : TLoc R) (h : Kernel.Heap R) : ∃ l' h', Interleave.run (instr K0 N s px py pz) (callProg K (i, n)) l h = ok (l', h') ∧
      (∀ m ∈ List.range' i n, ∀ k, k < 24 → h' pz (24 * m + k) =
        eval (env (fun j => h px (24 * m + j)) (fun j => h py (24 * m + j)) s) (spAt sp k)) ∧
      ∀ g j, (g = pz → j < 24 * i ∨ 24 * (i + n) ≤ j) → h' g j = h g j := by
  obtain ⟨h', e, hv, hf⟩ := checkRun_run hK hs s px py pz (24 * i) n h
  unfold Kern.run at e
  split at e
  · next l1 h1 e1 =>
    injection e with e
    subst e
    refine ⟨(⟨px, py, pz, 24 * i, 24 * n, 24 * N - 24 * (i + n)⟩, l1), h1, ?_, ?_, ?_⟩
    · have hinit : (K0.init : Loc R) = K.init := by unfold Kern.init; rw [hreg]
      simp only [callProg, Interleave.run, instr, if_pos hi, hinit]
      exact exec_instr e1
    · intro m hm k hk
      rw [List.mem_range'_1] at hm
      have hst := stride_of_check hK
      have hpos : 0 < sp.length := by
        rcases Nat.eq_zero_or_pos sp.length with h | h
        · rw [h] at hst; simp at hst
        · exact h
      obtain ⟨d, rfl⟩ : ∃ d, m = i + d := ⟨m - i, by omega⟩
      have hkd := Nat.div_add_mod k sp.length
      have hkm := Nat.mod_lt k hpos
      have hkq : k / sp.length < K.mul := by
        rw [Nat.div_lt_iff_lt_mul hpos, Nat.mul_comm, hst]; exact hk
      have hj : K.mul * d + k / sp.length < K.mul * n := by
        calc K.mul * d + k / sp.length < K.mul * d + K.mul := by omega
          _ = K.mul * (d + 1) := by ring
          _ ≤ _ := Nat.mul_le_mul_left _ (by omega)
      have e24 : sp.length * (K.mul * d + k / sp.length) = 24 * d + sp.length * (k / sp.length) := by rw [← hst]; ring
      have := hv (K.mul * d + k / sp.length) (k % sp.length) hj hkm
      rw [e24] at this
      rw [show 24 * (i + d) + k = 24 * i + (24 * d + sp.length * (k / sp.length) + k % sp.length) by omega, this, spAt, eval_shift]
      congr 1
      congr 1
      · funext j; congr 1; omega
      · funext j; congr 1; omega
    · intro g j hgj
      exact hf g j fun hg => by have := hgj hg; omega
  · simp at e

/-- the cells of a set of sites, in all fields -/
def cells (S : List Nat) (j : Nat) : Prop := ∃ i ∈ S, 24 * i ≤ j ∧ j < 24 * (i + 1)

theorem cells_range' {i n j : Nat} : cells (List.range' i n) j ↔ 24 * i ≤ j ∧ j < 24 * (i + n) := by
  unfold cells
  constructor
  · rintro ⟨m, hm, h1, h2⟩
    rw [List.mem_range'_1] at hm
    omega
  · rintro ⟨h1, h2⟩
    exact ⟨j / 24, by rw [List.mem_range'_1]; omega, by omega, by omega⟩

/-- the calls still to come, and the call running, stay on the sites `S` -/
def Inside (S : List Nat) (p : List Instr) (l : TLoc R) : Prop :=
  (∀ i n, Instr.enter i n ∈ p → ∀ m ∈ List.range' i n, m ∈ S) ∧ ∀ k, k < l.1.len → cells S (l.1.base + k)

theorem inside_keep {S : List Nat} {i : Instr} {p : List Instr} {l l' : TLoc R} {h h' : Kernel.Heap R} (hin : Inside S (i :: p) l)
    (e : instr K N s px py pz i l h = ok (l', h')) : Inside S p l' := by
  refine ⟨fun i n hm => hin.1 i n (List.mem_cons_of_mem _ hm), ?_⟩
  cases i with
  | enter i n =>
    simp only [instr] at e
    split at e
    · injection e with e
      injection e with e1 _
      subst e1
      intro k hk
      simp only at hk ⊢
      refine ⟨i + k / 24, hin.1 i n (by simp) _ ?_, by omega, by omega⟩
      rw [List.mem_range'_1]; omega
    · simp at e
  | run st =>
    obtain ⟨c, l⟩ := l
    simp only [instr] at e
    split at e
    · injection e with e
      injection e with e1 _
      subst e1
      exact hin.2
    · simp at e

theorem step_local {c : Call} {S : List Nat} (hc : ∀ k, k < c.len → cells S (c.base + k)) {st : Stmt} {l l' : Loc R} {h h' : Kernel.Heap R}
    (e : step (ringOps R) s c st l h = ok (l', h')) :
    (∀ f j, ¬ cells S j → h' f j = h f j) ∧
    ∀ g : Kernel.Heap R, (∀ f j, cells S j → h f j = g f j) → ∃ g', step (ringOps R) s c st l g = ok (l', g') ∧ ∀ f j, cells S j → h' f j = g' f j := by
  cases st with
  | ld r a =>
    cases a <;>
    · simp only [step] at e ⊢
      split at e
      · next hlt =>
        injection e with e
        injection e with e1 e2
        subst e1 e2
        refine ⟨fun _ _ _ => rfl, fun g hg => ⟨g, ?_, hg⟩⟩
        rw [if_pos hlt, hg _ _ (hc _ hlt)]
      · simp at e
  | set r x =>
    simp only [step] at e ⊢
    split at e
    · next v hv =>
      injection e with e
      injection e with e1 e2
      subst e1 e2
      exact ⟨fun _ _ _ => rfl, fun g hg => ⟨g, by simp only, hg⟩⟩
    · simp at e
  | st x =>
    simp only [step] at e ⊢
    split at e
    · next v hv =>
      split at e
      · next hlt =>
        injection e with e
        injection e with e1 e2
        subst e1 e2
        refine ⟨?_, fun g hg => ⟨Kernel.store g c.pz (c.base + l.cz) v, by simp only [if_pos hlt], ?_⟩⟩
        · intro f j hj
          unfold Kernel.store
          rw [if_neg]
          rintro ⟨rfl, rfl⟩
          exact hj (hc _ hlt)
        · intro f j hj
          unfold Kernel.store
          split
          · rfl
          · exact hg f j hj
      · simp at e
    · simp at e
  | skip a k =>
    cases a <;>
    · simp only [step] at e ⊢
      injection e with e
      injection e with e1 e2
      subst e1 e2
      exact ⟨fun _ _ _ => rfl, fun g hg => ⟨g, rfl, hg⟩⟩
  | pull r a k =>
    cases a <;>
    · simp only [step] at e ⊢
      split at e
      · next hlt =>
        injection e with e
        injection e with e1 e2
        subst e1 e2
        exact ⟨fun _ _ _ => rfl, fun g hg => ⟨g, by rw [if_pos hlt], hg⟩⟩
      · simp at e

theorem instr_local {S : List Nat} {i : Instr} {p : List Instr} {l l' : TLoc R} {h h' : Kernel.Heap R} (hin : Inside S (i :: p) l)
    (e : instr K N s px py pz i l h = ok (l', h')) :
    (∀ f j, ¬ cells S j → h' f j = h f j) ∧
    ∀ g : Kernel.Heap R, (∀ f j, cells S j → h f j = g f j) →
      ∃ g', instr K N s px py pz i l g = ok (l', g') ∧ ∀ f j, cells S j → h' f j = g' f j := by
  cases i with
  | enter i n =>
    simp only [instr] at e ⊢
    split at e
    · next hle =>
      injection e with e
      injection e with e1 e2
      subst e1 e2
      exact ⟨fun _ _ _ => rfl, fun g hg => ⟨g, by rw [if_pos hle], hg⟩⟩
    · simp at e
  | run st =>
    obtain ⟨c, l⟩ := l
    simp only [instr] at e ⊢
    split at e
    · next l1 h1 e1 =>
      injection e with e
      injection e with e2 e3
      subst e2 e3
      obtain ⟨hf, hs⟩ := step_local hin.2 e1
      refine ⟨hf, fun g hg => ?_⟩
      obtain ⟨g', e4, hg'⟩ := hs g hg
      exact ⟨g', by simp only [e4], hg'⟩
    · simp at e

/-- the threads keep to the cells of their sites -/
theorem local_instr (S : Nat → List Nat) :
    Interleave.Local (instr K N s px py pz) (fun t _ j => cells (S t) j) (fun t p l => Inside (S t) p l) :=
  ⟨fun hin e => inside_keep hin e, fun hin e => (instr_local hin e).1, fun {_ _ _ _ _ g _ _} hin hg e => (instr_local hin e).2 g hg⟩

theorem enter_mem_callProg {c : Nat × Nat} {i n : Nat} (h : Instr.enter i n ∈ callProg K c) : i = c.1 ∧ n = c.2 := by
  unfold callProg at h
  rcases List.mem_cons.1 h with h | h
  · injection h with h1 h2
    exact ⟨h1, h2⟩
  · simp at h

def callSites (C : List (Nat × Nat)) : List Nat := C.flatMap fun c => List.range' c.1 c.2

/-- the calls of one thread, one after the other; the kernel may depend on the number of sites -/
theorem calls_spec {K0 : Kern} {K : Nat → Kern} (hreg : ∀ n, K0.nreg = (K n).nreg) {slack : Nat} {sp : List Pol} (hK : ∀ n, checkRun (K n) slack sp = true)
    (h0 : Kernel.Heap R) : ∀ (C : List (Nat × Nat)),
    (∀ c ∈ C, c.1 + c.2 ≤ N ∧ slack ≤ 24 * N - 24 * (c.1 + c.2)) → (callSites C).Nodup → ∀ (l : TLoc R) (h : Kernel.Heap R),
    (∀ f j, cells (callSites C) j → h f j = h0 f j) →
    ∃ l' h', Interleave.run (instr K0 N s px py pz) (C.flatMap fun c => callProg (K c.2) c) l h = ok (l', h') ∧
      (∀ m ∈ callSites C, ∀ k, k < 24 → h' pz (24 * m + k) =
        eval (env (fun j => h0 px (24 * m + j)) (fun j => h0 py (24 * m + j)) s) (spAt sp k)) ∧
      ∀ g j, (g = pz → ¬ cells (callSites C) j) → h' g j = h g j
  | [], _, _, l, h, _ => ⟨l, h, rfl, by simp [callSites], fun _ _ _ => rfl⟩
  | c :: C, hb, hnd, l, h, hh => by
      have hcs : callSites (c :: C) = List.range' c.1 c.2 ++ callSites C := by simp [callSites]
      rw [hcs] at hnd hh ⊢
      rw [List.nodup_append] at hnd
      obtain ⟨_, hnd2, hdj⟩ := hnd
      have hc1 : ∀ j, cells (List.range' c.1 c.2) j → cells (List.range' c.1 c.2 ++ callSites C) j := by
        rintro j ⟨m, hm, h⟩; exact ⟨m, List.mem_append_left _ hm, h⟩
      have hc2 : ∀ j, cells (callSites C) j → cells (List.range' c.1 c.2 ++ callSites C) j := by
        rintro j ⟨m, hm, h⟩; exact ⟨m, List.mem_append_right _ hm, h⟩
      have hcd : ∀ j, cells (List.range' c.1 c.2) j → ¬ cells (callSites C) j := by
        rintro j ⟨m, hm, h1, h2⟩ ⟨m', hm', h1', h2'⟩
        exact hdj m hm m' hm' (by omega)
      obtain ⟨hcN, hcs⟩ := hb c (by simp)
      -- the call as it would go from the original fields
      obtain ⟨l1, h1, e1, hv1, _⟩ := call_spec (N := N) (s := s) (px := px) (py := py) (pz := pz) (hreg c.2) (hK c.2) hcN hcs l h0
      have hin : Inside (R := R) (List.range' c.1 c.2) (callProg (K c.2) c) (⟨0, 0, 0, 0, 0, 0⟩, K0.init) := by
        refine ⟨fun i n hm m hmm => ?_, fun k hk => by simp at hk⟩
        obtain ⟨rfl, rfl⟩ := enter_mem_callProg hm
        exact hmm
      -- the local variables before the call do not matter
      have hany : ∀ (l : TLoc R) (g : Kernel.Heap R), Interleave.run (instr K0 N s px py pz) (callProg (K c.2) c) l g =
          Interleave.run (instr K0 N s px py pz) (callProg (K c.2) c) (⟨0, 0, 0, 0, 0, 0⟩, K0.init) g := fun l g => rfl
      rw [hany] at e1
      obtain ⟨l2, h2, e2, hv2, hf2⟩ := call_spec (N := N) (s := s) (px := px) (py := py) (pz := pz) (hreg c.2) (hK c.2) hcN hcs l h
      have hsame := Interleave.run_same (local_instr (K := K0) (N := N) (s := s) (px := px) (py := py) (pz := pz) fun _ => List.range' c.1 c.2) (t := 0)
        (g := h) hin (fun f j hj => (hh f j (hc1 j hj)).symm) e1
      obtain ⟨g', e3, hg'⟩ := hsame
      rw [← hany l, e2] at e3
      injection e3 with e3
      injection e3 with _ e3
      subst e3
      have hf2' : ∀ g j, (g = pz → ¬ cells (List.range' c.1 c.2) j) → h2 g j = h g j := by
        intro g j hgj
        refine hf2 g j fun hg => ?_
        have := hgj hg
        rw [cells_range'] at this
        omega
      obtain ⟨l3, h3, e4, hv3, hf3⟩ := calls_spec hreg hK h0 C (fun c' hc' => hb c' (List.mem_cons_of_mem _ hc')) hnd2 l2 h2 (by
        intro f j hj
        rw [hf2' f j (fun _ hx => hcd j hx hj)]
        exact hh f j (hc2 j hj))
      refine ⟨l3, h3, ?_, ?_, ?_⟩
      · rw [List.flatMap_cons]
        exact Interleave.run_append e2 e4
      · intro m hm k hk
        rcases List.mem_append.1 hm with hm | hm
        · have hcell : cells (List.range' c.1 c.2) (24 * m + k) := ⟨m, hm, by omega, by omega⟩
          rw [hf3 pz _ (fun _ => hcd _ hcell), ← hg' pz _ hcell, hv1 m hm k hk]
        · exact hv3 m hm k hk
      · intro g j hgj
        rw [hf3 g j (fun hg hx => hgj hg (hc2 j hx)), hf2' g j (fun hg hx => hgj hg (hc1 j hx))]

end calls

/-! ## distribution of the sites -/

/-- the calls of the threads are on the sites of the subset, every site once -/
theorem threadCalls_spec {T : Nat} (hT : 0 < T) {f : Form} (hnd : f.table.Nodup) (hov : f.size * active f.size T < 2 ^ 31)
    (h24 : 24 * f.size < 2 ^ 31) :
    ∃ rs, ∃ C : Nat → List (Nat × Nat), dispatch f.size T = ok rs ∧ (∀ t, f.threadCalls rs t = ok (C t)) ∧ (∀ t, (callSites (C t)).Nodup) ∧
      (∀ s t, s ≠ t → ∀ i ∈ callSites (C s), i ∉ callSites (C t)) ∧ (∀ i, i ∈ f.table ↔ ∃ t, i ∈ callSites (C t)) ∧
      (∀ t, T ≤ t → C t = []) ∧ ∀ t c, c ∈ C t → 0 < c.2 := by
  have hlen : f.table.length = f.size := by cases f <;> simp [Form.table, Form.size]
  rw [← hlen] at hov h24 ⊢
  obtain ⟨rs, L, h1, h2, h3, h4, h5⟩ := Evaluate.threadSites_spec hT hnd hov
  have hrl : rs.length = T := by
    rw [dispatch_eq hov] at h1
    injection h1 with h1
    rw [← h1]; simp
  have hnz : ∀ r ∈ rs, ∀ lo hi, r = some (lo, hi) → lo < hi ∧ hi ≤ f.table.length := by
    intro r hr lo hi hrr
    rw [dispatch_eq hov] at h1
    injection h1 with h1
    rw [← h1, List.mem_map] at hr
    obtain ⟨id, hid, hr⟩ := hr
    rw [← hr] at hrr
    split at hrr
    · next hlt =>
      injection hrr with hrr
      injection hrr with h6 h7
      have ha : 0 < active f.table.length T := by omega
      have han : active f.table.length T ≤ f.table.length := by unfold active; omega
      constructor
      · rw [← h6, ← h7, Nat.div_lt_iff_lt_mul ha]
        have := Nat.div_add_mod (f.table.length * (id + 1)) (active f.table.length T)
        have hm := Nat.mod_lt (f.table.length * (id + 1)) ha
        rw [Nat.mul_comm (active _ _)] at this
        have : f.table.length * (id + 1) = f.table.length * id + f.table.length := by ring
        omega
      · rw [← h7]
        calc _ ≤ f.table.length * active f.table.length T / active f.table.length T := Nat.div_le_div_right (Nat.mul_le_mul_left _ hlt)
          _ = _ := Nat.mul_div_cancel _ ha
    · simp at hrr
  have key : ∀ t, ∃ C, f.threadCalls rs t = ok C ∧ callSites C = L t ∧ (T ≤ t → C = []) ∧ ∀ c ∈ C, 0 < c.2 := by
    intro t
    have h2t := h2 t
    unfold Evaluate.threadSites at h2t
    unfold Form.threadCalls
    rcases hr : rs[t]? with _ | r
    · rw [hr] at h2t
      simp only at h2t ⊢
      injection h2t with h2t
      exact ⟨[], rfl, by simp [callSites, ← h2t], fun _ => rfl, by simp⟩
    · rw [hr] at h2t
      simp only at h2t ⊢
      have htT : t < T := by
        rw [← hrl]
        by_contra hc
        rw [List.getElem?_eq_none (by omega)] at hr
        simp at hr
      cases f with
      | ordered start n =>
        cases r with
        | none =>
          simp only [share, mapO] at h2t
          injection h2t with h2t
          exact ⟨[], rfl, by simp [callSites, ← h2t], fun _ => rfl, by simp⟩
        | some r =>
          obtain ⟨lo, hi⟩ := r
          obtain ⟨hlo, hhi⟩ := hnz _ (List.mem_of_getElem? hr) lo hi rfl
          have hn : (Form.ordered start n).table.length = n := by simp [Form.table]
          rw [hn] at hhi h24
          refine ⟨[(start + lo, hi - lo)], ?_, ?_, fun h => absurd h (by omega), by simp; omega⟩
          · simp only [Form.calls]
            rw [ckInt_of_lt (by omega)]
            rfl
          · simp only [share, Form.table] at h2t
            rw [mapO_ok (h := fun j => start + j)] at h2t
            · injection h2t with h2t
              simp only [callSites, List.flatMap_cons, List.flatMap_nil, List.append_nil, ← h2t]
              rw [List.range'_eq_map_range, List.range'_eq_map_range, List.map_map]
              apply List.map_congr_left
              intro x _
              simp only [Function.comp]; omega
            · intro j hj
              rw [List.mem_range'_1] at hj
              rw [rd_of_lt (by simp; omega)]
              simp
      | unordered tab =>
        simp only [Form.table] at h2t
        refine ⟨(L t).map fun i => (i, 1), ?_, ?_, fun h => absurd h (by omega), by simp⟩
        · simp only [Form.calls, h2t, ok_bind]
        · simp [callSites, List.flatMap_map]
  choose C hC hS hT' hpos using key
  refine ⟨rs, C, h1, hC, fun t => by rw [hS]; exact h3 t, fun s t hst => by rw [hS, hS]; exact h4 s t hst, fun i => ?_, hT', hpos⟩
  rw [h5 i]
  exact exists_congr fun t => by rw [hS]

/-! ## symbolic values of expressions -/

inductive SVal where
  | vec (v : Fin 4 → Fin 3 → Pol × Pol)
  | re (p : Pol)
  | cx (p q : Pol)
  | inv (p : Pol)
  | gamma (n : Fin 16)
  | bad

def pSub (p q : Pol) : Pol := Poly.add p (Poly.neg q)
def pMul (p q : Pol) : Pol := Poly.mul p q

def SVal.add : SVal → SVal → SVal
  | .vec v, .vec w => .vec fun s c => (Poly.add (v s c).1 (w s c).1, Poly.add (v s c).2 (w s c).2)
  | _, _ => .bad
def SVal.sub : SVal → SVal → SVal
  | .vec v, .vec w => .vec fun s c => (pSub (v s c).1 (w s c).1, pSub (v s c).2 (w s c).2)
  | _, _ => .bad
def sScale (a : Pol) (v : Fin 4 → Fin 3 → Pol × Pol) : Fin 4 → Fin 3 → Pol × Pol := fun s c => (pMul a (v s c).1, pMul a (v s c).2)
def sCscale (p q : Pol) (v : Fin 4 → Fin 3 → Pol × Pol) : Fin 4 → Fin 3 → Pol × Pol :=
  fun s c => (pSub (pMul p (v s c).1) (pMul q (v s c).2), Poly.add (pMul p (v s c).2) (pMul q (v s c).1))
def SVal.mul : SVal → SVal → SVal
  | .re a, .vec v => .vec (sScale a v)
  | .vec v, .re a => .vec (sScale a v)
  | .cx p q, .vec v => .vec (sCscale p q v)
  | .vec v, .cx p q => .vec (sCscale p q v)
  | _, _ => .bad
def SVal.div : SVal → SVal → SVal
  | .vec v, .inv a => .vec (sScale a v)
  | _, _ => .bad
def sPh : Ph → Pol × Pol → Pol × Pol
  | .one, z => z
  | .neg, z => (Poly.neg z.1, Poly.neg z.2)
  | .i, z => (Poly.neg z.2, z.1)
  | .ni, z => (z.2, Poly.neg z.1)
def SVal.gmul : SVal → SVal → SVal
  | .gamma n, .vec v => .vec fun a c => sPh (vecL n a).1 (v (vecL n a).2 c)
  | _, _ => .bad

def Fn.sym : Fn → SVal → SVal
  | .id, v => v
  | .projPlus, .vec v => .vec fun s c => if s.val < 2 then v s c else ([], [])
  | .projMinus, .vec v => .vec fun s c => if s.val < 2 then ([], []) else v s c
  | .timesI, .vec v => .vec fun s c => sPh .i (v s c)
  | _, _ => .bad
def Op2.sym : Op2 → SVal → SVal → SVal
  | .add => .add
  | .sub => .sub
  | .mul => .mul
  | .gmul => .gmul
def Asg.sym : Asg → SVal → SVal → SVal
  | .assign, _, w => w
  | .addAssign, v, w => v.add w
  | .subtractAssign, v, w => v.sub w
  | .multiplyAssign, v, w => v.mul w
  | .divideAssign, v, w => v.div w

def symSpinor (f : Nat → Pol) : SVal := .vec fun s c => (f (6 * s.val + 2 * c.val), f (6 * s.val + 2 * c.val + 1))

/-- the field given by this argument, as array of the kernel -/
def Use.symField (u : Use) (a : Arg) : SVal :=
  if u.arg .x = some a then symSpinor sX else if u.arg .y = some a then symSpinor sY else .bad

/-- the number at a leaf, from the scalar in parameter `s k` -/
def Use.symScalAt (u : Use) (cplx : Bool) (p : Path) (k : Nat) : Option SVal :=
  if u.arg (.s (2 * k)) = some (.sc p) then some (if cplx then .cx (sS (2 * k)) (sS (2 * k + 1)) else .re (sS (2 * k)))
  else if u.arg (.s (2 * k)) = some (.neg p) then some (if cplx then .cx (Poly.neg (sS (2 * k))) (Poly.neg (sS (2 * k + 1))) else .re (Poly.neg (sS (2 * k))))
  else if u.arg (.s (2 * k)) = some (.inv p) then some (if cplx then .bad else .inv (sS (2 * k)))
  else none

def Use.symScal (u : Use) (cplx : Bool) (p : Path) : SVal :=
  match u.symScalAt cplx p 0 with
  | some v => v
  | none => match u.symScalAt cplx p 1 with
    | some v => v
    | none => .bad

def Node.sym (u : Use) (cplx : Bool) : Node → Path → SVal
  | .vec, p => u.symField (.at p)
  | .scal, p => u.symScal cplx p
  | .gamma n, _ => .gamma n
  | .un f a, p => f.sym (a.sym u cplx (p ++ [.c]))
  | .bin o a b, p => o.sym (a.sym u cplx (p ++ [.l])) (b.sym u cplx (p ++ [.r]))

/-- variable `a` replaced by one -/
def setOne (a : Nat) (p : Pol) : Pol := p.foldr (fun t r => insertTerm (t.1.filter fun b => !(b == a)) t.2 r) []

/-- variable `a` replaced by minus one -/
def setMone (a : Nat) (p : Pol) : Pol :=
  p.foldr (fun t r => insertTerm (t.1.filter fun b => !(b == a)) (if (t.1.filter (· == a)).length % 2 = 0 then t.2 else -t.2) r) []

/-- back to normal form after a renaming -/
def norm (p : Pol) : Pol := p.foldr (fun t r => insertTerm (mulMono t.1 []) t.2 r) []

def Use.clean (u : Use) (p : Pol) : Pol :=
  if u.arg (.s 0) = some .one then setOne 2 (norm p) else if u.arg (.s 0) = some .mone then setMone 2 (norm p) else norm p

/-- what one round of the kernel writes -/
def specOf (K : Kern) (slack : Nat) : List Pol :=
  match pexec polyOps sX sY sS 48 0 K.pre ⟨List.replicate K.nreg none, 0, 0, 0, []⟩ with
  | ok s0 => match pexec polyOps sX sY sS 48 slack K.body s0 with
    | ok s1 => s1.out.reverse
    | _ => []
  | _ => []

/-- the result of the kernel is the value of the expression -/
def checkVal (op : Asg) (rhs : Node) (cplx : Bool) (slack : Nat) (u : Use) : Bool :=
  let sp := specOf u.kern slack
  match op.sym (u.symField .dest) (rhs.sym u cplx []) with
  | .vec v => (List.finRange 4).all fun a => (List.finRange 3).all fun c =>
      (v a c).1 == u.clean (spAt sp (6 * a.val + 2 * c.val)) && (v a c).2 == u.clean (spAt sp (6 * a.val + 2 * c.val + 1))
  | _ => false

/-- the kernel does what it should on its own, and its result is the value of the expression -/
def checkUse (op : Asg) (rhs : Node) (cplx : Bool) (slack : Nat) (u : Use) : Bool :=
  checkRun u.kern slack (specOf u.kern slack) && (u.arg .out == some .dest) && checkVal op rhs cplx slack u

section sound
variable {R : Type} [Field R]

def Sem (ρ : Nat → R) : SVal → Val R → Prop
  | .vec p, .vec v => ∀ s c, eval ρ (p s c).1 = (v s c).1 ∧ eval ρ (p s c).2 = (v s c).2
  | .re p, .re a => eval ρ p = a
  | .cx p q, .cx z => eval ρ p = z.1 ∧ eval ρ q = z.2
  | .inv p, .re a => eval ρ p = a⁻¹
  | .gamma n, .gamma m => n = m
  | .bad, _ => True
  | _, _ => False

variable {ρ : Nat → R}

theorem eval_pSub (p q : Pol) : eval ρ (pSub p q) = eval ρ p - eval ρ q := by
  rw [pSub, eval_add, eval_neg]; ring
theorem eval_pMul (p q : Pol) : eval ρ (pMul p q) = eval ρ p * eval ρ q := eval_mul ρ p q

theorem sem_add {P Q : SVal} {v w : Val R} (h1 : Sem ρ P v) (h2 : Sem ρ Q w) : Sem ρ (P.add Q) (v.add w) := by
  cases P <;> cases Q <;> try trivial
  cases v <;> cases w <;> try exact False.elim h1
  all_goals try exact False.elim h2
  intro s c
  simp only [eval_add, (h1 s c).1, (h1 s c).2, (h2 s c).1, (h2 s c).2]
  exact ⟨rfl, rfl⟩

theorem sem_sub {P Q : SVal} {v w : Val R} (h1 : Sem ρ P v) (h2 : Sem ρ Q w) : Sem ρ (P.sub Q) (v.sub w) := by
  cases P <;> cases Q <;> try trivial
  cases v <;> cases w <;> try exact False.elim h1
  all_goals try exact False.elim h2
  intro s c
  simp only [eval_pSub, (h1 s c).1, (h1 s c).2, (h2 s c).1, (h2 s c).2]
  exact ⟨rfl, rfl⟩

theorem sem_mul {P Q : SVal} {v w : Val R} (h1 : Sem ρ P v) (h2 : Sem ρ Q w) : Sem ρ (P.mul Q) (v.mul w) := by
  cases P <;> cases Q <;> try trivial
  all_goals (cases v <;> cases w <;> try exact False.elim h1)
  all_goals try exact False.elim h2
  all_goals
    intro s c
    simp only [Sem] at h1 h2
    simp [sScale, scale, sCscale, cscale, eval_pMul, eval_pSub, eval_add, h1, h2]

theorem sem_div {P Q : SVal} {v w : Val R} (h1 : Sem ρ P v) (h2 : Sem ρ Q w) : Sem ρ (P.div Q) (v.div w) := by
  cases P <;> cases Q <;> try trivial
  all_goals (cases v <;> cases w <;> try exact False.elim h1)
  all_goals try exact False.elim h2
  all_goals
    intro s c
    simp only [Sem] at h1 h2
    simp [sScale, eval_pMul, h1, h2, div_eq_mul_inv, mul_comm]

theorem sem_ph (p : Ph) {z : Pol × Pol} {x : R × R} (h : eval ρ z.1 = x.1 ∧ eval ρ z.2 = x.2) :
    eval ρ (sPh p z).1 = (p.app x).1 ∧ eval ρ (sPh p z).2 = (p.app x).2 := by
  cases p <;> simp [sPh, Ph.app, Cpt.timesI, Cpt.timesMinusI, eval_neg, h.1, h.2]

theorem ph_app_pi {ι M : Type} [Cpt M] (p : Ph) (x : ι → M) (c : ι) : p.app x c = p.app (x c) := by
  cases p <;> rfl

theorem sem_gmul {P Q : SVal} {v w : Val R} (h1 : Sem ρ P v) (h2 : Sem ρ Q w) : Sem ρ (P.gmul Q) (v.gmul w) := by
  cases P <;> cases Q <;> try trivial
  all_goals (cases v <;> cases w <;> try exact False.elim h1)
  all_goals try exact False.elim h2
  next n p m x =>
    simp only [Sem] at h1
    subst h1
    intro a c
    simp only [← C42_vector, gammaVec]
    rw [ph_app_pi]
    exact sem_ph _ (h2 _ c)

theorem sem_fn (f : Fn) {P : SVal} {v : Val R} (h : Sem ρ P v) : Sem ρ (f.sym P) (f.app v) := by
  cases f
  · exact h
  · cases P <;> try trivial
    cases v <;> try exact False.elim h
    next p x =>
      intro s c
      fin_cases s <;> simp [chiralPlus, eval_nil, h _ c]
  · cases P <;> try trivial
    cases v <;> try exact False.elim h
    next p x =>
      intro s c
      fin_cases s <;> simp [chiralMinus, eval_nil, h _ c]
  · cases P <;> try trivial
    cases v <;> try exact False.elim h
    next p x =>
      intro s c
      exact sem_ph .i (h s c)

theorem sem_op (o : Op2) {P Q : SVal} {v w : Val R} (h1 : Sem ρ P v) (h2 : Sem ρ Q w) : Sem ρ (o.sym P Q) (o.app v w) := by
  cases o
  · exact sem_add h1 h2
  · exact sem_sub h1 h2
  · exact sem_mul h1 h2
  · exact sem_gmul h1 h2

theorem sem_asg (o : Asg) {P Q : SVal} {v w : Val R} (h1 : Sem ρ P v) (h2 : Sem ρ Q w) : Sem ρ (o.sym P Q) (o.app v w) := by
  cases o
  · exact h2
  · exact sem_add h1 h2
  · exact sem_sub h1 h2
  · exact sem_mul h1 h2
  · exact sem_div h1 h2

/-- the numbers the kernel sees at a site -/
def siteEnv (u : Use) (I : Inst R) (h : Kernel.Heap R) (m : Nat) : Nat → R :=
  env (fun j => h (I.ptr (u.arg .x)) (24 * m + j)) (fun j => h (I.ptr (u.arg .y)) (24 * m + j)) (u.scalars I)

theorem sem_field (u : Use) (I : Inst R) (h : Kernel.Heap R) (m : Nat) (a : Arg) :
    Sem (siteEnv u I h m) (u.symField a) (.vec (spinor h (I.ptr (some a)) m)) := by
  unfold Use.symField
  split
  · next hx =>
    intro s c
    simp only [siteEnv, eval_sX, spinor, hx]
    exact ⟨trivial, trivial⟩
  · split
    · next hy =>
      intro s c
      simp only [siteEnv, eval_sY, spinor, hy]
      exact ⟨trivial, trivial⟩
    · trivial

theorem sem_scalAt {u : Use} {I : Inst R} {h : Kernel.Heap R} {m : Nat} {cplx : Bool} {p : Path} {k : Nat} {v : SVal}
    (hv : u.symScalAt cplx p k = some v) : Sem (siteEnv u I h m) v (if cplx then .cx (I.num p) else .re (I.num p).1) := by
  have e0 : ∀ a, u.arg (.s (2 * k)) = some a → u.scalars I (2 * k) = I.sval (some a) 0 ∧ u.scalars I (2 * k + 1) = I.sval (some a) 1 := by
    intro a ha
    unfold Use.scalars
    rw [show 2 * k / 2 = k by omega, show (2 * k + 1) / 2 = k by omega, show 2 * k % 2 = 0 by omega, show (2 * k + 1) % 2 = 1 by omega, ha]
    exact ⟨rfl, rfl⟩
  unfold Use.symScalAt at hv
  split at hv
  · next ha =>
    obtain ⟨e1, e2⟩ := e0 _ ha
    injection hv with hv
    subst hv
    cases cplx <;> simp [Sem, siteEnv, eval_sS, e1, e2, Inst.sval]
  · split at hv
    · next ha =>
      obtain ⟨e1, e2⟩ := e0 _ ha
      injection hv with hv
      subst hv
      cases cplx <;> simp [Sem, siteEnv, eval_sS, eval_neg, e1, e2, Inst.sval]
    · split at hv
      · next ha =>
        obtain ⟨e1, _⟩ := e0 _ ha
        injection hv with hv
        subst hv
        cases cplx <;> simp [Sem, siteEnv, eval_sS, e1, Inst.sval]
      · simp at hv

theorem sem_node (u : Use) (I : Inst R) (h : Kernel.Heap R) (m : Nat) (cplx : Bool) : ∀ (n : Node) (p : Path),
    Sem (siteEnv u I h m) (n.sym u cplx p) (Evaluate.eval (spinors h) (n.expr I cplx p) m)
  | .vec, p => sem_field u I h m (.at p)
  | .scal, p => by
      simp only [Node.sym, Node.expr, Evaluate.eval, Use.symScal]
      split
      · next v hv => exact sem_scalAt hv
      · split
        · next v hv => exact sem_scalAt hv
        · trivial
  | .gamma _, _ => rfl
  | .un f a, p => sem_fn f (sem_node u I h m cplx a _)
  | .bin o a b, p => sem_op o (sem_node u I h m cplx a _) (sem_node u I h m cplx b _)

theorem evalMono_filter (a : Nat) (ha : ρ a = 1) (m : Mono) : evalMono ρ (m.filter fun b => !(b == a)) = evalMono ρ m := by
  induction m with
  | nil => rfl
  | cons b m ih =>
    have hc : evalMono ρ (b :: m) = ρ b * evalMono ρ m := rfl
    by_cases hb : b = a
    · subst hb
      simp only [List.filter_cons, beq_self_eq_true, Bool.not_true, Bool.false_eq_true, if_false, ih, hc, ha, one_mul]
    · have : (!(b == a)) = true := by simp [hb]
      simp only [List.filter_cons, this, if_true, hc]
      rw [← ih]; rfl

theorem eval_setOne (a : Nat) (ha : ρ a = 1) (p : Pol) : eval ρ (setOne a p) = eval ρ p := by
  induction p with
  | nil => rfl
  | cons t p ih =>
    have : setOne a (t :: p) = insertTerm (t.1.filter fun b => !(b == a)) t.2 (setOne a p) := rfl
    rw [this, eval_insert, ih, eval_cons, evalMono_filter a ha]

theorem evalMono_filter_neg (a : Nat) (ha : ρ a = -1) (m : Mono) :
    evalMono ρ m = (if (m.filter (· == a)).length % 2 = 0 then 1 else -1) * evalMono ρ (m.filter fun b => !(b == a)) := by
  induction m with
  | nil => simp [evalMono]
  | cons b m ih =>
    have hc : evalMono ρ (b :: m) = ρ b * evalMono ρ m := rfl
    by_cases hb : b = a
    · subst hb
      have hl : ((b :: m).filter (· == b)).length = (m.filter (· == b)).length + 1 := by simp
      rw [hc, ih, ha, hl]
      simp only [List.filter_cons, beq_self_eq_true, Bool.not_true, Bool.false_eq_true, if_false]
      rcases Nat.mod_two_eq_zero_or_one (m.filter (· == b)).length with h | h
      · rw [if_pos h, if_neg (by omega)]; ring
      · rw [if_neg (by omega), if_pos (by omega)]; ring
    · have h1 : (!(b == a)) = true := by simp [hb]
      have h2 : (b == a) = false := by simp [hb]
      have hd : evalMono ρ (b :: m.filter fun b => !(b == a)) = ρ b * evalMono ρ (m.filter fun b => !(b == a)) := rfl
      rw [hc, ih]
      simp only [List.filter_cons, h2, Bool.not_false, if_true, Bool.false_eq_true, if_false, hd]
      ring

theorem eval_setMone (a : Nat) (ha : ρ a = -1) (p : Pol) : eval ρ (setMone a p) = eval ρ p := by
  induction p with
  | nil => rfl
  | cons t p ih =>
    have : setMone a (t :: p) =
      insertTerm (t.1.filter fun b => !(b == a)) (if (t.1.filter (· == a)).length % 2 = 0 then t.2 else -t.2) (setMone a p) := rfl
    rw [this, eval_insert, ih, eval_cons, evalMono_filter_neg a ha t.1]
    split <;> push_cast <;> ring

theorem eval_norm (p : Pol) : eval ρ (norm p) = eval ρ p := by
  induction p with
  | nil => rfl
  | cons t p ih =>
    have : norm (t :: p) = insertTerm (mulMono t.1 []) t.2 (norm p) := rfl
    rw [this, eval_insert, ih, eval_cons, evalMono_mul]
    simp [evalMono]

theorem eval_clean (u : Use) (I : Inst R) (h : Kernel.Heap R) (m : Nat) (p : Pol) : eval (siteEnv u I h m) (u.clean p) = eval (siteEnv u I h m) p := by
  unfold Use.clean
  split
  · next h1 =>
    rw [eval_setOne, eval_norm]
    simp [siteEnv, env, Use.scalars, h1, Inst.sval]
  · split
    · next h1 =>
      rw [eval_setMone, eval_norm]
      simp [siteEnv, env, Use.scalars, h1, Inst.sval]
    · exact eval_norm p

/-- the numbers written by the kernel at a site are those of the statement -/
theorem checkVal_site {op : Asg} {rhs : Node} {cplx : Bool} {slack : Nat} {u : Use} (hc : checkVal op rhs cplx slack u = true) (I : Inst R)
    (h h' : Kernel.Heap R) (m : Nat) (hw : ∀ k, k < 24 → h' I.dest (24 * m + k) = eval (siteEnv u I h m) (spAt (specOf u.kern slack) k)) :
    spinors h' I.dest m = op.app (spinors h I.dest m) (Evaluate.eval (spinors h) (rhs.expr I cplx []) m) := by
  unfold checkVal at hc
  simp only at hc
  have hsem := sem_asg op (sem_field u I h m .dest) (sem_node u I h m cplx rhs [])
  split at hc
  · next v hv =>
    rw [hv] at hsem
    simp only [List.all_eq_true, List.mem_finRange, Bool.and_eq_true, beq_iff_eq, true_implies] at hc
    have hd : (Val.vec (spinor h (I.ptr (some .dest)) m) : Val R) = spinors h I.dest m := rfl
    rw [hd] at hsem
    cases hval : op.app (spinors h I.dest m) (Evaluate.eval (spinors h) (rhs.expr I cplx []) m) with
    | vec x =>
      rw [hval] at hsem
      show Val.vec (spinor h' I.dest m) = .vec x
      congr 1
      funext a c
      obtain ⟨e1, e2⟩ := hc a c
      obtain ⟨s1, s2⟩ := hsem a c
      have hb : 6 * a.val + 2 * c.val + 1 < 24 := by omega
      unfold spinor
      rw [hw _ (by omega), hw _ hb]
      refine Prod.ext ?_ ?_
      · rw [← s1, e1, eval_clean]
      · rw [← s2, e2, eval_clean]
    | re _ => rw [hval] at hsem; exact absurd hsem (by simp [Sem])
    | cx _ => rw [hval] at hsem; exact absurd hsem (by simp [Sem])
    | gamma _ => rw [hval] at hsem; exact absurd hsem (by simp [Sem])
    | bad => rw [hval] at hsem; exact absurd hsem (by simp [Sem])
  · simp at hc

end sound

/-! ## statements -/

section main
variable {R : Type} [Field R]

/-- the states reached from the calls of `u`, the kernel depending on the number of sites -/
def UseReaches (u : Use) (K : Nat → Kern) (f : Form) (N T : Nat) (I : Inst R) (h : Kernel.Heap R) (s : State R) : Prop :=
  ∃ rs, ∃ C : Nat → List (Nat × Nat), dispatch f.size T = ok rs ∧ (∀ t, f.threadCalls rs t = ok (C t)) ∧
    Relation.ReflTransGen (Interleave.Step (instr u.kern N (u.scalars I) (I.ptr (u.arg .x)) (I.ptr (u.arg .y)) (I.ptr (u.arg .out))))
      ⟨h, fun t => ⟨(⟨0, 0, 0, 0, 0, 0⟩, u.kern.init), (C t).flatMap fun c => callProg (K c.2) c⟩⟩ s

/-- calls that pass the check compute, for every subset, every number of threads and every interleaving, what the statement says, and never
read or write beyond the fields -/
theorem use_correct {op : Asg} {rhs : Node} {cplx : Bool} {u : Use} {K : Nat → Kern} {slack : Nat} {f : Form} {I : Inst R}
    (hreg : ∀ n, u.kern.nreg = (K n).nreg) (hrun : ∀ n, checkRun (K n) slack (specOf u.kern slack) = true) (hc : checkVal op rhs cplx slack u = true)
    (hpz : I.ptr (u.arg .out) = I.dest) {N T : Nat} (hT : 0 < T)
    (hnd : f.table.Nodup) (hN : ∀ i ∈ f.table, i < N ∧ slack ≤ 24 * (N - (i + 1))) (hov : f.size * active f.size T < 2 ^ 31)
    (h24 : 24 * f.size < 2 ^ 31) (h : Kernel.Heap R) :
    (∃ s, UseReaches u K f N T I h s ∧ Interleave.Done s) ∧ ∀ s, UseReaches u K f N T I h s → ¬ Interleave.Fault (instr u.kern N (u.scalars I) (I.ptr (u.arg .x)) (I.ptr (u.arg .y)) (I.ptr (u.arg .out))) s ∧
      (Interleave.Done s → Evaluate.Assigned I.dest op.app f.table (rhs.expr I cplx []) (spinors h) (spinors s.heap)) := by
  obtain ⟨rs, C, h1, h2, h3, h4, h5, h6, h7⟩ := threadCalls_spec hT hnd hov h24
  have hb : ∀ t, ∀ c ∈ C t, c.1 + c.2 ≤ N ∧ slack ≤ 24 * N - 24 * (c.1 + c.2) := by
    intro t c hct
    have hp := h7 t c hct
    have hm : c.1 + c.2 - 1 ∈ f.table := (h5 _).2 ⟨t, by
      unfold callSites
      rw [List.mem_flatMap]
      exact ⟨c, hct, by rw [List.mem_range'_1]; omega⟩⟩
    have := hN _ hm
    omega
  have hsolo := fun t => calls_spec (R := R) (N := N) (s := u.scalars I) (px := I.ptr (u.arg .x)) (py := I.ptr (u.arg .y))
    (pz := I.ptr (u.arg .out)) hreg hrun h (C t) (hb t) (h3 t) (⟨0, 0, 0, 0, 0, 0⟩, u.kern.init) h (fun _ _ _ => rfl)
  choose lf F hF hv hfr using hsolo
  have hgood : ∀ t, Inside (R := R) (callSites (C t)) ((C t).flatMap fun c => callProg (K c.2) c) (⟨0, 0, 0, 0, 0, 0⟩, u.kern.init) := by
    intro t
    refine ⟨fun i n hm m hmm => ?_, fun k hk => by simp at hk⟩
    rw [List.mem_flatMap] at hm
    obtain ⟨c, hc, hm⟩ := hm
    obtain ⟨rfl, rfl⟩ := enter_mem_callProg hm
    exact List.mem_flatMap.2 ⟨c, hc, hmm⟩
  have hO : ∀ t u, t ≠ u → ∀ (g j : Nat), cells (callSites (C t)) j → ¬ cells (callSites (C u)) j := by
    rintro t u htu _ j ⟨m, hm, a1, a2⟩ ⟨m', hm', b1, b2⟩
    have : m = m' := by omega
    subst this
    exact h4 t u htu m hm hm'
  have main : ∀ s, Relation.ReflTransGen (Interleave.Step (instr u.kern N (u.scalars I) (I.ptr (u.arg .x)) (I.ptr (u.arg .y)) (I.ptr (u.arg .out)))) ⟨h, fun t => ⟨(⟨0, 0, 0, 0, 0, 0⟩, u.kern.init), (C t).flatMap fun c => callProg (K c.2) c⟩⟩ s → ¬ Interleave.Fault (instr u.kern N (u.scalars I) (I.ptr (u.arg .x)) (I.ptr (u.arg .y)) (I.ptr (u.arg .out))) s ∧
      (Interleave.Done s → Evaluate.Assigned I.dest op.app f.table (rhs.expr I cplx []) (spinors h) (spinors s.heap)) := by
    intro s hs
    obtain ⟨r1, r2⟩ := Interleave.interleave (F := F) (local_instr (K := u.kern) (N := N) (s := u.scalars I)
      (px := I.ptr (u.arg .x)) (py := I.ptr (u.arg .y)) (pz := I.ptr (u.arg .out)) fun t => callSites (C t)) hO
      (s0 := ⟨h, fun t => ⟨(⟨0, 0, 0, 0, 0, 0⟩, u.kern.init), (C t).flatMap fun c => callProg (K c.2) c⟩⟩) hgood (fun t => ⟨lf t, hF t⟩) hs
    refine ⟨r1, fun hd => ?_⟩
    obtain ⟨q1, q2⟩ := r2 hd
    simp only [hpz] at hv hfr
    have hkeep : ∀ g j, (g = I.dest → ¬ ∃ m ∈ f.table, 24 * m ≤ j ∧ j < 24 * (m + 1)) → s.heap g j = h g j := by
      intro g j hgj
      by_cases hex : ∃ t, cells (callSites (C t)) j
      · obtain ⟨t, ht⟩ := hex
        rw [q1 t g j ht]
        refine hfr t g j fun hg => ?_
        exfalso
        obtain ⟨m, hm, hj⟩ := ht
        exact hgj hg ⟨m, (h5 m).2 ⟨t, hm⟩, hj⟩
      · exact q2 g j fun t ht => hex ⟨t, ht⟩
    refine ⟨?_, ?_, ?_⟩
    · intro m hm
      obtain ⟨t, ht⟩ := (h5 m).1 hm
      refine checkVal_site hc I h s.heap m fun k hk => ?_
      rw [q1 t I.dest _ ⟨m, ht, by omega, by omega⟩]
      exact hv t m ht k hk
    · intro m hm
      have : ∀ k, k < 24 → s.heap I.dest (24 * m + k) = h I.dest (24 * m + k) := by
        intro k hk
        refine hkeep _ _ fun _ => ?_
        rintro ⟨m', hm', a1, a2⟩
        have : m = m' := by omega
        exact hm (this ▸ hm')
      show Val.vec (spinor s.heap I.dest m) = .vec (spinor h I.dest m)
      congr 1
      funext a c
      unfold spinor
      rw [this _ (by omega), this _ (by omega)]
    · intro g hg
      funext m
      show Val.vec (spinor s.heap g m) = .vec (spinor h g m)
      congr 1
      funext a c
      unfold spinor
      rw [hkeep _ _ fun hx => absurd hx hg, hkeep _ _ fun hx => absurd hx hg]
  refine ⟨?_, ?_⟩
  · -- there is a complete execution
    have hterm : ∀ (n : Nat) (s : State R), Relation.ReflTransGen (Interleave.Step (instr u.kern N (u.scalars I) (I.ptr (u.arg .x)) (I.ptr (u.arg .y)) (I.ptr (u.arg .out)))) ⟨h, fun t => ⟨(⟨0, 0, 0, 0, 0, 0⟩, u.kern.init), (C t).flatMap fun c => callProg (K c.2) c⟩⟩ s →
        (∀ t, T ≤ t → (s.thr t).todo = []) → Interleave.left T s = n →
        ∃ s', Relation.ReflTransGen (Interleave.Step (instr u.kern N (u.scalars I) (I.ptr (u.arg .x)) (I.ptr (u.arg .y)) (I.ptr (u.arg .out)))) ⟨h, fun t => ⟨(⟨0, 0, 0, 0, 0, 0⟩, u.kern.init), (C t).flatMap fun c => callProg (K c.2) c⟩⟩ s' ∧ Interleave.Done s' := by
      intro n
      induction n using Nat.strong_induction_on with
      | _ n ih =>
        intro s hs hT' hl
        by_cases hd : Interleave.Done s
        · exact ⟨s, hs, hd⟩
        · obtain ⟨s', hs'⟩ := Interleave.progress (main s hs).1 hd
          obtain ⟨d1, d2⟩ := Interleave.decreases hT' hs'
          exact ih _ (hl ▸ d1) s' (hs.tail hs') d2 rfl
    obtain ⟨s, hs, hd⟩ := hterm _ _ .refl (by intro t ht; simp [h6 t ht]) rfl
    exact ⟨s, ⟨rs, C, h1, h2, hs⟩, hd⟩
  · rintro s ⟨rs', C', h1', h2', hs⟩
    rw [h1] at h1'
    injection h1' with hrs
    subst hrs
    have hC : C = C' := by
      funext t
      have := h2 t
      rw [h2' t] at this
      injection this with this
      exact this.symm
    subst hC
    exact main s hs

/-- an entry that passes the check computes, for every subset, every number of threads and every interleaving, what the statement says, and never
reads or writes beyond the fields -/
theorem entry_correct {e : Entry} {slack : Nat} {f : Form} (hc : checkUse e.op e.rhs e.cplx slack (e.use f) = true) {N T : Nat} (hT : 0 < T)
    (hnd : f.table.Nodup) (hN : ∀ i ∈ f.table, i < N ∧ slack ≤ 24 * (N - (i + 1))) (hov : f.size * active f.size T < 2 ^ 31)
    (h24 : 24 * f.size < 2 ^ 31) (I : Inst R) (h : Kernel.Heap R) :
    (∃ s, e.Reaches f N T I h s ∧ Interleave.Done s) ∧ ∀ s, e.Reaches f N T I h s → ¬ Interleave.Fault (e.step f N I) s ∧
      (Interleave.Done s → Evaluate.Assigned I.dest e.op.app f.table (e.rhs.expr I e.cplx []) (spinors h) (spinors s.heap)) := by
  unfold checkUse at hc
  simp only [Bool.and_eq_true, beq_iff_eq] at hc
  obtain ⟨⟨hrun, hout⟩, hv⟩ := hc
  exact use_correct (u := e.use f) (K := fun _ => (e.use f).kern) (fun _ => rfl) (fun _ => hrun) hv (by rw [hout]; rfl) hT hnd hN hov h24 h

end main

end Verif.Blas
