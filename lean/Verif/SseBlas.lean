import Verif.Blas
/-
The specialisations of `evaluate` for expressions of Dirac fermions and real numbers in builds with SSE (include/scalarsite_sse/qdp_scalarsite_sse_blas.h and
..._blas_double.h, with the wrappers of the same names).  They have the shape of the generic ones (`Blas`) but for three things: some kernels have two loops, one
for small and one for large numbers of sites; on ordered subsets the double precision versions choose another kernel if the destination is one of the
operands; and one of them is not run by threads.  The list is in `SseBlasTables`.

Not modelled: rounding, alignment of the vector loads and stores, the ordering of non-temporal stores (`_mm_stream_pd`), prefetches.
-/
set_option linter.unusedSectionVars false
namespace Verif.SseBlas
open Verif Outcome Verif.Poly Verif.Kernel Verif.Subset Verif.Dispatch Verif.Blas

/-! ## model -/

/-- a kernel: the loop for fewer than `limit` sites and the loop for the others, e.g. lib/scalarsite_sse/sse_blas_vaxpy4_double.cc:48, 87 -/
structure SKern where
  small : Kern
  big : Kern
  limit : Nat

/-- the loop taken for `n` sites -/
def SKern.pick (K : SKern) (n : Nat) : Kern := if n < K.limit then K.small else K.big

/-- a call: kernel and arguments in the order of its parameters -/
structure SUse where
  kern : SKern
  args : List Arg

def SUse.use (u : SUse) : Use := ⟨u.kern.small, u.args⟩

/-- a specialisation.  `same = some (p, c)`: on an ordered subset call `c` is made if the destination is the field at `p`, e.g.
include/scalarsite_sse/qdp_scalarsite_sse_blas_double.h:233-252 -/
structure SEntry where
  op : Asg
  rhs : Node
  ordered : SUse
  same : Option (Path × SUse)
  unordered : SUse
  threaded : Bool

section model
variable {R : Type} [Field R]

/-- the call made.  The pointers compared belong to the first site of the subset: equal if and only if the fields are the same. -/
def SEntry.call (e : SEntry) (f : Form) (I : Inst R) : SUse :=
  match f with
  | .unordered _ => e.unordered
  | .ordered _ _ => match e.same with
    | some (p, c) => if I.dest = I.fld p then c else e.ordered
    | none => e.ordered

/-- the number of threads: include/scalarsite_sse/qdp_scalarsite_sse_blas_double.h:1291-1292, 1308-1315 makes its calls without `dispatch_to_threads`, which is what a
single thread would do -/
def SEntry.threads (e : SEntry) (T : Nat) : Nat := if e.threaded then T else 1

/-- the instructions of the threads for a statement -/
def SEntry.step (e : SEntry) (f : Form) (N : Nat) (I : Inst R) : Instr → TLoc R → Kernel.Heap R → Outcome (TLoc R × Kernel.Heap R) :=
  instr (e.call f I).kern.small N ((e.call f I).use.scalars I) (I.ptr ((e.call f I).use.arg .x)) (I.ptr ((e.call f I).use.arg .y))
    (I.ptr ((e.call f I).use.arg .out))

/-- the start of the parallel region -/
def SEntry.start (e : SEntry) (f : Form) (I : Inst R) (h : Kernel.Heap R) (C : Nat → List (Nat × Nat)) : State R :=
  ⟨h, fun t => ⟨(⟨0, 0, 0, 0, 0, 0⟩, (e.call f I).kern.small.init), (C t).flatMap fun c => callProg ((e.call f I).kern.pick c.2) c⟩⟩

/-- the states reached by the statement `dest[subset] op= expression` with `T` threads -/
def SEntry.Reaches (e : SEntry) (f : Form) (N T : Nat) (I : Inst R) (h : Kernel.Heap R) (s : State R) : Prop :=
  ∃ rs, ∃ C : Nat → List (Nat × Nat), dispatch f.size (e.threads T) = ok rs ∧ (∀ t, f.threadCalls rs t = ok (C t)) ∧
    Relation.ReflTransGen (Interleave.Step (e.step f N I)) (e.start f I h C) s

end model

/-! ## check -/

/-- both loops write the same -/
def SKern.check (K : SKern) : Bool :=
  checkRun K.small 0 (specOf K.small 0) && checkRun K.big 0 (specOf K.small 0) && K.small.nreg == K.big.nreg

/-- a call that does what the statement says; `same`: the destination is the field at this place -/
def SUse.check (op : Asg) (rhs : Node) (same : Option Path) (u : SUse) : Bool :=
  u.kern.check && checkVal op rhs false 0 u.use &&
  (u.use.arg .out == some .dest || match same with
    | some p => u.use.arg .out == some (.at p)
    | none => false)

def SEntry.check (e : SEntry) : Bool :=
  e.ordered.check e.op e.rhs none && e.unordered.check e.op e.rhs none &&
  match e.same with
  | some (p, c) => c.check e.op e.rhs (some p)
  | none => true

section sound
variable {R : Type} [Field R]

theorem SEntry.check_call {e : SEntry} (hc : e.check = true) (f : Form) (I : Inst R) :
    (e.call f I).kern.check = true ∧ checkVal e.op e.rhs false 0 (e.call f I).use = true ∧ I.ptr ((e.call f I).use.arg .out) = I.dest := by
  have none_ok : ∀ {u : SUse}, u.check e.op e.rhs none = true → u.kern.check = true ∧ checkVal e.op e.rhs false 0 u.use = true ∧
      I.ptr (u.use.arg .out) = I.dest := by
    intro u hu
    simp only [SUse.check, Bool.and_eq_true, Bool.or_eq_true, beq_iff_eq, Bool.false_eq_true, or_false] at hu
    exact ⟨hu.1.1, hu.1.2, by rw [hu.2]; rfl⟩
  simp only [SEntry.check, Bool.and_eq_true] at hc
  obtain ⟨⟨ho, hu⟩, hs⟩ := hc
  cases f with
  | unordered tab => exact none_ok hu
  | ordered start n =>
    simp only [SEntry.call]
    split at hs
    · next p c hsame =>
      split
      · next hd =>
        simp only [SUse.check, Bool.and_eq_true, Bool.or_eq_true, beq_iff_eq] at hs
        refine ⟨hs.1.1, hs.1.2, ?_⟩
        rcases hs.2 with h | h
        · rw [h]; rfl
        · rw [h]; exact hd.symm
      · exact none_ok ho
    · next hsame =>
      exact none_ok ho

theorem SKern.check_pick {K : SKern} (h : K.check = true) (n : Nat) : checkRun (K.pick n) 0 (specOf K.small 0) = true ∧ K.small.nreg = (K.pick n).nreg := by
  simp only [SKern.check, Bool.and_eq_true, beq_iff_eq] at h
  unfold SKern.pick
  split
  · exact ⟨h.1.1, rfl⟩
  · exact ⟨h.1.2, h.2⟩

theorem SEntry.threads_pos (e : SEntry) {T : Nat} (hT : 0 < T) : 0 < e.threads T := by
  unfold SEntry.threads; split <;> omega
theorem SEntry.threads_le (e : SEntry) {T : Nat} (hT : 0 < T) : e.threads T ≤ T := by
  unfold SEntry.threads; split <;> omega

/-- a specialisation that passes the check computes what the statement says -/
theorem entry_correct {e : SEntry} (hc : e.check = true) {f : Form} {N T : Nat} (hT : 0 < T) (hnd : f.table.Nodup) (hN : ∀ i ∈ f.table, i < N)
    (hov : f.size * T < 2 ^ 31) (h24 : 24 * f.size < 2 ^ 31) (I : Inst R) (h : Kernel.Heap R) :
    (∃ s, e.Reaches f N T I h s ∧ Interleave.Done s) ∧ ∀ s, e.Reaches f N T I h s → ¬ Interleave.Fault (e.step f N I) s ∧
      (Interleave.Done s → Evaluate.Assigned I.dest e.op.app f.table (e.rhs.expr I false []) (spinors h) (spinors s.heap)) := by
  obtain ⟨h1, h2, h3⟩ := SEntry.check_call hc f I
  refine use_correct (u := (e.call f I).use) (K := (e.call f I).kern.pick) (slack := 0) (f := f) (I := I) (fun n => (SKern.check_pick h1 n).2)
    (fun n => (SKern.check_pick h1 n).1) h2 h3 (N := N) (T := e.threads T) (e.threads_pos hT) hnd (fun i hi => ⟨hN i hi, Nat.zero_le _⟩) ?_ h24 h
  have ha : active f.size (e.threads T) ≤ T := by
    have := e.threads_le hT
    unfold active; omega
  calc _ ≤ f.size * T := Nat.mul_le_mul_left _ ha
    _ < _ := hov

end sound

end Verif.SseBlas
