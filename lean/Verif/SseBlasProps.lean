import Verif.SseBlasTables
import Verif.BlasProps
/-
The specialisations of `evaluate` in builds with SSE compute the statements they stand for.
-/
set_option linter.unusedSectionVars false
-- one check at a time, for the sake of memory
set_option Elab.async false
namespace Verif.SseBlas
open Verif Outcome Verif.Poly Verif.Kernel Verif.Subset Verif.Dispatch Verif.Blas Verif.SseBlas.Tables

/-! ## the tables pass the check -/

-- entry by entry, so that the memory of one check is free again for the next
set_option maxRecDepth 100000 in
private theorem s00_check : s00.check = true := by decide +kernel

set_option maxRecDepth 100000 in
private theorem s01_check : s01.check = true := by decide +kernel

set_option maxRecDepth 100000 in
private theorem s02_check : s02.check = true := by decide +kernel

set_option maxRecDepth 100000 in
private theorem s03_check : s03.check = true := by decide +kernel

set_option maxRecDepth 100000 in
private theorem s04_check : s04.check = true := by decide +kernel

set_option maxRecDepth 100000 in
private theorem s05_check : s05.check = true := by decide +kernel

set_option maxRecDepth 100000 in
private theorem s06_check : s06.check = true := by decide +kernel

set_option maxRecDepth 100000 in
private theorem s07_check : s07.check = true := by decide +kernel

set_option maxRecDepth 100000 in
private theorem s08_check : s08.check = true := by decide +kernel

set_option maxRecDepth 100000 in
private theorem s09_check : s09.check = true := by decide +kernel

set_option maxRecDepth 100000 in
private theorem s10_check : s10.check = true := by decide +kernel

set_option maxRecDepth 100000 in
private theorem s11_check : s11.check = true := by decide +kernel

set_option maxRecDepth 100000 in
private theorem s12_check : s12.check = true := by decide +kernel

set_option maxRecDepth 100000 in
private theorem s13_check : s13.check = true := by decide +kernel

set_option maxRecDepth 100000 in
private theorem s14_check : s14.check = true := by decide +kernel

set_option maxRecDepth 100000 in
private theorem s15_check : s15.check = true := by decide +kernel

set_option maxRecDepth 100000 in
private theorem s16_check : s16.check = true := by decide +kernel

set_option maxRecDepth 100000 in
private theorem s17_check : s17.check = true := by decide +kernel

set_option maxRecDepth 100000 in
private theorem s18_check : s18.check = true := by decide +kernel

set_option maxRecDepth 100000 in
private theorem s19_check : s19.check = true := by decide +kernel

set_option maxRecDepth 100000 in
private theorem s20_check : s20.check = true := by decide +kernel

set_option maxRecDepth 100000 in
private theorem s21_check : s21.check = true := by decide +kernel

set_option maxRecDepth 100000 in
private theorem s22_check : s22.check = true := by decide +kernel

set_option maxRecDepth 100000 in
private theorem s23_check : s23.check = true := by decide +kernel

set_option maxRecDepth 100000 in
private theorem s24_check : s24.check = true := by decide +kernel

set_option maxRecDepth 100000 in
private theorem s25_check : s25.check = true := by decide +kernel

set_option maxRecDepth 100000 in
private theorem s26_check : s26.check = true := by decide +kernel

set_option maxRecDepth 100000 in
private theorem s27_check : s27.check = true := by decide +kernel

set_option maxRecDepth 100000 in
private theorem d00_check : d00.check = true := by decide +kernel

set_option maxRecDepth 100000 in
private theorem d01_check : d01.check = true := by decide +kernel

set_option maxRecDepth 100000 in
private theorem d02_check : d02.check = true := by decide +kernel

set_option maxRecDepth 100000 in
private theorem d03_check : d03.check = true := by decide +kernel

set_option maxRecDepth 100000 in
private theorem d04_check : d04.check = true := by decide +kernel

set_option maxRecDepth 100000 in
private theorem d05_check : d05.check = true := by decide +kernel

set_option maxRecDepth 100000 in
private theorem d06_check : d06.check = true := by decide +kernel

set_option maxRecDepth 100000 in
private theorem d07_check : d07.check = true := by decide +kernel

set_option maxRecDepth 100000 in
private theorem d08_check : d08.check = true := by decide +kernel

set_option maxRecDepth 100000 in
private theorem d09_check : d09.check = true := by decide +kernel

set_option maxRecDepth 100000 in
private theorem d10_check : d10.check = true := by decide +kernel

set_option maxRecDepth 100000 in
private theorem d11_check : d11.check = true := by decide +kernel

set_option maxRecDepth 100000 in
private theorem d12_check : d12.check = true := by decide +kernel

set_option maxRecDepth 100000 in
private theorem d13_check : d13.check = true := by decide +kernel

set_option maxRecDepth 100000 in
private theorem d14_check : d14.check = true := by decide +kernel

set_option maxRecDepth 100000 in
private theorem d15_check : d15.check = true := by decide +kernel

set_option maxRecDepth 100000 in
private theorem d16_check : d16.check = true := by decide +kernel

set_option maxRecDepth 100000 in
private theorem d17_check : d17.check = true := by decide +kernel

set_option maxRecDepth 100000 in
private theorem d18_check : d18.check = true := by decide +kernel

set_option maxRecDepth 100000 in
private theorem d19_check : d19.check = true := by decide +kernel

set_option maxRecDepth 100000 in
private theorem d20_check : d20.check = true := by decide +kernel

set_option maxRecDepth 100000 in
private theorem d21_check : d21.check = true := by decide +kernel

set_option maxRecDepth 100000 in
private theorem d22_check : d22.check = true := by decide +kernel

set_option maxRecDepth 100000 in
private theorem d23_check : d23.check = true := by decide +kernel

set_option maxRecDepth 100000 in
private theorem d24_check : d24.check = true := by decide +kernel

set_option maxRecDepth 100000 in
private theorem d25_check : d25.check = true := by decide +kernel

set_option maxRecDepth 100000 in
private theorem d26_check : d26.check = true := by decide +kernel

set_option maxRecDepth 100000 in
private theorem d27_check : d27.check = true := by decide +kernel

theorem singles_check : singles.all SEntry.check = true := by
  simp only [singles, List.all_cons, List.all_nil, Bool.and_true, s00_check, s01_check, s02_check, s03_check, s04_check, s05_check, s06_check,
    s07_check, s08_check, s09_check, s10_check, s11_check, s12_check, s13_check, s14_check, s15_check, s16_check, s17_check, s18_check, s19_check,
    s20_check, s21_check, s22_check, s23_check, s24_check, s25_check, s26_check, s27_check]

theorem doubles_check : doubles.all SEntry.check = true := by
  simp only [doubles, List.all_cons, List.all_nil, Bool.and_true, d00_check, d01_check, d02_check, d03_check, d04_check, d05_check, d06_check,
    d07_check, d08_check, d09_check, d10_check, d11_check, d12_check, d13_check, d14_check, d15_check, d16_check, d17_check, d18_check, d19_check,
    d20_check, d21_check, d22_check, d23_check, d24_check, d25_check, d26_check, d27_check]

theorem counts : singles.length = 28 ∧ doubles.length = 28 := ⟨rfl, rfl⟩

theorem check_of_mem {e : SEntry} (he : e ∈ singles ∨ e ∈ doubles) : e.check = true := by
  rcases he with he | he
  · exact List.all_eq_true.1 singles_check _ he
  · exact List.all_eq_true.1 doubles_check _ he

/-- the same statements in both precisions -/
theorem same_statements : singles.map (fun e => (e.op, e.rhs)) = doubles.map fun e => (e.op, e.rhs) := by decide

section props
variable {R : Type} [Field R]

/-! ## properties -/

/-- C83: on every subset of every set of sites, with every number of threads and for all fields (the same field may stand at several places), every
execution is free of undefined behaviour, some execution ends, and those that end have assigned what the statement says -/
theorem C83_statement {e : SEntry} (he : e ∈ singles ∨ e ∈ doubles) {col : List Nat} {cb : Nat} {sub : Sub} (hsub : makeSub col cb = ok sub) {T : Nat}
    (hT : 0 < T) (hov : col.length * T < 2 ^ 31) (h24 : 24 * col.length < 2 ^ 31) (I : Inst R) (h : Kernel.Heap R) :
    (∃ s, e.Reaches (Form.of sub) col.length T I h s ∧ Interleave.Done s) ∧
    ∀ s, e.Reaches (Form.of sub) col.length T I h s → ¬ Interleave.Fault (e.step (Form.of sub) col.length I) s ∧
      (Interleave.Done s →
        Evaluate.Assigned I.dest e.op.app (sitesFrom cb col 0) (e.rhs.expr I false []) (spinors h) (spinors s.heap)) := by
  have htab := form_of_makeSub hsub
  have hsz : (Form.of sub).size ≤ col.length := by rw [form_size, htab]; exact sitesFrom_length_le cb col
  have := entry_correct (check_of_mem he) (f := Form.of sub) (N := col.length) (T := T) hT
    (by rw [htab]; exact (sitesFrom_sorted cb col 0).imp fun hlt => Nat.ne_of_lt hlt)
    (by
      intro i hi
      rw [htab, mem_sitesFrom] at hi
      obtain ⟨j, rfl, hi⟩ := hi
      by_contra hc
      rw [List.getElem?_eq_none (by omega)] at hi
      simp at hi)
    (by
      calc _ ≤ col.length * T := Nat.mul_le_mul_right _ hsz
        _ < _ := hov)
    (by omega) I h
  rw [htab] at this
  exact this

/-- C83: the specialisation leaves the same fields as the general `evaluate` would -/
theorem C83_same_as_general {e : SEntry} (he : e ∈ singles ∨ e ∈ doubles) {col : List Nat} {cb : Nat} {sub : Sub} (hsub : makeSub col cb = ok sub)
    {T T' : Nat} (hT : 0 < T) (hT' : 0 < T') (hov : col.length * T < 2 ^ 31) (hov' : col.length * T' < 2 ^ 31) (h24 : 24 * col.length < 2 ^ 31)
    (I : Inst R) (h : Kernel.Heap R) {s : State R} (hs : e.Reaches (Form.of sub) col.length T I h s) (hd : Interleave.Done s)
    {h' : Evaluate.Heap (Val R)} (hg : Evaluate.Evaluates T' I.dest e.op.app (sitesFrom cb col 0) (e.rhs.expr I false []) (spinors h) h') :
    spinors s.heap = h' := by
  have h1 := ((C83_statement he hsub hT hov h24 I h).2 s hs).2 hd
  have h2 := Evaluate.C48_assign hT' ((sitesFrom_sorted cb col 0).imp fun hlt => Nat.ne_of_lt hlt)
    (by
      have h1 : active (sitesFrom cb col 0).length T' ≤ T' := by unfold active; omega
      calc _ ≤ col.length * T' := Nat.mul_le_mul (sitesFrom_length_le cb col) h1
        _ < _ := hov') (expr_noShifted I false I.dest e.rhs []) hg
  exact h1.unique h2

/-- C83: a build with SSE and one without leave the same fields, for every statement that both have a specialisation for -/
theorem C83_same_as_generic {e : SEntry} (he : e ∈ singles ∨ e ∈ doubles) {e' : Entry} (he' : e' ∈ tidy) (hop : e'.op = e.op) (hrhs : e'.rhs = e.rhs)
    (hre : e'.cplx = false) {col : List Nat} {cb : Nat} {sub : Sub} (hsub : makeSub col cb = ok sub) {T T' : Nat} (hT : 0 < T) (hT' : 0 < T')
    (hov : col.length * T < 2 ^ 31) (hov' : col.length * T' < 2 ^ 31) (h24 : 24 * col.length < 2 ^ 31) (I : Inst R) (h : Kernel.Heap R)
    {s s' : State R} (hs : e.Reaches (Form.of sub) col.length T I h s) (hd : Interleave.Done s)
    (hs' : e'.Reaches (Form.of sub) col.length T' I h s') (hd' : Interleave.Done s') : spinors s.heap = spinors s'.heap := by
  have h1 := ((C83_statement he hsub hT hov h24 I h).2 s hs).2 hd
  have h2 := ((C60_tidy he' hsub hT' hov' h24 I h).2 s' hs').2 hd'
  rw [hop, hrhs, hre] at h2
  exact h1.unique h2

/-- all of them have a generic counterpart: those of qdp_scalarsite_generic_blas.h -/
theorem counterparts {e : SEntry} (he : e ∈ singles ∨ e ∈ doubles) : ∃ e' ∈ Blas.tidy, e'.op = e.op ∧ e'.rhs = e.rhs ∧ e'.cplx = false := by
  have key : ∀ p ∈ singles.map (fun e => (e.op, e.rhs)), p ∈ (Blas.tidy.filter fun e => !e.cplx).map fun e => (e.op, e.rhs) := by decide
  have hm : (e.op, e.rhs) ∈ singles.map (fun e => (e.op, e.rhs)) := by
    rcases he with he | he
    · exact List.mem_map.2 ⟨e, he, rfl⟩
    · rw [same_statements]; exact List.mem_map.2 ⟨e, he, rfl⟩
  obtain ⟨e', he', hp⟩ := List.mem_map.1 (key _ hm)
  obtain ⟨h1, h2⟩ := List.mem_filter.1 he'
  injection hp with hp1 hp2
  exact ⟨e', h1, hp1, hp2, by simpa using h2⟩

/-- a case: `y = a * x + y` in double precision on all four sites, the kernel that works in place, two threads -/
example (h : Kernel.Heap ℚ) : ∃ sub s, makeSub [0, 0, 0, 0] 0 = ok sub ∧
    (d02.call (Form.of sub) (⟨0, fun p => if p = [.r] then 0 else 1, fun _ => (3, 0)⟩ : Inst ℚ)).kern = vaxpy4 ∧
    d02.Reaches (Form.of sub) 4 2 (⟨0, fun p => if p = [.r] then 0 else 1, fun _ => (3, 0)⟩ : Inst ℚ) h s ∧ Interleave.Done s ∧
    Evaluate.Assigned 0 Asg.assign.app [0, 1, 2, 3] (d02.rhs.expr ⟨0, fun p => if p = [.r] then 0 else 1, fun _ => (3, 0)⟩ false []) (spinors h)
      (spinors s.heap) := by
  obtain ⟨sub, hsub, h1⟩ : ∃ sub, makeSub [0, 0, 0, 0] 0 = ok sub ∧ sub.ordRep = true := ⟨_, rfl, rfl⟩
  obtain ⟨⟨s, hs, hd⟩, h2⟩ := C83_statement (e := d02) (.inr (by simp [doubles])) hsub (T := 2) (by omega) (by decide) (by decide)
    (⟨0, fun p => if p = [.r] then 0 else 1, fun _ => (3, 0)⟩ : Inst ℚ) h
  refine ⟨sub, s, hsub, ?_, hs, hd, (h2 s hs).2 hd⟩
  simp [SEntry.call, Form.of, h1, d02]

end props

end Verif.SseBlas
