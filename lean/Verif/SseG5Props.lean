import Verif.SseG5Tables
import Verif.SseBlasProps
/-
The SSE kernels with chiral projections and the specialisations of `evaluate` that call them (include/scalarsite_sse/qdp_scalarsite_sse_blas_g5.h and
sse_blas_*_g5.h).  The header with the specialisations is installed, but no other header includes it, and it does not compile: lines 940 and 985 declare an
unused variable with the undeclared name `y` in its initialiser.  What is proved of the specialisations holds for the text without these two lines.  The
kernels are in headers of their own and are not affected.

Not modelled: rounding; alignment of the vector loads and stores; a base precision of 64 bits, for which the headers of the kernels are empty and the casts
`(REAL *)` in the specialisations, whose fields are of `REAL32`, would be wrong.
-/
set_option linter.unusedSectionVars false
-- one check at a time, for the sake of memory
set_option Elab.async false
namespace Verif.SseG5
open Verif Outcome Verif.Poly Verif.Kernel Verif.Subset Verif.Dispatch Verif.Blas Verif.SseBlas Verif.SseG5.Tables

/-! ## the tables pass the check -/

-- entry by entry, so that the memory of one check is free again for the next
set_option maxRecDepth 100000 in
private theorem g00_check : g00.check = true := by decide +kernel

set_option maxRecDepth 100000 in
private theorem g01_check : g01.check = true := by decide +kernel

set_option maxRecDepth 100000 in
private theorem g02_check : g02.check = true := by decide +kernel

set_option maxRecDepth 100000 in
private theorem g03_check : g03.check = true := by decide +kernel

set_option maxRecDepth 100000 in
private theorem g04_check : g04.check = true := by decide +kernel

set_option maxRecDepth 100000 in
private theorem g05_check : g05.check = true := by decide +kernel

set_option maxRecDepth 100000 in
private theorem g06_check : g06.check = true := by decide +kernel

set_option maxRecDepth 100000 in
private theorem g07_check : g07.check = true := by decide +kernel

set_option maxRecDepth 100000 in
private theorem g08_check : g08.check = true := by decide +kernel

set_option maxRecDepth 100000 in
private theorem g09_check : g09.check = true := by decide +kernel

set_option maxRecDepth 100000 in
private theorem g10_check : g10.check = true := by decide +kernel

set_option maxRecDepth 100000 in
private theorem g11_check : g11.check = true := by decide +kernel

set_option maxRecDepth 100000 in
private theorem g12_check : g12.check = true := by decide +kernel

set_option maxRecDepth 100000 in
private theorem g13_check : g13.check = true := by decide +kernel

set_option maxRecDepth 100000 in
private theorem g14_check : g14.check = true := by decide +kernel

set_option maxRecDepth 100000 in
private theorem g15_check : g15.check = true := by decide +kernel

set_option maxRecDepth 100000 in
private theorem g16_check : g16.check = true := by decide +kernel

set_option maxRecDepth 100000 in
private theorem g17_check : g17.check = true := by decide +kernel

set_option maxRecDepth 100000 in
private theorem g18_check : g18.check = true := by decide +kernel

set_option maxRecDepth 100000 in
private theorem g19_check : g19.check = true := by decide +kernel

set_option maxRecDepth 100000 in
private theorem g20_check : g20.check = true := by decide +kernel

set_option maxRecDepth 100000 in
private theorem g21_check : g21.check = true := by decide +kernel

set_option maxRecDepth 100000 in
private theorem g22_check : g22.check = true := by decide +kernel

set_option maxRecDepth 100000 in
private theorem g23_check : g23.check = true := by decide +kernel

set_option maxRecDepth 100000 in
private theorem g24_check : g24.check = true := by decide +kernel

set_option maxRecDepth 100000 in
private theorem g25_check : g25.check = true := by decide +kernel

set_option maxRecDepth 100000 in
private theorem g26_check : g26.check = true := by decide +kernel

set_option maxRecDepth 100000 in
private theorem g27_check : g27.check = true := by decide +kernel

set_option maxRecDepth 100000 in
private theorem g28_check : g28.check = true := by decide +kernel

set_option maxRecDepth 100000 in
private theorem g29_check : g29.check = true := by decide +kernel

set_option maxRecDepth 100000 in
private theorem g30_check : g30.check = true := by decide +kernel

set_option maxRecDepth 100000 in
private theorem g31_check : g31.check = true := by decide +kernel

theorem entries_check : entries.all SEntry.check = true := by
  simp only [entries, List.all_cons, List.all_nil, Bool.and_true, g00_check, g01_check, g02_check, g03_check, g04_check, g05_check, g06_check,
    g07_check, g08_check, g09_check, g10_check, g11_check, g12_check, g13_check, g14_check, g15_check, g16_check, g17_check, g18_check, g19_check,
    g20_check, g21_check, g22_check, g23_check, g24_check, g25_check, g26_check, g27_check, g28_check, g29_check, g30_check, g31_check]

/-- the check of a kernel and the generic kernel of the same name -/
def pairCheck (p : Kern × Kern) : Bool :=
  checkRun p.1 0 (specOf p.2 2) && checkRun p.2 2 (specOf p.2 2) && p.1.params == p.2.params

set_option maxRecDepth 100000 in
private theorem axpyz_g5ProjPlus_check : pairCheck (Tables.axpyz_g5ProjPlus, Kernel.Tables.axpyz_g5ProjPlus) = true := by decide +kernel

set_option maxRecDepth 100000 in
private theorem axpyz_g5ProjMinus_check : pairCheck (Tables.axpyz_g5ProjMinus, Kernel.Tables.axpyz_g5ProjMinus) = true := by decide +kernel

set_option maxRecDepth 100000 in
private theorem axmyz_g5ProjPlus_check : pairCheck (Tables.axmyz_g5ProjPlus, Kernel.Tables.axmyz_g5ProjPlus) = true := by decide +kernel

set_option maxRecDepth 100000 in
private theorem axmyz_g5ProjMinus_check : pairCheck (Tables.axmyz_g5ProjMinus, Kernel.Tables.axmyz_g5ProjMinus) = true := by decide +kernel

set_option maxRecDepth 100000 in
private theorem xpayz_g5ProjPlus_check : pairCheck (Tables.xpayz_g5ProjPlus, Kernel.Tables.xpayz_g5ProjPlus) = true := by decide +kernel

set_option maxRecDepth 100000 in
private theorem xpayz_g5ProjMinus_check : pairCheck (Tables.xpayz_g5ProjMinus, Kernel.Tables.xpayz_g5ProjMinus) = true := by decide +kernel

set_option maxRecDepth 100000 in
private theorem xmayz_g5ProjPlus_check : pairCheck (Tables.xmayz_g5ProjPlus, Kernel.Tables.xmayz_g5ProjPlus) = true := by decide +kernel

set_option maxRecDepth 100000 in
private theorem xmayz_g5ProjMinus_check : pairCheck (Tables.xmayz_g5ProjMinus, Kernel.Tables.xmayz_g5ProjMinus) = true := by decide +kernel

set_option maxRecDepth 100000 in
private theorem add_g5ProjPlus_check : pairCheck (Tables.add_g5ProjPlus, Kernel.Tables.add_g5ProjPlus) = true := by decide +kernel

set_option maxRecDepth 100000 in
private theorem add_g5ProjMinus_check : pairCheck (Tables.add_g5ProjMinus, Kernel.Tables.add_g5ProjMinus) = true := by decide +kernel

set_option maxRecDepth 100000 in
private theorem sub_g5ProjPlus_check : pairCheck (Tables.sub_g5ProjPlus, Kernel.Tables.sub_g5ProjPlus) = true := by decide +kernel

set_option maxRecDepth 100000 in
private theorem sub_g5ProjMinus_check : pairCheck (Tables.sub_g5ProjMinus, Kernel.Tables.sub_g5ProjMinus) = true := by decide +kernel

set_option maxRecDepth 100000 in
private theorem scal_g5ProjPlus_check : pairCheck (Tables.scal_g5ProjPlus, Kernel.Tables.scal_g5ProjPlus) = true := by decide +kernel

set_option maxRecDepth 100000 in
private theorem scal_g5ProjMinus_check : pairCheck (Tables.scal_g5ProjMinus, Kernel.Tables.scal_g5ProjMinus) = true := by decide +kernel

set_option maxRecDepth 100000 in
private theorem axpbyz_g5ProjPlus_check : pairCheck (Tables.axpbyz_g5ProjPlus, Kernel.Tables.axpbyz_g5ProjPlus) = true := by decide +kernel

set_option maxRecDepth 100000 in
private theorem axpbyz_g5ProjMinus_check : pairCheck (Tables.axpbyz_g5ProjMinus, Kernel.Tables.axpbyz_g5ProjMinus) = true := by decide +kernel

set_option maxRecDepth 100000 in
private theorem axmbyz_g5ProjPlus_check : pairCheck (Tables.axmbyz_g5ProjPlus, Kernel.Tables.axmbyz_g5ProjPlus) = true := by decide +kernel

set_option maxRecDepth 100000 in
private theorem axmbyz_g5ProjMinus_check : pairCheck (Tables.axmbyz_g5ProjMinus, Kernel.Tables.axmbyz_g5ProjMinus) = true := by decide +kernel

theorem kernels_check : (List.zip kernels generics).all pairCheck = true := by
  simp only [kernels, generics, List.zip_cons_cons, List.zip_nil_right, List.all_cons, List.all_nil, Bool.and_true, axpyz_g5ProjPlus_check,
    axpyz_g5ProjMinus_check, axmyz_g5ProjPlus_check, axmyz_g5ProjMinus_check, xpayz_g5ProjPlus_check, xpayz_g5ProjMinus_check, xmayz_g5ProjPlus_check,
    xmayz_g5ProjMinus_check, add_g5ProjPlus_check, add_g5ProjMinus_check, sub_g5ProjPlus_check, sub_g5ProjMinus_check, scal_g5ProjPlus_check,
    scal_g5ProjMinus_check, axpbyz_g5ProjPlus_check, axpbyz_g5ProjMinus_check, axmbyz_g5ProjPlus_check, axmbyz_g5ProjMinus_check]

theorem counts : kernels.length = 18 ∧ generics.length = 18 ∧ entries.length = 32 := ⟨rfl, rfl, rfl⟩

theorem check_of_mem {e : SEntry} (he : e ∈ entries) : e.check = true := List.all_eq_true.1 entries_check _ he

section props
variable {R : Type} [Field R]

/-! ## properties -/

/-- two checked kernels for the same polynomials write the same -/
theorem same_run {K G : Kern} {a b : Nat} {sp : List Pol} (hK : checkRun K a sp = true) (hG : checkRun G b sp = true) {a' b' : Nat} (ha : a ≤ a')
    (hb : b ≤ b') (s : Nat → R) (px py pz base n : Nat) (h : Kernel.Heap R) :
    ∃ h', K.run (ringOps R) s px py pz base n a' h = ok h' ∧ G.run (ringOps R) s px py pz base n b' h = ok h' := by
  obtain ⟨h1, e1, v1, f1⟩ := checkRun_run hK ha s px py pz base n h
  obtain ⟨h2, e2, v2, f2⟩ := checkRun_run hG hb s px py pz base n h
  refine ⟨h1, e1, ?_⟩
  rw [e2]
  congr 1
  have l1 := stride_of_check hK
  have l2 := stride_of_check hG
  have hpos : 0 < sp.length := by
    rcases Nat.eq_zero_or_pos sp.length with hz | hz
    · rw [hz] at l1; simp at l1
    · exact hz
  funext g i
  by_cases hin : g = pz ∧ base ≤ i ∧ i < base + 24 * n
  · obtain ⟨rfl, hlo, hhi⟩ := hin
    have hd : i = base + (sp.length * ((i - base) / sp.length) + (i - base) % sp.length) := by
      rw [Nat.div_add_mod]; omega
    have hj1 : (i - base) / sp.length < K.mul * n := by
      rw [Nat.div_lt_iff_lt_mul hpos, Nat.mul_comm (K.mul * n), ← Nat.mul_assoc, l1]; omega
    have hj2 : (i - base) / sp.length < G.mul * n := by
      rw [Nat.div_lt_iff_lt_mul hpos, Nat.mul_comm (G.mul * n), ← Nat.mul_assoc, l2]; omega
    have hr : (i - base) % sp.length < sp.length := Nat.mod_lt _ hpos
    rw [hd, v1 _ _ hj1 hr, v2 _ _ hj2 hr]
  · rw [f1 g i (by intro hg; by_contra hc; exact hin ⟨hg, by omega, by omega⟩), f2 g i (by intro hg; by_contra hc; exact hin ⟨hg, by omega, by omega⟩)]

/-- C123: a kernel and the generic kernel of the same name have the same parameters, and a call with the same arguments, for any number of sites and any
fields, whether or not one of them is written, leaves the same numbers.  The kernel stays inside the arrays; the generic one looks two numbers ahead. -/
theorem C123_kernel {K G : Kern} (hm : (K, G) ∈ List.zip kernels generics) (s : Nat → R) (px py pz base n : Nat) (h : Kernel.Heap R) :
    K.params = G.params ∧
    ∃ h', K.run (ringOps R) s px py pz base n 0 h = ok h' ∧ G.run (ringOps R) s px py pz base n 2 h = ok h' := by
  have := List.all_eq_true.1 kernels_check _ hm
  simp only [pairCheck, Bool.and_eq_true, beq_iff_eq] at this
  exact ⟨this.2, same_run this.1.1 this.1.2 (Nat.le_refl _) (Nat.le_refl _) s px py pz base n h⟩

/-- C123: on every subset of every set of sites and for all fields (the same field may stand at several places), the specialisation is free of undefined
behaviour, ends, and has then assigned what the statement says.  It does not use threads, so their number `T` does not matter. -/
theorem C123_statement {e : SEntry} (he : e ∈ entries) {col : List Nat} {cb : Nat} {sub : Sub} (hsub : makeSub col cb = ok sub) {T : Nat} (hT : 0 < T)
    (hov : col.length * T < 2 ^ 31) (h24 : 24 * col.length < 2 ^ 31) (I : Inst R) (h : Kernel.Heap R) :
    (∃ s, e.Reaches (Form.of sub) col.length T I h s ∧ Interleave.Done s) ∧
    ∀ s, e.Reaches (Form.of sub) col.length T I h s → ¬ Interleave.Fault (e.step (Form.of sub) col.length I) s ∧
      (Interleave.Done s →
        Evaluate.Assigned I.dest e.op.app (sitesFrom cb col 0) (e.rhs.expr I false []) (spinors h) (spinors s.heap)) := by
  have htab := form_of_makeSub hsub
  have hsz : (Form.of sub).size ≤ col.length := by rw [form_size, htab]; exact sitesFrom_length_le cb col
  have := SseBlas.entry_correct (check_of_mem he) (f := Form.of sub) (N := col.length) (T := T) hT
    (by rw [htab]; exact (sitesFrom_sorted cb col 0).imp fun hlt => Nat.ne_of_lt hlt)
    (by
      intro i hi
      rw [htab, mem_sitesFrom] at hi
      obtain ⟨j, rfl, hi⟩ := hi
      by_contra hc
      rw [List.getElem?_eq_none (by omega)] at hi
      simp at hi)
    (by
      calc _ ≤ col.length * T := Nat.mul_le_mul_right _ hsz
        _ < _ := hov)
    (by omega) I h
  rw [htab] at this
  exact this

/-- C123: the specialisation leaves the same fields as the general `evaluate` would -/
theorem C123_same_as_general {e : SEntry} (he : e ∈ entries) {col : List Nat} {cb : Nat} {sub : Sub} (hsub : makeSub col cb = ok sub)
    {T T' : Nat} (hT : 0 < T) (hT' : 0 < T') (hov : col.length * T < 2 ^ 31) (hov' : col.length * T' < 2 ^ 31) (h24 : 24 * col.length < 2 ^ 31)
    (I : Inst R) (h : Kernel.Heap R) {s : State R} (hs : e.Reaches (Form.of sub) col.length T I h s) (hd : Interleave.Done s)
    {h' : Evaluate.Heap (Val R)} (hg : Evaluate.Evaluates T' I.dest e.op.app (sitesFrom cb col 0) (e.rhs.expr I false []) (spinors h) h') :
    spinors s.heap = h' := by
  have h1 := ((C123_statement he hsub hT hov h24 I h).2 s hs).2 hd
  have h2 := Evaluate.C48_assign hT' ((sitesFrom_sorted cb col 0).imp fun hlt => Nat.ne_of_lt hlt)
    (by
      have h1 : active (sitesFrom cb col 0).length T' ≤ T' := by unfold active; omega
      calc _ ≤ col.length * T' := Nat.mul_le_mul (sitesFrom_length_le cb col) h1
        _ < _ := hov') (expr_noShifted I false I.dest e.rhs []) hg
  exact h1.unique h2

/-- the statements are those of include/scalarsite_generic/qdp_scalarsite_generic_blas_g5.h, one for one and in the same order -/
theorem same_statements : entries.map (fun e => (e.op, e.rhs)) = (Blas.Tables.entries.drop 51).map fun e => (e.op, e.rhs) := by decide

/-- C123: the generic specialisation, where it gets to the end, leaves the same fields.  On the subsets with the last site of the node some of the generic ones
do not (`C61_last_site`); those here do. -/
theorem C123_same_as_generic {e : SEntry} (he : e ∈ entries) {e' : Entry} (he' : e' ∈ Blas.Tables.entries) (hop : e'.op = e.op) (hrhs : e'.rhs = e.rhs)
    (hre : e'.cplx = false) {col : List Nat} {cb : Nat} {sub : Sub} (hsub : makeSub col cb = ok sub) {T T' : Nat} (hT : 0 < T) (hT' : 0 < T')
    (hov : col.length * T < 2 ^ 31) (hov' : col.length * T' < 2 ^ 31) (h24 : 24 * col.length < 2 ^ 31)
    (hlast : e' ∈ tidy ∨ ∀ i, col[i]? = some cb → i + 1 < col.length) (I : Inst R) (h : Kernel.Heap R)
    {s s' : State R} (hs : e.Reaches (Form.of sub) col.length T I h s) (hd : Interleave.Done s)
    (hs' : e'.Reaches (Form.of sub) col.length T' I h s') (hd' : Interleave.Done s') : spinors s.heap = spinors s'.heap := by
  have h1 := ((C123_statement he hsub hT hov h24 I h).2 s hs).2 hd
  have h2 : Evaluate.Assigned I.dest e'.op.app (sitesFrom cb col 0) (e'.rhs.expr I e'.cplx []) (spinors h) (spinors s'.heap) := by
    rcases hlast with hl | hl
    · exact ((C60_tidy hl hsub hT' hov' h24 I h).2 s' hs').2 hd'
    · exact ((C60_all_partial he' hsub hT' hov' h24 hl I h).2 s' hs').2 hd'
  rw [hop, hrhs, hre] at h2
  exact h1.unique h2

/-- a case: `y += a * chiralProjectPlus(x)` on all sites of a lattice of four, the case in which the generic specialisation reads behind the field -/
example (h : Kernel.Heap ℚ) : ∃ sub s, makeSub [0, 0, 0, 0] 0 = ok sub ∧
    g00.Reaches (Form.of sub) 4 1 (⟨0, fun _ => 1, fun _ => (3, 0)⟩ : Inst ℚ) h s ∧ Interleave.Done s ∧
    Evaluate.Assigned 0 Asg.addAssign.app [0, 1, 2, 3] (g00.rhs.expr ⟨0, fun _ => 1, fun _ => (3, 0)⟩ false []) (spinors h) (spinors s.heap) ∧
    g00.op = Blas.Tables.e51.op ∧ g00.rhs = Blas.Tables.e51.rhs ∧ Blas.Tables.e51 ∉ tidy := by
  obtain ⟨sub, hsub, _⟩ := makeSub_eq [0, 0, 0, 0] 0
  obtain ⟨⟨s, hs, hd⟩, h2⟩ := C123_statement (e := g00) (by simp [entries]) hsub (T := 1) (by omega) (by decide) (by decide)
    (⟨0, fun _ => 1, fun _ => (3, 0)⟩ : Inst ℚ) h
  exact ⟨sub, s, hsub, hs, hd, (h2 s hs).2 hd, by decide, by decide, e51_untidy.2⟩

/-- a case: `y += 3 * chiralProjectPlus(x)` for two sites, by both kernels -/
example (h : Kernel.Heap ℚ) : ∃ h', xpayz_g5ProjPlus.run (ringOps ℚ) (fun _ => 3) 0 1 0 0 2 0 h = ok h' ∧
    Kernel.Tables.xpayz_g5ProjPlus.run (ringOps ℚ) (fun _ => 3) 0 1 0 0 2 2 h = ok h' := by
  obtain ⟨_, h', h1, h2⟩ := C123_kernel (K := xpayz_g5ProjPlus) (G := Kernel.Tables.xpayz_g5ProjPlus) (by simp [kernels, generics]) (fun _ => (3 : ℚ)) 0 1 0 0 2 h
  exact ⟨h', h1, h2⟩

end props

end Verif.SseG5
