import Verif.Su3Thm
/-
The specialised evaluation of a matrix times a half fermion.
-/
set_option linter.unusedVariables false
namespace Verif.Su3
open Verif Outcome Verif.Site Verif.SiteLoop Verif.Blas Verif.Subset Verif.Dispatch

/-! ### `LatticeHalfFermion = LatticeColorMatrix * LatticeHalfFermion` -/


/-- the calls for one site, by the kind of the subset: include/scalarsite_generic/qdp_scalarsite_generic_linalg.h:491-543 -/
def evalCalls : Form → List Call
  | .ordered _ _ => orderedCalls
  | .unordered _ => unorderedCalls

section
variable {K : Type} [CommRing K]

abbrev colorMatrix : Ty := .sca (.mat .color 2 .rc)
abbrev halfFermion : Ty := .vec .spin 1 (.vec .color 2 .rc)

/-- the states of `d[subset] = l * r`, for fields number `l`, `r`, `d` -/
def HalfReaches (l r d : Nat) (f : Form) (N T : Nat) (h : Interleave.Heap (Nat → K)) (s : Interleave.St (Nat → K) (Nat × Ins) Unit) : Prop :=
  Reaches (act l r d) ((evalCalls f).flatMap Call.ins) f N T (fun _ => ()) h s

/-- C68: the loop assigns the product on the sites of the subset and nothing else, for every number of threads and every interleaving, if the
destination is not the right operand.  Missing: the statement `h = u * h`, for which it is false (`C68_in_place`). -/
theorem C68_half_partial {l r d : Nat} (hl : d ≠ l) (hr : d ≠ r) {col : List Nat} {cb : Nat} {sub : Sub} (hsub : makeSub col cb = ok sub) {T : Nat}
    (hT : 0 < T) (hov : col.length * T < 2 ^ 31) (h : Interleave.Heap (Nat → K)) :
    (∃ s, HalfReaches l r d (Form.of sub) col.length T h s ∧ Interleave.Done s) ∧
    ∀ s, HalfReaches l r d (Form.of sub) col.length T h s → ¬ Interleave.Fault (instr (act l r d) col.length) s ∧
      (Interleave.Done s →
        (∀ i, col[i]? = some cb → obj halfFermion (s.heap d i) =
          Site.mul (.sv .spin 1 (.mv .color 2 .cc)) (obj colorMatrix (h l i)) (obj halfFermion (h r i))) ∧
        (∀ i, col[i]? ≠ some cb → s.heap d i = h d i) ∧ ∀ f, f ≠ d → s.heap f = h f) := by
  have hc : evalCalls (Form.of sub) = s12.calls := by cases Form.of sub <;> rfl
  obtain ⟨h1, h2⟩ := subset_correct (act := act (K := K) l r d) ((evalCalls (Form.of sub)).flatMap Call.ins) (fun _ _ _ => rfl) hsub hT hov
    (fun _ => ()) () h
  refine ⟨h1, fun s hs => ⟨(h2 s hs).1, fun hd => ?_⟩⟩
  obtain ⟨a, b⟩ := (h2 s hs).2 hd
  simp only [run_apart hl hr, hc] at a
  refine ⟨?_, fun i hi => b i hi d, ?_⟩
  · intro i hi
    have := congrFun (a i hi) d
    simp only [Function.update_self] at this
    rw [this]
    exact w12 (h l i) (h r i) (h d i)
  · intro f hf
    funext i
    by_cases hi : col[i]? = some cb
    · have := congrFun (a i hi) f
      rwa [Function.update_of_ne hf] at this
    · exact b i hi f

/-- a statement does not write word `j` -/
def Ins.Avoids (j : Nat) (x : Ins) : Prop := match x.stm with
  | .word d _ _ _ => j < x.oc ∨ j - x.oc ≠ d
  | .prods _ d _ => j < x.oc ∨ (j - x.oc) / 2 ≠ d
  | .sum d _ _ => j < x.oc ∨ (j - x.oc) / 2 ≠ d

instance (j : Nat) : DecidablePred (Ins.Avoids j) := fun x => by
  obtain ⟨s, _, _, _⟩ := x
  cases s <;> unfold Ins.Avoids <;> infer_instance

theorem keep_word {a b c j : Nat} : ∀ (p : List Ins), (∀ x ∈ p, x.Avoids j) → ∀ v : View (Nat → K), (runView (act a b c) p () v).2 c j = v c j
  | [], _, v => rfl
  | x :: p, hp, v => by
      rw [runView, keep_word p fun y hy => hp y (List.mem_cons_of_mem _ hy)]
      have hx := hp x (List.mem_cons_self ..)
      simp only [act, Function.update_self]
      obtain ⟨st, oa, ob, oc⟩ := x
      unfold Ins.at
      simp only
      split
      · next h => cases st <;> simp only [Ins.Avoids] at hx <;> simp only [Stm.at] <;> rw [if_neg (by omega)]
      · rfl

theorem runView_append {W I : Type} {ac : I → Unit → View W → Unit × View W} : ∀ (p q : List I) (v : View W),
    runView ac (p ++ q) () v = runView ac q () (runView ac p () v).2
  | [], q, v => rfl
  | x :: p, q, v => by simp only [List.cons_append, runView]; exact runView_append p q _

/-- a statement on words, in place, changes one word of the destination -/
theorem step_word {l d : Nat} (hl : d ≠ l) (w : Nat) (op : Op) (x y : Nat) (p : List Ins) (v : View (Nat → K)) (B : Nat → K) :
    runView (act l d d) (⟨.word w op x y, 0, 0, 0⟩ :: p) () (Function.update v d B) =
      runView (act l d d) p () (Function.update v d (Function.update B w (op.app (B w) (v l x * B y)))) := by
  have : (act l d d ⟨.word w op x y, 0, 0, 0⟩ () (Function.update v d B)).2 =
      Function.update v d (Function.update B w (op.app (B w) (v l x * B y))) := by
    funext f j
    by_cases hf : f = d
    · subst hf
      simp only [act, Function.update_self, Function.update_of_ne hl.symm, Ins.at, Stm.at, Nat.zero_le, if_true, Nat.zero_add, Nat.sub_zero]
      by_cases hj : j = w
      · subst hj; simp
      · simp [hj]
    · simp [act, hf]
  rw [runView, this]

/-- the statements for the first component -/
def firstComponent : List Ins := (mv.take 12).map fun s => ⟨s, 0, 0, 0⟩

/-- what the loop makes of the first component when the destination is the right operand -/
theorem in_place_word {l d : Nat} (hl : d ≠ l) (f : Form) (v : View (Nat → K)) :
    (runView (act l d d) ((evalCalls f).flatMap Call.ins) () v).2 d 1 =
      (v l 0 * v d 1 + v l 1 * ((v l 0 * v d 0 - v l 1 * v d 1) + (v l 2 * v d 2 - v l 3 * v d 3) + (v l 4 * v d 4 - v l 5 * v d 5))) +
        (v l 2 * v d 3 + v l 3 * v d 2) + (v l 4 * v d 5 + v l 5 * v d 4) := by
  have hc : (evalCalls f).flatMap Call.ins = firstComponent ++ (orderedCalls.flatMap Call.ins).drop 12 := by
    cases f <;> rfl
  rw [hc, runView_append, keep_word (j := 1) ((orderedCalls.flatMap Call.ins).drop 12) (by decide)]
  have hv : v = Function.update v d (v d) := by simp
  conv_lhs => rw [hv]
  show (runView (act l d d) [⟨.word 0 .set 0 0, 0, 0, 0⟩, ⟨.word 0 .sub 1 1, 0, 0, 0⟩, ⟨.word 0 .add 2 2, 0, 0, 0⟩, ⟨.word 0 .sub 3 3, 0, 0, 0⟩,
    ⟨.word 0 .add 4 4, 0, 0, 0⟩, ⟨.word 0 .sub 5 5, 0, 0, 0⟩, ⟨.word 1 .set 0 1, 0, 0, 0⟩, ⟨.word 1 .add 1 0, 0, 0, 0⟩, ⟨.word 1 .add 2 3, 0, 0, 0⟩,
    ⟨.word 1 .add 3 2, 0, 0, 0⟩, ⟨.word 1 .add 4 5, 0, 0, 0⟩, ⟨.word 1 .add 5 4, 0, 0, 0⟩] () (Function.update v d (v d))).2 d 1 = _
  generalize v d = B
  generalize hA : v l = A
  iterate 12 rw [step_word hl, hA]; simp [Op.app]
  simp [runView]
  ring

/-- C68 refuted for `h = u * h`: on every subset, with every number of threads and in every execution, the imaginary part of the first component
differs from that of the product by the imaginary part of u(0,0) times the change of the real part -/
theorem C68_in_place {l d : Nat} (hl : d ≠ l) {col : List Nat} {cb : Nat} {sub : Sub} (hsub : makeSub col cb = ok sub) {T : Nat}
    (hT : 0 < T) (hov : col.length * T < 2 ^ 31) (h : Interleave.Heap (Nat → K)) :
    (∃ s, HalfReaches l d d (Form.of sub) col.length T h s ∧ Interleave.Done s) ∧
    ∀ s, HalfReaches l d d (Form.of sub) col.length T h s → Interleave.Done s → ∀ i, col[i]? = some cb →
      let u := obj colorMatrix (h l i)
      let p := Site.mul (.sv .spin 1 (.mv .color 2 .cc)) u (obj halfFermion (h d i))
      (obj halfFermion (s.heap d i) 0 0).im = (p 0 0).im + (u 0 0).im * ((p 0 0).re - (obj halfFermion (h d i) 0 0).re) := by
  obtain ⟨h1, h2⟩ := subset_correct (act := act (K := K) l d d) ((evalCalls (Form.of sub)).flatMap Call.ins) (fun _ _ _ => rfl) hsub hT hov
    (fun _ => ()) () h
  refine ⟨h1, fun s hs hd i hi => ?_⟩
  obtain ⟨a, b⟩ := (h2 s hs).2 hd
  have e : s.heap d i = _ := congrFun (a i hi) d
  intro u p
  have e1 : (obj halfFermion (s.heap d i) 0 0).im = s.heap d i 1 := rfl
  rw [e1, e, in_place_word hl (Form.of sub) _]
  simp [u, p, obj, mul, accum, size, add, Fin.foldl_succ_last]
  ring

/-- the statement `h = u * h` with u = i at every site, on the field that is 1 in its first component: the result is 0 there instead of i -/
theorem C68_in_place_wrong {col : List Nat} {cb : Nat} {sub : Sub} (hsub : makeSub col cb = ok sub) {T : Nat} (hT : 0 < T)
    (hov : col.length * T < 2 ^ 31) {i : Nat} (hi : col[i]? = some cb) [Nontrivial K] :
    ∃ (h : Interleave.Heap (Nat → K)) (s : _), HalfReaches 0 1 1 (Form.of sub) col.length T h s ∧ Interleave.Done s ∧
      obj halfFermion (s.heap 1 i) ≠ Site.mul (.sv .spin 1 (.mv .color 2 .cc)) (obj colorMatrix (h 0 i)) (obj halfFermion (h 1 i)) := by
  let h : Interleave.Heap (Nat → K) := fun f _ k => if f = 0 then (if k = 1 ∨ k = 9 ∨ k = 17 then 1 else 0) else (if k = 0 then 1 else 0)
  obtain ⟨⟨s, hs, hd⟩, h2⟩ := C68_in_place (l := 0) (d := 1) (by decide) hsub hT hov h
  refine ⟨h, s, hs, hd, fun hc => ?_⟩
  have := h2 s hs hd i hi
  rw [hc] at this
  simp [h, obj, mul, accum, size, add, Fin.foldl_succ_last] at this

/-- a subset with a site -/
example : ∃ sub, makeSub [0, 1, 0] 1 = ok sub ∧ [0, 1, 0][1]? = some 1 := by
  obtain ⟨s, h, _⟩ := makeSub_eq [0, 1, 0] 1
  exact ⟨s, h, rfl⟩

end
end Verif.Su3
