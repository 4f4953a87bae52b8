import Verif.FusedSpin
import Mathlib.Tactic.IntervalCases
/-
Property C122: the products evaluated in one pass are those of the separate functions.
-/
set_option linter.unusedVariables false
set_option maxHeartbeats 1000000
namespace Verif.FusedSpin
open Verif Outcome Verif.Spin Verif.SiteLoop Verif.Blas Verif.Subset Verif.Dispatch
open Verif.Su3 (Call mv av)

section
variable {K : Type} [CommRing K]

theorem runView_append {W I L : Type} {ac : I → L → View W → L × View W} : ∀ (p q : List I) (l : L) (v : View W),
    runView ac (p ++ q) l v = runView ac q (runView ac p l v).1 (runView ac p l v).2
  | [], q, l, v => rfl
  | x :: p, q, l, v => by simp only [List.cons_append, runView]; exact runView_append p q _ _

/-! ### projection -/

theorem run_loads (u a d : Nat) (v : View (Nat → K)) : ∀ (ks : List (Fin 24)) (l : PLoc K),
    runView (pAct u a d) (ks.map .load) l v = ((fun k => if k ∈ ks then v a k.val else l.1 k, l.2), v)
  | [], l => by simp [runView]
  | k :: ks, l => by
      rw [List.map_cons, runView]
      simp only [pAct]
      rw [run_loads u a d v ks]
      ext x
      · simp only [List.mem_cons, Function.update_apply]
        by_cases h1 : x ∈ ks <;> by_cases h2 : x = k <;> simp_all
      · rfl
      · rfl

/-- what the stores leave -/
def projTmp (t : Fin 4 → Src × Src) (s : Nat → K) (j : Fin 12) : K :=
  let e := t ⟨2 * (j.val / 6) + j.val % 2, by omega⟩
  plus (s (place e.1 (j.val % 6 / 2))) s e.2 (j.val % 6 / 2)

theorem run_stores (u a d : Nat) (t : Fin 4 → Src × Src) (l : PLoc K) (v : View (Nat → K)) :
    runView (pAct u a d) (projStores t) l v = ((l.1, projTmp t (ext l.1)), v) := by
  simp only [projStores, runView, pAct]
  refine Prod.ext (Prod.ext rfl ?_) rfl
  funext j
  fin_cases j <;> rfl

theorem run_muls (u a d : Nat) (hu : d ≠ u) : ∀ (p : List Su3.Ins) (l : PLoc K) (v : View (Nat → K)),
    runView (pAct u a d) (p.map .mul) l v =
      (l, Function.update v d fun j => p.foldl (fun old x => x.at (v u) (ext l.2) old j) (v d j))
  | [], l, v => by simp [runView]
  | x :: p, l, v => by
      rw [List.map_cons, runView]
      simp only [pAct]
      rw [run_muls u a d hu p]
      simp only [Function.update_self, Function.update_of_ne hu.symm, Function.update_idem, List.foldl_cons]

/-- the body of the loop -/
theorem run_proj (u a d : Nat) (hu : d ≠ u) (f : Fin 8) (l : PLoc K) (v : View (Nat → K)) :
    (runView (pAct u a d) (projBody f) l v).2 = Function.update v d fun j =>
      (projCalls.flatMap Call.ins).foldl (fun old x => x.at (v u) (ext (projTmp (inProjT f) (ext fun k : Fin 24 => v a k.val))) old j) (v d j) := by
  unfold projBody
  rw [runView_append, runView_append, run_loads]
  simp only [List.mem_finRange, if_true]
  rw [run_stores, run_muls _ _ _ hu]

theorem projTmp_spinor (f : Fin 8) (w : Nat → K) : spinor 2 (ext (projTmp (inProjT f) (ext fun k : Fin 24 => w k.val))) = proj f (spinor 4 w) := by
  funext s c
  fin_cases f <;> fin_cases s <;> fin_cases c <;>
    simp [spinor, ext, projTmp, plus, place, inProjT, proj, projT, Ph.addTo, Cpt.timesI, sub_eq_add_neg, Fin.castLE]

/-- a product of the macro with the adjoint -/
theorem av_spinor (A B g : Nat → K) (c : Fin 3) :
    (av.foldl (fun old x => x.at A B old (2 * c.val)) (g (2 * c.val)), av.foldl (fun old x => x.at A B old (2 * c.val + 1)) (g (2 * c.val + 1))) =
      times (dag (link A)) (fun k => (B (2 * k.val), B (2 * k.val + 1))) c := by
  fin_cases c <;> simp [av, Su3.Stm.at, Su3.Op.app, times, dag, conj, cmul, link, Fin.sum_univ_three] <;> constructor <;> ring

theorem mv_spinor (A B g : Nat → K) (c : Fin 3) :
    (mv.foldl (fun old x => x.at A B old (2 * c.val)) (g (2 * c.val)), mv.foldl (fun old x => x.at A B old (2 * c.val + 1)) (g (2 * c.val + 1))) =
      times (link A) (fun k => (B (2 * k.val), B (2 * k.val + 1))) c := by
  fin_cases c <;> simp [mv, Su3.Stm.at, Su3.Op.app, times, cmul, link, Fin.sum_univ_three] <;> constructor <;> ring

/-- the two calls of a macro -/
theorem calls_spinor {m : List Su3.Stm} (hm : ∀ s ∈ m, s.Below 6) {U : Fin 3 → Fin 3 → K × K} {A : Nat → K}
    (h : ∀ (B g : Nat → K) (c : Fin 3), (m.foldl (fun old x => x.at A B old (2 * c.val)) (g (2 * c.val)),
      m.foldl (fun old x => x.at A B old (2 * c.val + 1)) (g (2 * c.val + 1))) = times U (fun k => (B (2 * k.val), B (2 * k.val + 1))) c)
    (B g : Nat → K) :
    spinor 2 (fun j => (([⟨m, 0, 0, 0⟩, ⟨m, 0, 6, 6⟩] : List Call).flatMap Call.ins).foldl (fun old x => x.at A B old j) (g j)) =
      fun a => times U (spinor 2 B a) := by
  funext s c
  have e : ([⟨m, 0, 0, 0⟩, ⟨m, 0, 6, 6⟩] : List Call) = Su3.spinCalls m 2 := rfl
  have w := fun k hk => Su3.spin_word hm A B g s.val k hk 2
  simp only [s.isLt, if_true] at w
  have w0 := w (2 * c.val) (by omega)
  have w1 := w (2 * c.val + 1) (by omega)
  have := h (fun k => B (6 * s.val + k)) (fun k => g (6 * s.val + k)) c
  simp only [spinor, e]
  rw [w0, Nat.add_assoc, w1, this]
  rfl

theorem proj_spinor (f : Fin 8) (A b g : Nat → K) :
    spinor 2 (fun j => (projCalls.flatMap Call.ins).foldl (fun old x => x.at A (ext (projTmp (inProjT f) (ext fun k : Fin 24 => b k.val))) old j) (g j)) =
      fun s => times (dag (link A)) (proj f (spinor 4 b) s) := by
  unfold projCalls
  rw [calls_spinor Su3.av_below (fun B g c => av_spinor A B g c), projTmp_spinor]

theorem projNames (e : Fin 8) (F : Form) : projProg e F = projBody e := by
  cases F <;> fin_cases e <;> rfl

/-- the states of `d[subset] = adj(u) * spinProjectDir±(a)` for the fields number `u`, `a`, `d` and `T` threads; `l0` is what their local variables hold before -/
def ProjReaches (u a d : Nat) (e : Fin 8) (sub : Sub) (N T : Nat) (l0 : Nat → PLoc K) (h : Interleave.Heap (Nat → K))
    (s : Interleave.St (Nat → K) (Nat × PIns) (PLoc K)) : Prop :=
  Reaches (pAct u a d) (projProg e (Form.of sub)) (Form.of sub) N T l0 h s

/-- C122: `d[subset] = adj(u) * spinProjectDir±(a)` assigns, on the sites of the subset, the adjoint of the link times the projected spinor, and
nothing else; for every number of threads and in every interleaving -/
theorem C122_project {u a d : Nat} (hu : d ≠ u) (e : Fin 8) {col : List Nat} {cb : Nat} {sub : Sub} (hsub : makeSub col cb = ok sub)
    {T : Nat} (hT : 0 < T) (hov : col.length * T < 2 ^ 31) (l0 : Nat → PLoc K) (h : Interleave.Heap (Nat → K)) :
    (∃ s, ProjReaches u a d e sub col.length T l0 h s ∧ Interleave.Done s) ∧
    ∀ s, ProjReaches u a d e sub col.length T l0 h s → ¬ Interleave.Fault (instr (pAct u a d) col.length) s ∧
      (Interleave.Done s →
        (∀ i, col[i]? = some cb → spinor 2 (s.heap d i) = fun k => times (dag (link (h u i))) (proj e (spinor 4 (h a i)) k)) ∧
        (∀ i, col[i]? ≠ some cb → s.heap d i = h d i) ∧ ∀ f, f ≠ d → s.heap f = h f) := by
  have hind : ∀ (l l' : PLoc K) v, (runView (pAct u a d) (projProg e (Form.of sub)) l v).2 = (runView (pAct u a d) (projProg e (Form.of sub)) l' v).2 := by
    intro l l' v; rw [projNames, run_proj _ _ _ hu, run_proj _ _ _ hu]
  obtain ⟨h1, h2⟩ := subset_correct (act := pAct (K := K) u a d) (projProg e (Form.of sub)) hind hsub hT hov l0 (fun _ => 0, fun _ => 0) h
  refine ⟨h1, fun s hs => ⟨(h2 s hs).1, fun hd => ?_⟩⟩
  obtain ⟨A, B⟩ := (h2 s hs).2 hd
  simp only [projNames, run_proj _ _ _ hu] at A
  refine ⟨fun i hi => ?_, fun i hi => B i hi d, fun f hf => ?_⟩
  · have := congrFun (A i hi) d
    simp only [Function.update_self] at this
    rw [this]
    exact proj_spinor e (h u i) (h a i) (h d i)
  · funext i
    by_cases hi : col[i]? = some cb
    · have := congrFun (A i hi) f
      rwa [Function.update_of_ne hf] at this
    · exact B i hi f

/-! ### reconstruction -/

theorem run_rmuls (u a d : Nat) (v : View (Nat → K)) : ∀ (p : List Su3.Ins) (l : RLoc K),
    runView (rAct u a d) (p.map .mul) l v = ((fun j => p.foldl (fun old x => x.at (v u) (v a) old j.val) (l.1 j), l.2), v)
  | [], l => rfl
  | x :: p, l => by
      rw [List.map_cons, runView]
      simp only [rAct]
      rw [run_rmuls u a d v p]
      rfl

theorem run_rloads (u a d : Nat) (v : View (Nat → K)) : ∀ (ks : List (Fin 12)) (l : RLoc K),
    runView (rAct u a d) (ks.map .load) l v = ((l.1, fun k => if k ∈ ks then l.1 k else l.2 k), v)
  | [], l => by simp [runView]
  | k :: ks, l => by
      rw [List.map_cons, runView]
      simp only [rAct]
      rw [run_rloads u a d v ks]
      ext x
      · rfl
      · simp only [List.mem_cons, Function.update_apply]
        by_cases h1 : x ∈ ks <;> by_cases h2 : x = k <;> simp_all
      · rfl

theorem run_low (u a d : Nat) (add : Bool) (l : RLoc K) : ∀ (js : List (Fin 12)) (hn : js.Nodup) (v : View (Nat → K)),
    runView (rAct u a d) (js.map (.low add)) l v =
      (l, Function.update v d fun k => if h : k < 12 then (if (⟨k, h⟩ : Fin 12) ∈ js then put add (v d k) (l.2 ⟨k, h⟩) else v d k) else v d k)
  | [], _, v => by simp [runView]
  | j :: js, hn, v => by
      rw [List.nodup_cons] at hn
      rw [List.map_cons, runView]
      simp only [rAct]
      rw [run_low u a d add l js hn.2]
      simp only [Function.update_self, Function.update_idem]
      congr 2
      funext k
      by_cases hk : k < 12
      · simp only [hk, dif_pos, List.mem_cons]
        by_cases h2 : k = j.val
        · subst h2
          simp [hn.1]
        · have h3 : (⟨k, hk⟩ : Fin 12) ≠ j := fun e => h2 (by rw [← e])
          simp [Function.update_apply, h2, h3]
      · simp only [hk, dif_neg, not_false_iff]
        rw [Function.update_of_ne]
        omega

/-- what the stores to the last spin components leave -/
def highWord (add : Bool) (t : Fin 4 → Src) (s : Nat → K) (old : Nat → K) (k : Nat) : K :=
  if k < 12 then old k else if k < 24 then
    (let e := t ⟨(2 * (k / 6 - 2) + k % 2) % 4, by omega⟩
     if add then plus (old k) s e (k % 6 / 2) else if e.minus then -s (place e (k % 6 / 2)) else s (place e (k % 6 / 2)))
  else old k

theorem run_high (u a d : Nat) (add : Bool) (t : Fin 4 → Src) (l : RLoc K) (v : View (Nat → K)) :
    runView (rAct u a d) (highStores add t) l v = (l, Function.update v d (highWord add t (ext l.2) (v d))) := by
  simp only [highStores, runView, rAct, Function.update_self, Function.update_idem]
  congr 2
  funext k
  unfold highWord
  by_cases h1 : k < 12
  · simp only [h1, if_true]
    repeat rw [Function.update_of_ne (by simp; omega)]
  · by_cases h2 : k < 24
    · simp only [h1, h2, if_false, if_true]
      interval_cases k <;> simp [Function.update_apply] <;> rfl
    · simp only [h1, h2, if_false]
      repeat rw [Function.update_of_ne (by simp; omega)]

/-- the half spinor in between: the product -/
def reconTmp (A B : Nat → K) (g : Fin 12 → K) : Fin 12 → K := fun j =>
  (reconCalls.flatMap Call.ins).foldl (fun old x => x.at A B old j.val) (g j)

/-- what is left at a site -/
def reconWord (add : Bool) (t : Fin 4 → Src) (s : Fin 12 → K) (old : Nat → K) : Nat → K :=
  highWord add t (ext s) fun k => if h : k < 12 then put add (old k) (s ⟨k, h⟩) else old k

theorem run_recon (u a d : Nat) (add : Bool) (f : Fin 8) (l : RLoc K) (v : View (Nat → K)) :
    (runView (rAct u a d) (reconBody add f) l v).2 = Function.update v d
      (reconWord add ((if add then inAddReconT else inReconT) f) (reconTmp (v u) (v a) l.1) (v d)) := by
  unfold reconBody
  rw [runView_append, runView_append, runView_append, run_rmuls, run_rloads, run_low _ _ _ _ _ _ (List.nodup_finRange 12), run_high]
  simp only [List.mem_finRange, if_true, Function.update_self, Function.update_idem]
  rfl

/-- the product is a product -/
theorem reconTmp_spinor (A B : Nat → K) (g : Fin 12 → K) : spinor 2 (ext (reconTmp A B g)) = fun k => times (link A) (spinor 2 B k) := by
  rw [← calls_spinor Su3.mv_below (fun B g c => mv_spinor A B g c) B (ext g)]
  funext s c
  have h1 : 6 * s.val + 2 * c.val < 12 := by omega
  have h2 : 6 * s.val + 2 * c.val + 1 < 12 := by omega
  simp only [spinor, ext, h1, h2, dif_pos, reconTmp]
  rfl

/-- twelve words are a half spinor -/
theorem ext_eq {s t : Fin 12 → K} (h : spinor 2 (ext s) = spinor 2 (ext t)) : s = t := by
  funext j
  have := congrFun (congrFun h ⟨j.val / 6, by omega⟩) ⟨j.val % 6 / 2, by omega⟩
  simp only [spinor, Prod.mk.injEq] at this
  have hj := j.isLt
  rcases Nat.mod_two_eq_zero_or_one j.val with e | e
  · have e1 : 6 * (j.val / 6) + 2 * (j.val % 6 / 2) = j.val := by omega
    have := this.1
    rw [e1] at this
    simpa [ext] using this
  · have e1 : 6 * (j.val / 6) + 2 * (j.val % 6 / 2) + 1 = j.val := by omega
    have := this.2
    rw [e1] at this
    simpa [ext] using this

/-- the product does not depend on what the local variable held -/
theorem reconTmp_ind (A B : Nat → K) (g g' : Fin 12 → K) : reconTmp A B g = reconTmp A B g' :=
  ext_eq (by rw [reconTmp_spinor, reconTmp_spinor])

theorem reconWord_spinor (f : Fin 8) (s : Fin 12 → K) (old : Nat → K) : spinor 4 (reconWord false (inReconT f) s old) = recon f (spinor 2 (ext s)) := by
  funext a c
  fin_cases f <;> fin_cases a <;> fin_cases c <;>
    simp [spinor, ext, reconWord, highWord, put, place, inReconT, recon, reconT, Ph.app, Cpt.timesI, Cpt.timesMinusI]

theorem addWord_spinor (f : Fin 8) (s : Fin 12 → K) (old : Nat → K) :
    spinor 4 (reconWord true (inAddReconT f) s old) = spinor 4 old + recon f (spinor 2 (ext s)) := by
  funext a c
  fin_cases f <;> fin_cases a <;> fin_cases c <;>
    simp [spinor, ext, reconWord, highWord, put, plus, place, inAddReconT, recon, reconT, Ph.app, Cpt.timesI, Cpt.timesMinusI, sub_eq_add_neg]

theorem reconNames (add : Bool) (e : Fin 8) (F : Form) : reconProg add e F = reconBody add e := by
  cases add <;> cases F <;> fin_cases e <;> rfl

/-- the states of `d[subset] = spinReconstructDir±(u * a)`, or `+=` if `add` -/
def ReconReaches (u a d : Nat) (add : Bool) (e : Fin 8) (sub : Sub) (N T : Nat) (l0 : Nat → RLoc K) (h : Interleave.Heap (Nat → K))
    (s : Interleave.St (Nat → K) (Nat × RIns) (RLoc K)) : Prop :=
  Reaches (rAct u a d) (reconProg add e (Form.of sub)) (Form.of sub) N T l0 h s

/-- C122: `d[subset] = spinReconstructDir±(u * a)` assigns, and `+=` adds, on the sites of the subset, the spinor reconstructed from the link times the
half spinor, and nothing else; for every number of threads and in every interleaving -/
theorem C122_reconstruct {u a d : Nat} (add : Bool) (e : Fin 8) {col : List Nat} {cb : Nat} {sub : Sub} (hsub : makeSub col cb = ok sub)
    {T : Nat} (hT : 0 < T) (hov : col.length * T < 2 ^ 31) (l0 : Nat → RLoc K) (h : Interleave.Heap (Nat → K)) :
    (∃ s, ReconReaches u a d add e sub col.length T l0 h s ∧ Interleave.Done s) ∧
    ∀ s, ReconReaches u a d add e sub col.length T l0 h s → ¬ Interleave.Fault (instr (rAct u a d) col.length) s ∧
      (Interleave.Done s →
        (∀ i, col[i]? = some cb → spinor 4 (s.heap d i) =
          (if add then spinor 4 (h d i) else 0) + recon e fun k => times (link (h u i)) (spinor 2 (h a i) k)) ∧
        (∀ i, col[i]? ≠ some cb → s.heap d i = h d i) ∧ ∀ f, f ≠ d → s.heap f = h f) := by
  have hind : ∀ (l l' : RLoc K) v, (runView (rAct u a d) (reconProg add e (Form.of sub)) l v).2 = (runView (rAct u a d) (reconProg add e (Form.of sub)) l' v).2 := by
    intro l l' v; rw [reconNames, run_recon, run_recon, reconTmp_ind _ _ l.1 l'.1]
  obtain ⟨h1, h2⟩ := subset_correct (act := rAct (K := K) u a d) (reconProg add e (Form.of sub)) hind hsub hT hov l0 (fun _ => 0, fun _ => 0) h
  refine ⟨h1, fun s hs => ⟨(h2 s hs).1, fun hd => ?_⟩⟩
  obtain ⟨A, B⟩ := (h2 s hs).2 hd
  simp only [reconNames, run_recon] at A
  refine ⟨fun i hi => ?_, fun i hi => B i hi d, fun f hf => ?_⟩
  · have := congrFun (A i hi) d
    simp only [Function.update_self] at this
    rw [this]
    cases add
    · simp only [Bool.false_eq_true, if_false]
      rw [reconWord_spinor, reconTmp_spinor, zero_add]
    · simp only [if_true]
      rw [addWord_spinor, reconTmp_spinor]
  · funext i
    by_cases hi : col[i]? = some cb
    · have := congrFun (A i hi) f
      rwa [Function.update_of_ne hf] at this
    · exact B i hi f

/-- C122: the functions for one object -/
theorem C122_object (e : Fin 8) (a b g : Nat → K) (l : PLoc K) (l' : RLoc K) :
    spinor 2 (projObj e a b l g) = (fun k => times (dag (link a)) (proj e (spinor 4 b) k)) ∧
    spinor 4 (reconObj e a b l' g) = recon e fun k => times (link a) (spinor 2 b k) := by
  have e1 : projOne (projNode e) = e := by fin_cases e <;> rfl
  have e2 : reconOne (reconNode e) = e := by fin_cases e <;> rfl
  constructor
  · unfold projObj
    rw [e1, run_proj 0 1 2 (by decide)]
    simp only [Function.update_self]
    exact proj_spinor e a b g
  · unfold reconObj
    rw [e2, run_recon 0 1 2]
    simp only [Function.update_self, Bool.false_eq_true, if_false]
    rw [reconWord_spinor, reconTmp_spinor]
    rfl

/-! ### what they are used for -/

theorem times_add (U : Fin 3 → Fin 3 → K × K) (x y : ColVec K) : times U (x + y) = times U x + times U y := by
  funext i
  simp only [times, Pi.add_apply, ← Finset.sum_add_distrib]
  refine Finset.sum_congr rfl fun j _ => ?_
  ext <;> simp [cmul] <;> ring

theorem times_I (U : Fin 3 → Fin 3 → K × K) (x : ColVec K) : times U (Cpt.timesI x) = Cpt.timesI (times U x) := by
  funext i
  show times U (Cpt.timesI x) i = Cpt.timesI (times U x i)
  rw [times, times, timesI_sum]
  refine Finset.sum_congr rfl fun j _ => ?_
  ext <;> simp [cmul, Cpt.timesI] <;> ring

/-- C122: one direction of the hopping term.  `chi[subset] = adj(u) * spinProjectDir±(psi)` and then `d[subset] = spinReconstructDir±(w * chi)`, or `+=`,
give (add) `w adj(u) (1 ± gamma_mu) psi` -/
theorem C122_hop {u w a b d : Nat} (hu : b ≠ u) (hw : b ≠ w) (hd : b ≠ d) (add : Bool) (e : Fin 8) {col : List Nat} {cb : Nat} {sub : Sub}
    (hsub : makeSub col cb = ok sub) {T : Nat} (hT : 0 < T) (hov : col.length * T < 2 ^ 31) (l0 : Nat → PLoc K) (l1 : Nat → RLoc K)
    (h : Interleave.Heap (Nat → K)) {s : Interleave.St (Nat → K) (Nat × PIns) (PLoc K)} {s' : Interleave.St (Nat → K) (Nat × RIns) (RLoc K)}
    (r1 : ProjReaches u a b e sub col.length T l0 h s) (d1 : Interleave.Done s)
    (r2 : ReconReaches w b d add e sub col.length T l1 s.heap s') (d2 : Interleave.Done s') (i : Nat) (hi : col[i]? = some cb) :
    spinor 4 (s'.heap d i) = (if add then spinor 4 (h d i) else 0) +
      fun k => times (link (h w i)) (times (dag (link (h u i))) (mulVec (onePM e) (spinor 4 (h a i)) k)) := by
  obtain ⟨A, -, C⟩ := ((C122_project hu e hsub hT hov l0 h).2 s r1).2 d1
  obtain ⟨A', -, -⟩ := ((C122_reconstruct add e hsub hT hov l1 s.heap).2 s' r2).2 d2
  rw [A' i hi, C w hw.symm, C d hd.symm, A i hi]
  congr 1
  exact C43_link (M := ColVec K) (N := ColVec K)
    ⟨⟨fun x => times (link (h w i)) (times (dag (link (h u i))) x), by
      have := times_add (link (h w i)) (times (dag (link (h u i))) 0) (times (dag (link (h u i))) 0)
      have z : ∀ U : Fin 3 → Fin 3 → K × K, times U 0 = 0 := by
        intro U; have := times_add U 0 0; simpa using this
      rw [z, z]⟩, fun x y => by simp only [times_add]⟩ (fun x => by
        show times _ (times _ (Cpt.timesI x)) = Cpt.timesI (times _ (times _ x))
        rw [times_I, times_I]) e (spinor 4 (h a i))

/-- a case: `u = i`, the spinor with a one in its last component, direction 0 with the upper sign: the half spinor is `adj(i) i = 1` in the first component -/
example : spinor (K := ℤ) 2 (projObj 0 (fun k => if k = 1 ∨ k = 9 ∨ k = 17 then 1 else 0) (fun k => if k = 18 then 1 else 0) (fun _ => 7, fun _ => 7) fun _ => 7) 0 0 =
    (1, 0) := by decide +kernel

end
end Verif.FusedSpin
