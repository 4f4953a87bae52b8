import Verif.SseProps
/-
Theorems about the statements on fields of colour matrices in double precision of the library built for SSE.
-/
set_option linter.unusedVariables false
namespace Verif.Sse
open Verif Outcome Verif.Poly Verif.SiteLoop Verif.Subset Verif.Dispatch Verif.Blas Verif.Su3

section
variable {K : Type} [CommRing K]

/-- the numbers of the variables -/
def env (ι : Nat → Nat) (a : K) (v : View (Nat → K)) (x : Nat) : K := if x < 54 then v (ι (x / 18)) (x % 18) else a

theorem poly_hom (ι : Nat → Nat) (a : K) (v : View (Nat → K)) : NumHom polyNum (ringNum K a) (eval (env ι a v)) where
  hom := eval_hom _
  one := by simp [polyNum, ringNum, eval, evalMono]
  a := by simp only [polyNum, ringNum, eval_var, env]; rw [if_neg (by omega)]

theorem eval_vars (ι : Nat → Nat) (a : K) (v : View (Nat → K)) {f k : Nat} (hf : f < 3) (hk : k < 18) : eval (env ι a v) (vars f k) = v (ι f) k := by
  unfold vars env
  rw [eval_var, if_pos (by omega), show (18 * f + k) / 18 = f by omega, show (18 * f + k) % 18 = k by omega]

theorem range_map_get {α : Type} {n k : Nat} {g : Nat → α} {q : α} (h : ((List.range n).map g)[k]? = some q) : k < n ∧ q = g k := by
  obtain ⟨h1, h2⟩ := List.getElem?_eq_some_iff.1 h
  simp at h1 h2
  exact ⟨h1, h2.symm⟩

theorem varMem_get {f k : Nat} {w : List Pol} {q : Pol} (h : varMem[f]? = some w) (hk : w[k]? = some q) : f < 3 ∧ k < 18 ∧ q = vars f k := by
  obtain ⟨h1, rfl⟩ := range_map_get h
  obtain ⟨h2, rfl⟩ := range_map_get hk
  exact ⟨h1, h2, rfl⟩

theorem ent_congr {V : Type} {A A' : Nat → V} (h : ∀ j, j < 18 → A j = A' j) {i j : Nat} (hi : i < 3) (hj : j < 3) : ent A i j = ent A' i j := by
  unfold ent
  rw [h _ (by omega), h _ (by omega)]

theorem word_congr {V : Type} {o : Ops V} {A A' B B' : Nat → V} (hA : ∀ j, j < 18 → A j = A' j) (hB : ∀ j, j < 18 → B j = B' j) (q : Kind) {k : Nat}
    (hk : k < 18) : q.word o A B k = q.word o A' B' k := by
  have h1 : k / 6 < 3 := by omega
  have h2 : k % 6 / 2 < 3 := by omega
  unfold Kind.word
  congr 1
  have eA : ∀ {i j}, i < 3 → j < 3 → ent A i j = ent A' i j := ent_congr hA
  have eB : ∀ {i j}, i < 3 → j < 3 → ent B i j = ent B' i j := ent_congr hB
  have l0 : (0 : Nat) < 3 := by omega
  have l1 : (1 : Nat) < 3 := by omega
  have l2 : (2 : Nat) < 3 := by omega
  cases q <;> simp only [Kind.entry, Kind.lft, Kind.rgt]
  · rw [eA h1 l0, eA h1 l1, eA h1 l2, eB l0 h2, eB l1 h2, eB l2 h2]
  · rw [eA l0 h1, eA l1 h1, eA l2 h1, eB l0 h2, eB l1 h2, eB l2 h2]
  · rw [eA h1 l0, eA h1 l1, eA h1 l2, eB h2 l0, eB h2 l1, eB h2 l2]
  · rw [eA l0 h1, eA l1 h1, eA l2 h1, eB h2 l0, eB h2 l1, eB h2 l2]

theorem newWord_congr {V : Type} {n : Num V} {D D' A A' B B' : Nat → V} (hD : ∀ j, j < 18 → D j = D' j) (hA : ∀ j, j < 18 → A j = A' j)
    (hB : ∀ j, j < 18 → B j = B' j) (q : Kind) (op : Asg) {k : Nat} (hk : k < 18) : newWord q op n D A B k = newWord q op n D' A' B' k := by
  cases op <;> simp only [newWord, hD k hk, word_congr hA hB q hk]

/-- the registers set before the loop of a kernel with a factor -/
theorem pre_scalar (a : K) {x : Nat} (hx : x ≠ 0) (before : Nat → K × K) :
    preRegs (ringNum K a) [.sd 0, .zero x, .shuf x (.v 0) (.v 0) 1, .add 0 (.v 0) (.v x)] before 0 = (a, a) := by
  simp [preRegs, act, Ins.res, getReg, pick, ringNum, ringOps, Function.update, hx.symm]

theorem kern_pre (q : Kind) {op : Asg} (h : op ≠ .set) (a : K) (before : Nat → K × K) : preRegs (ringNum K a) (kern q op).pre before 0 = (a, a) := by
  cases op
  · simp at h
  all_goals cases q <;> exact pre_scalar a (by decide) before

theorem stores_mem {p : List Ins} (h : storesOk p = true) {q k : Nat} {a : Reg} (hm : Ins.st q k a ∈ p) : q = 0 ∧ k + 1 < 18 := by
  unfold storesOk at h
  rw [List.all_eq_true] at h
  have := h _ hm
  simp only [Bool.and_eq_true, beq_iff_eq] at this
  exact ⟨this.1, Nat.le_of_ble_eq_true this.2⟩

/-- what a kernel leaves: new words in the destination, everything else unchanged -/
def after (d : Nat) (w : Nat → K) (v : View (Nat → K)) : View (Nat → K) := Function.update v d fun k => if k < 18 then w k else v d k

theorem run_after {cs : Nat → K × K} {fld : Nat → Nat} {p : List Ins} (hst : storesOk p = true) {n : Num K} {l : Nat → K × K} {v : View (Nat → K)} {w : Nat → K}
    (h : ∀ k, k < 18 → (runView (act n cs fld) p l v).2 (fld 0) k = w k) : (runView (act n cs fld) p l v).2 = after (fld 0) w v := by
  funext g
  by_cases hg : g = fld 0
  · subst hg
    unfold after
    rw [Function.update_self]
    funext k
    by_cases hk : k < 18
    · rw [if_pos hk, h k hk]
    · rw [if_neg hk]
      refine run_above p (fun q j a hm => ?_) l v
      have := (stores_mem hst hm).2
      omega
  · unfold after
    rw [Function.update_of_ne hg]
    refine run_frame p (fun q j a hm => ?_) l v
    rw [(stores_mem hst hm).1]
    exact Ne.symm hg

/-- a kernel checked with polynomials -/
theorem kernel_run {σ ι : Nat → Nat} (hσ : ∀ p, p < 3 → σ p < 3) (hι : ∀ f, f < 3 → f ≠ σ 0 → ι f ≠ ι (σ 0)) {cs : Nat → K × K} {a : K} (hcs : cs 0 = (a, a))
    {p : List Ins} {q : Kind} {op : Asg} (hst : storesOk p = true) (e : Sym.result polyNum σ p varMem = some (expected q op σ)) (l : Nat → K × K)
    (v : View (Nat → K)) : (runView (act (ringNum K a) cs fun p => ι (σ p)) p l v).2 =
      after (ι (σ 0)) (newWord q op (ringNum K a) (v (ι (σ 0))) (v (ι (σ 1))) (v (ι (σ 2)))) v := by
  refine run_after (fld := fun p => ι (σ p)) hst fun k hk => ?_
  have hR : (expected q op σ)[k]? = some (newWord q op polyNum (vars (σ 0)) (vars (σ 1)) (vars (σ 2)) k) := by
    unfold expected
    rw [List.getElem?_map, List.getElem?_range hk]; rfl
  rw [run_result (poly_hom ι a v) hι hcs (show varMem.length ≤ 3 by decide) e l ?_ hR, newWord_hom (poly_hom ι a v)]
  · exact newWord_congr (fun j hj => eval_vars ι a v (hσ 0 (by omega)) hj) (fun j hj => eval_vars ι a v (hσ 1 (by omega)) hj)
      (fun j hj => eval_vars ι a v (hσ 2 (by omega)) hj) q op hk
  · intro f w k q hf hw
    obtain ⟨h1, h2, rfl⟩ := varMem_get hf hw
    rw [eval_vars ι a v h1 h2]

theorem kernel_run1 {σ ι : Nat → Nat} (hσ : ∀ p, p < 3 → σ p < 3) (hι : ∀ f, f < 3 → f ≠ σ 0 → ι f ≠ ι (σ 0)) {cs : Nat → K × K} {a : K} (hcs : cs 0 = (a, a))
    {p : List Ins} {op : Asg} (hst : storesOk p = true) (e : Sym.result polyNum σ p varMem = some (expected1 op σ)) (l : Nat → K × K)
    (v : View (Nat → K)) : (runView (act (ringNum K a) cs fun p => ι (σ p)) p l v).2 =
      after (ι (σ 0)) (newWord1 op (ringNum K a) (v (ι (σ 0))) (v (ι (σ 1)))) v := by
  refine run_after (fld := fun p => ι (σ p)) hst fun k hk => ?_
  have hR : (expected1 op σ)[k]? = some (newWord1 op polyNum (vars (σ 0)) (vars (σ 1)) k) := by
    unfold expected1
    rw [List.getElem?_map, List.getElem?_range hk]; rfl
  rw [run_result (poly_hom ι a v) hι hcs (show varMem.length ≤ 3 by decide) e l ?_ hR, newWord1_hom (poly_hom ι a v)]
  · cases op <;> simp only [newWord1, eval_vars ι a v (hσ 0 (by omega)) hk, eval_vars ι a v (hσ 1 (by omega)) hk]
  · intro f w k q hf hw
    obtain ⟨h1, h2, rfl⟩ := varMem_get hf hw
    rw [eval_vars ι a v h1 h2]

theorem expected_sub (q : Kind) (σ : Nat → Nat) : expected q .sub σ = expected q .add σ := rfl
theorem newWord_sub (q : Kind) (n : Num K) (D A B : Nat → K) : newWord q .sub n D A B = newWord q .add n D A B := rfl
theorem kern_sub (q : Kind) : kern q .sub = kern q .add := by cases q <;> rfl

theorem fld3_id (d l r : Nat) : fld3 d l r = fun p => fld3 d l r (id p) := rfl
theorem fld3_L (d r : Nat) : fld3 d d r = fun p => fld3 d r r (σL p) := by
  funext p
  unfold fld3 σL
  by_cases h0 : p = 0
  · simp [h0]
  · by_cases h1 : p = 1 <;> simp [h0, h1]

theorem fld3_apart {d l r : Nat} (hl : d ≠ l) (hr : d ≠ r) : ∀ f, f < 3 → f ≠ 0 → fld3 d l r f ≠ fld3 d l r 0 := by
  intro f _ hf
  unfold fld3
  rw [if_neg hf]
  simp only [if_true]
  split
  · exact hl.symm
  · exact hr.symm

/-- one site of `d op product(l, r)` -/
theorem stmt_run {q : Kind} {d l r : Nat} (hs : Safe q d l r) (sse3 : Bool) (op : Asg) (before : Nat → K × K) (lc : Nat → K × K) (v : View (Nat → K)) :
    (runView (actK (kern q op) (factor op) before d l r) ((kern q op).body sse3) lc v).2 =
      after d (newWord q op (ringNum K (factor op)) (v d) (v l) (v r)) v := by
  have hset : ∀ cs : Nat → K × K, cs 0 = (1, 1) → (runView (act (ringNum K 1) cs (fld3 d l r)) ((kern q .set).body sse3) lc v).2 =
      after d (newWord q .set (ringNum K 1) (v d) (v l) (v r)) v := by
    intro cs hcs
    by_cases hl : d = l
    · subst hl
      rw [fld3_L]
      exact kernel_run (σ := σL) (ι := fld3 d r r) (by unfold σL; intro p hp; split <;> omega) (fld3_apart hs.1 hs.1) hcs (kern_stores ..)
        (left_set sse3 q (hs.2 rfl)) lc v
    · exact kernel_run (σ := id) (ι := fld3 d l r) (fun p hp => hp) (fld3_apart hl hs.1) hcs (kern_stores ..) (apart_set sse3 q) lc v
  have hadd : ∀ (a : K) (cs : Nat → K × K), cs 0 = (a, a) → (runView (act (ringNum K a) cs (fld3 d l r)) ((kern q .add).body sse3) lc v).2 =
      after d (newWord q .add (ringNum K a) (v d) (v l) (v r)) v := by
    intro a cs hcs
    by_cases hl : d = l
    · subst hl
      rw [fld3_L]
      exact kernel_run (σ := σL) (ι := fld3 d r r) (by unfold σL; intro p hp; split <;> omega) (fld3_apart hs.1 hs.1) hcs (kern_stores ..)
        (left_add sse3 q (hs.2 rfl)) lc v
    · exact kernel_run (σ := id) (ι := fld3 d l r) (fun p hp => hp) (fld3_apart hl hs.1) hcs (kern_stores ..) (apart_add sse3 q) lc v
  cases op with
  | set =>
    unfold actK
    rw [run_congr (cs' := fun _ => (1, 1)) (set_noC sse3 q)]
    exact hset _ rfl
  | add => exact hadd _ _ (kern_pre q (by simp) _ before)
  | sub =>
    have := hadd (factor .sub) _ (kern_pre q (op := .sub) (by simp) (factor .sub) before)
    rw [newWord_sub, ← this]
    unfold actK
    rw [kern_sub]

/-- one site of `d op l` -/
theorem copy_run (sse3 : Bool) (op : Asg) (d l : Nat) (before : Nat → K × K) (lc : Nat → K × K) (v : View (Nat → K)) :
    (runView (actK (kern1 op) 1 before d l l) ((kern1 op).body sse3) lc v).2 = after d (newWord1 op (ringNum K 1) (v d) (v l)) v := by
  have hrun : ∀ cs : Nat → K × K, cs 0 = (1, 1) → (runView (act (ringNum K 1) cs (fld3 d l l)) ((kern1 op).body sse3) lc v).2 =
      after d (newWord1 op (ringNum K 1) (v d) (v l)) v := by
    intro cs hcs
    by_cases hl : d = l
    · subst hl
      have hf : ∀ p, p < 2 → fld3 d d d p = d := by intro p _; unfold fld3; split <;> (try split) <;> rfl
      have : fld3 d d d = fun p => fld3 d (d + 1) (d + 1) ((fun p => if p ≤ 1 then 0 else 0) p) := by
        funext p; unfold fld3; simp
      have h2 : (fun p : Nat => if p ≤ 1 then 0 else 0) = σA := by funext p; simp [σA]
      rw [this, h2]
      exact kernel_run1 (σ := σA) (ι := fld3 d (d + 1) (d + 1)) (fun p hp => by simp [σA]) (fld3_apart (by omega) (by omega)) hcs (kern1_stores ..)
        (copy_left sse3 op) lc v
    · exact kernel_run1 (σ := id) (ι := fld3 d l l) (fun p hp => hp) (fld3_apart hl hl) hcs (kern1_stores ..) (copy_apart sse3 op) lc v
  unfold actK
  by_cases h : op = .set
  · subst h
    exact hrun _ (pre_scalar 1 (by decide) before)
  · rw [run_congr (cs' := fun _ => (1, 1)) (copy_noC sse3 op h)]
    exact hrun _ rfl

set_option maxHeartbeats 1000000

/-- the words are those of the statement of the generic library -/
theorem newWord_obj (q : Kind) (op : Asg) (D A B : Nat → K) :
    obj colorMatrix (fun k => if k < 18 then newWord q op (ringNum K (factor op)) D A B k else D k) =
      assign op (obj colorMatrix D) (prodSite q (obj colorMatrix A) (obj colorMatrix B)) := by
  funext i j
  cases q <;> cases op <;> fin_cases i <;> fin_cases j <;>
  · simp [obj, newWord, Kind.word, Kind.entry, Kind.lft, Kind.rgt, ent, caddP, cmulP, conjP, pick, ringNum, ringOps, assign, prodSite, factor,
      Site.mul, Site.adjMul, Site.mulAdj, Site.adjMulAdj, Site.accum, Site.add, size, Fin.foldl_succ_last]
    try (first | (constructor <;> ring) | ring)

theorem newWord1_obj (op : Asg) (D A : Nat → K) :
    obj colorMatrix (fun k => if k < 18 then newWord1 op (ringNum K 1) D A k else D k) = assign op (obj colorMatrix D) (obj colorMatrix A) := by
  funext i j
  cases op <;> fin_cases i <;> fin_cases j <;> simp [obj, newWord1, ringNum, ringOps, assign, size]

/-- C81: `d = l*r`, `adj(l)*r`, `l*adj(r)`, `adj(l)*adj(r)`, and the same with `+=` and `-=`, assign what the generic library assigns on the sites of
the subset and nothing else, for every number of threads, every interleaving, and for both versions of the kernels, if the operands are safe.
Missing: `d = l*d` and `d = adj(d)*r` and the like, for which it is false (`C81_in_place`). -/
theorem C81_products_partial {q : Kind} {d l r : Nat} (hs : Safe q d l r) (sse3 : Bool) (op : Asg) {col : List Nat} {cb : Nat} {sub : Sub}
    (hsub : makeSub col cb = ok sub) {T : Nat} (hT : 0 < T) (hov : col.length * T < 2 ^ 31) (before : Nat → K × K) (l0 : Nat → Nat → K × K)
    (h : Interleave.Heap (Nat → K)) :
    (∃ s, StmtReaches sse3 q op d l r (Form.of sub) col.length T before l0 h s ∧ Interleave.Done s) ∧
    ∀ s, StmtReaches sse3 q op d l r (Form.of sub) col.length T before l0 h s →
      ¬ Interleave.Fault (instr (actK (kern q op) (factor op) before d l r) col.length) s ∧
      (Interleave.Done s →
        (∀ i, col[i]? = some cb → obj colorMatrix (s.heap d i) =
          assign op (obj colorMatrix (h d i)) (prodSite q (obj colorMatrix (h l i)) (obj colorMatrix (h r i)))) ∧
        (∀ i, col[i]? ≠ some cb → s.heap d i = h d i) ∧ ∀ f, f ≠ d → s.heap f = h f) := by
  obtain ⟨h1, h2⟩ := subset_correct (act := actK (kern q op) (factor (K := K) op) before d l r) ((kern q op).body sse3)
    (fun a b v => by rw [stmt_run hs, stmt_run hs]) hsub hT hov l0 (fun _ => (0, 0)) h
  refine ⟨h1, fun s hr => ⟨(h2 s hr).1, fun hd => ?_⟩⟩
  obtain ⟨a, b⟩ := (h2 s hr).2 hd
  simp only [stmt_run hs] at a
  refine ⟨fun i hi => ?_, fun i hi => b i hi d, fun f hf => ?_⟩
  · have := congrFun (a i hi) d
    simp only [after, Function.update_self] at this
    rw [this]
    exact newWord_obj q op _ _ _
  · funext i
    by_cases hi : col[i]? = some cb
    · have := congrFun (a i hi) f
      unfold after at this
      rwa [Function.update_of_ne hf] at this
    · exact b i hi f

/-- C81: `d = l`, `d += l`, `d -= l` are right for all operands -/
theorem C81_copies (sse3 : Bool) (op : Asg) (d l : Nat) {col : List Nat} {cb : Nat} {sub : Sub}
    (hsub : makeSub col cb = ok sub) {T : Nat} (hT : 0 < T) (hov : col.length * T < 2 ^ 31) (before : Nat → K × K) (l0 : Nat → Nat → K × K)
    (h : Interleave.Heap (Nat → K)) :
    (∃ s, CopyReaches sse3 op d l (Form.of sub) col.length T before l0 h s ∧ Interleave.Done s) ∧
    ∀ s, CopyReaches sse3 op d l (Form.of sub) col.length T before l0 h s →
      ¬ Interleave.Fault (instr (actK (kern1 op) 1 before d l l) col.length) s ∧
      (Interleave.Done s →
        (∀ i, col[i]? = some cb → obj colorMatrix (s.heap d i) = assign op (obj colorMatrix (h d i)) (obj colorMatrix (h l i))) ∧
        (∀ i, col[i]? ≠ some cb → s.heap d i = h d i) ∧ ∀ f, f ≠ d → s.heap f = h f) := by
  obtain ⟨h1, h2⟩ := subset_correct (act := actK (K := K) (kern1 op) 1 before d l l) ((kern1 op).body sse3)
    (fun a b v => by rw [copy_run, copy_run]) hsub hT hov l0 (fun _ => (0, 0)) h
  refine ⟨h1, fun s hr => ⟨(h2 s hr).1, fun hd => ?_⟩⟩
  obtain ⟨a, b⟩ := (h2 s hr).2 hd
  simp only [copy_run] at a
  refine ⟨fun i hi => ?_, fun i hi => b i hi d, fun f hf => ?_⟩
  · have := congrFun (a i hi) d
    simp only [after, Function.update_self] at this
    rw [this]
    exact newWord1_obj op _ _
  · funext i
    by_cases hi : col[i]? = some cb
    · have := congrFun (a i hi) f
      unfold after at this
      rwa [Function.update_of_ne hf] at this
    · exact b i hi f

/-- C81: the operators on single matrices return the products of the generic library: they store into a new matrix, field 0 here; the operands may
be the same matrix -/
theorem C81_site_operators (sse3 : Bool) (q : Kind) {l r : Nat} (hl : l ≠ 0) (hr : r ≠ 0) (a : K) (before lc : Nat → K × K) (v : View (Nat → K)) :
    let v' := (runView (actK (kernU q) a before 0 l r) ((kernU q).body sse3) lc v).2
    obj colorMatrix (v' 0) = prodSite q (obj colorMatrix (v l)) (obj colorMatrix (v r)) ∧ ∀ f, f ≠ 0 → v' f = v f := by
  intro v'
  have hv : v' = after 0 (newWord q .set (ringNum K a) (v 0) (v l) (v r)) v := by
    show (runView (act (ringNum K a) _ (fld3 0 l r)) _ lc v).2 = _
    rw [run_congr (cs' := fun _ => (a, a)) (setU_noC sse3 q)]
    exact kernel_run (K := K) (σ := id) (ι := fld3 0 l r) (cs := fun _ => (a, a)) (fun p hp => hp) (fld3_apart hl.symm hr.symm) rfl (kernU_stores ..) (apart_u sse3 q) lc v
  rw [hv]
  refine ⟨?_, fun f hf => by unfold after; rw [Function.update_of_ne hf]⟩
  unfold after
  rw [Function.update_self]
  exact newWord_obj q .set (v 0) (v l) (v r)

/-- the first word of the range of a thread: `int index = lo*18`, lib/scalarsite_sse/qdp_scalarsite_linalg_double.cc:38, 276, 517, 617.  The model of the
loop above counts sites and so does not overflow. -/
def index18 (lo : Nat) : Outcome Nat := ckInt (lo * 18)

/-- C81: the index of the first word does not overflow on a node with fewer than 119304648 sites, and does for a range that begins at that site -/
theorem C81_index (lo : Nat) : index18 lo = (if lo < 119304648 then ok (lo * 18) else ub) := by
  unfold index18 ckInt
  by_cases h : lo < 119304648
  · rw [if_pos h, if_pos (by omega)]
  · rw [if_neg h, if_neg (by omega)]

/-! ### the hypotheses can be met -/

example : Safe .mm 1 1 2 := ⟨by decide, fun _ => .inl rfl⟩
example : Safe .hh 0 1 1 := ⟨by decide, fun h => by simp at h⟩
example : ¬ Safe .mm 0 1 0 := fun h => h.1 rfl
example : ¬ Safe .hm 0 0 1 := fun h => by have := h.2 rfl; simp at this
example : ∃ sub, makeSub [0, 1, 0, 0] 0 = ok sub ∧ (Form.of sub).table = [0, 2, 3] := ⟨_, rfl, rfl⟩

/-- i times i in the upper left corner -/
example (v : View (Nat → Int)) (h1 : v 1 = fun k => if k = 1 then 1 else 0) :
    ((obj colorMatrix ((runView (actK (kernU .mm) 0 (fun _ => (0, 0)) 0 1 1) ((kernU .mm).body true) (fun _ => (0, 0)) v).2 0) : Site.Den Int colorMatrix) 0 0).re = -1 := by
  rw [(C81_site_operators true .mm (by decide) (by decide) 0 _ _ v).1, h1]
  rfl

end
end Verif.Sse
