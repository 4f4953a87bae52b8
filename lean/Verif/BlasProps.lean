import Verif.BlasChecks
import Mathlib.Algebra.Field.Rat
/-
The properties of the vector kernels and of the specialisations of `evaluate` that call them.
-/
set_option linter.unusedSectionVars false
namespace Verif.Blas
open Verif Outcome Verif.Poly Verif.Kernel Verif.Subset Verif.Dispatch Verif.Spin Verif.Blas.Tables

/-! ## subsets -/

/-- what `evaluate` takes from a subset describes its sites -/
theorem form_of_makeSub {col : List Nat} {cb : Nat} {s : Sub} (h : makeSub col cb = ok s) : (Form.of s).table = sitesFrom cb col 0 := by
  obtain ⟨s', h', ht, _, h0, h1⟩ := makeSub_eq col cb
  rw [h] at h'
  injection h' with h'
  subst h'
  have htab : s.table.map Int.toNat = sitesFrom cb col 0 := by
    rw [ht, List.map_map]
    conv_rhs => rw [← List.map_id (sitesFrom cb col 0)]
    exact List.map_congr_left fun x _ => by simp
  unfold Form.of
  by_cases ho : s.ordRep = true
  · rw [if_pos ho]
    have hne : s.table ≠ [] := by
      intro hc
      rw [(h0 hc).1] at ho
      simp at ho
    obtain ⟨i1, i2, _⟩ := h1 hne
    have hall := i1.1 ho
    obtain ⟨hst, hsp⟩ := i2 ho
    have hpos : 0 < s.table.length := List.length_pos_iff.2 hne
    have hlast : s.stop = s.start + ((s.table.length - 1 : Nat) : Int) := by
      rw [hsp, List.getLast_eq_getElem, hall _ (by omega), hst]
    have hs0 : 0 ≤ s.start := by
      rw [hst, List.head_eq_getElem]
      have hm : ∀ v ∈ s.table, 0 ≤ v := by
        intro v hv
        rw [ht] at hv
        obtain ⟨x, _, hx⟩ := List.mem_map.1 hv
        rw [← hx]
        exact Int.natCast_nonneg x
      exact hm _ (List.getElem_mem hpos)
    have hn : (s.stop - s.start + 1).toNat = s.table.length := by omega
    simp only [Form.table, hn]
    rw [← htab]
    apply List.ext_getElem
    · simp
    · intro k hk1 hk2
      simp only [List.length_range'] at hk1
      rw [List.getElem_range', List.getElem_map, hall k hk1, ← hst]
      omega
  · rw [if_neg ho]
    exact htab

theorem form_size (f : Form) : f.size = f.table.length := by cases f <;> simp [Form.table, Form.size]

theorem sitesFrom_length_le (cb : Nat) (col : List Nat) : (sitesFrom cb col 0).length ≤ col.length := by
  rw [sitesFrom_length]
  induction col with
  | nil => simp [countSites]
  | cons c cs ih => simp only [countSites, List.length_cons]; split <;> omega

section props
variable {R : Type} [Field R]

/-! ## properties -/

/-- C60: a specialisation whose kernel does not look beyond its arrays: on every subset of every set of `N` sites, with every number of threads and
for all fields (the same field may stand at several places), every execution is free of undefined behaviour, some execution ends, and those that
end have assigned what the statement says -/
theorem C60_tidy {e : Entry} (he : e ∈ tidy) {col : List Nat} {cb : Nat} {sub : Sub} (hsub : makeSub col cb = ok sub) {T : Nat} (hT : 0 < T)
    (hov : col.length * T < 2 ^ 31) (h24 : 24 * col.length < 2 ^ 31) (I : Inst R) (h : Kernel.Heap R) :
    (∃ s, e.Reaches (Form.of sub) col.length T I h s ∧ Interleave.Done s) ∧
    ∀ s, e.Reaches (Form.of sub) col.length T I h s → ¬ Interleave.Fault (e.step (Form.of sub) col.length I) s ∧
      (Interleave.Done s →
        Evaluate.Assigned I.dest e.op.app (sitesFrom cb col 0) (e.rhs.expr I e.cplx []) (spinors h) (spinors s.heap)) := by
  have htab := form_of_makeSub hsub
  have hlen := sitesFrom_length_le cb col
  have hsz : (Form.of sub).size ≤ col.length := by rw [form_size, htab]; exact hlen
  have := entry_correct (tidy_check he (Form.of sub)) (N := col.length) (T := T) hT
    (by rw [htab]; exact (sitesFrom_sorted cb col 0).imp fun hlt => Nat.ne_of_lt hlt)
    (by
      intro i hi
      rw [htab, mem_sitesFrom] at hi
      obtain ⟨_, hi⟩ := hi
      have : i < col.length := by
        by_contra hc
        rw [List.getElem?_eq_none (by omega)] at hi
        simp at hi
      omega)
    (by
      have h1 : active (Form.of sub).size T ≤ T := by unfold active; omega
      calc _ ≤ col.length * T := Nat.mul_le_mul hsz h1
        _ < _ := hov)
    (by omega) I h
  rw [htab] at this
  exact this

/-- C60 for all specialisations, on subsets that leave out the last site of the node.  Missing: the subsets with the last site, for which
it is false (see `C61_last_site`). -/
theorem C60_all_partial {e : Entry} (he : e ∈ entries) {col : List Nat} {cb : Nat} {sub : Sub} (hsub : makeSub col cb = ok sub) {T : Nat} (hT : 0 < T)
    (hov : col.length * T < 2 ^ 31) (h24 : 24 * col.length < 2 ^ 31) (hlast : ∀ i, col[i]? = some cb → i + 1 < col.length) (I : Inst R)
    (h : Kernel.Heap R) :
    (∃ s, e.Reaches (Form.of sub) col.length T I h s ∧ Interleave.Done s) ∧
    ∀ s, e.Reaches (Form.of sub) col.length T I h s → ¬ Interleave.Fault (e.step (Form.of sub) col.length I) s ∧
      (Interleave.Done s →
        Evaluate.Assigned I.dest e.op.app (sitesFrom cb col 0) (e.rhs.expr I e.cplx []) (spinors h) (spinors s.heap)) := by
  by_cases ht : e ∈ tidy
  · exact C60_tidy ht hsub hT hov h24 I h
  have htab := form_of_makeSub hsub
  have hlen := sitesFrom_length_le cb col
  have hsz : (Form.of sub).size ≤ col.length := by rw [form_size, htab]; exact hlen
  have := entry_correct ((untidy_check he ht).1 (Form.of sub)) (N := col.length) (T := T) hT
    (by rw [htab]; exact (sitesFrom_sorted cb col 0).imp fun hlt => Nat.ne_of_lt hlt)
    (by
      intro i hi
      rw [htab, mem_sitesFrom] at hi
      obtain ⟨j, rfl, hi⟩ := hi
      rw [Nat.zero_add]
      have := hlast j hi
      omega)
    (by
      have h1 : active (Form.of sub).size T ≤ T := by unfold active; omega
      calc _ ≤ col.length * T := Nat.mul_le_mul hsz h1
        _ < _ := hov)
    (by omega) I h
  rw [htab] at this
  exact this

theorem expr_noShifted (I : Inst R) (cplx : Bool) (d : Nat) : ∀ (n : Node) (p : Path), Evaluate.NoShifted d (n.expr I cplx p)
  | .vec, _ => trivial
  | .scal, _ => trivial
  | .gamma _, _ => trivial
  | .un _ a, _ => expr_noShifted I cplx d a _
  | .bin _ a b, _ => ⟨expr_noShifted I cplx d a _, expr_noShifted I cplx d b _⟩

/-- C60: the specialisation leaves the same fields as the general `evaluate` would -/
theorem C60_same_as_general {e : Entry} (he : e ∈ tidy) {col : List Nat} {cb : Nat} {sub : Sub} (hsub : makeSub col cb = ok sub) {T T' : Nat}
    (hT : 0 < T) (hT' : 0 < T') (hov : col.length * T < 2 ^ 31) (hov' : col.length * T' < 2 ^ 31) (h24 : 24 * col.length < 2 ^ 31) (I : Inst R)
    (h : Kernel.Heap R) {s : State R} (hs : e.Reaches (Form.of sub) col.length T I h s) (hd : Interleave.Done s) {h' : Evaluate.Heap (Val R)}
    (hg : Evaluate.Evaluates T' I.dest e.op.app (sitesFrom cb col 0) (e.rhs.expr I e.cplx []) (spinors h) h') : spinors s.heap = h' := by
  have h1 := ((C60_tidy he hsub hT hov h24 I h).2 s hs).2 hd
  have hlen := sitesFrom_length_le cb col
  have h2 := Evaluate.C48_assign hT' ((sitesFrom_sorted cb col 0).imp fun hlt => Nat.ne_of_lt hlt)
    (by
      have h1 : active (sitesFrom cb col 0).length T' ≤ T' := by unfold active; omega
      calc _ ≤ col.length * T' := Nat.mul_le_mul hlen h1
        _ < _ := hov') (expr_noShifted I e.cplx I.dest e.rhs []) hg
  exact h1.unique h2

/-- a case: `y += a * y` (the same field twice) on the even sites of four, two threads -/
example (h : Kernel.Heap ℚ) : ∃ sub s, makeSub [0, 1, 0, 1] 0 = ok sub ∧
    e00.Reaches (Form.of sub) 4 2 (⟨0, fun _ => 0, fun _ => (3, 0)⟩ : Inst ℚ) h s ∧ Interleave.Done s ∧
    Evaluate.Assigned 0 Asg.addAssign.app [0, 2] (e00.rhs.expr ⟨0, fun _ => 0, fun _ => (3, 0)⟩ false []) (spinors h) (spinors s.heap) := by
  obtain ⟨sub, hsub, _⟩ := makeSub_eq [0, 1, 0, 1] 0
  have := C60_tidy e00_tidy hsub (T := 2) (by omega) (by decide) (by decide) (⟨0, fun _ => 0, fun _ => (3, 0)⟩ : Inst ℚ) h
  obtain ⟨⟨s, hs, hd⟩, h2⟩ := this
  exact ⟨sub, s, hsub, hs, hd, (h2 s hs).2 hd⟩

end props

/-! ## looking beyond the arrays -/

section pull
variable {R : Type} [Field R]

theorem exec_append_ub {V : Type} {o : Ops V} {s : Nat → V} {c : Call} : ∀ {p q : List Stmt} {l l1 : Loc V} {h h1 : Kernel.Heap V},
    exec o s c p l h = ok (l1, h1) → exec o s c q l1 h1 = ub → exec o s c (p ++ q) l h = ub
  | [], _, l, l1, h, h1, e1, e2 => by
      simp only [exec] at e1
      injection e1 with e1
      injection e1 with a b
      subst a b
      exact e2
  | st :: p, q, l, l1, h, h1, e1, e2 => by
      simp only [exec, List.cons_append] at e1 ⊢
      split at e1
      · exact exec_append_ub e1 e2
      · simp at e1

/-- longer arrays do no harm -/
theorem pstep_mono {V : Type} {o : Ops V} {X Y s : Nat → V} {len slack len' slack' : Nat} (h1 : len ≤ len') (h2 : len + slack ≤ len' + slack')
    {st : Stmt} {l l' : PS V} (h : pstep o X Y s len slack st l = ok l') : pstep o X Y s len' slack' st l = ok l' := by
  cases st with
  | ld r a =>
    cases a <;>
    · simp only [pstep] at h ⊢
      split at h
      · rw [if_pos (by omega)]; exact h
      · simp at h
  | set r e => exact h
  | st e =>
    simp only [pstep] at h ⊢
    split at h
    · split at h
      · rw [if_pos (by omega)]; exact h
      · simp at h
    · simp at h
  | skip a k => cases a <;> exact h
  | pull r a k =>
    cases a <;>
    · simp only [pstep] at h ⊢
      split at h
      · rw [if_pos (by omega)]; exact h
      · simp at h

theorem pexec_mono {V : Type} {o : Ops V} {X Y s : Nat → V} {len slack len' slack' : Nat} (h1 : len ≤ len') (h2 : len + slack ≤ len' + slack') :
    ∀ {p : List Stmt} {l l' : PS V}, pexec o X Y s len slack p l = ok l' → pexec o X Y s len' slack' p l = ok l'
  | [], _, _, h => h
  | st :: p, l, l', h => by
      simp only [pexec] at h ⊢
      split at h
      · next l1 e =>
        rw [pstep_mono h1 h2 e]
        exact pexec_mono h1 h2 h
      · simp at h

/-- with nothing behind the arrays the kernel is undefined, for every number of sites but none, all fields and all numbers -/
theorem pull_ub {K : Kern} (hc : pullCheck K = true) (s : Nat → R) (px py pz base n : Nat) (hn : 0 < n) (h : Kernel.Heap R) :
    exec (ringOps R) s ⟨px, py, pz, base, 24 * n, 0⟩ (K.prog n) K.init h = ub := by
  unfold pullCheck at hc
  simp only [Bool.and_eq_true, beq_iff_eq, List.isEmpty_iff] at hc
  obtain ⟨⟨⟨⟨⟨hrun, hlen⟩, hsub⟩, huy⟩, hpre⟩, hbad⟩ := hc
  have hmul : K.mul = 1 := by have := stride_of_check hrun; rw [hlen] at this; omega
  unfold checkRun at hrun
  simp only at hrun
  rw [hpre, hlen, hsub] at hrun
  simp only [pexec] at hrun
  split at hrun
  · next s1 s2 hb hpost =>
    simp only [Bool.and_eq_true, Bool.or_eq_true, beq_iff_eq, List.isEmpty_iff, Nat.ble_eq] at hrun
    obtain ⟨⟨⟨⟨⟨⟨⟨⟨⟨h1, h2⟩, h3⟩, h4'⟩, h5⟩, h6⟩, h7⟩, h8⟩, h9⟩, h10⟩ := hrun
    have h4 : K.usesY = true → s1.cy = 0 + 24 := by
      intro hy
      rcases h4' with h | h
      · rw [hy] at h; simp at h
      · exact h
    obtain ⟨X, hX⟩ : ∃ X : Nat → R, X = fun i => h px (base + i) := ⟨_, rfl⟩
    obtain ⟨Y, hY⟩ : ∃ Y : Nat → R, Y = fun i => h py (base + i) := ⟨_, rfl⟩
    have hinit : Rel K.usesY X Y s 0 [] (⟨List.replicate K.nreg none, 0, 0, 0, []⟩ : PS Pol) (⟨List.replicate K.nreg none, 0, 0, 0, []⟩ : PS R) := by
      refine ⟨rfl, fun _ => rfl, rfl, rfl, by simp, ?_⟩
      intro r v hv
      simp [List.getElem?_replicate] at hv
    -- the rounds before the last one
    obtain ⟨c1, hc1, R1⟩ := loop_rounds (K := K) (len := 24 * (n - 1)) (slack' := 24) (by omega : 2 ≤ 24)
      (s0 := ⟨List.replicate K.nreg none, 0, 0, 0, []⟩) (s1 := s1) (stride := 24) (by rw [hsub]; exact hb) rfl rfl h3 h4 h5 h6 hinit (n - 1)
      (by rw [hsub]; omega)
    have hc1' := pexec_mono (len' := 24 * n) (slack' := 0) (by omega) (by omega) hc1
    -- the last one, up to the pull
    obtain ⟨i, hi⟩ := Option.isSome_iff_exists.1 hbad
    unfold badPull at hi
    have hi2 := List.find?_some hi
    have hil := List.mem_of_find?_eq_some hi
    rw [List.mem_range] at hil
    split at hi2
    · next s3 r k hp hst =>
      rw [Nat.ble_eq] at hi2
      obtain ⟨c2, hc2, R2⟩ := rel_exec (by omega : 24 + 24 * (n - 1) ≤ 24 * n) (Nat.le_refl 0) R1
        (fun _ _ _ => huy) hp
      have hall := pexec_append hc1' hc2
      rw [hX, hY] at hall
      have hs := sim_exec (o := ringOps R) (s := s) (c := ⟨px, py, pz, base, 24 * n, 0⟩) (h0 := h)
        (l := ⟨List.replicate K.nreg none, 0, 0, 0, []⟩) rfl hall
      have hw0 : written h ⟨px, py, pz, base, 24 * n, 0⟩ ([] : List R) = h := by
        funext g j; simp [written]
      rw [hw0] at hs
      have hprog : K.prog n = ((List.replicate (n - 1) K.body).flatten ++ K.body.take i) ++ (K.body.drop i ++ K.post) := by
        unfold Kern.prog
        rw [if_neg (by omega), hpre, hsub, hmul, show 1 * n - 0 = (n - 1) + 1 by omega, List.replicate_succ', List.flatten_append]
        simp only [List.nil_append, List.flatten_cons, List.flatten_nil, List.append_nil, List.append_assoc]
        congr 1
        rw [← List.append_assoc, List.take_append_drop]
      rw [hprog]
      refine exec_append_ub hs.1 ?_
      have hdrop : K.body.drop i = K.body[i] :: K.body.drop (i + 1) := List.drop_eq_getElem_cons hil
      rw [hdrop]
      rw [List.getElem?_eq_getElem hil] at hst
      injection hst with hst
      rw [hst]
      simp only [List.cons_append, exec, step]
      rw [if_neg]
      have := R2.cx
      omega
    · next s3 r k hp hst =>
      rw [Nat.ble_eq] at hi2
      obtain ⟨c2, hc2, R2⟩ := rel_exec (by omega : 24 + 24 * (n - 1) ≤ 24 * n) (Nat.le_refl 0) R1
        (fun _ _ _ => huy) hp
      have hall := pexec_append hc1' hc2
      rw [hX, hY] at hall
      have hs := sim_exec (o := ringOps R) (s := s) (c := ⟨px, py, pz, base, 24 * n, 0⟩) (h0 := h)
        (l := ⟨List.replicate K.nreg none, 0, 0, 0, []⟩) rfl hall
      have hw0 : written h ⟨px, py, pz, base, 24 * n, 0⟩ ([] : List R) = h := by
        funext g j; simp [written]
      rw [hw0] at hs
      have hprog : K.prog n = ((List.replicate (n - 1) K.body).flatten ++ K.body.take i) ++ (K.body.drop i ++ K.post) := by
        unfold Kern.prog
        rw [if_neg (by omega), hpre, hsub, hmul, show 1 * n - 0 = (n - 1) + 1 by omega, List.replicate_succ', List.flatten_append]
        simp only [List.nil_append, List.flatten_cons, List.flatten_nil, List.append_nil, List.append_assoc]
        congr 1
        rw [← List.append_assoc, List.take_append_drop]
      rw [hprog]
      refine exec_append_ub hs.1 ?_
      have hdrop : K.body.drop i = K.body[i] :: K.body.drop (i + 1) := List.drop_eq_getElem_cons hil
      rw [hdrop]
      rw [List.getElem?_eq_getElem hil] at hst
      injection hst with hst
      rw [hst]
      simp only [List.cons_append, exec, step]
      rw [if_neg]
      have := R2.cy huy
      omega
    · simp at hi2
  · simp at hrun

/-- what remains of a thread that runs alone -/
theorem solo_rest {V I L : Type} {step : I → L → Interleave.Heap V → Outcome (L × Interleave.Heap V)} {s0 s : Interleave.St V I L}
    (h0 : ∀ t, t ≠ 0 → (s0.thr t).todo = []) (hs : Relation.ReflTransGen (Interleave.Step step) s0 s) :
    Interleave.run step (s.thr 0).todo (s.thr 0).loc s.heap = Interleave.run step (s0.thr 0).todo (s0.thr 0).loc s0.heap ∧
      ∀ t, t ≠ 0 → (s.thr t).todo = [] := by
  induction hs with
  | refl => exact ⟨rfl, h0⟩
  | tail _ hstep ih =>
    cases hstep with
    | go t i rest l' h' ht e =>
      have ht0 : t = 0 := by
        by_contra hc
        rw [ih.2 t hc] at ht
        simp at ht
      subst ht0
      refine ⟨?_, fun u hu => by simp only [Function.update_of_ne hu]; exact ih.2 u hu⟩
      rw [← ih.1, ht]
      simp only [Function.update_self, Interleave.run, e]

theorem exec_instr_ub {K : Kern} {N : Nat} {s : Nat → R} {px py pz : Nat} {c : Call} : ∀ {p : List Stmt} {l : Loc R} {h : Kernel.Heap R},
    exec (ringOps R) s c p l h = ub → ∀ q, Interleave.run (instr K N s px py pz) (p.map .run ++ q) (c, l) h = ub
  | [], l, h, e => by simp [exec] at e
  | st :: p, l, h, e => by
      intro q
      simp only [exec] at e
      simp only [List.map_cons, List.cons_append, Interleave.run, instr]
      split at e
      · next l1 h1 e1 =>
        simp only [e1]
        exact exec_instr_ub e q
      · next hne =>
        rcases e1 : Kernel.step (ringOps R) s c st l h with ⟨l1, h1⟩ | _ | _
        · exact absurd e1 (hne l1 h1)
        · rfl
        · rfl

/-- C61 fails for the other specialisations: on the whole lattice, or any other ordered subset ending with the last site, with one thread no
execution gets to the end, whatever the fields and numbers: the kernel reads behind the end of a field -/
theorem C61_last_site {e : Entry} (he : e ∈ entries) (hu : e ∉ tidy) (start n : Nat) (hn : 0 < n) (h24 : 24 * n < 2 ^ 31) (I : Inst R)
    (h : Kernel.Heap R) (s : State R) (hs : e.Reaches (.ordered start n) (start + n) 1 I h s) : ¬ Interleave.Done s := by
  have hp := (untidy_check he hu).2.1
  obtain ⟨rs, C, h1, h2, hs⟩ := hs
  have hact : active n 1 = 1 := by unfold active; omega
  have hd := dispatch_eq (n := n) (T := 1) (by rw [hact]; omega)
  simp only [Form.size] at h1
  rw [hd] at h1
  injection h1 with h1
  have hC0 : C 0 = [(start, n)] := by
    have := h2 0
    rw [← h1] at this
    simp only [Form.threadCalls, hact, List.range_one, List.map_cons, List.map_nil, List.getElem?_cons_zero, Form.calls, Nat.lt_one_iff, if_true,
      Nat.div_one, Nat.mul_zero, Nat.zero_add, Nat.mul_one, Nat.zero_mul, Nat.add_zero, Nat.sub_zero] at this
    rw [ckInt_of_lt (by omega)] at this
    simp only [ok_bind] at this
    injection this with this
    exact this.symm
  have hCt : ∀ t, t ≠ 0 → C t = [] := by
    intro t ht
    have := h2 t
    rw [← h1] at this
    unfold Form.threadCalls at this
    rw [List.getElem?_eq_none (by simp; omega)] at this
    injection this with this
    exact this.symm
  intro hdone
  have hrest := (solo_rest (by intro t ht; simp [startState, hCt t ht]) hs).1
  rw [hdone 0] at hrest
  simp only [startState, hC0, List.flatMap_cons, List.flatMap_nil, List.append_nil, callProg, Interleave.run, Entry.step, Entry.use, instr] at hrest
  rw [if_pos (Nat.le_refl _), Nat.sub_self] at hrest
  simp only at hrest
  have hub := pull_ub (R := R) hp (e.ordered.scalars I) (I.ptr (e.ordered.arg .x)) (I.ptr (e.ordered.arg .y)) (I.ptr (e.ordered.arg .out)) (24 * start) n hn h
  have := exec_instr_ub (K := e.ordered.kern) (N := start + n) (px := I.ptr (e.ordered.arg .x)) (py := I.ptr (e.ordered.arg .y)) (pz := I.ptr (e.ordered.arg .out)) hub []
  rw [List.append_nil] at this
  rw [this] at hrest
  simp at hrest

/-- a case: `y += a * chiralProjectPlus(x)` on all sites of a lattice of four -/
example (h : Kernel.Heap ℚ) (s : State ℚ) (hs : e51.Reaches (.ordered 0 4) (0 + 4) 1 (⟨0, fun _ => 1, fun _ => (3, 0)⟩ : Inst ℚ) h s) :
    ¬ Interleave.Done s :=
  C61_last_site e51_untidy.1 e51_untidy.2 0 4 (by omega) (by decide) _ h s hs

end pull

end Verif.Blas
