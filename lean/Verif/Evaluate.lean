import Verif.Dispatch
import Mathlib.Logic.Relation
import Mathlib.Logic.Function.Basic
/-
Site-wise assignment of an expression, `dest[subset] op= expression`, by any number of threads in any interleaving.

Fields are functions from the linear site index; field `n` of the heap is an `OLattice`.  Values of all types are drawn from one type `V`.
-/
namespace Verif.Evaluate
open Verif Outcome Verif.Subset Verif.Dispatch

variable {V : Type}

/-! ## model -/

/-- an expression as built by the operators: references to fields, fields held by the expression itself, scalars, maps (shifts), functions -/
inductive Expr (V : Type) where
  | field (n : Nat)
  | temp (f : Nat → V)
  | scalar (v : V)
  | map (goff : Nat → Nat) (e : Expr V)
  | un (f : V → V) (e : Expr V)
  | bin (f : V → V → V) (a b : Expr V)

abbrev Heap (V : Type) := Nat → Nat → V

/-- `forEach(rhs, EvalLeaf1(i), OpCombine())`; for maps include/qdp_scalar_specific.h:1763-1779: the child is evaluated at `goff[i]` -/
def eval (h : Heap V) : Expr V → Nat → V
  | .field n, i => h n i
  | .temp f, i => f i
  | .scalar v, _ => v
  | .map goff e, i => eval h e (goff i)
  | .un f e, i => f (eval h e i)
  | .bin f a b, i => f (eval h a i) (eval h b i)

/-- `dest.elem(i)` after `op(dest.elem(i), w)` -/
def store (h : Heap V) (dest i : Nat) (v : V) : Heap V := fun n j => if n = dest ∧ j = i then v else h n j

/-- the loop of `evaluate_userfunc`, include/qdp_scalar_specific.h:135-139, run by one thread alone -/
def loop (dest : Nat) (op : V → V → V) (e : Expr V) : List Nat → Heap V → Heap V
  | [], h => h
  | i :: is, h => loop dest op e is (store h dest i (op (h dest i) (eval h e i)))

/-- a thread: the sites still to do, and the value of the right hand side if it has been computed but not yet stored -/
structure Thr (V : Type) where
  todo : List Nat
  reg : Option V

structure St (V : Type) where
  heap : Heap V
  thr : Nat → Thr V

/-- one step of one thread: evaluate the right hand side, or apply the operation to the destination -/
inductive Step (dest : Nat) (op : V → V → V) (e : Expr V) : St V → St V → Prop
  | load (s : St V) (t i : Nat) (rest : List Nat) (h : s.thr t = ⟨i :: rest, none⟩) :
      Step dest op e s ⟨s.heap, Function.update s.thr t ⟨i :: rest, some (eval s.heap e i)⟩⟩
  | store (s : St V) (t i : Nat) (rest : List Nat) (w : V) (h : s.thr t = ⟨i :: rest, some w⟩) :
      Step dest op e s ⟨store s.heap dest i (op (s.heap dest i) w), Function.update s.thr t ⟨rest, none⟩⟩

/-- the start of the parallel region: thread `t` runs through the sites `L t` -/
def start (h : Heap V) (L : Nat → List Nat) : St V := ⟨h, fun t => ⟨L t, none⟩⟩

/-- all threads have left the loop -/
def Done (s : St V) : Prop := ∀ t, s.thr t = ⟨[], none⟩

/-- `evaluate`, include/qdp_scalar_specific.h:190-231 (and the same in include/qdp_parscalar_specific.h): the sites of each thread, as
distributed by `dispatch_to_threads` -/
def threadSites (tab : List Nat) (rs : List (Option (Nat × Nat))) (t : Nat) : Outcome (List Nat) :=
  match rs[t]? with
  | none => ok []
  | some r => mapO (rd tab) (share r)

/-- the possible final heaps of `dest[s] op= e` with `T` threads -/
def Evaluates (T : Nat) (dest : Nat) (op : V → V → V) (tab : List Nat) (e : Expr V) (h h' : Heap V) : Prop :=
  ∃ rs, ∃ L : Nat → List Nat, ∃ s, dispatch tab.length T = ok rs ∧ (∀ t, threadSites tab rs t = ok (L t)) ∧
    Relation.ReflTransGen (Step dest op e) (start h L) s ∧ Done s ∧ s.heap = h'

/-! ## specification -/

/-- the statement as read: every site of the table gets the value computed from the old fields, nothing else changes -/
def Assigned (dest : Nat) (op : V → V → V) (tab : List Nat) (e : Expr V) (h h' : Heap V) : Prop :=
  (∀ i ∈ tab, h' dest i = op (h dest i) (eval h e i)) ∧ (∀ i, i ∉ tab → h' dest i = h dest i) ∧ ∀ n, n ≠ dest → h' n = h n

/-- the expression does not mention the field -/
def NoRef (d : Nat) : Expr V → Prop
  | .field n => n ≠ d
  | .temp _ => True
  | .scalar _ => True
  | .map _ e => NoRef d e
  | .un _ e => NoRef d e
  | .bin _ a b => NoRef d a ∧ NoRef d b

/-- the expression does not mention the field below a map -/
def NoShifted (d : Nat) : Expr V → Prop
  | .field _ => True
  | .temp _ => True
  | .scalar _ => True
  | .map _ e => NoRef d e
  | .un _ e => NoShifted d e
  | .bin _ a b => NoShifted d a ∧ NoShifted d b

/-! ## lemmas -/

theorem eval_noRef {d : Nat} {h h' : Heap V} (hh : ∀ n, n ≠ d → h' n = h n) : ∀ (e : Expr V) (i : Nat), NoRef d e → eval h' e i = eval h e i
  | .field n, i, hn => by simp only [eval, hh n hn]
  | .temp _, _, _ => rfl
  | .scalar _, _, _ => rfl
  | .map g e, i, hn => eval_noRef hh e (g i) hn
  | .un f e, i, hn => by simp only [eval, eval_noRef hh e i hn]
  | .bin f a b, i, hn => by simp only [eval, eval_noRef hh a i hn.1, eval_noRef hh b i hn.2]

theorem eval_noShifted {d : Nat} {h h' : Heap V} (hh : ∀ n, n ≠ d → h' n = h n) :
    ∀ (e : Expr V) (i : Nat), NoShifted d e → h' d i = h d i → eval h' e i = eval h e i
  | .field n, i, _, hi => by
      by_cases hn : n = d
      · subst hn; exact hi
      · simp only [eval, hh n hn]
  | .temp _, _, _, _ => rfl
  | .scalar _, _, _, _ => rfl
  | .map g e, i, hn, _ => eval_noRef hh e (g i) hn
  | .un f e, i, hn, hi => by simp only [eval, eval_noShifted hh e i hn hi]
  | .bin f a b, i, hn, hi => by simp only [eval, eval_noShifted hh a i hn.1 hi, eval_noShifted hh b i hn.2 hi]

/-- what holds during the parallel region -/
structure Inv (dest : Nat) (op : V → V → V) (e : Expr V) (h0 : Heap V) (L : Nat → List Nat) (s : St V) (fin : Nat → List Nat) : Prop where
  split : ∀ t, L t = fin t ++ (s.thr t).todo
  reg : ∀ t w, (s.thr t).reg = some w → ∃ i rest, (s.thr t).todo = i :: rest ∧ w = eval h0 e i
  other : ∀ n, n ≠ dest → s.heap n = h0 n
  new : ∀ t, ∀ i ∈ fin t, s.heap dest i = op (h0 dest i) (eval h0 e i)
  old : ∀ i, (∀ t, i ∉ fin t) → s.heap dest i = h0 dest i

theorem inv_step {dest : Nat} {op : V → V → V} {e : Expr V} {h0 : Heap V} {L : Nat → List Nat} (he : NoShifted dest e)
    (hnd : ∀ t, (L t).Nodup) (hdj : ∀ s t, s ≠ t → ∀ i ∈ L s, i ∉ L t) {s s' : St V} {fin : Nat → List Nat}
    (hI : Inv dest op e h0 L s fin) (hs : Step dest op e s s') : ∃ fin', Inv dest op e h0 L s' fin' := by
  have notfin : ∀ t i rest, (s.thr t).todo = i :: rest → ∀ u, i ∉ fin u := by
    intro t i rest ht u hu
    have h1 := hI.split t
    rw [ht] at h1
    have hiL : i ∈ L t := by rw [h1]; simp
    by_cases hut : u = t
    · subst hut
      have := hnd u
      rw [h1, List.nodup_append] at this
      exact this.2.2 i hu i (by simp) rfl
    · have : i ∈ L u := by rw [hI.split u]; exact List.mem_append_left _ hu
      exact hdj u t hut i this hiL
  cases hs with
  | load t i rest ht =>
    have hnf := notfin t i rest (by rw [ht])
    refine ⟨fin, ⟨?_, ?_, hI.other, hI.new, hI.old⟩⟩
    · intro u
      by_cases hu : u = t
      · subst hu
        simp only [Function.update_self]
        have := hI.split u
        rwa [ht] at this
      · simp only [Function.update_of_ne hu]
        exact hI.split u
    · intro u w hw
      by_cases hu : u = t
      · subst hu
        simp only [Function.update_self, Option.some.injEq] at hw ⊢
        refine ⟨i, rest, rfl, ?_⟩
        rw [← hw]
        exact eval_noShifted hI.other e i he (hI.old i hnf)
      · simp only [Function.update_of_ne hu] at hw ⊢
        exact hI.reg u w hw
  | store t i rest w ht =>
    have hnf := notfin t i rest (by rw [ht])
    obtain ⟨i', rest', h1, h2⟩ := hI.reg t w (by rw [ht])
    rw [ht] at h1
    simp only [List.cons.injEq] at h1
    obtain ⟨rfl, rfl⟩ := h1
    refine ⟨Function.update fin t (fin t ++ [i]), ⟨?_, ?_, ?_, ?_, ?_⟩⟩
    · intro u
      by_cases hu : u = t
      · subst hu
        simp only [Function.update_self]
        have := hI.split u
        rw [ht] at this
        rw [this]; simp
      · simp only [Function.update_of_ne hu]
        exact hI.split u
    · intro u w' hw'
      by_cases hu : u = t
      · subst hu
        simp only [Function.update_self] at hw'
        exact absurd hw' (by simp)
      · simp only [Function.update_of_ne hu] at hw' ⊢
        exact hI.reg u w' hw'
    · intro n hn
      funext j
      simp only [store, hn, false_and, if_false]
      rw [hI.other n hn]
    · intro u j hj
      simp only [store, true_and]
      by_cases hji : j = i
      · subst hji
        rw [if_pos rfl, hI.old j hnf, h2]
      · rw [if_neg hji]
        by_cases hu : u = t
        · subst hu
          simp only [Function.update_self, List.mem_append, List.mem_singleton, hji, or_false] at hj
          exact hI.new u j hj
        · simp only [Function.update_of_ne hu] at hj
          exact hI.new u j hj
    · intro j hj
      simp only [store, true_and]
      have hji : j ≠ i := by
        rintro rfl
        exact hj t (by simp [Function.update_self])
      rw [if_neg hji]
      apply hI.old
      intro u hu
      apply hj u
      by_cases hut : u = t
      · subst hut; simp [Function.update_self, hu]
      · simpa only [Function.update_of_ne hut] using hu

theorem inv_run {dest : Nat} {op : V → V → V} {e : Expr V} {h0 : Heap V} {L : Nat → List Nat} (he : NoShifted dest e)
    (hnd : ∀ t, (L t).Nodup) (hdj : ∀ s t, s ≠ t → ∀ i ∈ L s, i ∉ L t) {s : St V}
    (hr : Relation.ReflTransGen (Step dest op e) (start h0 L) s) : ∃ fin, Inv dest op e h0 L s fin := by
  induction hr with
  | refl => exact ⟨fun _ => [], ⟨by simp [start], by simp [start], fun _ _ => rfl, by simp, fun _ _ => rfl⟩⟩
  | tail _ hs ih =>
    obtain ⟨fin, hI⟩ := ih
    exact inv_step he hnd hdj hI hs

/-- every interleaving of threads working on different sites ends with the assignment -/
theorem interleave {dest : Nat} {op : V → V → V} {e : Expr V} {h0 : Heap V} {L : Nat → List Nat} {tab : List Nat} (he : NoShifted dest e)
    (hnd : ∀ t, (L t).Nodup) (hdj : ∀ s t, s ≠ t → ∀ i ∈ L s, i ∉ L t) (htab : ∀ i, i ∈ tab ↔ ∃ t, i ∈ L t) {s : St V}
    (hr : Relation.ReflTransGen (Step dest op e) (start h0 L) s) (hd : Done s) : Assigned dest op tab e h0 s.heap := by
  obtain ⟨fin, hI⟩ := inv_run he hnd hdj hr
  have hfin : ∀ t, L t = fin t := by
    intro t
    have := hI.split t
    rwa [hd t, List.append_nil] at this
  refine ⟨?_, ?_, hI.other⟩
  · intro i hi
    obtain ⟨t, ht⟩ := (htab i).1 hi
    exact hI.new t i (by rw [← hfin]; exact ht)
  · intro i hi
    refine hI.old i fun t ht => hi ((htab i).2 ⟨t, by rw [hfin]; exact ht⟩)

/-- the sites of a thread, in closed form -/
def sitesOf (tab : List Nat) (r : Option (Option (Nat × Nat))) : List Nat :=
  match r with
  | none => []
  | some r => (share r).map fun j => tab.getD j 0

/-- the sites handed to the threads are those of the table, without repetition -/
theorem threadSites_spec {T : Nat} (hT : 0 < T) {tab : List Nat} (hnd : tab.Nodup) (hov : tab.length * active tab.length T < 2 ^ 31) :
    ∃ rs, ∃ L : Nat → List Nat, dispatch tab.length T = ok rs ∧ (∀ t, threadSites tab rs t = ok (L t)) ∧ (∀ t, (L t).Nodup) ∧
      (∀ s t, s ≠ t → ∀ i ∈ L s, i ∉ L t) ∧ ∀ i, i ∈ tab ↔ ∃ t, i ∈ L t := by
  obtain ⟨rs, h1, h2, h3⟩ := C47_disjoint hT hov
  obtain ⟨rs', h1', _, h3', _⟩ := C47_cover hT hov
  rw [h1] at h1'
  injection h1' with hrs
  subst hrs
  have hlt : ∀ r ∈ rs, ∀ j ∈ share r, j < tab.length := fun r hr j hj => (h2 j).2 ⟨r, hr, hj⟩
  have hsh : ∀ r ∈ rs, mapO (rd tab) (share r) = ok ((share r).map fun j => tab.getD j 0) := by
    intro r hr
    refine mapO_ok fun j hj => ?_
    rw [rd_of_lt (hlt r hr j hj)]
    simp [List.getD_eq_getElem?_getD, hlt r hr j hj]
  have hinj : ∀ i j, i < tab.length → j < tab.length → tab.getD i 0 = tab.getD j 0 → i = j := by
    intro i j hi hj hij
    simp only [List.getD_eq_getElem?_getD, List.getElem?_eq_getElem hi, List.getElem?_eq_getElem hj, Option.getD_some] at hij
    exact (List.Nodup.getElem_inj_iff hnd).1 hij
  refine ⟨rs, fun t => sitesOf tab rs[t]?, h1, ?_, ?_, ?_, ?_⟩
  · intro t
    unfold threadSites
    rcases hr : rs[t]? with _ | r
    · simp only [hr, sitesOf]
    · simp only [hr, sitesOf]
      exact hsh r (List.mem_of_getElem? hr)
  · intro t
    rcases hr : rs[t]? with _ | r
    · simp [hr, sitesOf]
    · simp only [hr, sitesOf]
      have hnr : (share r).Nodup := by
        unfold share
        split
        · exact List.nodup_nil
        · exact List.nodup_range'
      refine List.Nodup.map_on ?_ hnr
      intro i hi j hj hij
      exact hinj i j (hlt r (List.mem_of_getElem? hr) i hi) (hlt r (List.mem_of_getElem? hr) j hj) hij
  · intro s t hst i hi hi'
    rcases hr : rs[s]? with _ | r
    · simp [hr, sitesOf] at hi
    · rcases hr' : rs[t]? with _ | r'
      · simp [hr', sitesOf] at hi'
      · simp only [hr, sitesOf, List.mem_map] at hi
        simp only [hr', sitesOf, List.mem_map] at hi'
        obtain ⟨j, hj, rfl⟩ := hi
        obtain ⟨j', hj', e⟩ := hi'
        have := hinj j' j (hlt r' (List.mem_of_getElem? hr') j' hj') (hlt r (List.mem_of_getElem? hr) j hj) e
        subst this
        exact h3 s t r r' hr hr' hst j' hj hj'
  · intro i
    constructor
    · intro hi
      obtain ⟨j, hj, rfl⟩ := List.getElem_of_mem hi
      obtain ⟨r, hr, hjr⟩ := (h2 j).1 hj
      obtain ⟨t, ht, hrt⟩ := List.getElem_of_mem hr
      refine ⟨t, ?_⟩
      simp only [List.getElem?_eq_getElem ht, hrt, sitesOf, List.mem_map]
      exact ⟨j, hjr, by simp [List.getD_eq_getElem?_getD, hj]⟩
    · rintro ⟨t, ht⟩
      rcases hr : rs[t]? with _ | r
      · simp [hr, sitesOf] at ht
      · simp only [hr, sitesOf, List.mem_map] at ht
        obtain ⟨j, hj, rfl⟩ := ht
        have hjl := hlt r (List.mem_of_getElem? hr) j hj
        simp [List.getD_eq_getElem?_getD, hjl]

/-! ## properties -/

/-- C48: an expression that mentions the destination only at the site itself is assigned as read, whatever the number of threads and
their interleaving -/
theorem C48_assign {T : Nat} (hT : 0 < T) {dest : Nat} {op : V → V → V} {tab : List Nat} {e : Expr V} {h h' : Heap V} (hnd : tab.Nodup)
    (hov : tab.length * active tab.length T < 2 ^ 31) (he : NoShifted dest e) (hev : Evaluates T dest op tab e h h') :
    Assigned dest op tab e h h' := by
  obtain ⟨rs, L, h1, h2, h3, h4, h5⟩ := threadSites_spec hT hnd hov
  obtain ⟨rs', L', s, h1', h2', hrun, hd, rfl⟩ := hev
  rw [h1] at h1'
  injection h1' with hrs
  subst hrs
  have hL : L = L' := by
    funext t
    have := h2 t
    rw [h2' t] at this
    injection this with this
    exact this.symm
  subst hL
  exact interleave he h3 h4 h5 hrun hd

/-- the assignment determines the heap -/
theorem Assigned.unique {dest : Nat} {op : V → V → V} {tab : List Nat} {e : Expr V} {h h1 h2 : Heap V}
    (a : Assigned dest op tab e h h1) (b : Assigned dest op tab e h h2) : h1 = h2 := by
  funext n i
  by_cases hn : n = dest
  · subst hn
    by_cases hi : i ∈ tab
    · rw [a.1 i hi, b.1 i hi]
    · rw [a.2.1 i hi, b.2.1 i hi]
  · rw [a.2.2 n hn, b.2.2 n hn]

/-- the loop of one thread is one of the executions -/
theorem loop_run (dest : Nat) (op : V → V → V) (e : Expr V) : ∀ (tab : List Nat) (s : St V), s.thr 0 = ⟨tab, none⟩ →
    Relation.ReflTransGen (Step dest op e) s ⟨loop dest op e tab s.heap, Function.update s.thr 0 ⟨[], none⟩⟩ := by
  intro tab
  induction tab with
  | nil =>
    intro s hs
    have : (⟨loop dest op e [] s.heap, Function.update s.thr 0 ⟨[], none⟩⟩ : St V) = s := by
      simp only [loop, ← hs, Function.update_eq_self]
    rw [this]
  | cons i is ih =>
    intro s hs
    have s1 := Step.load (dest := dest) (op := op) (e := e) s 0 i is hs
    have s2 := Step.store (dest := dest) (op := op) (e := e) _ 0 i is (eval s.heap e i)
      (show (⟨s.heap, Function.update s.thr 0 ⟨i :: is, some (eval s.heap e i)⟩⟩ : St V).thr 0 = ⟨i :: is, some (eval s.heap e i)⟩ by
        simp only [Function.update_self])
    refine Relation.ReflTransGen.head s1 (Relation.ReflTransGen.head s2 ?_)
    have := ih ⟨store s.heap dest i (op (s.heap dest i) (eval s.heap e i)), Function.update s.thr 0 ⟨is, none⟩⟩
      (by simp only [Function.update_self])
    simp only [Function.update_idem] at this ⊢
    exact this

theorem loop_evaluates (dest : Nat) (op : V → V → V) (e : Expr V) (tab : List Nat) (h : Heap V) (hl : tab.length < 2 ^ 31) :
    Evaluates 1 dest op tab e h (loop dest op e tab h) := by
  have ha : tab.length * active tab.length 1 < 2 ^ 31 := by
    have : active tab.length 1 ≤ 1 := by unfold active; omega
    calc tab.length * active tab.length 1 ≤ tab.length * 1 := Nat.mul_le_mul_left _ this
      _ < _ := by omega
  have hd := dispatch_eq ha
  have hth : ∀ t, threadSites tab ((List.range 1).map fun id =>
      if id < active tab.length 1 then some (tab.length * id / active tab.length 1, tab.length * (id + 1) / active tab.length 1) else none) t =
      ok (if t = 0 then tab else []) := by
    intro t
    unfold threadSites
    cases t with
    | succ t => simp
    | zero =>
      by_cases hz : tab = []
      · subst hz; simp [active, share, mapO]
      · have : active tab.length 1 = 1 := by
          have := List.length_pos_iff.2 hz
          unfold active; omega
        simp only [this]
        simp only [List.range_one, List.map_cons, List.map_nil, List.getElem?_cons_zero, share, Nat.lt_one_iff, if_true, Nat.div_one, Nat.mul_zero,
          Nat.zero_add, Nat.mul_one, Nat.sub_zero]
        rw [mapO_ok (h := fun j => if hj : j < tab.length then tab[j] else 0)]
        · congr 1
          apply List.ext_getElem
          · simp
          · intro k h1 h2
            simp [h2]
        · intro j hj
          rw [List.mem_range'_1] at hj
          rw [rd_of_lt (by omega), dif_pos (by omega)]
  refine ⟨_, _, _, hd, hth, loop_run dest op e tab (start h fun t => if t = 0 then tab else []) ?_, ?_, rfl⟩
  · simp [start]
  · intro t
    by_cases ht : t = 0
    · subst ht; simp [Function.update_self]
    · simp [start, ht]

/-- C47: a threaded assignment leaves the same fields as the serial loop -/
theorem C47_serial {T : Nat} (hT : 0 < T) {dest : Nat} {op : V → V → V} {tab : List Nat} {e : Expr V} {h h' : Heap V} (hnd : tab.Nodup)
    (hov : tab.length * active tab.length T < 2 ^ 31) (he : NoShifted dest e) (hev : Evaluates T dest op tab e h h') :
    h' = loop dest op e tab h := by
  have h1 := C48_assign hT hnd hov he hev
  have hl : tab.length < 2 ^ 31 := by
    by_cases hz : tab.length = 0
    · omega
    · have : 1 ≤ active tab.length T := by unfold active; omega
      have := Nat.mul_le_mul_left tab.length this
      omega
  have ha : tab.length * active tab.length 1 < 2 ^ 31 := by
    have : active tab.length 1 ≤ 1 := by unfold active; omega
    calc tab.length * active tab.length 1 ≤ tab.length * 1 := Nat.mul_le_mul_left _ this
      _ < _ := by omega
  exact h1.unique (C48_assign (by omega) hnd ha he (loop_evaluates dest op e tab h hl))

/-- C47: no thread waits for another: as long as the region is not left some thread can go on, and the work left decreases -/
theorem C47_progress (dest : Nat) (op : V → V → V) (e : Expr V) (s : St V)
    (hreg : ∀ t, (s.thr t).todo = [] → (s.thr t).reg = none) (hs : ¬ Done s) : ∃ s', Step dest op e s s' := by
  unfold Done at hs
  rw [not_forall] at hs
  obtain ⟨t, ht⟩ := hs
  rcases hq : s.thr t with ⟨todo, reg⟩
  cases todo with
  | nil =>
    have := hreg t (by rw [hq])
    rw [hq] at this ht
    simp only at this
    subst this
    exact absurd rfl ht
  | cons i rest =>
    cases reg with
    | none => exact ⟨_, Step.load s t i rest hq⟩
    | some w => exact ⟨_, Step.store s t i rest w hq⟩

/-! ### shifts of the destination -/

/-- one step to the right on a ring of `n` sites -/
def ring (n i : Nat) : Nat := (i + 1) % n

theorem loop_append (dest : Nat) (op : V → V → V) (e : Expr V) : ∀ (a b : List Nat) (h : Heap V),
    loop dest op e (a ++ b) h = loop dest op e b (loop dest op e a h)
  | [], _, _ => rfl
  | _ :: a, b, _ => loop_append dest op e a b _

theorem ring_prefix (n : Nat) (h : Heap V) : ∀ k, k + 1 ≤ n →
    loop 0 (fun _ w => w) (.map (ring n) (.field 0)) (List.range k) h 0 = fun i => if i < k then h 0 (i + 1) else h 0 i := by
  intro k
  induction k with
  | zero => intro _; rfl
  | succ k ih =>
    intro hk
    have hi := ih (by omega)
    rw [List.range_succ, loop_append]
    simp only [loop, eval]
    have hr : ring n k = k + 1 := by unfold ring; exact Nat.mod_eq_of_lt (by omega)
    rw [hr]
    funext i
    simp only [store, true_and, hi]
    by_cases h1 : i = k
    · subst h1; simp
    · rw [if_neg h1]
      by_cases h2 : i < k
      · rw [if_pos h2, if_pos (by omega)]
      · rw [if_neg h2, if_neg (by omega)]

/-- C48 fails for `x = shift(x)` in the single-node library: on a ring of at least two sites the last site receives the old value of site 1
instead of site 0, for every field -/
theorem C48_shift_in_place (n : Nat) (hn : 2 ≤ n) (h : Heap V) :
    loop 0 (fun _ w => w) (.map (ring n) (.field 0)) (List.range n) h 0 (n - 1) = h 0 1 ∧
    eval h (.map (ring n) (.field 0)) (n - 1) = h 0 0 := by
  obtain ⟨m, rfl⟩ : ∃ m, n = m + 1 := ⟨n - 1, by omega⟩
  have hp := ring_prefix (m + 1) h m (by omega)
  have hr : ring (m + 1) m = 0 := by unfold ring; exact Nat.mod_self _
  constructor
  · rw [List.range_succ, loop_append]
    simp only [loop, eval, store, Nat.add_sub_cancel, true_and, if_true, hp, hr]
    rw [if_pos (by omega)]
  · simp only [eval, Nat.add_sub_cancel, hr]

/-- and with two threads the result depends on the interleaving -/
theorem C48_shift_race (a b : V) :
    ∃ s s' : St V, Relation.ReflTransGen (Step 0 (fun _ w => w) (.map (ring 2) (.field 0)))
        (start (fun _ i => if i = 0 then a else b) (fun t => if t < 2 then [t] else [])) s ∧ Done s ∧
      Relation.ReflTransGen (Step 0 (fun _ w => w) (.map (ring 2) (.field 0)))
        (start (fun _ i => if i = 0 then a else b) (fun t => if t < 2 then [t] else [])) s' ∧ Done s' ∧
      s.heap 0 0 = b ∧ s.heap 0 1 = a ∧ s'.heap 0 0 = b ∧ s'.heap 0 1 = b := by
  generalize hs0 : (start (fun _ i => if i = 0 then a else b) (fun t => if t < 2 then [t] else []) : St V) = s0
  have t0 : s0.thr 0 = ⟨[0], none⟩ := by subst hs0; rfl
  have t1 : s0.thr 1 = ⟨[1], none⟩ := by subst hs0; rfl
  have tn : ∀ t, 2 ≤ t → s0.thr t = ⟨[], none⟩ := by
    intro t ht; subst hs0; simp [start, Nat.not_lt.2 ht]
  have v0 : s0.heap 0 0 = a := by subst hs0; rfl
  have v1 : s0.heap 0 1 = b := by subst hs0; rfl
  have fin : ∀ f : Nat → Thr V, f 0 = ⟨[], none⟩ → f 1 = ⟨[], none⟩ → (∀ t, 2 ≤ t → f t = ⟨[], none⟩) → ∀ t, f t = ⟨[], none⟩ := by
    intro f h0 h1 h2 t
    match t with
    | 0 => exact h0
    | 1 => exact h1
    | t + 2 => exact h2 (t + 2) (by omega)
  have d01 : (0 : Nat) ≠ 1 := by decide
  refine ⟨_, _,
    .tail (.tail (.tail (.tail .refl (.load s0 0 0 [] t0)) (.load _ 1 1 [] (by simp [Function.update, t1])))
      (.store _ 0 0 [] b (by simp [Function.update, eval, ring, v1]))) (.store _ 1 1 [] a (by simp [Function.update, eval, ring, v0])),
    ?_,
    .tail (.tail (.tail (.tail .refl (.load s0 0 0 [] t0)) (.store _ 0 0 [] b (by simp [Function.update, eval, ring, v1])))
      (.load _ 1 1 [] (by simp [Function.update, t1]))) (.store _ 1 1 [] b (by simp [Function.update, eval, ring, store])),
    ?_, ?_⟩
  · exact fin _ (by simp [Function.update]) (by simp [Function.update]) (fun t ht => by
      simp [Function.update, show t ≠ 0 by omega, show t ≠ 1 by omega, tn t ht])
  · exact fin _ (by simp [Function.update]) (by simp [Function.update]) (fun t ht => by
      simp [Function.update, show t ≠ 0 by omega, show t ≠ 1 by omega, tn t ht])
  · simp [store]

/-! ### maps evaluated when the expression is built (multi-node library) -/

/-- building the tree in the multi-node library: `Map::operator()` returns a new field holding the mapped values
(include/qdp_parscalar_specific.h, the function modelled in Verif/ParMap.lean), so the argument of a map is evaluated on the spot -/
def build (h : Heap V) : Expr V → Expr V
  | .field n => .field n
  | .temp f => .temp f
  | .scalar v => .scalar v
  | .map goff e => .temp fun i => eval h (build h e) (goff i)
  | .un f e => .un f (build h e)
  | .bin f a b => .bin f (build h a) (build h b)

theorem eval_build (h : Heap V) : ∀ (e : Expr V) (i : Nat), eval h (build h e) i = eval h e i
  | .field _, _ => rfl
  | .temp _, _ => rfl
  | .scalar _, _ => rfl
  | .map g e, i => eval_build h e (g i)
  | .un f e, i => by simp only [build, eval, eval_build h e i]
  | .bin f a b, i => by simp only [build, eval, eval_build h a i, eval_build h b i]

theorem build_noShifted (h : Heap V) (d : Nat) : ∀ e : Expr V, NoShifted d (build h e)
  | .field _ => trivial
  | .temp _ => trivial
  | .scalar _ => trivial
  | .map _ _ => trivial
  | .un _ e => build_noShifted h d e
  | .bin _ a b => ⟨build_noShifted h d a, build_noShifted h d b⟩

/-- C48: in the multi-node library every expression is assigned as read, shifts of the destination included -/
theorem C48_multi_node {T : Nat} (hT : 0 < T) {dest : Nat} {op : V → V → V} {tab : List Nat} {e : Expr V} {h h' : Heap V} (hnd : tab.Nodup)
    (hov : tab.length * active tab.length T < 2 ^ 31) (hev : Evaluates T dest op tab (build h e) h h') : Assigned dest op tab e h h' := by
  have := C48_assign hT hnd hov (build_noShifted h dest e) hev
  refine ⟨fun i hi => ?_, this.2⟩
  rw [this.1 i hi, eval_build]

/-- the tables of the subsets have no repetitions, so this applies to every subset of every set -/
theorem C48_subset {T : Nat} (hT : 0 < T) {dest : Nat} {op : V → V → V} {e : Expr V} {h h' : Heap V} (col : List Nat) (cb : Nat)
    (hov : col.length * T < 2 ^ 31) (he : NoShifted dest e)
    (hev : Evaluates T dest op (sitesFrom cb col 0) e h h') :
    (∀ i, col[i]? = some cb → h' dest i = op (h dest i) (eval h e i)) ∧ (∀ i, col[i]? ≠ some cb → h' dest i = h dest i) ∧
      ∀ n, n ≠ dest → h' n = h n := by
  have hs := sitesFrom_sorted cb col 0
  have hnd : (sitesFrom cb col 0).Nodup := hs.imp fun hlt => Nat.ne_of_lt hlt
  have hlen : (sitesFrom cb col 0).length ≤ col.length := by
    rw [sitesFrom_length]
    clear hov hev hs hnd
    induction col with
    | nil => simp [countSites]
    | cons c cs ih => simp only [countSites, List.length_cons]; split <;> omega
  have hov' : (sitesFrom cb col 0).length * active (sitesFrom cb col 0).length T < 2 ^ 31 := by
    have h1 : active (sitesFrom cb col 0).length T ≤ T := by unfold active; omega
    calc _ ≤ col.length * T := Nat.mul_le_mul hlen h1
      _ < _ := hov
  have ha := C48_assign hT hnd hov' he hev
  have hm : ∀ i, i ∈ sitesFrom cb col 0 ↔ col[i]? = some cb := by
    intro i
    rw [mem_sitesFrom]
    simp
  exact ⟨fun i hi => ha.1 i ((hm i).2 hi), fun i hi => ha.2.1 i (fun h => hi ((hm i).1 h)), ha.2.2⟩

/-- a non-trivial case: `x[even] += x * y` on four sites with values as below -/
example : loop 0 (· + ·) (.bin (· * ·) (.field 0) (.field 1)) (sitesFrom 0 [0, 1, 0, 1] 0) (fun n i => 10 * n + i + 1) 0 2 = 3 + 3 * 13 := by decide

end Verif.Evaluate
