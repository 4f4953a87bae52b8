import Verif.SseSingleTables
/-
Products and copies of colour matrices in single precision with SSE.
-/
set_option linter.unusedSectionVars false
namespace Verif.SseSingle
open Verif Outcome Verif.Sse Verif.Su3 Verif.Subset Verif.Blas Verif.SseSingle.Tables

/-! ## the statements behind the call -/

/-- what a store of the statement `d op product` may be: of the element itself, or of the hermitian conjugate of `tmp` -/
def Store.right (q : Sse.Kind) (op : Sse.Asg) (s : Store) : Bool :=
  s.i < 3 && s.j < 3 && s.im == s.im' &&
  if q = .hh then s.i' == s.j && s.j' == s.i &&
    (if s.im then (match op with
      | .set => s.op == .set && s.neg
      | .add => s.op == .sub && !s.neg
      | .sub => s.op == .add && !s.neg) else s.op == op && !s.neg)
  else s.i' == s.i && s.j' == s.j && s.op == op && !s.neg

/-- a branch that does what its statement says -/
def Branch.check (q : Sse.Kind) (op : Sse.Asg) (b : Branch) : Bool :=
  if b.tmp then
    b.routine == (if q = .hh then .mm else q) && b.swap == (q == .hh) && decide (b.stores.map Store.dst).Nodup && b.stores.all (Store.right q op) &&
      (List.range 18).all fun k => (b.stores.map Store.dst).contains k
  else op == .set && q != .hh && b.routine == q && !b.swap && b.stores.isEmpty

theorem branches_check (q : Sse.Kind) (op : Sse.Asg) (o : Bool) : (branch q op o).check q op = true := by
  cases q <;> cases op <;> cases o <;> decide +kernel

/-- products that are computed into the destination itself -/
def direct (q : Sse.Kind) (op : Sse.Asg) : Bool := op == .set && q != .hh

theorem branch_tmp (q : Sse.Kind) (op : Sse.Asg) (o : Bool) : (branch q op o).tmp = !direct q op := by
  cases q <;> cases op <;> cases o <;> rfl

section
variable {K : Type} [CommRing K]

theorem runStores_of_notMem (ss : List Store) (t D : Nat → K) (k : Nat) (h : k ∉ ss.map Store.dst) : runStores ss t D k = D k := by
  induction ss generalizing D with
  | nil => rfl
  | cons s ss ih =>
    simp only [List.map_cons, List.mem_cons, not_or] at h
    simp only [runStores]
    rw [ih _ h.2, Function.update_of_ne h.1]

theorem runStores_of_mem (ss : List Store) (t D : Nat → K) (hn : (ss.map Store.dst).Nodup) {s : Store} (hs : s ∈ ss) : runStores ss t D s.dst = s.val D t := by
  induction ss generalizing D with
  | nil => simp at hs
  | cons s' ss ih =>
    simp only [List.map_cons, List.nodup_cons] at hn
    simp only [runStores]
    rcases List.mem_cons.1 hs with rfl | hs
    · rw [runStores_of_notMem _ _ _ _ hn.1, Function.update_self]
    · rw [ih _ hn.2 hs]
      have : s.dst ≠ s'.dst := fun h => hn.1 (h ▸ List.mem_map.2 ⟨s, hs, rfl⟩)
      unfold Store.val
      rw [Function.update_of_ne this]

/-- hermitian conjugate -/
def dagger (x : Site.Den K colorMatrix) : Site.Den K colorMatrix := fun i j => ⟨(x j i).re, -(x j i).im⟩

theorem obj_at (w : Nat → K) (i j : Fin 3) : obj colorMatrix w i j = ⟨w (wordOf i j false), w (wordOf i j true)⟩ := by
  fin_cases i <;> fin_cases j <;> simp [obj, wordOf, size]

theorem prodSite_hh (x y : Nat → K) : prodSite .hh (obj colorMatrix x) (obj colorMatrix y) = dagger (prodSite .mm (obj colorMatrix y) (obj colorMatrix x)) := by
  funext i j
  fin_cases i <;> fin_cases j <;>
  · simp [obj, dagger, prodSite, Site.mul, Site.adjMulAdj, Site.accum, Site.add, size, Fin.foldl_succ_last]
    try (first | (constructor <;> ring) | ring)

theorem wordOf_inj {i j i' j' : Nat} {b b' : Bool} (hj : j < 3) (hj' : j' < 3) (h : wordOf i j b = wordOf i' j' b') : i = i' ∧ j = j' ∧ b = b' := by
  unfold wordOf at h
  cases b <;> cases b' <;> simp at h ⊢ <;> omega

/-- the statements behind the call, as matrices -/
theorem stores_obj {q : Sse.Kind} {op : Sse.Asg} {b : Branch} (hb : b.check q op = true) (ht : b.tmp = true) (t D : Nat → K) :
    obj colorMatrix (runStores b.stores t D) = assign op (obj colorMatrix D) (if q = .hh then dagger (obj colorMatrix t) else obj colorMatrix t) := by
  unfold Branch.check at hb
  rw [if_pos ht] at hb
  simp only [Bool.and_eq_true, decide_eq_true_eq] at hb
  obtain ⟨⟨⟨-, hn⟩, hr⟩, hall⟩ := hb
  have hw : ∀ (i j : Fin 3) (im : Bool), ∃ s ∈ b.stores, s.i = i ∧ s.j = j ∧ s.im = im ∧ s.right q op = true := by
    intro i j im
    have hlt : wordOf i j im < 18 := by
      unfold wordOf
      have := i.isLt; have := j.isLt
      split <;> omega
    have := List.all_eq_true.1 hall _ (List.mem_range.2 hlt)
    rw [List.contains_iff_mem, List.mem_map] at this
    obtain ⟨s, hs, hd⟩ := this
    have hsr := List.all_eq_true.1 hr s hs
    have hj : s.j < 3 := by
      simp only [Store.right, Bool.and_eq_true, decide_eq_true_eq] at hsr
      exact hsr.1.1.2
    obtain ⟨e1, e2, e3⟩ := wordOf_inj hj j.isLt hd
    exact ⟨s, hs, e1, e2, e3, hsr⟩
  funext i j
  obtain ⟨s, hs, si, sj, sim, hsr⟩ := hw i j false
  obtain ⟨s', hs', si', sj', sim', hsr'⟩ := hw i j true
  have v := runStores_of_mem b.stores t D hn hs
  have v' := runStores_of_mem b.stores t D hn hs'
  rw [obj_at]
  have d1 : s.dst = wordOf i j false := by unfold Store.dst; rw [si, sj, sim]
  have d2 : s'.dst = wordOf i j true := by unfold Store.dst; rw [si', sj', sim']
  rw [d1] at v
  rw [d2] at v'
  rw [v, v']
  unfold Store.val
  rw [d1, d2]
  simp only [Store.right, Bool.and_eq_true, beq_iff_eq, sim, sim', si, sj, si', sj'] at hsr hsr'
  by_cases hq : q = .hh
  · rw [if_pos hq] at hsr hsr' ⊢
    have s1 : s.src = wordOf j i false := by
      simp only [Bool.and_eq_true, beq_iff_eq] at hsr
      unfold Store.src; rw [hsr.2.1.1, hsr.2.1.2, ← hsr.1.2]
    have s2 : s'.src = wordOf j i true := by
      simp only [Bool.and_eq_true, beq_iff_eq] at hsr'
      unfold Store.src; rw [hsr'.2.1.1, hsr'.2.1.2, ← hsr'.1.2]
    rw [s1, s2]
    cases op <;> simp at hsr hsr' <;> simp [hsr, hsr', app, assign, dagger, obj_at, sub_eq_add_neg]
  · rw [if_neg hq] at hsr hsr' ⊢
    simp only [Bool.and_eq_true, beq_iff_eq, Bool.not_eq_true'] at hsr hsr'
    have s1 : s.src = wordOf i j false := by unfold Store.src; rw [hsr.2.1.1.1, hsr.2.1.1.2, ← hsr.1.2]
    have s2 : s'.src = wordOf i j true := by unfold Store.src; rw [hsr'.2.1.1.1, hsr'.2.1.1.2, ← hsr'.1.2]
    rw [s1, s2, hsr.2.1.2, hsr'.2.1.2, hsr.2.2, hsr'.2.2]
    cases op <;> simp [app, assign, obj_at]

/-! ## products -/

/-- the routines of the other library compute the products their names say, if the destination is neither operand -/
def Lib.Correct (L : Lib K) : Prop :=
  ∀ q, q ≠ .hh → ∀ x y, obj colorMatrix (L.apart q x y) = prodSite q (obj colorMatrix x) (obj colorMatrix y)

/-- and if the destination is an operand -/
def Lib.CorrectInPlace (L : Lib K) (q : Sse.Kind) (bl br : Bool) : Prop :=
  ∀ x y, obj colorMatrix (L.inPlace q bl br x y) = prodSite q (obj colorMatrix x) (obj colorMatrix y)

theorem obj_stored (w D : Nat → K) : obj colorMatrix (stored w D) = obj colorMatrix w := by
  funext i j
  have : ∀ b, wordOf i j b < 18 := by
    intro b; have := i.isLt; have := j.isLt
    unfold wordOf; split <;> omega
  rw [obj_at, obj_at]
  unfold stored
  rw [if_pos (this _), if_pos (this _)]

/-- a site -/
theorem site_correct {L : Lib K} (hL : L.Correct) {q : Sse.Kind} {op : Sse.Asg} {o : Bool} {N d l r i : Nat}
    (hd : direct q op = true → (d = l ∨ d = r) → L.CorrectInPlace q (d == l) (d == r)) (hi : i < N) (h : Heap K) :
    ∃ w, (branch q op o).site L N d l r i h = ok (Function.update h d (Function.update (h d) i w)) ∧
      obj colorMatrix w = assign op (obj colorMatrix (h d i)) (prodSite q (obj colorMatrix (h l i)) (obj colorMatrix (h r i))) := by
  have hb := branches_check q op o
  have ht := branch_tmp q op o
  unfold Branch.site
  rw [if_pos hi]
  refine ⟨_, rfl, ?_⟩
  by_cases hdir : direct q op = true
  · rw [hdir] at ht
    simp only [Bool.not_true] at ht
    rw [ht]
    simp only [Bool.false_eq_true, if_false, obj_stored]
    unfold Branch.check at hb
    rw [ht] at hb
    simp only [Bool.false_eq_true, if_false, Bool.and_eq_true, beq_iff_eq, bne_iff_ne, Bool.not_eq_true'] at hb
    obtain ⟨⟨⟨⟨rfl, hq⟩, hr⟩, hsw⟩, -⟩ := hb
    unfold Branch.call
    rw [hsw, ht, hr]
    simp only
    split
    · next hal => exact hd hdir hal _ _
    · exact hL q hq _ _
  · simp only [Bool.not_eq_true] at hdir
    rw [hdir] at ht
    simp only [Bool.not_false] at ht
    rw [ht]
    simp only [if_true]
    rw [stores_obj hb ht]
    congr 1
    unfold Branch.check at hb
    rw [if_pos ht] at hb
    simp only [Bool.and_eq_true, beq_iff_eq] at hb
    obtain ⟨⟨⟨⟨hr, hs⟩, -⟩, -⟩, -⟩ := hb
    unfold Branch.call
    rw [ht, hs, hr]
    by_cases hq : q = .hh
    · subst hq
      simp only [if_true]
      rw [prodSite_hh, ← hL .mm (by decide)]
      rfl
    · rw [if_neg hq, if_neg hq]
      have : (q == Sse.Kind.hh) = false := by simpa using hq
      rw [this]
      exact hL q hq _ _

/-- the loop -/
theorem loop_correct {L : Lib K} (hL : L.Correct) {q : Sse.Kind} {op : Sse.Asg} {o : Bool} {N d l r : Nat}
    (hd : direct q op = true → (d = l ∨ d = r) → L.CorrectInPlace q (d == l) (d == r)) :
    ∀ (is : List Nat), is.Nodup → (∀ i ∈ is, i < N) → ∀ h : Heap K, ∃ h', (branch q op o).loop L N d l r is h = ok h' ∧
      (∀ i ∈ is, obj colorMatrix (h' d i) = assign op (obj colorMatrix (h d i)) (prodSite q (obj colorMatrix (h l i)) (obj colorMatrix (h r i)))) ∧
      (∀ i, i ∉ is → h' d i = h d i) ∧ ∀ p, p ≠ d → h' p = h p := by
  intro is
  induction is with
  | nil => intro _ _ h; exact ⟨h, rfl, by simp, fun _ _ => rfl, fun _ _ => rfl⟩
  | cons i is ih =>
    intro hn hN h
    obtain ⟨hni, hn⟩ := List.nodup_cons.1 hn
    obtain ⟨w, hw, hobj⟩ := site_correct (o := o) hL hd (hN i (by simp)) h
    obtain ⟨h', hr, h1, h2, h3⟩ := ih hn (fun i hi => hN i (by simp [hi])) (Function.update h d (Function.update (h d) i w))
    refine ⟨h', by unfold Branch.loop; rw [hw]; exact hr, ?_, ?_, ?_⟩
    · have hother : ∀ p j, j ≠ i → Function.update h d (Function.update (h d) i w) p j = h p j := by
        intro p j hj
        by_cases hp : p = d
        · subst hp; rw [Function.update_self, Function.update_of_ne hj]
        · rw [Function.update_of_ne hp]
      intro j hj
      rcases List.mem_cons.1 hj with rfl | hj
      · rw [h2 j hni, Function.update_self, Function.update_self, hobj]
      · have hji : j ≠ i := fun e => hni (e ▸ hj)
        rw [h1 j hj, hother _ _ hji, hother _ _ hji, hother _ _ hji]
    · intro j hj
      simp only [List.mem_cons, not_or] at hj
      rw [h2 j hj.2, Function.update_self, Function.update_of_ne hj.1]
    · intro p hp
      rw [h3 p hp, Function.update_of_ne hp]

/-- C84: `d op product(l, r)` on a subset assigns what the generic library assigns, if the routines of the other library are right for the operands
that they are given: with `+=` and `-=` and for `adj(l)*adj(r)` they are never given the destination, so these work for all operands.
Missing: nothing is known in the sources about the routines where destination and operand coincide. -/
theorem C84_products_partial {L : Lib K} (hL : L.Correct) {q : Sse.Kind} {op : Sse.Asg} {d l r : Nat}
    (hd : direct q op = true → (d = l ∨ d = r) → L.CorrectInPlace q (d == l) (d == r)) {col : List Nat} {cb : Nat} {sub : Sub}
    (hsub : makeSub col cb = ok sub) (h : Heap K) :
    ∃ h', (branch q op (isOrdered (Form.of sub))).loop L col.length d l r (Form.of sub).table h = ok h' ∧
      (∀ i, col[i]? = some cb → obj colorMatrix (h' d i) =
        assign op (obj colorMatrix (h d i)) (prodSite q (obj colorMatrix (h l i)) (obj colorMatrix (h r i)))) ∧
      (∀ i, col[i]? ≠ some cb → h' d i = h d i) ∧ ∀ p, p ≠ d → h' p = h p := by
  have htab := form_of_makeSub hsub
  have hmem : ∀ i, i ∈ (Form.of sub).table ↔ col[i]? = some cb := by
    intro i
    rw [htab, mem_sitesFrom]
    constructor
    · rintro ⟨k, rfl, hk⟩; simpa using hk
    · intro hk; exact ⟨i, by omega, hk⟩
  obtain ⟨h', h1, h2, h3, h4⟩ := loop_correct (o := isOrdered (Form.of sub)) (N := col.length) hL hd (Form.of sub).table
    (by rw [htab]; exact (sitesFrom_sorted cb col 0).imp fun hlt => Nat.ne_of_lt hlt)
    (by
      intro i hi
      rw [hmem] at hi
      by_contra hc
      rw [List.getElem?_eq_none (by omega)] at hi
      simp at hi) h
  exact ⟨h', h1, fun i hi => h2 i ((hmem i).2 hi), fun i hi => h3 i fun hm => hi ((hmem i).1 hm), h4⟩

/-- C84: in particular for all operands with `+=` and `-=` and for `adj(l)*adj(r)` -/
theorem C84_through_tmp {L : Lib K} (hL : L.Correct) {q : Sse.Kind} {op : Sse.Asg} (hq : op ≠ .set ∨ q = .hh) (d l r : Nat) {col : List Nat} {cb : Nat} {sub : Sub}
    (hsub : makeSub col cb = ok sub) (h : Heap K) :
    ∃ h', (branch q op (isOrdered (Form.of sub))).loop L col.length d l r (Form.of sub).table h = ok h' ∧
      (∀ i, col[i]? = some cb → obj colorMatrix (h' d i) =
        assign op (obj colorMatrix (h d i)) (prodSite q (obj colorMatrix (h l i)) (obj colorMatrix (h r i)))) ∧
      (∀ i, col[i]? ≠ some cb → h' d i = h d i) ∧ ∀ p, p ≠ d → h' p = h p :=
  C84_products_partial hL (fun hdir => by
    unfold direct at hdir
    simp only [Bool.and_eq_true, beq_iff_eq, bne_iff_ne] at hdir
    rcases hq with hq | hq
    · exact absurd hdir.1 hq
    · exact absurd hq hdir.2) hsub h

/-- there are such libraries: the one that computes the words of C81 -/
def exactLib (K : Type) [CommRing K] : Lib K where
  apart q x y := newWord q .set (ringNum K 1) x x y
  inPlace q _ _ x y := newWord q .set (ringNum K 1) x x y

theorem exactLib_correct : (exactLib K).Correct := by
  intro q _ x y
  have := newWord_obj q .set x x y
  rw [show assign .set (obj colorMatrix x) (prodSite q (obj colorMatrix x) (obj colorMatrix y)) = prodSite q (obj colorMatrix x) (obj colorMatrix y) from rfl] at this
  rw [← this]
  exact (obj_stored _ x).symm

/-! ## copies -/

/-- the numbers in `S` assigned, and nothing else -/
def Upd (op : Sse.Asg) (d l : Nat) (S : Nat → Prop) (h h' : Heap K) : Prop :=
  ∀ p i k, (p = d ∧ k < 18 ∧ S (18 * i + k) → h' p i k = app op (h d i k) (h l i k)) ∧ (¬ (p = d ∧ k < 18 ∧ S (18 * i + k)) → h' p i k = h p i k)

theorem Upd.refl {op : Sse.Asg} {d l : Nat} (h : Heap K) : Upd op d l (fun _ => False) h h := fun p i k => ⟨fun hc => hc.2.2.elim, fun _ => rfl⟩

theorem Upd.trans {op : Sse.Asg} {d l : Nat} {S S' : Nat → Prop} {h h1 h2 : Heap K} (a : Upd op d l S h h1) (b : Upd op d l S' h1 h2)
    (hd : ∀ j, S j → ¬ S' j) : Upd op d l (fun j => S j ∨ S' j) h h2 := by
  intro p i k
  have un : ∀ p, k < 18 → S' (18 * i + k) → h1 p i k = h p i k := fun p hk hs => (a p i k).2 fun hc => hd _ hc.2.2 hs
  refine ⟨?_, ?_⟩
  · rintro ⟨rfl, hk, hs⟩
    by_cases hs' : S' (18 * i + k)
    · rw [(b p i k).1 ⟨rfl, hk, hs'⟩, un _ hk hs', un _ hk hs']
    · rw [(b p i k).2 fun hc => hs' hc.2.2]
      exact (a p i k).1 ⟨rfl, hk, hs.resolve_right hs'⟩
  · intro hc
    rw [(b p i k).2 fun h' => hc ⟨h'.1, h'.2.1, .inr h'.2.2⟩, (a p i k).2 fun h' => hc ⟨h'.1, h'.2.1, .inl h'.2.2⟩]

theorem Upd.congr {op : Sse.Asg} {d l : Nat} {S S' : Nat → Prop} {h h' : Heap K} (a : Upd op d l S h h') (hs : ∀ j, S j ↔ S' j) : Upd op d l S' h h' := by
  intro p i k
  rw [← hs]
  exact a p i k

theorem setWord_upd (op : Sse.Asg) (d l j : Nat) (h : Heap K) : Upd op d l (fun m => m = j) h (setWord h d j (app op (word h d j) (word h l j))) := by
  intro p i k
  unfold setWord word
  refine ⟨?_, ?_⟩
  · rintro ⟨rfl, hk, rfl⟩
    have h1 : (18 * i + k) / 18 = i := by omega
    have h2 : (18 * i + k) % 18 = k := by omega
    rw [h1, h2]
    simp
  · intro hc
    by_cases hp : p = d
    · subst hp
      rw [Function.update_self]
      by_cases hi : i = j / 18
      · subst hi
        rw [Function.update_self]
        by_cases hk : k = j % 18
        · subst hk
          exact absurd ⟨rfl, Nat.mod_lt _ (by omega), Nat.div_add_mod j 18⟩ hc
        · rw [Function.update_of_ne hk]
      · rw [Function.update_of_ne hi]
    · rw [Function.update_of_ne hp]

theorem Upd.word {op : Sse.Asg} {d l : Nat} {S : Nat → Prop} {h h' : Heap K} (a : Upd op d l S h h') {j : Nat} (hj : ¬ S j) (p : Nat) :
    SseSingle.word h' p j = SseSingle.word h p j := by
  unfold SseSingle.word
  refine (a p (j / 18) (j % 18)).2 fun hc => hj ?_
  have := hc.2.2
  rwa [Nat.div_add_mod] at this

/-- four numbers stored -/
theorem four_upd (op : Sse.Asg) (d l k : Nat) (h : Heap K) :
    Upd op d l (fun m => k ≤ m ∧ m < k + 4) h
      (setWord (setWord (setWord (setWord h d k (app op (word h d (k + 0)) (word h l (k + 0)))) d (k + 1) (app op (word h d (k + 1)) (word h l (k + 1)))) d (k + 2)
        (app op (word h d (k + 2)) (word h l (k + 2)))) d (k + 3) (app op (word h d (k + 3)) (word h l (k + 3)))) := by
  have a0 := setWord_upd op d l k h
  have e1 := fun p => a0.word (j := k + 1) (by omega) p
  have a1 := a0.trans (setWord_upd op d l (k + 1) _) (by omega)
  rw [e1, e1] at a1
  have e2 := fun p => a1.word (j := k + 2) (by omega) p
  have a2 := a1.trans (setWord_upd op d l (k + 2) _) (by omega)
  rw [e2, e2] at a2
  have e3 := fun p => a2.word (j := k + 3) (by omega) p
  have a3 := a2.trans (setWord_upd op d l (k + 3) _) (by omega)
  rw [e3, e3] at a3
  exact a3.congr (by omega)

theorem vecLoop_ok (op : Sse.Asg) {N : Nat} (d l : Nat) : ∀ n k (h : Heap K), k % 4 = 0 → k + 4 * n ≤ 18 * N →
    ∃ h', vecLoop op N d l n k h = ok h' ∧ Upd op d l (fun m => k ≤ m ∧ m < k + 4 * n) h h' := by
  intro n
  induction n with
  | zero => intro k h _ _; exact ⟨h, rfl, (Upd.refl h).congr fun j => ⟨False.elim, by omega⟩⟩
  | succ n ih =>
    intro k h hk hN
    have hv : vec4 N k = ok () := by unfold vec4; rw [if_pos (by omega), if_pos (by omega)]
    obtain ⟨h', hr, hu⟩ := ih (k + 4) _ (by omega) (by omega)
    refine ⟨h', ?_, ((four_upd op d l k h).trans hu (by omega)).congr (by omega)⟩
    unfold vecLoop
    rw [hv]
    exact hr

theorem vecLoop_fault (op : Sse.Asg) {N : Nat} (d l n k : Nat) (h : Heap K) (hn : 0 < n) (hk : k % 4 ≠ 0) : vecLoop op N d l n k h = ub := by
  cases n with
  | zero => omega
  | succ n =>
    unfold vecLoop vec4
    rw [if_neg (by omega)]
    rfl

theorem restLoop_ok (op : Sse.Asg) {N : Nat} (d l : Nat) : ∀ n k (h : Heap K), k + n ≤ 18 * N →
    ∃ h', restLoop op N d l n k h = ok h' ∧ Upd op d l (fun m => k ≤ m ∧ m < k + n) h h' := by
  intro n
  induction n with
  | zero => intro k h _; exact ⟨h, rfl, (Upd.refl h).congr fun j => ⟨False.elim, by omega⟩⟩
  | succ n ih =>
    intro k h hN
    obtain ⟨h', hr, hu⟩ := ih (k + 1) _ (by omega)
    refine ⟨h', ?_, ((setWord_upd op d l k h).trans hu (by omega)).congr (by omega)⟩
    unfold restLoop
    rw [if_pos (by omega)]
    exact hr

theorem tabLoop_ok (op : Sse.Asg) {N : Nat} (d l : Nat) : ∀ (is : List Nat) (h : Heap K), is.Nodup → (∀ i ∈ is, i < N) →
    ∃ h', tabLoop op N d l is h = ok h' ∧ Upd op d l (fun m => m / 18 ∈ is) h h' := by
  intro is
  induction is with
  | nil => intro h _ _; exact ⟨h, rfl, (Upd.refl h).congr (by simp)⟩
  | cons i is ih =>
    intro h hn hN
    obtain ⟨hni, hn⟩ := List.nodup_cons.1 hn
    obtain ⟨h', hr, hu⟩ := ih _ hn (fun i hi => hN i (by simp [hi]))
    have a : Upd op d l (fun m => m / 18 = i) h
        (Function.update h d (Function.update (h d) i fun k => if k < 18 then app op (h d i k) (h l i k) else h d i k)) := by
      intro p j k
      refine ⟨?_, ?_⟩
      · rintro ⟨rfl, hk, hj⟩
        have : j = i := by omega
        subst this
        rw [Function.update_self, Function.update_self, if_pos hk]
      · intro hc
        by_cases hp : p = d
        · subst hp
          rw [Function.update_self]
          by_cases hj : j = i
          · subst hj
            rw [Function.update_self, if_neg]
            intro hk
            exact hc ⟨rfl, hk, by omega⟩
          · rw [Function.update_of_ne hj]
        · rw [Function.update_of_ne hp]
    refine ⟨h', ?_, (a.trans hu ?_).congr (by intro j; simp)⟩
    · unfold tabLoop
      rw [if_pos (hN i (by simp))]
      exact hr
    · intro j hj hm
      rw [hj] at hm
      exact hni hm

/-- `d op l` on the sites of the subset and nothing else, as matrices -/
def Copied (op : Sse.Asg) (d l : Nat) (col : List Nat) (cb : Nat) (h h' : Heap K) : Prop :=
  (∀ i, col[i]? = some cb → obj colorMatrix (h' d i) = assign op (obj colorMatrix (h d i)) (obj colorMatrix (h l i))) ∧
  (∀ i, col[i]? ≠ some cb → h' d i = h d i) ∧ ∀ p, p ≠ d → h' p = h p

theorem copied_of_upd {op : Sse.Asg} {d l : Nat} {col : List Nat} {cb : Nat} {h h' : Heap K} {S : Nat → Prop} (a : Upd op d l S h h')
    (hs : ∀ j, S j ↔ col[j / 18]? = some cb) : Copied op d l col cb h h' := by
  have hdiv : ∀ i k, k < 18 → (18 * i + k) / 18 = i := by intro i k hk; omega
  refine ⟨?_, ?_, ?_⟩
  · intro i hi
    have hw : ∀ k, k < 18 → h' d i k = app op (h d i k) (h l i k) := by
      intro k hk
      exact (a d i k).1 ⟨rfl, hk, by rw [hs, hdiv i k hk]; exact hi⟩
    funext x y
    have hlt : ∀ b, wordOf x y b < 18 := by
      intro b; have := x.isLt; have := y.isLt
      unfold wordOf; split <;> omega
    rw [obj_at, hw _ (hlt _), hw _ (hlt _)]
    cases op <;> simp [assign, app, obj_at]
  · intro i hi
    funext k
    exact (a d i k).2 fun hc => hi (by have := hc.2.2; rwa [hs, hdiv i k hc.2.1] at this)
  · intro p hp
    funext i k
    exact (a p i k).2 fun hc => hp hc.1

/-- C84: `d op l` on a subset: it assigns what it should unless the subset is a run of sites that begins at an odd site.
Missing: those subsets, for which the statement makes unaligned accesses (`C84_odd`). -/
theorem C84_copies_partial (op : Sse.Asg) (d l : Nat) {col : List Nat} {cb : Nat} {sub : Sub} (hsub : makeSub col cb = ok sub)
    (hov : 18 * col.length < 2 ^ 31) (heven : ∀ start n, Form.of sub = .ordered start n → start % 2 = 0) (h : Heap K) :
    ∃ h', copy op col.length d l (Form.of sub) h = ok h' ∧ Copied op d l col cb h h' := by
  have htab := form_of_makeSub hsub
  have hsz : (Form.of sub).size ≤ col.length := by rw [form_size, htab]; exact sitesFrom_length_le cb col
  have hmem : ∀ i, i ∈ (Form.of sub).table ↔ col[i]? = some cb := by
    intro i
    rw [htab, mem_sitesFrom]
    constructor
    · rintro ⟨k, rfl, hk⟩; simpa using hk
    · intro hk; exact ⟨i, by omega, hk⟩
  have hlt : ∀ i ∈ (Form.of sub).table, i < col.length := by
    intro i hi
    rw [hmem] at hi
    by_contra hc
    rw [List.getElem?_eq_none (by omega)] at hi
    simp at hi
  have hnd : (Form.of sub).table.Nodup := by rw [htab]; exact (sitesFrom_sorted cb col 0).imp fun hlt => Nat.ne_of_lt hlt
  unfold copy
  cases hf : Form.of sub with
  | ordered start n =>
    rw [hf] at hsz hmem hlt
    simp only [Form.size, Form.table] at hsz hmem hlt
    have he := heven start n hf
    have hck : ckInt (n * 18) = ok (n * 18) := ckInt_of_lt (by omega)
    have hend : n = 0 ∨ start + n ≤ col.length := by
      by_cases hn : n = 0
      · exact .inl hn
      · have := hlt (start + (n - 1)) (by rw [List.mem_range'_1]; omega)
        exact .inr (by omega)
    rcases hend with rfl | hend
    · refine ⟨h, by simp only [hck, ok_bind]; rfl, copied_of_upd (Upd.refl h) ?_⟩
      intro j
      rw [← hmem]
      simp
    · obtain ⟨h1, r1, u1⟩ := vecLoop_ok op d l (n * 18 / 4) (18 * start) h (N := col.length) (by omega) (by omega)
      obtain ⟨h2, r2, u2⟩ := restLoop_ok op d l (n * 18 % 4) (18 * start + 4 * (n * 18 / 4)) h1 (N := col.length) (by omega)
      refine ⟨h2, by simp only [hck, ok_bind, r1, r2], copied_of_upd (u1.trans u2 (by omega)) ?_⟩
      intro j
      rw [← hmem, List.mem_range'_1]
      omega
  | unordered tab =>
    rw [hf] at hmem hlt hnd
    obtain ⟨h', hr, hu⟩ := tabLoop_ok op d l tab h hnd hlt
    exact ⟨h', hr, copied_of_upd hu fun j => hmem _⟩

/-- C84 is false in general: on a run of sites that begins at an odd site the instructions for four numbers meet an address that is not divisible by 16 -/
theorem C84_odd (op : Sse.Asg) (N d l : Nat) {start n : Nat} (hn : 0 < n) (hodd : start % 2 = 1) (h : Heap K) :
    copy op N d l (.ordered start n) h = ub := by
  unfold copy ckInt
  simp only
  split
  · simp only [ok_bind]
    rw [vecLoop_fault op d l _ _ h (by omega) (by omega)]
    rfl
  · rfl

/-- exactly then -/
theorem C84_copies_iff (op : Sse.Asg) (d l : Nat) {col : List Nat} {cb : Nat} {sub : Sub} (hsub : makeSub col cb = ok sub)
    (hov : 18 * col.length < 2 ^ 31) (h : Heap K) :
    (∃ h', copy op col.length d l (Form.of sub) h = ok h' ∧ Copied op d l col cb h h') ↔
      ¬ ∃ start n, 0 < n ∧ start % 2 = 1 ∧ Form.of sub = .ordered start n := by
  constructor
  · rintro ⟨h', hr, -⟩ ⟨start, n, hn, ho, hf⟩
    rw [hf, C84_odd op _ d l hn ho h] at hr
    exact absurd hr (by simp)
  · intro hc
    have htab := form_of_makeSub hsub
    by_cases hz : ∃ start, Form.of sub = .ordered start 0
    · obtain ⟨start, hf⟩ := hz
      refine ⟨h, ?_, ?_⟩
      · rw [hf]
        unfold copy
        simp only [Nat.zero_mul, ckInt_of_lt (show (0 : Nat) < 2 ^ 31 by decide), ok_bind]
        rfl
      · refine copied_of_upd (Upd.refl h) fun j => ?_
        rw [hf] at htab
        have : j / 18 ∉ sitesFrom cb col 0 := by rw [← htab]; simp [Form.table]
        rw [mem_sitesFrom] at this
        constructor
        · exact False.elim
        · intro hj; exact this ⟨j / 18, by omega, hj⟩
    · refine C84_copies_partial op d l hsub hov (fun start n hf => ?_) h
      by_contra ho
      exact hc ⟨start, n, Nat.pos_of_ne_zero fun hn => hz ⟨start, hn ▸ hf⟩, by omega, hf⟩

theorem sitesFrom_append (cb : Nat) (a b : List Nat) (l : Nat) : sitesFrom cb (a ++ b) l = sitesFrom cb a l ++ sitesFrom cb b (l + a.length) := by
  induction a generalizing l with
  | nil => simp [sitesFrom]
  | cons c cs ih =>
    have : l + 1 + cs.length = l + (cs.length + 1) := by omega
    simp only [List.cons_append, sitesFrom, List.length_cons, ih, this]
    split <;> simp

theorem sitesFrom_replicate_self (cb n l : Nat) : sitesFrom cb (List.replicate n cb) l = List.range' l n := by
  induction n generalizing l with
  | zero => rfl
  | succ n ih => simp [List.replicate_succ, sitesFrom, ih, List.range'_succ]

theorem sitesFrom_replicate_other (cb c n l : Nat) (h : c ≠ cb) : sitesFrom cb (List.replicate n c) l = [] := by
  induction n generalizing l with
  | zero => rfl
  | succ n ih => simp [List.replicate_succ, sitesFrom, ih, h]

/-- the odd sublattice of a node with `2m` sites in the checkerboarded layout, where the sites of colour 0 come before those of colour 1
(lib/qdp_parscalar_layout.cc:461-480), is a run of `m` sites -/
theorem odd_sublattice {m : Nat} (hm : 0 < m) : ∃ sub, makeSub (List.replicate m 0 ++ List.replicate m 1) 1 = ok sub ∧ Form.of sub = .ordered m m := by
  obtain ⟨s, hs, ht, -, -, h1⟩ := makeSub_eq (List.replicate m 0 ++ List.replicate m 1) 1
  refine ⟨s, hs, ?_⟩
  have hsites : sitesFrom 1 (List.replicate m 0 ++ List.replicate m 1) 0 = List.range' m m := by
    rw [sitesFrom_append, sitesFrom_replicate_other _ _ _ _ (by decide), sitesFrom_replicate_self]
    simp
  rw [hsites] at ht
  have hne : s.table ≠ [] := by rw [ht]; simp; omega
  have hlen : s.table.length = m := by rw [ht]; simp
  have hhead : s.table.head hne = (m : Int) := by
    rw [List.head_eq_getElem]
    simp [ht]
  obtain ⟨ho, hse, -⟩ := h1 hne
  have hord : s.ordRep = true := by
    rw [ho, hhead]
    intro k hk
    simp only [ht]
    simp
  obtain ⟨hst, hsp⟩ := hse hord
  have hlast : s.table.getLast hne = (2 * m - 1 : Int) := by
    rw [List.getLast_eq_getElem]
    simp only [ht]
    simp
    omega
  unfold Form.of
  rw [if_pos hord, hst, hsp, hhead, hlast]
  congr 1
  omega

/-- C84 fails for `d[rb[1]] = l` on every node whose number of sites is twice an odd number -/
theorem C84_red_black (op : Sse.Asg) (d l : Nat) {m : Nat} (hodd : m % 2 = 1) (h : Heap K) :
    ∃ sub, makeSub (List.replicate m 0 ++ List.replicate m 1) 1 = ok sub ∧ copy op (2 * m) d l (Form.of sub) h = ub := by
  obtain ⟨sub, hs, hf⟩ := odd_sublattice (m := m) (by omega)
  exact ⟨sub, hs, by rw [hf]; exact C84_odd op _ d l (by omega) hodd h⟩

end

/-! ### the hypotheses can be met -/

/-- `u -= v` on the even sublattice of a node with six sites -/
example (h : Heap ℤ) : ∃ sub h', makeSub [0, 0, 0, 1, 1, 1] 0 = ok sub ∧ Form.of sub = .ordered 0 3 ∧ copy .sub 6 0 1 (Form.of sub) h = ok h' ∧
    Copied .sub 0 1 [0, 0, 0, 1, 1, 1] 0 h h' := by
  obtain ⟨sub, hs, hf⟩ : ∃ sub, makeSub [0, 0, 0, 1, 1, 1] 0 = ok sub ∧ Form.of sub = .ordered 0 3 := ⟨_, rfl, rfl⟩
  obtain ⟨h', h1, h2⟩ := C84_copies_partial .sub 0 1 hs (by decide) (fun start n he => by rw [hf] at he; injection he with h1 h2; omega) h
  exact ⟨sub, h', hs, hf, h1, h2⟩

/-- and on the odd one -/
example (h : Heap ℤ) : ∃ sub, makeSub [0, 0, 0, 1, 1, 1] 1 = ok sub ∧ copy .sub 6 0 1 (Form.of sub) h = ub := C84_red_black (m := 3) .sub 0 1 rfl h

/-- `u += adj(u)*u` on sites 0 and 2 -/
example (h : Heap ℤ) : ∃ sub h', makeSub [0, 1, 0] 0 = ok sub ∧
    (branch .hm .add (isOrdered (Form.of sub))).loop (exactLib ℤ) 3 0 0 0 (Form.of sub).table h = ok h' ∧ h' 0 1 = h 0 1 := by
  obtain ⟨sub, hs⟩ : ∃ sub, makeSub [0, 1, 0] 0 = ok sub := ⟨_, rfl⟩
  obtain ⟨h', h1, -, h2, -⟩ := C84_through_tmp exactLib_correct (q := .hm) (op := .add) (.inl (by decide)) 0 0 0 hs h
  exact ⟨sub, h', hs, h1, h2 1 (by decide)⟩

end Verif.SseSingle
