import Verif.Rng
import Verif.ShiftProps
import Mathlib.Data.Nat.ModEq
import Mathlib.Data.Nat.Prime.Basic
/-
C12 - C15: random fields.
-/
namespace Verif.Rng
open Verif Outcome Verif.Layout Verif.ParLayout Verif.Seed Verif.Subset

/-! ## One call on one node -/

/-- every thread that copies its private seed has executed an iteration -/
def Busy (guarded : Bool) (n : Nat) (own : List (List Nat)) : Prop :=
  ∀ t (h : t < own.length), (guarded = false ∨ t < n) → own[t] ≠ []

/-- `random` on a node with at least one site, for any legal schedule in which every copying thread is busy -/
theorem randomLattice_spec {g : Geom} (hg : g.Good) {my : Nat} (hn : my < g.nodes) {st : State} (hst : Ready g my st)
    {guarded : Bool} {tab : List Nat} {k : Nat} {own : List (List Nat)} {crit : List Nat}
    (htab : ∀ i ∈ tab, i < g.sites) (hpos : 0 < tab.length) (hl : Legal tab.length own crit)
    (hb : Busy guarded tab.length own) :
    ∃ w st', randomLattice guarded st tab k own crit = ok (w, st') ∧ (w.map (·.1)).Perm tab ∧
      st' = { st with seed := st'.seed } ∧ st'.seed.Ok ∧
      st'.seed.val = elem A st.seed.val (k * (nsites g.L + 1)) ∧
      ∀ i xs, (i, xs) ∈ w → xs.length = k ∧ ∀ c, g.siteCoords my i = ok c → ∀ q (hq : q < xs.length),
        xs[q].Ok ∧ xs[q].val = elem A st.seed.val ((rank c g.L + 1) + q * (nsites g.L + 1)) := by
  have hit : ∀ j, j < tab.length → ∃ i c xs s', tab[j]? = some i ∧ g.siteCoords my i = ok c ∧
      iter st tab k j = ok ((i, xs), s') ∧ s'.Ok ∧ s'.val = elem A st.seed.val (k * (nsites g.L + 1)) ∧
      xs.length = k ∧ ∀ q (hq : q < xs.length), xs[q].Ok ∧
        xs[q].val = elem A st.seed.val ((rank c g.L + 1) + q * (nsites g.L + 1)) := by
    intro j hj
    have hi := htab tab[j] (List.getElem_mem hj)
    obtain ⟨c, c1, c2, c3, c4⟩ := hg.2 my tab[j] hn hi
    obtain ⟨xs, s', h⟩ := iter_spec hst (k := k) (List.getElem?_eq_getElem hj) c2 c3 c4
    exact ⟨tab[j], c, xs, s', List.getElem?_eq_getElem hj, c1, h⟩
  obtain ⟨-, -, -, s', -, -, -, hs1, hs2, -⟩ := hit 0 hpos
  let w : Nat → Nat × List PSeed := fun j => match iter st tab k j with | ok (x, _) => x | _ => (0, [])
  have hw : ∀ j, j < tab.length → iter st tab k j = ok (w j, s') := by
    intro j hj
    obtain ⟨i, c, xs, s'', h1, h2, h3, h4, h5, -⟩ := hit j hj
    have : s'' = s' := val_inj h4 hs1 (by rw [h5, hs2])
    subst this
    simp [w, h3]
  have hmem : ∀ js ∈ own, ∀ j ∈ js, j < tab.length := by
    intro js hjs j hj
    exact List.mem_range.1 (hl.once.mem_iff.1 (List.mem_flatten.2 ⟨js, hjs, hj⟩))
  have hruns : mapO (fun js => threadRun st tab k js none) own =
      ok (own.map fun js => (js.map w, if js = [] then none else some s')) := by
    apply mapO_ok
    intro js hjs
    exact threadRun_ok (fun j hj => hw j (hmem js hjs j hj)) none
  have hT : 0 < own.length := by
    rcases Nat.eq_zero_or_pos own.length with h | h
    · have := hl.once.length_eq
      rw [List.length_eq_zero_iff.1 h] at this
      simp at this; omega
    · exact h
  have hcr : critical guarded tab.length ((own.map fun js => (js.map w, if js = [] then none else some s')).map (·.2))
      crit st.seed = ok s' := by
    rw [critical_ok (s' := s') crit st.seed]
    · rw [if_pos ⟨0, hl.crit.mem_iff.2 (List.mem_range.2 hT), Or.inr hpos⟩]
    · intro t ht hc
      have htl := List.mem_range.1 (hl.crit.mem_iff.1 ht)
      simp [htl, hb t htl hc]
  have hflat : ((own.map fun js => (js.map w, if js = [] then none else some s')).map (·.1)).flatten =
      own.flatten.map w := by
    rw [List.map_map, List.map_flatten]; rfl
  refine ⟨own.flatten.map w, { st with seed := s' }, ?_, ?_, rfl, hs1, hs2, ?_⟩
  · simp only [randomLattice, hruns, ok_bind, hcr, hflat]
    rfl
  · have hfst : ∀ j, j < tab.length → tab[j]? = some (w j).1 := by
      intro j hj
      obtain ⟨i, c, xs, s'', h1, h2, h3, -⟩ := hit j hj
      rw [hw j hj] at h3
      injection h3 with h3
      rw [h1, (Prod.mk.inj h3).1]
    have h1 : ((own.flatten.map w).map (·.1)).Perm ((List.range tab.length).map fun j => (w j).1) := by
      rw [List.map_map]; exact hl.once.map _
    refine h1.trans (List.Perm.of_eq ?_)
    apply List.ext_getElem?
    intro j
    by_cases hj : j < tab.length
    · rw [hfst j hj]; simp [hj]
    · simp [hj]
  · intro i xs hx
    obtain ⟨j, hj, e⟩ := List.mem_map.1 hx
    have hj' := List.mem_range.1 (hl.once.mem_iff.1 hj)
    obtain ⟨i', c, xs', s'', h1, h2, h3, h4, h5, h6, h7⟩ := hit j hj'
    rw [hw j hj'] at h3
    injection h3 with h3
    have e2 := (Prod.mk.inj h3).1
    rw [e] at e2
    obtain ⟨rfl, rfl⟩ := Prod.mk.inj e2
    refine ⟨h6, ?_⟩
    intro c' hc' q hq
    rw [h2] at hc'; injection hc' with hc'; subst hc'
    exact h7 q hq

theorem Ready.seed' {g : Geom} {my : Nat} {st : State} (h : Ready g my st) {s : PSeed} (hs : s.Ok) :
    Ready g my { st with seed := s } := ⟨hs, h.mult, h.multN, h.len, h.lat⟩

/-! ## C12 -/

/-- C12. Take two machines and site orderings `g1`, `g2` of the same lattice (one may be a single node), any node of each,
any subsets, thread counts, schedules. Both calls succeed; a site drawn on both gets the same numbers on both; the new
seeds agree. -/
theorem C12_layout_independent (g1 g2 : Geom) (hg1 : g1.Good) (hg2 : g2.Good) (hL : g1.L = g2.L) (hne : g1.L ≠ [])
    (hpos : ∀ l ∈ g1.L, 0 < l) (hv : nsites g1.L < 2 ^ 30) (n1 n2 : Nat) (hn1 : n1 < g1.nodes) (hn2 : n2 < g2.nodes)
    (s : PSeed) (hs : s.Ok) (k : Nat) (gd1 gd2 : Bool) (tab1 tab2 : List Nat) (own1 own2 : List (List Nat))
    (crit1 crit2 : List Nat) (ht1 : ∀ i ∈ tab1, i < g1.sites) (ht2 : ∀ i ∈ tab2, i < g2.sites)
    (hp1 : 0 < tab1.length) (hp2 : 0 < tab2.length) (hl1 : Legal tab1.length own1 crit1)
    (hl2 : Legal tab2.length own2 crit2) (hb1 : Busy gd1 tab1.length own1) (hb2 : Busy gd2 tab2.length own2) :
    ∃ st1 st2 w1 w2 st1' st2', initRNG g1 n1 s = ok st1 ∧ initRNG g2 n2 s = ok st2 ∧
      randomLattice gd1 st1 tab1 k own1 crit1 = ok (w1, st1') ∧
      randomLattice gd2 st2 tab2 k own2 crit2 = ok (w2, st2') ∧
      (w1.map (·.1)).Perm tab1 ∧ (w2.map (·.1)).Perm tab2 ∧ st1'.seed = st2'.seed ∧
      ∀ c i1 i2 xs1 xs2, g1.siteCoords n1 i1 = ok c → g2.siteCoords n2 i2 = ok c → (i1, xs1) ∈ w1 → (i2, xs2) ∈ w2 →
        xs1 = xs2 := by
  obtain ⟨st1, e1, s1, r1⟩ := initRNG_ready hg1 hne hpos hv hn1 hs
  obtain ⟨st2, e2, s2, r2⟩ := initRNG_ready hg2 (hL ▸ hne) (hL ▸ hpos) (hL ▸ hv) hn2 hs
  obtain ⟨w1, st1', a1, a2, a3, a4, a5, a6⟩ := randomLattice_spec hg1 hn1 r1 (k := k) ht1 hp1 hl1 hb1
  obtain ⟨w2, st2', b1, b2, b3, b4, b5, b6⟩ := randomLattice_spec hg2 hn2 r2 (k := k) ht2 hp2 hl2 hb2
  refine ⟨st1, st2, w1, w2, st1', st2', e1, e2, a1, b1, a2, b2, ?_, ?_⟩
  · exact val_inj a4 b4 (by rw [a5, b5, s1, s2, hL])
  · intro c i1 i2 xs1 xs2 hc1 hc2 hx1 hx2
    obtain ⟨p1, p2⟩ := a6 i1 xs1 hx1
    obtain ⟨q1, q2⟩ := b6 i2 xs2 hx2
    apply List.ext_getElem (by omega)
    intro q h1 h2
    obtain ⟨u1, u2⟩ := p2 c hc1 q h1
    obtain ⟨v1, v2⟩ := q2 c hc2 q h2
    exact val_inj u1 v1 (by rw [u2, v2, s1, s2, hL])

/-! ## Histories -/

/-- one call of the random-number interface -/
inductive Op where
  | scalar (k : Nat)
  | lattice (guarded : Bool) (tab : List Nat) (k : Nat) (own : List (List Nat)) (crit : List Nat)
  | setrn (s : PSeed)
  | savern

/-- what a call returns -/
inductive Out where
  | none
  | nums (xs : List PSeed)
  | field (w : List (Nat × List PSeed))
  | seed (s : PSeed)
deriving DecidableEq

/-- one call; `setrn` and `savern` are lib/qdp_random.cc:177-187 -/
def step (st : State) : Op → Outcome (Out × State)
  | .scalar k => do
      let (xs, st') ← randomScalar st k
      return (.nums xs, st')
  | .lattice gd tab k own crit => do
      let (w, st') ← randomLattice gd st tab k own crit
      return (.field w, st')
  | .setrn s => ok (.none, { st with seed := s })
  | .savern => ok (.seed st.seed, st)

/-- a history of calls -/
def run (st : State) : List Op → Outcome (List Out × State)
  | [] => ok ([], st)
  | op :: ops => do
      let (o, st') ← step st op
      let (os, st'') ← run st' ops
      return (o :: os, st'')

theorem step_fields {st st' : State} {op : Op} {o : Out} (h : step st op = ok (o, st')) :
    st' = { st with seed := st'.seed } := by
  cases op with
  | scalar k =>
    simp only [step, randomScalar, bind_eq_ok] at h
    obtain ⟨⟨xs, s1⟩, ⟨a, ha, ⟨b, c, d⟩, hb, hc⟩, hd⟩ := h
    simp only [pure_def, ok.injEq, Prod.mk.injEq] at hc hd
    rw [← hd.2, ← hc.2]
  | lattice gd tab k own crit =>
    simp only [step, randomLattice, bind_eq_ok] at h
    obtain ⟨⟨w, s1⟩, ⟨a, ha, b, hb, hc⟩, hd⟩ := h
    simp only [pure_def, ok.injEq, Prod.mk.injEq] at hc hd
    rw [← hd.2, ← hc.2]
  | setrn s => simp only [step, ok.injEq, Prod.mk.injEq] at h; rw [← h.2]
  | savern => simp only [step, ok.injEq, Prod.mk.injEq] at h; rw [← h.2]

theorem run_fields {ops : List Op} {st st' : State} {o : List Out} (h : run st ops = ok (o, st')) :
    st' = { st with seed := st'.seed } := by
  induction ops generalizing st o with
  | nil => simp only [run, ok.injEq, Prod.mk.injEq] at h; rw [← h.2]
  | cons op ops ih =>
    simp only [run, bind_eq_ok] at h
    obtain ⟨⟨o1, s1⟩, h1, ⟨os, s2⟩, h2, h3⟩ := h
    simp only [pure_def, ok.injEq, Prod.mk.injEq] at h3
    obtain ⟨-, rfl⟩ := h3
    have e1 := step_fields h1
    have e2 := ih h2
    rw [e1] at e2
    exact e2

/-- C14. `savern` returns the seed and changes nothing. After any history, `setrn` of the saved seed makes every
later history return exactly what it would have returned at the time of the save, and end in the same state. -/
theorem C14_replay (st : State) (h1 : List Op) (o1 : List Out) (st1 : State) (hrun : run st h1 = ok (o1, st1)) :
    step st .savern = ok (.seed st.seed, st) ∧
    ∀ h2 : List Op, run st1 (.setrn st.seed :: h2) =
      (do let (o2, st2) ← run st h2; return (Out.none :: o2, st2)) := by
  refine ⟨rfl, ?_⟩
  intro h2
  have hf := run_fields hrun
  have : ({ st1 with seed := st.seed } : State) = st := by rw [hf]
  simp only [run, step, ok_bind, this]

/-! ## C13 -/

/-- calls whose behaviour C13 describes -/
def Op.Valid (g : Geom) : Op → Prop
  | .scalar _ => True
  | .lattice gd tab _ own crit => (∀ i ∈ tab, i < g.sites) ∧ 0 < tab.length ∧ Legal tab.length own crit ∧
      Busy gd tab.length own
  | _ => False

/-- sites drawing in parallel in a call, out of a volume `v` -/
def Op.width (v : Nat) : Op → Nat
  | .lattice .. => v
  | _ => 1

/-- distance between consecutive draws of one site -/
def Op.stride (v : Nat) : Op → Nat
  | .lattice .. => v + 1
  | _ => 1

/-- numbers drawn per site -/
def Op.count : Op → Nat
  | .scalar k => k
  | .lattice _ _ k _ _ => k
  | _ => 0

/-- elements of the sequence consumed before call number `m` -/
def base (v : Nat) (ops : List Op) (m : Nat) : Nat := ((ops.take m).map fun op => op.count * op.stride v).sum

/-- the element of the sequence used by draw `q` of lexicographic site `l` in call `m` (`l = 0` for a scalar call) -/
def index (v : Nat) (ops : List Op) (m : Nat) (op : Op) (l q : Nat) : Nat := base v ops m + (l + 1) + q * op.stride v

/-- the output of a call consists of the documented elements -/
def Matches (g : Geom) (my s b : Nat) : Op → Out → Prop
  | .scalar k, .nums xs => xs.length = k ∧ ∀ q (h : q < xs.length), xs[q].Ok ∧ xs[q].val = elem A s (b + 1 + q)
  | .lattice _ tab k _ _, .field w => (w.map (·.1)).Perm tab ∧ ∀ i xs, (i, xs) ∈ w → xs.length = k ∧
      ∀ c, g.siteCoords my i = ok c → ∀ q (h : q < xs.length), xs[q].Ok ∧
        xs[q].val = elem A s (b + (rank c g.L + 1) + q * (nsites g.L + 1))
  | _, _ => False

theorem elem_elem (a s m n : Nat) : elem a (elem a s m) n = elem a s (m + n) := by
  simp only [elem]
  rw [Nat.mul_mod_mod, ← Nat.mul_assoc, ← Nat.pow_add, Nat.add_comm]

theorem step_matches {g : Geom} (hg : g.Good) {my : Nat} (hn : my < g.nodes) {st : State} (hst : Ready g my st)
    {op : Op} (hop : op.Valid g) {s b : Nat} (hs : st.seed.val = elem A s b) :
    ∃ o st', step st op = ok (o, st') ∧ Ready g my st' ∧
      st'.seed.val = elem A s (b + op.count * op.stride (nsites g.L)) ∧ Matches g my s b op o := by
  cases op with
  | scalar k =>
    obtain ⟨sk, k1, k2, k3⟩ := mul_spec hst.seed hst.mult.1
    obtain ⟨xs, s', t', h1, h2, h3, h4, h5⟩ := draws_spec st.mult hst.mult.1 k st.seed sk hst.seed k2
    refine ⟨.nums xs, { st with seed := s' }, ?_, hst.seed' h2, ?_, h4, ?_⟩
    · simp only [step, randomScalar, k1, ok_bind, h1]; rfl
    · rw [h3, hst.mult.2, hs]
      simp only [Op.count, Op.stride, Nat.mul_one]
      exact elem_elem A s b k
    · intro q hq
      obtain ⟨a1, a2⟩ := h5 q hq
      refine ⟨a1, ?_⟩
      rw [a2, k3, hst.mult.2, hs, Nat.mul_comm (elem A s b)]
      have e1 : A * elem A s b % 2 ^ 47 = elem A s (b + 1) := by
        have := elem_elem A s b 1; simpa [elem] using this
      rw [e1]
      exact elem_elem A s (b + 1) q
  | lattice gd tab k own crit =>
    obtain ⟨v1, v2, v3, v4⟩ := hop
    obtain ⟨w, st', a1, a2, a3, a4, a5, a6⟩ := randomLattice_spec hg hn hst (k := k) v1 v2 v3 v4
    refine ⟨.field w, st', ?_, ?_, ?_, a2, ?_⟩
    · simp only [step, a1, ok_bind]; rfl
    · rw [a3]; exact hst.seed' a4
    · rw [a5, hs]; exact elem_elem _ _ _ _
    · intro i xs hx
      obtain ⟨p1, p2⟩ := a6 i xs hx
      refine ⟨p1, ?_⟩
      intro c hc q hq
      obtain ⟨u1, u2⟩ := p2 c hc q hq
      refine ⟨u1, ?_⟩
      rw [u2, hs, elem_elem]
      congr 1; omega
  | setrn s => exact hop.elim
  | savern => exact hop.elim

theorem run_matches {g : Geom} (hg : g.Good) {my : Nat} (hn : my < g.nodes) (ops : List Op) {st : State}
    (hst : Ready g my st) (hop : ∀ op ∈ ops, op.Valid g) {s b : Nat} (hs : st.seed.val = elem A s b) :
    ∃ os st', run st ops = ok (os, st') ∧ os.length = ops.length ∧
      st'.seed.val = elem A s (b + base (nsites g.L) ops ops.length) ∧
      ∀ m (h1 : m < ops.length) (h2 : m < os.length), Matches g my s (b + base (nsites g.L) ops m) ops[m] os[m] := by
  induction ops generalizing st b with
  | nil => exact ⟨[], st, rfl, rfl, by simpa [base] using hs, by simp⟩
  | cons op ops ih =>
    simp only [List.mem_cons, forall_eq_or_imp] at hop
    obtain ⟨o, st1, h1, h2, h3, h4⟩ := step_matches hg hn hst hop.1 hs
    obtain ⟨os, st2, g1, g2, g3, g4⟩ := ih h2 hop.2 h3
    refine ⟨o :: os, st2, by simp [run, h1, g1], by simp [g2], ?_, ?_⟩
    · rw [g3]; congr 1; simp [base]; omega
    · intro m hm1 hm2
      cases m with
      | zero => simpa [base] using h4
      | succ m =>
        have := g4 m (by simpa using hm1) (by simpa using hm2)
        simp only [List.getElem_cons_succ]
        have e : b + op.count * op.stride (nsites g.L) + base (nsites g.L) ops m =
            b + base (nsites g.L) (op :: ops) (m + 1) := by simp [base]; omega
        rwa [e] at this

/-- C13. Starting from any seed, in any history of scalar and lattice calls, draw `q` at the site of lexicographic
rank `l` in call `m` is element `index` of the sequence started at the seed, and the seed after the history is the
element following all of them. -/
theorem C13_sequence (g : Geom) (hg : g.Good) (hne : g.L ≠ []) (hpos : ∀ l ∈ g.L, 0 < l) (hv : nsites g.L < 2 ^ 30)
    (my : Nat) (hn : my < g.nodes) (s : PSeed) (hs : s.Ok) (ops : List Op) (hop : ∀ op ∈ ops, op.Valid g) :
    ∃ st os st', initRNG g my s = ok st ∧ run st ops = ok (os, st') ∧ os.length = ops.length ∧
      st'.seed.val = elem A s.val (base (nsites g.L) ops ops.length) ∧
      ∀ m (h1 : m < ops.length) (h2 : m < os.length),
        (∀ k, ops[m] = .scalar k → ∃ xs, os[m] = .nums xs ∧ xs.length = k ∧ ∀ q (h : q < xs.length),
          xs[q].val = elem A s.val (index (nsites g.L) ops m ops[m] 0 q)) ∧
        (∀ gd tab k own crit, ops[m] = .lattice gd tab k own crit → ∃ w, os[m] = .field w ∧ (w.map (·.1)).Perm tab ∧
          ∀ i xs, (i, xs) ∈ w → xs.length = k ∧ ∀ c, g.siteCoords my i = ok c → ∀ q (h : q < xs.length),
            xs[q].val = elem A s.val (index (nsites g.L) ops m ops[m] (rank c g.L) q)) := by
  obtain ⟨st, e1, s1, r1⟩ := initRNG_ready hg hne hpos hv hn hs
  have h0 : st.seed.val = elem A s.val 0 := by
    rw [s1, elem, Nat.pow_zero, Nat.one_mul, Nat.mod_eq_of_lt (val_lt hs)]
  obtain ⟨os, st', a1, a2, a3, a4⟩ := run_matches hg hn ops r1 hop h0
  refine ⟨st, os, st', e1, a1, a2, by simpa using a3, ?_⟩
  intro m h1 h2
  have hm := a4 m h1 h2
  rw [Nat.zero_add] at hm
  constructor
  · intro k hk
    rw [hk] at hm
    cases ho : os[m] with
    | nums xs =>
      rw [ho] at hm
      refine ⟨xs, rfl, hm.1, fun q h => ?_⟩
      rw [(hm.2 q h).2, hk]
      simp [index, Op.stride]
    | _ => rw [ho] at hm; exact hm.elim
  · intro gd tab k own crit hk
    rw [hk] at hm
    cases ho : os[m] with
    | field w =>
      rw [ho] at hm
      refine ⟨w, rfl, hm.1, fun i xs hx => ⟨(hm.2 i xs hx).1, fun c hc q h => ?_⟩⟩
      rw [((hm.2 i xs hx).2 c hc q h).2, hk]
      simp [index, Op.stride]
    | _ => rw [ho] at hm; exact hm.elim

theorem base_mono {v : Nat} {ops : List Op} {m m' : Nat} (h : m < m') (hm : m < ops.length) :
    base v ops m + ops[m].count * ops[m].stride v ≤ base v ops m' := by
  have e1 : base v ops (m + 1) = base v ops m + ops[m].count * ops[m].stride v := by
    simp only [base]
    rw [List.take_add_one, List.getElem?_eq_getElem hm, List.map_append, List.sum_append]
    simp
  have mono : ∀ d, base v ops (m + 1) ≤ base v ops (m + 1 + d) := by
    intro d
    induction d with
    | zero => exact Nat.le_refl _
    | succ d ih =>
      refine ih.trans ?_
      rw [← Nat.add_assoc]
      simp only [base]
      rw [List.take_add_one (i := m + 1 + d), List.map_append, List.sum_append]
      omega
  have := mono (m' - (m + 1))
  rw [show m + 1 + (m' - (m + 1)) = m' by omega] at this
  omega

/-- C13. No two draws of a history use the same element of the sequence, in whichever calls, sites and draw numbers
they are, and no lattice draw uses an element at which a call started (the global seed). -/
theorem C13_no_reuse (v : Nat) (ops : List Op) (m m' : Nat) (hm : m < ops.length) (hm' : m' < ops.length)
    (l q l' q' : Nat) (hl : l < ops[m].width v) (hq : q < ops[m].count) (hl' : l' < ops[m'].width v)
    (hq' : q' < ops[m'].count) (h : index v ops m ops[m] l q = index v ops m' ops[m'] l' q') :
    m = m' ∧ l = l' ∧ q = q' := by
  have bound : ∀ (op : Op) (l q : Nat), l < op.width v → q < op.count →
      0 < (l + 1) + q * op.stride v ∧ (l + 1) + q * op.stride v ≤ op.count * op.stride v := by
    intro op l q hl hq
    refine ⟨by omega, ?_⟩
    have h1 : (q + 1) * op.stride v ≤ op.count * op.stride v := Nat.mul_le_mul_right _ hq
    have h2 : op.width v ≤ op.stride v := by cases op <;> simp [Op.width, Op.stride]
    rw [Nat.add_mul, Nat.one_mul] at h1
    omega
  have b1 := bound ops[m] l q hl hq
  have b2 := bound ops[m'] l' q' hl' hq'
  simp only [index] at h
  have hmm : m = m' := by
    rcases Nat.lt_trichotomy m m' with hlt | heq | hgt
    · have := base_mono (v := v) hlt hm; omega
    · exact heq
    · have := base_mono (v := v) hgt hm'; omega
  subst hmm
  refine ⟨rfl, ?_⟩
  have hst : 0 < ops[m].stride v ∧ ops[m].width v ≤ ops[m].stride v := by cases ops[m] <;> simp [Op.width, Op.stride]
  have e : l + q * ops[m].stride v = l' + q' * ops[m].stride v := by omega
  have hmod := congrArg (· % ops[m].stride v) e
  simp only [Nat.add_mul_mod_self_right] at hmod
  rw [Nat.mod_eq_of_lt (by omega), Nat.mod_eq_of_lt (by omega)] at hmod
  subst hmod
  exact ⟨rfl, Nat.eq_of_mul_eq_mul_right hst.1 (by omega)⟩

/-- C13. The start of a call is never one of the elements its sites use; the strides leave it out. -/
theorem C13_seed_skipped (v : Nat) (l q : Nat) (hl : l < v) (n : Nat) : (l + 1) + q * (v + 1) ≠ n * (v + 1) := by
  intro h
  have := congrArg (· % (v + 1)) h
  simp only [Nat.add_mul_mod_self_right, Nat.mul_mod_left] at this
  rw [Nat.mod_eq_of_lt (by omega)] at this
  omega

/-! ### the elements themselves are different -/

theorem pow_two_pow {a : Nat} (ha : a % 8 = 5) (j : Nat) : a ^ 2 ^ j % 2 ^ (j + 3) = 1 + 2 ^ (j + 2) := by
  induction j with
  | zero => simpa using ha
  | succ j ih =>
    obtain ⟨c, hc⟩ : ∃ c, a ^ 2 ^ j = 1 + 2 ^ (j + 2) + 2 ^ (j + 3) * c :=
      ⟨a ^ 2 ^ j / 2 ^ (j + 3), by have := Nat.mod_add_div (a ^ 2 ^ j) (2 ^ (j + 3)); omega⟩
    have e : a ^ 2 ^ (j + 1) = (a ^ 2 ^ j) * (a ^ 2 ^ j) := by rw [Nat.pow_succ, Nat.pow_mul]; ring
    have e2 : (a ^ 2 ^ j) * (a ^ 2 ^ j) =
        (1 + 2 ^ (j + 3)) + 2 ^ (j + 4) * (c + 2 ^ j * (1 + 2 * c) * (1 + 2 * c)) := by
      rw [hc]; ring
    rw [e, e2, show j + 1 + 3 = j + 4 from rfl, show j + 1 + 2 = j + 3 from rfl, Nat.add_mul_mod_self_left]
    apply Nat.mod_eq_of_lt
    have : 2 ^ (j + 4) = 2 * 2 ^ (j + 3) := by ring
    have h3 : 1 < 2 ^ (j + 3) := Nat.one_lt_two_pow (by omega)
    omega

theorem pow_ne_one {a : Nat} (ha : a % 8 = 5) {d : Nat} (hd : 0 < d) (hd' : d < 2 ^ 45) : a ^ d % 2 ^ 47 ≠ 1 := by
  obtain ⟨j, m, hm, e⟩ : ∃ j m, m % 2 = 1 ∧ d = 2 ^ j * m := by
    clear hd'
    induction d using Nat.strongRecOn with
    | ind d ih =>
      by_cases h : d % 2 = 1
      · exact ⟨0, d, h, by simp⟩
      · obtain ⟨j, m, h1, h2⟩ := ih (d / 2) (by omega) (by omega)
        exact ⟨j + 1, m, h1, by rw [Nat.pow_succ, Nat.mul_comm (2 ^ j), Nat.mul_assoc, ← h2]; omega⟩
  have hj : j < 45 := by
    have : 2 ^ j ≤ d := by rw [e]; exact Nat.le_mul_of_pos_right _ (by omega)
    exact (Nat.pow_lt_pow_iff_right (by omega : 1 < 2)).1 (by omega : 2 ^ j < 2 ^ 45)
  intro h
  have h1 : a ^ d % 2 ^ (j + 3) = 1 := by
    have hdvd : 2 ^ (j + 3) ∣ 2 ^ 47 := Nat.pow_dvd_pow 2 (by omega)
    have := congrArg (· % 2 ^ (j + 3)) h
    simp only [Nat.mod_mod_of_dvd _ hdvd] at this
    rw [this]
    exact Nat.mod_eq_of_lt (Nat.one_lt_two_pow (by omega))
  have key : ∀ m, (1 + 2 ^ (j + 2)) ^ m % 2 ^ (j + 3) = 1 + 2 ^ (j + 2) * (m % 2) := by
    intro m
    have hb : 2 ^ (j + 3) = 2 * 2 ^ (j + 2) := by ring
    have hp : 1 < 2 ^ (j + 2) := Nat.one_lt_two_pow (by omega)
    induction m with
    | zero => simp
    | succ m ih =>
      rw [Nat.pow_succ, Nat.mul_mod, ih]
      rw [Nat.mod_eq_of_lt (show 1 + 2 ^ (j + 2) < 2 ^ (j + 3) by omega)]
      rcases Nat.mod_two_eq_zero_or_one m with h | h
      · rw [h, show (m + 1) % 2 = 1 by omega]
        simp only [Nat.mul_zero, Nat.add_zero, Nat.one_mul, Nat.mul_one]
        exact Nat.mod_eq_of_lt (by omega)
      · rw [h, show (m + 1) % 2 = 0 by omega]
        simp only [Nat.mul_one, Nat.mul_zero, Nat.add_zero]
        have : (1 + 2 ^ (j + 2)) * (1 + 2 ^ (j + 2)) = 1 + 2 ^ (j + 3) * (1 + 2 ^ (j + 1)) := by ring
        rw [this, Nat.add_mul_mod_self_left]
        exact Nat.mod_eq_of_lt (by omega)
  rw [e, Nat.pow_mul, Nat.pow_mod, pow_two_pow ha, key, hm] at h1
  have : 0 < 2 ^ (j + 2) := Nat.pow_pos (by omega)
  omega

/-- C13. For an odd seed the sequence has period at least 2^45: elements fewer than 2^45 apart are different 47-bit
integers, so draws at different sites are different numbers before rounding, not only different positions. -/
theorem C13_distinct (s : Nat) (hs : s % 2 = 1) (n n' : Nat) (hlt : n < n') (hd : n' - n < 2 ^ 45) :
    elem A s n ≠ elem A s n' := by
  intro h
  have hA : A % 8 = 5 := by decide
  have e : A ^ n' * s = A ^ n * s * A ^ (n' - n) := by
    rw [show A ^ n' = A ^ (n + (n' - n)) by congr 1; omega, Nat.pow_add]; ring
  have hm : (A ^ n * s) * 1 ≡ (A ^ n * s) * A ^ (n' - n) [MOD 2 ^ 47] := by
    rw [← e, Nat.mul_one]; exact h
  have hodd : (A ^ n * s) % 2 = 1 := by
    rw [Nat.mul_mod, Nat.pow_mod, show A % 2 = 1 by decide, Nat.one_pow, hs]
  have hcop : Nat.gcd (2 ^ 47) (A ^ n * s) = 1 := by
    apply Nat.Coprime.pow_left
    rw [Nat.Prime.coprime_iff_not_dvd Nat.prime_two]
    omega
  have := Nat.ModEq.cancel_left_of_coprime hcop hm
  refine pow_ne_one hA (show 0 < n' - n by omega) hd ?_
  have h2 : 1 % 2 ^ 47 = A ^ (n' - n) % 2 ^ 47 := this
  rw [← h2]; decide

/-! ## C15 -/

/-- iterations of thread `t` under the static schedule of `n` iterations on `T` threads -/
def staticOwn (n T : Nat) : List (List Nat) :=
  (List.range T).map fun t => List.range' (t * (n / T) + min t (n % T)) (n / T + if t < n % T then 1 else 0)

theorem staticOwn_flatten (n T : Nat) (hT : 0 < T) : (staticOwn n T).flatten = List.range n := by
  have key : ∀ m, m ≤ T → ((List.range m).map fun t =>
      List.range' (t * (n / T) + min t (n % T)) (n / T + if t < n % T then 1 else 0)).flatten =
      List.range' 0 (m * (n / T) + min m (n % T)) := by
    intro m hm
    induction m with
    | zero => simp
    | succ m ih =>
      rw [List.range_succ, List.map_append, List.flatten_append, ih (by omega)]
      simp only [List.map_cons, List.map_nil, List.flatten_cons, List.flatten_nil, List.append_nil]
      have := List.range'_append (s := 0) (m := m * (n / T) + min m (n % T))
        (n := n / T + if m < n % T then 1 else 0) (step := 1)
      rw [Nat.one_mul, Nat.zero_add] at this
      rw [this]
      congr 1
      rw [Nat.add_mul, Nat.one_mul]
      split <;> omega
  rw [staticOwn, key T (Nat.le_refl _), List.range_eq_range']
  congr 1
  have h1 := Nat.mod_lt n hT
  have h2 := Nat.div_add_mod n T
  rw [Nat.min_eq_right (by omega)]
  exact h2

theorem staticOwn_legal (n T : Nat) (hT : 0 < T) {crit : List Nat} (hc : crit.Perm (List.range T)) :
    Legal n (staticOwn n T) crit :=
  ⟨by rw [staticOwn_flatten n T hT], by simpa [staticOwn] using hc⟩

theorem staticOwn_busy (n T : Nat) : Busy true n (staticOwn n T) := by
  intro t ht h
  have ht : t < T := by simpa [staticOwn] using ht
  simp only [staticOwn, List.getElem_map, List.getElem_range]
  intro e
  have h0 := congrArg List.length e
  simp only [List.length_range', List.length_nil] at h0
  have htn : t < n := by
    rcases h with h | h
    · exact absurd h (by simp)
    · exact h
  have hq : n / T = 0 := Nat.eq_zero_of_add_eq_zero_right h0
  have hlt : n < T := by
    rcases Nat.lt_or_ge n T with h | h
    · exact h
    · have := Nat.div_pos h (by omega : 0 < T); omega
  rw [Nat.mod_eq_of_lt hlt, if_pos htn] at h0
  omega

/-- C15, partial. On a node that owns at least one site of the subset the new seed is the old one advanced by `k` draws
of the whole lattice, for every legal schedule and critical order in which each thread that copies its seed has run
an iteration.  Missing: nodes without a site (see `C15_empty_node`) and idle threads (see `C15_idle_thread`). -/
theorem C15_seed_partial (g : Geom) (hg : g.Good) (my : Nat) (hn : my < g.nodes) (st : State) (hst : Ready g my st)
    (guarded : Bool) (tab : List Nat) (k : Nat) (own : List (List Nat)) (crit : List Nat)
    (htab : ∀ i ∈ tab, i < g.sites) (hpos : 0 < tab.length) (hl : Legal tab.length own crit)
    (hb : Busy guarded tab.length own) :
    ∃ w st', randomLattice guarded st tab k own crit = ok (w, st') ∧ st'.seed.Ok ∧
      st'.seed.val = A ^ (k * (nsites g.L + 1)) * st.seed.val % 2 ^ 47 := by
  obtain ⟨w, st', h1, -, -, h2, h3, -⟩ := randomLattice_spec hg hn hst (k := k) htab hpos hl hb
  exact ⟨w, st', h1, h2, h3⟩

/-- C15, partial. Multi-node code under a static schedule: any number of threads, also more threads than sites. -/
theorem C15_static_partial (g : Geom) (hg : g.Good) (my : Nat) (hn : my < g.nodes) (st : State) (hst : Ready g my st)
    (tab : List Nat) (k T : Nat) (hT : 0 < T) (crit : List Nat) (hc : crit.Perm (List.range T))
    (htab : ∀ i ∈ tab, i < g.sites) (hpos : 0 < tab.length) :
    ∃ w st', randomLattice true st tab k (staticOwn tab.length T) crit = ok (w, st') ∧
      st'.seed.val = A ^ (k * (nsites g.L + 1)) * st.seed.val % 2 ^ 47 := by
  obtain ⟨w, st', h1, -, h2⟩ := C15_seed_partial g hg my hn st hst true tab k _ crit htab hpos
    (staticOwn_legal _ T hT hc) (staticOwn_busy _ T)
  exact ⟨w, st', h1, h2⟩

/-- C15, refutation. A node that owns no site of the subset keeps the old seed (multi-node code, any schedule). -/
theorem C15_empty_node (st : State) (k T : Nat) (crit : List Nat) :
    randomLattice true st [] k (List.replicate T []) crit = ok ([], st) := by
  have h1 : mapO (fun js => threadRun st [] k js none) (List.replicate T []) =
      ok ((List.replicate T ([] : List Nat)).map fun _ => ([], none)) := by
    apply mapO_ok
    intro js hjs
    rw [List.eq_of_mem_replicate hjs]; rfl
  have h2 : ∀ (privs : List (Option PSeed)), critical true 0 privs crit st.seed = ok st.seed := by
    intro privs
    induction crit with
    | nil => rfl
    | cons t ts ih => simpa [critical] using ih
  simp only [randomLattice, h1, ok_bind, List.length_nil, h2]
  simp

/-- C15, refutation. In the single-node code, if some thread gets no iteration (more threads than sites, or an empty
subset) its uninitialised seed is copied to the global seed: the behaviour is undefined, whatever the schedule. -/
theorem C15_idle_thread (st : State) (tab : List Nat) (k : Nat) (own : List (List Nat)) (crit : List Nat) (t : Nat)
    (ht : t ∈ crit) (htl : t < own.length) (hidle : own[t] = []) (w : List (Nat × List PSeed)) (st' : State) :
    randomLattice false st tab k own crit ≠ ok (w, st') := by
  intro h
  simp only [randomLattice, bind_eq_ok] at h
  obtain ⟨runs, h1, s, h2, -⟩ := h
  have hr : (runs.map (·.2))[t]? = some none := by
    obtain ⟨hlen, hget⟩ := mapO_eq_ok h1
    have hget := hget t htl (by omega)
    rw [hidle] at hget
    simp only [threadRun] at hget
    have : runs[t]? = some ([], none) := by
      rw [List.getElem?_eq_getElem (by omega)]
      injection hget with hget
      rw [← hget]
    simp [this]
  clear h1
  generalize runs.map (·.2) = privs at *
  generalize st.seed = cur at *
  induction crit generalizing cur with
  | nil => simp at ht
  | cons t' ts ih =>
    simp only [critical, Bool.false_and, Bool.false_eq_true, if_false, bind_eq_ok] at h2
    obtain ⟨p, hp, h2⟩ := h2
    rcases List.mem_cons.1 ht with rfl | ht
    · rw [rd_eq_ok, hr] at hp
      injection hp with hp; subst hp
      exact absurd h2 (by simp)
    · cases p with
      | none => exact absurd h2 (by simp)
      | some s' => exact ih ht _ h2

/-- Setting up the generator needs a volume below 2^30, although the comment at lib/qdp_random.cc:75 says "there are no lattice
size restrictions here": for every volume in [2^30, 2^31) the doubling `iceiling *= 2` overflows. -/
theorem numbits_overflow (x : Nat) (h : 2 ^ 30 ≤ x) : numbits x = ub := by
  have key : ∀ fuel num, 1 ≤ num → num + fuel = 33 → num ≤ 30 → numbitsLoop x fuel num (2 ^ num) = ub := by
    intro fuel
    induction fuel with
    | zero => intro num h1 h2 h3; omega
    | succ f ih =>
      intro num h1 h2 h3
      have hle : 2 ^ num ≤ 2 ^ 30 := Nat.pow_le_pow_right (by omega) h3
      rw [numbitsLoop, if_pos (by omega), ← Nat.pow_succ]
      by_cases h30 : num = 30
      · subst h30; rfl
      · have : 2 ^ (num + 1) ≤ 2 ^ 30 := Nat.pow_le_pow_right (by omega) (by omega)
        rw [ckInt_of_lt (by omega), ok_bind]
        exact ih (num + 1) (by omega) (by omega) (by omega)
  exact key 32 1 (by omega) (by omega) (by omega)

/-! ### witnesses -/

/-- a 4x2 lattice on one node, lexicographic -/
def w1 : Geom := geomLex [4, 2] (lexMachine [1, 1]) [4, 2]
/-- the same lattice on two nodes, two-colour ordering -/
def w2 : Geom := geomCB2 [4, 2] (lexMachine [2, 1]) [2, 2]

theorem w1_good : w1.Good :=
  C02_lexico [4, 2] [4, 2] (lexMachine [1, 1]) (lexMachine_good _) (by simp [Cut, lexMachine]) (by simp) (by simp)
    (by simp [lexMachine]) (by decide)
theorem w2_good : w2.Good :=
  C02_cb2 [4, 2] [2] 2 (lexMachine [2, 1]) (lexMachine_good _) (by simp [Cut, lexMachine]) (by simp) (by simp)
    (by decide)

example : w1.L = w2.L ∧ w1.L ≠ [] ∧ nsites w1.L < 2 ^ 30 ∧ (∀ l ∈ w1.L, 0 < l) ∧ 1 < w2.nodes ∧ w2.sites = 4 := by
  decide
/-- three threads on eight sites, dynamic order -/
def wOwn : List (List Nat) := [[5, 2], [7, 0, 1], [3, 6, 4]]
example : Legal 8 wOwn [2, 0, 1] := ⟨by decide, by decide⟩
example : Busy false 8 wOwn := by
  intro t ht _
  have : t = 0 ∨ t = 1 ∨ t = 2 := by simp [wOwn] at ht; omega
  rcases this with rfl | rfl | rfl <;> simp [wOwn]
example : (Op.lattice false (List.range 8) 2 wOwn [2, 0, 1]).count = 2 ∧
    (Op.lattice false (List.range 8) 2 wOwn [2, 0, 1]).stride 8 = 9 := by decide

/-- C15, refutation, concretely: two nodes, a subset with a site on node 0 only; after the call the two nodes hold
different seeds, so later random fields are drawn from different streams. -/
theorem C15_nodes_diverge : ∃ st0 st1 w st0', initRNG w2 0 ⟨11, 0, 0, 0⟩ = ok st0 ∧ initRNG w2 1 ⟨11, 0, 0, 0⟩ = ok st1 ∧
    randomLattice true st0 [0] 1 [[0]] [0] = ok (w, st0') ∧ randomLattice true st1 [] 1 [[]] [0] = ok ([], st1) ∧
    st0'.seed ≠ st1.seed := by
  obtain ⟨st0, e0, s0, r0⟩ := initRNG_ready w2_good (by decide) (by decide) (by decide) (show 0 < w2.nodes by decide)
    (show (⟨11, 0, 0, 0⟩ : PSeed).Ok by decide)
  obtain ⟨st1, e1, s1, r1⟩ := initRNG_ready w2_good (by decide) (by decide) (by decide) (show 1 < w2.nodes by decide)
    (show (⟨11, 0, 0, 0⟩ : PSeed).Ok by decide)
  obtain ⟨w, st0', a1, a2⟩ := C15_static_partial w2 w2_good 0 (by decide) st0 r0 [0] 1 1 (by decide) [0] (by decide)
    (by simp [w2, geomCB2, nsites]) (by decide)
  refine ⟨st0, st1, w, st0', e0, e1, a1, C15_empty_node st1 1 1 [0], ?_⟩
  intro h
  rw [h, s1, s0] at a2
  revert a2
  decide

end Verif.Rng
