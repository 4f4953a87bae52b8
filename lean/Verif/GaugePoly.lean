import Verif.GaugeThm
/-
C94: the Polyakov loop.
-/
namespace Verif.Gauge
open Verif Outcome Verif.Layout Verif.ParLayout Verif.ParMap Verif.Spmd Verif.Shift Verif.Subset Verif.Network
open Finset

theorem getD_lt {l : List Nat} {i : Nat} (h : i < l.length) : l.getD i 0 = l[i] := by simp [List.getD, h]

/-! ## Running the program -/

theorem polyLoop_run {n : Nat} {R : Type} {L : List Nat} (hL : ∀ l ∈ L, 5 * l < 2 ^ 31) {b mu : Nat} (hb : L.length ≤ b) (hmu : mu < L.length)
    (u : GaugeField n) : ∀ (m j : Nat) (f : Nat → List Nat → V n), (∀ c, InRange c L → (f mu c).m = u mu c) →
    (∀ c, InRange c L → (f b c).m = line L u mu j c) → ∃ f', (∀ x, x < b → f' x = f x) ∧ (∀ c, InRange c L → (f' b c).m = line L u mu (j + m) c) ∧
      ∀ k : Prog (V n) R, run (latticeSum L) (polyLoop L b mu m k) f = run (latticeSum L) k f' ∧
        (Legal (latticeSum L) L k f' → Legal (latticeSum L) L (polyLoop L b mu m k) f)
  | 0, j, f, _, hj => ⟨f, fun _ _ => rfl, hj, fun _ => ⟨rfl, id⟩⟩
  | m + 1, j, f, hu, hj => by
    let f1 := Function.update f (b + 1) fun c => f b (source (shiftF L mu) c)
    let f2 := Function.update f1 b fun c => if allSites.fn c = allSites.cb then (m2 mu (b + 1) fun x y => x * y).at f1 c else f1 b c
    have e2 : ∀ x, x < b → f2 x = f x := by
      intro x hx
      simp only [f2, f1]
      rw [Function.update_of_ne (by omega), Function.update_of_ne (by omega)]
    have hall : ∀ c, allSites.fn c = allSites.cb := fun c => by simp [allSites, allFunc]
    have h2 : ∀ c, InRange c L → (f2 b c).m = line L u mu (j + 1) c := by
      intro c hc
      simp only [f2, f1, Function.update_self, hall, if_true, at_m2, m_mv]
      rw [Function.update_of_ne (by omega), source_up hL hmu hc, hj _ (nbr_inRange hc), hu c hc]
      rfl
    obtain ⟨f', e', h', r'⟩ := polyLoop_run hL hb hmu u m (j + 1) f2 (fun c hc => by rw [e2 mu (by omega)]; exact hu c hc) h2
    refine ⟨f', fun x hx => (e' x hx).trans (e2 x hx), by rw [show j + (m + 1) = j + 1 + m by omega]; exact h', fun k => ⟨?_, ?_⟩⟩
    · rw [← (r' k).1]
      rfl
    · intro h
      exact ⟨shift_legal hL hmu, all_legal L, (r' k).2 h⟩

theorem polyLoop_shifts {n : Nat} {R : Type} {L : List Nat} {b mu : Nat} (hmu : mu < L.length) {k : Prog (V n) R} (hk : OnlyShifts L k) :
    ∀ m, OnlyShifts L (polyLoop L b mu m k)
  | 0 => hk
  | m + 1 => ⟨⟨.fwd, mu, hmu, rfl⟩, polyLoop_shifts hmu hk m⟩

/-- what `polylp` computes, before it is divided -/
noncomputable def loopSum {n : Nat} (L : List Nat) (u : GaugeField n) (mu : Nat) : ℂ := siteSum L fun x => (line L u mu (L.getD mu 0) x).trace

theorem polylp_run {n : Nat} {R : Type} {L : List Nat} (hL : ∀ l ∈ L, 5 * l < 2 ^ 31) (hpos : ∀ l ∈ L, 0 < l) {b mu : Nat} (hb : L.length ≤ b)
    (hmu : mu < L.length) (f : Nat → List Nat → V n) : ∃ f', (∀ x, x < b → f' x = f x) ∧ ∀ k : Outcome ℂ → Prog (V n) R,
      let o := do let d ← ckInt (n * nsites L); if d = 0 then ub else ok (loopSum L (links f) mu / d)
      run (latticeSum L) (polylp L b mu k) f = run (latticeSum L) (k o) f' ∧
      (Legal (latticeSum L) L (k o) f' → Legal (latticeSum L) L (polylp L b mu k) f) := by
  have hall : ∀ c, allSites.fn c = allSites.cb := fun c => by simp [allSites, allFunc]
  let f1 := Function.update f b fun c => if allSites.fn c = allSites.cb then (m1 mu id).at f c else f b c
  have e1 : ∀ x, x < b → f1 x = f x := fun x hx => by simp only [f1]; rw [Function.update_of_ne (by omega)]
  have h1 : ∀ c, InRange c L → (f1 b c).m = line L (links f) mu 1 c := by
    intro c _
    simp only [f1, Function.update_self, hall, if_true, at_m1, m_mv, line, mul_one, links, id]
  have hp : 1 + (L.getD mu 0 - 1) = L.getD mu 0 := by
    rw [getD_lt hmu]
    have := hpos _ (List.getElem_mem hmu)
    omega
  obtain ⟨f', e', h', r'⟩ := polyLoop_run (R := R) hL hb hmu (links f) (L.getD mu 0 - 1) 1 f1 (fun c _ => by rw [e1 mu (by omega)]; rfl) h1
  rw [hp] at h'
  have hval : (latticeSum L allSites ((⟨[b], fun vs => zv (vs.getD 0 0).m.trace⟩ : Rhs (V n)).at f')).z = loopSum L (links f) mu := by
    have : (⟨[b], fun vs => zv (vs.getD 0 0).m.trace⟩ : Rhs (V n)).at f' = fun c => zv ((f' b c).m.trace) := rfl
    rw [this, latticeSum_all, siteSum_z]
    exact siteSum_congr fun c hc => by rw [h' c hc]
  refine ⟨f', fun x hx => (e' x hx).trans (e1 x hx), fun k => ?_⟩
  obtain ⟨ra, la⟩ := r' (.sum allSites ⟨[b], fun vs => zv (vs.getD 0 0).m.trace⟩ fun v => k (do
    let d ← ckInt (n * nsites L)
    if d = 0 then ub else ok (v.z / d)))
  refine ⟨?_, fun h => ⟨all_legal L, la ⟨all_legal L, ?_⟩⟩⟩
  · refine Eq.trans (b := run (latticeSum L) (polyLoop L b mu (L.getD mu 0 - 1) _) f1) rfl (ra.trans ?_)
    rw [← hval]
    rfl
  · rw [← hval] at h
    exact h

theorem polylp_shifts {n : Nat} {R : Type} {L : List Nat} {b mu : Nat} (hmu : mu < L.length) {k : Outcome ℂ → Prog (V n) R} (hk : ∀ x, OnlyShifts L (k x)) :
    OnlyShifts L (polylp L b mu k) := polyLoop_shifts (n := n) hmu (k := .sum allSites _ _) (fun _ => hk _) _

/-- C94. `polylp` returns the trace of the product of the links once round the lattice in direction mu, from every site, averaged
over the sites and divided by Nc; on every machine and however its nodes interleave; the gauge field is left as it was. -/
theorem C94_polyakov_partial {n : Nat} (hn : 1 ≤ n) (tot : List (V n) → V n) (htot : ∀ l, tot l = l.sum) (net : Net) (g : Geom) (hs : Setup g)
    (h1 : n * nsites g.L < 2 ^ 31) {b mu : Nat} (hb : g.L.length ≤ b) (hmu : mu < g.L.length) (F : Nat → Local (V n)) (f : Nat → List Nat → V n)
    (hF : HoldsAll g F f) : ∃ f', (∀ x, x < b → f' x = f x) ∧ AlwaysEndsIn net g (start tot g (polylp g.L b mu Prog.ret) F)
      (ok ((siteSum g.L fun x => (line g.L (links f) mu (g.L.getD mu 0) x).trace) / (n * nsites g.L))) f' := by
  obtain ⟨f', e, r⟩ := polylp_run (R := Outcome ℂ) hs.ext hs.pos hb hmu f
  obtain ⟨hr, hl⟩ := r Prog.ret
  have := hs.ends tot htot net (polylp g.L b mu Prog.ret) F f hF (hl trivial) (polylp_shifts hmu fun _ => trivial)
  have hv := nsites_pos hs.pos
  rw [hr, ckInt_of_lt h1, ok_bind, if_neg (by positivity)] at this
  refine ⟨f', e, ?_⟩
  simpa [loopSum, run] using this

/-- C94. `Nc*Layout::vol()` is a product of `int`; where it overflows, nothing is returned. -/
theorem C94_overflow {n : Nat} (tot : List (V n) → V n) (htot : ∀ l, tot l = l.sum) (net : Net) (g : Geom) (hs : Setup g)
    (h1 : 2 ^ 31 ≤ n * nsites g.L) {b mu : Nat} (hb : g.L.length ≤ b) (hmu : mu < g.L.length) (F : Nat → Local (V n)) (f : Nat → List Nat → V n)
    (hF : HoldsAll g F f) : ∃ f', AlwaysEndsIn net g (start tot g (polylp g.L b mu Prog.ret) F) ub f' := by
  obtain ⟨f', e, r⟩ := polylp_run (R := Outcome ℂ) hs.ext hs.pos hb hmu f
  obtain ⟨hr, hl⟩ := r Prog.ret
  have := hs.ends tot htot net (polylp g.L b mu Prog.ret) F f hF (hl trivial) (polylp_shifts hmu fun _ => trivial)
  rw [hr, ckInt_bind fun h => absurd h (by omega)] at this
  exact ⟨f', this⟩

/-- C94. The lattice of 128^3 times 384: the Polyakov loop of three colours overflows, though the volume does not. -/
theorem C94_false : ∃ g : Geom, Setup g ∧ nsites g.L < 2 ^ 31 ∧ g.L.length = 4 ∧ ∀ (tot : List (V 3) → V 3), (∀ l, tot l = l.sum) → ∀ (net : Net)
    (F : Nat → Local (V 3)) (f : Nat → List Nat → V 3), HoldsAll g F f → ∃ f', AlwaysEndsIn net g (start tot g (polylp g.L 4 3 Prog.ret) F) ub f' := by
  have hs := setup_lex [128, 128, 128, 384] [64, 64, 64, 192] (lexMachine [2, 2, 2, 2]) (lexMachine_good _) (by simp [Cut, lexMachine]) (by decide)
    (by decide) (by simp [lexMachine]) (by decide) (by decide) (by decide)
  exact ⟨_, hs, by decide, rfl, fun tot htot net F f hF => C94_overflow tot htot net _ hs (by decide) (by decide) (by decide) F f hF⟩

/-! ## What the loop is -/

theorem line_succ' {n : Nat} (L : List Nat) (u : GaugeField n) (mu : Nat) : ∀ (m : Nat) (x : List Nat),
    line L u mu (m + 1) x = line L u mu m x * u mu (nbrN L .fwd mu m x)
  | 0, x => by simp [line, nbrN]
  | m + 1, x => by rw [line, line_succ' L u mu m, line, mul_assoc]; rfl

theorem round {L : List Nat} {mu : Nat} (hmu : mu < L.length) {x : List Nat} (hx : InRange x L) : nbrN L .fwd mu (L.getD mu 0) x = x := by
  have hl := hx.length_eq
  rw [nbrN_fwd _ hx hmu (by omega), getD_lt hmu, Nat.add_mod_right, Nat.mod_eq_of_lt (inRange_getElem hx mu (by omega) hmu)]
  exact List.set_getElem_self _

/-- C94. It does not matter where the loop begins. -/
theorem C94_cyclic {n : Nat} {L : List Nat} (hpos : ∀ l ∈ L, 0 < l) (u : GaugeField n) {mu : Nat} (hmu : mu < L.length) {x : List Nat} (hx : InRange x L) :
    (line L u mu (L.getD mu 0) (up L mu x)).trace = (line L u mu (L.getD mu 0) x).trace := by
  have hr := round hmu hx
  obtain ⟨m, hm⟩ : ∃ m, L.getD mu 0 = m + 1 := by
    refine ⟨L.getD mu 0 - 1, ?_⟩
    rw [getD_lt hmu]
    have := hpos _ (List.getElem_mem hmu)
    omega
  rw [hm] at hr ⊢
  rw [line_succ', line, Matrix.trace_mul_comm]
  have : nbrN L .fwd mu m (up L mu x) = x := hr
  rw [this]

theorem line_transform {n : Nat} {L : List Nat} {G : List Nat → Mat n} (hG : UnitaryOn L G) {u u' : GaugeField n} {mu : Nat}
    (hu : ∀ x, InRange x L → u' mu x = transform L G u mu x) : ∀ (m : Nat) {x : List Nat}, InRange x L →
    line L u' mu m x = G x * line L u mu m x * star (G (nbrN L .fwd mu m x))
  | 0, x, hx => by simp [line, nbrN, hG.right hx]
  | m + 1, x, hx => by
    rw [line, line_transform hG hu m (nbr_inRange hx), hu x hx, transform, line, nbrN]
    calc _ = G x * u mu x * (star (G (up L mu x)) * G (up L mu x)) * line L u mu m (up L mu x) * star (G (nbrN L .fwd mu m (nbr L x .fwd mu))) := by
          simp only [mul_assoc]
      _ = _ := by rw [hG _ (nbr_inRange hx)]; simp only [mul_assoc, mul_one, one_mul]

/-- C94. The Polyakov loop is gauge invariant, at every site. -/
theorem C94_gauge_invariant {n : Nat} {L : List Nat} {G : List Nat → Mat n} (hG : UnitaryOn L G) {u u' : GaugeField n} {mu : Nat} (hmu : mu < L.length)
    (hu : ∀ x, InRange x L → u' mu x = transform L G u mu x) :
    (∀ x, InRange x L → (line L u' mu (L.getD mu 0) x).trace = (line L u mu (L.getD mu 0) x).trace) ∧ loopSum L u' mu = loopSum L u mu := by
  have key : ∀ x, InRange x L → (line L u' mu (L.getD mu 0) x).trace = (line L u mu (L.getD mu 0) x).trace := by
    intro x hx
    rw [line_transform hG hu _ hx, round hmu hx, Matrix.trace_mul_comm, ← mul_assoc, hG x hx, one_mul]
  exact ⟨key, siteSum_congr key⟩

theorem line_unitary {n : Nat} {L : List Nat} {u : GaugeField n} {mu : Nat} (hu : UnitaryOn L (u mu)) : ∀ (m : Nat) {x : List Nat}, InRange x L →
    line L u mu m x ∈ Matrix.unitaryGroup (Fin n) ℂ
  | 0, _, _ => one_mem _
  | m + 1, _, hx => mul_mem (Matrix.mem_unitaryGroup_iff'.2 (hu _ hx)) (line_unitary hu m (nbr_inRange hx))

theorem trace_norm_le {n : Nat} {U : Mat n} (h : U ∈ Matrix.unitaryGroup (Fin n) ℂ) : ‖U.trace‖ ≤ n := by
  rw [Matrix.trace]
  calc _ ≤ ∑ i, ‖U.diag i‖ := norm_sum_le _ _
    _ ≤ ∑ i : Fin n, (1 : ℝ) := sum_le_sum fun i _ => entry_norm_bound_of_unitary h i i
    _ = n := by simp

/-- C94. Of a unitary gauge field the average is at most one in absolute value, and it is one for the field of unit matrices. -/
theorem C94_bound {n : Nat} (hn : 1 ≤ n) {L : List Nat} (hpos : ∀ l ∈ L, 0 < l) {u : GaugeField n} {mu : Nat} (hu : UnitaryOn L (u mu)) :
    ‖loopSum L u mu / (n * nsites L)‖ ≤ 1 := by
  have hv : (0 : ℝ) < nsites L := by exact_mod_cast nsites_pos hpos
  have hn' : (0 : ℝ) < n := by exact_mod_cast hn
  rw [norm_div, norm_mul, Complex.norm_natCast, Complex.norm_natCast, div_le_one (by positivity)]
  calc _ ≤ ∑ r ∈ range (nsites L), ‖(line L u mu (L.getD mu 0) (digits r L)).trace‖ := norm_sum_le _ _
    _ ≤ ∑ r ∈ range (nsites L), (n : ℝ) := sum_le_sum fun r hr => trace_norm_le (line_unitary hu _ (digits_inRange (mem_range.1 hr)))
    _ = _ := by simp [mul_comm]

theorem line_one {n : Nat} {L : List Nat} {u : GaugeField n} {mu : Nat} (hu : ∀ x, InRange x L → u mu x = 1) : ∀ (m : Nat) {x : List Nat}, InRange x L →
    line L u mu m x = 1
  | 0, _, _ => rfl
  | m + 1, _, hx => by rw [line, hu _ hx, line_one hu m (nbr_inRange hx), one_mul]

theorem C94_unit {n : Nat} (hn : 1 ≤ n) {L : List Nat} (hpos : ∀ l ∈ L, 0 < l) {u : GaugeField n} {mu : Nat} (hu : ∀ x, InRange x L → u mu x = 1) :
    loopSum L u mu / (n * nsites L) = 1 := by
  have hv : (nsites L : ℂ) ≠ 0 := by exact_mod_cast (nsites_pos hpos).ne'
  have hn' : (n : ℂ) ≠ 0 := by exact_mod_cast (show n ≠ 0 by omega)
  have : loopSum L u mu = n * nsites L := by
    have h1 : loopSum L u mu = siteSum L fun _ => (n : ℂ) := siteSum_congr fun x hx => by rw [line_one hu _ hx, Matrix.trace_one, Fintype.card_fin]
    rw [h1]
    simp [siteSum, mul_comm]
  rw [this, div_self (mul_ne_zero hn' hv)]

/-! ## The centre -/

/-- coordinate mu of a site -/
def at' (mu : Nat) (x : List Nat) : Nat := x.getD mu 0

/-- the links of direction mu that leave the slice t multiplied by z -/
noncomputable def twist {n : Nat} (z : ℂ) (mu t : Nat) (u : GaugeField n) : GaugeField n := fun nu x => if nu = mu ∧ at' mu x = t then z • u nu x else u nu x

theorem at_nbrN {L : List Nat} {mu : Nat} (hmu : mu < L.length) {x : List Nat} (hx : InRange x L) (m : Nat) :
    at' mu (nbrN L .fwd mu m x) = (at' mu x + m) % L.getD mu 0 := by
  have hl := hx.length_eq
  rw [nbrN_fwd _ hx hmu (by omega), at', at', getD_lt hmu, getD_lt (show mu < (x.set mu _).length by simp; omega), List.getElem_set_self,
    getD_lt (show mu < x.length by omega)]

/-- how often the first m links from x leave the slice -/
theorem line_twist {n : Nat} {L : List Nat} (z : ℂ) {mu t : Nat} (u : GaugeField n) : ∀ (m : Nat) (x : List Nat),
    line L (twist z mu t u) mu m x = z ^ (((List.range m).filter fun i => at' mu (nbrN L .fwd mu i x) = t).length) • line L u mu m x
  | 0, x => by simp [line]
  | m + 1, x => by
    rw [line_succ', line_twist z u m, line_succ', List.range_succ, List.filter_append, List.length_append]
    by_cases h : at' mu (nbrN L .fwd mu m x) = t
    · simp [twist, h, pow_succ, smul_smul, mul_comm]
    · simp [twist, h]

/-- C94. Under the centre the loop is multiplied: it passes every slice exactly once. -/
theorem C94_centre {n : Nat} {L : List Nat} (z : ℂ) (u : GaugeField n) {mu t : Nat} (hmu : mu < L.length) (ht : t < L.getD mu 0) :
    loopSum L (twist z mu t u) mu = z * loopSum L u mu := by
  have key : ∀ x, InRange x L → ((List.range (L.getD mu 0)).filter fun i => at' mu (nbrN L .fwd mu i x) = t).length = 1 := by
    intro x hx
    have ha : at' mu x < L.getD mu 0 := by
      have hl := hx.length_eq
      rw [at', getD_lt hmu, getD_lt (show mu < x.length by omega)]
      exact inRange_getElem hx mu (by omega) hmu
    simp only [at_nbrN hmu hx]
    generalize L.getD mu 0 = l at *
    generalize at' mu x = a at *
    rw [← List.countP_eq_length_filter]
    have hc : ∀ i < l, ((a + i) % l = t ↔ i = (t + l - a) % l) := by
      intro i hi
      constructor
      · rintro rfl
        by_cases h : a + i < l
        · rw [Nat.mod_eq_of_lt h, show a + i + l - a = i + l by omega, Nat.add_mod_right, Nat.mod_eq_of_lt hi]
        · have e : (a + i) % l = a + i - l := by rw [Nat.mod_eq_sub_mod (by omega), Nat.mod_eq_of_lt (by omega)]
          rw [e, show a + i - l + l - a = i by omega, Nat.mod_eq_of_lt hi]
      · rintro rfl
        rw [Nat.add_mod_mod, show a + (t + l - a) = t + l by omega, Nat.add_mod_right, Nat.mod_eq_of_lt ht]
    have hlt : (t + l - a) % l < l := Nat.mod_lt _ (by omega)
    rw [List.countP_congr (q := fun i => i == (t + l - a) % l) fun i hi => by simpa using hc i (List.mem_range.1 hi)]
    exact (List.count_eq_one_of_mem List.nodup_range (List.mem_range.2 hlt))
  unfold loopSum siteSum
  rw [mul_sum]
  refine sum_congr rfl fun r hr => ?_
  beta_reduce
  rw [line_twist, key _ (digits_inRange (mem_range.1 hr)), pow_one, Matrix.trace_smul, smul_eq_mul]

/-- one link turned round, of one colour on a lattice of two by two: two sites see it, the average is zero -/
example : loopSum [2, 2] flipped 1 / (1 * nsites [2, 2] : ℂ) = 0 := by
  have e : nsites [2, 2] = 4 := rfl
  simp [loopSum, siteSum, e, sum_range_succ, line, flipped, digits, nbr, step, Matrix.trace]

example : Setup (geomCB2 [24, 24, 24, 48] (lexMachine [2, 2, 2, 2]) [12, 12, 12, 24]) ∧ 3 * nsites [24, 24, 24, 48] < 2 ^ 31 :=
  ⟨setup_cb2 [24, 24, 24, 48] [12, 12, 24] 12 (lexMachine [2, 2, 2, 2]) (lexMachine_good _) (by simp [Cut, lexMachine]) rfl (by decide)
    (by simp [lexMachine]) (by decide) (by decide) (by decide), by decide⟩

end Verif.Gauge
