import Verif.Gauss
import Mathlib.Analysis.Real.Pi.Bounds
import Mathlib.Analysis.Complex.ExponentialBounds
import Mathlib.Analysis.SpecialFunctions.Trigonometric.Bounds
import Mathlib.Analysis.SpecialFunctions.Trigonometric.Deriv
/-
C90: gaussian fields.
-/
namespace Verif.Gauss
open Verif Outcome Verif.Layout Verif.ParLayout Verif.Seed Verif.Rng Verif.Subset Verif.LatticeIO

/-! ## Deviates -/

theorem digits_ok {n : Nat} (h : n < 2 ^ 47) : (digits n).Ok ∧ (digits n).val = n := by
  simp only [digits, PSeed.Ok, PSeed.val]
  refine ⟨⟨by omega, by omega, by omega, by omega⟩, by omega⟩

theorem eq_digits {s : PSeed} (hs : s.Ok) : s = digits s.val :=
  val_inj hs (digits_ok (val_lt hs)).1 (digits_ok (val_lt hs)).2.symm

theorem roundTo_pos {p n : Nat} (hp : 0 < p) (hn : 0 < n) : 0 < roundTo p n := by
  unfold roundTo
  split
  · exact hn
  · rename_i h
    have hlog : p ≤ n.log2 := (Nat.le_log2 (by omega)).2 (by omega)
    have hsh : 2 ^ (n.log2 + 1 - p) ≤ n := (Nat.pow_le_pow_right (by omega) (by omega)).trans (Nat.log2_self_le (by omega))
    have hq : 0 < n / 2 ^ (n.log2 + 1 - p) := Nat.div_pos hsh (Nat.two_pow_pos _)
    have h2 := Nat.two_pow_pos (n.log2 + 1 - p)
    dsimp only
    split
    · exact Nat.mul_pos (by omega) h2
    · exact Nat.mul_pos hq h2

theorem sranf_pos {p : Nat} (hp : 0 < p) {s : PSeed} (h : s.val ≠ 0) : 0 < sranfValue p s := by
  apply roundTo_pos (by omega)
  simp only [seedToFloat]
  apply roundTo_pos hp
  by_cases h3 : s.e3 = 0
  · by_cases h2 : s.e2 = 0
    · by_cases h1 : s.e1 = 0
      · have h0 : 0 < s.e0 := by
          rcases Nat.eq_zero_or_pos s.e0 with h0 | h0
          · simp [PSeed.val, h0, h1, h2, h3] at h
          · exact h0
        have a0 := roundTo_pos hp h0
        have a1 := roundTo_pos hp (show 0 < s.e1 * 2 ^ 12 + roundTo p s.e0 by omega)
        have a2 := roundTo_pos hp (show 0 < s.e2 * 2 ^ 24 + roundTo p (s.e1 * 2 ^ 12 + roundTo p s.e0) by omega)
        omega
      · have a1 := roundTo_pos hp (show 0 < s.e1 * 2 ^ 12 + roundTo p s.e0 by omega)
        have a2 := roundTo_pos hp (show 0 < s.e2 * 2 ^ 24 + roundTo p (s.e1 * 2 ^ 12 + roundTo p s.e0) by omega)
        omega
    · have a2 := roundTo_pos hp (show 0 < s.e2 * 2 ^ 24 + roundTo p (s.e1 * 2 ^ 12 + roundTo p s.e0) by omega)
      omega
  · omega

/-- C90. In every precision a seed other than zero gives a deviate in (0,1], at least 2^-47. -/
theorem C90_deviate (p : Nat) (hp : 0 < p) (s : PSeed) (hs : s.Ok) (h : s.val ≠ 0) :
    0 < dev p s ∧ dev p s ≤ 1 ∧ 1 / 2 ^ 47 ≤ dev p s := by
  have h1 := sranf_pos hp h
  have h2 := (C16_closed p hp s hs).2
  have h1' : (1 : ℝ) ≤ (sranfValue p s : ℝ) := by exact_mod_cast h1
  have h2' : (sranfValue p s : ℝ) ≤ 2 ^ 47 := by exact_mod_cast h2
  unfold dev
  refine ⟨by positivity, ?_, ?_⟩
  · rw [div_le_one (by positivity)]; exact h2'
  · exact div_le_div_of_nonneg_right h1' (by positivity)

theorem elem_ne_zero {s : Nat} (hs : s % 2 ^ 47 ≠ 0) (n : Nat) : elem A s n ≠ 0 := by
  intro h
  apply hs
  have hd : 2 ^ 47 ∣ A ^ n * s := Nat.dvd_of_mod_eq_zero h
  have hc : Nat.Coprime (2 ^ 47) (A ^ n) := by
    apply Nat.Coprime.pow
    decide
  exact Nat.mod_eq_zero_of_dvd (hc.dvd_of_dvd_mul_left hd)

theorem uni_range {p : Nat} (hp : 0 < p) {s : Nat} (hs : s < 2 ^ 47) (h0 : s ≠ 0) (n : Nat) : 0 < uni p s n ∧ uni p s n ≤ 1 ∧ 1 / 2 ^ 47 ≤ uni p s n := by
  have hlt : elem A s n < 2 ^ 47 := Nat.mod_lt _ (by decide)
  obtain ⟨h1, h2⟩ := digits_ok hlt
  exact C90_deviate p hp _ h1 (by rw [h2]; exact elem_ne_zero (by rwa [Nat.mod_eq_of_lt hs]) n)

/-! ## One element -/

theorem fillS_eq {u1 u2 : ℝ} (h0 : 0 < u1) (h1 : u1 ≤ 1) : fillS u1 u2 = ok (.s (boxMuller twoPi u1 u2).1) := by
  have hl := Real.log_nonpos h0.le h1
  have : (0:ℝ) ≤ -2 * Real.log u1 := by linarith
  simp [fillS, lnU, sqrtU, h0, boxMuller, mul_comm twoPi]
  rw [if_pos (by linarith)]
  simp

theorem fillC_eq {u1 u2 : ℝ} (h0 : 0 < u1) (h1 : u1 ≤ 1) :
    fillC u1 u2 = ok (.c (boxMuller twoPi u1 u2).1 (boxMuller twoPi u1 u2).2) := by
  have hl := Real.log_nonpos h0.le h1
  have : (0:ℝ) ≤ -2 * Real.log u1 := by linarith
  simp [fillC, lnU, sqrtU, h0, boxMuller, mul_comm twoPi]
  rw [if_pos (by linarith)]
  simp

/-! ## The field -/

theorem look_ok {w : List (Nat × List PSeed)} {i : Nat} (h : i ∈ w.map (·.1)) : ∃ xs, look w i = ok xs ∧ (i, xs) ∈ w := by
  obtain ⟨⟨a, xs⟩, h1, h2⟩ := List.mem_map.1 h
  have : (w.find? fun x => x.1 == i).isSome := by
    rw [List.find?_isSome]
    exact ⟨_, h1, by simpa using h2⟩
  obtain ⟨⟨b, ys⟩, hb⟩ := Option.isSome_iff_exists.1 this
  have e : b = i := by simpa using List.find?_some hb
  subst e
  exact ⟨ys, by simp [look, hb], List.mem_of_find?_eq_some hb⟩

/-- a legal execution of the call -/
structure Sched.Legal (sc : Sched) (guarded : Bool) (n : Nat) : Prop where
  l1 : Rng.Legal n sc.own1 sc.crit1
  b1 : Busy guarded n sc.own1
  l2 : Rng.Legal n sc.own2 sc.crit2
  b2 : Busy guarded n sc.own2
  order : sc.order.Perm (List.range n)

theorem foldO_site {p : Nat} {sh : Shape} {w1 w2 : List (Nat × List PSeed)} {tab : List Nat} {g : Nat → List Num}
    (hg : ∀ i ∈ tab, ∃ x1 x2, look w1 i = ok x1 ∧ look w2 i = ok x2 ∧ fillSite p sh x1 x2 = ok (g i)) :
    ∀ (js : List Nat) (d : Nat → List Num), (∀ j ∈ js, j < tab.length) →
      ∃ d', foldO (site p sh w1 w2 tab) d js = ok d' ∧
        ∀ i, d' i = if ∃ j ∈ js, tab[j]? = some i then g i else d i
  | [], d, _ => ⟨d, rfl, by simp⟩
  | j :: js, d, h => by
    have hj := h j (by simp)
    obtain ⟨x1, x2, e1, e2, e3⟩ := hg tab[j] (List.getElem_mem hj)
    obtain ⟨d', h1, h2⟩ := foldO_site hg js (Function.update d tab[j] (g tab[j])) fun k hk => h k (by simp [hk])
    refine ⟨d', ?_, ?_⟩
    · rw [foldO]
      simp only [site, rd_of_lt hj, ok_bind, e1, e2, e3, pure_def]
      exact h1
    · intro i
      rw [h2 i]
      by_cases hi : ∃ k ∈ js, tab[k]? = some i
      · rw [if_pos hi, if_pos]
        obtain ⟨k, hk, e⟩ := hi
        exact ⟨k, by simp [hk], e⟩
      · rw [if_neg hi]
        by_cases e : i = tab[j]
        · subst e
          rw [Function.update_self, if_pos ⟨j, by simp, List.getElem?_eq_getElem hj⟩]
        · rw [Function.update_of_ne e, if_neg]
          rintro ⟨k, hk, ek⟩
          rcases List.mem_cons.1 hk with rfl | hk
          · rw [List.getElem?_eq_getElem hj] at ek
            injection ek with ek
            exact e ek.symm
          · exact hi ⟨k, hk, ek⟩

/-- C90. `gaussian(d, s)` on any node of any machine, for any subset with sites on the node, any number of threads and
any legal schedule, started from a seed other than zero: it succeeds; sites outside the subset are unchanged; element
`q` at the site of lexicographic rank `l` is the Box-Muller transform of two elements of the sequence given by `l` and
`q`; the seed afterwards has advanced by both calls of `random`. -/
theorem C90_field (g : Geom) (hg : g.Good) (my : Nat) (hn : my < g.nodes) (st : State) (hst : Ready g my st)
    (h0 : st.seed.val ≠ 0) (guarded : Bool) (p : Nat) (hp : 0 < p) (sh : Shape) (tab : List Nat)
    (htab : ∀ i ∈ tab, i < g.sites) (hpos : 0 < tab.length) (sc : Sched) (hsc : sc.Legal guarded tab.length)
    (d : Nat → List Num) :
    ∃ d' st', gaussian guarded p sh st tab sc d = ok (d', st') ∧ Ready g my st' ∧
      st'.seed.val = elem A st.seed.val (2 * sh.draws * (nsites g.L + 1)) ∧
      (∀ i, i ∉ tab → d' i = d i) ∧
      ∀ i ∈ tab, ∀ c, g.siteCoords my i = ok c →
        d' i = (List.range sh.n).map (want p (nsites g.L) st.seed.val sh (rank c g.L)) := by
  obtain ⟨w1, st1, a1, a2, a3, a4, a5, a6⟩ := randomLattice_spec hg hn hst (k := sh.draws) htab hpos hsc.l1 hsc.b1
  have r1 : Ready g my st1 := by rw [a3]; exact hst.seed' a4
  obtain ⟨w2, st2, b1, b2, b3, b4, b5, b6⟩ := randomLattice_spec hg hn r1 (k := sh.draws) htab hpos hsc.l2 hsc.b2
  have r2 : Ready g my st2 := by rw [b3]; exact r1.seed' b4
  have hs := val_lt hst.seed
  let gval : Nat → List Num := fun i => match g.siteCoords my i with
    | ok c => (List.range sh.n).map (want p (nsites g.L) st.seed.val sh (rank c g.L))
    | _ => []
  have hsite : ∀ i ∈ tab, ∃ x1 x2, look w1 i = ok x1 ∧ look w2 i = ok x2 ∧ fillSite p sh x1 x2 = ok (gval i) := by
    intro i hi
    obtain ⟨x1, e1, m1⟩ := look_ok (a2.mem_iff.2 hi)
    obtain ⟨x2, e2, m2⟩ := look_ok (b2.mem_iff.2 hi)
    obtain ⟨c, hc, -, -, -⟩ := hg.2 my i hn (htab i hi)
    obtain ⟨l1, v1⟩ := a6 i x1 m1
    obtain ⟨l2, v2⟩ := b6 i x2 m2
    refine ⟨x1, x2, e1, e2, ?_⟩
    have hgv : gval i = (List.range sh.n).map (want p (nsites g.L) st.seed.val sh (rank c g.L)) := by simp [gval, hc]
    rw [hgv]
    apply mapO_ok
    intro q hq
    have hq' := List.mem_range.1 hq
    have u1 : ∀ (r : Nat) (h : r < x1.length), dev p x1[r] =
        uni p st.seed.val ((rank c g.L + 1) + r * (nsites g.L + 1)) := by
      intro r h
      obtain ⟨o, e⟩ := v1 c hc r h
      rw [uni, ← e, ← eq_digits o]
    have u2 : ∀ (r : Nat) (h : r < x2.length), dev p x2[r] =
        uni p st.seed.val (sh.draws * (nsites g.L + 1) + (rank c g.L + 1) + r * (nsites g.L + 1)) := by
      intro r h
      obtain ⟨o, e⟩ := v2 c hc r h
      rw [uni, Nat.add_assoc, ← elem_elem, ← a5, ← e, ← eq_digits o]
    cases hc' : sh.cplx with
    | true =>
      have hd : sh.draws = 2 * sh.n := by simp [Shape.draws, hc']
      have k1 : 2 * q < x1.length := by omega
      have k2 : 2 * q < x2.length := by omega
      simp only [fillElem, hc', if_true, rd_of_lt k1, rd_of_lt k2, ok_bind, want]
      rw [u1 _ k1, u2 _ k2, fillC_eq (uni_range hp hs h0 _).1 (uni_range hp hs h0 _).2.1]
    | false =>
      have hd : sh.draws = sh.n := by simp [Shape.draws, hc']
      have k1 : q < x1.length := by omega
      have k2 : q < x2.length := by omega
      simp only [fillElem, hc', Bool.false_eq_true, if_false, rd_of_lt k1, rd_of_lt k2, ok_bind, want]
      rw [u1 _ k1, u2 _ k2, fillS_eq (uni_range hp hs h0 _).1 (uni_range hp hs h0 _).2.1]
  obtain ⟨d', e1, e2⟩ := foldO_site hsite sc.order d fun j hj => List.mem_range.1 (hsc.order.mem_iff.1 hj)
  refine ⟨d', st2, ?_, r2, ?_, ?_, ?_⟩
  · simp only [gaussian, a1, ok_bind, b1, e1, pure_def]
  · rw [b5, a5, elem_elem]; congr 1; ring
  · intro i hi
    rw [e2 i, if_neg]
    rintro ⟨j, -, ej⟩
    exact hi (List.mem_of_getElem? ej)
  · intro i hi c hc
    obtain ⟨j, hj, ej⟩ := List.mem_iff_getElem.1 hi
    rw [e2 i, if_pos ⟨j, hsc.order.mem_iff.2 (List.mem_range.2 hj), by rw [List.getElem?_eq_getElem hj, ej]⟩]
    simp [gval, hc]

/-- C90. The field does not depend on machine, layout, threads, or on which subset the site was drawn with: two
machines with the same lattice and the same seed give the same numbers at a site both draw, and go on with the same
seed. -/
theorem C90_layout_independent (g1 g2 : Geom) (hg1 : g1.Good) (hg2 : g2.Good) (hL : g1.L = g2.L) (my1 my2 : Nat)
    (hn1 : my1 < g1.nodes) (hn2 : my2 < g2.nodes) (st1 st2 : State) (r1 : Ready g1 my1 st1) (r2 : Ready g2 my2 st2)
    (hseed : st1.seed = st2.seed) (h0 : st1.seed.val ≠ 0) (gd1 gd2 : Bool) (p : Nat) (hp : 0 < p) (sh : Shape)
    (tab1 tab2 : List Nat) (ht1 : ∀ i ∈ tab1, i < g1.sites) (ht2 : ∀ i ∈ tab2, i < g2.sites) (hp1 : 0 < tab1.length)
    (hp2 : 0 < tab2.length) (sc1 sc2 : Sched) (hs1 : sc1.Legal gd1 tab1.length) (hs2 : sc2.Legal gd2 tab2.length)
    (d1 d2 : Nat → List Num) :
    ∃ e1 e2 t1 t2, gaussian gd1 p sh st1 tab1 sc1 d1 = ok (e1, t1) ∧ gaussian gd2 p sh st2 tab2 sc2 d2 = ok (e2, t2) ∧
      t1.seed = t2.seed ∧
      ∀ c i1 i2, i1 ∈ tab1 → i2 ∈ tab2 → g1.siteCoords my1 i1 = ok c → g2.siteCoords my2 i2 = ok c → e1 i1 = e2 i2 := by
  obtain ⟨e1, t1, a1, a2, a3, -, a5⟩ := C90_field g1 hg1 my1 hn1 st1 r1 h0 gd1 p hp sh tab1 ht1 hp1 sc1 hs1 d1
  obtain ⟨e2, t2, b1, b2, b3, -, b5⟩ := C90_field g2 hg2 my2 hn2 st2 r2 (hseed ▸ h0) gd2 p hp sh tab2 ht2 hp2 sc2 hs2 d2
  refine ⟨e1, e2, t1, t2, a1, b1, val_inj a2.seed b2.seed (by rw [a3, b3, hseed, hL]), ?_⟩
  intro c i1 i2 h1 h2 c1 c2
  rw [a5 i1 h1 c c1, b5 i2 h2 c c2, hseed, hL]

/-- C90. No element of the sequence is used twice as an argument of the transform in one call: site, element and
argument (0 for the radius, 1 for the angle) are determined by the position in the sequence. -/
theorem C90_no_reuse (v : Nat) (sh : Shape) (a a' l l' q q' : Nat) (ha : a < 2) (ha' : a' < 2) (hl : l < v) (hl' : l' < v)
    (hq : q < sh.n) (hq' : q' < sh.n)
    (h : a * (sh.draws * (v + 1)) + (l + 1) + (if sh.cplx then 2 * q else q) * (v + 1) =
      a' * (sh.draws * (v + 1)) + (l' + 1) + (if sh.cplx then 2 * q' else q') * (v + 1)) :
    a = a' ∧ l = l' ∧ q = q' := by
  have e : (l + 1) + (a * sh.draws + (if sh.cplx then 2 * q else q)) * (v + 1) =
      (l' + 1) + (a' * sh.draws + (if sh.cplx then 2 * q' else q')) * (v + 1) := by
    rw [Nat.add_mul, Nat.add_mul, Nat.mul_assoc, Nat.mul_assoc]; omega
  have hm := congrArg (· % (v + 1)) e
  simp only [Nat.add_mul_mod_self_right] at hm
  rw [Nat.mod_eq_of_lt (by omega), Nat.mod_eq_of_lt (by omega)] at hm
  have hl2 : l = l' := by omega
  subst hl2
  have e2 := Nat.eq_of_mul_eq_mul_right (Nat.succ_pos v) (Nat.add_left_cancel e)
  have ha2 : a = 0 ∨ a = 1 := by omega
  have ha3 : a' = 0 ∨ a' = 1 := by omega
  cases hc : sh.cplx <;> simp only [Shape.draws, hc, Bool.false_eq_true, if_false, if_true] at e2 <;>
    rcases ha2 with rfl | rfl <;> rcases ha3 with rfl | rfl <;> refine ⟨by omega, rfl, by omega⟩

/-! ## The numbers -/

theorem twoPi_bounds : |2 * Real.pi - twoPi| ≤ 2 / 10 ^ 10 ∧ twoPi < 2 * Real.pi := by
  have h1 := Real.pi_gt_d20
  have h2 := Real.pi_lt_d20
  have e : twoPi = 6283185307 / 1000000000 := by norm_num [twoPi]
  rw [e, abs_le]
  refine ⟨⟨?_, ?_⟩, ?_⟩ <;> norm_num at h1 h2 ⊢ <;> linarith

/-- C90. The numbers of an element lie on the circle of the radius sqrt(-2 log u1), and differ from the exact transform by
at most the radius times 2e-10 times u2 (the code has 6.283185307 for 2 pi). -/
theorem C90_box_muller (u1 u2 : ℝ) (h0 : 0 < u1) (h1 : u1 ≤ 1) (hu : 0 ≤ u2) :
    (boxMuller twoPi u1 u2).1 ^ 2 + (boxMuller twoPi u1 u2).2 ^ 2 = -2 * Real.log u1 ∧
    |(boxMuller twoPi u1 u2).1 - (boxMuller (2 * Real.pi) u1 u2).1| ≤
      Real.sqrt (-2 * Real.log u1) * (2 / 10 ^ 10 * u2) ∧
    |(boxMuller twoPi u1 u2).2 - (boxMuller (2 * Real.pi) u1 u2).2| ≤
      Real.sqrt (-2 * Real.log u1) * (2 / 10 ^ 10 * u2) := by
  have hl := Real.log_nonpos h0.le h1
  have hr : (0:ℝ) ≤ -2 * Real.log u1 := by linarith
  have hs := Real.sqrt_nonneg (-2 * Real.log u1)
  have hb : |twoPi * u2 - 2 * Real.pi * u2| ≤ 2 / 10 ^ 10 * u2 := by
    rw [← sub_mul, abs_mul, abs_of_nonneg hu, abs_sub_comm]
    exact mul_le_mul_of_nonneg_right twoPi_bounds.1 hu
  refine ⟨?_, ?_, ?_⟩
  · simp only [boxMuller]
    rw [mul_pow, mul_pow, ← mul_add, Real.cos_sq_add_sin_sq, mul_one, Real.sq_sqrt hr]
  · simp only [boxMuller]
    rw [← mul_sub, abs_mul, abs_of_nonneg hs]
    exact mul_le_mul_of_nonneg_left ((Real.abs_cos_sub_cos_le _ _).trans hb) hs
  · simp only [boxMuller]
    rw [← mul_sub, abs_mul, abs_of_nonneg hs]
    exact mul_le_mul_of_nonneg_left ((Real.abs_sin_sub_sin_le _ _).trans hb) hs

/-- C90. No number of a gaussian field exceeds sqrt(94 log 2) < 8.1 in magnitude. -/
theorem C90_bounded (p : Nat) (hp : 0 < p) (s : Nat) (hs : s < 2 ^ 47) (h0 : s ≠ 0) (n m : Nat) :
    |(boxMuller twoPi (uni p s n) (uni p s m)).1| ≤ Real.sqrt (94 * Real.log 2) ∧
    |(boxMuller twoPi (uni p s n) (uni p s m)).2| ≤ Real.sqrt (94 * Real.log 2) ∧ Real.sqrt (94 * Real.log 2) < 8.1 := by
  obtain ⟨h1, h2, h3⟩ := uni_range hp hs h0 n
  have hlog : -2 * Real.log (uni p s n) ≤ 94 * Real.log 2 := by
    have := Real.log_le_log (by positivity) h3
    rw [Real.log_div (by norm_num) (by positivity), Real.log_one, Real.log_pow] at this
    push_cast at this
    linarith
  have hs' := Real.sqrt_nonneg (-2 * Real.log (uni p s n))
  have hle := Real.sqrt_le_sqrt hlog
  refine ⟨?_, ?_, ?_⟩
  · simp only [boxMuller]
    rw [abs_mul, abs_of_nonneg hs']
    exact (mul_le_of_le_one_right hs' (Real.abs_cos_le_one _)).trans hle
  · simp only [boxMuller]
    rw [abs_mul, abs_of_nonneg hs']
    exact (mul_le_of_le_one_right hs' (Real.abs_sin_le_one _)).trans hle
  · rw [Real.sqrt_lt' (by norm_num)]
    have := Real.log_two_lt_d9
    norm_num at this ⊢
    linarith

/-- C90. The seed zero (`setrn(0)`) is excluded: every deviate is then zero and the logarithm infinite. -/
theorem C90_zero_seed (p n : Nat) (u2 : ℝ) : uni p 0 n = 0 ∧ fillS (uni p 0 n) u2 = ub ∧ fillC (uni p 0 n) u2 = ub := by
  have e : uni p 0 n = 0 := by
    have : digits (elem A 0 n) = ⟨0, 0, 0, 0⟩ := by simp [elem, digits]
    have h0 : ∀ q, roundTo q 0 = 0 := fun q => by simp [roundTo]
    simp [uni, dev, this, sranfValue, seedToFloat, h0]
  rw [e]
  refine ⟨rfl, ?_, ?_⟩ <;> simp [fillS, fillC, lnU]

/-! ### witnesses -/

-- a legal execution: two threads, five sites
example : (⟨[[0, 1, 2], [3, 4]], [1, 0], [[0, 1, 2], [3, 4]], [0, 1], [3, 0, 4, 1, 2]⟩ : Sched).Legal true 5 := by
  refine ⟨⟨by decide, by decide⟩, ?_, ⟨by decide, by decide⟩, ?_, by decide⟩ <;>
    intro t ht _ <;> simp only [List.length_cons, List.length_nil] at ht <;>
    match t, ht with
    | 0, _ => simp
    | 1, _ => simp

-- the default seed is not zero
example : (⟨11, 0, 0, 0⟩ : PSeed).Ok ∧ (⟨11, 0, 0, 0⟩ : PSeed).val ≠ 0 := by decide

-- a Dirac fermion of 12 complex numbers draws 24 deviates per call of random
example : (⟨12, true⟩ : Shape).draws = 24 := rfl

end Verif.Gauss
