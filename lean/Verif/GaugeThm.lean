import Verif.GaugeProps
import Mathlib.Analysis.CStarAlgebra.Matrix
/-
C92, continued: what the averages mean.  Gauge invariance, bounds, the fields of average one, the averaged links, overflow.
-/
namespace Verif.Gauge
open Verif Outcome Verif.Layout Verif.ParLayout Verif.ParMap Verif.Spmd Verif.Shift Verif.Subset Verif.Network
open Finset

/-! ## Gauge transformations -/

/-- a field of unitary matrices, at the sites of the lattice -/
def UnitaryOn {n : Nat} (L : List Nat) (G : List Nat → Mat n) : Prop := ∀ x, InRange x L → star (G x) * G x = 1

theorem UnitaryOn.right {n : Nat} {L : List Nat} {G : List Nat → Mat n} (h : UnitaryOn L G) {x : List Nat} (hx : InRange x L) : G x * star (G x) = 1 :=
  mul_eq_one_comm.1 (h x hx)

theorem plaq_transform {n : Nat} {L : List Nat} {G : List Nat → Mat n} (hG : UnitaryOn L G) (u : GaugeField n) {mu nu : Nat} (hne : mu ≠ nu)
    {x : List Nat} (hx : InRange x L) : plaq L (transform L G u) mu nu x = G x * plaq L u mu nu x * star (G x) := by
  have h1 := hG (up L mu x) (nbr_inRange hx)
  have h2 := hG (up L nu x) (nbr_inRange hx)
  have h3 := hG (up L nu (up L mu x)) (nbr_inRange (nbr_inRange hx))
  have hc : up L mu (up L nu x) = up L nu (up L mu x) := nbr_comm hne.symm
  simp only [plaq, transform, star_mul, star_star, hc]
  calc _ = G x * u mu x * (star (G (up L mu x)) * G (up L mu x)) * u nu (up L mu x) * (star (G (up L nu (up L mu x))) * G (up L nu (up L mu x))) *
        star (u mu (up L nu x)) * (star (G (up L nu x)) * G (up L nu x)) * star (u nu x) * star (G x) := by simp only [mul_assoc]
    _ = _ := by rw [h1, h2, h3]; simp only [mul_assoc, mul_one, one_mul]

theorem planeSum_transform {n : Nat} {L : List Nat} {G : List Nat → Mat n} (hG : UnitaryOn L G) (u : GaugeField n) {mu nu : Nat} (hne : mu ≠ nu) :
    planeSum L (transform L G u) mu nu = planeSum L u mu nu := by
  refine siteSum_congr fun x hx => ?_
  rw [plaq_transform hG u hne hx, Matrix.trace_mul_comm, ← mul_assoc, hG x hx, one_mul]

/-- the averages depend on the plaquettes only -/
theorem isPlaq_congr {n : Nat} {L : List Nat} {u u' : GaugeField n} {o o' : Obs} (h : IsPlaq L u o) (h' : IsPlaq L u' o')
    (he : ∀ mu nu, nu < mu → mu < L.length → planeSum L u' mu nu = planeSum L u mu nu) : o'.w = o.w ∧ o'.s = o.s ∧ o'.t = o.t := by
  have e1 : ∑ mu ∈ range L.length, ∑ nu ∈ range mu, planeSum L u' mu nu = ∑ mu ∈ range L.length, ∑ nu ∈ range mu, planeSum L u mu nu :=
    sum_congr rfl fun mu hmu => sum_congr rfl fun nu hnu => he mu nu (mem_range.1 hnu) (mem_range.1 hmu)
  have e2 : ∑ mu ∈ range (L.length - 1), ∑ nu ∈ range mu, planeSum L u' mu nu = ∑ mu ∈ range (L.length - 1), ∑ nu ∈ range mu, planeSum L u mu nu :=
    sum_congr rfl fun mu hmu => sum_congr rfl fun nu hnu => he mu nu (mem_range.1 hnu) (by have := mem_range.1 hmu; omega)
  have e3 : ∑ nu ∈ range (L.length - 1), planeSum L u' (L.length - 1) nu = ∑ nu ∈ range (L.length - 1), planeSum L u (L.length - 1) nu :=
    sum_congr rfl fun nu hnu => he _ nu (mem_range.1 hnu) (by have := mem_range.1 hnu; omega)
  exact ⟨by rw [h.w, h'.w, e1], by rw [h.s, h'.s, e2], by rw [h.t, h'.t, e3]⟩

/-- C92. The plaquettes are gauge invariant: two runs, on machines and networks of whatever kind, on a gauge field and on its
transform by unitary matrices, return the same averages. -/
theorem C92_gauge_invariant {n : Nat} {L : List Nat} {G : List Nat → Mat n} (hG : UnitaryOn L G) {u u' : GaugeField n}
    (hu : ∀ mu x, mu < L.length → InRange x L → u' mu x = transform L G u mu x) {o o' : Obs} (h : IsPlaq L u o) (h' : IsPlaq L u' o') :
    o'.w = o.w ∧ o'.s = o.s ∧ o'.t = o.t := by
  refine isPlaq_congr h h' fun mu nu hlt hmu => ?_
  rw [← planeSum_transform hG u hlt.ne']
  refine siteSum_congr fun x hx => ?_
  have e1 := hu mu x hmu hx
  have e2 := hu nu (up L mu x) (by omega) (nbr_inRange hx)
  have e3 := hu mu (up L nu x) hmu (nbr_inRange hx)
  have e4 := hu nu x (by omega) hx
  simp only [plaq, e1, e2, e3, e4]

/-! ## Bounds -/

theorem plaq_unitary {n : Nat} {L : List Nat} {u : GaugeField n} (hu : ∀ mu < L.length, UnitaryOn L (u mu)) {mu nu : Nat} (hmu : mu < L.length)
    (hnu : nu < L.length) {x : List Nat} (hx : InRange x L) : plaq L u mu nu x ∈ Matrix.unitaryGroup (Fin n) ℂ := by
  have k : ∀ rho < L.length, ∀ y, InRange y L → u rho y ∈ Matrix.unitaryGroup (Fin n) ℂ := fun rho hr y hy => Matrix.mem_unitaryGroup_iff'.2 (hu rho hr y hy)
  exact mul_mem (mul_mem (mul_mem (k _ hmu _ hx) (k _ hnu _ (nbr_inRange hx))) (Unitary.star_mem (k _ hmu _ (nbr_inRange hx)))) (Unitary.star_mem (k _ hnu _ hx))

theorem trace_le {n : Nat} {U : Mat n} (h : U ∈ Matrix.unitaryGroup (Fin n) ℂ) : |U.trace.re| ≤ n := by
  rw [Matrix.trace, Complex.re_sum]
  calc _ ≤ ∑ i, |(U.diag i).re| := abs_sum_le_sum_abs _ _
    _ ≤ ∑ i : Fin n, (1 : ℝ) := sum_le_sum fun i _ => (Complex.abs_re_le_norm _).trans (entry_norm_bound_of_unitary h i i)
    _ = n := by simp

/-- a unitary matrix of maximal trace is one -/
theorem eq_one_of_trace {n : Nat} {U : Mat n} (h : U ∈ Matrix.unitaryGroup (Fin n) ℂ) (ht : U.trace.re = n) : U = 1 := by
  have hb : ∀ i j, ‖U i j‖ ≤ 1 := entry_norm_bound_of_unitary h
  have hre : ∀ i, (U i i).re = 1 := by
    have hle : ∀ i ∈ (univ : Finset (Fin n)), (U i i).re ≤ (1 : ℝ) := fun i _ => (Complex.re_le_norm _).trans (hb i i)
    have : ∑ i, (U i i).re = ∑ i : Fin n, (1 : ℝ) := by
      rw [Matrix.trace, Complex.re_sum] at ht
      simpa using ht
    exact fun i => (sum_eq_sum_iff_of_le hle).1 this i (mem_univ i)
  have hd : ∀ i, U i i = 1 := by
    intro i
    have h1 := hb i i
    have h2 : ‖U i i‖ ^ 2 = (U i i).re * (U i i).re + (U i i).im * (U i i).im := by rw [← Complex.normSq_eq_norm_sq, Complex.normSq_apply]
    have h3 := hre i
    have h4 : (U i i).im = 0 := by
      have : ‖U i i‖ ^ 2 ≤ 1 := by nlinarith [norm_nonneg (U i i)]
      rw [h3] at h2
      nlinarith [mul_self_nonneg (U i i).im]
    exact Complex.ext (by simpa using h3) (by simpa using h4)
  have hrow : ∀ i, ∑ j, ‖U i j‖ ^ 2 = 1 := by
    intro i
    have hm := congrFun (congrFun (Matrix.mem_unitaryGroup_iff.1 h) i) i
    rw [Matrix.mul_apply, Matrix.one_apply_eq] at hm
    have : ∀ j, U i j * star U j i = ((‖U i j‖ ^ 2 : ℝ) : ℂ) := by
      intro j
      rw [Matrix.star_apply, ← Complex.normSq_eq_norm_sq, Complex.normSq_eq_conj_mul_self, mul_comm]
      rfl
    rw [sum_congr rfl fun j _ => this j, ← Complex.ofReal_sum] at hm
    exact_mod_cast hm
  ext i j
  by_cases hij : i = j
  · subst hij; rw [hd i, Matrix.one_apply_eq]
  · rw [Matrix.one_apply_ne hij]
    have h1 := hrow i
    rw [← add_sum_erase univ _ (mem_univ i), hd i] at h1
    have h2 : ∑ k ∈ univ.erase i, ‖U i k‖ ^ 2 = 0 := by simpa using h1
    have h3 := (sum_eq_zero_iff_of_nonneg fun k _ => sq_nonneg ‖U i k‖).1 h2 j (mem_erase.2 ⟨fun h => hij h.symm, mem_univ j⟩)
    simpa using h3

theorem siteSum_const (L : List Nat) (x : ℝ) : siteSum L (fun _ => x) = nsites L * x := by simp [siteSum]

theorem planeSum_le {n : Nat} {L : List Nat} {u : GaugeField n} (hu : ∀ mu < L.length, UnitaryOn L (u mu)) {mu nu : Nat} (hmu : mu < L.length)
    (hnu : nu < L.length) : |planeSum L u mu nu| ≤ nsites L * n := by
  unfold planeSum siteSum
  calc _ ≤ ∑ r ∈ range (nsites L), |(plaq L u mu nu (digits r L)).trace.re| := abs_sum_le_sum_abs _ _
    _ ≤ ∑ r ∈ range (nsites L), (n : ℝ) := sum_le_sum fun r hr => trace_le (plaq_unitary hu hmu hnu (digits_inRange (mem_range.1 hr)))
    _ = _ := by simp

theorem planeSum_eq_iff {n : Nat} {L : List Nat} {u : GaugeField n} (hu : ∀ mu < L.length, UnitaryOn L (u mu)) {mu nu : Nat} (hmu : mu < L.length)
    (hnu : nu < L.length) : planeSum L u mu nu = nsites L * n ↔ ∀ x, InRange x L → plaq L u mu nu x = 1 := by
  have hle : ∀ r ∈ range (nsites L), (plaq L u mu nu (digits r L)).trace.re ≤ n :=
    fun r hr => (le_abs_self _).trans (trace_le (plaq_unitary hu hmu hnu (digits_inRange (mem_range.1 hr))))
  have hc : (nsites L * n : ℝ) = ∑ r ∈ range (nsites L), (n : ℝ) := by simp
  unfold planeSum siteSum
  rw [hc, sum_eq_sum_iff_of_le hle]
  constructor
  · intro h x hx
    obtain ⟨r, hr, rfl⟩ : ∃ r, r < nsites L ∧ digits r L = x := ⟨rank x L, rank_lt hx, digits_rank hx⟩
    exact eq_one_of_trace (plaq_unitary hu hmu hnu hx) (h r (mem_range.2 hr))
  · intro h r hr
    rw [h _ (digits_inRange (mem_range.1 hr))]
    simp

theorem triangle (m : Nat) : ((∑ mu ∈ range m, ∑ _nu ∈ range mu, 1 : ℕ) : ℝ) * 2 = m * (m - 1) := by
  induction m with
  | zero => simp
  | succ m ih =>
    rw [sum_range_succ]
    push_cast at ih ⊢
    rw [add_mul, ih]
    simp
    ring

theorem pairs_le {m : Nat} {F : Nat → Nat → ℝ} {C : ℝ} (h : ∀ mu nu, nu < mu → mu < m → |F mu nu| ≤ C) :
    |∑ mu ∈ range m, ∑ nu ∈ range mu, F mu nu| * 2 ≤ m * (m - 1) * C := by
  rw [← triangle]
  have : |∑ mu ∈ range m, ∑ nu ∈ range mu, F mu nu| ≤ ∑ mu ∈ range m, ∑ nu ∈ range mu, C :=
    (abs_sum_le_sum_abs _ _).trans (sum_le_sum fun mu hmu => (abs_sum_le_sum_abs _ _).trans
      (sum_le_sum fun nu hnu => h mu nu (mem_range.1 hnu) (mem_range.1 hmu)))
  have e : (∑ mu ∈ range m, ∑ nu ∈ range mu, C) = ((∑ mu ∈ range m, ∑ _nu ∈ range mu, 1 : ℕ) : ℝ) * C := by
    push_cast
    rw [sum_mul]
    exact sum_congr rfl fun mu _ => by simp
  rw [e] at this
  linarith

theorem pairs_eq_iff {m : Nat} {F : Nat → Nat → ℝ} {C : ℝ} (h : ∀ mu nu, nu < mu → mu < m → F mu nu ≤ C) :
    (∑ mu ∈ range m, ∑ nu ∈ range mu, F mu nu) * 2 = m * (m - 1) * C ↔ ∀ mu nu, nu < mu → mu < m → F mu nu = C := by
  have e : (∑ mu ∈ range m, ∑ nu ∈ range mu, C) * 2 = m * (m - 1) * C := by
    rw [← triangle]
    push_cast
    rw [mul_right_comm]
    congr 1
    rw [sum_mul]
    exact sum_congr rfl fun mu _ => by simp
  rw [← e, mul_left_inj' two_ne_zero, sum_eq_sum_iff_of_le fun mu hmu => sum_le_sum fun nu hnu => h mu nu (mem_range.1 hnu) (mem_range.1 hmu)]
  constructor
  · intro hh mu nu hn hm
    exact (sum_eq_sum_iff_of_le fun nu hnu => h mu nu (mem_range.1 hnu) hm).1 (hh mu (mem_range.2 hm)) nu (mem_range.2 hn)
  · intro hh mu hm
    exact sum_congr rfl fun nu hn => hh mu nu (mem_range.1 hn) (mem_range.1 hm)

section
variable {n : Nat} {L : List Nat} (hpos : ∀ l ∈ L, 0 < l) (hn : 1 ≤ n) (hnd : 2 ≤ L.length) {u : GaugeField n} {o : Obs} (h : IsPlaq L u o)
  (hu : ∀ mu < L.length, UnitaryOn L (u mu))
include hpos hn hnd h hu

/-- C92. "Normalized to 1": of a unitary gauge field the averages lie between -1 and 1. -/
theorem C92_bounds : |o.w| ≤ 1 ∧ |o.s| ≤ 1 ∧ |o.t| ≤ 1 := by
  have hv : (0 : ℝ) < nsites L := by exact_mod_cast nsites_pos hpos
  have hn' : (0 : ℝ) < n := by exact_mod_cast hn
  have hd : (2 : ℝ) ≤ L.length := by exact_mod_cast hnd
  have hd1 : (0 : ℝ) < L.length - 1 := by linarith
  refine ⟨?_, ?_, ?_⟩
  · have := pairs_le (m := L.length) (F := planeSum L u) fun mu nu a b => planeSum_le hu b (lt_trans a b)
    rw [h.w, abs_mul, abs_of_pos (by positivity), div_mul_eq_mul_div, div_le_one (by positivity)]
    linarith
  · rw [h.s]
    split
    · rename_i h2
      have hd2 : (0 : ℝ) < L.length - 2 := by
        have : (3 : ℝ) ≤ L.length := by exact_mod_cast h2
        linarith
      have := pairs_le (m := L.length - 1) (F := planeSum L u) fun mu nu a b => planeSum_le hu (by omega) (by omega)
      rw [abs_mul, abs_of_pos (by positivity), div_mul_eq_mul_div, div_le_one (by positivity)]
      rw [Nat.cast_sub (by omega)] at this
      push_cast at this
      linarith
    · have : L.length - 1 = 1 := by omega
      simp [this]
  · rw [h.t, abs_mul, abs_of_pos (by positivity), div_mul_eq_mul_div, one_mul, div_le_one (by positivity)]
    calc _ ≤ ∑ nu ∈ range (L.length - 1), |planeSum L u (L.length - 1) nu| := abs_sum_le_sum_abs _ _
      _ ≤ ∑ nu ∈ range (L.length - 1), (nsites L * n : ℝ) := sum_le_sum fun nu hnu => planeSum_le hu (by omega) (by have := mem_range.1 hnu; omega)
      _ = _ := by
        rw [sum_const, card_range, nsmul_eq_mul, Nat.cast_sub (by omega)]
        push_cast
        ring

/-- C92. The average is one for the flat fields and no others: if and only if every plaquette is the unit matrix. -/
theorem C92_flat_iff : o.w = 1 ↔ ∀ mu nu, nu < mu → mu < L.length → ∀ x, InRange x L → plaq L u mu nu x = 1 := by
  have hv : (0 : ℝ) < nsites L := by exact_mod_cast nsites_pos hpos
  have hn' : (0 : ℝ) < n := by exact_mod_cast hn
  have hd : (2 : ℝ) ≤ L.length := by exact_mod_cast hnd
  have hd1 : (0 : ℝ) < L.length - 1 := by linarith
  have key := pairs_eq_iff (m := L.length) (F := planeSum L u) (C := nsites L * n)
    fun mu nu a b => (le_abs_self _).trans (planeSum_le hu b (lt_trans a b))
  rw [h.w, div_mul_eq_mul_div, div_eq_one_iff_eq (by positivity)]
  rw [show (nsites L * L.length * (L.length - 1) * n : ℝ) = L.length * (L.length - 1) * (nsites L * n) by ring, mul_comm 2, key]
  exact forall_congr' fun mu => forall_congr' fun nu => forall_congr' fun a => forall_congr' fun b => planeSum_eq_iff hu b (lt_trans a b)

end

/-- C92. Pure gauge fields have averages one; with two directions there are no space-like plaquettes and `s_plaq` is zero. -/
theorem C92_pure_gauge {n : Nat} {L : List Nat} (hpos : ∀ l ∈ L, 0 < l) (hn : 1 ≤ n) (hnd : 2 ≤ L.length) {G : List Nat → Mat n} (hG : UnitaryOn L G)
    {u : GaugeField n} (hu : ∀ mu x, mu < L.length → InRange x L → u mu x = G x * star (G (up L mu x))) {o : Obs} (h : IsPlaq L u o) :
    o.w = 1 ∧ o.s = (if L.length > 2 then 1 else 0) ∧ o.t = 1 := by
  have hv : (0 : ℝ) < nsites L := by exact_mod_cast nsites_pos hpos
  have hn' : (0 : ℝ) < n := by exact_mod_cast hn
  have hd : (2 : ℝ) ≤ L.length := by exact_mod_cast hnd
  have hd1 : (0 : ℝ) < L.length - 1 := by linarith
  have hp : ∀ mu nu, nu < mu → mu < L.length → planeSum L u mu nu = nsites L * n := by
    intro mu nu hlt hmu
    have e : planeSum L u mu nu = planeSum L (transform L G fun _ _ => 1) mu nu := by
      refine siteSum_congr fun x hx => ?_
      have e1 := hu mu x hmu hx
      have e2 := hu nu (up L mu x) (by omega) (nbr_inRange hx)
      have e3 := hu mu (up L nu x) hmu (nbr_inRange hx)
      have e4 := hu nu x (by omega) hx
      simp only [plaq, e1, e2, e3, e4, transform, mul_one]
    rw [e, planeSum_transform hG _ hlt.ne', ← siteSum_const]
    refine siteSum_congr fun x hx => ?_
    simp [plaq]
  have k1 := (pairs_eq_iff (m := L.length) (F := planeSum L u) (C := nsites L * n) fun mu nu a b => (hp mu nu a b).le).2 hp
  refine ⟨?_, ?_, ?_⟩
  · rw [h.w, div_mul_eq_mul_div, mul_comm 2, k1, div_eq_one_iff_eq (by positivity)]
    ring
  · rw [h.s]
    split
    · rename_i h2
      have hd2 : (0 : ℝ) < L.length - 2 := by
        have : (3 : ℝ) ≤ L.length := by exact_mod_cast h2
        linarith
      have k2 := (pairs_eq_iff (m := L.length - 1) (F := planeSum L u) (C := nsites L * n) fun mu nu a b => (hp mu nu a (by omega)).le).2
        fun mu nu a b => hp mu nu a (by omega)
      rw [Nat.cast_sub (by omega)] at k2
      push_cast at k2
      rw [div_mul_eq_mul_div, mul_comm 2, k2, div_eq_one_iff_eq (by positivity)]
      ring
    · have : L.length - 1 = 1 := by omega
      simp [this]
  · rw [h.t, sum_congr rfl fun nu hnu => hp (L.length - 1) nu (mem_range.1 hnu) (by omega), sum_const, card_range, nsmul_eq_mul, Nat.cast_sub (by omega)]
    push_cast
    rw [div_mul_eq_mul_div, one_mul, div_eq_one_iff_eq (by positivity)]
    ring

/-- C92. `link` is not normalized to one: of the field of unit matrices it is Nd Nc / 12, that is one for three colours in four
dimensions (and for few others) only. -/
theorem C92_link {n : Nat} {L : List Nat} (hpos : ∀ l ∈ L, 0 < l) {u : GaugeField n} (hu : ∀ mu x, mu < L.length → InRange x L → u mu x = 1)
    {o : Obs} (h : IsPlaq L u o) : o.link = L.length * n / 12 := by
  have hv : (0 : ℝ) < nsites L := by exact_mod_cast nsites_pos hpos
  have : ∀ mu ∈ range L.length, siteSum L (fun x => (u mu x).trace.re) = nsites L * n := by
    intro mu hmu
    rw [← siteSum_const]
    refine siteSum_congr fun x hx => ?_
    rw [hu mu x (mem_range.1 hmu) hx]
    simp
  rw [h.link, sum_congr rfl this]
  simp only [sum_const, card_range, nsmul_eq_mul]
  field_simp

/-! ## Overflow -/

theorem ckInt_bind {α : Type} {x : Nat} {k : Nat → Outcome α} (h : x < 2 ^ 31 → k x = ub) : (ckInt x >>= k) = ub := by
  unfold ckInt
  split
  · exact h ‹_›
  · rfl

theorem normalize_ub {vol nd n : Nat} (h : 2 ^ 31 ≤ vol * nd * (nd - 1) * n ∨ vol * nd * (nd - 1) * n = 0) (a : Acc) (l : ℝ) :
    normalize vol nd n a l = ub := by
  unfold normalize
  refine ckInt_bind fun _ => ckInt_bind fun _ => ckInt_bind fun h3 => ?_
  rcases h with h | h
  · omega
  · rw [h]
    simp [Reunit.divR]

/-- C92. Where the product of volume, Nd, Nd - 1 and Nc leaves the range of `int`, and in one dimension, where it is zero, the
normalization is undefined: no averages are returned. -/
theorem C92_overflow {n : Nat} (tot : List (V n) → V n) (htot : ∀ l, tot l = l.sum) (net : Net) (g : Geom) (hs : Setup g) (h1 : 1 ≤ g.L.length)
    (h : 2 ^ 31 ≤ nsites g.L * g.L.length * (g.L.length - 1) * n ∨ g.L.length = 1) (b : Nat) (hb : g.L.length ≤ b) (F : Nat → Local (V n))
    (f : Nat → List Nat → V n) (hF : HoldsAll g F f) : ∃ f', AlwaysEndsIn net g (start tot g (mesPlq g.L b Prog.ret) F) ub f' := by
  obtain ⟨f', -, r⟩ := mesPlq_run (R := Outcome Obs) hs.ext hb h1 f
  obtain ⟨hr, hl⟩ := r Prog.ret
  have := hs.ends tot htot net (mesPlq g.L b Prog.ret) F f hF (hl trivial) (mesPlq_shifts fun _ => trivial)
  rw [hr, normalize_ub (h.imp_right fun e => by simp [e])] at this
  exact ⟨f', this⟩

/-! ## Cases -/

/-- C92. The lattice of 96^3 times 192 on sixteen nodes: the plaquette of three colours overflows, though the volume does not. -/
theorem C92_false : ∃ g : Geom, Setup g ∧ nsites g.L < 2 ^ 31 ∧ g.L.length = 4 ∧ ∀ (tot : List (V 3) → V 3), (∀ l, tot l = l.sum) → ∀ (net : Net)
    (F : Nat → Local (V 3)) (f : Nat → List Nat → V 3), HoldsAll g F f → ∃ f', AlwaysEndsIn net g (start tot g (mesPlq g.L 4 Prog.ret) F) ub f' := by
  have hs := setup_lex [96, 96, 96, 192] [48, 48, 48, 96] (lexMachine [2, 2, 2, 2]) (lexMachine_good _) (by simp [Cut, lexMachine]) (by decide)
    (by decide) (by simp [lexMachine]) (by decide) (by decide) (by decide)
  exact ⟨_, hs, by decide, rfl, fun tot htot net F f hF => C92_overflow tot htot net _ hs (by decide) (Or.inl (by decide)) 4 le_rfl F f hF⟩

/-- a machine of sixteen nodes that meets the hypotheses of `C92_plaquette_partial` for three colours -/
example : Setup (geomCB2 [24, 24, 24, 48] (lexMachine [2, 2, 2, 2]) [12, 12, 12, 24]) ∧ nsites [24, 24, 24, 48] * 4 * 3 * 3 < 2 ^ 31 ∧
    12 * nsites [24, 24, 24, 48] < 2 ^ 31 :=
  ⟨setup_cb2 [24, 24, 24, 48] [12, 12, 24] 12 (lexMachine [2, 2, 2, 2]) (lexMachine_good _) (by simp [Cut, lexMachine]) rfl (by decide)
    (by simp [lexMachine]) (by decide) (by decide) (by decide), by decide, by decide⟩

/-- one link turned round, of one colour on a lattice of two by two -/
def flipped : GaugeField 1 := fun mu x => if mu = 1 ∧ x = [0, 0] then Matrix.diagonal fun _ => -1 else 1

/-- it is unitary; two plaquettes of four are turned round and the average is zero -/
example : (∀ mu < 2, UnitaryOn [2, 2] (flipped mu)) ∧ ∀ o, IsPlaq [2, 2] flipped o → o.w = 0 := by
  constructor
  · intro mu _ x _
    unfold flipped
    split
    · rw [Matrix.star_eq_conjTranspose, Matrix.diagonal_conjTranspose, Matrix.diagonal_mul_diagonal]
      simp
    · simp
  · intro o h
    have : planeSum [2, 2] flipped 1 0 = 0 := by
      have e : nsites [2, 2] = 4 := rfl
      simp [planeSum, siteSum, e, sum_range_succ, plaq, flipped, digits, nbr, step, Matrix.trace]
    rw [h.w]
    simp [sum_range_succ, this]

end Verif.Gauge
