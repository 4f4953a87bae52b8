import Verif.ReunitThm
/-
C91: reunitarization with more than three colours, matrices that need no change, the flags.
-/
namespace Verif.Reunit
open Verif Outcome Verif.LatticeIO
open scoped ComplexConjugate
open Finset

/-! ## More than three colours -/

theorem site_ge {n : Nat} (hn : 4 ≤ n) (a : Arr) : site n a = caseN n a := by
  obtain ⟨m, rfl⟩ : ∃ m, n = m + 4 := ⟨n - 4, by omega⟩
  rfl

/-- a phase in the last column -/
noncomputable def lastPhase (n : Nat) (t : ℂ) : Matrix (Fin n) (Fin n) ℂ := Matrix.diagonal fun j => if j.val = n - 1 then t else 1

theorem mat_scale (n : Nat) (t : ℂ) (a : Arr) : mat n (scale n (n - 1) t a) = mat n a * lastPhase n t := by
  ext i j
  rw [lastPhase, Matrix.mul_diagonal, scale_eq]
  simp only [mat, i.2, true_and]
  split
  · rename_i h; rw [h]
  · rw [mul_one]

theorem lastPhase_det {n : Nat} (hn : 1 ≤ n) (t : ℂ) : (lastPhase n t).det = t := by
  rw [lastPhase, Matrix.det_diagonal, ← prod_range (fun j => if j = n - 1 then t else 1), prod_ite_eq' (range n) (n - 1) (fun _ => t),
    if_pos (mem_range.2 (by omega))]

theorem lastPhase_unitary {n : Nat} {t : ℂ} (ht : ‖t‖ = 1) : lastPhase n t ∈ Matrix.unitaryGroup (Fin n) ℂ := by
  have h : conj t * t = 1 := by rw [← Complex.normSq_eq_conj_mul_self, Complex.normSq_eq_norm_sq, ht]; norm_num
  rw [Matrix.mem_unitaryGroup_iff', lastPhase, Matrix.star_eq_conjTranspose, Matrix.diagonal_conjTranspose, Matrix.diagonal_mul_diagonal,
    ← Matrix.diagonal_one]
  congr 1
  funext j
  simp only [Pi.star_apply]
  split
  · exact h
  · simp

theorem phase_eq (x : ℝ) : (⟨Real.cos x, -Real.sin x⟩ : ℂ) = Complex.exp (-(x * Complex.I)) := by
  rw [← neg_mul, ← Complex.ofReal_neg, Complex.exp_mul_I, ← Complex.ofReal_cos, ← Complex.ofReal_sin, Real.cos_neg, Real.sin_neg]
  apply Complex.ext <;> simp [-Complex.ofReal_cos, -Complex.ofReal_sin]

/-- C91. With more than three colours, what the function does where it does not divide by zero: it orthonormalizes all columns
(A = G R) and multiplies the last one by exp(-i θ), where θ is the angle of the point whose coordinates are the last entry r
of R's diagonal and the imaginary part of det G. -/
theorem C91_phase (n : Nat) (hn : 4 ≤ n) (a q : Arr) (sg : ℝ) (e : site n a = ok (q, sg)) :
    ∃ (G R : Matrix (Fin n) (Fin n) ℂ) (r : ℝ), G ∈ Matrix.unitaryGroup (Fin n) ℂ ∧ mat n a = G * R ∧ (∀ i j, j < i → R i j = 0) ∧
      (∀ j, 0 < (R j j).re ∧ (R j j).im = 0) ∧ R ⟨n - 1, by omega⟩ ⟨n - 1, by omega⟩ = r ∧
      mat n q = G * lastPhase n (Complex.exp (-(Complex.arg ⟨r, G.det.im⟩ * Complex.I))) ∧
      sg = Real.sqrt (dist2 (mat n a) (mat n q)) := by
  rw [site_ge hn] at e
  simp only [caseN, gramSchmidt_eq, bind_eq_ok, pure_def] at e
  obtain ⟨s, e1, d, e2, e3⟩ := e
  injection e3 with e3
  obtain ⟨rfl, rfl⟩ := Prod.mk.inj e3
  have inv := gsPart_inv (by omega) (by omega) le_rfl e1
  obtain ⟨R, r1, r2, r3, r4⟩ := inv.qr
  obtain rfl := luDet_ok (by omega) e2
  refine ⟨mat n s.a, Matrix.of fun i j => R i j, s.t1, ON_iff.1 inv.on, ?_, fun i j h => r1 i j h, fun j => r2 j j.2, r4 (n - 1) (by omega),
    ?_, ?_⟩
  · ext i j
    rw [Matrix.mul_apply]
    refine (r3 j j.2 i i.2).trans ?_
    rw [sum_range]
    rfl
  · rw [mat_scale, phase_eq, atan2]
  · refine inv.dev (by omega) (by omega) fun c k hc hk => ?_
    rw [scale_eq]
    simp only
    rw [if_neg (by omega)]

/-- C91. With more than three colours the result is unitary, though not always of determinant 1, and `sigmasq` is still its
distance from the matrix. -/
theorem C91_unitary (n : Nat) (hn : 4 ≤ n) (a q : Arr) (sg : ℝ) (e : site n a = ok (q, sg)) :
    mat n q ∈ Matrix.unitaryGroup (Fin n) ℂ ∧ sg = Real.sqrt (dist2 (mat n a) (mat n q)) := by
  obtain ⟨G, R, r, hG, -, -, -, -, hq, hs⟩ := C91_phase n hn a q sg e
  refine ⟨?_, hs⟩
  rw [hq]
  refine mul_mem hG (lastPhase_unitary ?_)
  rw [← neg_mul, ← Complex.ofReal_neg, Complex.norm_exp_ofReal_mul_I]

/-- C91. When the determinant does come out as 1: only if it was 1 before the phase, or by accident equal to
`r + i sqrt(1-r²)` or its conjugate. -/
theorem C91_det_one_iff (n : Nat) (hn : 4 ≤ n) (G : Matrix (Fin n) (Fin n) ℂ) (hG : G ∈ Matrix.unitaryGroup (Fin n) ℂ) (r : ℝ) (hr : 0 < r) :
    (G * lastPhase n (Complex.exp (-(Complex.arg ⟨r, G.det.im⟩ * Complex.I)))).det = 1 ↔ G.det = 1 ∨ G.det.re = r := by
  have hd : ‖G.det‖ = 1 := by
    have := Matrix.det_of_mem_unitary hG
    rw [Unitary.mem_iff] at this
    have h2 := this.1
    have h3 : Complex.normSq G.det = 1 := by
      have h4 : conj G.det * G.det = 1 := h2
      rw [← Complex.normSq_eq_conj_mul_self] at h4
      exact_mod_cast h4
    rw [Complex.norm_def, h3, Real.sqrt_one]
  rw [Matrix.det_mul, lastPhase_det (by omega)]
  set d := G.det with hdd
  set z : ℂ := ⟨r, d.im⟩ with hz
  have hzn : 0 < ‖z‖ := by
    rw [norm_pos_iff]
    intro h
    have := congrArg Complex.re h
    simp only [hz, Complex.zero_re] at this
    exact hr.ne' this
  have hzn' : (‖z‖ : ℂ) ≠ 0 := by exact_mod_cast hzn.ne'
  have harg := Complex.norm_mul_exp_arg_mul_I z
  have step : d * Complex.exp (-(z.arg * Complex.I)) = 1 ↔ d * ‖z‖ = z := by
    rw [Complex.exp_neg]
    have hE : Complex.exp (z.arg * Complex.I) ≠ 0 := Complex.exp_ne_zero _
    constructor
    · intro h
      have : d = Complex.exp (z.arg * Complex.I) := by field_simp at h; exact h
      rw [this, mul_comm]; exact harg
    · intro h
      have : d = Complex.exp (z.arg * Complex.I) := by
        apply mul_right_cancel₀ hzn'
        rw [h, mul_comm]; exact harg.symm
      rw [← this]
      exact mul_inv_cancel₀ (by rw [this]; exact hE)
  rw [step]
  have hd2 : d.re * d.re + d.im * d.im = 1 := by
    have := Complex.normSq_apply d
    rw [Complex.normSq_eq_norm_sq, hd] at this
    linarith
  have hz2 : ‖z‖ * ‖z‖ = r * r + d.im * d.im := by
    have := Complex.normSq_apply z
    rw [Complex.normSq_eq_norm_sq] at this
    simp only [hz] at this ⊢
    linarith
  constructor
  · intro h
    have hre := congrArg Complex.re h
    have him := congrArg Complex.im h
    simp only [Complex.mul_re, Complex.mul_im, Complex.ofReal_re, Complex.ofReal_im, hz, mul_zero, sub_zero, zero_add] at hre him
    rw [← hz] at hre him
    by_cases h0 : d.im = 0
    · left
      apply Complex.ext
      · have : d.re * d.re = 1 := by rw [h0] at hd2; linarith
        rcases mul_self_eq_one_iff.1 this with h | h
        · rw [h]; rfl
        · rw [h] at hre; linarith
      · rw [h0]; rfl
    · right
      have : ‖z‖ = 1 := mul_left_cancel₀ h0 (by linarith)
      rw [this] at hre
      linarith
  · rintro (h | h)
    · have h1 : d.im = 0 := by rw [h]; rfl
      have h2 : ‖z‖ = r := by
        rw [h1] at hz2
        nlinarith
      rw [h, one_mul, h2]
      apply Complex.ext
      · simp [hz]
      · simp [hz, h1]
    · have h2 : ‖z‖ = 1 := by
        have : ‖z‖ * ‖z‖ = 1 := by rw [hz2, ← h]; exact hd2
        nlinarith
      rw [h2, Complex.ofReal_one, mul_one]
      exact Complex.ext h rfl

/-! ## Unitary matrices -/

theorem gsCol_unitary {n j : Nat} (hj : j < n) {a : Arr} (h : ON n n a) (x : ℝ) : gsCol n j ⟨a, 0, x⟩ = ok ⟨a, 0, 1⟩ := by
  have hl : ∀ m ≤ j, forN 0 m (gsInner n j) ⟨a, 0, x⟩ = ⟨a, 0, x⟩ := by
    intro m
    induction m with
    | zero => intro _; rw [forN_self]
    | succ m ih =>
      intro hm
      rw [forN_succ (Nat.zero_le m), ih (by omega)]
      simp only [gsInner, dot_eq (show 1 ≤ n by omega), h m (by omega) j hj, if_neg (show m ≠ j by omega), orth_eq]
      simp [nrm2]
      funext c k
      split
      · rename_i h; rw [h.2]
      · rfl
  have hc : colNorm n a j = 1 := by
    have e := ip_self n (col a j)
    rw [h j hj j hj, if_pos rfl] at e
    have e : len2 n (col a j) = 1 := by exact_mod_cast e.symm
    rw [colNorm_eq (by omega), e, Real.sqrt_one]
  simp only [gsCol, hl j le_rfl, hc, divR, one_ne_zero, if_false, ok_bind, pure_def, scale_eq]
  simp
  funext c k
  split
  · rename_i h; rw [h.2]
  · rfl

theorem gsPart_unitary {n m : Nat} (h2 : 1 < n) (hm : 1 ≤ m) (hmn : m ≤ n) {a : Arr} (h : ON n n a) : gsPart n m a = ok ⟨a, 0, 1⟩ := by
  rw [gsPart_eq h2 hm a 1]
  clear hm
  induction m with
  | zero => rw [forO_self]
  | succ m ih => rw [forO_succ (Nat.zero_le m), ih (by omega), ok_bind, gsCol_unitary (by omega) h]

/-- what is left to do with a unitary matrix -/
theorem caseN_unitary {n : Nat} (hn : 4 ≤ n) {a : Arr} (h : ON n n a) :
    site n a = (do
      let d ← luDet n a
      let q := scale n (n - 1) ⟨Real.cos (atan2 d.im 1), -Real.sin (atan2 d.im 1)⟩ a
      return (q, dev n (fun c => a c (n - 1)) q 0)) := by
  rw [site_ge hn, caseN, gramSchmidt_eq, gsPart_unitary (by omega) (by omega) le_rfl h, ok_bind]

theorem dist2_self {n : Nat} (A : Matrix (Fin n) (Fin n) ℂ) : dist2 A A = 0 := by simp [dist2]

theorem unitary_det_ne {n : Nat} {A : Matrix (Fin n) (Fin n) ℂ} (h : A ∈ Matrix.unitaryGroup (Fin n) ℂ) : A.det ≠ 0 := by
  intro z
  have := (Unitary.mem_iff.1 (Matrix.det_of_mem_unitary h)).1
  rw [z, mul_zero] at this
  exact zero_ne_one this

/-- a special unitary matrix has its inverse for adjugate -/
theorem adj_star {n : Nat} {A : Matrix (Fin n) (Fin n) ℂ} (h : A ∈ Matrix.unitaryGroup (Fin n) ℂ) (hd : A.det = 1) : star A = A.adjugate := by
  have h1 : star A * A = 1 := Matrix.mem_unitaryGroup_iff'.1 h
  calc star A = star A * (A * A.adjugate) := by rw [Matrix.mul_adjugate, hd, one_smul, mul_one]
    _ = A.adjugate := by rw [← mul_assoc, h1, one_mul]

/-- C91. A matrix that is special unitary already (unitary, for one colour) is left as it is, at distance 0; with more than
three colours, where the decomposition does not divide by zero. -/
theorem C91_fixed (n : Nat) (hn : 1 ≤ n) (a : Arr) (hu : mat n a ∈ Matrix.unitaryGroup (Fin n) ℂ) (hd : 1 < n → (mat n a).det = 1) (q : Arr)
    (sg : ℝ) (e : site n a = ok (q, sg)) : mat n q = mat n a ∧ sg = 0 := by
  have hon := ON_iff.2 hu
  have key : mat n q = mat n a → sg = Real.sqrt (dist2 (mat n a) (mat n q)) → mat n q = mat n a ∧ sg = 0 := by
    intro h1 h2
    rw [h1, dist2_self, Real.sqrt_zero] at h2
    exact ⟨h1, h2⟩
  rcases Nat.lt_or_ge n 4 with h4 | h4
  · interval_cases n
    · refine key ?_ (case1_ok e).2
      have e' : case1 a = ok (q, sg) := e
      simp only [case1, bind_eq_ok, divR_ok, pure_def] at e'
      obtain ⟨re, ⟨h0, rfl⟩, im, ⟨-, rfl⟩, e'⟩ := e'
      injection e' with e'
      obtain ⟨rfl, -⟩ := Prod.mk.inj e'
      have h1 := hon 0 one_pos 0 one_pos
      simp only [ip, col, sum_range_one, if_true] at h1
      rw [← Complex.normSq_eq_conj_mul_self, ← nrm2_eq] at h1
      have h1 : nrm2 (a 0 0) = 1 := by exact_mod_cast h1
      ext i j
      rw [mat_one, mat_one, h1]
      simp [upd]
    · refine key ?_ (case2_ok e).2
      have e' : case2 a = ok (q, sg) := e
      rw [case2_eq, gsPart_unitary (by omega) le_rfl (by omega) hon, ok_bind] at e'
      simp only [pure_def] at e'
      injection e' with e'
      obtain ⟨rfl, -⟩ := Prod.mk.inj e'
      have hs := adj_star hu (hd (by omega))
      rw [Matrix.adjugate_fin_two] at hs
      have h00 : conj (a 0 0) = a 1 1 := congrFun (congrFun hs 0) 0
      have h01 : conj (a 1 0) = -a 0 1 := congrFun (congrFun hs 0) 1
      ext i j
      fin_cases i <;> fin_cases j <;> simp [mat, upd, h00, h01]
    · refine key ?_ (case3_ok e).2
      have e' : case3 a = ok (q, sg) := e
      rw [case3_eq, gsPart_unitary (by omega) (by omega) (by omega) hon, ok_bind] at e'
      simp only [pure_def] at e'
      injection e' with e'
      obtain ⟨rfl, -⟩ := Prod.mk.inj e'
      have hs := adj_star hu (hd (by omega))
      rw [Matrix.adjugate_fin_three] at hs
      have h0 : conj (a 0 2) = a 1 0 * a 2 1 - a 1 1 * a 2 0 := congrFun (congrFun hs 2) 0
      have h1 : conj (a 1 2) = -(a 0 0 * a 2 1) + a 0 1 * a 2 0 := congrFun (congrFun hs 2) 1
      have h2 : conj (a 2 2) = a 0 0 * a 1 1 - a 0 1 * a 1 0 := congrFun (congrFun hs 2) 2
      have h0 := congrArg conj h0
      have h1 := congrArg conj h1
      have h2 := congrArg conj h2
      simp only [Complex.conj_conj, map_sub, map_mul, map_add, map_neg] at h0 h1 h2
      ext i j
      fin_cases i <;> fin_cases j <;> simp [mat, h0, h1, h2] <;> ring
  · refine key ?_ (C91_unitary n h4 a q sg e).2
    rw [caseN_unitary h4 hon, bind_eq_ok] at e
    obtain ⟨d, e1, e2⟩ := e
    have hd1 := luDet_ok (by omega) e1
    rw [hd (by omega)] at hd1
    subst hd1
    simp only [pure_def] at e2
    injection e2 with e2
    obtain ⟨rfl, -⟩ := Prod.mk.inj e2
    rw [mat_scale]
    have : atan2 (1 : ℂ).im 1 = 0 := by
      rw [atan2]
      have : (⟨1, (1 : ℂ).im⟩ : ℂ) = 1 := by apply Complex.ext <;> simp
      rw [this, Complex.arg_one]
    rw [this]
    have h1 : lastPhase n ⟨Real.cos 0, -Real.sin 0⟩ = 1 := by
      have : (⟨Real.cos 0, -Real.sin 0⟩ : ℂ) = 1 := by apply Complex.ext <;> simp
      rw [this, lastPhase, ← Matrix.diagonal_one]
      congr 1
      funext j
      simp
    rw [h1, mul_one]

/-! ## Where it goes wrong -/

/-- diag(1, ..., 1, -1) -/
noncomputable def reflection (n : Nat) : Arr := fun i j => if i = j then if j = n - 1 then -1 else 1 else 0

theorem mat_reflection (n : Nat) : mat n (reflection n) = lastPhase n (-1) := by
  ext i j
  simp only [mat, reflection, lastPhase, Matrix.diagonal_apply, Fin.ext_iff]
  split
  · rename_i h; rw [h]
  · rfl

/-- the decomposition of a diagonal matrix -/
theorem lu_diag {n : Nat} {a : Arr} (hoff : ∀ i j, i ≠ j → a i j = 0) (hdi : ∀ i, a i i ≠ 0) : ∀ m, forO 0 m (luCol n) a = ok a
  | 0 => by rw [forO_self]
  | m + 1 => by
    have hdot : ∀ i k l, l ≤ i → l ≤ k → luDot a i k l = a k i := by
      intro i k l hi _
      rw [luDot, forN_sub (Nat.zero_le l) (fun c => a c i * a k c), sum_eq_zero, sub_zero]
      intro c hc
      have := (mem_Ico.1 hc).2
      rw [hoff c i (by omega), zero_mul]
    have hupd : ∀ i k, upd a k i (a k i) = a := by
      intro i k
      funext c l
      simp only [upd]
      split
      · rename_i h; rw [h.1, h.2]
      · rfl
    have hlow : ∀ l ≤ m + 1, forN 0 l (fun i b => upd b m i (luDot b i m i)) a = a := by
      intro l
      induction l with
      | zero => intro _; rw [forN_self]
      | succ l ih =>
        intro hl
        rw [forN_succ (Nat.zero_le l), ih (by omega), hdot l m l le_rfl (by omega), hupd]
    have hhigh : ∀ l, m + 1 ≤ l → forO (m + 1) l (fun i b => do return upd b m i (← luQuot (b m m) (luDot b i m m))) a = ok a := by
      intro l hl
      induction l, hl using Nat.le_induction with
      | base => rw [forO_self]
      | succ l hl ih =>
        rw [forO_succ hl, ih, ok_bind, hdot l m m (by omega) le_rfl, hoff m l (by omega)]
        have hz : luQuot (a m m) 0 = ok 0 := by
          have : nrm2 (a m m) ≠ 0 := by rw [nrm2_eq]; exact fun h => hdi m (Complex.normSq_eq_zero.1 h)
          simp [luQuot, divR, this]
          rfl
        rw [hz, ok_bind, pure_def]
        have := hupd l m
        rw [hoff m l (by omega)] at this
        rw [this]
    rw [forO_succ (Nat.zero_le m), lu_diag hoff hdi m, ok_bind, luCol, hlow (m + 1) le_rfl]
    rcases Nat.lt_or_ge n (m + 1) with h | h
    · simp only [forO, show n - (m + 1) = 0 by omega, List.range'_zero, foldO]
    · exact hhigh n h

/-- C91. With four colours or more the function hands back a matrix of determinant -1, unchanged and at distance 0, so that no
flag reports it. -/
theorem C91_det_wrong (n : Nat) (hn : 4 ≤ n) : ∃ (a q : Arr), (mat n a).det = -1 ∧ site n a = ok (q, 0) ∧ (mat n q).det = -1 := by
  have hoff : ∀ i j, i ≠ j → reflection n i j = 0 := fun i j h => by simp [reflection, h]
  have hdi : ∀ i, reflection n i i ≠ 0 := fun i => by simp only [reflection, if_true]; split <;> norm_num
  have hu : mat n (reflection n) ∈ Matrix.unitaryGroup (Fin n) ℂ := by rw [mat_reflection]; exact lastPhase_unitary (by simp)
  have hdet : (mat n (reflection n)).det = -1 := by rw [mat_reflection, lastPhase_det (by omega)]
  have hlu : ∃ d, luDet n (reflection n) = ok d := by
    rw [luDet, lu_diag hoff hdi n, ok_bind]
    exact ⟨_, rfl⟩
  obtain ⟨d, hd⟩ := hlu
  have hd1 := luDet_ok (by omega) hd
  rw [hdet] at hd1
  subst hd1
  have e := caseN_unitary hn (ON_iff.2 hu)
  rw [hd, ok_bind] at e
  have h0 : atan2 (-1 : ℂ).im 1 = 0 := by
    rw [atan2]
    have : (⟨1, (-1 : ℂ).im⟩ : ℂ) = 1 := by apply Complex.ext <;> simp
    rw [this, Complex.arg_one]
  rw [h0] at e
  have h1 : (⟨Real.cos 0, -Real.sin 0⟩ : ℂ) = 1 := by apply Complex.ext <;> simp
  rw [h1] at e
  have hs : scale n (n - 1) 1 (reflection n) = reflection n := by
    rw [scale_eq]
    funext c k
    split
    · rename_i h; rw [h.2, mul_one]
    · rfl
  rw [hs] at e
  have hdev : dev n (fun c => reflection n c (n - 1)) (reflection n) 0 = 0 := by
    rw [dev, forN_add (Nat.zero_le n) (fun c => nrm2 (reflection n c (n - 1) - reflection n c (n - 1)))]
    simp [nrm2]
  simp only [hdev, pure_def] at e
  exact ⟨reflection n, reflection n, hdet, e, hdet⟩

theorem forO_first {σ : Type} {lo hi : Nat} (h : lo < hi) {f : Nat → σ → Outcome σ} {s : σ} :
    forO lo hi f s = (f lo s >>= forO (lo + 1) hi f) := by
  obtain ⟨k, rfl⟩ : ∃ k, hi = lo + k + 1 := ⟨hi - lo - 1, by omega⟩
  simp only [forO, show lo + k + 1 - lo = k + 1 by omega, List.range'_succ, foldO]
  congr 1
  funext s
  rw [forO, show lo + k + 1 - (lo + 1) = k by omega]

/-- C91. The decomposition does not look for a pivot: with four colours or more, a unitary matrix whose first entry is 0 is
divided by zero. -/
theorem C91_no_pivot (n : Nat) (hn : 4 ≤ n) (a : Arr) (hu : mat n a ∈ Matrix.unitaryGroup (Fin n) ℂ) (h0 : a 0 0 = 0) : site n a = ub := by
  rw [caseN_unitary hn (ON_iff.2 hu), luDet, forO_first (by omega), luCol]
  dsimp only
  rw [forO_first (show 0 + 1 < n by omega), Nat.zero_add, forN_succ le_rfl, forN_self]
  have : luQuot (upd a 0 0 (luDot a 0 0 0) 0 0) (luDot (upd a 0 0 (luDot a 0 0 0)) 1 0 0) = ub := by
    have h : upd a 0 0 (luDot a 0 0 0) 0 0 = 0 := by
      simp only [upd, and_self, if_true, luDot, forN_self, h0]
    rw [h]
    simp [luQuot, divR, nrm2]
  rw [this]
  rfl

/-- the exchange of 0 with 1 and of 2 with 3 -/
def swap4 : Arr := fun i j => if (i = 0 ∧ j = 1) ∨ (i = 1 ∧ j = 0) ∨ (i = 2 ∧ j = 3) ∨ (i = 3 ∧ j = 2) then 1 else 0

theorem mat_swap4 : mat 4 swap4 = !![0, 1, 0, 0; 1, 0, 0, 0; 0, 0, 0, 1; 0, 0, 1, 0] := by
  ext i j
  fin_cases i <;> fin_cases j <;> simp [mat, swap4]

theorem swap4_unitary : mat 4 swap4 ∈ Matrix.unitaryGroup (Fin 4) ℂ := by
  rw [← ON_iff]
  intro i hi k hk
  interval_cases i <;> interval_cases k <;> simp [ip, col, swap4]

theorem swap4_det : (mat 4 swap4).det = 1 := by
  rw [mat_swap4, Matrix.det_succ_row_zero]
  simp [Fin.sum_univ_succ, Matrix.det_fin_three, Fin.succAbove]

/-- C91 is false for four colours: a matrix of SU(4) is not handed back, and a matrix at distance 0 from the result keeps the
determinant -1. -/
theorem C91_false : (∃ a, mat 4 a ∈ Matrix.unitaryGroup (Fin 4) ℂ ∧ (mat 4 a).det = 1 ∧ site 4 a = ub) ∧
    ∃ a q, (mat 4 a).det ≠ 0 ∧ site 4 a = ok (q, 0) ∧ ¬ Reunitarized 4 (mat 4 a) (mat 4 q) := by
  refine ⟨⟨swap4, swap4_unitary, swap4_det, C91_no_pivot 4 le_rfl _ swap4_unitary (by simp [swap4])⟩, ?_⟩
  obtain ⟨a, q, h1, h2, h3⟩ := C91_det_wrong 4 le_rfl
  refine ⟨a, q, by rw [h1]; norm_num, h2, fun h => ?_⟩
  have := h.2.1 (by omega)
  rw [h3] at this
  norm_num at this

/-! ## The whole lattice and the flags -/

theorem reunit_loop {nc vol : Nat} {xa Q : Nat → Arr} {S : Nat → ℝ} (h : ∀ x < vol, site nc (xa x) = ok (Q x, S x)) : ∀ m ≤ vol,
    forO 0 m (fun x (r : (Nat → Arr) × (Nat → ℝ)) => do
      let (q, s) ← site nc (xa x)
      return (Function.update r.1 x q, Function.update r.2 x s)) (xa, fun _ => 0) =
    ok ((fun x => if x < m then Q x else xa x), fun x => if x < m then S x else 0)
  | 0, _ => by simp [forO_self]
  | m + 1, hm => by
    rw [forO_succ (Nat.zero_le m), reunit_loop h m (by omega), ok_bind, h m (by omega), ok_bind]
    simp only [pure_def]
    congr 1
    refine Prod.ext ?_ ?_ <;> funext x <;> simp only [Function.update_apply] <;>
      rcases lt_trichotomy x m with hx | rfl | hx
    all_goals first
      | simp [hx, show x ≠ m by omega, show x < m + 1 by omega]
      | (simp; done)
      | simp [show x ≠ m by omega, show ¬ x < m by omega, show ¬ x ≤ m by omega]

theorem over_eq (vol : Nat) (p : Nat → Prop) [DecidablePred p] :
    forN 0 vol (fun x k => k + if p x then 1 else 0) 0 = ((range vol).filter p).card := by
  rw [forN_add (Nat.zero_le vol) (fun x => if p x then 1 else 0), zero_add, ← range_eq_Ico, card_filter]

theorem sqrt_gt_fuzz {x : ℝ} : Real.sqrt x > fuzz ↔ x > fuzz ^ 2 := Real.lt_sqrt (by unfold fuzz; positivity)

/-- C91. On the lattice: the matrices are reunitarized at every site and with every flag, except that REUNITARIZE_ERROR stops the
run if any matrix was moved by more than 1e-5; REUNITARIZE_LABEL marks exactly those sites, and `numbad` is their number. -/
theorem C91_flags (nc vol : Nat) (hn : 1 ≤ nc) (xa Q : Nat → Arr) (S : Nat → ℝ) (bad : Nat → Bool)
    (h : ∀ x < vol, site nc (xa x) = ok (Q x, S x)) :
    ∃ (far : Nat → Prop) (_ : DecidablePred far) (q : Nat → Arr), (∀ x < vol, far x ↔ dist2 (mat nc (xa x)) (mat nc (Q x)) > (1 / 10 ^ 5) ^ 2) ∧
      (∀ x < vol, q x = Q x) ∧ (∀ x, vol ≤ x → q x = xa x) ∧
      reunit nc vol .plain xa bad = ok (q, bad, 0) ∧
      reunit nc vol .error xa bad = (if ∃ x < vol, far x then abort else ok (q, bad, 0)) ∧
      reunit nc vol .label xa bad = ok (q, fun x => if x < vol then decide (far x) else bad x, ((range vol).filter far).card) := by
  classical
  have hS : ∀ x < vol, S x = Real.sqrt (dist2 (mat nc (xa x)) (mat nc (Q x))) := by
    intro x hx
    rcases Nat.lt_or_ge nc 4 with h4 | h4
    · interval_cases nc
      · exact (case1_ok (h x hx)).2
      · exact (case2_ok (h x hx)).2
      · exact (case3_ok (h x hx)).2
    · exact (C91_unitary nc h4 _ _ _ (h x hx)).2
  refine ⟨fun x => S x > fuzz, inferInstance, fun x => if x < vol then Q x else xa x, ?_, ?_, ?_, ?_, ?_, ?_⟩
  · intro x hx
    show S x > fuzz ↔ _
    rw [hS x hx, sqrt_gt_fuzz, fuzz]
  · intro x hx; simp [hx]
  · intro x hx; simp [show ¬ x < vol by omega]
  · simp only [reunit]
    rw [reunit_loop h vol le_rfl]
    rfl
  all_goals
    have hcard : forN 0 vol (fun x k => k + if (if x < vol then S x else 0) > fuzz then 1 else 0) 0 = ((range vol).filter fun x => S x > fuzz).card := by
      rw [over_eq vol fun x => (if x < vol then S x else 0) > fuzz]
      congr 1
      refine filter_congr fun x hx => ?_
      rw [if_pos (mem_range.1 hx)]
  · simp only [reunit]
    rw [reunit_loop h vol le_rfl, ok_bind]
    dsimp only
    rw [hcard]
    by_cases hb : ∃ x < vol, S x > fuzz
    · obtain ⟨x, hx, hx'⟩ := hb
      rw [if_pos (card_pos.2 ⟨x, mem_filter.2 ⟨mem_range.2 hx, hx'⟩⟩), if_pos ⟨x, hx, hx'⟩]
    · have : ((range vol).filter fun x => S x > fuzz).card = 0 := by
        rw [card_eq_zero, filter_eq_empty_iff]
        intro x hx hx'
        exact hb ⟨x, mem_range.1 hx, hx'⟩
      rw [this, if_neg (lt_irrefl 0), if_neg hb]
      rfl
  · simp only [reunit]
    rw [reunit_loop h vol le_rfl, ok_bind]
    dsimp only
    rw [hcard]
    simp only [pure_def]
    congr 2
    refine Prod.ext (funext fun x => ?_) rfl
    dsimp only
    by_cases hx : x < vol
    · simp [hx]
    · simp [hx]

/-! ## Concrete cases -/

/-- a matrix of determinant 6: C91_special_unitary_partial applies to it -/
example : ∃ q, site 3 (fun i j => if i = j then (i : ℂ) + 1 else 0) = ok (q, Real.sqrt (dist2 (mat 3 fun i j => if i = j then (i : ℂ) + 1 else 0) (mat 3 q))) ∧
    Reunitarized 3 (mat 3 fun i j => if i = j then (i : ℂ) + 1 else 0) (mat 3 q) := by
  refine C91_special_unitary_partial 3 (by omega) _ (C91_det _ _ _ ?_)
  rw [Matrix.det_fin_three]
  simp [mat]
  norm_num

/-- the identity is handed back with any number of colours -/
theorem site_one (n : Nat) (hn : 4 ≤ n) : ∃ q sg, site n (fun i j => if i = j then 1 else 0) = ok (q, sg) := by
  have hu : mat n (fun i j => if i = j then 1 else 0) ∈ Matrix.unitaryGroup (Fin n) ℂ := by
    have : mat n (fun i j => if i = j then 1 else 0) = 1 := by
      ext i j
      simp [mat, Matrix.one_apply, Fin.ext_iff]
    rw [this]
    exact one_mem _
  rw [caseN_unitary hn (ON_iff.2 hu), luDet, lu_diag (fun i j h => by simp [h]) (fun i => by simp) n]
  exact ⟨_, _, rfl⟩

end Verif.Reunit
