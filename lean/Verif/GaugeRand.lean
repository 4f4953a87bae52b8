import Verif.GaugePoly
import Verif.GaugeExp
/-
C93: the random gauge transformation, with the projection to traceless antihermitian matrices and the exponential.
-/
namespace Verif.Gauge
open Verif Outcome Verif.Layout Verif.ParLayout Verif.ParMap Verif.Spmd Verif.Shift Verif.Subset Verif.Network
open Finset

theorem hall (c : List Nat) : allSites.fn c = allSites.cb := by simp [allSites, allFunc]

/-- the fields after an assignment everywhere -/
def assigned {n : Nat} (f : Nat → List Nat → V n) (a : Nat) (e : Rhs (V n)) : Nat → List Nat → V n := Function.update f a (e.at f)

theorem assign_run {n : Nat} {R : Type} (L : List Nat) (a : Nat) (e : Rhs (V n)) (k : Prog (V n) R) (f : Nat → List Nat → V n) :
    run (latticeSum L) (.assign a allSites e k) f = run (latticeSum L) k (assigned f a e) ∧
    (Legal (latticeSum L) L k (assigned f a e) → Legal (latticeSum L) L (.assign a allSites e k) f) := by
  have h : (Function.update f a fun c => if allSites.fn c = allSites.cb then e.at f c else f a c) = assigned f a e := by
    unfold assigned
    simp only [hall, if_true]
  constructor
  · rw [← h]; rfl
  · rw [← h]; exact fun h => ⟨all_legal L, h⟩

@[simp] theorem assigned_self {n : Nat} (f : Nat → List Nat → V n) (a : Nat) (e : Rhs (V n)) (c : List Nat) : assigned f a e a c = e.at f c := by
  simp [assigned]
theorem assigned_ne {n : Nat} (f : Nat → List Nat → V n) {a x : Nat} (e : Rhs (V n)) (h : x ≠ a) : assigned f a e x = f x := by
  simp [assigned, h]

/-- a program that changes field `a` at every site by the function `h`, and otherwise fields from `b` on only -/
def Changes {n : Nat} (L : List Nat) (a b : Nat) (h : Mat n → Mat n) (p : ∀ {R : Type}, Prog (V n) R → Prog (V n) R) : Prop :=
  ∀ f : Nat → List Nat → V n, ∃ f', (∀ x, x < b → x ≠ a → f' x = f x) ∧ (∀ c, (f' a c).m = h (f a c).m) ∧ ∀ {R : Type} (k : Prog (V n) R),
    run (latticeSum L) (p k) f = run (latticeSum L) k f' ∧ (Legal (latticeSum L) L k f' → Legal (latticeSum L) L (p k) f)

/-- one assignment -/
theorem Changes.assign {n : Nat} (L : List Nat) (a b : Nat) (h : Mat n → Mat n) : Changes L a b h (.assign a allSites (m1 a h)) := by
  intro f
  exact ⟨assigned f a (m1 a h), fun x _ hx => assigned_ne _ _ hx, fun c => by simp [at_m1], fun k => assign_run L a _ k f⟩

theorem Changes.comp {n : Nat} {L : List Nat} {a b : Nat} {h h' : Mat n → Mat n} {p q : ∀ {R : Type}, Prog (V n) R → Prog (V n) R} (hp : Changes L a b h p)
    (hq : Changes L a b h' q) : Changes L a b (h' ∘ h) (fun k => p (q k)) := by
  intro f
  obtain ⟨f1, e1, h1, r1⟩ := hp f
  obtain ⟨f2, e2, h2, r2⟩ := hq f1
  refine ⟨f2, fun x hb ha => (e2 x hb ha).trans (e1 x hb ha), fun c => by rw [h2, h1]; rfl, fun k => ⟨(r1 _).1.trans (r2 k).1, fun h => (r1 _).2 ((r2 k).2 h)⟩⟩

/-! ## taproj -/

/-- traceless antihermitian matrices -/
def TA {n : Nat} (A : Mat n) : Prop := star A = -A ∧ A.trace = 0

/-- `taproj` at a site -/
noncomputable def taS {n : Nat} (A : Mat n) : Mat n :=
  ((1 / 2 : ℝ) : ℂ) • (A - star A - if n > 1 then Matrix.diagonal fun _ => ⟨0, (A - star A).trace.im * (1 / n)⟩ else 0)

theorem taproj_changes {n : Nat} (L : List Nat) {a b : Nat} (hab : a < b) : Changes (n := n) L a b taS (taproj a b) := by
  intro f
  let f1 := assigned f b (m1 a id)
  let f2 := assigned f1 a (m2 a b fun x y => x - star y)
  have f2a : ∀ c, (f2 a c).m = (f a c).m - star (f a c).m := by
    intro c
    simp only [f2, f1, assigned_self, at_m2, m_mv, at_m1, id, assigned_ne f (m1 a id) (show a ≠ b by omega)]
  have f2x : ∀ x, x < b → x ≠ a → f2 x = f x := by
    intro x hb ha
    simp only [f2, f1]
    rw [assigned_ne _ _ ha, assigned_ne _ _ (by omega)]
  by_cases hn : n > 1
  · let f3 := assigned f2 (b + 1) ⟨[a], fun vs => zv ((vs.getD 0 0).m.trace.im : ℂ)⟩
    let f4 := assigned f3 (b + 1) ⟨[b + 1], fun vs => zv ((vs.getD 0 0).z * (1 / n : ℝ))⟩
    let f5 := assigned f4 (b + 2) ⟨[b + 1], fun vs => mv (Matrix.diagonal fun _ => ⟨0, (vs.getD 0 0).z.re⟩)⟩
    let f6 := assigned f5 a (m2 a (b + 2) fun x y => x - y)
    let f7 := assigned f6 a (m1 a fun x => ((1 / 2 : ℝ) : ℂ) • x)
    have f5x : ∀ x, x ≤ b → f5 x = f2 x := by
      intro x hb
      simp only [f5, f4, f3]
      rw [assigned_ne _ _ (by omega), assigned_ne _ _ (by omega), assigned_ne _ _ (by omega)]
    have h5 : ∀ c, (f5 (b + 2) c).m = Matrix.diagonal fun _ => ⟨0, (f2 a c).m.trace.im * (1 / n)⟩ := by
      intro c
      have e3 : f3 (b + 1) c = zv ((f2 a c).m.trace.im : ℂ) := by simp only [f3, assigned_self]; rfl
      have e4 : f4 (b + 1) c = zv ((f3 (b + 1) c).z * (1 / n : ℝ)) := by simp only [f4, assigned_self]; rfl
      have e5 : f5 (b + 2) c = mv (Matrix.diagonal fun _ => ⟨0, (f4 (b + 1) c).z.re⟩) := by simp only [f5, assigned_self]; rfl
      rw [e5, e4, e3, m_mv]
      simp only [z_zv, ← Complex.ofReal_mul, Complex.ofReal_re]
    refine ⟨f7, ?_, ?_, fun {R} k => ?_⟩
    · intro x hb ha
      simp only [f7, f6]
      rw [assigned_ne _ _ ha, assigned_ne _ _ ha, f5x x hb.le, f2x x hb ha]
    · intro c
      simp only [f7, f6, assigned_self, at_m1, at_m2, m_mv, h5, f5x a hab.le, f2a, taS, if_pos hn]
    · have e : taproj a b k = .assign b allSites (m1 a id) (.assign a allSites (m2 a b fun x y => x - star y)
          (.assign (b + 1) allSites ⟨[a], fun vs => zv ((vs.getD 0 0).m.trace.im : ℂ)⟩ <|
          .assign (b + 1) allSites ⟨[b + 1], fun vs => zv ((vs.getD 0 0).z * (1 / n : ℝ))⟩ <|
          .assign (b + 2) allSites ⟨[b + 1], fun vs => mv (Matrix.diagonal fun _ => ⟨0, (vs.getD 0 0).z.re⟩)⟩ <|
          .assign a allSites (m2 a (b + 2) fun x y => x - y) <| .assign a allSites (m1 a fun x => ((1 / 2 : ℝ) : ℂ) • x) k)) := by
        simp only [taproj, if_pos hn]
      show run (latticeSum L) (taproj a b k) f = _ ∧ (_ → Legal (latticeSum L) L (taproj a b k) f)
      rw [e]
      refine ⟨?_, fun h => ?_⟩
      · rw [(assign_run ..).1, (assign_run ..).1, (assign_run ..).1, (assign_run ..).1, (assign_run ..).1, (assign_run ..).1, (assign_run ..).1]
      · exact (assign_run ..).2 <| (assign_run ..).2 <| (assign_run ..).2 <| (assign_run ..).2 <| (assign_run ..).2 <| (assign_run ..).2 <| (assign_run ..).2 h
  · let f3 := assigned f2 a (m1 a fun x => ((1 / 2 : ℝ) : ℂ) • x)
    refine ⟨f3, ?_, ?_, fun {R} k => ?_⟩
    · intro x hb ha
      simp only [f3]
      rw [assigned_ne _ _ ha, f2x x hb ha]
    · intro c
      simp only [f3, assigned_self, at_m1, m_mv, f2a, taS, if_neg hn, sub_zero]
    · have e : taproj a b k = .assign b allSites (m1 a id) (.assign a allSites (m2 a b fun x y => x - star y)
          (.assign a allSites (m1 a fun x => ((1 / 2 : ℝ) : ℂ) • x) k)) := by
        simp only [taproj, if_neg hn]
      show run (latticeSum L) (taproj a b k) f = _ ∧ (_ → Legal (latticeSum L) L (taproj a b k) f)
      rw [e]
      refine ⟨?_, fun h => ?_⟩
      · rw [(assign_run ..).1, (assign_run ..).1, (assign_run ..).1]
      · exact (assign_run ..).2 <| (assign_run ..).2 <| (assign_run ..).2 h

/-! ## expm12 -/

theorem expLoop_run {n : Nat} (L : List Nat) {a b : Nat} (hab : a < b) (A : List Nat → Mat n) : ∀ (m i : Nat) (f : Nat → List Nat → V n), 1 ≤ i →
    (∀ c, (f b c).m = A c) → (∀ c, (f (b + 1) c).m = (1 / ((i - 1).factorial : ℂ)) • A c ^ (i - 1)) →
    (∀ c, (f a c).m = ∑ k ∈ range i, (1 / (k.factorial : ℂ)) • A c ^ k) →
    ∃ f', (∀ x, x < b → x ≠ a → f' x = f x) ∧ (∀ c, (f' a c).m = ∑ k ∈ range (i + m), (1 / (k.factorial : ℂ)) • A c ^ k) ∧
      ∀ {R : Type} (k : Prog (V n) R), run (latticeSum L) (expLoop a b i m k) f = run (latticeSum L) k f' ∧
        (Legal (latticeSum L) L k f' → Legal (latticeSum L) L (expLoop a b i m k) f)
  | 0, i, f, _, _, _, h3 => ⟨f, fun _ _ _ => rfl, h3, fun _ => ⟨rfl, id⟩⟩
  | m + 1, i, f, hi, h1, h2, h3 => by
    let f1 := assigned f (b + 2) (m2 (b + 1) b fun x y => x * y)
    let f2 := assigned f1 (b + 1) (m1 (b + 2) fun x => ((1 / i : ℝ) : ℂ) • x)
    let f3 := assigned f2 a (m2 a (b + 1) fun x y => x + y)
    have e2 : ∀ c, (f2 (b + 1) c).m = (1 / (i.factorial : ℂ)) • A c ^ i := by
      intro c
      have : (f1 (b + 2) c).m = (1 / ((i - 1).factorial : ℂ)) • A c ^ i := by
        simp only [f1, assigned_self, at_m2, m_mv, h1, h2]
        rw [smul_mul_assoc, ← pow_succ, show i - 1 + 1 = i by omega]
      simp only [f2, assigned_self, at_m1, m_mv]
      rw [this, smul_smul]
      congr 1
      have hf : i.factorial = i * (i - 1).factorial := by
        obtain ⟨j, rfl⟩ : ∃ j, i = j + 1 := ⟨i - 1, by omega⟩
        rfl
      have hi0 : (i : ℂ) ≠ 0 := by exact_mod_cast (show i ≠ 0 by omega)
      have hf0 : ((i - 1).factorial : ℂ) ≠ 0 := by exact_mod_cast (Nat.factorial_pos _).ne'
      rw [hf]
      push_cast
      field_simp
    have ex : ∀ x, x < b → f2 x = f x := by
      intro x hb
      simp only [f2, f1]
      rw [assigned_ne _ _ (by omega), assigned_ne _ _ (by omega)]
    have e3 : ∀ c, (f3 a c).m = ∑ k ∈ range (i + 1), (1 / (k.factorial : ℂ)) • A c ^ k := by
      intro c
      simp only [f3, assigned_self, at_m2, m_mv]
      rw [ex a hab, h3, e2, sum_range_succ]
    obtain ⟨f', x', h', r'⟩ := expLoop_run L hab A m (i + 1) f3 (by omega)
      (fun c => by
        have : f3 b = f b := by
          simp only [f3, f2, f1]
          rw [assigned_ne _ _ (by omega), assigned_ne _ _ (by omega), assigned_ne _ _ (by omega)]
        rw [this, h1])
      (fun c => by
        have : f3 (b + 1) = f2 (b + 1) := assigned_ne _ _ (by omega)
        rw [this, e2]; rfl) e3
    refine ⟨f', fun x hb ha => ?_, by rw [show i + (m + 1) = i + 1 + m by omega]; exact h', fun k => ⟨?_, fun h => ?_⟩⟩
    · rw [x' x hb ha]
      have : f3 x = f2 x := assigned_ne _ _ ha
      rw [this, ex x hb]
    · rw [expLoop, (assign_run ..).1, (assign_run ..).1, (assign_run ..).1]
      exact (r' k).1
    · exact (assign_run ..).2 <| (assign_run ..).2 <| (assign_run ..).2 ((r' k).2 h)

theorem expm12_changes {n : Nat} (L : List Nat) {a b : Nat} (hab : a < b) : Changes (n := n) L a b series12 (expm12 a b) := by
  intro f
  let f1 := assigned f b (m1 a id)
  let f2 := assigned f1 (b + 1) (m1 a id)
  let f3 := assigned f2 a (m1 a fun x => x + Matrix.diagonal fun _ => 1)
  have f1a : f1 a = f a := assigned_ne _ _ (by omega)
  have f2a : f2 a = f a := (assigned_ne _ _ (by omega)).trans f1a
  obtain ⟨f', x', h', r'⟩ := expLoop_run L hab (fun c => (f a c).m) 11 2 f3 (by omega)
    (fun c => by
      have : f3 b = f1 b := (assigned_ne _ _ (by omega)).trans (assigned_ne _ _ (by omega))
      rw [this]
      simp [f1, at_m1])
    (fun c => by
      have : f3 (b + 1) = f2 (b + 1) := assigned_ne _ _ (by omega)
      rw [this]
      simp [f2, at_m1, f1a])
    (fun c => by
      simp only [f3, assigned_self, at_m1, m_mv, f2a]
      simp [sum_range_succ, Matrix.diagonal_one, add_comm])
  refine ⟨f', fun x hb ha => ?_, h', fun k => ⟨?_, fun h => ?_⟩⟩
  · rw [x' x hb ha]
    simp only [f3, f2, f1]
    rw [assigned_ne _ _ ha, assigned_ne _ _ (by omega), assigned_ne _ _ (by omega)]
  · show run (latticeSum L) (expm12 a b k) f = _
    rw [expm12, (assign_run ..).1, (assign_run ..).1, (assign_run ..).1]
    exact (r' k).1
  · exact (assign_run ..).2 <| (assign_run ..).2 <| (assign_run ..).2 ((r' k).2 h)

theorem taproj_shifts {n : Nat} {R : Type} {L : List Nat} {a b : Nat} {k : Prog (V n) R} (hk : OnlyShifts L k) : OnlyShifts L (taproj a b k) := by
  unfold taproj
  split <;> exact hk

theorem expLoop_shifts {n : Nat} {R : Type} {L : List Nat} {a b : Nat} {k : Prog (V n) R} (hk : OnlyShifts L k) : ∀ m i, OnlyShifts L (expLoop a b i m k)
  | 0, _ => hk
  | m + 1, i => expLoop_shifts hk m (i + 1)

theorem expm12_shifts {n : Nat} {R : Type} {L : List Nat} {a b : Nat} {k : Prog (V n) R} (hk : OnlyShifts L k) : OnlyShifts L (expm12 a b k) :=
  expLoop_shifts hk 11 2

/-! ## Properties of the projection -/

theorem ta_trace {n : Nat} (A : Mat n) : (A - star A).trace = ⟨0, (A - star A).trace.im⟩ := by
  refine Complex.ext ?_ rfl
  rw [Matrix.trace_sub, Matrix.star_eq_conjTranspose, Matrix.trace_conjTranspose]
  simp

theorem taS_ta {n : Nat} (hn : 1 < n) (A : Mat n) : TA (taS A) := by
  have hn0 : (n : ℝ) ≠ 0 := by exact_mod_cast (show n ≠ 0 by omega)
  constructor
  · rw [taS, if_pos hn, star_smul, star_sub, star_sub, star_star, ← smul_neg]
    congr 1
    · simp
    · rw [Matrix.star_eq_conjTranspose (Matrix.diagonal _), Matrix.diagonal_conjTranspose]
      have : star (fun _ : Fin n => (⟨0, (A - star A).trace.im * (1 / n)⟩ : ℂ)) = -fun _ => ⟨0, (A - star A).trace.im * (1 / n)⟩ := by
        funext i
        refine Complex.ext ?_ ?_ <;> simp
      have hneg : Matrix.diagonal (-fun _ : Fin n => (⟨0, (A - star A).trace.im * (1 / n)⟩ : ℂ)) =
          -Matrix.diagonal fun _ => ⟨0, (A - star A).trace.im * (1 / n)⟩ := (Matrix.diagonal_neg _).symm
      rw [this, hneg]
      abel
  · rw [taS, if_pos hn, Matrix.trace_smul, Matrix.trace_sub, ta_trace, Matrix.trace_diagonal]
    simp only [sum_const, card_univ, Fintype.card_fin, nsmul_eq_mul]
    have : (n : ℂ) * ⟨0, (A - star A).trace.im * (1 / n)⟩ = ⟨0, (A - star A).trace.im⟩ := by
      refine Complex.ext ?_ ?_
      · simp
      · simp
        field_simp
    rw [this]
    simp

theorem taS_fix {n : Nat} {A : Mat n} (h : TA A) : taS A = A := by
  have e : A - star A = (2 : ℂ) • A := by rw [h.1, two_smul]; abel
  have ht : (A - star A).trace = 0 := by rw [e, Matrix.trace_smul, h.2, smul_zero]
  have hz : (if n > 1 then Matrix.diagonal fun _ : Fin n => (⟨0, (A - star A).trace.im * (1 / n)⟩ : ℂ) else 0) = 0 := by
    split
    · rw [ht]
      simp only [Complex.zero_im, zero_mul]
      exact Matrix.diagonal_zero
    · rfl
  rw [taS, hz, sub_zero, e, smul_smul]
  norm_num

/-- the part projected away is orthogonal to all traceless antihermitian matrices -/
theorem taS_orthogonal {n : Nat} {A B : Mat n} (hB : TA B) : (star B * (A - taS A)).trace.re = 0 := by
  have key : ∀ (d : ℂ) (D : Mat n), (star D = D) → (star B * (D + d • 1)).trace.re = 0 := by
    intro d D hD
    have h1 : (star B * (d • (1 : Mat n))).trace = 0 := by
      rw [Matrix.mul_smul, mul_one, Matrix.trace_smul, hB.1, Matrix.trace_neg, hB.2]
      simp
    rw [mul_add, Matrix.trace_add, h1, add_zero]
    have h2 : (star B * D).trace = star (star B * D).trace * -1 := by
      rw [← Matrix.trace_conjTranspose, ← Matrix.star_eq_conjTranspose, star_mul, star_star, hD, Matrix.trace_mul_comm]
      have : B = -star B := by rw [hB.1, neg_neg]
      conv_rhs => rw [this]
      simp
    have h3 := congrArg Complex.re h2
    simp at h3
    linarith
  have e : ∃ d : ℂ, A - taS A = ((1 / 2 : ℝ) : ℂ) • (A + star A) + d • 1 := by
    by_cases hn : n > 1
    · refine ⟨((1 / 2 : ℝ) : ℂ) * ⟨0, (A - star A).trace.im * (1 / n)⟩, ?_⟩
      rw [taS, if_pos hn, ← smul_smul, Matrix.smul_one_eq_diagonal]
      generalize (Matrix.diagonal fun _ : Fin n => (⟨0, (A - star A).trace.im * (1 / n)⟩ : ℂ)) = D
      push_cast
      module
    · refine ⟨0, ?_⟩
      rw [taS, if_neg hn, zero_smul]
      push_cast
      module
  obtain ⟨d, hd⟩ := e
  rw [hd]
  exact key d _ (by rw [star_smul, star_add, star_star]; simp [add_comm])

/-- C93. `taproj` of a field, on every machine: with more than one colour every matrix is replaced by its orthogonal projection on the
traceless antihermitian matrices; such matrices are left as they are.  No other field but the temporaries changes. -/
theorem C93_taproj_partial {n : Nat} (hn : 1 < n) (tot : List (V n) → V n) (htot : ∀ l, tot l = l.sum) (net : Net) (g : Geom) (hs : Setup g) {a b : Nat}
    (hab : a < b) (F : Nat → Local (V n)) (f : Nat → List Nat → V n) (hF : HoldsAll g F f) :
    ∃ f', AlwaysEndsIn net g (start tot g (taproj a b (.ret ())) F) () f' ∧ (∀ x, x < b → x ≠ a → f' x = f x) ∧
      ∀ c, TA (f' a c).m ∧ (TA (f a c).m → (f' a c).m = (f a c).m) ∧ ∀ B, TA B → (star B * ((f a c).m - (f' a c).m)).trace.re = 0 := by
  obtain ⟨f', e, h, r⟩ := taproj_changes (n := n) g.L hab f
  have := hs.ends tot htot net (taproj a b (.ret ())) F f hF ((r _).2 trivial) (taproj_shifts trivial)
  rw [(r (.ret ())).1] at this
  refine ⟨f', this, e, fun c => ?_⟩
  rw [h c]
  exact ⟨taS_ta hn _, taS_fix, fun B hB => taS_orthogonal hB⟩

/-- C93. With one colour the trace is not taken away ("that is the anti-hermitian traceless part" does not hold) -/
theorem C93_taproj_one : ¬ ∀ A : Mat 1, TA (taS A) := by
  intro h
  have := (h (Matrix.diagonal fun _ => Complex.I)).2
  rw [taS, if_neg (by omega), Matrix.trace_smul, sub_zero, Matrix.trace_sub, Matrix.star_eq_conjTranspose, Matrix.trace_conjTranspose, Matrix.trace_diagonal] at this
  simp at this

/-- C93. `expm12` of a field, on every machine: the exponential series to the twelfth order. -/
theorem C93_expm12 {n : Nat} (tot : List (V n) → V n) (htot : ∀ l, tot l = l.sum) (net : Net) (g : Geom) (hs : Setup g) {a b : Nat}
    (hab : a < b) (F : Nat → Local (V n)) (f : Nat → List Nat → V n) (hF : HoldsAll g F f) :
    ∃ f', AlwaysEndsIn net g (start tot g (expm12 a b (.ret ())) F) () f' ∧ (∀ x, x < b → x ≠ a → f' x = f x) ∧
      ∀ c, (f' a c).m = ∑ k ∈ range 13, (1 / (k.factorial : ℂ)) • (f a c).m ^ k := by
  obtain ⟨f', e, h, r⟩ := expm12_changes (n := n) g.L hab f
  have := hs.ends tot htot net (expm12 a b (.ret ())) F f hF ((r _).2 trivial) (expm12_shifts trivial)
  rw [(r (.ret ())).1] at this
  exact ⟨f', this, e, h⟩

/-! ## rgauge -/

theorem mat_arr {n : Nat} (A : Mat n) : Reunit.mat n (arr A) = A := by
  ext i j
  simp [Reunit.mat, arr]

/-- where `reunit` succeeds, its result is unitary -/
theorem reunitSite_unitary {n : Nat} {A : Mat n} {q : Reunit.Arr} {sg : ℝ} (hn : 1 ≤ n) (hA : n ≤ 3 → A.det ≠ 0) (e : Reunit.site n (arr A) = ok (q, sg)) :
    reunitSite A ∈ Matrix.unitaryGroup (Fin n) ℂ ∧ (1 < n → n ≤ 3 → (reunitSite A).det = 1) := by
  have er : reunitSite A = Reunit.mat n q := by rw [reunitSite, e]
  rw [er]
  rcases Nat.lt_or_ge n 4 with h4 | h4
  · obtain ⟨q', e', h'⟩ := Reunit.C91_special_unitary_partial n (by omega) (arr A) (Reunit.C91_det _ _ _ (by rw [mat_arr]; exact hA (by omega)))
    rw [e] at e'
    cases e'
    exact ⟨h'.1, fun h _ => h'.2.1 h⟩
  · exact ⟨(Reunit.C91_unitary n h4 _ _ _ e).1, fun _ h => absurd h (by omega)⟩

/-- with at most three colours it succeeds on whatever is exponentiated -/
theorem reunit_exp {n : Nat} (hn : 1 ≤ n) (h3 : n ≤ 3) {A : Mat n} (hA : star A = -A) : ∃ q sg, Reunit.site n (arr (series12 A)) = ok (q, sg) := by
  obtain ⟨q, e, -⟩ := Reunit.C91_special_unitary_partial n (by omega) (arr (series12 A)) (Reunit.C91_det _ _ _ (by rw [mat_arr]; exact series_det hA))
  exact ⟨q, _, e⟩

theorem taS_anti {n : Nat} (A : Mat n) : star (taS A) = -taS A := by
  by_cases hn : 1 < n
  · exact (taS_ta hn A).1
  · rw [taS, if_neg hn, sub_zero, star_smul, star_sub, star_star, ← smul_neg, neg_sub]
    congr 1
    simp

theorem gaugeLoop_run {n : Nat} {L : List Nat} (hL : ∀ l ∈ L, 5 * l < 2 ^ 31) {G b : Nat} (hG : L.length ≤ G) (hb : G < b) : ∀ (ms : List Nat), ms.Nodup →
    (∀ mu ∈ ms, mu < L.length) → ∀ f : Nat → List Nat → V n, ∃ f', (∀ x, x < b → x ∉ ms → f' x = f x) ∧
      (∀ mu ∈ ms, ∀ c, InRange c L → links f' mu c = transform L (fun c => (f G c).m) (links f) mu c) ∧
      ∀ {R : Type} (k : Prog (V n) R), run (latticeSum L) (gaugeLoop L G b ms k) f = run (latticeSum L) k f' ∧
        (Legal (latticeSum L) L k f' → Legal (latticeSum L) L (gaugeLoop L G b ms k) f)
  | [], _, _, f => ⟨f, fun _ _ _ => rfl, fun _ h => absurd h List.not_mem_nil, fun _ => ⟨rfl, id⟩⟩
  | mu :: ms, hd, h, f => by
    have hmu := h mu List.mem_cons_self
    let f1 := assigned f b (m2 G mu fun x y => x * y)
    let f2 := assigned f1 (b + 1) (m1 G star)
    let f3 := Function.update f2 (b + 2) fun c => f2 (b + 1) (source (shiftF L mu) c)
    let f4 := assigned f3 mu (m2 b (b + 2) fun x y => x * y)
    have ex : ∀ x, x < b → x ≠ mu → f4 x = f x := by
      intro x hx hne
      simp only [f4, f3, f2, f1]
      rw [assigned_ne _ _ hne, Function.update_of_ne (by omega), assigned_ne _ _ (by omega), assigned_ne _ _ (by omega)]
    have hv : ∀ c, InRange c L → (f4 mu c).m = transform L (fun c => (f G c).m) (links f) mu c := by
      intro c hc
      have a1 : f3 b = f1 b := by
        simp only [f3, f2]
        rw [Function.update_of_ne (by omega), assigned_ne _ _ (by omega)]
      have a2 : f1 G = f G := assigned_ne _ _ (by omega)
      simp only [f4, assigned_self, at_m2, m_mv, a1]
      simp only [f3, Function.update_self, f2, assigned_self, at_m1, m_mv, a2, f1, at_m2, source_up hL hmu hc]
      rfl
    obtain ⟨f', e', h', r'⟩ := gaugeLoop_run hL hG hb ms (List.nodup_cons.1 hd).2 (fun x hx => h x (List.mem_cons_of_mem _ hx)) f4
    have hnot := (List.nodup_cons.1 hd).1
    refine ⟨f', ?_, ?_, fun k => ⟨?_, fun hk => ?_⟩⟩
    · intro x hx hm
      rw [List.mem_cons, not_or] at hm
      rw [e' x hx hm.2, ex x hx hm.1]
    · intro nu hnu c hc
      rcases List.mem_cons.1 hnu with rfl | hin
      · rw [links, e' nu (by omega) hnot, hv c hc]
      · have hne : nu ≠ mu := fun e => hnot (e ▸ hin)
        have hlt := h nu hnu
        rw [h' nu hin c hc]
        simp only [transform, links]
        rw [ex G hb (by omega), ex nu (by omega) hne]
    · rw [gaugeLoop, (assign_run ..).1, (assign_run ..).1, ← (r' k).1]
      exact (assign_run L mu _ (gaugeLoop L G b ms k) f3).1
    · exact (assign_run ..).2 <| (assign_run ..).2 ⟨shift_legal hL hmu, (assign_run L mu _ _ f3).2 ((r' k).2 hk)⟩

theorem gaugeLoop_shifts {n : Nat} {R : Type} {L : List Nat} {G b : Nat} {k : Prog (V n) R} (hk : OnlyShifts L k) : ∀ ms, (∀ mu ∈ ms, mu < L.length) →
    OnlyShifts L (gaugeLoop L G b ms k)
  | [], _ => hk
  | mu :: ms, h => ⟨⟨.fwd, mu, h mu List.mem_cons_self, rfl⟩, gaugeLoop_shifts hk ms fun x hx => h x (List.mem_cons_of_mem _ hx)⟩

theorem rgauge_shifts {n : Nat} {R : Type} {L : List Nat} {G b : Nat} {k : Prog (V n) R} (hk : OnlyShifts L k) : OnlyShifts L (rgauge L G b k) :=
  taproj_shifts <| expm12_shifts (k := .assign G allSites _ _) <| gaugeLoop_shifts hk _ fun _ => List.mem_range.1

/-- the transformation `rgauge` makes of a matrix -/
noncomputable def gaugeS {n : Nat} (A : Mat n) : Mat n := reunitSite (series12 (taS A))

theorem rgauge_run {n : Nat} {L : List Nat} (hL : ∀ l ∈ L, 5 * l < 2 ^ 31) {G b : Nat} (hG : L.length ≤ G) (hb : G < b) (f : Nat → List Nat → V n) :
    ∃ f', (∀ x, x < b → L.length ≤ x → x ≠ G → f' x = f x) ∧ (∀ c, (f' G c).m = gaugeS (f G c).m) ∧
      (∀ mu < L.length, ∀ c, InRange c L → links f' mu c = transform L (fun c => gaugeS (f G c).m) (links f) mu c) ∧
      ∀ {R : Type} (k : Prog (V n) R), run (latticeSum L) (rgauge L G b k) f = run (latticeSum L) k f' ∧
        (Legal (latticeSum L) L k f' → Legal (latticeSum L) L (rgauge L G b k) f) := by
  obtain ⟨f1, e1, h1, r1⟩ := taproj_changes (n := n) L hb f
  obtain ⟨f2, e2, h2, r2⟩ := expm12_changes (n := n) L hb f1
  obtain ⟨f3, e3, h3, r3⟩ := Changes.assign (n := n) L G b reunitSite f2
  obtain ⟨f4, e4, h4, r4⟩ := gaugeLoop_run (n := n) hL hG hb (List.range L.length) List.nodup_range (fun _ => List.mem_range.1) f3
  have hg : ∀ c, (f3 G c).m = gaugeS (f G c).m := fun c => by rw [h3, h2, h1]; rfl
  have hx : ∀ x, x < b → x ≠ G → f3 x = f x := fun x hx hne => (e3 x hx hne).trans ((e2 x hx hne).trans (e1 x hx hne))
  refine ⟨f4, ?_, ?_, ?_, fun k => ⟨?_, fun h => ?_⟩⟩
  · intro x hb hl hne
    rw [e4 x hb (by simpa using hl), hx x hb hne]
  · intro c
    rw [e4 G hb (by simpa using hG), hg]
  · intro mu hmu c hc
    rw [h4 mu (List.mem_range.2 hmu) c hc]
    simp only [transform, links, hg]
    rw [hx mu (by omega) (by omega)]
  · exact (r1 _).1.trans <| (r2 _).1.trans <| (r3 _).1.trans (r4 k).1
  · exact (r1 _).2 <| (r2 _).2 <| (r3 _).2 <| (r4 k).2 h

/-- C93. `rgauge`, on every machine and whatever the random matrices: with one, two or three colours `reunit` does not fail, the matrices
G(x) left in `g` are unitary of determinant 1 (of absolute value 1 for one colour), and the links become G(x) u_mu(x) G(x+mu)^dag. -/
theorem C93_rgauge {n : Nat} (hn : 1 ≤ n) (h3 : n ≤ 3) (tot : List (V n) → V n) (htot : ∀ l, tot l = l.sum) (net : Net) (g : Geom) (hs : Setup g) {G b : Nat}
    (hG : g.L.length ≤ G) (hb : G < b) (F : Nat → Local (V n)) (f : Nat → List Nat → V n) (hF : HoldsAll g F f) :
    ∃ f', AlwaysEndsIn net g (start tot g (rgauge g.L G b (.ret ())) F) () f' ∧ (∀ x, x < b → g.L.length ≤ x → x ≠ G → f' x = f x) ∧
      (∀ c, (f' G c).m ∈ Matrix.unitaryGroup (Fin n) ℂ ∧ (1 < n → (f' G c).m.det = 1) ∧
        ∃ q sg, Reunit.site n (arr (series12 (taS (f G c).m))) = ok (q, sg) ∧ (f' G c).m = Reunit.mat n q) ∧
      ∀ mu < g.L.length, ∀ x, InRange x g.L → links f' mu x = (f' G x).m * links f mu x * star (f' G (up g.L mu x)).m := by
  obtain ⟨f', e, hg, hl, r⟩ := rgauge_run (n := n) hs.ext hG hb f
  have := hs.ends tot htot net (rgauge g.L G b (.ret ())) F f hF ((r _).2 trivial) (rgauge_shifts trivial)
  rw [(r (.ret ())).1] at this
  refine ⟨f', this, e, fun c => ?_, fun mu hmu x hx => ?_⟩
  · obtain ⟨q, sg, hq⟩ := reunit_exp hn h3 (taS_anti (f G c).m)
    have hu := reunitSite_unitary hn (fun _ => series_det (taS_anti (f G c).m)) hq
    rw [hg]
    exact ⟨hu.1, fun h => hu.2 h h3, q, sg, hq, by rw [gaugeS, reunitSite, hq]⟩
  · rw [hl mu hmu x hx, hg, hg]
    rfl

/-- C93. With more colours: the same where `reunit` succeeds, but for the determinant (C91). -/
theorem C93_rgauge_more {n : Nat} (hn : 4 ≤ n) (tot : List (V n) → V n) (htot : ∀ l, tot l = l.sum) (net : Net) (g : Geom) (hs : Setup g) {G b : Nat}
    (hG : g.L.length ≤ G) (hb : G < b) (F : Nat → Local (V n)) (f : Nat → List Nat → V n) (hF : HoldsAll g F f)
    (hR : ∀ c, ∃ q sg, Reunit.site n (arr (series12 (taS (f G c).m))) = ok (q, sg)) :
    ∃ f', AlwaysEndsIn net g (start tot g (rgauge g.L G b (.ret ())) F) () f' ∧ (∀ x, x < b → g.L.length ≤ x → x ≠ G → f' x = f x) ∧
      (∀ c, (f' G c).m ∈ Matrix.unitaryGroup (Fin n) ℂ) ∧
      ∀ mu < g.L.length, ∀ x, InRange x g.L → links f' mu x = (f' G x).m * links f mu x * star (f' G (up g.L mu x)).m := by
  obtain ⟨f', e, hg, hl, r⟩ := rgauge_run (n := n) hs.ext hG hb f
  have := hs.ends tot htot net (rgauge g.L G b (.ret ())) F f hF ((r _).2 trivial) (rgauge_shifts trivial)
  rw [(r (.ret ())).1] at this
  refine ⟨f', this, e, fun c => ?_, fun mu hmu x hx => ?_⟩
  · obtain ⟨q, sg, hq⟩ := hR c
    rw [hg]
    exact (reunitSite_unitary (by omega) (fun h => absurd h (by omega)) hq).1
  · rw [hl mu hmu x hx, hg, hg]
    rfl

/-- C93. The test of the examples: measure, transform, measure.  The plaquettes before and after are the same, whatever the random
matrices, for one, two and three colours. -/
theorem C93_plaquette_unchanged {n : Nat} (hn : 1 ≤ n) (h3 : n ≤ 3) (tot : List (V n) → V n) (htot : ∀ l, tot l = l.sum) (net : Net) (g : Geom) (hs : Setup g)
    (hnd : 2 ≤ g.L.length) (h1 : nsites g.L * g.L.length * (g.L.length - 1) * n < 2 ^ 31) (h2 : 12 * nsites g.L < 2 ^ 31) {G b : Nat}
    (hG : g.L.length ≤ G) (hb : G < b) (F : Nat → Local (V n)) (f : Nat → List Nat → V n) (hF : HoldsAll g F f) :
    ∃ o o' f', o'.w = o.w ∧ o'.s = o.s ∧ o'.t = o.t ∧ IsPlaq g.L (links f) o ∧
      AlwaysEndsIn net g (start tot g (mesPlq g.L b fun o => rgauge g.L G b (mesPlq g.L b fun o' => .ret (o, o'))) F) (ok o, ok o') f' := by
  obtain ⟨f1, e1, r1⟩ := mesPlq_run (n := n) (R := Outcome Obs × Outcome Obs) hs.ext (show g.L.length ≤ b by omega) (by omega) f
  obtain ⟨f2, e2, hg2, hl2, r2⟩ := rgauge_run (n := n) hs.ext hG hb f1
  obtain ⟨f3, e3, r3⟩ := mesPlq_run (n := n) (R := Outcome Obs × Outcome Obs) hs.ext (show g.L.length ≤ b by omega) (by omega) f2
  obtain ⟨o, ho, hp⟩ := isPlaq_of hs.pos hn hnd h1 h2 (links f)
  obtain ⟨o', ho', hp'⟩ := isPlaq_of hs.pos hn hnd h1 h2 (links f2)
  obtain ⟨ra, la⟩ := r1 fun o => rgauge g.L G b (mesPlq g.L b fun o' => .ret (o, o'))
  rw [ho] at ra la
  obtain ⟨rb, lb⟩ := r2 (mesPlq g.L b fun o' => .ret (ok o, o'))
  obtain ⟨rc, lc⟩ := r3 fun o' => .ret (ok o, o')
  rw [ho'] at rc lc
  have hend := hs.ends tot htot net (mesPlq g.L b fun o => rgauge g.L G b (mesPlq g.L b fun o' => .ret (o, o'))) F f hF (la (lb (lc trivial)))
    (mesPlq_shifts fun _ => rgauge_shifts (mesPlq_shifts fun _ => trivial))
  rw [ra, rb, rc] at hend
  have hinv := C92_gauge_invariant (L := g.L) (G := fun c => gaugeS (f1 G c).m) (u := links f) (u' := links f2)
    (fun x _ => by
      obtain ⟨q, sg, hq⟩ := reunit_exp hn h3 (taS_anti (f1 G x).m)
      exact Matrix.mem_unitaryGroup_iff'.1 (reunitSite_unitary hn (fun _ => series_det (taS_anti (f1 G x).m)) hq).1)
    (fun mu x hmu hx => by
      rw [hl2 mu hmu x hx]
      simp only [transform, links]
      rw [e1 mu (by omega)]) hp hp'
  exact ⟨o, o', f3, hinv.1, hinv.2.1, hinv.2.2, hp, hend⟩

/-! ## Cases -/

/-- a matrix of two colours and its projection -/
example : taS (!![1, 2; 0, Complex.I] : Mat 2) = !![-Complex.I / 2, 1; -1, Complex.I / 2] := by
  ext i j
  fin_cases i <;> fin_cases j <;> simp [taS, Matrix.trace, Complex.ext_iff] <;> norm_num

/-- the traceless antihermitian matrices are not all zero -/
example : TA (!![Complex.I, 1; -1, -Complex.I] : Mat 2) := by
  constructor
  · ext i j
    fin_cases i <;> fin_cases j <;> simp
  · simp [Matrix.trace]

/-- the series of a nilpotent matrix -/
example : series12 (!![0, 3; 0, 0] : Mat 2) = !![1, 3; 0, 1] := by
  have h2 : (!![0, 3; 0, 0] : Mat 2) ^ 2 = 0 := by
    rw [pow_two]
    ext i j
    fin_cases i <;> fin_cases j <;> simp
  have hk : ∀ k, (!![0, 3; 0, 0] : Mat 2) ^ (k + 2) = 0 := fun k => by rw [pow_add, h2, mul_zero]
  rw [series12, sum_range_succ', sum_range_succ']
  simp only [hk, smul_zero, sum_const_zero]
  ext i j
  fin_cases i <;> fin_cases j <;> simp

end Verif.Gauge
