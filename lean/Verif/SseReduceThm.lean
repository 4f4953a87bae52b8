import Verif.SseReduce
/-
The kernels of `SseReduce` compute sums of squares and of products.
-/
set_option linter.unusedSectionVars false
set_option linter.unusedSimpArgs false
namespace Verif.SseReduce
open Verif Outcome Verif.Subset Verif.Dispatch Verif.Site Verif.Su3 Verif.Reduce

section
variable {K : Type} [CommRing K]

/-- rounds that each add a sum -/
theorem rounds_acc {σ A : Type} [AddCommGroup A] {f : σ → Outcome σ} (I : Nat → A → σ → Prop) (t : Nat → A) (n : Nat)
    (hf : ∀ i a s, i < n → I i a s → ∃ s', f s = ok s' ∧ I (i + 1) (a + t i) s') :
    ∀ j i a s, i + j ≤ n → I i a s → ∃ s', rounds f j s = ok s' ∧ I (i + j) (a + ∑ k ∈ Finset.range j, t (i + k)) s'
  | 0, i, a, s, _, h => ⟨s, rfl, by simpa using h⟩
  | j + 1, i, a, s, hl, h => by
      obtain ⟨s1, h1, h2⟩ := hf i a s (by omega) h
      obtain ⟨s2, h3, h4⟩ := rounds_acc I t n hf j (i + 1) _ s1 (by omega) h2
      refine ⟨s2, by rw [rounds, h1, ok_bind, h3], ?_⟩
      have e : ∑ k ∈ Finset.range (j + 1), t (i + k) = t i + ∑ k ∈ Finset.range j, t (i + 1 + k) := by
        rw [Finset.sum_range_succ', add_comm, add_zero]
        congr 1
        refine Finset.sum_congr rfl fun k _ => ?_
        rw [show i + (k + 1) = i + 1 + k by omega]
      rw [e, ← add_assoc a]
      rwa [show i + 1 + j = i + (j + 1) by omega] at h4

/-- four numbers -/
def quad (w : Nat → K) (k : Nat) : K × K × K × K := (w k, w (k + 1), w (k + 2), w (k + 3))
def pair (w : Nat → K) (k : Nat) : K × K := (w k, w (k + 1))
def hex (w : Nat → K) (k : Nat) : K × K × K × K × K × K := (w k, w (k + 1), w (k + 2), w (k + 3), w (k + 4), w (k + 5))

theorem ld4_eq {p : Nat → Outcome K} {w : Nat → K} {m k : Nat} (hp : ∀ c, c < m → p c = ok (w c)) (h : k + 3 < m) : ld4 p k = ok (quad w k) := by
  unfold ld4
  rw [hp _ (by omega), hp _ (by omega), hp _ (by omega), hp _ (by omega)]
  rfl

theorem ld2_eq {p : Nat → Outcome K} {w : Nat → K} {m k : Nat} (hp : ∀ c, c < m → p c = ok (w c)) (h : k + 1 < m) : ld2 p k = ok (pair w k) := by
  unfold ld2
  rw [hp _ (by omega), hp _ (by omega)]
  rfl

theorem ld6_eq {p : Nat → Outcome K} {w : Nat → K} {m k : Nat} (hp : ∀ c, c < m → p c = ok (w c)) (h : k + 5 < m) : ld6 p k = ok (hex w k) := by
  unfold ld6
  rw [hp _ (by omega), hp _ (by omega), hp _ (by omega), hp _ (by omega), hp _ (by omega), hp _ (by omega)]
  rfl

/-- the two sums of two -/
def tot (v : (K × K) × (K × K)) : K := v.1.1 + v.1.2 + v.2.1 + v.2.2

theorem tot_sqAcc (v : (K × K) × (K × K)) (w : Nat → K) (k : Nat) :
    tot (sqAcc v (quad w k)) = tot v + (w k * w k + w (k + 1) * w (k + 1) + w (k + 2) * w (k + 2) + w (k + 3) * w (k + 3)) := by
  simp only [tot, sqAcc, quad, Prod.fst_add, Prod.snd_add, Prod.mk_mul_mk]
  ring

theorem sum24 (g : Nat → K) : ∑ c ∈ Finset.range 24, g c = (g 0 + g 1 + g 2 + g 3) + (g 4 + g 5 + g 6 + g 7) + (g 8 + g 9 + g 10 + g 11) +
    (g 12 + g 13 + g 14 + g 15) + (g 16 + g 17 + g 18 + g 19) + (g 20 + g 21 + g 22 + g 23) := by
  simp only [Finset.sum_range_succ, Finset.sum_range_zero]
  ring

theorem sumsqS_eq {p : Nat → Outcome K} {w : Nat → K} {n : Nat} (hn : 0 < n) (hp : ∀ c, c < 24 * n → p c = ok (w c)) :
    sumsqS p n = ok (∑ i ∈ Finset.range n, ∑ c ∈ Finset.range 24, w (24 * i + c) * w (24 * i + c)) := by
  obtain ⟨m, rfl⟩ : ∃ m, n = m + 1 := ⟨n - 1, by omega⟩
  unfold sumsqS
  rw [ld4_eq hp (by omega), ok_bind, show ((m + 1 : Nat) : Int) - 1 = (m : Nat) by omega, Int.toNat_natCast]
  obtain ⟨s, h1, h2, h3, h4⟩ := rounds_acc (f := sqRound p) (I := fun i a s => s.num = 24 * i + 4 ∧ s.tmp1 = quad w (24 * i) ∧ tot s.v = a)
    (t := fun i => ∑ c ∈ Finset.range 24, w (24 * i + c) * w (24 * i + c)) m (by
      rintro i a ⟨num, tmp1, v⟩ hi ⟨h1, h2, h3⟩
      simp only at h1 h2 h3
      subst h1 h2 h3
      unfold sqRound
      simp only [ld4_eq hp (show 24 * i + 4 + 3 < 24 * (m + 1) by omega), ld4_eq hp (show 24 * i + 4 + 4 + 3 < 24 * (m + 1) by omega),
        ld4_eq hp (show 24 * i + 4 + 8 + 3 < 24 * (m + 1) by omega), ld4_eq hp (show 24 * i + 4 + 12 + 3 < 24 * (m + 1) by omega),
        ld4_eq hp (show 24 * i + 4 + 16 + 3 < 24 * (m + 1) by omega), ld4_eq hp (show 24 * i + 4 + 20 + 3 < 24 * (m + 1) by omega), ok_bind]
      refine ⟨_, rfl, by simp only; omega, by simp only; congr 1, ?_⟩
      simp only [tot_sqAcc, sum24, Nat.add_assoc, Nat.reduceAdd, Nat.add_zero]
      ring) m 0 0 ⟨4, quad w 0, (0, 0)⟩ (by omega) ⟨rfl, rfl, by simp [tot]⟩
  rw [h1, ok_bind]
  obtain ⟨num, tmp1, v⟩ := s
  simp only [Nat.zero_add, zero_add] at h2 h3 h4
  subst h2 h3
  unfold sqLast
  simp only [ld4_eq hp (show 24 * m + 4 + 3 < 24 * (m + 1) by omega), ld4_eq hp (show 24 * m + 4 + 4 + 3 < 24 * (m + 1) by omega),
    ld4_eq hp (show 24 * m + 4 + 8 + 3 < 24 * (m + 1) by omega), ld4_eq hp (show 24 * m + 4 + 12 + 3 < 24 * (m + 1) by omega),
    ld4_eq hp (show 24 * m + 4 + 16 + 3 < 24 * (m + 1) by omega), ok_bind]
  rw [Finset.sum_range_succ, ← h4]
  have e : ∀ v : (K × K) × (K × K), (((v.1 + v.2).2, (v.1 + v.2).1) + (v.1 + v.2)).2 = tot v := by
    intro v
    simp only [tot, Prod.fst_add, Prod.snd_add]
    ring
  rw [e]
  simp only [tot_sqAcc, sum24, Nat.add_assoc, Nat.reduceAdd, Nat.add_zero]
  congr 1
  ring

/-- the sum of the four sums -/
def tot4 (s : (K × K) × (K × K) × (K × K) × (K × K)) : K × K := s.1 + s.2.1 + s.2.2.1 + s.2.2.2

theorem pair_sq (w : Nat → K) (k : Nat) : (pair w k * pair w k).1 + (pair w k * pair w k).2 = w k * w k + w (k + 1) * w (k + 1) := rfl

theorem sumsqD_eq {p : Nat → Outcome K} {w : Nat → K} {n : Nat} (hp : ∀ c, c < 24 * n → p c = ok (w c)) :
    sumsqD p n = ok (∑ i ∈ Finset.range n, ∑ c ∈ Finset.range 24, w (24 * i + c) * w (24 * i + c)) := by
  unfold sumsqD
  rw [Int.toNat_natCast]
  obtain ⟨⟨i, s⟩, h1, h2, h3⟩ := rounds_acc (f := sq4Round p) (I := fun i a s => s.1 = 24 * i ∧ (tot4 s.2).1 + (tot4 s.2).2 = a)
    (t := fun i => ∑ c ∈ Finset.range 24, w (24 * i + c) * w (24 * i + c)) n (by
      rintro i a ⟨num, s1, s2, s3, s4⟩ hi ⟨h1, h2⟩
      simp only at h1 h2
      subst h1 h2
      unfold sq4Round
      simp only [ld2_eq hp (show 24 * i + 1 < 24 * n by omega), ld2_eq hp (show 24 * i + 2 + 1 < 24 * n by omega),
        ld2_eq hp (show 24 * i + 4 + 1 < 24 * n by omega), ld2_eq hp (show 24 * i + 6 + 1 < 24 * n by omega),
        ld2_eq hp (show 24 * i + 8 + 1 < 24 * n by omega), ld2_eq hp (show 24 * i + 10 + 1 < 24 * n by omega),
        ld2_eq hp (show 24 * i + 12 + 1 < 24 * n by omega), ld2_eq hp (show 24 * i + 14 + 1 < 24 * n by omega),
        ld2_eq hp (show 24 * i + 16 + 1 < 24 * n by omega), ld2_eq hp (show 24 * i + 18 + 1 < 24 * n by omega),
        ld2_eq hp (show 24 * i + 20 + 1 < 24 * n by omega), ld2_eq hp (show 24 * i + 22 + 1 < 24 * n by omega), ok_bind]
      refine ⟨_, rfl, by simp only; omega, ?_⟩
      simp only [tot4, pair, Prod.fst_add, Prod.snd_add, Prod.mk_mul_mk, sum24, Nat.add_assoc, Nat.reduceAdd, Nat.add_zero]
      ring) n 0 0 (0, 0, 0, 0, 0) (by omega) ⟨rfl, by simp [tot4]⟩
  rw [h1, ok_bind]
  simp only [Nat.zero_add, zero_add] at h3
  rw [← h3]
  simp only [tot4, Prod.fst_add, Prod.snd_add]
  congr 1
  ring

theorem conjmadd_eq (b : Bool) (z x y : K × K) : conjmadd b z x y = z + (y.1 * x.1 + y.2 * x.2, y.1 * x.2 - y.2 * x.1) := by
  unfold conjmadd
  cases b
  · simp only [Bool.false_eq_true, if_false]
    congr 1
    ext <;> simp <;> ring
  · simp only [if_true]
    congr 1
    ext <;> simp <;> ring

/-- the product of the complex number `m` of two arrays, the first conjugated -/
def dotAt (v w : Nat → K) (k : Nat) : K × K := (v k * w k + v (k + 1) * w (k + 1), v k * w (k + 1) - v (k + 1) * w k)

theorem dotStep_eq (b : Bool) {x y : Nat → Outcome K} {vx vy : Nat → K} {m k : Nat} (hx : ∀ c, c < m → x c = ok (vx c)) (hy : ∀ c, c < m → y c = ok (vy c))
    (h : k + 1 < m) (z : K × K) : dotStep b x y k z = ok (z + dotAt vy vx k) := by
  unfold dotStep
  rw [ld2_eq hx h, ld2_eq hy h, ok_bind, ok_bind, conjmadd_eq]
  rfl

theorem realStep_eq {x y : Nat → Outcome K} {vx vy : Nat → K} {m k : Nat} (hx : ∀ c, c < m → x c = ok (vx c)) (hy : ∀ c, c < m → y c = ok (vy c))
    (h : k + 1 < m) (z : K × K) : realStep x y k z = ok (z + (vy k * vx k, vy (k + 1) * vx (k + 1))) := by
  unfold realStep
  rw [ld2_eq hx h, ld2_eq hy h, ok_bind, ok_bind]
  simp only [pair, Prod.mk_mul_mk, mul_comm]

theorem sum12 {A : Type} [AddCommGroup A] (g : Nat → A) : ∑ m ∈ Finset.range 12, g (2 * m) = g 0 + g 2 + g 4 + g 6 + g 8 + g 10 + g 12 + g 14 + g 16 + g 18 + g 20 + g 22 := by
  simp only [Finset.sum_range_succ, Finset.sum_range_zero]
  simp

theorem vcdotD_eq (b : Bool) {y x : Nat → Outcome K} {vy vx : Nat → K} {n : Nat} (hy : ∀ c, c < 24 * n → y c = ok (vy c)) (hx : ∀ c, c < 24 * n → x c = ok (vx c)) :
    vcdotD b y x n = ok (∑ i ∈ Finset.range n, ∑ m ∈ Finset.range 12, dotAt vy vx (24 * i + 2 * m)) := by
  unfold vcdotD
  rw [Int.toNat_natCast]
  obtain ⟨⟨i, s⟩, h1, h2, h3⟩ := rounds_acc (f := dot4Round b x y) (I := fun i a s => s.1 = 24 * i ∧ tot4 s.2 = a)
    (t := fun i => ∑ m ∈ Finset.range 12, dotAt vy vx (24 * i + 2 * m)) n (by
      rintro i a ⟨num, s1, s2, s3, s4⟩ hi ⟨h1, h2⟩
      simp only at h1 h2
      subst h1 h2
      unfold dot4Round
      simp only [dotStep_eq b hx hy (show 24 * i + 1 < 24 * n by omega), dotStep_eq b hx hy (show 24 * i + 2 + 1 < 24 * n by omega),
        dotStep_eq b hx hy (show 24 * i + 4 + 1 < 24 * n by omega), dotStep_eq b hx hy (show 24 * i + 6 + 1 < 24 * n by omega),
        dotStep_eq b hx hy (show 24 * i + 8 + 1 < 24 * n by omega), dotStep_eq b hx hy (show 24 * i + 10 + 1 < 24 * n by omega),
        dotStep_eq b hx hy (show 24 * i + 12 + 1 < 24 * n by omega), dotStep_eq b hx hy (show 24 * i + 14 + 1 < 24 * n by omega),
        dotStep_eq b hx hy (show 24 * i + 16 + 1 < 24 * n by omega), dotStep_eq b hx hy (show 24 * i + 18 + 1 < 24 * n by omega),
        dotStep_eq b hx hy (show 24 * i + 20 + 1 < 24 * n by omega), dotStep_eq b hx hy (show 24 * i + 22 + 1 < 24 * n by omega), ok_bind]
      refine ⟨_, rfl, by simp only; omega, ?_⟩
      rw [sum12 fun k => dotAt vy vx (24 * i + k)]
      simp only [tot4, Nat.add_zero]
      abel) n 0 0 (0, 0, 0, 0, 0) (by omega) ⟨rfl, by simp [tot4]⟩
  rw [h1, ok_bind]
  simp only [Nat.zero_add, zero_add] at h3
  rw [← h3]
  simp only [tot4]
  congr 1
  abel

theorem vcdotRealD_eq {y x : Nat → Outcome K} {vy vx : Nat → K} {n : Nat} (hy : ∀ c, c < 24 * n → y c = ok (vy c)) (hx : ∀ c, c < 24 * n → x c = ok (vx c)) :
    vcdotRealD y x n = ok (∑ i ∈ Finset.range n, ∑ m ∈ Finset.range 12, (vy (24 * i + 2 * m) * vx (24 * i + 2 * m) + vy (24 * i + 2 * m + 1) * vx (24 * i + 2 * m + 1))) := by
  unfold vcdotRealD
  rw [Int.toNat_natCast]
  obtain ⟨⟨i, s⟩, h1, h2, h3⟩ := rounds_acc (f := real4Round x y) (I := fun i a s => s.1 = 24 * i ∧ (tot4 s.2).1 + (tot4 s.2).2 = a)
    (t := fun i => ∑ m ∈ Finset.range 12, (vy (24 * i + 2 * m) * vx (24 * i + 2 * m) + vy (24 * i + 2 * m + 1) * vx (24 * i + 2 * m + 1))) n (by
      rintro i a ⟨num, s1, s2, s3, s4⟩ hi ⟨h1, h2⟩
      simp only at h1 h2
      subst h1 h2
      unfold real4Round
      simp only [realStep_eq hx hy (show 24 * i + 1 < 24 * n by omega), realStep_eq hx hy (show 24 * i + 2 + 1 < 24 * n by omega),
        realStep_eq hx hy (show 24 * i + 4 + 1 < 24 * n by omega), realStep_eq hx hy (show 24 * i + 6 + 1 < 24 * n by omega),
        realStep_eq hx hy (show 24 * i + 8 + 1 < 24 * n by omega), realStep_eq hx hy (show 24 * i + 10 + 1 < 24 * n by omega),
        realStep_eq hx hy (show 24 * i + 12 + 1 < 24 * n by omega), realStep_eq hx hy (show 24 * i + 14 + 1 < 24 * n by omega),
        realStep_eq hx hy (show 24 * i + 16 + 1 < 24 * n by omega), realStep_eq hx hy (show 24 * i + 18 + 1 < 24 * n by omega),
        realStep_eq hx hy (show 24 * i + 20 + 1 < 24 * n by omega), realStep_eq hx hy (show 24 * i + 22 + 1 < 24 * n by omega), ok_bind]
      refine ⟨_, rfl, by simp only; omega, ?_⟩
      rw [sum12 fun k => vy (24 * i + k) * vx (24 * i + k) + vy (24 * i + k + 1) * vx (24 * i + k + 1)]
      simp only [tot4, Nat.add_zero, Prod.fst_add, Prod.snd_add]
      ring) n 0 0 (0, 0, 0, 0, 0) (by omega) ⟨rfl, by simp [tot4]⟩
  rw [h1, ok_bind]
  simp only [Nat.zero_add, zero_add] at h3
  rw [← h3]
  simp only [tot4, Prod.fst_add, Prod.snd_add]
  congr 1
  ring

theorem dotAt_sum3 (v w : Nat → K) (k : Nat) : ∑ m ∈ Finset.range 3, dotAt v w (k + 2 * m) = dotAt v w k + dotAt v w (k + 2) + dotAt v w (k + 4) := by
  simp [Finset.sum_range_succ]

theorem vcdotS_eq {x y : Nat → Outcome K} {vx vy : Nat → K} {n : Nat} (hx : ∀ c, c < 6 * n → x c = ok (vx c)) (hy : ∀ c, c < 6 * n → y c = ok (vy c)) :
    vcdotS x y n = ok (∑ i ∈ Finset.range n, ∑ m ∈ Finset.range 3, dotAt vx vy (6 * i + 2 * m)) := by
  unfold vcdotS
  rcases Nat.eq_zero_or_pos n with rfl | hn
  · simp
  obtain ⟨m, rfl⟩ : ∃ m, n = m + 1 := ⟨n - 1, by omega⟩
  rw [if_pos (by omega)]
  simp only [hx 0 (by omega), hx 1 (by omega), hx 2 (by omega), hy 0 (by omega), hy 1 (by omega), hy 2 (by omega), ok_bind]
  rw [show ((m + 1 : Nat) : Int) - 1 = (m : Nat) by omega, Int.toNat_natCast]
  obtain ⟨s, h1, h2, h3, h4, h5, h6, h7, h8, h9⟩ := rounds_acc (f := dotRound x y) (I := fun i a s => s.ptr = 6 * i + 3 ∧ s.v1_0r = vx (6 * i) ∧
      s.v2_0r = vy (6 * i) ∧ s.v1_0i = vx (6 * i + 1) ∧ s.v2_0i = vy (6 * i + 1) ∧ s.v1_1r = vx (6 * i + 2) ∧ s.v2_1r = vy (6 * i + 2) ∧ (s.re, s.im) = a)
    (t := fun i => ∑ m ∈ Finset.range 3, dotAt vx vy (6 * i + 2 * m)) m (by
      rintro i a ⟨num, re, im, a1, a2, a3, a4, a5, a6⟩ hi ⟨h1, h2, h3, h4, h5, h6, h7, h8⟩
      simp only at h1 h2 h3 h4 h5 h6 h7 h8
      subst h1 h2 h3 h4 h5 h6 h7 h8
      unfold dotRound
      simp only [hx (6 * i + 3) (by omega), hx (6 * i + 3 + 1) (by omega), hx (6 * i + 3 + 2) (by omega), hx (6 * i + 3 + 3) (by omega),
        hx (6 * i + 3 + 4) (by omega), hx (6 * i + 3 + 5) (by omega), hy (6 * i + 3) (by omega), hy (6 * i + 3 + 1) (by omega),
        hy (6 * i + 3 + 2) (by omega), hy (6 * i + 3 + 3) (by omega), hy (6 * i + 3 + 4) (by omega), hy (6 * i + 3 + 5) (by omega), ok_bind]
      refine ⟨_, rfl, by simp only; omega, rfl, rfl, rfl, rfl, rfl, rfl, ?_⟩
      rw [dotAt_sum3]
      simp only [dotAt, Nat.add_assoc, Nat.reduceAdd, Prod.mk_add_mk, Prod.mk.injEq]
      constructor <;> ring) m 0 0 ⟨3, 0, 0, vx 0, vy 0, vx 1, vy 1, vx 2, vy 2⟩ (by omega) ⟨rfl, rfl, rfl, rfl, rfl, rfl, rfl, rfl⟩
  rw [h1, ok_bind, Finset.sum_range_succ]
  simp only [Nat.zero_add, zero_add] at h2 h3 h4 h5 h6 h7 h8 h9
  rw [← h9]
  unfold dotLast
  rw [h2, h3, h4, h5, h6, h7, h8]
  simp only [hx (6 * m + 3) (by omega), hx (6 * m + 3 + 1) (by omega), hx (6 * m + 3 + 2) (by omega), hy (6 * m + 3) (by omega),
    hy (6 * m + 3 + 1) (by omega), hy (6 * m + 3 + 2) (by omega), ok_bind]
  rw [dotAt_sum3]
  simp only [dotAt, Nat.add_assoc, Nat.reduceAdd, Prod.mk_add_mk]
  congr 2 <;> ring

theorem vcdotRealS_eq {x y : Nat → Outcome K} {vx vy : Nat → K} {n : Nat} (hx : ∀ c, c < 6 * n → x c = ok (vx c)) (hy : ∀ c, c < 6 * n → y c = ok (vy c)) :
    vcdotRealS x y n = ok (∑ i ∈ Finset.range n, ∑ m ∈ Finset.range 3, (vx (6 * i + 2 * m) * vy (6 * i + 2 * m) + vx (6 * i + 2 * m + 1) * vy (6 * i + 2 * m + 1))) := by
  unfold vcdotRealS
  rcases Nat.eq_zero_or_pos n with rfl | hn
  · simp
  obtain ⟨m, rfl⟩ : ∃ m, n = m + 1 := ⟨n - 1, by omega⟩
  rw [if_pos (by omega), ld6_eq hx (by omega), ld6_eq hy (by omega), ok_bind, ok_bind, show ((m + 1 : Nat) : Int) - 1 = (m : Nat) by omega, Int.toNat_natCast]
  have e : ∀ r k, dot6 r (hex vx k) (hex vy k) = r + ∑ m ∈ Finset.range 3, (vx (k + 2 * m) * vy (k + 2 * m) + vx (k + 2 * m + 1) * vy (k + 2 * m + 1)) := by
    intro r k
    simp [Finset.sum_range_succ, dot6, hex]
    ring
  obtain ⟨s, h1, h2, h3, h4, h5⟩ := rounds_acc (f := realRound x y) (I := fun i a s => s.ptr = 6 * i + 6 ∧ s.v1 = hex vx (6 * i) ∧ s.v2 = hex vy (6 * i) ∧ s.res = a)
    (t := fun i => ∑ m ∈ Finset.range 3, (vx (6 * i + 2 * m) * vy (6 * i + 2 * m) + vx (6 * i + 2 * m + 1) * vy (6 * i + 2 * m + 1))) m (by
      rintro i a ⟨num, r, a1, a2⟩ hi ⟨h1, h2, h3, h4⟩
      simp only at h1 h2 h3 h4
      subst h1 h2 h3 h4
      unfold realRound
      simp only [ld6_eq hx (show 6 * i + 6 + 5 < 6 * (m + 1) by omega), ld6_eq hy (show 6 * i + 6 + 5 < 6 * (m + 1) by omega), ok_bind]
      exact ⟨_, rfl, by simp only; omega, rfl, rfl, e _ _⟩) m 0 0 ⟨6, 0, hex vx 0, hex vy 0⟩ (by omega) ⟨rfl, rfl, rfl, rfl⟩
  rw [h1, ok_bind, Finset.sum_range_succ]
  simp only [Nat.zero_add, zero_add] at h2 h3 h4 h5
  rw [h3, h4, h5, e]

end
end Verif.SseReduce
