import Verif.Baryon
/-
C99: contractions of three propagators; Wick's theorem for the operators of the baryons.
-/
namespace Verif.Baryon
open Verif Outcome Verif.Layout Verif.ParLayout Verif.ParMap Verif.Spmd Verif.Shift Verif.Subset Verif.Hadron
open Verif.Gauge (Mat siteSum)
open Verif.Dslash (gam gam5)
open Verif.Contract (colorContract eps eps_table quarkContractXX C65_symm C65_trace C65_spin)
open Finset

/-! ## Three propagators contracted in colour -/

/-- the colour matrix between two spins -/
def blk (S : PM 3) (a b : Fin 4) : Fin 3 → Fin 3 → ℂ := fun i j => S (a, i) (b, j)

/-- three propagators, contracted in colour at both ends -/
def T (S : PM 3) (s0 s1 s2 t0 t1 t2 : Fin 4) : ℂ := colorContract (blk S s0 t0) (blk S s1 t1) (blk S s2 t2)

theorem T_swap01 (S : PM 3) (s0 s1 s2 t0 t1 t2 : Fin 4) : T S s1 s0 s2 t1 t0 t2 = T S s0 s1 s2 t0 t1 t2 := (C65_symm _ _ _).1
theorem T_swap12 (S : PM 3) (s0 s1 s2 t0 t1 t2 : Fin 4) : T S s0 s2 s1 t0 t2 t1 = T S s0 s1 s2 t0 t1 t2 := (C65_symm _ _ _).2

theorem cc_sum1 (m : Fin 4 → ℂ) (x : Fin 4 → Fin 3 → Fin 3 → ℂ) (y z : Fin 3 → Fin 3 → ℂ) :
    colorContract (fun i j => ∑ c, m c * x c i j) y z = ∑ c, m c * colorContract (x c) y z := by
  simp only [Fin.sum_univ_four]
  unfold colorContract
  ring

theorem cc_sum2 (m : Fin 4 → ℂ) (x : Fin 4 → Fin 3 → Fin 3 → ℂ) (y z : Fin 3 → Fin 3 → ℂ) :
    colorContract y (fun i j => ∑ c, m c * x c i j) z = ∑ c, m c * colorContract y (x c) z := by
  rw [(C65_symm _ _ _).1, cc_sum1]
  exact sum_congr rfl fun c _ => by rw [(C65_symm _ _ _).1]

theorem cc_sum3 (m : Fin 4 → ℂ) (x : Fin 4 → Fin 3 → Fin 3 → ℂ) (y z : Fin 3 → Fin 3 → ℂ) :
    colorContract y z (fun i j => ∑ c, m c * x c i j) = ∑ c, m c * colorContract y z (x c) := by
  rw [(C65_symm _ _ _).2, cc_sum2]
  exact sum_congr rfl fun c _ => by rw [(C65_symm _ _ _).2]

/-- the two contractions that occur -/
def dir (S : PM 3) (M M' : Matrix (Fin 4) (Fin 4) ℂ) (al be : Fin 4) : ℂ := ∑ s0, ∑ s1, ∑ t0, ∑ t1, M s0 s1 * M' t1 t0 * T S s0 s1 al t0 t1 be
def exch (S : PM 3) (M M' : Matrix (Fin 4) (Fin 4) ℂ) (al be : Fin 4) : ℂ := ∑ s0, ∑ s1, ∑ t0, ∑ t1, M s0 s1 * M' t1 t0 * T S s0 s1 al t0 be t1

/-! ## Wick's theorem -/

theorem perms : (univ : Finset (Equiv.Perm (Fin 3))) = {1, Equiv.swap 0 1, Equiv.swap 1 2, Equiv.swap 0 2, Equiv.swap 0 1 * Equiv.swap 1 2,
    Equiv.swap 1 2 * Equiv.swap 0 1} := by decide

theorem sum_perms (h : Equiv.Perm (Fin 3) → ℂ) : ∑ p, h p = h 1 + h (Equiv.swap 0 1) + h (Equiv.swap 1 2) + h (Equiv.swap 0 2) +
    h (Equiv.swap 0 1 * Equiv.swap 1 2) + h (Equiv.swap 1 2 * Equiv.swap 0 1) := by
  rw [perms, sum_insert (by decide), sum_insert (by decide), sum_insert (by decide), sum_insert (by decide), sum_insert (by decide), sum_singleton]
  ring

/-- the sum over colours of one pairing -/
def colours (h : Fin 3 → Fin 3 → Fin 3 → Fin 3 → Fin 3 → Fin 3 → ℂ) : ℂ :=
  ∑ a0, ∑ a1, ∑ a2, (eps a0 a1 a2 : ℂ) * ∑ b0, ∑ b1, ∑ b2, (eps b0 b1 b2 : ℂ) * h a0 a1 a2 b0 b1 b2

theorem colours_add (h h' : Fin 3 → Fin 3 → Fin 3 → Fin 3 → Fin 3 → Fin 3 → ℂ) :
    colours (fun a b c a' b' c' => h a b c a' b' c' + h' a b c a' b' c') = colours h + colours h' := by
  simp only [colours, mul_add, sum_add_distrib]

theorem colours_ite (q : Prop) [Decidable q] (h : Fin 3 → Fin 3 → Fin 3 → Fin 3 → Fin 3 → Fin 3 → ℂ) :
    colours (fun a b c a' b' c' => if q then h a b c a' b' c' else 0) = if q then colours h else 0 := by
  split_ifs <;> simp [colours]

/-- each pairing gives the contraction of three propagators; the symbol takes up the sign -/
theorem pairing (S : PM 3) (s0 s1 s2 t0 t1 t2 : Fin 4) :
    (colours (fun a0 a1 a2 b0 b1 b2 => S (s0, a0) (t0, b0) * S (s1, a1) (t1, b1) * S (s2, a2) (t2, b2)) = T S s0 s1 s2 t0 t1 t2) ∧
    (colours (fun a0 a1 a2 b0 b1 b2 => -1 * (S (s0, a0) (t1, b1) * S (s1, a1) (t0, b0) * S (s2, a2) (t2, b2))) = T S s0 s1 s2 t1 t0 t2) ∧
    (colours (fun a0 a1 a2 b0 b1 b2 => -1 * (S (s0, a0) (t0, b0) * S (s1, a1) (t2, b2) * S (s2, a2) (t1, b1))) = T S s0 s1 s2 t0 t2 t1) ∧
    (colours (fun a0 a1 a2 b0 b1 b2 => -1 * (S (s0, a0) (t2, b2) * S (s1, a1) (t1, b1) * S (s2, a2) (t0, b0))) = T S s0 s1 s2 t2 t1 t0) ∧
    (colours (fun a0 a1 a2 b0 b1 b2 => S (s0, a0) (t1, b1) * S (s1, a1) (t2, b2) * S (s2, a2) (t0, b0)) = T S s0 s1 s2 t1 t2 t0) ∧
    (colours (fun a0 a1 a2 b0 b1 b2 => S (s0, a0) (t2, b2) * S (s1, a1) (t0, b0) * S (s2, a2) (t1, b1)) = T S s0 s1 s2 t2 t0 t1) := by
  refine ⟨?_, ?_, ?_, ?_, ?_, ?_⟩ <;>
  · unfold colours
    rw [eps_table]
    simp only [eps_table]
    unfold T colorContract blk
    ring

theorem sum_wick (S : PM 3) (f g : Fin 3 → Fin 3) (s0 s1 s2 t0 t1 t2 : Fin 4) :
    colours (fun a0 a1 a2 b0 b1 b2 => wick S f g ![(s0, a0), (s1, a1), (s2, a2)] ![(t0, b0), (t1, b1), (t2, b2)]) =
      (if f = g ∘ (1 : Equiv.Perm (Fin 3)) then T S s0 s1 s2 t0 t1 t2 else 0) + (if f = g ∘ (Equiv.swap 0 1 : Equiv.Perm (Fin 3)) then T S s0 s1 s2 t1 t0 t2 else 0) +
      (if f = g ∘ (Equiv.swap 1 2 : Equiv.Perm (Fin 3)) then T S s0 s1 s2 t0 t2 t1 else 0) + (if f = g ∘ (Equiv.swap 0 2 : Equiv.Perm (Fin 3)) then T S s0 s1 s2 t2 t1 t0 else 0) +
      (if f = g ∘ (Equiv.swap 0 1 * Equiv.swap 1 2 : Equiv.Perm (Fin 3)) then T S s0 s1 s2 t1 t2 t0 else 0) +
      (if f = g ∘ (Equiv.swap 1 2 * Equiv.swap 0 1 : Equiv.Perm (Fin 3)) then T S s0 s1 s2 t2 t0 t1 else 0) := by
  obtain ⟨p1, p2, p3, p4, p5, p6⟩ := pairing S s0 s1 s2 t0 t1 t2
  have e1 : ∀ x : Fin 3, (1 : Equiv.Perm (Fin 3)) x = ![0, 1, 2] x := by decide
  have e2 : ∀ x : Fin 3, (Equiv.swap 0 1 : Equiv.Perm (Fin 3)) x = ![1, 0, 2] x := by decide
  have e3 : ∀ x : Fin 3, (Equiv.swap 1 2 : Equiv.Perm (Fin 3)) x = ![0, 2, 1] x := by decide
  have e4 : ∀ x : Fin 3, (Equiv.swap 0 2 : Equiv.Perm (Fin 3)) x = ![2, 1, 0] x := by decide
  have e5 : ∀ x : Fin 3, (Equiv.swap 0 1 * Equiv.swap 1 2 : Equiv.Perm (Fin 3)) x = ![1, 2, 0] x := by decide
  have e6 : ∀ x : Fin 3, (Equiv.swap 1 2 * Equiv.swap 0 1 : Equiv.Perm (Fin 3)) x = ![2, 0, 1] x := by decide
  have g1 : ((Equiv.Perm.sign (1 : Equiv.Perm (Fin 3)) : ℤ) : ℂ) = 1 := by simp
  have g2 : ((Equiv.Perm.sign (Equiv.swap 0 1 : Equiv.Perm (Fin 3)) : ℤ) : ℂ) = -1 := by rw [Equiv.Perm.sign_swap (by decide)]; simp
  have g3 : ((Equiv.Perm.sign (Equiv.swap 1 2 : Equiv.Perm (Fin 3)) : ℤ) : ℂ) = -1 := by rw [Equiv.Perm.sign_swap (by decide)]; simp
  have g4 : ((Equiv.Perm.sign (Equiv.swap 0 2 : Equiv.Perm (Fin 3)) : ℤ) : ℂ) = -1 := by rw [Equiv.Perm.sign_swap (by decide)]; simp
  have g5 : ((Equiv.Perm.sign (Equiv.swap 0 1 * Equiv.swap 1 2 : Equiv.Perm (Fin 3)) : ℤ) : ℂ) = 1 := by
    rw [Equiv.Perm.sign_mul, Equiv.Perm.sign_swap (by decide), Equiv.Perm.sign_swap (by decide)]; simp
  have g6 : ((Equiv.Perm.sign (Equiv.swap 1 2 * Equiv.swap 0 1 : Equiv.Perm (Fin 3)) : ℤ) : ℂ) = 1 := by
    rw [Equiv.Perm.sign_mul, Equiv.Perm.sign_swap (by decide), Equiv.Perm.sign_swap (by decide)]; simp
  have hw : ∀ a0 a1 a2 b0 b1 b2 : Fin 3, wick S f g ![(s0, a0), (s1, a1), (s2, a2)] ![(t0, b0), (t1, b1), (t2, b2)] =
      (if f = g ∘ (1 : Equiv.Perm (Fin 3)) then S (s0, a0) (t0, b0) * S (s1, a1) (t1, b1) * S (s2, a2) (t2, b2) else 0) +
      (if f = g ∘ (Equiv.swap 0 1 : Equiv.Perm (Fin 3)) then -1 * (S (s0, a0) (t1, b1) * S (s1, a1) (t0, b0) * S (s2, a2) (t2, b2)) else 0) +
      (if f = g ∘ (Equiv.swap 1 2 : Equiv.Perm (Fin 3)) then -1 * (S (s0, a0) (t0, b0) * S (s1, a1) (t2, b2) * S (s2, a2) (t1, b1)) else 0) +
      (if f = g ∘ (Equiv.swap 0 2 : Equiv.Perm (Fin 3)) then -1 * (S (s0, a0) (t2, b2) * S (s1, a1) (t1, b1) * S (s2, a2) (t0, b0)) else 0) +
      (if f = g ∘ (Equiv.swap 0 1 * Equiv.swap 1 2 : Equiv.Perm (Fin 3)) then S (s0, a0) (t1, b1) * S (s1, a1) (t2, b2) * S (s2, a2) (t0, b0) else 0) +
      (if f = g ∘ (Equiv.swap 1 2 * Equiv.swap 0 1 : Equiv.Perm (Fin 3)) then S (s0, a0) (t2, b2) * S (s1, a1) (t0, b0) * S (s2, a2) (t1, b1) else 0) := by
    intro a0 a1 a2 b0 b1 b2
    unfold wick
    rw [sum_perms]
    simp only [g1, g2, g3, g4, g5, g6, Fin.prod_univ_three, one_mul]
    simp only [e1, e2, e3, e4, e5, e6]
    rfl
  simp only [hw, colours_add, colours_ite, p1, p2, p3, p4, p5, p6]

theorem termCorr_eq (S : PM 3) (M M' : Matrix (Fin 4) (Fin 4) ℂ) (f g : Fin 3 → Fin 3) (al be : Fin 4) :
    termCorr S M M' f g al be = ∑ s0, ∑ s1, ∑ t0, ∑ t1, M s0 s1 * M' t1 t0 *
      ((if f = g ∘ (1 : Equiv.Perm (Fin 3)) then T S s0 s1 al t0 t1 be else 0) + (if f = g ∘ (Equiv.swap 0 1 : Equiv.Perm (Fin 3)) then T S s0 s1 al t1 t0 be else 0) +
      (if f = g ∘ (Equiv.swap 1 2 : Equiv.Perm (Fin 3)) then T S s0 s1 al t0 be t1 else 0) + (if f = g ∘ (Equiv.swap 0 2 : Equiv.Perm (Fin 3)) then T S s0 s1 al be t1 t0 else 0) +
      (if f = g ∘ (Equiv.swap 0 1 * Equiv.swap 1 2 : Equiv.Perm (Fin 3)) then T S s0 s1 al t1 be t0 else 0) +
      (if f = g ∘ (Equiv.swap 1 2 * Equiv.swap 0 1 : Equiv.Perm (Fin 3)) then T S s0 s1 al be t0 t1 else 0)) := by
  unfold termCorr
  refine sum_congr rfl fun s0 _ => sum_congr rfl fun s1 _ => sum_congr rfl fun t0 _ => sum_congr rfl fun t1 _ => ?_
  rw [← sum_wick]; rfl

section
variable (S : PM 3) {M M' : Matrix (Fin 4) (Fin 4) ℂ} (al be : Fin 4)

/-- names of indices -/
theorem swap_t (h : Fin 4 → Fin 4 → Fin 4 → Fin 4 → ℂ) : ∑ s0, ∑ s1, ∑ t0, ∑ t1, h s0 s1 t0 t1 = ∑ s0, ∑ s1, ∑ t0, ∑ t1, h s0 s1 t1 t0 :=
  sum_congr rfl fun _ _ => sum_congr rfl fun _ _ => sum_comm
theorem swap_s (h : Fin 4 → Fin 4 → Fin 4 → Fin 4 → ℂ) : ∑ s0, ∑ s1, ∑ t0, ∑ t1, h s0 s1 t0 t1 = ∑ s0, ∑ s1, ∑ t0, ∑ t1, h s1 s0 t0 t1 :=
  sum_comm

theorem mul4 (c : ℂ) (h : Fin 4 → Fin 4 → Fin 4 → Fin 4 → ℂ) : ∑ s0, ∑ s1, ∑ t0, ∑ t1, c * h s0 s1 t0 t1 = c * ∑ s0, ∑ s1, ∑ t0, ∑ t1, h s0 s1 t0 t1 := by
  simp only [mul_sum]

/-- the other pairings, for a matrix that is symmetric or antisymmetric -/
theorem pair01 {c : ℂ} (hM' : ∀ a b, M' b a = c * M' a b) :
    ∑ s0, ∑ s1, ∑ t0, ∑ t1, M s0 s1 * M' t1 t0 * T S s0 s1 al t1 t0 be = c * dir S M M' al be := by
  rw [swap_t]
  unfold dir
  rw [← mul4]
  refine sum_congr rfl fun s0 _ => sum_congr rfl fun s1 _ => sum_congr rfl fun t0 _ => sum_congr rfl fun t1 _ => ?_
  rw [hM' t1 t0]; ring

theorem pair02 {c c' : ℂ} (hM : ∀ a b, M b a = c * M a b) (hM' : ∀ a b, M' b a = c' * M' a b) :
    ∑ s0, ∑ s1, ∑ t0, ∑ t1, M s0 s1 * M' t1 t0 * T S s0 s1 al be t1 t0 = c * c' * exch S M M' al be := by
  rw [swap_t, swap_s]
  unfold exch
  rw [← mul4]
  refine sum_congr rfl fun s0 _ => sum_congr rfl fun s1 _ => sum_congr rfl fun t0 _ => sum_congr rfl fun t1 _ => ?_
  rw [hM s0 s1, hM' t1 t0, T_swap01]; ring

theorem pair120 {c' : ℂ} (hM' : ∀ a b, M' b a = c' * M' a b) :
    ∑ s0, ∑ s1, ∑ t0, ∑ t1, M s0 s1 * M' t1 t0 * T S s0 s1 al t1 be t0 = c' * exch S M M' al be := by
  rw [swap_t]
  unfold exch
  rw [← mul4]
  refine sum_congr rfl fun s0 _ => sum_congr rfl fun s1 _ => sum_congr rfl fun t0 _ => sum_congr rfl fun t1 _ => ?_
  rw [hM' t1 t0]; ring

theorem pair201 {c : ℂ} (hM : ∀ a b, M b a = c * M a b) :
    ∑ s0, ∑ s1, ∑ t0, ∑ t1, M s0 s1 * M' t1 t0 * T S s0 s1 al be t0 t1 = c * exch S M M' al be := by
  rw [swap_s]
  unfold exch
  rw [← mul4]
  refine sum_congr rfl fun s0 _ => sum_congr rfl fun s1 _ => sum_congr rfl fun t0 _ => sum_congr rfl fun t1 _ => ?_
  rw [hM s0 s1, T_swap01]; ring

theorem add4 (h h' : Fin 4 → Fin 4 → Fin 4 → Fin 4 → ℂ) : ∑ s0, ∑ s1, ∑ t0, ∑ t1, (h s0 s1 t0 t1 + h' s0 s1 t0 t1) =
    ∑ s0, ∑ s1, ∑ t0, ∑ t1, h s0 s1 t0 t1 + ∑ s0, ∑ s1, ∑ t0, ∑ t1, h' s0 s1 t0 t1 := by
  simp only [sum_add_distrib]

theorem ite4 (q : Prop) [Decidable q] (m h : Fin 4 → Fin 4 → Fin 4 → Fin 4 → ℂ) :
    (∑ s0, ∑ s1, ∑ t0, ∑ t1, m s0 s1 t0 t1 * if q then h s0 s1 t0 t1 else 0) = if q then ∑ s0, ∑ s1, ∑ t0, ∑ t1, m s0 s1 t0 t1 * h s0 s1 t0 t1 else 0 := by
  split_ifs <;> simp

/-- the correlation function of two terms for a matrix of definite symmetry -/
theorem termCorr_sym {c : ℂ} (hM : ∀ a b, M b a = c * M a b) (hM' : ∀ a b, M' b a = c * M' a b) (f g : Fin 3 → Fin 3) :
    termCorr S M M' f g al be =
      (if f = g ∘ (1 : Equiv.Perm (Fin 3)) then dir S M M' al be else 0) + (if f = g ∘ (Equiv.swap 0 1 : Equiv.Perm (Fin 3)) then c * dir S M M' al be else 0) +
      (if f = g ∘ (Equiv.swap 1 2 : Equiv.Perm (Fin 3)) then exch S M M' al be else 0) + (if f = g ∘ (Equiv.swap 0 2 : Equiv.Perm (Fin 3)) then c * c * exch S M M' al be else 0) +
      (if f = g ∘ (Equiv.swap 0 1 * Equiv.swap 1 2 : Equiv.Perm (Fin 3)) then c * exch S M M' al be else 0) +
      (if f = g ∘ (Equiv.swap 1 2 * Equiv.swap 0 1 : Equiv.Perm (Fin 3)) then c * exch S M M' al be else 0) := by
  rw [termCorr_eq]
  simp only [mul_add, add4, ite4]
  rw [pair01 S al be hM', pair02 S al be hM hM', pair120 S al be hM', pair201 S al be hM]
  rfl

/-- proton: any matrix -/
theorem termCorr_proton : termCorr S M M' ![d, Baryon.u, Baryon.u] ![d, Baryon.u, Baryon.u] al be = dir S M M' al be + exch S M M' al be := by
  rw [termCorr_eq]
  simp only [mul_add, add4, ite4]
  rw [if_pos (by decide), if_neg (by decide), if_pos (by decide), if_neg (by decide), if_neg (by decide), if_neg (by decide)]
  simp only [add_zero]; rfl

end

theorem corr_proton (S : PM 3) (M : Matrix (Fin 4) (Fin 4) ℂ) (al be : Fin 4) :
    corr S M protonOp al be = dir S M (dirac M) al be + exch S M (dirac M) al be := by
  simp [corr, protonOp, termCorr_proton]

/-- Lambda: an antisymmetric matrix -/
theorem corr_lambda (S : PM 3) (M : Matrix (Fin 4) (Fin 4) ℂ) (h : ∀ a b, M b a = -1 * M a b) (h' : ∀ a b, dirac M b a = -1 * dirac M a b) (al be : Fin 4) :
    corr S M lambdaOp al be = 6 * (dir S M (dirac M) al be + exch S M (dirac M) al be) := by
  simp only [corr, lambdaOp, List.map_cons, List.map_nil, List.sum_cons, List.sum_nil, termCorr_sym S al be h h']
  simp (decide := true) only [if_true, if_false]
  simp
  ring

/-- Delta: a symmetric matrix -/
theorem corr_delta (S : PM 3) (M : Matrix (Fin 4) (Fin 4) ℂ) (h : ∀ a b, M b a = 1 * M a b) (h' : ∀ a b, dirac M b a = 1 * dirac M a b) (al be : Fin 4) :
    corr S M deltaOp al be = 6 * (dir S M (dirac M) al be + 2 * exch S M (dirac M) al be) := by
  simp only [corr, deltaOp, List.map_cons, List.map_nil, List.sum_cons, List.sum_nil, termCorr_sym S al be h h']
  simp (decide := true) only [if_true, if_false]
  simp
  ring

/-! ## The matrices -/

/-- the entries of a spin matrix -/
theorem gs_eq (m : Fin 16) (M : SM) : Matrix.of (gs m M) = Gam m * Matrix.of M := by
  ext a b
  show gs m M a b = _
  unfold gs
  rw [Spin.C42_left, Matrix.mul_apply]
  refine sum_congr rfl fun c _ => ?_
  rw [Dslash.act_eq, toC_gamma]; rfl

theorem gOne_eq : Matrix.of gOne = 1 := by
  ext a b
  show gOne a b = _
  rw [gOne, Matrix.one_apply]

theorem rs_eq (r : ℂ) (M : SM) : Matrix.of (rs r M) = r • Matrix.of M := rfl
theorem tI_eq (M : SM) : Matrix.of (tI M) = Complex.I • Matrix.of M := rfl
theorem of_add' (M N : SM) : Matrix.of (M + N) = Matrix.of M + Matrix.of N := rfl
theorem of_sub' (M N : SM) : Matrix.of (M - N) = Matrix.of M - Matrix.of N := rfl

theorem Gam_lit : Gam (1 : Fin 16) = gam 0 ∧ Gam (2 : Fin 16) = gam 1 ∧ Gam (8 : Fin 16) = gam 3 ∧ Gam (3 : Fin 16) = gam 0 * gam 1 ∧
    Gam (11 : Fin 16) = gam 0 * gam 1 * gam 3 ∧ Gam (10 : Fin 16) = gam 1 * gam 3 ∧
    Gam (5 : Fin 16) = gam 0 * gam 2 ∧ Gam (13 : Fin 16) = gam 0 * gam 2 * gam 3 := by
  refine ⟨?_, ?_, ?_, ?_, ?_, ?_, ?_, ?_⟩ <;> simp [Gam, Nat.testBit]

theorem gTmp1_eq : Matrix.of gTmp1 = gMinus := by
  obtain ⟨h1, h2, _⟩ := Gam_lit
  unfold gTmp1 gMinus
  rw [rs_eq, of_add', tI_eq, gs_eq, gs_eq, gOne_eq, h1, h2, Matrix.mul_one, Matrix.mul_one]
  norm_num

theorem cgm_eq : Matrix.of cgm = C * gMinus := by
  obtain ⟨_, _, _, _, _, h10, _⟩ := Gam_lit
  unfold cgm C
  rw [gs_eq, gTmp1_eq, h10]

theorem cg4m_eq : Matrix.of cg4m = C * gam 3 * gMinus := by
  obtain ⟨_, _, h8, _, _, h10, _⟩ := Gam_lit
  unfold cg4m C
  rw [gs_eq, gs_eq, gTmp1_eq, h10, h8, Matrix.mul_assoc _ (gam 3) gMinus]

theorem cgmNR_eq : Matrix.of cgmNR = C * gMinus - C * gam 3 * gMinus := by
  unfold cgmNR
  rw [of_sub', cgm_eq, cg4m_eq]

theorem gam03 : gam 0 * gam 1 * gam 3 = gam 3 * (gam 0 * gam 1) := by
  ext a b
  fin_cases a <;> fin_cases b <;> simp [gam, Matrix.mul_apply, Fin.sum_univ_four]

theorem sProj_eq : Matrix.of sProj = (2 : ℂ) • upProj := by
  obtain ⟨_, _, h8, h3, h11, _⟩ := Gam_lit
  unfold sProj upProj
  rw [rs_eq, of_sub', of_add', tI_eq, of_add', gs_eq, gs_eq, gs_eq, gOne_eq, h8, h3, h11, Matrix.mul_one, Matrix.mul_one, Matrix.mul_one, gam03,
    Matrix.smul_mul, Matrix.mul_smul, smul_smul, smul_smul, Matrix.mul_sub, Matrix.add_mul, Matrix.one_mul, Matrix.mul_one, Matrix.mul_smul, Matrix.add_mul,
    Matrix.one_mul]
  norm_num

theorem gam5_entries : gam5 = !![1, 0, 0, 0; 0, 1, 0, 0; 0, 0, -1, 0; 0, 0, 0, -1] := by
  ext a b
  fin_cases a <;> fin_cases b <;> simp [gam5, Matrix.diagonal]

theorem gMinus_entries : gMinus = !![0, 0, 0, -1; 0, 0, 0, 0; 0, 1, 0, 0; 0, 0, 0, 0] := by
  ext a b
  fin_cases a <;> fin_cases b <;> simp [gMinus, gam] <;> norm_num

theorem C_entries : C = !![0, -1, 0, 0; 1, 0, 0, 0; 0, 0, 0, 1; 0, 0, -1, 0] := by
  ext a b
  fin_cases a <;> fin_cases b <;> simp [C, gam, Matrix.mul_apply, Fin.sum_univ_four]

theorem C4_entries : C * gam 3 = !![0, 0, 0, -1; 0, 0, 1, 0; 0, 1, 0, 0; -1, 0, 0, 0] := by
  rw [C_entries]
  ext a b
  fin_cases a <;> fin_cases b <;> simp [gam, Matrix.mul_apply, Fin.sum_univ_four]

theorem C5_entries : C * gam5 = !![0, -1, 0, 0; 1, 0, 0, 0; 0, 0, 0, -1; 0, 0, 1, 0] := by
  rw [C_entries, gam5_entries]
  ext a b
  fin_cases a <;> fin_cases b <;> simp [Matrix.mul_apply, Fin.sum_univ_four]

theorem C45_entries : C * gam 3 * gam5 = !![0, 0, 0, 1; 0, 0, -1, 0; 0, 1, 0, 0; -1, 0, 0, 0] := by
  rw [C4_entries, gam5_entries]
  ext a b
  fin_cases a <;> fin_cases b <;> simp [Matrix.mul_apply, Fin.sum_univ_four]

theorem CM_entries : C * gMinus = !![0, 0, 0, 0; 0, 0, 0, -1; 0, 0, 0, 0; 0, -1, 0, 0] := by
  rw [C_entries, gMinus_entries]
  ext a b
  fin_cases a <;> fin_cases b <;> simp [Matrix.mul_apply, Fin.sum_univ_four]

theorem C4M_entries : C * gam 3 * gMinus = !![0, 0, 0, 0; 0, 1, 0, 0; 0, 0, 0, 0; 0, 0, 0, 1] := by
  rw [C4_entries, gMinus_entries]
  ext a b
  fin_cases a <;> fin_cases b <;> simp [Matrix.mul_apply, Fin.sum_univ_four]

/-- C gamma_5 and C gamma_4 gamma_5 -/
theorem cg5_eq : Gam (5 : Fin 16) = C * gam5 ∧ Gam (13 : Fin 16) = -(C * gam 3 * gam5) := by
  obtain ⟨_, _, _, _, _, _, h5, h13⟩ := Gam_lit
  rw [h5, h13, C5_entries, C45_entries]
  constructor <;>
  · ext a b
    fin_cases a <;> fin_cases b <;> simp [gam, Matrix.mul_apply, Fin.sum_univ_four]

theorem dirac_at (M : Matrix (Fin 4) (Fin 4) ℂ) (a b : Fin 4) : dirac M a b = star (M (![2, 3, 0, 1] b) (![2, 3, 0, 1] a)) := by
  unfold dirac
  simp only [Matrix.mul_apply, Fin.sum_univ_four, Matrix.conjTranspose_apply, Matrix.transpose_apply]
  fin_cases a <;> fin_cases b <;> simp [gam]

/-- symmetry, and the Dirac adjoint is the transpose -/
theorem diquark5_antisym (k : Fin 3) (a b : Fin 4) : diquark gam5 k b a = -1 * diquark gam5 k a b := by
  unfold diquark
  rw [C5_entries, C45_entries]
  fin_cases k <;> fin_cases a <;> fin_cases b <;> simp

theorem diquarkM_sym (k : Fin 3) (a b : Fin 4) : diquark gMinus k b a = 1 * diquark gMinus k a b := by
  unfold diquark
  rw [CM_entries, C4M_entries]
  fin_cases k <;> fin_cases a <;> fin_cases b <;> simp

theorem dirac_diquark5 (k : Fin 3) : dirac (diquark gam5 k) = (diquark gam5 k).transpose := by
  ext a b
  rw [dirac_at, Matrix.transpose_apply]
  unfold diquark
  rw [C5_entries, C45_entries]
  fin_cases k <;> fin_cases a <;> fin_cases b <;> simp

theorem dirac_diquarkM (k : Fin 3) : dirac (diquark gMinus k) = (diquark gMinus k).transpose := by
  ext a b
  rw [dirac_at, Matrix.transpose_apply]
  unfold diquark
  rw [CM_entries, C4M_entries]
  fin_cases k <;> fin_cases a <;> fin_cases b <;> simp

/-! ## What the code contracts -/

theorem gL_eq (m : Fin 16) (A : Prp 3) : gL m A = sL (Gam m) A := by
  funext a b i j
  unfold gL sL
  rw [Spin.C42_left]
  simp only [Finset.sum_apply, act_pi, toC_gamma]

theorem gR_eq (m : Fin 16) (A : Prp 3) : gR m A = sR A (Gam m) := by
  funext a b i j
  unfold gR sR
  rw [Spin.C42_right]
  simp only [Finset.sum_apply, act_pi, toC_gamma]
  exact sum_congr rfl fun c _ => mul_comm _ _

theorem sL_add (M N : SM) (A : Prp 3) : sL M A + sL N A = sL (M + N) A := by
  funext a b i j
  simp only [sL, Pi.add_apply, add_mul, sum_add_distrib]

theorem sR_add (M N : SM) (A : Prp 3) : sR A M + sR A N = sR A (M + N) := by
  funext a b i j
  simp only [sR, Pi.add_apply, mul_add, sum_add_distrib]

theorem diq_at (A B : Prp 3) (a b : Fin 4) : diq A B a b = ∑ k, quarkContractXX (A k a) (B k b) :=
  (C65_spin quarkContractXX A B a b).1

/-- the diquark with one spin summed and a third propagator -/
theorem contract_at (Q : Prp 3) (M : SM) (x y : Fin 4) (z : Fin 3 → Fin 3 → ℂ) :
    ∑ i, ∑ k, z i k * diq (sR Q M) (sL M Q) x y k i =
      ∑ s0, ∑ s1, ∑ t0, M s0 s1 * M t0 x * colorContract (blk (flat Q) s0 t0) (blk (flat Q) s1 y) z := by
  rw [diq_at]
  have h1 : ∀ κ, sR Q M κ x = fun i j => ∑ t0, M t0 x * blk (flat Q) κ t0 i j := fun κ => by
    funext i j; exact sum_congr rfl fun t _ => mul_comm _ _
  have h2 : ∀ κ, sL M Q κ y = fun i j => ∑ s1, M κ s1 * blk (flat Q) s1 y i j := fun κ => rfl
  have h3 : ∀ κ, ∑ i, ∑ k, z i k * quarkContractXX (sR Q M κ x) (sL M Q κ y) k i =
      ∑ s1, ∑ t0, M κ s1 * M t0 x * colorContract (blk (flat Q) κ t0) (blk (flat Q) s1 y) z := by
    intro κ
    have := C65_trace (sR Q M κ x) (sL M Q κ y) z
    rw [h1, h2, cc_sum1] at this
    simp only [cc_sum2, mul_sum] at this
    rw [sum_comm] at this
    rw [h1, h2, sum_comm]
    calc _ = ∑ i, ∑ j, quarkContractXX (fun i j => ∑ t0, M t0 x * blk (flat Q) κ t0 i j) (fun i j => ∑ s1, M κ s1 * blk (flat Q) s1 y i j) i j * z j i :=
          sum_congr rfl fun i _ => sum_congr rfl fun j _ => mul_comm _ _
      _ = _ := by
          rw [← this]
          exact sum_congr rfl fun i _ => sum_congr rfl fun j _ => by ring
  simp only [Finset.sum_apply, mul_sum]
  rw [← sum_congr rfl fun κ _ => h3 κ]
  calc _ = ∑ i, ∑ κ, ∑ k, z i k * quarkContractXX (sR Q M κ x) (sL M Q κ y) k i := sum_congr rfl fun i _ => sum_comm
    _ = _ := sum_comm

theorem direct_eq (Q : Prp 3) (M : SM) (al be : Fin 4) :
    traceColor (pcmul Q (traceSpin (diq (sR Q M) (sL M Q)))) al be = dir (flat Q) (Matrix.of M) (Matrix.of M).transpose al be := by
  have h : traceColor (pcmul Q (traceSpin (diq (sR Q M) (sL M Q)))) al be = ∑ x, ∑ i, ∑ k, Q al be i k * diq (sR Q M) (sL M Q) x x k i := by
    unfold traceColor pcmul traceSpin
    simp only [Finset.sum_apply, mul_sum]
    calc _ = ∑ i, ∑ x, ∑ k, Q al be i k * diq (sR Q M) (sL M Q) x x k i := sum_congr rfl fun i _ => sum_comm
      _ = _ := sum_comm
  rw [h]
  simp only [contract_at]
  unfold dir
  calc _ = ∑ s0, ∑ x, ∑ s1, ∑ t0, M s0 s1 * M t0 x * colorContract (blk (flat Q) s0 t0) (blk (flat Q) s1 x) (Q al be) := sum_comm
    _ = _ := by
      refine sum_congr rfl fun s0 _ => ?_
      rw [sum_comm]
      refine sum_congr rfl fun s1 _ => ?_
      rw [sum_comm]
      rfl

theorem exchange_eq (Q : Prp 3) (M : SM) (al be : Fin 4) :
    traceColor (pmul Q (diq (sR Q M) (sL M Q))) al be = exch (flat Q) (Matrix.of M) (Matrix.of M).transpose al be := by
  have h : traceColor (pmul Q (diq (sR Q M) (sL M Q))) al be = ∑ x, ∑ i, ∑ k, Q al x i k * diq (sR Q M) (sL M Q) x be k i := sum_comm
  rw [h]
  simp only [contract_at]
  unfold exch
  calc _ = ∑ s0, ∑ x, ∑ s1, ∑ t0, M s0 s1 * M t0 x * colorContract (blk (flat Q) s0 t0) (blk (flat Q) s1 be) (Q al x) := sum_comm
    _ = _ := by
      refine sum_congr rfl fun s0 _ => ?_
      rw [sum_comm]
      refine sum_congr rfl fun s1 _ => ?_
      rw [sum_comm]
      rfl

/-- what the code computes from a diquark matrix -/
noncomputable def codeVal (w : ℂ) (S : PM 3) (M : Matrix (Fin 4) (Fin 4) ℂ) : ℂ :=
  2 * (upProj * Matrix.of fun al be => dir S M M.transpose al be + w * exch S M M.transpose al be).trace

theorem bVal_eq (w : ℂ) (Q : Prp 3) (M : SM) : bVal w Q (diq (sR Q M) (sL M Q)) = codeVal w (flat Q) (Matrix.of M) := by
  have hs : ∀ a b, sProj a b = 2 * upProj a b := fun a b => congrFun (congrFun sProj_eq a) b
  unfold bVal codeVal strace2
  simp only [direct_eq, exchange_eq, Matrix.trace, Matrix.diag, Matrix.mul_apply, Matrix.of_apply, mul_sum, hs]
  rw [← sum_add_distrib]
  refine sum_congr rfl fun a _ => ?_
  rw [← sum_add_distrib]
  exact sum_congr rfl fun b _ => by ring

theorem dir_neg (S : PM 3) (M M' : Matrix (Fin 4) (Fin 4) ℂ) (al be : Fin 4) : dir S (-M) (-M') al be = dir S M M' al be := by
  unfold dir; simp only [Matrix.neg_apply, neg_mul_neg]

theorem exch_neg (S : PM 3) (M M' : Matrix (Fin 4) (Fin 4) ℂ) (al be : Fin 4) : exch S (-M) (-M') al be = exch S M M' al be := by
  unfold exch; simp only [Matrix.neg_apply, neg_mul_neg]

/-- the sign of the matrix does not matter -/
theorem codeVal_neg (w : ℂ) (S : PM 3) (M : Matrix (Fin 4) (Fin 4) ℂ) : codeVal w S (-M) = codeVal w S M := by
  unfold codeVal
  simp only [Matrix.transpose_neg, dir_neg, exch_neg]

theorem trace_scale (P A : Matrix (Fin 4) (Fin 4) ℂ) (c : ℂ) (B : Matrix (Fin 4) (Fin 4) ℂ) (h : ∀ a b, A a b = c * B a b) : (P * A).trace = c * (P * B).trace := by
  have : A = c • B := by ext a b; simp [h]
  rw [this, Matrix.mul_smul, Matrix.trace_smul, smul_eq_mul]

theorem code_proton (S : PM 3) (k : Fin 3) : codeVal 1 S (diquark gam5 k) = 2 * baryonAt S k 0 := by
  unfold codeVal
  show _ = 2 * (upProj * corr S (diquark gam5 k) protonOp).trace
  congr 3
  ext a b
  rw [corr_proton, dirac_diquark5]
  simp

theorem code_lambda (S : PM 3) (k : Fin 3) : codeVal 1 S (diquark gam5 k) * 3 = 2 * baryonAt S k 1 := by
  have h' : ∀ a b, dirac (diquark gam5 k) b a = -1 * dirac (diquark gam5 k) a b := by
    intro a b
    rw [dirac_diquark5]
    exact diquark5_antisym k b a
  show _ = 2 * ((upProj * corr S (diquark gam5 k) lambdaOp).trace / 2)
  rw [trace_scale upProj _ 6 _ fun a b => corr_lambda S _ (diquark5_antisym k) h' a b]
  unfold codeVal
  rw [dirac_diquark5]
  simp only [one_mul]
  show 2 * _ * 3 = 2 * (6 * _ / 2)
  ring_nf
  rfl

theorem code_delta (S : PM 3) (k : Fin 3) : codeVal 2 S (diquark gMinus k) * 3 = 2 * baryonAt S k 2 := by
  have h' : ∀ a b, dirac (diquark gMinus k) b a = 1 * dirac (diquark gMinus k) a b := by
    intro a b
    rw [dirac_diquarkM]
    exact diquarkM_sym k b a
  show _ = 2 * ((upProj * corr S (diquark gMinus k) deltaOp).trace / 2)
  rw [trace_scale upProj _ 6 _ fun a b => corr_delta S _ (diquarkM_sym k) h' a b]
  unfold codeVal
  rw [dirac_diquarkM]
  ring_nf
  rfl

end Verif.Baryon
