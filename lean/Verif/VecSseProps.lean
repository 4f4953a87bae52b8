import Verif.VecSseTables
import Mathlib.Tactic.Ring
import Mathlib.Tactic.FinCases
import Mathlib.Algebra.BigOperators.Fin
import Mathlib.Data.Complex.Basic
/-
C121: colour matrices in vectors of four sites.
-/
namespace Verif.VecSse
open Verif Outcome Verif.Subset Verif.LatticeIO

section
variable {R : Type} [CommRing R]

/-! ## Specification -/

/-- the elements of a matrix in memory -/
def re (w : Nat → R) (r c : Fin 3) : R := w (24 * r + 8 * c)
def im (w : Nat → R) (r c : Fin 3) : R := w (24 * r + 8 * c + 4)

/-- `w` holds the product of the matrices in `l` and `r` -/
def IsProd (w l r : Nat → R) : Prop := ∀ i k : Fin 3,
  re w i k = ∑ j, (re l i j * re r j k - im l i j * im r j k) ∧ im w i k = ∑ j, (re l i j * im r j k + im l i j * re r j k)

/-- the offsets of a matrix -/
def IsOffset (k : Nat) : Prop := k % 4 = 0 ∧ k < 72

/-! ## The macro -/

/-- the sums in the registers before the stores -/
def colRe (l r : Nat → R) (i j : Nat) : R :=
  r (0 + 8 * j) * l (24 * i) - r (4 + 8 * j) * l (24 * i + 4) + r (24 + 8 * j) * l (24 * i + 8) - r (28 + 8 * j) * l (24 * i + 12) + r (48 + 8 * j) * l (24 * i + 16)
    - r (52 + 8 * j) * l (24 * i + 20)
def colIm (l r : Nat → R) (i j : Nat) : R :=
  r (0 + 8 * j) * l (24 * i + 4) + r (4 + 8 * j) * l (24 * i) + r (24 + 8 * j) * l (24 * i + 12) + r (28 + 8 * j) * l (24 * i + 8) + r (48 + 8 * j) * l (24 * i + 20)
    + r (52 + 8 * j) * l (24 * i + 16)

def sums : List Asm := [asm0, asm1, asm2, asm3, asm4, asm5]

set_option maxRecDepth 100000 in
theorem sums_mem (σ : Ptr → Nat) (j : Nat) (s : St R) : (runAsm σ j sums s).mem = s.mem := rfl

set_option maxRecDepth 100000 in
theorem sums_reg (σ : Ptr → Nat) (j : Nat) (s : St R) :
    (runAsm σ j sums s).reg 0 = colRe (s.mem (σ .aa)) (s.mem (σ .bb)) 0 j ∧ (runAsm σ j sums s).reg 1 = colIm (s.mem (σ .aa)) (s.mem (σ .bb)) 0 j ∧
    (runAsm σ j sums s).reg 2 = colRe (s.mem (σ .aa)) (s.mem (σ .bb)) 1 j ∧ (runAsm σ j sums s).reg 3 = colIm (s.mem (σ .aa)) (s.mem (σ .bb)) 1 j ∧
    (runAsm σ j sums s).reg 4 = colRe (s.mem (σ .aa)) (s.mem (σ .bb)) 2 j ∧ (runAsm σ j sums s).reg 5 = colIm (s.mem (σ .aa)) (s.mem (σ .bb)) 2 j := by
  exact ⟨rfl, rfl, rfl, rfl, rfl, rfl⟩

theorem stores_mem (σ : Ptr → Nat) (j : Nat) (s : St R) (f k : Nat) : (runAsm σ j [asm6] s).mem f k =
    if f = σ .cc ∧ k = 52 + 8 * j then s.reg 5 else if f = σ .cc ∧ k = 48 + 8 * j then s.reg 4 else if f = σ .cc ∧ k = 28 + 8 * j then s.reg 3
    else if f = σ .cc ∧ k = 24 + 8 * j then s.reg 2 else if f = σ .cc ∧ k = 4 + 8 * j then s.reg 1 else if f = σ .cc ∧ k = 0 + 8 * j then s.reg 0
    else s.mem f k := rfl

set_option maxRecDepth 100000 in
theorem macro_mem (σ : Ptr → Nat) (j : Nat) (s : St R) (f k : Nat) : (runAsm σ j mulMacro s).mem f k =
    if f = σ .cc then
      if k = 8 * j then colRe (s.mem (σ .aa)) (s.mem (σ .bb)) 0 j
      else if k = 4 + 8 * j then colIm (s.mem (σ .aa)) (s.mem (σ .bb)) 0 j
      else if k = 24 + 8 * j then colRe (s.mem (σ .aa)) (s.mem (σ .bb)) 1 j
      else if k = 28 + 8 * j then colIm (s.mem (σ .aa)) (s.mem (σ .bb)) 1 j
      else if k = 48 + 8 * j then colRe (s.mem (σ .aa)) (s.mem (σ .bb)) 2 j
      else if k = 52 + 8 * j then colIm (s.mem (σ .aa)) (s.mem (σ .bb)) 2 j
      else s.mem f k
    else s.mem f k := by
  have e : runAsm σ j mulMacro s = runAsm σ j [asm6] (runAsm σ j sums s) := rfl
  rw [e, stores_mem, sums_mem]
  obtain ⟨h0, h1, h2, h3, h4, h5⟩ := sums_reg σ j s
  rw [h0, h1, h2, h3, h4, h5]
  by_cases hf : f = σ .cc
  · simp only [hf, true_and, if_true, Nat.zero_add]
    split_ifs <;> first | rfl | omega
  · simp [hf]

/-! ## The product at one outer site -/

theorem mulSite_cc (σ : Ptr → Nat) (hd : σ .aa ≠ σ .cc) (s : St R) :
    IsProd ((mulSite mulMacro σ s).mem (σ .cc)) (s.mem (σ .aa)) (s.mem (σ .bb)) := by
  intro i k
  have h : ∀ (i j : Fin 3), (mulSite mulMacro σ s).mem (σ .cc) (24 * i + 8 * j) = colRe (s.mem (σ .aa)) (s.mem (σ .bb)) i j ∧
      (mulSite mulMacro σ s).mem (σ .cc) (24 * i + 8 * j + 4) = colIm (s.mem (σ .aa)) (s.mem (σ .bb)) i j := by
    intro i j
    by_cases hb : σ .bb = σ .cc
    · fin_cases i <;> fin_cases j <;> simp [mulSite, macro_mem, hd, hb, colRe, colIm]
    · fin_cases i <;> fin_cases j <;> simp [mulSite, macro_mem, hd, hb, colRe, colIm]
  simp only [re, im]
  rw [(h i k).1, (h i k).2]
  simp only [Fin.sum_univ_three, colRe, colIm]
  fin_cases i <;> fin_cases k <;> constructor <;> simp <;> ring

theorem mulSite_other (σ : Ptr → Nat) (s : St R) (f k : Nat) (h : f ≠ σ .cc ∨ ¬ IsOffset k) : (mulSite mulMacro σ s).mem f k = s.mem f k := by
  rcases h with h | h
  · simp [mulSite, macro_mem, h]
  · have : ∀ n, n % 4 = 0 → n < 72 → k ≠ n := fun n h1 h2 e => h (e ▸ ⟨h1, h2⟩)
    simp [mulSite, macro_mem, this]

/-! ## The loop over outer sites -/

theorem rounds {n : Nat} {σ : Ptr → Nat} (hd : σ .aa ≠ σ .cc) (a : Nat) (reg : Nat → R) (F : Mem R) (m : Nat) (hm : a + m ≤ n) :
    ∃ s, foldO (fun s (j : Nat) => round mulMacro n σ s ((a : Int) + (j : Int)).toNat) (reg, F) (List.range m) = ok s ∧
      (∀ o, a ≤ o → o < a + m → IsProd (s.2 (σ .cc) o) (F (σ .aa) o) (F (σ .bb) o)) ∧
      (∀ f o k, (f ≠ σ .cc ∨ ¬ (a ≤ o ∧ o < a + m) ∨ ¬ IsOffset k) → s.2 f o k = F f o k) := by
  obtain ⟨s, h1, h2⟩ := foldO_range_id (s := ((reg, F) : (Nat → R) × Mem R)) (f := fun s (j : Nat) => round mulMacro n σ s ((a : Int) + (j : Int)).toNat)
    (fun m s => (∀ o, a ≤ o → o < a + m → IsProd (s.2 (σ .cc) o) (F (σ .aa) o) (F (σ .bb) o)) ∧
      (∀ f o k, (f ≠ σ .cc ∨ ¬ (a ≤ o ∧ o < a + m) ∨ ¬ IsOffset k) → s.2 f o k = F f o k)) m
    ⟨fun o h1 h2 => by omega, fun f o k _ => rfl⟩ (by
      intro j s hj hs
      have e : ((a : Int) + (j : Int)).toNat = a + j := by omega
      rw [e, round, if_pos (by omega)]
      refine ⟨_, rfl, ?_, ?_⟩
      · intro o h1 h2
        dsimp only
        by_cases ho : o = a + j
        · rw [if_pos ho]
          have := mulSite_cc σ hd ⟨s.1, fun f => s.2 f (a + j)⟩
          have ha : s.2 (σ .aa) (a + j) = F (σ .aa) (a + j) := funext fun k => hs.2 _ _ _ (.inl hd)
          have hb : s.2 (σ .bb) (a + j) = F (σ .bb) (a + j) := funext fun k => hs.2 _ _ _ (.inr (.inl (by omega)))
          rw [ho, ← ha, ← hb]
          exact this
        · rw [if_neg ho]
          exact hs.1 o h1 (by omega)
      · intro f o k h
        dsimp only
        by_cases ho : o = a + j
        · rw [if_pos ho, mulSite_other _ _ _ _ (by rcases h with h | h | h; exacts [.inl h, absurd ⟨by omega, by omega⟩ h, .inr h]), ho]
          exact hs.2 f _ k (.inr (.inl (by omega)))
        · rw [if_neg ho]
          exact hs.2 f o k (by rcases h with h | h | h; exacts [.inl h, .inr (.inl (by omega)), .inr (.inr h)]))
  exact ⟨s, h1, h2⟩

end

/-! ## Sites -/

section
variable {K : Type} [CommRing K]

/-- the matrix of site `i` in field `f`: vector `i / 4`, lane `i % 4` -/
def siteMat (F : Mem (Fin 4 → K)) (f i : Nat) : Nat → K := fun k => F f (i / 4) k ⟨i % 4, Nat.mod_lt _ (by decide)⟩

theorem IsProd.lane {w l r : Nat → Fin 4 → K} (h : IsProd w l r) (x : Fin 4) : IsProd (fun k => w k x) (fun k => l k x) (fun k => r k x) := by
  intro i k
  obtain ⟨h1, h2⟩ := h i k
  have e1 := congrFun h1 x
  have e2 := congrFun h2 x
  simp only [Fin.sum_univ_three, Pi.add_apply, Pi.sub_apply, Pi.mul_apply, re, im] at e1 e2 ⊢
  exact ⟨e1, e2⟩

/-- C121: the product of two colour matrices of four sites is the product of the matrices of every site, whatever was in the registers and in the local
variable before. -/
theorem C121_matrix (reg d0 l r : Nat → Fin 4 → K) (x : Fin 4) :
    IsProd (fun k => matMul mulMacro reg d0 l r k x) (fun k => l k x) (fun k => r k x) := by
  have h := mulSite_cc (R := Fin 4 → K) locals (by decide)
    ⟨reg, fun f => if f = 0 then d0 else if f = 1 then l else r⟩
  dsimp only [locals] at h
  rw [if_neg (by decide), if_pos rfl, if_neg (by decide), if_neg (by decide)] at h
  exact h.lane x

/-- C121, what holds of `evaluate`: if the destination is not the left operand and the subset is a range of whole vectors, the sites of the subset get the
product (also when the destination is the right operand), every other site and field is left alone, and no other word is touched.
Missing: the same for `a = a*b`, for subsets that begin or end inside a vector, and for subsets that are not contiguous (all three refuted below). -/
theorem C121_evaluate_partial (n : Nat) (σ : Ptr → Nat) (hd : σ .aa ≠ σ .cc) (sub : Sub) (a b : Nat) (hord : sub.ordRep = true)
    (hs : sub.start = 4 * (a : Int)) (he : sub.stop + 1 = 4 * (b : Int)) (hab : a ≤ b) (hb : b ≤ n) (junk reg : Nat → Fin 4 → K) (F : Mem (Fin 4 → K)) :
    ∃ F', evaluate mulMacro n σ sub junk reg F = ok F' ∧
      (∀ i : Nat, sub.start ≤ i → i ≤ sub.stop → IsProd (siteMat F' (σ .cc) i) (siteMat F (σ .aa) i) (siteMat F (σ .bb) i)) ∧
      (∀ i : Nat, ¬ (sub.start ≤ i ∧ i ≤ sub.stop) → ∀ f, siteMat F' f i = siteMat F f i) ∧
      (∀ f, f ≠ σ .cc → F' f = F f) ∧ ∀ f o k, ¬ IsOffset k → F' f o k = F f o k := by
  obtain ⟨s, h1, h2, h3⟩ := rounds (R := Fin 4 → K) (n := n) hd a reg F (b - a) (by omega)
  have e1 : sub.start / 2 ^ 2 = (a : Int) := by omega
  have e2 : ((sub.stop / 2 ^ 2 + 1 - sub.start / 2 ^ 2).toNat) = b - a := by omega
  refine ⟨s.2, ?_, ?_, ?_, ?_, ?_⟩
  · simp only [evaluate, hord, if_true]
    rw [e2, e1, h1]
    rfl
  · intro i i1 i2
    exact (h2 (i / 4) (by omega) (by omega)).lane _
  · intro i hi f
    funext k
    exact congrFun (h3 f (i / 4) k (.inr (.inl (by omega)))) _
  · intro f hf
    funext o k
    exact h3 f o k (.inl hf)
  · intro f o k hk
    exact h3 f o k (.inr (.inr hk))

/-! ## What does not hold -/

/-- three colours permuted: row 0 takes colour 1, row 1 colour 0 -/
def swapW : Nat → K := fun k => if k = 8 ∨ k = 24 ∨ k = 64 then 1 else 0

theorem swap_prod_iff [Nontrivial K] {w : Nat → K} (h : IsProd w swapW swapW) : re w 1 1 = 1 := by
  rw [(h 1 1).1, Fin.sum_univ_three]
  simp [re, im, swapW]

/-- C121, refuted: `a = a*a` and `a = a*b`.  Column 0 of the result is stored before the left operand is read for column 1.  For every lattice, every
contiguous subset that begins in site 0, and whatever is in the registers there are fields with a wrong result in site 0. -/
theorem C121_in_place_refuted [Nontrivial K] (n : Nat) (σ : Ptr → Nat) (hl : σ .aa = σ .cc) (sub : Sub) (hord : sub.ordRep = true)
    (hs : sub.start = 0) (he : 0 ≤ sub.stop) (hn : sub.stop / 4 < n) (junk reg : Nat → Fin 4 → K) :
    ∃ F F', evaluate mulMacro n σ sub junk reg F = ok F' ∧ ¬ IsProd (siteMat F' (σ .cc) 0) (siteMat F (σ .aa) 0) (siteMat F (σ .bb) 0) := by
  let F : Mem (Fin 4 → K) := fun _ _ k _ => swapW k
  obtain ⟨s, h1, h2⟩ := foldO_range_id (s := ((reg, F) : (Nat → Fin 4 → K) × Mem (Fin 4 → K)))
    (f := fun s (j : Nat) => round mulMacro n σ s (sub.start / 2 ^ 2 + (j : Int)).toNat)
    (fun j s => if j = 0 then s = (reg, F) else ∀ f, s.2 f 0 = (mulSite mulMacro σ ⟨reg, fun f => F f 0⟩).mem f)
    (sub.stop / 2 ^ 2 + 1 - sub.start / 2 ^ 2).toNat rfl (by
      intro j s hj hs'
      have e : (sub.start / 2 ^ 2 + (j : Int)).toNat = j := by omega
      rw [e, round, if_pos (by omega)]
      refine ⟨_, rfl, ?_⟩
      rw [if_neg (by omega)]
      intro f
      dsimp only
      by_cases h0 : j = 0
      · rw [if_pos h0] at hs'
        rw [if_pos h0.symm, hs', h0]
      · rw [if_neg h0] at hs'
        rw [if_neg (fun h => h0 h.symm)]
        exact hs' f)
  rw [if_neg (by omega)] at h2
  refine ⟨F, s.2, ?_, ?_⟩
  · simp only [evaluate, hord, if_true]
    rw [h1]
    rfl
  · intro h
    have h' := swap_prod_iff (w := siteMat s.2 (σ .cc) 0) h
    have : re (siteMat s.2 (σ .cc) 0) 1 1 = 0 := by
      show s.2 (σ .cc) 0 32 _ = 0
      rw [h2]
      by_cases hb : σ .bb = σ .cc <;> simp [mulSite, macro_mem, hl, hb, colRe, colIm, F, swapW]
    rw [this] at h'
    exact zero_ne_one h' 

/-- C121, refuted: a subset that begins or ends inside a vector.  The statement on site 0 alone also changes site 1. -/
theorem C121_inside_vector_refuted [Nontrivial K] (n : Nat) (hn : 0 < n) (σ : Ptr → Nat) (hd : σ .aa ≠ σ .cc) (hr : σ .bb ≠ σ .cc) (sub : Sub)
    (hord : sub.ordRep = true) (hs : sub.start = 0) (he : sub.stop = 0) (junk reg : Nat → Fin 4 → K) :
    ∃ F F' : Mem (Fin 4 → K), evaluate mulMacro n σ sub junk reg F = ok F' ∧ ¬ ((1 : Nat) : Int) ≤ sub.stop ∧ siteMat F' (σ .cc) 1 ≠ siteMat F (σ .cc) 1 := by
  let F : Mem (Fin 4 → K) := fun f _ k _ => if f = σ .cc then 0 else swapW k
  obtain ⟨s, h1, h2, -⟩ := rounds (R := Fin 4 → K) (n := n) hd 0 reg F 1 (by omega)
  refine ⟨F, s.2, ?_, by omega, ?_⟩
  · have e2 : ((sub.stop / 2 ^ 2 + 1 - sub.start / 2 ^ 2).toNat) = 1 := by omega
    have e1 : sub.start / 2 ^ 2 = ((0 : Nat) : Int) := by omega
    simp only [evaluate, hord, if_true]
    rw [e2, e1, h1]
    rfl
  · intro h
    have hp := (h2 0 (by omega) (by omega)).lane 1
    have ea : (fun k => F (σ .aa) 0 k 1) = swapW := by funext k; simp [F, hd]
    have eb : (fun k => F (σ .bb) 0 k 1) = swapW := by funext k; simp [F, hr]
    rw [ea, eb] at hp
    have h' := swap_prod_iff hp
    have h'' := congrFun h 32
    have e : siteMat F (σ .cc) 1 32 = 0 := by simp [siteMat, F]
    rw [e] at h''
    exact zero_ne_one (h''.symm.trans h')

/-- C121, refuted: subsets that are not contiguous.  The number of a site is used as the number of a vector: a table with a site whose number is not
below the number of vectors, of which there are a quarter as many as sites, is read out of range. -/
theorem C121_table_refuted (n : Nat) (σ : Ptr → Nat) (sub : Sub) (hord : sub.ordRep = false) (i : Int) (hi : i ∈ sub.table) (hn : (n : Int) ≤ i)
    (junk reg : Nat → Fin 4 → K) (F : Mem (Fin 4 → K)) : evaluate mulMacro n σ sub junk reg F = ub := by
  have : ∀ (t : List Int) (s : (Nat → Fin 4 → K) × Mem (Fin 4 → K)), i ∈ t → foldO (fun s (i : Int) => roundTab mulMacro n σ junk s i.toNat) s t = ub := by
    intro t
    induction t with
    | nil => intro s h; simp at h
    | cons a t ih =>
      intro s h
      by_cases ha : a.toNat < n
      · have hne : i ≠ a := by omega
        have ht : i ∈ t := by simpa [hne] using h
        simp only [foldO, roundTab, if_pos ha, ok_bind]
        exact ih _ ht
      · simp only [foldO, roundTab, if_neg ha, ub_bind]
  simp only [evaluate, hord]
  rw [if_neg (by decide), this _ _ hi]
  rfl

/-- C121, what a table does instead: where it stays in range, the vectors, not the sites, with the numbers in the table get the product (all four sites of
each), and all others are left alone. -/
theorem C121_table_vectors (n : Nat) (σ : Ptr → Nat) (ha : σ .aa ≠ σ .cc) (hb : σ .bb ≠ σ .cc) (sub : Sub) (hord : sub.ordRep = false)
    (ht : ∀ i ∈ sub.table, 0 ≤ i ∧ i < n) (junk reg : Nat → Fin 4 → K) (F : Mem (Fin 4 → K)) :
    ∃ F', evaluate mulMacro n σ sub junk reg F = ok F' ∧
      (∀ i : Nat, ((i / 4 : Nat) : Int) ∈ sub.table → IsProd (siteMat F' (σ .cc) i) (siteMat F (σ .aa) i) (siteMat F (σ .bb) i)) ∧
      ∀ i : Nat, ((i / 4 : Nat) : Int) ∉ sub.table → ∀ f, siteMat F' f i = siteMat F f i := by
  have key : ∀ (t : List Int) (s : (Nat → Fin 4 → K) × Mem (Fin 4 → K)), (∀ i ∈ t, 0 ≤ i ∧ i < n) → s.1 = reg →
      (∀ f, f ≠ σ .cc → s.2 f = F f) →
      ∃ s', foldO (fun s (i : Int) => roundTab mulMacro n σ junk s i.toNat) s t = ok s' ∧
        (∀ o : Nat, (o : Int) ∈ t → s'.2 (σ .cc) o = matMul mulMacro reg junk (F (σ .aa) o) (F (σ .bb) o)) ∧
        (∀ o : Nat, (o : Int) ∉ t → s'.2 (σ .cc) o = s.2 (σ .cc) o) ∧ ∀ f, f ≠ σ .cc → s'.2 f = F f := by
    intro t
    induction t with
    | nil => intro s _ _ hf; exact ⟨s, rfl, by simp, by simp, hf⟩
    | cons a t ih =>
      intro s hr h1 hf
      obtain ⟨a0, an⟩ := hr a (List.mem_cons_self ..)
      have ha' : a.toNat < n := by omega
      obtain ⟨s', e, m1, m2, m3⟩ := ih (s.1, fun f o => if f = σ .cc ∧ o = a.toNat then matMul mulMacro s.1 junk (s.2 (σ .aa) a.toNat) (s.2 (σ .bb) a.toNat)
        else s.2 f o) (fun i hi => hr i (List.mem_cons_of_mem _ hi)) h1 (fun f hf' => by funext o; simp [hf', hf f hf'])
      refine ⟨s', by simp only [foldO, roundTab, if_pos ha', ok_bind]; exact e, ?_, ?_, m3⟩
      · intro o ho
        by_cases hot : (o : Int) ∈ t
        · exact m1 o hot
        · have : (o : Int) = a := by simpa [hot] using ho
          rw [m2 o hot]
          subst this
          simp [h1, hf _ ha, hf _ hb]
      · intro o ho
        have hot : (o : Int) ∉ t := fun h => ho (List.mem_cons_of_mem _ h)
        have hoa : (o : Int) ≠ a := fun h => ho (by rw [h]; exact List.mem_cons_self ..)
        rw [m2 o hot]
        have : o ≠ a.toNat := by omega
        simp [this]
  obtain ⟨s', e, m1, m2, m3⟩ := key sub.table (reg, F) ht rfl (fun _ _ => rfl)
  refine ⟨s'.2, ?_, ?_, ?_⟩
  · simp only [evaluate, hord]
    rw [if_neg (by decide), e]
    rfl
  · intro i hi
    have := C121_matrix reg junk (F (σ .aa) (i / 4)) (F (σ .bb) (i / 4)) ⟨i % 4, Nat.mod_lt _ (by decide)⟩
    rw [← m1 _ hi] at this
    exact this
  · intro i hi f
    by_cases hf : f = σ .cc
    · subst hf
      funext k
      simp only [siteMat]
      rw [m2 _ hi]
    · unfold siteMat
      rw [m3 f hf]

/-! ## Numbers -/

/-- C121: the scalar times the matrix of every site. -/
theorem C121_scale (a : K) (r d0 : Nat → Fin 4 → K) (x : Fin 4) (i j : Fin 3) :
    re (fun k => scaleMat a r d0 k x) i j = a * re (fun k => r k x) i j ∧ im (fun k => scaleMat a r d0 k x) i j = a * im (fun k => r k x) i j := by
  fin_cases i <;> fin_cases j <;> simp [re, im, scaleMat, vmk1]

end

open scoped ComplexConjugate in
/-- C121: the operators of four complex numbers are those of every lane. -/
theorem C121_complex (l r : (Fin 4 → ℝ) × (Fin 4 → ℝ)) (x : Fin 4) :
    let c := fun z : (Fin 4 → ℝ) × (Fin 4 → ℝ) => (⟨z.1 x, z.2 x⟩ : ℂ)
    c (cadd l r) = c l + c r ∧ c (csub l r) = c l - c r ∧ c (cmul l r) = c l * c r ∧ c (adjMultiply l r) = conj (c l) * c r ∧
      c (multiplyAdj l r) = c l * conj (c r) ∧ c (adjMultiplyAdj l r) = conj (c l) * conj (c r) := by
  refine ⟨?_, ?_, ?_, ?_, ?_, ?_⟩ <;> apply Complex.ext <;> simp [cadd, csub, cmul, adjMultiply, multiplyAdj, adjMultiplyAdj] <;> ring

/-- sites 4 to 11 of a lattice of 16; the destination is the right operand -/
example (junk reg : Nat → Fin 4 → Int) (F : Mem (Fin 4 → Int)) :
    ∃ F', evaluate mulMacro 4 (fun p => match p with | .aa => 1 | _ => 0) ⟨true, 4, 11, [4, 5, 6, 7, 8, 9, 10, 11], 0⟩ junk reg F = ok F' ∧
      IsProd (siteMat F' 0 9) (siteMat F 1 9) (siteMat F 0 9) ∧ siteMat F' 0 12 = siteMat F 0 12 := by
  obtain ⟨F', h1, h2, h3, -, -⟩ := C121_evaluate_partial 4 (fun p => match p with | .aa => 1 | _ => 0) (by decide)
    ⟨true, 4, 11, [4, 5, 6, 7, 8, 9, 10, 11], 0⟩ 1 3 rfl rfl rfl (by decide) (by decide) junk reg F
  exact ⟨F', h1, h2 9 (by decide) (by decide), h3 12 (by decide) 0⟩

end Verif.VecSse
