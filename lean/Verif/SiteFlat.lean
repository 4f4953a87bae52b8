import Verif.SiteLaws
import Mathlib.Algebra.BigOperators.Fin
import Mathlib.Algebra.BigOperators.Ring.Finset
import Mathlib.Algebra.Star.Basic
import Mathlib.Data.Fintype.Prod
/-
The operators on the types of a site are the ordinary operations on the matrices of complex numbers with all row indices (spin, colour) in one
and all column indices in one.
-/
set_option linter.unusedVariables false
set_option linter.unusedSectionVars false
namespace Verif.Site

/-! ## specification: complex numbers -/

section
variable {K : Type} [CommRing K]

instance : Zero (Cx K) := ⟨⟨0, 0⟩⟩
instance : One (Cx K) := ⟨⟨1, 0⟩⟩
instance : Add (Cx K) := ⟨fun a b => ⟨a.re + b.re, a.im + b.im⟩⟩
instance : Neg (Cx K) := ⟨fun a => ⟨-a.re, -a.im⟩⟩
/-- i·i = -1 -/
instance : _root_.Mul (Cx K) := ⟨fun a b => ⟨a.re * b.re - a.im * b.im, a.re * b.im + a.im * b.re⟩⟩
instance : Star (Cx K) := ⟨fun a => ⟨a.re, -a.im⟩⟩

@[simp] theorem zero_re : (0 : Cx K).re = 0 := rfl
@[simp] theorem zero_im : (0 : Cx K).im = 0 := rfl
@[simp] theorem one_re : (1 : Cx K).re = 1 := rfl
@[simp] theorem one_im : (1 : Cx K).im = 0 := rfl
@[simp] theorem add_re (a b : Cx K) : (a + b).re = a.re + b.re := rfl
@[simp] theorem add_im (a b : Cx K) : (a + b).im = a.im + b.im := rfl
@[simp] theorem neg_re (a : Cx K) : (-a).re = -a.re := rfl
@[simp] theorem neg_im (a : Cx K) : (-a).im = -a.im := rfl
@[simp] theorem mul_re (a b : Cx K) : (a * b).re = a.re * b.re - a.im * b.im := rfl
@[simp] theorem mul_im (a b : Cx K) : (a * b).im = a.re * b.im + a.im * b.re := rfl
@[simp] theorem star_re (a : Cx K) : (star a).re = a.re := rfl
@[simp] theorem star_im (a : Cx K) : (star a).im = -a.im := rfl

instance : CommRing (Cx K) where
  add_assoc a b c := by ext <;> simp <;> ring
  zero_add a := by ext <;> simp
  add_zero a := by ext <;> simp
  add_comm a b := by ext <;> simp <;> ring
  nsmul := nsmulRec
  zsmul := zsmulRec
  neg_add_cancel a := by ext <;> simp
  mul_assoc a b c := by ext <;> simp <;> ring
  one_mul a := by ext <;> simp
  mul_one a := by ext <;> simp
  left_distrib a b c := by ext <;> simp <;> ring
  right_distrib a b c := by ext <;> simp <;> ring
  zero_mul a := by ext <;> simp
  mul_zero a := by ext <;> simp
  mul_comm a b := by ext <;> simp <;> ring

theorem sum_re {ι : Type} (s : Finset ι) (f : ι → Cx K) : (∑ i ∈ s, f i).re = ∑ i ∈ s, (f i).re := by
  classical
  induction s using Finset.induction_on with
  | empty => simp
  | insert a s h ih => rw [Finset.sum_insert h, Finset.sum_insert h, add_re, ih]

theorem sum_im {ι : Type} (s : Finset ι) (f : ι → Cx K) : (∑ i ∈ s, f i).im = ∑ i ∈ s, (f i).im := by
  classical
  induction s using Finset.induction_on with
  | empty => simp
  | insert a s h ih => rw [Finset.sum_insert h, Finset.sum_insert h, add_im, ih]
end

/-! ## specification: one index for the rows, one for the columns -/

@[reducible] def Row : Ty → Type
  | .rs | .rc => Unit
  | .sca t => Row t
  | .vec _ n t => Fin (n + 1) × Row t
  | .mat _ n t => Fin (n + 1) × Row t

@[reducible] def Col : Ty → Type
  | .rs | .rc => Unit
  | .sca t => Col t
  | .vec _ _ t => Col t
  | .mat _ n t => Fin (n + 1) × Col t

instance rowFin : (t : Ty) → Fintype (Row t)
  | .rs | .rc => inferInstanceAs (Fintype Unit)
  | .sca t => rowFin t
  | .vec _ n t => letI := rowFin t; inferInstanceAs (Fintype (Fin (n + 1) × Row t))
  | .mat _ n t => letI := rowFin t; inferInstanceAs (Fintype (Fin (n + 1) × Row t))

instance colFin : (t : Ty) → Fintype (Col t)
  | .rs | .rc => inferInstanceAs (Fintype Unit)
  | .sca t => colFin t
  | .vec _ _ t => colFin t
  | .mat _ n t => letI := colFin t; inferInstanceAs (Fintype (Fin (n + 1) × Col t))

/-- the column with the indices of a row -/
def toCol : (t : Ty) → Row t → Col t
  | .rs, r | .rc, r => r
  | .sca t, r => toCol t r
  | .vec _ _ t, r => toCol t r.2
  | .mat _ _ t, r => (r.1, toCol t r.2)

/-- the row with the indices of a column -/
def toRow : (t : Ty) → Col t → Row t
  | .rs, r | .rc, r => r
  | .sca t, r => toRow t r
  | .vec _ _ t, r => (0, toRow t r)
  | .mat _ _ t, r => (r.1, toRow t r.2)

section
variable {K : Type} [CommRing K]

/-- the matrix of complex numbers of a value -/
def flat : (t : Ty) → Den K t → Row t → Col t → Cx K
  | .rs, x, _, _ => ⟨x, 0⟩
  | .rc, x, _, _ => x
  | .sca t, x, i, j => flat t x i j
  | .vec _ _ t, x, i, j => flat t (x i.1) i.2 j
  | .mat _ _ t, x, i, j => flat t (x i.1 j.1) i.2 j.2

end

/-- the index summed over in a product -/
@[reducible] def Mid : {a b c : Ty} → Mul a b c → Type
  | _, _, _, .rr | _, _, _, .rc | _, _, _, .cr | _, _, _, .cc => Unit
  | _, _, _, .ss p => Mid p
  | _, _, _, .vs _ _ p => Mid p
  | _, _, _, .sm _ n p | _, _, _, .ms _ n p | _, _, _, .mm _ n p | _, _, _, .sv _ n p | _, _, _, .mv _ n p => Fin (n + 1) × Mid p

instance midFin : {a b c : Ty} → (p : Mul a b c) → Fintype (Mid p)
  | _, _, _, .rr | _, _, _, .rc | _, _, _, .cr | _, _, _, .cc => inferInstanceAs (Fintype Unit)
  | _, _, _, .ss p => midFin p
  | _, _, _, .vs _ _ p => midFin p
  | _, _, _, .sm _ n p | _, _, _, .ms _ n p | _, _, _, .mm _ n p | _, _, _, .sv _ n p | _, _, _, .mv _ n p =>
      letI := midFin p; inferInstanceAs (Fintype (Fin (n + 1) × Mid p))

section
variable {K : Type} [CommRing K]

/-- the left operand as a matrix from the index summed over to the rows of the result: a scalar is a multiple of the unit matrix -/
def expL : {a b c : Ty} → (p : Mul a b c) → Den K a → Row c → Mid p → Cx K
  | _, _, _, .rr, x, _, _ => ⟨x, 0⟩
  | _, _, _, .rc, x, _, _ => ⟨x, 0⟩
  | _, _, _, .cr, x, _, _ => x
  | _, _, _, .cc, x, _, _ => x
  | _, _, _, .ss p, x, i, m => expL p x i m
  | _, _, _, .sm _ _ p, x, i, m => if i.1 = m.1 then expL p x i.2 m.2 else 0
  | _, _, _, .ms _ _ p, x, i, m => expL p (x i.1 m.1) i.2 m.2
  | _, _, _, .mm _ _ p, x, i, m => expL p (x i.1 m.1) i.2 m.2
  | _, _, _, .sv _ _ p, x, i, m => if i.1 = m.1 then expL p x i.2 m.2 else 0
  | _, _, _, .vs _ _ p, x, i, m => expL p (x i.1) i.2 m
  | _, _, _, .mv _ _ p, x, i, m => expL p (x i.1 m.1) i.2 m.2

/-- the right operand as a matrix from the columns of the result to the index summed over -/
def expR : {a b c : Ty} → (p : Mul a b c) → Den K b → Mid p → Col c → Cx K
  | _, _, _, .rr, x, _, _ => ⟨x, 0⟩
  | _, _, _, .rc, x, _, _ => x
  | _, _, _, .cr, x, _, _ => ⟨x, 0⟩
  | _, _, _, .cc, x, _, _ => x
  | _, _, _, .ss p, x, m, j => expR p x m j
  | _, _, _, .sm _ _ p, x, m, j => expR p (x m.1 j.1) m.2 j.2
  | _, _, _, .ms _ _ p, x, m, j => if m.1 = j.1 then expR p x m.2 j.2 else 0
  | _, _, _, .mm _ _ p, x, m, j => expR p (x m.1 j.1) m.2 j.2
  | _, _, _, .sv _ _ p, x, m, j => expR p (x m.1) m.2 j
  | _, _, _, .vs _ _ p, x, m, j => expR p x m j
  | _, _, _, .mv _ _ p, x, m, j => expR p (x m.1) m.2 j

/-! ## proofs -/

theorem accum_sum {A : Type} [AddCommMonoid A] : ∀ (n : Nat) (f : Fin (n + 1) → A), accum (· + ·) n f = ∑ i, f i := by
  intro n
  induction n with
  | zero => intro f; simp [accum]
  | succ n ih =>
    intro f
    rw [Fin.sum_univ_succ, ← ih fun i => f i.succ]
    unfold accum
    rw [Fin.foldl_succ, foldl_assoc (· + ·) (fun x y z => add_assoc x y z) n (fun i => f i.succ.succ)]

theorem flat_add : ∀ (t : Ty) (x y : Den K t) (i : Row t) (j : Col t), flat t (add t x y) i j = flat t x i j + flat t y i j
  | .rs, x, y, i, j => by ext <;> simp [flat, add]
  | .rc, x, y, i, j => rfl
  | .sca t, x, y, i, j => flat_add t x y i j
  | .vec _ _ t, x, y, i, j => flat_add t (x i.1) (y i.1) i.2 j
  | .mat _ _ t, x, y, i, j => flat_add t (x i.1 j.1) (y i.1 j.1) i.2 j.2

theorem flat_accum (t : Ty) (n : Nat) (f : Fin (n + 1) → Den K t) (i : Row t) (j : Col t) :
    flat t (accum (add t) n f) i j = ∑ k, flat t (f k) i j := by
  rw [accum_hom (h := fun x => flat t x i j) (aB := (· + ·)) (fun x y => flat_add t x y i j)]
  exact accum_sum n _

theorem flat_accum2 (t : Ty) (n : Nat) (f : Fin (n + 1) → Fin (n + 1) → Den K t) (i : Row t) (j : Col t) :
    flat t (accum2 (add t) n f) i j = ∑ k, ∑ m, flat t (f k m) i j := by
  rw [accum2_eq (add_assoc' t), flat_accum]
  exact Finset.sum_congr rfl fun k _ => flat_accum t n _ i j

/-- a value is given by its matrix -/
theorem flat_inj : ∀ (t : Ty) (x y : Den K t), (∀ i j, flat t x i j = flat t y i j) → x = y
  | .rs, x, y, h => congrArg Cx.re (h () ())
  | .rc, x, y, h => h () ()
  | .sca t, x, y, h => flat_inj t x y h
  | .vec _ _ t, x, y, h => funext fun k => flat_inj t (x k) (y k) fun i j => h (k, i) j
  | .mat _ _ t, x, y, h => funext fun k => funext fun m => flat_inj t (x k m) (y k m) fun i j => h (k, i) (m, j)

/-- `l*r` is the product of the matrices -/
theorem C64_mul : ∀ {a b c : Ty} (p : Mul a b c) (l : Den K a) (r : Den K b) (i : Row c) (j : Col c),
    flat c (mul p l r) i j = ∑ m : Mid p, expL p l i m * expR p r m j
  | _, _, _, .rr, l, r, i, j => by
      rw [show (∑ m : Mid Mul.rr, expL Mul.rr l i m * expR Mul.rr r m j) = expL Mul.rr l i () * expR Mul.rr r () j from
        Fintype.sum_unique _]
      ext <;> simp [flat, mul, expL, expR]
  | _, _, _, .rc, l, r, i, j => by
      rw [show (∑ m : Mid Mul.rc, expL Mul.rc l i m * expR Mul.rc r m j) = expL Mul.rc l i () * expR Mul.rc r () j from
        Fintype.sum_unique _]
      ext <;> simp [flat, mul, expL, expR]
  | _, _, _, .cr, l, r, i, j => by
      rw [show (∑ m : Mid Mul.cr, expL Mul.cr l i m * expR Mul.cr r m j) = expL Mul.cr l i () * expR Mul.cr r () j from
        Fintype.sum_unique _]
      ext <;> simp [flat, mul, expL, expR]
  | _, _, _, .cc, l, r, i, j => by
      rw [show (∑ m : Mid Mul.cc, expL Mul.cc l i m * expR Mul.cc r m j) = expL Mul.cc l i () * expR Mul.cc r () j from
        Fintype.sum_unique _]
      ext <;> simp [flat, mul, expL, expR]
  | _, _, _, .ss p, l, r, i, j => C64_mul p l r i j
  | _, _, _, @Mul.sm a b c k n p, l, r, i, j => by
      show flat c (mul p l (r i.1 j.1)) i.2 j.2 = ∑ m : Fin (n + 1) × Mid p, _
      rw [C64_mul p, Fintype.sum_prod_type]
      symm
      rw [Finset.sum_eq_single i.1]
      · simp [expL, expR]
      · intro m _ hm
        exact Finset.sum_eq_zero fun m' _ => by simp [expL, Ne.symm hm]
      · simp
  | _, _, _, @Mul.ms a b c k n p, l, r, i, j => by
      show flat c (mul p (l i.1 j.1) r) i.2 j.2 = ∑ m : Fin (n + 1) × Mid p, _
      rw [C64_mul p, Fintype.sum_prod_type]
      symm
      rw [Finset.sum_eq_single j.1]
      · simp [expL, expR]
      · intro m _ hm
        exact Finset.sum_eq_zero fun m' _ => by simp [expR, hm]
      · simp
  | _, _, _, @Mul.mm a b c k n p, l, r, i, j => by
      show flat c (accum (add c) n fun m => mul p (l i.1 m) (r m j.1)) i.2 j.2 = ∑ m : Fin (n + 1) × Mid p, _
      rw [flat_accum, Fintype.sum_prod_type]
      exact Finset.sum_congr rfl fun m _ => C64_mul p _ _ _ _
  | _, _, _, @Mul.sv a b c k n p, l, r, i, j => by
      show flat c (mul p l (r i.1)) i.2 j = ∑ m : Fin (n + 1) × Mid p, _
      rw [C64_mul p, Fintype.sum_prod_type]
      symm
      rw [Finset.sum_eq_single i.1]
      · simp [expL, expR]
      · intro m _ hm
        exact Finset.sum_eq_zero fun m' _ => by simp [expL, Ne.symm hm]
      · simp
  | _, _, _, @Mul.vs a b c k n p, l, r, i, j => C64_mul p (l i.1) r i.2 j
  | _, _, _, @Mul.mv a b c k n p, l, r, i, j => by
      show flat c (accum (add c) n fun m => mul p (l i.1 m) (r m)) i.2 j = ∑ m : Fin (n + 1) × Mid p, _
      rw [flat_accum, Fintype.sum_prod_type]
      exact Finset.sum_congr rfl fun m _ => C64_mul p _ _ _ _

/-- `adj(x)` is the conjugate of the transposed matrix -/
theorem C64_adj : ∀ (t : Ty), NoVec t → ∀ (x : Den K t) (i : Row t) (j : Col t), flat t (adj t x) i j = star (flat t x (toRow t j) (toCol t i))
  | .rs, _, x, i, j => by ext <;> simp [flat, adj]
  | .rc, _, x, i, j => by ext <;> simp [flat, adj]
  | .sca t, h, x, i, j => C64_adj t h x i j
  | .mat _ _ t, h, x, i, j => C64_adj t h (x j.1 i.1) i.2 j.2

/-- `conj(x)` is the conjugate matrix -/
theorem C64_conj : ∀ (t : Ty) (x : Den K t) (i : Row t) (j : Col t), flat t (conj t x) i j = star (flat t x i j)
  | .rs, x, i, j => by ext <;> simp [flat, conj]
  | .rc, x, i, j => by ext <;> simp [flat, conj]
  | .sca t, x, i, j => C64_conj t x i j
  | .vec _ _ t, x, i, j => C64_conj t (x i.1) i.2 j
  | .mat _ _ t, x, i, j => C64_conj t (x i.1 j.1) i.2 j.2

/-- `transpose(x)` is the transposed matrix -/
theorem C64_transpose : ∀ (t : Ty), NoVec t → ∀ (x : Den K t) (i : Row t) (j : Col t),
    flat t (transpose t x) i j = flat t x (toRow t j) (toCol t i)
  | .rs, _, x, i, j => rfl
  | .rc, _, x, i, j => rfl
  | .sca t, h, x, i, j => C64_transpose t h x i j
  | .mat _ _ t, h, x, i, j => C64_transpose t h (x j.1 i.1) i.2 j.2

/-- `trace(x)` is the trace of the matrix -/
theorem C64_trace : ∀ (t : Ty), NoVec t → ∀ (x : Den K t) (u : Row (trTy t)) (v : Col (trTy t)),
    flat (trTy t) (trace t x) u v = ∑ i : Row t, flat t x i (toCol t i)
  | .rs, _, x, u, v => (Fintype.sum_unique (fun i : Unit => flat (K := K) .rs x i i)).symm
  | .rc, _, x, u, v => (Fintype.sum_unique (fun i : Unit => flat (K := K) .rc x i i)).symm
  | .sca t, h, x, u, v => C64_trace t h x u v
  | .mat _ n t, h, x, u, v => by
      show flat (trTy t) (accum (add (trTy t)) n fun i => trace t (x i i)) u v = ∑ i : Fin (n + 1) × Row t, _
      rw [flat_accum, Fintype.sum_prod_type]
      exact Finset.sum_congr rfl fun m _ => C64_trace t h _ u v

/-- `localInnerProduct(x,y)` is the sum of conj(x)·y over all elements -/
theorem C64_inner : ∀ (t : Ty) (x y : Den K t) (u : Row (ipTy t)) (v : Col (ipTy t)),
    flat (ipTy t) (lip (Inner.self t) x y) u v = ∑ i : Row t, ∑ j : Col t, star (flat t x i j) * flat t y i j
  | .rs, x, y, u, v => by
      rw [show (∑ i : Row .rs, ∑ j : Col .rs, star (flat (K := K) .rs x i j) * flat .rs y i j) = star ⟨x, 0⟩ * ⟨y, 0⟩ from
        (Fintype.sum_unique _).trans (Fintype.sum_unique _)]
      ext <;> simp [flat, lip, Inner.self]
  | .rc, x, y, u, v => by
      rw [show (∑ i : Row .rc, ∑ j : Col .rc, star (flat (K := K) .rc x i j) * flat .rc y i j) = star x * y from
        (Fintype.sum_unique _).trans (Fintype.sum_unique _)]
      ext <;> simp [flat, lip, Inner.self] <;> ring
  | .sca t, x, y, u, v => C64_inner t x y u v
  | .vec _ n t, x, y, u, v => by
      show flat (ipTy t) (accum (add (ipTy t)) n fun i => lip (Inner.self t) (x i) (y i)) u v = ∑ i : Fin (n + 1) × Row t, ∑ j : Col t, _
      rw [flat_accum, Fintype.sum_prod_type]
      exact Finset.sum_congr rfl fun m _ => C64_inner t _ _ u v
  | .mat _ n t, x, y, u, v => by
      show flat (ipTy t) (accum2 (add (ipTy t)) n fun j k => lip (Inner.self t) (x k j) (y k j)) u v =
        ∑ i : Fin (n + 1) × Row t, ∑ j : Fin (n + 1) × Col t, _
      rw [flat_accum2, Finset.sum_comm, Fintype.sum_prod_type]
      refine Finset.sum_congr rfl fun k _ => ?_
      simp only [Fintype.sum_prod_type]
      rw [Finset.sum_comm]
      refine Finset.sum_congr rfl fun j _ => ?_
      exact C64_inner t (x k j) (y k j) u v

/-- `localNorm2(x)` is the sum of the squares of all real and imaginary parts -/
theorem C64_norm2 : ∀ (t : Ty) (x : Den K t) (u : Row (reTy (ipTy t))) (v : Col (reTy (ipTy t))),
    flat (reTy (ipTy t)) (norm2 t x) u v = ⟨∑ i : Row t, ∑ j : Col t, ((flat t x i j).re ^ 2 + (flat t x i j).im ^ 2), 0⟩
  | .rs, x, u, v => by
      rw [show (∑ i : Row .rs, ∑ j : Col .rs, ((flat (K := K) .rs x i j).re ^ 2 + (flat (K := K) .rs x i j).im ^ 2)) = x ^ 2 + 0 ^ 2 from
        (Fintype.sum_unique _).trans (Fintype.sum_unique _)]
      ext <;> simp [flat, norm2] <;> ring
  | .rc, x, u, v => by
      rw [show (∑ i : Row .rc, ∑ j : Col .rc, ((flat (K := K) .rc x i j).re ^ 2 + (flat (K := K) .rc x i j).im ^ 2)) = x.re ^ 2 + x.im ^ 2 from
        (Fintype.sum_unique _).trans (Fintype.sum_unique _)]
      ext <;> simp [flat, norm2] <;> ring
  | .sca t, x, u, v => C64_norm2 t x u v
  | .vec _ n t, x, u, v => by
      show flat (reTy (ipTy t)) (accum (add (reTy (ipTy t))) n fun i => norm2 t (x i)) u v = ⟨∑ i : Fin (n + 1) × Row t, ∑ j : Col t, _, 0⟩
      rw [flat_accum]
      simp only [C64_norm2 t, Fintype.sum_prod_type]
      ext
      · rw [sum_re]; rfl
      · rw [sum_im]; simp
  | .mat _ n t, x, u, v => by
      show flat (reTy (ipTy t)) (accum2 (add (reTy (ipTy t))) n fun i j => norm2 t (x i j)) u v =
        ⟨∑ i : Fin (n + 1) × Row t, ∑ j : Fin (n + 1) × Col t, _, 0⟩
      rw [flat_accum2]
      simp only [C64_norm2 t, Fintype.sum_prod_type]
      ext
      · simp only [sum_re]
        refine Finset.sum_congr rfl fun k _ => ?_
        rw [Finset.sum_comm]
        rfl
      · simp [sum_im]

/-! ## outer products -/

end

/-- the rows of the left operand of an outer product -/
def Outer.row : {a b d : Ty} → Outer a b d → Row d → Row a
  | _, _, _, .rr, i | _, _, _, .rc, i | _, _, _, .cr, i | _, _, _, .cc, i => i
  | _, _, _, .ss p, i => p.row i
  | _, _, _, .vv _ _ p, i => (i.1, p.row i.2)

/-- the rows of the right operand of an outer product: the columns of the result -/
def Outer.col : {a b d : Ty} → Outer a b d → Col d → Row b
  | _, _, _, .rr, i | _, _, _, .rc, i | _, _, _, .cr, i | _, _, _, .cc, i => i
  | _, _, _, .ss p, i => p.col i
  | _, _, _, .vv _ _ p, i => (i.1, p.col i.2)

/-- the one column of the operands -/
def Outer.one : {a b d : Ty} → Outer a b d → Col a × Col b
  | _, _, _, .rr | _, _, _, .rc | _, _, _, .cr | _, _, _, .cc => ((), ())
  | _, _, _, .ss p => p.one
  | _, _, _, .vv _ _ p => p.one

section
variable {K : Type} [CommRing K]

/-- `outerProduct(l,r)` has the elements l(i)·conj(r(j)) -/
theorem C64_outer : ∀ {a b d : Ty} (p : Outer a b d) (l : Den K a) (r : Den K b) (i : Row d) (j : Col d),
    flat d (outer p l r) i j = flat a l (p.row i) p.one.1 * star (flat b r (p.col j) p.one.2)
  | _, _, _, .rr, l, r, i, j => by ext <;> simp [flat, outer]
  | _, _, _, .rc, l, r, i, j => by ext <;> simp [flat, outer]
  | _, _, _, .cr, l, r, i, j => by ext <;> simp [flat, outer]
  | _, _, _, .cc, l, r, i, j => by ext <;> simp [flat, outer] <;> ring
  | _, _, _, .ss p, l, r, i, j => C64_outer p l r i j
  | _, _, _, .vv _ _ p, l, r, i, j => C64_outer p (l i.1) (r j.1) i.2 j.2

/-! ## algebra -/

end

/-- the product in the other order -/
def Mul.rev : {a b c : Ty} → Mul a b c → Option (Mul b a c)
  | _, _, _, .rr => some .rr
  | _, _, _, .rc => some .cr
  | _, _, _, .cr => some .rc
  | _, _, _, .cc => some .cc
  | _, _, _, .ss p => p.rev.map .ss
  | _, _, _, .sm k n p => p.rev.map (.ms k n)
  | _, _, _, .ms k n p => p.rev.map (.sm k n)
  | _, _, _, .mm k n p => p.rev.map (.mm k n)
  | _, _, _, .sv k n p => p.rev.map (.vs k n)
  | _, _, _, .vs k n p => p.rev.map (.sv k n)
  | _, _, _, .mv _ _ _ => none

section
variable {K : Type} [CommRing K]

theorem adj_add : ∀ (t : Ty), NoVec t → ∀ x y : Den K t, adj t (add t x y) = add t (adj t x) (adj t y)
  | .rs, _, x, y => rfl
  | .rc, _, x, y => by ext <;> simp only [adj, add]; ring
  | .sca t, h, x, y => adj_add t h x y
  | .mat _ _ t, h, x, y => funext fun i => funext fun j => adj_add t h (x j i) (y j i)

/-- `adj(l*r)` is `adj(r)*adj(l)` -/
theorem C64_adj_mul : ∀ {a b c : Ty} (p : Mul a b c) (q : Mul b a c), p.rev = some q → NoVec c →
    ∀ (l : Den K a) (r : Den K b), adj c (mul p l r) = mul q (adj b r) (adj a l)
  | _, _, _, .rr, q, hq, _, l, r => by cases hq; simp only [adj, mul]; ring
  | _, _, _, .rc, q, hq, _, l, r => by cases hq; ext <;> simp only [adj, mul] <;> ring
  | _, _, _, .cr, q, hq, _, l, r => by cases hq; ext <;> simp only [adj, mul] <;> ring
  | _, _, _, .cc, q, hq, _, l, r => by cases hq; ext <;> simp only [adj, mul] <;> ring
  | _, _, _, .ss p, q, hq, h, l, r => by
      obtain ⟨q', h', rfl⟩ := Option.map_eq_some_iff.1 hq
      exact C64_adj_mul p q' h' h l r
  | _, _, _, .sm _ n p, q, hq, h, l, r => by
      obtain ⟨q', h', rfl⟩ := Option.map_eq_some_iff.1 hq
      exact funext fun i => funext fun j => C64_adj_mul p q' h' h l (r j i)
  | _, _, _, .ms _ n p, q, hq, h, l, r => by
      obtain ⟨q', h', rfl⟩ := Option.map_eq_some_iff.1 hq
      exact funext fun i => funext fun j => C64_adj_mul p q' h' h (l j i) r
  | _, _, _, @Mul.mm a b c _ n p, q, hq, h, l, r => by
      obtain ⟨q', h', rfl⟩ := Option.map_eq_some_iff.1 hq
      refine funext fun i => funext fun j => ?_
      show adj c (accum (A := Den K c) (add c) n fun k => mul p (l j k) (r k i)) = _
      rw [accum_hom (h := adj c) (adj_add c h)]
      exact accum_congr fun k => C64_adj_mul p q' h' h (l j k) (r k i)

/-- `trace(l*r)` is `trace(r*l)` -/
theorem C64_trace_cyclic : ∀ {a b c : Ty} (p : Mul a b c) (q : Mul b a c), p.rev = some q → NoVec c →
    ∀ (l : Den K a) (r : Den K b), trace c (mul p l r) = trace c (mul q r l)
  | _, _, _, .rr, q, hq, _, l, r => by cases hq; simp only [trace, mul]; ring
  | _, _, _, .rc, q, hq, _, l, r => by cases hq; ext <;> simp only [trace, mul] <;> ring
  | _, _, _, .cr, q, hq, _, l, r => by cases hq; ext <;> simp only [trace, mul] <;> ring
  | _, _, _, .cc, q, hq, _, l, r => by cases hq; ext <;> simp only [trace, mul] <;> ring
  | _, _, _, .ss p, q, hq, h, l, r => by
      obtain ⟨q', h', rfl⟩ := Option.map_eq_some_iff.1 hq
      exact C64_trace_cyclic p q' h' h l r
  | _, _, _, .sm _ n p, q, hq, h, l, r => by
      obtain ⟨q', h', rfl⟩ := Option.map_eq_some_iff.1 hq
      exact accum_congr fun k => C64_trace_cyclic p q' h' h l (r k k)
  | _, _, _, .ms _ n p, q, hq, h, l, r => by
      obtain ⟨q', h', rfl⟩ := Option.map_eq_some_iff.1 hq
      exact accum_congr fun k => C64_trace_cyclic p q' h' h (l k k) r
  | _, _, _, @Mul.mm a b c _ n p, q, hq, h, l, r => by
      obtain ⟨q', h', rfl⟩ := Option.map_eq_some_iff.1 hq
      have e : ∀ {a b : Ty} (s : Mul a b c) (l : Den K (.mat .spin n a)) (r : Den K (.mat .spin n b)),
          trace (.mat .spin n c) (mul (.mm .spin n s) l r) =
            accum2 (A := Den K (trTy c)) (add (trTy c)) n fun j k => trace c (mul s (l j k) (r k j)) := by
        intro a b s l r
        show accum (A := Den K (trTy c)) (add (trTy c)) n (fun j => trace c (accum (A := Den K c) (add c) n fun k => mul s (l j k) (r k j))) = _
        rw [accum2_eq (add_assoc' (trTy c))]
        refine accum_congr fun j => ?_
        rw [accum_hom (h := trace c) (trace_add c h)]
      refine (e p l r).trans (Eq.trans ?_ (e q' r l).symm)
      rw [accum2_swap]
      refine congrArg (accum2 (A := Den K (trTy c)) (add (trTy c)) n) (funext fun j => funext fun k => ?_)
      exact C64_trace_cyclic p q' h' h (l k j) (r j k)

end

/-- a spin matrix of colour matrices times one of complex numbers -/
example : (Mul.mm .spin 3 (.ms .color 2 .cc)).rev = some (.mm .spin 3 (.sm .color 2 .cc)) ∧
    NoVec (.mat .spin 3 (.mat .color 2 .rc)) := ⟨rfl, trivial⟩

end Verif.Site
