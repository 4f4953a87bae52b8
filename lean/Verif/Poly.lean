import Mathlib.Tactic.Ring
import Mathlib.Algebra.BigOperators.Group.List.Basic
/-
Polynomials with integer coefficients in normal form.  They are not part of any model: they are the values with which a straight-line
piece of code is run once so that the result holds for all numbers.
-/
namespace Verif.Poly

/-- the operations of the numbers of a kernel -/
structure Ops (V : Type) where
  zero : V
  neg : V → V
  add : V → V → V
  sub : V → V → V
  mul : V → V → V

/-- exact arithmetic -/
def ringOps (K : Type) [CommRing K] : Ops K := ⟨0, fun a => -a, (· + ·), (· - ·), (· * ·)⟩

/-- maps that respect the operations -/
structure Hom {V W : Type} (o : Ops V) (o' : Ops W) (φ : V → W) : Prop where
  zero : φ o.zero = o'.zero
  neg : ∀ a, φ (o.neg a) = o'.neg (φ a)
  add : ∀ a b, φ (o.add a b) = o'.add (φ a) (φ b)
  sub : ∀ a b, φ (o.sub a b) = o'.sub (φ a) (φ b)
  mul : ∀ a b, φ (o.mul a b) = o'.mul (φ a) (φ b)

/-- a product of variables, in increasing order -/
abbrev Mono := List Nat
/-- a sum of products with coefficients, in increasing order -/
abbrev Pol := List (Mono × Int)

def insertAtom (a : Nat) : Mono → Mono
  | [] => [a]
  | b :: m => if Nat.ble a b then a :: b :: m else b :: insertAtom a m

def mulMono (m m' : Mono) : Mono := m.foldr insertAtom m'

/-- lexicographic order -/
def ltMono : Mono → Mono → Bool
  | [], [] => false
  | [], _ :: _ => true
  | _ :: _, [] => false
  | a :: m, b :: m' => if Nat.beq a b then ltMono m m' else Nat.ble a b

def eqMono : Mono → Mono → Bool
  | [], [] => true
  | a :: m, b :: m' => Nat.beq a b && eqMono m m'
  | _, _ => false

def insertTerm (m : Mono) (c : Int) : Pol → Pol
  | [] => [(m, c)]
  | (m', c') :: p =>
    if eqMono m m' then (if c + c' = 0 then p else (m, c + c') :: p)
    else if ltMono m m' then (m, c) :: (m', c') :: p
    else (m', c') :: insertTerm m c p

def add (p q : Pol) : Pol := p.foldr (fun t r => insertTerm t.1 t.2 r) q
def neg (p : Pol) : Pol := p.map fun t => (t.1, -t.2)
def mulTerm (m : Mono) (c : Int) (q : Pol) : Pol := q.foldr (fun t r => insertTerm (mulMono m t.1) (c * t.2) r) []
def mul (p q : Pol) : Pol := p.foldr (fun t r => add (mulTerm t.1 t.2 q) r) []
def var (a : Nat) : Pol := [([a], 1)]

def polyOps : Ops Pol := ⟨[], neg, add, fun a b => add a (neg b), mul⟩

section
variable {K : Type} [CommRing K]

def evalMono (ρ : Nat → K) (m : Mono) : K := m.foldr (fun a r => ρ a * r) 1
def eval (ρ : Nat → K) (p : Pol) : K := p.foldr (fun t r => (t.2 : K) * evalMono ρ t.1 + r) 0

theorem evalMono_insert (ρ : Nat → K) (a : Nat) (m : Mono) : evalMono ρ (insertAtom a m) = ρ a * evalMono ρ m := by
  induction m with
  | nil => rfl
  | cons b m ih =>
    unfold insertAtom
    split
    · rfl
    · simp only [evalMono, List.foldr_cons] at ih ⊢
      rw [ih]; ring

theorem evalMono_mul (ρ : Nat → K) (m m' : Mono) : evalMono ρ (mulMono m m') = evalMono ρ m * evalMono ρ m' := by
  induction m with
  | nil => simp [mulMono, evalMono]
  | cons a m ih =>
    have : mulMono (a :: m) m' = insertAtom a (mulMono m m') := rfl
    rw [this, evalMono_insert, ih]
    simp only [evalMono, List.foldr_cons]
    ring

theorem eqMono_eq : ∀ {m m' : Mono}, eqMono m m' = true → m = m'
  | [], [], _ => rfl
  | a :: m, b :: m', h => by
      simp only [eqMono, Bool.and_eq_true, Nat.beq_eq] at h
      rw [h.1, eqMono_eq h.2]
  | [], _ :: _, h => by simp [eqMono] at h
  | _ :: _, [], h => by simp [eqMono] at h

theorem eval_cons (ρ : Nat → K) (t : Mono × Int) (p : Pol) : eval ρ (t :: p) = t.2 * evalMono ρ t.1 + eval ρ p := rfl
theorem eval_nil (ρ : Nat → K) : eval ρ [] = 0 := rfl

theorem eval_insert (ρ : Nat → K) (m : Mono) (c : Int) (p : Pol) : eval ρ (insertTerm m c p) = c * evalMono ρ m + eval ρ p := by
  induction p with
  | nil => rfl
  | cons t p ih =>
    obtain ⟨m', c'⟩ := t
    unfold insertTerm
    split
    · next h =>
      have := eqMono_eq h
      subst this
      split
      · next h0 =>
        rw [eval_cons]
        have : ((c : K) + c') = 0 := by exact_mod_cast congrArg (Int.cast : Int → K) h0
        calc eval ρ p = ((c : K) + c') * evalMono ρ m + eval ρ p := by rw [this]; ring
          _ = _ := by ring
      · simp only [eval_cons, Int.cast_add]; ring
    · split
      · rfl
      · simp only [eval_cons, ih]; ring

theorem eval_add (ρ : Nat → K) (p q : Pol) : eval ρ (add p q) = eval ρ p + eval ρ q := by
  induction p with
  | nil => simp [add, eval_nil]
  | cons t p ih =>
    have : add (t :: p) q = insertTerm t.1 t.2 (add p q) := rfl
    rw [this, eval_insert, ih, eval_cons]; ring

theorem eval_neg (ρ : Nat → K) (p : Pol) : eval ρ (neg p) = -eval ρ p := by
  induction p with
  | nil => simp [neg, eval_nil]
  | cons t p ih =>
    have : neg (t :: p) = (t.1, -t.2) :: neg p := rfl
    rw [this, eval_cons, ih, eval_cons]; push_cast; ring

theorem eval_mulTerm (ρ : Nat → K) (m : Mono) (c : Int) (q : Pol) : eval ρ (mulTerm m c q) = c * evalMono ρ m * eval ρ q := by
  induction q with
  | nil => simp [mulTerm, eval_nil]
  | cons t q ih =>
    have : mulTerm m c (t :: q) = insertTerm (mulMono m t.1) (c * t.2) (mulTerm m c q) := rfl
    rw [this, eval_insert, ih, eval_cons, evalMono_mul]; push_cast; ring

theorem eval_mul (ρ : Nat → K) (p q : Pol) : eval ρ (mul p q) = eval ρ p * eval ρ q := by
  induction p with
  | nil => simp [mul, eval_nil]
  | cons t p ih =>
    have : mul (t :: p) q = add (mulTerm t.1 t.2 q) (mul p q) := rfl
    rw [this, eval_add, eval_mulTerm, ih, eval_cons]; ring

theorem eval_var (ρ : Nat → K) (a : Nat) : eval ρ (var a) = ρ a := by simp [var, eval, evalMono]

theorem eval_hom (ρ : Nat → K) : Hom polyOps (ringOps K) (eval ρ) :=
  ⟨eval_nil ρ, eval_neg ρ, eval_add ρ, fun a b => by
    show eval ρ (add a (neg b)) = eval ρ a - eval ρ b
    rw [eval_add, eval_neg]; ring, eval_mul ρ⟩

/-- renaming of the variables -/
def rename (f : Nat → Nat) (p : Pol) : Pol := p.map fun t => (t.1.map f, t.2)

theorem eval_rename (ρ : Nat → K) (f : Nat → Nat) (p : Pol) : eval ρ (rename f p) = eval (fun a => ρ (f a)) p := by
  induction p with
  | nil => rfl
  | cons t p ih =>
    have : rename f (t :: p) = (t.1.map f, t.2) :: rename f p := rfl
    rw [this, eval_cons, ih, eval_cons]
    congr 2
    simp only [evalMono, List.foldr_map]
end

end Verif.Poly
