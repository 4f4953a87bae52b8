import Verif.Basic
import Verif.SiteType
import Mathlib.Data.Fin.Tuple.Basic
import Mathlib.Data.List.Nodup
import Mathlib.Data.Fin.VecNotation
import Mathlib.Tactic.Ring
/-
Property C127: components of spin and colour taken out of a field and put into it: `peekColor`, `peekSpin`, `pokeColor`, `pokeSpin`.

The object of a site is a nest of scalars, vectors and matrices (`PScalar`, `PSpinVector`, `PColorMatrix`, ...) around numbers.  A vector is its array `F[N]`
and a matrix its array `F[N*N]`; an index outside of the array is undefined behaviour.  Numbers are of any type; those of the source of a poke may be of
another type than those of the destination, with the conversion as a parameter.  Index arithmetic is that of `Int` where the code has ints.
-/
set_option linter.unusedVariables false
namespace Verif.Component
open Verif Outcome

/-- spin or colour, as in `SiteType` -/
abbrev Kind := Verif.Site.Kind

/-- the types: `num` is `RScalar` or `RComplex`, the others as in `SiteType` (include/qdp_primscalar.h:25, include/qdp_primvector.h:130, include/qdp_primmatrix.h:162,
include/qdp_primspinvec.h:101) with any N -/
inductive Ty
  | num
  | sca (t : Ty)
  | vec (k : Kind) (n : Nat) (t : Ty)
  | mat (k : Kind) (n : Nat) (t : Ty)

section
variable (α : Type)
/-- the values: arrays `F[N]` and `F[N*N]` -/
@[reducible] def Den : Ty → Type
  | .num => α
  | .sca t => Den t
  | .vec _ n t => Fin n → Den t
  | .mat _ n t => Fin (n * n) → Den t
end

/-- the functions with one index (`FnPeekColorVector`, ...) and those with two (`FnPeekColorMatrix`, ...), include/qdp_newops.h:117-620 -/
inductive Sel | one | two
  deriving DecidableEq

/-- which types the functions of kind `k` with `s` indices accept, with the type of the result (their `UnaryReturn`) -/
inductive Path (k : Kind) (s : Sel) : Ty → Ty → Type
  /-- include/qdp_primcolorvec.h:223-225, 229; include/qdp_primspinvec.h:1117-1119, 1123 -/
  | hereV (h : s = .one) (n : Nat) (t : Ty) : Path k s (.vec k n t) (.sca t)
  /-- include/qdp_primcolormat.h:433-435, 439; include/qdp_primspinmat.h:552-554, 558 -/
  | hereM (h : s = .two) (n : Nat) (t : Ty) : Path k s (.mat k n t) (.sca t)
  /-- include/qdp_primscalar.h:1031-1061 -/
  | sca {t t' : Ty} (p : Path k s t t') : Path k s (.sca t) (.sca t')
  /-- include/qdp_primvector.h:675-722, include/qdp_primspinvec.h:558-593; the overload above is preferred -/
  | vec {t t' : Ty} (k' : Kind) (n : Nat) (h : ¬(k' = k ∧ s = .one)) (p : Path k s t t') : Path k s (.vec k' n t) (.vec k' n t')
  /-- include/qdp_primmatrix.h:1353-1425; the overload above is preferred -/
  | mat {t t' : Ty} (k' : Kind) (n : Nat) (h : ¬(k' = k ∧ s = .two)) (p : Path k s t t') : Path k s (.mat k' n t) (.mat k' n t')

section
variable {α β γ : Type}

/-- `F[o]` read -/
def rdEl {N : Nat} (F : Fin N → γ) (o : Int) : Outcome γ := if h : 0 ≤ o ∧ o < N then ok (F ⟨o.toNat, by omega⟩) else ub
/-- `F[o] = x` -/
def wrEl {N : Nat} (F : Fin N → γ) (o : Int) (x : γ) : Outcome (Fin N → γ) :=
  if h : 0 ≤ o ∧ o < N then ok (Function.update F ⟨o.toNat, by omega⟩ x) else ub

/-- `for(int i=0; i < N; ++i) d.elem(i) = f(i)`; the loops over `i` and `j` of a matrix go through its array in order -/
def forFin : (n : Nat) → (Fin n → Outcome γ) → Outcome (Fin n → γ)
  | 0, _ => ok fun i => i.elim0
  | n + 1, f => do
    let d ← forFin n fun i => f i.castSucc
    let x ← f (Fin.last n)
    ok (Fin.snoc (α := fun _ => γ) d x)

/-- `elem(i,j)`, include/qdp_primmatrix.h:158-159 -/
def matOff (n : Nat) (i j : Int) : Int := j + n * i

/-- `peekColor`, `peekSpin`, at the lines named beside the constructors of `Path`; of one index only `i` is used -/
def peek {k : Kind} {s : Sel} : {t t' : Ty} → Path k s t t' → Int → Int → Den α t → Outcome (Den α t')
  | _, _, .hereV _ n t, i, _, x => rdEl x i
  | _, _, .hereM _ n t, i, j, x => rdEl x (matOff n i j)
  | .sca t, .sca t', .sca p, i, j, x => peek (t := t) (t' := t') p i j x
  | _, _, .vec _ n _ p, i, j, x => forFin n fun a => peek p i j (x a)
  | _, _, .mat _ n _ p, i, j, x => forFin (n * n) fun a => peek p i j (x a)

/-- assignment of an object of the same shape, number by number -/
def assign (c : β → α) : (t : Ty) → Den β t → Den α t
  | .num, y => c y
  | .sca t, y => assign c t y
  | .vec _ _ t, y => fun a => assign c t (y a)
  | .mat _ _ t, y => fun a => assign c t (y a)

/-- `pokeColor`, `pokeSpin`: include/qdp_primcolorvec.h:241, include/qdp_primspinvec.h:598-645, 1135, include/qdp_primcolormat.h:451, include/qdp_primspinmat.h:570,
include/qdp_primscalar.h:1068-1102, include/qdp_primvector.h:727-774, include/qdp_primmatrix.h:1435-1491 -/
def poke (c : β → α) {k : Kind} {s : Sel} : {t t' : Ty} → Path k s t t' → Int → Int → Den α t → Den β t' → Outcome (Den α t)
  | _, _, .hereV _ n t, i, _, l, r => wrEl l i (assign c t r)
  | _, _, .hereM _ n t, i, j, l, r => wrEl l (matOff n i j) (assign c t r)
  | .sca t, .sca t', .sca p, i, j, l, r => poke c (t := t) (t' := t') p i j l r
  | _, _, .vec _ n _ p, i, j, l, r => forFin n fun a => poke c p i j (l a) (r a)
  | _, _, .mat _ n _ p, i, j, l, r => forFin (n * n) fun a => poke c p i j (l a) (r a)

/-- a field, poked: include/qdp_newops.h:356-365 and its seven likes, `evaluate` over the sites in the order of the threads (C47, C48): at each site the
source is computed, from the field as it is then, and its value is put in -/
def pokeField (c : β → α) {k : Kind} {s : Sel} {t t' : Ty} (p : Path k s t t') (i j : Int) (rhs : (Nat → Den α t) → Nat → Outcome (Den β t')) :
    List Nat → (Nat → Den α t) → Outcome (Nat → Den α t)
  | [], f => ok f
  | x :: xs, f => do
    let r ← rhs f x
    let v ← poke c p i j (f x) r
    pokeField c p i j rhs xs (Function.update f x v)

/-! ## specification -/

/-- the indices of an object: a row for a vector, row and column for a matrix, from the outermost level in -/
def Idx : Ty → Type
  | .num => Unit
  | .sca t => Idx t
  | .vec _ n t => Fin n × Idx t
  | .mat _ n t => Fin n × Fin n × Idx t

/-- number `j + N*i` of the array of a matrix -/
def slot {n : Nat} (i j : Fin n) : Fin (n * n) := ⟨j + n * i, by
  have h1 := i.2; have h2 := j.2
  calc j.1 + n * i.1 < n + n * i.1 := by omega
    _ = n * (i.1 + 1) := by ring
    _ ≤ n * n := Nat.mul_le_mul_left _ (by omega)⟩

/-- the number with the given indices -/
def comp : (t : Ty) → Den α t → Idx t → α
  | .num, x, _ => x
  | .sca t, x, d => comp t x d
  | .vec _ _ t, x, d => comp t (x d.1) d.2
  | .mat _ _ t, x, d => comp t (x (slot d.1 d.2.1)) d.2.2

/-- the indices in range of the level concerned -/
def InR {k : Kind} {s : Sel} : {t t' : Ty} → Path k s t t' → Int → Int → Prop
  | _, _, .hereV _ n _, i, _ => 0 ≤ i ∧ i < n
  | _, _, .hereM _ n _, i, j => (0 ≤ i ∧ i < n) ∧ 0 ≤ j ∧ j < n
  | _, _, .sca p, i, j => InR p i j
  | _, _, .vec _ _ _ p, i, j => InR p i j
  | _, _, .mat _ _ _ p, i, j => InR p i j

/-- `d` is `e` with the indices `i` (and `j`) put in at the level concerned -/
def Ins {k : Kind} {s : Sel} : {t t' : Ty} → Path k s t t' → Int → Int → Idx t' → Idx t → Prop
  | _, _, .hereV _ _ _, i, _, e, d => (d.1.1 : Int) = i ∧ d.2 = e
  | _, _, .hereM _ _ _, i, j, e, d => (d.1.1 : Int) = i ∧ (d.2.1.1 : Int) = j ∧ d.2.2 = e
  | _, _, .sca p, i, j, e, d => Ins p i j e d
  | _, _, .vec _ _ _ p, i, j, e, d => d.1 = e.1 ∧ Ins p i j e.2 d.2
  | _, _, .mat _ _ _ p, i, j, e, d => d.1 = e.1 ∧ d.2.1 = e.2.1 ∧ Ins p i j e.2.2 d.2.2

/-! ## proofs -/

theorem forFin_ok {n : Nat} {f : Fin n → Outcome γ} {g : Fin n → γ} (h : ∀ i, f i = ok (g i)) : forFin n f = ok g := by
  induction n with
  | zero => simp only [forFin]; congr 1; funext i; exact i.elim0
  | succ n ih =>
    rw [forFin, ih fun i => h i.castSucc, ok_bind, h, ok_bind]
    congr 1
    funext i
    refine Fin.lastCases ?_ (fun i => ?_) i <;> simp

theorem slot_off {n : Nat} {i j : Int} (h : (0 ≤ i ∧ i < n) ∧ 0 ≤ j ∧ j < n) :
    ∃ a b : Fin n, (a.1 : Int) = i ∧ (b.1 : Int) = j ∧ matOff n i j = ((slot a b).1 : Int) := by
  refine ⟨⟨i.toNat, by omega⟩, ⟨j.toNat, by omega⟩, by simp; omega, by simp; omega, ?_⟩
  simp [matOff, slot]
  rw [show max i 0 = i by omega, show max j 0 = j by omega]

theorem slot_inj {n : Nat} {a b a' b' : Fin n} (h : slot a b = slot a' b') : a = a' ∧ b = b' := by
  have h : b.1 + n * a.1 = b'.1 + n * a'.1 := congrArg Fin.val h
  have hn : 0 < n := by have := a.2; omega
  have h1 : (b.1 + n * a.1) / n = a.1 := by rw [Nat.add_mul_div_left _ _ hn, Nat.div_eq_of_lt b.2, Nat.zero_add]
  have h2 : (b'.1 + n * a'.1) / n = a'.1 := by rw [Nat.add_mul_div_left _ _ hn, Nat.div_eq_of_lt b'.2, Nat.zero_add]
  have e : a.1 = a'.1 := by rw [← h1, ← h2, h]
  exact ⟨Fin.ext e, Fin.ext (by rw [e] at h; omega)⟩

theorem slot_surj {n : Nat} (m : Fin (n * n)) : ∃ a b : Fin n, slot a b = m := by
  have hm := m.2
  have hn : 0 < n := by rcases Nat.eq_zero_or_pos n with h | h; · subst h; omega
                        · exact h
  refine ⟨⟨m.1 / n, Nat.div_lt_of_lt_mul hm⟩, ⟨m.1 % n, Nat.mod_lt _ hn⟩, Fin.ext ?_⟩
  exact Nat.mod_add_div _ _

theorem rdEl_ok {N : Nat} (F : Fin N → γ) (a : Fin N) : rdEl F (a.1 : Int) = ok (F a) := by
  rw [rdEl, dif_pos ⟨by omega, by have := a.2; omega⟩]
  rfl

theorem wrEl_ok {N : Nat} (F : Fin N → γ) (a : Fin N) (x : γ) : wrEl F (a.1 : Int) x = ok (Function.update F a x) := by
  rw [wrEl, dif_pos ⟨by omega, by have := a.2; omega⟩]
  rfl

theorem comp_ext {t : Ty} {x y : Den α t} (h : ∀ d, comp t x d = comp t y d) : x = y := by
  induction t with
  | num => exact h ()
  | sca t ih => exact ih h
  | vec k n t ih => funext a; exact ih fun d => h (a, d)
  | mat k n t ih =>
    funext m
    obtain ⟨a, b, rfl⟩ := slot_surj m
    exact ih fun d => h (a, b, d)

theorem comp_assign (c : β → α) : ∀ (t : Ty) (y : Den β t) (d : Idx t), comp t (assign c t y) d = c (comp t y d)
  | .num, _, _ => rfl
  | .sca t, y, d => comp_assign c t y d
  | .vec _ _ t, y, d => comp_assign c t (y d.1) d.2
  | .mat _ _ t, y, d => comp_assign c t (y (slot d.1 d.2.1)) d.2.2

theorem ins_exists {k : Kind} {s : Sel} {t t' : Ty} (p : Path k s t t') {i j : Int} (h : InR p i j) (e : Idx t') : ∃ d, Ins p i j e d := by
  induction p with
  | hereV hs n t => exact ⟨(⟨i.toNat, by have := h.1; have := h.2; omega⟩, e), by have := h.1; show ((i.toNat : Nat) : Int) = i; omega, rfl⟩
  | hereM hs n t =>
    exact ⟨(⟨i.toNat, by have := h.1.1; have := h.1.2; omega⟩, ⟨j.toNat, by have := h.2.1; have := h.2.2; omega⟩, e),
      by have := h.1.1; show ((i.toNat : Nat) : Int) = i; omega, by have := h.2.1; show ((j.toNat : Nat) : Int) = j; omega, rfl⟩
  | sca p ih => exact ih h e
  | vec k' n hk p ih => obtain ⟨d, hd⟩ := ih h e.2; exact ⟨(e.1, d), rfl, hd⟩
  | mat k' n hk p ih => obtain ⟨d, hd⟩ := ih h e.2.2; exact ⟨(e.1, e.2.1, d), rfl, rfl, hd⟩

theorem ins_fun {k : Kind} {s : Sel} {t t' : Ty} (p : Path k s t t') {i j : Int} {e : Idx t'} {d d' : Idx t} (h : Ins p i j e d) (h' : Ins p i j e d') : d = d' := by
  induction p with
  | hereV hs n t => exact Prod.ext (Fin.ext (by have := h.1; have := h'.1; omega)) (h.2.trans h'.2.symm)
  | hereM hs n t => exact Prod.ext (Fin.ext (by have := h.1; have := h'.1; omega)) (Prod.ext (Fin.ext (by have := h.2.1; have := h'.2.1; omega)) (h.2.2.trans h'.2.2.symm))
  | sca p ih => exact ih h h'
  | vec k' n hk p ih => exact Prod.ext (h.1.trans h'.1.symm) (ih h.2 h'.2)
  | mat k' n hk p ih => exact Prod.ext (h.1.trans h'.1.symm) (Prod.ext (h.2.1.trans h'.2.1.symm) (ih h.2.2 h'.2.2))

/-- every index comes from exactly one choice of `i` (and `j`) and one index of the result -/
theorem ins_split {k : Kind} {s : Sel} {t t' : Ty} (p : Path k s t t') (d : Idx t) : ∃ (i j : Int) (e : Idx t'), InR p i j ∧ Ins p i j e d := by
  induction p with
  | hereV hs n t => exact ⟨d.1.1, 0, d.2, ⟨by omega, by have := d.1.2; omega⟩, rfl, rfl⟩
  | hereM hs n t => exact ⟨d.1.1, d.2.1.1, d.2.2, ⟨⟨by omega, by have := d.1.2; omega⟩, by omega, by have := d.2.1.2; omega⟩, rfl, rfl, rfl⟩
  | sca p ih => exact ih d
  | vec k' n hk p ih => obtain ⟨i, j, e, h1, h2⟩ := ih d.2; exact ⟨i, j, (d.1, e), h1, rfl, h2⟩
  | mat k' n hk p ih => obtain ⟨i, j, e, h1, h2⟩ := ih d.2.2; exact ⟨i, j, (d.1, d.2.1, e), h1, rfl, rfl, h2⟩

/-! ## theorems -/

/-- C127: a peek with indices in range returns, at every index of the result, the number at this index with the given ones put in. -/
theorem C127_peek {k : Kind} {s : Sel} {t t' : Ty} (p : Path k s t t') (i j : Int) (h : InR p i j) (x : Den α t) :
    ∃ y, peek p i j x = ok y ∧ ∀ e d, Ins p i j e d → comp t' y e = comp t x d := by
  induction p with
  | hereV hs n t =>
    obtain ⟨h1, h2⟩ := h
    have e1 : ((⟨i.toNat, by omega⟩ : Fin n).1 : Int) = i := by show ((i.toNat : Nat) : Int) = i; omega
    refine ⟨x ⟨i.toNat, by omega⟩, (congrArg (rdEl x) e1.symm).trans (rdEl_ok x _), fun e d hd => ?_⟩
    obtain ⟨d1, rfl⟩ := hd
    have : d.1 = ⟨i.toNat, by omega⟩ := Fin.ext (by show d.1.1 = i.toNat; omega)
    show comp t _ d.2 = comp t (x d.1) d.2
    rw [this]
  | hereM hs n t =>
    obtain ⟨a, b, ha, hb, ho⟩ := slot_off h
    refine ⟨x (slot a b), by rw [peek, ho]; exact rdEl_ok x _, fun e d hd => ?_⟩
    obtain ⟨d1, d2, rfl⟩ := hd
    have e1 : d.1 = a := Fin.ext (by omega)
    have e2 : d.2.1 = b := Fin.ext (by omega)
    show comp t _ d.2.2 = comp t (x (slot d.1 d.2.1)) d.2.2
    rw [e1, e2]
  | sca p ih => exact ih h x
  | vec k' n hk p ih =>
    choose y hy hc using fun a => ih h (x a)
    refine ⟨y, forFin_ok hy, fun e d hd => ?_⟩
    have := hc e.1 e.2 d.2 hd.2
    show comp _ (y e.1) e.2 = comp _ (x d.1) d.2
    rw [hd.1]; exact this
  | mat k' n hk p ih =>
    choose y hy hc using fun a => ih h (x a)
    refine ⟨y, forFin_ok hy, fun e d hd => ?_⟩
    have := hc (slot e.1 e.2.1) e.2.2 d.2.2 hd.2.2
    show comp _ (y (slot e.1 e.2.1)) e.2.2 = comp _ (x (slot d.1 d.2.1)) d.2.2
    rw [hd.1, hd.2.1]; exact this

/-- C127: a poke with indices in range changes the numbers with these indices to those of the source, converted, and no others. -/
theorem C127_poke (c : β → α) {k : Kind} {s : Sel} {t t' : Ty} (p : Path k s t t') (i j : Int) (h : InR p i j) (l : Den α t) (r : Den β t') :
    ∃ l', poke c p i j l r = ok l' ∧ (∀ e d, Ins p i j e d → comp t l' d = c (comp t' r e)) ∧
      ∀ d, (∀ e, ¬ Ins p i j e d) → comp t l' d = comp t l d := by
  induction p with
  | hereV hs n t =>
    obtain ⟨h1, h2⟩ := h
    have e1 : ((⟨i.toNat, by omega⟩ : Fin n).1 : Int) = i := by show ((i.toNat : Nat) : Int) = i; omega
    refine ⟨Function.update l ⟨i.toNat, by omega⟩ (assign c t r), (congrArg (wrEl l · (assign c t r)) e1.symm).trans (wrEl_ok l _ _), fun e d hd => ?_, fun d hd => ?_⟩
    · obtain ⟨d1, rfl⟩ := hd
      have : d.1 = ⟨i.toNat, by omega⟩ := Fin.ext (by show d.1.1 = i.toNat; omega)
      show comp t (Function.update l _ _ d.1) d.2 = _
      rw [this, Function.update_self]
      exact comp_assign c t r d.2
    · have hne : d.1 ≠ ⟨i.toNat, by omega⟩ := fun e => hd d.2 ⟨by rw [e]; exact e1, rfl⟩
      show comp t (Function.update l _ _ d.1) d.2 = comp t (l d.1) d.2
      rw [Function.update_of_ne hne]
  | hereM hs n t =>
    obtain ⟨a, b, ha, hb, ho⟩ := slot_off h
    refine ⟨Function.update l (slot a b) (assign c t r), by rw [poke, ho]; exact wrEl_ok l _ _, fun e d hd => ?_, fun d hd => ?_⟩
    · obtain ⟨d1, d2, rfl⟩ := hd
      have e1 : d.1 = a := Fin.ext (by omega)
      have e2 : d.2.1 = b := Fin.ext (by omega)
      show comp t (Function.update l _ _ (slot d.1 d.2.1)) d.2.2 = _
      rw [e1, e2, Function.update_self]
      exact comp_assign c t r d.2.2
    · have hne : slot d.1 d.2.1 ≠ slot a b := fun e => by
        obtain ⟨e1, e2⟩ := slot_inj e
        exact hd d.2.2 ⟨by rw [e1]; exact ha, by rw [e2]; exact hb, rfl⟩
      show comp t (Function.update l _ _ (slot d.1 d.2.1)) d.2.2 = comp t (l (slot d.1 d.2.1)) d.2.2
      rw [Function.update_of_ne hne]
  | sca p ih => exact ih h l r
  | vec k' n hk p ih =>
    choose l' hl h1 h2 using fun a => ih h (l a) (r a)
    refine ⟨l', forFin_ok hl, fun e d hd => ?_, fun d hd => h2 d.1 d.2 fun e he => hd (d.1, e) ⟨rfl, he⟩⟩
    have := h1 e.1 e.2 d.2 hd.2
    show comp _ (l' d.1) d.2 = c (comp _ (r e.1) e.2)
    rw [hd.1]; exact this
  | mat k' n hk p ih =>
    choose l' hl h1 h2 using fun a => ih h (l a) (r a)
    refine ⟨l', forFin_ok hl, fun e d hd => ?_, fun d hd => h2 (slot d.1 d.2.1) d.2.2 fun e he => hd (d.1, d.2.1, e) ⟨rfl, rfl, he⟩⟩
    have := h1 (slot e.1 e.2.1) e.2.2 d.2.2 hd.2.2
    show comp _ (l' (slot d.1 d.2.1)) d.2.2 = c (comp _ (r (slot e.1 e.2.1)) e.2.2)
    rw [hd.1, hd.2.1]; exact this

/-- C127: what was put in is found there -/
theorem C127_peek_poke {k : Kind} {s : Sel} {t t' : Ty} (p : Path k s t t') (i j : Int) (h : InR p i j) (l : Den α t) (r : Den α t') :
    (poke (fun a : α => a) p i j l r >>= peek p i j) = ok r := by
  obtain ⟨l', e, h1, -⟩ := C127_poke (fun a : α => a) p i j h l r
  obtain ⟨y, ey, hy⟩ := C127_peek p i j h l'
  rw [e, ok_bind, ey]
  congr 1
  refine comp_ext fun d => ?_
  obtain ⟨d', hd⟩ := ins_exists p h d
  rw [hy d d' hd, h1 d d' hd]

/-- C127: putting back what was taken out changes nothing -/
theorem C127_poke_peek {k : Kind} {s : Sel} {t t' : Ty} (p : Path k s t t') (i j : Int) (h : InR p i j) (l : Den α t) :
    (peek p i j l >>= poke (fun a : α => a) p i j l) = ok l := by
  obtain ⟨y, ey, hy⟩ := C127_peek p i j h l
  obtain ⟨l', e, h1, h2⟩ := C127_poke (fun a : α => a) p i j h l y
  rw [ey, ok_bind, e]
  congr 1
  refine comp_ext fun d => ?_
  by_cases hd : ∃ e, Ins p i j e d
  · obtain ⟨e, he⟩ := hd
    rw [h1 e d he, hy e d he]
  · exact h2 d fun e he => hd ⟨e, he⟩

theorem ins_ij {k : Kind} {s : Sel} {t t' : Ty} (p : Path k s t t') {i j i' j' : Int} {e e' : Idx t'} {d : Idx t} (h : Ins p i j e d) (h' : Ins p i' j' e' d) :
    e = e' ∧ i = i' ∧ (s = .two → j = j') := by
  induction p with
  | hereV hs n t => exact ⟨h.2.symm.trans h'.2, h.1.symm.trans h'.1, fun h2 => absurd (hs.symm.trans h2) (by simp)⟩
  | hereM hs n t => exact ⟨h.2.2.symm.trans h'.2.2, h.1.symm.trans h'.1, fun _ => h.2.1.symm.trans h'.2.1⟩
  | sca p ih => exact ih h h'
  | vec k' n hk p ih => obtain ⟨h1, h2⟩ := ih h.2 h'.2; exact ⟨Prod.ext (h.1.symm.trans h'.1) h1, h2⟩
  | mat k' n hk p ih => obtain ⟨h1, h2⟩ := ih h.2.2 h'.2.2; exact ⟨Prod.ext (h.1.symm.trans h'.1) (Prod.ext (h.2.1.symm.trans h'.2.1) h1), h2⟩

/-- C127: a poke does not change the other components -/
theorem C127_others (c : β → α) {k : Kind} {s : Sel} {t t' : Ty} (p : Path k s t t') (i j i' j' : Int) (h : InR p i j) (h' : InR p i' j')
    (hne : i ≠ i' ∨ s = .two ∧ j ≠ j') (l : Den α t) (r : Den β t') : (poke c p i j l r >>= peek p i' j') = peek p i' j' l := by
  obtain ⟨l', e, -, h2⟩ := C127_poke c p i j h l r
  obtain ⟨y, ey, hy⟩ := C127_peek p i' j' h' l'
  obtain ⟨z, ez, hz⟩ := C127_peek p i' j' h' l
  rw [e, ok_bind, ey, ez]
  congr 1
  refine comp_ext fun d => ?_
  obtain ⟨d', hd⟩ := ins_exists p h' d
  rw [hy d d' hd, hz d d' hd]
  refine h2 d' fun e he => ?_
  obtain ⟨-, g1, g2⟩ := ins_ij p he hd
  rcases hne with hn | ⟨hs, hn⟩
  · exact hn g1
  · exact hn (g2 hs)

/-- C127: the components determine the object -/
theorem C127_all {k : Kind} {s : Sel} {t t' : Ty} (p : Path k s t t') (x y : Den α t) (h : ∀ i j, InR p i j → peek p i j x = peek p i j y) : x = y := by
  refine comp_ext fun d => ?_
  obtain ⟨i, j, e, hr, hi⟩ := ins_split p d
  obtain ⟨u, eu, hu⟩ := C127_peek p i j hr x
  obtain ⟨v, ev, hv⟩ := C127_peek p i j hr y
  have : u = v := by have := h i j hr; rw [eu, ev] at this; exact Outcome.ok.inj this
  rw [← hu e d hi, ← hv e d hi, this]

/-- the other order of a path for spin and one for colour -/
theorem paths {k k' : Kind} (hk : k ≠ k') {s s' : Sel} {t t1 t3 : Ty} (p : Path k s t t1) (q : Path k' s' t t3) :
    ∃ (t2 : Ty) (q' : Path k' s' t1 t2) (p' : Path k s t3 t2), (∀ i j, InR q' i j ↔ InR q i j) ∧ (∀ i j, InR p' i j ↔ InR p i j) ∧
      ∀ i j a b (e : Idx t2), ∀ d, (∃ m, Ins q' a b e m ∧ Ins p i j m d) ↔ ∃ m, Ins p' i j e m ∧ Ins q a b m d := by
  induction p generalizing t3 with
  | hereV hs n t =>
    cases q with
    | hereV => exact absurd rfl hk
    | vec _ _ hq q0 =>
      refine ⟨_, .sca q0, .hereV hs n _, fun _ _ => Iff.rfl, fun _ _ => Iff.rfl, fun i j a b e d => ⟨?_, ?_⟩⟩
      · rintro ⟨m, h1, h2, rfl⟩; exact ⟨(d.1, e), ⟨h2, rfl⟩, rfl, h1⟩
      · rintro ⟨m, ⟨h1, rfl⟩, h2, h3⟩; exact ⟨d.2, h3, by rw [h2]; exact h1, rfl⟩
  | hereM hs n t =>
    cases q with
    | hereM => exact absurd rfl hk
    | mat _ _ hq q0 =>
      refine ⟨_, .sca q0, .hereM hs n _, fun _ _ => Iff.rfl, fun _ _ => Iff.rfl, fun i j a b e d => ⟨?_, ?_⟩⟩
      · rintro ⟨m, h1, h2, h4, rfl⟩; exact ⟨(d.1, d.2.1, e), ⟨h2, h4, rfl⟩, rfl, rfl, h1⟩
      · rintro ⟨m, ⟨h1, h4, rfl⟩, h2, h5, h3⟩; exact ⟨d.2.2, h3, by rw [h2]; exact h1, by rw [h5]; exact h4, rfl⟩
  | sca p ih =>
    cases q with
    | sca q0 => obtain ⟨t2, q', p', g1, g2, g3⟩ := ih q0; exact ⟨_, .sca q', .sca p', g1, g2, g3⟩
  | vec k1 n h1 p ih =>
    cases q with
    | hereV hs' =>
      refine ⟨_, .hereV hs' n _, .sca p, fun _ _ => Iff.rfl, fun _ _ => Iff.rfl, fun i j a b e d => ⟨?_, ?_⟩⟩
      · rintro ⟨m, ⟨g1, rfl⟩, g2, g3⟩; exact ⟨d.2, g3, by rw [g2]; exact g1, rfl⟩
      · rintro ⟨m, g1, g2, rfl⟩; exact ⟨(d.1, e), ⟨g2, rfl⟩, rfl, g1⟩
    | vec _ _ hq q0 =>
      obtain ⟨t2, q', p', g1, g2, g3⟩ := ih q0
      refine ⟨_, .vec k1 n hq q', .vec k1 n h1 p', g1, g2, fun i j a b e d => ⟨?_, ?_⟩⟩
      · rintro ⟨m, ⟨f1, f2⟩, f3, f4⟩
        obtain ⟨m', f5, f6⟩ := (g3 i j a b e.2 d.2).1 ⟨m.2, f2, f4⟩
        exact ⟨(e.1, m'), ⟨rfl, f5⟩, f3.trans f1, f6⟩
      · rintro ⟨m, ⟨f1, f2⟩, f3, f4⟩
        obtain ⟨m', f5, f6⟩ := (g3 i j a b e.2 d.2).2 ⟨m.2, f2, f4⟩
        exact ⟨(e.1, m'), ⟨rfl, f5⟩, f3.trans f1, f6⟩
  | mat k1 n h1 p ih =>
    cases q with
    | hereM hs' =>
      refine ⟨_, .hereM hs' n _, .sca p, fun _ _ => Iff.rfl, fun _ _ => Iff.rfl, fun i j a b e d => ⟨?_, ?_⟩⟩
      · rintro ⟨m, ⟨g1, g4, rfl⟩, g2, g5, g3⟩; exact ⟨d.2.2, g3, by rw [g2]; exact g1, by rw [g5]; exact g4, rfl⟩
      · rintro ⟨m, g1, g2, g4, rfl⟩; exact ⟨(d.1, d.2.1, e), ⟨g2, g4, rfl⟩, rfl, rfl, g1⟩
    | mat _ _ hq q0 =>
      obtain ⟨t2, q', p', g1, g2, g3⟩ := ih q0
      refine ⟨_, .mat k1 n hq q', .mat k1 n h1 p', g1, g2, fun i j a b e d => ⟨?_, ?_⟩⟩
      · rintro ⟨m, ⟨f1, f1', f2⟩, f3, f3', f4⟩
        obtain ⟨m', f5, f6⟩ := (g3 i j a b e.2.2 d.2.2).1 ⟨m.2.2, f2, f4⟩
        exact ⟨(e.1, e.2.1, m'), ⟨rfl, rfl, f5⟩, f3.trans f1, f3'.trans f1', f6⟩
      · rintro ⟨m, ⟨f1, f1', f2⟩, f3, f3', f4⟩
        obtain ⟨m', f5, f6⟩ := (g3 i j a b e.2.2 d.2.2).2 ⟨m.2.2, f2, f4⟩
        exact ⟨(e.1, e.2.1, m'), ⟨rfl, rfl, f5⟩, f3.trans f1, f3'.trans f1', f6⟩

/-- C127: for every type that has both, spin and colour can be taken out in either order -/
theorem C127_commute {s s' : Sel} {t t1 t3 : Ty} (p : Path .spin s t t1) (q : Path .color s' t t3) :
    ∃ (t2 : Ty) (q' : Path .color s' t1 t2) (p' : Path .spin s t3 t2), ∀ (i j a b : Int), InR p i j → InR q a b → ∀ x : Den α t,
      ∃ y, (peek p i j x >>= peek q' a b) = ok y ∧ (peek q a b x >>= peek p' i j) = ok y := by
  obtain ⟨t2, q', p', g1, g2, g3⟩ := paths (by simp) p q
  refine ⟨t2, q', p', fun i j a b hp hq x => ?_⟩
  obtain ⟨u, eu, hu⟩ := C127_peek p i j hp x
  obtain ⟨y, ey, hy⟩ := C127_peek q' a b ((g1 _ _).2 hq) u
  obtain ⟨v, ev, hv⟩ := C127_peek q a b hq x
  obtain ⟨z, ez, hz⟩ := C127_peek p' i j ((g2 _ _).2 hp) v
  refine ⟨y, by rw [eu, ok_bind, ey], ?_⟩
  rw [ev, ok_bind, ez]
  congr 1
  refine comp_ext fun e => ?_
  obtain ⟨m, hm⟩ := ins_exists q' ((g1 _ _).2 hq) e
  obtain ⟨d, hd⟩ := ins_exists p hp m
  obtain ⟨m', hm', hd'⟩ := (g3 i j a b e d).1 ⟨m, hm, hd⟩
  rw [hy e m hm, hu m d hd, hz e m' hm', hv m' d hd']

/-- C127, fields: a source whose value at a site depends on the destination only at this site (any expression; a shift is computed before) is taken from the
field as it was before, in any order of the sites; every site of the order has the poked object and the others are as before. -/
theorem C127_field (c : β → α) {k : Kind} {s : Sel} {t t' : Ty} (p : Path k s t t') (i j : Int) (h : InR p i j)
    (g : Nat → Den α t → Den β t') (order : List Nat) (hn : order.Nodup) (f : Nat → Den α t) :
    ∃ f', pokeField c p i j (fun f x => ok (g x (f x))) order f = ok f' ∧
      ∀ x, if x ∈ order then poke c p i j (f x) (g x (f x)) = ok (f' x) else f' x = f x := by
  induction order generalizing f with
  | nil => exact ⟨f, rfl, fun x => by simp⟩
  | cons a as ih =>
    obtain ⟨ha, has⟩ := List.nodup_cons.1 hn
    obtain ⟨l', e, -⟩ := C127_poke c p i j h (f a) (g a (f a))
    obtain ⟨f', e', hf⟩ := ih has (Function.update f a l')
    refine ⟨f', by rw [pokeField, ok_bind, e, ok_bind, e'], fun x => ?_⟩
    have := hf x
    by_cases hx : x = a
    · subst hx
      rw [if_neg ha, Function.update_self] at this
      rw [if_pos (by simp), this, e]
    · rw [Function.update_of_ne hx] at this
      simpa [hx] using this

/-- C127, refuted: an index out of range of a matrix is not noticed if there is an element at its place: column N of a row is column 0 of the next, taken out and
put in there -/
theorem C127_column_refuted (c : β → α) {k : Kind} (n : Nat) (u : Ty) (x : Den α (.mat k n u)) (r : Den β (.sca u)) (i : Int) (h0 : 0 ≤ i) (h1 : i + 1 < n) :
    let p := Path.hereM (k := k) (s := .two) rfl n u
    ¬ InR p i n ∧ (∃ y, peek p i n x = ok y ∧ peek p (i + 1) 0 x = ok y) ∧ ∃ y, poke c p i n x r = ok y ∧ poke c p (i + 1) 0 x r = ok y := by
  intro p
  have e : matOff n i n = matOff n (i + 1) 0 := by simp only [matOff]; ring
  have hr : InR p (i + 1) 0 := ⟨⟨by omega, h1⟩, by omega, by omega⟩
  obtain ⟨y, hy, -⟩ := C127_peek p (i + 1) 0 hr x
  obtain ⟨z, hz, -⟩ := C127_poke c p (i + 1) 0 hr x r
  refine ⟨fun h => by have := h.2.2; omega, ⟨y, ?_, hy⟩, z, ?_, hz⟩
  · rw [← hy]; exact congrArg (rdEl x) e
  · rw [← hz]; exact congrArg (wrEl x · (assign c u r)) e

/-- C127: beyond its range the index of a vector is undefined -/
theorem C127_row {k : Kind} (c : β → α) (n : Nat) (u : Ty) (x : Den α (.vec k n u)) (r : Den β (.sca u)) (i j : Int) (h : ¬(0 ≤ i ∧ i < n)) :
    let p := Path.hereV (k := k) (s := .one) rfl n u
    peek p i j x = ub ∧ poke c p i j x r = ub := ⟨dif_neg h, dif_neg h⟩

end

/-! ### cases -/

/-- a colour matrix, `PScalar<PColorMatrix<..,2>>` -/
def cm : Ty := .sca (.mat .color 2 .num)
/-- a fermion, `PSpinVector<PColorVector<..,2>,3>` -/
def fm : Ty := .vec .spin 3 (.vec .color 2 .num)
/-- `pokeColor`, `peekColor` of colour matrices and fermions, `pokeSpin` of fermions -/
def cmC : Path .color .two cm (.sca (.sca .num)) := .sca (.hereM rfl 2 .num)
def fmC : Path .color .one fm (.vec .spin 3 (.sca .num)) := .vec .spin 3 (by simp) (.hereV rfl 2 .num)
def fmS : Path .spin .one fm (.sca (.vec .color 2 .num)) := .hereV rfl 3 _

example : InR cmC 1 0 ∧ peek cmC 1 0 (![10, 11, 20, 21] : Den Int cm) = ok 20 := ⟨by simp [cmC, InR], rfl⟩
example : InR fmC 1 0 ∧ InR fmS 2 0 := by simp [fmC, fmS, InR]
example (x : Den Int fm) : ∃ y, peek fmC 1 0 x = ok y ∧ ∀ a : Fin 3, y a = x a 1 :=
  let ⟨y, hy, h⟩ := C127_peek fmC 1 0 (by simp [fmC, InR]) x
  ⟨y, hy, fun a => h (a, ()) (a, 1, ()) ⟨rfl, rfl, rfl⟩⟩
example : peek cmC 0 2 (![10, 11, 20, 21] : Den Int cm) = ok 20 := rfl

end Verif.Component
