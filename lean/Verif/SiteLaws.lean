import Verif.SiteType
import Mathlib.Tactic.Ring
import Mathlib.Tactic.SplitIfs
/-
The fused operators are the compositions they stand for, for all types of a site.
-/
set_option linter.unusedVariables false
set_option linter.unusedSectionVars false
namespace Verif.Site

/-! ## loops -/

theorem foldl_congr {A : Type} : ∀ (n : Nat) (f g : A → Fin n → A) (x : A), (∀ x i, f x i = g x i) → Fin.foldl n f x = Fin.foldl n g x := by
  intro n f g x h
  have : f = g := funext fun x => funext fun i => h x i
  rw [this]

theorem foldl_hom {A B : Type} (h : A → B) (aA : A → A → A) (aB : B → B → B) (hh : ∀ x y, h (aA x y) = aB (h x) (h y)) :
    ∀ (n : Nat) (f : Fin n → A) (x : A), h (Fin.foldl n (fun d k => aA d (f k)) x) = Fin.foldl n (fun d k => aB d (h (f k))) (h x)
  | 0, f, x => by simp [Fin.foldl_zero]
  | n + 1, f, x => by
      rw [Fin.foldl_succ, Fin.foldl_succ, foldl_hom h aA aB hh n (fun i => f i.succ), hh]

/-- a map that respects the addition goes through the loop -/
theorem accum_hom {A B : Type} {h : A → B} {aA : A → A → A} {aB : B → B → B} (hh : ∀ x y, h (aA x y) = aB (h x) (h y)) (n : Nat)
    (f : Fin (n + 1) → A) : h (accum aA n f) = accum aB n fun i => h (f i) :=
  foldl_hom h aA aB hh n _ _

theorem foldl_assoc {A : Type} (a : A → A → A) (ha : ∀ x y z, a (a x y) z = a x (a y z)) :
    ∀ (n : Nat) (f : Fin n → A) (x y : A), Fin.foldl n (fun d k => a d (f k)) (a x y) = a x (Fin.foldl n (fun d k => a d (f k)) y)
  | 0, f, x, y => by simp [Fin.foldl_zero]
  | n + 1, f, x, y => by
      rw [Fin.foldl_succ, Fin.foldl_succ, ha, foldl_assoc a ha n (fun i => f i.succ)]

/-- the double loop is the loop of the loops -/
theorem accum2_eq {A : Type} {a : A → A → A} (ha : ∀ x y z, a (a x y) z = a x (a y z)) (n : Nat) (f : Fin (n + 1) → Fin (n + 1) → A) :
    accum2 a n f = accum a n fun j => accum a n (f j) := by
  unfold accum2
  rw [accum]
  apply foldl_congr
  intro d j
  rw [Fin.foldl_succ, foldl_assoc a ha n (fun i => f j.succ i.succ)]
  rfl

theorem accum_congr {A : Type} {a : A → A → A} {n : Nat} {f g : Fin (n + 1) → A} (h : ∀ i, f i = g i) : accum a n f = accum a n g := by
  rw [show f = g from funext h]

section
variable {K : Type} [CommRing K]

/-! ## addition -/

theorem add_assoc' : ∀ (t : Ty) (x y z : Den K t), add t (add t x y) z = add t x (add t y z)
  | .rs, x, y, z => by simp only [add]; ring
  | .rc, x, y, z => by ext <;> simp only [add] <;> ring
  | .sca t, x, y, z => add_assoc' t x y z
  | .vec _ _ t, x, y, z => funext fun i => add_assoc' t (x i) (y i) (z i)
  | .mat _ _ t, x, y, z => funext fun i => funext fun j => add_assoc' t (x i j) (y i j) (z i j)

theorem add_comm' : ∀ (t : Ty) (x y : Den K t), add t x y = add t y x
  | .rs, x, y => by simp only [add]; ring
  | .rc, x, y => by ext <;> simp only [add] <;> ring
  | .sca t, x, y => add_comm' t x y
  | .vec _ _ t, x, y => funext fun i => add_comm' t (x i) (y i)
  | .mat _ _ t, x, y => funext fun i => funext fun j => add_comm' t (x i j) (y i j)

theorem add4 (t : Ty) (x y z w : Den K t) : add t (add t x y) (add t z w) = add t (add t x z) (add t y w) := by
  rw [add_assoc', add_assoc', ← add_assoc' t y, ← add_assoc' t z, add_comm' t y z]

theorem foldl_add {t : Ty} : ∀ (n : Nat) (f g : Fin n → Den K t) (x y : Den K t),
    Fin.foldl n (fun d k => add t d (add t (f k) (g k))) (add t x y) =
      add t (Fin.foldl n (fun d k => add t d (f k)) x) (Fin.foldl n (fun d k => add t d (g k)) y)
  | 0, f, g, x, y => by simp [Fin.foldl_zero]
  | n + 1, f, g, x, y => by
      rw [Fin.foldl_succ, Fin.foldl_succ, Fin.foldl_succ, add4, foldl_add n (fun i => f i.succ) (fun i => g i.succ)]

theorem accum_add {t : Ty} (n : Nat) (f g : Fin (n + 1) → Den K t) :
    accum (add t) n (fun i => add t (f i) (g i)) = add t (accum (add t) n f) (accum (add t) n g) := foldl_add n _ _ _ _

/-! ## linear maps -/

theorem trace_add : ∀ (t : Ty), NoVec t → ∀ x y : Den K t, trace t (add t x y) = add (trTy t) (trace t x) (trace t y)
  | .rs, _, x, y => rfl
  | .rc, _, x, y => rfl
  | .sca t, h, x, y => trace_add t h x y
  | .mat _ n t, h, x, y => by
      show accum (A := Den K (trTy t)) (add (trTy t)) n (fun i => trace t (add t (x i i) (y i i))) = _
      simp only [trace_add t h]
      exact accum_add n _ _

theorem real_add : ∀ (t : Ty) (x y : Den K t), real t (add t x y) = add (reTy t) (real t x) (real t y)
  | .rs, x, y => rfl
  | .rc, x, y => rfl
  | .sca t, x, y => real_add t x y
  | .vec _ _ t, x, y => funext fun i => real_add t (x i) (y i)
  | .mat _ _ t, x, y => funext fun i => funext fun j => real_add t (x i j) (y i j)

theorem imag_add : ∀ (t : Ty) (x y : Den K t), imag t (add t x y) = add (reTy t) (imag t x) (imag t y)
  | .rs, x, y => by simp [imag, add]
  | .rc, x, y => rfl
  | .sca t, x, y => imag_add t x y
  | .vec _ _ t, x, y => funext fun i => imag_add t (x i) (y i)
  | .mat _ _ t, x, y => funext fun i => funext fun j => imag_add t (x i j) (y i j)

/-! ## products with adjoints -/

/-- `adjMultiply(l,r)` is `adj(l)*r` -/
theorem C62_adjMul : ∀ {a b c : Ty} (p : Mul a b c), p.HasAdjMul → ∀ (l : Den K a) (r : Den K b), adjMul p l r = mul p (adj a l) r
  | _, _, _, .rr, _, l, r => rfl
  | _, _, _, .cc, _, l, r => by ext <;> simp only [adjMul, mul, adj] <;> ring
  | _, _, _, .ss p, h, l, r => C62_adjMul p h l r
  | _, _, _, .sm _ _ p, h, l, r => funext fun i => funext fun j => C62_adjMul p h l (r i j)
  | _, _, _, .ms _ _ p, h, l, r => funext fun i => funext fun j => C62_adjMul p h (l j i) r
  | _, _, _, .mm _ n p, h, l, r => funext fun i => funext fun j => accum_congr fun k => C62_adjMul p h (l k i) (r k j)
  | _, _, _, .sv _ _ p, h, l, r => funext fun i => C62_adjMul p h l (r i)
  | _, _, _, .mv _ n p, h, l, r => funext fun i => accum_congr fun k => C62_adjMul p h (l k i) (r k)

/-- `multiplyAdj(l,r)` is `l*adj(r)` -/
theorem C62_mulAdj : ∀ {a b c : Ty} (p : Mul a b c), p.HasMulAdj → ∀ (l : Den K a) (r : Den K b), mulAdj p l r = mul p l (adj b r)
  | _, _, _, .rr, _, l, r => rfl
  | _, _, _, .cc, _, l, r => by ext <;> simp only [mulAdj, mul, adj] <;> ring
  | _, _, _, .ss p, h, l, r => C62_mulAdj p h l r
  | _, _, _, .sm _ _ p, h, l, r => funext fun i => funext fun j => C62_mulAdj p h l (r j i)
  | _, _, _, .ms _ _ p, h, l, r => funext fun i => funext fun j => C62_mulAdj p h (l i j) r
  | _, _, _, .mm _ n p, h, l, r => funext fun i => funext fun j => accum_congr fun k => C62_mulAdj p h (l i k) (r j k)
  | _, _, _, .vs _ _ p, h, l, r => funext fun i => C62_mulAdj p h (l i) r

/-- `adjMultiplyAdj(l,r)` is `adj(l)*adj(r)` -/
theorem C62_adjMulAdj : ∀ {a b c : Ty} (p : Mul a b c), p.HasAdjMulAdj →
    ∀ (l : Den K a) (r : Den K b), adjMulAdj p l r = mul p (adj a l) (adj b r)
  | _, _, _, .rr, _, l, r => rfl
  | _, _, _, .cc, _, l, r => by ext <;> simp only [adjMulAdj, mul, adj] <;> ring
  | _, _, _, .ss p, h, l, r => C62_adjMulAdj p h l r
  | _, _, _, .sm _ _ p, h, l, r => funext fun i => funext fun j => C62_adjMulAdj p h l (r j i)
  | _, _, _, .ms _ _ p, h, l, r => funext fun i => funext fun j => C62_adjMulAdj p h (l j i) r
  | _, _, _, .mm _ n p, h, l, r => funext fun i => funext fun j => accum_congr fun k => C62_adjMulAdj p h (l k i) (r j k)

/-! ## traces -/

theorem noVec_of_traceMul : ∀ {a b c : Ty} (p : Mul a b c), p.HasTraceMul → NoVec c
  | _, _, _, .rr, _ => trivial
  | _, _, _, .cc, _ => trivial
  | _, _, _, @Mul.ss _ _ c p, h => (noVec_of_traceMul p h : NoVec c)
  | _, _, _, @Mul.sm _ _ c _ _ p, h => (noVec_of_traceMul p h : NoVec c)
  | _, _, _, @Mul.ms _ _ c _ _ p, h => (noVec_of_traceMul p h : NoVec c)
  | _, _, _, @Mul.mm _ _ c _ _ p, h => (noVec_of_traceMul p h : NoVec c)

/-- `traceMultiply(l,r)` is `trace(l*r)` -/
theorem C62_traceMul : ∀ {a b c : Ty} (p : Mul a b c), p.HasTraceMul → ∀ (l : Den K a) (r : Den K b), traceMul p l r = trace c (mul p l r)
  | _, _, _, .rr, _, l, r => rfl
  | _, _, _, .cc, _, l, r => rfl
  | _, _, _, .ss p, h, l, r => C62_traceMul p h l r
  | _, _, _, .sm _ n p, h, l, r => accum_congr fun k => C62_traceMul p h l (r k k)
  | _, _, _, .ms _ n p, h, l, r => accum_congr fun k => C62_traceMul p h (l k k) r
  | _, _, _, @Mul.mm a b c _ n p, h, l, r => by
      show accum2 (A := Den K (trTy c)) (add (trTy c)) n (fun j k => traceMul p (l j k) (r k j)) =
        accum (A := Den K (trTy c)) (add (trTy c)) n fun j => trace c (accum (A := Den K c) (add c) n fun k => mul p (l j k) (r k j))
      rw [accum2_eq (add_assoc' (trTy c))]
      refine accum_congr fun j => ?_
      rw [accum_hom (h := trace c) (trace_add c (noVec_of_traceMul p h))]
      exact accum_congr fun k => C62_traceMul p h (l j k) (r k j)

/-- `realTrace(x)` is `real(trace(x))` -/
theorem C62_realTrace : ∀ (t : Ty), NoVec t → ∀ x : Den K t, realTrace t x = real (trTy t) (trace t x)
  | .rs, _, x => rfl
  | .rc, _, x => rfl
  | .sca t, h, x => C62_realTrace t h x
  | .mat _ n t, h, x => by
      show accum (A := Den K (reTy (trTy t))) (add (reTy (trTy t))) n (fun i => realTrace t (x i i)) =
        real (trTy t) (accum (A := Den K (trTy t)) (add (trTy t)) n fun i => trace t (x i i))
      rw [accum_hom (h := real (trTy t)) (real_add (trTy t))]
      exact accum_congr fun i => C62_realTrace t h (x i i)

/-- the innermost level is complex -/
def IsCx : Ty → Prop
  | .rs => False
  | .rc => True
  | .sca t | .vec _ _ t | .mat _ _ t => IsCx t

/-- `imagTrace(x)` is `imag(trace(x))` for complex types -/
theorem C63_imagTrace_partial : ∀ (t : Ty), NoVec t → IsCx t → ∀ x : Den K t, imagTrace t x = imag (trTy t) (trace t x)
  | .rc, _, _, x => rfl
  | .sca t, h, hc, x => C63_imagTrace_partial t h hc x
  | .mat _ n t, h, hc, x => by
      show accum (A := Den K (reTy (trTy t))) (add (reTy (trTy t))) n (fun i => imagTrace t (x i i)) =
        imag (trTy t) (accum (A := Den K (trTy t)) (add (trTy t)) n fun i => trace t (x i i))
      rw [accum_hom (h := imag (trTy t)) (imag_add (trTy t))]
      exact accum_congr fun i => C63_imagTrace_partial t h hc (x i i)

/-! ## inner products -/

/-- `localInnerProduct(l,r)` and the product `adj(l)*r` of the same operands -/
def Mul.inner : {a b c : Ty} → Mul a b c → Option (Inner a b (trTy c))
  | _, _, _, .rr => some .rr
  | _, _, _, .cc => some .cc
  | _, _, _, .ss p => p.inner.map .ss
  | _, _, _, .sm k n p => p.inner.map (.sm k n)
  | _, _, _, .ms k n p => p.inner.map (.ms k n)
  | _, _, _, .mm k n p => p.inner.map (.mm k n)
  | _, _, _, .rc | _, _, _, .cr | _, _, _, .sv _ _ _ | _, _, _, .vs _ _ _ | _, _, _, .mv _ _ _ => none

theorem inner_isSome : ∀ {a b c : Ty} (p : Mul a b c), p.inner.isSome ↔ p.HasAdjMul ∧ NoVec c
  | _, _, _, .rr => by simp [Mul.inner, Mul.HasAdjMul, NoVec]
  | _, _, _, .cc => by simp [Mul.inner, Mul.HasAdjMul, NoVec]
  | _, _, _, .rc => by simp [Mul.inner, Mul.HasAdjMul]
  | _, _, _, .cr => by simp [Mul.inner, Mul.HasAdjMul]
  | _, _, _, .ss p => by simpa [Mul.inner, Mul.HasAdjMul, NoVec] using inner_isSome p
  | _, _, _, .sm _ _ p => by simpa [Mul.inner, Mul.HasAdjMul, NoVec] using inner_isSome p
  | _, _, _, .ms _ _ p => by simpa [Mul.inner, Mul.HasAdjMul, NoVec] using inner_isSome p
  | _, _, _, .mm _ _ p => by simpa [Mul.inner, Mul.HasAdjMul, NoVec] using inner_isSome p
  | _, _, _, .sv _ _ p => by simp [Mul.inner, NoVec]
  | _, _, _, .vs _ _ p => by simp [Mul.inner, NoVec]
  | _, _, _, .mv _ _ p => by simp [Mul.inner, NoVec]

/-- `localInnerProduct(l,r)` is `trace(adj(l)*r)` -/
theorem C62_inner : ∀ {a b c : Ty} (p : Mul a b c) (q : Inner a b (trTy c)), p.inner = some q →
    ∀ (l : Den K a) (r : Den K b), lip q l r = trace c (mul p (adj a l) r)
  | _, _, _, .rr, q, hq, l, r => by cases hq; rfl
  | _, _, _, .cc, q, hq, l, r => by
      cases hq
      ext <;> simp only [lip, trace, mul, adj] <;> ring
  | _, _, _, .ss p, q, hq, l, r => by
      obtain ⟨q', h, rfl⟩ := Option.map_eq_some_iff.1 hq
      exact C62_inner p q' h l r
  | _, _, _, .sm _ n p, q, hq, l, r => by
      obtain ⟨q', h, rfl⟩ := Option.map_eq_some_iff.1 hq
      exact accum_congr fun k => C62_inner p q' h l (r k k)
  | _, _, _, .ms _ n p, q, hq, l, r => by
      obtain ⟨q', h, rfl⟩ := Option.map_eq_some_iff.1 hq
      exact accum_congr fun k => C62_inner p q' h (l k k) r
  | _, _, _, @Mul.mm a b c _ n p, q, hq, l, r => by
      obtain ⟨q', h, rfl⟩ := Option.map_eq_some_iff.1 hq
      show accum2 (A := Den K (trTy c)) (add (trTy c)) n (fun j k => lip q' (l k j) (r k j)) =
        accum (A := Den K (trTy c)) (add (trTy c)) n fun j => trace c (accum (A := Den K c) (add c) n fun k => mul p (adj a (l k j)) (r k j))
      rw [accum2_eq (add_assoc' (trTy c))]
      refine accum_congr fun j => ?_
      have hn : NoVec c := ((inner_isSome p).1 (by rw [h]; rfl)).2
      rw [accum_hom (h := trace c) (trace_add c hn)]
      exact accum_congr fun k => C62_inner p q' h (l k j) (r k j)

/-- `localInnerProductReal(l,r)` is `real(localInnerProduct(l,r))` -/
theorem C62_innerReal : ∀ {a b d : Ty} (q : Inner a b d), q.HasReal → ∀ (l : Den K a) (r : Den K b), lipReal q l r = real d (lip q l r)
  | _, _, _, .rr, _, l, r => rfl
  | _, _, _, .cc, _, l, r => rfl
  | _, _, _, .ss q, h, l, r => C62_innerReal q h l r
  | _, _, _, @Inner.sm _ _ d _ n q, h, l, r => by
      show _ = real d (accum (A := Den K d) (add d) n fun k => lip q l (r k k))
      rw [accum_hom (h := real d) (real_add d)]
      exact accum_congr fun k => C62_innerReal q h l (r k k)
  | _, _, _, @Inner.mm _ _ d _ n q, h, l, r => by
      show accum2 (A := Den K (reTy d)) (add (reTy d)) n (fun j k => lipReal q (l k j) (r k j)) =
        real d (accum2 (A := Den K d) (add d) n fun j k => lip q (l k j) (r k j))
      rw [accum2_eq (add_assoc' _), accum2_eq (add_assoc' _), accum_hom (h := real d) (real_add d)]
      refine accum_congr fun j => ?_
      rw [accum_hom (h := real d) (real_add d)]
      exact accum_congr fun k => C62_innerReal q h (l k j) (r k j)
  | _, _, _, @Inner.vv _ _ d _ n q, h, l, r => by
      show _ = real d (accum (A := Den K d) (add d) n fun k => lip q (l k) (r k))
      rw [accum_hom (h := real d) (real_add d)]
      exact accum_congr fun k => C62_innerReal q h (l k) (r k)

theorem accum2_swap {t : Ty} (n : Nat) (f : Fin (n + 1) → Fin (n + 1) → Den K t) :
    accum2 (add t) n f = accum2 (add t) n fun j k => f k j := by
  rw [accum2_eq (add_assoc' t), accum2_eq (add_assoc' t)]
  have key : ∀ (m : Nat) (g : Fin (m + 1) → Fin (n + 1) → Den K t),
      accum (add t) m (fun j => accum (add t) n (g j)) = accum (add t) n fun k => accum (add t) m fun j => g j k := by
    intro m
    induction m with
    | zero => intro g; rfl
    | succ m ih =>
      intro g
      have e : ∀ h : Fin (m + 2) → Den K t, accum (add t) (m + 1) h = add t (h 0) (accum (add t) m fun j => h j.succ) := by
        intro h
        unfold accum
        rw [Fin.foldl_succ, foldl_assoc (add t) (add_assoc' t) m (fun i => h i.succ.succ)]
      rw [e, ih fun j => g j.succ, ← accum_add]
      exact accum_congr fun k => (e fun j => g j k).symm
  exact key n f

/-- `localNorm2(x)` is `localInnerProductReal(x,x)` -/
theorem C62_norm2 : ∀ (t : Ty) (x : Den K t), norm2 t x = lipReal (Inner.self t) x x
  | .rs, x => rfl
  | .rc, x => rfl
  | .sca t, x => C62_norm2 t x
  | .vec _ n t, x => accum_congr fun i => C62_norm2 t (x i)
  | .mat _ n t, x => by
      show accum2 (A := Den K (reTy (ipTy t))) (add _) n (fun i j => norm2 t (x i j)) =
        accum2 (A := Den K (reTy (ipTy t))) (add _) n (fun j k => lipReal (Inner.self t) (x k j) (x k j))
      rw [accum2_swap]
      simp only [C62_norm2 t]

/-! ## partial traces -/

theorem pick_pos {κ k : Kind} {n : Nat} {s t : Ty} {x : Den K s} {y : Fin (n + 1) → Fin (n + 1) → Den K t} (h : k = κ) :
    HEq (pick x y : Den K (if k = κ then .sca s else .mat k n t)) x := by
  unfold pick
  rw [dif_pos h]
  exact cast_heq _ _

theorem pick_neg {κ k : Kind} {n : Nat} {s t : Ty} {x : Den K s} {y : Fin (n + 1) → Fin (n + 1) → Den K t} (h : k ≠ κ) :
    HEq (pick x y : Den K (if k = κ then .sca s else .mat k n t)) y := by
  unfold pick
  rw [dif_neg h]
  exact cast_heq _ _

theorem pick_congr {κ k : Kind} {n : Nat} {s t : Ty} {x x' : Den K s} {y y' : Fin (n + 1) → Fin (n + 1) → Den K t}
    (hx : k = κ → x = x') (hy : k ≠ κ → y = y') : (pick x y : Den K (if k = κ then .sca s else .mat k n t)) = pick x' y' := by
  unfold pick
  split_ifs with h
  · rw [hx h]
  · rw [hy h]

theorem traceK_add (κ : Kind) : ∀ (t : Ty), NoVec t → ∀ x y : Den K t, traceK κ t (add t x y) = add (trkTy κ t) (traceK κ t x) (traceK κ t y)
  | .rs, _, x, y => rfl
  | .rc, _, x, y => rfl
  | .sca t, h, x, y => traceK_add κ t h x y
  | .mat k n t, h, x, y => by
      by_cases hk : k = κ
      · subst hk
        have e : ∀ x : Den K (.mat k n t), HEq (traceK k (.mat k n t) x) (accum (add t) n fun i => x i i) := by
          intro x
          exact pick_pos rfl
        have ty : trkTy k (.mat k n t) = .sca t := by simp [trkTy]
        apply eq_of_heq
        refine (e _).trans ?_
        have h1 := e x
        have h2 := e y
        revert h1 h2
        generalize traceK k (.mat k n t) x = X
        generalize traceK k (.mat k n t) y = Y
        revert X Y
        rw [ty]
        intro X Y h1 h2
        rw [eq_of_heq h1, eq_of_heq h2]
        exact heq_of_eq (accum_add n _ _)
      · have e : ∀ x : Den K (.mat k n t), HEq (traceK κ (.mat k n t) x) (fun i j => traceK κ t (x i j)) := by
          intro x
          exact pick_neg hk
        have ty : trkTy κ (.mat k n t) = .mat k n (trkTy κ t) := by simp [trkTy, hk]
        apply eq_of_heq
        refine (e _).trans ?_
        have h1 := e x
        have h2 := e y
        revert h1 h2
        generalize traceK κ (.mat k n t) x = X
        generalize traceK κ (.mat k n t) y = Y
        revert X Y
        rw [ty]
        intro X Y h1 h2
        rw [eq_of_heq h1, eq_of_heq h2]
        exact heq_of_eq (funext fun i => funext fun j => traceK_add κ t h (x i j) (y i j))

/-- a type with no matrix in it -/
theorem trTy_self_trace : ∀ (t : Ty), trTy t = t → ∀ x : Den K t, HEq (trace t x) x
  | .rs, _, x => HEq.rfl
  | .rc, _, x => HEq.rfl
  | .sca t, h, x => trTy_self_trace t (by simpa using h) x

theorem trace_eq_traceK (κ : Kind) : ∀ (t : Ty), NoVec t → trTy t = trkTy κ t → ∀ x : Den K t, HEq (trace t x) (traceK κ t x)
  | .rs, _, _, x => HEq.rfl
  | .rc, _, _, x => HEq.rfl
  | .sca t, hn, h, x => trace_eq_traceK κ t hn (by simpa [trkTy] using h) x
  | .mat k n t, hn, h, x => by
      by_cases hk : k = κ
      · subst hk
        have ht : trTy t = t := by simpa [trkTy] using h
        have e : HEq (traceK k (.mat k n t) x) (accum (add t) n fun i => x i i) := by
          exact pick_pos rfl
        refine HEq.trans ?_ e.symm
        show HEq (accum (A := Den K (trTy t)) (add (trTy t)) n fun i => trace t (x i i)) _
        have hi : ∀ i, HEq (trace t (x i i)) (x i i) := fun i => trTy_self_trace t ht (x i i)
        have : ∀ (f : Fin (n + 1) → Den K (trTy t)), (∀ i, HEq (f i) (x i i)) →
            HEq (accum (A := Den K (trTy t)) (add (trTy t)) n f) (accum (add t) n fun i => x i i) := by
          rw [ht]
          intro f hf
          rw [show f = fun i => x i i from funext fun i => eq_of_heq (hf i)]
        exact this _ hi
      · simp [trkTy, hk] at h

/-- `traceColorMultiply(l,r)` is `traceColor(l*r)`, `traceSpinMultiply(l,r)` is `traceSpin(l*r)` -/
theorem C62_traceKMul (κ : Kind) : ∀ {a b c : Ty} (p : Mul a b c), NoVec c → p.HasTraceKMul κ →
    ∀ (l : Den K a) (r : Den K b), traceKMul κ p l r = traceK κ c (mul p l r)
  | _, _, _, @Mul.ss a b c p, hn, h, l, r => by
      have e : traceKMul κ (.ss p) l r = (cast (congrArg (Den K) h.2) (traceMul p l r) : Den K (trkTy κ c)) := by
        unfold traceKMul
        exact dif_pos h.2
      rw [e]
      show _ = traceK κ c (mul p l r)
      apply eq_of_heq
      refine (cast_heq _ _).trans ?_
      rw [C62_traceMul p h.1]
      exact trace_eq_traceK κ c hn h.2 _
  | _, _, _, @Mul.sm _ _ c k n p, hn, h, l, r => by
      refine pick_congr (fun hk => rfl) (fun hk => ?_)
      exact funext fun i => funext fun j => C62_traceKMul κ p hn (h.resolve_left hk) l (r i j)
  | _, _, _, @Mul.ms _ _ c k n p, hn, h, l, r => by
      refine pick_congr (fun hk => ?_) (fun hk => ?_)
      · rcases h with h | h
        · rw [if_neg h.2]; rfl
        · exact absurd hk h.1
      · rcases h with h | h
        · exact absurd h.1 hk
        · exact funext fun i => funext fun j => C62_traceKMul κ p hn h.2 (l i j) r
  | _, _, _, @Mul.mm _ _ c k n p, hn, h, l, r => by
      refine pick_congr (fun hk => ?_) (fun hk => ?_)
      · exact accum2_eq (add_assoc' c) n _
      · refine funext fun i => funext fun j => ?_
        show _ = traceK κ c (accum (A := Den K c) (add c) n fun k => mul p (l i k) (r k j))
        rw [accum_hom (h := traceK κ c) (traceK_add κ c hn)]
        exact accum_congr fun m => C62_traceKMul κ p hn (h.resolve_left hk) (l i m) (r m j)

/-- `traceSpinOuterProduct(l,r)` is `traceSpin(outerProduct(l,r))` -/
theorem C62_traceSpinOuter {a b d : Ty} {n : Nat} (p : Outer a b d) (l : Den K (.vec .spin n a)) (r : Den K (.vec .spin n b)) :
    HEq (traceSpinOuter p l r) (traceK .spin (.mat .spin n d) (outer (.vv .spin n p) l r)) := by
  exact (pick_pos rfl).symm

end

/-- a propagator times a propagator: spin matrices of colour matrices -/
example : ((Mul.mm .spin 3 (.mm .color 2 .cc)).HasAdjMul ∧ (Mul.mm .spin 3 (.mm .color 2 .cc)).HasTraceMul ∧
    (Mul.mm .spin 3 (.mm .color 2 .cc)).HasTraceKMul .color) := by
  refine ⟨trivial, trivial, Or.inr (Or.inl rfl)⟩

/-- the trace of the spin of two colour matrices does not compile -/
example : ¬ (Mul.ss (.mm .color 2 .cc)).HasTraceKMul .spin := by
  simp [Mul.HasTraceKMul, trkTy]

/-- on a real number the two differ: `imagTrace` gives back the number -/
theorem C63_imagTrace_false : ¬ ∀ (t : Ty), NoVec t → ∀ x : Den Int t, imagTrace t x = imag (trTy t) (trace t x) := by
  intro h
  have := h .rs trivial (1 : Int)
  simp [imagTrace, imag] at this

/-- and so on a matrix of real numbers: what it gives is the whole trace -/
theorem C63_imagTrace_real {K : Type} [CommRing K] : ∀ (t : Ty), NoVec t → ¬ IsCx t → ∀ x : Den K t, imagTrace t x = realTrace t x
  | .rs, _, _, x => rfl
  | .rc, _, h, x => absurd trivial h
  | .sca t, hn, h, x => C63_imagTrace_real t hn h x
  | .mat _ n t, hn, h, x => accum_congr fun i => C63_imagTrace_real t hn h (x i i)

end Verif.Site
