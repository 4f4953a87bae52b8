import Verif.Basic
import Mathlib.Data.List.Basic
/-
`globalMax`, `globalMin` and the tests `isnan`, `isinf`, `isnormal`, `isfinite`.
-/
namespace Verif.Extremes
open Verif Outcome

/-! ## largest and smallest value: model -/

variable {V : Type}

/-- the loop over the sites from 1 on, include/qdp_scalar_specific.h:1332-1339 and include/qdp_parscalar_specific.h:1434-1441; with `<` for `>`
the loops of `globalMin`, include/qdp_scalar_specific.h:1398-1405 and include/qdp_parscalar_specific.h:1502-1509 -/
def loop (gt : V → V → Bool) : List V → V → V
  | [], d => d
  | dd :: rest, d => loop gt rest (if gt dd d then dd else d)

/-- the value on one node, include/qdp_scalar_specific.h:1319-1348, include/qdp_parscalar_specific.h:1421-1453 up to the call of
`QDPInternal::globalMax`; site 0 is read without a test -/
def extreme (gt : V → V → Bool) : List V → Outcome V
  | [] => ub
  | x :: xs => ok (loop gt xs x)

/-! ## largest and smallest value: specification -/

/-- `r` is one of the values and none is greater -/
def IsMax (gt : V → V → Bool) (l : List V) (r : V) : Prop := r ∈ l ∧ ∀ v ∈ l, gt v r = false

/-- comparison of floating point numbers: not-a-numbers compare false with everything, the others are totally preordered -/
structure FloatOrder (gt : V → V → Bool) (nan : V → Bool) : Prop where
  left : ∀ x y, nan x = true → gt x y = false
  right : ∀ x y, nan y = true → gt x y = false
  asymm : ∀ x y, gt x y = true → gt y x = false
  trans : ∀ x y z, nan y = false → gt x y = false → gt y z = false → gt x z = false

theorem FloatOrder.irrefl {gt : V → V → Bool} {nan : V → Bool} (h : FloatOrder gt nan) (x : V) : gt x x = false := by
  cases e : gt x x with
  | false => rfl
  | true => rw [h.asymm x x e] at e; exact absurd e (by simp)

/-! ## largest and smallest value: properties -/

theorem loop_nan {gt : V → V → Bool} {nan : V → Bool} (h : FloatOrder gt nan) : ∀ (l : List V) (d : V), nan d = true → loop gt l d = d := by
  intro l
  induction l with
  | nil => intro d _; rfl
  | cons x xs ih => intro d hd; simp only [loop, h.right x d hd]; exact ih d hd

theorem loop_max {gt : V → V → Bool} {nan : V → Bool} (h : FloatOrder gt nan) : ∀ (l : List V) (d : V), nan d = false →
    nan (loop gt l d) = false ∧ (loop gt l d = d ∨ loop gt l d ∈ l) ∧ gt d (loop gt l d) = false ∧ ∀ v ∈ l, gt v (loop gt l d) = false := by
  intro l
  induction l with
  | nil => intro d hd; exact ⟨hd, Or.inl rfl, h.irrefl d, by simp⟩
  | cons x xs ih =>
    intro d hd
    simp only [loop]
    cases hx : gt x d with
    | false =>
      obtain ⟨h1, h2, h3, h4⟩ := ih d hd
      simp only [Bool.false_eq_true, if_false]
      refine ⟨h1, ?_, h3, ?_⟩
      · rcases h2 with h2 | h2
        · exact Or.inl h2
        · exact Or.inr (List.mem_cons_of_mem _ h2)
      · intro v hv
        rcases List.mem_cons.1 hv with rfl | hv
        · exact h.trans _ _ _ hd hx h3
        · exact h4 v hv
    | true =>
      have hxn : nan x = false := by
        cases e : nan x with
        | false => rfl
        | true => rw [h.left x d e] at hx; exact absurd hx (by simp)
      obtain ⟨h1, h2, h3, h4⟩ := ih x hxn
      simp only [if_true]
      refine ⟨h1, Or.inr ?_, h.trans _ _ _ hxn (h.asymm _ _ hx) h3, ?_⟩
      · rcases h2 with h2 | h2
        · rw [h2]; exact List.mem_cons_self
        · exact List.mem_cons_of_mem _ h2
      · intro v hv
        rcases List.mem_cons.1 hv with rfl | hv
        · exact h3
        · exact h4 v hv

/-- C58: without not-a-numbers the result on a node is the largest value of the node's sites -/
theorem C58_node_partial {gt : V → V → Bool} {nan : V → Bool} (h : FloatOrder gt nan) (F : List V) (hne : F ≠ []) (hF : ∀ v ∈ F, nan v = false) :
    ∃ r, extreme gt F = ok r ∧ IsMax gt F r := by
  cases F with
  | nil => exact absurd rfl hne
  | cons x xs =>
    obtain ⟨_, h2, h3, h4⟩ := loop_max h xs x (hF x (by simp))
    refine ⟨_, rfl, ?_, ?_⟩
    · rcases h2 with h2 | h2
      · rw [h2]; exact List.mem_cons_self
      · exact List.mem_cons_of_mem _ h2
    · intro v hv
      rcases List.mem_cons.1 hv with rfl | hv
      · exact h3
      · exact h4 v hv

/-- C58: and over many nodes, for a reduction that returns the largest of the nodes' results, it is the largest value of the lattice; so it
does not depend on the order or the distribution of the sites -/
theorem C58_nodes_partial {gt : V → V → Bool} {nan : V → Bool} (h : FloatOrder gt nan) (Fs : List (List V)) (hne : ∀ F ∈ Fs, F ≠ [])
    (hF : ∀ F ∈ Fs, ∀ v ∈ F, nan v = false) (rs : List V) (hrs : Fs.map (extreme gt) = rs.map ok) (r : V) (hr : IsMax gt rs r) :
    IsMax gt Fs.flatten r := by
  have key : ∀ (Fs : List (List V)) (rs : List V), (∀ F ∈ Fs, F ≠ []) → (∀ F ∈ Fs, ∀ v ∈ F, nan v = false) → Fs.map (extreme gt) = rs.map ok →
      (∀ x ∈ rs, x ∈ Fs.flatten ∧ nan x = false) ∧ ∀ v ∈ Fs.flatten, ∃ x ∈ rs, gt v x = false := by
    intro Fs
    induction Fs with
    | nil => intro rs _ _ e; cases rs <;> simp at e ⊢
    | cons F Fs ih =>
      intro rs hne hF e
      cases rs with
      | nil => simp at e
      | cons y ys =>
        simp only [List.map_cons, List.cons.injEq] at e
        obtain ⟨i1, i2⟩ := ih ys (fun G hG => hne G (by simp [hG])) (fun G hG => hF G (by simp [hG])) e.2
        obtain ⟨z, z1, z2⟩ := C58_node_partial h F (hne F (by simp)) (hF F (by simp))
        rw [e.1] at z1
        injection z1 with z1
        subst z1
        constructor
        · intro x hx
          rcases List.mem_cons.1 hx with rfl | hx
          · exact ⟨by simp [z2.1], hF F (by simp) _ z2.1⟩
          · obtain ⟨j1, j2⟩ := i1 x hx
            exact ⟨by rw [List.flatten_cons]; exact List.mem_append_right _ j1, j2⟩
        · intro v hv
          rw [List.flatten_cons] at hv
          rcases List.mem_append.1 hv with hv | hv
          · exact ⟨y, by simp, z2.2 v hv⟩
          · obtain ⟨x, hx, hx'⟩ := i2 v hv
            exact ⟨x, List.mem_cons_of_mem _ hx, hx'⟩
  obtain ⟨k1, k2⟩ := key Fs rs hne hF hrs
  refine ⟨(k1 r hr.1).1, fun v hv => ?_⟩
  obtain ⟨x, hx, hvx⟩ := k2 v hv
  exact h.trans _ _ _ (k1 x hx).2 hvx (hr.2 x hx)

/-- C58: a not-a-number on the first site is the result, whatever the others are -/
theorem C58_nan_first {gt : V → V → Bool} {nan : V → Bool} (h : FloatOrder gt nan) (x : V) (xs : List V) (hx : nan x = true) :
    extreme gt (x :: xs) = ok x := by
  simp only [extreme, loop_nan h xs x hx]

/-- C58: not-a-numbers on other sites are passed over: the result is the largest of the numbers -/
theorem C58_nan_later {gt : V → V → Bool} {nan : V → Bool} (h : FloatOrder gt nan) (x : V) (xs : List V) (hx : nan x = false) :
    ∃ r, extreme gt (x :: xs) = ok r ∧ nan r = false ∧ IsMax gt ((x :: xs).filter fun v => !nan v) r := by
  obtain ⟨h1, h2, h3, h4⟩ := loop_max h xs x hx
  refine ⟨_, rfl, h1, ?_, ?_⟩
  · rw [List.mem_filter]
    refine ⟨?_, by simp [h1]⟩
    rcases h2 with h2 | h2
    · rw [h2]; exact List.mem_cons_self
    · exact List.mem_cons_of_mem _ h2
  · intro v hv
    rcases List.mem_cons.1 (List.mem_filter.1 hv).1 with rfl | hv
    · exact h3
    · exact h4 v hv

/-- C58: so with a not-a-number the result depends on where the layout puts the sites -/
theorem C58_layout_dependent {gt : V → V → Bool} {nan : V → Bool} (h : FloatOrder gt nan) (q v : V) (hq : nan q = true) (hv : nan v = false) :
    [q, v].Perm [v, q] ∧ extreme gt [q, v] = ok q ∧ extreme gt [v, q] = ok v ∧ q ≠ v := by
  refine ⟨List.Perm.swap _ _ _, C58_nan_first h q [v] hq, ?_, ?_⟩
  · simp [extreme, loop, h.left q v hq]
  · intro e; rw [e, hv] at hq; exact absurd hq (by simp)

/-- integers and one not-a-number -/
def gtOpt : Option Int → Option Int → Bool
  | some a, some b => decide (a > b)
  | _, _ => false

theorem gtOpt_order : FloatOrder gtOpt (fun x => x.isNone) where
  left := by intro x y h; cases x <;> simp_all [gtOpt]
  right := by intro x y h; cases y <;> cases x <;> simp_all [gtOpt]
  asymm := by intro x y h; cases x <;> cases y <;> simp_all [gtOpt]; omega
  trans := by intro x y z; cases x <;> cases y <;> cases z <;> simp_all [gtOpt]; omega

example : extreme gtOpt [some 3, some (-2), some 7, some 5] = ok (some 7) := by decide
example : extreme gtOpt [none, some (-2), some 7, some 5] = ok none ∧ extreme gtOpt [some (-2), none, some 7, some 5] = ok (some 7) := by decide

/-! ## classification of floating point numbers: model -/

/-- the four functions for one type -/
structure Cls (A : Type) where
  nan : A → Bool
  inf : A → Bool
  normal : A → Bool
  finite : A → Bool

variable {A : Type}

/-- `d = false; for (i..) d |= f(elem(i))` -/
def orLoop (f : A → Bool) (l : List A) : Bool := l.foldl (fun d x => d || f x) false
/-- `d = true; for (i..) d &= f(elem(i))` -/
def andLoop (f : A → Bool) (l : List A) : Bool := l.foldl (fun d x => d && f x) true

/-- `PScalar` and `RScalar`: pass on, include/qdp_primscalar.h:916-960, include/qdp_reality.h:1359-1392 -/
def ofScalar (c : Cls A) : Cls A := ⟨c.nan, c.inf, c.normal, c.finite⟩

/-- `RComplex`, include/qdp_reality.h:2040-2070 -/
def ofComplex (c : Cls A) : Cls (A × A) where
  nan z := c.nan z.1 || c.nan z.2
  inf z := c.inf z.1 || c.inf z.2
  normal z := c.normal z.1 && c.normal z.2
  finite z := c.finite z.1 && c.finite z.2

/-- `PVector` and `PSpinVector`, include/qdp_primvector.h:542-612, include/qdp_primspinvec.h:425-495 -/
def ofVector (c : Cls A) : Cls (List A) where
  nan l := orLoop c.nan l
  inf l := orLoop c.inf l
  normal l := andLoop c.normal l
  finite l := andLoop c.finite l

/-- `PMatrix`, include/qdp_primmatrix.h:758-832, the elements in the order of the two loops; the loop of `isnormal` (lines 808-810) calls `isinf` -/
def ofMatrix (c : Cls A) : Cls (List A) where
  nan l := orLoop c.nan l
  inf l := orLoop c.inf l
  normal l := andLoop c.inf l
  finite l := andLoop c.finite l

/-- `OLattice` on one node, include/qdp_scalar_specific.h:1438-1597, include/qdp_parscalar_specific.h:1545-1704, before the reduction -/
def ofLattice (c : Cls A) : Cls (List A) where
  nan l := orLoop c.nan l
  inf l := orLoop c.inf l
  normal l := andLoop c.normal l
  finite l := andLoop c.finite l

/-- `*(unsigned int*)p` on an object of so many bytes, little-endian -/
def readU : List Nat → Outcome (List Nat)
  | a :: b :: c :: d :: _ => ok [a, b, c, d]
  | _ => ub

/-- `globalCheckAnd` and `globalCheckOr`, include/qdp_parscalar_specific.h:196-199, 210-213: both arguments are accessed as `unsigned int` -/
def callback (op : Nat → Nat → Nat) (inout inp : List Nat) : Outcome (List Nat) := do
  let a ← readU inout
  let b ← readU inp
  ok (List.zipWith op a b ++ inout.drop 4)

/-- a `bool` of `sb` bytes -/
def boolRep (sb : Nat) (b : Bool) : List Nat := (if b then 1 else 0) :: List.replicate (sb - 1) 0

/-- `globalAnd`, `globalOr`, include/qdp_parscalar_specific.h:202-205, 216-219, for a reduction that combines the values of the nodes in some order;
with one node there is nothing to combine -/
def reduce (op : Nat → Nat → Nat) (sb : Nat) : List Bool → Outcome (List Nat)
  | [] => ub
  | b :: bs => bs.foldlM (fun acc x => callback op acc (boolRep sb x)) (boolRep sb b)

/-! ## classification: specification -/

/-- `words a` are the machine numbers in `a`.  The functions mean: some number is a not-a-number, some is infinite, all are normal, all are finite -/
structure Meaning {W : Type} (w : Cls W) (words : A → List W) (c : Cls A) : Prop where
  nan : ∀ a, c.nan a = (words a).any w.nan
  inf : ∀ a, c.inf a = (words a).any w.inf
  finite : ∀ a, c.finite a = (words a).all w.finite

/-- and `isnormal` too -/
def MeaningNormal {W : Type} (w : Cls W) (words : A → List W) (c : Cls A) : Prop := ∀ a, c.normal a = (words a).all w.normal

/-! ## classification: properties -/

theorem orLoop_eq (f : A → Bool) (l : List A) : orLoop f l = l.any f := by
  unfold orLoop
  have : ∀ (l : List A) (d : Bool), l.foldl (fun d x => d || f x) d = (d || l.any f) := by
    intro l
    induction l with
    | nil => intro d; simp
    | cons x xs ih => intro d; rw [List.foldl_cons, ih, List.any_cons, Bool.or_assoc]
  rw [this]; simp

theorem andLoop_eq (f : A → Bool) (l : List A) : andLoop f l = l.all f := by
  unfold andLoop
  have : ∀ (l : List A) (d : Bool), l.foldl (fun d x => d && f x) d = (d && l.all f) := by
    intro l
    induction l with
    | nil => intro d; simp
    | cons x xs ih => intro d; rw [List.foldl_cons, ih, List.all_cons, Bool.and_assoc]
  rw [this]; simp

theorem any_flatMap {B : Type} (f : B → Bool) (g : A → List B) (l : List A) : (l.flatMap g).any f = l.any fun a => (g a).any f := by
  induction l with
  | nil => rfl
  | cons x xs ih => simp [ih]

theorem all_flatMap {B : Type} (f : B → Bool) (g : A → List B) (l : List A) : (l.flatMap g).all f = l.all fun a => (g a).all f := by
  induction l with
  | nil => rfl
  | cons x xs ih => simp [ih]

section
variable {W : Type} {w : Cls W} {words : A → List W} {c : Cls A}

/-- C59: `isnan`, `isinf` and `isfinite` mean what they say for every nesting of the types -/
theorem C59_word : Meaning w (fun x : W => [x]) w := ⟨by simp, by simp, by simp⟩
theorem C59_scalar (h : Meaning w words c) : Meaning w words (ofScalar c) := ⟨h.nan, h.inf, h.finite⟩
theorem C59_complex (h : Meaning w words c) : Meaning w (fun z : A × A => words z.1 ++ words z.2) (ofComplex c) :=
  ⟨by intro z; simp [ofComplex, h.nan], by intro z; simp [ofComplex, h.inf], by intro z; simp [ofComplex, h.finite]⟩
theorem C59_vector (h : Meaning w words c) : Meaning w (fun l : List A => l.flatMap words) (ofVector c) := by
  refine ⟨?_, ?_, ?_⟩ <;> intro l
  · simp only [ofVector, orLoop_eq, any_flatMap, ← h.nan]
  · simp only [ofVector, orLoop_eq, any_flatMap, ← h.inf]
  · simp only [ofVector, andLoop_eq, all_flatMap, ← h.finite]
theorem C59_matrix (h : Meaning w words c) : Meaning w (fun l : List A => l.flatMap words) (ofMatrix c) := by
  refine ⟨?_, ?_, ?_⟩ <;> intro l
  · simp only [ofMatrix, orLoop_eq, any_flatMap, ← h.nan]
  · simp only [ofMatrix, orLoop_eq, any_flatMap, ← h.inf]
  · simp only [ofMatrix, andLoop_eq, all_flatMap, ← h.finite]
theorem C59_lattice (h : Meaning w words c) : Meaning w (fun l : List A => l.flatMap words) (ofLattice c) := by
  refine ⟨?_, ?_, ?_⟩ <;> intro l
  · simp only [ofLattice, orLoop_eq, any_flatMap, ← h.nan]
  · simp only [ofLattice, orLoop_eq, any_flatMap, ← h.inf]
  · simp only [ofLattice, andLoop_eq, all_flatMap, ← h.finite]

/-- C59: `isnormal` too, as long as no matrix is involved -/
theorem C59_normal_partial : MeaningNormal w (fun x : W => [x]) w ∧
    (MeaningNormal w words c → MeaningNormal w words (ofScalar c) ∧
      MeaningNormal w (fun z : A × A => words z.1 ++ words z.2) (ofComplex c) ∧
      MeaningNormal w (fun l : List A => l.flatMap words) (ofVector c) ∧
      MeaningNormal w (fun l : List A => l.flatMap words) (ofLattice c)) := by
  refine ⟨by intro x; simp, fun h => ⟨h, ?_, ?_, ?_⟩⟩
  · intro z; simp [ofComplex, h _]
  · intro l; simp only [ofVector, andLoop_eq, all_flatMap, ← h _]
  · intro l; simp only [ofLattice, andLoop_eq, all_flatMap, ← h _]

/-- C59: `isnormal` of a matrix is true exactly if every element has an infinite part -/
theorem C59_matrix_normal (h : Meaning w words c) (l : List A) : (ofMatrix c).normal l = l.all fun a => (words a).any w.inf := by
  simp only [ofMatrix, andLoop_eq, ← h.inf]

/-- C59: so it is false for every matrix of normal numbers, and for lattices of such matrices -/
theorem C59_matrix_normal_wrong (hw : ∀ x, w.normal x = true → w.inf x = false) (h : Meaning w words c) (l : List A) (hne : l ≠ [])
    (hl : (l.flatMap words).all w.normal = true) : (ofMatrix c).normal l = false ∧ ∀ rest, (ofLattice (ofMatrix c)).normal (l :: rest) = false := by
  have h0 : (ofMatrix c).normal l = false := by
    rw [C59_matrix_normal h]
    cases l with
    | nil => exact absurd rfl hne
    | cons a as =>
      rw [List.all_cons]
      have : (words a).any w.inf = false := by
        rw [List.any_eq_false]
        intro x hx
        have hx' : w.normal x = true := by
          rw [List.all_eq_true] at hl
          exact hl x (by simp [hx])
        rw [hw x hx']
        simp
      rw [this, Bool.false_and]
  refine ⟨h0, fun rest => ?_⟩
  simp only [ofLattice, andLoop_eq, List.all_cons, h0, Bool.false_and]

/-- C59: and true for a matrix of infinities -/
theorem C59_matrix_normal_inf (h : Meaning w words c) (l : List A) (hl : ∀ a ∈ l, (words a).any w.inf = true) : (ofMatrix c).normal l = true := by
  rw [C59_matrix_normal h, List.all_eq_true]
  exact hl

end

/-- C59: a reduction over two or more nodes accesses `bool`s as `unsigned int`s, beyond their end wherever `bool` is shorter than four bytes -/
theorem C59_reduce_undefined (op : Nat → Nat → Nat) (sb : Nat) (h1 : 0 < sb) (hsb : sb < 4) (b b' : Bool) (bs : List Bool) :
    reduce op sb (b :: b' :: bs) = ub := by
  have : readU (boolRep sb b) = ub := by
    have h : sb = 1 ∨ sb = 2 ∨ sb = 3 := by omega
    rcases h with rfl | rfl | rfl <;> rfl
  simp only [reduce, List.foldlM_cons, callback, this, ub_bind]

theorem callback_and (a b : Bool) : callback (· &&& ·) (boolRep 4 a) (boolRep 4 b) = ok (boolRep 4 (a && b)) := by
  cases a <;> cases b <;> decide
theorem callback_or (a b : Bool) : callback (· ||| ·) (boolRep 4 a) (boolRep 4 b) = ok (boolRep 4 (a || b)) := by
  cases a <;> cases b <;> decide

/-- C59: where `bool` has four bytes the reductions are right -/
theorem C59_reduce_partial (b : Bool) (bs : List Bool) :
    reduce (· &&& ·) 4 (b :: bs) = ok (boolRep 4 ((b :: bs).all id)) ∧ reduce (· ||| ·) 4 (b :: bs) = ok (boolRep 4 ((b :: bs).any id)) := by
  simp only [reduce]
  induction bs generalizing b with
  | nil => simp
  | cons x xs ih =>
    simp only [List.foldlM_cons, callback_and, callback_or, ok_bind]
    constructor
    · rw [(ih (b && x)).1]; simp [Bool.and_assoc]
    · rw [(ih (b || x)).2]; simp [Bool.or_assoc]

/-- C59: on one node there is nothing to do -/
theorem C59_one_node (op : Nat → Nat → Nat) (sb : Nat) (b : Bool) : reduce op sb [b] = ok (boolRep sb b) := rfl

/-- numbers of four kinds -/
inductive Kind | normal | subnormal | inf | nan deriving DecidableEq
def kindCls : Cls Kind := ⟨fun k => k == .nan, fun k => k == .inf, fun k => k == .normal, fun k => k == .normal || k == .subnormal⟩

/-- a non-trivial case: a lattice of two 2 by 2 complex matrices of normal numbers -/
example : (ofLattice (ofMatrix (ofComplex kindCls))).finite [List.replicate 4 (.normal, .normal), List.replicate 4 (.normal, .subnormal)] = true ∧
    (ofLattice (ofMatrix (ofComplex kindCls))).normal [List.replicate 4 (.normal, .normal), List.replicate 4 (.normal, .normal)] = false ∧
    (ofLattice (ofMatrix (ofComplex kindCls))).normal [List.replicate 4 (.normal, .inf)] = true ∧
    ∀ k, kindCls.normal k = true → kindCls.inf k = false := by
  refine ⟨by decide, by decide, by decide, ?_⟩
  intro k; cases k <;> decide

end Verif.Extremes
