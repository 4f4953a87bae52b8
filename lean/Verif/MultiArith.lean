import Mathlib.Algebra.BigOperators.Group.List.Basic
import Mathlib.Algebra.Ring.Int.Defs
import Mathlib.Tactic.Ring
import Verif.Basic
import Verif.Subset
/-
Arithmetic on one-dimensional arrays: the constructors, compound assignments, binary operators, elementary functions, `concat` and `norm2` of
`multi1d`, include/qdp_multi.h:24-53, 76-222, 291-305, 378-636.

The element type is any type; its operations (`+=`, `*=`, ...) are given as functions that may end the program or be undefined (integer division by zero).
An array is `none` when its pointer is null (default constructor) and otherwise the list of its elements.  Memory is taken to be available.
-/
namespace Verif.MultiArith
open Verif Verif.Outcome

variable {α β : Type}

/-- pointer and length: `multi1d()` has a null pointer and length 0, include/qdp_multi.h:28 -/
abbrev Arr (α : Type) := Option (List α)

/-- `size()`, include/qdp_multi.h:60 -/
def size (a : Arr α) : Nat := (a.getD []).length

/-- `operator[]` for reading, include/qdp_multi.h:231-238: not checked; an access through the null pointer is undefined like one beyond the end -/
def get (a : Arr α) (i : Nat) : Outcome α := rd (a.getD []) i

/-- `F[i] = v` -/
def put (F : List α) (i : Nat) (v : α) : Outcome (List α) := if i < F.length then ok (F.set i v) else ub

/-- `for(int i=0; i < n; ++i) F[i] = …`, where the right hand side may look at `F[i]` -/
def loop (f : Nat → α → Outcome α) : Nat → Nat → List α → Outcome (List α)
  | _, 0, F => ok F
  | i, n + 1, F => do
      let x ← rd F i
      let v ← f i x
      let F' ← put F i v
      loop f (i + 1) n F'

/-- `multi1d(int ns1)`, include/qdp_multi.h:34, 257-269: the elements are what the default constructor of the element leaves -/
def make (d : α) (n : Nat) : List α := List.replicate n d

/-- copy constructor, include/qdp_multi.h:46-53 -/
def copy (d : α) (s : Arr α) : Outcome (List α) := loop (fun i _ => get s i) 0 (size s) (make d (size s))

/-- `operator=(const T1& s1)`, include/qdp_multi.h:77-89 -/
def fill (F : Arr α) (s : α) : Outcome (Arr α) :=
  match F with
  | none => abort
  | some F => do
      let F' ← loop (fun _ _ => ok s) 0 F.length F
      pure (some F')

/-- `operator+=(const multi1d&)` and `-=`, `*=`, `/=`, include/qdp_multi.h:107-118, 137-148, 167-178, 197-208.  The operand is another object. -/
def opArr (op : α → α → Outcome α) (F s1 : Arr α) : Outcome (Arr α) :=
  if size F ≠ size s1 then abort
  else match F with
  | none => ok none
  | some F => do
      let F' ← loop (fun i x => do let y ← get s1 i; op x y) 0 F.length F
      pure (some F')

/-- `a += a` and the like: the operand is the array itself, so that `s1.F[i]` is the element being changed.  include/qdp_multi.h:107-118, 137-148, 167-178, 197-208 -/
def opSelf (op : α → α → Outcome α) (F : Arr α) : Outcome (Arr α) :=
  match F with
  | none => ok none
  | some F => do
      let F' ← loop (fun _ x => op x x) 0 F.length F
      pure (some F')

/-- `operator+=(const T&)` and `-=`, `*=`, `/=`, include/qdp_multi.h:122-133, 152-163, 182-193, 212-223, for a scalar outside the array (otherwise C56) -/
def opScl (op : α → α → Outcome α) (F : Arr α) (s : α) : Outcome (Arr α) :=
  match F with
  | none => abort
  | some F => do
      let F' ← loop (fun _ x => op x s) 0 F.length F
      pure (some F')

/-- `operator+`, `-`, `*`, `/` of two arrays, include/qdp_multi.h:378-415 -/
def arrArr (op : α → α → Outcome α) (d : α) (a b : Arr α) : Outcome (Arr α) := do
  let c ← copy d a
  opArr op (some c) b

/-- `a + s`, `a - s`, `a * s`, `a / s`, include/qdp_multi.h:428-435, 446-454, 467-475, 488-496.  The scalar may be an element of `a`: `c` is a copy. -/
def arrScl (op : α → α → Outcome α) (d : α) (a : Arr α) (s : α) : Outcome (Arr α) := do
  let c ← copy d a
  opScl op (some c) s

/-- `s + a`, `s * a`, include/qdp_multi.h:418-425, 457-464: the same compound assignment as for `a + s` and `a * s` -/
def sclArr (op : α → α → Outcome α) (d : α) (s : α) (a : Arr α) : Outcome (Arr α) := do
  let c ← copy d a
  opScl op (some c) s

/-- `s / a`, include/qdp_multi.h:478-485 -/
def sclDiv (op : α → α → Outcome α) (d : α) (s : α) (a : Arr α) : Outcome (Arr α) := do
  let c ← fill (some (make d (size a))) s
  opArr op c a

/-- `sqrt`, `log`, `sin`, `cos`, `tan`, `asin`, `acos`, `atan`, include/qdp_multi.h:499-618 -/
def fnArr (f : α → Outcome α) (d : α) (a : Arr α) : Outcome (Arr α) := do
  let c ← loop (fun i _ => do let x ← get a i; f x) 0 (size a) (make d (size a))
  pure (some c)

/-- the additions of `norm2` after the first element, include/qdp_multi.h:628-629 -/
def normLoop (add mul : α → α → Outcome α) (a : Arr α) : Nat → Nat → α → Outcome α
  | _, 0, nn => ok nn
  | i, n + 1, nn => do
      let x ← get a i
      let q ← mul x x
      let nn' ← add nn q
      normLoop add mul a (i + 1) n nn'

/-- `norm2`, include/qdp_multi.h:622-632 -/
def norm2 (add mul : α → α → Outcome α) (a : Arr α) : Outcome α := do
  let x ← get a 0
  let nn ← mul x x
  normLoop add mul a 1 (size a - 1) nn

/-- the two loops of `concat`: `nz[j++] = l[i]`, include/qdp_multi.h:295-300 -/
def putAll (src : Arr α) : Nat → Nat → Nat → List α → Outcome (Nat × List α)
  | _, 0, j, nz => ok (j, nz)
  | i, n + 1, j, nz => do
      let x ← get src i
      let nz' ← put nz j x
      putAll src (i + 1) n (j + 1) nz'

/-- `concat`, include/qdp_multi.h:291-303.  `nz` is an array of `int` whatever the element type and there is no conversion between arrays of different types,
so that only `concat` of arrays of `int` can be instantiated; `α` is written for it. -/
def concat (d : α) (l r : Arr α) : Outcome (Arr α) := do
  let (j, nz) ← putAll l 0 (size l) 0 (make d (size l + size r))
  let (_, nz) ← putAll r 0 (size r) j nz
  pure (some nz)

/-! ### specification -/

/-- `c` holds at every place the result of `f` at that place, and nothing else -/
def Pointwise (f : Nat → Outcome α) (n : Nat) (c : Arr α) : Prop := ∃ vs, c = some vs ∧ vs.length = n ∧ ∀ i, i < n → ∃ v, vs[i]? = some v ∧ f i = ok v

/-- the elements of an array -/
def el (a : Arr α) : List α := a.getD []

/-! ### loops -/

theorem loop_eq (f : Nat → α → Outcome α) (g : Nat → Outcome α) : ∀ (n i : Nat) (F : List α), F.length = i + n →
    (∀ j x, i ≤ j → F[j]? = some x → f j x = g j) → ∀ r, loop f i n F = ok r ↔ (r.length = i + n ∧ (∀ j, j < i → r[j]? = F[j]?) ∧
      ∀ j, i ≤ j → j < i + n → ∃ v, r[j]? = some v ∧ g j = ok v) := by
  intro n
  induction n with
  | zero =>
    intro i F hF _ r
    simp only [loop, ok.injEq]
    constructor
    · rintro rfl
      exact ⟨hF, fun _ _ => rfl, fun j h1 h2 => by omega⟩
    · rintro ⟨h1, h2, -⟩
      apply List.ext_getElem?
      intro j
      by_cases hj : j < i
      · exact (h2 j hj).symm
      · rw [List.getElem?_eq_none (by omega), List.getElem?_eq_none (by omega)]
  | succ n ih =>
    intro i F hF hf r
    have hi : i < F.length := by omega
    have hx : F[i]? = some F[i] := List.getElem?_eq_getElem hi
    simp only [loop, rd_of_lt hi, ok_bind, hf i _ (Nat.le_refl _) hx]
    cases hg : g i with
    | abort =>
      simp only [abort_bind, reduceCtorEq, false_iff]
      rintro ⟨-, -, h⟩
      obtain ⟨v, -, h⟩ := h i (Nat.le_refl _) (by omega)
      rw [hg] at h; cases h
    | ub =>
      simp only [ub_bind, reduceCtorEq, false_iff]
      rintro ⟨-, -, h⟩
      obtain ⟨v, -, h⟩ := h i (Nat.le_refl _) (by omega)
      rw [hg] at h; cases h
    | ok v =>
      simp only [ok_bind, put, if_pos hi]
      rw [ih (i + 1) (F.set i v) (by simp; omega) (by
        intro j x hj hs
        rw [List.getElem?_set, if_neg (by omega)] at hs
        exact hf j x (by omega) hs) r]
      constructor
      · rintro ⟨h1, h2, h3⟩
        refine ⟨by omega, fun j hj => ?_, fun j hj hj2 => ?_⟩
        · rw [h2 j (by omega), List.getElem?_set, if_neg (by omega)]
        · by_cases e : j = i
          · subst e
            refine ⟨v, ?_, hg⟩
            rw [h2 j (by omega), List.getElem?_set, if_pos rfl, if_pos hi]
          · exact h3 j (by omega) (by omega)
      · rintro ⟨h1, h2, h3⟩
        refine ⟨by omega, fun j hj => ?_, fun j hj hj2 => h3 j (by omega) (by omega)⟩
        rw [List.getElem?_set]
        by_cases e : i = j
        · subst e
          obtain ⟨w, hw, hw'⟩ := h3 i (Nat.le_refl _) (by omega)
          rw [hg] at hw'; cases hw'
          rw [if_pos rfl, if_pos hi, hw]
        · rw [if_neg e]; exact h2 j (by omega)

/-- a whole array -/
theorem loop_all (f : Nat → α → Outcome α) (g : Nat → Outcome α) (F : List α) (hf : ∀ j x, F[j]? = some x → f j x = g j) (r : List α) :
    loop f 0 F.length F = ok r ↔ r.length = F.length ∧ ∀ j, j < F.length → ∃ v, r[j]? = some v ∧ g j = ok v := by
  rw [loop_eq f g F.length 0 F (by omega) (fun j x _ h => hf j x h) r]
  simp

theorem get_of (a : Arr α) (i : Nat) : get a i = rd (el a) i := rfl

theorem copy_eq (d : α) (s : Arr α) : copy d s = ok (el s) := by
  have h := (loop_all (fun i _ => get s i) (fun i => get s i) (make d (size s)) (fun _ _ _ => rfl) (el s)).2
  unfold copy
  have e : (make d (size s)).length = size s := by simp [make]
  rw [e] at h
  apply h
  refine ⟨rfl, fun j hj => ?_⟩
  have hj' : j < (el s).length := hj
  exact ⟨(el s)[j], List.getElem?_eq_getElem hj', by rw [get_of, rd_of_lt hj']⟩

theorem pointwise_congr {f g : Nat → Outcome α} {n : Nat} (h : ∀ i, i < n → f i = g i) (c : Arr α) : Pointwise f n c ↔ Pointwise g n c := by
  unfold Pointwise
  constructor
  · rintro ⟨vs, rfl, h1, h2⟩
    exact ⟨vs, rfl, h1, fun i hi => by obtain ⟨v, a, b⟩ := h2 i hi; exact ⟨v, a, by rw [← h i hi]; exact b⟩⟩
  · rintro ⟨vs, rfl, h1, h2⟩
    exact ⟨vs, rfl, h1, fun i hi => by obtain ⟨v, a, b⟩ := h2 i hi; exact ⟨v, a, by rw [h i hi]; exact b⟩⟩

theorem loop_some (f : Nat → α → Outcome α) (g : Nat → Outcome α) (F : List α) (hf : ∀ j x, F[j]? = some x → f j x = g j) (c : Arr α) :
    (do let F' ← loop f 0 F.length F; pure (some F') : Outcome (Arr α)) = ok c ↔ Pointwise g F.length c := by
  simp only [bind_eq_ok, pure_def, ok.injEq]
  constructor
  · rintro ⟨r, h, rfl⟩
    rw [loop_all f g F hf] at h
    exact ⟨r, rfl, h.1, h.2⟩
  · rintro ⟨vs, rfl, h1, h2⟩
    exact ⟨vs, (loop_all f g F hf vs).2 ⟨h1, h2⟩, rfl⟩

theorem opScl_ok (op : α → α → Outcome α) (F : List α) (s : α) (c : Arr α) :
    opScl op (some F) s = ok c ↔ Pointwise (fun i => do let x ← rd F i; op x s) F.length c := by
  unfold opScl
  exact loop_some _ _ F (fun j x h => by rw [rd_eq_ok.2 h]; rfl) c

theorem opArr_ok (op : α → α → Outcome α) (F : List α) (b : Arr α) (c : Arr α) :
    opArr op (some F) b = ok c ↔ F.length = (el b).length ∧ Pointwise (fun i => do let x ← rd F i; let y ← rd (el b) i; op x y) F.length c := by
  unfold opArr
  by_cases hs : size (some F) ≠ size b
  · rw [if_pos hs]
    simp only [reduceCtorEq, false_iff, not_and]
    exact fun h => absurd h hs
  · rw [if_neg hs]
    have hs' : F.length = (el b).length := Classical.not_not.1 hs
    simp only [hs', true_and]
    have := loop_some (fun i x => do let y ← get b i; op x y) (fun i => do let x ← rd F i; let y ← rd (el b) i; op x y) F
      (fun j x h => by rw [rd_eq_ok.2 h]; rfl) c
    rw [hs'] at this
    exact this

theorem opArr_size (op : α → α → Outcome α) (F b : Arr α) (h : size F ≠ size b) : opArr op F b = abort := by
  unfold opArr; rw [if_pos h]

/-! ### theorems -/

/-- C108. The sum, difference, product and quotient of two arrays is taken element by element, and arrays of different sizes are refused: for every
element type and operation, `a ∘ b` returns `c` exactly when the sizes agree and every `a[i] ∘ b[i]` returns `c[i]`. -/
theorem C108_arrays (op : α → α → Outcome α) (d : α) (a b c : Arr α) :
    (arrArr op d a b = ok c ↔ (el a).length = (el b).length ∧ Pointwise (fun i => do let x ← rd (el a) i; let y ← rd (el b) i; op x y) (el a).length c) ∧
    ((el a).length ≠ (el b).length → arrArr op d a b = abort) := by
  unfold arrArr
  rw [copy_eq]
  simp only [ok_bind]
  exact ⟨opArr_ok op _ b c, fun h => opArr_size op _ b h⟩

/-- C108. `a + s`, `a - s`, `a * s`, `a / s` apply the scalar to every element, also when it is an element of `a` and when `a` is empty or null. -/
theorem C108_right (op : α → α → Outcome α) (d s : α) (a c : Arr α) :
    arrScl op d a s = ok c ↔ Pointwise (fun i => do let x ← rd (el a) i; op x s) (el a).length c := by
  unfold arrScl
  rw [copy_eq]
  exact opScl_ok op _ s c

theorem fill_eq (F : List α) (s : α) : fill (some F) s = ok (some (List.replicate F.length s)) := by
  unfold fill
  have := (loop_some (fun _ _ => ok s) (fun _ => ok s) F (fun _ _ _ => rfl) (some (List.replicate F.length s))).2
  apply this
  exact ⟨_, rfl, by simp, fun i hi => ⟨s, by simp [hi], rfl⟩⟩

/-- C108. `s / a` divides the scalar by every element. -/
theorem C108_divide (op : α → α → Outcome α) (d s : α) (a c : Arr α) :
    sclDiv op d s a = ok c ↔ Pointwise (fun i => do let x ← rd (el a) i; op s x) (el a).length c := by
  unfold sclDiv
  rw [fill_eq]
  simp only [ok_bind]
  rw [opArr_ok]
  have e : (List.replicate (make d (size a)).length s).length = (el a).length := by simp [make, size, el]
  rw [e]
  simp only [true_and]
  apply pointwise_congr
  intro i hi
  have h1 : rd (List.replicate (make d (size a)).length s) i = ok s := by
    rw [rd_eq_ok]; simp only [make, List.length_replicate]; rw [List.getElem?_replicate]; exact if_pos hi
  rw [h1]; rfl

/-- C108. `sqrt` to `atan` apply the function to every element. -/
theorem C108_functions (f : α → Outcome α) (d : α) (a c : Arr α) :
    fnArr f d a = ok c ↔ Pointwise (fun i => do let x ← rd (el a) i; f x) (el a).length c := by
  unfold fnArr
  have := loop_some (fun i _ => do let x ← get a i; f x) (fun i => do let x ← rd (el a) i; f x) (make d (size a)) (fun _ _ _ => rfl) c
  have e : (make d (size a)).length = (el a).length := by simp [make, size, el]
  rw [e] at this
  exact this

/-- C108, partial. `s + a` and `s * a` are the sum and product element by element when the operation is commutative.
Missing: other operations, see `C108_left_refuted`. -/
theorem C108_left_partial (op : α → α → Outcome α) (hop : ∀ x y, op x y = op y x) (d s : α) (a c : Arr α) :
    sclArr op d s a = ok c ↔ Pointwise (fun i => do let x ← rd (el a) i; op s x) (el a).length c := by
  have : sclArr op d s a = arrScl op d a s := rfl
  rw [this, C108_right]
  apply pointwise_congr
  intro i hi
  rw [rd_of_lt hi]
  exact hop _ _

/-- C108. Exactly: `s * a` returns the products `a[i] * s`. -/
theorem C108_left_exact (op : α → α → Outcome α) (d s : α) (a c : Arr α) :
    sclArr op d s a = ok c ↔ Pointwise (fun i => do let x ← rd (el a) i; op x s) (el a).length c := C108_right op d s a c

/-- a matrix of two by two numbers: first row, second row -/
abbrev M2 := (Int × Int) × (Int × Int)
/-- the product of two matrices -/
def mul2 (x y : M2) : M2 :=
  ((x.1.1 * y.1.1 + x.1.2 * y.2.1, x.1.1 * y.1.2 + x.1.2 * y.2.2), (x.2.1 * y.1.1 + x.2.2 * y.2.1, x.2.1 * y.1.2 + x.2.2 * y.2.2))

/-- C108, refutation. For matrices `s * a` has the factors in the wrong order; for `std::string`, `s + a` appends where it should prepend. -/
theorem C108_left_refuted :
    (∃ (s : M2) (a c : List M2), sclArr (fun x y => ok (mul2 x y)) ((0, 0), (0, 0)) s (some a) = ok (some c) ∧ c ≠ a.map (mul2 s)) ∧
    (∃ (s : List Char) (a c : List (List Char)), sclArr (fun x y => ok (x ++ y)) [] s (some a) = ok (some c) ∧ c ≠ a.map (s ++ ·)) :=
  ⟨⟨((0, 1), (0, 0)), [((0, 0), (1, 0))], [((0, 0), (0, 1))], by decide, by decide⟩, ⟨['a'], [['b']], [['b', 'a']], by decide, by decide⟩⟩

/-- C108. Compound assignment: element by element, also when the operand is the array itself; refused for different sizes; with a scalar refused for a null array. -/
theorem C108_compound (op : α → α → Outcome α) (F : List α) (b c : Arr α) (s : α) :
    (opArr op (some F) b = ok c ↔ F.length = (el b).length ∧ Pointwise (fun i => do let x ← rd F i; let y ← rd (el b) i; op x y) F.length c) ∧
    (opSelf op (some F) = ok c ↔ Pointwise (fun i => do let x ← rd F i; op x x) F.length c) ∧
    (opScl op (some F) s = ok c ↔ Pointwise (fun i => do let x ← rd F i; op x s) F.length c) ∧
    (fill (some F) s = ok (some (List.replicate F.length s))) ∧
    (opScl op none s = abort ∧ fill none s = abort ∧ opArr op none none = ok none ∧ opSelf op none = ok none) := by
  refine ⟨opArr_ok op F b c, ?_, opScl_ok op F s c, fill_eq F s, rfl, rfl, rfl, rfl⟩
  unfold opSelf
  exact loop_some _ _ F (fun j x h => by rw [rd_eq_ok.2 h]; rfl) c

theorem normLoop_eq (add mul : α → α → α) (a : Arr α) : ∀ (n i : Nat) (nn : α), i + n = (el a).length →
    normLoop (fun x y => ok (add x y)) (fun x y => ok (mul x y)) a i n nn = ok (((el a).drop i).foldl (fun t x => add t (mul x x)) nn) := by
  intro n
  induction n with
  | zero => intro i nn h; rw [List.drop_eq_nil_of_le (by omega)]; rfl
  | succ n ih =>
    intro i nn h
    have hi : i < (el a).length := by omega
    simp only [normLoop, get_of, rd_of_lt hi, ok_bind]
    rw [ih (i + 1) _ (by omega), List.drop_eq_getElem_cons hi, List.foldl_cons]

theorem foldl_add_sum {R : Type} [Semiring R] (f : R → R) : ∀ (l : List R) (t : R), l.foldl (fun t x => t + f x) t = t + (l.map f).sum := by
  intro l
  induction l with
  | nil => intro t; simp
  | cons x l ih => intro t; rw [List.foldl_cons, ih, List.map_cons, List.sum_cons, add_assoc]

/-- C108, partial. `norm2` of an array of numbers that is not empty is the sum of the squares `a[i] * a[i]`.
Missing: empty arrays, and element types in which the norm is not `a[i] * a[i]`, see `C108_norm2_refuted`. -/
theorem C108_norm2_partial {R : Type} [Semiring R] (a : List R) (h : a ≠ []) :
    norm2 (fun x y : R => ok (x + y)) (fun x y => ok (x * y)) (some a) = ok ((a.map fun x => x * x).sum) := by
  cases a with
  | nil => exact absurd rfl h
  | cons x l =>
    have e : size (some (x :: l)) - 1 = l.length := by simp [size]
    have h0 : get (some (x :: l)) 0 = ok x := rfl
    unfold norm2
    rw [e, h0]
    simp only [ok_bind]
    have := normLoop_eq (fun x y : R => x + y) (fun x y : R => x * y) (some (x :: l)) l.length 1 (x * x) (by simp [el]; omega)
    rw [this]
    simp only [el, Option.getD_some, List.drop_succ_cons, List.drop_zero]
    rw [foldl_add_sum, List.map_cons, List.sum_cons]

/-- the product of two complex numbers (real part, imaginary part) -/
def mulC (x y : Int × Int) : Int × Int := (x.1 * y.1 - x.2 * y.2, x.1 * y.2 + x.2 * y.1)

/-- C108, refutation. `norm2` of an empty or null array, which should be 0, reads beyond the end; of an array of `std::complex` it is the sum of squares,
which may be negative. -/
theorem C108_norm2_refuted :
    (∀ add mul : α → α → Outcome α, norm2 add mul (some []) = ub ∧ norm2 add mul none = ub) ∧
    norm2 (fun x y : Int × Int => ok (x + y)) (fun x y => ok (mulC x y)) (some [(0, 1), (0, 2)]) = ok (-5, 0) :=
  ⟨fun _ _ => ⟨rfl, rfl⟩, by decide⟩

theorem putAll_eq (src : Arr α) : ∀ (n i j : Nat) (nz : List α), i + n = (el src).length → j + n ≤ nz.length →
    putAll src i n j nz = ok (j + n, nz.take j ++ (el src).drop i ++ nz.drop (j + n)) := by
  intro n
  induction n with
  | zero => intro i j nz h1 h2; rw [List.drop_eq_nil_of_le (by omega : (el src).length ≤ i)]; simp [putAll]
  | succ n ih =>
    intro i j nz h1 h2
    have hi : i < (el src).length := by omega
    have hj : j < nz.length := by omega
    simp only [putAll, get_of, rd_of_lt hi, ok_bind, put, if_pos hj]
    rw [ih (i + 1) (j + 1) _ (by omega) (by simp; omega)]
    have e1 : (nz.set j (el src)[i]).take (j + 1) = nz.take j ++ [(el src)[i]] := by
      rw [List.take_add_one, List.take_set_of_le (Nat.le_refl _), List.getElem?_set, if_pos rfl, if_pos hj]; rfl
    have e2 : (nz.set j (el src)[i]).drop (j + 1 + n) = nz.drop (j + 1 + n) := List.drop_set_of_lt (by omega)
    rw [e1, e2, List.drop_eq_getElem_cons hi]
    simp only [List.append_assoc, List.cons_append, List.nil_append, ok.injEq, Prod.mk.injEq]
    refine ⟨by omega, ?_⟩
    rw [show j + 1 + n = j + (n + 1) by omega]

/-- C108. `concat` of arrays of `int` is the one followed by the other. -/
theorem C108_concat (d : α) (l r : Arr α) : concat d l r = ok (some (el l ++ el r)) := by
  unfold concat
  have hl : size l = (el l).length := rfl
  have hr : size r = (el r).length := rfl
  rw [putAll_eq l (size l) 0 0 _ (by omega) (by simp [make])]
  simp only [ok_bind]
  rw [putAll_eq r (size r) 0 _ _ (by omega) (by simp [make, hl, hr])]
  simp only [ok_bind, pure_def, ok.injEq, Option.some.injEq]
  simp [make, hl, hr]

/-! ### witnesses -/
example : arrArr (fun x y : Int => ok (x - y)) 0 (some [5, 7]) (some [1, 2]) = ok (some [4, 5]) ∧
    arrArr (fun x y : Int => ok (x - y)) 0 (some [5, 7]) none = abort := by decide
/-- integers with the division of C++ -/
def divI (x y : Int) : Outcome Int := if y = 0 then ub else ok (x.tdiv y)
example : sclDiv divI 0 12 (some [3, 4]) = ok (some [4, 3]) ∧ sclDiv divI 0 12 (some [3, 0]) = ub := by decide
example : sclArr (fun x y : Int => ok (x * y)) 0 2 (some [3, 4]) = ok (some [6, 8]) ∧ (∀ x y : Int, (ok (x * y) : Outcome Int) = ok (y * x)) :=
  ⟨by decide, fun x y => by rw [mul_comm]⟩
example : norm2 (fun x y : Int => ok (x + y)) (fun x y => ok (x * y)) (some [3, -4]) = ok 25 ∧ [(3 : Int), -4] ≠ [] := by decide
example : concat (0 : Int) (some [1, 2]) (some [3]) = ok (some [1, 2, 3]) ∧ fnArr (fun x : Int => ok (x * x)) 0 (some [2, 3]) = ok (some [4, 9]) := by decide
end Verif.MultiArith
