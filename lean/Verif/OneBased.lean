import Verif.Multi
import Verif.MultiArith
/-
Property C126: arrays with indices that begin at one, include/qdp_arrays.h.

An array of rank 1 is a `std::vector`, those of rank 2 to 5 are the multi2d to multi5d of `Multi` with every index less one.  Index expressions are computed in
32-bit ints in the code and in `Int` here (for indices in range they do not overflow, C38).  Elements that were never assigned are `none`.
Negative sizes are not modelled.  The XML and binary input and output of rank 1 are those of `std::vector` (include/qdp_xmlio.h:416-419, 978-981) and
of C22 (include/qdp_io.h:825-833, 1326-1332).
-/
namespace Verif.OneBased
open Verif Outcome Verif.Layout Verif.Multi

section
variable {α : Type}

/-- element at an offset; an offset outside is undefined behaviour -/
def elem (F : List α) (off : Int) : Outcome α := if 0 ≤ off ∧ off < F.length then rd F off.toNat else ub

/-- `Array1dO::operator[]`, include/qdp_arrays.h:43, 46 -/
def off1 (i : Int) : Int := i - 1
/-- `Array2dO::operator()`, include/qdp_arrays.h:91, 94, with `multi2d::operator()`, include/qdp_multi.h:709 -/
def off2 (n1 : Nat) (i j : Int) : Int := (j - 1) + n1 * (i - 1)
/-- `Array3dO::operator()`, include/qdp_arrays.h:140, 143, with include/qdp_multi.h:808 -/
def off3 (n1 n2 : Nat) (i j k : Int) : Int := (k - 1) + n1 * ((j - 1) + n2 * (i - 1))
/-- `Array4dO::operator()`, include/qdp_arrays.h:186, 189, with include/qdp_multi.h:903 -/
def off4 (n1 n2 n3 : Nat) (i j k l : Int) : Int := (l - 1) + n1 * ((k - 1) + n2 * ((j - 1) + n3 * (i - 1)))
/-- `Array5dO::operator()`, include/qdp_arrays.h:233, 236, with include/qdp_multi.h:1000 -/
def off5 (n1 n2 n3 n4 : Nat) (i j k l m : Int) : Int := (m - 1) + n1 * ((l - 1) + n2 * ((k - 1) + n3 * ((j - 1) + n4 * (i - 1))))

/-- the offset, indices in the order they are written; sizes likewise, the first (include/qdp_arrays.h:69 etc., `n2, n1`) for the first index -/
def off : List Nat → List Int → Outcome Int
  | [_], [i] => ok (off1 i)
  | [_, n1], [i, j] => ok (off2 n1 i j)
  | [_, n2, n1], [i, j, k] => ok (off3 n1 n2 i j k)
  | [_, n3, n2, n1], [i, j, k, l] => ok (off4 n1 n2 n3 i j k l)
  | [_, n4, n3, n2, n1], [i, j, k, l, m] => ok (off5 n1 n2 n3 n4 i j k l m)
  | _, _ => ub

/-- the element with the given indices -/
def at_ (dims : List Nat) (F : List α) (c : List Int) : Outcome α := do
  let o ← off dims c
  elem F o

/-- `size()`: that of the vector, include/qdp_arrays.h:38; `size1()`, 77, 126, 171, 217 -/
def size (dims : List Nat) : Nat := dims.getLastD 0

/-- rank 1: `Array1dO(n)` and `resize(n)`, include/qdp_arrays.h:22, 37; `z` is a value-initialised element -/
def resize1 (z : α) (F : List (Option α)) (n : Nat) : List (Option α) := F.take n ++ List.replicate (n - F.length) (some z)
/-- higher ranks: include/qdp_arrays.h:74-75 etc., with include/qdp_multi.h:657-670: new elements, for numbers without a value -/
def resizeN (_F : List (Option α)) (dims : List Nat) : List (Option α) := List.replicate dims.prod none

/-- the loop of the operators of rank 1: `c.ref()[i] = f(a.ref()[i])` for all `i`, include/qdp_arrays.h:257-291 -/
def loop (f : α → α) (a : List α) : Nat → Nat → List α → Outcome (List α)
  | 0, _, c => ok c
  | n + 1, i, c => do
    let x ← rd a i
    if i < c.length then loop f a n (i + 1) (c.set i (f x)) else ub

/-- unary minus, `s * a` and `a / s`, include/qdp_arrays.h:250-291, with the function of the element; `z` as for `resize1` -/
def apply1 (z : α) (f : α → α) (a : List α) : Outcome (List α) :=
  let c := List.replicate a.length z
  loop f a c.length 0 c

/-! ## specification -/

/-- every index is at least one and at most its size -/
def In : List Int → List Nat → Prop
  | [], [] => True
  | x :: xs, n :: ns => 1 ≤ x ∧ x ≤ n ∧ In xs ns
  | _, _ => False

/-! ## proofs -/

theorem elem_ok {F : List α} {k : Nat} (h : k < F.length) : elem F k = ok F[k] := by
  rw [elem, if_pos ⟨by omega, by omega⟩, Int.toNat_natCast, rd_of_lt h]

/-- the indices less one, fastest first -/
def low (c : List Int) : List Nat := (c.map fun x => (x - 1).toNat).reverse

theorem low_inRange {c : List Int} {n : List Nat} (h : In c n) : InRange (low c) n.reverse := by
  have key : ∀ (c : List Int) (n : List Nat), In c n → InRange (c.map fun x => (x - 1).toNat) n := by
    intro c
    induction c with
    | nil => intro n h; cases n with
      | nil => simp [InRange]
      | cons _ _ => exact absurd h (by simp [In])
    | cons x xs ih => intro n h; cases n with
      | nil => exact absurd h (by simp [In])
      | cons m ms =>
        obtain ⟨h1, h2, h3⟩ := h
        exact ⟨by show (x - 1).toNat < m; omega, ih ms h3⟩
  exact inRange_reverse (key c n h)

theorem low_inj {c c' : List Int} {n : List Nat} (h : In c n) (h' : In c' n) (e : low c = low c') : c = c' := by
  have e : c.map (fun x => (x - 1).toNat) = c'.map fun x => (x - 1).toNat := List.reverse_injective e
  clear * - h h' e
  induction c generalizing c' n with
  | nil => cases c' with
    | nil => rfl
    | cons _ _ => simp at e
  | cons x xs ih => cases c' with
    | nil => simp at e
    | cons y ys =>
      cases n with
      | nil => exact absurd h (by simp [In])
      | cons m ms =>
        simp only [List.map_cons, List.cons.injEq] at e
        obtain ⟨h1, h2, h3⟩ := h
        obtain ⟨g1, g2, g3⟩ := h'
        rw [ih h3 g3 e.2]
        congr 1
        omega

theorem low_surj {d : List Nat} {n : List Nat} (h : InRange d n.reverse) : ∃ c, In c n ∧ low c = d := by
  have h2 := inRange_reverse h
  rw [List.reverse_reverse] at h2
  have key : ∀ (d : List Nat) (n : List Nat), InRange d n → In (d.map fun x : Nat => (x : Int) + 1) n := by
    intro d
    induction d with
    | nil => intro n h; cases n with
      | nil => trivial
      | cons _ _ => exact absurd h (by simp [InRange])
    | cons x xs ih => intro n h; cases n with
      | nil => exact absurd h (by simp [InRange])
      | cons m ms => exact ⟨by show (1 : Int) ≤ x + 1; omega, by have := h.1; show (x : Int) + 1 ≤ m; omega, ih ms h.2⟩
  refine ⟨_, key _ _ h2, ?_⟩
  simp [low, Function.comp_def]

theorem off_rank {dims : List Nat} (hd : dims.length ∈ [1, 2, 3, 4, 5]) {c : List Int} (h : In c dims) : off dims c = ok ((rank (low c) dims.reverse : Nat) : Int) := by
  have p : ∀ x : Int, 1 ≤ x → ((x.toNat - 1 : Nat) : Int) = x - 1 := fun x hx => by omega
  match dims, c, h with
  | [], _, _ => simp at hd
  | [a], [i], h => simp only [In] at h; simp [off, off1, low, rank]; omega
  | [a, b], [i, j], h =>
    simp only [In] at h
    simp [off, off2, low, rank, p i (by omega), p j (by omega)]
  | [a, b, d], [i, j, k], h =>
    simp only [In] at h
    simp [off, off3, low, rank, p i (by omega), p j (by omega), p k (by omega)]
  | [a, b, d, e], [i, j, k, l], h =>
    simp only [In] at h
    simp [off, off4, low, rank, p i (by omega), p j (by omega), p k (by omega), p l (by omega)]
  | [a, b, d, e, f], [i, j, k, l, m], h =>
    simp only [In] at h
    simp [off, off5, low, rank, p i (by omega), p j (by omega), p k (by omega), p l (by omega), p m (by omega)]
  | _ :: _ :: _ :: _ :: _ :: _ :: _, _, _ => simp at hd

/-! ## theorems -/

/-- C126: in arrays of ranks 1 to 5 and all sizes, indices from one to the sizes reach distinct elements, inside the array, and every element. -/
theorem C126_elements (dims : List Nat) (hd : dims.length ∈ [1, 2, 3, 4, 5]) :
    ∃ a : List Int → Nat, (∀ c, In c dims → off dims c = ok ((a c : Nat) : Int) ∧ a c < nsites dims) ∧
      (∀ c c', In c dims → In c' dims → a c = a c' → c = c') ∧ ∀ k, k < nsites dims → ∃ c, In c dims ∧ a c = k := by
  obtain ⟨r1, r2, r3⟩ := rank_addresses dims.reverse
  rw [nsites_reverse] at r1 r3
  refine ⟨fun c => rank (low c) dims.reverse, fun c h => ⟨off_rank hd h, r1 _ (low_inRange h)⟩,
    fun c c' h h' e => low_inj h h' (r2 _ _ (low_inRange h) (low_inRange h') e), fun k hk => ?_⟩
  obtain ⟨d, hd1, hd2⟩ := r3 k hk
  obtain ⟨c, hc, e⟩ := low_surj hd1
  exact ⟨c, hc, by simp only [e]; exact hd2⟩

/-- C126: reading with such indices is free of undefined behaviour -/
theorem C126_read (dims : List Nat) (hd : dims.length ∈ [1, 2, 3, 4, 5]) (F : List α) (hF : F.length = nsites dims) (c : List Int) (h : In c dims) :
    ∃ x, at_ dims F c = ok x := by
  obtain ⟨a, h1, -⟩ := C126_elements dims hd
  obtain ⟨e, hlt⟩ := h1 c h
  rw [← hF] at hlt
  exact ⟨F[a c], by rw [at_, e, ok_bind, elem_ok hlt]⟩

/-- C126: an element is the one of the underlying array (`ref()`, include/qdp_arrays.h:97-100 etc.) with all indices less one -/
theorem C126_ref (n1 n2 n3 n4 i j k l m : Nat) :
    off1 (i + 1) = i ∧ off2 n1 (i + 1) (j + 1) = idx2 n1 i j ∧ off3 n1 n2 (i + 1) (j + 1) (k + 1) = idx3 n1 n2 i j k ∧
    off4 n1 n2 n3 (i + 1) (j + 1) (k + 1) (l + 1) = idx4 n1 n2 n3 i j k l ∧
    off5 n1 n2 n3 n4 (i + 1) (j + 1) (k + 1) (l + 1) (m + 1) = idx5 n1 n2 n3 n4 i j k l m := by
  simp [off1, off2, off3, off4, off5, idx2, idx3, idx4, idx5]

/-- C126: the rows of an array of rank 2 are one after the other -/
theorem C126_rows (rows : List (List α)) (n2 n1 : Nat) (h2 : rows.length = n2) (h1 : ∀ r ∈ rows, r.length = n1) (i j : Nat) (hi : i < n2) (hj : j < n1) :
    at_ [n2, n1] rows.flatten [i + 1, j + 1] = ((rows[i]?.bind (·[j]?)).elim ub ok) := by
  have e : off2 n1 (i + 1) (j + 1) = ((j + n1 * i : Nat) : Int) := by simp [off2]
  have key : ∀ (rows : List (List α)) (i : Nat), (∀ r ∈ rows, r.length = n1) → rows.flatten[j + n1 * i]? = rows[i]?.bind (·[j]?) := by
    intro rows
    induction rows with
    | nil => intro i _; simp
    | cons r rows ih =>
      intro i hr
      have hl := hr r (by simp)
      cases i with
      | zero => simp [List.getElem?_append_left (show j < r.length by omega)]
      | succ i =>
        rw [List.flatten_cons, List.getElem?_append_right (by rw [hl, Nat.mul_succ]; omega), hl,
          show j + n1 * (i + 1) - n1 = j + n1 * i by rw [Nat.mul_succ]; omega, ih i (fun x hx => hr x (by simp [hx]))]
        simp
  have hx := key rows i h1
  simp only [at_, off, ok_bind, e, elem]
  have hi' : i < rows.length := by omega
  have hj' : j < (rows[i]).length := by rw [h1 _ (List.getElem_mem hi')]; exact hj
  rw [List.getElem?_eq_getElem hi', Option.bind_some, List.getElem?_eq_getElem hj'] at hx ⊢
  obtain ⟨hlt, hv⟩ := List.getElem?_eq_some_iff.1 hx
  rw [if_pos ⟨by omega, by omega⟩, Int.toNat_natCast, rd_of_lt hlt, hv]
  rfl

/-- C126: the first element of an array of rank 1 is number one, the last is number `size()`; everything else is outside -/
theorem C126_bounds (F : List α) (i : Int) : (∃ x, at_ [F.length] F [i] = ok x) ↔ 1 ≤ i ∧ i ≤ size [F.length] := by
  simp only [at_, off, ok_bind, off1, elem, size, List.getLastD_cons, List.getLastD_nil]
  split
  · next h => exact ⟨fun _ => by omega, fun _ => ⟨_, rd_of_lt (by omega)⟩⟩
  · next h => exact ⟨fun ⟨x, hx⟩ => absurd hx (by simp), fun _ => by omega⟩

/-- C126, refuted: from rank 2 on, an index outside its range is not noticed if another element is there: number 0 of a row is the last of the row before -/
theorem C126_zero_refuted (n2 n1 : Nat) (F : List α) (i : Int) :
    at_ [n2, n1] F [i + 1, 0] = at_ [n2, n1] F [i, n1] := by
  simp only [at_, off, off2, ok_bind]
  congr 1
  ring

/-- C126, refuted: `size()` of an array of rank 2 to 5 is the range of the last index, not of the first; a loop over it with the first index leaves an array
of rank 2 with more columns than rows -/
theorem C126_size_refuted (n2 n1 : Nat) (h : n2 < n1) (F : List α) (hF : F.length = n2 * n1) :
    ∃ i : Int, 1 ≤ i ∧ i ≤ size [n2, n1] ∧ at_ [n2, n1] F [i, 1] = ub := by
  refine ⟨n2 + 1, by omega, by simp [size]; omega, ?_⟩
  simp only [at_, off, off2, ok_bind, elem]
  rw [if_neg]
  rw [hF, Nat.mul_comm n2 n1]
  push_cast
  intro h
  have := h.2
  simp at this

/-- C126: for arrays with equal sizes, `size()` is the range of every index -/
theorem C126_size (dims : List Nat) (n : Nat) (hd : dims ≠ []) (h : ∀ m ∈ dims, m = n) : ∀ m ∈ dims, m = size dims := by
  intro m hm
  rw [h m hm, size, List.getLastD_eq_getLast?, List.getLast?_eq_some_getLast hd, Option.getD_some, h _ (List.getLast_mem hd)]

theorem loop_ok (f : α → α) (a : List α) : ∀ (n i : Nat) (c : List α), c.length = a.length → n + i = a.length →
    c.take i = (a.take i).map f → loop f a n i c = ok (a.map f)
  | 0, i, c, hc, hi, ht => by
    have : i = a.length := by omega
    subst this
    rw [List.take_length, ← hc, List.take_length] at ht
    rw [loop, ht]
  | n + 1, i, c, hc, hi, ht => by
    have hlt : i < a.length := by omega
    rw [loop, rd_of_lt hlt, ok_bind, if_pos (by omega)]
    refine loop_ok f a n (i + 1) _ (by simp [hc]) (by omega) ?_
    rw [List.take_succ_eq_append_getElem (by simp; omega), List.take_succ_eq_append_getElem hlt, List.map_append, List.take_set_of_le (Nat.le_refl i), ht]
    simp

/-- C126: minus, multiplication by a scalar from the left and division by a scalar act element by element, for all arrays, empty ones too -/
theorem C126_arithmetic {R : Type} [Neg R] [Mul R] [Div R] (z s : R) (a : List R) :
    apply1 z (fun x => -x) a = ok (a.map fun x => -x) ∧ apply1 z (s * ·) a = ok (a.map (s * ·)) ∧ apply1 z (· / s) a = ok (a.map (· / s)) := by
  have : ∀ f : R → R, apply1 z f a = ok (a.map f) := fun f => loop_ok f a _ 0 _ (by simp) (by simp) (by simp)
  exact ⟨this _, this _, this _⟩

/-- C126: resizing an array of rank 1 keeps the elements that remain and gives the new ones a value; of the other ranks it keeps none -/
theorem C126_resize (z : α) (F : List (Option α)) (n : Nat) (dims : List Nat) :
    (resize1 z F n).length = n ∧ (∀ i, i < n → (resize1 z F n)[i]? = if i < F.length then F[i]? else some (some z)) ∧
    (resizeN F dims).length = dims.prod ∧ ∀ x ∈ resizeN F dims, x = none := by
  refine ⟨by simp [resize1]; omega, fun i hi => ?_, by simp [resizeN], fun x hx => (List.mem_replicate.1 hx).2⟩
  simp only [resize1]
  split
  · next h => rw [List.getElem?_append_left (by simp; omega), List.getElem?_take_of_lt hi]
  · next h =>
    rw [List.getElem?_append_right (by simp; omega), List.getElem?_replicate, if_pos (by simp; omega)]

/-! ### cases -/

example : In [2, 3] [2, 3] ∧ at_ [2, 3] [10, 11, 12, 20, 21, 22] [2, 3] = ok 22 := ⟨by simp [In], by decide⟩
example : at_ [2, 3] [10, 11, 12, 20, 21, 22] [2, 0] = ok 12 := by decide
example : at_ [2, 3, 2] (List.range 12) [2, 1, 2] = ok 7 := by decide
example : apply1 0 (fun x : Int => -x) [1, -2, 3] = ok [-1, 2, -3] := by decide
example : resize1 0 [some 5, some 6] 3 = [some 5, some 6, some 0] := by decide

end
end Verif.OneBased
