import Verif.ShiftProps
import Mathlib.Tactic.Ring
import Mathlib.Data.List.Lex
/-
Array containers, include/qdp_multi.h.

Part 1: element addressing of multi1d..multi5d and multiNd.  Part 2: assignment, with a heap so that aliasing is visible.
Part 3: comparisons and compound assignments of multi1d.
Index expressions are computed in 32-bit ints in the code and in `Nat` here; `C38_no_overflow` shows that no intermediate
result exceeds the number of elements when the index is in range, so the two agree for arrays of less than 2^31 elements.
-/
namespace Verif.Multi
open Verif Outcome Verif.Layout

/-! ## Part 1: addressing -/

/-- `multi2d::operator()(j,i)`, include/qdp_multi.h:709 -/
def idx2 (n1 j i : Nat) : Nat := i + n1 * j
/-- `multi3d::operator()(k,j,i)`, include/qdp_multi.h:808 -/
def idx3 (n1 n2 k j i : Nat) : Nat := i + n1 * (j + n2 * k)
/-- `multi4d::operator()(l,k,j,i)`, include/qdp_multi.h:903 -/
def idx4 (n1 n2 n3 l k j i : Nat) : Nat := i + n1 * (j + n2 * (k + n3 * l))
/-- `multi5d::operator()(m,l,k,j,i)`, include/qdp_multi.h:1000 -/
def idx5 (n1 n2 n3 n4 m l k j i : Nat) : Nat := i + n1 * (j + n2 * (k + n3 * (l + n4 * m)))

/-- `multi2d::operator[](j)` is a view at `F + j*n1` of length `n1` (include/qdp_multi.h:715); `[i]` of it -/
def sub2 (n1 j i : Nat) : Nat := j * n1 + i
/-- `multi3d::operator[](k)` is a 2-d view at `F + n1*n2*k` (include/qdp_multi.h:814) -/
def sub3 (n1 n2 k j i : Nat) : Nat := n1 * n2 * k + sub2 n1 j i
/-- `multi4d::operator[](l)` is a 3-d view at `F + n1*n2*n3*l` (include/qdp_multi.h:909) -/
def sub4 (n1 n2 n3 l k j i : Nat) : Nat := n1 * n2 * n3 * l + sub3 n1 n2 k j i
/-- `multi5d::operator[](m)` is a 4-d view at `F + n1*n2*n3*n4*m` (include/qdp_multi.h:1006) -/
def sub5 (n1 n2 n3 n4 m l k j i : Nat) : Nat := n1 * n2 * n3 * n4 * m + sub4 n1 n2 n3 l k j i

/-- `multiNd::operator()(j,i)`, include/qdp_multi.h:1122-1131 -/
def ndCall2 (nz : List Nat) (j i : Nat) : Outcome Nat :=
  if nz.length ≠ 2 then abort else do
    let n0 ← rd nz 0
    return i + n0 * j
/-- `multiNd::operator()(k,j,i)`, include/qdp_multi.h:1146-1155 -/
def ndCall3 (nz : List Nat) (k j i : Nat) : Outcome Nat :=
  if nz.length ≠ 3 then abort else do
    let n0 ← rd nz 0
    let n1 ← rd nz 1
    return i + n0 * (j + n1 * k)
/-- `multiNd::operator()(l,k,j,i)`, include/qdp_multi.h:1170-1179 -/
def ndCall4 (nz : List Nat) (l k j i : Nat) : Outcome Nat :=
  if nz.length ≠ 4 then abort else do
    let n0 ← rd nz 0
    let n1 ← rd nz 1
    let n2 ← rd nz 2
    return i + n0 * (j + n1 * (k + n2 * l))
/-- loop `off = off*nz[i] + ind[i]`, include/qdp_multi.h:1203-1204 -/
def ndLoop : List Nat → List Nat → Nat → Nat
  | n :: ns, x :: xs, off => ndLoop ns xs (off * n + x)
  | _, _, off => off
/-- `multiNd::operator[](ind)`, include/qdp_multi.h:1194-1207 -/
def ndIndex (nz ind : List Nat) : Outcome Nat :=
  if ind.length ≠ nz.length then abort
  else match nz, ind with
    | _ :: ns, x :: xs => ok (ndLoop ns xs x)
    | _, _ => ub
/-- `multiNd::getElem(off)`, include/qdp_multi.h:1227-1236 -/
def ndGetElem (sz : Nat) (off : Int) : Outcome Nat :=
  if off < 0 ∨ off ≥ sz then abort else ok off.toNat

theorem idx_rank (n1 n2 n3 n4 n5 m l k j i : Nat) :
    idx2 n1 j i = rank [i, j] [n1, n2] ∧ idx3 n1 n2 k j i = rank [i, j, k] [n1, n2, n3] ∧
    idx4 n1 n2 n3 l k j i = rank [i, j, k, l] [n1, n2, n3, n4] ∧
    idx5 n1 n2 n3 n4 m l k j i = rank [i, j, k, l, m] [n1, n2, n3, n4, n5] := by
  simp [idx2, idx3, idx4, idx5, rank]

/-- the property "addresses distinct elements, inside and covering an allocation of `prod dims` elements"; `f` maps index
tuples (fastest first) to addresses -/
def Addresses (dims : List Nat) (f : List Nat → Nat) : Prop :=
  (∀ c, InRange c dims → f c < nsites dims) ∧
  (∀ c c', InRange c dims → InRange c' dims → f c = f c' → c = c') ∧
  (∀ a, a < nsites dims → ∃ c, InRange c dims ∧ f c = a)

theorem rank_addresses (dims : List Nat) : Addresses dims (fun c => rank c dims) := by
  refine ⟨fun c h => Layout.rank_lt h, fun c c' h h' e => ?_, fun a ha => ?_⟩
  · have e : rank c dims = rank c' dims := e
    rw [← Layout.digits_rank h, ← Layout.digits_rank h', e]
  · exact ⟨digits a dims, Layout.digits_inRange ha, Layout.rank_digits ha⟩

/-- C38. All index tuples of a multi2d..multi5d address distinct elements, inside the allocation and covering it, and
nested brackets denote the same element as the call operator. -/
theorem C38_addresses (n1 n2 n3 n4 n5 : Nat) :
    Addresses [n1, n2] (fun c => match c with | [i, j] => idx2 n1 j i | _ => 0) ∧
    Addresses [n1, n2, n3] (fun c => match c with | [i, j, k] => idx3 n1 n2 k j i | _ => 0) ∧
    Addresses [n1, n2, n3, n4] (fun c => match c with | [i, j, k, l] => idx4 n1 n2 n3 l k j i | _ => 0) ∧
    Addresses [n1, n2, n3, n4, n5] (fun c => match c with | [i, j, k, l, m] => idx5 n1 n2 n3 n4 m l k j i | _ => 0) ∧
    ∀ m l k j i, sub2 n1 j i = idx2 n1 j i ∧ sub3 n1 n2 k j i = idx3 n1 n2 k j i ∧
      sub4 n1 n2 n3 l k j i = idx4 n1 n2 n3 l k j i ∧ sub5 n1 n2 n3 n4 m l k j i = idx5 n1 n2 n3 n4 m l k j i := by
  have ext : ∀ {dims : List Nat} {f : List Nat → Nat}, (∀ c, InRange c dims → f c = rank c dims) → Addresses dims f := by
    intro dims f h
    obtain ⟨h1, h2, h3⟩ := rank_addresses dims
    refine ⟨fun c hc => by rw [h c hc]; exact h1 c hc, fun c c' hc hc' e => ?_, fun a ha => ?_⟩
    · rw [h c hc, h c' hc'] at e; exact h2 c c' hc hc' e
    · obtain ⟨c, hc, e⟩ := h3 a ha
      exact ⟨c, hc, by rw [h c hc]; exact e⟩
  refine ⟨ext ?_, ext ?_, ext ?_, ext ?_, ?_⟩
  · intro c hc
    match c, hc with | [i, j], _ => simp [idx2, rank]
  · intro c hc
    match c, hc with | [i, j, k], _ => simp [idx3, rank]
  · intro c hc
    match c, hc with | [i, j, k, l], _ => simp [idx4, rank]
  · intro c hc
    match c, hc with | [i, j, k, l, m], _ => simp [idx5, rank]
  · intro m l k j i
    simp only [sub2, sub3, sub4, sub5, idx2, idx3, idx4, idx5]
    refine ⟨by ring, by ring, by ring, by ring⟩

/-- C38. For an in-range index every intermediate result of the two address computations is at most the number of
elements. -/
theorem C38_no_overflow (n1 n2 n3 n4 n5 m l k j i : Nat) (h : InRange [i, j, k, l, m] [n1, n2, n3, n4, n5]) :
    (∀ t ∈ [n4 * m, l + n4 * m, n3 * (l + n4 * m), k + n3 * (l + n4 * m), n2 * (k + n3 * (l + n4 * m)),
        j + n2 * (k + n3 * (l + n4 * m)), n1 * (j + n2 * (k + n3 * (l + n4 * m))), idx5 n1 n2 n3 n4 m l k j i],
      t < nsites [n1, n2, n3, n4, n5]) ∧
    (∀ t ∈ [n1 * n2, n1 * n2 * n3, n1 * n2 * n3 * n4, n1 * n2 * n3 * n4 * m, n1 * n2 * n3 * l, n1 * n2 * k, j * n1],
      t ≤ nsites [n1, n2, n3, n4, n5]) := by
  have hlt := rank_lt h
  have he : rank [i, j, k, l, m] [n1, n2, n3, n4, n5] = idx5 n1 n2 n3 n4 m l k j i := by simp [idx5, rank]
  rw [he] at hlt
  obtain ⟨hi, hj, hk, hl, hm, -⟩ := h
  have mono : ∀ {n a x : Nat}, x < n → a ≤ n * a := fun h => Nat.le_mul_of_pos_left _ (by omega)
  have monr : ∀ {n a x : Nat}, x < n → a ≤ a * n := fun h => Nat.le_mul_of_pos_right _ (by omega)
  have t1 : l + n4 * m ≤ n3 * (l + n4 * m) := mono hk
  have t2 : k + n3 * (l + n4 * m) ≤ n2 * (k + n3 * (l + n4 * m)) := mono hj
  have t3 : j + n2 * (k + n3 * (l + n4 * m)) ≤ n1 * (j + n2 * (k + n3 * (l + n4 * m))) := mono hi
  have hns : nsites [n1, n2, n3, n4, n5] = n1 * n2 * n3 * n4 * n5 := by simp [nsites]; ring
  constructor
  · intro t ht
    unfold idx5 at hlt ht
    simp only [List.mem_cons, List.not_mem_nil, or_false] at ht
    omega
  · have u1 : n1 * n2 ≤ n1 * n2 * n3 := monr hk
    have u2 : n1 * n2 * n3 ≤ n1 * n2 * n3 * n4 := monr hl
    have u3 : n1 * n2 * n3 * n4 ≤ n1 * n2 * n3 * n4 * n5 := monr hm
    have v1 : n1 * n2 * n3 * n4 * m ≤ n1 * n2 * n3 * n4 * n5 := Nat.mul_le_mul_left _ (by omega)
    have v2 : n1 * n2 * n3 * l ≤ n1 * n2 * n3 * n4 := Nat.mul_le_mul_left _ (by omega)
    have v3 : n1 * n2 * k ≤ n1 * n2 * n3 := Nat.mul_le_mul_left _ (by omega)
    have v4 : j * n1 ≤ n1 * n2 := by rw [Nat.mul_comm n1 n2]; exact Nat.mul_le_mul_right _ (by omega)
    rw [hns]
    intro t ht
    simp only [List.mem_cons, List.not_mem_nil, or_false] at ht
    rcases ht with rfl | rfl | rfl | rfl | rfl | rfl | rfl <;> omega

theorem ndLoop_rank {ns xs : List Nat} (hlen : xs.length = ns.length) (off : Nat) :
    ndLoop ns xs off = rank (xs.reverse ++ [off]) (ns.reverse ++ [1]) := by
  have app : ∀ (a b : List Nat) (x n y m : Nat), a.length = b.length →
      rank (a ++ [x, y]) (b ++ [n, m]) = rank (a ++ [x + n * y]) (b ++ [m * n]) := by
    intro a
    induction a with
    | nil => intro b x n y m h; cases b with
      | nil => simp [rank]
      | cons => simp at h
    | cons a0 a ih => intro b x n y m h; cases b with
      | nil => simp at h
      | cons b0 b => simp only [List.cons_append, rank, ih b x n y m (by simpa using h)]
  have one : ∀ (a b : List Nat) (x n m : Nat), a.length = b.length → rank (a ++ [x]) (b ++ [n]) = rank (a ++ [x]) (b ++ [m]) := by
    intro a
    induction a with
    | nil => intro b x n m h; cases b with
      | nil => simp [rank]
      | cons => simp at h
    | cons a0 a ih => intro b x n m h; cases b with
      | nil => simp at h
      | cons b0 b => simp only [List.cons_append, rank, ih b x n m (by simpa using h)]
  induction ns generalizing xs off with
  | nil => cases xs with
    | nil => simp [ndLoop, rank]
    | cons => simp at hlen
  | cons n ns ih => cases xs with
    | nil => simp at hlen
    | cons x xs =>
      have hl : xs.length = ns.length := by simpa using hlen
      rw [ndLoop, ih hl]
      simp only [List.reverse_cons, List.append_assoc, List.cons_append, List.nil_append]
      rw [app _ _ _ _ _ _ (by simp [hl]), Nat.mul_comm off n, Nat.add_comm]
      exact one _ _ _ _ _ (by simp [hl])

theorem inRange_reverse {c n : List Nat} (h : InRange c n) : InRange c.reverse n.reverse := by
  have app : ∀ {a b a' b' : List Nat}, InRange a b → InRange a' b' → InRange (a ++ a') (b ++ b') := by
    intro a
    induction a with
    | nil => intro b a' b' h h'; cases b with
      | nil => exact h'
      | cons => exact absurd h (by simp [InRange])
    | cons x a ih => intro b a' b' h h'; cases b with
      | nil => exact absurd h (by simp [InRange])
      | cons n b => exact (⟨h.1, ih h.2 h'⟩ : x < n ∧ InRange (a ++ a') (b ++ b'))
  induction c generalizing n with
  | nil => cases n with
    | nil => exact h
    | cons => exact absurd h (by simp [InRange])
  | cons x c ih => cases n with
    | nil => exact absurd h (by simp [InRange])
    | cons m n =>
      rw [List.reverse_cons, List.reverse_cons]
      exact app (ih h.2) (⟨h.1, trivial⟩ : x < m ∧ InRange [] [])

theorem nsites_reverse (n : List Nat) : nsites n.reverse = nsites n := by
  have : ∀ l : List Nat, nsites l = l.prod := by
    intro l; induction l with
    | nil => rfl
    | cons a l ih => simp [nsites, ih]
  rw [this, this]; exact List.prod_reverse n

/-- C39, partial. For every rank and shape, access by index list `a[{..}]` is row-major: it addresses distinct elements
inside the allocation and covers it; a wrong number of indices stops the program; the flat accessor accepts exactly
the offsets inside.  Missing: the call operators, which use other strides, see `C39_strides_disagree`,
`C39_collision`. -/
theorem C39_index_partial (nz : List Nat) (hne : nz ≠ []) :
    (∀ ind, ind.length ≠ nz.length → ndIndex nz ind = abort) ∧
    (∀ ind, InRange ind nz → ∃ a, ndIndex nz ind = ok a ∧ a < nsites nz ∧ ndGetElem (nsites nz) a = ok a) ∧
    (∀ ind ind' a, InRange ind nz → InRange ind' nz → ndIndex nz ind = ok a → ndIndex nz ind' = ok a → ind = ind') ∧
    (∀ a, a < nsites nz → ∃ ind, InRange ind nz ∧ ndIndex nz ind = ok a) ∧
    (∀ off : Int, (off < 0 ∨ (nsites nz : Int) ≤ off) → ndGetElem (nsites nz) off = abort) := by
  obtain ⟨n, ns, rfl⟩ : ∃ n ns, nz = n :: ns := by cases nz with
    | nil => exact absurd rfl hne
    | cons a b => exact ⟨a, b, rfl⟩
  have one : ∀ (a b : List Nat) (x n m : Nat), a.length = b.length → rank (a ++ [x]) (b ++ [n]) = rank (a ++ [x]) (b ++ [m]) := by
    intro a
    induction a with
    | nil => intro b x n m h; cases b with
      | nil => simp [rank]
      | cons => simp at h
    | cons a0 a ih => intro b x n m h; cases b with
      | nil => simp at h
      | cons b0 b => simp only [List.cons_append, rank, ih b x n m (by simpa using h)]
  have key : ∀ ind, InRange ind (n :: ns) → ndIndex (n :: ns) ind = ok (rank ind.reverse (n :: ns).reverse) := by
    intro ind h
    have hl := h.length_eq
    match ind, h with
    | x :: xs, h =>
      have hl : xs.length = ns.length := by simpa using hl
      simp only [ndIndex, List.length_cons, hl, ne_eq, not_true_eq_false, if_false]
      rw [ndLoop_rank hl, List.reverse_cons, List.reverse_cons]
      congr 1
      exact one _ _ _ _ _ (by simp [hl])
  refine ⟨?_, ?_, ?_, ?_, ?_⟩
  · intro ind h; simp only [ndIndex, if_pos h]
  · intro ind h
    have hlt := Layout.rank_lt (inRange_reverse h)
    rw [nsites_reverse] at hlt
    refine ⟨_, key ind h, hlt, ?_⟩
    rw [ndGetElem, if_neg (by omega)]; simp
  · intro ind ind' a h h' e e'
    rw [key ind h] at e; rw [key ind' h'] at e'
    injection e with e; injection e' with e'
    have := (rank_addresses (n :: ns).reverse).2.1 _ _ (inRange_reverse h) (inRange_reverse h') (e.trans e'.symm)
    simpa using this
  · intro a ha
    rw [← nsites_reverse] at ha
    obtain ⟨c, hc, e⟩ := (rank_addresses (n :: ns).reverse).2.2 a ha
    have hc' : InRange c.reverse (n :: ns) := by simpa using inRange_reverse hc
    exact ⟨c.reverse, hc', by rw [key _ hc', List.reverse_reverse]; exact congrArg ok e⟩
  · intro off h
    rw [ndGetElem, if_pos (by omega)]

/-- C39, partial. When all extents are equal the call operators agree with index lists. -/
theorem C39_cubic_partial (n l k j i : Nat) :
    ndCall2 [n, n] j i = ndIndex [n, n] [j, i] ∧ ndCall3 [n, n, n] k j i = ndIndex [n, n, n] [k, j, i] ∧
    ndCall4 [n, n, n, n] l k j i = ndIndex [n, n, n, n] [l, k, j, i] := by
  simp only [ndCall2, ndCall3, ndCall4, ndIndex, ndLoop, rd, List.length_cons, List.length_nil, ne_eq, not_true_eq_false,
    if_false, List.getElem?_cons_zero, List.getElem?_cons_succ, ok_bind, pure_def, ok.injEq]
  refine ⟨by ring, by ring, by ring⟩

/-- C39, partial. For all extents the call operators denote the elements of an array with the extents in the reversed order; with any other
number of indices than the rank the program stops. -/
theorem C39_call_reversed_partial (n0 n1 n2 n3 l k j i : Nat) (nz : List Nat) :
    ndCall2 [n0, n1] j i = ndIndex [n1, n0] [j, i] ∧ ndCall3 [n0, n1, n2] k j i = ndIndex [n2, n1, n0] [k, j, i] ∧
    ndCall4 [n0, n1, n2, n3] l k j i = ndIndex [n3, n2, n1, n0] [l, k, j, i] ∧
    (nz.length ≠ 2 → ndCall2 nz j i = abort) ∧ (nz.length ≠ 3 → ndCall3 nz k j i = abort) ∧
    (nz.length ≠ 4 → ndCall4 nz l k j i = abort) := by
  refine ⟨?_, ?_, ?_, fun h => by simp [ndCall2, h], fun h => by simp [ndCall3, h], fun h => by simp [ndCall4, h]⟩ <;>
  simp only [ndCall2, ndCall3, ndCall4, ndIndex, ndLoop, rd, List.length_cons, List.length_nil, ne_eq, not_true_eq_false,
    if_false, List.getElem?_cons_zero, List.getElem?_cons_succ, ok_bind, pure_def, ok.injEq] <;> ring

/-- C39, partial. So they agree with index lists when the extents read the same in both orders; in rank 2 this is also needed, as soon as
there are two rows and one column. -/
theorem C39_palindrome_partial (n0 n1 l k j i : Nat) :
    ndCall3 [n0, n1, n0] k j i = ndIndex [n0, n1, n0] [k, j, i] ∧
    ndCall4 [n0, n1, n1, n0] l k j i = ndIndex [n0, n1, n1, n0] [l, k, j, i] ∧
    (1 < n0 → 0 < n1 → ((∀ j i, InRange [j, i] [n0, n1] → ndCall2 [n0, n1] j i = ndIndex [n0, n1] [j, i]) ↔ n0 = n1)) := by
  refine ⟨(C39_call_reversed_partial n0 n1 n0 0 0 k j i []).2.1, (C39_call_reversed_partial n0 n1 n1 n0 l k j i []).2.2.1, ?_⟩
  intro h0 h1
  constructor
  · intro h
    have := h 1 0 (by simp [InRange]; omega)
    rw [(C39_call_reversed_partial n0 n1 0 0 0 0 1 0 []).1] at this
    simpa [ndIndex, ndLoop] using this
  · rintro rfl j i -
    exact (C39_cubic_partial n0 0 0 j i).1

/-- C39, refutation. For a 2 x 3 array the call operator and the index list denote different elements. -/
theorem C39_strides_disagree : ndCall2 [2, 3] 1 0 = ok 2 ∧ ndIndex [2, 3] [1, 0] = ok 3 := by decide

/-- C39, refutation. In a 2 x 3 array (j < 2, i < 3, as `size(0) = 2`, `size(1) = 3`) two different elements share
an address under the call operator, and in a 3 x 2 array an in-range access lies outside the allocation of 6. -/
theorem C39_collision : InRange [0, 2] [2, 3] ∧ InRange [1, 0] [2, 3] ∧ ndCall2 [2, 3] 0 2 = ndCall2 [2, 3] 1 0 ∧
    InRange [2, 1] [3, 2] ∧ ndCall2 [3, 2] 2 1 = ok 7 ∧ ¬ (7 < nsites [3, 2]) := by decide

/-! ## Part 2: assignment on a heap -/

/-- one array object: its extents (fastest first), the address of its block (`none` = null pointer, as after default
construction) and `copymem`, set for arrays placed on someone else's memory -/
structure Obj where
  shape : List Nat
  ptr : Option Nat
  copymem : Bool
deriving DecidableEq

/-- memory: blocks (`none` = freed), the next fresh address, the array objects by name -/
structure Mem (α : Type) where
  block : Nat → Option (List (Option α))
  next : Nat
  obj : Nat → Obj

variable {α : Type}

/-- `resize`: stop if the memory is not owned, delete, record the extents, `new T[sz]` (elements uninitialised).
multi1d include/qdp_multi.h:256-268, multi2d 657-670, multi3d 750-767, multi4d 849-866, multi5d 945-962, multiNd 1042-1058
(multiNd has no `copymem`; deleting a null pointer does nothing).  Not modelled: failure of `new`; extents whose product
overflows `int`; a multiNd of rank 0 (`nz[0]` is read), and `sz` of a default-constructed multiNd, which is never
initialised (such an array may only be a destination; give it shape `[0]`). -/
def resize (m : Mem α) (l : Nat) (shape : List Nat) : Outcome (Mem α) :=
  if (m.obj l).copymem then abort else do
  let m ← match (m.obj l).ptr with
    | none => ok m
    | some p => match m.block p with
      | none => ub
      | some _ => ok { m with block := Function.update m.block p none }
  ok ⟨Function.update m.block m.next (some (List.replicate (nsites shape) none)), m.next + 1,
    Function.update m.obj l ⟨shape, some m.next, false⟩⟩

/-- `F[i]` read through an object; an uninitialised or out-of-range element is undefined -/
def load (m : Mem α) (o i : Nat) : Outcome α :=
  match (m.obj o).ptr with
  | none => ub
  | some p => match m.block p with
    | none => ub
    | some xs => match xs[i]? with
      | some (some a) => ok a
      | _ => ub

/-- `F[i] = a` through an object -/
def store (m : Mem α) (o i : Nat) (a : α) : Outcome (Mem α) :=
  match (m.obj o).ptr with
  | none => ub
  | some p => match m.block p with
    | none => ub
    | some xs => if i < xs.length then ok { m with block := Function.update m.block p (some (xs.set i (some a))) } else ub

/-- `for(i=0; i<sz; ++i) F[i] = s1.F[i]`, from `i`, `n` iterations left -/
def copyLoop (l r : Nat) : Nat → Nat → Mem α → Outcome (Mem α)
  | _, 0, m => ok m
  | i, n + 1, m => do
      let a ← load m r i
      let m ← store m l i a
      copyLoop l r (i + 1) n m

/-- `multi1d::operator=(const multi1d&)`, include/qdp_multi.h:65-73: resizes only when the sizes differ -/
def assign1 (m : Mem α) (l r : Nat) : Outcome (Mem α) := do
  let m ← if (m.obj l).shape ≠ (m.obj r).shape then resize m l (m.obj r).shape else ok m
  copyLoop l r 0 (nsites (m.obj l).shape) m

/-- `operator=` of multi2d..multi5d and multiNd, include/qdp_multi.h:681-688, 780-787, 875-882, 972-979, 1073-1080: always
resizes -/
def assignN (m : Mem α) (l r : Nat) : Outcome (Mem α) := do
  let m ← resize m l (m.obj r).shape
  copyLoop l r 0 (nsites (m.obj l).shape) m

/-! ### specification -/

/-- the elements of `o` are `vals`; a null array has none -/
def Holds (m : Mem α) (o : Nat) (vals : List α) : Prop :=
  match (m.obj o).ptr with
  | none => vals = []
  | some p => m.block p = some (vals.map some)

/-- object `o` has extents `shape` and elements `vals` -/
def View (m : Mem α) (o : Nat) (shape : List Nat) (vals : List α) : Prop :=
  (m.obj o).shape = shape ∧ vals.length = nsites shape ∧ Holds m o vals

/-- memory in which the objects `S` own their memory: each is null and has no elements, or owns a live block of the right
size; different objects own different blocks -/
structure Sound (m : Mem α) (S : Nat → Prop) : Prop where
  owns : ∀ o, S o → (m.obj o).copymem = false
  null : ∀ o, S o → (m.obj o).ptr = none → nsites (m.obj o).shape = 0
  live : ∀ o p, S o → (m.obj o).ptr = some p → p < m.next ∧ ∃ xs, m.block p = some xs ∧ xs.length = nsites (m.obj o).shape
  apart : ∀ o o' p, S o → S o' → (m.obj o).ptr = some p → (m.obj o').ptr = some p → o = o'

/-- copying from a different object -/
theorem copyLoop_ok {l r : Nat} (vals : List α) (p q : Nat) (hpq : p ≠ q) (n : Nat) (i : Nat) (m : Mem α) (done : List α)
    (hl : (m.obj l).ptr = some p) (hr : (m.obj r).ptr = some q) (hbr : m.block q = some (vals.map some))
    (hi : done.length = i) (hbl : ∃ rest, m.block p = some (done.map some ++ rest) ∧ rest.length = n)
    (hsum : done ++ vals.drop i = vals) (hlen : i + n = vals.length) :
    ∃ m', copyLoop l r i n m = ok m' ∧ m'.obj = m.obj ∧ m'.next = m.next ∧
      m'.block = Function.update m.block p (some (vals.map some)) := by
  induction n generalizing i m done with
  | zero =>
    obtain ⟨rest, h1, h2⟩ := hbl
    have h0 : rest = [] := List.length_eq_zero_iff.1 h2
    subst h0
    have hd : done = vals := by rw [List.drop_eq_nil_of_le (by omega), List.append_nil] at hsum; exact hsum
    subst hd
    refine ⟨m, rfl, rfl, rfl, ?_⟩
    rw [eq_comm, Function.update_eq_self_iff, h1, List.append_nil]
  | succ n ih =>
    obtain ⟨rest, h1, h2⟩ := hbl
    obtain ⟨x, rest, rfl⟩ : ∃ x y, rest = x :: y := by cases rest with
      | nil => simp at h2
      | cons a b => exact ⟨a, b, rfl⟩
    have hi' : i < vals.length := by omega
    have e1 : load m r i = ok vals[i] := by simp [load, hr, hbr, hi']
    have e2 : store m l i vals[i] = ok ⟨Function.update m.block p (some ((done ++ [vals[i]]).map some ++ rest)), m.next, m.obj⟩ := by
      simp only [store, hl, h1]
      rw [if_pos (by simp; omega)]
      congr 4
      rw [List.set_append_right _ _ (by simp [hi])]
      simp [hi]
    have hdrop : vals.drop i = vals[i] :: vals.drop (i + 1) := List.drop_eq_getElem_cons hi'
    obtain ⟨m', a1, a2, a3, a4⟩ := ih (i + 1) ⟨Function.update m.block p (some ((done ++ [vals[i]]).map some ++ rest)), m.next, m.obj⟩ (done ++ [vals[i]]) hl hr
        (by simp only []; rw [Function.update_of_ne (Ne.symm hpq)]; exact hbr) (by simp [hi])
        ⟨rest, by simp, by simpa using h2⟩ (by rw [List.append_assoc, List.singleton_append, ← hdrop]; exact hsum) (by omega)
    refine ⟨m', ?_, a2, a3, ?_⟩
    · simp only [copyLoop, e1, ok_bind, e2, a1]
    · rw [a4]; simp

/-- copying an initialised array onto itself element by element -/
theorem copyLoop_self {l : Nat} (vals : List α) (p : Nat) (n i : Nat) (m : Mem α)
    (hl : (m.obj l).ptr = some p) (hb : m.block p = some (vals.map some)) (hlen : i + n = vals.length) :
    copyLoop l l i n m = ok m := by
  induction n generalizing i m with
  | zero => rfl
  | succ n ih =>
    have hi : i < vals.length := by omega
    have e1 : load m l i = ok vals[i] := by simp [load, hl, hb, hi]
    have e2 : store m l i vals[i] = ok m := by
      simp only [store, hl, hb]
      rw [if_pos (by simpa using hi)]
      have : (vals.map some).set i (some vals[i]) = vals.map some := by
        apply List.ext_getElem (by simp)
        intro j h1 h2
        rw [List.getElem_set]
        split
        · next h => subst h; simp
        · rfl
      rw [this]
      have : Function.update m.block p (some (vals.map some)) = m.block := by
        rw [Function.update_eq_self_iff, hb]
      rw [this]
    simp only [copyLoop, e1, ok_bind, e2]
    exact ih (i + 1) m hl hb (by omega)

/-- what an assignment should do: `l` gets `r`'s shape and values, every other sound object keeps its view, and the memory
stays sound (so later writes through one object do not show in another) -/
def Assigned (S : Nat → Prop) (m m' : Mem α) (l r : Nat) : Prop :=
  Sound m' S ∧ (∀ shape vals, View m r shape vals → View m' l shape vals) ∧
  ∀ o shape vals, S o → o ≠ l → View m o shape vals → View m' o shape vals

theorem resize_ok {m : Mem α} {S : Nat → Prop} (hm : Sound m S) {l : Nat} (hl : S l) (shape : List Nat) :
    ∃ m', resize m l shape = ok m' ∧ Sound m' S ∧ m'.obj l = ⟨shape, some m.next, false⟩ ∧
      m'.block m.next = some (List.replicate (nsites shape) none) ∧ (∀ o, o ≠ l → m'.obj o = m.obj o) ∧
      (∀ o p, S o → o ≠ l → (m.obj o).ptr = some p → m'.block p = m.block p) := by
  -- the block map after the delete: unchanged for everybody else
  obtain ⟨B, hB, hkeep⟩ : ∃ B : Nat → Option (List (Option α)),
      resize m l shape = ok ⟨Function.update B m.next (some (List.replicate (nsites shape) none)), m.next + 1,
        Function.update m.obj l ⟨shape, some m.next, false⟩⟩ ∧
      ∀ o p, S o → o ≠ l → (m.obj o).ptr = some p → B p = m.block p := by
    cases hp : (m.obj l).ptr with
    | none =>
      refine ⟨m.block, ?_, fun _ _ _ _ _ => rfl⟩
      simp only [resize, hm.owns l hl, hp, ok_bind, Bool.false_eq_true, if_false]
    | some p =>
      obtain ⟨h4, xs, h2, h3⟩ := hm.live l p hl hp
      refine ⟨Function.update m.block p none, ?_, fun o q ho hne hq => ?_⟩
      · simp only [resize, hm.owns l hl, hp, h2, ok_bind, Bool.false_eq_true, if_false]
      · exact Function.update_of_ne (fun e : q = p => hne (hm.apart o l p ho hl (e ▸ hq) hp)) _ _
  have hkeep' : ∀ o p, S o → o ≠ l → (m.obj o).ptr = some p →
      Function.update B m.next (some (List.replicate (nsites shape) none)) p = m.block p := by
    intro o p ho hne hp
    have := (hm.live o p ho hp).1
    rw [Function.update_of_ne (by omega)]
    exact hkeep o p ho hne hp
  refine ⟨_, hB, ⟨?_, ?_, ?_, ?_⟩, by simp, by simp, fun o e => by simp [Function.update_of_ne e], hkeep'⟩
  · intro o ho
    by_cases e : o = l
    · subst e; simp
    · simp only [Function.update_of_ne e]; exact hm.owns o ho
  · intro o ho
    by_cases e : o = l
    · subst e; simp
    · simp only [Function.update_of_ne e]; exact hm.null o ho
  · intro o p ho
    by_cases e : o = l
    · subst e
      simp only [Function.update_self, Option.some.injEq]
      rintro rfl
      exact ⟨by omega, List.replicate (nsites shape) none, by simp, by simp⟩
    · simp only [Function.update_of_ne e]
      intro hp
      obtain ⟨g1, xs, g2, g3⟩ := hm.live o p ho hp
      exact ⟨by omega, xs, by rw [hkeep' o p ho e hp]; exact g2, g3⟩
  · intro o o' q ho ho' e1 e2
    by_cases a : o = l
    · by_cases b : o' = l
      · rw [a, b]
      · subst a
        simp only [Function.update_self, Function.update_of_ne b, Option.some.injEq] at e1 e2
        have := (hm.live o' q ho' e2).1
        omega
    · by_cases b : o' = l
      · subst b
        simp only [Function.update_self, Function.update_of_ne a, Option.some.injEq] at e1 e2
        have := (hm.live o q ho e1).1
        omega
      · simp only [Function.update_of_ne a, Function.update_of_ne b] at e1 e2
        exact hm.apart o o' q ho ho' e1 e2

theorem copy_assigned {S : Nat → Prop} {m m1 : Mem α} {l r : Nat} (hl : S l) (hr : S r) (hne : l ≠ r) (hm1 : Sound m1 S)
    {shape : List Nat} {vals : List α} (hv : View m r shape vals)
    (hobj : ∀ o, o ≠ l → m1.obj o = m.obj o) (hshape : (m1.obj l).shape = shape)
    (hblk : ∀ o p, S o → o ≠ l → (m.obj o).ptr = some p → m1.block p = m.block p) :
    ∃ m', copyLoop l r 0 (nsites (m1.obj l).shape) m1 = ok m' ∧ Assigned S m m' l r := by
  obtain ⟨hv1, hv4, hv3⟩ := hv
  -- the value of `r` is determined
  have huniq : ∀ sh vs, View m r sh vs → sh = shape ∧ vs = vals := by
    rintro sh vs ⟨w1, w4, w3⟩
    refine ⟨by rw [← w1, hv1], ?_⟩
    unfold Holds at hv3 w3
    cases hp : (m.obj r).ptr with
    | none => rw [hp] at hv3 w3; rw [hv3, w3]
    | some q =>
      rw [hp] at hv3 w3
      simp only [] at hv3 w3
      rw [hv3] at w3
      exact (List.map_injective_iff.2 (Option.some_injective _) (Option.some.inj w3)).symm
  -- everybody else keeps its elements as long as the blocks other than `l`'s are kept
  have hother : ∀ m' : Mem α, m'.obj = m1.obj → (∀ q, (m1.obj l).ptr ≠ some q → m'.block q = m1.block q) →
      ∀ o sh vs, S o → o ≠ l → View m o sh vs → View m' o sh vs := by
    rintro m' h1 h2 o sh vs ho hol ⟨w1, w4, w3⟩
    have hoo : m'.obj o = m.obj o := by rw [h1, hobj o hol]
    refine ⟨by rw [hoo]; exact w1, w4, ?_⟩
    unfold Holds at w3 ⊢
    rw [hoo]
    cases hp : (m.obj o).ptr with
    | none => rw [hp] at w3; exact w3
    | some q =>
      rw [hp] at w3
      simp only [] at w3 ⊢
      rw [h2 q (fun e => hol (hm1.apart o l q ho hl (by rw [hobj o hol]; exact hp) e)), hblk o q ho hol hp]
      exact w3
  by_cases h0 : nsites shape = 0
  · -- nothing to copy
    have hnil : vals = [] := List.length_eq_zero_iff.1 (by omega)
    refine ⟨m1, by rw [hshape, h0]; rfl, hm1, ?_, hother m1 rfl (fun _ _ => rfl)⟩
    intro sh vs hw
    obtain ⟨rfl, rfl⟩ := huniq sh vs hw
    refine ⟨hshape, hv4, ?_⟩
    unfold Holds
    cases hp : (m1.obj l).ptr with
    | none => exact hnil
    | some p =>
      obtain ⟨-, xs, a2, a3⟩ := hm1.live l p hl hp
      rw [hshape, h0] at a3
      rw [List.length_eq_zero_iff.1 a3] at a2
      rw [hnil]; exact a2
  · obtain ⟨p, a1⟩ : ∃ p, (m1.obj l).ptr = some p := by
      cases hp : (m1.obj l).ptr with
      | none => exact absurd (hshape ▸ hm1.null l hl hp) h0
      | some p => exact ⟨p, rfl⟩
    obtain ⟨q, hv2⟩ : ∃ q, (m.obj r).ptr = some q := by
      cases hp : (m.obj r).ptr with
      | none => unfold Holds at hv3; rw [hp] at hv3; simp only [] at hv3; rw [hv3] at hv4; exact absurd hv4.symm h0
      | some p => exact ⟨p, rfl⟩
    unfold Holds at hv3
    rw [hv2] at hv3
    simp only [] at hv3
    obtain ⟨a4, xs, a2, a3⟩ := hm1.live l p hl a1
    have hrp : (m1.obj r).ptr = some q := by rw [hobj r (Ne.symm hne)]; exact hv2
    have hpq : p ≠ q := fun e => hne (hm1.apart l r p hl hr a1 (e ▸ hrp))
    have hbr : m1.block q = some (vals.map some) := by rw [hblk r q hr (Ne.symm hne) hv2]; exact hv3
    rw [hshape] at a3 ⊢
    obtain ⟨m', b1, b2, b3, b4⟩ := copyLoop_ok vals p q hpq (nsites shape) 0 m1 [] a1 hrp hbr rfl ⟨xs, by simpa using a2, a3⟩
      (by simp) (by omega)
    refine ⟨m', b1, ⟨?_, ?_, ?_, ?_⟩, ?_, hother m' b2 ?_⟩
    · rw [b2]; exact hm1.owns
    · rw [b2]; exact hm1.null
    · intro o p' ho hp'
      rw [b2] at hp' ⊢
      obtain ⟨g4, ys, g2, g3⟩ := hm1.live o p' ho hp'
      rw [b3, b4]
      refine ⟨g4, ?_⟩
      by_cases e : p' = p
      · subst e
        have : o = l := hm1.apart o l p' ho hl hp' a1
        subst this
        exact ⟨vals.map some, by simp, by rw [List.length_map, hv4, hshape]⟩
      · exact ⟨ys, by rw [Function.update_of_ne e]; exact g2, g3⟩
    · rw [b2]; exact hm1.apart
    · intro sh vs hw
      obtain ⟨rfl, rfl⟩ := huniq sh vs hw
      refine ⟨by rw [b2]; exact hshape, hv4, ?_⟩
      unfold Holds
      rw [b2, a1, b4]
      simp
    · intro q' hq'
      rw [b4, Function.update_of_ne]
      rintro rfl
      exact hq' a1

/-- C40, multi1d: assignment copies shape and values, also onto itself, and leaves every other array alone. -/
theorem C40_multi1d {S : Nat → Prop} (m : Mem α) (hm : Sound m S) (l r : Nat) (hl : S l) (hr : S r) (shape : List Nat)
    (vals : List α) (hv : View m r shape vals) : ∃ m', assign1 m l r = ok m' ∧ Assigned S m m' l r := by
  by_cases e : l = r
  · subst e
    obtain ⟨h1, h4, h3⟩ := hv
    refine ⟨m, ?_, hm, fun sh vs h => h, fun o sh vs ho hne h => h⟩
    simp only [assign1, ne_eq, not_true_eq_false, if_false, ok_bind]
    unfold Holds at h3
    cases hp : (m.obj l).ptr with
    | none => rw [hm.null l hl hp]; rfl
    | some p => rw [hp] at h3; exact copyLoop_self vals p _ 0 m hp h3 (by rw [h1]; omega)
  · by_cases hs : (m.obj l).shape = (m.obj r).shape
    · obtain ⟨m', a, b⟩ := copy_assigned hl hr e hm hv (fun o _ => rfl) (by rw [hs]; exact hv.1) (fun o p _ _ _ => rfl)
      exact ⟨m', by simp only [assign1, hs, ne_eq, not_true_eq_false, if_false, ok_bind]; rw [← hs]; exact a, b⟩
    · obtain ⟨m1, r1, r2, r3, r4, r5, r6⟩ := resize_ok hm hl (m.obj r).shape
      obtain ⟨m', a, b⟩ := copy_assigned hl hr e r2 hv r5 (by rw [r3]; exact hv.1) r6
      exact ⟨m', by simp only [assign1, ne_eq, hs, not_false_eq_true, if_true, r1, ok_bind]; exact a, b⟩

/-- C40, partial, multi2d..multi5d and multiNd: assignment from a different array copies shape and values and leaves every other
array alone.  Missing: self-assignment, see `C40_self_ub`. -/
theorem C40_multiNd_partial {S : Nat → Prop} (m : Mem α) (hm : Sound m S) (l r : Nat) (hl : S l) (hr : S r) (hne : l ≠ r)
    (shape : List Nat) (vals : List α) (hv : View m r shape vals) :
    ∃ m', assignN m l r = ok m' ∧ Assigned S m m' l r := by
  obtain ⟨m1, r1, r2, r3, r4, r5, r6⟩ := resize_ok hm hl (m.obj r).shape
  obtain ⟨m', a, b⟩ := copy_assigned hl hr hne r2 hv r5 (by rw [r3]; exact hv.1) r6
  exact ⟨m', by simp only [assignN, r1, ok_bind]; exact a, b⟩

/-- C40, refutation. Self-assignment of any non-empty multi2d..multi5d or multiNd frees its data and then reads the new,
uninitialised block. -/
theorem C40_self_ub {S : Nat → Prop} (m : Mem α) (hm : Sound m S) (l : Nat) (hl : S l)
    (hpos : 0 < nsites (m.obj l).shape) : assignN m l l = ub := by
  obtain ⟨m1, r1, r2, r3, r4, r5, r6⟩ := resize_ok hm hl (m.obj l).shape
  simp only [assignN, r1, ok_bind, r3]
  obtain ⟨n, hn⟩ : ∃ n, nsites (m.obj l).shape = n + 1 := ⟨_, (Nat.succ_pred_eq_of_pos hpos).symm⟩
  rw [hn] at r4 ⊢
  have : load m1 l 0 = ub := by
    simp only [load, r3]
    rw [r4]
    rfl
  simp only [copyLoop, this, ub_bind]

/-- C40. After an assignment, writing an element of one array does not change any other array. -/
theorem C40_independent {S : Nat → Prop} (m : Mem α) (hm : Sound m S) (l o : Nat) (hl : S l) (ho : S o) (hne : o ≠ l)
    (i : Nat) (a : α) (m' : Mem α) (hst : store m l i a = ok m') (shape : List Nat) (vals : List α)
    (hv : View m o shape vals) : View m' o shape vals := by
  obtain ⟨h1, h4, h3⟩ := hv
  unfold store at hst
  cases hq : (m.obj l).ptr with
  | none => rw [hq] at hst; cases hst
  | some q =>
    obtain ⟨-, xs, g2, g3⟩ := hm.live l q hl hq
    rw [hq] at hst
    simp only [g2] at hst
    split at hst
    · injection hst with hst
      subst hst
      refine ⟨h1, h4, ?_⟩
      unfold Holds at h3 ⊢
      simp only []
      cases hp : (m.obj o).ptr with
      | none => rw [hp] at h3; exact h3
      | some p =>
        rw [hp] at h3
        simp only [] at h3 ⊢
        rw [Function.update_of_ne (fun e : p = q => hne (hm.apart o l q ho hl (e ▸ hp) hq))]
        exact h3
    · cases hst

/-- C40. An array placed on someone else's memory is never resized: assigning an array of another size to it stops the program,
and so does every assignment to such a multi2d..multi5d. -/
theorem C40_view_abort (m : Mem α) (l r : Nat) (h : (m.obj l).copymem = true) :
    ((m.obj l).shape ≠ (m.obj r).shape → assign1 m l r = abort) ∧ assignN m l r = abort := by
  refine ⟨fun hs => ?_, ?_⟩
  · simp [assign1, hs, resize, h]
  · simp [assignN, resize, h]

/-! ## Part 3: comparisons -/

section Cmp
variable [LinearOrder α]

/-- `operator==`, include/qdp_multi.h:307-317 -/
def eqArr (a b : List α) : Bool :=
  if a.length = 0 ∨ a.length ≠ b.length then false else (a.zip b).all fun (x, y) => !(y != x)

/-- `operator<`, include/qdp_multi.h:329-340 -/
def ltArr : List α → List α → Bool
  | x :: a, y :: b => if x ≠ y then decide (x < y) else ltArr a b
  | a, b => if a.length = b.length then false else decide (a.length < b.length)

/-- `operator>`, include/qdp_multi.h:345-356 -/
def gtArr : List α → List α → Bool
  | x :: a, y :: b => if x ≠ y then decide (x > y) else gtArr a b
  | a, b => if a.length = b.length then false else decide (a.length > b.length)

/-- `operator<=` and `operator>=`, include/qdp_multi.h:361-374 -/
def leArr (a b : List α) : Bool := ltArr a b || eqArr a b
def geArr (a b : List α) : Bool := gtArr a b || eqArr a b

theorem ltArr_iff (a b : List α) : ltArr a b = true ↔ a < b := by
  induction a generalizing b with
  | nil => cases b <;> simp [ltArr]
  | cons x a ih =>
    cases b with
    | nil => simp [ltArr]
    | cons y b =>
      rw [ltArr, List.cons_lt_cons_iff]
      by_cases h : x = y
      · subst h; simp [ih]
      · simp [h]

theorem gtArr_iff (a b : List α) : gtArr a b = true ↔ b < a := by
  induction a generalizing b with
  | nil => cases b <;> simp [gtArr]
  | cons x a ih =>
    cases b with
    | nil => simp [gtArr]
    | cons y b =>
      rw [gtArr, List.cons_lt_cons_iff]
      by_cases h : x = y
      · subst h; simp [ih]
      · simp [h, Ne.symm h]

theorem eqArr_iff (a b : List α) : eqArr a b = true ↔ a = b ∧ a ≠ [] := by
  have key : ∀ (a b : List α), a.length = b.length → (((a.zip b).all fun (x, y) => !(y != x)) = true ↔ a = b) := by
    intro a
    induction a with
    | nil => intro b h; cases b <;> simp at h ⊢
    | cons x a ih =>
      intro b h
      cases b with
      | nil => simp at h
      | cons y b =>
        have := ih b (by simpa using h)
        simp only [List.zip_cons_cons, List.all_cons, Bool.and_eq_true, this, List.cons.injEq]
        simp only [Bool.not_eq_true', bne_eq_false_iff_eq]
        exact and_congr_left' eq_comm
  unfold eqArr
  by_cases h : a.length = 0 ∨ a.length ≠ b.length
  · rw [if_pos h]
    simp only [Bool.false_eq_true, false_iff, not_and, not_not]
    rintro rfl
    rcases h with h | h
    · exact List.length_eq_zero_iff.1 h
    · exact absurd rfl h
  · rw [if_neg h]
    simp only [not_or, not_not] at h
    rw [key a b h.2]
    constructor
    · rintro rfl; exact ⟨rfl, fun e => h.1 (by rw [e]; rfl)⟩
    · exact fun h => h.1

/-- C41. `<` is the lexicographic order (so a strict weak order: arrays can be map keys) and `>` its converse. -/
theorem C41_lt (a b c : List α) :
    (ltArr a b = true ↔ a < b) ∧ (gtArr a b = ltArr b a) ∧ ltArr a a = false ∧
    (ltArr a b = true → ltArr b c = true → ltArr a c = true) ∧
    (ltArr a b = false → ltArr b a = false → a = b) := by
  refine ⟨ltArr_iff a b, ?_, ?_, ?_, ?_⟩
  · rw [Bool.eq_iff_iff, gtArr_iff, ltArr_iff]
  · rw [Bool.eq_false_iff, ne_eq, ltArr_iff]; exact lt_irrefl a
  · rw [ltArr_iff, ltArr_iff, ltArr_iff]; exact lt_trans
  · rw [Bool.eq_false_iff, Bool.eq_false_iff, ne_eq, ne_eq, ltArr_iff, ltArr_iff]
    exact fun h1 h2 => le_antisymm (not_lt.1 h2) (not_lt.1 h1)

/-- C41, partial. On non-empty arrays `==` is equality, exactly one of <, ==, > holds, and <=, >= are the closures.
Missing: the empty array, see `C41_empty_not_equal`. -/
theorem C41_trichotomy_partial (a b : List α) (ha : a ≠ []) :
    (eqArr a b = true ↔ a = b) ∧
    ((ltArr a b = true ∧ eqArr a b = false ∧ gtArr a b = false) ∨ (ltArr a b = false ∧ eqArr a b = true ∧ gtArr a b = false) ∨
      (ltArr a b = false ∧ eqArr a b = false ∧ gtArr a b = true)) ∧
    (leArr a b = true ↔ a ≤ b) ∧ (geArr a b = true ↔ b ≤ a) := by
  have he : eqArr a b = true ↔ a = b := by rw [eqArr_iff]; exact ⟨fun h => h.1, fun h => ⟨h, ha⟩⟩
  refine ⟨he, ?_, ?_, ?_⟩
  · simp only [← Bool.not_eq_true, he, ltArr_iff, gtArr_iff]
    rcases lt_trichotomy a b with h | h | h
    · exact Or.inl ⟨h, ne_of_lt h, lt_asymm h⟩
    · subst h; exact Or.inr (Or.inl ⟨lt_irrefl a, rfl, lt_irrefl a⟩)
    · exact Or.inr (Or.inr ⟨lt_asymm h, (ne_of_lt h).symm, h⟩)
  · rw [leArr, Bool.or_eq_true, ltArr_iff, he, le_iff_lt_or_eq]
  · rw [geArr, Bool.or_eq_true, gtArr_iff, he, le_iff_lt_or_eq, eq_comm]

/-- C41, refutation. The empty array is not equal to itself, and none of the relations hold. -/
theorem C41_empty_not_equal : eqArr ([] : List α) [] = false ∧ ltArr ([] : List α) [] = false ∧ gtArr ([] : List α) [] = false ∧
    leArr ([] : List α) [] = false ∧ geArr ([] : List α) [] = false := by
  simp [eqArr, ltArr, gtArr, leArr, geArr]

end Cmp

/-! ### compound assignment by a scalar -/

/-- the value of the operand `s1` at this moment -/
def operand (F : List α) (ref : Option Nat) (s : α) : Outcome α :=
  match ref with
  | some k => rd F k
  | none => ok s

/-- `for(i=0; i<n1; ++i) F[i] op= s1`, where `s1` is a reference: `ref = some k` means `s1` is `F[k]` itself, `none` an unrelated
variable holding `s`.  include/qdp_multi.h:121-132 (`+=`), 151-162, 181-192, 211-222. -/
def scalarLoop (op : α → α → α) (ref : Option Nat) (s : α) : Nat → Nat → List α → Outcome (List α)
  | _, 0, F => ok F
  | i, n + 1, F => do
      let x ← rd F i
      let v ← operand F ref s
      scalarLoop op ref s (i + 1) n (F.set i (op x v))

theorem scalarLoop_spec (op : α → α → α) (ref : Option Nat) (s : α) (n i : Nat) (F G : List α)
    (hF : i + n = F.length) (hG : G.length = F.length) (href : ∀ k, ref = some k → k < F.length ∧ F[k]? = some s ∧ i ≤ k ∧ k + 1 = F.length)
    (h1 : ∀ j, j < i → F[j]? = (G[j]?).map (op · s)) (h2 : ∀ j, i ≤ j → F[j]? = G[j]?) :
    scalarLoop op ref s i n F = ok (G.map (op · s)) := by
  induction n generalizing i F with
  | zero =>
    simp only [scalarLoop, ok.injEq]
    apply List.ext_getElem?
    intro j
    rw [List.getElem?_map]
    by_cases hj : j < i
    · exact h1 j hj
    · rw [List.getElem?_eq_none (by omega), List.getElem?_eq_none (by omega)]; rfl
  | succ n ih =>
    have hi : i < F.length := by omega
    have hx : rd F i = ok F[i] := rd_of_lt hi
    have hv : operand F ref s = ok s := by
      cases ref with
      | none => rfl
      | some k => obtain ⟨-, e, -⟩ := href k rfl; exact rd_eq_ok.2 e
    simp only [scalarLoop, hx, ok_bind, hv]
    have hGi : G[i]? = some F[i] := by rw [← h2 i (Nat.le_refl _), List.getElem?_eq_getElem hi]
    by_cases hn : n = 0
    · subst hn
      simp only [scalarLoop, ok.injEq]
      apply List.ext_getElem?
      intro j
      rw [List.getElem?_set, List.getElem?_map]
      by_cases hj : i = j
      · subst hj; rw [if_pos rfl, if_pos hi, hGi]; rfl
      · rw [if_neg hj]
        by_cases hj2 : j < i
        · exact h1 j hj2
        · rw [List.getElem?_eq_none (by omega), List.getElem?_eq_none (by omega)]; rfl
    · apply ih (i + 1) (F.set i (op F[i] s)) (by simp; omega) (by simpa using hG)
      · intro k hk
        obtain ⟨a, b, c, d⟩ := href k hk
        refine ⟨by simpa using a, ?_, by omega, by simpa using d⟩
        rw [List.getElem?_set, if_neg (by omega)]; exact b
      · intro j hj
        rw [List.getElem?_set]
        by_cases e : i = j
        · subst e; rw [if_pos rfl, if_pos hi, hGi]; rfl
        · rw [if_neg e]; exact h1 j (by omega)
      · intro j hj
        rw [List.getElem?_set, if_neg (by omega)]; exact h2 j (by omega)

/-- C56, partial. `a op= s` applies the scalar to every element when `s` is not an element of `a`, or is its last one.
Missing: `s` an earlier element of `a`, see `C56_alias`. -/
theorem C56_scalar_partial (op : α → α → α) (F : List α) (s : α) :
    scalarLoop op none s 0 F.length F = ok (F.map (op · s)) ∧
    (∀ k, k + 1 = F.length → F[k]? = some s → scalarLoop op (some k) s 0 F.length F = ok (F.map (op · s))) := by
  constructor
  · exact scalarLoop_spec op none s F.length 0 F F (by omega) rfl (by simp) (by simp) (by simp)
  · intro k hk he
    exact scalarLoop_spec op (some k) s F.length 0 F F (by omega) rfl
      (by intro k' e; injection e with e; subst e; exact ⟨by omega, he, by omega, hk⟩) (by simp) (by simp)

/-- C56, refutation. `a *= a[0]` multiplies all but the first element by the square of `a[0]`. -/
theorem C56_alias : scalarLoop (fun x y : Nat => x * y) (some 0) 2 0 3 [2, 3, 5] = ok [4, 12, 20] ∧
    [2, 3, 5].map (fun x : Nat => x * 2) = [4, 6, 10] := by decide

/-! ### witnesses -/
example : InRange [1, 2, 0, 3, 4] [2, 3, 4, 5, 6] ∧ idx5 2 3 4 5 4 3 0 2 1 = rank [1, 2, 0, 3, 4] [2, 3, 4, 5, 6] := by decide
example : ndIndex [2, 3, 4] [1, 2, 3] = ok 23 ∧ ndIndex [2, 3, 4] [1, 2] = abort ∧ ndGetElem 24 (-1) = abort := by decide

/-- three arrays: object 0 is 1x2 holding 7,8, object 1 is 3x1 holding 1,2,3, object 2 is null -/
def wMem : Mem Nat :=
  { block := fun p => if p = 0 then some [some 7, some 8] else if p = 1 then some [some 1, some 2, some 3] else none
    next := 2
    obj := fun o => if o = 0 then ⟨[1, 2], some 0, false⟩ else if o = 1 then ⟨[3, 1], some 1, false⟩ else ⟨[0, 0], none, false⟩ }

theorem wMem_sound : Sound wMem (fun o => o = 0 ∨ o = 1 ∨ o = 2) := by
  constructor
  · rintro o (rfl | rfl | rfl) <;> rfl
  · rintro o (rfl | rfl | rfl) <;> simp [wMem, nsites]
  · rintro o p (rfl | rfl | rfl) h <;> simp [wMem] at h <;> subst h <;> simp [wMem, nsites]
  · rintro o o' p (rfl | rfl | rfl) (rfl | rfl | rfl) h h' <;> simp [wMem] at h h' ⊢ <;> omega
theorem wMem_view : View wMem 1 [3, 1] [1, 2, 3] := ⟨rfl, rfl, rfl⟩
example : ∃ m', assignN wMem 2 1 = ok m' ∧ View m' 2 [3, 1] [1, 2, 3] ∧ View m' 0 [1, 2] [7, 8] := by
  obtain ⟨m', h, -, h2, h3⟩ := C40_multiNd_partial wMem wMem_sound 2 1 (Or.inr (Or.inr rfl)) (Or.inr (Or.inl rfl)) (by decide)
    _ _ wMem_view
  exact ⟨m', h, h2 _ _ wMem_view, h3 0 _ _ (Or.inl rfl) (by decide) ⟨rfl, rfl, rfl⟩⟩
example : assignN wMem 0 0 = ub := C40_self_ub wMem wMem_sound 0 (Or.inl rfl) (by decide)
example : eqArr [1, 2] [1, 2] = true ∧ ltArr [1, 2] [1, 3] = true ∧ ltArr [1] [1, 0] = true ∧ gtArr [2] [1, 9] = true := by decide

end Verif.Multi
