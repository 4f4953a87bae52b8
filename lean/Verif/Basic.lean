/-
Shared vocabulary of the model.

`Outcome` separates a normal return from a deliberate program stop (`QDP_error_exit`, `QDP_abort`,
`exit(1)`) and from C++ undefined behaviour (out-of-bounds access, division by zero, signed overflow,
use of an uninitialised value).  No model function totalises an undefined case away.
-/
namespace Verif

/-- Result of a modelled C++ function: normal value, deliberate stop, or undefined behaviour. -/
inductive Outcome (α : Type u) where
  | ok (a : α)
  | abort
  | ub
deriving Repr, DecidableEq

namespace Outcome

protected def bind {α : Type u} {β : Type v} (x : Outcome α) (f : α → Outcome β) : Outcome β :=
  match x with
  | ok a => f a
  | abort => abort
  | ub => ub

instance : Monad Outcome where
  pure := ok
  bind := Outcome.bind

@[simp] theorem pure_def {α : Type u} (a : α) : (pure a : Outcome α) = ok a := rfl
@[simp] theorem ok_bind {α β : Type u} (a : α) (f : α → Outcome β) : (ok a >>= f) = f a := rfl
@[simp] theorem abort_bind {α β : Type u} (f : α → Outcome β) : ((abort : Outcome α) >>= f) = abort := rfl
@[simp] theorem ub_bind {α β : Type u} (f : α → Outcome β) : ((ub : Outcome α) >>= f) = ub := rfl
@[simp] theorem map_ok {α β : Type u} (a : α) (f : α → β) : (f <$> (ok a)) = ok (f a) := rfl

theorem bind_eq_ok {α β : Type u} {x : Outcome α} {f : α → Outcome β} {b : β} :
    (x >>= f) = ok b ↔ ∃ a, x = ok a ∧ f a = ok b := by
  cases x <;> simp [Bind.bind, Outcome.bind]

end Outcome

open Outcome

/-- Read element `i` of an array; out of bounds is undefined behaviour
(`multi1d::operator[]` without bounds checking, include/qdp_multi.h:228-237). -/
def rd {α : Type u} (xs : List α) (i : Nat) : Outcome α :=
  match xs[i]? with
  | some a => ok a
  | none => ub

theorem rd_of_lt {α : Type u} {xs : List α} {i : Nat} (h : i < xs.length) : rd xs i = ok xs[i] := by
  simp [rd, h]

theorem rd_of_ge {α : Type u} {xs : List α} {i : Nat} (h : xs.length ≤ i) : rd xs i = ub := by
  simp [rd, h]

theorem rd_eq_ok {α : Type u} {xs : List α} {i : Nat} {a : α} : rd xs i = ok a ↔ xs[i]? = some a := by
  unfold rd; split <;> simp_all

/-- C++ integer division of non-negative operands: division by zero is undefined. -/
def cdiv (a b : Nat) : Outcome Nat := if b = 0 then ub else ok (a / b)

/-- C++ integer remainder of non-negative operands: division by zero is undefined. -/
def cmod (a b : Nat) : Outcome Nat := if b = 0 then ub else ok (a % b)

@[simp] theorem cdiv_pos {a b : Nat} (h : 0 < b) : cdiv a b = ok (a / b) := by
  simp [cdiv, Nat.ne_of_gt h]
@[simp] theorem cmod_pos {a b : Nat} (h : 0 < b) : cmod a b = ok (a % b) := by
  simp [cmod, Nat.ne_of_gt h]

/-- A non-negative value stored in a 32-bit `int`; signed overflow is undefined behaviour. -/
def ckInt (n : Nat) : Outcome Nat := if n < 2 ^ 31 then ok n else ub

theorem ckInt_of_lt {n : Nat} (h : n < 2 ^ 31) : ckInt n = ok n := by simp [ckInt, h]

end Verif
