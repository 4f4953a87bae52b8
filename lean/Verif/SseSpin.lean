import Verif.SpinInline
import Verif.Dispatch
/-
Property C120: spin projection and reconstruction with instructions for four numbers, include/scalarsite_sse/sse_spin_proj_inlines.h and
sse_spin_recon_inlines.h; model.

The functions are transcribed instruction by instruction (SseSpinTables.lean, by tools/gen_sse_spin.py); here is what an instruction does.
A register has four lanes; a lane never written is `none`, and so is what is computed from it; storing it is undefined, and so is an access
beyond an array or at an address that is not a multiple of 16 bytes (the arrays begin at such addresses, a number has 4 bytes).  `src` and
`dst` do not overlap.  Arithmetic is exact.  Prefetches are left out.
-/
namespace Verif.SseSpin
open Verif Outcome

/-- `v_r.floats[l] = ±1`, `_mm_load_ps` from `src_shadow` (or `dst_shadow`) `+ o`, `v_r.vector = v_a.vector`, `_mm_shuffle_ps`, `_mm_add_ps`, `_mm_sub_ps`,
`_mm_mul_ps`, `_mm_store_ps(dst_shadow + o, v_r)`, `src_shadow += n`, `dst_shadow += n` -/
inductive Ins
  | setf (r : Fin 8) (l : Fin 4) (neg : Bool)
  | load (r : Fin 8) (dst : Bool) (o : Nat)
  | mov (r a : Fin 8)
  | shuf (r a b : Fin 8) (c : Nat)
  | add (r a b : Fin 8)
  | sub (r a b : Fin 8)
  | mul (r a b : Fin 8)
  | store (o : Nat) (r : Fin 8)
  | incS (n : Nat)
  | incD (n : Nat)
deriving DecidableEq

/-- a function: before the loop, the loop, behind the loop -/
structure Fn where
  pre : List Ins
  body : List Ins
  post : List Ins

/-- arithmetic on lanes; it need not be defined everywhere (the proofs also calculate with formal sums) -/
structure Ops (α : Type) where
  one : Bool → α
  add : α → α → Option α
  sub : α → α → Option α
  mul : α → α → Option α

/-- arithmetic of a ring; `one true` is -1 -/
def ringOps (S : Type) [CommRing S] : Ops S where
  one neg := if neg then -1 else 1
  add x y := some (x + y)
  sub x y := some (x - y)
  mul x y := some (x * y)

/-- registers, `src_shadow` and `dst_shadow` as offsets, the arrays -/
structure St (α : Type) where
  reg : Fin 8 → Fin 4 → Option α
  sp : Nat
  dp : Nat
  src : List α
  dst : List α

variable {α : Type}

def St.set (σ : St α) (r : Fin 8) (v : Fin 4 → Option α) : St α := { σ with reg := fun r' => if r' = r then v else σ.reg r' }

def lanes (f : α → α → Option α) (a b : Fin 4 → Option α) (l : Fin 4) : Option α :=
  match a l, b l with
  | some x, some y => f x y
  | _, _ => none

/-- four numbers stored -/
def put (m : List α) (p : Nat) (xs : List α) : List α := m.take p ++ (xs ++ m.drop (p + xs.length))

/-- one instruction -/
def step (O : Ops α) (σ : St α) : Ins → Outcome (St α)
  | .setf r l neg => ok (σ.set r fun l' => if l' = l then some (O.one neg) else σ.reg r l')
  | .load r false o =>
      if (σ.sp + o) % 4 = 0 ∧ σ.sp + o + 4 ≤ σ.src.length then ok (σ.set r fun l => σ.src[σ.sp + o + l.val]?) else ub
  | .load r true o =>
      if (σ.dp + o) % 4 = 0 ∧ σ.dp + o + 4 ≤ σ.dst.length then ok (σ.set r fun l => σ.dst[σ.dp + o + l.val]?) else ub
  | .mov r a => ok (σ.set r (σ.reg a))
  | .shuf r a b c => ok (σ.set r ![σ.reg a (Fin.ofNat 4 c), σ.reg a (Fin.ofNat 4 (c / 4)), σ.reg b (Fin.ofNat 4 (c / 16)), σ.reg b (Fin.ofNat 4 (c / 64))])
  | .add r a b => ok (σ.set r (lanes O.add (σ.reg a) (σ.reg b)))
  | .sub r a b => ok (σ.set r (lanes O.sub (σ.reg a) (σ.reg b)))
  | .mul r a b => ok (σ.set r (lanes O.mul (σ.reg a) (σ.reg b)))
  | .store o r =>
      if (σ.dp + o) % 4 = 0 ∧ σ.dp + o + 4 ≤ σ.dst.length then
        match σ.reg r 0, σ.reg r 1, σ.reg r 2, σ.reg r 3 with
        | some x0, some x1, some x2, some x3 => ok { σ with dst := put σ.dst (σ.dp + o) [x0, x1, x2, x3] }
        | _, _, _, _ => ub
      else ub
  | .incS n => ok { σ with sp := σ.sp + n }
  | .incD n => ok { σ with dp := σ.dp + n }

def run (O : Ops α) : List Ins → St α → Outcome (St α)
  | [], σ => ok σ
  | i :: is, σ => do
      let σ ← step O σ i
      run O is σ

def loop (O : Ops α) (body : List Ins) : Nat → St α → Outcome (St α)
  | 0, σ => ok σ
  | n + 1, σ => do
      let σ ← run O body σ
      loop O body n σ

/-- `n_vec-1` of the type `unsigned int` -/
def times (n : Nat) : Nat := (n + (2 ^ 32 - 1)) % 2 ^ 32

/-- a call: `for(unsigned int site=0; site < n_vec-1; site++)` between the two other parts -/
def Fn.call (f : Fn) (O : Ops α) (n : Nat) (σ : St α) : Outcome (St α) := do
  let σ ← run O f.pre σ
  let σ ← loop O f.body (times n) σ
  run O f.post σ

/-- the registers are not initialised -/
def start (src dst : List α) : St α := ⟨fun _ _ => none, 0, 0, src, dst⟩

/-! ## threads -/

/-- `ordered_sse_spin_project_evaluate_function`, include/scalarsite_sse/qdp_sse_spin_evaluates_wrapper.h:23-34, for the share `lo`, `hi` of a thread: the function is
called for `hi - lo` sites from the beginning of the arrays; a thread without a share does not call it.  `ordered_spin_project_evaluate_function`,
include/scalarsite_generic/qdp_generic_spin_project_evaluates_wrapper.h:22-33, is written alike -/
def ordered (f : Fn) (O : Ops α) (src : List α) (r : Option (Nat × Nat)) (dst : List α) : Outcome (List α) :=
  match r with
  | none => ok dst
  | some (lo, hi) => do
      let σ ← f.call O (hi - lo) (start src dst)
      ok σ.dst

/-- the threads one after another -/
def inTurn (f : Fn) (O : Ops α) (src : List α) : List (Option (Nat × Nat)) → List α → Outcome (List α)
  | [], dst => ok dst
  | r :: rs, dst => do
      let dst ← ordered f O src r dst
      inTurn f O src rs dst

/-- `dispatch_to_threads(total_n_vec, arg, ordered_sse_spin_project_evaluate_function)`, include/scalarsite_sse/qdp_sse_spin_evaluates.h:44-53 -/
def threads (f : Fn) (O : Ops α) (n T : Nat) (src dst : List α) : Outcome (List α) := do
  let rs ← Dispatch.dispatch n T
  inTurn f O src rs dst

end Verif.SseSpin
