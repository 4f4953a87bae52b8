import Verif.Basic
import Verif.Poly
import Mathlib.Data.List.Induction
/-
The language of the vector kernels of include/scalarsite_generic/generic_blas_*.h: registers (local variables of type `double`), one cursor per
array, loads and stores at the cursors, one counted loop with a prologue and an epilogue.  The kernels themselves are in `KernelTables`.

Arithmetic is exact: numbers are those of a commutative ring and the casts between `float` and `double` are dropped.
-/
set_option linter.unusedSectionVars false
namespace Verif.Kernel
open Verif Outcome Verif.Poly

/-! ## syntax -/

/-- the input arrays -/
inductive Arr where
  | x | y
deriving DecidableEq, Repr

/-- right hand sides: `s 0`, `s 1` are `*scalep`, `*(scalep+1)`, `s 2`, `s 3` the same of the second scalar; `r k` local variables -/
inductive Ex where
  | zero
  | s (k : Nat)
  | r (k : Nat)
  | neg (a : Ex)
  | add (a b : Ex)
  | sub (a b : Ex)
  | mul (a b : Ex)
deriving DecidableEq, Repr

inductive Stmt where
  /-- `r = (double) X[index++]` -/
  | ld (r : Nat) (a : Arr)
  /-- `r = e` -/
  | set (r : Nat) (e : Ex)
  /-- `Out[index++] = (REAL) e` -/
  | st (e : Ex)
  /-- `index += k` -/
  | skip (a : Arr) (k : Nat)
  /-- `r = (double) X[index + k]` ("Pull into cache"): the number read is another thread's or nobody's, so the register is unusable after it -/
  | pull (r : Nat) (a : Arr) (k : Nat)
deriving DecidableEq, Repr

/-- the role of a parameter -/
inductive Par where
  | out | x | y | s (k : Nat)
deriving DecidableEq, Repr

/-- a kernel: parameters in the order of the declaration (the last one, the number of sites, left out), number of registers, number of rounds
`mul * n - sub`, code before, inside and behind the loop.  Code outside the loop is guarded by `n > 0`. -/
structure Kern where
  params : List Par
  nreg : Nat
  mul : Nat
  sub : Nat
  pre : List Stmt
  body : List Stmt
  post : List Stmt

/-- the statements run for `n` sites -/
def Kern.prog (K : Kern) (n : Nat) : List Stmt :=
  if n = 0 then [] else K.pre ++ (List.replicate (K.mul * n - K.sub) K.body).flatten ++ K.post

/-! ## semantics -/

/-- local variables: registers (none before the first assignment) and cursors -/
structure Loc (V : Type) where
  regs : List (Option V)
  cx : Nat
  cy : Nat
  cz : Nat

def Ex.eval {V : Type} (o : Ops V) (s : Nat → V) (regs : List (Option V)) : Ex → Outcome V
  | .zero => ok o.zero
  | .s k => ok (s k)
  | .r k => match regs[k]? with
    | some (some v) => ok v
    | _ => ub
  | .neg a => match a.eval o s regs with
    | ok u => ok (o.neg u)
    | _ => ub
  | .add a b => match a.eval o s regs, b.eval o s regs with
    | ok u, ok v => ok (o.add u v)
    | _, _ => ub
  | .sub a b => match a.eval o s regs, b.eval o s regs with
    | ok u, ok v => ok (o.sub u v)
    | _, _ => ub
  | .mul a b => match a.eval o s regs, b.eval o s regs with
    | ok u, ok v => ok (o.mul u v)
    | _, _ => ub

/-- fields: number of the field, offset in units of `REAL` -/
abbrev Heap (V : Type) := Nat → Nat → V

/-- the arguments of a call: fields behind `X`, `Y`, `Out`, the common offset of the pointers, the extent of the arrays and the number
of readable elements behind it -/
structure Call where
  px : Nat
  py : Nat
  pz : Nat
  base : Nat
  len : Nat
  slack : Nat

def store {V : Type} (h : Heap V) (f i : Nat) (v : V) : Heap V := fun g j => if g = f ∧ j = i then v else h g j

/-- one statement.  Access outside the arrays is undefined behaviour. -/
def step {V : Type} (o : Ops V) (s : Nat → V) (c : Call) (st : Stmt) (l : Loc V) (h : Heap V) : Outcome (Loc V × Heap V) :=
  match st with
  | .ld r .x => if l.cx < c.len then ok ({ l with regs := l.regs.set r (some (h c.px (c.base + l.cx))), cx := l.cx + 1 }, h) else ub
  | .ld r .y => if l.cy < c.len then ok ({ l with regs := l.regs.set r (some (h c.py (c.base + l.cy))), cy := l.cy + 1 }, h) else ub
  | .set r e => match e.eval o s l.regs with
    | ok v => ok ({ l with regs := l.regs.set r (some v) }, h)
    | _ => ub
  | .st e => match e.eval o s l.regs with
    | ok v => if l.cz < c.len then ok ({ l with cz := l.cz + 1 }, store h c.pz (c.base + l.cz) v) else ub
    | _ => ub
  | .skip .x k => ok ({ l with cx := l.cx + k }, h)
  | .skip .y k => ok ({ l with cy := l.cy + k }, h)
  | .pull r .x k => if l.cx + k < c.len + c.slack then ok ({ l with regs := l.regs.set r none }, h) else ub
  | .pull r .y k => if l.cy + k < c.len + c.slack then ok ({ l with regs := l.regs.set r none }, h) else ub

def exec {V : Type} (o : Ops V) (s : Nat → V) (c : Call) : List Stmt → Loc V → Heap V → Outcome (Loc V × Heap V)
  | [], l, h => ok (l, h)
  | st :: p, l, h => match step o s c st l h with
    | ok (l', h') => exec o s c p l' h'
    | _ => ub

/-- at the start of a call -/
def Kern.init {V : Type} (K : Kern) : Loc V := ⟨List.replicate K.nreg none, 0, 0, 0⟩

/-- a call of the kernel for `n` sites of 24 numbers -/
def Kern.run {V : Type} (K : Kern) (o : Ops V) (s : Nat → V) (px py pz base n slack : Nat) (h : Heap V) : Outcome (Heap V) :=
  match exec o s ⟨px, py, pz, base, 24 * n, slack⟩ (K.prog n) K.init h with
  | ok (_, h') => ok h'
  | _ => ub

/-! ## the same with the inputs unchanged and the output collected

Used in the proofs only: `pstep` reads the arrays as they were at the start, and insists that an element is read before the output has got there. -/

structure PS (V : Type) where
  regs : List (Option V)
  cx : Nat
  cy : Nat
  cz : Nat
  /-- last first -/
  out : List V

def pstep {V : Type} (o : Ops V) (X Y s : Nat → V) (len slack : Nat) (st : Stmt) (l : PS V) : Outcome (PS V) :=
  match st with
  | .ld r .x => if l.cx < len ∧ l.cz ≤ l.cx then ok { l with regs := l.regs.set r (some (X l.cx)), cx := l.cx + 1 } else ub
  | .ld r .y => if l.cy < len ∧ l.cz ≤ l.cy then ok { l with regs := l.regs.set r (some (Y l.cy)), cy := l.cy + 1 } else ub
  | .set r e => match e.eval o s l.regs with
    | ok v => ok { l with regs := l.regs.set r (some v) }
    | _ => ub
  | .st e => match e.eval o s l.regs with
    | ok v => if l.cz < len then ok { l with cz := l.cz + 1, out := v :: l.out } else ub
    | _ => ub
  | .skip .x k => ok { l with cx := l.cx + k }
  | .skip .y k => ok { l with cy := l.cy + k }
  | .pull r .x k => if l.cx + k < len + slack then ok { l with regs := l.regs.set r none } else ub
  | .pull r .y k => if l.cy + k < len + slack then ok { l with regs := l.regs.set r none } else ub

def pexec {V : Type} (o : Ops V) (X Y s : Nat → V) (len slack : Nat) : List Stmt → PS V → Outcome (PS V)
  | [], l => ok l
  | st :: p, l => match pstep o X Y s len slack st l with
    | ok l' => pexec o X Y s len slack p l'
    | _ => ub

section sim
variable {V : Type}

/-- heap after the first elements of the output have been written -/
def written (h0 : Heap V) (c : Call) (out : List V) : Heap V :=
  fun g j => if g = c.pz ∧ c.base ≤ j then (out.reverse[j - c.base]?).getD (h0 g j) else h0 g j

theorem written_of_ge (h0 : Heap V) (c : Call) (out : List V) (g k : Nat) (h : out.length ≤ k) :
    written h0 c out g (c.base + k) = h0 g (c.base + k) := by
  unfold written
  split
  · rw [List.getElem?_eq_none (by simp; omega)]; rfl
  · rfl

theorem written_cons (h0 : Heap V) (c : Call) (out : List V) (v : V) :
    written h0 c (v :: out) = store (written h0 c out) c.pz (c.base + out.length) v := by
  funext g j
  unfold store written
  by_cases hg : g = c.pz
  · subst hg
    by_cases hb : c.base ≤ j
    · simp only [hb, and_self, true_and, if_true, List.reverse_cons]
      rcases Nat.lt_trichotomy (j - c.base) out.length with hl | he | hg
      · rw [List.getElem?_append_left (by simpa using hl), if_neg (by omega)]
      · rw [List.getElem?_append_right (by simp; omega), if_pos (by omega)]
        simp [he]
      · rw [List.getElem?_eq_none (by simp; omega), if_neg (by omega), List.getElem?_eq_none (by simp; omega)]
    · simp only [hb, and_false, true_and, if_false]
      rw [if_neg (by omega)]
  · simp [hg]

theorem sim_step {o : Ops V} {s : Nat → V} {c : Call} {h0 : Heap V} {st : Stmt} {l l' : PS V} (hlen : l.out.length = l.cz)
    (h : pstep o (fun i => h0 c.px (c.base + i)) (fun i => h0 c.py (c.base + i)) s c.len c.slack st l = ok l') :
    step o s c st ⟨l.regs, l.cx, l.cy, l.cz⟩ (written h0 c l.out) = ok (⟨l'.regs, l'.cx, l'.cy, l'.cz⟩, written h0 c l'.out) ∧
      l'.out.length = l'.cz := by
  cases st with
  | ld r a =>
    cases a
    · simp only [pstep] at h
      split at h
      · next hc =>
        injection h with h; subst h
        simp only [step, if_pos hc.1]
        rw [written_of_ge _ _ _ _ _ (by omega)]
        exact ⟨rfl, hlen⟩
      · simp at h
    · simp only [pstep] at h
      split at h
      · next hc =>
        injection h with h; subst h
        simp only [step, if_pos hc.1]
        rw [written_of_ge _ _ _ _ _ (by omega)]
        exact ⟨rfl, hlen⟩
      · simp at h
  | set r e =>
    simp only [pstep] at h
    split at h
    · next v hv =>
      injection h with h; subst h
      simp only [step, hv]
      exact ⟨trivial, hlen⟩
    · simp at h
  | st e =>
    simp only [pstep] at h
    split at h
    · next v hv =>
      split at h
      · next hc =>
        injection h with h; subst h
        simp only [step, hv, if_pos hc]
        rw [written_cons, hlen]
        exact ⟨rfl, by simp [hlen]⟩
      · simp at h
    · simp at h
  | skip a k =>
    cases a <;>
    · simp only [pstep] at h
      injection h with h; subst h
      exact ⟨rfl, hlen⟩
  | pull r a k =>
    cases a <;>
    · simp only [pstep] at h
      split at h
      · next hc =>
        injection h with h; subst h
        simp only [step, if_pos hc]
        exact ⟨trivial, hlen⟩
      · simp at h

theorem sim_exec {o : Ops V} {s : Nat → V} {c : Call} {h0 : Heap V} : ∀ {p : List Stmt} {l l' : PS V}, l.out.length = l.cz →
    pexec o (fun i => h0 c.px (c.base + i)) (fun i => h0 c.py (c.base + i)) s c.len c.slack p l = ok l' →
    exec o s c p ⟨l.regs, l.cx, l.cy, l.cz⟩ (written h0 c l.out) = ok (⟨l'.regs, l'.cx, l'.cy, l'.cz⟩, written h0 c l'.out) ∧
      l'.out.length = l'.cz
  | [], l, l', hlen, h => by
      simp only [pexec] at h
      injection h with h; subst h
      exact ⟨rfl, hlen⟩
  | st :: p, l, l', hlen, h => by
      simp only [pexec] at h
      split at h
      · next l1 h1 =>
        obtain ⟨e1, hl1⟩ := sim_step hlen h1
        simp only [exec, e1]
        exact sim_exec hl1 h
      · simp at h

theorem pexec_append {o : Ops V} {X Y s : Nat → V} {len slack : Nat} : ∀ {p q : List Stmt} {l l1 l2 : PS V},
    pexec o X Y s len slack p l = ok l1 → pexec o X Y s len slack q l1 = ok l2 → pexec o X Y s len slack (p ++ q) l = ok l2
  | [], _, l, l1, l2, h1, h2 => by
      simp only [pexec] at h1
      injection h1 with h1; subst h1
      exact h2
  | st :: p, q, l, l1, l2, h1, h2 => by
      simp only [pexec, List.cons_append] at h1 ⊢
      split at h1
      · next l' e => exact pexec_append h1 h2
      · simp at h1
end sim

/-! ## one run with polynomials -/

/-- variables: `3 i` is element `i` of `X`, `3 i + 1` of `Y`, `3 k + 2` is scalar `k` -/
def env {K : Type} (X Y s : Nat → K) (a : Nat) : K := if a % 3 = 0 then X (a / 3) else if a % 3 = 1 then Y (a / 3) else s (a / 3)

/-- the same `k` elements further on -/
def shiftVar (k a : Nat) : Nat := if a % 3 = 2 then a else a + 3 * k

def sX (i : Nat) : Pol := var (3 * i)
def sY (i : Nat) : Pol := var (3 * i + 1)
def sS (i : Nat) : Pol := var (3 * i + 2)

section transfer
variable {K : Type} [CommRing K]

theorem env_shift (X Y s : Nat → K) (k a : Nat) : env X Y s (shiftVar k a) = env (fun i => X (i + k)) (fun i => Y (i + k)) s a := by
  unfold env shiftVar
  have h1 : a % 3 < 3 := Nat.mod_lt _ (by omega)
  by_cases h2 : a % 3 = 2
  · simp [h2]
  · rw [if_neg h2]
    have h3 : (a + 3 * k) % 3 = a % 3 := by omega
    have h4 : (a + 3 * k) / 3 = a / 3 + k := by omega
    rw [h3, h4]
    rcases (by omega : a % 3 = 0 ∨ a % 3 = 1) with h | h <;> simp [h]

theorem eval_shift (X Y s : Nat → K) (k : Nat) (p : Pol) :
    eval (env X Y s) (rename (shiftVar k) p) = eval (env (fun i => X (i + k)) (fun i => Y (i + k)) s) p := by
  rw [eval_rename]
  congr 1
  funext a
  exact env_shift X Y s k a

theorem eval_sX (X Y s : Nat → K) (i : Nat) : eval (env X Y s) (sX i) = X i := by
  rw [sX, eval_var]; unfold env
  rw [if_pos (by omega), show 3 * i / 3 = i by omega]
theorem eval_sY (X Y s : Nat → K) (i : Nat) : eval (env X Y s) (sY i) = Y i := by
  rw [sY, eval_var]; unfold env
  rw [if_neg (by omega), if_pos (by omega), show (3 * i + 1) / 3 = i by omega]
theorem eval_sS (X Y s : Nat → K) (i : Nat) : eval (env X Y s) (sS i) = s i := by
  rw [sS, eval_var]; unfold env
  rw [if_neg (by omega), if_neg (by omega), show (3 * i + 2) / 3 = i by omega]

/-- the statement uses the cursor of `Y` -/
def Stmt.usesY : Stmt → Bool
  | .ld _ .y => true
  | .skip .y _ => true
  | .pull _ .y _ => true
  | _ => false

/-- the state of the run with polynomials stands for a state of the run with numbers `k` elements further on -/
structure Rel (uy : Bool) (X Y s : Nat → K) (k : Nat) (rest : List K) (l : PS Pol) (c : PS K) : Prop where
  cx : c.cx = l.cx + k
  cy : uy = true → c.cy = l.cy + k
  cz : c.cz = l.cz + k
  out : c.out = l.out.map (eval (env (fun i => X (i + k)) (fun i => Y (i + k)) s)) ++ rest
  size : c.regs.length = l.regs.length
  regs : ∀ (r : Nat) (v : Pol), l.regs[r]? = some (some v) → c.regs[r]? = some (some (eval (env (fun i => X (i + k)) (fun i => Y (i + k)) s) v))

theorem rel_ex {uy : Bool} {X Y s : Nat → K} {k : Nat} {rest : List K} {l : PS Pol} {c : PS K} (R : Rel uy X Y s k rest l c) :
    ∀ {e : Ex} {v : Pol}, e.eval polyOps sS l.regs = ok v →
      e.eval (ringOps K) s c.regs = ok (eval (env (fun i => X (i + k)) (fun i => Y (i + k)) s) v) := by
  intro e
  have hom := eval_hom (env (fun i => X (i + k)) (fun i => Y (i + k)) s)
  induction e with
  | zero =>
    intro v h
    simp only [Ex.eval] at h ⊢
    injection h with h; subst h
    rw [hom.zero]
  | s j =>
    intro v h
    simp only [Ex.eval] at h ⊢
    injection h with h; subst h
    rw [eval_sS]
  | r j =>
    intro v h
    simp only [Ex.eval] at h
    split at h
    · next u hu =>
      injection h with h; subst h
      simp only [Ex.eval, R.regs j _ hu]
    · simp at h
  | neg a ih =>
    intro v h
    simp only [Ex.eval] at h ⊢
    split at h
    · next u hu =>
      injection h with h; subst h
      simp only [ih hu, hom.neg]
    · simp at h
  | add a b iha ihb =>
    intro v h
    simp only [Ex.eval] at h ⊢
    split at h
    · next u w hu hw =>
      injection h with h; subst h
      simp only [iha hu, ihb hw, hom.add]
    · simp at h
  | sub a b iha ihb =>
    intro v h
    simp only [Ex.eval] at h ⊢
    split at h
    · next u w hu hw =>
      injection h with h; subst h
      simp only [iha hu, ihb hw, hom.sub]
    · simp at h
  | mul a b iha ihb =>
    intro v h
    simp only [Ex.eval] at h ⊢
    split at h
    · next u w hu hw =>
      injection h with h; subst h
      simp only [iha hu, ihb hw, hom.mul]
    · simp at h

theorem set_regs {f : Pol → K} {rl : List (Option Pol)} {rc : List (Option K)} (hs : rc.length = rl.length)
    (h : ∀ (r : Nat) (v : Pol), rl[r]? = some (some v) → rc[r]? = some (some (f v))) (r0 : Nat) (v0 : Option Pol) :
    ∀ (r : Nat) (v : Pol), (rl.set r0 v0)[r]? = some (some v) → (rc.set r0 (v0.map f))[r]? = some (some (f v)) := by
  intro r v hv
  rw [List.getElem?_set] at hv ⊢
  by_cases hr : r0 = r
  · subst hr
    rw [if_pos rfl] at hv ⊢
    by_cases hlt : r0 < rl.length
    · rw [if_pos hlt] at hv
      rw [if_pos (by omega)]
      injection hv with hv; subst hv
      rfl
    · rw [if_neg hlt] at hv; simp at hv
  · rw [if_neg hr] at hv ⊢
    exact h r v hv

theorem rel_step {uy : Bool} {X Y s : Nat → K} {k L len sl slack : Nat} (hL : L + k ≤ len) (hsl : sl ≤ slack) {rest : List K} {l l' : PS Pol} {c : PS K} (R : Rel uy X Y s k rest l c)
    {st : Stmt} (hu : st.usesY = true → uy = true) (h : pstep polyOps sX sY sS L sl st l = ok l') :
    ∃ c', pstep (ringOps K) X Y s len slack st c = ok c' ∧ Rel uy X Y s k rest l' c' := by
  cases st with
  | ld r a =>
    cases a
    · simp only [pstep] at h
      split at h
      · next hc =>
        injection h with h; subst h
        have hcx := R.cx; have hcz := R.cz
        refine ⟨{ c with regs := c.regs.set r (some (X c.cx)), cx := c.cx + 1 }, by simp only [pstep]; rw [if_pos (by omega)], ⟨by simp only; omega, R.cy, R.cz, R.out, by simp [R.size], ?_⟩⟩
        have := set_regs (f := eval (env (fun i => X (i + k)) (fun i => Y (i + k)) s)) R.size R.regs r (some (sX l.cx))
        rw [Option.map_some, eval_sX, ← hcx] at this
        exact this
      · simp at h
    · simp only [pstep] at h
      split at h
      · next hc =>
        injection h with h; subst h
        have hcx := R.cy (hu rfl); have hcz := R.cz
        refine ⟨{ c with regs := c.regs.set r (some (Y c.cy)), cy := c.cy + 1 }, by simp only [pstep]; rw [if_pos (by omega)], ⟨R.cx, fun _ => by simp only; omega, R.cz, R.out, by simp [R.size], ?_⟩⟩
        have := set_regs (f := eval (env (fun i => X (i + k)) (fun i => Y (i + k)) s)) R.size R.regs r (some (sY l.cy))
        rw [Option.map_some, eval_sY, ← hcx] at this
        exact this
      · simp at h
  | set r e =>
    simp only [pstep] at h
    split at h
    · next v hv =>
      injection h with h; subst h
      refine ⟨{ c with regs := c.regs.set r (some (eval (env (fun i => X (i + k)) (fun i => Y (i + k)) s) v)) }, by simp only [pstep, rel_ex R hv], ⟨R.cx, R.cy, R.cz, R.out, by simp [R.size], ?_⟩⟩
      exact set_regs R.size R.regs r (some v)
    · simp at h
  | st e =>
    simp only [pstep] at h
    split at h
    · next v hv =>
      split at h
      · next hc =>
        injection h with h; subst h
        have hcz := R.cz
        refine ⟨{ c with cz := c.cz + 1, out := eval (env (fun i => X (i + k)) (fun i => Y (i + k)) s) v :: c.out }, by simp only [pstep, rel_ex R hv]; rw [if_pos (by omega)], ⟨R.cx, R.cy, by simp only; omega, ?_, R.size, R.regs⟩⟩
        simp only [List.map_cons, List.cons_append, R.out]
      · simp at h
    · simp at h
  | skip a j =>
    cases a
    · simp only [pstep] at h
      injection h with h; subst h
      have hcx := R.cx
      exact ⟨_, rfl, ⟨by simp only; omega, R.cy, R.cz, R.out, R.size, R.regs⟩⟩
    · simp only [pstep] at h
      injection h with h; subst h
      have hcx := R.cy (hu rfl)
      exact ⟨_, rfl, ⟨R.cx, fun _ => by simp only; omega, R.cz, R.out, R.size, R.regs⟩⟩
  | pull r a j =>
    cases a
    · simp only [pstep] at h
      split at h
      · next hc =>
        injection h with h; subst h
        have hcx := R.cx
        refine ⟨{ c with regs := c.regs.set r none }, by simp only [pstep]; rw [if_pos (by omega)], ⟨R.cx, R.cy, R.cz, R.out, by simp [R.size], ?_⟩⟩
        exact set_regs R.size R.regs r none
      · simp at h
    · simp only [pstep] at h
      split at h
      · next hc =>
        injection h with h; subst h
        have hcx := R.cy (hu rfl)
        refine ⟨{ c with regs := c.regs.set r none }, by simp only [pstep]; rw [if_pos (by omega)], ⟨R.cx, R.cy, R.cz, R.out, by simp [R.size], ?_⟩⟩
        exact set_regs R.size R.regs r none
      · simp at h

theorem rel_exec {uy : Bool} {X Y s : Nat → K} {k L len sl slack : Nat} (hL : L + k ≤ len) (hsl : sl ≤ slack) {rest : List K} : ∀ {p : List Stmt} {l l' : PS Pol} {c : PS K},
    Rel uy X Y s k rest l c → (∀ st ∈ p, st.usesY = true → uy = true) → pexec polyOps sX sY sS L sl p l = ok l' →
    ∃ c', pexec (ringOps K) X Y s len slack p c = ok c' ∧ Rel uy X Y s k rest l' c'
  | [], l, l', c, R, _, h => by
      simp only [pexec] at h
      injection h with h; subst h
      exact ⟨c, rfl, R⟩
  | st :: p, l, l', c, R, hu, h => by
      simp only [pexec] at h
      split at h
      · next l1 h1 =>
        obtain ⟨c1, e1, R1⟩ := rel_step hL hsl R (hu st (by simp)) h1
        obtain ⟨c2, e2, R2⟩ := rel_exec hL hsl R1 (fun st' hm => hu st' (List.mem_cons_of_mem _ hm)) h
        exact ⟨c2, by simp only [pexec, e1]; exact e2, R2⟩
      · simp at h
end transfer

/-! ## the check of a kernel -/

/-- registers that hold a value at the head of the loop hold the shifted value at its end -/
def regsOk (k : Nat) : List (Option Pol) → List (Option Pol) → Bool
  | [], [] => true
  | none :: a, _ :: b => regsOk k a b
  | some p :: a, some q :: b => (rename (shiftVar k) p == q) && regsOk k a b
  | _, _ => false

theorem regsOk_get {k : Nat} : ∀ {a b : List (Option Pol)}, regsOk k a b = true →
    a.length = b.length ∧ ∀ (r : Nat) (v : Pol), a[r]? = some (some v) → b[r]? = some (some (rename (shiftVar k) v))
  | [], [], _ => ⟨rfl, by simp⟩
  | none :: a, y :: b, h => by
      simp only [regsOk] at h
      obtain ⟨h1, h2⟩ := regsOk_get h
      refine ⟨by simp [h1], ?_⟩
      intro r v hv
      cases r with
      | zero => simp at hv
      | succ r => simpa using h2 r v (by simpa using hv)
  | some p :: a, some q :: b, h => by
      simp only [regsOk, Bool.and_eq_true, beq_iff_eq] at h
      obtain ⟨h1, h2⟩ := regsOk_get h.2
      refine ⟨by simp [h1], ?_⟩
      intro r v hv
      cases r with
      | zero =>
        simp only [List.getElem?_cons_zero, Option.some.injEq] at hv ⊢
        subst hv
        exact h.1.symm
      | succ r => simpa using h2 r v (by simpa using hv)
  | [], _ :: _, h => by simp [regsOk] at h
  | none :: _, [], h => by simp [regsOk] at h
  | some _ :: _, [], h => by simp [regsOk] at h
  | some _ :: _, none :: _, h => by simp [regsOk] at h

/-- the kernel uses `Y` -/
def Kern.usesY (K : Kern) : Bool := (K.pre ++ K.body ++ K.post).any Stmt.usesY

/-- the three pieces of code, run with polynomials; `sp` is what one round is to write -/
def checkRun (K : Kern) (slack : Nat) (sp : List Pol) : Bool :=
  let stride := sp.length
  match pexec polyOps sX sY sS (stride * K.sub) 0 K.pre ⟨List.replicate K.nreg none, 0, 0, 0, []⟩ with
  | ok s0 =>
    match pexec polyOps sX sY sS (stride * (1 + K.sub)) slack K.body s0, pexec polyOps sX sY sS (stride * K.sub) 0 K.post s0 with
    | ok s1, ok s2 =>
      s0.out.isEmpty && s0.cz == 0 && s1.cx == s0.cx + stride && (!K.usesY || s1.cy == s0.cy + stride) && s1.cz == stride && regsOk stride s0.regs s1.regs &&
        s1.out.reverse == sp && ((K.sub == 0 && s2.out.isEmpty) || (K.sub == 1 && s2.out.reverse == sp)) &&
        stride * K.mul == 24 && Nat.ble K.sub K.mul
    | _, _ => false
  | _ => false

section loop
variable {R : Type} [CommRing R]

/-- arrays seen from element `k` on -/
abbrev envAt (X Y s : Nat → R) (k : Nat) : Nat → R := env (fun i => X (i + k)) (fun i => Y (i + k)) s

theorem loop_rounds {K : Kern} {slack slack' len : Nat} (hsl : slack ≤ slack') {stride : Nat} {s0 s1 : PS Pol} {X Y s : Nat → R}
    (hb : pexec polyOps sX sY sS (stride * (1 + K.sub)) slack K.body s0 = ok s1) (h0 : s0.out = []) (hcz : s0.cz = 0)
    (hx : s1.cx = s0.cx + stride) (hy : K.usesY = true → s1.cy = s0.cy + stride) (hz : s1.cz = stride) (hr : regsOk stride s0.regs s1.regs = true)
    {c0 : PS R} (R0 : Rel K.usesY X Y s 0 [] s0 c0) : ∀ m, stride * (m + K.sub) ≤ len →
    ∃ c, pexec (ringOps R) X Y s len slack' (List.replicate m K.body).flatten c0 = ok c ∧
      Rel K.usesY X Y s (stride * m) ((List.range m).flatMap fun j => s1.out.reverse.map (eval (envAt X Y s (stride * j)))).reverse s0 c := by
  intro m
  induction m with
  | zero => intro _; exact ⟨c0, rfl, by simpa using R0⟩
  | succ m ih =>
    intro hm
    have e1 : stride * (m + 1 + K.sub) = stride * (m + K.sub) + stride := by ring
    have e2 : stride * (1 + K.sub) + stride * m = stride * (m + 1 + K.sub) := by ring
    have hu : ∀ st ∈ K.body, st.usesY = true → K.usesY = true := fun st hm h => List.any_eq_true.2 ⟨st, by simp [hm], h⟩
    obtain ⟨c, hc, Rc⟩ := ih (by omega)
    obtain ⟨c', hc', Rc'⟩ := rel_exec (by omega : stride * (1 + K.sub) + stride * m ≤ len) hsl Rc hu hb
    refine ⟨c', ?_, ?_⟩
    · rw [List.replicate_succ', List.flatten_append]
      exact pexec_append hc (by simpa using hc')
    · have e3 : stride * (m + 1) = stride * m + stride := by ring
      obtain ⟨hl, hg⟩ := regsOk_get hr
      refine ⟨by rw [Rc'.cx, hx, e3]; omega, fun h => by rw [Rc'.cy h, hy h, e3]; omega, by rw [Rc'.cz, hz, hcz, e3]; omega, ?_, ?_, ?_⟩
      · rw [Rc'.out, h0, List.range_succ, List.flatMap_append, List.reverse_append]
        simp
      · rw [Rc'.size, hl]
      · intro r v hv
        rw [Rc'.regs r _ (hg r v hv), eval_shift]
        congr 4
        · funext i; congr 1; rw [e3]; omega
        · funext i; congr 1; rw [e3]; omega

/-- what the kernel writes: round after round the value of `sp` -/
theorem checkRun_pure {K : Kern} {slack : Nat} {sp : List Pol} (h : checkRun K slack sp = true) {slack' : Nat} (hsl : slack ≤ slack') (X Y s : Nat → R) (n : Nat) (hn : 0 < n) :
    ∃ c, pexec (ringOps R) X Y s (24 * n) slack' (K.prog n) ⟨List.replicate K.nreg none, 0, 0, 0, []⟩ = ok c ∧
      c.out.reverse = (List.range (K.mul * n)).flatMap fun j => sp.map (eval (envAt X Y s (sp.length * j))) := by
  unfold checkRun at h
  simp only at h
  split at h
  · next s0 hpre =>
    split at h
    · next s1 s2 hb hpost =>
      simp only [Bool.and_eq_true, Bool.or_eq_true, beq_iff_eq, List.isEmpty_iff, Nat.ble_eq] at h
      obtain ⟨⟨⟨⟨⟨⟨⟨⟨⟨h1, h2⟩, h3⟩, h4'⟩, h5⟩, h6⟩, h7⟩, h8⟩, h9⟩, h10⟩ := h
      have h4 : K.usesY = true → s1.cy = s0.cy + sp.length := by
        intro hy
        rcases h4' with h | h
        · rw [hy] at h; simp at h
        · exact h
      have hK : 1 ≤ K.mul := by
        rcases Nat.eq_zero_or_pos K.mul with h | h
        · rw [h] at h9; simp at h9
        · exact h
      have hsub : K.sub ≤ K.mul * n := le_trans h10 (Nat.le_mul_of_pos_right _ hn)
      have hlen : sp.length * (K.mul * n) = 24 * n := by rw [← h9]; ring
      have hinit : Rel K.usesY X Y s 0 [] (⟨List.replicate K.nreg none, 0, 0, 0, []⟩ : PS Pol) (⟨List.replicate K.nreg none, 0, 0, 0, []⟩ : PS R) := by
        refine ⟨rfl, fun _ => rfl, rfl, rfl, by simp, ?_⟩
        intro r v hv
        simp [List.getElem?_replicate] at hv
      have hle : sp.length * K.sub ≤ 24 * n := by rw [← hlen]; exact Nat.mul_le_mul_left _ hsub
      obtain ⟨c0, hc0, R0⟩ := rel_exec (by omega : sp.length * K.sub + 0 ≤ 24 * n) (Nat.zero_le slack') hinit (fun st hm h => List.any_eq_true.2 ⟨st, by simp [hm], h⟩) hpre
      obtain ⟨c1, hc1, R1⟩ := loop_rounds (len := 24 * n) hsl hb h1 h2 h3 h4 h5 h6 R0 (K.mul * n - K.sub) (by rw [Nat.sub_add_cancel hsub, hlen])
      have e1 : sp.length * K.sub + sp.length * (K.mul * n - K.sub) = 24 * n := by rw [← hlen, ← Nat.mul_add]; congr 1; omega
      obtain ⟨c2, hc2, R2⟩ := rel_exec (by omega : sp.length * K.sub + sp.length * (K.mul * n - K.sub) ≤ 24 * n) (Nat.zero_le slack') R1 (fun st hm h => List.any_eq_true.2 ⟨st, by simp [hm], h⟩) hpost
      refine ⟨c2, ?_, ?_⟩
      · unfold Kern.prog
        rw [if_neg (by omega)]
        exact pexec_append (pexec_append hc0 hc1) hc2
      · rw [R2.out, List.reverse_append, List.reverse_reverse, h7, ← List.map_reverse]
        rcases h8 with ⟨hs, h8⟩ | ⟨hs, h8⟩
        · rw [h8, hs]; simp
        · rw [h8, hs]
          have : K.mul * n = (K.mul * n - 1) + 1 := by omega
          conv_rhs => rw [this, List.range_succ, List.flatMap_append]
          simp
    · simp at h
  · simp at h

theorem flatMap_range_get {α : Type} {L : Nat} {f : Nat → List α} (hf : ∀ j, (f j).length = L) :
    ∀ (m i : Nat), i < L * m → ((List.range m).flatMap f)[i]? = (f (i / L))[i % L]? := by
  intro m
  induction m with
  | zero => intro i hi; simp at hi
  | succ m ih =>
    intro i hi
    have hlen : ((List.range m).flatMap f).length = L * m := by
      rw [List.length_flatMap]
      simp [hf, Nat.mul_comm]
    rw [List.range_succ, List.flatMap_append]
    by_cases h : i < L * m
    · rw [List.getElem?_append_left (by omega), ih i h]
    · rw [List.getElem?_append_right (by omega), hlen]
      have hmul : L * (m + 1) = L * m + L := by ring
      have e1 : i / L = m := by
        refine Nat.div_eq_of_lt_le (by rw [Nat.mul_comm]; omega) ?_
        rw [Nat.mul_comm (m + 1)]
        exact hi
      have e2 : i % L = i - L * m := by
        have := Nat.div_add_mod i L
        rw [e1] at this
        omega
      simp [e1, e2]

/-- a checked kernel, run on fields: every number of the `n` sites is what `sp` says, nothing else changes.  The field behind `X` or `Y` may be
the one behind `Out`. -/
theorem checkRun_run {K : Kern} {slack : Nat} {sp : List Pol} (h : checkRun K slack sp = true) {slack' : Nat} (hsl : slack ≤ slack') (s : Nat → R) (px py pz base n : Nat) (hp : Heap R) :
    ∃ h', K.run (ringOps R) s px py pz base n slack' hp = ok h' ∧
      (∀ j r, j < K.mul * n → r < sp.length → h' pz (base + (sp.length * j + r)) =
        eval (env (fun i => hp px (base + (i + sp.length * j))) (fun i => hp py (base + (i + sp.length * j))) s) (sp.getD r [])) ∧
      ∀ g i, (g = pz → i < base ∨ base + 24 * n ≤ i) → h' g i = hp g i := by
  have hlen : sp.length * K.mul = 24 := by
    unfold checkRun at h
    simp only at h
    split at h
    · split at h
      · simp only [Bool.and_eq_true, beq_iff_eq] at h
        exact h.1.2
      · simp at h
    · simp at h
  have hpos : 0 < sp.length := by
    rcases Nat.eq_zero_or_pos sp.length with h | h
    · rw [h] at hlen; simp at hlen
    · exact h
  have htot : sp.length * (K.mul * n) = 24 * n := by rw [← Nat.mul_assoc, hlen]
  rcases Nat.eq_zero_or_pos n with hn | hn
  · subst hn
    refine ⟨hp, by simp [Kern.run, Kern.prog, exec], ?_, fun _ _ _ => rfl⟩
    intro j r hj; simp at hj
  · obtain ⟨c, hc, ho⟩ := checkRun_pure h hsl (fun i => hp px (base + i)) (fun i => hp py (base + i)) s n hn
    have hs := sim_exec (o := ringOps R) (s := s) (c := ⟨px, py, pz, base, 24 * n, slack'⟩) (h0 := hp)
      (l := ⟨List.replicate K.nreg none, 0, 0, 0, []⟩) rfl hc
    have hw0 : written hp ⟨px, py, pz, base, 24 * n, slack'⟩ ([] : List R) = hp := by
      funext g j; simp [written]
    rw [hw0] at hs
    refine ⟨written hp ⟨px, py, pz, base, 24 * n, slack'⟩ c.out, ?_, ?_, ?_⟩
    · unfold Kern.run Kern.init
      rw [hs.1]
    · intro j r hj hr
      have hi : sp.length * j + r < sp.length * (K.mul * n) := by
        calc sp.length * j + r < sp.length * j + sp.length := by omega
          _ = sp.length * (j + 1) := by ring
          _ ≤ _ := Nat.mul_le_mul_left _ hj
      unfold written
      simp only
      rw [if_pos ⟨trivial, by omega⟩, show base + (sp.length * j + r) - base = sp.length * j + r by omega, ho,
        flatMap_range_get (by simp) _ _ hi]
      have e1 : (sp.length * j + r) / sp.length = j := by
        rw [Nat.mul_add_div hpos, Nat.div_eq_of_lt hr]; omega
      have e2 : (sp.length * j + r) % sp.length = r := by rw [Nat.mul_add_mod, Nat.mod_eq_of_lt hr]
      rw [e1, e2, List.getElem?_map, List.getElem?_eq_getElem hr]
      simp only [Option.map_some, Option.getD_some]
      rw [List.getD_eq_getElem?_getD, List.getElem?_eq_getElem hr, Option.getD_some]
    · intro g i hgi
      unfold written
      simp only
      split
      · next hc' =>
        rcases hgi hc'.1 with hlt | hge
        · omega
        · rw [List.getElem?_eq_none]
          · rfl
          · rw [ho, List.length_flatMap]
            simp only [List.length_map, List.map_const', List.length_range, List.sum_replicate]
            rw [show (K.mul * n) • sp.length = sp.length * (K.mul * n) from Nat.mul_comm _ _, htot]
            omega
      · rfl
end loop

end Verif.Kernel
