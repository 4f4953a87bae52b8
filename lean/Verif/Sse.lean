import Verif.SiteLoop
import Verif.Poly
/-
The kernels written with the SSE2/SSE3 instructions for pairs of doubles: lib/scalarsite_sse/sse_linalg_*_double.cc.

A register (`__m128d`) holds two numbers, low before high.  A kernel works on one matrix of 18 numbers per round of its loop; the registers set
before the loop are not written in it.  Arithmetic is exact.  The kernels themselves are in `SseTables`.
-/
namespace Verif.Sse
open Verif Verif.Poly Verif.SiteLoop

/-! ## syntax -/

/-- a register: set before the loop, or a local variable of a round -/
inductive Reg where
  | c (k : Nat)
  | v (k : Nat)
deriving DecidableEq, Repr

def Reg.isV : Reg → Bool
  | .c _ => false
  | .v _ => true

/-- a statement of the loop; the parameters 0, 1, 2 are the pointers to the destination, the left and the right operand -/
inductive Ins where
  /-- `x = _mm_load_pd(p+k)` or `_mm_loadu_pd` -/
  | ld (x p k : Nat)
  /-- `_mm_store_pd(p+k, a)` or `_mm_storeu_pd` -/
  | st (p k : Nat) (a : Reg)
  | mul (x : Nat) (a b : Reg)
  | add (x : Nat) (a b : Reg)
  | sub (x : Nat) (a b : Reg)
  /-- `_mm_hadd_pd(a,b)`: the sum inside `a`, then the sum inside `b` -/
  | hadd (x : Nat) (a b : Reg)
  /-- `_mm_hsub_pd(a,b)` -/
  | hsub (x : Nat) (a b : Reg)
  /-- `_mm_shuffle_pd(a,b,m)`: bit 0 of `m` chooses from `a`, bit 1 from `b` -/
  | shuf (x : Nat) (a b : Reg) (m : Nat)
  /-- `_mm_setzero_pd()` -/
  | zero (x : Nat)
  /-- `_mm_load_sd(a)`: the factor, and zero -/
  | sd (x : Nat)
  /-- `_mm_set_pd(-1,1)` -/
  | sgn (x : Nat)
deriving DecidableEq, Repr

/-- a kernel: the statements before the loop (register 0 is `scalar`), and those of a round without and with SSE3 -/
structure Kern where
  pre : List Ins
  body : Bool → List Ins

/-! ## semantics -/

/-- the numbers: operations, one, and the factor `*a` -/
structure Num (V : Type) where
  o : Ops V
  one : V
  a : V

section
variable {V : Type}

def pick (p : V × V) (b : Nat) : V := if b = 0 then p.1 else p.2

/-- what a statement other than a store puts into its register: number of the register and value -/
def Ins.res (n : Num V) (g : Reg → V × V) (mem : Nat → Nat → V) : Ins → Option (Nat × V × V)
  | .ld x p k => some (x, mem p k, mem p (k + 1))
  | .st .. => none
  | .mul x a b => some (x, n.o.mul (g a).1 (g b).1, n.o.mul (g a).2 (g b).2)
  | .add x a b => some (x, n.o.add (g a).1 (g b).1, n.o.add (g a).2 (g b).2)
  | .sub x a b => some (x, n.o.sub (g a).1 (g b).1, n.o.sub (g a).2 (g b).2)
  | .hadd x a b => some (x, n.o.add (g a).1 (g a).2, n.o.add (g b).1 (g b).2)
  | .hsub x a b => some (x, n.o.sub (g a).1 (g a).2, n.o.sub (g b).1 (g b).2)
  | .shuf x a b m => some (x, pick (g a) (m % 2), pick (g b) (m / 2 % 2))
  | .zero x => some (x, n.o.zero, n.o.zero)
  | .sd x => some (x, n.a, n.o.zero)
  | .sgn x => some (x, n.one, n.o.neg n.one)

/-- the registers: those set before the loop, and the local variables -/
def getReg (cs l : Nat → V × V) : Reg → V × V
  | .c k => cs k
  | .v k => l k

/-- a statement on the objects of one site; parameter `p` points to field `fld p` -/
def act (n : Num V) (cs : Nat → V × V) (fld : Nat → Nat) (x : Ins) (l : Nat → V × V) (v : View (Nat → V)) : (Nat → V × V) × View (Nat → V) :=
  match x with
  | .st p k a => (l, Function.update v (fld p) (Function.update (Function.update (v (fld p)) k (getReg cs l a).1) (k + 1) (getReg cs l a).2))
  | x => match x.res n (getReg cs l) (fun p k => v (fld p) k) with
    | some (d, w) => (Function.update l d w, v)
    | none => (l, v)

/-- the registers after the statements before the loop, which touch no matrix -/
def preRegs (n : Num V) : List Ins → (Nat → V × V) → Nat → V × V
  | [], l => l
  | x :: p, l => preRegs n p (act n l (fun p => p) x l fun _ _ => n.o.zero).1

end

/-! ## running a kernel with lists

Used in the proofs only: with polynomials a kernel is run once for all numbers, with integers on an example. -/

/-- registers (none before the first assignment) and the numbers of each field -/
structure Sym (V : Type) where
  regs : List (Option (V × V))
  mem : List (List V)

section
variable {V : Type}

def Sym.get (n : Num V) (S : Sym V) : Reg → Option (V × V)
  | .c k => if k = 0 then some (n.a, n.a) else none
  | .v k => match S.regs[k]? with
    | some (some w) => some w
    | _ => none

def Sym.set (S : Sym V) (x : Nat) (w : V × V) : Option (Sym V) :=
  if x < S.regs.length then some { S with regs := S.regs.set x (some w) } else none

def Sym.op (n : Num V) (S : Sym V) (x : Nat) (a b : Reg) (f : V × V → V × V → V × V) : Option (Sym V) :=
  match S.get n a, S.get n b with
  | some u, some w => S.set x (f u w)
  | _, _ => none

/-- one statement; none for access outside the matrices, and for reading a register that holds nothing -/
def Sym.step (n : Num V) (σ : Nat → Nat) (S : Sym V) : Ins → Option (Sym V)
  | .ld x p k => match S.mem[σ p]? with
    | some w => match w[k]?, w[k + 1]? with
      | some u, some u' => S.set x (u, u')
      | _, _ => none
    | none => none
  | .st p k a => if p = 0 then
      match S.get n a, S.mem[σ 0]? with
      | some u, some w => if k + 1 < w.length then some { S with mem := S.mem.set (σ 0) ((w.set k u.1).set (k + 1) u.2) } else none
      | _, _ => none
    else none
  | .mul x a b => S.op n x a b fun u w => (n.o.mul u.1 w.1, n.o.mul u.2 w.2)
  | .add x a b => S.op n x a b fun u w => (n.o.add u.1 w.1, n.o.add u.2 w.2)
  | .sub x a b => S.op n x a b fun u w => (n.o.sub u.1 w.1, n.o.sub u.2 w.2)
  | .hadd x a b => S.op n x a b fun u w => (n.o.add u.1 u.2, n.o.add w.1 w.2)
  | .hsub x a b => S.op n x a b fun u w => (n.o.sub u.1 u.2, n.o.sub w.1 w.2)
  | .shuf x a b m => S.op n x a b fun u w => (pick u (m % 2), pick w (m / 2 % 2))
  | .zero x => S.set x (n.o.zero, n.o.zero)
  | .sd x => S.set x (n.a, n.o.zero)
  | .sgn x => S.set x (n.one, n.o.neg n.one)

def Sym.run (n : Num V) (σ : Nat → Nat) : List Ins → Sym V → Option (Sym V)
  | [], S => some S
  | x :: p, S => match S.step n σ x with
    | some S' => Sym.run n σ p S'
    | none => none

/-- the numbers of the destination -/
def Sym.result (n : Num V) (σ : Nat → Nat) (p : List Ins) (m : List (List V)) : Option (List V) :=
  match Sym.run n σ p ⟨List.replicate 30 none, m⟩ with
  | some S => S.mem[σ 0]?
  | none => none

/-- maps that respect the numbers -/
structure NumHom {W : Type} (n : Num V) (n' : Num W) (φ : V → W) : Prop where
  hom : Hom n.o n'.o φ
  one : φ n.one = n'.one
  a : φ n.a = n'.a

variable {W : Type} {n : Num V} {n' : Num W} {φ : V → W}

/-- the lists stand for the numbers: `ι` gives the fields -/
structure Sim (φ : V → W) (ι : Nat → Nat) (S : Sym V) (l : Nat → W × W) (v : View (Nat → W)) : Prop where
  regs : ∀ k w, S.regs[k]? = some (some w) → l k = (φ w.1, φ w.2)
  mem : ∀ f w k p, S.mem[f]? = some w → w[k]? = some p → v (ι f) k = φ p

theorem sim_get (hφ : NumHom n n' φ) {ι : Nat → Nat} {S : Sym V} {l : Nat → W × W} {v : View (Nat → W)} (h : Sim φ ι S l v) {cs : Nat → W × W}
    (hcs : cs 0 = (n'.a, n'.a)) {r : Reg} {w : V × V} (e : S.get n r = some w) : getReg cs l r = (φ w.1, φ w.2) := by
  cases r with
  | c k =>
    simp only [Sym.get] at e
    split at e
    · next hk =>
      simp only [Option.some.injEq] at e
      subst e
      simp [getReg, hk, hcs, hφ.a]
    · simp at e
  | v k =>
    simp only [Sym.get] at e
    split at e
    · next w' h' =>
      injection e with e
      subst e
      exact h.regs k _ h'
    · simp at e

theorem sim_set {ι : Nat → Nat} {S S' : Sym V} {l : Nat → W × W} {v : View (Nat → W)} (h : Sim φ ι S l v) {x : Nat} {w : V × V}
    {w' : W × W} (hw : w' = (φ w.1, φ w.2)) (e : S.set x w = some S') : Sim φ ι S' (Function.update l x w') v := by
  unfold Sym.set at e
  split at e
  · next hx =>
    injection e with e
    subst e
    refine ⟨fun k u hk => ?_, h.mem⟩
    simp only [List.getElem?_set] at hk
    by_cases hkx : x = k
    · subst hkx
      simp only [if_true, hx, Option.some.injEq] at hk
      rw [Function.update_self, hw, hk]
    · rw [if_neg hkx] at hk
      rw [Function.update_of_ne (Ne.symm hkx)]
      exact h.regs k u hk
  · simp at e

theorem sim_step (hφ : NumHom n n' φ) {ι σ : Nat → Nat} (hι : ∀ f, f < 3 → f ≠ σ 0 → ι f ≠ ι (σ 0)) {S S' : Sym V} {l : Nat → W × W}
    {v : View (Nat → W)} (hS : S.mem.length ≤ 3) (h : Sim φ ι S l v) {cs : Nat → W × W} (hcs : cs 0 = (n'.a, n'.a)) {x : Ins}
    (e : S.step n σ x = some S') :
    Sim φ ι S' (act n' cs (fun p => ι (σ p)) x l v).1 (act n' cs (fun p => ι (σ p)) x l v).2 ∧ S'.mem.length ≤ 3 := by
  have hop : ∀ {y : Nat} {a b : Reg} {f : V × V → V × V → V × V} {w' : W × W},
      (∀ u w, getReg cs l a = (φ u.1, φ u.2) → getReg cs l b = (φ w.1, φ w.2) → w' = (φ (f u w).1, φ (f u w).2)) →
      S.op n y a b f = some S' → Sim φ ι S' (Function.update l y w') v ∧ S'.mem.length ≤ 3 := by
    intro y a b f w' hw e
    unfold Sym.op at e
    split at e
    · next u w h1 h2 =>
      refine ⟨sim_set h (hw u w (sim_get hφ h hcs h1) (sim_get hφ h hcs h2)) e, ?_⟩
      unfold Sym.set at e
      split at e
      · injection e with e; subst e; exact hS
      · simp at e
    · simp at e
  have hset : ∀ {y : Nat} {w : V × V} {w' : W × W}, w' = (φ w.1, φ w.2) → S.set y w = some S' →
      Sim φ ι S' (Function.update l y w') v ∧ S'.mem.length ≤ 3 := by
    intro y w w' hw e
    refine ⟨sim_set h hw e, ?_⟩
    unfold Sym.set at e
    split at e
    · injection e with e; subst e; exact hS
    · simp at e
  have H := hφ.hom
  cases x with
  | ld x p k =>
    simp only [Sym.step] at e
    split at e
    · next w hw =>
      split at e
      · next u u' h1 h2 =>
        simp only [act, Ins.res]
        exact hset (by rw [h.mem _ _ _ _ hw h1, h.mem _ _ _ _ hw h2]) e
      · simp at e
    · simp at e
  | st p k a =>
    simp only [Sym.step] at e
    split at e
    · next hp =>
      subst hp
      split at e
      · next u w h1 h2 =>
        split at e
        · next hk =>
          injection e with e
          subst e
          refine ⟨⟨h.regs, ?_⟩, by simpa using hS⟩
          intro f w' j q hf hj
          have hf3 : f < 3 := by
            by_contra hc
            rw [List.getElem?_eq_none (by simp; omega)] at hf
            simp at hf
          simp only [List.getElem?_set] at hf
          have hu := sim_get hφ h hcs h1
          simp only [act]
          by_cases hfs : σ 0 = f
          · subst hfs
            have hlt : σ 0 < S.mem.length := by
              by_contra hc
              rw [List.getElem?_eq_none (by omega)] at h2
              simp at h2
            simp only [if_true, hlt, Option.some.injEq] at hf
            subst hf
            rw [Function.update_self]
            by_cases hj1 : j = k + 1
            · subst hj1
              rw [Function.update_self]
              simp only [List.getElem?_set, List.length_set, if_true, hk, Option.some.injEq] at hj
              rw [hu, ← hj]
            · rw [Function.update_of_ne hj1]
              simp only [List.getElem?_set, if_neg (Ne.symm hj1)] at hj
              by_cases hj0 : j = k
              · subst hj0
                rw [Function.update_self]
                simp only [if_true, show j < w.length by omega, Option.some.injEq] at hj
                rw [hu, ← hj]
              · rw [Function.update_of_ne hj0]
                rw [if_neg (Ne.symm hj0)] at hj
                exact h.mem _ _ _ _ h2 hj
          · rw [if_neg hfs] at hf
            rw [Function.update_of_ne (hι f hf3 (Ne.symm hfs))]
            exact h.mem _ _ _ _ hf hj
        · simp at e
      · simp at e
    · simp at e
  | mul x a b => exact hop (fun u w hu hw => by simp only [hu, hw]; rw [← H.mul, ← H.mul]) e
  | add x a b => exact hop (fun u w hu hw => by simp only [hu, hw]; rw [← H.add, ← H.add]) e
  | sub x a b => exact hop (fun u w hu hw => by simp only [hu, hw]; rw [← H.sub, ← H.sub]) e
  | hadd x a b => exact hop (fun u w hu hw => by simp only [hu, hw]; rw [← H.add, ← H.add]) e
  | hsub x a b => exact hop (fun u w hu hw => by simp only [hu, hw]; rw [← H.sub, ← H.sub]) e
  | shuf x a b m =>
    refine hop (fun u w hu hw => ?_) e
    simp only [hu, hw, pick]
    congr 1 <;> split <;> rfl
  | zero x => exact hset (by simp only [H.zero]) e
  | sd x => exact hset (by simp only [H.zero, hφ.a]) e
  | sgn x => exact hset (by simp only [H.neg, hφ.one]) e

theorem sim_run (hφ : NumHom n n' φ) {ι σ : Nat → Nat} (hι : ∀ f, f < 3 → f ≠ σ 0 → ι f ≠ ι (σ 0)) {cs : Nat → W × W} (hcs : cs 0 = (n'.a, n'.a)) :
    ∀ (p : List Ins) {S S' : Sym V} {l : Nat → W × W} {v : View (Nat → W)}, S.mem.length ≤ 3 → Sim φ ι S l v → Sym.run n σ p S = some S' →
      Sim φ ι S' (runView (act n' cs fun p => ι (σ p)) p l v).1 (runView (act n' cs fun p => ι (σ p)) p l v).2
  | [], S, S', l, v, _, h, e => by
      simp only [Sym.run, Option.some.injEq] at e
      subst e
      exact h
  | x :: p, S, S', l, v, hS, h, e => by
      simp only [Sym.run] at e
      split at e
      · next S1 h1 =>
        obtain ⟨a, b⟩ := sim_step hφ hι hS h hcs h1
        exact sim_run hφ hι hcs p b a e
      · simp at e

/-- a kernel that runs with lists runs with the numbers they stand for, whatever the registers held before -/
theorem run_result (hφ : NumHom n n' φ) {σ ι : Nat → Nat} (hι : ∀ f, f < 3 → f ≠ σ 0 → ι f ≠ ι (σ 0)) {cs : Nat → W × W} (hcs : cs 0 = (n'.a, n'.a))
    {p : List Ins} {m : List (List V)} (hm : m.length ≤ 3) {R : List V} (e : Sym.result n σ p m = some R) (l : Nat → W × W) {v : View (Nat → W)}
    (hv : ∀ f w k q, m[f]? = some w → w[k]? = some q → v (ι f) k = φ q) {k : Nat} {q : V} (hk : R[k]? = some q) :
    (runView (act n' cs fun p => ι (σ p)) p l v).2 (ι (σ 0)) k = φ q := by
  unfold Sym.result at e
  split at e
  · next S hS =>
    have := sim_run hφ hι hcs p hm (v := v) (l := l) ⟨?_, hv⟩ hS
    · exact this.mem _ _ _ _ e hk
    · intro k w hk
      simp only [List.getElem?_replicate] at hk
      split at hk <;> simp at hk
  · simp at e
end

section
variable {W : Type}
/-- fields that no statement stores to keep what they held -/
theorem run_frame {n : Num W} {cs : Nat → W × W} {fld : Nat → Nat} {f : Nat} : ∀ (p : List Ins), (∀ q k a, Ins.st q k a ∈ p → fld q ≠ f) →
    ∀ (l : Nat → W × W) (v : View (Nat → W)), (runView (act n cs fld) p l v).2 f = v f
  | [], _, _, _ => rfl
  | x :: p, h, l, v => by
      rw [runView, run_frame p (fun q k a hm => h q k a (List.mem_cons_of_mem _ hm))]
      cases x with
      | st q k a =>
        simp only [act]
        rw [Function.update_of_ne (Ne.symm (h q k a (List.mem_cons_self ..)))]
      | _ => rfl

/-- a program that reads no register set before the loop -/
def Ins.noC : Ins → Bool
  | .ld .. | .zero _ | .sd _ | .sgn _ => true
  | .st _ _ a => a.isV
  | .mul _ a b | .add _ a b | .sub _ a b | .hadd _ a b | .hsub _ a b | .shuf _ a b _ => a.isV && b.isV

theorem getReg_congr {cs cs' l : Nat → W × W} {a : Reg} (h : a.isV = true) : getReg cs l a = getReg cs' l a := by
  cases a with
  | c k => simp [Reg.isV] at h
  | v k => rfl

theorem act_congr {n : Num W} {cs cs' : Nat → W × W} {fld : Nat → Nat} {x : Ins} (h : x.noC = true) (l : Nat → W × W) (v : View (Nat → W)) :
    act n cs fld x l v = act n cs' fld x l v := by
  cases x <;> simp only [Ins.noC, Bool.and_eq_true] at h <;> simp only [act, Ins.res]
  case st p k a => rw [getReg_congr h]
  all_goals rw [getReg_congr (cs := cs) (cs' := cs') h.1, getReg_congr (cs := cs) (cs' := cs') h.2]

theorem run_congr {n : Num W} {cs cs' : Nat → W × W} {fld : Nat → Nat} : ∀ {p : List Ins}, p.all Ins.noC = true → ∀ (l : Nat → W × W) (v : View (Nat → W)),
    runView (act n cs fld) p l v = runView (act n cs' fld) p l v
  | [], _, _, _ => rfl
  | x :: p, h, l, v => by
      simp only [List.all_cons, Bool.and_eq_true] at h
      rw [runView, runView, act_congr (cs' := cs') h.1, run_congr h.2]

/-- words of the destination that no statement stores to -/
theorem run_above {n : Num W} {cs : Nat → W × W} {fld : Nat → Nat} {f j : Nat} : ∀ (p : List Ins), (∀ q k a, Ins.st q k a ∈ p → k + 1 < j) →
    ∀ (l : Nat → W × W) (v : View (Nat → W)), (runView (act n cs fld) p l v).2 f j = v f j
  | [], _, _, _ => rfl
  | x :: p, h, l, v => by
      rw [runView, run_above p (fun q k a hm => h q k a (List.mem_cons_of_mem _ hm))]
      cases x with
      | st q k a =>
        have := h q k a (List.mem_cons_self ..)
        simp only [act]
        by_cases hf : f = fld q
        · subst hf
          rw [Function.update_self, Function.update_of_ne (by omega), Function.update_of_ne (by omega)]
        · rw [Function.update_of_ne hf]
      | _ => rfl

/-- registers read, and the register set -/
def Ins.reads : Ins → List Reg
  | .ld .. | .zero _ | .sd _ | .sgn _ => []
  | .st _ _ a => [a]
  | .mul _ a b | .add _ a b | .sub _ a b | .hadd _ a b | .hsub _ a b | .shuf _ a b _ => [a, b]

def Ins.sets : Ins → List Nat
  | .st .. => []
  | .ld x .. | .zero x | .sd x | .sgn x | .mul x .. | .add x .. | .sub x .. | .hadd x .. | .hsub x .. | .shuf x .. => [x]

def Reg.isIn (ds : List Nat) : Reg → Bool
  | .c _ => true
  | .v k => ds.contains k

/-- no register is read before it is set -/
def wellDef : List Nat → List Ins → Bool
  | _, [] => true
  | ds, x :: p => x.reads.all (Reg.isIn ds) && wellDef (x.sets ++ ds) p

theorem getReg_isIn {cs l l' : Nat → W × W} {ds : List Nat} (h : ∀ k ∈ ds, l k = l' k) {a : Reg} (ha : a.isIn ds = true) : getReg cs l a = getReg cs l' a := by
  cases a with
  | c k => rfl
  | v k => exact h k (by simpa [Reg.isIn] using ha)

/-- a program that reads no register before it is set does the same whatever the registers held -/
theorem run_indep {n : Num W} {cs : Nat → W × W} {fld : Nat → Nat} : ∀ {p : List Ins} {ds : List Nat}, wellDef ds p = true → ∀ {l l' : Nat → W × W},
    (∀ k ∈ ds, l k = l' k) → ∀ v : View (Nat → W), (runView (act n cs fld) p l v).2 = (runView (act n cs fld) p l' v).2
  | [], _, _, _, _, _, _ => rfl
  | x :: p, ds, h, l, l', hl, v => by
      simp only [wellDef, Bool.and_eq_true, List.all_eq_true] at h
      have hv : (act n cs fld x l v).2 = (act n cs fld x l' v).2 := by
        cases x with
        | st q k a => simp only [act, getReg_isIn (cs := cs) hl (h.1 a (by simp [Ins.reads]))]
        | _ => rfl
      have hr : ∀ k ∈ x.sets ++ ds, (act n cs fld x l v).1 k = (act n cs fld x l' v).1 k := by
        intro k hk
        have hup : ∀ (y : Nat) (w : W × W), k ∈ [y] ++ ds → Function.update l y w k = Function.update l' y w k := by
          intro y w hk
          by_cases hy : k = y
          · subst hy; simp
          · rw [Function.update_of_ne hy, Function.update_of_ne hy]
            exact hl k (by simpa [hy] using hk)
        cases x with
        | st q j a => exact hl k (by simpa [Ins.sets] using hk)
        | ld y q j => exact hup y _ hk
        | zero y => exact hup y _ hk
        | sd y => exact hup y _ hk
        | sgn y => exact hup y _ hk
        | _ y a b =>
          simp only [act, Ins.res, getReg_isIn (cs := cs) hl (h.1 a (by simp [Ins.reads])), getReg_isIn (cs := cs) hl (h.1 b (by simp [Ins.reads]))]
          exact hup y _ hk
      rw [runView, runView, hv]
      exact run_indep h.2 hr _

end

end Verif.Sse
