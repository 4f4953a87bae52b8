import Verif.Basic
import Mathlib.Data.List.Nodup
/-
Property C129: singletons (`SingletonHolder`), include/qdp_singleton.h.

The types T of the holders are numbered.  A constructor or destructor of T may call `Instance()` of other holders; what else it does is left out, as are failures of
`std::atexit` and of `new`.  An object is identified by a serial number; `log` records what is made and destroyed, newest first.  `abort` stands for
`std::logic_error("Dead Reference Detected")` and for a failed `assert`; both end the program when raised at exit.
-/
set_option linter.unusedVariables false
namespace Verif.Singleton
open Verif Outcome

/-- the policies for lifetimes: include/qdp_singleton.h:244-348; `longevity` is `SingletonWithLongevity` -/
inductive Life | default | phoenix | longevity | noDestroy
  deriving DecidableEq

/-- the types: policy, does creation return 0 (`CreateUsingMalloc` without memory, include/qdp_singleton.h:189-205), what constructor and destructor use -/
structure Types where
  life : Nat → Life
  fails : Nat → Bool
  deps : Nat → List Nat
  dtor : Nat → List Nat

inductive Ev | made (i o : Nat) | gone (i o : Nat)
  deriving DecidableEq

/-- `pInstance_`, `destroyed_` (include/qdp_singleton.h:377-379) and `destroyedOnce_` (include/qdp_singleton.h:286-294) of one holder -/
structure Holder where
  inst : Option Nat
  dead : Bool
  once : Bool

/-- all holders, the functions given to `std::atexit` (last one first), `elements` (include/qdp_singleton.h:96) -/
structure World where
  h : Nat → Holder
  atexit : List Nat
  elems : Nat
  next : Nat
  log : List Ev

def World.set (w : World) (i : Nat) (x : Holder) : World := { w with h := Function.update w.h i x }

/-- `OnDeadReference`, include/qdp_singleton.h:256-257, 279-284, 329-330, 346-347, then `destroyed_ = false`, include/qdp_singleton.h:436-440 -/
def onDead (T : Types) (i : Nat) (w : World) : Outcome World :=
  match T.life i with
  | .default => abort
  | .longevity => abort
  | .phoenix => ok (w.set i { w.h i with once := true, dead := false })
  | .noDestroy => ok (w.set i { w.h i with dead := false })

/-- `ScheduleDestruction`, include/qdp_singleton.h:253-254, 271-277, 323-327, 342-344.  `SetLongevity`, include/qdp_singleton.h:135-166, allocates `elements + 1`
bytes for `elements + 1` pointers of 8 bytes and writes the last one -/
def schedule (T : Types) (i : Nat) (w : World) : Outcome World :=
  match T.life i with
  | .default => ok { w with atexit := i :: w.atexit }
  | .phoenix => ok (if (w.h i).once then w else { w with atexit := i :: w.atexit })
  | .noDestroy => ok w
  | .longevity => if 8 * (w.elems + 1) ≤ w.elems + 1 then ok { w with elems := w.elems + 1, atexit := i :: w.atexit } else ub

/-- `Instance` and `MakeInstance`, include/qdp_singleton.h:406-445, with the constructor of the object (no other thread); a constructor that needs itself recurses without
end, which is what `0` stands for.  A null pointer is dereferenced if the creation fails -/
def use (T : Types) : Nat → Nat → World → Outcome (Nat × World)
  | 0, _, _ => ub
  | n + 1, i, w =>
    match (w.h i).inst with
    | some o => ok (o, w)
    | none => do
      let w ← if (w.h i).dead = true then onDead T i w else ok w
      let w ← (T.deps i).foldlM (fun w d => do let r ← use T n d w; ok r.2) w
      if T.fails i = true then ub else do
        let o := w.next
        let w ← schedule T i { w.set i { w.h i with inst := some o } with next := o + 1, log := .made i o :: w.log }
        ok (o, w)

/-- `DestroySingleton`, include/qdp_singleton.h:447-457, with the destructor of the object -/
def destroy (T : Types) (N : Nat) (i : Nat) (w : World) : Outcome World :=
  if (w.h i).dead = true then abort
  else match (w.h i).inst with
    | none => ub
    | some o => do
      let w ← (T.dtor i).foldlM (fun w d => do let r ← use T N d w; ok r.2) w
      ok { w.set i { w.h i with inst := none, dead := true } with log := .gone i o :: w.log }

/-- the end of the program: the functions given to `std::atexit`, last one first, those given meanwhile next -/
def exit (T : Types) (N : Nat) : Nat → World → Outcome World
  | 0, _ => ub
  | n + 1, w =>
    match w.atexit with
    | [] => ok w
    | i :: rest => do
      let w ← destroy T N i { w with atexit := rest }
      exit T N n w

/-- a program: calls of `Instance()`, with the objects they return -/
def run (T : Types) (N : Nat) : List Nat → World → Outcome (List Nat × World)
  | [], w => ok ([], w)
  | i :: is, w => do
    let r ← use T N i w
    let s ← run T N is r.2
    ok (r.1 :: s.1, s.2)

/-- the start of the program: include/qdp_singleton.h:386-400 -/
def w0 : World := ⟨fun _ => ⟨none, false, false⟩, [], 0, 0, []⟩

/-! ## specification -/

/-- what the use of i may need -/
inductive Needs (T : Types) : Nat → Nat → Prop
  | refl (i) : Needs T i i
  | step {i d j} : d ∈ T.deps i → Needs T d j → Needs T i j

/-- constructors use types of smaller number, memory suffices -/
structure Sound (T : Types) : Prop where
  deps : ∀ i, ∀ d ∈ T.deps i, d < i
  mem : ∀ i, T.fails i = false
  life : ∀ i, T.life i ≠ .longevity

/-- the destructor uses nothing but what the constructor used -/
def Tidy (T : Types) : Prop := ∀ i, ∀ d ∈ T.dtor i, d ∈ T.deps i

/-- is it destroyed at the end? -/
def mortal (T : Types) (i : Nat) : Bool := decide (T.life i ≠ .noDestroy)

/-- the objects made and the objects destroyed, newest first -/
def makes : List Ev → List (Nat × Nat)
  | [] => []
  | .made i o :: l => (i, o) :: makes l
  | .gone _ _ :: l => makes l
def ends : List Ev → List (Nat × Nat)
  | [] => []
  | .made _ _ :: l => ends l
  | .gone i o :: l => (i, o) :: ends l

/-- each object is made after those that its constructor uses; newest first -/
def Ordered (T : Types) : List (Nat × Nat) → Prop
  | [] => True
  | p :: l => (∀ d ∈ T.deps p.1, ∃ o, (d, o) ∈ l) ∧ Ordered T l

/-! ## proofs -/

theorem Needs.le {T : Types} (hT : Sound T) {i j : Nat} (h : Needs T i j) : j ≤ i := by
  induction h with
  | refl i => exact Nat.le_refl _
  | step hd _ ih => have := hT.deps _ _ hd; omega

/-- before the end: what holders, log and list for the end say agree -/
structure Inv (T : Types) (w : World) : Prop where
  dead : ∀ i, (w.h i).dead = false
  once : ∀ i, (w.h i).once = false
  inst : ∀ i o, (w.h i).inst = some o ↔ (i, o) ∈ makes w.log
  types : ((makes w.log).map Prod.fst).Nodup
  objs : ((makes w.log).map Prod.snd).Nodup
  fresh : ∀ p ∈ makes w.log, p.2 < w.next
  none_gone : ends w.log = []
  order : Ordered T (makes w.log)
  list : w.atexit = ((makes w.log).map Prod.fst).filter (mortal T)

theorem inv0 (T : Types) : Inv T w0 where
  dead _ := rfl
  once _ := rfl
  inst i o := by simp [w0, makes]
  types := by simp [w0, makes]
  objs := by simp [w0, makes]
  fresh := by simp [w0, makes]
  none_gone := rfl
  order := trivial
  list := rfl

/-- w' is w with more made, all of it needed -/
def Ext (T : Types) (P : Nat → Prop) (w w' : World) : Prop := ∃ l, makes w'.log = l ++ makes w.log ∧ ∀ p ∈ l, P p.1

theorem Ext.rfl' {T : Types} {P : Nat → Prop} (w : World) : Ext T P w w := ⟨[], rfl, by simp⟩
theorem Ext.trans' {T : Types} {P : Nat → Prop} {a b c : World} (h : Ext T P a b) (h' : Ext T P b c) : Ext T P a c := by
  obtain ⟨l, e, p⟩ := h
  obtain ⟨l', e', p'⟩ := h'
  refine ⟨l' ++ l, by rw [e', e, List.append_assoc], fun x hx => ?_⟩
  rcases List.mem_append.1 hx with hx | hx
  · exact p' x hx
  · exact p x hx
theorem Ext.mono {T : Types} {P Q : Nat → Prop} (h : ∀ i, P i → Q i) {a b : World} (x : Ext T P a b) : Ext T Q a b := by
  obtain ⟨l, e, p⟩ := x
  exact ⟨l, e, fun y hy => h _ (p y hy)⟩
theorem Ext.mem {T : Types} {P : Nat → Prop} {a b : World} (x : Ext T P a b) {p : Nat × Nat} (h : p ∈ makes a.log) : p ∈ makes b.log := by
  obtain ⟨l, e, _⟩ := x
  rw [e]; exact List.mem_append_right _ h

theorem use_spec {T : Types} (hT : Sound T) : ∀ (n i : Nat) (w : World), i < n → Inv T w →
    ∃ o w', use T n i w = ok (o, w') ∧ Inv T w' ∧ (i, o) ∈ makes w'.log ∧ Ext T (Needs T i) w w' := by
  intro n
  induction n with
  | zero => intro i w h; omega
  | succ n ih =>
    intro i w hi hw
    cases hin : (w.h i).inst with
    | some o => exact ⟨o, w, by rw [use, hin], hw, (hw.inst i o).1 hin, Ext.rfl' w⟩
    | none =>
      have fold : ∀ (l : List Nat) (w : World), (∀ d ∈ l, d ∈ T.deps i) → Inv T w →
          ∃ w', l.foldlM (fun w d => do let r ← use T n d w; ok r.2) w = ok w' ∧ Inv T w' ∧ (∀ d ∈ l, ∃ o, (d, o) ∈ makes w'.log) ∧
            Ext T (fun j => ∃ d ∈ T.deps i, Needs T d j) w w' := by
        intro l
        induction l with
        | nil => intro w _ hw; exact ⟨w, rfl, hw, by simp, Ext.rfl' w⟩
        | cons d l ihl =>
          intro w hl hw
          have hd := hl d (by simp)
          obtain ⟨o, w1, e1, i1, m1, x1⟩ := ih d w (by have := hT.deps i d hd; omega) hw
          obtain ⟨w2, e2, i2, m2, x2⟩ := ihl w1 (fun d hd => hl d (by simp [hd])) i1
          refine ⟨w2, ?_, i2, ?_, Ext.trans' (Ext.mono (fun j hj => ⟨d, hd, hj⟩) x1) x2⟩
          · rw [List.foldlM_cons, e1]; exact e2
          · intro d' hd'
            rcases List.mem_cons.1 hd' with rfl | hd'
            · exact ⟨o, Ext.mem x2 m1⟩
            · exact m2 d' hd'
      obtain ⟨w1, e1, i1, m1, x1⟩ := fold (T.deps i) w (fun _ h => h) hw
      have hni : ∀ o, (i, o) ∉ makes w1.log := by
        intro o ho
        obtain ⟨l, el, pl⟩ := x1
        rw [el] at ho
        rcases List.mem_append.1 ho with ho | ho
        · obtain ⟨d, hd, hn⟩ := pl _ ho
          have := hT.deps i d hd
          have := hn.le hT
          simp only at this
          omega
        · have := (hw.inst i o).2 ho
          rw [hin] at this; cases this
      let w2 : World := { w1.set i { w1.h i with inst := some w1.next } with next := w1.next + 1, log := .made i w1.next :: w1.log }
      have hs : schedule T i w2 = ok { w2 with atexit := if mortal T i then i :: w1.atexit else w1.atexit } := by
        have ho : (w2.h i).once = false := by simp [w2, World.set, i1.once]
        have := hT.life i
        cases hl : T.life i <;> simp_all [schedule, mortal, w2, World.set]
      refine ⟨w1.next, { w2 with atexit := if mortal T i then i :: w1.atexit else w1.atexit }, ?_, ?_, ?_, ?_⟩
      · rw [use, hin]
        simp only [hw.dead i, Bool.false_eq_true, if_false, ok_bind, e1, hT.mem i]
        show (schedule T i w2 >>= fun w => ok (w1.next, w)) = _
        rw [hs, ok_bind]
      · refine ⟨fun j => ?_, fun j => ?_, fun j o => ?_, ?_, ?_, ?_, i1.none_gone, ⟨m1, i1.order⟩, ?_⟩
        · by_cases hj : j = i
          · subst hj; simpa [w2, World.set] using i1.dead j
          · simpa [w2, World.set, Function.update_of_ne hj] using i1.dead j
        · by_cases hj : j = i
          · subst hj; simpa [w2, World.set] using i1.once j
          · simpa [w2, World.set, Function.update_of_ne hj] using i1.once j
        · show (Function.update w1.h i _ j).inst = some o ↔ (j, o) ∈ (i, w1.next) :: makes w1.log
          by_cases hj : j = i
          · subst hj
            rw [Function.update_self, List.mem_cons]
            constructor
            · intro h; left; simp only [Option.some.injEq] at h; rw [h]
            · intro h
              rcases h with h | h
              · simp only [Prod.mk.injEq, true_and] at h; simp [h]
              · exact absurd h (hni o)
          · rw [Function.update_of_ne hj, i1.inst j o, List.mem_cons]
            simp [hj]
        · show ((i, w1.next) :: makes w1.log |>.map Prod.fst).Nodup
          rw [List.map_cons, List.nodup_cons]
          refine ⟨fun h => ?_, i1.types⟩
          obtain ⟨p, hp, e⟩ := List.mem_map.1 h
          exact hni p.2 (by rw [← show p.1 = i from e]; exact hp)
        · show ((i, w1.next) :: makes w1.log |>.map Prod.snd).Nodup
          rw [List.map_cons, List.nodup_cons]
          refine ⟨fun h => ?_, i1.objs⟩
          obtain ⟨p, hp, e⟩ := List.mem_map.1 h
          have := i1.fresh p hp
          simp only at e
          omega
        · intro p hp
          show p.2 < w1.next + 1
          rcases List.mem_cons.1 (show p ∈ (i, w1.next) :: makes w1.log from hp) with rfl | hp
          · simp
          · have := i1.fresh p hp; omega
        · show (if mortal T i then i :: w1.atexit else w1.atexit) = (i :: (makes w1.log).map Prod.fst).filter (mortal T)
          rw [List.filter_cons, i1.list]
      · exact List.mem_cons_self
      · obtain ⟨l, el, pl⟩ := x1
        refine ⟨(i, w1.next) :: l, by show (i, w1.next) :: makes w1.log = _; rw [el]; rfl, fun p hp => ?_⟩
        rcases List.mem_cons.1 hp with rfl | hp
        · exact .refl i
        · obtain ⟨d, hd, hn⟩ := pl p hp
          exact .step hd hn

theorem run_spec {T : Types} (hT : Sound T) (N : Nat) : ∀ (is : List Nat) (w : World), (∀ i ∈ is, i < N) → Inv T w →
    ∃ os w', run T N is w = ok (os, w') ∧ Inv T w' ∧ List.Forall₂ (fun i o => (i, o) ∈ makes w'.log) is os ∧
      Ext T (fun j => ∃ i ∈ is, Needs T i j) w w' := by
  intro is
  induction is with
  | nil => intro w _ hw; exact ⟨[], w, rfl, hw, .nil, Ext.rfl' w⟩
  | cons i is ih =>
    intro w hN hw
    obtain ⟨o, w1, e1, i1, m1, x1⟩ := use_spec hT N i w (hN i (by simp)) hw
    obtain ⟨os, w2, e2, i2, m2, x2⟩ := ih w1 (fun j hj => hN j (by simp [hj])) i1
    refine ⟨o :: os, w2, by rw [run, e1, ok_bind, e2, ok_bind], i2, .cons (Ext.mem x2 m1) m2, Ext.trans' (Ext.mono ?_ x1) (Ext.mono ?_ x2)⟩
    · exact fun j hj => ⟨i, by simp, hj⟩
    · rintro j ⟨k, hk, hj⟩; exact ⟨k, by simp [hk], hj⟩

/-- the loop at the end -/
theorem exit_spec {T : Types} (hT : Sound T) (ht : Tidy T) (N : Nat) (hN : 0 < N) : ∀ (todo : List (Nat × Nat)) (n : Nat) (w : World), todo.length < n → Ordered T todo →
    (todo.map Prod.fst).Nodup → (∀ p ∈ todo, w.h p.1 = ⟨some p.2, false, false⟩) → w.atexit = (todo.map Prod.fst).filter (mortal T) →
    ∃ w', exit T N n w = ok w' ∧ makes w'.log = makes w.log ∧ (ends w'.log).reverse = (ends w.log).reverse ++ todo.filter (fun p => mortal T p.1) ∧
      (∀ i, mortal T i = false → w'.h i = w.h i) ∧ ∀ p ∈ todo, mortal T p.1 = true → w'.h p.1 = ⟨none, true, false⟩ := by
  suffices H : ∀ (todo : List (Nat × Nat)) (n : Nat) (w : World), todo.length < n → Ordered T todo →
      (todo.map Prod.fst).Nodup → (∀ p ∈ todo, w.h p.1 = ⟨some p.2, false, false⟩) → w.atexit = (todo.map Prod.fst).filter (mortal T) →
      ∃ w', exit T N n w = ok w' ∧ makes w'.log = makes w.log ∧ (ends w'.log).reverse = (ends w.log).reverse ++ todo.filter (fun p => mortal T p.1) ∧
        (∀ i, (mortal T i = false ∨ i ∉ todo.map Prod.fst) → w'.h i = w.h i) ∧ ∀ p ∈ todo, mortal T p.1 = true → w'.h p.1 = ⟨none, true, false⟩ by
    intro todo n w h1 h2 h3 h4 h5
    obtain ⟨w', e, a, b, c, d⟩ := H todo n w h1 h2 h3 h4 h5
    exact ⟨w', e, a, b, fun i hi => c i (.inl hi), d⟩
  intro todo
  induction todo with
  | nil =>
    intro n w hn _ _ _ hl
    obtain ⟨n, rfl⟩ : ∃ m, n = m + 1 := ⟨n - 1, by simp at hn; omega⟩
    refine ⟨w, ?_, rfl, by simp, fun _ _ => rfl, by simp⟩
    rw [exit, hl]; rfl
  | cons p todo ih =>
    intro n w hn hord hnd hh hl
    obtain ⟨i, o⟩ := p
    obtain ⟨hi, hnd'⟩ := List.nodup_cons.1 (show (i :: todo.map Prod.fst).Nodup from hnd)
    cases hm : mortal T i with
    | false =>
      obtain ⟨w', e, a, b, c, d⟩ := ih n w (by simp at hn; omega) hord.2 hnd' (fun p hp => hh p (by simp [hp])) (by rw [hl]; simp [hm])
      refine ⟨w', e, a, by rw [b]; simp [hm], fun j hj => c j ?_, fun p hp hpm => ?_⟩
      · rcases hj with hj | hj
        · exact .inl hj
        · exact .inr fun h => hj (by simp only [List.map_cons, List.mem_cons]; exact .inr h)
      · rcases List.mem_cons.1 hp with rfl | hp
        · simp [hm] at hpm
        · exact d p hp hpm
    | true =>
      obtain ⟨n, rfl⟩ : ∃ m, n = m + 1 := ⟨n - 1, by simp at hn; omega⟩
      have hwi : w.h i = ⟨some o, false, false⟩ := hh (i, o) (by simp)
      let v : World := { w with atexit := (todo.map Prod.fst).filter (mortal T) }
      have fold : ∀ l : List Nat, (∀ d ∈ l, d ∈ T.deps i) → l.foldlM (fun w d => do let r ← use T N d w; ok r.2) v = ok v := by
        intro l
        induction l with
        | nil => intro _; rfl
        | cons d l ihl =>
          intro hl
          obtain ⟨o', ho'⟩ := hord.1 d (hl d (by simp))
          have hd : w.h d = ⟨some o', false, false⟩ := hh (d, o') (by simp [ho'])
          have hu : use T N d v = ok (o', v) := by
            obtain ⟨N, rfl⟩ : ∃ m, N = m + 1 := ⟨N - 1, by omega⟩
            have : (v.h d).inst = some o' := by show (w.h d).inst = _; rw [hd]
            rw [use, this]
          rw [List.foldlM_cons, hu]
          exact ihl fun d hd => hl d (by simp [hd])
      let v2 : World := { v.set i { v.h i with inst := none, dead := true } with log := .gone i o :: v.log }
      have hdes : destroy T N i v = ok v2 := by
        have h1 : (v.h i).dead = false := by show (w.h i).dead = _; rw [hwi]
        have h2 : (v.h i).inst = some o := by show (w.h i).inst = _; rw [hwi]
        rw [destroy, h1, h2]
        simp only [Bool.false_eq_true, if_false]
        rw [fold (T.dtor i) (ht i), ok_bind]
      have hv2 : ∀ j, j ≠ i → v2.h j = w.h j := fun j hj => Function.update_of_ne hj _ _
      have hv2i : v2.h i = ⟨none, true, false⟩ := by
        show Function.update w.h i { w.h i with inst := none, dead := true } i = _
        rw [Function.update_self, hwi]
      obtain ⟨w', e, a, b, c, d⟩ := ih n v2 (by simp at hn; omega) hord.2 hnd'
        (fun p hp => by
          rw [hv2 p.1 fun h => hi (h ▸ List.mem_map_of_mem hp)]
          exact hh p (by simp [hp])) rfl
      refine ⟨w', ?_, a, ?_, fun j hj => ?_, fun p hp hpm => ?_⟩
      · have hla : w.atexit = i :: (todo.map Prod.fst).filter (mortal T) := by rw [hl]; simp [hm]
        rw [exit, hla]
        show (destroy T N i v >>= fun w => exit T N n w) = _
        rw [hdes, ok_bind, e]
      · rw [b]
        show ((i, o) :: ends w.log).reverse ++ _ = _
        simp [hm]
      · have hji : j ≠ i := by
          rintro rfl
          rcases hj with hj | hj
          · rw [hm] at hj; cases hj
          · exact hj (by simp)
        rw [← hv2 j hji]
        refine c j ?_
        rcases hj with hj | hj
        · exact .inl hj
        · exact .inr fun h => hj (by simp only [List.map_cons, List.mem_cons]; exact .inr h)
      · rcases List.mem_cons.1 hp with rfl | hp
        · rw [c i (.inr hi)]; exact hv2i
        · exact d p hp hpm

/-! ## theorems -/

/-- C129: for every program, `Instance()` gives one object per type, different ones for different types, made at the first use: only what is used, or used by a constructor
that runs, is made, once, after what its constructor uses; nothing is destroyed. -/
theorem C129_one {T : Types} (hT : Sound T) (N : Nat) (is : List Nat) (hN : ∀ i ∈ is, i < N) :
    ∃ os w, run T N is w0 = ok (os, w) ∧ List.Forall₂ (fun i o => (i, o) ∈ makes w.log) is os ∧ ((makes w.log).map Prod.fst).Nodup ∧
      ((makes w.log).map Prod.snd).Nodup ∧ (∀ p ∈ makes w.log, ∃ i ∈ is, Needs T i p.1) ∧ Ordered T (makes w.log) ∧ ends w.log = [] := by
  obtain ⟨os, w, e, inv, m, l, el, pl⟩ := run_spec hT N is w0 hN (inv0 T)
  refine ⟨os, w, e, m, inv.types, inv.objs, fun p hp => pl p ?_, inv.order, inv.none_gone⟩
  rw [el] at hp
  simpa [w0, makes] using hp

/-- C129: if destructors use only what their constructors used, the program ends without error; every object whose policy says so is destroyed once, in the opposite order of
creation, those of policy `NoDestroy` never. -/
theorem C129_exit {T : Types} (hT : Sound T) (ht : Tidy T) (N : Nat) (hN0 : 0 < N) (is : List Nat) (hN : ∀ i ∈ is, i < N) (os : List Nat) (w : World)
    (h : run T N is w0 = ok (os, w)) (n : Nat) (hn : (makes w.log).length < n) :
    ∃ w', exit T N n w = ok w' ∧ makes w'.log = makes w.log ∧ (ends w'.log).reverse = (makes w.log).filter (fun p => mortal T p.1) := by
  obtain ⟨os', w1, e, inv, _, _⟩ := run_spec hT N is w0 hN (inv0 T)
  rw [h] at e
  cases e
  obtain ⟨w', e', a, b, _, _⟩ := exit_spec hT ht N hN0 (makes w.log) n w hn inv.order inv.types (fun p hp => by
    have h1 := (inv.inst p.1 p.2).2 hp
    have h2 := inv.dead p.1
    have h3 := inv.once p.1
    cases hh : w.h p.1 with
    | mk a b c => rw [hh] at h1 h2 h3; simp only at h1 h2 h3; rw [h1, h2, h3]) inv.list
  exact ⟨w', e', a, by rw [b, inv.none_gone]; rfl⟩

/-- C129: what a constructor uses outlives the object: of two that are destroyed, the one used by the constructor of the other goes later. -/
theorem C129_outlives {T : Types} (l : List (Nat × Nat)) (h : Ordered T l) (p : Nat × Nat) (hp : p ∈ l) (hpm : mortal T p.1 = true) (d : Nat) (hd : d ∈ T.deps p.1)
    (hdm : mortal T d = true) : ∃ a b c o, l.filter (fun p => mortal T p.1) = a ++ p :: b ++ (d, o) :: c := by
  obtain ⟨s, t, rfl⟩ := List.append_of_mem hp
  have ho : Ordered T (p :: t) := by
    clear hp
    induction s with
    | nil => exact h
    | cons x s ih => exact ih h.2
  obtain ⟨o, ho⟩ := ho.1 d hd
  have hf : (d, o) ∈ t.filter (fun p => mortal T p.1) := List.mem_filter.2 ⟨ho, hdm⟩
  obtain ⟨b, c, e⟩ := List.append_of_mem hf
  refine ⟨s.filter (fun p => mortal T p.1), b, c, o, ?_⟩
  rw [List.filter_append, List.filter_cons, if_pos hpm, e]
  simp

/-- C129: the policy in use, `NoDestroy` (the allocator, include/qdp_allocator.h:75-89): whatever destructors use, the program ends without error and nothing is
destroyed, so that fields destroyed late still find their allocator. -/
theorem C129_allocator {T : Types} (hT : Sound T) (hl : ∀ i, T.life i = .noDestroy) (N : Nat) (is : List Nat) (hN : ∀ i ∈ is, i < N) (n : Nat) :
    ∃ os w, run T N is w0 = ok (os, w) ∧ exit T N (n + 1) w = ok w ∧ ends w.log = [] ∧ ∀ i ∈ is, ∃ o, use T N i w = ok (o, w) ∧ (i, o) ∈ makes w.log := by
  obtain ⟨os, w, e, inv, m, x⟩ := run_spec hT N is w0 hN (inv0 T)
  refine ⟨os, w, e, ?_, inv.none_gone, fun i hi => ?_⟩
  · have : w.atexit = [] := by rw [inv.list]; simp [mortal, hl]
    rw [exit, this]
  · obtain ⟨o, ho⟩ : ∃ o, (i, o) ∈ makes w.log := by
      clear e hN x
      induction m with
      | nil => simp at hi
      | cons a b ih =>
        rcases List.mem_cons.1 hi with rfl | hi
        · exact ⟨_, a⟩
        · exact ih hi
    have hN' := hN i hi
    obtain ⟨N, rfl⟩ : ∃ k, N = k + 1 := ⟨N - 1, by omega⟩
    exact ⟨o, by rw [use, (inv.inst i o).2 ho], ho⟩

/-- C129, refuted: `SingletonWithLongevity` writes beyond its array: the first use of such a type is undefined whatever was done before. -/
theorem C129_longevity_refuted (T : Types) (n i : Nat) (w : World) (hl : T.life i = .longevity) (hd : T.deps i = []) (hi : (w.h i).inst = none) (hdead : (w.h i).dead = false) :
    use T (n + 1) i w = ub := by
  have hs : ∀ w : World, schedule T i w = ub := by
    intro w
    rw [schedule, hl]
    exact if_neg (by omega)
  rw [use, hi]
  simp only [hdead, Bool.false_eq_true, if_false, ok_bind, hd, List.foldlM_nil]
  show (if T.fails i = true then ub else _) = ub
  split
  · rfl
  · rw [hs]; rfl

/-- C129, refuted: creation that returns 0 is not noticed, the null pointer is used. -/
theorem C129_memory_refuted (T : Types) (n i : Nat) (w : World) (hf : T.fails i = true) (hd : T.deps i = []) (hi : (w.h i).inst = none) (hdead : (w.h i).dead = false) :
    use T (n + 1) i w = ub := by
  rw [use, hi]
  simp only [hdead, Bool.false_eq_true, if_false, ok_bind, hd, List.foldlM_nil]
  show (if T.fails i = true then ub else _) = ub
  rw [if_pos hf]

/-- two types, the destructor of 0 uses 1 -/
def pair (l : Life) : Types := ⟨fun i => if i = 0 then .default else l, fun _ => false, fun _ => [], fun i => if i = 0 then [1] else []⟩

/-- C129, refuted: with a destructor that uses another singleton the order of the first uses decides: with 0 first the program ends with a dead reference, with 1 first it ends well. -/
theorem C129_dead_refuted : Sound (pair .default) ∧
    (∃ w, run (pair .default) 2 [0, 1] w0 = ok ([0, 1], w) ∧ ∀ n, exit (pair .default) 2 (n + 3) w = abort) ∧
    (∃ w w', run (pair .default) 2 [1, 0] w0 = ok ([0, 1], w) ∧ (∀ n, exit (pair .default) 2 (n + 3) w = ok w') ∧ (ends w'.log).reverse = [(0, 1), (1, 0)]) := by
  refine ⟨⟨by simp [pair], fun _ => rfl, fun i => ?_⟩, ⟨_, rfl, fun n => rfl⟩, ⟨_, _, rfl, fun n => rfl, rfl⟩⟩
  simp only [pair]; split <;> simp

/-- C129, refuted: `PhoenixSingleton` makes the object again, but the second one is never destroyed (`ATEXIT_FIXED` is not defined). -/
theorem C129_phoenix_refuted : Sound (pair .phoenix) ∧
    ∃ w w', run (pair .phoenix) 2 [0, 1] w0 = ok ([0, 1], w) ∧ (∀ n, exit (pair .phoenix) 2 (n + 3) w = ok w') ∧
      makes w'.log = [(1, 2), (1, 1), (0, 0)] ∧ (ends w'.log).reverse = [(1, 1), (0, 0)] := by
  refine ⟨⟨by simp [pair], fun _ => rfl, fun i => ?_⟩, ⟨_, _, rfl, fun n => rfl, rfl, rfl⟩⟩
  simp only [pair]; split <;> simp

/-! ### cases -/

/-- three types: 2 uses 1 and 0, 1 uses 0; 0 is never destroyed -/
def chain : Types := ⟨fun i => if i = 0 then .noDestroy else .default, fun _ => false, fun i => if i = 2 then [1, 0] else if i = 1 then [0] else [],
  fun i => if i = 2 then [0] else []⟩
example : Sound chain := ⟨by intro i d; simp only [chain]; split <;> (try split) <;> simp <;> omega, fun _ => rfl, by intro i; simp only [chain]; split <;> simp⟩
example : Tidy chain := by intro i d; simp only [chain]; split <;> simp_all
example : ∃ w w', run chain 3 [2, 1, 2] w0 = ok ([2, 1, 2], w) ∧ makes w.log = [(2, 2), (1, 1), (0, 0)] ∧ exit chain 3 4 w = ok w' ∧ (ends w'.log).reverse = [(2, 2), (1, 1)] :=
  ⟨_, _, rfl, rfl, rfl, rfl⟩
example : mortal chain 2 = true ∧ mortal chain 1 = true ∧ 1 ∈ chain.deps 2 := by simp [mortal, chain]

end Verif.Singleton
