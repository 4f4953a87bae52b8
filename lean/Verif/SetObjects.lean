import Mathlib.Data.List.Basic
import Verif.Subset
/-
Sets and subsets as objects: what a `Subset` shows after sets were made again, assigned, copied and destroyed.  include/qdp_subset.h, lib/qdp_subset.cc:136-171, `Set::make`
lib/qdp_scalarsite_specific.cc:56-189 (what it computes is C04, C05; here is where it puts it), `multi1d` include/qdp_multi.h:46-73, 256-268.

A `Subset` holds two pointers: to its table inside the set that was made, and to that set.  Memory is a heap of arrays of tables, never used again after it was freed.  Variables of type
`Set` and `Subset` are numbered; `operator[]` is used to copy the subset.
-/
namespace Verif.SetObjects
open Verif Outcome Verif.Subset

/-! ## model -/

/-- a `Subset`, include/qdp_subset.h:66-76: `blk` and `idx` are the pointer `sitetable`, `set` the pointer to the set -/
structure Rec where
  ordRep : Bool
  start : Int
  stop : Int
  colour : Nat
  blk : Nat
  idx : Nat
  set : Nat

/-- a `Set`, include/qdp_subset.h:119-127: the array `sitetables`, the colouring, the subsets -/
structure SetM where
  blk : Option Nat
  color : List Nat
  subs : List Rec

structure World where
  heap : Nat → Option (List (List Int))
  next : Nat
  sets : Nat → Option SetM
  subs : Nat → Option Rec

def upd {α : Type} (f : Nat → α) (i : Nat) (x : α) : Nat → α := fun j => if j = i then x else f j

/-- `delete [] F` -/
def free (heap : Nat → Option (List (List Int))) : Option Nat → Nat → Option (List (List Int))
  | none => heap
  | some b => upd heap b none

/-- the tables that `sitetables` of a set holds -/
def tablesOf (W : World) (s : SetM) : List (List Int) :=
  match s.blk with
  | none => []
  | some b => (W.heap b).getD []

/-- the subsets made by `Set::make` of the set variable `v`, lib/qdp_scalarsite_specific.cc:182 -/
def records (obj : SetObj) (b v : Nat) : List Rec := obj.subs.mapIdx fun i x => ⟨x.ordRep, x.start, x.stop, x.colour, b, i, v⟩

inductive Op
  /-- `Set v;` -/
  | new (v : Nat)
  /-- `v.make(fn)`, with the result of `fn` on this lattice -/
  | make (v : Nat) (obj : SetObj)
  /-- `v = w;` -/
  | assign (v w : Nat)
  /-- `Set v(w);` -/
  | copy (v w : Nat)
  /-- the end of the life of `v` -/
  | destroy (v : Nat)
  /-- `p = v[i];` -/
  | take (p v i : Nat)
  /-- `p = q;` -/
  | dup (p q : Nat)

/-- `v = w`, lib/qdp_subset.cc:163-169, `multi1d::operator=` include/qdp_multi.h:65-73: arrays of the same size are not allocated again -/
def assign (W : World) (v w : Nat) (sv sw : SetM) : World :=
  if v = w then W
  else if (tablesOf W sv).length = (tablesOf W sw).length then
    { W with heap := match sv.blk with | none => W.heap | some b => upd W.heap b (some (tablesOf W sw)), sets := upd W.sets v (some ⟨sv.blk, sw.color, sw.subs⟩) }
  else { W with heap := upd (free W.heap sv.blk) W.next (some (tablesOf W sw)), next := W.next + 1, sets := upd W.sets v (some ⟨some W.next, sw.color, sw.subs⟩) }

def step (W : World) : Op → Outcome World
  | .new v => match W.sets v with
    | some _ => ub
    | none => ok { W with sets := upd W.sets v (some ⟨none, [], []⟩) }
  | .make v obj => match W.sets v with
    | none => ub
    | some s => ok { W with heap := upd (free W.heap s.blk) W.next (some (obj.subs.map Sub.table)), next := W.next + 1,
                            sets := upd W.sets v (some ⟨some W.next, obj.latColor, records obj W.next v⟩) }
  | .assign v w => match W.sets v, W.sets w with
    | some sv, some sw => ok (assign W v w sv sw)
    | _, _ => ub
  | .copy v w => match W.sets v, W.sets w with
    | none, some sw => ok { W with heap := upd W.heap W.next (some (tablesOf W sw)), next := W.next + 1, sets := upd W.sets v (some ⟨some W.next, sw.color, sw.subs⟩) }
    | _, _ => ub
  | .destroy v => match W.sets v with
    | none => ub
    | some s => ok { W with heap := free W.heap s.blk, sets := upd W.sets v none }
  | .take p v i => match W.sets v with
    | none => ub
    | some s => match s.subs[i]? with
      | none => ub
      | some r => ok { W with subs := upd W.subs p (some r) }
  | .dup p q => match W.subs q with
    | none => ub
    | some r => ok { W with subs := upd W.subs p (some r) }

def run (W : World) : List Op → Outcome World
  | [] => ok W
  | o :: os => do
      let W ← step W o
      run W os

def init : World := ⟨fun _ => none, 0, fun _ => none, fun _ => none⟩

/-- what a subset shows: `hasOrderedRep()`, `start()`, `end()`, `siteTable()`, `color()`, `getSet().latticeColoring()`; undefined if a pointer is to freed memory -/
def observe (W : World) (p : Nat) : Outcome (Sub × List Nat) :=
  match W.subs p with
  | none => ub
  | some r => match W.heap r.blk with
    | none => ub
    | some ts => match ts[r.idx]?, W.sets r.set with
      | some t, some s => ok (⟨r.ordRep, r.start, r.stop, t, r.colour⟩, s.color)
      | _, _ => ub

/-! ## specification: sets and subsets are values -/

/-- a value, the set variable that was made, and how often that variable had been changed when it was made -/
structure Val (α : Type) where
  val : α
  home : Nat
  ver : Nat

structure Spec where
  ver : Nat → Nat
  sets : Nat → Option (Val SetObj)
  subs : Nat → Option (Val (Sub × List Nat))

def Spec.put (S : Spec) (v : Nat) (x : Option (Val SetObj)) : Spec := { S with ver := upd S.ver v (S.ver v + 1), sets := upd S.sets v x }

def Spec.step (S : Spec) : Op → Spec
  | .new v => S.put v (some ⟨⟨[], []⟩, v, S.ver v + 1⟩)
  | .make v obj => S.put v (some ⟨obj, v, S.ver v + 1⟩)
  | .assign v w => if v = w then S else S.put v (S.sets w)
  | .copy v w => S.put v (S.sets w)
  | .destroy v => S.put v none
  | .take p v i => { S with subs := upd S.subs p ((S.sets v).bind fun x => x.val.subs[i]?.map fun y => ⟨(y, x.val.latColor), x.home, x.ver⟩) }
  | .dup p q => { S with subs := upd S.subs p (S.subs q) }

def Spec.run (S : Spec) : List Op → Spec
  | [] => S
  | o :: os => (S.step o).run os

def Spec.init : Spec := ⟨fun _ => 0, fun _ => none, fun _ => none⟩

/-! ## proof -/

/-- a subset is what it is meant to be, as long as its home was not changed -/
structure RecOk (W : World) (S : Spec) (r : Rec) (x : Sub) (col : List Nat) (home ver : Nat) : Prop where
  ordRep : r.ordRep = x.ordRep
  start : r.start = x.start
  stop : r.stop = x.stop
  colour : r.colour = x.colour
  set : r.set = home
  le : ver ≤ S.ver home
  live : S.ver home = ver → ∃ s ts, W.sets home = some s ∧ s.blk = some r.blk ∧ s.color = col ∧ W.heap r.blk = some ts ∧ ts[r.idx]? = some x.table

structure SetOk (W : World) (S : Spec) (s : SetM) (x : Val SetObj) : Prop where
  color : s.color = x.val.latColor
  len : s.subs.length = x.val.subs.length
  subs : ∀ (i : Nat) (r : Rec) (y : Sub), s.subs[i]? = some r → x.val.subs[i]? = some y → RecOk W S r y x.val.latColor x.home x.ver

structure Inv (W : World) (S : Spec) : Prop where
  heap : ∀ v s b, W.sets v = some s → s.blk = some b → b < W.next ∧ W.heap b ≠ none
  inj : ∀ v w s t b, W.sets v = some s → W.sets w = some t → s.blk = some b → t.blk = some b → v = w
  fresh : ∀ b, W.next ≤ b → W.heap b = none
  same : ∀ v, W.sets v = none ↔ S.sets v = none
  sets : ∀ v s x, W.sets v = some s → S.sets v = some x → SetOk W S s x
  subs : ∀ p r, W.subs p = some r → ∃ x, S.subs p = some x ∧ RecOk W S r x.val.1 x.val.2 x.home x.ver

/-- the changes of a set variable `v` leave what is at home elsewhere -/
structure Keeps (W W' : World) (S S' : Spec) (v : Nat) : Prop where
  sets : ∀ w, w ≠ v → W'.sets w = W.sets w
  heap : ∀ w s b, w ≠ v → W.sets w = some s → s.blk = some b → W'.heap b = W.heap b
  ver : ∀ w, w ≠ v → S'.ver w = S.ver w
  more : S'.ver v = S.ver v + 1

theorem RecOk.keep {W W' : World} {S S' : Spec} {v : Nat} (k : Keeps W W' S S' v) {r : Rec} {x : Sub} {col : List Nat} {home ver : Nat} (h : RecOk W S r x col home ver) :
    RecOk W' S' r x col home ver := by
  refine ⟨h.ordRep, h.start, h.stop, h.colour, h.set, ?_, fun hv => ?_⟩
  · by_cases e : home = v
    · subst e; rw [k.more]; exact Nat.le_succ_of_le h.le
    · rw [k.ver _ e]; exact h.le
  · by_cases e : home = v
    · subst e; rw [k.more] at hv; have := h.le; omega
    · rw [k.ver _ e] at hv
      obtain ⟨s, ts, h1, h2, h3, h4, h5⟩ := h.live hv
      exact ⟨s, ts, by rw [k.sets _ e]; exact h1, h2, h3, by rw [k.heap home s r.blk e h1 h2]; exact h4, h5⟩

theorem SetOk.keep {W W' : World} {S S' : Spec} {v : Nat} (k : Keeps W W' S S' v) {s : SetM} {x : Val SetObj} (h : SetOk W S s x) : SetOk W' S' s x :=
  ⟨h.color, h.len, fun i r y hr hy => (h.subs i r y hr hy).keep k⟩

theorem inv_of_keep {W W' : World} {S S' : Spec} {v : Nat} (m : Inv W S) (k : Keeps W W' S S' v) (hs : W'.subs = W.subs) (hs' : S'.subs = S.subs) (hne : ∀ w, w ≠ v → S'.sets w = S.sets w)
    (hn : W.next ≤ W'.next) (hfresh : ∀ b, W'.next ≤ b → W'.heap b = none) (hnone : W'.sets v = none ↔ S'.sets v = none)
    (hblk : ∀ s b, W'.sets v = some s → s.blk = some b → b < W'.next ∧ W'.heap b ≠ none ∧ ∀ w t, w ≠ v → W.sets w = some t → t.blk ≠ some b)
    (hset : ∀ s x, W'.sets v = some s → S'.sets v = some x → SetOk W' S' s x) : Inv W' S' := by
  refine ⟨fun w s b hw hb => ?_, fun w u s t b hw hu hb hb' => ?_, hfresh, fun w => ?_, fun w s x hw hx => ?_, fun p r hp => ?_⟩
  · by_cases e : w = v
    · subst e; exact ⟨(hblk s b hw hb).1, (hblk s b hw hb).2.1⟩
    · rw [k.sets w e] at hw
      obtain ⟨h1, h2⟩ := m.heap w s b hw hb
      exact ⟨by omega, by rw [k.heap w s b e hw hb]; exact h2⟩
  · by_cases e : w = v <;> by_cases e' : u = v
    · rw [e, e']
    · subst e; rw [k.sets u e'] at hu; exact absurd hb' ((hblk s b hw hb).2.2 u t e' hu)
    · subst e'; rw [k.sets w e] at hw; exact absurd hb ((hblk t b hu hb').2.2 w s e hw)
    · rw [k.sets w e] at hw; rw [k.sets u e'] at hu; exact m.inj w u s t b hw hu hb hb'
  · by_cases e : w = v
    · subst e; exact hnone
    · rw [k.sets w e, hne w e]; exact m.same w
  · by_cases e : w = v
    · subst e; exact hset s x hw hx
    · rw [k.sets w e] at hw; rw [hne w e] at hx; exact (m.sets w s x hw hx).keep k
  · rw [hs] at hp
    obtain ⟨x, h1, h2⟩ := m.subs p r hp
    exact ⟨x, by rw [hs']; exact h1, h2.keep k⟩

@[simp] theorem upd_same {α : Type} (f : Nat → α) (i : Nat) (x : α) : upd f i x i = x := by simp [upd]
theorem upd_ne {α : Type} (f : Nat → α) {i j : Nat} (h : j ≠ i) (x : α) : upd f i x j = f j := by simp [upd, h]

theorem free_ne (heap : Nat → Option (List (List Int))) (o : Option Nat) (b : Nat) (h : o ≠ some b) : free heap o b = heap b := by
  cases o with
  | none => rfl
  | some c => exact upd_ne _ (fun e => h (by rw [e])) _

theorem free_none (heap : Nat → Option (List (List Int))) (o : Option Nat) (b : Nat) (h : heap b = none) : free heap o b = none := by
  cases o with
  | none => exact h
  | some c => simp only [free, upd]; split <;> [rfl; exact h]

/-- a new array -/
theorem keeps_alloc {W : World} {S : Spec} (m : Inv W S) (v : Nat) (o : Option Nat) (ho : ∀ w s b, w ≠ v → W.sets w = some s → s.blk = some b → o ≠ some b) (ts : List (List Int)) (x : Option SetM)
    (y : Option (Val SetObj)) : Keeps W { W with heap := upd (free W.heap o) W.next (some ts), next := W.next + 1, sets := upd W.sets v x } S (S.put v y) v := by
  refine ⟨fun w e => upd_ne _ e _, fun w s b e hw hb => ?_, fun w e => upd_ne _ e _, by simp [Spec.put]⟩
  have := (m.heap w s b hw hb).1
  simp only
  rw [upd_ne _ (by omega), free_ne _ _ _ (ho w s b e hw hb)]

theorem own {W : World} {S : Spec} (m : Inv W S) {v : Nat} {s : SetM} (hv : W.sets v = some s) (w : Nat) (t : SetM) (b : Nat) (e : w ≠ v) (hw : W.sets w = some t) (hb : t.blk = some b) : s.blk ≠ some b :=
  fun h => e (m.inj w v t s b hw hv hb h)

theorem step_inv {W W' : World} {S : Spec} {o : Op} (m : Inv W S) (hs : step W o = ok W') : Inv W' (S.step o) := by
  cases o with
  | new v =>
    simp only [step] at hs
    split at hs
    · cases hs
    · rename_i hv
      cases hs
      refine inv_of_keep (v := v) m ⟨fun w e => upd_ne _ e _, fun w s b _ _ _ => rfl, fun w e => upd_ne _ e _, by simp [Spec.step, Spec.put]⟩ rfl rfl (fun w e => upd_ne _ e _) (Nat.le_refl _) m.fresh
        (by simp [Spec.step, Spec.put]) (fun s b h1 h2 => ?_) (fun s x h1 h2 => ?_)
      · simp only [upd_same, Option.some.injEq] at h1; subst h1; cases h2
      · simp only [upd_same, Option.some.injEq] at h1; subst h1
        simp only [Spec.step, Spec.put, upd_same, Option.some.injEq] at h2; subst h2
        exact ⟨rfl, rfl, fun i r y hr _ => by simp at hr⟩
  | make v obj =>
    simp only [step] at hs
    split at hs
    · cases hs
    · rename_i s hv
      cases hs
      have k := keeps_alloc m v s.blk (fun w t b e hw hb => own m hv w t b e hw hb) (obj.subs.map Sub.table) (some ⟨some W.next, obj.latColor, records obj W.next v⟩) (some ⟨obj, v, S.ver v + 1⟩)
      refine inv_of_keep m k rfl rfl (fun w e => upd_ne _ e _) (Nat.le_succ _) (fun b hb => ?_) (by simp [Spec.step, Spec.put]) (fun s' b h1 h2 => ?_) (fun s' x h1 h2 => ?_)
      · simp only at hb ⊢
        rw [upd_ne _ (by omega)]
        exact free_none _ _ _ (m.fresh b (by omega))
      · simp only [upd_same, Option.some.injEq] at h1; subst h1
        simp only [Option.some.injEq] at h2; subst h2
        refine ⟨Nat.lt_succ_self _, by simp, fun w t e hw hb => ?_⟩
        have := (m.heap w t _ hw hb).1
        omega
      · simp only [upd_same, Option.some.injEq] at h1; subst h1
        simp only [Spec.step, Spec.put, upd_same, Option.some.injEq] at h2; subst h2
        refine ⟨rfl, by simp [records], fun i r y hr hy => ?_⟩
        simp only [records, List.getElem?_mapIdx] at hr
        simp only at hy
        rw [hy] at hr
        simp only [Option.map_some, Option.some.injEq] at hr
        subst hr
        exact ⟨rfl, rfl, rfl, rfl, rfl, by simp [Spec.step, Spec.put], fun _ => ⟨_, _, upd_same _ _ _, rfl, rfl, upd_same _ _ _, by simp [hy]⟩⟩
  | assign v w =>
    simp only [step] at hs
    split at hs
    · rename_i sv sw hv hw
      cases hs
      simp only [Spec.step, assign]
      by_cases e : v = w
      · simp only [e, if_true]; exact m
      · simp only [e, if_false]
        have hx : ∃ x, S.sets w = some x := by
          cases h : S.sets w with
          | none => rw [(m.same w).2 h] at hw; cases hw
          | some x => exact ⟨x, rfl⟩
        obtain ⟨x, hx⟩ := hx
        by_cases hl : (tablesOf W sv).length = (tablesOf W sw).length
        · simp only [hl, if_true]
          have k : Keeps W { W with heap := match sv.blk with | none => W.heap | some b => upd W.heap b (some (tablesOf W sw)), sets := upd W.sets v (some ⟨sv.blk, sw.color, sw.subs⟩) } S (S.put v (S.sets w)) v := by
            refine ⟨fun u e => upd_ne _ e _, fun u s b e' hu hb => ?_, fun u e => upd_ne _ e _, by simp [Spec.put]⟩
            have := own m hv u s b e' hu hb
            cases hb' : sv.blk with
            | none => rfl
            | some c => simp only; rw [upd_ne _ (fun ec => this (by rw [hb', ec]))]
          refine inv_of_keep m k rfl rfl (fun u e => upd_ne _ e _) (Nat.le_refl _) (fun b hb => ?_) (by simp [Spec.put, hx]) (fun s b h1 h2 => ?_) (fun s y h1 h2 => ?_)
          · cases hb' : sv.blk with
            | none => exact m.fresh b hb
            | some c =>
              have := (m.heap v sv c hv hb').1
              simp only at hb ⊢
              rw [upd_ne _ (by omega)]; exact m.fresh b hb
          · simp only [upd_same, Option.some.injEq] at h1; subst h1
            simp only at h2
            refine ⟨(m.heap v sv b hv h2).1, ?_, fun u t eu hu hb => own m hv u t b eu hu hb h2⟩
            simp only [h2]
            simp
          · simp only [upd_same, Option.some.injEq] at h1; subst h1
            simp only [Spec.put, upd_same] at h2
            have so := (m.sets w sw y hw h2).keep k
            exact ⟨so.color, so.len, so.subs⟩
        · simp only [hl, if_false]
          have k := keeps_alloc m v sv.blk (fun u t b e hu hb => own m hv u t b e hu hb) (tablesOf W sw) (some ⟨some W.next, sw.color, sw.subs⟩) (S.sets w)
          refine inv_of_keep m k rfl rfl (fun u e => upd_ne _ e _) (Nat.le_succ _) (fun b hb => ?_) (by simp [Spec.put, hx]) (fun s' b h1 h2 => ?_) (fun s' y h1 h2 => ?_)
          · simp only at hb ⊢
            rw [upd_ne _ (by omega)]
            exact free_none _ _ _ (m.fresh b (by omega))
          · simp only [upd_same, Option.some.injEq] at h1; subst h1
            simp only [Option.some.injEq] at h2; subst h2
            refine ⟨Nat.lt_succ_self _, by simp, fun u t e hu hb => ?_⟩
            have := (m.heap u t _ hu hb).1
            omega
          · simp only [upd_same, Option.some.injEq] at h1; subst h1
            simp only [Spec.put, upd_same] at h2
            have so := (m.sets w sw y hw h2).keep k
            exact ⟨so.color, so.len, so.subs⟩
    · cases hs
  | copy v w =>
    simp only [step] at hs
    split at hs
    · rename_i sw hv hw
      cases hs
      have hx : ∃ x, S.sets w = some x := by
        cases h : S.sets w with
        | none => rw [(m.same w).2 h] at hw; cases hw
        | some x => exact ⟨x, rfl⟩
      obtain ⟨x, hx⟩ := hx
      have k := keeps_alloc m v none (fun u t b e hu hb => by simp) (tablesOf W sw) (some ⟨some W.next, sw.color, sw.subs⟩) (S.sets w)
      refine inv_of_keep m k rfl rfl (fun u e => upd_ne _ e _) (Nat.le_succ _) (fun b hb => ?_) (by simp [Spec.step, Spec.put, hx]) (fun s' b h1 h2 => ?_) (fun s' y h1 h2 => ?_)
      · simp only at hb ⊢
        rw [upd_ne _ (by omega)]
        exact m.fresh b (by omega)
      · simp only [upd_same, Option.some.injEq] at h1; subst h1
        simp only [Option.some.injEq] at h2; subst h2
        refine ⟨Nat.lt_succ_self _, by simp, fun u t e hu hb => ?_⟩
        have := (m.heap u t _ hu hb).1
        omega
      · simp only [upd_same, Option.some.injEq] at h1; subst h1
        simp only [Spec.step, Spec.put, upd_same] at h2
        have so := (m.sets w sw y hw h2).keep k
        exact ⟨so.color, so.len, so.subs⟩
    · cases hs
  | destroy v =>
    simp only [step] at hs
    split at hs
    · cases hs
    · rename_i s hv
      cases hs
      have k : Keeps W { W with heap := free W.heap s.blk, sets := upd W.sets v none } S (S.put v none) v :=
        ⟨fun u e => upd_ne _ e _, fun u t b e hu hb => free_ne _ _ _ (own m hv u t b e hu hb), fun u e => upd_ne _ e _, by simp [Spec.put]⟩
      refine inv_of_keep m k rfl rfl (fun u e => upd_ne _ e _) (Nat.le_refl _) (fun b hb => free_none _ _ _ (m.fresh b hb)) (by simp [Spec.step, Spec.put]) (fun s' b h1 h2 => ?_) (fun s' y h1 h2 => ?_)
      · simp at h1
      · simp at h1
  | take p v i =>
    simp only [step] at hs
    split at hs
    · cases hs
    · rename_i s hv
      split at hs
      · cases hs
      · rename_i r hr
        cases hs
        refine ⟨m.heap, m.inj, m.fresh, m.same, fun w t x hw hx => ?_, fun q r' hq => ?_⟩
        · have h := m.sets w t x hw hx
          exact ⟨h.color, h.len, fun i r y hr hy => let g := h.subs i r y hr hy; ⟨g.ordRep, g.start, g.stop, g.colour, g.set, g.le, g.live⟩⟩
        · simp only [upd] at hq
          split at hq
          · rename_i e
            subst e
            cases hq
            obtain ⟨x, hx⟩ : ∃ x, S.sets v = some x := by
              cases h : S.sets v with
              | none => rw [(m.same v).2 h] at hv; cases hv
              | some x => exact ⟨x, rfl⟩
            have h := m.sets v s x hv hx
            have hi : i < x.val.subs.length := by
              rw [← h.len]
              exact (List.getElem?_eq_some_iff.1 hr).1
            refine ⟨⟨(x.val.subs[i], x.val.latColor), x.home, x.ver⟩, ?_, ?_⟩
            · simp [Spec.step, hx, List.getElem?_eq_getElem hi]
            · have g := h.subs i r x.val.subs[i] hr (List.getElem?_eq_getElem hi)
              exact ⟨g.ordRep, g.start, g.stop, g.colour, g.set, g.le, g.live⟩
          · rename_i e
            obtain ⟨x, h1, g⟩ := m.subs q r' hq
            exact ⟨x, by simp [Spec.step, upd, e, h1], ⟨g.ordRep, g.start, g.stop, g.colour, g.set, g.le, g.live⟩⟩
  | dup p q =>
    simp only [step] at hs
    split at hs
    · cases hs
    · rename_i r hr
      cases hs
      refine ⟨m.heap, m.inj, m.fresh, m.same, fun w t x hw hx => ?_, fun q' r' hq => ?_⟩
      · have h := m.sets w t x hw hx
        exact ⟨h.color, h.len, fun i r y hr hy => let g := h.subs i r y hr hy; ⟨g.ordRep, g.start, g.stop, g.colour, g.set, g.le, g.live⟩⟩
      · simp only [upd] at hq
        split at hq
        · rename_i e
          subst e
          cases hq
          obtain ⟨x, h1, g⟩ := m.subs q r hr
          exact ⟨x, by simp [Spec.step, h1], ⟨g.ordRep, g.start, g.stop, g.colour, g.set, g.le, g.live⟩⟩
        · rename_i e
          obtain ⟨x, h1, g⟩ := m.subs q' r' hq
          exact ⟨x, by simp [Spec.step, upd, e, h1], ⟨g.ordRep, g.start, g.stop, g.colour, g.set, g.le, g.live⟩⟩

theorem run_inv {h : List Op} : ∀ {W W' : World} {S : Spec}, Inv W S → run W h = ok W' → Inv W' (S.run h) := by
  induction h with
  | nil => intro W W' S m hr; cases hr; exact m
  | cons o os ih =>
    intro W W' S m hr
    simp only [run] at hr
    obtain ⟨W1, h1, h2⟩ := bind_eq_ok.1 hr
    exact ih (step_inv m h1) h2

theorem inv_init : Inv init Spec.init where
  heap := fun v s b h => by simp [init] at h
  inj := fun v w s t b h => by simp [init] at h
  fresh := fun _ _ => rfl
  same := fun v => by simp [init, Spec.init]
  sets := fun v s x h => by simp [init] at h
  subs := fun p r h => by simp [init] at h

/-- C117, partial. After any history: a subset shows exactly what it was meant to show when it was taken, as long as the set that was *made* to produce it, which is not the copy it may
have been taken from, has not been made again, assigned to or destroyed since.  Missing: subsets of copies, see `C117_copy_refuted`. -/
theorem C117_intact_partial (h : List Op) (W : World) (hr : run init h = ok W) (p : Nat) (r : Rec) (hp : W.subs p = some r) :
    ∃ x, (Spec.init.run h).subs p = some x ∧ ((Spec.init.run h).ver x.home = x.ver → observe W p = ok x.val) := by
  obtain ⟨x, h1, g⟩ := (run_inv inv_init hr).subs p r hp
  refine ⟨x, h1, fun hv => ?_⟩
  obtain ⟨s, ts, e1, e2, e3, e4, e5⟩ := g.live hv
  have hset := g.set
  unfold observe
  simp only [hp, e4, e5, hset, e1]
  rw [g.ordRep, g.start, g.stop, g.colour, e3]

/-- the set variable that an operation changes -/
def Op.changes : Op → Option Nat
  | .new v => some v
  | .make v _ => some v
  | .assign v w => if v = w then none else some v
  | .copy v _ => some v
  | .destroy v => some v
  | .take _ _ _ => none
  | .dup _ _ => none

/-- the subset variable that an operation changes -/
def Op.target : Op → Option Nat
  | .take p _ _ => some p
  | .dup p _ => some p
  | _ => none

theorem spec_ver (v : Nat) : ∀ (h : List Op) (S : Spec), (∀ o ∈ h, o.changes ≠ some v) → (S.run h).ver v = S.ver v := by
  intro h
  induction h with
  | nil => intro S _; rfl
  | cons o os ih =>
    intro S hc
    have h0 := hc o (by simp)
    simp only [Spec.run]
    rw [ih _ (fun o' ho => hc o' (by simp [ho]))]
    cases o with
    | take p w i => rfl
    | dup p q => rfl
    | assign u w =>
      simp only [Spec.step, Op.changes] at h0 ⊢
      split
      · rfl
      · rename_i e
        simp only [e, if_false] at h0
        exact upd_ne _ (fun e' => h0 (by rw [e'])) _
    | new u => exact upd_ne _ (fun e' => h0 (by rw [e']; rfl)) _
    | make u obj => exact upd_ne _ (fun e' => h0 (by rw [e']; rfl)) _
    | copy u w => exact upd_ne _ (fun e' => h0 (by rw [e']; rfl)) _
    | destroy u => exact upd_ne _ (fun e' => h0 (by rw [e']; rfl)) _

theorem spec_sub (p : Nat) : ∀ (h : List Op) (S : Spec), (∀ o ∈ h, o.target ≠ some p) → (S.run h).subs p = S.subs p := by
  intro h
  induction h with
  | nil => intro S _; rfl
  | cons o os ih =>
    intro S hc
    have h0 := hc o (by simp)
    simp only [Spec.run]
    rw [ih _ (fun o' ho => hc o' (by simp [ho]))]
    cases o with
    | take q w i => exact upd_ne _ (fun e' => h0 (by rw [e']; rfl)) _
    | dup q q' => exact upd_ne _ (fun e' => h0 (by rw [e']; rfl)) _
    | assign u w => simp only [Spec.step]; split <;> rfl
    | new u => rfl
    | make u obj => rfl
    | copy u w => rfl
    | destroy u => rfl

theorem Spec.run_append (a b : List Op) (S : Spec) : S.run (a ++ b) = (S.run a).run b := by
  induction a generalizing S with
  | nil => rfl
  | cons o a ih => exact ih _

theorem run_append (a b : List Op) (W : World) : run W (a ++ b) = (run W a >>= fun V => run V b) := by
  induction a generalizing W with
  | nil => rfl
  | cons o a ih =>
    simp only [List.cons_append, run]
    cases step W o with
    | ok V => simp only [ok_bind]; exact ih V
    | abort => rfl
    | ub => rfl

/-- the subset variable stays -/
theorem world_sub (p : Nat) : ∀ (h : List Op) (W W' : World), (∀ o ∈ h, o.target ≠ some p) → run W h = ok W' → W'.subs p = W.subs p := by
  intro h
  induction h with
  | nil => intro W W' _ hr; cases hr; rfl
  | cons o os ih =>
    intro W W' hc hr
    simp only [run] at hr
    obtain ⟨W1, h1, h2⟩ := bind_eq_ok.1 hr
    rw [ih W1 W' (fun o' ho => hc o' (by simp [ho])) h2]
    have h0 := hc o (by simp)
    cases o with
    | take q w i =>
      simp only [step] at h1
      split at h1
      · cases h1
      · split at h1
        · cases h1
        · cases h1; exact upd_ne _ (fun e' => h0 (by rw [e']; rfl)) _
    | dup q q' =>
      simp only [step] at h1
      split at h1
      · cases h1
      · cases h1; exact upd_ne _ (fun e' => h0 (by rw [e']; rfl)) _
    | assign u w =>
      simp only [step] at h1
      split at h1
      · cases h1; unfold assign; split <;> [rfl; (split <;> rfl)]
      · cases h1
    | new u => simp only [step] at h1; split at h1 <;> cases h1; rfl
    | make u obj => simp only [step] at h1; split at h1 <;> cases h1; rfl
    | copy u w => simp only [step] at h1; split at h1 <;> cases h1; rfl
    | destroy u => simp only [step] at h1; split at h1 <;> cases h1; rfl

/-- C117. A set is made, and a subset of it is taken, at any time (the program does anything before, between and after): if the set is not changed afterwards, the subset shows the values
of `Set::make`.  This is how `even`, `odd` and `all` come from `rb` and `set_all` (lib/qdp_subset.cc:103-125). -/
theorem C117_kept (h1 h2 h3 : List Op) (v p i : Nat) (obj : SetObj) (x : Sub) (hx : obj.subs[i]? = some x) (W : World) (hr : run init (h1 ++ .make v obj :: (h2 ++ .take p v i :: h3)) = ok W)
    (c2 : ∀ o ∈ h2, o.changes ≠ some v) (c3 : ∀ o ∈ h3, o.changes ≠ some v) (t3 : ∀ o ∈ h3, o.target ≠ some p) : observe W p = ok (x, obj.latColor) := by
  have hsets : ∀ (h : List Op) (S : Spec), (∀ o ∈ h, o.changes ≠ some v) → (S.run h).sets v = S.sets v := by
    intro h
    induction h with
    | nil => intro S _; rfl
    | cons o os ih =>
      intro S hc
      have h0 := hc o (by simp)
      simp only [Spec.run]
      rw [ih _ (fun o' ho => hc o' (by simp [ho]))]
      cases o with
      | take q w i => rfl
      | dup q q' => rfl
      | assign u w =>
        simp only [Spec.step, Op.changes] at h0 ⊢
        split
        · rfl
        · rename_i e
          simp only [e, if_false] at h0
          exact upd_ne _ (fun e' => h0 (by rw [e'])) _
      | new u => exact upd_ne _ (fun e' => h0 (by rw [e']; rfl)) _
      | make u obj => exact upd_ne _ (fun e' => h0 (by rw [e']; rfl)) _
      | copy u w => exact upd_ne _ (fun e' => h0 (by rw [e']; rfl)) _
      | destroy u => exact upd_ne _ (fun e' => h0 (by rw [e']; rfl)) _
  have e1 : h1 ++ .make v obj :: (h2 ++ .take p v i :: h3) = (h1 ++ [.make v obj]) ++ h2 ++ [.take p v i] ++ h3 := by simp
  rw [e1] at hr
  have hr' := hr
  rw [run_append] at hr'
  obtain ⟨W1, r1, r2⟩ := bind_eq_ok.1 hr'
  have hsub : W.subs p = W1.subs p := world_sub p h3 W1 W t3 r2
  have hsome : ∃ r, W1.subs p = some r := by
    rw [run_append] at r1
    obtain ⟨W0, r3, r4⟩ := bind_eq_ok.1 r1
    simp only [run, step] at r4
    split at r4
    · cases r4
    · split at r4
      · cases r4
      · rename_i r _
        cases r4
        exact ⟨r, by simp⟩
  obtain ⟨r, hr1⟩ := hsome
  obtain ⟨y, h4, h5⟩ := C117_intact_partial _ W hr p r (by rw [hsub]; exact hr1)
  set S1 := Spec.init.run h1 with hS1
  have hS : Spec.init.run ((h1 ++ [.make v obj]) ++ h2 ++ [.take p v i] ++ h3) = ((((S1.step (.make v obj)).run h2).step (.take p v i)).run h3) := by
    rw [Spec.run_append, Spec.run_append, Spec.run_append, Spec.run_append]; rfl
  rw [hS, spec_sub p h3 _ t3] at h4
  have hset2 : ((S1.step (.make v obj)).run h2).sets v = some ⟨obj, v, S1.ver v + 1⟩ := by rw [hsets h2 _ c2]; simp [Spec.step, Spec.put]
  simp only [Spec.step] at h4 hset2
  rw [upd_same, hset2] at h4
  simp only [Option.bind_some, hx, Option.map_some, Option.some.injEq] at h4
  subst h4
  refine h5 ?_
  rw [hS, spec_ver v h3 _ c3]
  change ((S1.step (.make v obj)).run h2).ver v = _
  rw [spec_ver v h2 _ c2]
  simp [Spec.step, Spec.put]

/-- C117, refutation. `v = w` and `Set v(w)` copy the pointers: a subset of the copy `v` is undefined as soon as `w` is destroyed or made again, though `v` is alive. -/
theorem C117_copy_refuted (obj obj' : SetObj) (i : Nat) (x : Sub) (hx : obj.subs[i]? = some x) :
    (∃ W, run init [.new 0, .make 0 obj, .copy 1 0, .destroy 0, .take 0 1 i] = ok W ∧ W.sets 1 ≠ none ∧ observe W 0 = ub) ∧
    (∃ W, run init [.new 0, .make 0 obj, .new 1, .assign 1 0, .make 0 obj', .take 0 1 i] = ok W ∧ W.sets 1 ≠ none ∧ observe W 0 = ub) := by
  have hlen : i < obj.subs.length := (List.getElem?_eq_some_iff.1 hx).1
  have hr : (records obj 0 0)[i]? = some ⟨x.ordRep, x.start, x.stop, x.colour, 0, i, 0⟩ := by simp [records, hx]
  constructor
  · obtain ⟨W1, h1, h2, h3⟩ : ∃ W1, run init [.new 0, .make 0 obj, .copy 1 0, .destroy 0] = ok W1 ∧ W1.sets 1 = some ⟨some 1, obj.latColor, records obj 0 0⟩ ∧ W1.heap 0 = none := ⟨_, rfl, rfl, rfl⟩
    refine ⟨{ W1 with subs := upd W1.subs 0 (some ⟨x.ordRep, x.start, x.stop, x.colour, 0, i, 0⟩) }, ?_, by simp [h2], by simp [observe, h3]⟩
    have := run_append [.new 0, .make 0 obj, .copy 1 0, .destroy 0] [.take 0 1 i] init
    simp only [List.cons_append, List.nil_append] at this
    rw [this, h1]
    simp only [ok_bind, run, step, h2, hr]
  · obtain ⟨W1, h1, h2, h3, h4, h5⟩ : ∃ W1, run init [.new 0, .make 0 obj, .new 1] = ok W1 ∧ W1.sets 1 = some ⟨none, [], []⟩ ∧ W1.sets 0 = some ⟨some 0, obj.latColor, records obj 0 0⟩ ∧
        W1.heap 0 = some (obj.subs.map Sub.table) ∧ W1.next = 1 := ⟨_, rfl, rfl, rfl, rfl, rfl⟩
    have hne : ¬ 0 = obj.subs.length := by omega
    have := run_append [.new 0, .make 0 obj, .new 1] [.assign 1 0, .make 0 obj', .take 0 1 i] init
    simp only [List.cons_append, List.nil_append] at this
    rw [this, h1]
    simp only [ok_bind, run, step, h2, h3, assign, tablesOf, h4, Option.getD_some, List.length_map, List.length_nil, hne, if_false, Nat.one_ne_zero, h5, upd_ne _ (show (0 : Nat) ≠ 1 by decide),
      upd_ne _ (show (1 : Nat) ≠ 0 by decide), upd_same, hr]
    refine ⟨_, rfl, by simp [upd], ?_⟩
    simp [observe, free, upd]

/-- C117, refutation. A subset `p` was taken from `v`, then `v = w`.  If both sets have the same number of subsets, `p` shows a mixture: the bounds and the order of the old subset, with the
table and the colouring of the new one.  If not, it is undefined. -/
theorem C117_assign_refuted (obj obj' : SetObj) (i : Nat) (x : Sub) (hx : obj.subs[i]? = some x) :
    (∀ y, obj'.subs[i]? = some y → obj.subs.length = obj'.subs.length → ∃ W, run init [.new 0, .make 0 obj, .new 1, .make 1 obj', .take 0 0 i, .assign 0 1] = ok W ∧
      observe W 0 = ok (⟨x.ordRep, x.start, x.stop, y.table, x.colour⟩, obj'.latColor)) ∧
    (obj.subs.length ≠ obj'.subs.length → ∃ W, run init [.new 0, .make 0 obj, .new 1, .make 1 obj', .take 0 0 i, .assign 0 1] = ok W ∧ observe W 0 = ub) := by
  have hr : (records obj 0 0)[i]? = some ⟨x.ordRep, x.start, x.stop, x.colour, 0, i, 0⟩ := by simp [records, hx]
  obtain ⟨W1, h1, h2, h3, h4, h5, h6⟩ : ∃ W1, run init [.new 0, .make 0 obj, .new 1, .make 1 obj'] = ok W1 ∧ W1.sets 1 = some ⟨some 1, obj'.latColor, records obj' 1 1⟩ ∧
      W1.sets 0 = some ⟨some 0, obj.latColor, records obj 0 0⟩ ∧ W1.heap 0 = some (obj.subs.map Sub.table) ∧ W1.heap 1 = some (obj'.subs.map Sub.table) ∧ W1.next = 2 := ⟨_, rfl, rfl, rfl, rfl, rfl, rfl⟩
  have := run_append [.new 0, .make 0 obj, .new 1, .make 1 obj'] [.take 0 0 i, .assign 0 1] init
  simp only [List.cons_append, List.nil_append] at this
  rw [this, h1]
  constructor
  · intro y hy hl
    simp only [ok_bind, run, step, h2, h3, hr, assign, tablesOf, h4, h5, Option.getD_some, List.length_map, hl, if_true, (show ¬ (0 : Nat) = 1 by decide), if_false]
    refine ⟨_, rfl, ?_⟩
    simp [observe, upd, hy]
  · intro hl
    simp only [ok_bind, run, step, h2, h3, hr, assign, tablesOf, h4, h5, Option.getD_some, List.length_map, hl, (show ¬ (0 : Nat) = 1 by decide), if_false]
    refine ⟨_, rfl, ?_⟩
    simp [observe, upd, free, h6]

/-- a set of two subsets: the sites 0 and 2, and the sites 1 and 3 -/
def exRb : SetObj := ⟨[0, 1, 0, 1], [⟨false, 0, 3, [0, 2], 0⟩, ⟨false, 0, 3, [1, 3], 1⟩]⟩
/-- one of the lower and the upper half -/
def exHalf : SetObj := ⟨[0, 0, 1, 1], [⟨true, 0, 1, [0, 1], 0⟩, ⟨true, 2, 3, [2, 3], 1⟩]⟩

/-- `C117_kept` at work, with a copy of the set and its end, and another set, in between -/
example : ∃ W, run init [.new 0, .make 0 exRb, .copy 1 0, .take 5 0 1, .new 2, .make 2 exHalf, .assign 1 2, .destroy 1, .dup 6 5] = ok W ∧
    observe W 5 = ok (⟨false, 0, 3, [1, 3], 1⟩, [0, 1, 0, 1]) ∧ observe W 6 = observe W 5 := ⟨_, rfl, rfl, rfl⟩

/-- the mixture of `C117_assign_refuted`: the table of a half with bounds that cover the lattice -/
example : ∃ W, run init [.new 0, .make 0 exRb, .new 1, .make 1 exHalf, .take 0 0 1, .assign 0 1] = ok W ∧ observe W 0 = ok (⟨false, 0, 3, [2, 3], 1⟩, [0, 0, 1, 1]) := ⟨_, rfl, rfl⟩

end Verif.SetObjects
