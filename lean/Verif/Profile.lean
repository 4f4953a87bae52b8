import Mathlib.Data.List.Induction
import Mathlib.Data.List.Nodup
import Verif.Basic
/-
The profile of a program: lib/qdp_profile.cc:60-225, include/qdp_profile.h:54-160, and the lines `static QDPProfile_t prof(…)`, `prof.time -= getClockTime()`,
`prof.time += getClockTime(); prof.count++` of every `evaluate`, `sum` and `norm2`, e.g. include/qdp_scalar_specific.h:158-185.  The library is built with
QDP_USE_PROFILING; without it none of this exists.

Functions of the program are entered with QDP_PUSH_PROFILE(level) and left with QDP_POP_PROFILE(), examples/examples.h:15-16.  The object `prof` is a static variable of
a template function: there is one for every instance of the template, so a statement is known by the types of its expression.  The list of the statements of a function is
linked through the objects.  What is printed at once by `QDPProfile_t::print` at level 2 is not modelled.  `count` is unbounded here (an `int` in the code).
-/
namespace Verif.Profile
open Verif Verif.Outcome

/-- a function of the program: file, caller, line of `QDPProfileInfo_t`, include/qdp_profile.h:118-133 -/
abbrev Fn := Nat

/-- an instance of a template: the address of its static variable `prof` -/
abbrev Key := Nat

/-- `QDPProfile_t`, include/qdp_profile.h:54-60 -/
structure Node where
  time : BitVec 64
  count : Nat
  next : Option Key

/-- `QDPProfileHead_t`, include/qdp_profile.h:136-145 -/
structure Head where
  info : Fn
  start : Option Key
  last : Option Key

/-- `prof_level`, `infostack` (top first), `profqueue` (front first), lib/qdp_profile.cc:20, 65-69; the static variables that are constructed -/
structure St where
  level : Int
  stack : List (Int × Fn)
  queue : List Head
  nodes : Key → Option Node

/-- what the program does -/
inductive Ev
  /-- `pushProfileInfo(level, file, caller, line)` -/
  | push (level : Int) (f : Fn)
  /-- `popProfileInfo()` -/
  | pop
  /-- `setProfileLevel(n)` -/
  | set (n : Int)
  /-- a statement; the clock shows `t0` before and `t1` after it -/
  | run (k : Key) (t0 t1 : BitVec 64)

/-- before `initProfile` -/
def start : St := ⟨0, [], [], fun _ => none⟩

/-- assignment to a field of a static variable -/
def upd (n : Key → Option Node) (k : Key) (v : Node) : Key → Option Node := fun j => if j = k then some v else n j

/-- `pushProfileInfo`, lib/qdp_profile.cc:172-189 -/
def push (s : St) (l : Int) (f : Fn) : St := { s with stack := (l, f) :: s.stack, level := l, queue := s.queue ++ [⟨f, none, none⟩] }

/-- `popProfileInfo`, lib/qdp_profile.cc:191-204 -/
def pop (s : St) : Outcome St :=
  match s.stack with
  | [] => abort
  | (l, _) :: rest => ok { s with level := l, stack := rest }

/-- `registerProfile`, lib/qdp_profile.cc:206-225 -/
def register (s : St) (k : Key) : Outcome St :=
  match s.queue.getLast? with
  | none => abort
  | some h =>
    match h.start with
    | none => ok { s with queue := s.queue.dropLast ++ [{ h with start := some k, last := some k }] }
    | some _ =>
      match h.last with
      | none => ub
      | some e =>
        match s.nodes e with
        | none => ub
        | some nd => ok { s with nodes := upd s.nodes e { nd with next := some k }, queue := s.queue.dropLast ++ [{ h with last := some k }] }

/-- the constructor of the static variable, include/qdp_profile.h:67-80: once, at the first execution -/
def construct (s : St) (k : Key) : Outcome St :=
  let s1 : St := { s with nodes := upd s.nodes k ⟨0, 0, none⟩ }
  if 0 < s.level then register s1 k else ok s1

/-- `static QDPProfile_t prof(dest, op, rhs)`, include/qdp_scalar_specific.h:159 -/
def static (s : St) (k : Key) : Outcome St :=
  match s.nodes k with
  | none => construct s k
  | some _ => ok s

/-- a statement, include/qdp_scalar_specific.h:158-161, 181-185 -/
def exec (s : St) (k : Key) (t0 t1 : BitVec 64) : Outcome St := do
  let s ← static s k
  match s.nodes k with
  | none => ub
  | some nd => ok { s with nodes := upd s.nodes k { nd with time := nd.time - t0 + t1, count := nd.count + 1 } }

def step (s : St) : Ev → Outcome St
  | .push l f => ok (push s l f)
  | .pop => pop s
  | .set n => ok { s with level := n }
  | .run k t0 t1 => exec s k t0 t1

def run (s : St) : List Ev → Outcome St
  | [] => ok s
  | e :: es => do
      let s ← step s e
      run s es

/-- a line of the output: statement, count, time -/
structure Line where
  key : Key
  count : Nat
  time : BitVec 64
deriving DecidableEq

/-- `while(qp) { if (qp->count > 0) …; qp = qp->next; }`, lib/qdp_profile.cc:127-147; the first argument bounds the steps, `ub` when it does not suffice -/
def walk (n : Key → Option Node) : Nat → Option Key → Outcome (List Line)
  | _, none => ok []
  | 0, some _ => ub
  | fuel + 1, some k =>
    match n k with
    | none => ub
    | some nd => do
        let rest ← walk n fuel nd.next
        pure (if 0 < nd.count then ⟨k, nd.count, nd.time⟩ :: rest else rest)

/-- the loop over the queue of `printProfile`, lib/qdp_profile.cc:108-152 -/
def printHeads (n : Key → Option Node) (fuel : Nat) : List Head → Outcome (List (Fn × List Line))
  | [] => ok []
  | h :: hs =>
    match h.start with
    | none => printHeads n fuel hs
    | some k => do
        let ls ← walk n fuel (some k)
        let rest ← printHeads n fuel hs
        pure ((h.info, ls) :: rest)

/-- `printProfile`, lib/qdp_profile.cc:108-152: what is printed, and the state with the queue emptied -/
def printProfile (s : St) (fuel : Nat) : Outcome (List (Fn × List Line) × St) := do
  let out ← printHeads s.nodes fuel s.queue
  pure (out, { s with queue := [] })

/-- `sprintf(lin, "  %7d   [%8d]  ", qp->count, qp->time)`, lib/qdp_profile.cc:141-142: `%d` of an `unsigned long`, which the standard leaves undefined; on x86-64 and
other machines with 64-bit registers the lower 32 bits are shown as an `int` -/
def shown (t : BitVec 64) : Int := (t.truncate 32).toInt

/-! ## specification -/

/-- the statements in the order of their executions -/
def runs : List Ev → List Key
  | [] => []
  | .run k _ _ :: es => k :: runs es
  | _ :: es => runs es

/-- the functions in the order in which they are entered -/
def pushes : List Ev → List Fn
  | [] => []
  | .push _ f :: es => f :: pushes es
  | _ :: es => pushes es

/-- the number of executions -/
def count (h : List Ev) (k : Key) : Nat := (runs h).count k

/-- the time between the two looks at the clock, summed over the executions -/
def total : List Ev → Key → BitVec 64
  | [], _ => 0
  | .run k t0 t1 :: es, j => (if k = j then t1 - t0 else 0) + total es j
  | _ :: es, j => total es j

/-- the functions entered and not left, the last first, with the levels given on entry -/
def active : List Ev → List (Int × Fn) → List (Int × Fn)
  | [], st => st
  | .push l f :: es, st => active es ((l, f) :: st)
  | .pop :: es, st => active es st.tail
  | _ :: es, st => active es st

/-- the level after a history, given with the last event first: that of the last `push` or `set`, or, when a function was left since, the one given on entry to it -/
def levelRev : List Ev → Int
  | [] => 0
  | .push l _ :: _ => l
  | .set n :: _ => n
  | .pop :: h => ((active h.reverse []).head?.map (·.1)).getD 0
  | .run _ _ _ :: h => levelRev h

def levelAfter (h : List Ev) : Int := levelRev h.reverse

/-- the statements whose first execution, at positive level, comes after the entry of the `i`th function and before the next entry of a function; the history is given with the
last event first -/
def groupRev : List Ev → Nat → List Key
  | [], _ => []
  | .run k _ _ :: h, i => if k ∉ runs h.reverse ∧ 0 < levelRev h ∧ (pushes h.reverse).length = i + 1 then groupRev h i ++ [k] else groupRev h i
  | _ :: h, i => groupRev h i

def group (h : List Ev) (i : Nat) : List Key := groupRev h.reverse i

/-- the report: for every function entered, if there is a statement to show, its statements with the number and the time of all their executions -/
def report (h : List Ev) : List (Fn × List Line) :=
  ((pushes h).zipIdx.map fun p => (p.1, (group h p.2).map fun k => (⟨k, count h k, total h k⟩ : Line))).filter fun p => p.2 ≠ []

/-- the first execution of the statement is at positive level, and `i + 1` functions were entered before -/
def Home (h : List Ev) (k : Key) (i : Nat) : Prop :=
  ∃ a t0 t1 b, h = a ++ .run k t0 t1 :: b ∧ k ∉ runs a ∧ 0 < levelAfter a ∧ (pushes a).length = i + 1

/-! ## proofs -/

theorem runs_append (a b : List Ev) : runs (a ++ b) = runs a ++ runs b := by
  induction a with
  | nil => rfl
  | cons e a ih => cases e <;> simp [runs, ih]

theorem pushes_append (a b : List Ev) : pushes (a ++ b) = pushes a ++ pushes b := by
  induction a with
  | nil => rfl
  | cons e a ih => cases e <;> simp [pushes, ih]

theorem active_append (a b : List Ev) (st : List (Int × Fn)) : active (a ++ b) st = active b (active a st) := by
  induction a generalizing st with
  | nil => rfl
  | cons e a ih => cases e <;> simp [active, ih]

theorem total_append (a b : List Ev) (j : Key) : total (a ++ b) j = total a j + total b j := by
  induction a with
  | nil => simp [total]
  | cons e a ih => cases e <;> simp [total, ih, BitVec.add_assoc]

theorem level_snoc_run (h : List Ev) (k : Key) (t0 t1 : BitVec 64) : levelAfter (h ++ [.run k t0 t1]) = levelAfter h := by simp [levelAfter, levelRev]
theorem level_snoc_push (h : List Ev) (l : Int) (f : Fn) : levelAfter (h ++ [.push l f]) = l := by simp [levelAfter, levelRev]
theorem level_snoc_set (h : List Ev) (n : Int) : levelAfter (h ++ [.set n]) = n := by simp [levelAfter, levelRev]
theorem level_snoc_pop (h : List Ev) : levelAfter (h ++ [.pop]) = ((active h []).head?.map (·.1)).getD 0 := by simp [levelAfter, levelRev]

theorem group_snoc_run (h : List Ev) (k : Key) (t0 t1 : BitVec 64) (i : Nat) :
    group (h ++ [.run k t0 t1]) i = if k ∉ runs h ∧ 0 < levelAfter h ∧ (pushes h).length = i + 1 then group h i ++ [k] else group h i := by
  simp only [group, List.reverse_append, List.reverse_cons, List.reverse_nil, List.nil_append, List.singleton_append, groupRev, List.reverse_reverse, levelAfter]
  congr

theorem group_snoc_push (h : List Ev) (l : Int) (f : Fn) (i : Nat) : group (h ++ [.push l f]) i = group h i := by simp [group, groupRev]
theorem group_snoc_set (h : List Ev) (n : Int) (i : Nat) : group (h ++ [.set n]) i = group h i := by simp [group, groupRev]
theorem group_snoc_pop (h : List Ev) (i : Nat) : group (h ++ [.pop]) i = group h i := by simp [group, groupRev]

theorem group_runs (h : List Ev) (i : Nat) : ∀ k ∈ group h i, k ∈ runs h := by
  induction h using List.reverseRecOn with
  | nil => intro k hk; simp [group, groupRev] at hk
  | append_singleton h e ih =>
    intro k hk
    rw [runs_append]
    cases e with
    | push l f => rw [group_snoc_push] at hk; simp [ih k hk]
    | pop => rw [group_snoc_pop] at hk; simp [ih k hk]
    | set n => rw [group_snoc_set] at hk; simp [ih k hk]
    | run j t0 t1 =>
      rw [group_snoc_run] at hk
      split at hk
      · rcases List.mem_append.1 hk with hk | hk
        · simp [ih k hk]
        · simp [runs, List.mem_singleton.1 hk]
      · simp [ih k hk]

theorem group_nodup (h : List Ev) (i : Nat) : (group h i).Nodup := by
  induction h using List.reverseRecOn with
  | nil => simp [group, groupRev]
  | append_singleton h e ih =>
    cases e with
    | push l f => rwa [group_snoc_push]
    | pop => rwa [group_snoc_pop]
    | set n => rwa [group_snoc_set]
    | run j t0 t1 =>
      rw [group_snoc_run]
      split
      · rename_i hc
        rw [List.nodup_append]
        exact ⟨ih, by simp, fun a ha b hb => by rw [List.mem_singleton.1 hb]; rintro rfl; exact hc.1 (group_runs h i _ ha)⟩
      · exact ih

theorem group_disjoint (h : List Ev) (i j : Nat) (k : Key) (hi : k ∈ group h i) (hj : k ∈ group h j) : i = j := by
  induction h using List.reverseRecOn with
  | nil => simp [group, groupRev] at hi
  | append_singleton h e ih =>
    cases e with
    | push l f => rw [group_snoc_push] at hi hj; exact ih hi hj
    | pop => rw [group_snoc_pop] at hi hj; exact ih hi hj
    | set n => rw [group_snoc_set] at hi hj; exact ih hi hj
    | run m t0 t1 =>
      rw [group_snoc_run] at hi hj
      split at hi <;> split at hj <;> rename_i c1 c2
      · omega
      · rcases List.mem_append.1 hi with hi | hi
        · exact ih hi hj
        · rw [List.mem_singleton.1 hi] at hj; exact absurd (group_runs h j m hj) c1.1
      · rcases List.mem_append.1 hj with hj | hj
        · exact ih hi hj
        · rw [List.mem_singleton.1 hj] at hi; exact absurd (group_runs h i m hi) c2.1
      · exact ih hi hj

/-- the nodes of a linked list in order -/
def Chain (n : Key → Option Node) : Option Key → List Key → Prop
  | p, [] => p = none
  | p, k :: ks => p = some k ∧ ∃ nd, n k = some nd ∧ Chain n nd.next ks

theorem chain_congr {n n' : Key → Option Node} : ∀ (ks : List Key) (p : Option Key), (∀ k ∈ ks, (n k).map (·.next) = (n' k).map (·.next)) → Chain n p ks → Chain n' p ks := by
  intro ks
  induction ks with
  | nil => intro p _ h; exact h
  | cons k ks ih =>
    intro p hc h
    obtain ⟨hp, nd, h1, h2⟩ := h
    have := hc k (by simp)
    rw [h1] at this
    simp only [Option.map_some] at this
    cases h3 : n' k with
    | none => rw [h3] at this; cases this
    | some nd' =>
      rw [h3] at this
      simp only [Option.map_some, Option.some.injEq] at this
      exact ⟨hp, nd', h3, by rw [← this]; exact ih _ (fun j hj => hc j (by simp [hj])) h2⟩

/-- appending a node: the `next` of the last node is set -/
theorem chain_snoc {n : Key → Option Node} : ∀ (ks : List Key) (p : Option Key) (e k : Key) (nd nk : Node), (ks ++ [e]).Nodup → k ∉ ks ++ [e] → Chain n p (ks ++ [e]) →
    n e = some nd → n k = some nk → nk.next = none → Chain (upd n e { nd with next := some k }) p (ks ++ [e] ++ [k]) := by
  intro ks
  induction ks with
  | nil =>
    intro p e k nd nk _ hk h he hn hx
    obtain ⟨hp, nd', h1, -⟩ := h
    have hne : k ≠ e := by rintro rfl; simp at hk
    exact ⟨hp, { nd with next := some k }, by simp [upd], rfl, nk, by simp [upd, hne, hn], hx⟩
  | cons a ks ih =>
    intro p e k nd nk hd hk h he hn hx
    obtain ⟨hp, nd', h1, h2⟩ := h
    simp only [List.cons_append, List.nodup_cons] at hd
    have hae : a ≠ e := by rintro rfl; simp at hd
    refine ⟨hp, nd', by simp [upd, hae, h1], ?_⟩
    exact ih _ e k nd nk hd.2 (fun hm => hk (by simp at hm ⊢; tauto)) h2 he hn hx

structure Inv (h : List Ev) (s : St) : Prop where
  stack : s.stack = active h []
  level : s.level = levelAfter h
  none : ∀ k, s.nodes k = none ↔ k ∉ runs h
  node : ∀ k nd, s.nodes k = some nd → nd.count = count h k ∧ nd.time = total h k
  info : s.queue.map (·.info) = pushes h
  list : ∀ i hd, s.queue[i]? = some hd → Chain s.nodes hd.start (group h i) ∧ hd.last = (group h i).getLast?

theorem inv_start : Inv [] start := ⟨rfl, rfl, by simp [start, runs], by simp [start], rfl, by simp [start]⟩

theorem total_new (h : List Ev) (k : Key) (hk : k ∉ runs h) : total h k = 0 := by
  induction h with
  | nil => rfl
  | cons e h ih =>
    cases e with
    | run j t0 t1 =>
      simp only [runs, List.mem_cons, not_or] at hk
      simp [total, ih hk.2, Ne.symm hk.1]
    | push l f => exact ih hk
    | pop => exact ih hk
    | set n => exact ih hk

/-- what `construct` leaves: the same as before, with the statement new and in its group -/
structure Made (h : List Ev) (k : Key) (s : St) : Prop where
  stack : s.stack = active h []
  level : s.level = levelAfter h
  none : ∀ j, s.nodes j = none ↔ j ∉ runs h ∧ j ≠ k
  node : ∀ j nd, s.nodes j = some nd → nd.count = count h j ∧ nd.time = total h j
  info : s.queue.map (·.info) = pushes h
  list : ∀ i hd, s.queue[i]? = some hd → ∀ t0 t1, Chain s.nodes hd.start (group (h ++ [.run k t0 t1]) i) ∧ hd.last = (group (h ++ [.run k t0 t1]) i).getLast?

theorem made_upd {h : List Ev} {k : Key} {s : St} (m : Made h k s) {nd : Node} (hn : s.nodes k = some nd) (t0 t1 : BitVec 64) :
    Inv (h ++ [.run k t0 t1]) { s with nodes := upd s.nodes k { nd with time := nd.time - t0 + t1, count := nd.count + 1 } } := by
  have hr : runs (h ++ [.run k t0 t1]) = runs h ++ [k] := by rw [runs_append]; rfl
  refine ⟨?_, ?_, ?_, ?_, ?_, ?_⟩
  · rw [active_append]; exact m.stack
  · rw [level_snoc_run]; exact m.level
  · intro j
    simp only [upd, hr, List.mem_append, List.mem_singleton, not_or]
    by_cases hj : j = k
    · subst hj; simp
    · rw [if_neg hj]; exact m.none j
  · intro j nd' hj
    simp only [upd] at hj
    unfold count
    rw [hr, List.count_append, total_append]
    by_cases hjk : j = k
    · subst hjk
      rw [if_pos rfl] at hj
      cases hj
      obtain ⟨h1, h2⟩ := m.node j nd hn
      refine ⟨by simp [h1, count], ?_⟩
      simp only [h2, total, if_true, BitVec.add_zero]
      rw [BitVec.sub_eq_add_neg, BitVec.sub_eq_add_neg, BitVec.add_assoc, BitVec.add_comm (-t0) t1]
      simp
    · rw [if_neg hjk] at hj
      obtain ⟨h1, h2⟩ := m.node j nd' hj
      refine ⟨?_, ?_⟩
      · rw [h1, count, List.count_singleton]
        rw [if_neg (by simpa using Ne.symm hjk), Nat.add_zero]
      · rw [h2]; simp [total, Ne.symm hjk]
  · rw [pushes_append]; simpa [pushes] using m.info
  · intro i hd hi
    obtain ⟨h1, h2⟩ := m.list i hd hi t0 t1
    refine ⟨chain_congr _ _ ?_ h1, h2⟩
    intro j _
    simp only [upd]
    by_cases hj : j = k
    · subst hj; simp [hn]
    · simp [hj]

theorem made_old {h : List Ev} {k : Key} {s : St} (m : Inv h s) (hk : k ∈ runs h) : Made h k s := by
  refine ⟨m.stack, m.level, ?_, m.node, m.info, ?_⟩
  · intro j
    rw [m.none j]
    exact ⟨fun hj => ⟨hj, by rintro rfl; exact hj hk⟩, fun hj => hj.1⟩
  · intro i hd hi t0 t1
    rw [group_snoc_run, if_neg (by tauto)]
    exact m.list i hd hi

theorem made_new {h : List Ev} {k : Key} {s s' : St} (m : Inv h s) (hk : k ∉ runs h) (hc : construct s k = ok s') : Made h k s' := by
  have base : ∀ (n : Key → Option Node), n = upd s.nodes k ⟨0, 0, none⟩ →
      (∀ j, n j = none ↔ j ∉ runs h ∧ j ≠ k) ∧ (∀ j nd, n j = some nd → nd.count = count h j ∧ nd.time = total h j) := by
    rintro n rfl
    refine ⟨fun j => ?_, fun j nd hj => ?_⟩
    · simp only [upd]
      by_cases hj : j = k
      · simp [hj]
      · rw [if_neg hj, m.none j]; simp [hj]
    · simp only [upd] at hj
      by_cases hjk : j = k
      · subst hjk
        rw [if_pos rfl] at hj; cases hj
        exact ⟨(List.count_eq_zero_of_not_mem hk).symm, (total_new h j hk).symm⟩
      · rw [if_neg hjk] at hj; exact m.node j nd hj
  have oldchain : ∀ i p, Chain s.nodes p (group h i) → Chain (upd s.nodes k ⟨0, 0, none⟩) p (group h i) := by
    intro i p hp
    refine chain_congr _ _ ?_ hp
    intro j hj
    have : j ≠ k := by rintro rfl; exact hk (group_runs h i j hj)
    simp [upd, this]
  simp only [construct] at hc
  by_cases hl : 0 < s.level
  · rw [if_pos hl] at hc
    have hl' : 0 < levelAfter h := by rw [← m.level]; exact hl
    simp only [register] at hc
    cases hq : s.queue.getLast? with
    | none => rw [hq] at hc; cases hc
    | some hd =>
      rw [hq] at hc
      simp only at hc
      obtain ⟨qs, eq⟩ : ∃ qs, s.queue = qs ++ [hd] := by
        rcases List.eq_nil_or_concat s.queue with e | ⟨qs, x, e⟩
        · rw [e] at hq; cases hq
        · rw [e] at hq; simp at hq; exact ⟨qs, by rw [e, hq]; simp⟩
      have hlen : (pushes h).length = qs.length + 1 := by rw [← m.info, eq]; simp
      have hlast := m.list qs.length hd (by rw [eq]; simp)
      have hgrp : ∀ t0 t1 i, group (h ++ [.run k t0 t1]) i = if i = qs.length then group h i ++ [k] else group h i := by
        intro t0 t1 i
        rw [group_snoc_run]
        by_cases hi : i = qs.length
        · rw [if_pos ⟨hk, hl', by omega⟩, if_pos hi]
        · rw [if_neg (by omega), if_neg hi]
      cases hst : hd.start with
      | none =>
        rw [hst] at hc
        simp only [ok.injEq] at hc
        subst hc
        have hg : group h qs.length = [] := by
          cases hg : group h qs.length with
          | nil => rfl
          | cons a l => have := hlast.1; rw [hg, hst] at this; exact absurd this.1 (by simp)
        obtain ⟨b1, b2⟩ := base _ rfl
        refine ⟨m.stack, m.level, b1, b2, ?_, ?_⟩
        · rw [← m.info]; simp [eq]
        · intro i hd' hi t0 t1
          rw [hgrp]
          simp only [eq, List.dropLast_concat] at hi
          by_cases hiq : i = qs.length
          · subst hiq
            simp only [List.getElem?_concat_length, Option.some.injEq] at hi
            subst hi
            rw [if_pos rfl, hg]
            exact ⟨⟨rfl, ⟨0, 0, none⟩, by simp [upd], rfl⟩, rfl⟩
          · rw [if_neg hiq]
            have : i < qs.length := by
              have := (List.getElem?_eq_some_iff.1 hi).1; simp at this; omega
            rw [List.getElem?_append_left this] at hi
            obtain ⟨h1, h2⟩ := m.list i hd' (by rw [eq, List.getElem?_append_left this]; exact hi)
            exact ⟨oldchain _ _ h1, h2⟩
      | some a =>
        rw [hst] at hc
        simp only at hc
        rcases List.eq_nil_or_concat (group h qs.length) with hg | ⟨ks, e, hg⟩
        · have := hlast.1; rw [hg, hst] at this; simp [Chain] at this
        · simp only [List.concat_eq_append] at hg
          have hle : hd.last = some e := by rw [hlast.2, hg]; simp
          rw [hle] at hc
          simp only at hc
          have hke : e ∈ group h qs.length := by rw [hg]; simp
          have hek : e ≠ k := by rintro rfl; exact hk (group_runs h _ _ hke)
          cases hne : upd s.nodes k ⟨0, 0, none⟩ e with
          | none => rw [hne] at hc; cases hc
          | some nd =>
            rw [hne] at hc
            simp only [ok.injEq] at hc
            subst hc
            obtain ⟨b1, b2⟩ := base _ rfl
            refine ⟨m.stack, m.level, ?_, ?_, ?_, ?_⟩
            · intro j
              rw [← b1 j]
              show upd _ e _ j = none ↔ _
              by_cases hj : j = e
              · subst hj; rw [hne, upd, if_pos rfl]; simp
              · conv_lhs => rw [upd, if_neg hj]
            · intro j nd' hj
              replace hj : upd (upd s.nodes k ⟨0, 0, none⟩) e { nd with next := some k } j = some nd' := hj
              by_cases hje : j = e
              · subst hje
                rw [upd, if_pos rfl] at hj; cases hj
                exact b2 j nd hne
              · rw [upd, if_neg hje] at hj; exact b2 j nd' hj
            · rw [← m.info]; simp [eq]
            · intro i hd' hi t0 t1
              rw [hgrp]
              simp only [eq, List.dropLast_concat] at hi
              by_cases hiq : i = qs.length
              · subst hiq
                simp only [List.getElem?_concat_length, Option.some.injEq] at hi
                subst hi
                rw [if_pos rfl, hg]
                have hch := oldchain _ _ hlast.1
                rw [hg, hst] at hch
                refine ⟨chain_snoc ks _ e k nd ⟨0, 0, none⟩ (by rw [← hg]; exact group_nodup h _) (by rw [← hg]; exact fun hm => hk (group_runs h _ _ hm)) hch hne
                  (by simp [upd]) rfl, by simp⟩
              · rw [if_neg hiq]
                have hlt : i < qs.length := by
                  have := (List.getElem?_eq_some_iff.1 hi).1; simp at this; omega
                rw [List.getElem?_append_left hlt] at hi
                obtain ⟨h1, h2⟩ := m.list i hd' (by rw [eq, List.getElem?_append_left hlt]; exact hi)
                refine ⟨chain_congr _ _ ?_ (oldchain _ _ h1), h2⟩
                intro j hj
                have : j ≠ e := by rintro rfl; exact hiq (group_disjoint h _ _ _ hj hke)
                show _ = Option.map _ (upd _ e _ j)
                conv_rhs => rw [upd, if_neg this]
  · rw [if_neg hl] at hc
    cases hc
    obtain ⟨b1, b2⟩ := base _ rfl
    refine ⟨m.stack, m.level, b1, b2, m.info, ?_⟩
    intro i hd hi t0 t1
    rw [group_snoc_run, if_neg (by rw [← m.level]; exact fun hc => hl hc.2.1)]
    exact ⟨oldchain _ _ (m.list i hd hi).1, (m.list i hd hi).2⟩

theorem step_inv {h : List Ev} {s s' : St} (m : Inv h s) (e : Ev) (hs : step s e = ok s') : Inv (h ++ [e]) s' := by
  cases e with
  | push l f =>
    simp only [step, ok.injEq] at hs
    subst hs
    refine ⟨?_, (level_snoc_push h l f).symm, ?_, ?_, ?_, ?_⟩
    · rw [active_append]; simp [push, active, m.stack]
    · intro k; rw [runs_append]; simpa [runs, push] using m.none k
    · intro k nd hk
      have := m.node k nd hk
      rw [total_append]; simpa [count, runs_append, runs, total] using this
    · rw [pushes_append, ← m.info]; simp [push, pushes]
    · intro i hd hi
      rw [group_snoc_push]
      simp only [push] at hi ⊢
      by_cases hlt : i < s.queue.length
      · rw [List.getElem?_append_left hlt] at hi; exact m.list i hd hi
      · have hl := (List.getElem?_eq_some_iff.1 hi).1
        simp at hl
        have hie : i = s.queue.length := by omega
        subst hie
        simp only [List.getElem?_concat_length, Option.some.injEq] at hi
        subst hi
        have hg : group h s.queue.length = [] := by
          have hlen : s.queue.length = (pushes h).length := by rw [← m.info]; simp
          have key : ∀ (g : List Ev) (j : Nat), (pushes g).length ≤ j → group g j = [] := by
            intro g
            induction g using List.reverseRecOn with
            | nil => intro j _; simp [group, groupRev]
            | append_singleton g e ih =>
              intro j hj
              rw [pushes_append, List.length_append] at hj
              cases e with
              | push l f => rw [group_snoc_push]; exact ih j (by omega)
              | pop => rw [group_snoc_pop]; exact ih j (by omega)
              | set n => rw [group_snoc_set]; exact ih j (by omega)
              | run k t0 t1 => rw [group_snoc_run, if_neg (by omega)]; exact ih j (by omega)
          exact key h _ (by omega)
        rw [hg]; exact ⟨rfl, rfl⟩
  | pop =>
    simp only [step, pop] at hs
    split at hs
    · cases hs
    · rename_i l f rest heq
      cases hs
      have hst := m.stack
      rw [heq] at hst
      refine ⟨?_, ?_, ?_, ?_, ?_, ?_⟩
      · rw [active_append]; simp [active, ← hst]
      · rw [level_snoc_pop, ← hst]; rfl
      · intro k; rw [runs_append]; simpa [runs] using m.none k
      · intro k nd hk
        have := m.node k nd hk
        rw [total_append]; simpa [count, runs_append, runs, total] using this
      · rw [pushes_append]; simpa [pushes] using m.info
      · intro i hd hi
        rw [group_snoc_pop]; exact m.list i hd hi
  | set n =>
    simp only [step, ok.injEq] at hs
    subst hs
    refine ⟨?_, (level_snoc_set h n).symm, ?_, ?_, ?_, ?_⟩
    · rw [active_append]; exact m.stack
    · intro k; rw [runs_append]; simpa [runs] using m.none k
    · intro k nd hk
      have := m.node k nd hk
      rw [total_append]; simpa [count, runs_append, runs, total] using this
    · rw [pushes_append]; simpa [pushes] using m.info
    · intro i hd hi
      rw [group_snoc_set]; exact m.list i hd hi
  | run k t0 t1 =>
    simp only [step, exec, bind_eq_ok] at hs
    obtain ⟨s1, h1, h2⟩ := hs
    have mk : Made h k s1 := by
      cases hn : s.nodes k with
      | none => rw [static, hn] at h1; exact made_new m ((m.none k).1 hn) h1
      | some nd =>
        rw [static, hn] at h1
        simp only [ok.injEq] at h1
        subst h1
        exact made_old m (by by_contra hc; rw [(m.none k).2 hc] at hn; cases hn)
    cases hn : s1.nodes k with
    | none => rw [hn] at h2; cases h2
    | some nd =>
      rw [hn] at h2
      simp only [ok.injEq] at h2
      subst h2
      exact made_upd mk hn t0 t1

theorem run_inv : ∀ (es h : List Ev) (s s' : St), Inv h s → run s es = ok s' → Inv (h ++ es) s' := by
  intro es
  induction es with
  | nil => intro h s s' m hr; simp only [run, ok.injEq] at hr; subst hr; simpa using m
  | cons e es ih =>
    intro h s s' m hr
    simp only [run, bind_eq_ok] at hr
    obtain ⟨s1, h1, h2⟩ := hr
    have := ih _ _ _ (step_inv m e h1) h2
    simpa using this

end Verif.Profile
