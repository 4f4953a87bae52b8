import Verif.Basic
import Mathlib.Data.List.Induction
/-
Start and end of the libraries: `QDP_initialize`, `QDP_finalize`, `QDP_abort`, `QDP_error_exit`, and the state that outlives calls: the flag `isInit`,
the streams `QDPIO::cout` and `QDPIO::cerr`, the arrays `ThreadReductions::norm2_results` and `innerProd_results`, and the profile.

The command line is taken to be complete (C76), and QMP, QMT and HDF5 to do what they are asked.  The rank of a node is a static variable and zero before
`Layout::init`, so every node is the primary node there (lib/qdp_parscalar_layout.cc:112); afterwards the streams are set up on all nodes.
-/
namespace Verif.LifeCycle
open Verif Outcome

/-! ## Model -/

/-- the four libraries -/
inductive Lib where
  | scalar | par | vec | parVec
deriving DecidableEq

/-- an array from `new`; a global pointer is null at the start -/
inductive Mem where
  | null | live | freed
deriving DecidableEq

/-- the static variables -/
structure St where
  isInit : Bool
  streams : Bool
  bufs : Mem
  /-- `prof_init`, lib/qdp_profile.cc:23 -/
  profInit : Bool
  /-- `prof_level > 0` -/
  level : Bool
  /-- `profqueue.size()` -/
  queue : Nat

/-- at the start of the program -/
def start : St := ⟨false, false, .null, false, false, 0⟩

/-- what a program may do -/
inductive Call where
  | init
  | fin
  /-- `Layout::create` -/
  | create
  /-- `QDPIO::cout << …` -/
  | print
  /-- a reduction that uses the arrays, include/scalarsite_sse/qdp_scalarsite_sse_blas_double.h:2573, 2673 -/
  | reduce
  /-- a statement that is executed for the first time, include/qdp_parscalar_specific.h:345 -/
  | statement
  /-- `QDP_error_exit` of some other function -/
  | stop
deriving DecidableEq

/-- `delete []`: twice is undefined; nothing happens to the null pointer -/
def del : Mem → Outcome Mem
  | .null => ok .null
  | .live => ok .freed
  | .freed => ub

/-- `getOstream() << …`, lib/qdp_stdio.cc:180-186, include/qdp_stdio.h:156 -/
def say (s : St) : Outcome Unit := if s.streams then ok () else ub

/-- does the library have the arrays (lib/qdp_scalar_init.cc:60-70, lib/qdp_parscalar_init.cc:293-304; not in the libraries with vectors) -/
def Lib.bufs : Lib → Bool
  | .scalar | .par => true
  | .vec | .parVec => false

/-- `delete` of the arrays, `printProfile` (lib/qdp_profile.cc:108-150: empties the queue), `isInit = false`,
lib/qdp_scalar_init.cc:139-158, lib/qdp_parscalar_init.cc:343-355, lib/qdp_scalarvec_init.cc:81-86, lib/qdp_parscalarvec_init.cc:213-222 -/
def shut (lib : Lib) (s : St) : Outcome St := do
  let b ← (if lib.bufs then del s.bufs else ok s.bufs : Outcome Mem)
  ok { s with bufs := b, queue := 0, isInit := false }

/-- `QDP_abort`: `QMP_abort` on many nodes, lib/qdp_parscalar_init.cc:359-362; `QDP_finalize` and `exit` on one, lib/qdp_scalar_init.cc:162-166,
lib/qdp_scalarvec_init.cc:89-93 -/
def abortP (lib : Lib) (s : St) : Outcome St :=
  match lib with
  | .par | .parVec => abort
  | .scalar | .vec => do
      let _ ← shut lib s
      abort

/-- `QDP_finalize`: on one node without a test, lib/qdp_scalar_init.cc:132-159, lib/qdp_scalarvec_init.cc:81-86; on many nodes with a message on
`QDPIO::cerr`, lib/qdp_parscalar_init.cc:328-356, lib/qdp_parscalarvec_init.cc:205-223 -/
def finalQ (lib : Lib) (s : St) : Outcome St :=
  match lib with
  | .scalar | .vec => shut lib s
  | .par | .parVec =>
      if !s.isInit then do
        say s
        abortP lib s
      else shut lib s

/-- `initProfile`, lib/qdp_profile.cc:90-98, with `pushProfileInfo(0, …)`, 170-187 -/
def initProfile (prof : Bool) (s : St) : St :=
  if prof then (if s.profInit then s else { s with profInit := true, level := false, queue := s.queue + 1 }) else s

/-- `QDP_initialize`, lib/qdp_parscalar_init.cc:39-322 (message on `QDPIO::cerr`), lib/qdp_scalar_init.cc:27-126 (`QDP_error_exit`),
lib/qdp_scalarvec_init.cc:18-75, lib/qdp_parscalarvec_init.cc:18-199 -/
def initQ (lib : Lib) (prof : Bool) (s : St) : Outcome St :=
  if s.isInit then
    match lib with
    | .par | .parVec => do
        say s
        abortP lib s
    | .scalar | .vec => abortP lib s
  else ok (initProfile prof { s with isInit := true, streams := true, bufs := if lib.bufs then .live else s.bufs })

/-- one call; `p`: "-p" gives a level above zero -/
def step (lib : Lib) (prof p : Bool) (s : St) : Call → Outcome St
  | .init => initQ lib prof s
  | .fin => finalQ lib s
  /- `if (! QDP_isInitialized()) QDP_error_exit`, lib/qdp_parscalar_layout.cc:239-240; `setProfileLevel(getProgramProfileLevel())`, 232 -/
  | .create => if !s.isInit then abortP lib s else ok (if prof then { s with level := p } else s)
  | .print => do
      say s
      ok s
  | .reduce => if lib.bufs then (if s.bufs = .live then ok s else ub) else ok s
  /- `if (getProfileLevel() > 0) registerProfile(this)`, include/qdp_profile.h:78-84; lib/qdp_profile.cc:203-222 -/
  | .statement =>
      if prof && s.level then
        (if s.queue = 0 then do
          say s
          abortP lib s
        else ok s)
      else ok s
  | .stop => abortP lib s

/-- a program -/
def run (lib : Lib) (prof p : Bool) : St → List Call → Outcome St
  | s, [] => ok s
  | s, c :: cs => do
      let s ← step lib prof p s c
      run lib prof p s cs

/-! ## Specification -/

/-- the last of the calls to `QDP_initialize` and `QDP_finalize` so far was to the first -/
def Opened (l : List Call) : Prop := ∃ a b, l = a ++ .init :: b ∧ .init ∉ b ∧ .fin ∉ b
/-- `QDP_initialize` was called -/
def Begun (l : List Call) : Prop := .init ∈ l
/-- it was called and the library has not been finalized since -/
def FirstTime (l : List Call) : Prop := ∃ a b, l = a ++ .init :: b ∧ .init ∉ a ∧ .fin ∉ b

/-- a proper program: every call of the library between `QDP_initialize` and the next `QDP_finalize`, no call stops -/
def Proper (l : List Call) : Prop :=
  ∀ a c b, l = a ++ c :: b → c ≠ .stop ∧ (c = .init → ¬ Opened a) ∧ (c ≠ .init → Opened a)

/-! ## Lemmas -/

theorem opened_snoc (l : List Call) (c : Call) : Opened (l ++ [c]) ↔ c = .init ∨ (Opened l ∧ c ≠ .fin) := by
  constructor
  · rintro ⟨a, b, h, h1, h2⟩
    rcases List.eq_nil_or_concat b with rfl | ⟨b', d, rfl⟩
    · have := List.append_inj' h (by simp)
      simp at this
      exact .inl this.2
    · rw [List.concat_eq_append, ← List.cons_append, ← List.append_assoc] at h
      have := List.append_inj' h (by simp)
      simp at this
      obtain ⟨rfl, rfl⟩ := this
      simp at h1 h2
      exact .inr ⟨⟨a, b', rfl, h1.1, h2.1⟩, fun e => h2.2 e.symm⟩
  · rintro (rfl | ⟨⟨a, b, rfl, h1, h2⟩, hc⟩)
    · exact ⟨l, [], rfl, by simp, by simp⟩
    · by_cases hi : c = .init
      · subst hi; exact ⟨a ++ .init :: b, [], rfl, by simp, by simp⟩
      · exact ⟨a, b ++ [c], by simp, by simp [h1]; exact fun e => hi e.symm, by simp [h2]; exact fun e => hc e.symm⟩

theorem begun_snoc (l : List Call) (c : Call) : Begun (l ++ [c]) ↔ c = .init ∨ Begun l := by
  simp [Begun, or_comm, eq_comm]

theorem first_snoc (l : List Call) (c : Call) : FirstTime (l ++ [c]) ↔ (c = .init ∧ ¬ Begun l) ∨ (FirstTime l ∧ c ≠ .fin) := by
  constructor
  · rintro ⟨a, b, h, h1, h2⟩
    rcases List.eq_nil_or_concat b with rfl | ⟨b', d, rfl⟩
    · have := List.append_inj' h (by simp)
      simp at this
      obtain ⟨rfl, rfl⟩ := this
      exact .inl ⟨rfl, h1⟩
    · rw [List.concat_eq_append, ← List.cons_append, ← List.append_assoc] at h
      have := List.append_inj' h (by simp)
      simp at this
      obtain ⟨rfl, rfl⟩ := this
      simp at h2
      exact .inr ⟨⟨a, b', rfl, h1, h2.1⟩, fun e => h2.2 e.symm⟩
  · rintro (⟨rfl, h⟩ | ⟨⟨a, b, rfl, h1, h2⟩, hc⟩)
    · exact ⟨l, [], rfl, h, by simp⟩
    · exact ⟨a, b ++ [c], by simp, h1, by simp [h2]; exact fun e => hc e.symm⟩

theorem opened_begun {l : List Call} : Opened l → Begun l := by rintro ⟨a, b, rfl, -, -⟩; simp [Begun]
theorem first_begun {l : List Call} : FirstTime l → Begun l := by rintro ⟨a, b, rfl, -, -⟩; simp [Begun]

theorem run_snoc (lib : Lib) (prof p : Bool) : ∀ (l : List Call) (s : St) (c : Call),
    run lib prof p s (l ++ [c]) = (run lib prof p s l >>= fun t => step lib prof p t c)
  | [], s, c => by
      simp only [List.nil_append, run, ok_bind]
      cases step lib prof p s c <;> rfl
  | d :: l, s, c => by
      simp only [List.cons_append, run]
      cases step lib prof p s d with
      | ok t => simp only [ok_bind]; exact run_snoc lib prof p l t c
      | abort => rfl
      | ub => rfl

/-- what the state says about the past -/
structure Inv (lib : Lib) (prof p : Bool) (l : List Call) (s : St) : Prop where
  ini : s.isInit = true ↔ Opened l
  str : s.streams = true ↔ Begun l
  liv : lib.bufs = true → (s.bufs = .live ↔ Opened l)
  nul : lib.bufs = true → (s.bufs = .null ↔ ¬ Begun l)
  pri : s.profInit = true ↔ (prof = true ∧ Begun l)
  que : 0 < s.queue ↔ (prof = true ∧ FirstTime l)
  cre : .create ∈ l → Begun l
  lev : s.level = true ↔ (prof = true ∧ p = true ∧ .create ∈ l)

theorem inv_start (lib : Lib) (prof p : Bool) : Inv lib prof p [] start := by
  have h1 : ¬ Opened [] := by rintro ⟨a, b, h, -, -⟩; simp at h
  have h2 : ¬ FirstTime [] := by rintro ⟨a, b, h, -, -⟩; simp at h
  constructor <;> simp [start, h1, h2, Begun]

theorem step_inv {lib : Lib} {prof p : Bool} {l : List Call} {s t : St} {c : Call} (h : Inv lib prof p l s) (hs : step lib prof p s c = ok t) :
    Inv lib prof p (l ++ [c]) t := by
  obtain ⟨ini, str, liv, nul, pri, que, cre, lev⟩ := h
  have ob := @opened_begun l
  have fb := @first_begun l
  have par_abort : ∀ s, abortP lib s ≠ ok t := by
    intro s
    cases lib <;> simp [abortP]
    all_goals cases shut _ s <;> simp
  have shutI : shut lib s = ok t → Inv lib prof p (l ++ [.fin]) t := by
    intro hs
    simp only [shut, bind_eq_ok] at hs
    obtain ⟨b, hb, hs⟩ := hs
    simp at hs
    subst hs
    constructor
    · simp [opened_snoc]
    · simp [begun_snoc, str]
    · intro hl
      have := liv hl; have := nul hl
      simp only [hl, if_true] at hb
      cases hm : s.bufs <;> simp [hm, del] at hb <;> subst hb <;> simp [opened_snoc]
    · intro hl
      have h1 := liv hl; have h2 := nul hl
      simp only [hl, if_true] at hb
      cases hm : s.bufs <;> simp [hm, del] at hb h1 h2 <;> subst hb <;> simp [begun_snoc]
      · exact h2
      · exact ob h1
    · simp [begun_snoc, pri]
    · simp [first_snoc]
    · simp [begun_snoc]; exact cre
    · simp [lev]
  cases c with
  | init =>
      simp only [step, initQ] at hs
      split at hs
      · cases lib <;> simp only [bind_eq_ok] at hs
        · exact absurd hs (par_abort _)
        · obtain ⟨_, _, hs⟩ := hs; exact absurd hs (par_abort _)
        · exact absurd hs (par_abort _)
        · obtain ⟨_, _, hs⟩ := hs; exact absurd hs (par_abort _)
      · rename_i hi
        simp at hs
        subst hs
        have hno : ¬ Opened l := fun h => hi (ini.2 h)
        cases hp : prof
        · simp only [hp] at pri que lev
          constructor <;> simp_all [initProfile, opened_snoc, begun_snoc, first_snoc]
        · by_cases hpi : s.profInit = true
          · have hb : Begun l := (pri.1 hpi).2
            constructor <;> simp_all [initProfile, opened_snoc, begun_snoc, first_snoc]
          · have hb : ¬ Begun l := fun h => hpi (pri.2 ⟨hp, h⟩)
            have hc : Call.create ∉ l := fun h => hb (cre h)
            constructor <;> simp_all [initProfile, opened_snoc, begun_snoc, first_snoc]
  | fin =>
      simp only [step, finalQ] at hs
      cases lib <;> simp only at hs
      · exact shutI hs
      · split at hs
        · simp only [bind_eq_ok] at hs; obtain ⟨_, _, hs⟩ := hs; exact absurd hs (par_abort _)
        · exact shutI hs
      · exact shutI hs
      · split at hs
        · simp only [bind_eq_ok] at hs; obtain ⟨_, _, hs⟩ := hs; exact absurd hs (par_abort _)
        · exact shutI hs
  | create =>
      simp only [step] at hs
      split at hs
      · exact absurd hs (par_abort _)
      · rename_i hi
        simp at hs hi
        subst hs
        have ho := ini.1 hi
        have hb := ob ho
        cases hp : prof <;> simp only [hp] at pri que lev <;> constructor <;> simp_all [opened_snoc, begun_snoc, first_snoc]
  | print =>
      simp only [step, bind_eq_ok] at hs
      obtain ⟨_, -, hs⟩ := hs
      simp at hs
      subst hs
      constructor <;> simp_all [opened_snoc, begun_snoc, first_snoc]
  | reduce =>
      have hs : s = t := by
        simp only [step] at hs
        split at hs
        · split at hs
          · simpa using hs
          · cases hs
        · simpa using hs
      subst hs
      constructor <;> simp_all [opened_snoc, begun_snoc, first_snoc]
  | statement =>
      have hs : s = t := by
        simp only [step] at hs
        split at hs
        · split at hs
          · simp only [bind_eq_ok] at hs; obtain ⟨_, _, hs⟩ := hs; exact absurd hs (par_abort _)
          · simpa using hs
        · simpa using hs
      subst hs
      constructor <;> simp_all [opened_snoc, begun_snoc, first_snoc]
  | stop => exact absurd hs (par_abort _)

theorem run_inv {lib : Lib} {prof p : Bool} (l : List Call) : ∀ {s : St}, run lib prof p start l = ok s → Inv lib prof p l s := by
  induction l using List.reverseRecOn with
  | nil => intro s h; simp [run] at h; subst h; exact inv_start lib prof p
  | append_singleton l c ih =>
      intro s h
      rw [run_snoc, bind_eq_ok] at h
      obtain ⟨t, ht, h⟩ := h
      exact step_inv (ih ht) h

theorem first_opened {l : List Call} : FirstTime l → Opened l := by
  induction l using List.reverseRecOn with
  | nil => rintro ⟨a, b, h, -, -⟩; simp at h
  | append_singleton l c ih =>
      rw [first_snoc, opened_snoc]
      rintro (⟨h, -⟩ | ⟨h, hc⟩)
      · exact .inl h
      · exact .inr ⟨ih h, hc⟩

/-! ## Theorems -/

/-- C107, many nodes: what the next call does after any program that came so far -/
theorem C107_par_exact (prof p : Bool) (l : List Call) (s : St) (h : run .par prof p start l = ok s) (c : Call) :
    (step .par prof p s c = ub ↔ (¬ Begun l ∧ (c = .print ∨ c = .fin)) ∨ (¬ Opened l ∧ c = .reduce)) ∧
    (step .par prof p s c = abort ↔ c = .stop ∨ (Opened l ∧ c = .init) ∨ (¬ Opened l ∧ c = .create) ∨ (Begun l ∧ ¬ Opened l ∧ c = .fin) ∨
      (prof = true ∧ p = true ∧ .create ∈ l ∧ ¬ FirstTime l ∧ c = .statement)) := by
  obtain ⟨ini, str, liv, nul, pri, que, cre, lev⟩ := run_inv l h
  have ob := @opened_begun l
  have fo := @first_opened l
  have liv := liv rfl
  have nul := nul rfl
  clear h
  obtain ⟨i, st, b, pi, lv, q⟩ := s
  dsimp only at ini str liv nul pri que lev
  have q0 : q = 0 ↔ ¬ (prof = true ∧ FirstTime l) := by rw [← que]; omega
  by_cases hc : prof = true ∧ p = true ∧ Call.create ∈ l <;> by_cases hf : FirstTime l <;>
  cases i <;> cases st <;> cases b <;> cases c <;>
    simp_all [step, initQ, finalQ, abortP, say, shut, Lib.bufs, del]

/-- C107, one node -/
theorem C107_scalar_exact (prof p : Bool) (l : List Call) (s : St) (h : run .scalar prof p start l = ok s) (c : Call) :
    (step .scalar prof p s c = ub ↔ (¬ Begun l ∧ c = .print) ∨ (¬ Opened l ∧ c = .reduce) ∨
      (Begun l ∧ ¬ Opened l ∧ (c = .fin ∨ c = .create ∨ c = .stop ∨ (prof = true ∧ p = true ∧ .create ∈ l ∧ c = .statement)))) ∧
    (step .scalar prof p s c = abort ↔ (Opened l ∧ (c = .stop ∨ c = .init)) ∨ (¬ Begun l ∧ (c = .stop ∨ c = .create)) ∨
      (prof = true ∧ p = true ∧ .create ∈ l ∧ Opened l ∧ ¬ FirstTime l ∧ c = .statement)) := by
  obtain ⟨ini, str, liv, nul, pri, que, cre, lev⟩ := run_inv l h
  have ob := @opened_begun l
  have fo := @first_opened l
  have liv := liv rfl
  have nul := nul rfl
  clear h
  obtain ⟨i, st, b, pi, lv, q⟩ := s
  dsimp only at ini str liv nul pri que lev
  have q0 : q = 0 ↔ ¬ (prof = true ∧ FirstTime l) := by rw [← que]; omega
  by_cases hc : prof = true ∧ p = true ∧ Call.create ∈ l <;> by_cases hf : FirstTime l <;>
  cases i <;> cases st <;> cases b <;> cases c <;>
    simp_all [step, initQ, finalQ, abortP, say, shut, Lib.bufs, del]

/-- C107, many nodes with vectors -/
theorem C107_parvec_exact (prof p : Bool) (l : List Call) (s : St) (h : run .parVec prof p start l = ok s) (c : Call) :
    (step .parVec prof p s c = ub ↔ ¬ Begun l ∧ (c = .print ∨ c = .fin)) ∧
    (step .parVec prof p s c = abort ↔ c = .stop ∨ (Opened l ∧ c = .init) ∨ (¬ Opened l ∧ c = .create) ∨ (Begun l ∧ ¬ Opened l ∧ c = .fin) ∨
      (prof = true ∧ p = true ∧ .create ∈ l ∧ ¬ FirstTime l ∧ c = .statement)) := by
  obtain ⟨ini, str, liv, nul, pri, que, cre, lev⟩ := run_inv l h
  have ob := @opened_begun l
  have fo := @first_opened l
  clear h
  obtain ⟨i, st, b, pi, lv, q⟩ := s
  dsimp only at ini str liv nul pri que lev
  have q0 : q = 0 ↔ ¬ (prof = true ∧ FirstTime l) := by rw [← que]; omega
  by_cases hc : prof = true ∧ p = true ∧ Call.create ∈ l <;> by_cases hf : FirstTime l <;>
  cases i <;> cases st <;> cases b <;> cases c <;>
    simp_all [step, initQ, finalQ, abortP, say, shut, Lib.bufs, del]

/-- C107, one node with vectors -/
theorem C107_vec_exact (prof p : Bool) (l : List Call) (s : St) (h : run .vec prof p start l = ok s) (c : Call) :
    (step .vec prof p s c = ub ↔ ¬ Begun l ∧ c = .print) ∧
    (step .vec prof p s c = abort ↔ c = .stop ∨ (Opened l ∧ c = .init) ∨ (¬ Opened l ∧ c = .create) ∨
      (prof = true ∧ p = true ∧ .create ∈ l ∧ ¬ FirstTime l ∧ c = .statement)) := by
  obtain ⟨ini, str, liv, nul, pri, que, cre, lev⟩ := run_inv l h
  have ob := @opened_begun l
  have fo := @first_opened l
  clear h
  obtain ⟨i, st, b, pi, lv, q⟩ := s
  dsimp only at ini str liv nul pri que lev
  have q0 : q = 0 ↔ ¬ (prof = true ∧ FirstTime l) := by rw [← que]; omega
  by_cases hc : prof = true ∧ p = true ∧ Call.create ∈ l <;> by_cases hf : FirstTime l <;>
  cases i <;> cases st <;> cases b <;> cases c <;>
    simp_all [step, initQ, finalQ, abortP, say, shut, Lib.bufs, del]

theorem proper_snoc {l : List Call} {c : Call} (h : Proper (l ++ [c])) : Proper l ∧ c ≠ .stop ∧ (c = .init → ¬ Opened l) ∧ (c ≠ .init → Opened l) :=
  ⟨fun a d b e => h a d (b ++ [c]) (by rw [e]; simp), h l c [] rfl⟩

/-- C107: a proper program runs in all four libraries, as often as it initializes and finalizes, if it does not profile or has no new statements
after the first `QDP_finalize` -/
theorem C107_proper_partial (lib : Lib) (prof p : Bool) (l : List Call) (h : Proper l)
    (hp : prof = false ∨ p = false ∨ ∀ a b, l = a ++ .statement :: b → FirstTime a) : ∃ s, run lib prof p start l = ok s := by
  induction l using List.reverseRecOn with
  | nil => exact ⟨start, rfl⟩
  | append_singleton l c ih =>
      obtain ⟨h1, h2, h3, h4⟩ := proper_snoc h
      obtain ⟨s, hs⟩ := ih h1 (by
        rcases hp with hp | hp | hp
        · exact .inl hp
        · exact .inr (.inl hp)
        · exact .inr (.inr fun a b e => hp a (b ++ [c]) (by rw [e]; simp)))
      have hb : c ≠ .init → Begun l := fun hc => opened_begun (h4 hc)
      have hst : ¬ (prof = true ∧ p = true ∧ .create ∈ l ∧ ¬ FirstTime l ∧ c = .statement) := by
        rintro ⟨e1, e2, -, e3, rfl⟩
        rcases hp with hp | hp | hp
        · rw [hp] at e1; cases e1
        · rw [hp] at e2; cases e2
        · exact e3 (hp l [] rfl)
      have key : step lib prof p s c ≠ ub ∧ step lib prof p s c ≠ abort := by
        cases lib
        · obtain ⟨k1, k2⟩ := C107_scalar_exact prof p l s hs c
          rw [Ne, k1, Ne, k2]
          by_cases hc : c = .init
          · have := h3 hc; simp [hc, this]
          · have := h4 hc; have := hb hc; simp_all
        · obtain ⟨k1, k2⟩ := C107_par_exact prof p l s hs c
          rw [Ne, k1, Ne, k2]
          by_cases hc : c = .init
          · have := h3 hc; simp [hc, this]
          · have := h4 hc; have := hb hc; simp_all
        · obtain ⟨k1, k2⟩ := C107_vec_exact prof p l s hs c
          rw [Ne, k1, Ne, k2]
          by_cases hc : c = .init
          · have := h3 hc; simp [hc, this]
          · have := h4 hc; have := hb hc; simp_all
        · obtain ⟨k1, k2⟩ := C107_parvec_exact prof p l s hs c
          rw [Ne, k1, Ne, k2]
          by_cases hc : c = .init
          · have := h3 hc; simp [hc, this]
          · have := h4 hc; have := hb hc; simp_all
      rw [run_snoc, hs, ok_bind]
      cases hr : step lib prof p s c with
      | ok t => exact ⟨t, rfl⟩
      | abort => exact absurd hr key.2
      | ub => exact absurd hr key.1

/-- a decidable form -/
theorem proper_of (l : List Call) (h : ∀ i, (hi : i < l.length) → l[i] ≠ .stop ∧ (l[i] = .init → ¬ Opened (l.take i)) ∧ (l[i] ≠ .init → Opened (l.take i))) :
    Proper l := by
  rintro a c b rfl
  have := h a.length (by simp)
  simpa using this

/-- C107 is false of the code with profiling: the second `initProfile` does nothing, so that the first new statement after a second `QDP_initialize`
finds the queue empty and the program is stopped, in every library -/
theorem C107_again_refuted (lib : Lib) : Proper [.init, .create, .fin, .init, .create, .statement] ∧
    run lib true true start [.init, .create, .fin, .init, .create, .statement] = abort ∧
    run lib false true start [.init, .create, .fin, .init, .create, .statement] ≠ abort := by
  have o1 : Opened [.init] := ⟨[], [], rfl, by simp, by simp⟩
  have o2 : Opened [.init, .create] := ⟨[], [.create], rfl, by simp, by simp⟩
  have o4 : Opened [.init, .create, .fin, .init] := ⟨[.init, .create, .fin], [], rfl, by simp, by simp⟩
  have o5 : Opened [.init, .create, .fin, .init, .create] := ⟨[.init, .create, .fin], [.create], rfl, by simp, by simp⟩
  have c0 : ¬ Opened [] := by rintro ⟨a, b, h, -, -⟩; simp at h
  have c3 : ¬ Opened [.init, .create, .fin] := by
    rw [show [Call.init, .create, .fin] = [.init, .create] ++ [.fin] from rfl, opened_snoc]; simp
  refine ⟨proper_of _ ?_, ?_, ?_⟩
  · intro i hi
    simp only [List.length_cons, List.length_nil] at hi
    rcases i with _ | _ | _ | _ | _ | _ | i <;> simp [o1, o2, o4, o5, c0, c3]
    omega
  · cases lib <;> rfl
  · cases lib <;> (intro h; cases h)

/-- C107 is false of the code: on many nodes printing, or finalizing, before `QDP_initialize` is undefined although there is a message for the second -/
theorem C107_early_refuted (prof p : Bool) (l : List Call) :
    run .par prof p start (.fin :: l) = ub ∧ run .parVec prof p start (.fin :: l) = ub ∧ ∀ lib, run lib prof p start (.print :: l) = ub := by
  refine ⟨rfl, rfl, fun lib => ?_⟩
  cases lib <;> rfl

/-- C107 is false of the code: on one node any error, and a second `QDP_finalize`, frees the arrays again after `QDP_finalize` -/
theorem C107_late_refuted (prof p : Bool) (l : List Call) (s : St) (h : run .scalar prof p start l = ok s) (ho : Opened l) (c : Call) (cs : List Call)
    (hc : c = .fin ∨ c = .create ∨ c = .stop) : run .scalar prof p start (l ++ .fin :: c :: cs) = ub := by
  have h1 : ∃ t, run .scalar prof p start (l ++ [.fin]) = ok t := by
    rw [run_snoc, h, ok_bind]
    obtain ⟨k1, k2⟩ := C107_scalar_exact prof p l s h .fin
    cases hr : step .scalar prof p s .fin with
    | ok t => exact ⟨t, rfl⟩
    | abort => simp [hr, ho] at k2
    | ub => simp [hr, ho] at k1
  obtain ⟨t, ht⟩ := h1
  have h2 : step .scalar prof p t c = ub := by
    rw [(C107_scalar_exact prof p _ t ht c).1]
    have hb : Begun (l ++ [.fin]) := by rw [begun_snoc]; exact .inr (opened_begun ho)
    have hn : ¬ Opened (l ++ [.fin]) := by rw [opened_snoc]; simp
    rcases hc with rfl | rfl | rfl <;> simp [hb, hn]
  have h3 : ∀ (l : List Call) (s t : St), run .scalar prof p s l = ok t → step .scalar prof p t c = ub → run .scalar prof p s (l ++ c :: cs) = ub := by
    intro l
    induction l with
    | nil => intro s t h h2; simp [run] at h; subst h; simp [run, h2]
    | cons d l ih =>
        intro s t h h2
        simp only [run, bind_eq_ok] at h
        obtain ⟨u, hu, h⟩ := h
        simp only [List.cons_append, run, hu, ok_bind]
        exact ih u t h h2
  have := h3 _ _ _ ht h2
  simpa using this

/-- not vacuous: two sessions -/
example (lib : Lib) : ∃ s, run lib false false start [.init, .create, .statement, .reduce, .print, .fin, .init, .create, .reduce, .fin] = ok s := by
  cases lib <;> exact ⟨_, rfl⟩

end Verif.LifeCycle
