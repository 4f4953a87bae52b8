import Mathlib.Algebra.BigOperators.Group.Finset.Basic
import Mathlib.Algebra.Order.BigOperators.Group.Finset
import Verif.Basic
/-
`HDF5Writer::open`, lib/qdp_hdf5.cc:1522-1595, on many nodes that share a file system and go on at their own speeds.

The HDF5 library is a model: `H5Fis_hdf5` tells whether the file is an HDF5 file, `H5Fcreate` with `H5F_ACC_TRUNC` empties or creates it, with `H5F_ACC_EXCL` creates it if there is none,
`H5Fopen` opens an existing one.  Create and open are collective: they succeed when all nodes have called the same.  Two libraries are considered: the file is made when all nodes have
called (`late`), or as soon as node 0 has called.  Property lists, alignment and the error stack are not modelled.
-/
namespace Verif.Hdf5Open
open Verif

/-- a file of the given name: none, an HDF5 file with some content, or some other file -/
inductive File
  | absent
  | hdf5 (c : List Nat)
  | other (c : List Nat)
deriving DecidableEq

def File.exist : File → Bool
  | .absent => false
  | _ => true

/-- `H5Fis_hdf5(filename) > 0` -/
def File.isHdf5 : File → Bool
  | .hdf5 _ => true
  | _ => false

/-- the collective calls of the HDF5 library -/
inductive Call
  | createTrunc
  | createExcl
  | openRW
deriving DecidableEq

/-- the file after a collective call, `none` if the call fails -/
def Call.effect : Call → File → Option File
  | .createTrunc, _ => some (.hdf5 [])
  | .createExcl, .absent => some (.hdf5 [])
  | .createExcl, _ => none
  | .openRW, .hdf5 c => some (.hdf5 c)
  | .openRW, _ => none

/-- how far a node is: before the broadcast, with the result of the broadcast, with the result of `H5Fis_hdf5`, after `remove`, inside the collective call, with the open file, or ended by
`HDF5_error_exit` -/
inductive Phase
  | start
  | known (exists_ : Bool)
  | tested (h : Bool)
  | removed
  | entered (c : Call)
  | opened
  | error
deriving DecidableEq

structure State where
  file : File
  /-- what node 0 has broadcast -/
  sent : Option Bool
  ph : Nat → Phase

def State.set (s : State) (i : Nat) (p : Phase) : State := { s with ph := fun j => if j = i then p else s.ph j }

/-- `mode & HDF5Base::trunc`, include/qdp_hdf5.h:31 -/
def truncates (mode : Nat) : Bool := mode &&& 2 != 0

/-- one step of some node.  `late`: the file is made when all nodes are in the call; otherwise when node 0 enters -/
inductive Step (N : Nat) (late : Bool) (mode : Nat) : State → State → Prop
  /-- node 0 looks for the file, lib/qdp_hdf5.cc:1545-1554 -/
  | look (s) : s.ph 0 = .start → 0 < N → Step N late mode s { s.set 0 (.known s.file.exist) with sent := some s.file.exist }
  /-- the other nodes get the broadcast -/
  | hear (s i e) : i < N → i ≠ 0 → s.ph i = .start → s.sent = some e → Step N late mode s (s.set i (.known e))
  /-- lib/qdp_hdf5.cc:1558 -/
  | test (s i) : i < N → s.ph i = .known true → Step N late mode s (s.set i (.tested s.file.isHdf5))
  /-- no file: lib/qdp_hdf5.cc:1584 -/
  | new (s i) : i < N → s.ph i = .known false → Step N late mode s (s.set i (.entered .createExcl))
  /-- lib/qdp_hdf5.cc:1561-1568 -/
  | old (s i) : i < N → s.ph i = .tested true → Step N late mode s (s.set i (.entered (if truncates mode then .createTrunc else .openRW)))
  /-- `remove`, lib/qdp_hdf5.cc:1574; every node does it -/
  | remove (s i) : i < N → s.ph i = .tested false → truncates mode = true → Step N late mode s { s.set i .removed with file := .absent }
  /-- lib/qdp_hdf5.cc:1575, where the file is made only when all nodes are there -/
  | enter (s i) : i < N → s.ph i = .removed → (late = true ∨ i ≠ 0) → Step N late mode s (s.set i (.entered .createExcl))
  /-- the same, when node 0 makes the file at once -/
  | enterEarly (s f) : 0 < N → s.ph 0 = .removed → late = false → Call.effect .createExcl s.file = some f → Step N late mode s { s.set 0 (.entered .createExcl) with file := f }
  /-- lib/qdp_hdf5.cc:1578 -/
  | refuse (s i) : i < N → s.ph i = .tested false → truncates mode = false → Step N late mode s (s.set i .error)
  /-- the collective call of all nodes -/
  | all (s c f) : 0 < N → (∀ i < N, s.ph i = .entered c) → late = true → c.effect s.file = some f →
      Step N late mode s { s with file := f, ph := fun i => if i < N then .opened else s.ph i }
  /-- the collective call fails: lib/qdp_hdf5.cc:1589-1591 -/
  | allFail (s c) : 0 < N → (∀ i < N, s.ph i = .entered c) → late = true → c.effect s.file = none →
      Step N late mode s { s with ph := fun i => if i < N then .error else s.ph i }
  /-- the collective call of all nodes, the file was made before -/
  | allEarly (s c) : 0 < N → (∀ i < N, s.ph i = .entered c) → late = false → Step N late mode s { s with ph := fun i => if i < N then .opened else s.ph i }

inductive Run (N : Nat) (late : Bool) (mode : Nat) : State → State → Prop
  | refl (s) : Run N late mode s s
  | tail {s t u} : Run N late mode s t → Step N late mode t u → Run N late mode s u

def init (f : File) : State := ⟨f, none, fun _ => .start⟩

/-! ### specification -/

/-- what `open` is to do with a file: the new file, or an error -/
def wanted (f : File) (trunc : Bool) : Option File :=
  match f, trunc with
  | .absent, _ => some (.hdf5 [])
  | _, true => some (.hdf5 [])
  | .hdf5 c, false => some (.hdf5 c)
  | .other _, false => none

/-- all nodes have the file, which is as it is to be; or all nodes report the error, and the file is as it was -/
def Done (N : Nat) (f : File) (trunc : Bool) (s : State) : Prop :=
  match wanted f trunc with
  | some g => s.file = g ∧ ∀ i < N, s.ph i = .opened
  | none => s.file = f ∧ ∀ i < N, s.ph i = .error

/-! ### proof -/

/-- the call that all nodes make -/
def theCall (f : File) (trunc : Bool) : Call :=
  match f, trunc with
  | .hdf5 _, true => .createTrunc
  | .hdf5 _, false => .openRW
  | _, _ => .createExcl

/-- what holds of the state of a node before the file is open -/
def Ok (f : File) (trunc : Bool) (now : File) (sent : Option Bool) : Phase → Prop
  | .start => True
  | .known e => e = f.exist ∧ sent ≠ none
  | .tested h => f.exist = true ∧ h = f.isHdf5 ∧ sent ≠ none
  | .removed => f.exist = true ∧ f.isHdf5 = false ∧ trunc = true ∧ now = .absent ∧ sent ≠ none
  | .entered c => c = theCall f trunc ∧ (f.exist = true → f.isHdf5 = false → trunc = true ∧ now = .absent) ∧ sent ≠ none
  | .opened => False
  | .error => f.exist = true ∧ f.isHdf5 = false ∧ trunc = false ∧ sent ≠ none

structure Before (N : Nat) (f : File) (trunc : Bool) (s : State) : Prop where
  file : s.file = f ∨ (f.exist = true ∧ f.isHdf5 = false ∧ trunc = true ∧ s.file = .absent ∧ s.sent ≠ none)
  sent : ∀ e, s.sent = some e → e = f.exist
  zero : 0 < N → (s.ph 0 = .start ↔ s.sent = none)
  ok : ∀ i < N, Ok f trunc s.file s.sent (s.ph i)

def Inv (N : Nat) (f : File) (trunc : Bool) (s : State) : Prop := Before N f trunc s ∨ (Done N f trunc s ∧ ∀ i < N, s.ph i = .opened)

theorem Ok.mono {f : File} {trunc : Bool} {now now' : File} {sent sent' : Option Bool} {p : Phase} (h : Ok f trunc now sent p) (h1 : now' = now ∨ now' = .absent)
    (h2 : sent' = sent ∨ sent' ≠ none) : Ok f trunc now' sent' p := by
  have hs : sent ≠ none → sent' ≠ none := fun hn => by rcases h2 with h2 | h2 <;> [rw [h2]; skip] <;> assumption
  have hn : now = .absent → now' = .absent := fun ha => by rcases h1 with h1 | h1 <;> [rw [h1]; skip] <;> assumption
  cases p with
  | start => trivial
  | known e => exact ⟨h.1, hs h.2⟩
  | tested e => exact ⟨h.1, h.2.1, hs h.2.2⟩
  | removed => exact ⟨h.1, h.2.1, h.2.2.1, hn h.2.2.2.1, hs h.2.2.2.2⟩
  | entered c => exact ⟨h.1, fun a b => ⟨(h.2.1 a b).1, hn (h.2.1 a b).2⟩, hs h.2.2⟩
  | opened => exact h
  | error => exact ⟨h.1, h.2.1, h.2.2.1, hs h.2.2.2⟩

/-- a node goes on, the file stays -/
theorem before_set {N : Nat} {f : File} {trunc : Bool} {s : State} (m : Before N f trunc s) (i : Nat) (p : Phase) (hp : Ok f trunc s.file s.sent p) (hz : p ≠ .start) (ho : s.ph i ≠ .start ∨ i ≠ 0) :
    Before N f trunc (s.set i p) := by
  refine ⟨m.file, m.sent, fun hN => ?_, fun j hj => ?_⟩
  · have := m.zero hN
    simp only [State.set]
    split
    · rename_i h0
      subst h0
      rcases ho with ho | ho
      · constructor
        · intro h; exact absurd h hz
        · intro h; exact absurd (this.2 h) ho
      · exact absurd rfl ho
    · exact this
  · simp only [State.set]
    split
    · exact hp
    · exact m.ok j hj

theorem file_absent {f : File} (h : f.exist = false) : f = .absent := by cases f <;> simp_all [File.exist]

theorem step_inv {N mode : Nat} {f : File} {s t : State} (m : Inv N f (truncates mode) s) (hs : Step N true mode s t) : Inv N f (truncates mode) t := by
  rcases m with m | ⟨m, mo⟩
  · cases hs with
    | look h0 hN =>
      refine .inl ?_
      have hsn : s.sent = none := (m.zero hN).1 h0
      have hf : s.file.exist = f.exist := by
        rcases m.file with h | ⟨_, _, _, _, h5⟩
        · rw [h]
        · exact absurd hsn h5
      refine ⟨m.file.imp id fun h => ⟨h.1, h.2.1, h.2.2.1, h.2.2.2.1, by simp⟩, fun e he => ?_, fun _ => ?_, fun j hj => ?_⟩
      · simp only [Option.some.injEq] at he; rw [← he, hf]
      · simp [State.set]
      · simp only [State.set]
        split
        · exact ⟨hf, by simp⟩
        · exact (m.ok j hj).mono (.inl rfl) (.inr (by simp))
    | hear i e hi h0 hp he =>
      exact .inl (before_set m i _ ⟨m.sent e he, by rw [he]; simp⟩ (by simp) (.inr h0))
    | test i hi hp =>
      have ok := m.ok i hi
      rw [hp] at ok
      refine .inl (before_set m i _ ⟨ok.1.symm, ?_, ok.2⟩ (by simp) (.inl (by rw [hp]; simp)))
      rcases m.file with h | ⟨h1, h2, h3, h4, _⟩
      · rw [h]
      · rw [h4, h2]; rfl
    | new i hi hp =>
      have ok := m.ok i hi
      rw [hp] at ok
      have hf := file_absent ok.1.symm
      refine .inl (before_set m i _ ⟨?_, fun h => ?_, ok.2⟩ (by simp) (.inl (by rw [hp]; simp)))
      · subst hf; rfl
      · rw [← ok.1] at h; cases h
    | old i hi hp =>
      have ok := m.ok i hi
      rw [hp] at ok
      refine .inl (before_set m i _ ⟨?_, fun _ h => ?_, ok.2.2⟩ (by simp) (.inl (by rw [hp]; simp)))
      · have := ok.2.1
        cases f with
        | hdf5 c => cases ht : truncates mode <;> rfl
        | absent => cases this
        | other c => cases this
      · rw [← ok.2.1] at h; cases h
    | remove i hi hp ht =>
      have ok := m.ok i hi
      rw [hp] at ok
      have m' : Before N f (truncates mode) { s with file := .absent } :=
        ⟨.inr ⟨ok.1, ok.2.1.symm, ht, rfl, ok.2.2⟩, m.sent, m.zero, fun j hj => (m.ok j hj).mono (.inr rfl) (.inl rfl)⟩
      exact .inl (before_set m' i .removed ⟨ok.1, ok.2.1.symm, ht, rfl, ok.2.2⟩ (by simp) (.inl (by simp [hp])))
    | enter i hi hp hl =>
      have ok := m.ok i hi
      rw [hp] at ok
      refine .inl (before_set m i _ ⟨?_, fun _ _ => ⟨ok.2.2.1, ok.2.2.2.1⟩, ok.2.2.2.2⟩ (by simp) (.inl (by rw [hp]; simp)))
      cases f with
      | hdf5 c => cases ok.2.1
      | absent => rfl
      | other c => rfl
    | enterEarly f' hN hp hl => cases hl
    | refuse i hi hp ht =>
      have ok := m.ok i hi
      rw [hp] at ok
      exact .inl (before_set m i _ ⟨ok.1, ok.2.1.symm, ht, ok.2.2⟩ (by simp) (.inl (by rw [hp]; simp)))
    | all c g hN hp hl he =>
      have ok := m.ok 0 hN
      rw [hp 0 hN] at ok
      refine .inr ⟨?_, fun i hi => by simp [hi]⟩
      obtain ⟨h1, h2, h3⟩ := ok
      subst h1
      unfold Done
      cases f with
      | absent =>
        have hf : s.file = .absent := by rcases m.file with h | h <;> [exact h; exact h.2.2.2.1]
        rw [hf] at he
        cases ht : truncates mode <;> rw [ht] at he <;> cases he <;> exact ⟨rfl, fun i hi => by simp [hi]⟩
      | hdf5 c =>
        have hf : s.file = .hdf5 c := by rcases m.file with h | h <;> [exact h; cases h.2.1]
        rw [hf] at he
        cases ht : truncates mode <;> rw [ht] at he <;> cases he <;> exact ⟨rfl, fun i hi => by simp [hi]⟩
      | other c =>
        obtain ⟨ht, hf⟩ := h2 rfl rfl
        rw [hf, ht] at he
        rw [ht]
        cases he
        exact ⟨rfl, fun i hi => by simp [hi]⟩
    | allFail c hN hp hl he =>
      have ok := m.ok 0 hN
      rw [hp 0 hN] at ok
      obtain ⟨h1, h2, h3⟩ := ok
      subst h1
      exfalso
      cases f with
      | absent =>
        have hf : s.file = .absent := by rcases m.file with h | h <;> [exact h; exact h.2.2.2.1]
        rw [hf] at he
        cases ht : truncates mode <;> rw [ht] at he <;> cases he
      | hdf5 c =>
        have hf : s.file = .hdf5 c := by rcases m.file with h | h <;> [exact h; cases h.2.1]
        rw [hf] at he
        cases ht : truncates mode <;> rw [ht] at he <;> cases he
      | other c =>
        obtain ⟨ht, hf⟩ := h2 rfl rfl
        rw [hf, ht] at he
        cases he
    | allEarly c hN hp hl => cases hl
  · exfalso
    cases hs with
    | look h0 hN => rw [mo 0 hN] at h0; cases h0
    | hear i e hi _ hp => rw [mo i hi] at hp; cases hp
    | test i hi hp => rw [mo i hi] at hp; cases hp
    | new i hi hp => rw [mo i hi] at hp; cases hp
    | old i hi hp => rw [mo i hi] at hp; cases hp
    | remove i hi hp => rw [mo i hi] at hp; cases hp
    | enter i hi hp => rw [mo i hi] at hp; cases hp
    | enterEarly f' hN hp hl => cases hl
    | refuse i hi hp => rw [mo i hi] at hp; cases hp
    | all c g hN hp => have := hp 0 hN; rw [mo 0 hN] at this; cases this
    | allFail c hN hp => have := hp 0 hN; rw [mo 0 hN] at this; cases this
    | allEarly c hN hp hl => cases hl

theorem run_inv {N mode : Nat} {f : File} {s : State} (hr : Run N true mode (init f) s) : Inv N f (truncates mode) s := by
  induction hr with
  | refl =>
    exact .inl ⟨.inl rfl, fun e he => by simp [init] at he, fun _ => by simp [init], fun i _ => trivial⟩
  | tail _ hs ih => exact step_inv ih hs

/-- when no node can go on, all are done -/
theorem stuck_done {N mode : Nat} {f : File} {s : State} (hN : 0 < N) (m : Inv N f (truncates mode) s) (hs : ∀ t, ¬ Step N true mode s t) : Done N f (truncates mode) s := by
  rcases m with m | ⟨m, -⟩
  · have h0 : s.ph 0 ≠ .start := fun h => hs _ (.look s h hN)
    have hsent : s.sent ≠ none := fun h => h0 ((m.zero hN).2 h)
    obtain ⟨e, he⟩ := Option.ne_none_iff_exists'.1 hsent
    have cases' : ∀ i < N, (∃ c, s.ph i = .entered c) ∨ s.ph i = .error := by
      intro i hi
      have ok := m.ok i hi
      cases hp : s.ph i with
      | start =>
        by_cases h : i = 0
        · subst h; exact absurd hp h0
        · exact absurd (Step.hear s i e hi h hp he) (hs _)
      | known b =>
        cases b with
        | true => exact absurd (Step.test s i hi hp) (hs _)
        | false => exact absurd (Step.new s i hi hp) (hs _)
      | tested b =>
        cases b with
        | true => exact absurd (Step.old s i hi hp) (hs _)
        | false =>
          cases ht : truncates mode with
          | true => exact absurd (Step.remove s i hi hp ht) (hs _)
          | false => exact absurd (Step.refuse s i hi hp ht) (hs _)
      | removed => exact absurd (Step.enter s i hi hp (.inl rfl)) (hs _)
      | entered c => exact .inl ⟨c, rfl⟩
      | opened => rw [hp] at ok; exact ok.elim
      | error => exact .inr rfl
    by_cases herr : f.exist = true ∧ f.isHdf5 = false ∧ truncates mode = false
    · obtain ⟨h1, h2, h3⟩ := herr
      have hw : wanted f (truncates mode) = none := by
        rw [h3]
        cases f with
        | absent => cases h1
        | hdf5 c => cases h2
        | other c => rfl
      unfold Done
      rw [hw]
      refine ⟨?_, fun i hi => ?_⟩
      · rcases m.file with h | ⟨_, _, h, _⟩
        · exact h
        · rw [h3] at h; cases h
      · rcases cases' i hi with ⟨c, h⟩ | h
        · have ok := m.ok i hi
          rw [h] at ok
          have := (ok.2.1 h1 h2).1
          rw [h3] at this; cases this
        · exact h
    · have hall : ∀ i < N, s.ph i = .entered (theCall f (truncates mode)) := by
        intro i hi
        have ok := m.ok i hi
        rcases cases' i hi with ⟨c, h⟩ | h
        · rw [h] at ok ⊢; rw [ok.1]
        · rw [h] at ok; exact absurd ⟨ok.1, ok.2.1, ok.2.2.1⟩ herr
      cases hc : (theCall f (truncates mode)).effect s.file with
      | some g => exact absurd (Step.all s _ g hN hall rfl hc) (hs _)
      | none => exact absurd (Step.allFail s _ hN hall rfl hc) (hs _)
  · exact m

/-- how many steps a node still has -/
def Phase.rank : Phase → Nat
  | .start => 5
  | .known _ => 4
  | .tested _ => 3
  | .removed => 2
  | .entered _ => 1
  | .opened => 0
  | .error => 0

def weight (N : Nat) (s : State) : Nat := ∑ i ∈ Finset.range N, (s.ph i).rank

theorem weight_set {N : Nat} (s : State) (i : Nat) (hi : i < N) (p : Phase) (h : p.rank < (s.ph i).rank) : weight N (s.set i p) < weight N s := by
  refine Finset.sum_lt_sum (fun j _ => ?_) ⟨i, Finset.mem_range.2 hi, ?_⟩
  · simp only [State.set]; split
    · rename_i hj; subst hj; exact h.le
    · exact le_rfl
  · simp [State.set, h]

theorem weight_all {N : Nat} (s t : State) (hN : 0 < N) (h1 : ∀ i < N, ∃ c, s.ph i = .entered c) (h2 : ∀ i < N, (t.ph i).rank = 0) : weight N t < weight N s := by
  refine Finset.sum_lt_sum (fun j hj => ?_) ⟨0, Finset.mem_range.2 hN, ?_⟩
  · rw [h2 j (Finset.mem_range.1 hj)]; exact Nat.zero_le _
  · obtain ⟨c, hc⟩ := h1 0 hN
    rw [h2 0 hN, hc]; simp [Phase.rank]

theorem step_weight {N mode : Nat} {late : Bool} {s t : State} (hs : Step N late mode s t) : weight N t < weight N s := by
  cases hs with
  | look h0 hN => exact weight_set s 0 hN (.known s.file.exist) (by rw [h0]; simp [Phase.rank])
  | hear i e hi h0 hp he => exact weight_set s i hi _ (by rw [hp]; simp [Phase.rank])
  | test i hi hp => exact weight_set s i hi _ (by rw [hp]; simp [Phase.rank])
  | new i hi hp => exact weight_set s i hi _ (by rw [hp]; simp [Phase.rank])
  | old i hi hp => exact weight_set s i hi _ (by rw [hp]; simp [Phase.rank])
  | remove i hi hp ht => exact weight_set s i hi .removed (by rw [hp]; simp [Phase.rank])
  | enter i hi hp hl => exact weight_set s i hi _ (by rw [hp]; simp [Phase.rank])
  | enterEarly f' hN hp hl => exact weight_set s 0 hN (.entered .createExcl) (by rw [hp]; simp [Phase.rank])
  | refuse i hi hp ht => exact weight_set s i hi _ (by rw [hp]; simp [Phase.rank])
  | all c g hN hp hl he => exact weight_all s _ hN (fun i hi => ⟨c, hp i hi⟩) (fun i hi => by simp [hi, Phase.rank])
  | allFail c hN hp hl he => exact weight_all s _ hN (fun i hi => ⟨c, hp i hi⟩) (fun i hi => by simp [hi, Phase.rank])
  | allEarly c hN hp hl => exact weight_all s _ hN (fun i hi => ⟨c, hp i hi⟩) (fun i hi => by simp [hi, Phase.rank])

/-- `trunc` is bit 1 of the mode -/
theorem truncates_eq (mode : Nat) : truncates mode = mode.testBit 1 := by
  unfold truncates
  cases h : mode.testBit 1 with
  | true =>
    have : (mode &&& 2).testBit 1 = true := by rw [Nat.testBit_and, h]; rfl
    cases e : (mode &&& 2 != 0) with
    | true => rfl
    | false => rw [bne_eq_false_iff_eq.1 e] at this; simp at this
  | false =>
    have : mode &&& 2 = 0 := by
      apply Nat.eq_of_testBit_eq
      intro i
      rw [Nat.testBit_and, show (2 : Nat) = 2 ^ 1 from rfl, Nat.testBit_two_pow]
      by_cases hi : 1 = i
      · subst hi; simp [h]
      · simp [hi]
    rw [this]; rfl

/-- C116. If the library makes the file when all nodes have called it: for any number of nodes, any file that was there, any mode and any order of the steps of the nodes, the steps come to
an end, and then the file is what `open` is to make of it and every node has it open, or every node reports the error and the file is untouched. -/
theorem C116_open_partial (N mode : Nat) (hN : 0 < N) (f : File) : (∀ s t, Step N true mode s t → weight N t < weight N s) ∧
    ∀ s, Run N true mode (init f) s → (∀ t, ¬ Step N true mode s t) → Done N f (mode.testBit 1) s :=
  ⟨fun _ _ => step_weight, fun _ hr hs => truncates_eq mode ▸ stuck_done hN (run_inv hr) hs⟩

/-- C116. No node reports an error, at any time, unless the file exists, is not an HDF5 file and is not to be truncated. -/
theorem C116_error (N mode : Nat) (f : File) (s : State) (hr : Run N true mode (init f) s) (i : Nat) (hi : i < N) (he : s.ph i = .error) : wanted f (mode.testBit 1) = none := by
  rw [← truncates_eq]
  rcases run_inv hr with m | ⟨-, m⟩
  · have ok := m.ok i hi
    rw [he] at ok
    obtain ⟨h1, h2, h3, -⟩ := ok
    rw [h3]
    cases f with
    | absent => cases h1
    | hdf5 c => cases h2
    | other c => rfl
  · rw [m i hi] at he; cases he

/-- C116. Without truncation a file that was there keeps its content, at all times. -/
theorem C116_keep (N mode : Nat) (f : File) (hf : f.exist = true) (ht : mode.testBit 1 = false) (s : State) (hr : Run N true mode (init f) s) : s.file = f := by
  rw [← truncates_eq] at ht
  rcases run_inv hr with m | ⟨m, mo⟩
  · rcases m.file with h | ⟨_, _, h, _⟩
    · exact h
    · rw [ht] at h; cases h
  · unfold Done at m
    rw [ht] at m
    cases f with
    | absent => cases hf
    | hdf5 c => exact m.1
    | other c => exact m.1

/-- C116, refutation. If node 0 makes the file as soon as it has called the library, a slow node can remove the new file: a file that is not an HDF5 file is to be overwritten, every node
has it open without an error, and there is no file. -/
theorem C116_remove_refuted (mode : Nat) (ht : mode.testBit 1 = true) (c : List Nat) :
    ∃ s, Run 2 false mode (init (.other c)) s ∧ (∀ i < 2, s.ph i = .opened) ∧ s.file = .absent := by
  rw [← truncates_eq] at ht
  have r0 : Run 2 false mode (init (.other c)) _ := .refl _
  have r1 := r0.tail (.look _ rfl (by decide))
  have r2 := r1.tail (.hear _ 1 true (by decide) (by decide) rfl rfl)
  have r3 := r2.tail (.test _ 0 (by decide) rfl)
  have r4 := r3.tail (.test _ 1 (by decide) rfl)
  have r5 := r4.tail (.remove _ 0 (by decide) rfl ht)
  have r6 := r5.tail (.enterEarly _ (.hdf5 []) (by decide) rfl rfl rfl)
  have r7 := r6.tail (.remove _ 1 (by decide) rfl ht)
  have r8 := r7.tail (.enter _ 1 (by decide) rfl (.inr (by decide)))
  have r9 := r8.tail (.allEarly _ .createExcl (by decide) (by
    intro i hi
    have : i = 0 ∨ i = 1 := by omega
    rcases this with rfl | rfl <;> rfl) rfl)
  exact ⟨_, r9, fun i hi => by simp [hi], rfl⟩

/-! ## witnesses -/
example : truncates 2 = true ∧ truncates 1 = false ∧ truncates 3 = true := by decide
example : wanted (.other [7]) true = some (.hdf5 []) ∧ wanted (.other [7]) false = none ∧ wanted (.hdf5 [7]) false = some (.hdf5 [7]) := by decide
example : Step 2 true 2 (init (.other [7])) { (init (.other [7])).set 0 (.known true) with sent := some true } := .look _ rfl (by decide)
end Verif.Hdf5Open
