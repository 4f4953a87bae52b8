import Mathlib.Data.List.Perm.Subperm
import Verif.Profile
/-
What the profile shows; see Profile.
-/
namespace Verif.Profile
open Verif Verif.Outcome

theorem walk_chain {n : Key → Option Node} {line : Key → Line} : ∀ (ks : List Key) (p : Option Key) (fuel : Nat), ks.length ≤ fuel → Chain n p ks →
    (∀ k ∈ ks, ∀ nd, n k = some nd → 0 < nd.count ∧ (⟨k, nd.count, nd.time⟩ : Line) = line k) → walk n fuel p = ok (ks.map line) := by
  intro ks
  induction ks with
  | nil => intro p fuel _ h _; rw [show p = none from h]; cases fuel <;> rfl
  | cons k ks ih =>
    intro p fuel hf h hl
    obtain ⟨rfl, nd, h1, h2⟩ := h
    cases fuel with
    | zero => simp at hf
    | succ fuel =>
      obtain ⟨hc, he⟩ := hl k (by simp) nd h1
      simp only [walk, h1]
      rw [ih _ fuel (by simpa using hf) h2 (fun j hj => hl j (by simp [hj]))]
      simp only [ok_bind, hc, if_true, he, List.map_cons]
      rfl

theorem group_length (h : List Ev) (i : Nat) : (group h i).length ≤ (runs h).length :=
  ((group_nodup h i).subperm (fun _ hk => group_runs h i _ hk)).length_le

theorem print_heads {h : List Ev} {s : St} (m : Inv h s) (fuel : Nat) (hf : (runs h).length ≤ fuel) : ∀ (qs : List Head) (o : Nat), (∀ i hd, qs[i]? = some hd → s.queue[o + i]? = some hd) →
    printHeads s.nodes fuel qs =
      ok ((((qs.map (·.info)).zipIdx o).map fun p => (p.1, (group h p.2).map fun k => (⟨k, count h k, total h k⟩ : Line))).filter fun p => p.2 ≠ []) := by
  intro qs
  induction qs with
  | nil => intro o _; rfl
  | cons hd qs ih =>
    intro o hq
    have hi := m.list o hd (by simpa using hq 0 hd (by simp))
    have rest := ih (o + 1) (fun i hd' hi' => by have := hq (i + 1) hd' (by simpa using hi'); rw [← this]; congr 1; omega)
    simp only [printHeads]
    cases hg : group h o with
    | nil =>
      rw [hg] at hi
      have : hd.start = none := hi.1
      rw [this, rest]
      simp [hg]
    | cons k ks =>
      rw [hg] at hi
      have hst : hd.start = some k := hi.1.1
      rw [hst]
      have hw := walk_chain (line := fun k => ⟨k, count h k, total h k⟩) (k :: ks) (some k) fuel (by rw [← hg]; exact Nat.le_trans (group_length h o) hf)
        (by rw [← hst]; exact hi.1) (fun j hj nd hn => by
          obtain ⟨h1, h2⟩ := m.node j nd hn
          have hr : j ∈ runs h := group_runs h o j (by rw [hg]; exact hj)
          exact ⟨by rw [h1]; exact List.count_pos_iff.2 hr, by rw [h1, h2]⟩)
      simp only [hw, rest, ok_bind]
      simp [hg]

/-- C113. After every history that does not abort, the profile shows, for every function entered, the statements whose first execution at positive level came after the entry of
the function and before the next entry of any function, in the order of their first executions, each with the number and the total time of all its executions. The loop over the
linked list ends. -/
theorem C113_report (h : List Ev) (s : St) (hr : run start h = ok s) (fuel : Nat) (hf : (runs h).length ≤ fuel) :
    printProfile s fuel = ok (report h, { s with queue := [] }) := by
  have m := run_inv h [] start s inv_start hr
  rw [List.nil_append] at m
  have := print_heads m fuel hf s.queue 0 (fun i hd hi => by simpa using hi)
  rw [m.info] at this
  simp only [printProfile, this, ok_bind, report]
  rfl

/-- C113. Where a statement is shown: under the function entered last before its first execution, if the level was positive then; and only there, and once. -/
theorem C113_home (h : List Ev) (k : Key) (i : Nat) : (k ∈ group h i ↔ Home h k i) ∧ (group h i).Nodup ∧ (∀ j, k ∈ group h i → k ∈ group h j → i = j) := by
  refine ⟨?_, group_nodup h i, fun j hi hj => group_disjoint h i j k hi hj⟩
  have sub : ∀ (e : Ev), Home h k i → Home (h ++ [e]) k i := by
    rintro e ⟨a, t0, t1, b, rfl, h1, h2, h3⟩
    exact ⟨a, t0, t1, b ++ [e], by simp, h1, h2, h3⟩
  have split : ∀ (h : List Ev) (e : Ev), Home (h ++ [e]) k i → Home h k i ∨ ∃ t0 t1, e = .run k t0 t1 ∧ k ∉ runs h ∧ 0 < levelAfter h ∧ (pushes h).length = i + 1 := by
    rintro h e ⟨a, t0, t1, b, he, h1, h2, h3⟩
    rcases List.eq_nil_or_concat b with rfl | ⟨b', x, rfl⟩
    · have := List.append_inj' he rfl
      obtain ⟨rfl, h4⟩ := this
      simp only [List.cons.injEq, and_true] at h4
      exact .inr ⟨t0, t1, h4, h1, h2, h3⟩
    · have : h ++ [e] = (a ++ .run k t0 t1 :: b') ++ [x] := by rw [he]; simp
      obtain ⟨rfl, -⟩ := List.append_inj' this rfl
      exact .inl ⟨a, t0, t1, b', rfl, h1, h2, h3⟩
  clear sub
  induction h using List.reverseRecOn with
  | nil =>
    simp only [group, groupRev, List.reverse_nil, List.not_mem_nil, false_iff]
    rintro ⟨a, t0, t1, b, he, -⟩; simp at he
  | append_singleton h e ih =>
    have sub : Home h k i → Home (h ++ [e]) k i := by
      rintro ⟨a, t0, t1, b, rfl, h1, h2, h3⟩
      exact ⟨a, t0, t1, b ++ [e], by simp, h1, h2, h3⟩
    have other : (∀ t0 t1, e ≠ .run k t0 t1) → (Home (h ++ [e]) k i ↔ Home h k i) := fun hn =>
      ⟨fun hh => (split h e hh).resolve_right (by rintro ⟨t0, t1, rfl, -⟩; exact hn _ _ rfl), sub⟩
    cases e with
    | push l f => rw [group_snoc_push, other (by simp)]; exact ih
    | pop => rw [group_snoc_pop, other (by simp)]; exact ih
    | set n => rw [group_snoc_set, other (by simp)]; exact ih
    | run j t0 t1 =>
      rw [group_snoc_run]
      by_cases hj : j = k
      · subst hj
        split
        · rename_i hc
          simp only [List.mem_append, List.mem_singleton, or_true, true_iff]
          exact ⟨h, t0, t1, [], rfl, hc⟩
        · rename_i hc
          exact Iff.trans ih ⟨sub, fun hh => (split _ _ hh).resolve_right (by rintro ⟨_, _, -, h1⟩; exact hc h1)⟩
      · rw [other (by simp [hj])]
        split
        · simp only [List.mem_append, List.mem_singleton, Ne.symm hj, or_false]; exact ih
        · exact ih

/-- the two mistakes a program can make: leaving a function without having entered one, and a statement at positive level before any entry -/
def Sound (h : List Ev) : Prop :=
  ∀ a e b, h = a ++ e :: b → (e = .pop → active a [] ≠ []) ∧ (∀ k t0 t1, e = .run k t0 t1 → k ∉ runs a → 0 < levelAfter a → pushes a ≠ [])

theorem step_ok {h : List Ev} {s : St} (m : Inv h s) (e : Ev) :
    ((e = .pop → active h [] ≠ []) ∧ (∀ k t0 t1, e = .run k t0 t1 → k ∉ runs h → 0 < levelAfter h → pushes h ≠ []) → ∃ s', step s e = ok s') ∧
    (¬((e = .pop → active h [] ≠ []) ∧ (∀ k t0 t1, e = .run k t0 t1 → k ∉ runs h → 0 < levelAfter h → pushes h ≠ [])) → step s e = abort) := by
  cases e with
  | push l f => simp [step]
  | set n => simp [step]
  | pop =>
    simp only [step, pop]
    cases hs : s.stack with
    | nil => simp [← m.stack, hs]
    | cons x xs => simp [← m.stack, hs]
  | run k t0 t1 =>
    have key : (k ∉ runs h → 0 < levelAfter h → pushes h ≠ []) → ∃ s1, static s k = ok s1 := by
      intro hp
      unfold static
      cases hn : s.nodes k with
      | some nd => exact ⟨s, rfl⟩
      | none =>
        have hk := (m.none k).1 hn
        simp only [construct]
        by_cases hl : 0 < s.level
        · rw [if_pos hl]
          have hq : s.queue ≠ [] := by
            intro hq
            have := m.info; rw [hq] at this
            exact hp hk (by rw [← m.level]; exact hl) this.symm
          simp only [register]
          rcases List.eq_nil_or_concat s.queue with e | ⟨qs, hd, e⟩
          · exact absurd e hq
          · simp only [List.concat_eq_append] at e
            rw [e]
            simp only [List.getLast?_append, List.getLast?_singleton, Option.some_or]
            obtain ⟨h1, h2⟩ := m.list qs.length hd (by rw [e]; simp)
            cases hst : hd.start with
            | none => exact ⟨_, rfl⟩
            | some a =>
              simp only
              rcases List.eq_nil_or_concat (group h qs.length) with hg | ⟨ks, x, hg⟩
              · rw [hg, hst] at h1; simp [Chain] at h1
              · simp only [List.concat_eq_append] at hg
                have hle : hd.last = some x := by rw [h2, hg]; simp
                rw [hle]
                simp only
                have hx : x ∈ runs h := group_runs h qs.length x (by rw [hg]; simp)
                have hxk : x ≠ k := by rintro rfl; exact hk hx
                have : upd s.nodes k ⟨0, 0, none⟩ x = s.nodes x := by simp [upd, hxk]
                rw [this]
                cases hnx : s.nodes x with
                | none => exact absurd hx ((m.none x).1 hnx)
                | some nd => exact ⟨_, rfl⟩
        · rw [if_neg hl]; exact ⟨_, rfl⟩
    constructor
    · rintro ⟨-, hp⟩
      obtain ⟨s1, h1⟩ := key (hp k t0 t1 rfl)
      simp only [step, exec, h1, ok_bind]
      have mk : Made h k s1 := by
        unfold static at h1
        cases hn : s.nodes k with
        | none => rw [hn] at h1; exact made_new m ((m.none k).1 hn) h1
        | some nd =>
          rw [hn] at h1
          simp only [ok.injEq] at h1
          subst h1
          exact made_old m (by by_contra hc; rw [(m.none k).2 hc] at hn; cases hn)
      cases hn : s1.nodes k with
      | none => exact absurd rfl ((mk.none k).1 hn).2
      | some nd => exact ⟨_, rfl⟩
    · intro hc
      have : k ∉ runs h ∧ 0 < levelAfter h ∧ pushes h = [] := by
        by_contra hcc
        apply hc
        refine ⟨by simp, ?_⟩
        rintro j u0 u1 he hj hl hp
        cases he
        exact hcc ⟨hj, hl, hp⟩
      obtain ⟨h1, h2, h3⟩ := this
      have hn := (m.none k).2 h1
      have hq : s.queue = [] := by
        have := m.info; rw [h3] at this; simpa using this
      rw [← m.level] at h2
      simp only [step, exec, static, hn, construct, if_pos h2, register, hq, List.getLast?_nil]
      rfl

theorem run_snoc (s : St) (h : List Ev) (e : Ev) : run s (h ++ [e]) = (run s h >>= fun s' => step s' e) := by
  induction h generalizing s with
  | nil =>
    simp only [List.nil_append, run, ok_bind]
    cases step s e <;> rfl
  | cons x h ih =>
    simp only [List.cons_append, run]
    cases step s x with
    | ok a => simp only [ok_bind]; exact ih a
    | abort => rfl
    | ub => rfl

/-- C113. A program with a profile is never undefined; it aborts exactly when it leaves a function without having entered one, or executes a new statement at positive level
before it entered any function. -/
theorem C113_runs (h : List Ev) : (Sound h → ∃ s, run start h = ok s) ∧ (¬Sound h → run start h = abort) := by
  induction h using List.reverseRecOn with
  | nil =>
    refine ⟨fun _ => ⟨start, rfl⟩, fun hn => absurd ?_ hn⟩
    intro a e b he; simp at he
  | append_singleton h e ih =>
    have hs : Sound (h ++ [e]) ↔ Sound h ∧ ((e = .pop → active h [] ≠ []) ∧ (∀ k t0 t1, e = .run k t0 t1 → k ∉ runs h → 0 < levelAfter h → pushes h ≠ [])) := by
      constructor
      · intro hh
        refine ⟨fun a x b he => hh a x (b ++ [e]) (by rw [he]; simp), hh h e [] rfl⟩
      · rintro ⟨h1, h2⟩ a x b he
        rcases List.eq_nil_or_concat b with rfl | ⟨b', y, rfl⟩
        · obtain ⟨rfl, h4⟩ := List.append_inj' he rfl
          simp only [List.cons.injEq, and_true] at h4
          subst h4; exact h2
        · have : h ++ [e] = (a ++ x :: b') ++ [y] := by rw [he]; simp
          obtain ⟨rfl, -⟩ := List.append_inj' this rfl
          exact h1 a x b' rfl
    rw [run_snoc, hs]
    by_cases hh : Sound h
    · obtain ⟨s, hr⟩ := ih.1 hh
      have m := run_inv h [] start s inv_start hr
      rw [List.nil_append] at m
      simp only [hr, ok_bind]
      exact ⟨fun h2 => (step_ok m e).1 h2.2, fun h2 => (step_ok m e).2 fun h3 => h2 ⟨hh, h3⟩⟩
    · rw [ih.2 hh]
      exact ⟨fun h2 => absurd h2.1 hh, fun _ => rfl⟩

/-! ## programs -/

/-- the code of functions: statements, changes of the level, calls of functions with `QDP_PUSH_PROFILE(getProfileLevel())` (START_CODE, examples/examples.h:15-16) and with
`QDP_PUSH_PROFILE(level)` -/
inductive Code
  | done
  | stmt (k : Key) (t0 t1 : BitVec 64) (rest : Code)
  | set (n : Int) (rest : Code)
  | call (f : Fn) (body rest : Code)
  | callAt (l : Int) (f : Fn) (body rest : Code)

def go : Code → St → Outcome St
  | .done, s => ok s
  | .stmt k t0 t1 rest, s => do
      let s ← step s (.run k t0 t1)
      go rest s
  | .set n rest, s => do
      let s ← step s (.set n)
      go rest s
  | .call f body rest, s => do
      let s ← step s (.push s.level f)
      let s ← go body s
      let s ← step s .pop
      go rest s
  | .callAt l f body rest, s => do
      let s ← step s (.push l f)
      let s ← go body s
      let s ← step s .pop
      go rest s

theorem exec_stack {s s' : St} {k : Key} {t0 t1 : BitVec 64} (h : exec s k t0 t1 = ok s') : s'.stack = s.stack ∧ s'.level = s.level := by
  simp only [exec, bind_eq_ok] at h
  obtain ⟨s1, h1, h2⟩ := h
  have e1 : s1.stack = s.stack ∧ s1.level = s.level := by
    unfold static at h1
    split at h1
    · simp only [construct] at h1
      split at h1
      · simp only [register] at h1
        split at h1
        · cases h1
        · split at h1
          · cases h1; exact ⟨rfl, rfl⟩
          · split at h1
            · cases h1
            · split at h1
              · cases h1
              · cases h1; exact ⟨rfl, rfl⟩
      · cases h1; exact ⟨rfl, rfl⟩
    · cases h1; exact ⟨rfl, rfl⟩
  split at h2
  · cases h2
  · cases h2; exact e1

theorem go_stack : ∀ (c : Code) (s s' : St), go c s = ok s' → s'.stack = s.stack := by
  intro c
  induction c with
  | done => intro s s' h; simp only [go, ok.injEq] at h; subst h; rfl
  | stmt k t0 t1 rest ih =>
    intro s s' h
    simp only [go, bind_eq_ok] at h
    obtain ⟨s1, h1, h2⟩ := h
    rw [ih _ _ h2, (exec_stack h1).1]
  | set n rest ih =>
    intro s s' h
    simp only [go, step, ok_bind] at h
    rw [ih _ _ h]
  | call f body rest ihb ihr =>
    intro s s' h
    simp only [go, bind_eq_ok] at h
    obtain ⟨s1, h1, s2, h2, s3, h3, h4⟩ := h
    simp only [step, ok.injEq] at h1
    have e2 := ihb _ _ h2
    rw [← h1] at e2
    simp only [push] at e2
    simp only [step, pop, e2, ok.injEq] at h3
    rw [ihr _ _ h4, ← h3]
  | callAt l f body rest ihb ihr =>
    intro s s' h
    simp only [go, bind_eq_ok] at h
    obtain ⟨s1, h1, s2, h2, s3, h3, h4⟩ := h
    simp only [step, ok.injEq] at h1
    have e2 := ihb _ _ h2
    rw [← h1] at e2
    simp only [push] at e2
    simp only [step, pop, e2, ok.injEq] at h3
    rw [ihr _ _ h4, ← h3]

/-- C113. A function that begins with START_CODE() and ends with END_CODE() leaves the level as it was when it was called, whatever it and the functions it calls do to the level. -/
theorem C113_level (f : Fn) (body : Code) (s s' : St) (h : go (.call f body .done) s = ok s') : s'.level = s.level ∧ s'.stack = s.stack := by
  refine ⟨?_, go_stack _ _ _ h⟩
  simp only [go, bind_eq_ok] at h
  obtain ⟨s1, h1, s2, h2, s3, h3, h4⟩ := h
  simp only [step, ok.injEq] at h1 h4
  have e2 := go_stack _ _ _ h2
  rw [← h1] at e2
  simp only [push] at e2
  simp only [step, pop, e2, ok.injEq] at h3
  rw [← h4, ← h3]

/-- C113, refutation. A function that gives its level, QDP_PUSH_PROFILE(l), leaves this level to its caller: `popProfileInfo` sets the level of the function that is left, not that of
the function that is returned to. -/
theorem C113_level_refuted (l : Int) (f : Fn) (body : Code) (s s' : St) (h : go (.callAt l f body .done) s = ok s') : s'.level = l := by
  simp only [go, bind_eq_ok] at h
  obtain ⟨s1, h1, s2, h2, s3, h3, h4⟩ := h
  simp only [step, ok.injEq] at h1 h4
  have e2 := go_stack _ _ _ h2
  rw [← h1] at e2
  simp only [push] at e2
  simp only [step, pop, e2, ok.injEq] at h3
  rw [← h4, ← h3]

/-- no function is entered or left -/
def Plain (b : List Ev) : Prop := ∀ e ∈ b, (∀ l f, e ≠ .push l f) ∧ e ≠ .pop

theorem plain_pushes : ∀ b : List Ev, Plain b → pushes b = [] := by
  intro b
  induction b with
  | nil => intro _; rfl
  | cons e b ih =>
    intro h
    have h1 := h e (by simp)
    have h2 := ih fun x hx => h x (by simp [hx])
    cases e with
    | push l f => exact absurd rfl (h1.1 l f)
    | pop => exact absurd rfl h1.2
    | set n => exact h2
    | run k t0 t1 => exact h2

theorem plain_active : ∀ (b : List Ev) (st : List (Int × Fn)), Plain b → active b st = st := by
  intro b
  induction b with
  | nil => intro _ _; rfl
  | cons e b ih =>
    intro st h
    have h1 := h e (by simp)
    have h2 := ih st fun x hx => h x (by simp [hx])
    cases e with
    | push l f => exact absurd rfl (h1.1 l f)
    | pop => exact absurd rfl h1.2
    | set n => exact h2
    | run k t0 t1 => exact h2

/-- C113, partial. A statement first executed at positive level in a function that has not yet called another one with a profile is shown under this function.
Missing: statements first executed after such a call, see `C113_home_refuted`; at level zero, see `C113_late_refuted`. -/
theorem C113_home_partial (a b c : List Ev) (l : Int) (f : Fn) (k : Key) (t0 t1 : BitVec 64) (hb : Plain b) (hk : k ∉ runs (a ++ .push l f :: b))
    (hl : 0 < levelAfter (a ++ .push l f :: b)) :
    (active (a ++ .push l f :: b) []).head? = some (l, f) ∧
    k ∈ group (a ++ .push l f :: b ++ .run k t0 t1 :: c) (pushes a).length ∧
    (pushes (a ++ .push l f :: b ++ .run k t0 t1 :: c))[(pushes a).length]? = some f := by
  refine ⟨?_, ?_, ?_⟩
  · rw [active_append]; simp only [active]; rw [plain_active b _ hb]; rfl
  · rw [(C113_home _ _ _).1]
    exact ⟨_, t0, t1, c, rfl, hk, hl, by rw [pushes_append]; simp [pushes, plain_pushes b hb]⟩
  · rw [pushes_append, pushes_append]; simp [pushes]

/-- C113, refutation. `main` calls a function 1 and executes statement 20 after its return: the statement is shown under function 1, and `main` not at all. -/
theorem C113_home_refuted : ∃ h s, run start h = ok s ∧ h = [.push 1 0, .push 1 1, .run 10 0 5, .pop, .run 20 5 9] ∧
    (active [.push 1 0, .push 1 1, .run 10 0 5, .pop] []).head? = some (1, 0) ∧ printProfile s 2 = ok ([(1, [⟨10, 1, 5⟩, ⟨20, 1, 4⟩])], { s with queue := [] }) := by
  obtain ⟨s, hs⟩ : ∃ s, run start [.push 1 0, .push 1 1, .run 10 0 5, .pop, .run 20 5 9] = ok s := ⟨_, rfl⟩
  exact ⟨_, s, hs, rfl, rfl, by rw [C113_report _ s hs 2 (by decide)]; rfl⟩

theorem late_runs (k : Key) (f : Fn) (n : Nat) : runs ([.push 0 f, .run k 0 0, .set 1] ++ List.replicate n (.run k 0 1)) = List.replicate (n + 1) k := by
  rw [runs_append, List.replicate_succ]
  simp only [runs, List.cons_append, List.nil_append]
  congr 1
  induction n with
  | zero => rfl
  | succ n ih => rw [List.replicate_succ, List.replicate_succ]; simp only [runs]; rw [ih]

/-- C113, refutation. A statement first executed at level zero is never shown, however often it is executed later at positive level. -/
theorem C113_late_refuted (k : Key) (f : Fn) (n : Nat) : ∃ s, run start ([.push 0 f, .run k 0 0, .set 1] ++ List.replicate n (.run k 0 1)) = ok s ∧
    0 < s.level ∧ printProfile s (n + 1) = ok ([], { s with queue := [] }) := by
  have hS : ∃ s, run start ([.push 0 f, .run k 0 0, .set 1] ++ List.replicate n (.run k 0 1)) = ok s := by
    refine (C113_runs _).1 ?_
    intro a e b he
    have hmem : ∀ x ∈ ([.push 0 f, .run k 0 0, .set 1] ++ List.replicate n (.run k 0 1) : List Ev), x ≠ .pop := by
      intro x hx
      rcases List.mem_append.1 hx with hx | hx
      · simp only [List.mem_cons, List.not_mem_nil, or_false] at hx; rcases hx with rfl | rfl | rfl <;> simp
      · rw [List.eq_of_mem_replicate hx]; simp
    refine ⟨fun hp => absurd hp (hmem e (by rw [he]; simp)), ?_⟩
    intro j t0 t1 hj _ _ hp
    cases a with
    | nil => simp only [List.cons_append, List.nil_append, List.cons.injEq] at he; rw [← he.1] at hj; cases hj
    | cons x a =>
      simp only [List.cons_append, List.nil_append, List.cons.injEq] at he
      rw [← he.1] at hp
      simp [pushes] at hp
  obtain ⟨s, hs⟩ := hS
  have m := run_inv _ [] start s inv_start hs
  rw [List.nil_append] at m
  have hlev : ∀ n, levelAfter ([.push 0 f, .run k 0 0, .set 1] ++ List.replicate n (.run k 0 1)) = 1 := by
    intro n
    induction n with
    | zero => rfl
    | succ n ih => rw [List.replicate_succ', ← List.append_assoc, level_snoc_run]; exact ih
  refine ⟨s, hs, by rw [m.level, hlev]; decide, ?_⟩
  rw [C113_report _ s hs (n + 1) (by rw [late_runs]; simp)]
  congr 2
  have hp : pushes ([.push 0 f, .run k 0 0, .set 1] ++ List.replicate n (.run k 0 1)) = [f] := by
    rw [pushes_append]
    have : pushes (List.replicate n (.run k 0 1)) = [] := by
      induction n with
      | zero => rfl
      | succ n ih => rw [List.replicate_succ]; simp only [pushes]; exact plain_pushes _ (fun e he => by rw [List.eq_of_mem_replicate he]; simp)
    rw [this]; rfl
  have hg : ∀ n, group ([.push 0 f, .run k 0 0, .set 1] ++ List.replicate n (.run k 0 1)) 0 = [] := by
    intro n
    induction n with
    | zero => simp [group, groupRev, runs, levelRev]
    | succ n ih =>
      rw [List.replicate_succ', ← List.append_assoc, group_snoc_run, if_neg, ih]
      rw [late_runs]; simp
  unfold report; rw [hp]; simp only [List.zipIdx_cons, List.zipIdx_nil, List.map_cons, List.map_nil, hg]; rfl

/-- C113, refutation. Two statements of the same types are one: executed in functions 1 and 2 they are shown under function 1 as one statement executed twice, and function 2 not at
all. -/
theorem C113_types_refuted : ∃ s, run start [.push 1 0, .push 1 1, .run 10 0 5, .pop, .push 1 2, .run 10 5 12, .pop] = ok s ∧
    printProfile s 2 = ok ([(1, [⟨10, 2, 12⟩])], { s with queue := [] }) := by
  obtain ⟨s, hs⟩ : ∃ s, run start [.push 1 0, .push 1 1, .run 10 0 5, .pop, .push 1 2, .run 10 5 12, .pop] = ok s := ⟨_, rfl⟩
  exact ⟨s, hs, by rw [C113_report _ s hs 2 (by decide)]; rfl⟩

/-- C113, refutation. After the profile is printed a new statement at positive level aborts the program; what was registered before is not printed again. -/
theorem C113_after_print_refuted (h : List Ev) (s : St) (hr : run start h = ok s) (hl : 0 < levelAfter h) (k : Key) (hk : k ∉ runs h) (t0 t1 : BitVec 64) :
    ∃ out s', printProfile s (runs h).length = ok (out, s') ∧ step s' (.run k t0 t1) = abort ∧ printProfile s' (runs h).length = ok ([], s') := by
  have m := run_inv h [] start s inv_start hr
  rw [List.nil_append] at m
  refine ⟨_, _, C113_report h s hr _ (Nat.le_refl _), ?_, rfl⟩
  have hn := (m.none k).2 hk
  rw [← m.level] at hl
  simp only [step, exec, static, hn, construct, if_pos hl, register, List.getLast?_nil]
  rfl

/-- C113, refutation. Times of 2^31 microseconds, 36 minutes, are shown as negative numbers; smaller ones as they are. -/
theorem C113_time_refuted : (∀ t : BitVec 64, t.toNat < 2 ^ 31 → shown t = t.toNat) ∧ (∀ t : BitVec 64, 2 ^ 31 ≤ t.toNat → t.toNat < 2 ^ 32 → shown t < 0) := by
  have e : ∀ t : BitVec 64, t.toNat < 2 ^ 32 → (t.truncate 32).toNat = t.toNat := by
    intro t ht; simp only [BitVec.truncate_eq_setWidth, BitVec.toNat_setWidth]; exact Nat.mod_eq_of_lt ht
  constructor
  · intro t ht
    unfold shown
    rw [BitVec.toInt_eq_toNat_cond, e t (by omega)]
    split <;> omega
  · intro t h1 h2
    unfold shown
    rw [BitVec.toInt_eq_toNat_cond, e t h2]
    split <;> omega

/-! ## witnesses -/
example : Sound [.push 1 0, .run 10 0 5, .push 1 1, .run 20 5 9, .run 10 9 10, .pop, .pop] := by
  by_contra hc
  have := (C113_runs _).2 hc
  cases this
example : report [.push 1 0, .run 10 0 5, .run 30 0 2, .push 1 1, .run 20 5 9, .run 10 9 10, .pop, .pop] = [(0, [⟨10, 2, 6⟩, ⟨30, 1, 2⟩]), (1, [⟨20, 1, 4⟩])] := by decide
example : ∃ s, go (.call 1 (.set 7 (.stmt 10 0 5 .done)) .done) (push start 1 0) = ok s ∧ s.level = 1 := ⟨_, rfl, rfl⟩
example : ∃ s, go (.callAt 2 1 (.stmt 10 0 5 .done) .done) (push start 0 0) = ok s ∧ s.level = 2 := ⟨_, rfl, rfl⟩
end Verif.Profile
