import Verif.Basic
import Mathlib.Data.List.Induction
import Mathlib.Tactic.Ring
import Mathlib.Tactic.LinearCombination
/-
The stop watch, lib/qdp_stopwatch.cc.  The clock is an input: each `gettimeofday` gives a reading or fails.  `long` is an unbounded integer
(the sums would need 292000 years to overflow); the conversion to `double` in the last step is exact arithmetic here.
-/
namespace Verif.StopWatch
open Verif Outcome

/-- `struct timeval` -/
structure T where
  sec : Int
  usec : Int

/-- the members of `StopWatch`, include/qdp_stopwatch.h; `none` is an uninitialised time -/
structure Watch where
  sec : Int
  usec : Int
  started : Bool
  stopped : Bool
  state : Bool
  t0 : Option T
  t1 : Option T

/-! ## Model -/

/-- the constructor, lib/qdp_stopwatch.cc:13-20 -/
def create : Watch := ⟨0, 0, false, false, true, none, none⟩

/-- `calcDuration`, lib/qdp_stopwatch.cc:24-56: the two results (`none`: not assigned) and the state -/
def calcDuration (w : Watch) : Outcome (Option (Int × Int) × Bool) :=
  if !w.state then ok (none, w.state)
  else if w.started && w.stopped then
    match w.t0, w.t1 with
    | some s, some t =>
      if t.sec < s.sec then ok (some (0, 0), false)
      else if t.usec < s.usec then ok (some (t.sec - s.sec - 1, 1000000 + (t.usec - s.usec)), w.state)
      else ok (some (t.sec - s.sec, 0 + (t.usec - s.usec)), w.state)
    | _, _ => ub
  else ok (some (0, 0), w.state)

/-- `reset`, lib/qdp_stopwatch.cc:58-65 -/
def reset (w : Watch) : Watch := { w with started := false, stopped := false, sec := 0, usec := 0, state := true }

/-- `start`, lib/qdp_stopwatch.cc:67-81 -/
def start (r : Option T) (w : Watch) : Watch :=
  let w := match r with
    | none => { w with state := false }
    | some t => { w with t0 := some t, state := true }
  { w with started := true, stopped := false }

/-- the reading of the clock in `stop`, lib/qdp_stopwatch.cc:90-98 -/
def read1 (r : Option T) (w : Watch) : Watch :=
  match r with
  | none => { w with state := false, stopped := true }
  | some t => { w with t1 := some t, stopped := true }

/-- `stop`, lib/qdp_stopwatch.cc:83-109; adding values that were never assigned is undefined -/
def stop (r : Option T) (w : Watch) : Outcome Watch :=
  if !w.started then ok w
  else do
    let d ← calcDuration (read1 r w)
    match d.1 with
    | none => ub
    | some (secs, usecs) => ok { read1 r w with state := d.2, usec := w.usec + usecs, sec := w.sec + secs, started := false, stopped := false }

/-- `getTimeInMicroseconds`, lib/qdp_stopwatch.cc:111-114 (exact) -/
def micros (w : Watch) : Int := w.usec + w.sec * 1000000
/-- `getTimeInSeconds`, lib/qdp_stopwatch.cc:116-119 (exact) -/
def seconds (w : Watch) : Rat := (w.sec : Rat) + (w.usec : Rat) / 1000000

/-- a call, with the answer of the clock -/
inductive Ev where
  | reset
  | start (r : Option T)
  | stop (r : Option T)

def step (e : Ev) (w : Watch) : Outcome Watch :=
  match e with
  | .reset => ok (reset w)
  | .start r => ok (start r w)
  | .stop r => stop r w

/-- a history of calls, the first one first -/
def run : List Ev → Watch → Outcome Watch
  | [], w => ok w
  | e :: h, w => do let w ← step e w; run h w

/-! ## Specification -/

/-- a time in microseconds -/
def T.micros (t : T) : Int := t.sec * 1000000 + t.usec

/-- the start that is not yet stopped; histories in reverse order, the last call first -/
def pending : List Ev → Option (Option T)
  | .start r :: _ => some r
  | _ => none

/-- what an interval counts: its length, unless the seconds of the clock went backwards -/
def counted (s t : T) : Int := if t.sec < s.sec then 0 else t.micros - s.micros

/-- the time a stop watch should show, by the last call -/
def shown : List Ev → Int
  | [] => 0
  | .reset :: _ => 0
  | .start _ :: h => shown h
  | .stop r :: h => shown h + match pending h, r with
    | some (some s), some t => counted s t
    | _, _ => 0

/-- no interval begins or ends with a failing clock -/
def Clean : List Ev → Prop
  | [] => True
  | .stop r :: h => Clean h ∧ ∀ q, pending h = some q → q.isSome ∧ r.isSome
  | _ :: h => Clean h

/-! ## Proofs -/

theorem run_append (h : List Ev) (e : Ev) (w : Watch) : run (h ++ [e]) w = (run h w >>= step e) := by
  induction h generalizing w with
  | nil =>
    rw [List.nil_append, run, run, ok_bind]
    cases step e w <;> rfl
  | cons a h ih =>
    rw [List.cons_append, run, run]
    cases step a w with
    | ok w' => rw [ok_bind, ok_bind, ih]
    | abort => rfl
    | ub => rfl

/-- what a watch knows after a history -/
structure Knows (h : List Ev) (w : Watch) : Prop where
  shows : micros w = shown h
  idle : pending h = none → w.started = false
  running : ∀ r, pending h = some r → w.started = true
  time : ∀ t, pending h = some (some t) → w.t0 = some t ∧ w.state = true
  failed : pending h = some none → w.state = false

theorem knows (h : List Ev) : (Clean h → ∃ w, run h.reverse create = ok w ∧ Knows h w) ∧ (¬ Clean h → run h.reverse create = ub) := by
  induction h with
  | nil => exact ⟨fun _ => ⟨create, rfl, rfl, fun _ => rfl, fun _ h => by simp [pending] at h, fun _ h => by simp [pending] at h, fun h => by simp [pending] at h⟩,
      fun h => absurd trivial h⟩
  | cons e h ih =>
    rw [List.reverse_cons, run_append]
    cases e with
    | reset =>
      refine ⟨fun hc => ?_, fun hc => ?_⟩
      · obtain ⟨w, hw, -⟩ := ih.1 hc
        refine ⟨_, by rw [hw, ok_bind]; rfl, ⟨rfl, fun _ => rfl, fun _ h => by simp [pending] at h, fun _ h => by simp [pending] at h, fun h => by simp [pending] at h⟩⟩
      · rw [ih.2 hc]; rfl
    | start r =>
      refine ⟨fun hc => ?_, fun hc => ?_⟩
      · obtain ⟨w, hw, k⟩ := ih.1 hc
        refine ⟨start r w, by rw [hw, ok_bind]; rfl, ?_⟩
        cases r with
        | none => exact ⟨k.shows, fun h => by simp [pending] at h, fun _ _ => rfl, fun _ h => by simp [pending] at h, fun _ => rfl⟩
        | some t =>
          refine ⟨k.shows, fun h => by simp [pending] at h, fun _ _ => rfl, fun t' h => ?_, fun h => by simp [pending] at h⟩
          simp only [pending, Option.some.injEq] at h
          subst h
          exact ⟨rfl, rfl⟩
      · rw [ih.2 hc]; rfl
    | stop r =>
      by_cases hc : Clean h
      · obtain ⟨w, hw, k⟩ := ih.1 hc
        rw [hw, ok_bind]
        show ((Clean h ∧ _) → _) ∧ (¬ (Clean h ∧ _) → stop r w = ub)
        rcases hp : pending h with _ | q
        · have hi := k.idle hp
          refine ⟨fun _ => ⟨w, ?_, ?_⟩, fun hn => absurd ⟨hc, fun q hq => by simp at hq⟩ hn⟩
          · show stop r w = _
            rw [stop, hi]; rfl
          · refine ⟨?_, fun _ => hi, fun _ h => by simp [pending] at h, fun _ h => by simp [pending] at h, fun h => by simp [pending] at h⟩
            simp only [shown, hp, k.shows, Int.add_zero]
        · have hs := k.running q hp
          rcases q with _ | s
          · have hst := k.failed hp
            refine ⟨fun hh => absurd (hh.2 none rfl).1 (by simp), fun _ => ?_⟩
            rw [stop, hs]
            have : calcDuration (read1 r w) = ok (none, (read1 r w).state) := by
              rw [calcDuration]
              have e : (read1 r w).state = false := by cases r <;> simp [read1, hst]
              rw [e]; rfl
            simp [this]
          · obtain ⟨ht, hst⟩ := k.time s hp
            cases r with
            | none =>
              refine ⟨fun hh => absurd (hh.2 _ rfl).2 (by simp), fun _ => ?_⟩
              rw [stop, hs]
              rfl
            | some t =>
              refine ⟨fun _ => ?_, fun hn => absurd ⟨hc, fun q hq => ⟨by rw [Option.some.injEq] at hq; rw [← hq]; rfl, rfl⟩⟩ hn⟩
              have hd : ∃ d st', calcDuration (read1 (some t) w) = ok (some d, st') ∧ d.2 + d.1 * 1000000 = counted s t := by
                rw [calcDuration]
                have e1 : (read1 (some t) w).state = true := hst
                have e2 : (read1 (some t) w).started = true := hs
                have e3 : (read1 (some t) w).t0 = some s := ht
                rw [e1, e2, e3]
                simp only [read1, counted, T.micros, Bool.not_true, Bool.false_eq_true, if_false, Bool.and_self, if_true]
                by_cases c1 : t.sec < s.sec
                · rw [if_pos c1, if_pos c1]
                  exact ⟨_, _, rfl, by simp⟩
                · rw [if_neg c1, if_neg c1]
                  by_cases c2 : t.usec < s.usec
                  · rw [if_pos c2]
                    exact ⟨_, _, rfl, by simp only; omega⟩
                  · rw [if_neg c2]
                    exact ⟨_, _, rfl, by simp only; omega⟩
              obtain ⟨d, st', hd1, hd2⟩ := hd
              refine ⟨{ read1 (some t) w with state := st', usec := w.usec + d.2, sec := w.sec + d.1, started := false, stopped := false }, ?_, ?_⟩
              · show stop (some t) w = _
                rw [stop, hs, hd1]
                rfl
              · refine ⟨?_, fun _ => rfl, fun _ h => by simp [pending] at h, fun _ h => by simp [pending] at h, fun h => by simp [pending] at h⟩
                have ks := k.shows
                rw [micros] at ks
                simp only [shown, hp, micros]
                omega
      · rw [ih.2 hc]
        exact ⟨fun hh => absurd hh.1 hc, fun _ => rfl⟩

/-- **C53, the time shown.**  After any history of calls in which no interval begins or ends with a failing clock, the watch shows the sum of
the counted intervals since the last reset. -/
theorem C53_shown_partial (h : List Ev) (hc : Clean h) : ∃ w, run h.reverse create = ok w ∧ micros w = shown h ∧ seconds w = (shown h : Rat) / 1000000 := by
  obtain ⟨w, hw, k⟩ := (knows h).1 hc
  refine ⟨w, hw, k.shows, ?_⟩
  rw [← k.shows, seconds, micros]
  push_cast
  ring

/-- **C53 fails with a failing clock**: an interval that begins or ends with one makes `stop` add values that were never assigned. -/
theorem C53_clock_failure (h : List Ev) (hc : ¬ Clean h) : run h.reverse create = ub := (knows h).2 hc

/-- proper use: the watch shows the sum of the lengths of the intervals -/
theorem C53_intervals (l : List (T × T)) (hl : ∀ p ∈ l, p.1.sec ≤ p.2.sec) :
    ∃ w, run (l.flatMap (fun p => [.start (some p.1), .stop (some p.2)])) create = ok w ∧ micros w = (l.map (fun p => p.2.micros - p.1.micros)).sum := by
  have key : ∀ l : List (T × T), (∀ p ∈ l, p.1.sec ≤ p.2.sec) → Clean ((l.flatMap (fun p => [Ev.start (some p.1), .stop (some p.2)])).reverse) ∧
      shown ((l.flatMap (fun p => [Ev.start (some p.1), .stop (some p.2)])).reverse) = (l.map (fun p => p.2.micros - p.1.micros)).sum := by
    intro l
    induction l using List.reverseRecOn with
    | nil => exact fun _ => ⟨trivial, rfl⟩
    | append_singleton l p ih =>
      intro hl
      obtain ⟨i1, i2⟩ := ih (fun q hq => hl q (by simp [hq]))
      have hp := hl p (by simp)
      rw [List.flatMap_append, List.reverse_append]
      constructor
      · refine ⟨i1, fun q hq => ?_⟩
        have hq : some (some p.1) = some q := hq
        rw [Option.some.injEq] at hq
        subst hq
        exact ⟨rfl, rfl⟩
      · show shown (l.flatMap (fun p => [Ev.start (some p.1), .stop (some p.2)])).reverse + counted p.1 p.2 = _
        rw [i2, counted, if_neg (by omega), List.map_append, List.sum_append]
        simp
  obtain ⟨w, hw, hs, -⟩ := C53_shown_partial _ (key l hl).1
  rw [List.reverse_reverse] at hw
  exact ⟨w, hw, by rw [hs, (key l hl).2]⟩

/-- each interval is normalised: the microseconds of a measured interval are below one million -/
theorem C53_normalised (w : Watch) (s t : T) (h0 : w.t0 = some s) (h1 : w.t1 = some t) (hs : 0 ≤ s.usec ∧ s.usec < 1000000)
    (ht : 0 ≤ t.usec ∧ t.usec < 1000000) (d : Int × Int) (b : Bool) (h : calcDuration w = ok (some d, b)) : 0 ≤ d.2 ∧ d.2 < 1000000 := by
  rw [calcDuration, h0, h1] at h
  simp only at h
  split at h
  · simp at h
  · split at h
    · split at h
      · injection h with h; injection h with h; injection h with h; subst h; simp
      · split at h
        · injection h with h; injection h with h; injection h with h; subst h; simp only; omega
        · injection h with h; injection h with h; injection h with h; subst h; simp only; omega
    · injection h with h; injection h with h; injection h with h; subst h; simp

/-- **C53, stopping a watch that is not running** changes nothing. -/
theorem C53_stop_idle (w : Watch) (r : Option T) (h : w.started = false) : stop r w = ok w := by
  rw [stop, h]; rfl

/-- **C53 fails for starting twice**: the second start is accepted and the first one forgotten. -/
theorem C53_start_twice (w : Watch) (r : Option T) (t : T) : start (some t) (start r w) = start (some t) w := by
  cases r <;> rfl

/-- **C53 fails for the accumulated microseconds**: they are not normalised (the time shown is right nevertheless). -/
theorem C53_not_normalised (n : Nat) : ∃ w, run ((List.replicate n (⟨0, 0⟩, ⟨0, 999999⟩)).flatMap (fun p : T × T => [.start (some p.1), .stop (some p.2)])) create = ok w ∧
    w.sec = 0 ∧ w.usec = n * 999999 := by
  have key : ∀ (n : Nat) (w : Watch), ∃ w', run ((List.replicate n (⟨0, 0⟩, ⟨0, 999999⟩)).flatMap (fun p : T × T => [.start (some p.1), .stop (some p.2)])) w = ok w' ∧
      w'.sec = w.sec ∧ w'.usec = w.usec + n * 999999 := by
    intro n
    induction n with
    | zero => intro w; exact ⟨w, rfl, rfl, by simp⟩
    | succ n ih =>
      intro w
      obtain ⟨w', h1, h2, h3⟩ := ih { start (some ⟨0, 0⟩) w with t1 := some ⟨0, 999999⟩, usec := w.usec + (0 + (999999 - 0)), sec := w.sec + (0 - 0), started := false, stopped := false }
      refine ⟨w', ?_, ?_, ?_⟩
      · rw [List.replicate_succ, List.flatMap_cons]
        exact h1
      · rw [h2]; simp
      · rw [h3]; push_cast; ring
  obtain ⟨w, h1, h2, h3⟩ := key n create
  exact ⟨w, h1, h2, by rw [h3]; simp [create]⟩

/-- **C53 fails for a clock that goes backwards**: within a second the negative difference is added silently; over a second's boundary the
interval counts nothing and the mark it leaves is removed by the next start. -/
theorem C53_backwards (s t q : T) : (s.sec = t.sec → t.usec < s.usec →
      ∃ w, run [.start (some s), .stop (some t)] create = ok w ∧ micros w < 0 ∧ w.state = true) ∧
    (t.sec < s.sec → ∃ w, run [.start (some s), .stop (some t), .start (some q)] create = ok w ∧ micros w = 0 ∧ w.state = true) := by
  constructor
  · intro h1 h2
    have : run [.start (some s), .stop (some t)] create = ok ⟨0 + (t.sec - s.sec - 1), 0 + (1000000 + (t.usec - s.usec)), false, false, true, some s, some t⟩ := by
      rw [run, step, ok_bind, run, step, stop]
      simp [start, read1, calcDuration, h2, show ¬ t.sec < s.sec by omega, create, run]
    refine ⟨_, this, ?_, rfl⟩
    simp only [micros]
    omega
  · intro h1
    have : run [.start (some s), .stop (some t), .start (some q)] create = ok ⟨0, 0, true, false, true, some q, some t⟩ := by
      rw [run, step, ok_bind, run, step, stop]
      simp [start, read1, calcDuration, h1, create, run, step]
    exact ⟨_, this, rfl, rfl⟩

/-- two intervals, a reset, a stop without start, a restart and one more interval of 1.1 s -/
example : ∃ w, run [.start (some ⟨5, 999999⟩), .stop (some ⟨6, 3⟩), .reset, .stop (some ⟨7, 0⟩), .start (some ⟨7, 0⟩), .start (some ⟨8, 900000⟩),
    .stop (some ⟨10, 0⟩)] create = ok w ∧ micros w = 1100000 ∧
    Clean [.stop (some ⟨10, 0⟩), .start (some ⟨8, 900000⟩), .start (some ⟨7, 0⟩), .stop (some ⟨7, 0⟩), .reset, .stop (some ⟨6, 3⟩), .start (some ⟨5, 999999⟩)] :=
  ⟨_, rfl, rfl, by simp [Clean, pending]⟩

end Verif.StopWatch
