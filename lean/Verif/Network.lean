import Mathlib.Logic.Function.Basic
import Verif.Basic
/-
Nodes that exchange messages: the calls of QMP used by `sendToPrimaryNode`, `sendToWait`, `recvFromWait` and `broadcast`.

A node runs a process: it ends, stops on undefined behaviour, or performs one of the operations below.  The operations of different nodes interleave in any order.
Messages between two nodes arrive in the order in which they were sent (QMP's channels are ordered).  How far a call waits for other nodes is left open: `Net` says
how many messages fit in a channel, how many may still be under way when the wait for a send returns, and how many broadcasts and sums a node may be ahead of
another when its own returns.  Every choice between no waiting and a full rendezvous is an instance.
-/
namespace Verif.Network
open Verif

/-- what a node does next: ends with a result; has left the defined behaviour; `QMP_start` of a send, lib/qdp_parscalar_specific.cc:327-331; `QMP_wait` for
a send, lib/qdp_parscalar_specific.cc:333; a receive with its wait, lib/qdp_parscalar_specific.cc:350-356; the beginning and the end of `QMP_broadcast`,
include/qdp_parscalar_specific.h:222-226; the beginning and the end of a global sum, include/qdp_parscalar_specific.h:67-84 (what the sum does with the numbers of
the nodes is left to the caller) -/
inductive Proc (V R : Type)
  | done (r : R)
  | stop
  | send (dst : Nat) (v : V) (k : Proc V R)
  | wait (dst : Nat) (k : Proc V R)
  | recv (src : Nat) (k : V → Proc V R)
  | bcast (v : V) (k : V → Proc V R)
  | leave (k : V → Proc V R)
  | reduce (v : V) (k : List V → Proc V R)
  | total (k : List V → Proc V R)

/-- how the network waits: room for a further message in a channel that holds `n`; return from the wait for a send while `n` messages are under way; return
from a broadcast or a sum while another node is `n` of them behind -/
structure Net where
  room : Nat → Prop
  sent : Nat → Prop
  sync : Nat → Prop
  room_le : ∀ {m n}, m ≤ n → room n → room m
  sent_le : ∀ {m n}, m ≤ n → sent n → sent m
  sync_le : ∀ {m n}, m ≤ n → sync n → sync m
  room_zero : room 0
  sent_zero : sent 0
  sync_zero : sync 0

/-- state of the machine: the processes, the channels (from, to), and for every node what it has contributed to the broadcasts and sums it has begun -/
structure State (V R : Type) where
  proc : Nat → Proc V R
  queue : Nat × Nat → List V
  log : Nat → List V

/-- one step of node `i` of `N`.  The root of a broadcast is node 0. -/
def Step {V R : Type} (net : Net) (N : Nat) (i : Nat) (s t : State V R) : Prop :=
  i < N ∧
  match s.proc i with
  | .done _ => False
  | .stop => False
  | .send d v k => net.room (s.queue (i, d)).length ∧
      t = { s with proc := Function.update s.proc i k, queue := Function.update s.queue (i, d) (s.queue (i, d) ++ [v]) }
  | .wait d k => net.sent (s.queue (i, d)).length ∧ t = { s with proc := Function.update s.proc i k }
  | .recv src k => ∃ v q, s.queue (src, i) = v :: q ∧
      t = { s with proc := Function.update s.proc i (k v), queue := Function.update s.queue (src, i) q }
  | .bcast v k => t = { s with proc := Function.update s.proc i (.leave k), log := Function.update s.log i (s.log i ++ [v]) }
  | .leave k => ∃ v, (s.log 0)[(s.log i).length - 1]? = some v ∧ 0 < (s.log i).length ∧
      (∀ m, m < N → net.sync ((s.log i).length - (s.log m).length)) ∧ t = { s with proc := Function.update s.proc i (k v) }
  | .reduce v k => t = { s with proc := Function.update s.proc i (.total k), log := Function.update s.log i (s.log i ++ [v]) }
  | .total k => ∃ vs : List V, vs.length = N ∧ 0 < (s.log i).length ∧
      (∀ m, m < N → ∃ v, vs[m]? = some v ∧ (s.log m)[(s.log i).length - 1]? = some v) ∧
      (∀ m, m < N → net.sync ((s.log i).length - (s.log m).length)) ∧ t = { s with proc := Function.update s.proc i (k vs) }

/-- `m` steps -/
inductive Run {V R : Type} (net : Net) (N : Nat) : Nat → State V R → State V R → Prop
  | refl (s) : Run net N 0 s s
  | step {m i s t u} : Step net N i s t → Run net N m t u → Run net N (m + 1) s u

theorem Run.trans {V R : Type} {net : Net} {N : Nat} : ∀ {m n : Nat} {s t u : State V R}, Run net N m s t → Run net N n t u →
    Run net N (m + n) s u := by
  intro m n s t u h h'
  induction h with
  | refl s => simpa using h'
  | step hs _ ih => have := Run.step hs (ih h'); rwa [show ∀ a b : Nat, a + 1 + b = a + b + 1 from by omega]

/-- no node can move -/
def Final {V R : Type} (net : Net) (N : Nat) (s : State V R) : Prop := ∀ i t, ¬ Step net N i s t

theorem list_ext_get {V : Type} {N : Nat} {a b : List V} (ha : a.length = N) (hb : b.length = N)
    (h : ∀ m : Nat, m < N → ∃ v, a[m]? = some v ∧ b[m]? = some v) : a = b := by
  apply List.ext_getElem?
  intro m
  by_cases hm : m < N
  · obtain ⟨v, h1, h2⟩ := h m hm; rw [h1, h2]
  · rw [List.getElem?_eq_none (by omega), List.getElem?_eq_none (by omega)]

theorem step_det {V R : Type} {net : Net} {N i : Nat} {s a b : State V R} (ha : Step net N i s a) (hb : Step net N i s b) : a = b := by
  unfold Step at ha hb
  obtain ⟨-, ha⟩ := ha
  obtain ⟨-, hb⟩ := hb
  cases hp : s.proc i with
  | done r => rw [hp] at ha; exact ha.elim
  | stop => rw [hp] at ha; exact ha.elim
  | send d v k => rw [hp] at ha hb; exact ha.2.trans hb.2.symm
  | wait d k => rw [hp] at ha hb; exact ha.2.trans hb.2.symm
  | recv src k =>
    rw [hp] at ha hb
    obtain ⟨v, q, e, rfl⟩ := ha
    obtain ⟨v', q', e', rfl⟩ := hb
    rw [e] at e'; cases e'; rfl
  | bcast v k => rw [hp] at ha hb; exact Eq.trans ha hb.symm
  | leave k =>
    rw [hp] at ha hb
    obtain ⟨v, e, -, -, rfl⟩ := ha
    obtain ⟨v', e', -, -, rfl⟩ := hb
    rw [e] at e'; cases e'; rfl
  | reduce v k => rw [hp] at ha hb; exact Eq.trans ha hb.symm
  | total k =>
    rw [hp] at ha hb
    obtain ⟨v, l, -, e, -, rfl⟩ := ha
    obtain ⟨v', l', -, e', -, rfl⟩ := hb
    have : v = v' := list_ext_get l l' fun m hm => by
      obtain ⟨x, h1, h2⟩ := e m hm
      obtain ⟨y, h3, h4⟩ := e' m hm
      rw [h2] at h4; cases h4
      exact ⟨x, h1, h3⟩
    rw [this]

/-- what a step does beside moving the process: nothing, put a message in a channel, take one from a channel, contribute to a broadcast or a sum -/
inductive Act (V : Type)
  | tau
  | put (d : Nat) (v : V)
  | take (src : Nat) (v : V)
  | post (v : V)

/-- the step of node `i` to the process `p` -/
def eff {V R : Type} (i : Nat) (p : Proc V R) : Act V → State V R → State V R
  | .tau, s => { s with proc := Function.update s.proc i p }
  | .put d v, s => { s with proc := Function.update s.proc i p, queue := Function.update s.queue (i, d) (s.queue (i, d) ++ [v]) }
  | .take src _, s => { s with proc := Function.update s.proc i p, queue := Function.update s.queue (src, i) (s.queue (src, i)).tail }
  | .post v, s => { s with proc := Function.update s.proc i p, log := Function.update s.log i (s.log i ++ [v]) }

/-- a message taken was there -/
def Ok {V R : Type} (i : Nat) (s : State V R) : Act V → Prop
  | .take src v => ∃ q, s.queue (src, i) = v :: q
  | _ => True

/-- seen from node `i`, other nodes have gone on from `s` to `u` -/
structure Ahead {V R : Type} (i : Nat) (s u : State V R) : Prop where
  proc : u.proc i = s.proc i
  out : ∀ d, (u.queue (i, d)).length ≤ (s.queue (i, d)).length
  inn : ∀ src v q, s.queue (src, i) = v :: q → ∃ q', u.queue (src, i) = v :: q'
  own : u.log i = s.log i
  log : ∀ (m j : Nat) (v : V), (s.log m)[j]? = some v → (u.log m)[j]? = some v
  len : ∀ m, (s.log m).length ≤ (u.log m).length

/-- a step stays possible when others go on, and does the same -/
theorem step_stable {V R : Type} {net : Net} {N i : Nat} {s t : State V R} (h : Step net N i s t) :
    ∃ p a, t = eff i p a s ∧ Ok i s a ∧ ∀ u, Ahead i s u → Step net N i u (eff i p a u) := by
  unfold Step at h
  obtain ⟨hi, h⟩ := h
  cases hp : s.proc i with
  | done r => rw [hp] at h; exact h.elim
  | stop => rw [hp] at h; exact h.elim
  | send d v k =>
    rw [hp] at h; obtain ⟨hr, rfl⟩ := h
    refine ⟨k, .put d v, rfl, trivial, fun u hu => ⟨hi, ?_⟩⟩
    rw [hu.proc, hp]
    exact ⟨net.room_le (hu.out d) hr, rfl⟩
  | wait d k =>
    rw [hp] at h; obtain ⟨hr, rfl⟩ := h
    refine ⟨k, .tau, rfl, trivial, fun u hu => ⟨hi, ?_⟩⟩
    rw [hu.proc, hp]
    exact ⟨net.sent_le (hu.out d) hr, rfl⟩
  | recv src k =>
    rw [hp] at h; obtain ⟨v, q, e, rfl⟩ := h
    refine ⟨k v, .take src v, by simp [eff, e], ⟨q, e⟩, fun u hu => ⟨hi, ?_⟩⟩
    obtain ⟨q', e'⟩ := hu.inn src v q e
    rw [hu.proc, hp]
    exact ⟨v, q', e', by simp [eff, e']⟩
  | bcast v k =>
    rw [hp] at h; subst h
    refine ⟨.leave k, .post v, rfl, trivial, fun u hu => ⟨hi, ?_⟩⟩
    rw [hu.proc, hp]; rfl
  | leave k =>
    rw [hp] at h; obtain ⟨v, e, h0, hs, rfl⟩ := h
    refine ⟨k v, .tau, rfl, trivial, fun u hu => ⟨hi, ?_⟩⟩
    rw [hu.proc, hp]
    refine ⟨v, ?_, ?_, ?_, rfl⟩
    · rw [hu.own]; exact hu.log _ _ _ e
    · rw [hu.own]; exact h0
    · intro m hm; rw [hu.own]; exact net.sync_le (Nat.sub_le_sub_left (hu.len m) _) (hs m hm)
  | reduce v k =>
    rw [hp] at h; subst h
    refine ⟨.total k, .post v, rfl, trivial, fun u hu => ⟨hi, ?_⟩⟩
    rw [hu.proc, hp]; rfl
  | total k =>
    rw [hp] at h; obtain ⟨vs, hl, h0, he, hs, rfl⟩ := h
    refine ⟨k vs, .tau, rfl, trivial, fun u hu => ⟨hi, ?_⟩⟩
    rw [hu.proc, hp]
    refine ⟨vs, hl, ?_, ?_, ?_, rfl⟩
    · rw [hu.own]; exact h0
    · intro m hm
      obtain ⟨v, e1, e2⟩ := he m hm
      exact ⟨v, e1, by rw [hu.own]; exact hu.log _ _ _ e2⟩
    · intro m hm; rw [hu.own]; exact net.sync_le (Nat.sub_le_sub_left (hu.len m) _) (hs m hm)

/-- the step of one node is progress for the others -/
theorem eff_ahead {V R : Type} {i j : Nat} (hij : i ≠ j) {s : State V R} {p : Proc V R} {a : Act V} : Ahead i s (eff j p a s) := by
  have hji : j ≠ i := Ne.symm hij
  cases a with
  | tau =>
    exact ⟨by simp [eff, Function.update_of_ne hij], fun _ => Nat.le_refl _, fun _ _ q e => ⟨q, e⟩, rfl, fun _ _ _ e => e, fun _ => Nat.le_refl _⟩
  | put d v =>
    refine ⟨by simp [eff, Function.update_of_ne hij], fun d' => ?_, fun src w q e => ?_, rfl, fun _ _ _ e => e, fun _ => Nat.le_refl _⟩
    · simp [eff, Function.update_of_ne (show (i, d') ≠ (j, d) by simp [hij])]
    · by_cases hq : (src, i) = (j, d)
      · refine ⟨q ++ [v], ?_⟩
        simp only [eff]; rw [hq, Function.update_self, ← hq, e]; rfl
      · exact ⟨q, by simpa [eff, Function.update_of_ne hq] using e⟩
  | take src v =>
    refine ⟨by simp [eff, Function.update_of_ne hij], fun d' => ?_, fun src' w q e => ?_, rfl, fun _ _ _ e => e, fun _ => Nat.le_refl _⟩
    · by_cases hq : (i, d') = (src, j)
      · simp only [eff]; rw [hq, Function.update_self, List.length_tail]; omega
      · simp [eff, Function.update_of_ne hq]
    · exact ⟨q, by simpa [eff, Function.update_of_ne (show (src', i) ≠ (src, j) by simp [hij])] using e⟩
  | post v =>
    refine ⟨by simp [eff, Function.update_of_ne hij], fun _ => Nat.le_refl _, fun _ _ q e => ⟨q, e⟩, by simp [eff, Function.update_of_ne hij],
      fun m l w e => ?_, fun m => ?_⟩
    · by_cases hm : m = j
      · subst hm
        have hl : l < (s.log m).length := by
          by_contra hc
          rw [List.getElem?_eq_none (by omega)] at e; cases e
        simp only [eff, Function.update_self]
        rw [List.getElem?_append_left hl]; exact e
      · simpa [eff, Function.update_of_ne hm] using e
    · by_cases hm : m = j
      · subst hm; simp [eff]
      · simp [eff, Function.update_of_ne hm]

theorem upd_comm {α β : Type} [DecidableEq α] (f : α → β) {a b : α} (h : a ≠ b) (x y : β) :
    Function.update (Function.update f a x) b y = Function.update (Function.update f b y) a x := Function.update_comm h x y f

theorem eff_comm {V R : Type} {i j : Nat} (hij : i ≠ j) {s : State V R} {p q : Proc V R} {a b : Act V} (ha : Ok i s a) (hb : Ok j s b) :
    eff j q b (eff i p a s) = eff i p a (eff j q b s) := by
  have hji : j ≠ i := Ne.symm hij
  cases a with
  | tau => cases b <;> simp [eff, upd_comm _ hij]
  | put d v =>
    cases b with
    | tau => simp [eff, upd_comm _ hij]
    | put d' v' =>
      have h1 : (i, d) ≠ (j, d') := by simp [hij]
      simp [eff, upd_comm _ hij, upd_comm _ h1, Function.update_of_ne h1, Function.update_of_ne h1.symm]
    | take src w =>
      obtain ⟨l, e⟩ := hb
      by_cases hq : (i, d) = (src, j)
      · obtain ⟨rfl, rfl⟩ : i = src ∧ d = j := by simpa using hq
        simp [eff, upd_comm _ hij, e]
      · simp [eff, upd_comm _ hij, upd_comm _ hq, Function.update_of_ne hq, Function.update_of_ne (Ne.symm hq)]
    | post w => simp [eff, upd_comm _ hij]
  | take src v =>
    obtain ⟨l, e⟩ := ha
    cases b with
    | tau => simp [eff, upd_comm _ hij]
    | put d' v' =>
      by_cases hq : (j, d') = (src, i)
      · obtain ⟨rfl, rfl⟩ : j = src ∧ d' = i := by simpa using hq
        simp [eff, upd_comm _ hij, e]
      · simp [eff, upd_comm _ hij, upd_comm _ hq, Function.update_of_ne hq, Function.update_of_ne (Ne.symm hq)]
    | take src' w =>
      have h1 : (src, i) ≠ (src', j) := by simp [hij]
      simp [eff, upd_comm _ hij, upd_comm _ h1, Function.update_of_ne h1, Function.update_of_ne h1.symm]
    | post w => simp [eff, upd_comm _ hij]
  | post v =>
    cases b with
    | tau => simp [eff, upd_comm _ hij]
    | put d' v' => simp [eff, upd_comm _ hij]
    | take src w => simp [eff, upd_comm _ hij]
    | post w => simp [eff, upd_comm _ hij, Function.update_of_ne hij, Function.update_of_ne hji]

/-- steps of different nodes commute -/
theorem step_comm {V R : Type} {net : Net} {N i j : Nat} {s a b : State V R} (hij : i ≠ j) (ha : Step net N i s a) (hb : Step net N j s b) :
    ∃ t, Step net N j a t ∧ Step net N i b t := by
  obtain ⟨p, x, rfl, hx, hsx⟩ := step_stable ha
  obtain ⟨q, y, rfl, hy, hsy⟩ := step_stable hb
  refine ⟨eff j q y (eff i p x s), hsy _ (eff_ahead (Ne.symm hij)), ?_⟩
  rw [eff_comm hij hx hy]
  exact hsx _ (eff_ahead hij)

theorem run_step {V R : Type} {net : Net} {N : Nat} : ∀ {n : Nat} {s f : State V R}, Run net N n s f → Final net N f →
    ∀ {i a}, Step net N i s a → ∃ n', n = n' + 1 ∧ Run net N n' a f := by
  intro n s f h hf
  induction h with
  | refl s => intro i a ha; exact (hf i a ha).elim
  | @step m j s b u hb hr ih =>
    intro i a ha
    by_cases hij : i = j
    · subst hij
      rw [step_det ha hb]; exact ⟨m, rfl, hr⟩
    · obtain ⟨t, h1, h2⟩ := step_comm hij ha hb
      obtain ⟨n', rfl, h3⟩ := ih hf h2
      exact ⟨n' + 1, rfl, Run.step h1 h3⟩

/-- If one execution ends where no node can move, then every execution is at most as long and can be continued to that same end; in particular an execution
that cannot be continued has ended there. -/
theorem all_executions {V R : Type} {net : Net} {N n : Nat} {s f : State V R} (h : Run net N n s f) (hf : Final net N f) :
    ∀ {m : Nat} {t : State V R}, Run net N m s t → m ≤ n ∧ Run net N (n - m) t f := by
  intro m t hr
  induction hr generalizing n with
  | refl s => exact ⟨Nat.zero_le _, by simpa using h⟩
  | step hs _ ih =>
    obtain ⟨n', rfl, h'⟩ := run_step h hf hs
    obtain ⟨h1, h2⟩ := ih h'
    exact ⟨by omega, by rwa [show ∀ a b : Nat, a + 1 - (b + 1) = a - b from by omega]⟩

theorem stuck_is_end {V R : Type} {net : Net} {N n m : Nat} {s f t : State V R} (h : Run net N n s f) (hf : Final net N f)
    (hr : Run net N m s t) (ht : Final net N t) : t = f ∧ m = n := by
  obtain ⟨hle, h2⟩ := all_executions h hf hr
  generalize hk : n - m = k at h2
  cases h2 with
  | refl _ => exact ⟨rfl, by omega⟩
  | step hs _ => exact (ht _ _ hs).elim

/-- A network without waiting: channels are unbounded and calls return at once. -/
def Net.free : Net := ⟨fun _ => True, fun _ => True, fun _ => True, fun _ h => h, fun _ h => h, fun _ h => h, trivial, trivial, trivial⟩

/-- A network with full waiting: a send returns when the message has been received, a broadcast when every node has begun it. -/
def Net.strict : Net := ⟨fun n => n = 0, fun n => n = 0, fun n => n = 0, by omega, by omega, by omega, rfl, rfl, rfl⟩

end Verif.Network
