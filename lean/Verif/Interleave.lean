import Verif.Basic
import Mathlib.Logic.Relation
import Mathlib.Logic.Function.Basic
/-
Threads that share a heap, run in any interleaving of their instructions.  If every thread stays within cells of its own, each of them
gets what it would get alone.

`dispatch_to_threads`, include/qdp_dispatch.h: a parallel region whose threads run the same function over different ranges.
-/
namespace Verif.Interleave
open Verif Outcome

/-- number of the field, offset -/
abbrev Heap (V : Type) := Nat → Nat → V

variable {V I L : Type}

/-- a thread: local variables and the instructions still to run -/
structure Thr (I L : Type) where
  loc : L
  todo : List I

structure St (V I L : Type) where
  heap : Heap V
  thr : Nat → Thr I L

/-- one thread alone -/
def run (step : I → L → Heap V → Outcome (L × Heap V)) : List I → L → Heap V → Outcome (L × Heap V)
  | [], l, h => ok (l, h)
  | i :: p, l, h => match step i l h with
    | ok (l', h') => run step p l' h'
    | _ => ub

/-- one instruction of one thread -/
inductive Step (step : I → L → Heap V → Outcome (L × Heap V)) : St V I L → St V I L → Prop
  | go (s : St V I L) (t : Nat) (i : I) (rest : List I) (l' : L) (h' : Heap V) (ht : (s.thr t).todo = i :: rest)
      (e : step i (s.thr t).loc s.heap = ok (l', h')) : Step step s ⟨h', Function.update s.thr t ⟨l', rest⟩⟩

/-- the next instruction of some thread is undefined -/
def Fault (step : I → L → Heap V → Outcome (L × Heap V)) (s : St V I L) : Prop :=
  ∃ t i rest, (s.thr t).todo = i :: rest ∧ ∀ p, step i (s.thr t).loc s.heap ≠ ok p

def Done (s : St V I L) : Prop := ∀ t, (s.thr t).todo = []

/-- the instructions of thread `t` read and write cells of `O t` only, as long as `good t` holds -/
structure Local (step : I → L → Heap V → Outcome (L × Heap V)) (O : Nat → Nat → Nat → Prop) (good : Nat → List I → L → Prop) : Prop where
  keep : ∀ {t i p l h l' h'}, good t (i :: p) l → step i l h = ok (l', h') → good t p l'
  frame : ∀ {t i p l h l' h'}, good t (i :: p) l → step i l h = ok (l', h') → ∀ f j, ¬ O t f j → h' f j = h f j
  same : ∀ {t i p l h g l' h'}, good t (i :: p) l → (∀ f j, O t f j → h f j = g f j) → step i l h = ok (l', h') →
    ∃ g', step i l g = ok (l', g') ∧ ∀ f j, O t f j → h' f j = g' f j

variable {step : I → L → Heap V → Outcome (L × Heap V)} {O : Nat → Nat → Nat → Prop} {good : Nat → List I → L → Prop}

theorem run_same (H : Local step O good) {t : Nat} : ∀ {p : List I} {l : L} {h g : Heap V} {l' : L} {h' : Heap V}, good t p l →
    (∀ f j, O t f j → h f j = g f j) → run step p l h = ok (l', h') → ∃ g', run step p l g = ok (l', g') ∧ ∀ f j, O t f j → h' f j = g' f j
  | [], l, h, g, l', h', _, hg, hr => by
      simp only [run] at hr ⊢
      injection hr with hr
      injection hr with h1 h2
      subst h1 h2
      exact ⟨g, rfl, hg⟩
  | i :: p, l, h, g, l', h', hgd, hg, hr => by
      simp only [run] at hr
      split at hr
      · next l1 h1 e1 =>
        obtain ⟨g1, e2, hg1⟩ := H.same hgd hg e1
        obtain ⟨g', e3, hg'⟩ := run_same H (H.keep hgd e1) hg1 hr
        exact ⟨g', by simp only [run, e2]; exact e3, hg'⟩
      · simp at hr

theorem run_append {p q : List I} : ∀ {l l1 l2 : L} {h h1 h2 : Heap V}, run step p l h = ok (l1, h1) → run step q l1 h1 = ok (l2, h2) →
    run step (p ++ q) l h = ok (l2, h2) := by
  induction p with
  | nil =>
    intro l l1 l2 h h1 h2 e1 e2
    simp only [run] at e1
    injection e1 with e1
    injection e1 with e3 e4
    subst e3 e4
    exact e2
  | cons i p ih =>
    intro l l1 l2 h h1 h2 e1 e2
    simp only [run, List.cons_append] at e1 ⊢
    split at e1
    · exact ih e1 e2
    · simp at e1

/-- what holds during the parallel region -/
structure Inv (step : I → L → Heap V → Outcome (L × Heap V)) (O : Nat → Nat → Nat → Prop) (good : Nat → List I → L → Prop) (h0 : Heap V)
    (F : Nat → Heap V) (s : St V I L) : Prop where
  good : ∀ t, good t (s.thr t).todo (s.thr t).loc
  rest : ∀ t, ∃ l' h', run step (s.thr t).todo (s.thr t).loc s.heap = ok (l', h') ∧ ∀ f j, O t f j → h' f j = F t f j
  out : ∀ f j, (∀ t, ¬ O t f j) → s.heap f j = h0 f j

theorem inv_step (H : Local step O good) (hO : ∀ t u, t ≠ u → ∀ f j, O t f j → ¬ O u f j) {h0 : Heap V} {F : Nat → Heap V} {s s' : St V I L}
    (hI : Inv step O good h0 F s) (hs : Step step s s') : Inv step O good h0 F s' := by
  cases hs with
  | go t i rest l' h' ht e =>
    have hgt := hI.good t
    rw [ht] at hgt
    have hfr := H.frame hgt e
    refine ⟨?_, ?_, ?_⟩
    · intro u
      by_cases hu : u = t
      · subst hu
        simp only [Function.update_self]
        exact H.keep hgt e
      · simp only [Function.update_of_ne hu]
        exact hI.good u
    · intro u
      by_cases hu : u = t
      · subst hu
        obtain ⟨l2, h2, e2, hF⟩ := hI.rest u
        rw [ht] at e2
        simp only [run, e] at e2
        simp only [Function.update_self]
        exact ⟨l2, h2, e2, hF⟩
      · obtain ⟨l2, h2, e2, hF⟩ := hI.rest u
        simp only [Function.update_of_ne hu]
        obtain ⟨g', e3, hg'⟩ := run_same H (g := h') (hI.good u) (fun f j hj => (hfr f j (hO u t hu f j hj)).symm) e2
        exact ⟨l2, g', e3, fun f j hj => by rw [← hg' f j hj, hF f j hj]⟩
    · intro f j hj
      simp only
      rw [hfr f j (hj t), hI.out f j hj]

/-- threads with separate cells, in any interleaving: no undefined behaviour if there is none in the threads alone, and in the end every
cell holds what its thread alone would have left there -/
theorem interleave (H : Local step O good) (hO : ∀ t u, t ≠ u → ∀ f j, O t f j → ¬ O u f j) {s0 : St V I L} {F : Nat → Heap V}
    (hg : ∀ t, good t (s0.thr t).todo (s0.thr t).loc) (hF : ∀ t, ∃ l', run step (s0.thr t).todo (s0.thr t).loc s0.heap = ok (l', F t))
    {s : St V I L} (hr : Relation.ReflTransGen (Step step) s0 s) :
    ¬ Fault step s ∧ (Done s → (∀ t f j, O t f j → s.heap f j = F t f j) ∧ ∀ f j, (∀ t, ¬ O t f j) → s.heap f j = s0.heap f j) := by
  have hI : Inv step O good s0.heap F s := by
    induction hr with
    | refl =>
      refine ⟨hg, fun t => ?_, fun _ _ _ => rfl⟩
      obtain ⟨l', e⟩ := hF t
      exact ⟨l', F t, e, fun _ _ _ => rfl⟩
    | tail _ hs ih => exact inv_step H hO ih hs
  refine ⟨?_, ?_⟩
  · rintro ⟨t, i, rest, ht, hno⟩
    obtain ⟨l', h', e, _⟩ := hI.rest t
    rw [ht] at e
    simp only [run] at e
    split at e
    · next e1 => exact hno _ e1
    · simp at e
  · intro hd
    refine ⟨?_, hI.out⟩
    intro t f j hj
    obtain ⟨l', h', e, hF⟩ := hI.rest t
    rw [hd t] at e
    simp only [run] at e
    injection e with e
    injection e with _ e
    rw [e]
    exact hF f j hj

/-- the instructions left, over the first `T` threads -/
def left (T : Nat) (s : St V I L) : Nat := ((List.range T).map fun t => (s.thr t).todo.length).sum

theorem sum_update (f : Nat → Nat) (t v : Nat) : ∀ l : List Nat, l.Nodup → t ∈ l → v < f t →
    (l.map (Function.update f t v)).sum < (l.map f).sum
  | [], _, h, _ => by simp at h
  | a :: l, hn, hm, hv => by
      rw [List.nodup_cons] at hn
      simp only [List.map_cons, List.sum_cons]
      rcases List.mem_cons.1 hm with rfl | hm
      · have : l.map (Function.update f t v) = l.map f := List.map_congr_left fun b hb => Function.update_of_ne (show b ≠ t by rintro rfl; exact hn.1 hb) _ _
        rw [this, Function.update_self]
        omega
      · have := sum_update f t v l hn.2 hm hv
        rw [Function.update_of_ne (show a ≠ t by rintro rfl; exact hn.1 hm)]
        omega

/-- as long as the region is not left and nothing is undefined some thread goes on, and there is less to do after every step: every
execution ends -/
theorem progress {s : St V I L} (hf : ¬ Fault step s) (hd : ¬ Done s) : ∃ s', Step step s s' := by
  unfold Done at hd
  rw [not_forall] at hd
  obtain ⟨t, ht⟩ := hd
  obtain ⟨i, rest, hi⟩ := List.exists_cons_of_ne_nil ht
  rcases e : step i (s.thr t).loc s.heap with ⟨l', h'⟩ | _ | _
  · exact ⟨_, .go s t i rest l' h' hi e⟩
  · exact absurd ⟨t, i, rest, hi, by simp [e]⟩ hf
  · exact absurd ⟨t, i, rest, hi, by simp [e]⟩ hf

theorem decreases {T : Nat} {s s' : St V I L} (hT : ∀ t, T ≤ t → (s.thr t).todo = []) (h : Step step s s') :
    left T s' < left T s ∧ ∀ t, T ≤ t → (s'.thr t).todo = [] := by
  cases h with
  | go t i rest l' h' ht e =>
    have htT : t < T := by
      by_contra hc
      rw [hT t (by omega)] at ht
      simp at ht
    constructor
    · unfold left
      have : (fun u => (Function.update s.thr t ⟨l', rest⟩ u).todo.length) = Function.update (fun u => (s.thr u).todo.length) t rest.length := by
        funext u
        by_cases hu : u = t
        · subst hu; simp
        · simp [Function.update_of_ne hu]
      simp only [this]
      exact sum_update _ _ _ _ List.nodup_range (by simpa using htT) (by simp [ht])
    · intro u hu
      simp only [Function.update_of_ne (show u ≠ t by omega)]
      exact hT u hu

end Verif.Interleave
