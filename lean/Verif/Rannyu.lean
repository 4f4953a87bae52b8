import Verif.Seed
/-
The second generator, lib/qdp_rannyu.cc.  Limbs are non-negative ints (documented as 12-bit, include/qdp_rannyu.h:8), most
significant first; 32-bit overflow is checked.  The returned double is represented exactly as the numerator over 2^48
(four 12-bit limbs fit in 53 bits).
-/
namespace Verif.Rannyu
open Verif Outcome

/-! ## Model -/

/-- `m`, lib/qdp_rannyu.cc:25 -/
def m : List Nat := [0, 1, 3513, 821]
/-- `__default_seed`, lib/qdp_rannyu.cc:28 -/
def defaultSeed : List Nat := [13, 15, 1, 17]

/-- sum of products on 32-bit ints, evaluated left to right -/
def dot : List (Nat × Nat) → Nat → Outcome Nat
  | [], acc => ok acc
  | (a, b) :: r, acc => do
      let p ← ckInt (a * b)
      let acc ← ckInt (acc + p)
      dot r acc

/-- `__rand`, lib/qdp_rannyu.cc:37-52: the new limbs and the numerator of `ran` over 2^48 -/
def rand (ll : List Nat) : Outcome (List Nat × Nat) := do
  let l0 ← rd ll 0
  let l1 ← rd ll 1
  let l2 ← rd ll 2
  let l3 ← rd ll 3
  let m0 ← rd m 0
  let m1 ← rd m 1
  let m2 ← rd m 2
  let m3 ← rd m 3
  let i0 ← dot [(l0, m3), (l1, m2), (l2, m1), (l3, m0)] 0
  let i1 ← dot [(l1, m3), (l2, m2), (l3, m1)] 0
  let i2 ← dot [(l2, m3), (l3, m2)] 0
  let i3 ← dot [(l3, m3)] 0
  let i3 ← ckInt (i3 + 1)
  let n3 := i3 &&& 4095
  let i2 ← ckInt (i2 + (i3 >>> 12))
  let n2 := i2 &&& 4095
  let i1 ← ckInt (i1 + (i2 >>> 12))
  let n1 := i1 &&& 4095
  let t ← ckInt (i0 + (i1 >>> 12))
  let n0 := t >>> 12
  return ([n0, n1, n2, n3], n0 * 2 ^ 36 + n1 * 2 ^ 24 + n2 * 2 ^ 12 + n3)

/-- file-scope state, lib/qdp_rannyu.cc:27-29 -/
structure State where
  inited : Bool
  seed : List Nat
deriving Repr, DecidableEq

/-- the state at program start -/
def fresh : State := ⟨false, []⟩

/-- `random()`, lib/qdp_rannyu.cc:57-73 -/
def random (st : State) : Outcome (Nat × State) := do
  let s := if st.inited then st.seed else defaultSeed
  let (s', r) ← rand s
  return (r, ⟨true, s'⟩)

/-- `setrn`, lib/qdp_rannyu.cc:77-86 -/
def setrn (st : State) (s : List Nat) : Outcome State :=
  if s.length ≠ 4 then abort else ok { st with seed := s }

/-- `savern`, lib/qdp_rannyu.cc:90-93 -/
def savern (st : State) : List Nat := st.seed

/-- `random(RNGState_t&)`, lib/qdp_rannyu.cc:97-106 -/
def randomState (s : List Nat) : Outcome (List Nat × Nat) := if s.length ≠ 4 then abort else rand s

/-- one call -/
inductive Op where
  | random
  | setrn (s : List Nat)
  | savern
deriving DecidableEq

inductive Out where
  | num (n : Nat)
  | none
  | seed (s : List Nat)
deriving DecidableEq

def step (st : State) : Op → Outcome (Out × State)
  | .random => do let (r, st') ← random st; return (.num r, st')
  | .setrn s => do let st' ← setrn st s; return (.none, st')
  | .savern => ok (.seed (savern st), st)

def run (st : State) : List Op → Outcome (List Out × State)
  | [] => ok ([], st)
  | op :: ops => do
      let (o, st') ← step st op
      let (os, st'') ← run st' ops
      return (o :: os, st'')

/-! ## Specification -/

/-- four 12-bit limbs -/
def Ok (l0 l1 l2 l3 : Nat) : Prop := l0 < 4096 ∧ l1 < 4096 ∧ l2 < 4096 ∧ l3 < 4096
/-- the 48-bit integer -/
def val (l0 l1 l2 l3 : Nat) : Nat := l0 * 2 ^ 36 + l1 * 2 ^ 24 + l2 * 2 ^ 12 + l3
/-- the documented generator: modulus 2^48, increment 1, multiplier 31167285 -/
def doc (s : Nat) : Nat := (31167285 * s + 1) % 2 ^ 48

/-! ## Theorems -/

theorem rand_eq {l0 l1 l2 l3 : Nat} (h0 : l0 < 5000) (h1 : l1 < 4096) (h2 : l2 < 4096) (h3 : l3 < 4096)
    {i1 i2 i3 t : Nat} (e3 : i3 = l3 * 821 + 1) (e2 : i2 = l2 * 821 + l3 * 3513 + i3 / 4096)
    (e1 : i1 = l1 * 821 + l2 * 3513 + l3 + i2 / 4096) (et : t = l0 * 821 + l1 * 3513 + l2 + i1 / 4096) :
    rand [l0, l1, l2, l3] = ok ([t / 4096, i1 % 4096, i2 % 4096, i3 % 4096],
      val (t / 4096) (i1 % 4096) (i2 % 4096) (i3 % 4096)) := by
  subst et e1 e2 e3
  simp (disch := omega) only [rand, dot, m, rd, List.getElem?_cons_zero, List.getElem?_cons_succ, ok_bind, Nat.zero_add,
    Nat.mul_one, Nat.mul_zero, Nat.add_zero, Seed.and4095, Nat.shiftRight_eq_div_pow, val, ckInt_of_lt]
  rfl

/-- C17, partial. For every state the call succeeds without overflow; the lower 36 bits follow the documented
generator, and the top limb is `t / 4096` of a number `t` whose remainder `t % 4096` is the documented top limb.
Missing: the top limb itself (lib/qdp_rannyu.cc:50 shifts where it should mask), see `C17_refuted`. -/
theorem C17_rannyu_partial (l0 l1 l2 l3 : Nat) (h : Ok l0 l1 l2 l3) :
    ∃ t n1 n2 n3, rand [l0, l1, l2, l3] =
        ok ([t / 4096, n1, n2, n3], val (t / 4096) n1 n2 n3) ∧
      Ok (t % 4096) n1 n2 n3 ∧ doc (val l0 l1 l2 l3) = val (t % 4096) n1 n2 n3 := by
  obtain ⟨h0, h1, h2, h3⟩ := h
  refine ⟨_, _, _, _, rand_eq (by omega) h1 h2 h3 rfl rfl rfl rfl, ?_, ?_⟩
  · refine ⟨Nat.mod_lt _ (by omega), Nat.mod_lt _ (by omega), Nat.mod_lt _ (by omega), Nat.mod_lt _ (by omega)⟩
  · simp only [doc, val]
    omega

/-- C17, refutation: from the library's own default seed the first call is off, the state leaves the 12-bit range for
some seeds, and the returned number can exceed 1. -/
theorem C17_refuted :
    (∃ s n, rand defaultSeed = ok (s, n) ∧ n ≠ doc (val 13 15 1 17)) ∧
    (∃ s n, rand [4095, 4095, 4095, 4095] = ok (s, n) ∧ 2 ^ 48 ≤ n ∧ s[0]? = some 4334) :=
  ⟨⟨_, _, rfl, by decide⟩, ⟨_, _, rfl, by decide, by decide⟩⟩

/-- C17. The reachable top limb stays small, so no call overflows however long the history: the invariant
`l0 < 5000`, other limbs 12-bit. -/
theorem C17_no_overflow (l0 l1 l2 l3 : Nat) (h0 : l0 < 5000) (h1 : l1 < 4096) (h2 : l2 < 4096) (h3 : l3 < 4096) :
    ∃ n0 n1 n2 n3, rand [l0, l1, l2, l3] = ok ([n0, n1, n2, n3], val n0 n1 n2 n3) ∧ n0 < 5000 ∧ n1 < 4096 ∧ n2 < 4096 ∧
      n3 < 4096 := by
  exact ⟨_, _, _, _, rand_eq h0 h1 h2 h3 rfl rfl rfl rfl, by omega, by omega, by omega, by omega⟩

theorem run_append {st : State} {a b : List Op} :
    run st (a ++ b) = (do let (o1, s1) ← run st a; let (o2, s2) ← run s1 b; return (o1 ++ o2, s2)) := by
  induction a generalizing st with
  | nil =>
    simp only [List.nil_append, run, ok_bind]
    cases run st b <;> rfl
  | cons op ops ih =>
    simp only [List.cons_append, run]
    cases hs : step st op with
    | ok p =>
      simp only [ok_bind, ih]
      cases run p.2 ops with
      | ok q => simp only [ok_bind, pure_def]; cases run q.2 b <;> rfl
      | abort => rfl
      | ub => rfl
    | abort => rfl
    | ub => rfl

theorem run_inited {ops : List Op} {st st' : State} {o : List Out} (hi : st.inited = true)
    (h : run st ops = ok (o, st')) : st'.inited = true := by
  induction ops generalizing st o with
  | nil => simp only [run, ok.injEq, Prod.mk.injEq] at h; rw [← h.2]; exact hi
  | cons op ops ih =>
    simp only [run, bind_eq_ok] at h
    obtain ⟨⟨o1, s1⟩, h1, ⟨os, s2⟩, h2, h3⟩ := h
    simp only [pure_def, ok.injEq, Prod.mk.injEq] at h3
    obtain ⟨-, rfl⟩ := h3
    refine ih ?_ h2
    cases op with
    | random =>
      simp only [step, random, bind_eq_ok] at h1
      obtain ⟨⟨r, s⟩, ⟨q, hq, e⟩, e2⟩ := h1
      simp only [pure_def, ok.injEq, Prod.mk.injEq] at e e2
      rw [← e2.2, ← e.2]
    | setrn s =>
      simp only [step, setrn, bind_eq_ok] at h1
      obtain ⟨q, hq, e⟩ := h1
      simp only [pure_def, ok.injEq, Prod.mk.injEq] at e
      split at hq
      · cases hq
      · injection hq with hq; rw [← e.2, ← hq]; exact hi
    | savern => simp only [step, ok.injEq, Prod.mk.injEq] at h1; rw [← h1.2]; exact hi

/-- C18, partial. Once some `random()` has been called, `setrn(s)` makes all later output a function of `s` alone:
two histories that differ arbitrarily before the `setrn` agree after it; and `savern` right after `setrn` returns `s`
always.  Missing: `setrn` before the first `random()`, see `C18_refuted`. -/
theorem C18_seed_partial (s : List Nat) (hs : s.length = 4) (st1 st2 : State) (h1 : st1.inited = true)
    (h2 : st2.inited = true) (ops : List Op) :
    run st1 (.setrn s :: ops) = run st2 (.setrn s :: ops) ∧
    ∀ st, run st [.setrn s, .savern] = ok ([.none, .seed s], { st with seed := s }) := by
  constructor
  · simp only [run, step, setrn, hs, ne_eq, not_true_eq_false, if_false, ok_bind, pure_def]
    have : ({ st1 with seed := s } : State) = { st2 with seed := s } := by
      cases st1; cases st2; simp_all
    rw [this]
  · intro st
    simp [run, step, setrn, hs, savern]

/-- C18, partial: the hypothesis `inited` holds after any successful history containing a `random()`. -/
theorem C18_inited_partial (a b : List Op) (o : List Out) (st st' : State) (h : run st (a ++ .random :: b) = ok (o, st')) :
    st'.inited = true := by
  rw [run_append, bind_eq_ok] at h
  obtain ⟨⟨o1, s1⟩, h1, h2⟩ := h
  simp only [bind_eq_ok] at h2
  obtain ⟨⟨o2, s2⟩, h2, h3⟩ := h2
  simp only [pure_def, ok.injEq, Prod.mk.injEq] at h3
  obtain ⟨-, rfl⟩ := h3
  simp only [run, bind_eq_ok, step, random] at h2
  obtain ⟨⟨o3, s3⟩, ⟨⟨r, s4⟩, ⟨q, -, e⟩, e2⟩, ⟨o5, s5⟩, h5, e5⟩ := h2
  simp only [pure_def, ok.injEq, Prod.mk.injEq] at e e2 e5
  obtain ⟨-, rfl⟩ := e5
  refine run_inited ?_ h5
  rw [← e2.2, ← e.2]

/-- C18, refutation. In a fresh program every seed passed to `setrn` is ignored: the following `random()` calls return
what they return without the `setrn`. -/
theorem C18_refuted (s : List Nat) (hs : s.length = 4) (ops : List Op) :
    run fresh (.setrn s :: .random :: ops) =
      (do let (o, st) ← run fresh (.random :: ops); return (Out.none :: o, st)) := by
  simp only [run, step, setrn, hs, ne_eq, not_true_eq_false, if_false, ok_bind, pure_def]
  rfl

/-- C18. The version carrying its own state has no such defect: the result is a function of the given seed; a seed of
wrong length stops the program. -/
theorem C18_state (s : List Nat) : (s.length ≠ 4 → randomState s = abort) ∧ (s.length = 4 → randomState s = rand s) := by
  constructor <;> intro h <;> simp [randomState, h]

/-! ### witnesses -/
example : rand defaultSeed = ok ([15, 3571, 3201, 1670], 1090716702342) := by decide
example : ∃ o st, run fresh [.setrn [1, 2, 3, 4], .random, .setrn [5, 6, 7, 8], .savern, .random] = ok (o, st) ∧
    st.inited = true ∧ o[3]? = some (.seed [5, 6, 7, 8]) := ⟨_, _, rfl, rfl, rfl⟩
example : randomState [1, 2] = abort := by decide

end Verif.Rannyu
