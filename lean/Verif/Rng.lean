import Verif.Seed
import Verif.SubsetProps
/-
The lattice random number generator: model of lib/qdp_random.cc and of `random(OScalar)`, `random(OLattice,Subset)` for
one node (include/qdp_scalar_specific.h:325-363) and many nodes (include/qdp_parscalar_specific.h:503-546).

Simplifications: the lattice-wide statements of `initRNG` are run site by site; `latticeCoordinate(mu)` at a slot is
component mu of `siteCoords` (that is what lib/qdp_scalarsite_specific.cc:19-38 stores); a random number is
represented by the seed it is converted from (the conversion is modelled in Verif.Seed).  A field type with `k` real
components draws `k` numbers per site (the nested `fill_random`, include/qdp_primmatrix.h:1559-1565,
include/qdp_primvector.h:835-840, include/qdp_reality.h:1772, 2533).
-/
namespace Verif.Rng
open Verif Outcome Verif.Layout Verif.ParLayout Verif.Seed Verif.Subset

/-! ## Model -/

/-- the `while` loop of `numbits`, lib/qdp_random.cc:31-37.  `fuel` bounds the recursion; 32 is never used up because
`iceiling *= 2` overflows a 32-bit int first. -/
def numbitsLoop (x : Nat) : Nat → Nat → Nat → Outcome Nat
  | 0, _, _ => ub
  | fuel + 1, num, ice =>
      if ice ≤ x then do
        let ice' ← ckInt (ice * 2)
        numbitsLoop x fuel (num + 1) ice'
      else ok num

/-- `numbits`, lib/qdp_random.cc:29-40 -/
def numbits (x : Nat) : Outcome Nat := numbitsLoop x 32 1 2

/-- the multiplier, lib/qdp_random.cc:66-71 -/
def ranMult : Outcome PSeed := do
  let t3 := assign 1222
  let t2 ← shl t3 12
  let t2 := Seed.or t2 (assign 1498)
  let t1 ← shl t2 12
  let t1 := Seed.or t1 (assign 712)
  let t0 ← shl t1 12
  return Seed.or t0 (assign 1645)

/-- the bit loops, lib/qdp_random.cc:117-127 and 144-154; arguments: remaining iterations, accumulator, `aa`, bits -/
def powLoop : Nat → PSeed → PSeed → Nat → Outcome PSeed
  | 0, acc, _, _ => ok acc
  | n + 1, acc, aa, bits => do
      let t ← mul acc aa
      let acc := if bits &&& 1 > 0 then t else acc
      let aa ← mul aa aa
      powLoop n acc aa (bits >>> 1)

/-- the static data of the generator, lib/qdp_random.cc:20-27 -/
structure State where
  seed : PSeed
  mult : PSeed
  multN : PSeed
  latMult : List PSeed
deriving Repr, DecidableEq

/-- loop `for(m=Nd-2; m>=0; --m) { lexoc *= lattSize[m]; lexoc += latticeCoordinate(m); }`, lib/qdp_random.cc:87-91, at
one site; the first number is `m+1` -/
def lexocGo (c L : List Nat) : Nat → Nat → Outcome Nat
  | 0, x => ok x
  | m + 1, x => do
      let l ← rd L m
      let y ← ckInt (x * l)
      let cm ← rd c m
      let z ← ckInt (y + cm)
      lexocGo c L m z

/-- `lattice_ran_mult` at one slot, lib/qdp_random.cc:84-127 -/
def siteMult (g : Geom) (my : Nat) (nbits : Nat) (a : PSeed) (linear : Nat) : Outcome PSeed := do
  let c ← g.siteCoords my linear
  let x ← rd c (g.L.length - 1)
  let lex ← lexocGo c g.L (g.L.length - 1) x
  let lexoc ← ckInt (lex + 1)
  powLoop nbits (assign 1) a lexoc

/-- `initRNG`, lib/qdp_random.cc:54-166, followed by `setrn(s)` (`initDefaultRNG`, 44-50, uses the seed 11) -/
def initRNG (g : Geom) (my : Nat) (s : PSeed) : Outcome State := do
  let a ← ranMult
  let vol ← volume g.L
  let nbits ← numbits vol
  let lm ← mapO (siteMult g my nbits a) (List.range g.sites)
  let an ← powLoop nbits a a vol
  return ⟨s, a, an, lm⟩

/-- `sranf` called `k` times, lib/qdp_random.cc:195-235: the seeds converted, the new seed, the new skewed seed -/
def draws (m : PSeed) : Nat → PSeed → PSeed → Outcome (List PSeed × PSeed × PSeed)
  | 0, seed, skewed => ok ([], seed, skewed)
  | k + 1, seed, skewed => do
      let seed' ← mul seed m
      let skewed' ← mul skewed m
      let (xs, s, t) ← draws m k seed' skewed'
      return (skewed :: xs, s, t)

/-- `random(OScalar)`, include/qdp_scalar_specific.h:325-333 -/
def randomScalar (st : State) (k : Nat) : Outcome (List PSeed × State) := do
  let skewed ← mul st.seed st.mult
  let (xs, s, _) ← draws st.mult k st.seed skewed
  return (xs, { st with seed := s })

/-- one iteration of the site loop, include/qdp_scalar_specific.h:350-355: slot, its numbers, the thread's `seed` -/
def iter (st : State) (tab : List Nat) (k j : Nat) : Outcome ((Nat × List PSeed) × PSeed) := do
  let i ← rd tab j
  let lm ← rd st.latMult i
  let skewed ← mul st.seed lm
  let (xs, s, _) ← draws st.multN k st.seed skewed
  return ((i, xs), s)

/-- a thread executes the iterations `js`; its private `seed` starts uninitialised (`none`) -/
def threadRun (st : State) (tab : List Nat) (k : Nat) : List Nat → Option PSeed → Outcome (List (Nat × List PSeed) × Option PSeed)
  | [], priv => ok ([], priv)
  | j :: js, _ => do
      let (w, s) ← iter st tab k j
      let (ws, p) ← threadRun st tab k js (some s)
      return (w :: ws, p)

/-- the critical sections in the order `crit`, include/qdp_scalar_specific.h:358-361 (`guarded = false`) and
include/qdp_parscalar_specific.h:536-543 (`guarded = true`: only threads with `myId < nodeSites`).  Copying an
uninitialised seed is undefined. -/
def critical (guarded : Bool) (n : Nat) (privs : List (Option PSeed)) : List Nat → PSeed → Outcome PSeed
  | [], cur => ok cur
  | t :: ts, cur =>
      if guarded && !(decide (t < n)) then critical guarded n privs ts cur
      else do
        let p ← rd privs t
        match p with
        | some s => critical guarded n privs ts s
        | none => ub

/-- `random(OLattice, Subset)`: `own[t]` are the iterations given to thread `t` by `omp for`, `crit` the order of the
critical sections -/
def randomLattice (guarded : Bool) (st : State) (tab : List Nat) (k : Nat) (own : List (List Nat)) (crit : List Nat) :
    Outcome (List (Nat × List PSeed) × State) := do
  let runs ← mapO (fun js => threadRun st tab k js none) own
  let s ← critical guarded tab.length (runs.map (·.2)) crit st.seed
  return ((runs.map (·.1)).flatten, { st with seed := s })

/-! ## Specification -/

/-- element `n` of the multiplicative congruential sequence `x -> a x mod 2^47` started at `s` -/
def elem (a s n : Nat) : Nat := a ^ n * s % 2 ^ 47

/-- the documented multiplier -/
def A : Nat := 1222 * 2 ^ 36 + 1498 * 2 ^ 24 + 712 * 2 ^ 12 + 1645

/-- `own` and `crit` describe a legal OpenMP execution of `n` iterations on `own.length` threads -/
structure Legal (n : Nat) (own : List (List Nat)) (crit : List Nat) : Prop where
  once : own.flatten.Perm (List.range n)
  crit : crit.Perm (List.range own.length)

/-! ## Lemmas -/

theorem ranMult_eq : ranMult = ok ⟨1645, 712, 1498, 1222⟩ := by decide

def aSeed : PSeed := ⟨1645, 712, 1498, 1222⟩
theorem aSeed_ok : aSeed.Ok := by decide
theorem aSeed_val : aSeed.val = A := by decide

theorem numbitsLoop_ok {x fuel num : Nat} (hx : x < 2 ^ 30) (hnum : 1 ≤ num) (hf : num + fuel = 33)
    (hlo : 2 ^ num ≤ 2 ^ 30) : ∃ n, numbitsLoop x fuel num (2 ^ num) = ok n ∧ x < 2 ^ n := by
  induction fuel generalizing num with
  | zero =>
    have := (Nat.pow_le_pow_iff_right (by omega : 1 < 2)).1 hlo
    omega
  | succ f ih =>
    rw [numbitsLoop]
    by_cases h : 2 ^ num ≤ x
    · have hlt : 2 ^ num < 2 ^ 30 := by omega
      have hlt' := (Nat.pow_lt_pow_iff_right (by omega : 1 < 2)).1 hlt
      have h2 : 2 ^ (num + 1) ≤ 2 ^ 30 := Nat.pow_le_pow_right (by omega) (by omega)
      rw [if_pos h, ← Nat.pow_succ, ckInt_of_lt (by omega), ok_bind]
      exact ih (by omega) (by omega) h2
    · rw [if_neg h]
      exact ⟨num, rfl, by omega⟩

theorem numbits_ok {x : Nat} (hx : x < 2 ^ 30) : ∃ n, numbits x = ok n ∧ x < 2 ^ n :=
  numbitsLoop_ok hx (by omega) (by omega) (by omega)

theorem mulMod (x y : Nat) (m : Nat) : x % m * y % m = x * y % m := by
  rw [Nat.mod_mul_mod]

theorem pow_mod_mul (b e c m : Nat) : (b % m) ^ e * c % m = b ^ e * c % m := by
  rw [Nat.mul_mod, ← Nat.pow_mod, ← Nat.mul_mod]

theorem rank_drop_le : ∀ {c L : List Nat}, InRange c L → ∀ m, rank (c.drop m) (L.drop m) ≤ rank c L
  | [], [], _, m => by simp
  | c :: cs, l :: ls, h, 0 => by simp
  | c :: cs, l :: ls, h, m + 1 => by
    have ih := rank_drop_le h.2 m
    have h1 : c < l := h.1
    have : rank cs ls ≤ l * rank cs ls := Nat.le_mul_of_pos_left _ (by omega)
    simp only [List.drop_succ_cons, rank]
    omega

theorem lexocGo_eq {c L : List Nat} (h : InRange c L) (hv : nsites L < 2 ^ 31) (m : Nat) (hm : m < L.length) :
    lexocGo c L m (rank (c.drop m) (L.drop m)) = ok (rank c L) := by
  have hlen := h.length_eq
  induction m with
  | zero => simp [lexocGo]
  | succ m ih =>
    have hd := rank_drop hlen (m := m) (by omega)
    have hlt : rank (c.drop m) (L.drop m) < 2 ^ 31 := by
      have := rank_drop_le h m; have := rank_lt h; omega
    rw [lexocGo, rd_of_lt (by omega), ok_bind, rd_of_lt (by omega)]
    have e : rank (c.drop (m + 1)) (L.drop (m + 1)) * L[m] + c[m] = rank (c.drop m) (L.drop m) := by
      rw [hd, Nat.mul_comm]; omega
    rw [ckInt_of_lt (by omega), ok_bind, ok_bind, ckInt_of_lt (by omega), ok_bind, e]
    exact ih (by omega)

theorem powLoop_spec {n bits : Nat} {acc aa : PSeed} (h1 : acc.Ok) (h2 : aa.Ok) (hb : bits < 2 ^ n) :
    ∃ r, powLoop n acc aa bits = ok r ∧ r.Ok ∧ r.val = aa.val ^ bits * acc.val % 2 ^ 47 := by
  induction n generalizing bits acc aa with
  | zero =>
    have : bits = 0 := by simp at hb; exact hb
    subst this
    refine ⟨acc, rfl, h1, ?_⟩
    rw [Nat.pow_zero, Nat.one_mul, Nat.mod_eq_of_lt (val_lt h1)]
  | succ n ih =>
    obtain ⟨t, ht, htk, htv⟩ := mul_spec h1 h2
    obtain ⟨q, hq, hqk, hqv⟩ := mul_spec h2 h2
    have hb2 : bits / 2 < 2 ^ n := by rw [Nat.pow_succ] at hb; omega
    have hsh : bits >>> 1 = bits / 2 := by rw [Nat.shiftRight_eq_div_pow]
    rw [powLoop, ht, ok_bind, hq, ok_bind, hsh]
    have hsplit : aa.val ^ bits = (aa.val * aa.val) ^ (bits / 2) * aa.val ^ (bits % 2) := by
      rw [Nat.mul_pow, ← Nat.pow_add, ← Nat.pow_add]; congr 1; omega
    by_cases hbit : bits &&& 1 > 0
    · obtain ⟨r, hr, hrk, hrv⟩ := ih htk hqk hb2
      refine ⟨r, by simp only [if_pos hbit]; exact hr, hrk, ?_⟩
      have hodd : bits % 2 = 1 := by rw [and_one] at hbit; omega
      rw [hrv, hqv, htv, pow_mod_mul, Nat.mul_mod_mod, hsplit, hodd, Nat.pow_one]
      congr 1
      rw [Nat.mul_assoc, Nat.mul_comm acc.val]
    · obtain ⟨r, hr, hrk, hrv⟩ := ih h1 hqk hb2
      refine ⟨r, by simp only [if_neg hbit]; exact hr, hrk, ?_⟩
      have hev : bits % 2 = 0 := by rw [and_one] at hbit; omega
      rw [hrv, hqv, pow_mod_mul, hsplit, hev, Nat.pow_zero, Nat.mul_one]

theorem draws_spec (m : PSeed) (hm : m.Ok) (k : Nat) (s t : PSeed) (hs : s.Ok) (ht : t.Ok) :
    ∃ xs s' t', draws m k s t = ok (xs, s', t') ∧ s'.Ok ∧ s'.val = m.val ^ k * s.val % 2 ^ 47 ∧ xs.length = k ∧
      ∀ q (hq : q < xs.length), xs[q].Ok ∧ xs[q].val = m.val ^ q * t.val % 2 ^ 47 := by
  induction k generalizing s t with
  | zero =>
    refine ⟨[], s, t, rfl, hs, ?_, rfl, by simp⟩
    rw [Nat.pow_zero, Nat.one_mul, Nat.mod_eq_of_lt (val_lt hs)]
  | succ k ih =>
    obtain ⟨s1, e1, k1, v1⟩ := mul_spec hs hm
    obtain ⟨t1, e2, k2, v2⟩ := mul_spec ht hm
    obtain ⟨xs, s', t', h1, h2, h3, h4, h5⟩ := ih s1 t1 k1 k2
    refine ⟨t :: xs, s', t', by simp [draws, e1, e2, h1], h2, ?_, by simp [h4], ?_⟩
    · rw [h3, v1, Nat.mul_mod_mod]
      congr 1; ring
    · intro q hq
      cases q with
      | zero =>
        refine ⟨ht, ?_⟩
        simp only [List.getElem_cons_zero, Nat.pow_zero, Nat.one_mul]
        exact (Nat.mod_eq_of_lt (val_lt ht)).symm
      | succ q =>
        obtain ⟨a1, a2⟩ := h5 q (by simpa using hq)
        refine ⟨by simpa using a1, ?_⟩
        simp only [List.getElem_cons_succ]
        rw [a2, v2, Nat.mul_mod_mod]
        congr 1; ring

/-- what `initRNG` leaves behind on a node -/
structure Ready (g : Geom) (my : Nat) (st : State) : Prop where
  seed : st.seed.Ok
  mult : st.mult.Ok ∧ st.mult.val = A
  multN : st.multN.Ok ∧ st.multN.val = A ^ (nsites g.L + 1) % 2 ^ 47
  len : st.latMult.length = g.sites
  lat : ∀ c i, InRange c g.L → g.nodeNumber c = ok my → g.linearSiteIndex c = ok i →
    ∃ lm, st.latMult[i]? = some lm ∧ lm.Ok ∧ lm.val = A ^ (rank c g.L + 1) % 2 ^ 47

theorem siteMult_spec {g : Geom} (hne : g.L ≠ []) (hv : nsites g.L < 2 ^ 30) {my nbits linear : Nat}
    (hb : nsites g.L < 2 ^ nbits) {c : List Nat} (hc : g.siteCoords my linear = ok c) (hr : InRange c g.L) :
    ∃ lm, siteMult g my nbits aSeed linear = ok lm ∧ lm.Ok ∧ lm.val = A ^ (rank c g.L + 1) % 2 ^ 47 := by
  have hlt := rank_lt hr
  obtain ⟨r, h1, h2, h3⟩ := powLoop_spec (acc := assign 1) (assign_val 1).1 aSeed_ok
    (show rank c g.L + 1 < 2 ^ nbits by omega)
  refine ⟨r, ?_, h2, ?_⟩
  · have hlen := hr.length_eq
    have hp : 0 < g.L.length := List.length_pos_iff.2 hne
    have hd := rank_drop hlen (m := g.L.length - 1) (by omega)
    have hnil : rank (c.drop (g.L.length - 1 + 1)) (g.L.drop (g.L.length - 1 + 1)) = 0 := by
      rw [List.drop_eq_nil_of_le (show c.length ≤ g.L.length - 1 + 1 by omega)]; simp [rank]
    rw [hnil, Nat.mul_zero, Nat.add_zero] at hd
    simp only [siteMult, hc, ok_bind, rd_of_lt (show g.L.length - 1 < c.length by omega), ← hd,
      lexocGo_eq hr (show nsites g.L < 2 ^ 31 by omega) (g.L.length - 1) (by omega),
      ckInt_of_lt (show rank c g.L + 1 < 2 ^ 31 by omega)]
    exact h1
  · rw [h3, aSeed_val]
    have : (assign 1).val = 1 := by decide
    rw [this, Nat.mul_one]

theorem initRNG_ready {g : Geom} (hg : g.Good) (hne : g.L ≠ []) (hpos : ∀ l ∈ g.L, 0 < l) (hv : nsites g.L < 2 ^ 30)
    {my : Nat} (hn : my < g.nodes) {s : PSeed} (hs : s.Ok) :
    ∃ st, initRNG g my s = ok st ∧ st.seed = s ∧ Ready g my st := by
  obtain ⟨nb, hnb, hnb'⟩ := numbits_ok hv
  obtain ⟨an, h1, h2, h3⟩ := powLoop_spec (n := nb) aSeed_ok aSeed_ok hnb'
  have hsite : ∀ i, i < g.sites → ∃ c lm, g.siteCoords my i = ok c ∧ InRange c g.L ∧
      siteMult g my nb aSeed i = ok lm ∧ lm.Ok ∧ lm.val = A ^ (rank c g.L + 1) % 2 ^ 47 := by
    intro i hi
    obtain ⟨c, hc, hr, -, -⟩ := hg.2 my i hn hi
    obtain ⟨lm, a1, a2, a3⟩ := siteMult_spec hne hv hnb' hc hr
    exact ⟨c, lm, hc, hr, a1, a2, a3⟩
  let f : Nat → PSeed := fun i => match siteMult g my nb aSeed i with | ok lm => lm | _ => aSeed
  have hmap : mapO (siteMult g my nb aSeed) (List.range g.sites) = ok ((List.range g.sites).map f) := by
    apply mapO_ok
    intro i hi
    obtain ⟨c, lm, -, -, a1, -⟩ := hsite i (List.mem_range.1 hi)
    simp [f, a1]
  refine ⟨⟨s, aSeed, an, (List.range g.sites).map f⟩, ?_, rfl, ?_⟩
  · have hrm : ranMult = ok aSeed := ranMult_eq
    simp only [initRNG, hrm, ok_bind, volume_eq hpos (by omega), hnb, hmap, h1]
    rfl
  · refine ⟨hs, ⟨aSeed_ok, aSeed_val⟩, ⟨h2, ?_⟩, by simp, ?_⟩
    · rw [h3, aSeed_val]; congr 1
    · intro c i hc hcn hci
      obtain ⟨n', i', b1, b2, b3, b4, b5⟩ := hg.1 c hc
      rw [hcn] at b1; injection b1 with b1; subst b1
      rw [hci] at b3; injection b3 with b3; subst b3
      obtain ⟨c', lm, a0, -, a1, a2, a3⟩ := hsite i b4
      rw [b5] at a0; injection a0 with a0; subst a0
      exact ⟨lm, by simp [b4, f, a1], a2, a3⟩

theorem iter_spec {g : Geom} {my : Nat} {st : State} (hst : Ready g my st) {tab : List Nat} {k j i : Nat}
    (hj : tab[j]? = some i) {c : List Nat} (hc : InRange c g.L) (hcn : g.nodeNumber c = ok my)
    (hci : g.linearSiteIndex c = ok i) :
    ∃ xs s', iter st tab k j = ok ((i, xs), s') ∧ s'.Ok ∧ s'.val = elem A st.seed.val (k * (nsites g.L + 1)) ∧
      xs.length = k ∧ ∀ q (hq : q < xs.length), xs[q].Ok ∧
        xs[q].val = elem A st.seed.val ((rank c g.L + 1) + q * (nsites g.L + 1)) := by
  obtain ⟨lm, l1, l2, l3⟩ := hst.lat c i hc hcn hci
  obtain ⟨sk, k1, k2, k3⟩ := mul_spec hst.seed l2
  obtain ⟨xs, s', t', h1, h2, h3, h4, h5⟩ := draws_spec st.multN hst.multN.1 k st.seed sk hst.seed k2
  refine ⟨xs, s', ?_, h2, ?_, h4, ?_⟩
  · simp only [iter, rd_eq_ok.2 hj, rd_eq_ok.2 l1, ok_bind, k1, h1]
    rfl
  · rw [h3, hst.multN.2, pow_mod_mul, elem, ← Nat.pow_mul, Nat.mul_comm k]
  · intro q hq
    obtain ⟨a1, a2⟩ := h5 q hq
    refine ⟨a1, ?_⟩
    rw [a2, hst.multN.2, pow_mod_mul, k3, l3, Nat.mul_mod_mod, elem, ← Nat.pow_mul]
    rw [Nat.mul_comm st.seed.val, ← Nat.mul_mod_mod, Nat.mod_mul_mod, Nat.mul_mod_mod, ← Nat.mul_assoc, ← Nat.pow_add]
    congr 3
    rw [Nat.mul_comm q]; omega

theorem threadRun_ok {st : State} {tab : List Nat} {k : Nat} {s' : PSeed} {w : Nat → Nat × List PSeed} {js : List Nat}
    (h : ∀ j ∈ js, iter st tab k j = ok (w j, s')) (p : Option PSeed) :
    threadRun st tab k js p = ok (js.map w, if js = [] then p else some s') := by
  induction js generalizing p with
  | nil => simp [threadRun]
  | cons j js ih =>
    simp only [List.mem_cons, forall_eq_or_imp] at h
    simp only [threadRun, h.1, ok_bind, ih h.2]
    by_cases hjs : js = [] <;> simp [hjs]

theorem critical_ok {guarded : Bool} {n : Nat} {privs : List (Option PSeed)} {s' : PSeed} (ts : List Nat) (cur : PSeed)
    (h : ∀ t ∈ ts, (guarded = false ∨ t < n) → privs[t]? = some (some s')) :
    critical guarded n privs ts cur =
      ok (if ∃ t ∈ ts, guarded = false ∨ t < n then s' else cur) := by
  induction ts generalizing cur with
  | nil => simp [critical]
  | cons t ts ih =>
    simp only [List.mem_cons, forall_eq_or_imp] at h
    rw [critical]
    by_cases hg : guarded = false ∨ t < n
    · rw [if_neg (by rcases hg with hg | hg <;> simp [hg]), rd_eq_ok.2 (h.1 hg), ok_bind]
      simp only []
      rw [ih s' h.2]
      have : ∃ t' ∈ t :: ts, guarded = false ∨ t' < n := ⟨t, by simp, hg⟩
      rw [if_pos this]
      split <;> rfl
    · have hg' : guarded = true ∧ ¬ t < n := by
        refine ⟨?_, fun h => hg (Or.inr h)⟩
        cases guarded
        · exact absurd (Or.inl rfl) hg
        · rfl
      rw [if_pos (by simp [hg'.1, hg'.2]), ih cur h.2]
      congr 1
      have : (∃ t' ∈ t :: ts, guarded = false ∨ t' < n) ↔ (∃ t' ∈ ts, guarded = false ∨ t' < n) := by
        simp [hg]
      simp only [this]

end Verif.Rng
