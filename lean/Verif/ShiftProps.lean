import Verif.Shift
/-
Properties C06 (nearest-neighbour shift swaps checkerboards), C07 (shift reads the periodic neighbour),
C08 (shifts cancel, commute, are periodic).
-/
namespace Verif.Shift
open Verif Outcome Verif.Layout Verif.ParLayout Verif.Subset

/-! ### C06 -/

theorem step_parity {l x : Nat} {s : Sgn} (h : x < l) (he : l % 2 = 0) : step l s x % 2 = (x + 1) % 2 := by
  cases s <;> simp only [step] <;> split <;> omega

/-- C06: if the extent in direction `dir` is even, the neighbour in that direction has the other colour. -/
theorem C06_swap (L c : List Nat) (s : Sgn) (dir : Nat) (hc : InRange c L) (hd : dir < L.length)
    (heven : L[dir] % 2 = 0) (hL : ∀ l ∈ L, 5 * l < 2 ^ 31) :
    ∃ c', nnFunc L c s.toInt dir = ok c' ∧ InRange c' L ∧ rbFunc c' = 1 - rbFunc c := by
  refine ⟨_, nnFunc_eq hc hL hd _ s (by cases s <;> rfl), nbr_inRange hc, ?_⟩
  have key : ∀ (L c : List Nat) (dir : Nat) (hd : dir < L.length), InRange c L → L[dir] % 2 = 0 →
      (nbr L c s dir).sum % 2 = (c.sum + 1) % 2 := by
    intro L
    induction L with
    | nil => intro c dir hd; simp at hd
    | cons l L ih =>
      intro c dir hd hc he
      cases c with
      | nil => simp [InRange] at hc
      | cons x c =>
        cases dir with
        | zero =>
          have := step_parity (s := s) hc.1 (by simpa using he)
          simp only [nbr, List.sum_cons]; omega
        | succ d =>
          have := ih c d (by simpa using hd) hc.2 (by simpa using he)
          simp only [nbr, List.sum_cons]; omega
  have := key L c dir hd hc heven
  simp only [rbFunc, and_one]
  omega

/-- C06, converse: with an odd extent some site and its forward neighbour share a colour. -/
theorem C06_odd_fails (L : List Nat) (dir : Nat) (hd : dir < L.length) (hpos : ∀ l ∈ L, 0 < l)
    (hodd : L[dir] % 2 = 1) (hL : ∀ l ∈ L, 5 * l < 2 ^ 31) :
    ∃ c c', InRange c L ∧ nnFunc L c 1 dir = ok c' ∧ rbFunc c' = rbFunc c := by
  have key : ∀ (L : List Nat) (dir : Nat) (hd : dir < L.length), (∀ l ∈ L, 0 < l) → L[dir] % 2 = 1 →
      ∃ c, InRange c L ∧ (nbr L c .fwd dir).sum % 2 = c.sum % 2 := by
    intro L
    induction L with
    | nil => intro dir hd; simp at hd
    | cons l L ih =>
      intro dir hd hp ho
      simp only [List.mem_cons, forall_eq_or_imp] at hp
      cases dir with
      | zero =>
        have hz : ∀ L : List Nat, (∀ l ∈ L, 0 < l) → InRange (List.replicate L.length 0) L := by
          intro L
          induction L with
          | nil => intro _; simp [InRange]
          | cons a L ih =>
            intro h
            simp only [List.mem_cons, forall_eq_or_imp] at h
            exact (⟨h.1, ih h.2⟩ : 0 < a ∧ InRange (List.replicate L.length 0) L)
        refine ⟨(l - 1) :: List.replicate L.length 0, (⟨by omega, hz L hp.2⟩ : l - 1 < l ∧ _), ?_⟩
        have ho : l % 2 = 1 := by simpa using ho
        simp only [nbr, step, List.sum_cons]
        rw [if_pos (by omega)]
        omega
      | succ d =>
        obtain ⟨c, h1, h2⟩ := ih d (by simpa using hd) hp.2 (by simpa using ho)
        refine ⟨0 :: c, (⟨hp.1, h1⟩ : 0 < l ∧ InRange c L), ?_⟩
        simp only [nbr, List.sum_cons]; omega
  obtain ⟨c, h1, h2⟩ := key L dir hd hpos hodd
  refine ⟨c, _, h1, nnFunc_eq h1 hL hd 1 .fwd rfl, ?_⟩
  simp only [rbFunc, and_one]; omega

/-! ### C07 -/

/-- the library's `shift` object is built without error, and shifting any expression re-reads it at the neighbour. -/
theorem C07_shift (g : Geom) (hg : g.Good) (h1 : g.nodes = 1) (hL : ∀ l ∈ g.L, 5 * l < 2 ^ 31) :
    ∃ tab, arrayBiMake g (nnFunc g.L) g.L.length = ok tab ∧
      ∀ (α : Type) (e : Expr α) (s : Sgn) (dir : Nat), dir < g.L.length →
        ∃ e', shift tab e s.toInt dir = ok e' ∧
          ∀ c, InRange c g.L → valueAt g e' c = valueAt g e (nbr g.L c s dir) := by
  have hm : ∀ (s : Sgn) (dir : Nat), dir < g.L.length →
      ∃ t, mapMake g (fun coord isign => nnFunc g.L coord (s.toInt * isign) dir) = ok t ∧ t.length = g.sites ∧
      ∀ c i, InRange c g.L → g.linearSiteIndex c = ok i →
      ∃ j, g.linearSiteIndex (nbr g.L c s dir) = ok j ∧ rd t i = ok j := by
    intro s dir hd
    apply mapMake_ok hg h1
    intro c hc
    exact ⟨nnFunc_eq hc hL hd _ s (by cases s <;> rfl), nbr_inRange hc⟩
  let row : Nat → List Nat × List Nat := fun dir =>
    if h : dir < g.L.length then ((hm .bwd dir h).choose, (hm .fwd dir h).choose) else ([], [])
  refine ⟨(List.range g.L.length).map row, ?_, ?_⟩
  · apply mapO_ok
    intro dir hdir
    have hd := List.mem_range.1 hdir
    have e1 := (hm .bwd dir hd).choose_spec.1
    have e2 := (hm .fwd dir hd).choose_spec.1
    have hrow : row dir = ((hm .bwd dir hd).choose, (hm .fwd dir hd).choose) := by simp only [row, dif_pos hd]
    rw [hrow]
    generalize (hm .bwd dir hd).choose = t1 at *
    generalize (hm .fwd dir hd).choose = t2 at *
    simp only [Sgn.toInt] at e1 e2
    rw [e1, e2]
    rfl
  · intro α e s dir hd
    have hrd : rd ((List.range g.L.length).map row) dir = ok (row dir) := by
      rw [rd_of_lt (by simpa using hd)]; simp
    have hrow : row dir = ((hm .bwd dir hd).choose, (hm .fwd dir hd).choose) := by simp only [row, dif_pos hd]
    have hval : ∀ c, InRange c g.L → valueAt g (.fnmap (hm s dir hd).choose e) c = valueAt g e (nbr g.L c s dir) := by
      intro c hc
      obtain ⟨n, i, -, -, hi, -, -⟩ := hg.1 c hc
      obtain ⟨j, hj, hj'⟩ := (hm s dir hd).choose_spec.2.2 c i hc hi
      simp only [valueAt, hi, hj, ok_bind, evalAt, hj']
    refine ⟨.fnmap (hm s dir hd).choose e, ?_, hval⟩
    cases s <;> simp [shift, hrd, hrow, Sgn.toInt]

/-- any map object: `map(e)` at `c` is `e` at `func(c,+1)`, for every coordinate function that stays on the lattice. -/
theorem C07_map (g : Geom) (hg : g.Good) (h1 : g.nodes = 1) (func : List Nat → Int → Outcome (List Nat))
    (φ : List Nat → List Nat) (hf : ∀ c, InRange c g.L → func c 1 = ok (φ c) ∧ InRange (φ c) g.L) :
    ∃ t, mapMake g func = ok t ∧ ∀ (α : Type) (e : Expr α) c, InRange c g.L →
      valueAt g (.fnmap t e) c = valueAt g e (φ c) := by
  obtain ⟨t, ht, -, h⟩ := mapMake_ok hg h1 hf
  refine ⟨t, ht, ?_⟩
  intro α e c hc
  obtain ⟨n, i, -, -, hi, -, -⟩ := hg.1 c hc
  obtain ⟨j, hj, hj'⟩ := h c i hc hi
  simp only [valueAt, hi, hj, ok_bind, evalAt, hj']

/-! ### C08 -/

/-- apply `shift` `n` times in the same direction -/
def shiftN {α : Type} (tab : List (List Nat × List Nat)) (isign : Int) (dir : Nat) : Nat → Expr α → Outcome (Expr α)
  | 0, e => ok e
  | n + 1, e => do let e' ← shift tab e isign dir; shiftN tab isign dir n e'

/-- what C07 says about a table -/
def IsShift (g : Geom) (tab : List (List Nat × List Nat)) : Prop :=
  ∀ (α : Type) (e : Expr α) (s : Sgn) (dir : Nat), dir < g.L.length → ∃ e', shift tab e s.toInt dir = ok e' ∧
    ∀ c, InRange c g.L → valueAt g e' c = valueAt g e (nbr g.L c s dir)

def nbrN (L : List Nat) (s : Sgn) (dir : Nat) : Nat → List Nat → List Nat
  | 0, c => c
  | n + 1, c => nbrN L s dir n (nbr L c s dir)

theorem nbrN_succ' (L : List Nat) (s : Sgn) (dir n : Nat) (c : List Nat) :
    nbrN L s dir (n + 1) c = nbr L (nbrN L s dir n c) s dir := by
  induction n generalizing c with
  | zero => rfl
  | succ n ih => rw [nbrN, ih]; rfl

theorem nbrN_inRange {L : List Nat} {s : Sgn} {dir n : Nat} {c : List Nat} (h : InRange c L) :
    InRange (nbrN L s dir n c) L := by
  induction n generalizing c with
  | zero => exact h
  | succ n ih => exact ih (nbr_inRange h)

theorem shiftN_val {g : Geom} {tab : List (List Nat × List Nat)} (ht : IsShift g tab) {α : Type} (s : Sgn) {dir : Nat}
    (hd : dir < g.L.length) (n : Nat) (e : Expr α) : ∃ e', shiftN tab s.toInt dir n e = ok e' ∧
      ∀ c, InRange c g.L → valueAt g e' c = valueAt g e (nbrN g.L s dir n c) := by
  induction n generalizing e with
  | zero => exact ⟨e, rfl, fun c _ => rfl⟩
  | succ n ih =>
    obtain ⟨e1, h1, h2⟩ := ht α e s dir hd
    obtain ⟨e2, h3, h4⟩ := ih e1
    refine ⟨e2, by simp [shiftN, h1, h3], ?_⟩
    intro c hc
    rw [h4 c hc, h2 _ (nbrN_inRange hc), nbrN_succ']

/-- `n` forward steps on a circle -/
theorem nbrN_fwd : ∀ {L c : List Nat} {dir : Nat} (n : Nat), InRange c L → ∀ (hd : dir < L.length) (hc : dir < c.length),
    nbrN L .fwd dir n c = c.set dir ((c[dir] + n) % L[dir]) := by
  intro L c dir n hr hd hc
  have hlt := inRange_getElem hr dir hc hd
  induction n with
  | zero =>
    simp only [nbrN, Nat.add_zero, Nat.mod_eq_of_lt hlt]
    exact (List.set_getElem_self hc).symm
  | succ n ih =>
    rw [nbrN_succ']
    have hr' : InRange (nbrN L .fwd dir n c) L := nbrN_inRange hr
    have hlen : dir < (nbrN L .fwd dir n c).length := by rw [hr'.length_eq]; exact hd
    rw [nbr_set hr' (List.getElem?_eq_getElem hlen) (List.getElem?_eq_getElem hd)]
    simp only [ih, List.set_set, List.getElem_set_self]
    congr 1
    generalize L[dir] = l at *
    generalize c[dir] = x at *
    simp only [step]
    have h1 : (x + (n + 1)) % l = ((x + n) % l + 1) % l := by
      rw [Nat.mod_add_mod, Nat.add_assoc]
    have h2 := Nat.mod_lt (x + n) (show 0 < l by omega)
    rw [h1]
    split
    · next h => rw [h, Nat.mod_self]
    · exact (Nat.mod_eq_of_lt (by omega)).symm

/-- C08: opposite shifts cancel; shifts in different directions commute; `L[mu]` forward shifts are the identity. -/
theorem C08_shifts (g : Geom) (hg : g.Good) (h1 : g.nodes = 1) (hL : ∀ l ∈ g.L, 5 * l < 2 ^ 31) :
    ∃ tab, arrayBiMake g (nnFunc g.L) g.L.length = ok tab ∧ ∀ (α : Type) (e : Expr α),
      (∀ (s : Sgn) (dir : Nat), dir < g.L.length → ∃ e1 e2, shift tab e s.toInt dir = ok e1 ∧
        shift tab e1 s.neg.toInt dir = ok e2 ∧ ∀ c, InRange c g.L → valueAt g e2 c = valueAt g e c) ∧
      (∀ (s t : Sgn) (d d' : Nat), d < g.L.length → d' < g.L.length → d ≠ d' → ∃ a a' b b',
        shift tab e s.toInt d = ok a ∧ shift tab a t.toInt d' = ok a' ∧
        shift tab e t.toInt d' = ok b ∧ shift tab b s.toInt d = ok b' ∧
        ∀ c, InRange c g.L → valueAt g a' c = valueAt g b' c) ∧
      (∀ (dir : Nat) (hd : dir < g.L.length), ∃ e', shiftN tab 1 dir g.L[dir] e = ok e' ∧
        ∀ c, InRange c g.L → valueAt g e' c = valueAt g e c) := by
  obtain ⟨tab, ht, hsh⟩ := C07_shift g hg h1 hL
  refine ⟨tab, ht, ?_⟩
  intro α e
  refine ⟨?_, ?_, ?_⟩
  · intro s dir hd
    obtain ⟨e1, k1, k2⟩ := hsh α e s dir hd
    obtain ⟨e2, k3, k4⟩ := hsh α e1 s.neg dir hd
    refine ⟨e1, e2, k1, k3, ?_⟩
    intro c hc
    rw [k4 c hc, k2 _ (nbr_inRange hc)]
    have := nbr_nbr (s := s.neg) (dir := dir) hc
    rw [show s.neg.neg = s by cases s <;> rfl] at this
    rw [this]
  · intro s t d d' hd hd' hne
    obtain ⟨a, k1, k2⟩ := hsh α e s d hd
    obtain ⟨a', k3, k4⟩ := hsh α a t d' hd'
    obtain ⟨b, k5, k6⟩ := hsh α e t d' hd'
    obtain ⟨b', k7, k8⟩ := hsh α b s d hd
    refine ⟨a, a', b, b', k1, k3, k5, k7, ?_⟩
    intro c hc
    rw [k4 c hc, k2 _ (nbr_inRange hc), k8 c hc, k6 _ (nbr_inRange hc), nbr_comm (Ne.symm hne)]
  · intro dir hd
    obtain ⟨e', k1, k2⟩ := shiftN_val (tab := tab) hsh (s := .fwd) hd g.L[dir] e
    refine ⟨e', k1, ?_⟩
    intro c hc
    have hcl : dir < c.length := by rw [hc.length_eq]; exact hd
    rw [k2 c hc, nbrN_fwd _ hc hd hcl, Nat.add_mod_right, Nat.mod_eq_of_lt (inRange_getElem hc dir hcl hd),
      List.set_getElem_self]

/-- an isign other than ±1 is silently accepted for 0 (backward) and 2 (forward), and undefined further out -/
theorem C07_isign (tab : List (List Nat × List Nat)) (m : List Nat × List Nat) (dir : Nat)
    (hm : rd tab dir = ok m) {α : Type} (e : Expr α) :
    shift tab e 0 dir = shift tab e (-1) dir ∧ shift tab e 2 dir = shift tab e 1 dir ∧
    (∀ s : Int, s ≥ 3 ∨ s ≤ -2 → shift tab e s dir = ub) := by
  refine ⟨by simp [shift, hm], by simp [shift, hm], ?_⟩
  intro s hs
  simp only [shift, hm, ok_bind]
  rw [if_neg (by omega), if_neg (by omega)]

/-! ### witnesses -/

/-- a 4x3 lattice in lexicographic order is a good one-node geometry -/
def wGeom : Geom := geomLex [4, 3] (lexMachine [1, 1]) [4, 3]

theorem wGeom_good : wGeom.Good :=
  C02_lexico [4, 3] [4, 3] (lexMachine [1, 1]) (lexMachine_good _) (by simp [Cut, lexMachine]) (by simp) (by simp)
    (by simp [lexMachine]) (by decide)

example : wGeom.Good ∧ wGeom.nodes = 1 ∧ ∀ l ∈ wGeom.L, 5 * l < 2 ^ 31 :=
  ⟨wGeom_good, rfl, by simp [wGeom, geomLex]⟩
example : arrayBiMake wGeom (nnFunc wGeom.L) 2 =
    ok [([3, 0, 1, 2, 7, 4, 5, 6, 11, 8, 9, 10], [1, 2, 3, 0, 5, 6, 7, 4, 9, 10, 11, 8]),
        ([8, 9, 10, 11, 0, 1, 2, 3, 4, 5, 6, 7], [4, 5, 6, 7, 8, 9, 10, 11, 0, 1, 2, 3])] := by decide
example : InRange [3, 2] [4, 3] ∧ [4, 3][0] % 2 = 0 := by decide
example : nnFunc [4, 3] [3, 2] 1 0 = ok [0, 2] := by decide
-- extent 3 is odd: [0,2] and its neighbour [0,0] have the same colour
example : nnFunc [4, 3] [0, 2] 1 1 = ok [0, 0] ∧ rbFunc [0, 2] = rbFunc [0, 0] := by decide

end Verif.Shift
