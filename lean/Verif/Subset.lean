import Verif.ParLayoutProps
/-
Sets and subsets: model of `Set::make` (lib/qdp_scalarsite_specific.cc:56-185, used by scalar and parscalar builds)
and of the default colour functions (lib/qdp_subset.cc:35-99).

Simplification: the two `omp parallel for` loops are run in index order; every iteration writes only its own slot
(`lat_color[linear]`, `sitetables[cb]`, `sub[cb]`), so the order does not matter for a normal return.
-/
namespace Verif.Subset
open Verif Outcome Verif.Layout Verif.ParLayout

/-! ## Model -/

/-- run `f` on each element in order, stopping at the first abnormal outcome -/
def mapO {α β : Type} (f : α → Outcome β) : List α → Outcome (List β)
  | [] => ok []
  | a :: as => do let b ← f a; let bs ← mapO f as; return b :: bs

/-- body of the colouring loop, lib/qdp_scalarsite_specific.cc:81-102 -/
def colourSite (g : Geom) (node : Nat) (fn : List Nat → Int) (nsub : Nat) (linear : Nat) : Outcome Nat := do
  let coord ← g.siteCoords node linear
  let n ← g.nodeNumber coord
  let lin ← g.linearSiteIndex coord
  let icolor := fn coord
  if n ≠ node then abort
  else if lin ≠ linear then abort
  else if icolor < 0 ∨ icolor ≥ (nsub : Int) then abort
  else return icolor.toNat

/-- the colouring loop, lib/qdp_scalarsite_specific.cc:79-103 -/
def latColor (g : Geom) (node : Nat) (fn : List Nat → Int) (nsub : Nat) : Outcome (List Nat) :=
  mapO (colourSite g node fn nsub) (List.range g.sites)

/-- counting loop, lib/qdp_scalarsite_specific.cc:123-130 -/
def countSites (cb : Nat) : List Nat → Nat
  | [] => 0
  | c :: cs => if c = cb then countSites cb cs + 1 else countSites cb cs

/-- `sitetable[j] = v`; out of bounds is undefined -/
def wr (t : List Int) (j : Nat) (v : Int) : Outcome (List Int) := if j < t.length then ok (t.set j v) else ub

/-- filling loop, lib/qdp_scalarsite_specific.cc:148-150; arguments: remaining colours, `linear`, `j`, table -/
def fillTable (cb : Nat) : List Nat → Nat → Nat → List Int → Outcome (List Int)
  | [], _, _, t => ok t
  | c :: cs, linear, j, t =>
      if c = cb then do let t' ← wr t j linear; fillTable cb cs (linear + 1) (j + 1) t'
      else fillTable cb cs (linear + 1) j t

/-- hole search, lib/qdp_scalarsite_specific.cc:160-171: does some entry differ from `prev++` ? -/
def findHole : List Int → Int → Bool
  | [], _ => false
  | s :: ss, prev => if s ≠ prev then true else findHole ss (prev + 1)

/-- what a `Subset` stores, include/qdp_subset.h:66-76, with the table it points to -/
structure Sub where
  ordRep : Bool
  start : Int
  stop : Int
  table : List Int
  colour : Nat
deriving Repr, DecidableEq

/-- body of the subset loop, lib/qdp_scalarsite_specific.cc:118-184 -/
def makeSub (col : List Nat) (cb : Nat) : Outcome Sub := do
  let num := countSites cb col
  if num > 0 then do
    let t ← fillTable cb col 0 0 (List.replicate num (-1))
    let s ← rd t 0
    let e ← rd t (t.length - 1)
    if findHole t s then return ⟨false, -1, -1, t, cb⟩ else return ⟨true, s, e, t, cb⟩
  else return ⟨false, -1, -1, [], cb⟩

/-- what a `Set` stores, include/qdp_subset.h:119-127 -/
structure SetObj where
  latColor : List Nat
  subs : List Sub
deriving Repr, DecidableEq

/-- `Set::make`, lib/qdp_scalarsite_specific.cc:56-185 -/
def setMake (g : Geom) (node : Nat) (fn : List Nat → Int) (nsub : Nat) : Outcome SetObj := do
  let col ← latColor g node fn nsub
  let subs ← mapO (makeSub col) (List.range nsub)
  return ⟨col, subs⟩

/-- `SetAllFunc`, lib/qdp_subset.cc:35-40 -/
def allFunc (_ : List Nat) : Int := 0
/-- `SetRBFunc`, lib/qdp_subset.cc:44-57 -/
def rbFunc (c : List Nat) : Int := ((c.sum &&& 1 : Nat) : Int)
/-- `Set32CBFunc`, lib/qdp_subset.cc:81-99 -/
def mcbFunc (c : List Nat) : Int :=
  ((sublOf c + (((c.map (· >>> 1)).sum &&& 1) <<< c.length) : Nat) : Int)

/-! ## Lemmas -/

theorem mapO_ok {α β : Type} {f : α → Outcome β} {xs : List α} {h : α → β} (hf : ∀ x ∈ xs, f x = ok (h x)) :
    mapO f xs = ok (xs.map h) := by
  induction xs with
  | nil => rfl
  | cons a as ih =>
    simp only [List.mem_cons, forall_eq_or_imp] at hf
    simp [mapO, hf.1, ih hf.2]

theorem mapO_eq_ok {α β : Type} {f : α → Outcome β} {xs : List α} {ys : List β} (h : mapO f xs = ok ys) :
    ys.length = xs.length ∧ ∀ i (hi : i < xs.length) (hi' : i < ys.length), f xs[i] = ok ys[i] := by
  induction xs generalizing ys with
  | nil => simp [mapO] at h; subst h; simp
  | cons a as ih =>
    simp only [mapO] at h
    obtain ⟨b, hb, h⟩ := Outcome.bind_eq_ok.1 h
    obtain ⟨bs, hbs, h⟩ := Outcome.bind_eq_ok.1 h
    simp only [pure_def, Outcome.ok.injEq] at h
    subst h
    obtain ⟨h1, h2⟩ := ih hbs
    refine ⟨by simp [h1], ?_⟩
    intro i hi hi'
    cases i with
    | zero => simpa using hb
    | succ i => simpa using h2 i (by simpa using hi) (by simpa using hi')

/-- sites `linear, linear+1, ...` whose colour is `cb` -/
def sitesFrom (cb : Nat) : List Nat → Nat → List Nat
  | [], _ => []
  | c :: cs, linear => if c = cb then linear :: sitesFrom cb cs (linear + 1) else sitesFrom cb cs (linear + 1)

theorem sitesFrom_length (cb : Nat) (col : List Nat) (l : Nat) : (sitesFrom cb col l).length = countSites cb col := by
  induction col generalizing l with
  | nil => rfl
  | cons c cs ih => simp only [sitesFrom, countSites]; split <;> simp [ih]

theorem mem_sitesFrom (cb : Nat) (col : List Nat) (l x : Nat) :
    x ∈ sitesFrom cb col l ↔ ∃ k, x = l + k ∧ col[k]? = some cb := by
  induction col generalizing l with
  | nil => simp [sitesFrom]
  | cons c cs ih =>
    simp only [sitesFrom]
    have step : (∃ k, x = l + 1 + k ∧ cs[k]? = some cb) ↔ ∃ k, 0 < k ∧ x = l + k ∧ (c :: cs)[k]? = some cb := by
      constructor
      · rintro ⟨k, h1, h2⟩; exact ⟨k + 1, by omega, by omega, by simpa using h2⟩
      · rintro ⟨k, h0, h1, h2⟩
        obtain ⟨j, rfl⟩ : ∃ j, k = j + 1 := ⟨k - 1, by omega⟩
        exact ⟨j, by omega, by simpa using h2⟩
    split
    · rename_i hc
      rw [List.mem_cons, ih, step]
      constructor
      · rintro (h | ⟨k, _, h1, h2⟩)
        · exact ⟨0, by omega, by simp [hc]⟩
        · exact ⟨k, h1, h2⟩
      · rintro ⟨k, h1, h2⟩
        by_cases hk : k = 0
        · left; omega
        · right; exact ⟨k, by omega, h1, h2⟩
    · rename_i hc
      rw [ih, step]
      constructor
      · rintro ⟨k, _, h1, h2⟩; exact ⟨k, h1, h2⟩
      · rintro ⟨k, h1, h2⟩
        refine ⟨k, ?_, h1, h2⟩
        rcases Nat.eq_zero_or_pos k with h | h
        · subst h; simp at h2; exact absurd h2 hc
        · exact h

theorem sitesFrom_ge (cb : Nat) (col : List Nat) (l x : Nat) (h : x ∈ sitesFrom cb col l) : l ≤ x := by
  obtain ⟨k, h1, _⟩ := (mem_sitesFrom cb col l x).1 h; omega

theorem sitesFrom_sorted (cb : Nat) (col : List Nat) (l : Nat) : (sitesFrom cb col l).Pairwise (· < ·) := by
  induction col generalizing l with
  | nil => simp [sitesFrom]
  | cons c cs ih =>
    simp only [sitesFrom]
    split
    · rw [List.pairwise_cons]
      exact ⟨fun x hx => by have := sitesFrom_ge _ _ _ _ hx; omega, ih (l + 1)⟩
    · exact ih (l + 1)

theorem fillTable_eq (cb : Nat) (col : List Nat) (l : Nat) (pre suf : List Int)
    (hsuf : suf.length = countSites cb col) :
    fillTable cb col l pre.length (pre ++ suf) = ok (pre ++ (sitesFrom cb col l).map Int.ofNat) := by
  induction col generalizing l pre suf with
  | nil =>
    have : suf = [] := List.length_eq_zero_iff.1 (by simpa [countSites] using hsuf)
    subst this; simp [fillTable, sitesFrom]
  | cons c cs ih =>
    simp only [fillTable, sitesFrom, countSites] at hsuf ⊢
    split
    · rename_i hc
      simp only [hc, if_true] at hsuf
      obtain ⟨x, suf', rfl⟩ : ∃ x s, suf = x :: s := by
        cases suf with
        | nil => simp at hsuf
        | cons a b => exact ⟨a, b, rfl⟩
      have : wr (pre ++ x :: suf') pre.length (l : Int) = ok ((pre ++ [(l : Int)]) ++ suf') := by
        unfold wr
        rw [if_pos (by simp)]
        simp
      rw [this, ok_bind]
      have := ih (l + 1) (pre ++ [(l : Int)]) suf' (by simpa using hsuf)
      simp only [List.length_append, List.length_singleton] at this
      rw [this]
      simp
    · rename_i hc
      simp only [hc, if_false] at hsuf
      exact ih (l + 1) pre suf hsuf

theorem findHole_false_iff (t : List Int) (p : Int) :
    findHole t p = false ↔ ∀ k (h : k < t.length), t[k] = p + k := by
  induction t generalizing p with
  | nil => simp [findHole]
  | cons s ss ih =>
    simp only [findHole]
    split
    · rename_i h
      simp only [Bool.true_eq_false, false_iff]
      intro hall
      have := hall 0 (by simp)
      rw [List.getElem_cons_zero] at this
      exact h (by simpa using this)
    · rename_i h
      have h : s = p := Classical.not_not.1 h
      rw [ih]
      constructor
      · intro hh k hk
        cases k with
        | zero => simpa using h
        | succ k => have := hh k (by simpa using hk); simp [this]; omega
      · intro hh k hk
        have := hh (k + 1) (by simpa using hk)
        simp at this; rw [this]; omega

/-- closed form of `makeSub` -/
theorem makeSub_eq (col : List Nat) (cb : Nat) : ∃ s, makeSub col cb = ok s ∧
    s.table = (sitesFrom cb col 0).map Int.ofNat ∧ s.colour = cb ∧
    (s.table = [] → s.ordRep = false ∧ s.start = -1 ∧ s.stop = -1) ∧
    (∀ hne : s.table ≠ [], (s.ordRep = true ↔ ∀ k (h : k < s.table.length), s.table[k] = s.table.head hne + k) ∧
      (s.ordRep = true → s.start = s.table.head hne ∧ s.stop = s.table.getLast hne) ∧
      (s.ordRep = false → s.start = -1 ∧ s.stop = -1)) := by
  unfold makeSub
  have hlen := sitesFrom_length cb col 0
  by_cases hn : countSites cb col > 0
  · have hf := fillTable_eq cb col 0 [] (List.replicate (countSites cb col) (-1)) (by simp)
    simp only [List.length_nil, List.nil_append] at hf
    have ht : (sitesFrom cb col 0).map Int.ofNat ≠ [] := by
      intro h
      have := congrArg List.length h
      rw [List.length_map, hlen] at this
      simp at this; omega
    simp only [hn, if_true]
    rw [hf]
    simp only [ok_bind]
    generalize (sitesFrom cb col 0).map Int.ofNat = t at ht ⊢
    have hpos : 0 < t.length := List.length_pos_iff.2 ht
    rw [rd_of_lt hpos, rd_of_lt (show t.length - 1 < t.length by omega)]
    simp only [ok_bind]
    have e1 : t[0] = t.head ht := by rw [List.head_eq_getElem]
    have e2 : t[t.length - 1] = t.getLast ht := by rw [List.getLast_eq_getElem]
    rw [e1, e2]
    by_cases hh : findHole t (t.head ht) = true
    · simp only [hh, if_true]
      refine ⟨_, rfl, rfl, rfl, fun h => absurd h ht, fun _ => ⟨?_, by simp, by simp⟩⟩
      simp only [Bool.false_eq_true, false_iff]
      intro hall
      rw [(findHole_false_iff t _).2 hall] at hh
      exact absurd hh (by simp)
    · simp only [hh]
      refine ⟨_, rfl, rfl, rfl, fun h => absurd h ht, fun _ => ⟨?_, by simp, by simp⟩⟩
      simp only [true_iff]
      exact (findHole_false_iff t _).1 (by simpa using hh)
  · simp only [hn, if_false]
    have hz : countSites cb col = 0 := by omega
    rw [hz] at hlen
    have := List.length_eq_zero_iff.1 hlen
    rw [this]
    refine ⟨_, rfl, rfl, rfl, fun _ => ⟨rfl, rfl, rfl⟩, fun h => absurd rfl h⟩

end Verif.Subset
