import Verif.Hdf5Path
/-
Property C79, proofs.
-/
namespace Verif.Hdf5Path
open Verif Outcome

/-! ## strings and paths -/

/-- the parts of a path between slashes -/
def words (s : Str) : List Str := (s.splitOn '/').filter (· ≠ [])

theorem words_single {t : Str} (h : '/' ∉ t) (h0 : t ≠ []) : words t = [t] := by
  rw [words, List.splitOn_eq_singleton h]
  simp [h0]

theorem words_cons {t s : Str} (h : '/' ∉ t) (h0 : t ≠ []) : words (t ++ '/' :: s) = t :: words s := by
  rw [words, List.splitOn_append_cons_self_of_not_mem h]
  simp [h0, words]

theorem words_slash (s : Str) : words ('/' :: s) = words s := by
  have := List.splitOn_append_cons_self_of_not_mem (a := '/') (xs := []) (by simp) s
  rw [List.nil_append] at this
  rw [words, this]
  simp [words]

theorem words_nil : words [] = [] := by simp [words]

theorem words_drop : ∀ s : Str, words (s.dropWhile (· == '/')) = words s
  | [] => rfl
  | c :: s => by
    by_cases h : c = '/'
    · subst h
      rw [List.dropWhile_cons_of_pos (by simp), words_drop s, words_slash]
    · rw [List.dropWhile_cons_of_neg (by simpa using h)]

theorem takeWhile_no {s : Str} : '/' ∉ s.takeWhile (· != '/') := by
  intro h
  have := List.all_takeWhile (p := (· != '/')) (l := s)
  rw [List.all_eq_true] at this
  simpa using this _ h

theorem tokLoop_eq (s : Str) (h : s.head? ≠ some '/') : tokLoop s = words s := by
  match s with
  | [] => rw [tokLoop, words_nil]
  | c :: cs =>
    have hc : c ≠ '/' := by simpa using h
    have ht0 : (c :: cs).takeWhile (· != '/') ≠ [] := by rw [List.takeWhile_cons_of_pos (by simpa using hc)]; simp
    have hs : (c :: cs).takeWhile (· != '/') ++ (c :: cs).dropWhile (· != '/') = c :: cs := List.takeWhile_append_dropWhile
    rw [tokLoop]
    rcases hr : (c :: cs).dropWhile (· != '/') with _ | ⟨d, r⟩
    · rw [hr, List.append_nil] at hs
      rw [List.dropWhile_nil, tokLoop]
      conv_rhs => rw [← hs, words_single takeWhile_no ht0]
    · have hd : d = '/' := by
        have := List.head_dropWhile_not (· != '/') (l := c :: cs) (by rw [hr]; simp)
        simpa [hr] using this
      subst hd
      have hlt : (('/' :: r).dropWhile (· == '/')).length < (c :: cs).length := by
        have h1 := congrArg List.length hs
        rw [hr, List.length_append] at h1
        have h2 := (List.dropWhile_sublist (· == '/') (l := r)).length_le
        have h3 := List.length_pos_iff.2 ht0
        rw [List.dropWhile_cons_of_pos (by simp)]
        simp only [List.length_cons] at h1 ⊢
        omega
      rw [tokLoop_eq (('/' :: r).dropWhile (· == '/')) (by
        intro e
        rcases hq : ('/' :: r).dropWhile (· == '/') with _ | ⟨x, xs⟩
        · rw [hq] at e; simp at e
        · have := List.head_dropWhile_not (· == '/') (l := '/' :: r) (by rw [hq]; simp)
          rw [hq] at e
          simp only [List.head?_cons, Option.some.injEq] at e
          subst e
          simp [hq] at this), words_drop, words_slash]
      conv_rhs => rw [← hs, hr, words_cons takeWhile_no ht0]
termination_by s.length

/-- **C79**, the names in a path: the parts between slashes that are not empty. -/
theorem C79_split (s : Str) : splitPathname s = ok (words s) := by
  have : tokenize s = words s := by
    rw [tokenize, tokLoop_eq, words_drop]
    intro e
    rcases hq : s.dropWhile (· == '/') with _ | ⟨x, xs⟩
    · rw [hq] at e; simp at e
    · have := List.head_dropWhile_not (· == '/') (l := s) (by rw [hq]; simp)
      rw [hq] at e
      simp only [List.head?_cons, Option.some.injEq] at e
      subst e
      simp [hq] at this
  rw [splitPathname, this, if_neg (by simp [words])]

theorem words_valid {s t : Str} (h : t ∈ words s) : t ≠ [] ∧ '/' ∉ t := by
  refine ⟨by simpa using (List.mem_filter.1 h).2, ?_⟩
  have h := (List.mem_filter.1 h).1
  clear * - h
  induction s generalizing t with
  | nil => simp at h; simp [h]
  | cons c s ih =>
    rw [List.splitOn_cons_eq_if_modifyHead] at h
    by_cases hc : c = '/'
    · subst hc
      simp only [beq_self_eq_true, if_true, List.mem_cons] at h
      rcases h with rfl | h
      · simp
      · exact ih h
    · rw [if_neg (by simpa using hc)] at h
      rcases hs : s.splitOn '/' with _ | ⟨a, as⟩
      · rw [hs] at h; simp at h
      · rw [hs] at h ih
        simp only [List.modifyHead_cons, List.mem_cons] at h
        rcases h with rfl | h
        · have := ih (t := a) (by simp)
          simp [this, Ne.symm hc]
        · exact ih (by simp [h])

/-- a path of names of links -/
def ValidP (p : List Str) : Prop := ∀ t ∈ p, Valid t

theorem render_cons {p : List Str} (h : p ≠ []) : render p = p.flatMap fun t => '/' :: t := if_neg h

theorem words_flat : ∀ {p : List Str}, (∀ t ∈ p, t ≠ [] ∧ '/' ∉ t) → words (p.flatMap fun t => '/' :: t) = p
  | [], _ => by simp [words_nil]
  | [t], h => by
    have ⟨h0, h1⟩ := h t (by simp)
    simp only [List.flatMap_cons, List.flatMap_nil, List.append_nil]
    rw [words_slash, words_single h1 h0]
  | t :: u :: p, h => by
    have ⟨h0, h1⟩ := h t (by simp)
    have ih := words_flat (p := u :: p) fun x hx => h x (by simp only [List.mem_cons] at hx ⊢; exact Or.inr hx)
    rw [List.flatMap_cons, List.cons_append, words_slash]
    rw [List.flatMap_cons, List.cons_append] at ih ⊢
    rw [words_cons h1 h0, ← words_slash, ih]

theorem comps_eq (s : Str) : comps s = (words s).filter (· ≠ ['.']) := rfl

theorem comps_render {p : List Str} (h : ValidP p) : comps (render p) = p := by
  by_cases h0 : p = []
  · subst h0
    simp [render, comps_eq, words_slash, words_nil]
  · rw [render_cons h0, comps_eq, words_flat fun t ht => ⟨(h t ht).1, (h t ht).2.1⟩, List.filter_eq_self]
    intro t ht
    simpa using (h t ht).2.2

theorem render_head (p : List Str) : (render p).head? = some '/' := by
  by_cases h0 : p = []
  · subst h0; rfl
  · rw [render_cons h0]
    cases p with
    | nil => exact absurd rfl h0
    | cons t p => rfl

theorem render_ne (p : List Str) : render p ≠ [] := fun e => by simpa [e] using render_head p

theorem resolve_render {p : List Str} (h : ValidP p) (base : List Str) : resolve base (render p) = p := by
  rw [resolve, if_pos (render_head p), List.nil_append, comps_render h]

theorem render_inj {p q : List Str} (hp : ValidP p) (hq : ValidP q) (h : render p = render q) : p = q := by
  rw [← comps_render hp, h, comps_render hq]

theorem render_root {p : List Str} (hp : ValidP p) : render p = ['/'] ↔ p = [] :=
  ⟨fun h => render_inj hp (by simp [ValidP]) h, fun h => by rw [h]; rfl⟩

/-! ## trees -/

theorem Fs.Good.valid {α : Type} {f : Fs α} (h : f.Good) {p : List Str} : f p ≠ none → ValidP p := by
  induction p using List.reverseRecOn with
  | nil => intro _; simp [ValidP]
  | append_singleton p t ih =>
    intro hp u hu
    rcases List.mem_append.1 hu with hu | hu
    · exact ih (by rw [h.tree p t hp]; simp) u hu
    · rw [List.mem_singleton] at hu
      subst hu
      exact h.name p u hp

theorem Fs.Good.gone {α : Type} {f : Fs α} (h : f.Good) {p q : List Str} (hp : f p = none) : f (p ++ q) = none := by
  induction q using List.reverseRecOn with
  | nil => simpa using hp
  | append_singleton q t ih =>
    by_contra hc
    have := h.tree (p ++ q) t (by rw [List.append_assoc]; exact hc)
    rw [ih] at this
    simp at this

theorem Fs.Good.leaf {α : Type} {f : Fs α} (h : f.Good) {p q : List Str} {a : α} (hp : f p = some (.data a)) (hq : q ≠ []) : f (p ++ q) = none := by
  cases q with
  | nil => exact absurd rfl hq
  | cons t q =>
    have : f (p ++ [t]) = none := by
      by_contra hc
      have := h.tree p t hc
      rw [hp] at this
      simp at this
    have := h.gone (q := q) this
    simpa using this

/-- a new group in a group -/
theorem good_add {α : Type} {f : Fs α} (h : f.Good) {p : List Str} {t : Str} (hp : f p = some .group) (ht : Valid t) :
    Fs.Good fun q => if q = p ++ [t] then some .group else f q where
  root := by simp [h.root]
  tree := fun q u hq => by
    have hne : ¬ p = p ++ [t] := fun e => by simpa using congrArg List.length e
    by_cases e : q ++ [u] = p ++ [t]
    · have := (List.append_inj' e rfl).1
      subst this
      simp [hp]
    · rw [if_neg e] at hq
      split
      · rfl
      · exact h.tree q u hq
  name := fun q u hq => by
    by_cases e : q ++ [u] = p ++ [t]
    · have := (List.append_inj' e rfl).2
      simp only [List.cons.injEq, and_true] at this
      rwa [this]
    · rw [if_neg e] at hq
      exact h.name q u hq

/-! ## states -/

/-- the file is a tree and the current group is an open group in it -/
structure Inv {α : Type} (st : St α) : Prop where
  good : st.fs.Good
  cur : st.fs st.cur.path = some .group
  id : st.cur.id ∈ st.ids

theorem Inv.valid {α : Type} {st : St α} (h : Inv st) : ValidP st.cur.path := h.good.valid (by rw [h.cur]; simp)

theorem pwd_root {α : Type} {st : St α} (h : Inv st) : pwd st = ['/'] ↔ st.cur.path = [] := render_root h.valid

theorem takeWhile_of {t s : Str} (h : '/' ∉ t) : (t ++ '/' :: s).takeWhile (· != '/') = t := by
  rw [List.takeWhile_append_of_pos]
  · simp
  · intro c hc
    have : c ≠ '/' := fun e => h (e ▸ hc)
    simpa using this

/-- **C79**, the parent of a group. -/
theorem C79_parent {α : Type} {st : St α} (h : Inv st) {q : List Str} {t : Str} (hp : st.cur.path = q ++ [t]) : parentDir st = render q := by
  have ht : Valid t := h.valid t (by rw [hp]; simp)
  have e : pwd st = (q.flatMap fun t => '/' :: t) ++ '/' :: t := by rw [pwd, hp, render_cons (by simp)]; simp
  have e2 : ((pwd st).reverse.takeWhile (· != '/')).length = t.length := by
    rw [e, List.reverse_append, List.reverse_cons, List.append_assoc, List.singleton_append, takeWhile_of (by simpa using ht.2.1), List.length_reverse]
  have e3 : (pwd st).length - 1 - ((pwd st).reverse.takeWhile (· != '/')).length = (q.flatMap fun t => '/' :: t).length := by
    rw [e2, e]
    simp only [List.length_append, List.length_cons]
    omega
  simp only [parentDir]
  rw [e3]
  by_cases hq : q = []
  · subst hq
    rfl
  · rw [if_neg, e, List.take_left, render_cons hq]
    cases q with
    | nil => exact absurd rfl hq
    | cons a q => simp

/-- opening a group -/
theorem gopen_ok {α : Type} {new : List Nat → Nat} {st : St α} {base : List Str} {s : Str} (hs : s ≠ []) (h : st.fs (resolve base s) = some .group) :
    gopen new st base s = some (⟨new st.ids, resolve base s⟩, { st with ids := new st.ids :: st.ids }) := by
  rw [gopen, if_neg hs, h]

theorem gopen_none {α : Type} {new : List Nat → Nat} {st : St α} {base : List Str} {s : Str} (h : s = [] ∨ st.fs (resolve base s) ≠ some .group) :
    gopen new st base s = none := by
  rw [gopen]
  split
  · rfl
  · rename_i hs
    have h := h.resolve_left hs
    split
    · rename_i e; exact absurd e h
    · rfl

/-- **C79**, `pop`: nothing at the root, else to the parent; the file is the same. -/
theorem C79_pop {α : Type} {new : List Nat → Nat} (hnew : ∀ l, new l ∉ l) {st : St α} (h : Inv st) :
    ∃ st', pop new st = ok st' ∧ Inv st' ∧ st'.fs = st.fs ∧ st'.cur.path = st.cur.path.dropLast ∧
      ∀ i ∈ st.ids, i ≠ st.cur.id → i ∈ st'.ids ∧ i ≠ st'.cur.id := by
  by_cases h0 : st.cur.path = []
  · refine ⟨st, ?_, h, rfl, by rw [h0]; rfl, fun i hi hne => ⟨hi, hne⟩⟩
    rw [pop, if_pos ((pwd_root h).2 h0)]
  · obtain ⟨q, t, hp⟩ : ∃ q t, st.cur.path = q ++ [t] := ⟨_, _, (List.dropLast_append_getLast h0).symm⟩
    have hg : st.fs q = some .group := h.good.tree q t (by rw [← hp, h.cur]; simp)
    have hv := h.good.valid (p := q) (by rw [hg]; simp)
    rw [pop, if_neg (by rw [pwd_root h]; exact h0), C79_parent h hp,
      gopen_ok (render_ne q) (by rw [resolve_render hv]; exact hg), resolve_render hv]
    refine ⟨_, rfl, ⟨h.good, hg, by simp⟩, rfl, by rw [hp]; simp, fun i hi hne => ⟨?_, ?_⟩⟩
    · exact List.mem_cons_of_mem _ ((List.mem_erase_of_ne hne).2 hi)
    · rintro rfl
      exact hnew _ ((List.mem_erase_of_ne hne).2 hi)

theorem popAll_ok {α : Type} {new : List Nat → Nat} (hnew : ∀ l, new l ∉ l) : ∀ (k : Nat) {st : St α}, Inv st → st.cur.path.length < k →
    ∃ st', popAll new k st = some (ok st') ∧ Inv st' ∧ st'.fs = st.fs ∧ ∀ i ∈ st.ids, i ≠ st.cur.id → i ∈ st'.ids
  | 0, _, _, hk => by omega
  | k + 1, st, h, hk => by
    by_cases h0 : st.cur.path = []
    · exact ⟨st, by rw [popAll, if_pos ((pwd_root h).2 h0)], h, rfl, fun i hi _ => hi⟩
    · obtain ⟨st1, p1, p2, p3, p4, p5⟩ := C79_pop hnew h
      have := List.length_pos_iff.2 h0
      obtain ⟨st2, q1, q2, q3, q4⟩ := popAll_ok hnew k p2 (by rw [p4, List.length_dropLast]; omega)
      refine ⟨st2, ?_, q2, q3.trans p3, fun i hi hne => q4 i (p5 i hi hne).1 (p5 i hi hne).2⟩
      rw [popAll, if_neg (by rw [pwd_root h]; exact h0), p1]
      exact q1

theorem popUntil_none {α : Type} {new : List Nat → Nat} (hnew : ∀ l, new l ∉ l) {id : Nat} : ∀ (k : Nat) {st : St α}, Inv st → id ∈ st.ids → id ≠ st.cur.id →
    popUntil new id k st = none
  | 0, _, _, _, _ => rfl
  | k + 1, st, h, h1, h2 => by
    obtain ⟨st1, p1, p2, -, -, p5⟩ := C79_pop hnew h
    rw [popUntil, if_neg (Ne.symm h2), p1]
    exact popUntil_none hnew k p2 (p5 id h1 h2).1 (p5 id h1 h2).2

/-- **C79**, `cd` to a group.  Missing from the claim: the current group by another name than its full path; see `C79_cd_hangs`. -/
theorem C79_cd_partial {α : Type} {new : List Nat → Nat} (hnew : ∀ l, new l ∉ l) {st : St α} (h : Inv st) {dir : Str} (hd : dir ≠ []) (hd2 : dir ≠ ['.', '.'])
    (hg : st.fs (resolve st.cur.path dir) = some .group) (hq : resolve st.cur.path dir = st.cur.path → dir = pwd st ∨ st.cur.path = []) {k : Nat} (hk : st.cur.path.length < k) :
    ∃ st', cd new k st dir = some (ok st') ∧ Inv st' ∧ st'.fs = st.fs ∧ st'.cur.path = resolve st.cur.path dir := by
  rw [cd, if_neg hd2]
  by_cases hp : dir = pwd st
  · refine ⟨st, by rw [if_pos hp], h, rfl, ?_⟩
    rw [hp, pwd, resolve_render h.valid]
  · have hvq : ValidP (resolve st.cur.path dir) := h.good.valid (by rw [hg]; simp)
    rw [if_neg hp, gopen_ok hd hg]
    have h1 : Inv ({ st with ids := new st.ids :: st.ids } : St α) := ⟨h.good, h.cur, List.mem_cons_of_mem _ h.id⟩
    simp only
    by_cases hc : ¬ pwd st <:+: render (resolve st.cur.path dir) ∨ render (resolve st.cur.path dir) = ['/']
    · rw [if_pos hc]
      obtain ⟨st2, q1, q2, q3, q4⟩ := popAll_ok hnew k h1 hk
      refine ⟨{ st2 with cur := ⟨new st.ids, resolve st.cur.path dir⟩ }, by rw [q1]; rfl, ⟨q2.good, ?_, ?_⟩, q3, rfl⟩
      · show st2.fs _ = _
        rw [q3]; exact hg
      · refine q4 _ (by simp) ?_
        intro e
        have e : new st.ids = st.cur.id := e
        exact hnew st.ids (e ▸ h.id)
    · rw [if_neg hc]
      rw [not_or, not_not] at hc
      have hne : ¬ render (resolve st.cur.path dir) <+: pwd st := by
        intro hpre
        have e : render (resolve st.cur.path dir) = pwd st := by
          have l1 := hpre.length_le
          have l2 := hc.1.length_le
          exact hpre.eq_of_length (by omega)
        rcases hq (render_inj hvq h.valid e) with e | e
        · exact hp e
        · refine hc.2 ?_
          rw [show render (resolve st.cur.path dir) = pwd st by assumption, pwd, e]; rfl
      rw [if_neg hne]
      exact ⟨_, rfl, ⟨h.good, hg, by simp⟩, rfl, rfl⟩

/-- **C79**, `cd` to what is no group: nothing happens. -/
theorem C79_cd_stays {α : Type} {new : List Nat → Nat} {st : St α} (h : Inv st) {dir : Str} (hd2 : dir ≠ ['.', '.'])
    (hg : dir = [] ∨ st.fs (resolve st.cur.path dir) ≠ some .group) (k : Nat) : cd new k st dir = some (ok st) := by
  have hp : dir ≠ pwd st := by
    rintro rfl
    rcases hg with e | e
    · exact render_ne _ e
    · rw [pwd, resolve_render h.valid] at e
      exact e h.cur
  rw [cd, if_neg hd2, if_neg hp, gopen_none hg]

/-- **C79** fails: `cd` to the current group, unless it is the root, by any name other than its full path never ends. -/
theorem C79_cd_hangs {α : Type} {new : List Nat → Nat} (hnew : ∀ l, new l ∉ l) {st : St α} (h : Inv st) (h0 : st.cur.path ≠ []) {dir : Str} (hd : dir ≠ []) (hd2 : dir ≠ ['.', '.'])
    (hq : resolve st.cur.path dir = st.cur.path) (hp : dir ≠ pwd st) (k : Nat) : cd new k st dir = none := by
  rw [cd, if_neg hd2, if_neg hp, gopen_ok hd (by rw [hq]; exact h.cur)]
  simp only [hq]
  rw [if_neg (by rw [not_or, not_not]; exact ⟨List.infix_refl _, by rw [render_root h.valid]; exact h0⟩), if_pos (show render st.cur.path <+: pwd st from List.prefix_refl _),
    popUntil_none (st := { st with ids := new st.ids :: st.ids }) hnew k ⟨h.good, h.cur, List.mem_cons_of_mem _ h.id⟩ (by simp) (fun e => by
      have e : new st.ids = st.cur.id := e
      exact hnew st.ids (e ▸ h.id))]
  rfl

/-! ## making groups -/

/-- the file with groups at all paths from `base` along `ts` -/
def along {α : Type} (f : Fs α) (base ts : List Str) : Fs α := fun p => if base <+: p ∧ p <+: base ++ ts then some .group else f p

theorem pushLoop_ok {α : Type} {new : List Nat → Nat} : ∀ {ts : List Str} {st : St α}, Inv st → ValidP ts →
    (∀ q a, q <+: ts → st.fs (st.cur.path ++ q) ≠ some (.data a)) →
    ∃ st', (∀ us, pushLoop new st (ts ++ us) = pushLoop new st' us) ∧ Inv st' ∧ st'.cur.path = st.cur.path ++ ts ∧ st'.fs = along st.fs st.cur.path ts
  | [], st, h, _, _ => by
    refine ⟨st, fun us => rfl, h, by simp, ?_⟩
    funext p
    rw [along, List.append_nil]
    split
    · rename_i hp
      rw [← hp.1.eq_of_length_le hp.2.length_le, h.cur]
    · rfl
  | t :: ts, st, h, hv, hd => by
    have hvt := hv t (by simp)
    have hd1 := hd [t]
    have key : ∀ f : Fs α, f = (fun p => if p = st.cur.path ++ [t] then some .group else st.fs p) → f.Good →
        ∃ st', (∀ us, pushLoop new ⟨f, ⟨new st.ids, st.cur.path ++ [t]⟩, new st.ids :: st.ids⟩ (ts ++ us) = pushLoop new st' us) ∧ Inv st' ∧ st'.cur.path = st.cur.path ++ t :: ts ∧
          st'.fs = along st.fs st.cur.path (t :: ts) := by
      intro f hf hgood
      have hi : Inv (⟨f, ⟨new st.ids, st.cur.path ++ [t]⟩, new st.ids :: st.ids⟩ : St α) := ⟨hgood, by simp [hf], by simp⟩
      obtain ⟨st', e1, e2, e3, e4⟩ := pushLoop_ok (new := new) (ts := ts) hi (fun x hx => hv x (by simp [hx])) (by
        intro q a hq e
        by_cases hq0 : q = []
        · subst hq0
          simp [hf] at e
        · have : st.fs (st.cur.path ++ t :: q) = some (.data a) := by
            have hne : ¬ (st.cur.path ++ [t]) ++ q = st.cur.path ++ [t] := by
              intro e'
              have := congrArg List.length e'
              simp only [List.length_append] at this
              exact hq0 (List.length_eq_zero_iff.1 (by omega))
            simp only [hf] at e
            rw [if_neg hne] at e
            simpa using e
          exact hd (t :: q) a (by simpa using hq) this)
      refine ⟨st', e1, e2, by rw [e3]; simp, ?_⟩
      rw [e4]
      funext p
      simp only [along, hf, List.append_assoc, List.singleton_append]
      by_cases c1 : st.cur.path ++ [t] <+: p ∧ p <+: st.cur.path ++ t :: ts
      · rw [if_pos c1, if_pos ⟨(List.prefix_append _ _).trans c1.1, c1.2⟩]
      · rw [if_neg c1]
        by_cases c2 : p = st.cur.path ++ [t]
        · exact absurd ⟨by rw [c2], by rw [c2]; simp⟩ c1
        · rw [if_neg c2]
          split
          · rename_i c3
            have : p = st.cur.path := by
              obtain ⟨r, rfl⟩ := c3.1
              have hr := c3.2
              rw [List.prefix_append_right_inj] at hr
              cases r with
              | nil => simp
              | cons x r =>
                rw [List.cons_prefix_cons] at hr
                obtain ⟨rfl, hr⟩ := hr
                exact absurd ⟨by simp, by simpa using hr⟩ c1
            rw [this, h.cur]
          · rfl
    rcases hf : st.fs (st.cur.path ++ [t]) with _ | e
    · obtain ⟨st', e1, e2⟩ := key _ rfl (good_add h.good h.cur hvt)
      refine ⟨st', fun us => ?_, e2⟩
      rw [List.cons_append, pushLoop, hf]
      simp only
      rw [if_neg hvt.2.2]
      exact e1 us
    · cases e with
      | data a => exact absurd hf (hd1 a (by simp))
      | group =>
        obtain ⟨st', e1, e2⟩ := key st.fs (by
          funext p
          split
          · rename_i e; rw [e, hf]
          · rfl) h.good
        refine ⟨st', fun us => ?_, e2⟩
        rw [List.cons_append, pushLoop, hf]
        exact e1 us

/-- where a path begins -/
def start (base : List Str) (s : Str) : List Str := if s.head? = some '/' then [] else base

theorem push_start {α : Type} {new : List Nat → Nat} (hnew : ∀ l, new l ∉ l) {st : St α} (h : Inv st) (name : Str) {k : Nat} (hk : st.cur.path.length < k) :
    ∃ st', Inv st' ∧ st'.fs = st.fs ∧ st'.cur.path = start st.cur.path name ∧ push new k st name = some (pushLoop new st' (words name)) := by
  by_cases hh : name.head? = some '/'
  · have hres : resolve st.cur.path ['/'] = [] := by
      have : comps ['/'] = [] := by rw [comps_eq, words_slash, words_nil]; rfl
      simp [resolve, this]
    obtain ⟨st', h1, h2, h3, h4⟩ := C79_cd_partial hnew h (dir := ['/']) (by simp) (by decide) (by rw [hres]; exact h.good.root) (fun e => Or.inr (by rw [← e, hres])) hk
    refine ⟨st', h2, h3, by rw [h4, hres, start, if_pos hh], ?_⟩
    rw [push, C79_split]
    simp only
    rw [if_pos hh, h1]
  · refine ⟨st, h, rfl, by rw [start, if_neg hh], ?_⟩
    rw [push, C79_split]
    simp only
    rw [if_neg hh]

/-- **C79**, `push`: the groups on the way are made, the last is the current group and nothing else is changed.  Missing from the claim: data sets on the way; see
`C79_push_blocked`. -/
theorem C79_push_partial {α : Type} {new : List Nat → Nat} (hnew : ∀ l, new l ∉ l) {st : St α} (h : Inv st) {name : Str} (hdot : ['.'] ∉ words name)
    (hd : ∀ q a, q <+: words name → st.fs (start st.cur.path name ++ q) ≠ some (.data a)) {k : Nat} (hk : st.cur.path.length < k) :
    ∃ st', push new k st name = some (ok st') ∧ Inv st' ∧ st'.cur.path = start st.cur.path name ++ words name ∧
      st'.fs = along st.fs (start st.cur.path name) (words name) := by
  obtain ⟨s1, h1, h2, h3, h4⟩ := push_start hnew h name hk
  obtain ⟨s2, p1, p2, p3, p4⟩ := pushLoop_ok (new := new) (ts := words name) h1 (fun t ht => ⟨(words_valid ht).1, (words_valid ht).2, fun e => hdot (e ▸ ht)⟩)
    (by rw [h2, h3]; exact hd)
  have := p1 []
  rw [List.append_nil] at this
  exact ⟨s2, by rw [h4, this]; rfl, p2, by rw [p3, h3], by rw [p4, h2, h3]⟩

/-- **C79** fails: if there is a data set on the way, `push` ends without an error in the group that has it. -/
theorem C79_push_blocked {α : Type} {new : List Nat → Nat} (hnew : ∀ l, new l ∉ l) {st : St α} (h : Inv st) {name : Str} (hdot : ['.'] ∉ words name) {q r : List Str} {t : Str}
    (hw : words name = q ++ t :: r) {a : α} (hd : st.fs (start st.cur.path name ++ (q ++ [t])) = some (.data a)) {k : Nat} (hk : st.cur.path.length < k) :
    ∃ st', push new k st name = some (ok st') ∧ Inv st' ∧ st'.cur.path = start st.cur.path name ++ q ∧ st'.fs = st.fs := by
  obtain ⟨s1, h1, h2, h3, h4⟩ := push_start hnew h name hk
  have hq : ∀ p, p <+: q → st.fs (start st.cur.path name ++ p) = some .group := by
    intro p hp
    obtain ⟨u, rfl⟩ := hp
    rcases e : st.fs (start st.cur.path name ++ p) with _ | e'
    · have := h.good.gone (q := u ++ [t]) e
      rw [List.append_assoc, ← List.append_assoc p, hd] at this
      simp at this
    · cases e' with
      | group => rfl
      | data b =>
        have := h.good.leaf e (q := u ++ [t]) (by simp)
        rw [List.append_assoc, ← List.append_assoc p, hd] at this
        simp at this
  obtain ⟨s2, p1, p2, p3, p4⟩ := pushLoop_ok (new := new) (ts := q) h1 (fun t ht => by
      have ht : t ∈ words name := by rw [hw]; simp [ht]
      exact ⟨(words_valid ht).1, (words_valid ht).2, fun e => hdot (e ▸ ht)⟩)
    (by intro p b hp; rw [h2, h3, hq p hp]; simp)
  have hfs : s2.fs = st.fs := by
    rw [p4, h2, h3]
    funext p
    rw [along]
    split
    · rename_i c
      obtain ⟨u, rfl⟩ := c.1
      exact (hq u (by simpa using c.2)).symm
    · rfl
  refine ⟨s2, ?_, p2, by rw [p3, h3], hfs⟩
  rw [h4, hw, p1, pushLoop, hfs, p3, h3, List.append_assoc, hd]

/-- `push` always ends, and what there is stays -/
theorem pushLoop_total {α : Type} {new : List Nat → Nat} : ∀ {ts : List Str} {st : St α}, Inv st → ValidP ts →
    ∃ st', pushLoop new st ts = ok st' ∧ Inv st' ∧ ∀ p, st.fs p ≠ none → st'.fs p = st.fs p
  | [], st, h, _ => ⟨st, rfl, h, fun _ _ => rfl⟩
  | t :: ts, st, h, hv => by
    have hvt := hv t (by simp)
    have hvs : ValidP ts := fun x hx => hv x (by simp [hx])
    rcases hf : st.fs (st.cur.path ++ [t]) with _ | e
    · obtain ⟨st', e1, e2, e3⟩ := pushLoop_total (new := new) (ts := ts)
        (st := ⟨fun p => if p = st.cur.path ++ [t] then some .group else st.fs p, ⟨new st.ids, st.cur.path ++ [t]⟩, new st.ids :: st.ids⟩)
        ⟨good_add h.good h.cur hvt, by simp, by simp⟩ hvs
      refine ⟨st', ?_, e2, fun p hp => ?_⟩
      · rw [pushLoop, hf]
        simp only
        rw [if_neg hvt.2.2, e1]
      · have hne : p ≠ st.cur.path ++ [t] := fun e => hp (e ▸ hf)
        have := e3 p (by simpa [hne] using hp)
        simpa [hne] using this
    · cases e with
      | data a => exact ⟨st, by rw [pushLoop, hf], h, fun _ _ => rfl⟩
      | group =>
        obtain ⟨st', e1, e2, e3⟩ := pushLoop_total (new := new) (ts := ts) (st := ⟨st.fs, ⟨new st.ids, st.cur.path ++ [t]⟩, new st.ids :: st.ids⟩) ⟨h.good, hf, by simp⟩ hvs
        exact ⟨st', by rw [pushLoop, hf]; exact e1, e2, e3⟩

theorem pushLoop_len {α : Type} {new : List Nat → Nat} : ∀ {ts : List Str} {st st' : St α}, pushLoop new st ts = ok st' → st'.cur.path.length ≤ st.cur.path.length + ts.length
  | [], st, st', h => by
    injection h with h
    rw [h]; simp
  | t :: ts, st, st', h => by
    rw [pushLoop] at h
    split at h
    · split at h
      · simp at h
      · have := pushLoop_len h
        simp only [List.length_append, List.length_cons, List.length_nil] at this ⊢
        omega
    · have := pushLoop_len h
      simp only [List.length_append, List.length_cons, List.length_nil] at this ⊢
      omega
    · injection h with h
      rw [h]; simp

/-- **C79**, `mkdir` comes back to the current group, whatever happens on the way. -/
theorem C79_mkdir {α : Type} {new : List Nat → Nat} (hnew : ∀ l, new l ∉ l) {st : St α} (h : Inv st) {name : Str} (hdot : ['.'] ∉ words name) :
    ∃ k₀, ∀ k, k₀ ≤ k → ∃ st', mkdir new k st name = some (ok st') ∧ Inv st' ∧ st'.cur.path = st.cur.path ∧ ∀ p, st.fs p ≠ none → st'.fs p = st.fs p := by
  by_cases hn : name = [] ∨ name = ['/']
  · exact ⟨0, fun k _ => ⟨st, by rw [mkdir, if_pos hn], h, rfl, fun _ _ => rfl⟩⟩
  · -- the state at the beginning of the loop does not depend on the number of steps except for the numbers of the groups
    have hl : ∃ n, ∀ s1 : St α, Inv s1 → s1.fs = st.fs → s1.cur.path = start st.cur.path name → ∀ s2, pushLoop new s1 (words name) = ok s2 → s2.cur.path.length ≤ n :=
      ⟨(start st.cur.path name).length + (words name).length, fun s1 _ _ e s2 h2 => by rw [← e]; exact pushLoop_len h2⟩
    obtain ⟨n, hn'⟩ := hl
    refine ⟨st.cur.path.length + n + 1, fun k hk => ?_⟩
    obtain ⟨s1, h1, h2, h3, h4⟩ := push_start hnew h name (k := k) (by omega)
    obtain ⟨s2, p1, p2, p3⟩ := pushLoop_total (new := new) (ts := words name) h1 fun t ht => ⟨(words_valid ht).1, (words_valid ht).2, fun e => hdot (e ▸ ht)⟩
    have hle := hn' s1 h1 h2 h3 s2 p1
    have hv := h.valid
    have hres : resolve s2.cur.path (pwd st) = st.cur.path := by rw [pwd, resolve_render hv]
    have hgr : s2.fs st.cur.path = some .group := by
      rw [p3 _ (by rw [h2, h.cur]; simp), h2, h.cur]
    obtain ⟨s3, q1, q2, q3, q4⟩ := C79_cd_partial hnew p2 (dir := pwd st) (render_ne _)
      (by intro e; have := render_head st.cur.path; rw [show render st.cur.path = _ from e] at this; simp at this) (by rw [hres]; exact hgr)
      (fun e => Or.inl (by rw [hres] at e; rw [pwd, pwd, e])) (k := k) (by omega)
    refine ⟨s3, ?_, q2, by rw [q4, hres], fun p hp => ?_⟩
    · rw [mkdir, if_neg hn, h4, p1]
      exact q1
    · rw [q3, p3 p (by rw [h2]; exact hp), h2]

/-! ## looking for objects -/

theorem existsLoop_eq {α : Type} {f : Fs α} (h : f.Good) : ∀ {ts p : List Str}, f p ≠ none → existsLoop f p ts = (f (p ++ ts)).isSome
  | [], p, hp => by
    rw [existsLoop, List.append_nil]
    exact (Option.isSome_iff_ne_none.2 hp).symm
  | t :: ts, p, hp => by
    rw [existsLoop, show p ++ t :: ts = (p ++ [t]) ++ ts by simp]
    by_cases e : f (p ++ [t]) = none
    · rw [h.gone e, e]
      rfl
    · rw [if_pos (Option.isSome_iff_ne_none.2 e), existsLoop_eq h e]

/-- **C79**, `objectExists` tells if there is something at a path.  Missing from the claim: paths without a name; see `C79_exists_root_fails`. -/
theorem C79_exists_partial {α : Type} {st : St α} (h : Inv st) {name : Str} (hw : words name ≠ []) :
    objectExists st name = ok (st.fs (start st.cur.path name ++ words name)).isSome := by
  rw [objectExists, C79_split, ok_bind]
  show (rd (words name) 0 >>= _) = _
  rcases e : words name with _ | ⟨t, ts⟩
  · exact absurd e hw
  · rw [show rd (t :: ts) 0 = ok t from rfl, ok_bind, List.tail_cons, show start st.cur.path name ++ t :: ts = (start st.cur.path name ++ [t]) ++ ts by simp]
    show (if (st.fs (start st.cur.path name ++ [t])).isSome = true then _ else _) = _
    by_cases hn : st.fs (start st.cur.path name ++ [t]) = none
    · rw [h.good.gone hn, hn]
      rfl
    · rw [if_pos (Option.isSome_iff_ne_none.2 hn), ← existsLoop_eq h.good hn]
      rfl

/-- **C79** fails: asking for the root, or for the empty path, is undefined. -/
theorem C79_exists_root_fails {α : Type} (st : St α) {name : Str} (hw : words name = []) : objectExists st name = ub := by
  rw [objectExists, C79_split, ok_bind, hw]
  rfl

/-! ## push and pop -/

/-- **C79**, `push` and `pop` -/
theorem C79_push_pop {α : Type} {new : List Nat → Nat} (hnew : ∀ l, new l ∉ l) {st : St α} (h : Inv st) {name : Str} (hdot : ['.'] ∉ words name)
    (hd : ∀ q a, q <+: words name → st.fs (start st.cur.path name ++ q) ≠ some (.data a)) {k : Nat} (hk : st.cur.path.length < k) :
    ∃ s1 s2, push new k st name = some (ok s1) ∧ pop new s1 = ok s2 ∧ s2.cur.path = (start st.cur.path name ++ words name).dropLast := by
  obtain ⟨s1, h1, h2, h3, -⟩ := C79_push_partial hnew h hdot hd hk
  obtain ⟨s2, p1, -, -, p4, -⟩ := C79_pop hnew h2
  exact ⟨s1, s2, h1, p1, by rw [p4, h3]⟩

/-- **C79**, for a path from the current group: `pop` takes back `push` only if the path has one name. -/
theorem C79_push_pop_back {base ts : List Str} (h : ts ≠ []) : (base ++ ts).dropLast = base ↔ ts.length = 1 := by
  constructor
  · intro e
    have := congrArg List.length e
    have h1 := List.length_pos_iff.2 h
    rw [List.length_dropLast, List.length_append] at this
    omega
  · intro e
    obtain ⟨t, rfl⟩ := List.length_eq_one_iff.1 e
    simp

/-- **C79** fails: if there is a data set with the name, `push` and `pop` end in the parent of the current group. -/
theorem C79_push_pop_blocked {α : Type} {new : List Nat → Nat} (hnew : ∀ l, new l ∉ l) {st : St α} (h : Inv st) {t : Str} (ht : Valid t) {a : α}
    (hd : st.fs (st.cur.path ++ [t]) = some (.data a)) {k : Nat} (hk : st.cur.path.length < k) :
    ∃ s1 s2, push new k st t = some (ok s1) ∧ pop new s1 = ok s2 ∧ s2.cur.path = st.cur.path.dropLast := by
  have hs : start st.cur.path t = st.cur.path := by
    rw [start, if_neg]
    intro e
    cases t with
    | nil => simp at e
    | cons c t =>
      simp only [List.head?_cons, Option.some.injEq] at e
      exact ht.2.1 (by simp [e])
  have hw := words_single ht.2.1 ht.1
  obtain ⟨s1, h1, h2, h3, -⟩ := C79_push_blocked hnew h (name := t) (by rw [hw]; simpa using Ne.symm ht.2.2) (q := []) (r := []) (t := t) hw (a := a) (by rw [hs]; exact hd) hk
  obtain ⟨s2, p1, -, -, p4, -⟩ := C79_pop hnew h2
  exact ⟨s1, s2, h1, p1, by rw [p4, h3, hs, List.append_nil]⟩

/-! ## examples -/

/-- numbers for groups: one more than the largest -/
def next (l : List Nat) : Nat := l.foldr max 0 + 1

theorem le_fold {l : List Nat} {x : Nat} (h : x ∈ l) : x ≤ l.foldr max 0 := by
  induction l with
  | nil => simp at h
  | cons y l ih =>
    rw [List.foldr_cons]
    rcases List.mem_cons.1 h with rfl | h
    · exact Nat.le_max_left _ _
    · exact Nat.le_trans (ih h) (Nat.le_max_right _ _)

theorem next_new (l : List Nat) : next l ∉ l := fun h => by
  have := le_fold h
  rw [next] at this
  omega

/-- groups `/a` and `/a/b`, a data set `/a/d` -/
def fs0 : Fs Nat := fun p =>
  if p = [] ∨ p = [['a']] ∨ p = [['a'], ['b']] then some .group else if p = [['a'], ['d']] then some (.data 7) else none
def st0 : St Nat := ⟨fs0, ⟨3, [['a']]⟩, [1, 3]⟩

theorem fs0_good : fs0.Good where
  root := by simp [fs0]
  tree := fun p t h => by
    simp only [fs0] at h ⊢
    rcases p with _ | ⟨x, _ | ⟨y, _ | ⟨z, p⟩⟩⟩
    · simp
    · by_cases hx : x = ['a']
      · simp [hx]
      · simp [hx] at h
    · simp at h
    · simp at h
  name := fun p t h => by
    simp only [fs0] at h
    rcases p with _ | ⟨x, _ | ⟨y, _ | ⟨z, p⟩⟩⟩
    · simp at h
      subst h
      exact ⟨by decide, by decide, by decide⟩
    · by_cases h1 : t = ['b']
      · rw [h1]; exact ⟨by decide, by decide, by decide⟩
      · by_cases h2 : t = ['d']
        · rw [h2]; exact ⟨by decide, by decide, by decide⟩
        · simp [h1, h2] at h
    · simp at h
    · simp at h

theorem st0_inv : Inv st0 := ⟨fs0_good, by simp [st0, fs0], by simp [st0]⟩

/-- the path of the current group -/
def at? (o : Option (Outcome (St Nat))) : Option (Option Str) := o.map fun r => match r with
  | ok s => some (pwd s)
  | _ => none

example : splitPathname "//a//b/".toList = ok [['a'], ['b']] := by rw [C79_split]; decide
example : at? (push next 9 st0 "b/c/e".toList) = some (some "/a/b/c/e".toList) := by
  simp only [push, C79_split]; decide +kernel
example : at? (push next 9 st0 "/x".toList) = some (some "/x".toList) := by
  simp only [push, C79_split]; decide +kernel
/-- a data set on the way -/
example : at? (push next 9 st0 "d/c".toList) = some (some "/a".toList) := by
  simp only [push, C79_split]; decide +kernel
example : at? (cd next 9 st0 "b".toList) = some (some "/a/b".toList) := by decide +kernel
example : at? (cd next 9 st0 "/".toList) = some (some "/".toList) := by decide +kernel
example : at? (cd next 9 st0 "..".toList) = some (some "/".toList) := by decide +kernel
example : at? (cd next 9 st0 "x".toList) = some (some "/a".toList) := by decide +kernel
/-- the current group by other names: never ends -/
example (k : Nat) : cd next k st0 ".".toList = none := C79_cd_hangs next_new st0_inv (by decide) (by decide) (by decide) (by decide +kernel) (by decide) k
example (k : Nat) : cd next k st0 "/a/".toList = none := C79_cd_hangs next_new st0_inv (by decide) (by decide) (by decide) (by decide +kernel) (by decide) k
example : objectExists st0 "d".toList = ok true := by rw [C79_exists_partial st0_inv (by decide +kernel)]; decide +kernel
example : objectExists st0 "/a/c".toList = ok false := by rw [C79_exists_partial st0_inv (by decide +kernel)]; decide +kernel
example : objectExists st0 "/".toList = ub := C79_exists_root_fails st0 (by decide +kernel)

end Verif.Hdf5Path
