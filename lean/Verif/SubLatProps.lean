import Verif.SubLat
import Mathlib.Data.List.Perm.Subperm
/-
C88: statements on sublattices act on the values at the sites of the subset.  Which do not: a number or scalar assigned to a sublattice with memory of its own
(only the first site), components poked into one, an assignment between sublattices of different subsets, a sum over a view; and `x[s] = ..` for a scalar `x`.
-/
namespace Verif.SubLat
open Verif Outcome Verif.Subset Verif.LatticeIO

variable {T : Type} {E : Env T}

/-! ## loops -/

theorem set_map (n i : Nat) (cur : Nat → T) (v : T) : ((List.range n).map cur).set i v = (List.range n).map (Function.update cur i v) := by
  apply List.ext_getElem (by simp)
  intro k h1 h2
  rw [List.getElem_set]
  simp only [List.getElem_map, List.getElem_range, Function.update_apply, eq_comm]

theorem put_upd {h : Heap T} {b : Blk} {i n : Nat} {cur : Nat → T} {v : T} (hi : i < n) :
    put (Function.update h b (some ((List.range n).map cur))) b i v = ok (Function.update h b (some ((List.range n).map (Function.update cur i v)))) := by
  simp only [put, Function.update_self, List.length_map, List.length_range, if_pos hi, set_map, Function.update_idem]

theorem get_upd {h : Heap T} {b : Blk} {i n : Nat} {cur : Nat → T} (hi : i < n) :
    get (Function.update h b (some ((List.range n).map cur))) b i = ok (cur i) := by
  simp only [get, Function.update_self]
  rw [rd_of_lt (by simpa using hi)]
  simp

theorem get_other {h : Heap T} {b c : Blk} {i : Nat} {l : Option (List T)} (hc : c ≠ b) : get (Function.update h b l) c i = get h c i := by
  simp only [get, Function.update_of_ne hc]

/-- a loop that stores `new i` at the places `t j`, each of which it visits once, and reads nothing of the block but what was there before at the place -/
theorem loop {body : Heap T → Nat → Outcome (Heap T)} {b : Blk} {n : Nat} {g new : Nat → T} {h : Heap T} (t : Nat → Nat) : ∀ (js : List Nat) (cur : Nat → T),
    (js.map t).Nodup → (∀ j ∈ js, t j < n) → (∀ j ∈ js, cur (t j) = g (t j)) →
    (∀ (cur : Nat → T) j, j ∈ js → cur (t j) = g (t j) →
      body (Function.update h b (some ((List.range n).map cur))) j = put (Function.update h b (some ((List.range n).map cur))) b (t j) (new (t j))) →
    foldO body (Function.update h b (some ((List.range n).map cur))) js =
      ok (Function.update h b (some ((List.range n).map (fun i => if i ∈ js.map t then new i else cur i))))
  | [], cur, _, _, _, _ => by simp [foldO]
  | j :: js, cur, hn, hlt, hc, hb => by
    simp only [List.map_cons, List.nodup_cons] at hn
    rw [foldO, hb cur j (by simp) (hc j (by simp)), put_upd (hlt j (by simp)), ok_bind,
      loop t js (Function.update cur (t j) (new (t j))) hn.2 (fun k hk => hlt k (by simp [hk])) (fun k hk => by
        rw [Function.update_of_ne]
        · exact hc k (by simp [hk])
        · intro he
          exact hn.1 (he ▸ List.mem_map_of_mem hk)) (fun cur k hk => hb cur k (by simp [hk]))]
    congr 4
    funext i
    by_cases hi : i ∈ js.map t
    · simp [hi]
    · simp only [hi, if_false, List.map_cons, List.mem_cons, or_false, Function.update_apply]
      by_cases h' : i = t j <;> simp [h']

/-- the same from a heap that holds the block -/
theorem loop' {body : Heap T → Nat → Outcome (Heap T)} {b : Blk} {n : Nat} {g new : Nat → T} {h : Heap T} (t : Nat → Nat) (js : List Nat)
    (hh : h b = some ((List.range n).map g)) (hn : (js.map t).Nodup) (hlt : ∀ j ∈ js, t j < n)
    (hb : ∀ (cur : Nat → T) j, j ∈ js → cur (t j) = g (t j) →
      body (Function.update h b (some ((List.range n).map cur))) j = put (Function.update h b (some ((List.range n).map cur))) b (t j) (new (t j))) :
    foldO body h js = ok (Function.update h b (some ((List.range n).map (fun i => if i ∈ js.map t then new i else g i)))) := by
  have := loop (h := h) t js g hn hlt (fun _ _ => rfl) hb
  rwa [← hh, Function.update_eq_self] at this

/-- a packed block as a function of the position -/
theorem packed (tab : List Nat) (φ : Nat → T) : tab.map φ = (List.range tab.length).map (fun j => φ (tab.getD j 0)) := by
  apply List.ext_getElem (by simp)
  intro k h1 h2
  have : k < tab.length := by simpa using h1
  simp [List.getD_eq_getElem?_getD, this]

theorem positions (tab : List Nat) : (List.range tab.length).map (fun j => tab.getD j 0) = tab := by
  rw [← packed tab (fun i => i), List.map_id']

theorem rd_tab {tab : List Nat} {j : Nat} (hj : j < tab.length) : rd tab j = ok (tab.getD j 0) := by
  rw [rd_of_lt hj]
  simp [List.getD_eq_getElem?_getD, hj]

theorem mem_tab {tab : List Nat} {j : Nat} (hj : j < tab.length) : tab.getD j 0 ∈ tab := by
  have : tab.getD j 0 = tab[j] := by simp [List.getD_eq_getElem?_getD, hj]
  rw [this]
  exact List.getElem_mem hj

/-- a loop over the positions of a packed block -/
theorem loopF {body : Heap T → Nat → Outcome (Heap T)} {b : Blk} {tab : List Nat} {φ ψ : Nat → T} {h : Heap T} (hh : h b = some (tab.map φ))
    (hb : ∀ (cur : Nat → T) j, j < tab.length → cur j = φ (tab.getD j 0) →
      body (Function.update h b (some ((List.range tab.length).map cur))) j =
        put (Function.update h b (some ((List.range tab.length).map cur))) b j (ψ (tab.getD j 0))) :
    foldO body h (List.range tab.length) = ok (Function.update h b (some (tab.map ψ))) := by
  rw [packed] at hh
  rw [loop' (t := id) (new := fun j => ψ (tab.getD j 0)) (List.range tab.length) hh (by simpa using List.nodup_range) (by simp)
    (fun cur j hj hc => hb cur j (by simpa using hj) (by simpa using hc)), packed tab ψ]
  congr 3
  apply List.map_congr_left
  intro j hj
  simp only [List.map_id, hj, if_true]

/-! ## representation -/

/-- legal tables: every subset lists sites of the node, none twice -/
structure Env.Good (E : Env T) : Prop where
  nodup : ∀ s, (E.tab s).Nodup
  lt : ∀ s, ∀ i ∈ E.tab s, i < E.sites

/-- the object that represents a variable whose own memory is the block `b` -/
def conc (b : Blk) : Option (AObj T) → Option Obj
  | none => none
  | some .unset => some ⟨none, false, none⟩
  | some (.view f s) => some ⟨some (.lat f), false, some s⟩
  | some (.own s _) => some ⟨some b, true, some s⟩

/-- the state represents the values `a`: every lattice, every sublattice with memory of its own has a block for itself; no other block is live -/
structure RepB (E : Env T) (B : Nat → Blk) (heap : Heap T) (next : Nat) (obj : Nat → Option Obj) (field : Nat → Nat → T) (aobj : Nat → Option (AObj T)) : Prop where
  lat : ∀ f, heap (.lat f) = some ((List.range E.sites).map (field f))
  obj : ∀ x, obj x = conc (B x) (aobj x)
  mem : ∀ x s φ, aobj x = some (.own s φ) → (∀ k, next ≤ k → B x ≠ .mem k) ∧ (∀ f, B x ≠ (.lat f)) ∧ heap (B x) = some ((E.tab s).map φ)
  sep : ∀ x y s φ t ψ, aobj x = some (.own s φ) → aobj y = some (.own t ψ) → B x = B y → x = y
  live : ∀ b, heap b ≠ none → (∃ f, b = (.lat f)) ∨ ∃ x s φ, aobj x = some (.own s φ) ∧ b = B x

/-- the state represents the values `a` -/
def Rep (E : Env T) (w : World T) (a : Abs T) : Prop := ∃ B, RepB E B w.heap w.next w.obj a.field a.obj

variable {B : Nat → Blk} {heap : Heap T} {next : Nat} {obj : Nat → Option Obj} {field : Nat → Nat → T} {aobj : Nat → Option (AObj T)}

theorem RepB.modField (hE : E.Good) (h : RepB E B heap next obj field aobj) (f : Nat) (g : Nat → T) :
    RepB E B (Function.update heap (.lat f) (some ((List.range E.sites).map g))) next obj (Function.update field f g) aobj where
  lat f' := by
    by_cases hf : f' = f
    · subst hf; simp
    · simp only [Function.update_of_ne hf]
      rw [Function.update_of_ne (fun he => hf (Blk.lat.inj he))]
      exact h.lat f'
  obj := h.obj
  mem x s φ hx := by
    obtain ⟨h1, h2, h3⟩ := h.mem x s φ hx
    exact ⟨h1, h2, by rw [Function.update_of_ne (h2 f)]; exact h3⟩
  sep := h.sep
  live b hb := by
    by_cases hl : b = (.lat f)
    · exact Or.inl ⟨f, hl⟩
    · exact h.live b (by simpa [Function.update_of_ne hl] using hb)

theorem RepB.modOwn (h : RepB E B heap next obj field aobj) {x s : Nat} {φ : Nat → T} (hx : aobj x = some (.own s φ)) (ψ : Nat → T) :
    RepB E B (Function.update heap (B x) (some ((E.tab s).map ψ))) next obj field (Function.update aobj x (some (.own s ψ))) where
  lat f := by rw [Function.update_of_ne (Ne.symm ((h.mem x s φ hx).2.1 f))]; exact h.lat f
  obj y := by
    by_cases hy : y = x
    · subst hy; simpa [hx, conc] using h.obj y
    · simpa [Function.update_of_ne hy] using h.obj y
  mem y t χ hy := by
    by_cases hyx : y = x
    · subst hyx
      simp only [Function.update_self, Option.some.injEq, AObj.own.injEq] at hy
      obtain ⟨rfl, rfl⟩ := hy
      obtain ⟨h1, h2, -⟩ := h.mem y _ _ hx
      exact ⟨h1, h2, by simp⟩
    · rw [Function.update_of_ne hyx] at hy
      obtain ⟨h1, h2, h3⟩ := h.mem y t χ hy
      exact ⟨h1, h2, by rw [Function.update_of_ne (fun he => hyx (h.sep _ _ _ _ _ _ hy hx he))]; exact h3⟩
  sep y z t χ u ω hy hz he := by
    have key : ∀ v t χ, Function.update aobj x (some (.own s ψ)) v = some (.own t χ) → ∃ t χ, aobj v = some (.own t χ) := by
      intro v t χ hv
      by_cases hvx : v = x
      · subst hvx; exact ⟨_, _, hx⟩
      · rw [Function.update_of_ne hvx] at hv; exact ⟨_, _, hv⟩
    obtain ⟨_, _, h1⟩ := key y t χ hy
    obtain ⟨_, _, h2⟩ := key z u ω hz
    exact h.sep _ _ _ _ _ _ h1 h2 he
  live b hb := by
    by_cases hl : b = B x
    · exact Or.inr ⟨x, s, ψ, by simp, hl⟩
    · rw [Function.update_of_ne hl] at hb
      rcases h.live b hb with h1 | ⟨y, t, χ, h1, h2⟩
      · exact Or.inl h1
      · have : y ≠ x := fun he => hl (he ▸ h2)
        exact Or.inr ⟨y, t, χ, by rw [Function.update_of_ne this]; exact h1, h2⟩

/-- a new variable with memory of its own; `x` had none -/
theorem RepB.newOwn (h : RepB E B heap next obj field aobj) {x s : Nat} (hx : ∀ s φ, aobj x ≠ some (.own s φ)) (ψ : Nat → T) :
    RepB E (Function.update B x (.mem next)) (Function.update heap (.mem next) (some ((E.tab s).map ψ))) (next + 1) (Function.update obj x (some ⟨some (.mem next), true, some s⟩))
      field (Function.update aobj x (some (.own s ψ))) where
  lat f := by rw [Function.update_of_ne (by simp)]; exact h.lat f
  obj y := by
    by_cases hy : y = x
    · subst hy; simp [conc]
    · simpa [Function.update_of_ne hy] using h.obj y
  mem y t χ hy := by
    by_cases hyx : y = x
    · subst hyx
      simp only [Function.update_self, Option.some.injEq, AObj.own.injEq] at hy ⊢
      obtain ⟨rfl, rfl⟩ := hy
      exact ⟨fun k hk he => by have := Blk.mem.inj he; omega, by simp, rfl⟩
    · rw [Function.update_of_ne hyx] at hy ⊢
      obtain ⟨h1, h2, h3⟩ := h.mem y t χ hy
      exact ⟨fun k hk => h1 k (by omega), h2, by rw [Function.update_of_ne (h1 _ (Nat.le_refl _))]; exact h3⟩
  sep y z t χ u ω hy hz he := by
    by_cases h1 : y = x
    · by_cases h2 : z = x
      · rw [h1, h2]
      · rw [Function.update_of_ne h2] at hz
        subst h1
        rw [Function.update_self, Function.update_of_ne h2] at he
        exact absurd he.symm ((h.mem z _ _ hz).1 _ (Nat.le_refl _))
    · rw [Function.update_of_ne h1] at hy
      by_cases h2 : z = x
      · subst h2
        rw [Function.update_self, Function.update_of_ne h1] at he
        exact absurd he ((h.mem y _ _ hy).1 _ (Nat.le_refl _))
      · rw [Function.update_of_ne h2] at hz
        rw [Function.update_of_ne h1, Function.update_of_ne h2] at he
        exact h.sep _ _ _ _ _ _ hy hz he
  live b hb := by
    by_cases hl : b = .mem next
    · exact Or.inr ⟨x, s, ψ, by simp, by simp [hl]⟩
    · rw [Function.update_of_ne hl] at hb
      rcases h.live b hb with h1 | ⟨y, t, χ, h1, h2⟩
      · exact Or.inl h1
      · have : y ≠ x := fun he => hx _ _ (he ▸ h1)
        exact Or.inr ⟨y, t, χ, by rw [Function.update_of_ne this]; exact h1, by rw [Function.update_of_ne this]; exact h2⟩

/-- a variable without memory of its own before and after -/
theorem RepB.setPlain (h : RepB E B heap next obj field aobj) {x : Nat} (hx : ∀ s φ, aobj x ≠ some (.own s φ)) (o : Option (AObj T)) (ho : ∀ s φ, o ≠ some (.own s φ)) :
    RepB E B heap next (Function.update obj x (conc (.mem 0) o)) field (Function.update aobj x o) where
  lat := h.lat
  obj y := by
    by_cases hy : y = x
    · subst hy
      simp only [Function.update_self]
      match o, ho with
      | none, _ => rfl
      | some .unset, _ => rfl
      | some (.view _ _), _ => rfl
      | some (.own s φ), ho => exact absurd rfl (ho s φ)
    · simpa [Function.update_of_ne hy] using h.obj y
  mem y t χ hy := by
    by_cases hyx : y = x
    · subst hyx; rw [Function.update_self] at hy; exact absurd hy (ho _ _)
    · rw [Function.update_of_ne hyx] at hy; exact h.mem y t χ hy
  sep y z t χ u ω hy hz he := by
    by_cases h1 : y = x
    · subst h1; rw [Function.update_self] at hy; exact absurd hy (ho _ _)
    by_cases h2 : z = x
    · subst h2; rw [Function.update_self] at hz; exact absurd hz (ho _ _)
    rw [Function.update_of_ne h1] at hy
    rw [Function.update_of_ne h2] at hz
    exact h.sep _ _ _ _ _ _ hy hz he
  live b hb := by
    rcases h.live b hb with h1 | ⟨y, t, χ, h1, h2⟩
    · exact Or.inl h1
    · have : y ≠ x := fun he => hx _ _ (he ▸ h1)
      exact Or.inr ⟨y, t, χ, by rw [Function.update_of_ne this]; exact h1, h2⟩

/-- memory of its own given back -/
theorem RepB.drop (h : RepB E B heap next obj field aobj) {x s : Nat} {φ : Nat → T} (hx : aobj x = some (.own s φ)) :
    RepB E B (Function.update heap (B x) none) next (Function.update obj x none) field (Function.update aobj x none) where
  lat f := by rw [Function.update_of_ne (Ne.symm ((h.mem x s φ hx).2.1 f))]; exact h.lat f
  obj y := by
    by_cases hy : y = x
    · subst hy; simp [conc]
    · simpa [Function.update_of_ne hy] using h.obj y
  mem y t χ hy := by
    by_cases hyx : y = x
    · subst hyx; simp at hy
    · rw [Function.update_of_ne hyx] at hy
      obtain ⟨h1, h2, h3⟩ := h.mem y t χ hy
      exact ⟨h1, h2, by rw [Function.update_of_ne (fun he => hyx (h.sep _ _ _ _ _ _ hy hx he))]; exact h3⟩
  sep y z t χ u ω hy hz he := by
    by_cases h1 : y = x
    · subst h1; simp at hy
    by_cases h2 : z = x
    · subst h2; simp at hz
    rw [Function.update_of_ne h1] at hy
    rw [Function.update_of_ne h2] at hz
    exact h.sep _ _ _ _ _ _ hy hz he
  live b hb := by
    by_cases hl : b = B x
    · subst hl; simp at hb
    · rw [Function.update_of_ne hl] at hb
      rcases h.live b hb with h1 | ⟨y, t, χ, h1, h2⟩
      · exact Or.inl h1
      · have : y ≠ x := fun he => hl (he ▸ h2)
        exact Or.inr ⟨y, t, χ, by rw [Function.update_of_ne this]; exact h1, h2⟩

variable {w : World T} {a : Abs T}

/-! ## the statements -/

/-- the statements that act as they should: see the theorems below for the others -/
def Op.Legal (E : Env T) (a : Abs T) : Op T → Prop
  | .create x => a.obj x = none
  | .view x _ _ => a.obj x = none
  | .own x _ _ => a.obj x = none
  | .copy x y => a.obj x = none ∧ a.obj y ≠ none
  | .setSubset x _ => a.obj x = some .unset ∨ ∃ s φ, a.obj x = some (.own s φ)
  | .destroy x => a.obj x ≠ none
  | .scal x _ _ => (∃ f s, a.obj x = some (.view f s)) ∨ ∃ s φ, a.obj x = some (.own s φ) ∧ (E.tab s).length = 1
  | .zero x _ => (∃ f s, a.obj x = some (.view f s)) ∨ ∃ s φ, a.obj x = some (.own s φ)
  | .expr x _ _ => (∃ f s, a.obj x = some (.view f s)) ∨ ∃ s φ, a.obj x = some (.own s φ)
  | .poke x _ _ => (∃ f s, a.obj x = some (.view f s)) ∨ ∃ s φ, a.obj x = some (.own s φ) ∧ E.tab s = List.range (E.tab s).length
  | .assign x y => ∃ s φ t ψ, a.obj x = some (.own s φ) ∧ a.obj y = some (.own t ψ) ∧ E.tab s = E.tab t
  | .toField _ x => ∃ s φ, a.obj x = some (.own s φ)
  | .inner z x _ _ => a.obj z = none ∧ ∃ s φ, a.obj x = some (.own s φ)

theorem map_on (s : Nat) (new old : Nat → T) : (E.tab s).map (on E s new old) = (E.tab s).map new :=
  List.map_congr_left (fun i hi => by simp [on, hi])

theorem rhs_at {e : Rhs T} {h : Heap T} {i : Nat} {field : Nat → Nat → T} (hr : ∀ f, get h (.lat f) i = ok (field f i)) :
    e.at h i = ok (e.val field i) := by
  rw [Rhs.at, mapO_ok (h := fun f => field f i) (fun f _ => hr f)]
  rfl

theorem RepB.getLat (h : RepB E B w.heap w.next w.obj a.field a.obj) {f i : Nat} (hi : i < E.sites) : get w.heap (.lat f) i = ok (a.field f i) := by
  rw [get, h.lat f]
  dsimp only
  rw [rd_of_lt (by simpa using hi)]
  simp

/-- a lattice read while a block of its own is being written -/
theorem RepB.getLat' (h : RepB E B w.heap w.next w.obj a.field a.obj) {f i : Nat} {b : Blk} {l : Option (List T)} (hb : ∀ f, b ≠ (.lat f)) (hi : i < E.sites) :
    get (Function.update w.heap b l) (.lat f) i = ok (a.field f i) := by
  rw [get_other (Ne.symm (hb f)), h.getLat hi]

/-- a lattice read at a place not yet written -/
theorem RepB.getLatSelf (hE : E.Good) (h : RepB E B w.heap w.next w.obj a.field a.obj) {f f' i : Nat} {cur : Nat → T} (hi : i < E.sites) (hc : cur i = a.field f i) :
    get (Function.update w.heap (.lat f) (some ((List.range E.sites).map cur))) (.lat f') i = ok (a.field f' i) := by
  by_cases hf : f' = f
  · subst hf; rw [get_upd hi, hc]
  · rw [get_other (fun he => hf (Blk.lat.inj he)), h.getLat hi]

/-- the loops over the sites of a view -/
theorem view_loop (hE : E.Good) (h : RepB E B w.heap w.next w.obj a.field a.obj) (f s : Nat) (new : T → Nat → T) {body : Heap T → Nat → Outcome (Heap T)}
    (hb : ∀ (cur : Nat → T) i, i ∈ E.tab s → cur i = a.field f i →
      body (Function.update w.heap (.lat f) (some ((List.range E.sites).map cur))) i =
        put (Function.update w.heap (.lat f) (some ((List.range E.sites).map cur))) (.lat f) i (new (a.field f i) i)) :
    foldO body w.heap (E.tab s) = ok (Function.update w.heap (.lat f) (some ((List.range E.sites).map
      (on E s (fun i => new (a.field f i) i) (a.field f))))) := by
  rw [loop' (t := id) (new := fun i => new (a.field f i) i) (E.tab s) (h.lat f) (by simpa using hE.nodup s) (fun i hi => hE.lt s i hi)
    (fun cur i hi hc => hb cur i hi hc)]
  simp only [List.map_id]
  rfl

theorem declare_none {x : Nat} {o : Obj} (hx : w.obj x = none) : w.declare x o = ok ⟨w.heap, w.next, Function.update w.obj x (some o)⟩ := by
  rw [World.declare, hx]

theorem var_some {x : Nat} {o : Obj} (hx : w.obj x = some o) : w.var x = ok o := by rw [World.var, hx]; rfl

/-- modification of the values at the sites of a view -/
theorem modV (hE : E.Good) (h : RepB E B w.heap w.next w.obj a.field a.obj) {x f s : Nat} (hx : a.obj x = some (.view f s)) (new : T → Nat → T) :
    RepB E B (Function.update w.heap (.lat f) (some ((List.range E.sites).map (on E s (fun i => new (a.field f i) i) (a.field f))))) w.next w.obj
      (a.modify E x new).field (a.modify E x new).obj := by
  rw [Abs.modify, hx]
  exact h.modField hE f _

/-- modification of the values of a sublattice with memory of its own -/
theorem modO (h : RepB E B w.heap w.next w.obj a.field a.obj) {x s : Nat} {φ : Nat → T} (hx : a.obj x = some (.own s φ)) (new : T → Nat → T) :
    RepB E B (Function.update w.heap (B x) (some ((E.tab s).map (fun i => new (φ i) i)))) w.next w.obj
      (a.modify E x new).field (a.modify E x new).obj := by
  rw [Abs.modify, hx, ← map_on (E := E) s _ φ]
  exact h.modOwn hx _

theorem fin {B' : Nat → Blk} {hp : Heap T} {n : Nat} {ob : Nat → Option Obj} {fl : Nat → Nat → T} {ao : Nat → Option (AObj T)} {o : Op T} (junk : Nat → T)
    (hr : RepB E B' hp n ob fl ao) (hw : want E junk a o = ⟨fl, ao⟩) (hs : step E w o = ok ⟨hp, n, ob⟩) :
    ∃ junk w' B', step E w o = ok w' ∧ RepB E B' w'.heap w'.next w'.obj (want E junk a o).field (want E junk a o).obj :=
  ⟨junk, _, B', hs, by rw [hw]; exact hr⟩

theorem step_rep (hE : E.Good) (h : RepB E B w.heap w.next w.obj a.field a.obj) (o : Op T) (hl : o.Legal E a) : ∃ junk w' B', step E w o = ok w' ∧ RepB E B' w'.heap w'.next w'.obj (want E junk a o).field (want E junk a o).obj := by
  have hjunk : ∀ s b, ∃ junk : Nat → T, (List.range (E.tab s).length).map (E.junk b) = (E.tab s).map junk := by
    intro s b
    refine ⟨fun i => E.junk b ((E.tab s).idxOf i), ?_⟩
    rw [packed (E.tab s)]
    apply List.map_congr_left
    intro j hj
    have hj : j < (E.tab s).length := by simpa using hj
    have : (E.tab s).getD j 0 = (E.tab s)[j] := by simp [List.getD_eq_getElem?_getD, hj]
    rw [this, (hE.nodup s).idxOf_getElem]
  cases o with
  | create x =>
    have hx : a.obj x = none := hl
    exact ⟨a.field 0, _, B, declare_none (by rw [h.obj, hx]; rfl), h.setPlain (by simp [hx]) (some .unset) (by simp)⟩
  | view x f s =>
    have hx : a.obj x = none := hl
    exact ⟨a.field 0, _, B, declare_none (by rw [h.obj, hx]; rfl), h.setPlain (by simp [hx]) (some (.view f s)) (by simp)⟩
  | own x s f =>
    have hx : a.obj x = none := hl
    obtain ⟨junk, hj⟩ := hjunk s w.next
    have hne : ∀ f, Blk.mem w.next ≠ .lat f := by simp
    have hloop := loopF (tab := E.tab s) (b := .mem w.next) (φ := junk) (ψ := a.field f)
      (h := Function.update w.heap (.mem w.next) (some ((List.range (E.tab s).length).map (E.junk w.next))))
      (body := fun h j => do let i ← rd (E.tab s) j; let v ← get h (.lat f) i; put h (.mem w.next) j v) (by simp [hj]) (by
        intro cur j hjl _
        simp only [Function.update_idem]
        rw [rd_tab hjl, ok_bind, h.getLat' hne (hE.lt s _ (mem_tab hjl)), ok_bind])
    rw [Function.update_idem] at hloop
    refine fin (a.field 0) (h.newOwn (x := x) (s := s) (by simp [hx]) (a.field f)) rfl ?_
    simp only [step, alloc]
    rw [hloop, ok_bind, declare_none (by simp [h.obj, hx, conc])]
  | copy x y =>
    obtain ⟨hx, hy⟩ := hl
    have hxw : w.obj x = none := by rw [h.obj, hx]; rfl
    cases hay : a.obj y with
    | none => exact absurd hay hy
    | some o =>
      cases o with
      | unset =>
        refine fin (a.field 0) (h.setPlain (x := x) (by simp [hx]) (some .unset) (by simp)) (by rw [want, hay]) ?_
        rw [step, var_some (o := ⟨none, false, none⟩) (by rw [h.obj, hay]; rfl), ok_bind, if_neg (by simp), declare_none hxw]
        rfl
      | view f s =>
        refine fin (a.field 0) (h.setPlain (x := x) (by simp [hx]) (some (.view f s)) (by simp)) (by rw [want, hay]) ?_
        rw [step, var_some (o := ⟨some (.lat f), false, some s⟩) (by rw [h.obj, hay]; rfl), ok_bind, if_neg (by simp), declare_none hxw]
        rfl
      | own s φ =>
        obtain ⟨junk, hj⟩ := hjunk s w.next
        obtain ⟨m1, m2, m3⟩ := h.mem y s φ hay
        have hloop := loopF (tab := E.tab s) (b := .mem w.next) (φ := junk) (ψ := φ)
          (h := Function.update w.heap (.mem w.next) (some ((List.range (E.tab s).length).map (E.junk w.next))))
          (body := fun h j => do let v ← get h (B y) j; put h (.mem w.next) j v) (by simp [hj]) (by
            intro cur j hjl _
            simp only [Function.update_idem]
            rw [get_other (m1 _ (Nat.le_refl _)), get, m3, packed]
            dsimp only
            rw [rd_of_lt (by simpa using hjl), ok_bind]
            simp)
        rw [Function.update_idem] at hloop
        refine fin (a.field 0) (h.newOwn (x := x) (s := s) (by simp [hx]) φ) (by rw [want, hay]) ?_
        rw [step, var_some (o := ⟨some (B y), true, some s⟩) (by rw [h.obj, hay]; rfl), ok_bind, if_pos rfl]
        simp only [deref, ok_bind, alloc]
        rw [hloop, ok_bind, declare_none (by simpa using hxw)]
  | setSubset x s =>
    rcases hl with hx | ⟨t, φ, hx⟩
    · obtain ⟨junk, hj⟩ := hjunk s w.next
      refine fin junk (h.newOwn (x := x) (s := s) (by simp [hx]) junk) rfl ?_
      rw [step, var_some (o := ⟨none, false, none⟩) (by rw [h.obj, hx]; rfl), ok_bind]
      simp only [setSub, alloc, pure_def, ok_bind, hj]
    · obtain ⟨junk, hj⟩ := hjunk s w.next
      obtain ⟨m1, m2, m3⟩ := h.mem x t φ hx
      have := (h.drop hx).newOwn (x := x) (s := s) (by simp) junk
      simp only [Function.update_idem] at this
      refine fin junk this rfl ?_
      rw [step, var_some (o := ⟨some (B x), true, some t⟩) (by rw [h.obj, hx]; rfl), ok_bind]
      simp only [setSub, if_true, free, m3, alloc, pure_def, ok_bind, hj]
  | destroy x =>
    cases hax : a.obj x with
    | none => exact absurd hax hl
    | some o =>
      cases o with
      | unset =>
        refine fin (a.field 0) (h.setPlain (x := x) (by simp [hax]) none (by simp)) rfl ?_
        rw [step, var_some (o := ⟨none, false, none⟩) (by rw [h.obj, hax]; rfl)]
        simp [conc]
      | view f s =>
        refine fin (a.field 0) (h.setPlain (x := x) (by simp [hax]) none (by simp)) rfl ?_
        rw [step, var_some (o := ⟨some (.lat f), false, some s⟩) (by rw [h.obj, hax]; rfl)]
        simp [conc]
      | own s φ =>
        refine fin (a.field 0) (h.drop hax) rfl ?_
        rw [step, var_some (o := ⟨some (B x), true, some s⟩) (by rw [h.obj, hax]; rfl)]
        simp [deref, free, (h.mem x s φ hax).2.2]
  | scal x op v =>
    rcases hl with ⟨f, s, hx⟩ | ⟨s, φ, hx, h1⟩
    · refine ⟨a.field 0, ⟨_, _, _⟩, B, ?_, modV hE h hx (fun y _ => op y v)⟩
      rw [step, var_some (o := ⟨some (.lat f), false, some s⟩) (by rw [h.obj, hx]; rfl)]
      simp only [ok_bind, deref, Bool.false_eq_true, if_false, evalScal]
      rw [view_loop hE h f s (fun y _ => op y v) (fun cur i hi hc => by
        rw [upd, get_upd (hE.lt s i hi), ok_bind, hc]), ok_bind]
      rfl
    · refine ⟨a.field 0, ⟨_, _, _⟩, B, ?_, modO h hx (fun y _ => op y v)⟩
      rw [step, var_some (o := ⟨some (B x), true, some s⟩) (by rw [h.obj, hx]; rfl)]
      obtain ⟨i, hi⟩ : ∃ i, E.tab s = [i] := List.length_eq_one_iff.1 h1
      have hm := (h.mem x s φ hx).2.2
      rw [hi] at hm
      simp only [ok_bind, deref, if_true, evalFScal, upd, get, hm, hi, List.map_cons, List.map_nil, rd, put]
      rfl
  | zero x z =>
    rcases hl with ⟨f, s, hx⟩ | ⟨s, φ, hx⟩
    · refine ⟨a.field 0, ⟨_, _, _⟩, B, ?_, modV hE h hx (fun _ _ => z)⟩
      rw [step, var_some (o := ⟨some (.lat f), false, some s⟩) (by rw [h.obj, hx]; rfl)]
      simp only [ok_bind, deref, Bool.false_eq_true, if_false, zeroLat]
      rw [view_loop hE h f s (fun _ _ => z) (fun cur i hi hc => rfl), ok_bind]
      rfl
    · refine ⟨a.field 0, ⟨_, _, _⟩, B, ?_, modO h hx (fun _ _ => z)⟩
      rw [step, var_some (o := ⟨some (B x), true, some s⟩) (by rw [h.obj, hx]; rfl)]
      simp only [ok_bind, deref, if_true, zeroF]
      rw [loopF (ψ := fun _ => z) (h.mem x s φ hx).2.2 (fun cur j hj hc => rfl), ok_bind]
      rfl
  | expr x op e =>
    rcases hl with ⟨f, s, hx⟩ | ⟨s, φ, hx⟩
    · refine ⟨a.field 0, ⟨_, _, _⟩, B, ?_, modV hE h hx (fun y i => op y (e.val a.field i))⟩
      rw [step, var_some (o := ⟨some (.lat f), false, some s⟩) (by rw [h.obj, hx]; rfl)]
      simp only [ok_bind, deref, Bool.false_eq_true, if_false, evalLat]
      rw [view_loop hE h f s (fun y i => op y (e.val a.field i)) (fun cur i hi hc => by
        rw [rhs_at (fun f' => h.getLatSelf hE (f' := f') (hE.lt s i hi) hc), ok_bind, upd, get_upd (hE.lt s i hi), ok_bind, hc]), ok_bind]
      rfl
    · refine ⟨a.field 0, ⟨_, _, _⟩, B, ?_, modO h hx (fun y i => op y (e.val a.field i))⟩
      obtain ⟨m1, m2, m3⟩ := h.mem x s φ hx
      rw [step, var_some (o := ⟨some (B x), true, some s⟩) (by rw [h.obj, hx]; rfl)]
      simp only [ok_bind, deref, if_true, evalF]
      rw [loopF (ψ := fun i => op (φ i) (e.val a.field i)) m3 (fun cur j hj hc => by
        rw [rd_tab hj, ok_bind, rhs_at (fun f' => h.getLat' (f := f') m2 (hE.lt s _ (mem_tab hj))), ok_bind, upd, get_upd hj, ok_bind, hc]), ok_bind]
      rfl
  | poke x op e =>
    rcases hl with ⟨f, s, hx⟩ | ⟨s, φ, hx, ht⟩
    · refine ⟨a.field 0, ⟨_, _, _⟩, B, ?_, modV hE h hx (fun y i => op y (e.val a.field i))⟩
      rw [step, var_some (o := ⟨some (.lat f), false, some s⟩) (by rw [h.obj, hx]; rfl)]
      simp only [ok_bind, deref, evalLat]
      rw [view_loop hE h f s (fun y i => op y (e.val a.field i)) (fun cur i hi hc => by
        rw [rhs_at (fun f' => h.getLatSelf hE (f' := f') (hE.lt s i hi) hc), ok_bind, upd, get_upd (hE.lt s i hi), ok_bind, hc]), ok_bind]
      rfl
    · refine ⟨a.field 0, ⟨_, _, _⟩, B, ?_, modO h hx (fun y i => op y (e.val a.field i))⟩
      obtain ⟨m1, m2, m3⟩ := h.mem x s φ hx
      have hg : ∀ j, j < (E.tab s).length → (E.tab s).getD j 0 = j := by
        intro j hj
        rw [ht]
        simp [List.getD_eq_getElem?_getD, hj]
      rw [step, var_some (o := ⟨some (B x), true, some s⟩) (by rw [h.obj, hx]; rfl)]
      simp only [ok_bind, deref, evalLat]
      have := loopF (body := fun h i => do let v ← e.at h i; upd op h (B x) i v) (ψ := fun i => op (φ i) (e.val a.field i)) m3 (fun cur j hj hc => by
        have hs : j < E.sites := by have := hE.lt s _ (mem_tab hj); rwa [hg j hj] at this
        rw [rhs_at (fun f' => h.getLat' (f := f') m2 hs), ok_bind, upd, get_upd hj, ok_bind, hc, hg j hj])
      rw [← ht] at this
      rw [this, ok_bind]
      rfl
  | assign x y =>
    obtain ⟨s, φ, t, ψ, hx, hy, ht⟩ := hl
    obtain ⟨m1, m2, m3⟩ := h.mem x s φ hx
    obtain ⟨n1, n2, n3⟩ := h.mem y t ψ hy
    refine fin (a.field 0) (modO h hx (fun old i => if i ∈ E.tab t then ψ i else old)) (by rw [want, hy]) ?_
    · rw [step, var_some (o := ⟨some (B x), true, some s⟩) (by rw [h.obj, hx]; rfl), var_some (o := ⟨some (B y), true, some t⟩) (by rw [h.obj, hy]; rfl)]
      simp only [ok_bind, deref, Bool.and_self, if_true, ht, ne_eq, not_true_eq_false, if_false]
      rw [← ht, loopF (ψ := fun i => if i ∈ E.tab s then ψ i else φ i) m3 (fun cur j hj hc => by
        rw [if_pos (mem_tab hj)]
        by_cases hyx : y = x
        · subst hyx
          rw [hx] at hy
          cases hy
          rw [get_upd hj, ok_bind, hc]
        · rw [get_other (fun he => hyx (h.sep _ _ _ _ _ _ hy hx he)), get, n3, ← ht, packed]
          dsimp only
          rw [rd_of_lt (by simpa using hj), ok_bind]
          simp), ok_bind]
      rfl
  | toField f x =>
    obtain ⟨s, φ, hx⟩ := hl
    obtain ⟨m1, m2, m3⟩ := h.mem x s φ hx
    refine fin (a.field 0) (h.modField hE f (on E s φ (a.field f))) (by rw [want, hx]) ?_
    · rw [step, var_some (o := ⟨some (B x), true, some s⟩) (by rw [h.obj, hx]; rfl)]
      simp only [ok_bind, deref, if_true]
      rw [loop' (t := fun j => (E.tab s).getD j 0) (new := φ) (List.range (E.tab s).length) (h.lat f) (by rw [positions]; exact hE.nodup s)
        (fun j hj => hE.lt s _ (mem_tab (by simpa using hj))) (fun cur j hj hc => by
          have hj : j < (E.tab s).length := by simpa using hj
          rw [rd_tab hj, ok_bind, get_other (m2 f), get, m3, packed]
          dsimp only
          rw [rd_of_lt (by simpa using hj), ok_bind]
          simp), positions, ok_bind]
      rfl
  | inner z x f op =>
    obtain ⟨hz, s, φ, hx⟩ := hl
    obtain ⟨m1, m2, m3⟩ := h.mem x s φ hx
    obtain ⟨junk, hj⟩ := hjunk s w.next
    have hne : ∀ f, Blk.mem w.next ≠ .lat f := by simp
    have hloop := loopF (tab := E.tab s) (b := .mem w.next) (φ := junk) (ψ := fun i => op (φ i) (a.field f i))
      (h := Function.update w.heap (.mem w.next) (some ((List.range (E.tab s).length).map (E.junk w.next))))
      (body := fun h j => do
          let i ← rd (E.tab s) j
          let u ← get h (B x) j
          let v ← get h (.lat f) i
          put h (.mem w.next) j (op u v)) (by simp [hj]) (by
        intro cur j hjl _
        simp only [Function.update_idem]
        rw [rd_tab hjl, ok_bind, get_other (m1 _ (Nat.le_refl _)), h.getLat' hne (hE.lt s _ (mem_tab hjl)), get, m3, packed]
        dsimp only
        rw [rd_of_lt (by simpa using hjl), ok_bind]
        simp)
    rw [Function.update_idem] at hloop
    refine fin (a.field 0) (h.newOwn (x := z) (s := s) (by simp [hz]) (fun i => op (φ i) (a.field f i))) (by rw [want, hx]) ?_
    rw [step, var_some (o := ⟨some (B x), true, some s⟩) (by rw [h.obj, hx]; rfl)]
    simp only [ok_bind, deref, if_true, setSub, alloc, pure_def]
    rw [hloop, ok_bind, declare_none (by simp [h.obj, hz, conc])]

/-! ## the property -/

/-- a program of such statements, whatever fresh memory holds -/
def LegalAll (E : Env T) : List (Op T) → Abs T → Prop
  | [], _ => True
  | o :: os, a => o.Legal E a ∧ ∀ junk, LegalAll E os (want E junk a o)

/-- what a program is for -/
def Wants (E : Env T) : List (Op T) → Abs T → Abs T → Prop
  | [], a, a' => a' = a
  | o :: os, a, a' => ∃ junk, Wants E os (want E junk a o) a'

/-- every legal statement does what it is for: new values at the sites of the subset, all else as before; and the memory is in order afterwards -/
theorem C88_step_partial (hE : E.Good) (h : Rep E w a) (o : Op T) (hl : o.Legal E a) : ∃ junk w', step E w o = ok w' ∧ Rep E w' (want E junk a o) := by
  obtain ⟨B, h⟩ := h
  obtain ⟨junk, w', B', h1, h2⟩ := step_rep hE h o hl
  exact ⟨junk, w', h1, B', h2⟩

/-- so does every program of them; it frees nothing twice and uses nothing freed (both would be `ub`) -/
theorem C88_partial (hE : E.Good) : ∀ (os : List (Op T)) (w : World T) (a : Abs T), Rep E w a → LegalAll E os a →
    ∃ w' a', run E os w = ok w' ∧ Wants E os a a' ∧ Rep E w' a'
  | [], w, a, h, _ => ⟨w, a, rfl, rfl, h⟩
  | o :: os, w, a, h, hl => by
    obtain ⟨junk, w1, h1, h2⟩ := C88_step_partial hE h o hl.1
    obtain ⟨w', a', h3, h4, h5⟩ := C88_partial hE os w1 _ h2 (hl.2 junk)
    exact ⟨w', a', by rw [run, h1, ok_bind, h3], ⟨junk, h4⟩, h5⟩

/-- and once the variables are destroyed, nothing but the lattices is allocated -/
theorem C88_no_leak (h : Rep E w a) (hx : ∀ x, a.obj x = none) (b : Blk) : w.heap b ≠ none ↔ ∃ f, b = (.lat f) := by
  obtain ⟨B, h⟩ := h
  constructor
  · intro hb
    rcases h.live b hb with h1 | ⟨x, s, φ, h1, -⟩
    · exact h1
    · rw [hx x] at h1; cases h1
  · rintro ⟨f, rfl⟩
    simp [h.lat f]

theorem fold_sum {add : T → T → T} {l : List T} {hp : Heap T} {b : Blk} (hb : hp b = some l) (n : Nat) (hn : n ≤ l.length) (z : T) :
    foldO (fun d j => do let v ← get hp b j; return add d v) z (List.range n) = ok ((l.take n).foldl add z) := by
  induction n with
  | zero => simp [foldO]
  | succ n ih =>
    rw [List.range_succ, foldO_snoc, ih (by omega), ok_bind, get, hb]
    dsimp only
    rw [rd_of_lt (by omega), ok_bind, pure_def, List.take_add_one, List.foldl_append]
    simp [List.getElem?_eq_getElem (show n < l.length by omega)]

/-- the sum of a sublattice with memory of its own is that over the sites of the subset -/
theorem C88_sum (h : Rep E w a) {x s : Nat} {φ : Nat → T} (hx : a.obj x = some (.own s φ)) (add : T → T → T) (zero : T) :
    sum E add zero w x = ok ((E.tab s).foldl (fun d i => add d (φ i)) zero) := by
  obtain ⟨B, h⟩ := h
  rw [sum, var_some (o := ⟨some (B x), true, some s⟩) (by rw [h.obj, hx]; rfl)]
  simp only [ok_bind, deref]
  rw [fold_sum (h.mem x s φ hx).2.2 _ (by simp)]
  simp [List.foldl_map, ← List.map_take]

/-- the sum of a view is that over the first sites of the node, as many as the subset has -/
theorem C88_sum_view (hE : E.Good) (h : Rep E w a) {x f s : Nat} (hx : a.obj x = some (.view f s)) (add : T → T → T) (zero : T) :
    sum E add zero w x = ok ((List.range (E.tab s).length).foldl (fun d i => add d (a.field f i)) zero) := by
  obtain ⟨B, h⟩ := h
  have hlen : (E.tab s).length ≤ E.sites := by
    have h1 : (E.tab s) ⊆ List.range E.sites := fun i hi => by simpa using hE.lt s i hi
    simpa using (List.subperm_of_subset (hE.nodup s) h1).length_le
  rw [sum, var_some (o := ⟨some (.lat f), false, some s⟩) (by rw [h.obj, hx]; rfl)]
  simp only [ok_bind, deref]
  rw [fold_sum (h.lat f) _ (by simpa using hlen), ← List.map_take, List.foldl_map]
  congr 3
  rw [List.take_range, Nat.min_eq_left hlen]

/-- a number or scalar assigned (added, ..) to a sublattice with memory of its own changes the first site of the subset only -/
theorem C88_scalar_first (h : Rep E w a) {x s i : Nat} {is : List Nat} {φ : Nat → T} (hx : a.obj x = some (.own s φ)) (hs : E.tab s = i :: is)
    (hE : E.Good) (op : T → T → T) (v : T) :
    ∃ w', step E w (.scal x op v) = ok w' ∧ Rep E w' ⟨a.field, Function.update a.obj x (some (.own s (Function.update φ i (op (φ i) v))))⟩ := by
  obtain ⟨B, h⟩ := h
  have hm := (h.mem x s φ hx).2.2
  refine ⟨⟨Function.update w.heap (B x) (some ((E.tab s).map (Function.update φ i (op (φ i) v)))), w.next, w.obj⟩, ?_, B, h.modOwn hx _⟩
  have hn : i ∉ is := by have := hE.nodup s; rw [hs] at this; exact (List.nodup_cons.1 this).1
  have hr : (i :: is).map (Function.update φ i (op (φ i) v)) = op (φ i) v :: is.map φ := by
    rw [List.map_cons, Function.update_self]
    congr 1
    apply List.map_congr_left
    intro k hk
    rw [Function.update_of_ne (fun he : k = i => hn (he ▸ hk))]
  rw [hs] at hm
  rw [step, var_some (o := ⟨some (B x), true, some s⟩) (by rw [h.obj, hx]; rfl), hs, hr]
  simp only [ok_bind, deref, if_true, evalFScal, upd, get, hm, List.map_cons, rd, put]
  rfl

theorem rep_own_unique {w : World T} {a a' : Abs T} (h : Rep E w a) (h' : Rep E w a') {x s : Nat} {φ ψ : Nat → T} (hx : a.obj x = some (.own s φ))
    (hx' : a'.obj x = some (.own s ψ)) (i : Nat) (hi : i ∈ E.tab s) : φ i = ψ i := by
  obtain ⟨B, h⟩ := h
  obtain ⟨B', h'⟩ := h'
  have h1 := h.obj x
  rw [h'.obj x, hx, hx'] at h1
  simp only [conc, Option.some.injEq, Obj.mk.injEq, and_true] at h1
  have h2 := (h.mem x s φ hx).2.2
  rw [← h1, (h'.mem x s ψ hx').2.2] at h2
  simp only [Option.some.injEq] at h2
  exact (List.map_inj_left.1 h2 i hi).symm

/-- which is wrong as soon as it should change another one -/
theorem C88_scalar_wrong (hE : E.Good) (h : Rep E w a) {x s i k : Nat} {is : List Nat} {φ : Nat → T} (hx : a.obj x = some (.own s φ)) (hs : E.tab s = i :: is)
    (hk : k ∈ is) (op : T → T → T) (v : T) (hv : op (φ k) v ≠ φ k) :
    ∃ w', step E w (.scal x op v) = ok w' ∧ ∀ junk, ¬ Rep E w' (want E junk a (.scal x op v)) := by
  obtain ⟨w', h1, h2⟩ := C88_scalar_first h hx hs hE op v
  refine ⟨w', h1, fun junk h3 => hv ?_⟩
  have hn : k ≠ i := by
    have := hE.nodup s
    rw [hs] at this
    exact fun he => (List.nodup_cons.1 this).1 (he ▸ hk)
  have hks : k ∈ E.tab s := by rw [hs]; simp [hk]
  have := rep_own_unique h2 h3 (x := x) (s := s) (φ := Function.update φ i (op (φ i) v)) (ψ := on E s (fun i => op (φ i) v) φ) (by simp)
    (by simp [want, Abs.modify, hx]) k hks
  rw [Function.update_of_ne hn, on, if_pos hks] at this
  exact this.symm

/-- a variable that was made without a subset and not given one cannot be assigned to: the subset is a null pointer -/
theorem C88_unset {x : Nat} (h : step E w (.create x) = ok w') (op : T → T → T) (v z : T) (e : Rhs T) :
    step E w' (.scal x op v) = ub ∧ step E w' (.zero x z) = ub ∧ step E w' (.expr x op e) = ub ∧ step E w' (.poke x op e) = ub := by
  have hx : w'.obj x = some ⟨none, false, none⟩ := by
    simp only [step, World.declare] at h
    split at h
    · cases h; simp
    · cases h
  refine ⟨?_, ?_, ?_, ?_⟩ <;> simp only [step, World.var, hx, deref, ok_bind] <;> rfl

/-- and out of bounds for a subset without sites on the node -/
theorem C88_scalar_empty (h : Rep E w a) {x s : Nat} {φ : Nat → T} (hx : a.obj x = some (.own s φ)) (hs : E.tab s = []) (op : T → T → T) (v : T) :
    step E w (.scal x op v) = ub := by
  obtain ⟨B, h⟩ := h
  have hm := (h.mem x s φ hx).2.2
  rw [hs] at hm
  rw [step, var_some (o := ⟨some (B x), true, some s⟩) (by rw [h.obj, hx]; rfl)]
  simp only [ok_bind, deref, if_true, evalFScal, upd, get, hm, List.map_nil, rd]
  rfl

theorem foldO_ub {σ α : Type} {body : σ → α → Outcome σ} {I : σ → Prop} : ∀ (l : List α) (h : σ), I h →
    (∀ h, I h → ∀ i ∈ l, body h i = ub ∨ ∃ h', body h i = ok h' ∧ I h') → (∃ i ∈ l, ∀ h, I h → body h i = ub) → foldO body h l = ub
  | [], _, _, _, ⟨_, hi, _⟩ => by cases hi
  | k :: l, h, hI, hb, ⟨i, hi, hu⟩ => by
    rw [foldO]
    rcases hb h hI k (by simp) with h1 | ⟨h', h1, h2⟩
    · rw [h1]; rfl
    · rw [h1, ok_bind]
      rcases List.mem_cons.1 hi with rfl | hi
      · rw [hu h hI] at h1; cases h1
      · exact foldO_ub l h' h2 (fun h hI k hk => hb h hI k (by simp [hk])) ⟨i, hi, hu⟩

/-- components poked into a sublattice with memory of its own are out of bounds, if a site of the subset is beyond the number of its sites -/
theorem C88_poke_own (hE : E.Good) (h : Rep E w a) {x s i : Nat} {φ : Nat → T} (hx : a.obj x = some (.own s φ)) (hi : i ∈ E.tab s) (hl : (E.tab s).length ≤ i)
    (op : T → T → T) (e : Rhs T) : step E w (.poke x op e) = ub := by
  obtain ⟨B, h⟩ := h
  obtain ⟨m1, m2, m3⟩ := h.mem x s φ hx
  rw [step, var_some (o := ⟨some (B x), true, some s⟩) (by rw [h.obj, hx]; rfl)]
  simp only [ok_bind, deref, evalLat]
  rw [foldO_ub (I := fun hp => ∃ l : List T, l.length = (E.tab s).length ∧ hp = Function.update w.heap (B x) (some l)) (E.tab s) w.heap]
  · rfl
  · exact ⟨(E.tab s).map φ, by simp, by rw [← m3, Function.update_eq_self]⟩
  · rintro hp ⟨l, hll, rfl⟩ k hk
    rw [rhs_at (fun f' => h.getLat' (f := f') m2 (hE.lt s k hk)), ok_bind, upd]
    simp only [get, put, Function.update_self]
    by_cases hkl : k < l.length
    · right
      rw [rd_of_lt hkl]
      refine ⟨_, by simp only [ok_bind, if_pos hkl]; rfl, l.set k _, by simp [hll], Function.update_idem _ _ _⟩
    · left
      rw [rd, List.getElem?_eq_none (by omega)]
      rfl
  · refine ⟨i, hi, ?_⟩
    rintro hp ⟨l, hll, rfl⟩
    rw [rhs_at (fun f' => h.getLat' (f := f') m2 (hE.lt s i hi)), ok_bind, upd]
    simp only [get, Function.update_self]
    rw [rd, List.getElem?_eq_none (by omega)]
    rfl

/-- `x = y` with sublattices of different subsets of the same size gives the value at one site to another -/
theorem C88_assign_other_sites (hE : E.Good) (h : Rep E w a) {x y s t : Nat} {φ ψ : Nat → T} (hx : a.obj x = some (.own s φ)) (hy : a.obj y = some (.own t ψ))
    (hst : (E.tab s).length = (E.tab t).length) :
    ∃ w', step E w (.assign x y) = ok w' ∧
      Rep E w' ⟨a.field, Function.update a.obj x (some (.own s (fun i => ψ ((E.tab t).getD ((E.tab s).idxOf i) 0))))⟩ := by
  obtain ⟨B, h⟩ := h
  obtain ⟨m1, m2, m3⟩ := h.mem x s φ hx
  obtain ⟨n1, n2, n3⟩ := h.mem y t ψ hy
  refine ⟨⟨_, w.next, w.obj⟩, ?_, B, h.modOwn hx _⟩
  rw [step, var_some (o := ⟨some (B x), true, some s⟩) (by rw [h.obj, hx]; rfl), var_some (o := ⟨some (B y), true, some t⟩) (by rw [h.obj, hy]; rfl)]
  simp only [ok_bind, deref, Bool.and_self, if_true, hst, ne_eq, not_true_eq_false, if_false]
  have hidx : ∀ j, j < (E.tab s).length → (E.tab s).idxOf ((E.tab s).getD j 0) = j := by
    intro j hj
    have : (E.tab s).getD j 0 = (E.tab s)[j] := by simp [List.getD_eq_getElem?_getD, hj]
    rw [this, (hE.nodup s).idxOf_getElem]
  rw [← hst, loopF (ψ := fun i => ψ ((E.tab t).getD ((E.tab s).idxOf i) 0)) m3 (fun cur j hj hc => by
    rw [hidx j hj]
    by_cases hyx : y = x
    · subst hyx
      rw [hx] at hy
      cases hy
      rw [get_upd hj, ok_bind, hc]
    · rw [get_other (fun he => hyx (h.sep _ _ _ _ _ _ hy hx he)), get, n3, packed]
      dsimp only
      rw [rd_of_lt (by simpa [← hst] using hj), ok_bind]
      simp), ok_bind]
  rfl

/-- views are not assigned, nor do they take a sublattice; sizes must agree: the program stops -/
theorem C88_assign_abort (h : Rep E w a) {x y : Nat} (hx : a.obj x ≠ none) (hy : a.obj y ≠ none)
    (hn : ∀ s φ t ψ, a.obj x = some (.own s φ) → a.obj y = some (.own t ψ) → (E.tab s).length ≠ (E.tab t).length) : step E w (.assign x y) = abort := by
  obtain ⟨B, h⟩ := h
  have key : ∀ x, a.obj x ≠ none → ∃ o, w.obj x = some o ∧ (o.owns = true → ∃ s φ, a.obj x = some (.own s φ) ∧ o = ⟨some (B x), true, some s⟩) := by
    intro x hx
    rw [h.obj x]
    match hax : a.obj x with
    | none => exact absurd hax hx
    | some .unset => exact ⟨_, rfl, by simp⟩
    | some (.view f s) => exact ⟨_, rfl, by simp⟩
    | some (.own s φ) => exact ⟨_, rfl, fun _ => ⟨s, φ, rfl, rfl⟩⟩
  obtain ⟨o, ho, ho'⟩ := key x hx
  obtain ⟨p, hp, hp'⟩ := key y hy
  rw [step, var_some ho, var_some hp]
  simp only [ok_bind]
  split
  · rename_i hb
    rw [Bool.and_eq_true] at hb
    obtain ⟨s, φ, h1, rfl⟩ := ho' hb.1
    obtain ⟨t, ψ, h2, rfl⟩ := hp' hb.2
    simp only [deref, ok_bind]
    rw [if_pos (hn s φ t ψ h1 h2)]
  · rfl

/-- `x[s] op= v` for a scalar `x` reads a member that no constructor sets; the member being false, `x` keeps its value -/
theorem C88_scalar_subset (op : T → T → T) (x v : T) : subScal op subScalOwns x v = ub ∧ subScal op (some false) x v = ok x ∧ subScal op (some true) x v = ok (op x v) :=
  ⟨rfl, rfl, rfl⟩

/-! ## a concrete case: six sites, the subsets 0 (even sites), 1 (odd sites), 2 (none) and others (site 4) -/

def exE : Env Int := ⟨fun s => if s = 0 then [0, 2, 4] else if s = 1 then [1, 3, 5] else if s = 2 then [] else [4], 6, fun b j => 1000 * b + j⟩

theorem exE_good : exE.Good := by
  constructor
  · intro s
    simp only [exE]
    split_ifs <;> decide
  · intro s
    simp only [exE]
    split_ifs <;> decide

/-- lattice `f` is `10 f + i` at site `i`; no variables -/
def exA : Abs Int := ⟨fun f i => 10 * f + i, fun _ => none⟩

def exW : World Int := ⟨fun b => match b with | .lat f => some ((List.range 6).map (fun i => ((10 * f + i : Nat) : Int))) | .mem _ => none, 0, fun _ => none⟩

theorem exRep : Rep exE exW exA := by
  refine ⟨fun _ => .mem 0, ?_, fun _ => rfl, ?_, ?_, ?_⟩
  · intro f
    simp only [exW, exA, exE, Option.some.injEq]
    apply List.map_congr_left
    intro i _
    push_cast
    rfl
  · intro x s φ h
    simp [exA] at h
  · intro x y s φ t ψ h
    simp [exA] at h
  · intro b hb
    cases b with
    | lat f => exact Or.inl ⟨f, rfl⟩
    | mem n => simp [exW] at hb

/-- a view, memory of its own, a copy, an expression with both, a product, all destroyed -/
def exP : List (Op Int) :=
  [.view 0 1 1, .own 1 0 2, .copy 2 1, .scal 0 (· + ·) 5, .expr 0 (· + ·) ⟨[1, 2], List.sum⟩, .expr 1 (· + ·) ⟨[0], List.sum⟩, .assign 2 1, .toField 3 2, .inner 3 2 0 (· * ·),
    .create 4, .setSubset 4 3, .scal 4 (fun _ v => v) 7, .zero 1 0, .poke 0 (fun y v => 100 * y + v) ⟨[0], List.sum⟩]

theorem exLegal : LegalAll exE exP exA := by
  simp [LegalAll, exP, Op.Legal, want, Abs.modify, exA, exE, Function.update]

example : ∃ w' a', run exE exP exW = ok w' ∧ Wants exE exP exA a' ∧ Rep exE w' a' := C88_partial exE_good exP exW exA exRep exLegal

/-- lattice 1 and lattice 3 afterwards -/
example : (match run exE exP exW with | ok w => (w.heap (.lat 1), w.heap (.lat 3)) | _ => (none, none)) =
    (some [10, 5301, 12, 5903, 14, 6505], some [20, 31, 24, 33, 28, 35]) := by decide

/-- the product, variable 3, and the sum of the products -/
example : (match run exE exP exW with | ok w => sum exE (· + ·) 0 w 3 | _ => ub) = ok (0 * 20 + 2 * 24 + 4 * 28) := by decide

/-- a scalar added to the even sites: only site 0 gets it -/
example : ∃ w', step exE ⟨Function.update exW.heap (.mem 0) (some [20, 22, 24]), 1, fun x => if x = 0 then some ⟨some (.mem 0), true, some 0⟩ else none⟩
    (.scal 0 (· + ·) 5) = ok w' ∧ w'.heap (.mem 0) = some [25, 22, 24] := by
  refine ⟨⟨Function.update (Function.update exW.heap (.mem 0) (some [20, 22, 24])) (.mem 0) (some [25, 22, 24]), 1, _⟩, rfl, by simp⟩

/-- the sum over the odd sites of lattice 1 is 11 + 13 + 15, not the 10 + 11 + 12 computed from the view -/
theorem C88_sum_view_wrong : ∃ w, step exE exW (.view 0 1 1) = ok w ∧ Rep exE w (want exE (fun _ => 0) exA (.view 0 1 1)) ∧
    sum exE (· + ·) 0 w 0 = ok 33 ∧ ((exE.tab 1).foldl (fun d i => d + exA.field 1 i) 0) = 39 := by
  obtain ⟨junk, w, h1, h2⟩ := C88_step_partial exE_good exRep (.view 0 1 1) rfl
  refine ⟨w, h1, h2, ?_, by decide⟩
  rw [C88_sum_view exE_good (x := 0) (f := 1) (s := 1) h2 (by simp [want])]
  rfl

/-- the values at the even sites end up at the odd ones -/
theorem C88_assign_wrong : ∃ w w', run exE [.own 0 1 1, .own 1 0 2] exW = ok w ∧ step exE w (.assign 0 1) = ok w' ∧
    ∃ a, Wants exE [.own 0 1 1, .own 1 0 2] exA a ∧ ∀ junk, ¬ Rep exE w' (want exE junk a (.assign 0 1)) := by
  obtain ⟨w, a, h1, h2, h3⟩ := C88_partial exE_good [.own 0 1 1, .own 1 0 2] exW exA exRep (by simp [LegalAll, Op.Legal, exA, want, Function.update])
  have ha : a = ⟨exA.field, Function.update (Function.update exA.obj 0 (some (.own 1 (exA.field 1)))) 1 (some (.own 0 (exA.field 2)))⟩ := by
    obtain ⟨_, _, h2⟩ := h2
    exact h2
  have hx : a.obj 0 = some (.own 1 (exA.field 1)) := by rw [ha]; rfl
  have hy : a.obj 1 = some (.own 0 (exA.field 2)) := by rw [ha]; rfl
  obtain ⟨w', h4, h5⟩ := C88_assign_other_sites exE_good h3 hx hy rfl
  refine ⟨w, w', h1, h4, a, h2, fun junk h6 => ?_⟩
  have := rep_own_unique h5 h6 (x := 0) (s := 1) (φ := fun i => exA.field 2 ((exE.tab 0).getD ((exE.tab 1).idxOf i) 0)) (by simp) (by simp only [want, hy, Abs.modify, hx, Function.update_self]; rfl) 1 (by decide)
  revert this
  decide

end Verif.SubLat
