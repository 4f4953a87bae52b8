import Verif.SubsetProps
import Verif.Shift
/-
Property C118: the default sets and subsets of the library (`rb`, `rb3`, `mcb`, `set_all`, `all`, `even`, `odd`),
lib/qdp_subset.cc:18-125, colour the lattice the way users of red-black algorithms rely on.

Simplifications: `Nd` is the length of the lattice size (the library has one `Nd` for everything); the subsets `all`,
`even`, `odd` are the records copied, the pointers inside them are the matter of SetObjects.
-/
namespace Verif.DefaultSets
open Verif Outcome Verif.Layout Verif.ParLayout Verif.Subset Verif.Shift

/-! ## Model -/

/-- `SetRB3Func`, lib/qdp_subset.cc:60-78: aborts on fewer than three dimensions -/
def rb3Func (c : List Nat) : Outcome Int :=
  if c.length < 3 then abort else ok (((c.take 3).sum &&& 1 : Nat) : Int)

/-- body of the colouring loop of `Set::make` for a colour function that may abort,
lib/qdp_scalarsite_specific.cc:81-102 -/
def colourSiteA (g : Geom) (node : Nat) (fn : List Nat → Outcome Int) (nsub : Nat) (linear : Nat) : Outcome Nat := do
  let coord ← g.siteCoords node linear
  let n ← g.nodeNumber coord
  let lin ← g.linearSiteIndex coord
  let icolor ← fn coord
  if n ≠ node then abort
  else if lin ≠ linear then abort
  else if icolor < 0 ∨ icolor ≥ (nsub : Int) then abort
  else return icolor.toNat

/-- `Set::make` for a colour function that may abort, lib/qdp_scalarsite_specific.cc:56-185 -/
def setMakeA (g : Geom) (node : Nat) (fn : List Nat → Outcome Int) (nsub : Nat) : Outcome SetObj := do
  let col ← mapO (colourSiteA g node fn nsub) (List.range g.sites)
  let subs ← mapO (makeSub col) (List.range nsub)
  return ⟨col, subs⟩

/-- the globals of lib/qdp_subset.cc:8-31 -/
structure Defaults where
  rb : SetObj
  rb3 : SetObj
  mcb : SetObj
  setAll : SetObj
  all : Sub
  even : Sub
  odd : Sub

/-- `initDefaultSets`, lib/qdp_subset.cc:103-125 -/
def initDefaultSets (g : Geom) (node : Nat) : Outcome Defaults := do
  let rb ← setMake g node rbFunc 2
  let rb3 ← setMakeA g node rb3Func 2
  let n ← ckInt (1 <<< (g.L.length + 1))
  let mcb ← setMake g node mcbFunc n
  let sa ← setMake g node allFunc 1
  let all ← rd sa.subs 0
  let even ← rd rb.subs 0
  let odd ← rd rb.subs 1
  return ⟨rb, rb3, mcb, sa, all, even, odd⟩

/-! ## Specification -/

/-- the table of a subset lists, once each and in order, exactly the slots of this node whose site satisfies `P` -/
def Lists (g : Geom) (node : Nat) (t : List Int) (P : List Nat → Prop) : Prop :=
  t.Pairwise (· < ·) ∧
  ∀ x : Int, x ∈ t ↔ ∃ i : Nat, x = (i : Int) ∧ i < g.sites ∧ ∃ c, g.siteCoords node i = ok c ∧ P c

/-- the two sites agree in the parity of every coordinate, and in the parity of the sum of the halved coordinates -/
def SameCell (a b : List Nat) : Prop :=
  (∀ m, m < a.length → (a.getD m 0) % 2 = (b.getD m 0) % 2) ∧ (a.map (· / 2)).sum % 2 = (b.map (· / 2)).sum % 2

/-! ## Lemmas -/

theorem setMakeA_eq {g : Geom} (hg : g.Good) {node : Nat} (hn : node < g.nodes) {fn : List Nat → Outcome Int}
    {f : List Nat → Int} {nsub : Nat} (h : ∀ c, InRange c g.L → fn c = ok (f c)) :
    setMakeA g node fn nsub = setMake g node f nsub := by
  unfold setMakeA setMake latColor
  have : ∀ xs : List Nat, (∀ x ∈ xs, x < g.sites) →
      mapO (colourSiteA g node fn nsub) xs = mapO (colourSite g node f nsub) xs := by
    intro xs
    induction xs with
    | nil => intro _; rfl
    | cons x xs ih =>
      intro hx
      obtain ⟨c, h1, h2, h3, h4⟩ := hg.2 node x hn (hx x (by simp))
      have e : colourSiteA g node fn nsub x = colourSite g node f nsub x := by
        simp [colourSiteA, colourSite, h1, h3, h4, h c h2]
      simp only [mapO, e, ih (fun y hy => hx y (by simp [hy]))]
  rw [this _ (fun x hx => List.mem_range.1 hx)]

theorem map_half (c : List Nat) : c.map (· >>> 1) = c.map (· / 2) := by
  apply List.map_congr_left; intro a _; simp [Nat.shiftRight_eq_div_pow]

theorem mcb_val (c : List Nat) :
    mcbFunc c = ((sublOf c + ((c.map (· / 2)).sum % 2) * 2 ^ c.length : Nat) : Int) := by
  simp only [mcbFunc, map_half, Nat.and_one_is_mod, Nat.shiftLeft_eq]

theorem sublOf_testBit : ∀ (c : List Nat) (m : Nat), m < c.length → (sublOf c).testBit m = decide ((c.getD m 0) % 2 = 1)
  | [], m, h => by simp at h
  | a :: c, 0, _ => by
      simp only [sublOf, Nat.and_one_is_mod, Nat.shiftLeft_eq, Nat.testBit_zero, List.getD_cons_zero]
      congr 1; simp only [eq_iff_iff]; omega
  | a :: c, m + 1, h => by
      have := sublOf_testBit c m (by simpa using h)
      simp only [sublOf, Nat.and_one_is_mod, Nat.shiftLeft_eq, List.getD_cons_succ]
      rw [Nat.testBit_succ, show (sublOf c * 2 ^ 1 + a % 2) / 2 = sublOf c by omega, this]

theorem sublOf_inj : ∀ (a b : List Nat), a.length = b.length →
    (sublOf a = sublOf b ↔ ∀ m, m < a.length → (a.getD m 0) % 2 = (b.getD m 0) % 2)
  | [], [], _ => by simp
  | x :: a, y :: b, h => by
      have ih := sublOf_inj a b (by simpa using h)
      simp only [sublOf, Nat.and_one_is_mod, Nat.shiftLeft_eq, List.length_cons]
      constructor
      · intro e m hm
        cases m with
        | zero => simp only [List.getD_cons_zero]; omega
        | succ m => simp only [List.getD_cons_succ]; exact ih.1 (by omega) m (by omega)
      · intro e
        have h0 := e 0 (by omega)
        have h1 := ih.2 (fun m hm => by have := e (m + 1) (by omega); simpa using this)
        simp only [List.getD_cons_zero] at h0
        omega
  | [], _ :: _, h => by simp at h
  | _ :: _, [], h => by simp at h

theorem mcb_lt (c : List Nat) : mcbFunc c < ((2 ^ (c.length + 1) : Nat) : Int) := by
  rw [mcb_val]
  have h1 := sublOf_lt c
  have h2 : (c.map (· / 2)).sum % 2 * 2 ^ c.length ≤ 1 * 2 ^ c.length := Nat.mul_le_mul_right _ (by omega)
  rw [Nat.pow_succ]
  generalize (c.map (· / 2)).sum % 2 * 2 ^ c.length = z at *
  omega

/-- a subset whose sites are the slots `a .. a+n-1` is ordered, with these ends -/
theorem ordered_of_range {g : Geom} (hg : g.Good) {node : Nat} (hn : node < g.nodes) {fn : List Nat → Int} {nsub : Nat}
    (hlegal : ∀ c, InRange c g.L → 0 ≤ fn c ∧ fn c < nsub) {s : SetObj} (hs : setMake g node fn nsub = ok s)
    {k a n : Nat} (hk : k < nsub) (h0 : 0 < n) (hle : a + n ≤ g.sites)
    (hch : ∀ i c, i < g.sites → g.siteCoords node i = ok c → (fn c = (k : Int) ↔ a ≤ i ∧ i < a + n)) :
    ∃ u, s.subs[k]? = some u ∧ u.ordRep = true ∧ u.start = a ∧ u.stop = (a : Int) + n - 1 := by
  obtain ⟨s', h1, h2, h3, h4, h5⟩ := C04_make g hg node hn fn nsub hlegal
  rw [hs] at h1; injection h1 with h1; subst h1
  have hk' : k < s.subs.length := by omega
  refine ⟨s.subs[k], by simp [hk'], ?_⟩
  have hmk : makeSub s.latColor k = ok s.subs[k] := by
    unfold setMake at hs
    obtain ⟨col, hc, hs⟩ := Outcome.bind_eq_ok.1 hs
    obtain ⟨subs, hsb, hs⟩ := Outcome.bind_eq_ok.1 hs
    simp only [pure_def, Outcome.ok.injEq] at hs
    subst hs
    have := (mapO_eq_ok hsb).2 k (by simpa using hk) hk'
    simpa using this
  obtain ⟨-, hsorted, hmem⟩ := h5 k hk'
  have hsr : ((List.range' a n).map Int.ofNat).Pairwise (· < ·) := by
    rw [List.pairwise_map]
    exact (List.pairwise_lt_range' (step := 1)).imp (fun {x y} h => by simp only [Int.ofNat_eq_natCast]; omega)
  have hiff : ∀ x, x ∈ s.subs[k].table ↔ x ∈ (List.range' a n).map Int.ofNat := by
    intro x
    rw [hmem]
    simp only [List.mem_map, List.mem_range'_1]
    constructor
    · rintro ⟨i, rfl, hi, c, hc, hcol⟩
      exact ⟨i, (hch i c hi hc).1 hcol, rfl⟩
    · rintro ⟨i, ⟨hi1, hi2⟩, rfl⟩
      have hi : i < g.sites := by omega
      obtain ⟨c, hc, _⟩ := hg.2 node i hn hi
      exact ⟨i, rfl, hi, c, hc, (hch i c hi hc).2 ⟨hi1, hi2⟩⟩
  have ht : s.subs[k].table = (List.range' a n).map Int.ofNat :=
    List.Perm.eq_of_pairwise (fun a b _ _ h1 h2 => by omega) hsorted hsr
      ((List.perm_ext_iff_of_nodup (hsorted.imp (fun h => by omega)) (hsr.imp (fun h => by omega))).2 hiff)
  have ho := (C05_ordered _ _ _ hmk).1.2 ⟨a, n, h0, ht⟩
  obtain ⟨a', n', e1, e2, e3⟩ := (C05_ordered _ _ _ hmk).2.1 ho
  rw [ht] at e1
  have hl := congrArg List.length e1
  simp at hl; subst hl
  have e0 := List.getElem_of_eq e1 (show 0 < ((List.range' a n).map Int.ofNat).length by simpa using h0)
  simp at e0
  exact ⟨ho, by rw [e2]; omega, by rw [e3]; omega⟩

/-! steps of a periodic lattice -/

theorem step_parity {l x : Nat} {s : Sgn} (hx : x < l) (hl : l % 2 = 0) : (step l s x) % 2 ≠ x % 2 := by
  cases s <;> simp only [step] <;> split <;> omega

theorem step2_half {l x : Nat} {s : Sgn} (hx : x < l) (hl : l % 4 = 0) :
    (step l s (step l s x)) / 2 % 2 ≠ x / 2 % 2 := by
  cases s <;> simp only [step] <;> (repeat' split) <;> omega

theorem nbr_length : ∀ (L c : List Nat) (s : Sgn) (d : Nat), (nbr L c s d).length = c.length
  | [], c, _, _ => by cases c <;> simp [nbr]
  | _ :: _, [], _, _ => by simp [nbr]
  | _ :: _, _ :: _, _, 0 => by simp [nbr]
  | _ :: L, _ :: c, s, d + 1 => by simp [nbr, nbr_length L c s d]

theorem nbr_getD : ∀ (L c : List Nat) (s : Sgn) (d m : Nat), InRange c L → d < L.length →
    (nbr L c s d).getD m 0 = if m = d then step (L.getD d 0) s (c.getD d 0) else c.getD m 0
  | [], c, _, d, _, _, h => by simp at h
  | _ :: _, [], _, _, _, h, _ => by simp [InRange] at h
  | l :: L, x :: c, s, 0, m, h, _ => by
      cases m <;> simp [nbr]
  | l :: L, x :: c, s, d + 1, m, h, hd => by
      cases m with
      | zero => simp [nbr]
      | succ m =>
        have := nbr_getD L c s d m h.2 (by simpa using hd)
        simp only [nbr, List.getD_cons_succ, this, Nat.add_right_cancel_iff]

/-- changing one coordinate changes a sum over coordinates by that coordinate's share -/
theorem nbr_sum (f : Nat → Nat) : ∀ (L c : List Nat) (s : Sgn) (d : Nat), InRange c L → d < L.length →
    ((nbr L c s d).map f).sum + f (c.getD d 0) = (c.map f).sum + f (step (L.getD d 0) s (c.getD d 0))
  | [], c, _, d, _, h => by simp at h
  | _ :: _, [], _, _, h, _ => by simp [InRange] at h
  | l :: L, x :: c, s, 0, h, _ => by simp [nbr]; omega
  | l :: L, x :: c, s, d + 1, h, hd => by
      have := nbr_sum f L c s d h.2 (by simpa using hd)
      simp only [nbr, List.map_cons, List.sum_cons, List.getD_cons_succ]
      omega

theorem inRange_getD : ∀ {c L : List Nat} (d : Nat), InRange c L → d < L.length → c.getD d 0 < L.getD d 0
  | [], [], d, _, h => by simp at h
  | x :: c, l :: L, 0, h, _ => by simpa using h.1
  | x :: c, l :: L, d + 1, h, hd => by simpa using inRange_getD d h.2 (by simpa using hd)
  | [], _ :: _, _, h, _ => by simp [InRange] at h
  | _ :: _, [], _, h, _ => by simp [InRange] at h

theorem nbr_take : ∀ (n : Nat) (L c : List Nat) (s : Sgn) (d : Nat), n ≤ d → (nbr L c s d).take n = c.take n
  | 0, _, _, _, _, _ => by simp
  | n + 1, [], c, _, d, _ => by cases c <;> simp [nbr]
  | n + 1, _ :: _, [], _, d, _ => by simp [nbr]
  | n + 1, _ :: _, _ :: _, _, 0, h => by omega
  | n + 1, _ :: L, _ :: c, s, d + 1, h => by simp [nbr, nbr_take n L c s d (by omega)]

theorem nbr_take_lt : ∀ (n : Nat) (L c : List Nat) (s : Sgn) (d : Nat), d < n →
    (nbr L c s d).take n = nbr (L.take n) (c.take n) s d
  | 0, _, _, _, _, h => by omega
  | n + 1, [], c, _, d, _ => by cases c <;> simp [nbr]
  | n + 1, _ :: _, [], _, d, _ => by simp [nbr]
  | n + 1, _ :: _, _ :: _, _, 0, h => by simp [nbr]
  | n + 1, _ :: L, _ :: c, s, d + 1, h => by simp [nbr, nbr_take_lt n L c s d (by omega)]

theorem inRange_take : ∀ (n : Nat) {c L : List Nat}, InRange c L → InRange (c.take n) (L.take n)
  | 0, _, _, _ => by simp [InRange]
  | n + 1, [], [], _ => by simp [InRange]
  | n + 1, x :: c, l :: L, h => (⟨h.1, inRange_take n h.2⟩ : x < l ∧ InRange (c.take n) (L.take n))
  | n + 1, [], _ :: _, h => by simp [InRange] at h
  | n + 1, _ :: _, [], h => by simp [InRange] at h

/-- a site with all coordinates 0 but one -/
theorem point_inRange : ∀ (L : List Nat) (d x : Nat), (∀ l ∈ L, 0 < l) → d < L.length → x < L.getD d 0 →
    InRange ((List.replicate L.length 0).set d x) L
  | [], d, _, _, h, _ => by simp at h
  | l :: L, 0, x, hp, _, hx => by
      have : ∀ L : List Nat, (∀ l ∈ L, 0 < l) → InRange (List.replicate L.length 0) L := by
        intro L
        induction L with
        | nil => intro _; simp [InRange]
        | cons a L ih =>
          intro h
          exact (⟨h a (by simp), ih (fun y hy => h y (by simp [hy]))⟩ : 0 < a ∧ InRange (List.replicate L.length 0) L)
      exact (⟨by simpa using hx, this L (fun y hy => hp y (by simp [hy]))⟩ : x < l ∧ InRange (List.replicate L.length 0) L)
  | l :: L, d + 1, x, hp, hd, hx =>
      (⟨hp l (by simp), point_inRange L d x (fun y hy => hp y (by simp [hy])) (by simpa using hd) (by simpa using hx)⟩ :
        0 < l ∧ InRange ((List.replicate L.length 0).set d x) L)

theorem getD_point (n d x : Nat) (h : d < n) : ((List.replicate n 0).set d x).getD d 0 = x := by
  simp [List.getD, h]

theorem sum_parity_nbr {L c : List Nat} {s : Sgn} {d : Nat} (hc : InRange c L) (hd : d < L.length)
    (he : L.getD d 0 % 2 = 0) : (nbr L c s d).sum % 2 ≠ c.sum % 2 := by
  have h := nbr_sum id L c s d hc hd
  simp only [List.map_id, id] at h
  have := step_parity (s := s) (inRange_getD d hc hd) he
  omega

/-! ## Theorems -/

/-- C118: on every good geometry of at least three dimensions (and at most 29) `initDefaultSets` returns; `rb[k]`,
`rb3[k]` list the sites whose sum of all, or of the first three, coordinates has parity `k`; `mcb[k]` lists the sites
whose coordinate `m` has the parity of bit `m` of `k`, and whose halved coordinates sum to the parity of bit `Nd`;
`all` lists every site; `even` and `odd` are `rb[0]` and `rb[1]`. -/
theorem C118_make (g : Geom) (hg : g.Good) (node : Nat) (hn : node < g.nodes) (h3 : 3 ≤ g.L.length)
    (h29 : g.L.length ≤ 29) :
    ∃ d, initDefaultSets g node = ok d ∧
      d.rb.subs.length = 2 ∧ d.rb3.subs.length = 2 ∧ d.mcb.subs.length = 2 ^ (g.L.length + 1) ∧ d.setAll.subs.length = 1 ∧
      (∀ (k : Nat) (u : Sub), d.rb.subs[k]? = some u → Lists g node u.table (fun c => c.sum % 2 = k)) ∧
      (∀ (k : Nat) (u : Sub), d.rb3.subs[k]? = some u →
        Lists g node u.table (fun c => (c.getD 0 0 + c.getD 1 0 + c.getD 2 0) % 2 = k)) ∧
      (∀ (k : Nat) (u : Sub), d.mcb.subs[k]? = some u → Lists g node u.table (fun c =>
        (∀ m, m < g.L.length → (k.testBit m = true ↔ c.getD m 0 % 2 = 1)) ∧
        (k.testBit g.L.length = true ↔ (c.map (· / 2)).sum % 2 = 1))) ∧
      Lists g node d.all.table (fun _ => True) ∧
      Lists g node d.even.table (fun c => c.sum % 2 = 0) ∧ Lists g node d.odd.table (fun c => c.sum % 2 = 1) := by
  let f3 : List Nat → Int := fun c => (((c.take 3).sum &&& 1 : Nat) : Int)
  have hr3 : setMakeA g node rb3Func 2 = setMake g node f3 2 := by
    apply setMakeA_eq hg hn
    intro c hc
    have := hc.length_eq
    simp only [rb3Func]
    rw [if_neg (by omega)]
  obtain ⟨rb, a1, a2, a3, a4, a5⟩ := C04_make g hg node hn rbFunc 2 (by
    intro c _; simp only [rbFunc, and_one]; omega)
  obtain ⟨rb3, b1, b2, b3, b4, b5⟩ := C04_make g hg node hn f3 2 (by
    intro c _; simp only [f3, and_one]; omega)
  obtain ⟨mcb, c1, c2, c3, c4, c5⟩ := C04_make g hg node hn mcbFunc (2 ^ (g.L.length + 1)) (by
    intro c hc
    have h1 := mcb_lt c
    have h2 := hc.length_eq
    rw [h2] at h1
    exact ⟨by rw [mcb_val]; omega, h1⟩)
  obtain ⟨sa, e1, e2, e3, e4, e5⟩ := C04_make g hg node hn allFunc 1 (by intro c _; simp [allFunc])
  have hck : ckInt (1 <<< (g.L.length + 1)) = ok (2 ^ (g.L.length + 1)) := by
    rw [Nat.shiftLeft_eq, Nat.one_mul]
    apply ckInt_of_lt
    exact Nat.pow_lt_pow_right (by omega) (by omega)
  have r1 : rd sa.subs 0 = ok sa.subs[0] := by simp [rd, e3]
  have r2 : rd rb.subs 0 = ok rb.subs[0] := by simp [rd, a3]
  have r3 : rd rb.subs 1 = ok rb.subs[1] := by simp [rd, a3]
  refine ⟨⟨rb, rb3, mcb, sa, sa.subs[0], rb.subs[0], rb.subs[1]⟩, ?_, a3, b3, c3, e3, ?_, ?_, ?_, ?_, ?_, ?_⟩
  · simp only [initDefaultSets, a1, hr3, b1, hck, c1, e1, r1, r2, r3, ok_bind, pure_def]
  · intro k u hu
    obtain ⟨hk, rfl⟩ := List.getElem?_eq_some_iff.1 hu
    refine ⟨(a5 k hk).2.1, fun x => ?_⟩
    rw [(a5 k hk).2.2 x]
    simp only [ColourAt, rbFunc, and_one]
    constructor
    · rintro ⟨i, h1, h2, c, h3, h4⟩; exact ⟨i, h1, h2, c, h3, by omega⟩
    · rintro ⟨i, h1, h2, c, h3, h4⟩; exact ⟨i, h1, h2, c, h3, by omega⟩
  · intro k u hu
    obtain ⟨hk, rfl⟩ := List.getElem?_eq_some_iff.1 hu
    refine ⟨(b5 k hk).2.1, fun x => ?_⟩
    rw [(b5 k hk).2.2 x]
    have key : ∀ i c, i < g.sites → g.siteCoords node i = ok c →
        (c.take 3).sum = c.getD 0 0 + c.getD 1 0 + c.getD 2 0 := by
      intro i c hi hc
      obtain ⟨c', h1, h2, _⟩ := hg.2 node i hn hi
      rw [hc] at h1; injection h1 with h1; subst h1
      have hlen := h2.length_eq
      match c, hlen with
      | x :: y :: z :: c, _ => simp; omega
      | [], h => simp at h; omega
      | [_], h => simp at h; omega
      | [_, _], h => simp at h; omega
    simp only [ColourAt, f3, and_one]
    constructor
    · rintro ⟨i, h1, h2, c, h3, h4⟩; exact ⟨i, h1, h2, c, h3, by rw [key i c h2 h3] at h4; omega⟩
    · rintro ⟨i, h1, h2, c, h3, h4⟩; exact ⟨i, h1, h2, c, h3, by rw [key i c h2 h3]; omega⟩
  · intro k u hu
    obtain ⟨hk, rfl⟩ := List.getElem?_eq_some_iff.1 hu
    refine ⟨(c5 k hk).2.1, fun x => ?_⟩
    rw [(c5 k hk).2.2 x]
    have key : ∀ i c, i < g.sites → g.siteCoords node i = ok c → (mcbFunc c = (k : Int) ↔
        (∀ m, m < g.L.length → (k.testBit m = true ↔ c.getD m 0 % 2 = 1)) ∧
        (k.testBit g.L.length = true ↔ (c.map (· / 2)).sum % 2 = 1)) := by
      intro i c hi hc
      obtain ⟨c', h1, h2, _⟩ := hg.2 node i hn hi
      rw [hc] at h1; injection h1 with h1; subst h1
      have hlen := h2.length_eq
      rw [mcb_val, hlen]
      have hlt := sublOf_lt c
      rw [hlen] at hlt
      have hkb : k < 2 ^ (g.L.length + 1) := by
        have : k < mcb.subs.length := hk
        omega
      have hz : (c.map (· / 2)).sum % 2 < 2 := Nat.mod_lt _ (by omega)
      generalize (c.map (· / 2)).sum % 2 = z at hz
      have hdec : ∀ m, (sublOf c + z * 2 ^ g.L.length).testBit m =
          if m < g.L.length then (sublOf c).testBit m else z.testBit (m - g.L.length) := by
        intro m
        rw [Nat.add_comm, Nat.mul_comm]
        exact Nat.testBit_two_pow_mul_add z hlt m
      have hz1 : z.testBit 0 = decide (z = 1) := by
        rw [Nat.testBit_zero, Nat.mod_eq_of_lt hz]
      constructor
      · intro e
        have e : sublOf c + z * 2 ^ g.L.length = k := by omega
        subst e
        refine ⟨fun m hm => ?_, ?_⟩
        · rw [hdec, if_pos hm, sublOf_testBit _ _ (by omega)]; simp
        · rw [hdec, if_neg (by omega), Nat.sub_self, hz1]; simp
      · rintro ⟨p1, p2⟩
        have : sublOf c + z * 2 ^ g.L.length = k := by
          apply Nat.eq_of_testBit_eq
          intro m
          rw [hdec]
          split
          · rename_i hm
            have := p1 m hm
            rw [sublOf_testBit _ _ (by omega), Bool.eq_iff_iff, this]; simp
          · rename_i hm
            by_cases hm2 : m = g.L.length
            · subst hm2
              rw [Nat.sub_self, hz1, Bool.eq_iff_iff, p2]; simp
            · have hm3 : g.L.length + 1 ≤ m := by omega
              rw [Nat.testBit_lt_two_pow (Nat.lt_of_lt_of_le hkb (Nat.pow_le_pow_right (by omega) hm3))]
              apply Nat.testBit_lt_two_pow
              have : 2 ^ 1 ≤ 2 ^ (m - g.L.length) := Nat.pow_le_pow_right (by omega) (by omega)
              omega
        omega
    simp only [ColourAt]
    constructor
    · rintro ⟨i, h1, h2, c, h3, h4⟩; exact ⟨i, h1, h2, c, h3, (key i c h2 h3).1 h4⟩
    · rintro ⟨i, h1, h2, c, h3, h4⟩; exact ⟨i, h1, h2, c, h3, (key i c h2 h3).2 h4⟩
  · refine ⟨(e5 0 (by omega)).2.1, fun x => ?_⟩
    rw [(e5 0 (by omega)).2.2 x]
    simp [ColourAt, allFunc]
  · refine ⟨(a5 0 (by omega)).2.1, fun x => ?_⟩
    rw [(a5 0 (by omega)).2.2 x]
    simp only [ColourAt, rbFunc, and_one]
    constructor
    · rintro ⟨i, h1, h2, c, h3, h4⟩; exact ⟨i, h1, h2, c, h3, by omega⟩
    · rintro ⟨i, h1, h2, c, h3, h4⟩; exact ⟨i, h1, h2, c, h3, by omega⟩
  · refine ⟨(a5 1 (by omega)).2.1, fun x => ?_⟩
    rw [(a5 1 (by omega)).2.2 x]
    simp only [ColourAt, rbFunc, and_one]
    constructor
    · rintro ⟨i, h1, h2, c, h3, h4⟩; exact ⟨i, h1, h2, c, h3, by omega⟩
    · rintro ⟨i, h1, h2, c, h3, h4⟩; exact ⟨i, h1, h2, c, h3, by omega⟩

/-- C118: with fewer than three dimensions the initialisation of the library aborts, whatever the lattice. -/
theorem C118_few_dimensions (g : Geom) (hg : g.Good) (node : Nat) (hn : node < g.nodes) (hs : 0 < g.sites)
    (h3 : g.L.length < 3) : initDefaultSets g node = abort := by
  obtain ⟨rb, a1, -⟩ := C04_make g hg node hn rbFunc 2 (by
    intro c _; simp only [rbFunc, and_one]; omega)
  have hab : setMakeA g node rb3Func 2 = abort := by
    obtain ⟨c, h1, h2, h4, h5⟩ := hg.2 node 0 hn hs
    obtain ⟨n, hn'⟩ : ∃ n, g.sites = n + 1 := ⟨g.sites - 1, by omega⟩
    have hl := h2.length_eq
    have : rb3Func c = abort := by simp only [rb3Func]; rw [if_pos (by omega)]
    simp [setMakeA, hn', List.range_succ_eq_map, mapO, colourSiteA, h1, h4, h5, this]
  simp [initDefaultSets, a1, hab]

/-- C118: two sites have the same colour of `mcb` exactly when they lie in the same cell. -/
theorem C118_mcb_same (a b : List Nat) (h : a.length = b.length) : mcbFunc a = mcbFunc b ↔ SameCell a b := by
  rw [mcb_val, mcb_val, ← h]
  have h1 := sublOf_lt a
  have h2 := sublOf_lt b
  rw [← h] at h2
  unfold SameCell
  rw [← sublOf_inj a b h]
  have ha : (a.map (· / 2)).sum % 2 < 2 := Nat.mod_lt _ (by omega)
  have hb : (b.map (· / 2)).sum % 2 < 2 := Nat.mod_lt _ (by omega)
  generalize (a.map (· / 2)).sum % 2 = x at *
  generalize (b.map (· / 2)).sum % 2 = y at *
  generalize 2 ^ a.length = N at *
  have hx : x = 0 ∨ x = 1 := by omega
  have hy : y = 0 ∨ y = 1 := by omega
  rcases hx with rfl | rfl <;> rcases hy with rfl | rfl <;> constructor <;> intro e <;> omega

/-- C118: one step along a direction of even extent changes the red-black colour. -/
theorem C118_rb_neighbour (L c : List Nat) (s : Sgn) (d : Nat) (hc : InRange c L) (hd : d < L.length)
    (he : L.getD d 0 % 2 = 0) : rbFunc (nbr L c s d) ≠ rbFunc c := by
  have := sum_parity_nbr (s := s) hc hd he
  simp only [rbFunc, and_one]
  omega

/-- C118, refuted for odd extents: on every lattice with an odd extent there are a site and a neighbour of it with the
same red-black colour. -/
theorem C118_rb_odd_refuted (L : List Nat) (hp : ∀ l ∈ L, 0 < l) (d : Nat) (hd : d < L.length)
    (ho : L.getD d 0 % 2 = 1) : ∃ c, InRange c L ∧ rbFunc (nbr L c .fwd d) = rbFunc c := by
  refine ⟨(List.replicate L.length 0).set d (L.getD d 0 - 1), point_inRange L d _ hp hd (by omega), ?_⟩
  have h := nbr_sum id L _ .fwd d (point_inRange L d (L.getD d 0 - 1) hp hd (by omega)) hd
  simp only [List.map_id, id, getD_point _ _ _ hd] at h
  have hst : step (L.getD d 0) .fwd (L.getD d 0 - 1) = 0 := by
    simp only [step]; rw [if_pos (by omega)]
  rw [hst] at h
  simp only [rbFunc, and_one]
  omega

/-- C118: the three-dimensional red-black colour changes with a step along one of the first three directions, if its
extent is even, and never with a step along another. -/
theorem C118_rb3_neighbour (L c : List Nat) (s : Sgn) (d : Nat) (hc : InRange c L)
    (h3 : 3 ≤ L.length) :
    (d < 3 → L.getD d 0 % 2 = 0 → rb3Func (nbr L c s d) ≠ rb3Func c) ∧ (3 ≤ d → rb3Func (nbr L c s d) = rb3Func c) := by
  have hl := hc.length_eq
  have hl2 := nbr_length L c s d
  simp only [rb3Func]
  rw [if_neg (by omega), if_neg (by omega)]
  constructor
  · intro h he
    rw [nbr_take_lt 3 L c s d h]
    have hd' : d < (L.take 3).length := by simp; omega
    have he' : (L.take 3).getD d 0 % 2 = 0 := by
      rw [show (L.take 3).getD d 0 = L.getD d 0 by simp [List.getD, h]]; exact he
    have := sum_parity_nbr (s := s) (inRange_take 3 hc) hd' he'
    simp only [and_one, ne_eq, Outcome.ok.injEq]
    omega
  · intro h
    rw [nbr_take 3 L c s d h]

/-- C118: on a lattice whose extents are multiples of 4 (or 2) every site at one or two steps has another `mcb`
colour, unless the two steps lead back. -/
theorem C118_mcb_neighbours (L c : List Nat) (s t : Sgn) (d e : Nat) (hc : InRange c L) (hd : d < L.length)
    (he : e < L.length) (h4 : ∀ l ∈ L, l % 4 = 0 ∨ l = 2) :
    mcbFunc (nbr L c s d) ≠ mcbFunc c ∧
    (nbr L (nbr L c s d) t e ≠ c → mcbFunc (nbr L (nbr L c s d) t e) ≠ mcbFunc c) := by
  have hmem : ∀ m, m < L.length → L.getD m 0 % 4 = 0 ∨ L.getD m 0 = 2 := by
    intro m hm
    apply h4
    simp [List.getD, hm]
  have hl := hc.length_eq
  have hdd := hmem d hd
  have hee := hmem e he
  have hp := step_parity (s := s) (inRange_getD d hc hd) (by omega)
  have hc1 : InRange (nbr L c s d) L := nbr_inRange hc
  constructor
  · intro h
    have h1 := ((C118_mcb_same _ _ (nbr_length L c s d)).1 h).1 d (by rw [nbr_length]; omega)
    rw [nbr_getD L c s d d hc hd, if_pos rfl] at h1
    exact hp h1
  · intro hne h
    obtain ⟨h1, h2⟩ := (C118_mcb_same _ _ (by rw [nbr_length, nbr_length])).1 h
    have h1 := h1 d (by rw [nbr_length, nbr_length]; omega)
    by_cases hde : d = e
    · subst hde
      by_cases hst : t = s.neg
      · subst hst; exact hne (nbr_nbr hc)
      · have hts : t = s := by
          cases s <;> cases t <;> simp [Sgn.neg] at hst <;> rfl
        subst hts
        have g1 := nbr_sum (· / 2) L c t d hc hd
        have g2 := nbr_sum (· / 2) L (nbr L c t d) t d hc1 hd
        rw [nbr_getD L c t d d hc hd, if_pos rfl] at g2
        have hx := inRange_getD d hc hd
        rcases hdd with h4d | h2d
        · have := step2_half (s := t) hx h4d
          simp only at g1 g2 h2
          omega
        · apply hne
          -- on a circle of two points, forward and backward agree
          have hst2 : ∀ u : Sgn, ∀ x, x < 2 → step 2 u x = step 2 u.neg x := by
            intro u x hx
            cases u <;> simp only [step, Sgn.neg] <;> (repeat' split) <;> omega
          have hn2 : ∀ (L c : List Nat) (d : Nat), InRange c L → d < L.length → L.getD d 0 = 2 →
              nbr L c t d = nbr L c t.neg d := by
            intro L
            induction L with
            | nil => intro c d _ h; simp at h
            | cons l L ih =>
              intro c d hc hd h2
              match c, d with
              | [], _ => simp [InRange] at hc
              | x :: c, 0 =>
                simp only [List.getD_cons_zero] at h2; subst h2
                simp [nbr, hst2 t x hc.1]
              | x :: c, d + 1 =>
                simp only [nbr]
                rw [ih c d hc.2 (by simpa using hd) (by simpa using h2)]
          rw [hn2 L _ d hc1 hd h2d, nbr_nbr hc]
    · rw [nbr_getD L _ t e d hc1 he, if_neg hde, nbr_getD L c s d d hc hd, if_pos rfl] at h1
      exact hp h1

/-- C118, refuted for the other even extents: on every lattice with an extent `l > 2` that leaves 2 modulo 4 there is a
site with the same `mcb` colour as the site two steps away. -/
theorem C118_mcb_two_refuted (L : List Nat) (hp : ∀ l ∈ L, 0 < l) (d : Nat) (hd : d < L.length)
    (h2 : L.getD d 0 % 4 = 2) (hbig : 2 < L.getD d 0) :
    ∃ c, InRange c L ∧ nbr L (nbr L c .fwd d) .fwd d ≠ c ∧ mcbFunc (nbr L (nbr L c .fwd d) .fwd d) = mcbFunc c := by
  have hx : L.getD d 0 - 1 < L.getD d 0 := by omega
  have hr := point_inRange L d _ hp hd hx
  refine ⟨(List.replicate L.length 0).set d (L.getD d 0 - 1), hr, ?_⟩
  have hr1 : InRange (nbr L ((List.replicate L.length 0).set d (L.getD d 0 - 1)) .fwd d) L := nbr_inRange hr
  have g1 := nbr_sum (· / 2) L _ .fwd d hr hd
  have g2 := nbr_sum (· / 2) L _ .fwd d hr1 hd
  have hst : step (L.getD d 0) .fwd (L.getD d 0 - 1) = 0 := by
    simp only [step]; rw [if_pos (by omega)]
  have hst1 : step (L.getD d 0) .fwd 0 = 1 := by
    simp only [step]; rw [if_neg (by omega)]
  rw [nbr_getD L _ .fwd d d hr hd, if_pos rfl, getD_point _ _ _ hd, hst, hst1] at g2
  rw [getD_point _ _ _ hd, hst] at g1
  have gd : ∀ m, (nbr L (nbr L ((List.replicate L.length 0).set d (L.getD d 0 - 1)) .fwd d) .fwd d).getD m 0 =
      if m = d then 1 else ((List.replicate L.length 0).set d (L.getD d 0 - 1)).getD m 0 := by
    intro m
    rw [nbr_getD L _ .fwd d m hr1 hd, nbr_getD L _ .fwd d d hr hd, if_pos rfl, getD_point _ _ _ hd, hst, hst1]
    split
    · rfl
    · rename_i hm
      rw [nbr_getD L _ .fwd d m hr hd, if_neg hm]
  constructor
  · intro h
    have := gd d
    rw [h, getD_point _ _ _ hd, if_pos rfl] at this
    omega
  · apply (C118_mcb_same _ _ (by rw [nbr_length, nbr_length])).2
    refine ⟨fun m _ => ?_, ?_⟩
    · rw [gd]
      split
      · rename_i hm
        subst hm
        rw [getD_point _ _ _ hd]
        omega
      · rfl
    · omega

/-- C118: on the 3D checkerboard layout of a four-dimensional lattice `rb3[0]` and `rb3[1]` are the two halves of the
slots of every node, ordered. -/
theorem C118_rb3_cb3d (L : List Nat) (s0 s1 s2 st : Nat) (m : Machine) (hm : m.Good)
    (hcut : Cut L m.size [s0, s1, s2, st]) (heven : s0 % 2 = 0) (hS : ∀ s ∈ [s0, s1, s2, st], 0 < s)
    (hv : nsites L < 2 ^ 31) (node : Nat) (hn : node < nsites m.size) :
    ∃ s u v, setMakeA (geomCB3D L m [s0, s1, s2, st]) node rb3Func 2 = ok s ∧ s.subs[0]? = some u ∧ s.subs[1]? = some v ∧
      u.ordRep = true ∧ u.start = 0 ∧ u.stop = ((nsites [s0, s1, s2, st] / 2 : Nat) : Int) - 1 ∧
      v.ordRep = true ∧ v.start = ((nsites [s0, s1, s2, st] / 2 : Nat) : Int) ∧
      v.stop = (nsites [s0, s1, s2, st] : Int) - 1 := by
  have hg : (geomCB3D L m [s0, s1, s2, st]).Good := C02_cb3d L [s1, s2] s0 st m hm hcut heven hS hv
  let f3 : List Nat → Int := fun c => (((c.take 3).sum &&& 1 : Nat) : Int)
  have hL : L.length = 4 := by
    have := (cut_lengths hcut); simp at this; omega
  have hlegal : ∀ c, InRange c (geomCB3D L m ([s0, s1, s2, st])).L → 0 ≤ f3 c ∧ f3 c < (2 : Nat) := by
    intro c _; simp only [f3, and_one]; omega
  have hr3 : setMakeA (geomCB3D L m [s0, s1, s2, st]) node rb3Func 2 =
      setMake (geomCB3D L m [s0, s1, s2, st]) node f3 2 := by
    apply setMakeA_eq hg hn
    intro c hc
    have hc : InRange c L := hc
    have := hc.length_eq
    simp only [rb3Func]
    rw [if_neg (by omega)]
  have hhalf := C03_halves s0 [s1, s2, st] heven
  have hpos : 0 < nsites [s0, s1, s2, st] := nsites_pos hS
  obtain ⟨s, b1, -⟩ := C04_make _ hg node hn f3 2 hlegal
  have hpar : ∀ i c, i < nsites [s0, s1, s2, st] → siteCoordsCB3D m [s0, s1, s2, st] node i = ok c →
      (f3 c = 0 ↔ i < nsites [s0, s1, s2, st] / 2) ∧ (f3 c = 0 ∨ f3 c = 1) := by
    intro i c hi hc
    have hp := C03_par_cb3d L [s1, s2] s0 st m hm hcut heven hS hv node i hn hi c hc
    obtain ⟨c', q1, q2, _⟩ := hg.2 node i hn hi
    have q1 : siteCoordsCB3D m [s0, s1, s2, st] node i = ok c' := q1
    rw [hc] at q1; injection q1 with q1; subst q1
    have q2 : InRange c L := q2
    have hl := q2.length_eq
    have hdl : c.dropLast = c.take 3 := by rw [List.dropLast_eq_take, hl, hL]
    rw [hdl] at hp
    simp only [f3, and_one]
    have e1 : (nsites (s0 :: ([s1, s2] ++ [st]))) = nsites [s0, s1, s2, st] := rfl
    rw [e1] at hp
    generalize nsites [s0, s1, s2, st] = N at *
    omega
  obtain ⟨u, u1, u2, u3, u4⟩ := ordered_of_range hg hn hlegal b1 (k := 0) (a := 0) (n := nsites [s0, s1, s2, st] / 2)
    (by omega) (by omega) (by show 0 + nsites [s0, s1, s2, st] / 2 ≤ nsites [s0, s1, s2, st]; omega) (by
      intro i c hi hc
      have := (hpar i c hi hc).1
      simp only [Int.natCast_zero] at this ⊢
      rw [this]; omega)
  obtain ⟨v, v1, v2, v3, v4⟩ := ordered_of_range hg hn hlegal b1 (k := 1) (a := nsites [s0, s1, s2, st] / 2)
    (n := nsites [s0, s1, s2, st] / 2) (by omega) (by omega)
    (by show nsites [s0, s1, s2, st] / 2 + nsites [s0, s1, s2, st] / 2 ≤ nsites [s0, s1, s2, st]; omega) (by
      intro i c hi hc
      have hi : i < nsites [s0, s1, s2, st] := hi
      obtain ⟨p1, p2⟩ := hpar i c hi hc
      generalize f3 c = z at *
      generalize nsites [s0, s1, s2, st] = N at *
      omega)
  refine ⟨s, u, v, by rw [hr3, b1], u1, v1, u2, by simpa using u3, by simpa using u4, v2, v3, ?_⟩
  rw [v4]
  generalize nsites [s0, s1, s2, st] = N at *
  omega

/-- C118: on the 32-colour layout of one process `mcb[k]` is, for every `k`, the ordered range of slots
`k*V .. (k+1)*V-1`, where `V` is the volume divided by the number of colours. -/
theorem C118_mcb_cb32 (l0 : Nat) (ls : List Nat) (h4 : l0 % 4 = 0) (heven : ∀ l ∈ ls, l % 2 = 0)
    (hp : ∀ l ∈ l0 :: ls, 0 < l) (hv : nsites (l0 :: ls) < 2 ^ 31) :
    ∃ s, setMake (geomScalar (l0 :: ls) (siteCoordsCB32 (l0 :: ls)) (linearSiteIndexCB32 (l0 :: ls))) 0 mcbFunc
        (2 ^ (ls.length + 2)) = ok s ∧
      ∀ k, k < 2 ^ (ls.length + 2) → ∃ u, s.subs[k]? = some u ∧ u.ordRep = true ∧
        u.start = ((k * (nsites (l0 :: ls) / 2 ^ (ls.length + 2)) : Nat) : Int) ∧
        u.stop = (((k + 1) * (nsites (l0 :: ls) / 2 ^ (ls.length + 2)) : Nat) : Int) - 1 := by
  have hg := C02_scalar (l0 :: ls) _ _ (C01_cb32 l0 ls h4 heven hp hv)
  have hlegal : ∀ c, InRange c (geomScalar (l0 :: ls) (siteCoordsCB32 (l0 :: ls)) (linearSiteIndexCB32 (l0 :: ls))).L →
      0 ≤ mcbFunc c ∧ mcbFunc c < ((2 ^ (ls.length + 2) : Nat) : Int) := by
    intro c hc
    have hc : InRange c (l0 :: ls) := hc
    have h1 := mcb_lt c
    have h2 := hc.length_eq
    simp only [List.length_cons] at h2
    rw [h2] at h1
    exact ⟨by rw [mcb_val]; omega, h1⟩
  have hn0 : 0 < (geomScalar (l0 :: ls) (siteCoordsCB32 (l0 :: ls)) (linearSiteIndexCB32 (l0 :: ls))).nodes := by
    simp [geomScalar]
  obtain ⟨s, b1, -⟩ := C04_make _ hg 0 hn0 mcbFunc (2 ^ (ls.length + 2)) hlegal
  refine ⟨s, b1, fun k hk => ?_⟩
  -- the shape of the lattice
  obtain ⟨h, rfl⟩ : ∃ h, l0 = 4 * h := ⟨l0 / 4, by omega⟩
  obtain ⟨ks, rfl⟩ := exists_doubled heven
  have hp' : 0 < 4 * h ∧ ∀ l ∈ ks.map (2 * ·), 0 < l := by simpa only [List.mem_cons, forall_eq_or_imp] using hp
  have hh : 0 < h := by omega
  have hks : ∀ l ∈ ks, 0 < l := by
    intro l hl
    have := hp'.2 (2 * l) (List.mem_map.2 ⟨l, hl, rfl⟩)
    omega
  have hs : nsites (4 * h :: ks.map (2 * ·)) = 2 ^ (ks.length + 2) * (h * nsites ks) := by
    simp only [nsites, nsites_double]
    rw [Nat.pow_add, show 2 ^ 2 = 4 from rfl]
    ac_rfl
  have hV : 0 < h * nsites ks := Nat.mul_pos hh (nsites_pos hks)
  rw [List.length_map] at hk b1 hlegal ⊢
  have hq : nsites (4 * h :: ks.map (2 * ·)) / 2 ^ (ks.length + 2) = h * nsites ks := by
    rw [hs, Nat.mul_div_cancel_left _ (Nat.pow_pos (by omega))]
  rw [hq]
  have hsites : (geomScalar (4 * h :: ks.map (2 * ·)) (siteCoordsCB32 (4 * h :: ks.map (2 * ·)))
      (linearSiteIndexCB32 (4 * h :: ks.map (2 * ·)))).sites = 2 ^ (ks.length + 2) * (h * nsites ks) := hs
  have hkV : (k + 1) * (h * nsites ks) ≤ 2 ^ (ks.length + 2) * (h * nsites ks) := Nat.mul_le_mul_right _ hk
  rw [Nat.succ_mul] at hkV
  obtain ⟨u, u1, u2, u3, u4⟩ := ordered_of_range hg hn0 hlegal b1 (k := k) (a := k * (h * nsites ks))
    (n := h * nsites ks) hk hV (by rw [hsites]; exact hkV) (by
      intro i c hi hc
      rw [hsites] at hi
      have hc : siteCoordsCB32 (4 * h :: ks.map (2 * ·)) i = ok c := hc
      obtain ⟨c0, cs, e1, e2, e3, e4, e5⟩ := index32_coords32 hi hV
      rw [siteCoordsCB32_eq hh hks (by rw [← hs]; exact hv), e1] at hc
      injection hc with hc; subst hc
      have hm : mcbFunc (c0 :: cs) = ((i / (h * nsites ks) : Nat) : Int) := by
        rw [mcb_val, ← e5]
        simp only [subl32, map_half, List.map_cons, List.sum_cons, List.length_cons]
      rw [hm]
      generalize h * nsites ks = V at *
      constructor
      · intro e
        have e : i / V = k := by omega
        have := Nat.div_add_mod i V
        have := Nat.mod_lt i hV
        subst e
        rw [Nat.mul_comm (i / V) V]
        omega
      · rintro ⟨q1, q2⟩
        have : i / V = k := by
          rw [Nat.div_eq_iff hV]
          rw [Nat.mul_comm] at q1 q2 ⊢
          omega
        omega)
  refine ⟨u, u1, u2, u3, ?_⟩
  rw [u4, Nat.succ_mul]
  omega

/-! Cases meeting the hypotheses -/

example : (3 ≤ ([4, 4, 4, 4] : List Nat).length) ∧ mcbFunc [1, 2, 3, 0] = 5 ∧ mcbFunc [1, 3, 2, 0] = 3 ∧
    rb3Func [1, 1, 1, 1] = ok 1 ∧ rbFunc [1, 1, 1, 1] = 0 := by decide
-- two sites two steps apart of the same colour on an extent of 6
example : nbr [6, 4, 4, 4] (nbr [6, 4, 4, 4] [5, 0, 0, 0] .fwd 0) .fwd 0 = [1, 0, 0, 0] ∧
    mcbFunc [5, 0, 0, 0] = mcbFunc [1, 0, 0, 0] := by decide
example : ∃ d, initDefaultSets (geomScalar [4, 2, 2] (Layout.siteCoordsCB2 [4, 2, 2]) (Layout.linearSiteIndexCB2 [4, 2, 2])) 0 = ok d ∧
    d.even.table = [0, 1, 2, 3, 4, 5, 6, 7] ∧ d.odd.ordRep = true := by
  refine ⟨_, rfl, ?_⟩
  decide

end Verif.DefaultSets
