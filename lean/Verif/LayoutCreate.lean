import Verif.ParLayoutProps
import Verif.LatticeIOProps
import Mathlib.Data.Finset.Card
/-
`Layout::create`: which lattices the library accepts, and whether what it accepts is laid out correctly.

Sources: lib/qdp_scalar_layout.cc:186-271, lib/qdp_parscalar_layout.cc:237-387, lib/qdp_parscalarvec_layout.cc:190-331.

QMP is external.  It enters through the machine `m` it hands out after `QMP_layout_grid` (whose status is not looked at,
lib/qdp_parscalar_layout.cc:281); "if the logical_machine size was set previously it will be used" (ibid. 274-275), so `m` is arbitrary in the
model, and what is asked of it is a hypothesis of each theorem.  Printing, the memory pool and `initDefaults` are left out.
-/
namespace Verif.LayoutCreate
open Verif Outcome Verif.Layout Verif.ParLayout Verif.LatticeIO

/-! ## Model: one node -/

/-- the loop over the sites, lib/qdp_scalar_layout.cc:242-263: every slot is turned into coordinates and back.  The iterations are shared among the
threads; they write nothing, so the first one that stops the program decides. -/
def sane (coords : Nat → Outcome (List Nat)) (index : List Nat → Outcome Nat) (vol : Nat) : Outcome Unit :=
  foldO (fun _ i => do
    let c ← coords i
    let j ← index c
    if i ≠ j then abort else ok ()) () (List.range vol)

/-- `Layout::create`, lib/qdp_scalar_layout.cc:186-271; `ini` = `QDP_isInitialized()`, `nd` = `Nd`, `L` = what `setLattSize` stored. -/
def scalarCreate (ini : Bool) (nd : Nat) (L : List Nat) (coords : Nat → Outcome (List Nat)) (index : List Nat → Outcome Nat) :
    Outcome Unit := do
  if !ini then abort
  if L.length ≠ nd then abort
  let vol ← volume L
  sane coords index vol

/-! ## Model: many nodes -/

/-- the orderings that compile on many nodes (the fourth is `#error "THIS BIT STILL UNDER CONSTRUCTION"`, lib/qdp_parscalar_layout.cc:653) -/
inductive Order where
  | lex | cb2 | cb3d
deriving DecidableEq

/-- `minimalLayoutMapping`, lib/qdp_parscalar_layout.cc:442-448, 534-541, 635-643 -/
def minDim : Order → Nat → List Nat
  | .lex, nd => List.replicate nd 1
  | _, nd => (List.replicate nd 1).set 0 2

/-- the layout functions of the chosen ordering -/
def geomOf : Order → List Nat → Machine → List Nat → Geom
  | .lex, L, m, S => geomLex L m S
  | .cb2, L, m, S => geomCB2 L m S
  | .cb3d, L, m, S => geomCB3D L m S

/-- `crtesn` of the build, lib/qdp_layout.cc:64-146 -/
def crt : Order → Nat → List Nat → Outcome (List Nat)
  | .cb3d => crtesn3d
  | _ => crtesn
/-- `local_site` of the build, lib/qdp_layout.cc:64-163 -/
def loc : Order → List Nat → List Nat → Outcome Nat
  | .cb3d => localSite3d
  | _ => localSite

/-- the test of QMP's two functions, lib/qdp_parscalar_layout.cc:336-344 -/
def nodeCheck (m : Machine) : Outcome Unit :=
  foldO (fun _ n => if n ≠ m.nodeFrom (m.coordFrom n) then abort else ok ()) () (List.range (nsites m.size))

/-- the test of the layout functions, lib/qdp_parscalar_layout.cc:350-371 (only with QDP_DEBUG >= 2), lib/qdp_parscalarvec_layout.cc:306-326 (always) -/
def siteCheck (o : Order) (g : Geom) (vol : Nat) : Outcome Unit :=
  foldO (fun _ site => do
    let c1 ← crt o site g.L
    let linear ← g.linearSiteIndex c1
    let node ← g.nodeNumber c1
    let c2 ← g.siteCoords node linear
    let j ← loc o c2 g.L
    if site ≠ j then abort else ok ()) () (List.range vol)

/-- `if (_layout.nrow[i] % min_dim[i] != 0) QDP_error_exit`, lib/qdp_parscalar_layout.cc:269-271 -/
def minCheck : List Nat → List Nat → Outcome Unit
  | l :: L, d :: D => do
      let r ← cmod l d
      if r ≠ 0 then abort
      minCheck L D
  | _, _ => ok ()

/-- `Layout::create`, lib/qdp_parscalar_layout.cc:237-387; `dbg` = `QDP_DEBUG >= 2`.  The number of nodes is that of the logical grid.  Result: the
extents of the block of each node. -/
def parCreate (dbg : Bool) (o : Order) (ini : Bool) (nd : Nat) (L : List Nat) (m : Machine) : Outcome (List Nat) := do
  if !ini then abort
  if L.length ≠ nd then abort
  let vol ← volume L
  let r ← cmod vol (nsites m.size)
  if r ≠ 0 then abort
  minCheck L (minDim o nd)
  let S ← subgrid L m
  let _ ← volume S
  nodeCheck m
  if dbg then siteCheck o (geomOf o L m S) vol
  return S

/-- `Layout::create` of the vector library on many nodes, lib/qdp_parscalarvec_layout.cc:190-331; `inner` = `INNER_LEN` -/
def vecCreate (inner : Nat) (o : Order) (ini : Bool) (nd : Nat) (L : List Nat) (m : Machine) : Outcome (List Nat) := do
  if !ini then abort
  if L.length ≠ nd then abort
  let vol ← volume L
  let q ← cmod vol inner
  if q ≠ 0 then abort
  let r ← cmod vol (nsites m.size)
  if r ≠ 0 then abort
  minCheck L (minDim o nd)
  let S ← subgrid L m
  let v ← volume S
  let q ← cmod v inner
  if q ≠ 0 then abort
  nodeCheck m
  siteCheck o (geomOf o L m S) vol
  return S

/-! ## Lemmas -/

theorem fold_unit {α : Type} {f : Unit → α → Outcome Unit} : ∀ (l : List α), foldO f () l = ok () ↔ ∀ a ∈ l, f () a = ok ()
  | [] => by simp [foldO]
  | a :: l => by
    simp only [foldO, bind_eq_ok, List.mem_cons, forall_eq_or_imp]
    constructor
    · rintro ⟨⟨⟩, h1, h2⟩
      exact ⟨h1, (fold_unit l).1 h2⟩
    · rintro ⟨h1, h2⟩
      exact ⟨(), h1, (fold_unit l).2 h2⟩

theorem sane_iff {coords : Nat → Outcome (List Nat)} {index : List Nat → Outcome Nat} {v : Nat} :
    sane coords index v = ok () ↔ ∀ i < v, ∃ c, coords i = ok c ∧ index c = ok i := by
  unfold sane
  rw [fold_unit]
  simp only [List.mem_range]
  refine forall_congr' fun i => imp_congr_right fun _ => ?_
  simp only [bind_eq_ok]
  constructor
  · rintro ⟨c, h1, j, h2, h3⟩
    refine ⟨c, h1, ?_⟩
    split at h3
    · cases h3
    · rename_i h; rw [h2]; congr 1; omega
  · rintro ⟨c, h1, h2⟩
    exact ⟨c, h1, i, h2, by simp⟩

theorem volLoop_ok : ∀ {L : List Nat} {v w : Nat}, volLoop L v = ok w → v < 2 ^ 31 → w = v * nsites L ∧ w < 2 ^ 31
  | [], v, w, h, hv => by
    injection h with h
    subst h
    exact ⟨by simp [nsites], hv⟩
  | l :: L, v, w, h, hv => by
    simp only [volLoop, bind_eq_ok] at h
    obtain ⟨u, h1, h2⟩ := h
    unfold ckInt at h1
    split at h1
    · rename_i hu
      injection h1 with h1
      subst h1
      obtain ⟨e, hw⟩ := volLoop_ok h2 hu
      exact ⟨by rw [e]; simp only [nsites]; ring, hw⟩
    · cases h1

theorem volume_ok {L : List Nat} {v : Nat} (h : volume L = ok v) : v = nsites L ∧ nsites L < 2 ^ 31 := by
  obtain ⟨e, hv⟩ := volLoop_ok h (by norm_num)
  rw [Nat.one_mul] at e
  exact ⟨e, e ▸ hv⟩

theorem scalarCreate_iff {nd : Nat} {L : List Nat} {coords : Nat → Outcome (List Nat)} {index : List Nat → Outcome Nat} :
    scalarCreate true nd L coords index = ok () ↔
      L.length = nd ∧ volume L = ok (nsites L) ∧ ∀ i < nsites L, ∃ c, coords i = ok c ∧ index c = ok i := by
  unfold scalarCreate
  by_cases hl : L.length = nd
  · simp only [Bool.not_true, Bool.false_eq_true, ↓reduceIte, hl, ne_eq, not_true_eq_false, bind_eq_ok, true_and]
    constructor
    · rintro ⟨v, h1, h2⟩
      obtain ⟨rfl, _⟩ := volume_ok h1
      exact ⟨h1, sane_iff.1 h2⟩
    · rintro ⟨h1, h2⟩
      exact ⟨_, h1, sane_iff.2 h2⟩
  · simp [hl]

/-- there are no more values than sites of the box they lie in -/
theorem count_le {v : Nat} {B : List Nat} (f : Nat → List Nat) (hr : ∀ i < v, InRange (f i) B)
    (hinj : ∀ i < v, ∀ j < v, f i = f j → i = j) : v ≤ nsites B := by
  have := Finset.card_le_card_of_injOn (s := Finset.range v) (t := Finset.range (nsites B)) (fun i => rank (f i) B)
    (fun i hi => by
      simp only [Finset.coe_range, Set.mem_Iio] at hi ⊢
      exact rank_lt (hr i hi))
    (fun i hi j hj h => by
      simp only [Finset.coe_range, Set.mem_Iio] at hi hj
      have e := congrArg (fun p => digits p B) h
      simp only [digits_rank (hr i hi), digits_rank (hr j hj)] at e
      exact hinj i hi j hj e)
  simpa using this

/-- if the slots can be recovered from coordinates lying in a box, the box is large enough -/
theorem box_le {v : Nat} {B : List Nat} {coords : Nat → Outcome (List Nat)} {index : List Nat → Outcome Nat}
    (h : ∀ i < v, ∃ c, coords i = ok c ∧ index c = ok i) (hb : ∀ i c, coords i = ok c → InRange c B) : v ≤ nsites B := by
  classical
  choose! f h1 h2 using h
  refine count_le f (fun i hi => hb i _ (h1 i hi)) fun i hi j hj e => ?_
  have := (h2 i hi).symm.trans (e ▸ h2 j hj)
  injection this

theorem digits_inBox : ∀ {L : List Nat} (p : Nat), (∀ l ∈ L, 0 < l) → InRange (digits p L) L
  | [], _, _ => trivial
  | l :: L, p, h => ⟨Nat.mod_lt _ (h l (by simp)), digits_inBox _ fun x hx => h x (by simp [hx])⟩

theorem crtesn_ok : ∀ {L : List Nat} {p : Nat} {c : List Nat}, crtesn p L = ok c → (∀ l ∈ L, 0 < l) ∧ c = digits p L
  | [], p, c, h => by
    injection h with h
    subst h
    simp [digits]
  | l :: L, p, c, h => by
    simp only [crtesn, bind_eq_ok] at h
    obtain ⟨a, h1, q, h2, cs, h3, h4⟩ := h
    unfold cmod at h1
    unfold cdiv at h2
    split at h1
    · cases h1
    · rename_i hl
      rw [if_neg hl] at h2
      injection h1 with h1
      injection h2 with h2
      injection h4 with h4
      subst h1; subst h2; subst h4
      obtain ⟨hp, rfl⟩ := crtesn_ok h3
      exact ⟨by simp only [List.mem_cons, forall_eq_or_imp]; exact ⟨Nat.pos_of_ne_zero hl, hp⟩, rfl⟩

theorem mutual_zero {L : List Nat} {coords : Nat → Outcome (List Nat)} {index : List Nat → Outcome Nat} (h : nsites L = 0) :
    MutuallyInverse L coords index :=
  ⟨fun i hi => by omega, fun c hc => absurd (rank_lt hc) (by omega)⟩

theorem cb2_box {L : List Nat} {i : Nat} {c : List Nat} (h : Layout.siteCoordsCB2 L i = ok c) :
    ∃ l0 ls, L = l0 :: ls ∧ InRange c (2 * (l0 / 2) :: ls) := by
  cases L with
  | nil => simp [Layout.siteCoordsCB2, volume, volLoop, halveFirst] at h
  | cons l0 ls =>
    refine ⟨l0, ls, rfl, ?_⟩
    simp only [Layout.siteCoordsCB2, halveFirst, bind_eq_ok, ok_bind] at h
    obtain ⟨v, _, a, _, r, _, cc, h1, h2⟩ := h
    obtain ⟨hp, rfl⟩ := crtesn_ok h1
    have hb := digits_inBox r hp
    simp only [digits] at h2 hb
    simp only [bind_eq_ok] at h2
    obtain ⟨s, _, h3⟩ := h2
    injection h3 with h3
    subst h3
    have e : l0 >>> 1 = l0 / 2 := rfl
    rw [e] at hb
    refine ⟨?_, hb.2⟩
    have := hb.1
    rw [and_one, e]
    have := Nat.mod_lt s (show 0 < 2 by norm_num)
    omega

theorem crtesn3dGo_pos {L : List Nat} : ∀ {k i p : Nat} {c d : List Nat}, crtesn3dGo L k i p c = ok d →
    ∀ j < k, ∃ l, L[(i + j) % L.length]? = some l ∧ 0 < l
  | 0, _, _, _, _, _ => fun j hj => by omega
  | k + 1, i, p, c, d, h => by
    simp only [crtesn3dGo, bind_eq_ok] at h
    obtain ⟨ix, h1, l, h2, a, h3, q, _, h5⟩ := h
    intro j hj
    match j with
    | 0 =>
      unfold cmod at h1 h3
      split at h1
      · cases h1
      · split at h3
        · cases h3
        · rename_i hl
          injection h1 with h1
          subst h1
          exact ⟨l, rd_eq_ok.1 h2, Nat.pos_of_ne_zero hl⟩
    | j + 1 =>
      have := crtesn3dGo_pos h5 j (by omega)
      rwa [show i + 1 + j = i + (j + 1) by omega] at this

theorem crtesn3d_ok {ls : List Nat} {t p : Nat} {c : List Nat} (h : crtesn3d p (ls ++ [t]) = ok c) : InRange c (ls ++ [t]) := by
  have hn : (ls ++ [t]).length = ls.length + 1 := by simp
  have hp : ∀ l ∈ ls ++ [t], 0 < l := by
    intro l hl
    obtain ⟨x, hx, rfl⟩ := List.mem_iff_getElem.1 hl
    obtain ⟨a, h1, h2⟩ := crtesn3dGo_pos h ((x + 1) % (ls ++ [t]).length) (Nat.mod_lt _ (by simp))
    have e : ((ls ++ [t]).length - 1 + (x + 1) % (ls ++ [t]).length) % (ls ++ [t]).length = x := by
      rw [hn] at hx ⊢
      rcases Nat.lt_or_ge (x + 1) (ls.length + 1) with h | h
      · rw [Nat.mod_eq_of_lt h, show ls.length + 1 - 1 + (x + 1) = (ls.length + 1) + x by omega, Nat.add_mod_left, Nat.mod_eq_of_lt (by omega)]
      · rw [show x + 1 = ls.length + 1 by omega, Nat.mod_self, Nat.add_zero, Nat.mod_eq_of_lt (by omega)]
        omega
    rw [e, List.getElem?_eq_getElem hx] at h1
    injection h1 with h1
    omega
  have ht : 0 < t := hp t (by simp)
  have hls : ∀ l ∈ ls, 0 < l := fun l hl => hp l (by simp [hl])
  rw [crtesn3d_eq hls ht] at h
  injection h with h
  subst h
  exact inRange_append.2 ⟨digits_inBox _ hls, Nat.mod_lt _ ht⟩

theorem cb3d_box {l0 t : Nat} {mid : List Nat} {i : Nat} {c : List Nat} (h : Layout.siteCoordsCB3D (l0 :: (mid ++ [t])) i = ok c) :
    InRange c (2 * (l0 / 2) :: (mid ++ [t])) := by
  simp only [Layout.siteCoordsCB3D, bind_eq_ok, ok_bind] at h
  obtain ⟨v, _, a, _, r, _, cc, h1, h2⟩ := h
  have hb := crtesn3d_ok (ls := l0 / 2 :: mid) h1
  cases cc with
  | nil => cases h2
  | cons c0 cs =>
    simp only [List.cons_append] at hb
    simp only [bind_eq_ok] at h2
    obtain ⟨s, _, h3⟩ := h2
    injection h3 with h3
    subst h3
    refine ⟨?_, hb.2⟩
    have := hb.1
    rw [and_one]
    have := Nat.mod_lt s (show 0 < 2 by norm_num)
    omega

theorem xorBits_box (s n : Nat) (q ls : List Nat) (m : Nat) (hm : m + q.length ≤ n) (hq : InRange q ls) :
    InRange (xorBits s m (q.map (· <<< 1))) (ls.map (2 * ·)) := by
  induction q generalizing ls m with
  | nil => cases ls <;> simp_all [InRange, xorBits]
  | cons a q ih =>
    cases ls with
    | nil => simp [InRange] at hq
    | cons l ls =>
      simp only [List.map_cons, xorBits, InRange]
      simp only [List.length_cons] at hm
      refine ⟨?_, ih ls (m + 1) (by omega) hq.2⟩
      rw [bit_extract, Nat.shiftLeft_eq, Nat.pow_one, Nat.mul_comm, even_xor_bit _ _ (Nat.mod_lt _ (by norm_num))]
      have := hq.1
      have := Nat.mod_lt (s >>> m) (show 0 < 2 by norm_num)
      omega

theorem cb32_box {l0 : Nat} {ls : List Nat} {i : Nat} {c : List Nat} (h : siteCoordsCB32 (l0 :: ls) i = ok c) :
    InRange c (4 * (l0 / 4) :: ls.map (fun l => 2 * (l / 2))) := by
  simp only [siteCoordsCB32, cb32Coarse, bind_eq_ok, ok_bind] at h
  obtain ⟨v, _, subl, _, r, _, cc, h1, h2⟩ := h
  obtain ⟨hp, rfl⟩ := crtesn_ok h1
  have hb := digits_inBox r hp
  simp only [digits] at h2 hb
  simp only [bind_eq_ok] at h2
  obtain ⟨s, _, h3⟩ := h2
  simp only [xorBits] at h3
  injection h3 with h3
  subst h3
  have e : l0 >>> 2 = l0 / 4 := by rw [Nat.shiftRight_eq_div_pow]
  rw [e] at hb
  constructor
  · rw [bit_extract, bit_extract_pred _ _ (by simp)]
    have h4 := hb.1
    have hA : (subl ^^^ (s &&& 1) <<< (l0 :: ls).length) >>> 0 % 2 < 2 := Nat.mod_lt _ (by norm_num)
    have hB : (subl ^^^ (s &&& 1) <<< (l0 :: ls).length) >>> (l0 :: ls).length % 2 < 2 := Nat.mod_lt _ (by norm_num)
    generalize (subl ^^^ (s &&& 1) <<< (l0 :: ls).length) >>> 0 % 2 = A at *
    generalize (subl ^^^ (s &&& 1) <<< (l0 :: ls).length) >>> (l0 :: ls).length % 2 = B at *
    rw [e] at *
    generalize r % (l0 / 4) = q at *
    have e1 : q <<< 2 = 2 * (2 * q) := by rw [Nat.shiftLeft_eq]; omega
    have e2 : 2 * (2 * q) + A ^^^ 2 * B = 2 * (2 * q + B) + A := by
      rw [← even_xor_bit (2 * q) A hA, ← even_xor_bit (2 * q + B) A hA, Nat.xor_assoc, Nat.xor_comm A, ← Nat.xor_assoc]
      congr 1
      rw [show 2 * (2 * q + B) = (2 * q + B) <<< 1 by rw [Nat.shiftLeft_eq]; omega, ← even_xor_bit q B hB, Nat.shiftLeft_xor_distrib]
      simp only [Nat.shiftLeft_eq]
      congr 1 <;> omega
    rw [e1, even_xor_bit _ _ hA, e2]
    omega
  · have := xorBits_box (subl ^^^ (s &&& 1) <<< (l0 :: ls).length) (1 + ls.length) (digits (r / (l0 / 4)) (ls.map (· >>> 1))) (ls.map (· >>> 1)) 1
      (by have := hb.2.length_eq; simp only [e] at *; simp at this; omega) hb.2
    have e3 : (ls.map (· >>> 1)).map (2 * ·) = ls.map (fun l => 2 * (l / 2)) := by
      rw [List.map_map]; rfl
    rwa [e3, ← e] at this

theorem nsites_le : ∀ {A B : List Nat}, List.Forall₂ (· ≤ ·) A B → nsites A ≤ nsites B
  | _, _, .nil => Nat.le_refl _
  | _, _, .cons h t => Nat.mul_le_mul h (nsites_le t)

theorem nsites_eq : ∀ {A B : List Nat}, List.Forall₂ (· ≤ ·) A B → 0 < nsites B → nsites B ≤ nsites A → A = B
  | _, _, .nil, _, _ => rfl
  | a :: A, b :: B, .cons h t, hp, hle => by
    simp only [nsites] at hp hle
    have hb := Nat.pos_of_mul_pos_right hp
    have hB := Nat.pos_of_mul_pos_left hp
    have h1 := nsites_le t
    have hab : a = b := by
      by_contra hne
      have : (a + 1) * nsites B ≤ b * nsites B := Nat.mul_le_mul_right _ (by omega)
      have : a * nsites A ≤ a * nsites B := Nat.mul_le_mul_left _ h1
      rw [Nat.add_mul] at *
      omega
    subst hab
    rw [nsites_eq t hB (Nat.le_of_mul_le_mul_left hle hb)]

end Verif.LayoutCreate
