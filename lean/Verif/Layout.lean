import Verif.Basic
/-
Site ordering on one node: model of `lib/qdp_layout.cc` (crtesn, local_site, both variants) and of
`lib/qdp_scalar_layout.cc` (siteCoords, linearSiteIndex for the four orderings).

Simplifications: coordinates and extents are natural numbers (the C++ `int`s are non-negative for
legal lattices); `int` overflow is kept as `ub` wherever a product or sum is formed (`ckInt`).
The number of dimensions `Nd` is the length of the extent list.
-/
namespace Verif.Layout
open Verif Outcome

/-! ## Model -/

/-- `_layout.vol *= _layout.nrow[i]` loop, lib/qdp_scalar_layout.cc:196-199
(= lib/qdp_parscalar_layout.cc:245-247). -/
def volLoop : List Nat → Nat → Outcome Nat
  | [], v => ok v
  | l :: ls, v => do let v' ← ckInt (v * l); volLoop ls v'

def volume (L : List Nat) : Outcome Nat := volLoop L 1

/-- `crtesn`, usual variant, lib/qdp_layout.cc:125-146. -/
def crtesn : Nat → List Nat → Outcome (List Nat)
  | _, [] => ok []
  | ipos, l :: ls => do
      let c ← cmod ipos l
      let q ← cdiv ipos l
      let cs ← crtesn q ls
      return c :: cs

/-- loop `for(mmu=..;mmu>=1;--mmu) order = latt_size[mmu-1]*(coord[mmu]+order)` of `local_site`,
lib/qdp_layout.cc:157-158; first argument after the arrays is the current `mmu`. -/
def localSiteGo (coord L : List Nat) : Nat → Nat → Outcome Nat
  | 0, order => ok order
  | mmu + 1, order => do
      let l ← rd L mmu
      let c ← rd coord (mmu + 1)
      let o ← ckInt (l * (c + order))
      localSiteGo coord L mmu o

/-- `local_site`, usual variant, lib/qdp_layout.cc:153-163. -/
def localSite (coord L : List Nat) : Outcome Nat := do
  let o ← localSiteGo coord L (L.length - 1) 0
  let c ← rd coord 0
  ckInt (o + c)

/-- loop of the CB3D `crtesn`, lib/qdp_layout.cc:86-92: `ix = i % size`, `i = Ndim .. Ndim+size-1`. -/
def crtesn3dGo (L : List Nat) : Nat → Nat → Nat → List Nat → Outcome (List Nat)
  | 0, _, _, coord => ok coord
  | k + 1, i, ipos, coord => do
      let ix ← cmod i L.length
      let l ← rd L ix
      let c ← cmod ipos l
      let q ← cdiv ipos l
      crtesn3dGo L k (i + 1) q (coord.set ix c)

/-- `crtesn`, CB3D variant (last direction fastest), lib/qdp_layout.cc:71-95.  The fresh array's
initial contents are irrelevant (every slot is written); zeros are used. -/
def crtesn3d (ipos : Nat) (L : List Nat) : Outcome (List Nat) :=
  crtesn3dGo L L.length (L.length - 1) ipos (List.replicate L.length 0)

/-- loop of the CB3D `local_site`, lib/qdp_layout.cc:110-114; `k+1` stands for `mmu = k`. -/
def localSite3dGo (coord L : List Nat) : Nat → Nat → Outcome Nat
  | 0, order => ok order
  | k + 1, order => do
      let wrapmu := if k = 0 then L.length - 1 else k - 1
      let l ← rd L wrapmu
      let c ← rd coord k
      let o ← ckInt (l * (c + order))
      localSite3dGo coord L k o

/-- `local_site`, CB3D variant, lib/qdp_layout.cc:102-119. -/
def localSite3d (coord L : List Nat) : Outcome Nat := do
  let o ← localSite3dGo coord L (L.length - 1) 0
  let c ← rd coord (L.length - 1)
  ckInt (o + c)

/-- `cb_nrow[0] >>= 1`, lib/qdp_scalar_layout.cc:317-318. -/
def halveFirst : List Nat → Outcome (List Nat)
  | [] => ub
  | l :: ls => ok ((l >>> 1) :: ls)

/-- `siteCoords`, lexicographic, lib/qdp_scalar_layout.cc:287-290. -/
def siteCoordsLex (L : List Nat) (lin : Nat) : Outcome (List Nat) := crtesn lin L

/-- `linearSiteIndex`, lexicographic, lib/qdp_scalar_layout.cc:294-297. -/
def linearSiteIndexLex (L : List Nat) (coord : List Nat) : Outcome Nat := localSite coord L

/-- `siteCoords`, 2-checkerboard, lib/qdp_scalar_layout.cc:314-331. -/
def siteCoordsCB2 (L : List Nat) (lin : Nat) : Outcome (List Nat) := do
  let vol ← volume L
  let volCb := vol >>> 1
  let cbNrow ← halveFirst L
  let cb ← cdiv lin volCb
  let r ← cmod lin volCb
  let coord ← crtesn r cbNrow
  match coord with
  | [] => ub
  | c0 :: cs => do
      let cbb ← ckInt (cb + cs.sum)
      return (2 * c0 + (cbb &&& 1)) :: cs

/-- `linearSiteIndex`, 2-checkerboard, lib/qdp_scalar_layout.cc:335-351. -/
def linearSiteIndexCB2 (L : List Nat) (coord : List Nat) : Outcome Nat := do
  let vol ← volume L
  let volCb := vol >>> 1
  let cbNrow ← halveFirst L
  let cbCoord ← halveFirst coord
  let s ← ckInt coord.sum
  let o ← localSite cbCoord cbNrow
  ckInt (o + (s &&& 1) * volCb)

/-- `siteCoords`, 3D checkerboard, lib/qdp_scalar_layout.cc:374-394. -/
def siteCoordsCB3D (L : List Nat) (lin : Nat) : Outcome (List Nat) := do
  let vol ← volume L
  let volCb := vol / 2
  let cbNrow ← match L with | [] => ub | l :: ls => ok ((l / 2) :: ls)
  let cb ← cdiv lin volCb
  let r ← cmod lin volCb
  let coord ← crtesn3d r cbNrow
  match coord with
  | [] => ub
  | c0 :: cs => do
      let cbb ← ckInt (cb + cs.dropLast.sum)
      return (2 * c0 + (cbb &&& 1)) :: cs

/-- `linearSiteIndex`, 3D checkerboard, lib/qdp_scalar_layout.cc:398-416. -/
def linearSiteIndexCB3D (L : List Nat) (coord : List Nat) : Outcome Nat := do
  let vol ← volume L
  let volCb := vol / 2
  let cbNrow ← match L with | [] => ub | l :: ls => ok ((l / 2) :: ls)
  let cbCoord ← match coord with | [] => ub | l :: ls => ok ((l / 2) :: ls)
  let s ← ckInt coord.dropLast.sum
  let o ← localSite3d cbCoord cbNrow
  ckInt (o + (s &&& 1) * volCb)

/-- `cb_nrow[0] = L[0]>>2; cb_nrow[i] = L[i]>>1`, lib/qdp_scalar_layout.cc:436-439, 466-469
(and `cb_coord`, 482-486). -/
def cb32Coarse : List Nat → Outcome (List Nat)
  | [] => ub
  | l :: ls => ok ((l >>> 2) :: ls.map (· >>> 1))

/-- `for(m) coord[m] ^= (subl & (1 << m)) >> m`, lib/qdp_scalar_layout.cc:454-455. -/
def xorBits (subl : Nat) : Nat → List Nat → List Nat
  | _, [] => []
  | m, c :: cs => (c ^^^ ((subl &&& (1 <<< m)) >>> m)) :: xorBits subl (m + 1) cs

/-- `siteCoords`, 32-checkerboard, lib/qdp_scalar_layout.cc:433-459. -/
def siteCoordsCB32 (L : List Nat) (lin : Nat) : Outcome (List Nat) := do
  let vol ← volume L
  let nd := L.length
  let volCb := vol >>> (nd + 1)
  let cbNrow ← cb32Coarse L
  let subl ← cdiv lin volCb
  let r ← cmod lin volCb
  let coord ← crtesn r cbNrow
  match coord with
  | [] => ub
  | c0 :: cs => do
      let s ← ckInt cs.sum
      let cb := s &&& 1
      let subl' := subl ^^^ (cb <<< nd)
      match xorBits subl' 0 ((c0 <<< 2) :: cs.map (· <<< 1)) with
      | [] => ub
      | d0 :: ds => return (d0 ^^^ ((subl' &&& (1 <<< nd)) >>> (nd - 1))) :: ds

/-- `subl = coord[Nd-1]&1; for(m=Nd-2..0) subl = (subl<<1)+(coord[m]&1)`,
lib/qdp_scalar_layout.cc:471-473 (the loop run from the last entry to the first). -/
def sublOf : List Nat → Nat
  | [] => 0
  | c :: cs => (sublOf cs <<< 1) + (c &&& 1)

/-- `linearSiteIndex`, 32-checkerboard, lib/qdp_scalar_layout.cc:463-489. -/
def linearSiteIndexCB32 (L : List Nat) (coord : List Nat) : Outcome Nat := do
  let vol ← volume L
  let nd := L.length
  let volCb := vol >>> (nd + 1)
  let cbNrow ← cb32Coarse L
  let cb ← ckInt (coord.map (· >>> 1)).sum
  let subl := sublOf coord + ((cb &&& 1) <<< nd)
  let cbCoord ← cb32Coarse coord
  let o ← localSite cbCoord cbNrow
  ckInt (o + subl * volCb)

/-! ## Specification vocabulary (independent of the model) -/

/-- number of sites of a lattice -/
def nsites : List Nat → Nat
  | [] => 1
  | l :: ls => l * nsites ls

/-- `coord` is a site of the lattice with extents `L` -/
def InRange : List Nat → List Nat → Prop
  | [], [] => True
  | c :: cs, l :: ls => c < l ∧ InRange cs ls
  | _, _ => False

instance decInRange : (c L : List Nat) → Decidable (InRange c L)
  | [], [] => isTrue trivial
  | c :: cs, l :: ls => by
      unfold InRange
      have := decInRange cs ls
      infer_instance
  | [], _ :: _ => isFalse (by simp [InRange])
  | _ :: _, [] => isFalse (by simp [InRange])

/-- `rank c L` = Σ_i c_i Π_{j<i} L_j : position in lexicographic order, first direction fastest -/
def rank : List Nat → List Nat → Nat
  | c :: cs, l :: ls => c + l * rank cs ls
  | _, _ => 0

/-- the coordinates whose `rank` is `p` -/
def digits : Nat → List Nat → List Nat
  | _, [] => []
  | p, l :: ls => (p % l) :: digits (p / l) ls

/-! ## Lemmas on mixed radix -/

theorem nsites_pos {L : List Nat} (h : ∀ l ∈ L, 0 < l) : 0 < nsites L := by
  induction L with
  | nil => simp [nsites]
  | cons l ls ih =>
    simp only [List.mem_cons, forall_eq_or_imp] at h
    exact Nat.mul_pos h.1 (ih h.2)

theorem pos_of_nsites_pos {L : List Nat} (h : 0 < nsites L) : ∀ l ∈ L, 0 < l := by
  induction L with
  | nil => simp
  | cons l ls ih =>
    simp only [nsites] at h
    have h1 := Nat.pos_of_mul_pos_left h
    have h2 := Nat.pos_of_mul_pos_right h
    simp only [List.mem_cons, forall_eq_or_imp]
    first
      | exact ⟨h1, ih h2⟩
      | exact ⟨h2, ih h1⟩

theorem InRange.length_eq : ∀ {c L : List Nat}, InRange c L → c.length = L.length
  | [], [], _ => rfl
  | _ :: cs, _ :: ls, h => by simp [InRange.length_eq (c := cs) (L := ls) h.2]
  | [], _ :: _, h => by simp [InRange] at h
  | _ :: _, [], h => by simp [InRange] at h

theorem InRange.pos : ∀ {c L : List Nat}, InRange c L → ∀ l ∈ L, 0 < l
  | [], [], _ => by simp
  | c :: cs, l :: ls, h => by
      simp only [List.mem_cons, forall_eq_or_imp]
      exact ⟨Nat.lt_of_le_of_lt (Nat.zero_le _) h.1, InRange.pos h.2⟩
  | [], _ :: _, h => by simp [InRange] at h
  | _ :: _, [], h => by simp [InRange] at h

theorem rank_lt : ∀ {c L : List Nat}, InRange c L → rank c L < nsites L
  | [], [], _ => by simp [rank, nsites]
  | c :: cs, l :: ls, h => by
      have ih := rank_lt h.2
      have h1 := h.1
      simp only [rank, nsites]
      have : l * (rank cs ls + 1) ≤ l * nsites ls := Nat.mul_le_mul_left _ ih
      rw [Nat.mul_add, Nat.mul_one] at this
      omega
  | [], _ :: _, h => by simp [InRange] at h
  | _ :: _, [], h => by simp [InRange] at h

theorem digits_inRange : ∀ {L : List Nat} {p : Nat}, p < nsites L → InRange (digits p L) L
  | [], p, _ => by simp [digits, InRange]
  | l :: ls, p, h => by
      simp only [nsites] at h
      have hl : 0 < l := by
        rcases Nat.eq_zero_or_pos l with h0 | h0
        · simp [h0] at h
        · exact h0
      simp only [digits, InRange]
      exact ⟨Nat.mod_lt _ hl, digits_inRange ((Nat.div_lt_iff_lt_mul hl).2 (by rw [Nat.mul_comm]; exact h))⟩

theorem rank_digits : ∀ {L : List Nat} {p : Nat}, p < nsites L → rank (digits p L) L = p
  | [], p, h => by simp [nsites] at h; simp [digits, rank, h]
  | l :: ls, p, h => by
      simp only [nsites] at h
      have hl : 0 < l := by
        rcases Nat.eq_zero_or_pos l with h0 | h0
        · simp [h0] at h
        · exact h0
      simp only [digits, rank]
      rw [rank_digits ((Nat.div_lt_iff_lt_mul hl).2 (by rw [Nat.mul_comm]; exact h))]
      exact Nat.mod_add_div p l

theorem digits_rank : ∀ {c L : List Nat}, InRange c L → digits (rank c L) L = c
  | [], [], _ => by simp [digits]
  | c :: cs, l :: ls, h => by
      simp only [rank, digits]
      have h1 := h.1
      have hl : 0 < l := by omega
      rw [Nat.add_mul_mod_self_left, Nat.mod_eq_of_lt h1, Nat.add_mul_div_left _ _ hl,
        Nat.div_eq_of_lt h1, Nat.zero_add, digits_rank h.2]
  | [], _ :: _, h => by simp [InRange] at h
  | _ :: _, [], h => by simp [InRange] at h

theorem sum_lt_nsites : ∀ {c L : List Nat}, InRange c L → c.sum < nsites L
  | [], [], _ => by simp [nsites]
  | c :: cs, l :: ls, h => by
      have ih := sum_lt_nsites h.2
      have h1 := h.1
      simp only [List.sum_cons, nsites]
      have e1 : ∃ a, l = a + c + 1 := ⟨l - c - 1, by omega⟩
      have e2 : ∃ b, nsites ls = b + cs.sum + 1 := ⟨nsites ls - cs.sum - 1, by omega⟩
      obtain ⟨a, ha⟩ := e1
      obtain ⟨b, hb⟩ := e2
      rw [ha, hb, Nat.mul_add, Nat.add_mul, Nat.mul_one]
      have : 0 ≤ (a + c) * (b + cs.sum) := Nat.zero_le _
      omega
  | [], _ :: _, h => by simp [InRange] at h
  | _ :: _, [], h => by simp [InRange] at h

theorem crtesn_eq {L : List Nat} (h : ∀ l ∈ L, 0 < l) (p : Nat) : crtesn p L = ok (digits p L) := by
  induction L generalizing p with
  | nil => simp [crtesn, digits]
  | cons l ls ih =>
    simp only [List.mem_cons, forall_eq_or_imp] at h
    simp [crtesn, digits, cmod_pos h.1, cdiv_pos h.1, ih h.2]

theorem volLoop_eq {L : List Nat} {v : Nat} (hp : ∀ l ∈ L, 0 < l) (h : v * nsites L < 2 ^ 31) :
    volLoop L v = ok (v * nsites L) := by
  induction L generalizing v with
  | nil => simp [volLoop, nsites]
  | cons l ls ih =>
    simp only [List.mem_cons, forall_eq_or_imp] at hp
    simp only [nsites] at h
    rw [← Nat.mul_assoc] at h
    have h2 := nsites_pos hp.2
    have : v * l * 1 ≤ v * l * nsites ls := Nat.mul_le_mul_left _ h2
    have h3 : v * l < 2 ^ 31 := by omega
    simp only [volLoop, ckInt_of_lt h3, ok_bind, nsites]
    rw [ih hp.2 h, Nat.mul_assoc]

theorem volume_eq {L : List Nat} (hp : ∀ l ∈ L, 0 < l) (h : nsites L < 2 ^ 31) :
    volume L = ok (nsites L) := by
  unfold volume; rw [volLoop_eq hp (by omega)]; simp

theorem rank_drop {c L : List Nat} (hlen : c.length = L.length) {m : Nat} (h : m < c.length) :
    rank (c.drop m) (L.drop m) = c[m] + L[m]'(by omega) * rank (c.drop (m + 1)) (L.drop (m + 1)) := by
  rw [List.drop_eq_getElem_cons h, List.drop_eq_getElem_cons (by omega : m < L.length)]
  simp [rank]

theorem InRange.drop : ∀ {c L : List Nat} (_ : InRange c L) (m : Nat), InRange (c.drop m) (L.drop m)
  | [], [], _, m => by simp [InRange]
  | _ :: _, _ :: _, h, 0 => by simpa using h
  | _ :: cs, _ :: ls, h, m + 1 => by simpa using InRange.drop (c := cs) (L := ls) h.2 m
  | [], _ :: _, h, _ => by simp [InRange] at h
  | _ :: _, [], h, _ => by simp [InRange] at h

theorem nsites_drop_le {L : List Nat} (hp : ∀ l ∈ L, 0 < l) (m : Nat) : nsites (L.drop m) ≤ nsites L := by
  induction L generalizing m with
  | nil => simp
  | cons l ls ih =>
    simp only [List.mem_cons, forall_eq_or_imp] at hp
    cases m with
    | zero => simp
    | succ m =>
      simp only [List.drop_succ_cons, nsites]
      have := ih hp.2 m
      have h2 : 1 * nsites ls ≤ l * nsites ls := Nat.mul_le_mul_right _ hp.1
      omega

theorem localSiteGo_eq {c L : List Nat} (h : InRange c L) (hv : nsites L < 2 ^ 31) (m : Nat)
    (hm : m < L.length) (order : Nat)
    (ho : order = L[m] * rank (c.drop (m + 1)) (L.drop (m + 1))) :
    localSiteGo c L m order = ok (L[0] * rank (c.drop 1) (L.drop 1)) := by
  have hlen := h.length_eq
  induction m generalizing order with
  | zero => simp only [localSiteGo]; subst ho; simp
  | succ m ih =>
    have hm' : m < L.length := by omega
    have hmc : m + 1 < c.length := by omega
    have key := rank_drop hlen hmc
    have hval : L[m] * (c[m + 1] + order) = L[m] * rank (c.drop (m + 1)) (L.drop (m + 1)) := by
      rw [key, ho]
    have hbound : L[m] * rank (c.drop (m + 1)) (L.drop (m + 1)) < 2 ^ 31 := by
      have k2 := rank_drop hlen (by omega : m < c.length)
      have k3 := rank_lt (h.drop m)
      have k4 := nsites_drop_le h.pos m
      omega
    simp only [localSiteGo, rd_of_lt hm', rd_of_lt hmc, ok_bind]
    rw [hval, ckInt_of_lt hbound, ok_bind]
    exact ih hm' _ rfl

theorem localSite_eq {c L : List Nat} (h : InRange c L) (hne : L ≠ []) (hv : nsites L < 2 ^ 31) :
    localSite c L = ok (rank c L) := by
  have hlen := h.length_eq
  have hpos : 0 < L.length := List.length_pos_iff.2 hne
  have hr := rank_lt h
  have hd := rank_drop hlen (m := 0) (by omega)
  simp only [List.drop_zero] at hd
  unfold localSite
  rw [localSiteGo_eq h hv (L.length - 1) (by omega) 0
    (by rw [List.drop_eq_nil_of_le (by omega : c.length ≤ L.length - 1 + 1)]; simp [rank])]
  simp only [ok_bind, rd_of_lt (show 0 < c.length by omega)]
  rw [Nat.add_comm, ← hd, ckInt_of_lt (by omega)]

/-! ## CB3D variants -/

theorem inRange_append : ∀ {c L : List Nat} {t l : Nat},
    InRange (c ++ [t]) (L ++ [l]) ↔ InRange c L ∧ t < l
  | [], [], t, l => by simp [InRange]
  | c :: cs, m :: ls, t, l => by
      simp only [List.cons_append, InRange, inRange_append (c := cs) (L := ls)]
      exact and_assoc.symm
  | [], m :: ls, t, l => by
      cases ls <;> simp [InRange]
  | c :: cs, [], t, l => by
      cases cs <;> simp [InRange]

theorem nsites_append (L : List Nat) (l : Nat) : nsites (L ++ [l]) = nsites L * l := by
  induction L with
  | nil => simp [nsites]
  | cons m ls ih => simp [nsites, ih, Nat.mul_assoc]

/-- last-direction-fastest position -/
def rank3d (c L : List Nat) : Nat := (c.getLast?.getD 0) + (L.getLast?.getD 0) * rank c.dropLast L.dropLast

theorem crtesn3dGo_spec {ls : List Nat} {t : Nat} (hp : ∀ l ∈ ls, 0 < l) (k i p : Nat) (pre suf : List Nat)
    (x : Nat) (hk : pre.length + k = ls.length) (hsuf : suf.length = k)
    (hi : i % (ls.length + 1) = if k = 0 then i % (ls.length + 1) else pre.length)  :
    crtesn3dGo (ls ++ [t]) k i p (pre ++ suf ++ [x]) = ok (pre ++ digits p (ls.drop pre.length) ++ [x]) := by
  induction k generalizing i p pre suf with
  | zero =>
    have : suf = [] := List.length_eq_zero_iff.1 hsuf
    subst this
    rw [List.drop_eq_nil_of_le (by omega)]
    simp [crtesn3dGo, digits]
  | succ k ih =>
    simp only [Nat.add_eq_zero_iff, Nat.succ_ne_self, and_false, if_false] at hi
    obtain ⟨s, suf', rfl⟩ : ∃ s suf', suf = s :: suf' := by
      cases suf with
      | nil => simp at hsuf
      | cons a b => exact ⟨a, b, rfl⟩
    have hlt : pre.length < ls.length := by omega
    have hix : i % (ls.length + 1) = pre.length := by simpa using hi
    have hpl : 0 < ls[pre.length] := hp _ (List.getElem_mem hlt)
    simp only [crtesn3dGo, List.length_append, List.length_singleton, cmod_pos (Nat.succ_pos ls.length), ok_bind,
      hix]
    rw [rd_of_lt (by simp; omega)]
    simp only [List.getElem_append_left hlt, ok_bind, cmod_pos hpl, cdiv_pos hpl]
    have hset : (pre ++ s :: suf' ++ [x]).set pre.length (p % ls[pre.length])
        = (pre ++ [p % ls[pre.length]]) ++ suf' ++ [x] := by
      rw [List.append_assoc, List.set_append_right _ _ (by omega)]
      simp
    rw [hset]
    have hi' : (i + 1) % (ls.length + 1) = if k = 0 then (i + 1) % (ls.length + 1) else
        (pre ++ [p % ls[pre.length]]).length := by
      split
      · rfl
      · rw [Nat.add_mod, hix]
        simp
        exact hlt
    rw [ih (i + 1) (p / ls[pre.length]) _ suf' (by simp; omega) (by simpa using hsuf) hi']
    rw [List.drop_eq_getElem_cons hlt]
    simp [digits]

theorem crtesn3d_eq {ls : List Nat} {t : Nat} (hp : ∀ l ∈ ls, 0 < l) (ht : 0 < t) (p : Nat) :
    crtesn3d p (ls ++ [t]) = ok (digits (p / t) ls ++ [p % t]) := by
  unfold crtesn3d
  simp only [List.length_append, List.length_singleton, Nat.add_sub_cancel, crtesn3dGo,
    cmod_pos (Nat.succ_pos ls.length), ok_bind, Nat.mod_eq_of_lt (Nat.lt_succ_self ls.length)]
  rw [rd_of_lt (by simp)]
  simp only [List.getElem_append_right (Nat.le_refl _), Nat.sub_self, List.getElem_cons_zero, ok_bind,
    cmod_pos ht, cdiv_pos ht]
  have : (List.replicate (ls.length + 1) 0).set ls.length (p % t) =
      [] ++ List.replicate ls.length 0 ++ [p % t] := by
    rw [List.replicate_succ', List.set_append_right _ _ (by simp)]
    simp
  rw [this, crtesn3dGo_spec hp ls.length _ _ [] _ _ (by simp) (by simp) (by simp)]
  simp

theorem localSite3dGo_eq {c L : List Nat} {t l : Nat} (h : InRange (c ++ [t]) (L ++ [l]))
    (hv : nsites (L ++ [l]) < 2 ^ 31) (k : Nat) (hk : k < L.length) (order : Nat)
    (ho : order = L[k] * rank (c.drop (k + 1)) (L.drop (k + 1))) :
    localSite3dGo (c ++ [t]) (L ++ [l]) (k + 1) order = ok (l * rank c L) := by
  have h2 := inRange_append.1 h
  have hlen := h2.1.length_eq
  induction k generalizing order with
  | zero =>
    have hd := rank_drop hlen (m := 0) (by omega)
    simp only [List.drop_zero] at hd
    simp only [localSite3dGo, if_true]
    rw [rd_of_lt (by simp), rd_of_lt (by simp)]
    simp only [List.length_append, List.length_singleton, Nat.add_sub_cancel, ok_bind,
      List.getElem_append_right (Nat.le_refl _), Nat.sub_self, List.getElem_cons_zero,
      List.getElem_append_left (show 0 < c.length by omega)]
    rw [ho, ← hd, ckInt_of_lt, ok_bind]
    rw [nsites_append] at hv
    have := rank_lt h2.1
    have h3 : l * (rank c L) ≤ l * nsites L := Nat.mul_le_mul_left _ (by omega)
    rw [Nat.mul_comm l (nsites L)] at h3
    omega
  | succ k ih =>
    have hk' : k < L.length := by omega
    have hkc : k + 1 < c.length := by omega
    have key := rank_drop hlen hkc
    have hval : L[k] * (c[k + 1] + order) = L[k] * rank (c.drop (k + 1)) (L.drop (k + 1)) := by
      rw [key, ho]
    have hbound : L[k] * rank (c.drop (k + 1)) (L.drop (k + 1)) < 2 ^ 31 := by
      have k2 := rank_drop hlen (by omega : k < c.length)
      have k3 := rank_lt (h2.1.drop k)
      have k4 := nsites_drop_le h2.1.pos k
      have k5 : nsites L * 1 ≤ nsites L * l := Nat.mul_le_mul_left _ (by omega)
      rw [nsites_append] at hv
      omega
    unfold localSite3dGo
    simp only [Nat.add_eq_zero_iff, Nat.one_ne_zero, and_false, if_false, Nat.add_sub_cancel]
    rw [rd_of_lt (by simp; omega), rd_of_lt (by simp; omega)]
    simp only [List.getElem_append_left hk', List.getElem_append_left hkc, ok_bind]
    rw [hval, ckInt_of_lt hbound, ok_bind]
    exact ih hk' _ rfl

theorem localSite3d_eq {c L : List Nat} {t l : Nat} (h : InRange (c ++ [t]) (L ++ [l]))
    (hv : nsites (L ++ [l]) < 2 ^ 31) :
    localSite3d (c ++ [t]) (L ++ [l]) = ok (t + l * rank c L) := by
  have h2 := inRange_append.1 h
  have hlen := h2.1.length_eq
  have hb : t + l * rank c L < nsites (L ++ [l]) := by
    rw [nsites_append]
    have := rank_lt h2.1
    have h3 : l * (rank c L + 1) ≤ l * nsites L := Nat.mul_le_mul_left _ (by omega)
    rw [Nat.mul_comm l (nsites L), Nat.mul_add] at h3
    omega
  unfold localSite3d
  simp only [List.length_append, List.length_singleton, Nat.add_sub_cancel]
  rw [rd_of_lt (by simp; omega)]
  have hlast : (c ++ [t])[L.length]'(by simp; omega) = t := by
    simp [List.getElem_append_right (show c.length ≤ L.length by omega), hlen]
  rw [hlast]
  cases hL : L.length with
  | zero =>
    have e1 : L = [] := List.length_eq_zero_iff.1 hL
    have e2 : c = [] := List.length_eq_zero_iff.1 (by omega)
    subst e1; subst e2
    simp [localSite3dGo, rank]
    exact ckInt_of_lt (by simpa [rank] using Nat.lt_trans hb hv)
  | succ n =>
    rw [localSite3dGo_eq h hv n (by omega) 0
      (by rw [List.drop_eq_nil_of_le (by omega : c.length ≤ n + 1)]; simp [rank])]
    simp only [ok_bind]
    rw [Nat.add_comm, ckInt_of_lt (by omega)]

end Verif.Layout
