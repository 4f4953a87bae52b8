import Verif.Archive
import Verif.BinCont
import Verif.LatticeIOProps
/-
Proofs about the binary part of gauge-field archives: the file and the checksum (C45), and what is read back (used for C44).
-/
namespace Verif.Archive
open Verif Outcome ByteOrder Verif.Layout Verif.ParLayout Verif.Subset Verif.BinIO Verif.LatticeIO Verif.GlobalSum

variable {K : Type}

/-! ### loops -/

theorem foldO_congr {σ α : Type} {f h : σ → α → Outcome σ} : ∀ (l : List α) (s : σ), (∀ s, ∀ a ∈ l, f s a = h s a) → foldO f s l = foldO h s l
  | [], _, _ => rfl
  | a :: l, s, e => by
    rw [foldO, foldO, e s a (by simp)]
    cases h s a with
    | ok t => rw [ok_bind, ok_bind, foldO_congr l t fun s b hb => e s b (by simp [hb])]
    | abort => rfl
    | ub => rfl

theorem foldO_pure {σ α : Type} {f : σ → α → Outcome σ} {h : σ → α → σ} : ∀ (l : List α) (s : σ), (∀ s, ∀ a ∈ l, f s a = ok (h s a)) →
    foldO f s l = ok (l.foldl h s)
  | [], _, _ => rfl
  | a :: l, s, e => by rw [foldO, e s a (by simp), ok_bind, foldO_pure l _ fun s b hb => e s b (by simp [hb]), List.foldl_cons]

theorem foldO_put {α : Type} {f : Dev → α → Outcome Dev} {e : α → List Byte} : ∀ (l : List α) (d : Dev),
    (∀ d, ∀ a ∈ l, f d a = ok (d.put (e a))) → foldO f d l = ok (d.put (l.flatMap e))
  | [], d, _ => by rw [foldO, List.flatMap_nil, put_nil]
  | a :: l, d, h => by
    rw [foldO, h d a (by simp), ok_bind, foldO_put l _ fun d b hb => h d b (by simp [hb]), put_put, List.flatMap_cons]

theorem foldO_skip {σ α : Type} {f : σ × Dev → α → Outcome (σ × Dev)} {e : α → List Byte} {step : σ → α → σ} : ∀ (l : List α) (s : σ) (d : Dev),
    (∀ s d, ∀ a ∈ l, d.Sees (e a) → f (s, d) a = ok (step s a, d.skip (e a))) → d.Sees (l.flatMap e) →
    foldO f (s, d) l = ok (l.foldl step s, d.skip (l.flatMap e))
  | [], s, d, _, _ => by rw [foldO, List.flatMap_nil, skip_nil]; rfl
  | a :: l, s, d, h, hd => by
    rw [List.flatMap_cons] at hd
    rw [foldO, h s d a (by simp) (Sees.left hd), ok_bind, foldO_skip l _ _ (fun s d b hb => h s d b (by simp [hb])) (Sees.right hd),
      skip_skip, List.flatMap_cons, List.foldl_cons]

/-! ### words -/

theorem load_store (be : Bool) (w : BitVec 32) : ∃ b0 b1 b2 b3, store32 be w = [b0, b1, b2, b3] ∧ load32 be b0 b1 b2 b3 = w := by
  have h := load_store32 be w
  cases be <;>
  · refine ⟨_, _, _, _, rfl, ?_⟩
    have h' : ok (BitVec.toInt _) = ok w.toInt := h
    injection h' with h'
    exact BitVec.eq_of_toInt_eq h'

/-- the words of a value given most significant byte first, and their sum -/
def wsum (v : List Byte) : BitVec 32 := (wordsOf true v).sum
/-- the number denoted by the `fs` bytes `v`, most significant byte first -/
def dec (N : Num K) (fs : Nat) (v : List Byte) : List K := if fs = 4 then (wordsOf true v).map N.of32 else (dwordsOf true v).map N.of64

theorem len4 {v : List Byte} (h : v.length = 4) : ∃ a b c d, v = [a, b, c, d] := by
  match v, h with
  | [a, b, c, d], _ => exact ⟨a, b, c, d, rfl⟩

theorem len8 {v : List Byte} (h : v.length = 8) : ∃ a b c d a' b' c' d', v = [a, b, c, d, a', b', c', d'] := by
  match v, h with
  | [a, b, c, d, a', b', c', d'], _ => exact ⟨a, b, c, d, a', b', c', d', rfl⟩

theorem wsum_mem (be : Bool) {fs : Nat} (hfs : fs = 4 ∨ fs = 8) (vs : List (List Byte)) (h : ∀ v ∈ vs, v.length = fs) :
    (wordsOf be (mem be vs)).sum = (vs.map wsum).sum := by
  induction vs with
  | nil => rfl
  | cons v vs ih =>
    have ih := ih fun w hw => h w (by simp [hw])
    have hv := h v (by simp)
    rw [mem, List.map_cons, List.flatten_cons, ← mem, List.map_cons, List.sum_cons, ← ih]
    rcases hfs with rfl | rfl
    · obtain ⟨a, b, c, d, rfl⟩ := len4 hv
      cases be <;> simp [host, wsum, wordsOf, load32]
    · obtain ⟨a, b, c, d, a', b', c', d', rfl⟩ := len8 hv
      cases be
      · simp only [host, wsum, wordsOf, load32, List.reverse_cons, List.reverse_nil, List.nil_append, List.cons_append, List.sum_cons, List.sum_nil, if_true,
          Bool.false_eq_true, if_false, add_zero]
        ac_rfl
      · simp [host, wsum, wordsOf, load32, add_assoc]

theorem addWords_mem (be : Bool) {fs : Nat} (hfs : fs = 4 ∨ fs = 8) (vs : List (List Byte)) (h : ∀ v ∈ vs, v.length = fs) (chk : BitVec 32) :
    addWords be chk (mem be vs) = chk + (vs.map wsum).sum := by
  rw [addWords, foldl_add, wsum_mem be hfs vs h]

theorem loads_mem (be : Bool) (N : Num K) (other : Outcome (List K)) {fs : Nat} (hfs : fs = 4 ∨ fs = 8) (vs : List (List Byte))
    (h : ∀ v ∈ vs, v.length = fs) : loads be N other fs (mem be vs) = ok (vs.flatMap (dec N fs)) := by
  rcases hfs with rfl | rfl
  · rw [loads, if_pos rfl]
    congr 1
    induction vs with
    | nil => rfl
    | cons v vs ih =>
      obtain ⟨a, b, c, d, rfl⟩ := len4 (h v (by simp))
      rw [List.flatMap_cons, ← ih fun w hw => h w (by simp [hw]), mem, List.map_cons, List.flatten_cons, ← mem]
      cases be <;> simp [host, dec, wordsOf, load32]
  · rw [loads, if_neg (by decide), if_pos rfl]
    congr 1
    induction vs with
    | nil => rfl
    | cons v vs ih =>
      obtain ⟨a, b, c, d, a', b', c', d', rfl⟩ := len8 (h v (by simp))
      rw [List.flatMap_cons, ← ih fun w hw => h w (by simp [hw]), mem, List.map_cons, List.flatten_cons, ← mem]
      cases be <;> simp [host, dec, dwordsOf, load64]

/-- the words as byte lists -/
def bigs (ws : List (BitVec 32)) : List (List Byte) := ws.map (store32 true)

theorem bigs_length (ws : List (BitVec 32)) : ∀ v ∈ bigs ws, v.length = 4 := by
  intro v hv
  obtain ⟨w, _, rfl⟩ := List.mem_map.1 hv
  rfl

theorem mem_bigs (be : Bool) (ws : List (BitVec 32)) : mem be (bigs ws) = ws.flatMap (store32 be) := by
  rw [mem, bigs, List.map_map, List.flatMap_def]
  exact congrArg List.flatten (List.map_congr_left fun w _ => (store32_host be w).symm)

theorem flatten_bigs (ws : List (BitVec 32)) : (bigs ws).flatten = ws.flatMap (store32 true) := by rw [bigs, List.flatMap_def]

theorem wordsOf_store (w : BitVec 32) : wordsOf true (store32 true w) = [w] := by
  obtain ⟨b0, b1, b2, b3, h1, h2⟩ := load_store true w
  rw [h1, wordsOf, h2, wordsOf]
  exact fun _ _ _ _ _ h => nomatch h

theorem wsum_bigs (ws : List (BitVec 32)) : (bigs ws).map wsum = ws := by
  rw [bigs, List.map_map]
  conv_rhs => rw [← List.map_id ws]
  refine List.map_congr_left fun w _ => ?_
  rw [Function.comp_apply, wsum, wordsOf_store, List.sum_singleton, id]

theorem dec_bigs (N : Num K) (ws : List (BitVec 32)) : (bigs ws).flatMap (dec N 4) = ws.map N.of32 := by
  induction ws with
  | nil => rfl
  | cons w ws ih =>
    rw [bigs, List.map_cons, List.flatMap_cons, ← bigs, ih, dec, if_pos rfl, wordsOf_store]
    rfl

/-! ### places -/

/-- node and slot of a coordinate -/
def slot (g : Geom) (c : List Nat) : Nat × Nat := match g.nodeNumber c, g.linearSiteIndex c with
  | ok n, ok i => (n, i)
  | _, _ => (0, 0)

theorem slot_eq {g : Geom} (hg : g.Good) {r : Nat} (hr : r < nsites g.L) : g.nodeNumber (digits r g.L) = ok (slot g (digits r g.L)).1 ∧
    (slot g (digits r g.L)).1 < g.nodes ∧ g.linearSiteIndex (digits r g.L) = ok (slot g (digits r g.L)).2 ∧
    (slot g (digits r g.L)).2 < g.sites ∧ g.siteCoords (slot g (digits r g.L)).1 (slot g (digits r g.L)).2 = ok (digits r g.L) ∧
    crtesn r g.L = ok (digits r g.L) := by
  obtain ⟨n, i, h1, h2, h3, h4, h5⟩ := hg.1 _ (digits_inRange hr)
  have h : slot g (digits r g.L) = (n, i) := by rw [slot, h1, h3]
  rw [h]
  exact ⟨h1, h2, h3, h4, h5, crtesn_eq (pos_of_nsites_pos (by omega)) r⟩

theorem slot_inj {g : Geom} (hg : g.Good) {r r' : Nat} (hr : r < nsites g.L) (hr' : r' < nsites g.L)
    (h : slot g (digits r g.L) = slot g (digits r' g.L)) : r = r' := by
  obtain ⟨-, -, -, -, h5, -⟩ := slot_eq hg hr
  obtain ⟨-, -, -, -, h5', -⟩ := slot_eq hg hr'
  rw [h, h5'] at h5
  injection h5 with h5
  rw [← rank_digits hr, ← rank_digits hr', h5]

/-- every slot is the slot of a site -/
theorem slot_surj {g : Geom} (hg : g.Good) {n i : Nat} (hn : n < g.nodes) (hi : i < g.sites) {c : List Nat} (hc : g.siteCoords n i = ok c) :
    rank c g.L < nsites g.L ∧ digits (rank c g.L) g.L = c ∧ slot g c = (n, i) := by
  obtain ⟨c', h1, h2, h3, h4⟩ := hg.2 n i hn hi
  rw [hc] at h1
  injection h1 with h1
  subst h1
  exact ⟨rank_lt h2, digits_rank h2, by rw [slot, h3, h4]⟩

/-! ### pure loops -/

theorem foldl_pair {α F : Type} (upd : F → α → F) (w : α → BitVec 32) : ∀ (l : List α) (s : F × BitVec 32),
    l.foldl (fun st a => (upd st.1 a, st.2 + w a)) s = (l.foldl upd s.1, s.2 + (l.map w).sum)
  | [], s => by simp
  | a :: l, s => by
    rw [List.foldl_cons, foldl_pair upd w l, List.foldl_cons, List.map_cons, List.sum_cons, add_assoc]

theorem put_dirs (i : Nat) (m : Nat → Link K) (F : Field K) : ∀ Nd dd j,
    ((List.range Nd).foldl (fun F dd => F.put dd i (m dd)) F) dd j = if j = i ∧ dd < Nd then m dd else F dd j := by
  intro Nd
  induction Nd with
  | zero => intro dd j; simp
  | succ Nd ih =>
    intro dd j
    rw [List.range_succ, List.foldl_append, List.foldl_cons, List.foldl_nil, Field.put]
    by_cases h : dd = Nd
    · subst h
      by_cases hj : j = i
      · rw [if_pos ⟨rfl, hj⟩, if_pos ⟨hj, by omega⟩]
      · rw [if_neg (by tauto), ih, if_neg (by tauto), if_neg (by tauto)]
    · rw [if_neg (by tauto), ih]
      by_cases hj : j = i
      · by_cases hd : dd < Nd
        · rw [if_pos ⟨hj, hd⟩, if_pos ⟨hj, by omega⟩]
        · rw [if_neg (by tauto), if_neg (by omega)]
      · rw [if_neg (by tauto), if_neg (by tauto)]

theorem put_sites (Nd : Nat) (i : Nat → Nat) (m : Nat → Nat → Link K) : ∀ (V : Nat) (F : Field K),
    (∀ r r', r < V → r' < V → i r = i r' → m r = m r') → ∀ r dd, r < V → dd < Nd →
    ((List.range V).foldl (fun F r => (List.range Nd).foldl (fun F dd => F.put dd (i r) (m r dd)) F) F) dd (i r) = m r dd := by
  intro V
  induction V with
  | zero => intro F _ r dd hr; omega
  | succ V ih =>
    intro F h r dd hr hd
    rw [List.range_succ, List.foldl_append, List.foldl_cons, List.foldl_nil, put_dirs]
    by_cases hi : i r = i V
    · rw [if_pos ⟨hi, hd⟩, h r V hr (by omega) hi]
    · rw [if_neg (by tauto)]
      have : r ≠ V := fun e => hi (by rw [e])
      exact ih F (fun a b ha hb => h a b (by omega) (by omega)) r dd (by omega) hd

theorem put_inputs (s : Nat → Nat × Nat) (b : Nat → List Byte) : ∀ (V : Nat) (I : Input),
    (∀ r r', r < V → r' < V → s r = s r' → r = r') → ∀ r, r < V →
    ((List.range V).foldl (fun I r => I.put (s r).1 (s r).2 (b r)) I) (s r).1 (s r).2 = some (b r) := by
  intro V
  induction V with
  | zero => intro I _ r hr; omega
  | succ V ih =>
    intro I h r hr
    rw [List.range_succ, List.foldl_append, List.foldl_cons, List.foldl_nil, Input.put]
    by_cases hi : r = V
    · subst hi; rw [if_pos ⟨rfl, rfl⟩]
    · rw [if_neg]
      · exact ih I (fun a b ha hb => h a b (by omega) (by omega)) r (by omega)
      · rintro ⟨h1, h2⟩
        exact hi (h r V hr (by omega) (Prod.ext h1 h2))

/-! ## C45: the checksum -/

theorem linkBytes_eq (be : Bool) (N : Num K) {mat : Nat} (hm : mat = 12 ∨ mat = 18) (junk : Nat → BitVec 32) (m : Link K) :
    linkBytes be N mat junk m = ok (mem be (bigs (linkWords N mat m))) := by
  rw [mem_bigs]
  rcases hm with rfl | rfl
  · rw [linkBytes, if_neg (by decide), if_pos rfl, fill12]
  · rw [linkBytes, if_neg (by decide), if_neg (by decide), fill18]

theorem linkWords_length (N : Num K) {mat : Nat} (hm : mat = 12 ∨ mat = 18) (m : Link K) : (linkWords N mat m).length = mat := by
  rcases hm with rfl | rfl <;> rfl

theorem chkNode_eq (be : Bool) (N : Num K) (n Nd : Nat) {mat : Nat} (hm : mat = 12 ∨ mat = 18) (junk : Nat → BitVec 32) (F : Field K) :
    chkNode be N n Nd mat junk F = ok (∑ i ∈ Finset.range n, ∑ dd ∈ Finset.range Nd, (linkWords N mat (F dd i)).sum) := by
  have inner : ∀ i, i < n → ∀ chk, foldO (chkLink be N n mat junk F i) chk (List.range Nd) =
      ok (chk + ∑ dd ∈ Finset.range Nd, (linkWords N mat (F dd i)).sum) := by
    intro i hi chk
    rw [foldO_pure (h := fun chk dd => chk + (linkWords N mat (F dd i)).sum)]
    · congr 1
      rw [← list_sum_range]
      clear hi
      generalize List.range Nd = l
      induction l generalizing chk with
      | nil => simp
      | cons a l ih => rw [List.foldl_cons, ih, List.map_cons, List.sum_cons, add_assoc]
    · intro chk dd _
      rw [chkLink, getLink, if_pos hi, ok_bind, if_pos hm, linkBytes_eq be N hm, ok_bind,
        addWords_mem be (Or.inl rfl) _ (bigs_length _), wsum_bigs]
  rw [chkNode, foldO_pure (h := fun chk i => chk + ∑ dd ∈ Finset.range Nd, (linkWords N mat (F dd i)).sum)]
  · congr 1
    rw [← list_sum_range]
    have : ∀ (l : List Nat) (c : BitVec 32), l.foldl (fun chk i => chk + ∑ dd ∈ Finset.range Nd, (linkWords N mat (F dd i)).sum) c =
        c + (l.map fun i => ∑ dd ∈ Finset.range Nd, (linkWords N mat (F dd i)).sum).sum := by
      intro l
      induction l with
      | nil => intro c; simp
      | cons a l ih => intro c; rw [List.foldl_cons, ih, List.map_cons, List.sum_cons, add_assoc]
    rw [this, zero_add]
  · intro chk i hi
    exact inner i (List.mem_range.1 hi) chk

/-- C45 (many nodes): `computeChecksum` is the sum of all stored words modulo 2^32, for every geometry of machine and site order, byte
order of the host, and both formats. -/
theorem C45_checksum_par (be : Bool) (N : Num K) (g : Geom) (hg : g.Good) (Nd mat : Nat) (hm : mat = 12 ∨ mat = 18) (junk : Nat → BitVec 32)
    (F : Nat → Field K) (f : Nat → List Nat → Link K) (hF : HoldsG g Nd F f) :
    computeChecksumP be N g Nd mat junk F = ok (fieldSum N g.L Nd mat f) := by
  rw [computeChecksumP, mapO_ok (fun n _ => chkNode_eq be N g.sites Nd hm junk (F n)), ok_bind, pure_def, foldl_add, zero_add, list_sum_range,
    Sums.C50_nodes g hg (fun n i => ∑ dd ∈ Finset.range Nd, (linkWords N mat (F n dd i)).sum)
      (fun c => ∑ dd ∈ Finset.range Nd, (linkWords N mat (f dd c)).sum)]
  · rfl
  · intro n i c hn hi hc
    refine Finset.sum_congr rfl fun dd hd => ?_
    rw [hF n i c dd hn hi hc (Finset.mem_range.1 hd)]

/-- C45 (single node) -/
theorem C45_checksum_single (be : Bool) (N : Num K) (g : Geom) (hg : g.Good) (h1 : g.nodes = 1) (Nd mat : Nat) (hm : mat = 12 ∨ mat = 18)
    (junk : Nat → BitVec 32) (F : Field K) (f : Nat → List Nat → Link K) (hF : HoldsG g Nd (fun _ => F) f) :
    computeChecksumS be N g Nd mat junk F = ok (fieldSum N g.L Nd mat f) := by
  have h := C45_checksum_par be N g hg Nd mat hm junk (fun _ => F) f hF
  rw [computeChecksumP, mapO_ok (fun n _ => chkNode_eq be N g.sites Nd hm junk F), ok_bind, pure_def, foldl_add, zero_add, list_sum_range, h1,
    Finset.sum_range_one] at h
  rw [computeChecksumS, chkNode_eq be N g.sites Nd hm junk F, h]

/-- C45: another size is rejected (on a lattice with a site and a direction) -/
theorem C45_size (be : Bool) (N : Num K) (n Nd mat : Nat) (hn : 0 < n) (hd : 0 < Nd) (hm : mat ≠ 12 ∧ mat ≠ 18) (junk : Nat → BitVec 32)
    (F : Field K) : chkNode be N n Nd mat junk F = abort := by
  obtain ⟨n, rfl⟩ : ∃ k, n = k + 1 := ⟨n - 1, by omega⟩
  obtain ⟨Nd, rfl⟩ : ∃ k, Nd = k + 1 := ⟨Nd - 1, by omega⟩
  rw [chkNode, List.range_succ_eq_map, List.range_succ_eq_map, foldO, foldO, chkLink, getLink, if_pos (by omega), ok_bind, if_neg (by tauto)]
  rfl

/-! ## writing -/

/-- C45: the file written by a single node -/
theorem write_single (be : Bool) (N : Num K) (g : Geom) (hg : g.Good) (h1 : g.nodes = 1) (Nd mat : Nat) (hm : mat = 12 ∨ mat = 18)
    (junk : Nat → BitVec 32) (F : Field K) (f : Nat → List Nat → Link K) (hF : HoldsG g Nd (fun _ => F) f) (d : Dev) :
    writeArchivS be N g Nd mat junk F d = ok (d.put (archBytes N g.L Nd mat f)) := by
  rw [writeArchivS, archBytes, foldO_put]
  intro d r hr
  rw [foldO_put]
  intro d dd hdd
  obtain ⟨k1, k2, k3, k4, k5, k6⟩ := slot_eq hg (List.mem_range.1 hr)
  have hw := writeArray_eq be (size := 4) (by unfold Supported; omega) (bigs (linkWords N mat (f dd (digits r g.L)))) (bigs_length _)
    (Or.inr (by rw [bigs, List.length_map, linkWords_length N hm]; omega)) [] d
  rw [List.append_nil, show (bigs (linkWords N mat (f dd (digits r g.L)))).length = mat from by rw [bigs, List.length_map, linkWords_length N hm],
    flatten_bigs] at hw
  have hv := hF 0 _ _ dd (by omega) k4 (by rw [show 0 = (slot g (digits r g.L)).1 from by omega]; exact k5) (List.mem_range.1 hdd)
  rw [writeLinkS, indexOf, k6, ok_bind, k3, ok_bind, getLink, if_pos k4, ok_bind, show F dd (slot g (digits r g.L)).2 = _ from hv, linkBytes_eq be N hm, ok_bind, hw, ok_bind]

/-- C45: the file written by many nodes -/
theorem write_par (be : Bool) (N : Num K) (g : Geom) (hg : g.Good) (Nd mat : Nat) (hm : mat = 12 ∨ mat = 18) (hsz : 4 * mat * Nd < 2 ^ 31)
    (junk : Nat → BitVec 32) (F : Nat → Field K) (f : Nat → List Nat → Link K) (hF : HoldsG g Nd F f) (d : Dev) :
    writeArchivP be N g Nd mat junk F d = ok (d.put (archBytes N g.L Nd mat f)) := by
  rw [writeArchivP, archBytes, foldO_put]
  intro d r hr
  obtain ⟨k1, k2, k3, k4, k5, k6⟩ := slot_eq hg (List.mem_range.1 hr)
  have hmap : mapO (fun dd => (do let m ← getLink g.sites (F (slot g (digits r g.L)).1) dd (slot g (digits r g.L)).2; linkBytes be N mat junk m))
      (List.range Nd) = ok ((List.range Nd).map fun dd => mem be (bigs (linkWords N mat (f dd (digits r g.L))))) := by
    refine mapO_ok fun dd hdd => ?_
    rw [getLink, if_pos k4, ok_bind, hF _ _ _ dd k2 k4 k5 (List.mem_range.1 hdd), linkBytes_eq be N hm]
  have hflat : ((List.range Nd).map fun dd => mem be (bigs (linkWords N mat (f dd (digits r g.L))))).flatten =
      mem be (bigs ((List.range Nd).flatMap fun dd => linkWords N mat (f dd (digits r g.L)))) := by
    rw [mem_bigs, List.flatMap_assoc, List.flatMap_def]
    congr 1
    refine List.map_congr_left fun dd _ => ?_
    rw [mem_bigs]
  have hlen : ((List.range Nd).flatMap fun dd => linkWords N mat (f dd (digits r g.L))).length = mat * Nd := by
    have : ∀ l : List Nat, (l.flatMap fun dd => linkWords N mat (f dd (digits r g.L))).length = mat * l.length := by
      intro l
      induction l with
      | nil => rfl
      | cons a l ih => rw [List.flatMap_cons, List.length_append, ih, linkWords_length N hm, List.length_cons]; ring
    rw [this, List.length_range]
  have hmN : 4 * mat * Nd = 4 * (mat * Nd) := by ring
  have hw := writeArray_eq be (size := 4) (by unfold Supported; omega) (bigs ((List.range Nd).flatMap fun dd => linkWords N mat (f dd (digits r g.L))))
    (bigs_length _) (Or.inr (by rw [bigs, List.length_map, hlen]; omega)) [] d
  rw [List.append_nil, show (bigs ((List.range Nd).flatMap fun dd => linkWords N mat (f dd (digits r g.L)))).length = mat * Nd from by
    rw [bigs, List.length_map, hlen], flatten_bigs, List.flatMap_assoc] at hw
  rw [writeSiteP, k6, ok_bind, k1, ok_bind, k3, ok_bind, hmap, ok_bind, route, if_neg (by omega), ok_bind, hflat, hw, ok_bind]

/-! ## reading -/

section reading
variable [Add K] [Sub K] [Mul K]

/-- the link made from its `mat` values -/
def linkFrom (N : Num K) (mat fs : Nat) (sj : Nat → K) (vs : List (List Byte)) : Link K :=
  if mat = 12 then linkOf (third fun j => ((vs.flatMap (dec N fs))[j]?).getD (sj j))
  else linkOf fun j => ((vs.flatMap (dec N fs))[j]?).getD (sj j)

/-- `mat` values of `fs` bytes for every link -/
def IsVals (L : List Nat) (Nd mat fs : Nat) (v : Nat → List Nat → List (List Byte)) : Prop :=
  ∀ dd c, dd < Nd → InRange c L → (v dd c).length = mat ∧ ∀ w ∈ v dd c, w.length = fs

/-- a file of such values -/
def valBytes (L : List Nat) (Nd : Nat) (v : Nat → List Nat → List (List Byte)) : List Byte :=
  (List.range (nsites L)).flatMap fun r => (List.range Nd).flatMap fun dd => (v dd (digits r L)).flatten
/-- the sum of the 32-bit words of the values -/
def valSum (L : List Nat) (Nd : Nat) (v : Nat → List Nat → List (List Byte)) : BitVec 32 :=
  ∑ r ∈ Finset.range (nsites L), ∑ dd ∈ Finset.range Nd, ((v dd (digits r L)).map wsum).sum

theorem unpack_eq (be : Bool) (N : Num K) (other : Outcome (List K)) {mat fs : Nat} (hm : mat = 12 ∨ mat = 18) (hfs : fs = 4 ∨ fs = 8)
    (sj : Nat → K) (vs : List (List Byte)) (h : ∀ v ∈ vs, v.length = fs) :
    unpack be N other mat fs sj (mem be vs) = ok (linkFrom N mat fs sj vs) := by
  rw [unpack, loads_mem be N other hfs vs h, ok_bind, linkFrom]
  rcases hm with rfl | rfl
  · rw [if_pos rfl, if_pos rfl]
  · rw [if_neg (by decide), if_pos rfl, if_neg (by decide)]

theorem supported_fs {fs : Nat} (hfs : fs = 4 ∨ fs = 8) : Supported fs := by unfold Supported; omega

theorem valSum_list (L : List Nat) (Nd : Nat) (v : Nat → List Nat → List (List Byte)) :
    ((List.range (nsites L)).map fun r => ((List.range Nd).map fun dd => ((v dd (digits r L)).map wsum).sum).sum).sum = valSum L Nd v := by
  rw [list_sum_range, valSum]
  simp only [list_sum_range]

/-- what a single node reads: from a file holding `v`, the links of `v` and the sum of its words -/
theorem read_single (be : Bool) (N : Num K) (g : Geom) (hg : g.Good) (h1 : g.nodes = 1) (Nd mat fs : Nat) (hm : mat = 12 ∨ mat = 18)
    (hfs : fs = 4 ∨ fs = 8) (sj : Nat → K) (v : Nat → List Nat → List (List Byte)) (hv : IsVals g.L Nd mat fs v) (F : Field K) (d : Dev)
    (hd : d.Sees (valBytes g.L Nd v)) :
    ∃ F', readArchivS be N g Nd mat fs sj F d = ok ((F', valSum g.L Nd v), d.skip (valBytes g.L Nd v)) ∧
      HoldsG g Nd (fun _ => F') (fun dd c => linkFrom N mat fs sj (v dd c)) := by
  have inner : ∀ (st : Field K × BitVec 32) (d : Dev), ∀ r ∈ List.range (nsites g.L),
      d.Sees ((List.range Nd).flatMap fun dd => (v dd (digits r g.L)).flatten) →
      foldO (readLinkS be N g mat fs sj r) (st, d) (List.range Nd) =
        ok (((List.range Nd).foldl (fun F dd => Field.put F dd (slot g (digits r g.L)).2 (linkFrom N mat fs sj (v dd (digits r g.L)))) st.1,
          st.2 + ((List.range Nd).map fun dd => ((v dd (digits r g.L)).map wsum).sum).sum),
          d.skip ((List.range Nd).flatMap fun dd => (v dd (digits r g.L)).flatten)) := by
    intro st d r hr hd
    have e := foldl_pair (fun (F : Field K) dd => Field.put F dd (slot g (digits r g.L)).2 (linkFrom N mat fs sj (v dd (digits r g.L))))
      (fun dd => ((v dd (digits r g.L)).map wsum).sum) (List.range Nd) st
    rw [← e]
    refine foldO_skip _ _ _ ?_ hd
    intro st d dd hdd hd
    have hr' := List.mem_range.1 hr
    obtain ⟨k1, k2, k3, k4, k5, k6⟩ := slot_eq hg hr'
    obtain ⟨hl, hw⟩ := hv dd _ (List.mem_range.1 hdd) (digits_inRange hr')
    have := readArray_eq be (supported_fs hfs) (v dd (digits r g.L)) hw (Or.inr (by omega)) d hd
    rw [hl] at this
    rw [readLinkS, this, ok_bind, unpack_eq be N ub hm hfs sj _ hw, ok_bind, indexOf, k6, ok_bind, k3, ok_bind, if_pos k4,
      addWords_mem be hfs _ hw]
  have h := foldO_skip (f := fun st site => foldO (readLinkS be N g mat fs sj site) st (List.range Nd))
    (step := fun st r => ((List.range Nd).foldl (fun F dd => Field.put F dd (slot g (digits r g.L)).2 (linkFrom N mat fs sj (v dd (digits r g.L)))) st.1,
          st.2 + ((List.range Nd).map fun dd => ((v dd (digits r g.L)).map wsum).sum).sum))
    (List.range (nsites g.L)) (F, (0 : BitVec 32)) d inner hd
  rw [readArchivS, h]
  have h2 := foldl_pair (fun (F : Field K) r => (List.range Nd).foldl (fun F dd => Field.put F dd (slot g (digits r g.L)).2
    (linkFrom N mat fs sj (v dd (digits r g.L)))) F) (fun r => ((List.range Nd).map fun dd => ((v dd (digits r g.L)).map wsum).sum).sum)
    (List.range (nsites g.L)) (F, 0)
  rw [h2, zero_add, valSum_list]
  refine ⟨_, rfl, ?_⟩
  · intro n i c dd hn hi hc hdd
    obtain ⟨j1, j2, j3⟩ := slot_surj hg hn hi hc
    have hi' : (slot g (digits (rank c g.L) g.L)).2 = i := by rw [j2, j3]
    have := put_sites Nd (fun r => (slot g (digits r g.L)).2) (fun r dd => linkFrom N mat fs sj (v dd (digits r g.L))) (nsites g.L) F ?_ _ dd j1 hdd
    · beta_reduce at this
      rw [hi', j2] at this
      exact this
    · intro r r' hr hr' he
      have e := slot_inj hg hr hr' (Prod.ext (by
        have a1 := (slot_eq hg hr).2.1
        have a2 := (slot_eq hg hr').2.1
        omega) he)
      rw [e]

theorem flatMap_len {α β : Type} (k : Nat) (e : α → List β) : ∀ l : List α, (∀ a ∈ l, (e a).length = k) → (l.flatMap e).length = k * l.length
  | [], _ => rfl
  | a :: l, h => by
    rw [List.flatMap_cons, List.length_append, flatMap_len k e l fun b hb => h b (by simp [hb]), h a (by simp), List.length_cons]
    ring

/-- the piece of the copy that belongs to one direction -/
theorem slice_dirs (k : Nat) (e : Nat → List Byte) : ∀ (Nd dd : Nat), dd < Nd → (∀ a, a < Nd → (e a).length = k) →
    sliceO ((List.range Nd).flatMap e) (k * dd) k = ok (e dd) := by
  intro Nd dd hdd he
  have hlen : ((List.range Nd).flatMap e).length = k * Nd := by
    rw [flatMap_len k e _ fun a ha => he a (List.mem_range.1 ha), List.length_range]
  have hk : k * dd + k ≤ k * Nd := by
    calc k * dd + k = k * (dd + 1) := by ring
      _ ≤ k * Nd := Nat.mul_le_mul_left _ hdd
  rw [sliceO, if_pos (by rw [hlen]; exact hk)]
  congr 1
  obtain ⟨t, rfl⟩ : ∃ t, Nd = dd + 1 + t := ⟨Nd - (dd + 1), by omega⟩
  rw [List.range_add, List.range_succ, List.flatMap_append, List.flatMap_append, List.flatMap_singleton, List.append_assoc]
  have h0 : ((List.range dd).flatMap e).length = k * dd := by
    rw [flatMap_len k e _ fun a ha => he a (by have := List.mem_range.1 ha; omega), List.length_range]
  rw [← h0, List.drop_left, ← he dd (by omega), List.take_left]

/-- what the nodes read: from a file holding `v`, each node the links of `v` at its sites, and all of them the sum of the words -/
theorem read_par (be : Bool) (N : Num K) (g : Geom) (hg : g.Good) (Nd mat fs : Nat) (hm : mat = 12 ∨ mat = 18)
    (hfs : fs = 4 ∨ fs = 8) (hsz : fs * mat * Nd < 2 ^ 31) (sj : Nat → K) (v : Nat → List Nat → List (List Byte)) (hv : IsVals g.L Nd mat fs v)
    (F : Nat → Field K) (d : Dev) (hd : d.Sees (valBytes g.L Nd v)) :
    ∃ F', (∀ n, n < g.nodes → readArchivP be N g Nd mat fs sj F d n = ok ((F' n, valSum g.L Nd v), d.skip (valBytes g.L Nd v))) ∧
      HoldsG g Nd F' (fun dd c => linkFrom N mat fs sj (v dd c)) := by
  have hall : ∀ r, r < nsites g.L → ∀ w ∈ (List.range Nd).flatMap fun dd => v dd (digits r g.L), w.length = fs := by
    intro r hr w hw
    obtain ⟨dd, h1, h2⟩ := List.mem_flatMap.1 hw
    exact (hv dd _ (List.mem_range.1 h1) (digits_inRange hr)).2 w h2
  have hcnt : ∀ r, r < nsites g.L → ((List.range Nd).flatMap fun dd => v dd (digits r g.L)).length = mat * Nd := by
    intro r hr
    rw [flatMap_len mat _ _ fun dd hdd => (hv dd _ (List.mem_range.1 hdd) (digits_inRange hr)).1, List.length_range]
  have hflat : ∀ r, ((List.range Nd).flatMap fun dd => v dd (digits r g.L)).flatten = (List.range Nd).flatMap fun dd => (v dd (digits r g.L)).flatten := by
    intro r
    rw [List.flatMap_def, List.flatMap_def, List.flatten_flatten, List.map_map]
    rfl
  have hmem : ∀ r, mem be ((List.range Nd).flatMap fun dd => v dd (digits r g.L)) = (List.range Nd).flatMap fun dd => mem be (v dd (digits r g.L)) := by
    intro r
    rw [mem, List.map_flatMap, List.flatMap_def, List.flatten_flatten, List.map_map, List.flatMap_def]
    rfl
  have hsum : ∀ r, (((List.range Nd).flatMap fun dd => v dd (digits r g.L)).map wsum).sum =
      ((List.range Nd).map fun dd => ((v dd (digits r g.L)).map wsum).sum).sum := by
    intro r
    generalize List.range Nd = l
    induction l with
    | nil => rfl
    | cons a l ih => rw [List.flatMap_cons, List.map_append, List.sum_append, ih, List.map_cons, List.sum_cons]
  have hassoc : fs * mat * Nd = fs * (mat * Nd) := by ring
  have h := foldO_skip (f := readSiteP be g Nd mat fs) (e := fun r => (List.range Nd).flatMap fun dd => (v dd (digits r g.L)).flatten)
    (step := fun st r => (Input.put st.1 (slot g (digits r g.L)).1 (slot g (digits r g.L)).2
        (mem be ((List.range Nd).flatMap fun dd => v dd (digits r g.L))),
      st.2 + ((List.range Nd).map fun dd => ((v dd (digits r g.L)).map wsum).sum).sum))
    (List.range (nsites g.L)) (fun _ _ => none, (0 : BitVec 32)) d ?_ hd
  · have h2 := foldl_pair (fun (I : Input) r => I.put (slot g (digits r g.L)).1 (slot g (digits r g.L)).2
        (mem be ((List.range Nd).flatMap fun dd => v dd (digits r g.L)))) (fun r => ((List.range Nd).map fun dd => ((v dd (digits r g.L)).map wsum).sum).sum)
      (List.range (nsites g.L)) (fun _ _ => none, 0)
    rw [h2, zero_add, valSum_list] at h
    have hput := put_inputs (fun r => slot g (digits r g.L)) (fun r => mem be ((List.range Nd).flatMap fun dd => v dd (digits r g.L))) (nsites g.L)
      (fun _ _ => none) (fun r r' hr hr' => slot_inj hg hr hr')
    beta_reduce at hput h
    generalize (List.range (nsites g.L)).foldl (fun (I : Input) r => I.put (slot g (digits r g.L)).1 (slot g (digits r g.L)).2
        (mem be ((List.range Nd).flatMap fun dd => v dd (digits r g.L)))) (fun _ _ => none) = I at h hput
    -- second half
    have hcell : ∀ n i c, n < g.nodes → i < g.sites → g.siteCoords n i = ok c →
        I n i = some ((List.range Nd).flatMap fun dd => mem be (v dd c)) ∧ InRange c g.L := by
      intro n i c hn hi hc
      obtain ⟨j1, j2, j3⟩ := slot_surj hg hn hi hc
      have := hput _ j1
      rw [hmem, j2, j3] at this
      exact ⟨this, by rw [← j2]; exact digits_inRange j1⟩
    have hco : ∀ n i, n < g.nodes → i < g.sites → ∃ c, g.siteCoords n i = ok c := by
      intro n i hn hi
      obtain ⟨c, h1, -⟩ := hg.2 n i hn hi
      exact ⟨c, h1⟩
    let co : Nat → Nat → List Nat := fun n i => match g.siteCoords n i with | ok c => c | _ => []
    have hco' : ∀ n i, n < g.nodes → i < g.sites → g.siteCoords n i = ok (co n i) := by
      intro n i hn hi
      obtain ⟨c, hc⟩ := hco n i hn hi
      simp only [co, hc]
    have hbuild : ∀ n, n < g.nodes → buildNode be N (I n) g.sites Nd mat fs sj (F n) =
        ok ((List.range g.sites).foldl (fun F i => (List.range Nd).foldl (fun F dd => F.put dd i (linkFrom N mat fs sj (v dd (co n i)))) F) (F n)) := by
      intro n hn
      rw [buildNode]
      refine foldO_pure _ _ fun F i hi => ?_
      refine foldO_pure _ _ fun F dd hdd => ?_
      have hi' := List.mem_range.1 hi
      have hdd' := List.mem_range.1 hdd
      obtain ⟨c1, c2⟩ := hcell n i _ hn hi' (hco' n i hn hi')
      obtain ⟨l1, l2⟩ := hv dd _ hdd' c2
      have hsl := slice_dirs (fs * mat) (fun dd => mem be (v dd (co n i))) Nd dd hdd' fun a ha => by
        obtain ⟨m1, m2⟩ := hv a _ ha c2
        rw [mem_length be _ m2, m1]
      rw [buildLink, c1]
      beta_reduce
      simp only [hsl, ok_bind]
      rw [unpack_eq be N abort hm hfs sj _ l2, ok_bind]
    refine ⟨fun n => (List.range g.sites).foldl (fun F i => (List.range Nd).foldl (fun F dd => F.put dd i (linkFrom N mat fs sj (v dd (co n i)))) F) (F n),
      fun n hn => ?_, ?_⟩
    · rw [readArchivP, h, ok_bind, hbuild n hn, ok_bind, pure_def]
      rfl
    · intro n i c dd hn hi hc hdd
      have := put_sites Nd id (fun i dd => linkFrom N mat fs sj (v dd (co n i))) g.sites (F n) (fun r r' _ _ e => by rw [show r = r' from e]) i dd hi hdd
      have e := hco' n i hn hi
      rw [hc] at e
      injection e with e
      rw [e]
      exact this
  · intro st d r hr hd
    have hr' := List.mem_range.1 hr
    obtain ⟨k1, k2, k3, k4, k5, k6⟩ := slot_eq hg hr'
    rw [← hflat] at hd ⊢
    have := readArray_eq be (supported_fs hfs) _ (hall r hr') (Or.inr (by rw [hcnt r hr']; rcases hfs with rfl | rfl <;> omega)) d hd
    rw [hcnt r hr'] at this
    rw [readSiteP, k6, ok_bind, k1, ok_bind, k3, ok_bind, this, ok_bind, route, if_neg (by omega), ok_bind, if_pos k4,
      addWords_mem be hfs _ (hall r hr'), hsum]

end reading

end Verif.Archive
