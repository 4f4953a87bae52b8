import Verif.LatticeIOProps
import Verif.LayoutProps
/-
Properties C27 (portable field files), C28 (reading on another geometry), C29 (subsets and single sites), C30 (time slices).
-/
namespace Verif.LatticeIO
open Verif Outcome ByteOrder Verif.Layout Verif.ParLayout Verif.Subset Verif.BinIO

/-! ## which geometries are ready -/

theorem node_row {L : List Nat} {m : Machine} {S : List Nat} {s0 : Nat} (hcut : Cut L m.size (s0 :: S)) (hs : 0 < s0) (q i : Nat)
    (hi : i < s0) : nodeNumber m (s0 :: S) (digits (q * s0 + i) L) = nodeNumber m (s0 :: S) (digits (q * s0) L) := by
  cases L with
  | nil => cases h : m.size <;> simp [h, Cut] at hcut
  | cons l0 L =>
    cases h : m.size with
    | nil => simp [h, Cut] at hcut
    | cons p0 P =>
      rw [h] at hcut
      obtain ⟨hl, -⟩ := hcut
      have e1 : (q * s0 + i) / l0 = q * s0 / l0 := by
        rw [hl, Nat.mul_comm p0, ← Nat.div_div_eq_div_mul, ← Nat.div_div_eq_div_mul, Nat.mul_comm q, Nat.mul_add_div hs,
          Nat.div_eq_of_lt hi, Nat.mul_div_cancel_left _ hs, Nat.add_zero]
      have e2 : (q * s0 + i) % l0 / s0 = q * s0 % l0 / s0 := by
        rw [hl, Nat.mul_comm p0, Nat.mod_mul_right_div_self, Nat.mod_mul_right_div_self, Nat.mul_comm q, Nat.mul_add_div hs,
          Nat.div_eq_of_lt hi, Nat.mul_div_cancel_left _ hs, Nat.add_zero]
      simp only [nodeNumber, digits, zipDiv, e1, cdiv_pos hs, e2]

theorem ready_cut {g : Geom} {m : Machine} {S : List Nat} {s0 : Nat} (hgood : g.Good) (hcut : Cut g.L m.size (s0 :: S))
    (hnn : g.nodeNumber = nodeNumber m (s0 :: S)) (hs : 0 < s0) (hpos : 0 < nsites g.L) (hv : nsites g.L < 2 ^ 31) : Ready g s0 := by
  refine ⟨hgood, hv, hpos, ?_, hs, ?_⟩
  · intro q i hi _
    rw [hnn]
    exact node_row hcut hs q i hi
  · cases hL : g.L with
    | nil => rw [hL] at hcut; cases h : m.size <;> simp [h, Cut] at hcut
    | cons l0 L =>
      rw [hL] at hcut
      cases h : m.size with
      | nil => simp [h, Cut] at hcut
      | cons p0 P =>
        rw [h] at hcut
        exact ⟨l0, L, rfl, by rw [hcut.1]; exact Nat.dvd_mul_left _ _⟩

theorem cut_pos {L P S : List Nat} (hc : Cut L P S) (hP : ∀ p ∈ P, 0 < p) (hS : ∀ s ∈ S, 0 < s) : 0 < nsites L := by
  rw [cut_nsites hc]; exact Nat.mul_pos (nsites_pos hP) (nsites_pos hS)

/-- every machine with the lexicographic ordering -/
theorem ready_lex (L S : List Nat) (s0 : Nat) (m : Machine) (hm : m.Good) (hcut : Cut L m.size (s0 :: S))
    (hS : ∀ s ∈ s0 :: S, 0 < s) (hP : ∀ p ∈ m.size, 0 < p) (hv : nsites L < 2 ^ 31) : Ready (geomLex L m (s0 :: S)) s0 :=
  ready_cut (C02_lexico L (s0 :: S) m hm hcut (by rintro rfl; cases h : m.size <;> simp [h, Cut] at hcut) hS hP hv) hcut rfl
    (hS s0 (by simp)) (cut_pos hcut hP hS) hv

/-- every machine with the two-colour ordering -/
theorem ready_cb2 (L S : List Nat) (s0 : Nat) (m : Machine) (hm : m.Good) (hcut : Cut L m.size (s0 :: S)) (heven : s0 % 2 = 0)
    (hS : ∀ s ∈ s0 :: S, 0 < s) (hP : ∀ p ∈ m.size, 0 < p) (hv : nsites L < 2 ^ 31) : Ready (geomCB2 L m (s0 :: S)) s0 :=
  ready_cut (C02_cb2 L S s0 m hm hcut heven hS hv) hcut rfl (hS s0 (by simp)) (cut_pos hcut hP hS) hv

/-- every single-node ordering with mutually inverse maps (C01); a row is one site -/
theorem ready_scalar (L : List Nat) (hne : L ≠ []) (coords : Nat → Outcome (List Nat)) (index : List Nat → Outcome Nat)
    (h : MutuallyInverse L coords index) (hpos : 0 < nsites L) (hv : nsites L < 2 ^ 31) : Ready (geomScalar L coords index) 1 := by
  refine ⟨C02_scalar L coords index h, hv, hpos, ?_, by omega, ?_⟩
  · intro q i hi _; rfl
  · cases L with
    | nil => exact absurd rfl hne
    | cons l0 L => exact ⟨l0, L, rfl, Nat.one_dvd _⟩

/-! ## the file -/

/-- the file of a field: the records of the sites in the order of their rank -/
def fileBytes (L : List Nat) (f : List Nat → List (List Byte)) : List Byte :=
  (List.range (nsites L)).flatMap (fun r => (f (digits r L)).flatten)

theorem records_file (L : List Nat) (f : List Nat → List (List Byte)) : records L f (fun _ => true) 0 (nsites L) = fileBytes L f := by
  unfold records fileBytes
  rw [List.filter_true]
  simp only [Nat.zero_add]

theorem words_flatten_length {L : List Nat} {size nmemb : Nat} {f : List Nat → List (List Byte)} (hf : IsField L size nmemb f)
    (a n : Nat) (h : a + n ≤ nsites L) : (records L f (fun _ => true) a n).length = n * (size * nmemb) := by
  have hw := words_spec hf (fun _ => true) a n h
  rw [records_eq, flatten_length _ hw.2, hw.1, count_true]; ring

theorem file_part {L : List Nat} {size nmemb : Nat} {f : List Nat → List (List Byte)} (hf : IsField L size nmemb f)
    (a n : Nat) (h : a + n ≤ nsites L) :
    ((fileBytes L f).drop (a * (size * nmemb))).take (n * (size * nmemb)) = records L f (fun _ => true) a n := by
  obtain ⟨z, hz⟩ : ∃ z, nsites L = a + (n + z) := ⟨nsites L - a - n, by omega⟩
  have h1 := words_flatten_length hf 0 a (by omega)
  have h2 := words_flatten_length hf a n h
  rw [← records_file, records_eq, hz, words_add, words_add, List.flatten_append, List.flatten_append, Nat.zero_add, ← records_eq,
    ← records_eq, ← h1, List.drop_left, ← h2, List.take_left]

/-- Where the record of a site is: at `rank` times the record length. -/
theorem C27_offset (L : List Nat) (size nmemb : Nat) (f : List Nat → List (List Byte)) (hf : IsField L size nmemb f) (c : List Nat)
    (hc : InRange c L) : (fileBytes L f).length = nsites L * (size * nmemb) ∧
      ((fileBytes L f).drop (rank c L * (size * nmemb))).take (size * nmemb) = (f c).flatten := by
  constructor
  · rw [← records_file, words_flatten_length hf 0 _ (by omega)]
  · have := file_part hf (rank c L) 1 (by have := rank_lt hc; omega)
    rw [Nat.one_mul] at this
    rw [this, records_eq, words_succ, words_zero, Nat.add_zero, digits_rank hc]
    simp

/-- C27, multi-node. For every machine (any grid of nodes, any ordering of the sites within a node that C02 accepts, either byte order),
every field and every stream: `write` appends the records of the sites in lexicographic order — bytes that depend on the lattice and the
field only — and updates the checksum by these bytes.

The full claim has no condition `Sendable`: on a machine that is not a grid the rows must have at least 4 bytes (`C27_short_rows`), and at
most 2^31 - 1 (the count of a message is an `int`). -/
theorem C27_par_partial (g : Geom) (xinc : Nat) (hR : Ready g xinc) (be grid : Bool) (size nmemb : Nat) (hs : Supported size)
    (f : List Nat → List (List Byte)) (hf : IsField g.L size nmemb f) (M : Mem) (hM : Holds be g size nmemb M f)
    (hx : Sendable g grid (size * nmemb * xinc)) (d : Dev) :
    writeOLattice be g xinc grid M size nmemb d = ok (d.put (fileBytes g.L f)) := by
  obtain ⟨nb, hnb⟩ := nb_exists hR
  obtain ⟨n, h⟩ := writeLoop_eq hR hs hf hM hx 0 nb (by rw [Nat.zero_add]; omega) d
  rw [Nat.zero_mul] at h
  rw [writeOLattice, strides_eq hR.xpos (nb := nb) (by omega), ok_bind, h, ok_bind, pure_def, ← hnb, records_file]

/-- The clear-to-send message is 4 bytes, sent from and received into the row buffer.  On a machine of several nodes that is not a grid,
a field whose rows are shorter (e.g. `LatticeBoolean` with fewer than 4 sites in the first direction of the node) cannot be written. -/
theorem C27_short_rows (g : Geom) (xinc : Nat) (hR : Ready g xinc) (be : Bool) (size nmemb : Nat) (M : Mem)
    (hn : 1 < g.nodes) (hsites : 0 < g.sites) (hshort : size * nmemb * xinc < 4) (d d' : Dev) :
    writeOLattice be g xinc false M size nmemb d ≠ ok d' := by
  intro hw
  obtain ⟨nb, hnb⟩ := nb_exists hR
  rw [writeOLattice, strides_eq hR.xpos (nb := nb) (by omega)] at hw
  obtain ⟨r, hr, -⟩ := Outcome.bind_eq_ok.1 (by simpa only [ok_bind] using hw)
  -- a step that succeeds from old_node = 0 is a step for node 0
  have step : ∀ (st st' : Nat × Dev) (s : Nat), st.1 = 0 → writeBlock be g xinc false M size nmemb st s = ok st' →
      st'.1 = 0 ∧ g.nodeNumber (digits s g.L) = ok 0 := by
    intro st st' s h0 hb
    unfold writeBlock at hb
    rw [crtesn_eq (pos_of_nsites_pos hR.pos), ok_bind] at hb
    obtain ⟨node, h1, hb⟩ := Outcome.bind_eq_ok.1 hb
    obtain ⟨_, h2, hb⟩ := Outcome.bind_eq_ok.1 hb
    obtain ⟨_, -, hb⟩ := Outcome.bind_eq_ok.1 hb
    obtain ⟨_, -, hb⟩ := Outcome.bind_eq_ok.1 hb
    obtain ⟨_, -, hb⟩ := Outcome.bind_eq_ok.1 hb
    rw [pure_def] at hb
    injection hb with hb
    have hz : node = 0 := by
      by_contra hne
      rw [handshake, h0, if_pos hne, clearToSend, if_pos ⟨by decide, hne, hshort⟩] at h2
      exact absurd h2 (by simp)
    subst hz
    exact ⟨by rw [← hb], h1⟩
  have all : ∀ (ss : List Nat) (st st' : Nat × Dev), st.1 = 0 → foldO (writeBlock be g xinc false M size nmemb) st ss = ok st' →
      ∀ s ∈ ss, g.nodeNumber (digits s g.L) = ok 0 := by
    intro ss
    induction ss with
    | nil => intro _ _ _ _ s hs; simp at hs
    | cons a as ih =>
      intro st st' h0 hf s hs
      simp only [foldO] at hf
      obtain ⟨st1, h1, h2⟩ := Outcome.bind_eq_ok.1 hf
      obtain ⟨h3, h4⟩ := step st st1 a h0 h1
      rcases List.mem_cons.1 hs with rfl | hs
      · exact h4
      · exact ih st1 st' h3 h2 s hs
  obtain ⟨c, c1, c2, c3, -⟩ := hR.good.2 1 0 hn hsites
  have hlt := rank_lt c2
  have hq : rank c g.L / xinc < nb := by
    rw [Nat.div_lt_iff_lt_mul hR.xpos]; omega
  have h1 := all _ _ _ rfl hr (0 + rank c g.L / xinc * xinc) (List.mem_map.2 ⟨_, List.mem_range.2 hq, rfl⟩)
  rw [Nat.zero_add] at h1
  have hdm : rank c g.L / xinc * xinc + rank c g.L % xinc = rank c g.L := Nat.div_add_mod' _ _
  have h2 := hR.row (rank c g.L / xinc) (rank c g.L % xinc) (Nat.mod_lt _ hR.xpos) (by rw [hdm]; exact hlt)
  rw [hdm, digits_rank c2, c3, h1] at h2
  injection h2 with h2
  omega

/-! ## single node -/

theorem writeElem_eq {g : Geom} (hR : Ready g 1) {be : Bool} {size nmemb : Nat} (hs : Supported size)
    (hn : size = 1 ∨ nmemb < 2 ^ 32) {f : List Nat → List (List Byte)} (hf : IsField g.L size nmemb f) {m : List Byte}
    (hM : Holds be g size nmemb (fun _ => m) f) {s : Nat} (hsv : s < nsites g.L) (d : Dev) :
    writeElem be g size nmemb (m, d) s = ok (m, d.put (f (digits s g.L)).flatten) := by
  obtain ⟨n, l, -, r2, r3, r4, r5⟩ := indexOf_eq hR hsv
  have hr := hf _ (digits_inRange hsv)
  have hsl := hM.slice r2 r4 r5
  have e := writeArray_eq be hs _ hr.2 (by rw [hr.1]; exact hn) [] d
  rw [List.append_nil, hr.1] at e
  unfold writeElem
  rw [r3, ok_bind, hsl, ok_bind, e, ok_bind, blitO_slice hsl]
  rfl

theorem readElem_eq {g : Geom} (hR : Ready g 1) (h1 : g.nodes = 1) {be : Bool} {size nmemb : Nat} (hs : Supported size)
    (hn : size = 1 ∨ nmemb < 2 ^ 32) {f : List Nat → List (List Byte)} (hf : IsField g.L size nmemb f) {m : List Byte}
    {φ : List Nat → List Byte} (hM : Cells g (size * nmemb) (fun _ => m) φ) {s : Nat} (hsv : s < nsites g.L) (d : Dev)
    (hd : d.Sees (f (digits s g.L)).flatten) :
    ∃ m', readElem be g size nmemb (m, d) s = ok (m', d.skip (f (digits s g.L)).flatten) ∧
      Cells g (size * nmemb) (fun _ => m') (fun c => if c = digits s g.L then mem be (f (digits s g.L)) else φ c) := by
  obtain ⟨n, l, -, r2, r3, r4, r5⟩ := indexOf_eq hR hsv
  have hr := hf _ (digits_inRange hsv)
  have e := readArray_eq be hs _ hr.2 (by rw [hr.1]; exact hn) d hd
  rw [hr.1] at e
  obtain ⟨m', b1, b2⟩ := hM.blit hR.good r2 r4 r5 (mem_field_length be hf (digits_inRange hsv))
  refine ⟨m', ?_, b2.mem_congr (fun x hx => ?_)⟩
  · unfold readElem
    rw [r3, ok_bind, e, ok_bind, b1]
    rfl
  · have : x = n := by omega
    subst this
    exact Mem.put_at _ _ _

theorem records_succ (L : List Nat) (f : List Nat → List (List Byte)) (Q : List Nat → Bool) (a n : Nat) :
    records L f Q a (n + 1) = records L f Q a n ++ (if Q (digits (a + n) L) then (f (digits (a + n) L)).flatten else []) := by
  rw [records_eq, records_eq, words_succ, List.flatten_append]
  congr 1
  split <;> rfl

/-- what the single-node loops do at a site, for all sites or for those of one colour -/
theorem writeLoopS_eq {g : Geom} (hR : Ready g 1) {be : Bool} {size nmemb : Nat} (hs : Supported size)
    (hn : size = 1 ∨ nmemb < 2 ^ 32) {f : List Nat → List (List Byte)} (hf : IsField g.L size nmemb f) {m : List Byte}
    (hM : Holds be g size nmemb (fun _ => m) f) (Q : List Nat → Bool) (step : List Byte × Dev → Nat → Outcome (List Byte × Dev))
    (a n : Nat) (han : a + n ≤ nsites g.L)
    (hstep : ∀ st s, a ≤ s → s < a + n → step st s = if Q (digits s g.L) then writeElem be g size nmemb st s else ok st) (d : Dev) :
    foldO step (m, d) ((List.range n).map (a + ·)) = ok (m, d.put (records g.L f Q a n)) := by
  obtain ⟨s, e1, e2⟩ := foldO_range (f := step) (s := (m, d)) (fun i s => s = (m, d.put (records g.L f Q a i))) (a + ·) n
    (by simp [records, put_nil]) (by
      intro i s hi hI
      refine ⟨_, ?_, rfl⟩
      rw [hstep _ _ (by omega) (by omega), hI, records_succ]
      split
      · rw [writeElem_eq hR hs hn hf hM (by omega), put_put]
      · rw [List.append_nil])
  rw [e1, e2]

theorem readLoopS_eq {g : Geom} (hR : Ready g 1) (h1 : g.nodes = 1) {be : Bool} {size nmemb : Nat} (hs : Supported size)
    (hn : size = 1 ∨ nmemb < 2 ^ 32) {f : List Nat → List (List Byte)} (hf : IsField g.L size nmemb f) {m : List Byte}
    {φ : List Nat → List Byte} (hM : Cells g (size * nmemb) (fun _ => m) φ) (Q : List Nat → Bool)
    (step : List Byte × Dev → Nat → Outcome (List Byte × Dev)) (a n : Nat) (han : a + n ≤ nsites g.L)
    (hstep : ∀ st s, a ≤ s → s < a + n → step st s = if Q (digits s g.L) then readElem be g size nmemb st s else ok st) (d : Dev)
    (hd : d.Sees (records g.L f Q a n)) :
    ∃ m', foldO step (m, d) ((List.range n).map (a + ·)) = ok (m', d.skip (records g.L f Q a n)) ∧
      Cells g (size * nmemb) (fun _ => m') (over φ (fun c => mem be (f c)) (inR g.L Q a n)) := by
  obtain ⟨s, e1, e2, e3⟩ := foldO_range (f := step) (s := (m, d))
    (fun i s => s.2 = d.skip (records g.L f Q a i) ∧
      Cells g (size * nmemb) (fun _ => s.1) (over φ (fun c => mem be (f c)) (inR g.L Q a i))) (a + ·) n
    ⟨by simp [records, skip_nil], hM.congr hR.good (fun c _ => (over_zero ..).symm)⟩ (by
      intro i s hi hI
      rw [hstep _ _ (by omega) (by omega)]
      by_cases hq : Q (digits (a + i) g.L) = true
      · have hsee : s.2.Sees (f (digits (a + i) g.L)).flatten := by
          obtain ⟨j, rfl⟩ : ∃ j, n = i + (1 + j) := ⟨n - i - 1, by omega⟩
          rw [hI.1]
          rw [records_eq, words_add, words_add, List.flatten_append, List.flatten_append] at hd
          have := Sees.left (Sees.right hd)
          rwa [words_succ, words_zero, Nat.add_zero, if_pos hq, List.nil_append, ← records_eq] at this
        obtain ⟨m', q1, q2⟩ := readElem_eq hR h1 (be := be) hs hn hf hI.2 (s := a + i) (by omega) s.2 hsee
        refine ⟨_, by rw [if_pos hq]; exact q1, ?_, ?_⟩
        · simp only; rw [hI.1, skip_skip, records_succ, if_pos hq]
        · exact q2.congr hR.good (fun c hc => over_hit φ (fun c => mem be (f c)) Q (by omega) hq hc)
      · refine ⟨s, by rw [if_neg hq], ?_, hI.2.congr hR.good (fun c hc => over_miss φ _ Q hq hc)⟩
        rw [hI.1, records_succ, if_neg hq, List.append_nil])
  exact ⟨s.1, by rw [e1, ← e2], e3⟩

theorem range_zero_add (n : Nat) : (List.range n).map (0 + ·) = List.range n := by
  rw [show (fun x => 0 + x) = (id : Nat → Nat) from by funext x; simp, List.map_id]

/-- C27, single node: the same bytes, and the field itself is unchanged (it is byte-swapped in place while it is written). -/
theorem C27_single (g : Geom) (hR : Ready g 1) (_h1 : g.nodes = 1) (be : Bool) (size nmemb : Nat) (hs : Supported size)
    (hn : size = 1 ∨ nmemb < 2 ^ 32) (f : List Nat → List (List Byte)) (hf : IsField g.L size nmemb f) (m : List Byte)
    (hM : Holds be g size nmemb (fun _ => m) f) (d : Dev) :
    writeOLatticeS be g m size nmemb d = ok (m, d.put (fileBytes g.L f)) := by
  have := writeLoopS_eq hR hs hn hf hM (fun _ => true) (writeElem be g size nmemb) 0 (nsites g.L) (by omega)
    (fun st s _ _ => by simp) d
  rwa [range_zero_add, records_file] at this

/-- C27: a file written by any multi-node machine is the file written by any single-node program. -/
theorem C27_same_file_partial (g g' : Geom) (xinc : Nat) (hR : Ready g xinc) (hR' : Ready g' 1) (h1 : g'.nodes = 1) (hL : g.L = g'.L)
    (be be' grid : Bool) (size nmemb : Nat) (hs : Supported size) (f : List Nat → List (List Byte)) (hf : IsField g.L size nmemb f)
    (M : Mem) (hM : Holds be g size nmemb M f) (m : List Byte) (hM' : Holds be' g' size nmemb (fun _ => m) f)
    (hx : Sendable g grid (size * nmemb * xinc)) (d : Dev) :
    ∃ d', writeOLattice be g xinc grid M size nmemb d = ok d' ∧ writeOLatticeS be' g' m size nmemb d = ok (m, d') := by
  have hle : size * nmemb ≤ size * nmemb * xinc := Nat.le_mul_of_pos_right _ hR.xpos
  refine ⟨_, C27_par_partial g xinc hR be grid size nmemb hs f hf M hM hx d, ?_⟩
  rw [hL]
  exact C27_single g' hR' h1 be' size nmemb hs (few hs hx.2 hle) f (by rw [← hL]; exact hf) m hM' d

/-! ## C28 -/

theorem over_all {L : List Nat} (φ ψ : List Nat → List Byte) {c : List Nat} (hc : InRange c L) :
    over φ ψ (inR L (fun _ => true) 0 (nsites L)) c = ψ c := by
  rw [over, if_pos]
  have := rank_lt hc
  simp only [inR, Bool.true_and, decide_eq_true_eq]; omega

/-- C28, multi-node. Wherever the file of a field is in a stream, `read` on any machine gives exactly the field, whatever the memory held,
consumes exactly the record, and leaves the stream standing behind it. -/
theorem C28_par (g : Geom) (xinc : Nat) (hR : Ready g xinc) (be : Bool) (size nmemb : Nat) (hs : Supported size)
    (f : List Nat → List (List Byte)) (hf : IsField g.L size nmemb f) (hx : size * nmemb * xinc < 2 ^ 31)
    (M : Mem) (hM : ∀ n, n < g.nodes → (M n).length = g.sites * (size * nmemb)) (d : Dev) (hd : d.Sees (fileBytes g.L f)) :
    ∃ M', readOLattice be g xinc M size nmemb d = ok (M', d.skip (fileBytes g.L f)) ∧ Holds be g size nmemb M' f := by
  obtain ⟨nb, hnb⟩ := nb_exists hR
  obtain ⟨φ, hφ⟩ := cells_exists hR.good _ M hM
  rw [← records_file, hnb] at hd
  obtain ⟨M', h1, h2⟩ := readLoop_eq hR (be := be) hs hf hx 0 nb (by rw [Nat.zero_add]; omega) M d hφ (by rw [Nat.zero_mul]; exact hd)
  rw [Nat.zero_mul, ← hnb] at h1 h2
  refine ⟨M', ?_, h2.congr hR.good (fun c hc => over_all _ _ hc)⟩
  rw [readOLattice, strides_eq hR.xpos (nb := nb) (by omega), ok_bind]
  rw [h1, records_file]

/-- C28, single node. -/
theorem C28_single (g : Geom) (hR : Ready g 1) (h1 : g.nodes = 1) (be : Bool) (size nmemb : Nat) (hs : Supported size)
    (hn : size = 1 ∨ nmemb < 2 ^ 32) (f : List Nat → List (List Byte)) (hf : IsField g.L size nmemb f) (m : List Byte)
    (hm : m.length = g.sites * (size * nmemb)) (d : Dev) (hd : d.Sees (fileBytes g.L f)) :
    ∃ m', readOLatticeS be g m size nmemb d = ok (m', d.skip (fileBytes g.L f)) ∧ Holds be g size nmemb (fun _ => m') f := by
  obtain ⟨φ, hφ⟩ := cells_exists hR.good (size * nmemb) (fun _ => m) (fun _ _ => hm)
  rw [← records_file] at hd
  obtain ⟨m', e1, e2⟩ := readLoopS_eq hR h1 (be := be) hs hn hf hφ (fun _ => true) (readElem be g size nmemb) 0 (nsites g.L) (by omega)
    (fun st s _ _ => by simp) d hd
  rw [range_zero_add, records_file] at e1
  exact ⟨m', e1, e2.congr hR.good (fun c hc => over_all _ _ hc)⟩

/-- C28: written on one machine, read on another one — of another grid, another ordering, another byte order. -/
theorem C28_other_machine_partial (g g' : Geom) (xinc xinc' : Nat) (hR : Ready g xinc) (hR' : Ready g' xinc') (hL : g.L = g'.L)
    (be be' grid : Bool) (size nmemb : Nat) (hs : Supported size) (f : List Nat → List (List Byte)) (hf : IsField g.L size nmemb f)
    (M : Mem) (hM : Holds be g size nmemb M f) (hx : Sendable g grid (size * nmemb * xinc)) (hx' : size * nmemb * xinc' < 2 ^ 31)
    (M' : Mem) (hM' : ∀ n, n < g'.nodes → (M' n).length = g'.sites * (size * nmemb)) (d : Dev) :
    ∃ d', writeOLattice be g xinc grid M size nmemb d = ok d' ∧ ∀ data', d'.data <+: data' →
      ∃ M'', readOLattice be' g' xinc' M' size nmemb { data := data', pos := d.pos, crc := d.crc } = ok (M'', { d' with data := data' }) ∧
        Holds be' g' size nmemb M'' f := by
  refine ⟨_, C27_par_partial g xinc hR be grid size nmemb hs f hf M hM hx d, fun data' hp => ?_⟩
  obtain ⟨M'', h1, h2⟩ := C28_par g' xinc' hR' be' size nmemb hs f (by rw [← hL]; exact hf) hx' M' hM'
    { data := data', pos := d.pos, crc := d.crc } (by rw [← hL]; exact put_sees d _ data' hp d.crc)
  exact ⟨M'', by rw [h1, ← hL]; rfl, h2⟩

/-! ## C29 -/

theorem coloured_of_make {g : Geom} (hg : g.Good) (fn : List Nat → Int) (nsub : Nat) (S : Nat → SetObj)
    (hlegal : ∀ c, InRange c g.L → 0 ≤ fn c ∧ fn c < nsub)
    (hS : ∀ n, n < g.nodes → setMake g n fn nsub = ok (S n)) (color : Nat) :
    Coloured g (fun n => (S n).latColor) color (fun c => decide (fn c = (color : Int))) := by
  intro n i c hn hi hc
  obtain ⟨s, h1, h2, -, h4, -⟩ := C04_make g hg n hn fn nsub hlegal
  rw [hS n hn] at h1
  injection h1 with h1
  subst h1
  have hi' : i < (S n).latColor.length := by omega
  refine ⟨_, rd_of_lt hi', ?_⟩
  obtain ⟨⟨c', q1, q2⟩, -⟩ := h4 i hi'
  rw [hc] at q1
  injection q1 with q1
  subst q1
  rw [decide_eq_true_eq, q2]
  omega

/-- the file of a field restricted to a subset: the records of its sites in the order of their rank -/
def subsetBytes (L : List Nat) (f : List Nat → List (List Byte)) (Q : List Nat → Bool) : List Byte :=
  (((List.range (nsites L)).map (fun r => digits r L)).filter Q).flatMap (fun c => (f c).flatten)

theorem records_subset (L : List Nat) (f : List Nat → List (List Byte)) (Q : List Nat → Bool) :
    records L f Q 0 (nsites L) = subsetBytes L f Q := by
  unfold records subsetBytes
  rw [List.filter_map, List.flatMap_map]
  simp only [Nat.zero_add]
  rfl

/-- C29, subsets, multi-node. For every set made by `Set::make` from a legal colour function and every subset of it: `write` appends
exactly the records of the sites of the subset, in lexicographic order. -/
theorem C29_write_partial (g : Geom) (xinc : Nat) (hR : Ready g xinc) (be grid : Bool) (size nmemb : Nat) (hs : Supported size)
    (f : List Nat → List (List Byte)) (hf : IsField g.L size nmemb f) (M : Mem) (hM : Holds be g size nmemb M f)
    (fn : List Nat → Int) (nsub color : Nat) (S : Nat → SetObj) (hlegal : ∀ c, InRange c g.L → 0 ≤ fn c ∧ fn c < nsub)
    (hS : ∀ n, n < g.nodes → setMake g n fn nsub = ok (S n)) (hx : Sendable g grid (size * nmemb * xinc)) (d : Dev) :
    writeSub be g xinc grid M (fun n => (S n).latColor) color size nmemb d =
      ok (d.put (subsetBytes g.L f (fun c => decide (fn c = (color : Int))))) := by
  rw [writeSubLoop_eq hR hs hf hM (coloured_of_make hR.good fn nsub S hlegal hS color) hx, records_subset]

/-- C29, subsets, multi-node: `read` restores exactly the sites of the subset and changes no byte of the others. -/
theorem C29_read (g : Geom) (xinc : Nat) (hR : Ready g xinc) (be : Bool) (size nmemb : Nat) (hs : Supported size)
    (f : List Nat → List (List Byte)) (hf : IsField g.L size nmemb f) (hx : size * nmemb * xinc < 2 ^ 31)
    (fn : List Nat → Int) (nsub color : Nat) (S : Nat → SetObj) (hlegal : ∀ c, InRange c g.L → 0 ≤ fn c ∧ fn c < nsub)
    (hS : ∀ n, n < g.nodes → setMake g n fn nsub = ok (S n)) (M : Mem) (φ : List Nat → List Byte) (hM : Cells g (size * nmemb) M φ) (d : Dev)
    (hd : d.Sees (subsetBytes g.L f (fun c => decide (fn c = (color : Int))))) :
    ∃ M', readSub be g xinc M (fun n => (S n).latColor) color size nmemb d =
        ok (M', d.skip (subsetBytes g.L f (fun c => decide (fn c = (color : Int))))) ∧
      Cells g (size * nmemb) M' (fun c => if fn c = (color : Int) then mem be (f c) else φ c) := by
  rw [← records_subset] at hd ⊢
  obtain ⟨M', h1, h2⟩ := readSubLoop_eq hR (be := be) hs hf hx (coloured_of_make hR.good fn nsub S hlegal hS color) M d hM hd
  refine ⟨M', h1, h2.congr hR.good (fun c _ => ?_)⟩
  simp only [over, decide_eq_true_eq]

/-- C29, subsets, single node. -/
theorem C29_single (g : Geom) (hR : Ready g 1) (h1 : g.nodes = 1) (be : Bool) (size nmemb : Nat) (hs : Supported size)
    (hn : size = 1 ∨ nmemb < 2 ^ 32) (f : List Nat → List (List Byte)) (hf : IsField g.L size nmemb f)
    (fn : List Nat → Int) (nsub color : Nat) (S : SetObj) (hlegal : ∀ c, InRange c g.L → 0 ≤ fn c ∧ fn c < nsub)
    (hS : setMake g 0 fn nsub = ok S) :
    (∀ (m : List Byte) (d : Dev), Holds be g size nmemb (fun _ => m) f → writeSubS be g m S.latColor color size nmemb d =
        ok (m, d.put (subsetBytes g.L f (fun c => decide (fn c = (color : Int)))))) ∧
    ∀ (m : List Byte) (φ : List Nat → List Byte) (d : Dev), Cells g (size * nmemb) (fun _ => m) φ →
      d.Sees (subsetBytes g.L f (fun c => decide (fn c = (color : Int)))) →
      ∃ m', readSubS be g m S.latColor color size nmemb d = ok (m', d.skip (subsetBytes g.L f (fun c => decide (fn c = (color : Int))))) ∧
        Cells g (size * nmemb) (fun _ => m') (fun c => if fn c = (color : Int) then mem be (f c) else φ c) := by
  have hC := coloured_of_make hR.good fn nsub (fun _ => S) hlegal (fun n hn => by
    have : n = 0 := by omega
    subst this; exact hS) color
  have hcol : ∀ s, s < nsites g.L → ∃ l k, indexOf g s = ok l ∧ rd S.latColor l = ok k ∧
      (k = color ↔ decide (fn (digits s g.L) = (color : Int)) = true) := by
    intro s hs
    obtain ⟨n, l, -, r2, r3, r4, r5⟩ := indexOf_eq hR hs
    obtain ⟨k, k1, k2⟩ := hC n l _ r2 r4 r5
    exact ⟨l, k, r3, k1, k2⟩
  constructor
  · intro m d hM
    have := writeLoopS_eq hR hs hn hf hM (fun c => decide (fn c = (color : Int))) (fun st site => do
      let l ← indexOf g site
      let k ← rd S.latColor l
      if k = color then writeElem be g size nmemb st site else ok st) 0 (nsites g.L) (by omega)
      (fun st s _ hs => by
        obtain ⟨l, k, q1, q2, q3⟩ := hcol s (by omega)
        simp only [q1, ok_bind, q2]
        by_cases hk : k = color
        · rw [if_pos hk, if_pos (q3.1 hk)]
        · rw [if_neg hk, if_neg (fun h => hk (q3.2 h))]) d
    rwa [range_zero_add, records_subset] at this
  · intro m φ d hM hd
    rw [← records_subset] at hd
    obtain ⟨m', e1, e2⟩ := readLoopS_eq hR h1 (be := be) hs hn hf hM (fun c => decide (fn c = (color : Int))) (fun st site => do
      let l ← indexOf g site
      let k ← rd S.latColor l
      if k = color then readElem be g size nmemb st site else ok st) 0 (nsites g.L) (by omega)
      (fun st s _ hs => by
        obtain ⟨l, k, q1, q2, q3⟩ := hcol s (by omega)
        simp only [q1, ok_bind, q2]
        by_cases hk : k = color
        · rw [if_pos hk, if_pos (q3.1 hk)]
        · rw [if_neg hk, if_neg (fun h => hk (q3.2 h))]) d hd
    rw [range_zero_add, records_subset] at e1
    refine ⟨m', e1, e2.congr hR.good (fun c hc => ?_)⟩
    have := rank_lt hc
    simp only [over, inR, Bool.and_eq_true, decide_eq_true_eq]
    by_cases hq : fn c = (color : Int)
    · rw [if_pos ⟨hq, by omega⟩, if_pos hq]
    · rw [if_neg (fun h => hq h.1), if_neg hq]

/-- C29, one site, multi-node. -/
theorem C29_site_partial (g : Geom) (hg : g.Good) (be grid : Bool) (size nmemb : Nat) (hs : Supported size)
    (f : List Nat → List (List Byte)) (hf : IsField g.L size nmemb f) (hx : Sendable g grid (size * nmemb)) (c : List Nat) (hc : InRange c g.L) :
    (∀ M d, Holds be g size nmemb M f → writeSite be g grid M size nmemb c d = ok (d.put (f c).flatten)) ∧
    ∀ M φ (d : Dev), Cells g (size * nmemb) M φ → d.Sees (f c).flatten →
      ∃ M', readSite be g M size nmemb c d = ok (M', d.skip (f c).flatten) ∧
        Cells g (size * nmemb) M' (fun c' => if c' = c then mem be (f c) else φ c') := by
  obtain ⟨n, l, h1, h2, h3, h4, h5⟩ := hg.1 c hc
  have hr := hf c hc
  have hn := few hs hx.2 (a := nmemb) (Nat.le_refl _)
  constructor
  · intro M d hM
    have e := writeArray_eq be hs _ hr.2 (by rw [hr.1]; exact hn) [] d
    rw [List.append_nil, hr.1] at e
    unfold writeSite
    rw [h1, ok_bind, h3, ok_bind, clear_ok hx h2, ok_bind, hM.slice h2 h4 h5, ok_bind, route_ok hx.2, ok_bind, e]
    rfl
  · intro M φ d hM hd
    have e := readArray_eq be hs _ hr.2 (by rw [hr.1]; exact hn) d hd
    rw [hr.1] at e
    obtain ⟨m', b1, b2⟩ := hM.blit hg h2 h4 h5 (mem_field_length be hf hc)
    refine ⟨M.put n m', ?_, b2⟩
    unfold readSite
    rw [h1, ok_bind, h3, ok_bind, e, ok_bind, route_ok hx.2, ok_bind, b1]
    rfl

/-- C29, one site, single node. -/
theorem C29_site_single (g : Geom) (hg : g.Good) (h1 : g.nodes = 1) (be : Bool) (size nmemb : Nat) (hs : Supported size)
    (hn : size = 1 ∨ nmemb < 2 ^ 32) (f : List Nat → List (List Byte)) (hf : IsField g.L size nmemb f) (c : List Nat) (hc : InRange c g.L) :
    (∀ m d, Holds be g size nmemb (fun _ => m) f → writeSiteS be g m size nmemb c d = ok (m, d.put (f c).flatten)) ∧
    ∀ m φ (d : Dev), Cells g (size * nmemb) (fun _ => m) φ → d.Sees (f c).flatten →
      ∃ m', readSiteS be g m size nmemb c d = ok (m', d.skip (f c).flatten) ∧
        Cells g (size * nmemb) (fun _ => m') (fun c' => if c' = c then mem be (f c) else φ c') := by
  obtain ⟨n, l, -, h2, h3, h4, h5⟩ := hg.1 c hc
  have hr := hf c hc
  constructor
  · intro m d hM
    have e := writeArray_eq be hs _ hr.2 (by rw [hr.1]; exact hn) [] d
    rw [List.append_nil, hr.1] at e
    have hsl := hM.slice h2 h4 h5
    unfold writeSiteS
    rw [h3, ok_bind, hsl, ok_bind, e, ok_bind, blitO_slice hsl]
    rfl
  · intro m φ d hM hd
    have e := readArray_eq be hs _ hr.2 (by rw [hr.1]; exact hn) d hd
    rw [hr.1] at e
    obtain ⟨m', b1, b2⟩ := hM.blit hg h2 h4 h5 (mem_field_length be hf hc)
    refine ⟨m', ?_, b2.mem_congr (fun x hx => ?_)⟩
    · unfold readSiteS
      rw [h3, ok_bind, e, ok_bind, b1]
      rfl
    · have : x = n := by omega
      subst this
      exact Mem.put_at _ _ _

/-- One site of an element of fewer than 4 bytes (`LatticeBoolean`) cannot be written from a node other than the primary one, unless the
machine is a grid. -/
theorem C29_short_site (g : Geom) (be : Bool) (size nmemb : Nat) (M : Mem) (c : List Nat) (n : Nat) (hn : g.nodeNumber c = ok n)
    (h0 : n ≠ 0) (hshort : size * nmemb < 4) (d d' : Dev) : writeSite be g false M size nmemb c d ≠ ok d' := by
  intro h
  unfold writeSite at h
  rw [hn, ok_bind] at h
  obtain ⟨l, -, h⟩ := Outcome.bind_eq_ok.1 h
  rw [clearToSend, if_pos ⟨by decide, h0, hshort⟩, ub_bind] at h
  exact absurd h (by simp)

/-! ## C30 -/

theorem rank_snoc : ∀ {c L : List Nat} (t l : Nat), c.length = L.length → rank (c ++ [t]) (L ++ [l]) = rank c L + nsites L * t
  | [], [], t, l, _ => by simp [rank, nsites]
  | a :: c, b :: L, t, l, h => by
      have ih := rank_snoc (c := c) (L := L) t l (by simpa using h)
      simp only [List.cons_append, rank, nsites, ih]
      ring
  | [], _ :: _, _, _, h => by simp at h
  | _ :: _, [], _, _, h => by simp at h

theorem rank_zeros : ∀ (L : List Nat), rank (List.replicate L.length 0) L = 0
  | [] => rfl
  | l :: L => by rw [List.length_cons, List.replicate_succ, rank, rank_zeros L]; simp

theorem zeros_inRange : ∀ {L : List Nat}, (∀ l ∈ L, 0 < l) → InRange (List.replicate L.length 0) L
  | [], _ => trivial
  | l :: L, h => by
      simp only [List.mem_cons, forall_eq_or_imp] at h
      rw [List.length_cons, List.replicate_succ]
      exact ⟨h.1, zeros_inRange h.2⟩

theorem zeros_set (pre : List Nat) (lt t : Nat) :
    (List.replicate (pre ++ [lt]).length 0).set ((pre ++ [lt]).length - 1) t = List.replicate pre.length 0 ++ [t] := by
  rw [List.length_append, List.length_singleton, Nat.add_sub_cancel, List.replicate_succ', List.set_append_right _ _ (by simp)]
  simp

theorem localSite_time {pre : List Nat} {lt t : Nat} (hp : ∀ l ∈ pre, 0 < l) (ht : t < lt) (hv : nsites (pre ++ [lt]) < 2 ^ 31) :
    localSite (List.replicate pre.length 0 ++ [t]) (pre ++ [lt]) = ok (t * nsites pre) := by
  rw [localSite_eq ((inRange_append.2 ⟨zeros_inRange hp, ht⟩)) (by simp) hv, rank_snoc t lt (by simp), rank_zeros, Nat.zero_add, Nat.mul_comm]

theorem setTimeSlice_eq {pre : List Nat} {lt t : Nat} (hp : ∀ l ∈ pre, 0 < l) (ht : t < lt) (hv : nsites (pre ++ [lt]) < 2 ^ 31) :
    setTimeSlice (pre ++ [lt]) (t : Int) = ok (t * nsites pre, (t + 1) * nsites pre) := by
  unfold setTimeSlice
  have hr : rd (pre ++ [lt]) ((pre ++ [lt]).length - 1) = ok lt := by
    rw [rd_eq_ok]; simp
  rw [hr, ok_bind, if_neg (by omega)]
  simp only [zeros_set, Int.toNat_natCast]
  rw [localSite_time hp ht hv, ok_bind]
  by_cases e : t + 1 = lt
  · rw [if_pos (by omega), volume_eq (by
      intro l hl
      rcases List.mem_append.1 hl with hl | hl
      · exact hp l hl
      · rw [List.mem_singleton] at hl; omega) hv, ok_bind, nsites_append, e, Nat.mul_comm lt]
    rfl
  · rw [if_neg (by omega), localSite_time hp (by omega) hv, ok_bind]
    rfl

/-- C30: a time outside the lattice is rejected, before anything is read or written. -/
theorem C30_reject (pre : List Nat) (lt : Nat) (t : Int) (ht : t < 0 ∨ (lt : Int) ≤ t) : setTimeSlice (pre ++ [lt]) t = abort := by
  unfold setTimeSlice
  have hr : rd (pre ++ [lt]) ((pre ++ [lt]).length - 1) = ok lt := by
    rw [rd_eq_ok]; simp
  rw [hr, ok_bind, if_pos (by omega)]

theorem slice_rank {pre : List Nat} {lt : Nat} {c : List Nat} (hc : InRange c (pre ++ [lt])) (t : Nat) :
    (t * nsites pre ≤ rank c (pre ++ [lt]) ∧ rank c (pre ++ [lt]) < t * nsites pre + nsites pre) ↔ c.getLast? = some t := by
  obtain ⟨c', x, rfl⟩ : ∃ c' x, c = c' ++ [x] := by
    have hl := hc.length_eq
    refine ⟨c.dropLast, c.getLast (by rintro rfl; simp at hl), ?_⟩
    rw [List.dropLast_append_getLast]
  obtain ⟨h1, h2⟩ := inRange_append.1 hc
  rw [rank_snoc _ _ h1.length_eq, List.getLast?_append, List.getLast?_singleton, Option.some_or, Option.some.injEq]
  have hlt := rank_lt h1
  constructor
  · rintro ⟨ha, hb⟩
    rcases Nat.lt_trichotomy x t with h | h | h
    · have := Nat.mul_le_mul_left (nsites pre) (show x + 1 ≤ t from h)
      rw [Nat.mul_add, Nat.mul_one, Nat.mul_comm _ t] at this
      omega
    · exact h
    · have := Nat.mul_le_mul_left (nsites pre) (show t + 1 ≤ x from h)
      rw [Nat.mul_add, Nat.mul_one, Nat.mul_comm _ t] at this
      omega
  · rintro rfl
    rw [Nat.mul_comm x]
    omega

theorem slice_bound {pre : List Nat} {lt t : Nat} (ht : t < lt) : t * nsites pre + nsites pre ≤ nsites (pre ++ [lt]) := by
  rw [nsites_append, Nat.mul_comm _ lt]
  exact slot_le ht

theorem over_slice {pre : List Nat} {lt : Nat} (φ ψ : List Nat → List Byte) (t : Nat) {c : List Nat} (hc : InRange c (pre ++ [lt])) :
    over φ ψ (inR (pre ++ [lt]) (fun _ => true) (t * nsites pre) (nsites pre)) c = if c.getLast? = some t then ψ c else φ c := by
  have := slice_rank hc t
  simp only [over, inR, Bool.true_and, decide_eq_true_eq]
  by_cases h : c.getLast? = some t
  · rw [if_pos h, if_pos (this.2 h)]
  · rw [if_neg h, if_neg (fun h' => h (this.1 h'))]

theorem xinc_slice {g : Geom} {xinc : Nat} (hR : Ready g xinc) {pre : List Nat} {lt : Nat} (hL : g.L = pre ++ [lt]) (hne : pre ≠ []) :
    ∃ nb, nsites pre = nb * xinc := by
  obtain ⟨l0, ls, h1, h2⟩ := hR.head
  cases pre with
  | nil => exact absurd rfl hne
  | cons p ps =>
    rw [h1, List.cons_append] at hL
    injection hL with ha hb
    subst ha
    obtain ⟨k, hk⟩ := h2
    exact ⟨k * nsites ps, by rw [nsites, hk]; ring⟩

/-- C30, multi-node, lattices of two dimensions or more. For every time `t` of the lattice, writing the slice emits exactly the bytes
[t V3, (t+1) V3) (in units of records) of the file of the whole field. -/
theorem C30_write_partial (g : Geom) (xinc : Nat) (hR : Ready g xinc) (be grid : Bool) (size nmemb : Nat) (hs : Supported size)
    (f : List Nat → List (List Byte)) (hf : IsField g.L size nmemb f) (M : Mem) (hM : Holds be g size nmemb M f)
    (hx : Sendable g grid (size * nmemb * xinc)) (pre : List Nat) (lt t : Nat) (hL : g.L = pre ++ [lt]) (hne : pre ≠ []) (ht : t < lt)
    (d : Dev) :
    ∃ start stop, setTimeSlice g.L (t : Int) = ok (start, stop) ∧ writeSlice be g xinc grid M size nmemb start stop d =
      ok (d.put (((fileBytes g.L f).drop (t * nsites pre * (size * nmemb))).take (nsites pre * (size * nmemb)))) := by
  have hp : ∀ l ∈ pre, 0 < l := fun l hl => pos_of_nsites_pos hR.pos l (by rw [hL]; simp [hl])
  obtain ⟨nb, hnb⟩ := xinc_slice hR hL hne
  have hb := slice_bound (pre := pre) ht
  have e1 : t * nsites pre = t * nb * xinc := by rw [hnb]; ring
  have e2 : (t + 1) * nsites pre = (t * nb + nb) * xinc := by rw [hnb]; ring
  refine ⟨t * nsites pre, (t + 1) * nsites pre, by rw [hL]; exact setTimeSlice_eq hp ht (by rw [← hL]; exact hR.vol), ?_⟩
  rw [file_part hf _ _ (by rw [hL]; exact hb)]
  obtain ⟨n, h⟩ := writeLoop_eq hR hs hf hM hx (t * nb) nb (by rw [← e2, Nat.add_mul, Nat.one_mul, hL]; exact hb) d
  unfold writeSlice
  rw [cmod_pos hR.xpos, ok_bind, if_neg (by rw [e2, Nat.mul_mod_left]; simp), e1, e2,
    strides_eq hR.xpos (nb := nb) (by rw [Nat.add_mul]; omega), ok_bind, h, ok_bind, hnb]
  rfl

/-- C30, multi-node: reading the slice restores the sites of time `t` and changes no byte of the others. -/
theorem C30_read_partial (g : Geom) (xinc : Nat) (hR : Ready g xinc) (be : Bool) (size nmemb : Nat) (hs : Supported size)
    (f : List Nat → List (List Byte)) (hf : IsField g.L size nmemb f) (hx : size * nmemb * xinc < 2 ^ 31)
    (pre : List Nat) (lt t : Nat) (hL : g.L = pre ++ [lt]) (hne : pre ≠ []) (ht : t < lt)
    (M : Mem) (φ : List Nat → List Byte) (hM : Cells g (size * nmemb) M φ) (d : Dev)
    (hd : d.Sees (((fileBytes g.L f).drop (t * nsites pre * (size * nmemb))).take (nsites pre * (size * nmemb)))) :
    ∃ start stop M', setTimeSlice g.L (t : Int) = ok (start, stop) ∧ readSlice be g xinc M size nmemb start stop d =
      ok (M', d.skip (((fileBytes g.L f).drop (t * nsites pre * (size * nmemb))).take (nsites pre * (size * nmemb)))) ∧
      Cells g (size * nmemb) M' (fun c => if c.getLast? = some t then mem be (f c) else φ c) := by
  have hp : ∀ l ∈ pre, 0 < l := fun l hl => pos_of_nsites_pos hR.pos l (by rw [hL]; simp [hl])
  obtain ⟨nb, hnb⟩ := xinc_slice hR hL hne
  have hb := slice_bound (pre := pre) ht
  have e1 : t * nsites pre = t * nb * xinc := by rw [hnb]; ring
  have e2 : (t + 1) * nsites pre = (t * nb + nb) * xinc := by rw [hnb]; ring
  rw [file_part hf _ _ (by rw [hL]; exact hb)] at hd ⊢
  obtain ⟨M', h1, h2⟩ := readLoop_eq hR (be := be) hs hf hx (t * nb) nb (by rw [← e2, Nat.add_mul, Nat.one_mul, hL]; exact hb) M d hM
    (by rw [← e1, ← hnb]; exact hd)
  refine ⟨t * nsites pre, (t + 1) * nsites pre, M', by rw [hL]; exact setTimeSlice_eq hp ht (by rw [← hL]; exact hR.vol), ?_, ?_⟩
  · unfold readSlice
    rw [cmod_pos hR.xpos, ok_bind, if_neg (by rw [e2, Nat.mul_mod_left]; simp), e1, e2,
      strides_eq hR.xpos (nb := nb) (by rw [Nat.add_mul]; omega), ok_bind, h1, hnb]
  · refine h2.congr hR.good (fun c hc => ?_)
    rw [← e1, ← hnb, hL]
    exact over_slice φ _ t (by rw [← hL]; exact hc)

/-- C30, single node, any dimension. -/
theorem C30_single (g : Geom) (hR : Ready g 1) (h1 : g.nodes = 1) (be : Bool) (size nmemb : Nat) (hs : Supported size)
    (hn : size = 1 ∨ nmemb < 2 ^ 32) (f : List Nat → List (List Byte)) (hf : IsField g.L size nmemb f)
    (pre : List Nat) (lt t : Nat) (hL : g.L = pre ++ [lt]) (ht : t < lt) :
    ∃ start stop, setTimeSlice g.L (t : Int) = ok (start, stop) ∧
      (∀ m d, Holds be g size nmemb (fun _ => m) f → writeSliceS be g m size nmemb start stop d =
        ok (m, d.put (((fileBytes g.L f).drop (t * nsites pre * (size * nmemb))).take (nsites pre * (size * nmemb))))) ∧
      ∀ m φ (d : Dev), Cells g (size * nmemb) (fun _ => m) φ →
        d.Sees (((fileBytes g.L f).drop (t * nsites pre * (size * nmemb))).take (nsites pre * (size * nmemb))) →
        ∃ m', readSliceS be g m size nmemb start stop d =
            ok (m', d.skip (((fileBytes g.L f).drop (t * nsites pre * (size * nmemb))).take (nsites pre * (size * nmemb)))) ∧
          Cells g (size * nmemb) (fun _ => m') (fun c => if c.getLast? = some t then mem be (f c) else φ c) := by
  have hp : ∀ l ∈ pre, 0 < l := fun l hl => pos_of_nsites_pos hR.pos l (by rw [hL]; simp [hl])
  have hb := slice_bound (pre := pre) ht
  have hb' : t * nsites pre + nsites pre ≤ nsites g.L := by rw [hL]; exact hb
  have hlen : (t + 1) * nsites pre - t * nsites pre = nsites pre := by rw [Nat.add_mul, Nat.one_mul]; omega
  refine ⟨t * nsites pre, (t + 1) * nsites pre, by rw [hL]; exact setTimeSlice_eq hp ht (by rw [← hL]; exact hR.vol), ?_, ?_⟩
  · intro m d hM
    rw [file_part hf _ _ hb', writeSliceS, hlen]
    exact writeLoopS_eq hR hs hn hf hM (fun _ => true) _ _ _ hb' (fun st s _ _ => by simp) d
  · intro m φ d hM hd
    rw [file_part hf _ _ hb'] at hd ⊢
    obtain ⟨m', q1, q2⟩ := readLoopS_eq hR h1 (be := be) hs hn hf hM (fun _ => true) (readElem be g size nmemb) _ _ hb'
      (fun st s _ _ => by simp) d hd
    refine ⟨m', by rw [readSliceS, hlen]; exact q1, q2.congr hR.good (fun c hc => ?_)⟩
    rw [hL]
    exact over_slice φ _ t (by rw [← hL]; exact hc)

/-- In one dimension the multi-node functions stop the program for the first slice, unless each row is one site. -/
theorem C30_one_dimension (g : Geom) (xinc : Nat) (be grid : Bool) (M : Mem) (size nmemb : Nat) (lt : Nat) (hL : g.L = [lt]) (h2 : 1 < lt)
    (hv : lt < 2 ^ 31) (hx : 1 < xinc) (d : Dev) :
    ∃ start stop, setTimeSlice g.L 0 = ok (start, stop) ∧ writeSlice be g xinc grid M size nmemb start stop d = abort := by
  have := setTimeSlice_eq (pre := []) (lt := lt) (t := 0) (by simp) (by omega) (by simpa [nsites] using hv)
  refine ⟨_, _, by rw [hL]; exact this, ?_⟩
  simp only [nsites]
  rw [writeSlice, cmod_pos (by omega), ok_bind, if_pos]
  rw [Nat.mod_eq_of_lt (by omega)]; decide

/-! ## the hypotheses can be met -/

/-- every field has a representation in the memories of the nodes -/
theorem holds_exists (be : Bool) {g : Geom} (hg : g.Good) {size nmemb : Nat} {f : List Nat → List (List Byte)}
    (hf : IsField g.L size nmemb f) : ∃ M, Holds be g size nmemb M f := by
  let φ : Nat → Nat → List Byte := fun n i => match g.siteCoords n i with | ok c => mem be (f c) | _ => []
  have hlen : ∀ n i, n < g.nodes → i < g.sites → (φ n i).length = size * nmemb := by
    intro n i hn hi
    obtain ⟨c, h1, h2, -⟩ := hg.2 n i hn hi
    simp only [φ, h1]
    exact mem_field_length be hf h2
  have hpre : ∀ n j, n < g.nodes → j ≤ g.sites → ((List.range j).flatMap (φ n)).length = j * (size * nmemb) := by
    intro n j hn
    induction j with
    | zero => intro _; simp
    | succ j ih =>
      intro hj
      rw [List.range_succ, List.flatMap_append, List.length_append, ih (by omega), List.flatMap_singleton, hlen n j hn (by omega)]
      ring
  refine ⟨fun n => (List.range g.sites).flatMap (φ n), fun n hn => hpre n g.sites hn (by omega), ?_⟩
  intro n i c hn hi hc
  obtain ⟨y, hy⟩ : ∃ y, g.sites = i + 1 + y := ⟨g.sites - i - 1, by omega⟩
  have hk := hlen n i hn hi
  have hp := hpre n i hn (by omega)
  show (((List.range g.sites).flatMap (φ n)).drop (i * (size * nmemb))).take (size * nmemb) = mem be (f c)
  rw [hy, List.range_add, List.range_succ, List.flatMap_append, List.flatMap_append, List.flatMap_singleton, List.append_assoc, ← hp,
    List.drop_left, ← hk, List.take_left]
  simp only [φ, hc]

/-- a machine of 2 x 1 nodes, a lattice 4 x 2, two-colour ordering; rows of two sites -/
theorem ready_example : Ready (geomCB2 [4, 2] (lexMachine [2, 1]) [2, 2]) 2 :=
  ready_cb2 [4, 2] [2] 2 _ (lexMachine_good _) ⟨rfl, rfl, trivial⟩ rfl (by decide) (by decide) (by decide)

/-- a field of two 4-byte words per site: the coordinates of the site -/
def coordField (c : List Nat) : List (List Byte) :=
  [[0, 0, 0, BitVec.ofNat 8 (c.headD 0)], [0, 0, 0, BitVec.ofNat 8 (c.getLastD 0)]]

example : IsField [4, 2] 4 2 coordField := by
  intro c _
  exact ⟨rfl, by simp [coordField]⟩
example : Sendable (geomCB2 [4, 2] (lexMachine [2, 1]) [2, 2]) false (4 * 2 * 2) := ⟨by simp, by decide⟩
/-- the file begins with the records of the sites (0,0), (1,0), (2,0) -/
example : (fileBytes [4, 2] coordField).take 24 =
    [0, 0, 0, 0, 0, 0, 0, 0,  0, 0, 0, 1, 0, 0, 0, 0,  0, 0, 0, 2, 0, 0, 0, 0] := by decide
/-- the second time slice begins with the record of the site (0,1) -/
example : ((fileBytes [4, 2] coordField).drop (1 * 4 * 8)).take 8 = [0, 0, 0, 0, 0, 0, 0, 1] := by decide
/-- the odd sites, in lexicographic order: (1,0), (3,0), (0,1), (2,1) -/
example : subsetBytes [4, 2] coordField (fun c => decide (rbFunc c = 1)) =
    [0, 0, 0, 1, 0, 0, 0, 0,  0, 0, 0, 3, 0, 0, 0, 0,  0, 0, 0, 0, 0, 0, 0, 1,  0, 0, 0, 2, 0, 0, 0, 1] := by decide
/-- the hypotheses of `C27_short_rows`: rows of two one-byte elements on two nodes -/
example : 1 < (geomCB2 [4, 2] (lexMachine [2, 1]) [2, 2]).nodes ∧ 1 * 1 * 2 < 4 := by decide

end Verif.LatticeIO
