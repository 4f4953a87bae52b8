import Verif.LatticeIO
import Mathlib.Tactic.Ring
/-
Properties C27 (portable field files), C28 (reading on another geometry), C29 (subsets and single sites), C30 (time slices).
-/
namespace Verif.LatticeIO
open Verif Outcome ByteOrder Verif.Layout Verif.ParLayout Verif.Subset Verif.BinIO

/-! ## Lemmas -/

theorem foldO_snoc {σ α : Type} (f : σ → α → Outcome σ) (s : σ) (as : List α) (a : α) :
    foldO f s (as ++ [a]) = (foldO f s as >>= fun s => f s a) := by
  induction as generalizing s with
  | nil => simp only [List.nil_append, foldO, ok_bind]; cases f s a <;> rfl
  | cons b bs ih =>
    simp only [List.cons_append, foldO]
    cases f s b with
    | ok x => simp only [ok_bind, ih]
    | abort => rfl
    | ub => rfl

/-- a loop whose step keeps an invariant -/
theorem foldO_range {σ α : Type} {f : σ → α → Outcome σ} (I : Nat → σ → Prop) (h : Nat → α) {s : σ} (n : Nat) (h0 : I 0 s)
    (hs : ∀ i s, i < n → I i s → ∃ s', f s (h i) = ok s' ∧ I (i + 1) s') :
    ∃ s', foldO f s ((List.range n).map h) = ok s' ∧ I n s' := by
  induction n with
  | zero => exact ⟨s, rfl, h0⟩
  | succ n ih =>
    obtain ⟨s1, h1, h2⟩ := ih (fun i s hi => hs i s (by omega))
    obtain ⟨s2, h3, h4⟩ := hs n s1 (by omega) h2
    exact ⟨s2, by rw [List.range_succ, List.map_append, List.map_singleton, foldO_snoc, h1, ok_bind, h3], h4⟩

theorem foldO_range_id {σ : Type} {f : σ → Nat → Outcome σ} (I : Nat → σ → Prop) {s : σ} (n : Nat) (h0 : I 0 s)
    (hs : ∀ i s, i < n → I i s → ∃ s', f s i = ok s' ∧ I (i + 1) s') :
    ∃ s', foldO f s (List.range n) = ok s' ∧ I n s' := by
  have := foldO_range (f := f) I id n h0 hs
  rwa [List.map_id] at this

theorem strides_eq {start stop xinc nb : Nat} (hx : 0 < xinc) (h : stop - start = nb * xinc) :
    strides start stop xinc = ok ((List.range nb).map (fun k => start + k * xinc)) := by
  have : (stop - start + (xinc - 1)) / xinc = nb := by
    rw [h, Nat.mul_comm, Nat.mul_add_div hx, Nat.div_eq_of_lt (by omega), Nat.add_zero]
  rw [strides, if_neg (by omega), this]

theorem sliceO_of_le {m : List Byte} {off n : Nat} (h : off + n ≤ m.length) : sliceO m off n = ok ((m.drop off).take n) := if_pos h

/-- the `pre.length`-th of a sequence of records of equal length -/
theorem sliceO_mid (pre r post : List Byte) {off k : Nat} (h1 : pre.length = off) (h2 : r.length = k) :
    sliceO (pre ++ (r ++ post)) off k = ok r := by
  subst h1 h2
  rw [sliceO_of_le (by simp), List.drop_left, List.take_left]

theorem blitO_slice {m b : List Byte} {off n : Nat} (h : sliceO m off n = ok b) : blitO m off b = ok m := by
  unfold sliceO at h
  split at h
  · injection h with h
    subst h
    have hl : ((m.drop off).take n).length = n := by rw [List.length_take, List.length_drop]; omega
    rw [blitO, hl, if_pos (by omega), List.append_assoc]
    congr 1
    rw [← List.drop_drop, List.take_append_drop, List.take_append_drop]
  · exact absurd h (by simp)

theorem blit_other_lo {m bs : List Byte} {off j k : Nat} (h : off + bs.length ≤ m.length) (hj : j + k ≤ off) :
    ((m.take off ++ bs ++ m.drop (off + bs.length)).drop j).take k = (m.drop j).take k := by
  rw [List.append_assoc, List.drop_append_of_le_length (by rw [List.length_take]; omega),
    List.take_append_of_le_length (by rw [List.length_drop, List.length_take]; omega), List.drop_take, List.take_take]
  congr 1
  omega

theorem blit_other_hi {m bs : List Byte} {off j k : Nat} (h : off + bs.length ≤ m.length) (hj : off + bs.length ≤ j) :
    ((m.take off ++ bs ++ m.drop (off + bs.length)).drop j).take k = (m.drop j).take k := by
  have hl : (m.take off ++ bs).length = off + bs.length := by rw [List.length_append, List.length_take]; omega
  obtain ⟨x, rfl⟩ : ∃ x, j = off + bs.length + x := ⟨j - (off + bs.length), by omega⟩
  rw [← hl, List.drop_length_add_append, hl, List.drop_drop]

theorem blit_same {m bs : List Byte} {off : Nat} (h : off + bs.length ≤ m.length) :
    ((m.take off ++ bs ++ m.drop (off + bs.length)).drop off).take bs.length = bs := by
  have hl : (m.take off).length = off := by rw [List.length_take]; omega
  have : (m.take off ++ bs ++ m.drop (off + bs.length)).drop off = bs ++ m.drop (off + bs.length) := by
    rw [List.append_assoc]
    have e := List.drop_left (l₁ := m.take off) (l₂ := bs ++ m.drop (off + bs.length))
    rwa [hl] at e
  rw [this, List.take_left]

/-- `φ` changed to `ψ` where `P` -/
def over (φ ψ : List Nat → List Byte) (P : List Nat → Bool) : List Nat → List Byte := fun c => if P c then ψ c else φ c

theorem Cells.congr {g : Geom} (hg : g.Good) {k : Nat} {M : Mem} {φ φ' : List Nat → List Byte} (h : Cells g k M φ)
    (he : ∀ c, InRange c g.L → φ c = φ' c) : Cells g k M φ' := by
  refine ⟨h.1, fun n i c hn hi hc => ?_⟩
  obtain ⟨c', h1, h2, -⟩ := hg.2 n i hn hi
  rw [hc] at h1
  injection h1 with h1
  subst h1
  rw [h.2 n i c hn hi hc, he c h2]

theorem Cells.mem_congr {g : Geom} {k : Nat} {M M' : Mem} {φ : List Nat → List Byte} (h : Cells g k M φ)
    (he : ∀ n, n < g.nodes → M n = M' n) : Cells g k M' φ :=
  ⟨fun n hn => by rw [← he n hn]; exact h.1 n hn, fun n i c hn hi hc => by rw [← he n hn]; exact h.2 n i c hn hi hc⟩

/-- every memory of the right size holds something -/
theorem cells_exists {g : Geom} (hg : g.Good) (k : Nat) (M : Mem) (h : ∀ n, n < g.nodes → (M n).length = g.sites * k) :
    ∃ φ, Cells g k M φ := by
  refine ⟨fun c => match g.nodeNumber c, g.linearSiteIndex c with
    | ok n, ok i => ((M n).drop (i * k)).take k
    | _, _ => [], h, fun n i c hn hi hc => ?_⟩
  obtain ⟨c', h1, h2, h3, h4⟩ := hg.2 n i hn hi
  rw [hc] at h1
  injection h1 with h1
  subst h1
  simp [h3, h4]

theorem slot_le {i n k : Nat} (h : i < n) : i * k + k ≤ n * k := by
  have := Nat.mul_le_mul_right k (show i + 1 ≤ n from h)
  rwa [Nat.add_mul, Nat.one_mul] at this

theorem Cells.slice {g : Geom} {k : Nat} {M : Mem} {φ : List Nat → List Byte} (h : Cells g k M φ) {n i : Nat} {c : List Nat}
    (hn : n < g.nodes) (hi : i < g.sites) (hc : g.siteCoords n i = ok c) : sliceO (M n) (i * k) k = ok (φ c) := by
  rw [sliceO_of_le (by rw [h.1 n hn]; exact slot_le hi), h.2 n i c hn hi hc]

theorem Cells.blit {g : Geom} (hg : g.Good) {k : Nat} {M : Mem} {φ : List Nat → List Byte} (h : Cells g k M φ) {n i : Nat} {c : List Nat}
    (hn : n < g.nodes) (hi : i < g.sites) (hc : g.siteCoords n i = ok c) {bs : List Byte} (hb : bs.length = k) :
    ∃ m', blitO (M n) (i * k) bs = ok m' ∧ Cells g k (M.put n m') (fun c' => if c' = c then bs else φ c') := by
  have hle : i * k + bs.length ≤ (M n).length := by rw [h.1 n hn, hb]; exact slot_le hi
  refine ⟨_, if_pos hle, ?_, ?_⟩
  · intro x hx
    by_cases e : x = n
    · subst e
      simp only [Mem.put, if_true, List.length_append, List.length_take, List.length_drop]
      have := h.1 x hn
      omega
    · simp only [Mem.put, if_neg e]; exact h.1 x hx
  · intro x j c' hx hj hc'
    by_cases e : x = n
    · subst e
      simp only [Mem.put, if_true]
      rcases Nat.lt_trichotomy j i with hji | hji | hji
      · rw [blit_other_lo hle (by have := slot_le (k := k) hji; omega), h.2 x j c' hx hj hc', if_neg]
        rintro rfl
        obtain ⟨a, b, h1, h2, h3, h4, h5⟩ := hg.1 c' (by
          obtain ⟨c'', q1, q2, -⟩ := hg.2 x j hx hj
          rw [hc'] at q1; injection q1 with q1; rw [q1]; exact q2)
        obtain ⟨c1, q1, -, -, q4⟩ := hg.2 x j hx hj
        obtain ⟨c2, r1, -, -, r4⟩ := hg.2 x i hx hi
        rw [hc'] at q1; rw [hc] at r1
        injection q1 with q1; injection r1 with r1
        subst q1; subst r1
        rw [q4] at r4; injection r4 with r4
        omega
      · subst hji
        rw [hc] at hc'
        injection hc' with hc'
        subst hc'
        rw [if_pos rfl]
        have := blit_same hle
        rwa [hb] at this ⊢
      · rw [blit_other_hi hle (by have := slot_le (k := k) hji; omega), h.2 x j c' hx hj hc', if_neg]
        rintro rfl
        obtain ⟨c1, q1, -, -, q4⟩ := hg.2 x j hx hj
        obtain ⟨c2, r1, -, -, r4⟩ := hg.2 x i hx hi
        rw [hc'] at q1; rw [hc] at r1
        injection q1 with q1; injection r1 with r1
        subst q1; subst r1
        rw [q4] at r4; injection r4 with r4
        omega
    · simp only [Mem.put, if_neg e]
      rw [h.2 x j c' hx hj hc', if_neg]
      rintro rfl
      obtain ⟨c1, q1, -, q3, -⟩ := hg.2 x j hx hj
      obtain ⟨c2, r1, -, r3, -⟩ := hg.2 n i hn hi
      rw [hc'] at q1; rw [hc] at r1
      injection q1 with q1; injection r1 with r1
      subst q1; subst r1
      rw [q3] at r3; injection r3 with r3
      exact e r3

theorem Mem.put_put (M : Mem) (n : Nat) (m m' : List Byte) : (M.put n m).put n m' = M.put n m' := by
  funext x; simp only [Mem.put]; split <;> rfl
theorem Mem.put_self (M : Mem) (n : Nat) : M.put n (M n) = M := by
  funext x; simp only [Mem.put]; split
  · next h => rw [h]
  · rfl
theorem Mem.put_at (M : Mem) (n : Nat) (m : List Byte) : (M.put n m) n = m := by simp [Mem.put]

/-! ### words and records -/

/-- the words of the sites of rank `a`, …, `a+n-1` that satisfy `Q` -/
def words (L : List Nat) (f : List Nat → List (List Byte)) (Q : List Nat → Bool) (a n : Nat) : List (List Byte) :=
  ((List.range n).filter (fun i => Q (digits (a + i) L))).flatMap (fun i => f (digits (a + i) L))
/-- how many of them there are -/
def count (L : List Nat) (Q : List Nat → Bool) (a n : Nat) : Nat := ((List.range n).filter (fun i => Q (digits (a + i) L))).length

theorem words_zero (L : List Nat) (f : List Nat → List (List Byte)) (Q : List Nat → Bool) (a : Nat) : words L f Q a 0 = [] := rfl

theorem words_succ (L : List Nat) (f : List Nat → List (List Byte)) (Q : List Nat → Bool) (a n : Nat) :
    words L f Q a (n + 1) = words L f Q a n ++ (if Q (digits (a + n) L) then f (digits (a + n) L) else []) := by
  unfold words
  rw [List.range_succ, List.filter_append, List.flatMap_append]
  congr 1
  by_cases h : Q (digits (a + n) L) = true <;> simp [h]

theorem words_add (L : List Nat) (f : List Nat → List (List Byte)) (Q : List Nat → Bool) (a n m : Nat) :
    words L f Q a (n + m) = words L f Q a n ++ words L f Q (a + n) m := by
  induction m with
  | zero => simp [words_zero]
  | succ m ih => rw [← Nat.add_assoc, words_succ, ih, words_succ, List.append_assoc, Nat.add_assoc]

theorem count_succ (L : List Nat) (Q : List Nat → Bool) (a n : Nat) :
    count L Q a (n + 1) = count L Q a n + (if Q (digits (a + n) L) then 1 else 0) := by
  unfold count
  rw [List.range_succ, List.filter_append, List.length_append]
  congr 1
  by_cases h : Q (digits (a + n) L) = true <;> simp [h]

theorem count_le (L : List Nat) (Q : List Nat → Bool) (a n : Nat) : count L Q a n ≤ n := by
  have := List.length_filter_le (fun i => Q (digits (a + i) L)) (List.range n)
  rwa [List.length_range] at this

theorem count_true (L : List Nat) (a n : Nat) : count L (fun _ => true) a n = n := by
  induction n with
  | zero => rfl
  | succ n ih => rw [count_succ, ih]; rfl

theorem records_eq (L : List Nat) (f : List Nat → List (List Byte)) (Q : List Nat → Bool) (a n : Nat) :
    records L f Q a n = (words L f Q a n).flatten := by
  unfold records words
  generalize (List.range n).filter _ = xs
  induction xs with
  | nil => rfl
  | cons x xs ih => rw [List.flatMap_cons, List.flatMap_cons, List.flatten_append, ih]

theorem mem_append (be : Bool) (a b : List (List Byte)) : mem be (a ++ b) = mem be a ++ mem be b := by
  simp [mem]

section
variable {L : List Nat} {size nmemb : Nat} {f : List Nat → List (List Byte)}

theorem words_spec (hf : IsField L size nmemb f) (Q : List Nat → Bool) (a n : Nat) (h : a + n ≤ nsites L) :
    (words L f Q a n).length = nmemb * count L Q a n ∧ ∀ w ∈ words L f Q a n, w.length = size := by
  induction n with
  | zero => simp [words, count]
  | succ n ih =>
    obtain ⟨h1, h2⟩ := ih (by omega)
    have hr := hf _ (digits_inRange (L := L) (p := a + n) (by omega))
    rw [words_succ, count_succ]
    constructor
    · rw [List.length_append, h1, Nat.mul_add]
      congr 1
      split
      · rw [hr.1, Nat.mul_one]
      · rfl
    · intro w hw
      rw [List.mem_append] at hw
      rcases hw with hw | hw
      · exact h2 w hw
      · split at hw
        · exact hr.2 w hw
        · simp at hw

theorem mem_field_length (be : Bool) (hf : IsField L size nmemb f) {c : List Nat} (hc : InRange c L) :
    (mem be (f c)).length = size * nmemb := by
  rw [mem_length be _ (hf c hc).2, (hf c hc).1]

theorem mem_words_length (be : Bool) (hf : IsField L size nmemb f) (Q : List Nat → Bool) (a n : Nat) (h : a + n ≤ nsites L) :
    (mem be (words L f Q a n)).length = count L Q a n * (size * nmemb) := by
  have := words_spec hf Q a n h
  rw [mem_length be _ this.2, this.1]; ring
end

/-! ### the loops of the multi-node code -/

section
variable {g : Geom} {xinc : Nat}

theorem indexOf_eq (hR : Ready g xinc) {s : Nat} (hs : s < nsites g.L) :
    ∃ n l, g.nodeNumber (digits s g.L) = ok n ∧ n < g.nodes ∧ indexOf g s = ok l ∧ l < g.sites ∧ g.siteCoords n l = ok (digits s g.L) := by
  obtain ⟨n, l, h1, h2, h3, h4, h5⟩ := hR.good.1 _ (digits_inRange hs)
  refine ⟨n, l, h1, h2, ?_, h4, h5⟩
  rw [indexOf, crtesn_eq (pos_of_nsites_pos hR.pos), ok_bind, h3]

/-- the sites of a row are on the node of the first of them -/
theorem row_index (hR : Ready g xinc) {q i : Nat} (hi : i < xinc) (hs : q * xinc + i < nsites g.L) {n : Nat}
    (hn : g.nodeNumber (digits (q * xinc) g.L) = ok n) :
    n < g.nodes ∧ ∃ l, indexOf g (q * xinc + i) = ok l ∧ l < g.sites ∧ g.siteCoords n l = ok (digits (q * xinc + i) g.L) := by
  obtain ⟨n', l, h1, h2, h3, h4, h5⟩ := indexOf_eq hR hs
  rw [hR.row q i hi hs, hn] at h1
  injection h1 with h1
  subst h1
  exact ⟨h2, l, h3, h4, h5⟩

theorem gather_eq (hR : Ready g xinc) {be : Bool} {size nmemb : Nat} {f : List Nat → List (List Byte)} {M : Mem}
    (hM : Holds be g size nmemb M f) {q n : Nat} (hq : q * xinc + xinc ≤ nsites g.L)
    (hn : g.nodeNumber (digits (q * xinc) g.L) = ok n) :
    gather g (M n) (size * nmemb) (q * xinc) xinc = ok (mem be (words g.L f (fun _ => true) (q * xinc) xinc)) := by
  unfold gather
  rw [mapO_ok (h := fun i => mem be (f (digits (q * xinc + i) g.L)))]
  · rw [ok_bind, pure_def]
    congr 1
    suffices ∀ m, ((List.range m).map (fun i => mem be (f (digits (q * xinc + i) g.L)))).flatten =
        mem be (words g.L f (fun _ => true) (q * xinc) m) from this xinc
    intro m
    induction m with
    | zero => rfl
    | succ m ih =>
      rw [List.range_succ, List.map_append, List.flatten_append, ih, words_succ, mem_append]
      simp
  · intro i hi
    rw [List.mem_range] at hi
    obtain ⟨hn', l, h1, h2, h3⟩ := row_index hR hi (by omega) hn
    rw [h1, ok_bind, hM.slice hn' h2 h3]

/-- the conditions under which the messages are sent -/
def Sendable (g : Geom) (grid : Bool) (len : Nat) : Prop := (grid = true ∨ 4 ≤ len ∨ g.nodes = 1) ∧ len < 2 ^ 31

theorem clear_ok {g : Geom} {grid : Bool} {len n : Nat} (h : Sendable g grid len) (hn : n < g.nodes) : clearToSend grid len n = ok () := by
  unfold clearToSend
  rw [if_neg]
  rintro ⟨h1, h2, h3⟩
  rcases h.1 with h | h | h
  · simp [h] at h1
  · omega
  · omega

theorem handshake_ok {g : Geom} {grid : Bool} {len n : Nat} (h : Sendable g grid len) (hn : n < g.nodes) (old : Nat) :
    handshake grid len old n = ok () := by
  rw [handshake, clear_ok h hn, ite_self]

theorem route_ok {n len : Nat} (h : len < 2 ^ 31) : route n len = ok () := by
  unfold route; rw [if_neg (by omega)]

theorem supported_pos {size : Nat} (h : Supported size) : 0 < size := by unfold Supported at h; omega

theorem few {size a len : Nat} (hs : Supported size) (h : len < 2 ^ 31) (e : size * a ≤ len) : size = 1 ∨ a < 2 ^ 32 := by
  right
  have := Nat.le_mul_of_pos_left a (supported_pos hs)
  omega

theorem writeBlock_eq (hR : Ready g xinc) {be grid : Bool} {size nmemb : Nat} (hs : Supported size)
    {f : List Nat → List (List Byte)} (hf : IsField g.L size nmemb f) {M : Mem}
    (hM : Holds be g size nmemb M f) (hx : Sendable g grid (size * nmemb * xinc))
    {q : Nat} (hq : q * xinc + xinc ≤ nsites g.L) (st : Nat × Dev) :
    ∃ n, writeBlock be g xinc grid M size nmemb st (q * xinc) = ok (n, st.2.put (records g.L f (fun _ => true) (q * xinc) xinc)) := by
  obtain ⟨n, l, h1, h2, -⟩ := indexOf_eq hR (s := q * xinc) (by have := hR.xpos; omega)
  refine ⟨n, ?_⟩
  have hw := words_spec hf (fun _ => true) (q * xinc) xinc hq
  rw [count_true] at hw
  have hlen : size * (nmemb * xinc) = size * nmemb * xinc := by ring
  have e := writeArray_eq be hs _ hw.2 (by rw [hw.1]; exact few hs hx.2 (by omega)) [] st.2
  rw [List.append_nil, hw.1] at e
  unfold writeBlock
  rw [crtesn_eq (pos_of_nsites_pos hR.pos), ok_bind, h1, ok_bind, handshake_ok hx h2, ok_bind, gather_eq hR hM hq h1, ok_bind,
    route_ok hx.2, ok_bind, e, records_eq]
  rfl

theorem nb_exists (hR : Ready g xinc) : ∃ nb, nsites g.L = nb * xinc := by
  obtain ⟨l0, ls, h1, h2⟩ := hR.head
  have : xinc ∣ nsites g.L := by rw [h1, nsites]; exact Dvd.dvd.mul_right h2 _
  obtain ⟨nb, h⟩ := this
  exact ⟨nb, by rw [h, Nat.mul_comm]⟩

theorem row_bound {a b xinc V : Nat} (h : (a + b) * xinc ≤ V) {k : Nat} (hk : k < b) : (a + k) * xinc + xinc ≤ V := by
  have := Nat.mul_le_mul_right xinc (show a + k + 1 ≤ a + b by omega)
  rw [Nat.add_mul, Nat.one_mul] at this
  omega

theorem writeLoop_eq (hR : Ready g xinc) {be grid : Bool} {size nmemb : Nat} (hs : Supported size)
    {f : List Nat → List (List Byte)} (hf : IsField g.L size nmemb f) {M : Mem}
    (hM : Holds be g size nmemb M f) (hx : Sendable g grid (size * nmemb * xinc)) (a nb : Nat) (hq : (a + nb) * xinc ≤ nsites g.L)
    (d : Dev) : ∃ n, foldO (writeBlock be g xinc grid M size nmemb) (0, d) ((List.range nb).map (fun k => a * xinc + k * xinc)) =
      ok (n, d.put (records g.L f (fun _ => true) (a * xinc) (nb * xinc))) := by
  obtain ⟨s, h1, h2⟩ := foldO_range (f := writeBlock be g xinc grid M size nmemb) (s := (0, d))
    (fun i s => s.2 = d.put (records g.L f (fun _ => true) (a * xinc) (i * xinc))) (fun k => a * xinc + k * xinc) nb
    (by simp [records, put_nil]) (by
      intro i s hi hI
      obtain ⟨n, h⟩ := writeBlock_eq hR hs hf hM hx (q := a + i) (row_bound hq hi) s
      rw [Nat.add_mul] at h
      refine ⟨_, h, ?_⟩
      simp only
      rw [hI, put_put, records_eq, records_eq, records_eq, ← List.flatten_append, ← words_add, Nat.add_mul, Nat.one_mul])
  exact ⟨s.1, by rw [h1, ← h2]⟩

/-- the site `c` is of rank `a`, …, `a+n-1` and satisfies `Q` -/
def inR (L : List Nat) (Q : List Nat → Bool) (a n : Nat) (c : List Nat) : Bool := Q c && decide (a ≤ rank c L ∧ rank c L < a + n)

theorem over_congr (φ ψ : List Nat → List Byte) {P P' : List Nat → Bool} {c : List Nat} (h : P c = P' c) : over φ ψ P c = over φ ψ P' c := by
  rw [over, over, h]

theorem over_zero {L : List Nat} (φ ψ : List Nat → List Byte) (Q : List Nat → Bool) (a : Nat) (c : List Nat) :
    over φ ψ (inR L Q a 0) c = φ c := by
  rw [over, if_neg]
  simp only [inR, Bool.and_eq_true, decide_eq_true_eq]; omega

theorem over_hit {L : List Nat} (φ ψ : List Nat → List Byte) (Q : List Nat → Bool) {a i : Nat} (h : a + i < nsites L)
    (hQ : Q (digits (a + i) L) = true) {c : List Nat} (hc : InRange c L) :
    (if c = digits (a + i) L then ψ (digits (a + i) L) else over φ ψ (inR L Q a i) c) = over φ ψ (inR L Q a (i + 1)) c := by
  have hrk : rank c L = a + i ↔ c = digits (a + i) L := by
    constructor
    · intro h; rw [← h, digits_rank hc]
    · rintro rfl; exact rank_digits h
  by_cases e : c = digits (a + i) L
  · rw [if_pos e, over, if_pos, e]
    simp only [inR, Bool.and_eq_true, decide_eq_true_eq]
    have := hrk.2 e
    exact ⟨by rw [e]; exact hQ, by omega, by omega⟩
  · rw [if_neg e]
    have : rank c L ≠ a + i := fun h => e (hrk.1 h)
    apply over_congr
    have e1 : decide (a ≤ rank c L ∧ rank c L < a + i) = decide (a ≤ rank c L ∧ rank c L < a + (i + 1)) := by
      rw [decide_eq_decide]; omega
    rw [inR, inR, e1]

theorem over_miss {L : List Nat} (φ ψ : List Nat → List Byte) (Q : List Nat → Bool) {a i : Nat}
    (hQ : ¬ Q (digits (a + i) L) = true) {c : List Nat} (hc : InRange c L) :
    over φ ψ (inR L Q a i) c = over φ ψ (inR L Q a (i + 1)) c := by
  have e1 : inR L Q a i c = inR L Q a (i + 1) c := by
    simp only [inR]
    by_cases hq : Q c = true
    · have : rank c L ≠ a + i := by
        intro h; rw [← h, digits_rank hc] at hQ; exact hQ hq
      have e1 : decide (a ≤ rank c L ∧ rank c L < a + i) = decide (a ≤ rank c L ∧ rank c L < a + (i + 1)) := by
        rw [decide_eq_decide]; omega
      rw [e1]
    · simp [hq]
  rw [over, over, e1]

theorem over_add {L : List Nat} (φ ψ : List Nat → List Byte) (Q : List Nat → Bool) (a n m : Nat) (c : List Nat) :
    over (over φ ψ (inR L Q a n)) ψ (inR L Q (a + n) m) c = over φ ψ (inR L Q a (n + m)) c := by
  simp only [over, inR, Bool.and_eq_true, decide_eq_true_eq]
  by_cases hq : Q c = true
  · by_cases h1 : a ≤ rank c L ∧ rank c L < a + n
    · by_cases h2 : a + n ≤ rank c L ∧ rank c L < a + n + m
      · omega
      · rw [if_neg (by tauto), if_pos ⟨hq, h1⟩, if_pos ⟨hq, by omega⟩]
    · by_cases h2 : a + n ≤ rank c L ∧ rank c L < a + n + m
      · rw [if_pos ⟨hq, h2⟩, if_pos ⟨hq, by omega⟩]
      · rw [if_neg (by tauto), if_neg (by tauto), if_neg (fun h => by omega)]
  · rw [if_neg (by tauto), if_neg (by tauto), if_neg (by tauto)]

theorem words_slice {L : List Nat} {size nmemb : Nat} {f : List Nat → List (List Byte)} (be : Bool) (hf : IsField L size nmemb f)
    (Q : List Nat → Bool) {a x i : Nat} (hx : a + x ≤ nsites L) (hi : i < x) (hQ : Q (digits (a + i) L) = true) :
    sliceO (mem be (words L f Q a x)) (count L Q a i * (size * nmemb)) (size * nmemb) = ok (mem be (f (digits (a + i) L))) := by
  obtain ⟨y, rfl⟩ : ∃ y, x = i + (1 + y) := ⟨x - i - 1, by omega⟩
  have h1w : words L f Q (a + i) 1 = f (digits (a + i) L) := by
    rw [words_succ, words_zero, Nat.add_zero, if_pos hQ, List.nil_append]
  rw [words_add, words_add, mem_append, mem_append, h1w]
  exact sliceO_mid _ _ _ (mem_words_length be hf Q a i (by omega))
    (mem_field_length be hf (digits_inRange (by omega)))

theorem readBlock_eq (hR : Ready g xinc) {be : Bool} {size nmemb : Nat} (hs : Supported size)
    {f : List Nat → List (List Byte)} (hf : IsField g.L size nmemb f) (hx : size * nmemb * xinc < 2 ^ 31)
    {q : Nat} (hq : q * xinc + xinc ≤ nsites g.L) (st : Mem × Dev) {φ : List Nat → List Byte} (hM : Cells g (size * nmemb) st.1 φ)
    (hd : st.2.Sees (records g.L f (fun _ => true) (q * xinc) xinc)) :
    ∃ M', readBlock be g xinc size nmemb st (q * xinc) = ok (M', st.2.skip (records g.L f (fun _ => true) (q * xinc) xinc)) ∧
      Cells g (size * nmemb) M' (over φ (fun c => mem be (f c)) (inR g.L (fun _ => true) (q * xinc) xinc)) := by
  obtain ⟨n, l, h1, h2, -⟩ := indexOf_eq hR (s := q * xinc) (by have := hR.xpos; omega)
  have hw := words_spec hf (fun _ => true) (q * xinc) xinc hq
  rw [count_true] at hw
  have hlen : size * (nmemb * xinc) = size * nmemb * xinc := by ring
  rw [records_eq] at hd
  have e := readArray_eq be hs _ hw.2 (by rw [hw.1]; exact few hs hx (by omega)) st.2 hd
  rw [hw.1] at e
  obtain ⟨m, h3, h4⟩ := foldO_range_id
    (f := scatter g (size * nmemb) (q * xinc) (mem be (words g.L f (fun _ => true) (q * xinc) xinc))) (s := st.1 n)
    (fun i m => Cells g (size * nmemb) (st.1.put n m)
      (over φ (fun c => mem be (f c)) (inR g.L (fun _ => true) (q * xinc) i))) xinc
    (by rw [Mem.put_self]; exact hM.congr hR.good (fun c _ => (over_zero ..).symm))
    (by
      intro i m hi hI
      obtain ⟨hn', j, r1, r2, r3⟩ := row_index hR hi (by omega) h1
      have hb := mem_field_length be hf (digits_inRange (L := g.L) (p := q * xinc + i) (by omega))
      have hsl := words_slice be hf (fun _ => true) hq hi rfl
      rw [count_true] at hsl
      obtain ⟨m', b1, b2⟩ := hI.blit hR.good hn' r2 r3 hb
      rw [Mem.put_put] at b2
      rw [Mem.put_at] at b1
      refine ⟨m', ?_, b2.congr hR.good (fun c hc => over_hit φ (fun c => mem be (f c)) (fun _ => true) (by omega) rfl hc)⟩
      unfold scatter
      rw [r1, ok_bind, hsl, ok_bind, b1])
  refine ⟨st.1.put n m, ?_, h4⟩
  unfold readBlock
  rw [crtesn_eq (pos_of_nsites_pos hR.pos), ok_bind, h1, ok_bind, e, ok_bind, route_ok hx, ok_bind, h3, records_eq]
  rfl

theorem readLoop_eq (hR : Ready g xinc) {be : Bool} {size nmemb : Nat} (hs : Supported size)
    {f : List Nat → List (List Byte)} (hf : IsField g.L size nmemb f) (hx : size * nmemb * xinc < 2 ^ 31)
    (a nb : Nat) (hq : (a + nb) * xinc ≤ nsites g.L) (M : Mem) (d : Dev) {φ : List Nat → List Byte} (hM : Cells g (size * nmemb) M φ)
    (hd : d.Sees (records g.L f (fun _ => true) (a * xinc) (nb * xinc))) :
    ∃ M', foldO (readBlock be g xinc size nmemb) (M, d) ((List.range nb).map (fun k => a * xinc + k * xinc)) =
        ok (M', d.skip (records g.L f (fun _ => true) (a * xinc) (nb * xinc))) ∧
      Cells g (size * nmemb) M' (over φ (fun c => mem be (f c)) (inR g.L (fun _ => true) (a * xinc) (nb * xinc))) := by
  obtain ⟨s, h1, h2, h3⟩ := foldO_range (f := readBlock be g xinc size nmemb) (s := (M, d))
    (fun i s => s.2 = d.skip (records g.L f (fun _ => true) (a * xinc) (i * xinc)) ∧
      Cells g (size * nmemb) s.1 (over φ (fun c => mem be (f c)) (inR g.L (fun _ => true) (a * xinc) (i * xinc))))
    (fun k => a * xinc + k * xinc) nb
    ⟨by simp [records, skip_nil], by rw [Nat.zero_mul]; exact hM.congr hR.good (fun c _ => (over_zero ..).symm)⟩ (by
      intro i s hi hI
      have hsee : s.2.Sees (records g.L f (fun _ => true) ((a + i) * xinc) xinc) := by
        obtain ⟨j, rfl⟩ : ∃ j, nb = i + (1 + j) := ⟨nb - i - 1, by omega⟩
        rw [hI.1]
        rw [records_eq, show (i + (1 + j)) * xinc = i * xinc + (xinc + j * xinc) by ring, words_add, words_add,
          List.flatten_append, List.flatten_append] at hd
        have := Sees.left (Sees.right hd)
        rwa [← records_eq, ← records_eq, ← Nat.add_mul] at this
      obtain ⟨M', h, hc⟩ := readBlock_eq hR (be := be) hs hf hx (q := a + i) (row_bound hq hi) s hI.2 hsee
      rw [Nat.add_mul] at h
      refine ⟨_, h, ?_, ?_⟩
      · simp only
        rw [hI.1, skip_skip, records_eq, records_eq, records_eq, ← List.flatten_append, ← words_add, Nat.add_mul i, Nat.one_mul]
      · refine hc.congr hR.good (fun c _ => ?_)
        rw [Nat.add_mul, over_add, Nat.add_mul i, Nat.one_mul])
  exact ⟨s.1, by rw [h1, ← h2], h3⟩

/-! ### subsets -/

/-- the colour table of every node says which sites satisfy `Q` -/
def Coloured (g : Geom) (col : Nat → List Nat) (color : Nat) (Q : List Nat → Bool) : Prop :=
  ∀ n i c, n < g.nodes → i < g.sites → g.siteCoords n i = ok c → ∃ k, rd (col n) i = ok k ∧ (k = color ↔ Q c = true)

theorem gatherSub_eq (hR : Ready g xinc) {be : Bool} {size nmemb : Nat} {f : List Nat → List (List Byte)} {M : Mem}
    (hM : Holds be g size nmemb M f) {col : Nat → List Nat} {color : Nat} {Q : List Nat → Bool} (hC : Coloured g col color Q)
    {q n : Nat} (hq : q * xinc + xinc ≤ nsites g.L)
    (hn : g.nodeNumber (digits (q * xinc) g.L) = ok n) :
    foldO (gatherSub g (M n) (col n) color (size * nmemb) (q * xinc)) ([], 0) (List.range xinc) =
      ok (mem be (words g.L f Q (q * xinc) xinc), count g.L Q (q * xinc) xinc) := by
  obtain ⟨s, h1, h2⟩ := foldO_range_id (f := gatherSub g (M n) (col n) color (size * nmemb) (q * xinc)) (s := ([], 0))
    (fun i s => s = (mem be (words g.L f Q (q * xinc) i), count g.L Q (q * xinc) i)) xinc rfl (by
      intro i s hi hI
      obtain ⟨hn', l, r1, r2, r3⟩ := row_index hR hi (by omega) hn
      obtain ⟨k, k1, k2⟩ := hC n l _ hn' r2 r3
      refine ⟨_, ?_, rfl⟩
      unfold gatherSub
      rw [r1, ok_bind, k1, ok_bind, words_succ, count_succ, mem_append, hI]
      by_cases hk : k = color
      · rw [if_pos hk, hM.slice hn' r2 r3, if_pos (k2.1 hk), if_pos (k2.1 hk)]; rfl
      · rw [if_neg hk, if_neg (fun h => hk (k2.2 h)), if_neg (fun h => hk (k2.2 h))]; simp [mem])
  rw [h1, h2]

theorem countSub_eq (hR : Ready g xinc) {col : Nat → List Nat} {color : Nat} {Q : List Nat → Bool} (hC : Coloured g col color Q)
    {q n : Nat} (hq : q * xinc + xinc ≤ nsites g.L) (hn : g.nodeNumber (digits (q * xinc) g.L) = ok n) :
    foldO (countSub g (col n) color (q * xinc)) 0 (List.range xinc) = ok (count g.L Q (q * xinc) xinc) := by
  obtain ⟨s, h1, h2⟩ := foldO_range_id (f := countSub g (col n) color (q * xinc)) (s := 0)
    (fun i s => s = count g.L Q (q * xinc) i) xinc rfl (by
      intro i s hi hI
      obtain ⟨hn', l, r1, r2, r3⟩ := row_index hR hi (by omega) hn
      obtain ⟨k, k1, k2⟩ := hC n l _ hn' r2 r3
      refine ⟨_, ?_, rfl⟩
      unfold countSub
      rw [r1, ok_bind, k1, ok_bind, count_succ, hI]
      by_cases hk : k = color
      · rw [if_pos hk, if_pos (k2.1 hk)]; rfl
      · rw [if_neg hk, if_neg (fun h => hk (k2.2 h))]; rfl)
  rw [h1, h2]

theorem sub_size {L : List Nat} (size nmemb xinc a : Nat) (Q : List Nat → Bool) :
    size * nmemb * count L Q a xinc ≤ size * nmemb * xinc := Nat.mul_le_mul_left _ (count_le ..)

theorem writeSubBlock_eq (hR : Ready g xinc) {be grid : Bool} {size nmemb : Nat} (hs : Supported size)
    {f : List Nat → List (List Byte)} (hf : IsField g.L size nmemb f) {M : Mem}
    (hM : Holds be g size nmemb M f) {col : Nat → List Nat} {color : Nat} {Q : List Nat → Bool} (hC : Coloured g col color Q)
    (hx : Sendable g grid (size * nmemb * xinc))
    {q : Nat} (hq : q * xinc + xinc ≤ nsites g.L) (st : Nat × Dev) :
    ∃ n, writeSubBlock be g xinc grid M col color size nmemb st (q * xinc) = ok (n, st.2.put (records g.L f Q (q * xinc) xinc)) := by
  obtain ⟨n, l, h1, h2, -⟩ := indexOf_eq hR (s := q * xinc) (by have := hR.xpos; omega)
  refine ⟨n, ?_⟩
  have hw := words_spec hf Q (q * xinc) xinc hq
  have hle := sub_size (L := g.L) size nmemb xinc (q * xinc) Q
  have hx2 := hx.2
  have e := writeArray_eq be hs _ hw.2 (by
    rw [hw.1]; exact few hs hx.2 (by rw [← Nat.mul_assoc]; exact hle)) [] st.2
  rw [List.append_nil, hw.1] at e
  unfold writeSubBlock
  rw [crtesn_eq (pos_of_nsites_pos hR.pos), ok_bind, h1, ok_bind, handshake_ok hx h2, ok_bind, gatherSub_eq hR hM hC hq h1, ok_bind,
    route_ok (Nat.lt_of_le_of_lt hle hx2), ok_bind, e, records_eq]
  rfl

theorem readSubBlock_eq (hR : Ready g xinc) {be : Bool} {size nmemb : Nat} (hs : Supported size)
    {f : List Nat → List (List Byte)} (hf : IsField g.L size nmemb f) (hx : size * nmemb * xinc < 2 ^ 31)
    {col : Nat → List Nat} {color : Nat} {Q : List Nat → Bool} (hC : Coloured g col color Q)
    {q : Nat} (hq : q * xinc + xinc ≤ nsites g.L) (st : Mem × Dev) {φ : List Nat → List Byte} (hM : Cells g (size * nmemb) st.1 φ)
    (hd : st.2.Sees (records g.L f Q (q * xinc) xinc)) :
    ∃ M', readSubBlock be g xinc col color size nmemb st (q * xinc) = ok (M', st.2.skip (records g.L f Q (q * xinc) xinc)) ∧
      Cells g (size * nmemb) M' (over φ (fun c => mem be (f c)) (inR g.L Q (q * xinc) xinc)) := by
  obtain ⟨n, l, h1, h2, -⟩ := indexOf_eq hR (s := q * xinc) (by have := hR.xpos; omega)
  have hw := words_spec hf Q (q * xinc) xinc hq
  have hle := sub_size (L := g.L) size nmemb xinc (q * xinc) Q
  rw [records_eq] at hd
  have e := readArray_eq be hs _ hw.2 (by rw [hw.1]; exact few hs hx (by rw [← Nat.mul_assoc]; exact hle)) st.2 hd
  rw [hw.1] at e
  obtain ⟨m, h3, h4, h5⟩ := foldO_range_id
    (f := scatterSub g (col n) color (size * nmemb) (q * xinc) (mem be (words g.L f Q (q * xinc) xinc))) (s := (st.1 n, 0))
    (fun i m => m.2 = count g.L Q (q * xinc) i ∧ Cells g (size * nmemb) (st.1.put n m.1)
      (over φ (fun c => mem be (f c)) (inR g.L Q (q * xinc) i))) xinc
    ⟨rfl, by rw [Mem.put_self]; exact hM.congr hR.good (fun c _ => (over_zero ..).symm)⟩
    (by
      intro i m hi hI
      obtain ⟨hn', j, r1, r2, r3⟩ := row_index hR hi (by omega) h1
      obtain ⟨k, k1, k2⟩ := hC n j _ hn' r2 r3
      unfold scatterSub
      rw [r1, ok_bind, k1, ok_bind]
      by_cases hk : k = color
      · have hb := mem_field_length be hf (digits_inRange (L := g.L) (p := q * xinc + i) (by omega))
        have hsl := words_slice be hf Q hq hi (k2.1 hk)
        obtain ⟨m', b1, b2⟩ := hI.2.blit hR.good hn' r2 r3 hb
        rw [Mem.put_put] at b2
        rw [Mem.put_at] at b1
        refine ⟨(m', m.2 + 1), ?_, ?_,
          b2.congr hR.good (fun c hc => over_hit φ (fun c => mem be (f c)) Q (by omega) (k2.1 hk) hc)⟩
        · rw [if_pos hk, hI.1, hsl, ok_bind, b1]; rfl
        · simp only; rw [count_succ, if_pos (k2.1 hk), hI.1]
      · have hnq : ¬ Q (digits (q * xinc + i) g.L) = true := fun h => hk (k2.2 h)
        exact ⟨m, by rw [if_neg hk]; rfl, by rw [count_succ, if_neg hnq, hI.1, Nat.add_zero],
          hI.2.congr hR.good (fun c hc => over_miss φ _ Q hnq hc)⟩)
  refine ⟨st.1.put n m.1, ?_, h5⟩
  unfold readSubBlock
  rw [crtesn_eq (pos_of_nsites_pos hR.pos), ok_bind, h1, ok_bind, countSub_eq hR hC hq h1, ok_bind, e, ok_bind,
    route_ok (by omega), ok_bind, h3, records_eq]
  rfl

theorem writeSubLoop_eq (hR : Ready g xinc) {be grid : Bool} {size nmemb : Nat} (hs : Supported size)
    {f : List Nat → List (List Byte)} (hf : IsField g.L size nmemb f) {M : Mem}
    (hM : Holds be g size nmemb M f) {col : Nat → List Nat} {color : Nat} {Q : List Nat → Bool} (hC : Coloured g col color Q)
    (hx : Sendable g grid (size * nmemb * xinc)) (d : Dev) :
    writeSub be g xinc grid M col color size nmemb d = ok (d.put (records g.L f Q 0 (nsites g.L))) := by
  obtain ⟨nb, hnb⟩ := nb_exists hR
  obtain ⟨s, h1, h2⟩ := foldO_range (f := writeSubBlock be g xinc grid M col color size nmemb) (s := (0, d))
    (fun i s => s.2 = d.put (records g.L f Q 0 (i * xinc))) (fun k => 0 + k * xinc) nb
    (by simp [records, put_nil]) (by
      intro i s hi hI
      rw [Nat.zero_add]
      obtain ⟨n, h⟩ := writeSubBlock_eq hR hs hf hM hC hx (q := i)
        (by have := row_bound (a := 0) (b := nb) (xinc := xinc) (V := nsites g.L) (by rw [Nat.zero_add]; omega) hi; rwa [Nat.zero_add] at this) s
      refine ⟨_, h, ?_⟩
      simp only
      rw [hI, put_put, records_eq, records_eq, records_eq, ← List.flatten_append, Nat.add_mul, Nat.one_mul, words_add, Nat.zero_add])
  rw [writeSub, strides_eq hR.xpos (nb := nb) (by omega), ok_bind, h1, ok_bind, pure_def, h2, hnb]

theorem readSubLoop_eq (hR : Ready g xinc) {be : Bool} {size nmemb : Nat} (hs : Supported size)
    {f : List Nat → List (List Byte)} (hf : IsField g.L size nmemb f) (hx : size * nmemb * xinc < 2 ^ 31)
    {col : Nat → List Nat} {color : Nat} {Q : List Nat → Bool} (hC : Coloured g col color Q)
    (M : Mem) (d : Dev) {φ : List Nat → List Byte} (hM : Cells g (size * nmemb) M φ)
    (hd : d.Sees (records g.L f Q 0 (nsites g.L))) :
    ∃ M', readSub be g xinc M col color size nmemb d = ok (M', d.skip (records g.L f Q 0 (nsites g.L))) ∧
      Cells g (size * nmemb) M' (over φ (fun c => mem be (f c)) Q) := by
  obtain ⟨nb, hnb⟩ := nb_exists hR
  obtain ⟨s, h1, h2, h3⟩ := foldO_range (f := readSubBlock be g xinc col color size nmemb) (s := (M, d))
    (fun i s => s.2 = d.skip (records g.L f Q 0 (i * xinc)) ∧
      Cells g (size * nmemb) s.1 (over φ (fun c => mem be (f c)) (inR g.L Q 0 (i * xinc))))
    (fun k => 0 + k * xinc) nb
    ⟨by simp [records, skip_nil], by rw [Nat.zero_mul]; exact hM.congr hR.good (fun c _ => (over_zero ..).symm)⟩ (by
      intro i s hi hI
      rw [Nat.zero_add]
      have hsee : s.2.Sees (records g.L f Q (i * xinc) xinc) := by
        obtain ⟨j, rfl⟩ : ∃ j, nb = i + (1 + j) := ⟨nb - i - 1, by omega⟩
        rw [hI.1]
        rw [records_eq, hnb, show (i + (1 + j)) * xinc = i * xinc + (xinc + j * xinc) by ring, words_add, words_add,
          List.flatten_append, List.flatten_append] at hd
        have := Sees.left (Sees.right hd)
        rwa [← records_eq, ← records_eq, Nat.zero_add] at this
      obtain ⟨M', h, hc⟩ := readSubBlock_eq hR (be := be) hs hf hx hC (q := i)
        (by have := row_bound (a := 0) (b := nb) (xinc := xinc) (V := nsites g.L) (by rw [Nat.zero_add]; omega) hi; rwa [Nat.zero_add] at this)
        s hI.2 hsee
      refine ⟨_, h, ?_, ?_⟩
      · simp only
        rw [hI.1, skip_skip, records_eq, records_eq, records_eq, ← List.flatten_append, Nat.add_mul, Nat.one_mul, words_add, Nat.zero_add]
      · refine hc.congr hR.good (fun c _ => ?_)
        have := over_add (L := g.L) φ (fun c => mem be (f c)) Q 0 (i * xinc) xinc c
        rw [Nat.zero_add] at this
        rw [this, Nat.add_mul i, Nat.one_mul])
  refine ⟨s.1, ?_, h3.congr hR.good (fun c hc => ?_)⟩
  · rw [readSub, strides_eq hR.xpos (nb := nb) (by omega), ok_bind, h1, hnb, ← h2]
  · have := rank_lt hc
    apply over_congr
    have e : decide (0 ≤ rank c g.L ∧ rank c g.L < 0 + nb * xinc) = true := by
      rw [decide_eq_true_eq]; omega
    rw [inR, e, Bool.and_true]

end

end Verif.LatticeIO
