import Verif.Hdf5Props
/-
Property C77, continued: reading in the order of the file, and what is wrong with fields in HDF5 files.
-/
namespace Verif.Hdf5
open Verif Outcome ByteOrder Verif.Layout Verif.ParLayout Verif.Subset Verif.BinIO Verif.LatticeIO Verif.QioField

/-! ## the order of the file -/

/-- the data set has the extents of the lattice, first coordinate first -/
structure StoredM (L : List Nat) (K : Kind) (w obj : Nat) (F : List Nat → List (List Byte)) (D : Dset) : Prop where
  kind : D.kind = K
  float : D.float = true
  word : D.w = w
  dims : D.dims = L ++ more obj obj
  data : ∀ c, InRange c L → ∀ j, j < obj → D.data (c ++ more obj j) = ((F c).drop (j * K.n)).take K.n

theorem pos_more' {c L : List Nat} (h : c.length = L.length) {obj j : Nat} (hj : j < obj) : pos (c ++ more obj j) (L ++ more obj obj) = pos c L * obj + j := by
  unfold more
  by_cases ho : obj > 1
  · rw [if_pos ho, if_pos ho, pos_append h]
  · have hj0 : j = 0 := by omega
    have h1 : obj = 1 := by omega
    rw [if_neg ho, if_neg ho, List.append_nil, List.append_nil, hj0, h1]
    omega

theorem nsites_more' {L : List Nat} {obj : Nat} (ho : 0 < obj) : nsites (L ++ more obj obj) = nsites L * obj := by
  have := nsites_more (L := L.reverse) ho
  rwa [List.reverse_reverse, nsites_reverse] at this

theorem fits_more' {a b c : List Nat} (h1 : a.length = c.length) (h2 : b.length = c.length) (obj : Nat) :
    fits (a ++ more obj 0) (b ++ more obj obj) (c ++ more obj obj) = fits a b c := by
  unfold more
  split
  · rw [fits_append h1 h2]; simp
  · simp only [List.append_nil]

theorem addL_more {a b : List Nat} (h : a.length = b.length) (obj j : Nat) : addL (a ++ more obj 0) (b ++ more obj j) = addL a b ++ more obj j := by
  rw [addL, addL, List.zipWith_append h]
  unfold more
  split <;> simp

theorem head_more {S xs : List Nat} (h : S ≠ []) : ∃ d ds, S ++ xs = d :: ds ∧ S.head h = d := by
  cases S with
  | nil => exact absurd rfl h
  | cons s S => exact ⟨s, S ++ xs, rfl, rfl⟩

theorem sites_pos_unpos : ∀ {S : List Nat} {k : Nat}, k < nsites S → pos (unpos k S) S = k
  | [], k, h => by simp [nsites] at h; simp [unpos, pos, h]
  | s :: S, k, h => by
    simp only [nsites] at h
    have h0 : 0 < nsites S := by
      rcases Nat.eq_zero_or_pos (nsites S) with e | e
      · rw [e] at h; omega
      · exact e
    rw [unpos, pos, sites_pos_unpos (Nat.mod_lt _ h0), Nat.mul_comm]
    exact Nat.div_add_mod k _

theorem mapO_eq {α β : Type} {f : α → Outcome β} {g : α → β} : ∀ {xs : List α}, (∀ x ∈ xs, f x = ok (g x)) → mapO f xs = ok (xs.map g)
  | [], _ => rfl
  | x :: xs, h => by
    rw [mapO, h x (by simp), ok_bind, mapO_eq fun y hy => h y (by simp [hy])]
    rfl

/-- the local transposition puts the sites in the order of the block, first coordinate fastest -/
theorem transpose_ok {S : List Nat} (h4 : S.length = 4) {b : Nat} {G : List Nat → List Byte} (hG : ∀ c, InRange c S → (G c).length = b) :
    transpose S b ((List.range (nsites S)).flatMap fun k => G (unpos k S)) = ok ((List.range (nsites S)).flatMap fun r => G (digits r S)) := by
  obtain ⟨s0, s1, s2, s3, rfl⟩ : ∃ s0 s1 s2 s3, S = [s0, s1, s2, s3] := by
    match S, h4 with
    | [a, b, c, d], _ => exact ⟨a, b, c, d, rfl⟩
  have hns : nsites [s0, s1, s2, s3] = s0 * (s1 * (s2 * s3)) := by simp [nsites]
  have key : ∀ k ∈ List.range (s0 * (s1 * (s2 * s3))),
      sliceO ((List.range (nsites [s0, s1, s2, s3])).flatMap fun k => G (unpos k [s0, s1, s2, s3]))
        (b * (k / s0 / s1 / s2 + s3 * (k / s0 / s1 % s2 + s2 * (k / s0 % s1 + s1 * (k % s0))))) b = ok (G (digits k [s0, s1, s2, s3])) := by
    intro k hk
    have hk := List.mem_range.1 hk
    rw [← hns] at hk
    have hd := digits_inRange (L := [s0, s1, s2, s3]) hk
    have ht : k / s0 / s1 / s2 < s3 := by
      rw [hns] at hk
      apply Nat.div_lt_of_lt_mul
      apply Nat.div_lt_of_lt_mul
      apply Nat.div_lt_of_lt_mul
      exact hk
    have hp : pos (digits k [s0, s1, s2, s3]) [s0, s1, s2, s3] = k / s0 / s1 / s2 + s3 * (k / s0 / s1 % s2 + s2 * (k / s0 % s1 + s1 * (k % s0))) := by
      simp only [digits, pos, nsites, Nat.mod_eq_of_lt ht]
      ring
    have hlt := pos_lt hd
    have hlen : ∀ q, q < nsites [s0, s1, s2, s3] → (G (unpos q [s0, s1, s2, s3])).length = b := fun q hq => hG _ (unpos_inRange hq)
    have htot : ((List.range (nsites [s0, s1, s2, s3])).flatMap fun k => G (unpos k [s0, s1, s2, s3])).length = nsites [s0, s1, s2, s3] * b := by
      rw [List.length_flatMap, List.map_congr_left (g := fun _ => b) fun q hq => hlen q (List.mem_range.1 hq)]
      simp
    rw [← hp, Nat.mul_comm b, sliceO_of_le (by rw [htot]; exact slot_le hlt)]
    have := chunk (fun k => G (unpos k [s0, s1, s2, s3])) hlen hlt (x := 0) (y := b) (by omega)
    rw [Nat.add_zero, List.drop_zero] at this
    rw [this, unpos_pos hd, List.take_of_length_le (by rw [hG _ hd])]
  simp only [transpose]
  rw [mapO_eq key, ok_bind, hns]
  rfl

theorem readLattice_maintain {be : Bool} {l : Lay} (h : l.Good) (h4 : l.g.L.length = 4) {K : Kind} {w obj : Nat} (ho : 0 < obj) (hw : w = 4 ∨ w = 8) {F : List Nat → List (List Byte)}
    (hF : IsF l.g.L w (obj * K.n) F) {D : Dset} (hD : StoredM l.g.L K w obj F D) (he : EvenSplit w (l.g.sites * obj * K.n) (l.S.head h.ne)) (J : Nat → Byte)
    {n : Nat} (hn : n < l.g.nodes) {tot : Nat} (ht : tot = l.g.sites * obj * K.n) :
    readLattice be l D w true obj tot false J n = ok (mem be (blockWords l n F)) := by
  have hp := h.coord hn
  have hpl : (mulL (l.m.coordFrom n) l.S).length = l.S.length := by
    rw [mulL, List.length_zipWith, hp.length_eq, h.len.1, Nat.min_self]
  have hne : mulL (l.m.coordFrom n) l.S ≠ [] := by
    intro e
    rw [e] at hpl
    exact h.ne (List.length_eq_zero_iff.1 hpl.symm)
  obtain ⟨d, ds, e1, e2⟩ := head_more (xs := more obj obj) h.ne
  obtain ⟨o, os, e3, -⟩ := head_more (xs := more obj 0) hne
  have hml : ∀ x y, (more obj x).length = (more obj y).length := fun x y => by unfold more; split <;> rfl
  have hfit : fits (o :: os) (d :: ds) D.dims = true := by
    rw [← e1, ← e3, hD.dims, fits_more' (by rw [hpl, h.len.2]) (by rw [h.len.2])]
    exact fits_cut h.cut hp
  have hlo : (o :: os).length = D.dims.length := by
    rw [← e3, hD.dims, List.length_append, List.length_append, hpl, h.len.2, hml]
  have hlc : (d :: ds).length = D.dims.length := by
    rw [← e1, hD.dims, List.length_append, List.length_append, h.len.2]
  have hns : nsites (d :: ds) = l.g.sites * obj := by rw [← e1, nsites_more' ho, h.sites]
  let G : List Nat → List (List Byte) := fun x => F (addL (mulL (l.m.coordFrom n) l.S) x)
  have hGr : ∀ x, InRange x l.S → InRange (addL (mulL (l.m.coordFrom n) l.S) x) l.g.L := fun x hx => inRange_block h.cut hp hx
  have hraw : ∀ q j, q < l.g.sites → j < obj → raw D (o :: os) (d :: ds) (q * obj + j) = ((G (unpos q l.S)).drop (j * K.n)).take K.n := by
    intro q j hq hj
    rw [h.sites] at hq
    have hu := unpos_inRange hq
    have hpm := pos_more' hu.length_eq hj
    rw [sites_pos_unpos hq] at hpm
    rw [raw, ← e1, ← e3, ← hpm, unpos_pos (inRange_more hu hj), addL_more (by rw [hpl, hu.length_eq])]
    exact hD.data _ (hGr _ hu) j hj
  have hG : ∀ k, k < nsites (d :: ds) → (raw D (o :: os) (d :: ds) k).length = K.n ∧ ∀ v ∈ raw D (o :: os) (d :: ds) k, v.length = w := by
    intro k hk
    have hj : k % obj < obj := Nat.mod_lt _ ho
    have hr : k / obj < l.g.sites := Nat.div_lt_of_lt_mul (by rw [Nat.mul_comm, ← hns]; exact hk)
    have hk' : k = k / obj * obj + k % obj := by rw [Nat.mul_comm]; exact (Nat.div_add_mod k obj).symm
    obtain ⟨f1, f2⟩ := hF _ (hGr _ (unpos_inRange (by rw [← h.sites]; exact hr)))
    rw [hk', hraw _ _ hr hj]
    refine ⟨?_, fun v hv => f2 v (List.mem_of_mem_drop (List.mem_of_mem_take hv))⟩
    have := slot_le (k := K.n) hj
    rw [List.length_take, List.length_drop, f1]
    omega
  rw [readLattice_core hw (by simpa using e3) (by simpa using e1) hlo hlc hfit hG (by rw [hns]; exact ht) (by rw [ht, ← e2]; exact he)]
  have hsp : 0 < l.g.sites := by rw [h.sites]; exact nsites_pos h.pos
  have hcd : cdiv tot l.g.sites = ok (obj * K.n) := by rw [cdiv_pos hsp, ht, Nat.mul_assoc, Nat.mul_div_cancel_left _ hsp]
  have hwords : (List.range (nsites (d :: ds))).flatMap (raw D (o :: os) (d :: ds)) = (List.range (nsites l.S)).flatMap fun k => G (unpos k l.S) := by
    rw [hns, flatMap_range_mul, h.sites]
    refine List.flatMap_congr fun r hr => ?_
    have hr := List.mem_range.1 hr
    conv_rhs => rw [← pieces K.n obj (G (unpos r l.S)) (hF _ (hGr _ (unpos_inRange hr))).1]
    exact List.flatMap_congr fun j hj => hraw r j (by rw [h.sites]; exact hr) (List.mem_range.1 hj)
  rw [if_neg (by decide), hcd, ok_bind, hwords, mem_flatMap,
    transpose_ok (by rw [← h.len.2, h4]) (G := fun x => mem be (G x)) (fun c hc => by
      obtain ⟨f1, f2⟩ := hF _ (hGr c hc)
      rw [mem_length be _ f2, f1, Nat.mul_comm]), ← mem_flatMap, blockWords, h.sites]
  rfl

/-- **C77**, reading a field stored with the first coordinate first, four dimensions. -/
theorem C77_maintain {cv : Word → Word → List Byte → List Byte} (hcv : Conv cv) (be : Bool) {l : Lay} (h : l.Good) (h4 : l.g.L.length = 4) (T : Ty) (hT : 1 < T.n) {w : Nat}
    (hw : w = 4 ∨ w = 8) {f : List Nat → List (List Byte)} (hf : IsField l.g.L w T.n f) {D : Dset} (hD : StoredM l.g.L .real w T.n f D)
    (he : EvenSplit w (l.g.sites * T.n) (l.S.head h.ne)) (J : Nat → Byte) (n : Nat) (hn : n < l.g.nodes) (m : List Byte) (hm : m.length = l.g.sites * T.size) :
    ∃ m', read cv be l T false J D n m = ok [m'] ∧ NodeHolds be l.g T n m' fun c => (f c).map (conv cv w T.w) := by
  have hel := elem_real hD.kind hD.word
  have em : more T.n T.n = [T.n] := if_pos hT
  have d1 : D.dims.length = l.g.L.length + 1 := by rw [hD.dims, em]; simp
  have d2 : rd D.dims l.g.L.length = ok T.n := by
    have : (l.g.L ++ [T.n])[l.g.L.length]? = some T.n := by simp
    rw [hD.dims, em]
    simp [rd]
  have d3 : mismatch l D false = false := by
    have : D.dims.take l.g.L.length = l.g.L := by rw [hD.dims, List.take_left]
    simp [mismatch, this]
  have hr := readLattice_maintain (be := be) h h4 (K := .real) (w := w) (obj := T.n) (by omega) hw (F := f) (by rw [show T.n * Kind.n .real = T.n from Nat.mul_one _]; exact hf) hD
    (by rw [show l.g.sites * T.n * Kind.n .real = l.g.sites * T.n from Nat.mul_one _]; exact he) J hn (tot := T.n * l.g.sites) (by simp [Kind.n, Nat.mul_comm])
  obtain ⟨ms', s1, s2⟩ := store_ok hcv (be := be) h (T := T) hw hn (ms := [m]) (fs := [f]) (by simpa using hf) (by simpa using hm) rfl (tot := T.n * l.g.sites) (by simp [Nat.mul_comm])
  rw [arrWords_one] at s1
  rw [read, hel, if_neg (by omega), if_neg (by omega), if_neg (by rw [d3]; decide), d2, ok_bind]
  simp only [hD.kind, hD.float]
  rw [show (decide True && true) = true from rfl, hr, ok_bind, s1]
  cases s2 with
  | cons a b =>
    cases b
    exact ⟨_, rfl, a⟩

/-! ## fields that cannot be read back -/

/-- **C77** fails: a field with one number at a site is written, and no reader of fields accepts it. -/
theorem C77_one_number_fails (be : Bool) {l : Lay} (h : l.Good) (T : Ty) (hw : T.w.Float) (hT : T.n = 1) {M : Mem} {f : List Nat → List (List Byte)} (hf : IsT l.g.L T f)
    (hM : HoldsT be l.g T M f) (he : EvenSplit T.w.size (T.w.size * l.g.sites) (l.S.getLast h.ne)) :
    ∃ D, write T.w.size be l T [M] = ok D ∧ ∀ cv be' (l' : Lay) U invert J n m, l'.g.L.length = l.g.L.length →
      read cv be' l' U invert J D n m = abort ∧ readArr cv be' l' U invert J D n = abort := by
  obtain ⟨D, h1, h2⟩ := C77_write_partial be h T hw (Ms := [M]) (fs := [f]) (by simpa using hf) (.cons hM .nil) (by simp [hT]) (by simpa [hT] using he)
  refine ⟨D, h1, fun cv be' l' U invert J n m hL => ?_⟩
  have hd : D.dims.length ≠ l'.g.L.length + 1 := by
    rw [h2.dims, hL]
    simp [more, hT]
  constructor
  · rw [read, if_pos hd]; split <;> rfl
  · rw [readArr, if_pos hd]; split <;> rfl

/-- **C77** fails: colour matrices in single precision have a writer of their own and no reader of their own; the reader for all types refuses them. -/
theorem C77_single_matrix_fails (real : Nat) (be : Bool) {l : Lay} (h : l.Good) {M : Mem} {f : List Nat → List (List Byte)} (hf : IsT l.g.L ⟨.f32, 18⟩ f)
    (hM : HoldsT be l.g ⟨.f32, 18⟩ M f) (he : EvenSplit real (72 * l.g.sites) (l.S.getLast h.ne)) :
    ∃ D, writeTyped real be l (.colmat 3) .f32 [M] = ok D ∧ ∀ cv be' l' U invert J n m, read cv be' l' U invert J D n m = abort := by
  obtain ⟨D, h1, h2⟩ := C77_write_typed real be h (.colmat 3) .f32 (Ms := [M]) (fs := [f]) (by simp only [List.mem_singleton, forall_eq]; exact hf) (.cons hM .nil) (by simp) (by simpa [Kind.n, Word.size] using he)
  refine ⟨D, h1, fun cv be' l' U invert J n m => ?_⟩
  have : D.elem = 72 := by rw [Dset.elem, h2.kind, h2.word]; rfl
  rw [read, this, if_pos (by omega)]

/-- **C77** fails: an array of one field of matrices is written without the extent of the array; reading it as an array looks for that extent. -/
theorem C77_array_of_one_fails (real : Nat) (be : Bool) {l : Lay} (h : l.Good) (K : Kind) (w : Word) {M : Mem} {f : List Nat → List (List Byte)}
    (hf : IsT l.g.L ⟨w, K.n⟩ f) (hM : HoldsT be l.g ⟨w, K.n⟩ M f) (he : EvenSplit real (w.size * K.n * l.g.sites) (l.S.getLast h.ne)) :
    ∃ D, writeTyped real be l K w [M] = ok D ∧ ∀ cv be' (l' : Lay) b invert J n, l'.g.L.length = l.g.L.length → readTypedArr cv be' l' K b invert J D n = ub := by
  obtain ⟨D, h1, h2⟩ := C77_write_typed real be h K w (Ms := [M]) (fs := [f]) (by simpa using hf) (.cons hM .nil) (by simp) (by simpa using he)
  refine ⟨D, h1, fun cv be' l' b invert J n hL => ?_⟩
  have : rd D.dims l'.g.L.length = ub := by
    have : D.dims[l'.g.L.length]? = none := List.getElem?_eq_none (by rw [h2.dims, hL]; simp [more])
    simp [rd, this]
  rw [readTypedArr, this]
  rfl

theorem siteToHost_none {size i : Nat} : ∀ {ms : List (List Byte)}, (∀ m ∈ ms, i * size ≤ m.length) → siteToHost size 0 i ms = ok []
  | [], _ => rfl
  | m :: ms, h => by
    rw [siteToHost, sliceO_of_le (by have := h m (by simp); omega), ok_bind, siteToHost_none fun x hx => h x (by simp [hx])]
    simp

/-- **C77** fails: a field whose sites are smaller than a number of the build (integers in double precision) has no elements at all, and the writer reads
past the end of an empty buffer. -/
theorem C77_small_sites_fail (real : Nat) (hr : real = 4 ∨ real = 8) (be : Bool) {l : Lay} (h : l.Good) (T : Ty) (hT : T.size < real) {Ms : List Mem}
    (hM : ∀ M ∈ Ms, ∀ n, n < l.g.nodes → (M n).length = l.g.sites * T.size) (hn : 0 < l.g.nodes) : write real be l T Ms = ub := by
  have hq : T.size / real = 0 := Nat.div_eq_of_lt hT
  obtain ⟨N, hN⟩ : ∃ N, l.g.nodes = N + 1 := ⟨l.g.nodes - 1, by omega⟩
  rw [write, if_neg (by omega), hq, Nat.zero_mul, Nat.mul_zero, writeFields, hN, List.range_succ_eq_map, foldO]
  obtain ⟨map, h1, h2, h3⟩ := C77_map h hn
  have hbuf : toHost map T.size 0 l.g.sites (Ms.map fun M => M 0) = ok [] := by
    obtain ⟨s', hs, hI⟩ := foldO_range_id (f := fun buf run => do
      let i ← rd map run
      let b ← siteToHost T.size 0 i (Ms.map fun M => M 0)
      ok (buf ++ b)) (fun _ (b : List Byte) => b = []) (s := []) l.g.sites rfl
      (by
        rintro i b hi rfl
        obtain ⟨x, hx, hx1, hx2⟩ := h3 i hi
        refine ⟨_, ?_, rfl⟩
        rw [show rd map i = ok x by simp [rd, hx], ok_bind, siteToHost_none (by
          intro m hm
          obtain ⟨M, hM', rfl⟩ := List.mem_map.1 hm
          rw [hM M hM' 0 hn]
          exact Nat.mul_le_mul_right _ (by omega))]
        rfl)
    rw [toHost, hs, hI]
  rw [h1, ok_bind, hbuf, ok_bind]
  have hp := h.coord hn
  have hpl : (mulL (l.m.coordFrom 0) l.S).length = l.S.length := by
    rw [mulL, List.length_zipWith, hp.length_eq, h.len.1, Nat.min_self]
  have hne : mulL (l.m.coordFrom 0) l.S ≠ [] := by
    intro e
    rw [e] at hpl
    exact h.ne (List.length_eq_zero_iff.1 hpl.symm)
  obtain ⟨d, ds, e1, e2⟩ := last_head (xs := more 0 0) h.ne
  obtain ⟨o, os, e3, -⟩ := last_head (xs := more 0 0) hne
  have hfit : fits (o :: os) (d :: ds) (l.g.L.reverse ++ more 0 0) = true := by
    rw [← e1, ← e3, fits_more (by rw [hpl, h.len.2]) (by rw [h.len.2])]
    exact fits_cut h.cut hp
  have hpos : 0 < nsites (d :: ds) := by
    rw [← e1]
    simp only [more]
    rw [if_neg (by omega), List.append_nil, nsites_reverse]
    exact nsites_pos h.pos
  rw [writeNode, e3, e1]
  simp only
  rw [show halve real 64 ((create .real real l.g.L 0).elem * 0 * l.g.sites) d = (0, d, 0) by simp [halve]]
  have hw : h5write be (create .real real l.g.L 0) (o :: os) (d :: ds) [] = ub := by
    rw [h5write, if_neg, if_neg (by simp only [create]; rw [hfit]; decide), if_pos]
    · have : (create .real real l.g.L 0).elem = real := by simp [Dset.elem, create, Kind.n]
      rw [this]
      exact Nat.mul_pos hpos (by omega)
    · simp only [create]
      rw [← e1, ← e3]
      simp [hpl, h.len.2]
  simp only [Nat.pow_zero, List.range_one, foldO, Nat.zero_mul, Nat.add_zero, List.drop_nil]
  rw [hw]
  rfl

/-- **C77** fails: an array is read from a data set with fewer numbers at a site than a site has: division by zero. -/
theorem C77_array_small_fails (cv : Word → Word → List Byte → List Byte) (be : Bool) (l : Lay) (T : Ty) (J : Nat → Byte) (D : Dset) (n : Nat) {w size : Nat}
    {F : List Nat → List (List Byte)} (hw : w = 4 ∨ w = 8) (hs : 1 < size) (hD : Stored l.g.L .real w size F D) (hT : size < T.n) :
    readArr cv be l T true J D n = ub := by
  have hel := elem_real hD.kind hD.word
  obtain ⟨d1, d2⟩ := dims_more (L := l.g.L) hs
  rw [readArr, hel, if_neg (by omega), if_neg (by rw [hD.dims, d1]; simp), if_neg (by rw [match_ok hD]; decide), hD.dims, d2, ok_bind]
  have hp : 0 < T.size := Nat.mul_pos T.w.size_pos (by omega)
  have : size * T.w.size / T.size = 0 := by
    apply Nat.div_eq_of_lt
    rw [Ty.size, Nat.mul_comm]
    exact Nat.mul_lt_mul_of_pos_left hT T.w.size_pos
  rw [cdiv_pos hp, this, ok_bind]
  rfl

/-! ## types that do not fit -/

/-- the field that has the first words of a node -/
def spread (l : Lay) (n k : Nat) (W : List (List Byte)) : List Nat → List (List Byte) := fun c =>
  (W.drop (rank (rel c (mulL (l.m.coordFrom n) l.S)) l.S * k)).take k

theorem spread_site {l : Lay} (h : l.Good) {n : Nat} (hn : n < l.g.nodes) (k : Nat) (W : List (List Byte)) {r : Nat} (hr : r < l.g.sites) :
    spread l n k W (l.site n r) = (W.drop (r * k)).take k := by
  have hc := h.site_inRange hn hr
  rw [h.sites] at hr
  have hd := digits_inRange hr
  have hrel : rel (l.site n r) (mulL (l.m.coordFrom n) l.S) = digits r l.S := by
    have hpl : (mulL (l.m.coordFrom n) l.S).length = (digits r l.S).length := by
      rw [mulL, List.length_zipWith, (h.coord hn).length_eq, h.len.1, Nat.min_self, hd.length_eq]
    rw [Lay.site]
    generalize mulL (l.m.coordFrom n) l.S = a at hpl
    generalize digits r l.S = b at hpl
    clear hd hc hr
    induction a generalizing b with
    | nil => cases b with
      | nil => rfl
      | cons => simp at hpl
    | cons x a ih =>
      cases b with
      | nil => simp at hpl
      | cons y b =>
        have := ih b (by simpa using hpl)
        simp only [rel, addL, List.zipWith_cons_cons] at this ⊢
        rw [this, Nat.add_sub_cancel_left]
  rw [spread, hrel, rank_digits hr]

theorem spread_block {l : Lay} (h : l.Good) {n : Nat} (hn : n < l.g.nodes) {k : Nat} {W : List (List Byte)} (hl : l.g.sites * k ≤ W.length) :
    blockWords l n (spread l n k W) = W.take (l.g.sites * k) := by
  rw [blockWords]
  conv_rhs => rw [← pieces k l.g.sites (W.take (l.g.sites * k)) (by rw [List.length_take]; omega)]
  refine List.flatMap_congr fun r hr => ?_
  have hr := List.mem_range.1 hr
  have := slot_le (k := k) hr
  rw [spread_site h hn k W hr, List.drop_take, List.take_take, Nat.min_eq_left (by omega)]

/-- the field is filled with the first words of the node -/
theorem store_spread {cv : Word → Word → List Byte → List Byte} (hcv : Conv cv) {be : Bool} {l : Lay} (h : l.Good) {U : Ty} {base : Nat} (hb : base = 4 ∨ base = 8) {n : Nat}
    (hn : n < l.g.nodes) {m : List Byte} (hm : m.length = l.g.sites * U.size) {W : List (List Byte)} (hW : ∀ v ∈ W, v.length = base) (hl : l.g.sites * U.n ≤ W.length) :
    ∃ m', store cv be l U base W.length (mem be W) n [m] = ok [m'] ∧
      NodeHolds be l.g U n m' (spread l n U.n (W.map (conv cv base U.w))) := by
  have hbuf : (if base = U.w.size then mem be W else castSite cv be (fword base) U.w W.length (mem be W)) = mem be (W.map (conv cv base U.w)) := by
    by_cases hs : base = U.w.size
    · rw [if_pos hs]
      have : conv cv base U.w = id := by funext v; simp [conv, hs]
      rw [this, List.map_id]
    · rw [if_neg hs]
      have : conv cv base U.w = cv (fword base) U.w := by funext v; simp [conv, hs]
      rw [this, castSite, split_mem _ (by rw [fword_size hb]; exact hW), List.map_map]
      congr 1
      refine List.map_congr_left fun v _ => ?_
      simp [host_host]
  have hWc : ∀ v ∈ W.map (conv cv base U.w), v.length = U.w.size := by
    intro v hv
    obtain ⟨u, hu, rfl⟩ := List.mem_map.1 hv
    rw [conv]
    split
    · rename_i e; rw [hW u hu, e]
    · exact hcv.size _ _ _ (by rw [hW u hu, fword_size hb])
  have hlc : l.g.sites * U.n ≤ (W.map (conv cv base U.w)).length := by simpa using hl
  generalize hV : W.map (conv cv base U.w) = V at *
  have hsplit : mem be V = mem be (blockWords l n (arrWords [spread l n U.n V])) ++ mem be (V.drop (l.g.sites * U.n)) := by
    rw [arrWords_one, spread_block h hn hlc, ← mem_append, List.take_append_drop]
  -- outside of the node the field `spread` is arbitrary: complete it by zeros
  let z : List (List Byte) := List.replicate U.n (List.replicate U.w.size 0)
  let g : List Nat → List (List Byte) := fun c => if (spread l n U.n V c).length = U.n then spread l n U.n V c else z
  have hg : IsT l.g.L U g := by
    intro c _
    simp only [g]
    split
    · rename_i e
      exact ⟨e, fun v hv => hWc v (List.mem_of_mem_drop (List.mem_of_mem_take hv))⟩
    · refine ⟨by simp [z], ?_⟩
      intro v hv
      rw [List.eq_of_mem_replicate hv, List.length_replicate]
  have hgs : ∀ r, r < l.g.sites → g (l.site n r) = spread l n U.n V (l.site n r) := by
    intro r hr
    have : (spread l n U.n V (l.site n r)).length = U.n := by
      have := slot_le (k := U.n) hr
      rw [spread_site h hn U.n V hr, List.length_take, List.length_drop]
      omega
    simp only [g]
    rw [if_pos this]
  have hbw : blockWords l n (arrWords [g]) = blockWords l n (arrWords [spread l n U.n V]) := by
    rw [arrWords_one, arrWords_one]
    exact List.flatMap_congr fun r hr => hgs r (List.mem_range.1 hr)
  obtain ⟨ms', h1, h2⟩ := toLayout_ok (be := be) h (T := U) hn (ms := [m]) (fs := [g]) (by simpa using hg) (by simpa using hm) rfl (mem be (V.drop (l.g.sites * U.n)))
  rw [hbw, ← hsplit] at h1
  rw [store, hbuf, h1]
  cases h2 with
  | cons a b =>
    cases b
    refine ⟨_, rfl, a.1, fun i c hi hc => ?_⟩
    rw [a.2 i c hi hc]
    congr 1
    obtain ⟨c', e1, hcr, hnn, -⟩ := h.good.2 n i hn hi
    rw [hc] at e1
    injection e1 with e1
    subst e1
    rw [h.nodeNumber hcr] at hnn
    injection hnn with hnn
    obtain ⟨r, hr, hs, -⟩ := h.onNode hcr hn ((h.node_iff hcr hn).1 hnn)
    rw [← hs]
    exact hgs r hr

/-- **C77** fails: a field is read as a field of a type with fewer numbers.  There is no error, and the sites are filled with words of other sites: site
number `r` of the node has the words from `r * U.n` on. -/
theorem C77_narrow_fails {cv : Word → Word → List Byte → List Byte} (hcv : Conv cv) (be : Bool) {l : Lay} (h : l.Good) (U : Ty) {obj : Nat} (hU : U.n ≤ obj) (ho : 1 < obj)
    {w : Nat} (hw : w = 4 ∨ w = 8) {f : List Nat → List (List Byte)} (hf : IsField l.g.L w obj f) {D : Dset} (hD : Stored l.g.L .real w obj f D)
    (he : EvenSplit w (l.g.sites * obj) (l.S.getLast h.ne)) (J : Nat → Byte) (n : Nat) (hn : n < l.g.nodes) (m : List Byte) (hm : m.length = l.g.sites * U.size) :
    ∃ m', read cv be l U true J D n m = ok [m'] ∧ ∀ r i, r < l.g.sites → i < l.g.sites → l.g.siteCoords n i = ok (l.site n r) →
      (m'.drop (i * U.size)).take U.size =
        mem be (((((List.range l.g.sites).flatMap fun r => f (l.site n r)).drop (r * U.n)).take U.n).map (conv cv w U.w)) := by
  have hel := elem_real hD.kind hD.word
  obtain ⟨d1, d2⟩ := dims_more (L := l.g.L) ho
  have hr := readLattice_ok (be := be) h (K := .real) (w := w) (obj := obj) (by omega) hw (F := f) (by rw [show obj * Kind.n .real = obj from Nat.mul_one _]; exact hf) hD
    (by rw [show l.g.sites * obj * Kind.n .real = l.g.sites * obj from Nat.mul_one _]; exact he) J hn (tot := obj * l.g.sites) (by simp [Kind.n, Nat.mul_comm])
  have hlen : (blockWords l n f).length = obj * l.g.sites := by
    rw [blockWords, List.length_flatMap, List.map_congr_left (g := fun _ => obj) (fun r hr => (hf _ (h.site_inRange hn (List.mem_range.1 hr))).1)]
    simp [Nat.mul_comm]
  obtain ⟨m', s1, s2⟩ := store_spread hcv (be := be) h (U := U) hw hn hm (W := blockWords l n f) (by
    intro v hv
    obtain ⟨r, hr, hv⟩ := List.mem_flatMap.1 hv
    exact (hf _ (h.site_inRange hn (List.mem_range.1 hr))).2 v hv) (by rw [hlen, Nat.mul_comm]; exact Nat.mul_le_mul_right _ hU)
  rw [hlen] at s1
  refine ⟨m', ?_, fun r i hr hi hc => ?_⟩
  · rw [read, hel, if_neg (by omega), if_neg (by rw [hD.dims, d1]; simp), if_neg (by rw [match_ok hD]; decide)]
    simp only [hD.kind, hD.float, hD.dims]
    rw [d2, ok_bind, show (decide True && true) = true from rfl, hr, ok_bind, s1]
  · rw [s2.2 i _ hi hc, spread_site h hn _ _ hr, ← List.map_drop, ← List.map_take]
    rfl

theorem split_sizes {k : Nat} : ∀ (n : Nat) (bs : List Byte), bs.length = k * n → (split k n bs).length = n ∧ (∀ v ∈ split k n bs, v.length = k) ∧ (split k n bs).flatten = bs
  | 0, bs, h => by
    have : bs = [] := List.length_eq_zero_iff.1 (by omega)
    simp [split, this]
  | n + 1, bs, h => by
    rw [Nat.mul_add, Nat.mul_one] at h
    obtain ⟨h1, h2, h3⟩ := split_sizes (k := k) n (bs.drop k) (by rw [List.length_drop]; omega)
    refine ⟨by simp [split, h1], ?_, by simp [split, h3]⟩
    intro v hv
    rw [split, List.mem_cons] at hv
    rcases hv with rfl | hv
    · rw [List.length_take]; omega
    · exact h2 v hv

/-- the words of 4 bytes that make up words of 8 bytes in the memory of a machine -/
def halves (be : Bool) (f : List Nat → List (List Byte)) : List Nat → List (List Byte) := fun c => (split 4 (2 * (f c).length) (mem be (f c))).map (host be)

theorem halves_ok {be : Bool} {g : Geom} (hg : g.Good) {n : Nat} {M : Mem} {f : List Nat → List (List Byte)} (hf : IsT g.L ⟨.f64, n⟩ f) (hM : HoldsT be g ⟨.f64, n⟩ M f) :
    IsT g.L ⟨.f32, 2 * n⟩ (halves be f) ∧ HoldsT be g ⟨.f32, 2 * n⟩ M (halves be f) := by
  have hs : ∀ c, InRange c g.L → (halves be f c).length = 2 * n ∧ (∀ v ∈ halves be f c, v.length = 4) ∧ mem be (halves be f c) = mem be (f c) := by
    intro c hc
    obtain ⟨l1, l2⟩ := hf c hc
    have l2 : ∀ v ∈ f c, v.length = 8 := l2
    have l1 : (f c).length = n := l1
    obtain ⟨h1, h2, h3⟩ := split_sizes (k := 4) (2 * (f c).length) (mem be (f c)) (by rw [mem_length be _ l2]; omega)
    refine ⟨by rw [halves, List.length_map, h1, l1], ?_, ?_⟩
    · intro v hv
      obtain ⟨u, hu, rfl⟩ := List.mem_map.1 hv
      rw [host_length]
      exact h2 u hu
    · simp only [halves, mem, List.map_map]
      rw [show (host be ∘ host be) = id by funext v; simp [host_host], List.map_id]
      exact h3
  have e1 : Word.f64.size * n = Word.f32.size * (2 * n) := by simp only [Word.size]; omega
  refine ⟨fun c hc => ⟨(hs c hc).1, (hs c hc).2.1⟩, ?_⟩
  have := Cells.congr hg hM (φ' := fun c => mem be (halves be f c)) (fun c hc => ((hs c hc).2.2).symm)
  simp only at this
  rw [e1] at this
  exact this

/-- **C77** fails: a field in double precision written by a build in single precision.  Its words are taken for twice as many words of 4 bytes; reading it into
a field of the same type converts each of these, and fills site number 1 with what came from the second half of site number 0. -/
theorem C77_double_fails {cv : Word → Word → List Byte → List Byte} (hcv : Conv cv) (be be' : Bool) {l l' : Lay} (h : l.Good) (h' : l'.Good) (hL : l'.g.L = l.g.L)
    {k : Nat} (hk : 0 < k) {M : Mem} {f : List Nat → List (List Byte)} (hf : IsT l.g.L ⟨.f64, k⟩ f) (hM : HoldsT be l.g ⟨.f64, k⟩ M f)
    (he : EvenSplit 4 (8 * k * l.g.sites) (l.S.getLast h.ne)) (he' : EvenSplit 4 (l'.g.sites * (2 * k)) (l'.S.getLast h'.ne)) :
    ∃ D, write 4 be l ⟨.f64, k⟩ [M] = ok D ∧ ∀ (J : Nat → Byte) n m, n < l'.g.nodes → m.length = l'.g.sites * (8 * k) → ∃ m', read cv be' l' ⟨.f64, k⟩ true J D n m = ok [m'] ∧
      ∀ i, 1 < l'.g.sites → i < l'.g.sites → l'.g.siteCoords n i = ok (l'.site n 1) →
        (m'.drop (i * (8 * k))).take (8 * k) = mem be' (((halves be f (l'.site n 0)).drop k).map (cv .f32 .f64)) := by
  obtain ⟨g1, g2⟩ := halves_ok h.good hf hM
  have he2 : EvenSplit Word.f32.size (Word.f32.size * ([halves be f].length * (2 * k)) * l.g.sites) (l.S.getLast h.ne) := by
    have : Word.f32.size * ([halves be f].length * (2 * k)) * l.g.sites = 8 * k * l.g.sites := by
      simp only [Word.size, List.length_singleton]
      congr 1
      omega
    rw [this]
    exact he
  obtain ⟨D, h1, h2⟩ := C77_write_partial be h ⟨.f32, 2 * k⟩ trivial (Ms := [M]) (fs := [halves be f]) (by simpa using g1) (.cons g2 .nil) (by simp; omega) he2
  have hsz : Ty.size ⟨.f32, 2 * k⟩ = Ty.size ⟨.f64, k⟩ := by simp only [Ty.size, Word.size]; omega
  refine ⟨D, ?_, fun J n m hn hm => ?_⟩
  · simp only [write, hsz] at h1
    exact h1
  · rw [arrWords_one, ← hL] at h2
    simp only [List.length_singleton, Nat.one_mul] at h2
    obtain ⟨m', r1, r2⟩ := C77_narrow_fails hcv be' h' ⟨.f64, k⟩ (obj := 2 * k) (by simp only; omega) (by omega) (w := 4) (.inl rfl) (f := halves be f) (by rw [hL]; exact g1) h2 he' J n hn m hm
    refine ⟨m', r1, fun i hs hi hc => ?_⟩
    have := r2 1 i hs hi hc
    simp only [Ty.size, Word.size] at this
    rw [this]
    have hch := chunk (fun r => halves be f (l'.site n r)) (N := l'.g.sites) (b := 2 * k) (k := 0)
      (fun r hr => (g1 _ (by rw [← hL]; exact h'.site_inRange hn hr)).1) (by omega) (x := k) (y := k) (by omega)
    rw [Nat.zero_mul, Nat.zero_add] at hch
    rw [Nat.one_mul, hch, List.take_of_length_le (by
      rw [List.length_drop, (g1 _ (by rw [← hL]; exact h'.site_inRange hn (show 0 < l'.g.sites by omega))).1]
      simp only
      omega)]
    rfl

theorem siteToLayout_cases {size i : Nat} : ∀ (ms : List (List Byte)) (buf : List Byte), siteToLayout size i ms buf = ub ∨ ∃ ms', siteToLayout size i ms buf = ok ms' ∧ ms'.length = ms.length
  | [], _ => .inr ⟨[], rfl, rfl⟩
  | m :: ms, buf => by
    rw [siteToLayout]
    by_cases h1 : 0 + size ≤ buf.length
    · rw [sliceO_of_le h1, ok_bind]
      by_cases h2 : i * size + ((buf.drop 0).take size).length ≤ m.length
      · rw [show blitO m (i * size) ((buf.drop 0).take size) = ok _ from if_pos h2, ok_bind]
        rcases siteToLayout_cases ms (buf.drop size) with e | ⟨ms', e, hl⟩
        · rw [e]; exact .inl rfl
        · rw [e]; exact .inr ⟨_, rfl, by simp [hl]⟩
      · rw [show blitO m (i * size) ((buf.drop 0).take size) = ub from if_neg h2]
        exact .inl rfl
    · rw [show sliceO buf 0 size = ub from if_neg h1]
      exact .inl rfl

theorem foldO_cases {σ α : Type} {f : σ → α → Outcome σ} (P : σ → Prop) : ∀ (xs : List α) (s : σ), P s → (∀ s x, x ∈ xs → P s → f s x = ub ∨ ∃ s', f s x = ok s' ∧ P s') →
    foldO f s xs = ub ∨ ∃ s', foldO f s xs = ok s' ∧ P s'
  | [], s, h, _ => .inr ⟨s, rfl, h⟩
  | x :: xs, s, h, hs => by
    rcases hs s x (by simp) h with e | ⟨s', e, h'⟩
    · rw [foldO, e]; exact .inl rfl
    · rw [foldO, e, ok_bind]
      exact foldO_cases P xs s' h' fun t y hy => hs t y (by simp [hy])

/-- **C77** fails: a field is read as a field of a type with more numbers: the buffer is too short. -/
theorem C77_wide_fails {cv : Word → Word → List Byte → List Byte} (hcv : Conv cv) (be : Bool) {l : Lay} (h : l.Good) (U : Ty) {obj : Nat} (hU : obj < U.n) (ho : 1 < obj)
    {w : Nat} (hw : w = 4 ∨ w = 8) {f : List Nat → List (List Byte)} (hf : IsField l.g.L w obj f) {D : Dset} (hD : Stored l.g.L .real w obj f D)
    (he : EvenSplit w (l.g.sites * obj) (l.S.getLast h.ne)) (J : Nat → Byte) (n : Nat) (hn : n < l.g.nodes) (m : List Byte) : read cv be l U true J D n m = ub := by
  have hel := elem_real hD.kind hD.word
  obtain ⟨d1, d2⟩ := dims_more (L := l.g.L) ho
  have hr := readLattice_ok (be := be) h (K := .real) (w := w) (obj := obj) (by omega) hw (F := f) (by rw [show obj * Kind.n .real = obj from Nat.mul_one _]; exact hf) hD
    (by rw [show l.g.sites * obj * Kind.n .real = l.g.sites * obj from Nat.mul_one _]; exact he) J hn (tot := obj * l.g.sites) (by simp [Kind.n, Nat.mul_comm])
  rw [read, hel, if_neg (by omega), if_neg (by rw [hD.dims, d1]; simp), if_neg (by rw [match_ok hD]; decide)]
  simp only [hD.kind, hD.float, hD.dims]
  rw [d2, ok_bind, show (decide True && true) = true from rfl, hr, ok_bind]
  have hlen : (blockWords l n f).length = obj * l.g.sites := by
    rw [blockWords, List.length_flatMap, List.map_congr_left (g := fun _ => obj) (fun r hr => (hf _ (h.site_inRange hn (List.mem_range.1 hr))).1)]
    simp [Nat.mul_comm]
  have hW : ∀ v ∈ blockWords l n f, v.length = w := by
    intro v hv
    obtain ⟨r, hr, hv⟩ := List.mem_flatMap.1 hv
    exact (hf _ (h.site_inRange hn (List.mem_range.1 hr))).2 v hv
  obtain ⟨map, h1, h2, h3⟩ := C77_map h hn
  rw [store, h1, ok_bind]
  have hbl : (if w = U.w.size then mem be (blockWords l n f) else castSite cv be (fword w) U.w (obj * l.g.sites) (mem be (blockWords l n f))).length =
      U.w.size * (obj * l.g.sites) := by
    by_cases hs : w = U.w.size
    · rw [if_pos hs, mem_length be _ hW, hlen, hs]
    · rw [if_neg hs, ← hlen, castSite, split_mem _ (by rw [fword_size hw]; exact hW), List.map_map]
      rw [mem_length be _ (size := U.w.size)]
      · simp
      · intro v hv
        obtain ⟨u, hu, rfl⟩ := List.mem_map.1 hv
        simp only [Function.comp, host_host]
        exact hcv.size _ _ _ (by rw [hW u hu, fword_size hw])
  generalize (if w = U.w.size then mem be (blockWords l n f) else castSite cv be (fword w) U.w (obj * l.g.sites) (mem be (blockWords l n f))) = buf at hbl
  have hsp : 0 < l.g.sites := by rw [h.sites]; exact nsites_pos h.pos
  obtain ⟨N, hN⟩ : ∃ N, l.g.sites = N + 1 := ⟨l.g.sites - 1, by omega⟩
  rw [toLayout, hN, List.range_succ, foldO_snoc]
  rcases foldO_cases (f := fun ms run => do
      let i ← rd map run
      siteToLayout U.size i ms (buf.drop (run * (ms.length * U.size)))) (fun ms : List (List Byte) => ms.length = 1) (List.range N) [m] rfl (by
    intro ms x hx hms
    obtain ⟨i, hi, -⟩ := h3 x (by have := List.mem_range.1 hx; omega)
    rw [show rd map x = ok i by simp [rd, hi], ok_bind]
    rcases siteToLayout_cases ms (buf.drop (x * (ms.length * U.size))) (size := U.size) (i := i) with e | ⟨ms', e, hl⟩
    · exact .inl e
    · exact .inr ⟨ms', e, by rw [hl, hms]⟩) with e | ⟨ms, e, hms⟩
  · rw [e]; rfl
  · rw [e, ok_bind]
    obtain ⟨i, hi, -⟩ := h3 N (by omega)
    rw [show rd map N = ok i by simp [rd, hi], ok_bind]
    match ms, hms with
    | [m1], _ =>
      rw [siteToLayout, show sliceO (buf.drop (N * ([m1].length * U.size))) 0 U.size = ub from if_neg (by
        rw [List.length_drop, hbl, hN, Ty.size, List.length_singleton, Nat.one_mul]
        have a1 : U.w.size * (obj * (N + 1)) < U.w.size * (U.n * (N + 1)) :=
          Nat.mul_lt_mul_of_pos_left (Nat.mul_lt_mul_of_pos_right hU (by omega)) U.w.size_pos
        have a2 : U.w.size * (U.n * (N + 1)) = N * (U.w.size * U.n) + U.w.size * U.n := by ring
        have a3 : 0 < U.w.size * U.n := Nat.mul_pos U.w.size_pos (by omega)
        omega)]
      rfl

/-! ## parts of a node of more than 2 GB -/

theorem halve_exact {r total d p : Nat} (h1 : ∀ q, q < p → 2 ^ 31 < total / 2 ^ q * r) (h2 : total / 2 ^ p * r ≤ 2 ^ 31) : ∀ {k : Nat}, p ≤ k →
    halve r k total d = (total / 2 ^ p, d / 2 ^ p, p) := by
  induction p generalizing total d with
  | zero =>
    intro k _
    cases k with
    | zero => simp [halve]
    | succ k =>
      rw [halve, if_neg]
      · simp
      · simpa [twoGB] using h2
  | succ p ih =>
    intro k hk
    obtain ⟨k, rfl⟩ : ∃ j, k = j + 1 := ⟨k - 1, by omega⟩
    have h0 := h1 0 (by omega)
    have hp : ∀ x q : Nat, x / 2 / 2 ^ q = x / 2 ^ (q + 1) := fun x q => by rw [Nat.div_div_eq_div_mul, Nat.mul_comm 2, ← Nat.pow_succ]
    have := ih (total := total / 2) (d := d / 2) (fun q hq => by rw [hp]; exact h1 (q + 1) (by omega)) (by rw [hp]; exact h2) (k := k) (by omega)
    rw [halve, if_pos (by simpa [twoGB] using h0), this]
    simp only [hp]

theorem h5write_exists {be : Bool} {D : Dset} {off cnt : List Nat} {buf : List Byte} (h1 : off.length = D.dims.length) (h2 : cnt.length = D.dims.length)
    (hl : nsites cnt * D.elem ≤ buf.length) :
    ∃ D', h5write be D off cnt buf = ok D' ∧ D'.kind = D.kind ∧ D'.w = D.w ∧ D'.dims = D.dims ∧ ∀ ix, inBlock ix off cnt = false → D'.data ix = D.data ix := by
  rw [h5write, if_neg (by omega)]
  by_cases hf : fits off cnt D.dims = true
  · rw [if_neg (by rw [hf]; decide), if_neg (by omega)]
    refine ⟨_, rfl, rfl, rfl, rfl, fun ix hi => ?_⟩
    simp [hi]
  · rw [if_pos (by simpa using hf)]
    exact ⟨D, rfl, rfl, rfl, rfl, fun _ _ => rfl⟩

theorem writeNode_odd {real : Nat} {be : Bool} {l : Lay} {D : Dset} {obj : Nat} {n : Nat} {buf : List Byte} {o d : Nat} {os ds : List Nat}
    (e3 : (mulL (l.m.coordFrom n) l.S).reverse ++ more obj 0 = o :: os) (e1 : l.S.reverse ++ more obj obj = d :: ds)
    (hlo : (o :: os).length = D.dims.length) (hlc : (d :: ds).length = D.dims.length) (htot : D.elem * obj * l.g.sites = nsites (d :: ds) * D.elem)
    (hb : buf.length = D.elem * obj * l.g.sites) {p : Nat} (hp : p ≤ 64) (h1 : ∀ q, q < p → 2 ^ 31 < D.elem * obj * l.g.sites / 2 ^ q * real)
    (h2 : D.elem * obj * l.g.sites / 2 ^ p * real ≤ 2 ^ 31) :
    ∃ D', writeNode real be l D obj buf n = ok D' ∧ D'.kind = D.kind ∧ D'.w = D.w ∧ D'.dims = D.dims ∧
      ∀ t ts, ¬ (o ≤ t ∧ t < o + 2 ^ p * (d / 2 ^ p)) → D'.data (t :: ts) = D.data (t :: ts) := by
  rw [writeNode, e3, e1]
  simp only
  rw [halve_exact h1 h2 hp]
  simp only
  generalize htt : D.elem * obj * l.g.sites = tot at *
  have hstep : (d / 2 ^ p) * nsites ds * D.elem ≤ tot / 2 ^ p := by
    rw [Nat.le_div_iff_mul_le (Nat.pow_pos (by omega)), htot]
    simp only [nsites]
    have := Nat.div_mul_le_self d (2 ^ p)
    calc d / 2 ^ p * nsites ds * D.elem * 2 ^ p = (d / 2 ^ p * 2 ^ p) * (nsites ds * D.elem) := by ring
      _ ≤ d * (nsites ds * D.elem) := Nat.mul_le_mul_right _ this
      _ = d * nsites ds * D.elem := by ring
  obtain ⟨D', hD, hI⟩ := foldO_range_id (f := fun D i => h5write be D ((o + i * (d / 2 ^ p)) :: os) (d / 2 ^ p :: ds) (buf.drop (i * (tot / 2 ^ p))))
    (fun _ (E : Dset) => E.kind = D.kind ∧ E.w = D.w ∧ E.dims = D.dims ∧ ∀ t ts, ¬ (o ≤ t ∧ t < o + 2 ^ p * (d / 2 ^ p)) → E.data (t :: ts) = D.data (t :: ts)) (s := D) (2 ^ p)
    ⟨rfl, rfl, rfl, fun _ _ _ => rfl⟩ (by
      rintro i E hi ⟨g1, g2, g3, g4⟩
      have hel : E.elem = D.elem := by rw [Dset.elem, g1, g2]; rfl
      obtain ⟨E', k1, k2, k3, k4, k5⟩ := h5write_exists (be := be) (D := E) (off := (o + i * (d / 2 ^ p)) :: os) (cnt := d / 2 ^ p :: ds) (buf := buf.drop (i * (tot / 2 ^ p)))
        (by rw [g3]; simpa using hlo) (by rw [g3]; simpa using hlc) (by
          rw [hel, List.length_drop, hb]
          simp only [nsites]
          have a1 : (i + 1) * (tot / 2 ^ p) ≤ 2 ^ p * (tot / 2 ^ p) := Nat.mul_le_mul_right _ hi
          have a2 : 2 ^ p * (tot / 2 ^ p) ≤ tot := Nat.mul_div_le _ _
          rw [Nat.add_mul, Nat.one_mul] at a1
          omega)
      refine ⟨E', k1, by rw [k2, g1], by rw [k3, g2], by rw [k4, g3], fun t ts ht => ?_⟩
      rw [← g4 t ts ht]
      apply k5
      have a1 : (i + 1) * (d / 2 ^ p) ≤ 2 ^ p * (d / 2 ^ p) := Nat.mul_le_mul_right _ hi
      rw [Nat.add_mul, Nat.one_mul] at a1
      have : ¬ (o + i * (d / 2 ^ p) ≤ t ∧ t < o + i * (d / 2 ^ p) + d / 2 ^ p) := by omega
      simp only [inBlock]
      by_cases c1 : o + i * (d / 2 ^ p) ≤ t
      · have c2 : ¬ t < o + i * (d / 2 ^ p) + d / 2 ^ p := fun c2 => this ⟨c1, c2⟩
        simp [c2]
      · simp [c1])
  exact ⟨D', hD, hI⟩

theorem snoc_of_length {p S : List Nat} {s : Nat} (h : p.length = (S ++ [s]).length) : ∃ q t, p = q ++ [t] ∧ q.length = S.length := by
  have hne : p ≠ [] := by
    intro e
    rw [e] at h
    simp at h
  refine ⟨p.dropLast, p.getLast hne, (List.dropLast_append_getLast hne).symm, ?_⟩
  rw [List.length_dropLast, h]
  simp

theorem mulL_snoc {q S : List Nat} {t s : Nat} (h : q.length = S.length) : mulL (q ++ [t]) (S ++ [s]) = mulL q S ++ [t * s] := by
  rw [mulL, List.zipWith_append h]
  rfl

/-- **C77** fails: the part of a node has more than 2 GB and the last extent `s` cannot be halved as often as the writer halves it.  Then the last rows of the
part of every node are never written: the file has zeros there. -/
theorem C77_odd_write_fails (be : Bool) {l : Lay} (h : l.Good) (T : Ty) (hw : T.w.Float) (hT : 0 < T.n) {M : Mem} {f : List Nat → List (List Byte)} (hf : IsT l.g.L T f)
    (hM : HoldsT be l.g T M f) {S : List Nat} {s : Nat} (hS : l.S = S ++ [s]) {p : Nat} (hp : p ≤ 64)
    (h1 : ∀ q, q < p → 2 ^ 31 < T.w.size * T.n * l.g.sites / 2 ^ q * T.w.size) (h2 : T.w.size * T.n * l.g.sites / 2 ^ p * T.w.size ≤ 2 ^ 31) :
    ∃ D, write T.w.size be l T [M] = ok D ∧ ∀ c t j, 2 ^ p * (s / 2 ^ p) ≤ t % s →
      D.data ((c ++ [t]).reverse ++ more T.n j) = [List.replicate T.w.size 0] := by
  have hs := float_size hw
  have hq : T.size / T.w.size = T.n := by rw [Ty.size, Nat.mul_div_cancel_left _ T.w.size_pos]
  rw [write, if_neg (by omega), hq, List.length_singleton, Nat.mul_one, writeFields]
  have hspos : 0 < s := h.pos s (by rw [hS]; simp)
  have hml : ∀ x y, (more T.n x).length = (more T.n y).length := fun x y => by unfold more; split <;> rfl
  obtain ⟨D, hD, hI⟩ := foldO_range_id (f := fun D n => do
    let map ← reorder l.g n
    let buf ← toHost map T.size (T.w.size * T.n) l.g.sites ([M].map fun M => M n)
    writeNode T.w.size be l D T.n buf n) (fun _ (D : Dset) => D.kind = .real ∧ D.w = T.w.size ∧ D.dims = l.g.L.reverse ++ more T.n T.n ∧
      ∀ c t j, 2 ^ p * (s / 2 ^ p) ≤ t % s → D.data ((c ++ [t]).reverse ++ more T.n j) = [List.replicate T.w.size 0])
    (s := create .real T.w.size l.g.L T.n) l.g.nodes ⟨rfl, rfl, rfl, fun c t j _ => rfl⟩ (by
      rintro n D hn ⟨g1, g2, g3, g4⟩
      have hb := toHost_ok h hn (Ms := [M]) (fs := [f]) (T := T) (.cons hM .nil)
      obtain ⟨map, hm, -⟩ := C77_map h hn
      rw [hm, ok_bind] at hb
      have hel : D.elem = T.w.size := elem_real g1 g2
      have hpc := h.coord hn
      obtain ⟨q, a, hqa, hql⟩ := snoc_of_length (p := l.m.coordFrom n) (S := S) (s := s) (by rw [hpc.length_eq, h.len.1, hS])
      have hmul : mulL (l.m.coordFrom n) l.S = mulL q S ++ [a * s] := by rw [hqa, hS, mulL_snoc hql]
      have hmll : (mulL q S).length = S.length := by rw [mulL, List.length_zipWith, hql, Nat.min_self]
      have e3 : (mulL (l.m.coordFrom n) l.S).reverse ++ more T.n 0 = (a * s) :: ((mulL q S).reverse ++ more T.n 0) := by rw [hmul]; simp
      have e1 : l.S.reverse ++ more T.n T.n = s :: (S.reverse ++ more T.n T.n) := by rw [hS]; simp
      have hbl : (mem be (blockWords l n (arrWords [f]))).length = D.elem * T.n * l.g.sites := by
        rw [arrWords_one, mem_length be _ (size := T.w.size), blockWords, List.length_flatMap,
          List.map_congr_left (g := fun _ => T.n) (fun r hr => (hf _ (h.site_inRange hn (List.mem_range.1 hr))).1), hel]
        · simp
          ring
        · intro v hv
          obtain ⟨r, hr, hv⟩ := List.mem_flatMap.1 hv
          exact (hf _ (h.site_inRange hn (List.mem_range.1 hr))).2 v hv
      have hLl : l.g.L.length = S.length + 1 := by rw [h.len.2, hS]; simp
      obtain ⟨E, k1, k2, k3, k4, k5⟩ := writeNode_odd (real := T.w.size) (be := be) (l := l) (D := D) (obj := T.n) (n := n) (buf := mem be (blockWords l n (arrWords [f]))) e3 e1
        (by rw [g3]; simp only [List.length_cons, List.length_append, List.length_reverse]; rw [hLl, hmll, hml 0 T.n]; omega)
        (by rw [g3]; simp only [List.length_cons, List.length_append, List.length_reverse]; rw [hLl]; omega)
        (by rw [← e1, nsites_more hT, ← h.sites]; ring) hbl hp (by rw [hel]; exact h1) (by rw [hel]; exact h2)
      refine ⟨E, ?_, by rw [k2, g1], by rw [k3, g2], by rw [k4, g3], fun c t j ht => ?_⟩
      · rw [hm, ok_bind, show T.w.size * T.n = T.size from rfl, hb, ok_bind]
        exact k1
      · have e : (c ++ [t]).reverse ++ more T.n j = t :: (c.reverse ++ more T.n j) := by simp
        rw [e, k5, ← e]
        · exact g4 c t j ht
        · rintro ⟨b1, b2⟩
          have hle : 2 ^ p * (s / 2 ^ p) ≤ s := Nat.mul_div_le _ _
          obtain ⟨z, rfl⟩ : ∃ z, t = a * s + z := ⟨t - a * s, by omega⟩
          have : (a * s + z) % s = z := by rw [Nat.mul_comm, Nat.mul_add_mod, Nat.mod_eq_of_lt (by omega)]
          rw [this] at ht
          omega)
  exact ⟨D, hD, hI.2.2.2⟩

/-- **C77** fails: likewise in reading.  What the file has in the last rows of the part of a node has no influence on what is read. -/
theorem C77_odd_read_fails (cv : Word → Word → List Byte → List Byte) (be : Bool) {l : Lay} (h : l.Good) (T : Ty) (J : Nat → Byte) {S : List Nat} {s : Nat} (hS : l.S = S ++ [s])
    {D E : Dset} {w obj : Nat} {F G : List Nat → List (List Byte)} (hw : w = 4 ∨ w = 8) (ho : 1 < obj) (hD : Stored l.g.L .real w obj F D) (hE : Stored l.g.L .real w obj G E)
    {p : Nat} (hp : p ≤ 64) (h1 : ∀ q, q < p → 2 ^ 31 < obj * l.g.sites / 2 ^ q * w) (h2 : obj * l.g.sites / 2 ^ p * w ≤ 2 ^ 31)
    (hDE : ∀ t ts, t % s < 2 ^ p * (s / 2 ^ p) → D.data (t :: ts) = E.data (t :: ts)) (n : Nat) (hn : n < l.g.nodes) (m : List Byte) :
    read cv be l T true J D n m = read cv be l T true J E n m := by
  have hel := elem_real hD.kind hD.word
  have hel' := elem_real hE.kind hE.word
  obtain ⟨d1, d2⟩ := dims_more (L := l.g.L) ho
  rw [read, hel, if_neg (by omega), if_neg (by rw [hD.dims, d1]; simp), if_neg (by rw [match_ok hD]; decide),
    read, hel', if_neg (by omega), if_neg (by rw [hE.dims, d1]; simp), if_neg (by rw [match_ok hE]; decide)]
  simp only [hD.kind, hD.float, hD.dims, hE.kind, hE.float, hE.dims]
  rw [d2, ok_bind, ok_bind]
  have hspos : 0 < s := h.pos s (by rw [hS]; simp)
  have hpc := h.coord hn
  obtain ⟨q, a, hqa, hql⟩ := snoc_of_length (p := l.m.coordFrom n) (S := S) (s := s) (by rw [hpc.length_eq, h.len.1, hS])
  have hmul : mulL (l.m.coordFrom n) l.S = mulL q S ++ [a * s] := by rw [hqa, hS, mulL_snoc hql]
  have e3 : (mulL (l.m.coordFrom n) l.S).reverse ++ more obj 0 = (a * s) :: ((mulL q S).reverse ++ more obj 0) := by rw [hmul]; simp
  have e1 : l.S.reverse ++ more obj obj = s :: (S.reverse ++ more obj obj) := by rw [hS]; simp
  have hread : ∀ i ∈ List.range (2 ^ p), h5read be D ((a * s + i * (s / 2 ^ p)) :: ((mulL q S).reverse ++ more obj 0)) (s / 2 ^ p :: (S.reverse ++ more obj obj)) =
      h5read be E ((a * s + i * (s / 2 ^ p)) :: ((mulL q S).reverse ++ more obj 0)) (s / 2 ^ p :: (S.reverse ++ more obj obj)) := by
    intro i hi
    have hi := List.mem_range.1 hi
    have e : ∀ k ∈ List.range (nsites (s / 2 ^ p :: (S.reverse ++ more obj obj))),
        D.data (addL ((a * s + i * (s / 2 ^ p)) :: ((mulL q S).reverse ++ more obj 0)) (unpos k (s / 2 ^ p :: (S.reverse ++ more obj obj)))) =
        E.data (addL ((a * s + i * (s / 2 ^ p)) :: ((mulL q S).reverse ++ more obj 0)) (unpos k (s / 2 ^ p :: (S.reverse ++ more obj obj)))) := by
      intro k hk
      have hu := unpos_inRange (List.mem_range.1 hk)
      simp only [unpos, addL, List.zipWith_cons_cons] at hu ⊢
      apply hDE
      have hx := hu.1
      generalize k / nsites (S.reverse ++ more obj obj) = x at hx
      have b1 : (i + 1) * (s / 2 ^ p) ≤ 2 ^ p * (s / 2 ^ p) := Nat.mul_le_mul_right _ hi
      rw [Nat.add_mul, Nat.one_mul] at b1
      have hle : 2 ^ p * (s / 2 ^ p) ≤ s := Nat.mul_div_le _ _
      rw [Nat.add_assoc, Nat.mul_comm a, Nat.mul_add_mod, Nat.mod_eq_of_lt (by omega)]
      omega
    simp only [h5read, hD.dims, hE.dims]
    rw [List.flatMap_congr fun k hk => by rw [e k hk]]
  have hlat : readLattice be l D w (decide True && true) obj (obj * l.g.sites) true J n = readLattice be l E w (decide True && true) obj (obj * l.g.sites) true J n := by
    rw [readLattice, readLattice]
    simp only [if_true]
    rw [e3, e1]
    simp only
    rw [halve_exact h1 h2 hp]
    simp only
    have : ∀ (xs : List Nat), (∀ x ∈ xs, x ∈ List.range (2 ^ p)) → ∀ st : List Byte × List Byte,
        foldO (fun (st : List Byte × List Byte) i => do
          let x ← h5read be D ((a * s + i * (s / 2 ^ p)) :: ((mulL q S).reverse ++ more obj 0)) (s / 2 ^ p :: (S.reverse ++ more obj obj))
          if obj * l.g.sites / 2 ^ p * w < x.length then ub
          else do
            let small := x ++ st.1.drop x.length
            let buf ← blitO st.2 (i * (obj * l.g.sites / 2 ^ p * w)) small
            ok (small, buf)) st xs =
        foldO (fun (st : List Byte × List Byte) i => do
          let x ← h5read be E ((a * s + i * (s / 2 ^ p)) :: ((mulL q S).reverse ++ more obj 0)) (s / 2 ^ p :: (S.reverse ++ more obj obj))
          if obj * l.g.sites / 2 ^ p * w < x.length then ub
          else do
            let small := x ++ st.1.drop x.length
            let buf ← blitO st.2 (i * (obj * l.g.sites / 2 ^ p * w)) small
            ok (small, buf)) st xs := by
      intro xs hxs
      induction xs with
      | nil => intro st; rfl
      | cons x xs ih =>
        intro st
        rw [foldO, foldO, hread x (hxs x (by simp))]
        congr 1
        funext st'
        exact ih (fun y hy => hxs y (by simp [hy])) st'
    rw [this _ (fun x hx => hx)]
  rw [hlat]

/-! ## examples -/

/-- a 4 by 2 lattice on two nodes, split along the second direction, and on one node -/
def lay2 : Lay := ⟨geomLex [4, 2] (lexMachine [1, 2]) [4, 1], lexMachine [1, 2], [4, 1]⟩
def lay1 : Lay := ⟨geomLex [4, 2] (lexMachine [1, 1]) [4, 2], lexMachine [1, 1], [4, 2]⟩

theorem lay2_good : lay2.Good where
  mach := lexMachine_good _
  cut := by simp [lay2, geomLex, Cut, lexMachine]
  nodes := rfl
  sites := rfl
  node := rfl
  good := C02_lexico [4, 2] [4, 1] (lexMachine [1, 2]) (lexMachine_good _) (by simp [Cut, lexMachine]) (by decide) (by decide) (by simp [lexMachine]) (by decide)
  ne := by decide
  pos := by decide

theorem lay1_good : lay1.Good where
  mach := lexMachine_good _
  cut := by simp [lay1, geomLex, Cut, lexMachine]
  nodes := rfl
  sites := rfl
  node := rfl
  good := C02_lexico [4, 2] [4, 2] (lexMachine [1, 1]) (lexMachine_good _) (by simp [Cut, lexMachine]) (by decide) (by decide) (by simp [lexMachine]) (by decide)
  ne := by decide
  pos := by decide

/-- two numbers at a site -/
def f2 : List Nat → List (List Byte) := fun c => [[0, 0, 0, BitVec.ofNat 8 (rank c [4, 2])], [1, 0, 0, BitVec.ofNat 8 (rank c [4, 2])]]
def mem2 : Mem := fun n => (List.range 4).flatMap fun i => mem false (f2 (digits (4 * n + i) [4, 2]))

/-- written on two little-endian nodes, read on one big-endian node -/
example : (do
    let D ← write 4 false lay2 ⟨.f32, 2⟩ [mem2]
    read cvZero true lay1 ⟨.f32, 2⟩ true (fun _ => 7) D 0 (List.replicate 64 9)) =
    ok [(List.range 8).flatMap fun i => mem true (f2 (digits i [4, 2]))] := by decide +kernel
/-- as an array of two real fields -/
example : (do
    let D ← write 4 false lay2 ⟨.f32, 2⟩ [mem2]
    readArr cvZero true lay1 ⟨.f32, 1⟩ true (fun _ => 7) D 0) =
    ok [(List.range 8).flatMap fun i => mem true [[0, 0, 0, BitVec.ofNat 8 i]], (List.range 8).flatMap fun i => mem true [[1, 0, 0, BitVec.ofNat 8 i]]] := by decide +kernel
/-- as a field with one number at a site: no error -/
example : (do
    let D ← write 4 false lay2 ⟨.f32, 2⟩ [mem2]
    read cvZero true lay1 ⟨.f32, 1⟩ true (fun _ => 7) D 0 (List.replicate 32 9)) =
    ok [[0, 0, 0, 0, 1, 0, 0, 0, 0, 0, 0, 1, 1, 0, 0, 1, 0, 0, 0, 2, 1, 0, 0, 2, 0, 0, 0, 3, 1, 0, 0, 3]] := by decide +kernel
/-- in the order of the file the extents do not agree -/
example : (do
    let D ← write 4 false lay2 ⟨.f32, 2⟩ [mem2]
    read cvZero true lay1 ⟨.f32, 2⟩ false (fun _ => 7) D 0 (List.replicate 64 9)) = abort := by decide +kernel
/-- the first extent is halved: 3 GB in units of 4 bytes are written in two parts of 1 -/
example : halve 4 64 (3 * 2 ^ 28) 3 = (3 * 2 ^ 27, 1, 1) := by decide +kernel
example : EvenSplit 4 (3 * 2 ^ 28) 4 := by
  intro p hp
  rcases p with _ | _ | p
  · decide
  · decide
  · have := hp 1 (by omega)
    norm_num at this
    omega
example : ¬ EvenSplit 4 (3 * 2 ^ 28) 3 := by
  intro h
  have := h 1 (by intro q hq; rw [show q = 0 by omega]; decide)
  revert this
  decide
example : ∀ q, q < 1 → 2 ^ 31 < 4 * 2 * (3 * 2 ^ 26) / 2 ^ q * 4 := by intro q hq; rw [show q = 0 by omega]; decide
/-- the transposition of a part of 1 by 2 by 1 by 2 sites -/
example : transpose [1, 2, 1, 2] 1 [0, 1, 2, 3] = ok [0, 2, 1, 3] := by decide +kernel
example : EvenSplit 4 (4 * 2 * lay2.g.sites) (lay2.S.getLast lay2_good.ne) := evenSplit_small (by decide)
theorem f2_ok : IsT lay2.g.L ⟨.f32, 2⟩ f2 := fun _ _ => ⟨rfl, by simp [f2, Word.size]⟩
/-- the hypotheses of the theorems -/
example : HoldsT false lay2.g ⟨.f32, 2⟩ mem2 f2 := by
  refine nodeHolds_iff.2 fun n hn => ?_
  have hn : n < 2 := hn
  refine ⟨by simp [mem2, f2, mem, lay2, geomLex, nsites, Ty.size, Word.size, host], fun i c hi hc => ?_⟩
  have hi : i < 4 := hi
  have : n = 0 ∨ n = 1 := by omega
  rcases this with rfl | rfl <;> (have : i = 0 ∨ i = 1 ∨ i = 2 ∨ i = 3 := by omega) <;> rcases this with rfl | rfl | rfl | rfl <;>
    (revert hc; rw [show lay2.g.siteCoords _ _ = ok _ from rfl]; intro hc; injection hc with hc; subst hc; decide)

/-! ### what is accepted -/

theorem readLattice_accepts {be : Bool} {l : Lay} {D : Dset} {base obj tot : Nat} {float invert : Bool} {J : Nat → Byte} {n : Nat} {b : List Byte}
    (h : readLattice be l D base float obj tot invert J n = ok b) : float = true ∧ (base = 4 ∨ base = 8) := by
  unfold readLattice at h
  split at h
  · simp at h
  · next hb =>
    split at h
    · simp at h
    · next hf => exact ⟨by simpa using hf, by omega⟩

theorem mismatch_false {l : Lay} {D : Dset} {invert : Bool} (h : ¬ mismatch l D invert = true) :
    D.dims.take l.g.L.length = if invert then l.g.L.reverse else l.g.L := by
  simpa [mismatch] using h

/-- C77: a field is only read from a data set of floating-point numbers of 4 or 8 bytes whose first extents are those of the lattice -/
theorem C77_accepts {cv : Word → Word → List Byte → List Byte} {be : Bool} {l : Lay} {T : Ty} {invert : Bool} {J : Nat → Byte} {D : Dset} {n : Nat} {m : List Byte}
    {r : List (List Byte)} (h : read cv be l T invert J D n m = ok r ∨ readArr cv be l T invert J D n = ok r) :
    D.kind = .real ∧ D.float = true ∧ (D.elem = 4 ∨ D.elem = 8) ∧ D.dims.length = l.g.L.length + 1 ∧
      D.dims.take l.g.L.length = if invert then l.g.L.reverse else l.g.L := by
  rcases h with h | h
  · unfold read at h
    split at h
    · simp at h
    · split at h
      · simp at h
      · next hd =>
        split at h
        · simp at h
        · next hm =>
          obtain ⟨o, _, h⟩ := bind_eq_ok.1 h
          obtain ⟨b, hb, _⟩ := bind_eq_ok.1 h
          obtain ⟨h1, h2⟩ := readLattice_accepts hb
          simp only [Bool.and_eq_true, decide_eq_true_eq] at h1
          exact ⟨h1.1, h1.2, h2, by omega, mismatch_false hm⟩
  · unfold readArr at h
    split at h
    · simp at h
    · split at h
      · simp at h
      · next hd =>
        split at h
        · simp at h
        · next hm =>
          obtain ⟨o, _, h⟩ := bind_eq_ok.1 h
          obtain ⟨a, _, h⟩ := bind_eq_ok.1 h
          obtain ⟨c, _, h⟩ := bind_eq_ok.1 h
          obtain ⟨b, hb, _⟩ := bind_eq_ok.1 h
          obtain ⟨h1, h2⟩ := readLattice_accepts hb
          simp only [Bool.and_eq_true, decide_eq_true_eq] at h1
          exact ⟨h1.1, h1.2, h2, by omega, mismatch_false hm⟩

/-- C77: the readers of colour matrices and propagators only read data sets of these, made of floating-point numbers of 4 or 8 bytes -/
theorem C77_typed_accepts {cv : Word → Word → List Byte → List Byte} {be : Bool} {l : Lay} {K : Kind} {w : Word} {invert : Bool} {J : Nat → Byte} {D : Dset} {n : Nat}
    {m : List Byte} {r : List (List Byte)} (h : readTyped cv be l K w invert J D n m = ok r ∨ readTypedArr cv be l K w invert J D n = ok r) :
    D.kind = K ∧ D.float = true ∧ (D.w = 4 ∨ D.w = 8) ∧ D.dims.take l.g.L.length = if invert then l.g.L.reverse else l.g.L := by
  rcases h with h | h
  · unfold readTyped at h
    split at h
    · simp at h
    · next hk =>
      split at h
      · simp at h
      · split at h
        · simp at h
        · next hm =>
          obtain ⟨b, hb, _⟩ := bind_eq_ok.1 h
          obtain ⟨h1, h2⟩ := readLattice_accepts hb
          exact ⟨by simpa using hk, h1, h2, mismatch_false hm⟩
  · unfold readTypedArr at h
    obtain ⟨a, _, h⟩ := bind_eq_ok.1 h
    split at h
    · simp at h
    · next hk =>
      split at h
      · simp at h
      · split at h
        · simp at h
        · next hm =>
          obtain ⟨b, hb, _⟩ := bind_eq_ok.1 h
          obtain ⟨h1, h2⟩ := readLattice_accepts hb
          exact ⟨by simpa using hk, h1, h2, mismatch_false hm⟩

end Verif.Hdf5
