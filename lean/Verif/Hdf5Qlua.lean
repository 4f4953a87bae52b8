import Verif.Hdf5More
/-
Property C78: gauge fields in the format of Qlua, lib/qdp_hdf5.cc:1343-1391, 1395-1443, 2634-2684.

A group has data sets with the names 0, 1, ...; all objects in it are taken for data sets.  The attribute `.kind` is written and never read, it is left out.
-/
namespace Verif.Hdf5
open Verif Outcome ByteOrder Verif.Layout Verif.ParLayout Verif.Subset Verif.BinIO Verif.LatticeIO Verif.QioField

/-! ## model -/

/-- what is found at a name: something else, or a group with its numbered data sets -/
inductive Obj | other | group (sets : Nat → Option Dset)

/-- the data sets 0 to `nd-1` exist -/
def complete (nd : Nat) (s : Nat → Option Dset) : Bool := (List.range nd).all fun i => (s i).isSome

/-- the data sets of a new configuration, lib/qdp_hdf5.cc:2667-2674 -/
def writeSets (real : Nat) (be : Bool) (l : Lay) (Ms : List Mem) : Outcome Obj := do
  let sets ← mapO (fun M => writeTyped real be l (.colmat 3) .f64 [M]) Ms
  ok (.group fun i => sets[i]?)

/-- `writeQlua`, lib/qdp_hdf5.cc:2634-2684; `old` is what is at the name before -/
def writeQlua (real : Nat) (be : Bool) (l : Lay) (trunc : Bool) (old : Option Obj) (Ms : List Mem) : Outcome Obj :=
  if Ms.length ≠ l.g.L.length then abort
  else match old with
    | none => writeSets real be l Ms
    | some o =>
      if !trunc then abort
      else match o with
        | .other => abort
        | .group s => if !complete l.g.L.length s then abort else writeSets real be l Ms

/-- a data set that must exist, lib/qdp_hdf5.cc:770-775 -/
def dset : Option Dset → Outcome Dset
  | some D => ok D
  | none => abort

/-- `readQlua` of a gauge field on node `n`, lib/qdp_hdf5.cc:1343-1391 -/
def readQlua (cv : Word → Word → List Byte → List Byte) (be : Bool) (l : Lay) (J : Nat → Byte) (o : Option Obj) (n : Nat) : Outcome (List (List Byte)) :=
  match o with
  | none => abort
  | some .other => abort
  | some (.group s) =>
    if !complete l.g.L.length s then abort
    else if (s l.g.L.length).isSome then abort
    else mapO (fun i => do
      let D ← dset (s i)
      let r ← readTyped cv be l (.colmat 3) .f64 false J D n (fresh J (l.g.sites * 144))
      rd r 0) (List.range l.g.L.length)

/-- `readQlua` of a propagator, lib/qdp_hdf5.cc:1395-1443 -/
def readQluaProp (cv : Word → Word → List Byte → List Byte) (be : Bool) (l : Lay) (J : Nat → Byte) (D : Option Dset) (n : Nat) (m : List Byte) : Outcome (List (List Byte)) :=
  match D with
  | none => abort
  | some D => readTyped cv be l (.prop 4 3) .f64 false J D n m

/-! ## proofs -/

/-- reading matrices stored with the first coordinate first -/
theorem typed_maintain {cv : Word → Word → List Byte → List Byte} (hcv : Conv cv) (be : Bool) {l : Lay} (h : l.Good) (h4 : l.g.L.length = 4) (K : Kind) (b : Word) {w : Nat}
    (hw : w = 4 ∨ w = 8) {f : List Nat → List (List Byte)} (hf : IsField l.g.L w K.n f) {D : Dset} (hD : StoredM l.g.L K w 1 f D)
    (he : EvenSplit w (l.g.sites * K.n) (l.S.head h.ne)) (J : Nat → Byte) (n : Nat) (hn : n < l.g.nodes) (m : List Byte) (hm : m.length = l.g.sites * (b.size * K.n)) :
    ∃ m', readTyped cv be l K b false J D n m = ok [m'] ∧ NodeHolds be l.g ⟨b, K.n⟩ n m' fun c => (f c).map (conv cv w b) := by
  have hd : D.dims = l.g.L := by rw [hD.dims]; simp [more]
  have d3 : mismatch l D false = false := by simp [mismatch, hd]
  have hr := readLattice_maintain (be := be) h h4 (K := K) (w := w) (obj := 1) (by omega) hw (F := f) (by rw [Nat.one_mul]; exact hf) hD
    (by rw [Nat.mul_one]; exact he) J hn (tot := l.g.sites * K.n) (by simp)
  obtain ⟨ms', s1, s2⟩ := store_ok hcv (be := be) h (T := ⟨b, K.n⟩) hw hn (ms := [m]) (fs := [f]) (by simpa using hf) (by simp only [List.mem_singleton, forall_eq]; exact hm) rfl (tot := l.g.sites * K.n) (by simp)
  rw [arrWords_one] at s1
  rw [readTyped, if_neg (by simp [hD.kind]), if_neg (by rw [hd]; simp), if_neg (by rw [d3]; decide)]
  simp only [hD.word, hD.float]
  rw [hr, ok_bind, s1]
  cases s2 with
  | cons a b =>
    cases b
    exact ⟨_, rfl, a⟩

theorem mapO_forall {α β γ : Type} {R : β → γ → Prop} {f : α → Outcome β} (g : α → γ) : ∀ {l : List α}, (∀ x ∈ l, ∃ y, f x = ok y ∧ R y (g x)) →
    ∃ ys, mapO f l = ok ys ∧ List.Forall₂ R ys (l.map g)
  | [], _ => ⟨[], rfl, .nil⟩
  | x :: l, h => by
    obtain ⟨y, h1, h2⟩ := h x (by simp)
    obtain ⟨ys, h3, h4⟩ := mapO_forall (R := R) (f := f) g (l := l) fun z hz => h z (by simp [hz])
    exact ⟨y :: ys, by simp [mapO, h1, h3], .cons h2 h4⟩

/-- a configuration: exactly the data sets of the fields, in the order of the file -/
structure Config (L : List Nat) (fs : List (List Nat → List (List Byte))) (s : Nat → Option Dset) : Prop where
  len : fs.length = L.length
  sets : ∀ i f, fs[i]? = some f → ∃ D, s i = some D ∧ StoredM L (.colmat 3) 8 1 f D
  last : s L.length = none

theorem complete_of {nd : Nat} {s : Nat → Option Dset} (h : ∀ i, i < nd → ∃ D, s i = some D) : complete nd s = true := by
  rw [complete, List.all_eq_true]
  intro i hi
  obtain ⟨D, hD⟩ := h i (List.mem_range.1 hi)
  simp [hD]

/-- **C78**, reading: a configuration with the first coordinate first and double precision is read, four dimensions. -/
theorem C78_read {cv : Word → Word → List Byte → List Byte} (hcv : Conv cv) (be : Bool) {l : Lay} (h : l.Good) (h4 : l.g.L.length = 4)
    {fs : List (List Nat → List (List Byte))} (hf : ∀ f ∈ fs, IsField l.g.L 8 18 f) {s : Nat → Option Dset} (hs : Config l.g.L fs s)
    (he : EvenSplit 8 (l.g.sites * 18) (l.S.head h.ne)) (J : Nat → Byte) (n : Nat) (hn : n < l.g.nodes) :
    ∃ ms, readQlua cv be l J (some (.group s)) n = ok ms ∧ List.Forall₂ (NodeHolds be l.g ⟨.f64, 18⟩ n) ms fs := by
  have hlen := hs.len
  have hc : complete l.g.L.length s = true := complete_of fun i hi => by
    obtain ⟨D, h1, -⟩ := hs.sets i (fs[i]'(by omega)) (by simp)
    exact ⟨D, h1⟩
  rw [readQlua, hc, if_neg (by decide), hs.last, if_neg (by simp)]
  have hmap : (List.range l.g.L.length).map (fun i => fs[i]?.getD fun _ => []) = fs := by
    apply List.ext_getElem
    · simp [hlen]
    · intro i h1 h2
      simp [h2]
  rw [← hmap]
  refine mapO_forall _ fun i hi => ?_
  have hi := List.mem_range.1 hi
  have hif : i < fs.length := by omega
  obtain ⟨D, h1, h2⟩ := hs.sets i fs[i] (by simp)
  obtain ⟨m', r1, r2⟩ := typed_maintain hcv be h h4 (.colmat 3) .f64 (Or.inr rfl) (hf _ (List.getElem_mem hif)) h2 he J n hn (fresh J (l.g.sites * 144))
    (by rw [fresh_length]; rfl)
  refine ⟨m', ?_, ?_⟩
  · rw [h1, dset, ok_bind, r1]
    rfl
  · have : (fun c => (fs[i] c).map (conv cv 8 .f64)) = fs[i] := by
      funext c
      have : conv cv 8 .f64 = id := by funext v; simp [conv, Word.size]
      rw [this, List.map_id]
    rw [this] at r2
    simpa [hif, Kind.n] using r2

/-- **C78**, reading: a propagator with the first coordinate first is read, four dimensions; numbers in single precision are converted. -/
theorem C78_read_prop {cv : Word → Word → List Byte → List Byte} (hcv : Conv cv) (be : Bool) {l : Lay} (h : l.Good) (h4 : l.g.L.length = 4) {w : Nat} (hw : w = 4 ∨ w = 8)
    {f : List Nat → List (List Byte)} (hf : IsField l.g.L w 288 f) {D : Dset} (hD : StoredM l.g.L (.prop 4 3) w 1 f D)
    (he : EvenSplit w (l.g.sites * 288) (l.S.head h.ne)) (J : Nat → Byte) (n : Nat) (hn : n < l.g.nodes) (m : List Byte) (hm : m.length = l.g.sites * (8 * 288)) :
    ∃ m', readQluaProp cv be l J (some D) n m = ok [m'] ∧ NodeHolds be l.g ⟨.f64, 288⟩ n m' fun c => (f c).map (conv cv w .f64) :=
  typed_maintain hcv be h h4 (.prop 4 3) .f64 hw hf hD he J n hn m hm

theorem writeSets_ok (real : Nat) (be : Bool) {l : Lay} (h : l.Good) {Ms : List Mem} {fs : List (List Nat → List (List Byte))} (hf : ∀ f ∈ fs, IsT l.g.L ⟨.f64, 18⟩ f)
    (hM : List.Forall₂ (HoldsT be l.g ⟨.f64, 18⟩) Ms fs) (he : EvenSplit real (144 * l.g.sites) (l.S.getLast h.ne)) :
    ∃ Ds, mapO (fun M => writeTyped real be l (.colmat 3) .f64 [M]) Ms = ok Ds ∧ List.Forall₂ (fun f D => Stored l.g.L (.colmat 3) 8 1 f D) fs Ds := by
  induction hM with
  | nil => exact ⟨[], rfl, .nil⟩
  | @cons M f Ms fs h1 h2 ih =>
    obtain ⟨D, w1, w2⟩ := C77_write_typed real be h (.colmat 3) .f64 (Ms := [M]) (fs := [f]) (by simp only [List.mem_singleton, forall_eq]; exact hf f (by simp))
      (.cons h1 .nil) (by simp) (by simpa [Kind.n, Word.size] using he)
    obtain ⟨Ds, w3, w4⟩ := ih fun g hg => hf g (by simp [hg])
    rw [arrWords_one] at w2
    exact ⟨D :: Ds, by simp [mapO, w1, w3], .cons w2 w4⟩

/-- what may be at the name before -/
def Allowed (nd : Nat) (trunc : Bool) : Option Obj → Prop
  | none => True
  | some .other => False
  | some (.group s) => trunc = true ∧ ∀ i, i < nd → ∃ D, s i = some D

/-- **C78**, writing: a gauge field is written at a free name, or, in the mode `trunc`, over a configuration; each data set has one field with the last
coordinate first. -/
theorem C78_write (real : Nat) (be : Bool) {l : Lay} (h : l.Good) {trunc : Bool} {old : Option Obj} (ho : Allowed l.g.L.length trunc old) {Ms : List Mem}
    {fs : List (List Nat → List (List Byte))} (hl : fs.length = l.g.L.length) (hf : ∀ f ∈ fs, IsT l.g.L ⟨.f64, 18⟩ f)
    (hM : List.Forall₂ (HoldsT be l.g ⟨.f64, 18⟩) Ms fs) (he : EvenSplit real (144 * l.g.sites) (l.S.getLast h.ne)) :
    ∃ s, writeQlua real be l trunc old Ms = ok (.group s) ∧ s l.g.L.length = none ∧
      ∀ i f, fs[i]? = some f → ∃ D, s i = some D ∧ Stored l.g.L (.colmat 3) 8 1 f D := by
  obtain ⟨Ds, h1, h2⟩ := writeSets_ok real be h hf hM he
  have hw : writeSets real be l Ms = ok (.group fun i => Ds[i]?) := by rw [writeSets, h1]; rfl
  refine ⟨fun i => Ds[i]?, ?_, ?_, ?_⟩
  · unfold writeQlua
    rw [if_neg (by rw [hM.length_eq, hl]; simp)]
    cases old with
    | none => exact hw
    | some o =>
      cases o with
      | other => exact absurd ho (by simp [Allowed])
      | group s =>
        obtain ⟨rfl, hs⟩ := ho
        simp only
        rw [if_neg (by decide), complete_of hs, if_neg (by decide)]
        exact hw
  · exact List.getElem?_eq_none (by rw [← h2.length_eq, hl])
  · intro i f hi
    obtain ⟨hlt, hif⟩ := List.getElem?_eq_some_iff.1 hi
    have hlt' : i < Ds.length := by rw [← h2.length_eq]; exact hlt
    have := List.forall₂_iff_get.1 h2 |>.2 i hlt hlt'
    refine ⟨Ds[i], by simp, ?_⟩
    rw [← hif]
    exact this

/-- **C78**, writing: what is refused. -/
theorem C78_refused (real : Nat) (be : Bool) {l : Lay} {trunc : Bool} {old : Option Obj} {Ms : List Mem} (ho : Ms.length ≠ l.g.L.length ∨ ¬ Allowed l.g.L.length trunc old) :
    writeQlua real be l trunc old Ms = abort := by
  unfold writeQlua
  by_cases hl : Ms.length ≠ l.g.L.length
  · rw [if_pos hl]
  · rw [if_neg hl]
    have ho := ho.resolve_left hl
    cases old with
    | none => exact absurd trivial ho
    | some o =>
      cases o with
      | other => cases trunc <;> rfl
      | group s =>
        cases trunc with
        | false => rfl
        | true =>
          have hc : complete l.g.L.length s = false := by
            rw [Bool.eq_false_iff]
            intro hc
            refine ho ⟨rfl, fun i hi => ?_⟩
            rw [complete, List.all_eq_true] at hc
            exact Option.isSome_iff_exists.1 (hc i (List.mem_range.2 hi))
          simp [hc]

theorem readTyped_abort {cv : Word → Word → List Byte → List Byte} {be : Bool} {l : Lay} {b : Word} {f : List Nat → List (List Byte)} {K : Kind} {w : Nat} {D : Dset}
    (hD : Stored l.g.L K w 1 f D) (hL : l.g.L.reverse ≠ l.g.L) (J : Nat → Byte) (n : Nat) (m : List Byte) :
    readTyped cv be l K b false J D n m = abort := by
  have hd : D.dims = l.g.L.reverse := by rw [hD.dims]; simp [more]
  have d3 : mismatch l D false = true := by
    rw [mismatch, hd, List.take_of_length_le (by simp), if_neg (by decide)]
    exact decide_eq_true hL
  rw [readTyped, if_neg (by simp [hD.kind]), if_neg (by rw [hd]; simp), if_pos d3]

/-- **C78** fails: unless the extents are the same from both ends, a gauge field written by `writeQlua` is refused by `readQlua`, on every machine. -/
theorem C78_roundtrip_fails (real : Nat) (be : Bool) {l : Lay} (h : l.Good) (hL : l.g.L.reverse ≠ l.g.L) {Ms : List Mem} {fs : List (List Nat → List (List Byte))}
    (hl : fs.length = l.g.L.length) (hf : ∀ f ∈ fs, IsT l.g.L ⟨.f64, 18⟩ f) (hM : List.Forall₂ (HoldsT be l.g ⟨.f64, 18⟩) Ms fs)
    (he : EvenSplit real (144 * l.g.sites) (l.S.getLast h.ne)) :
    ∃ o, writeQlua real be l false none Ms = ok o ∧ ∀ cv be' (l' : Lay) J n, l'.g.L = l.g.L → readQlua cv be' l' J (some o) n = abort := by
  obtain ⟨s, h1, h2, h3⟩ := C78_write real be h (trunc := false) (old := none) trivial hl hf hM he
  refine ⟨_, h1, fun cv be' l' J n hL' => ?_⟩
  have hpos : 0 < l.g.L.length := by
    rw [h.len.2]
    exact List.length_pos_iff.2 h.ne
  have hc : complete l'.g.L.length s = true := complete_of fun i hi => by
    rw [hL'] at hi
    obtain ⟨D, h1, -⟩ := h3 i (fs[i]'(by omega)) (by simp)
    exact ⟨D, h1⟩
  obtain ⟨D, d1, d2⟩ := h3 0 (fs[0]'(by omega)) (by simp)
  rw [readQlua, hc, if_neg (by decide), hL', h2, if_neg (by simp)]
  obtain ⟨k, hk⟩ : ∃ k, l.g.L.length = k + 1 := ⟨l.g.L.length - 1, by omega⟩
  rw [hk, List.range_succ_eq_map, mapO, d1, dset, ok_bind, readTyped_abort (by rw [hL']; exact d2) (by rw [hL']; exact hL)]
  rfl

/-- what is stored with the last coordinate first is, for extents the same from both ends, the transposed field stored with the first coordinate first -/
theorem storedM_of {L : List Nat} (hL : L.reverse = L) {K : Kind} {w : Nat} {f : List Nat → List (List Byte)} {D : Dset} (h : Stored L K w 1 f D) :
    StoredM L K w 1 (fun c => f c.reverse) D where
  kind := h.kind
  float := h.float
  word := h.word
  dims := by rw [h.dims, hL]
  data := fun c hc j hj => by
    have := h.data c.reverse (by
      have := inRange_reverse hc
      rwa [hL] at this) j hj
    rwa [List.reverse_reverse] at this

/-- **C78** fails: if the extents are the same from both ends, a gauge field written by `writeQlua` is read by `readQlua` with the coordinates of every site in
the opposite order. -/
theorem C78_transposed {cv : Word → Word → List Byte → List Byte} (hcv : Conv cv) (real : Nat) (be be' : Bool) {l l' : Lay} (h : l.Good) (h' : l'.Good) (hl' : l'.g.L = l.g.L)
    (h4 : l.g.L.length = 4) (hL : l.g.L.reverse = l.g.L) {Ms : List Mem} {fs : List (List Nat → List (List Byte))} (hl : fs.length = l.g.L.length)
    (hf : ∀ f ∈ fs, IsT l.g.L ⟨.f64, 18⟩ f) (hM : List.Forall₂ (HoldsT be l.g ⟨.f64, 18⟩) Ms fs) (he : EvenSplit real (144 * l.g.sites) (l.S.getLast h.ne))
    (he' : EvenSplit 8 (l'.g.sites * 18) (l'.S.head h'.ne)) :
    ∃ o, writeQlua real be l false none Ms = ok o ∧ ∀ J n, n < l'.g.nodes →
      ∃ ms, readQlua cv be' l' J (some o) n = ok ms ∧ List.Forall₂ (NodeHolds be' l'.g ⟨.f64, 18⟩ n) ms (fs.map fun f c => f c.reverse) := by
  obtain ⟨s, h1, h2, h3⟩ := C78_write real be h (trunc := false) (old := none) trivial hl hf hM he
  refine ⟨_, h1, fun J n hn => C78_read hcv be' h' (by rw [hl', h4]) ?_ ⟨by rw [hl']; simpa using hl, ?_, by rw [hl']; exact h2⟩ he' J n hn⟩
  · intro g hg
    obtain ⟨f, hff, rfl⟩ := List.mem_map.1 hg
    intro c hc
    rw [hl'] at hc
    have hc := inRange_reverse hc
    rw [hL] at hc
    exact hf f hff _ hc
  · intro i g hg
    rw [List.getElem?_map, Option.map_eq_some_iff] at hg
    obtain ⟨f, hfi, rfl⟩ := hg
    obtain ⟨D, d1, d2⟩ := h3 i f hfi
    exact ⟨D, d1, by rw [hl']; exact storedM_of hL d2⟩

/-- **C78**, the round trip.  Missing from the claim: fields that change when the coordinates are taken in the opposite order; they are refuted above. -/
theorem C78_roundtrip_partial {cv : Word → Word → List Byte → List Byte} (hcv : Conv cv) (real : Nat) (be be' : Bool) {l l' : Lay} (h : l.Good) (h' : l'.Good) (hl' : l'.g.L = l.g.L)
    (h4 : l.g.L.length = 4) (hL : l.g.L.reverse = l.g.L) {Ms : List Mem} {fs : List (List Nat → List (List Byte))} (hl : fs.length = l.g.L.length)
    (hf : ∀ f ∈ fs, IsT l.g.L ⟨.f64, 18⟩ f) (hs : ∀ f ∈ fs, ∀ c, InRange c l.g.L → f c.reverse = f c) (hM : List.Forall₂ (HoldsT be l.g ⟨.f64, 18⟩) Ms fs)
    (he : EvenSplit real (144 * l.g.sites) (l.S.getLast h.ne)) (he' : EvenSplit 8 (l'.g.sites * 18) (l'.S.head h'.ne)) :
    ∃ o, writeQlua real be l false none Ms = ok o ∧ ∀ J n, n < l'.g.nodes →
      ∃ ms, readQlua cv be' l' J (some o) n = ok ms ∧ List.Forall₂ (NodeHolds be' l'.g ⟨.f64, 18⟩ n) ms fs := by
  obtain ⟨o, h1, h2⟩ := C78_transposed hcv real be be' h h' hl' h4 hL hl hf hM he he'
  refine ⟨o, h1, fun J n hn => ?_⟩
  obtain ⟨ms, h3, h4'⟩ := h2 J n hn
  refine ⟨ms, h3, ?_⟩
  rw [List.forall₂_map_right_iff] at h4'
  refine List.forall₂_iff_get.2 ⟨h4'.length_eq, fun i a b => ?_⟩
  have := (List.forall₂_iff_get.1 h4').2 i a b
  refine ⟨this.1, fun j c hj hc => ?_⟩
  obtain ⟨c', k1, k2, -⟩ := h'.good.2 n j hn hj
  rw [hc] at k1
  injection k1 with k1
  rw [← k1, hl'] at k2
  rw [this.2 j c hj hc]
  exact congrArg (mem be') (hs _ (List.get_mem fs ⟨i, b⟩) c k2)

/-- **C78**: each data set that is written can be read by `read` in the mode `transpose_order`, the default. -/
theorem C78_ordinary {cv : Word → Word → List Byte → List Byte} (hcv : Conv cv) (real : Nat) (be be' : Bool) {l l' : Lay} (h : l.Good) (h' : l'.Good) (hl' : l'.g.L = l.g.L)
    {trunc : Bool} {old : Option Obj} (ho : Allowed l.g.L.length trunc old) {Ms : List Mem} {fs : List (List Nat → List (List Byte))} (hl : fs.length = l.g.L.length)
    (hf : ∀ f ∈ fs, IsT l.g.L ⟨.f64, 18⟩ f) (hM : List.Forall₂ (HoldsT be l.g ⟨.f64, 18⟩) Ms fs) (he : EvenSplit real (144 * l.g.sites) (l.S.getLast h.ne))
    (he' : EvenSplit 8 (l'.g.sites * 18) (l'.S.getLast h'.ne)) :
    ∃ s, writeQlua real be l trunc old Ms = ok (.group s) ∧ ∀ i f, fs[i]? = some f → ∃ D, s i = some D ∧ ∀ J n m, n < l'.g.nodes → m.length = l'.g.sites * 144 →
      ∃ m', readTyped cv be' l' (.colmat 3) .f64 true J D n m = ok [m'] ∧ NodeHolds be' l'.g ⟨.f64, 18⟩ n m' f := by
  obtain ⟨s, h1, -, h3⟩ := C78_write real be h ho hl hf hM he
  refine ⟨s, h1, fun i f hi => ?_⟩
  obtain ⟨D, d1, d2⟩ := h3 i f hi
  refine ⟨D, d1, fun J n m hn hm => ?_⟩
  have hff := hf f (List.mem_of_getElem? hi)
  obtain ⟨m', r1, r2⟩ := C77_read_typed hcv be' h' (.colmat 3) .f64 (w := 8) (Or.inr rfl) (by rw [hl']; exact hff) (by rw [hl']; exact d2) he' J n hn m hm
  refine ⟨m', r1, ?_⟩
  have : (fun c => (f c).map (conv cv 8 .f64)) = f := by
    funext c
    have : conv cv 8 .f64 = id := by funext v; simp [conv, Word.size]
    rw [this, List.map_id]
  rwa [this] at r2

/-! ## examples -/

/-- a 1 by 2 by 2 by 1 lattice on one node -/
def layQ : Lay := ⟨geomLex [1, 2, 2, 1] (lexMachine [1, 1, 1, 1]) [1, 2, 2, 1], lexMachine [1, 1, 1, 1], [1, 2, 2, 1]⟩
/-- the last byte of the first word is the number of the site -/
def fQ (c : List Nat) : List (List Byte) := [0, 0, 0, 0, 0, 0, 0, BitVec.ofNat 8 (rank c [1, 2, 2, 1])] :: List.replicate 17 (List.replicate 8 0)
def memQ : Mem := fun _ => (List.range 4).flatMap fun i => mem true (fQ (digits i [1, 2, 2, 1]))

theorem layQ_good : layQ.Good where
  mach := lexMachine_good _
  cut := by simp [layQ, geomLex, Cut, lexMachine]
  nodes := rfl
  sites := rfl
  node := rfl
  good := C02_lexico [1, 2, 2, 1] [1, 2, 2, 1] (lexMachine [1, 1, 1, 1]) (lexMachine_good _) (by simp [Cut, lexMachine]) (by decide) (by decide) (by simp [lexMachine]) (by decide)
  ne := by decide
  pos := by decide

/-- the sites 1 and 2 are exchanged -/
def swapped (o : Outcome (List (List Byte))) : Bool :=
  match o with
  | ok [m, _, _, _] => decide ([m[7]?, m[144 + 7]?, m[288 + 7]?, m[432 + 7]?] = [some 0, some 2, some 1, some 3])
  | _ => false

set_option maxRecDepth 100000 in
example : swapped (do
    let o ← writeQlua 8 true layQ false none [memQ, memQ, memQ, memQ]
    readQlua cvZero true layQ (fun _ => 7) (some o) 0) = true := by decide +kernel
example : layQ.g.L.reverse = layQ.g.L := by decide
/-- extents that are not the same from both ends -/
example : lay2.g.L.reverse ≠ lay2.g.L := by decide
/-- only one data set -/
example : ¬ Allowed 2 true (some (.group fun i => if i = 0 then some (create .real 4 [2] 1) else none)) := by
  rintro ⟨-, h⟩
  obtain ⟨D, hD⟩ := h 1 (by omega)
  simp at hD

end Verif.Hdf5
