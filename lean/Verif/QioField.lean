import Verif.LatticeIOProps
import Verif.ParLayoutProps
import Mathlib.Data.List.Perm.Basic
/-
Fields in QIO files: include/qdp_qdpio.h:834-841, 851-931, 942-1030, 1051-1058, 1068-1158, 1183-1421, 1433-1667, with the call-backs of lib/qdp_qdpio.cc:12-38.

QIO itself is not part of the repository.  What is taken of it: a record keeps the precision, the size of a datum and the number of data per site,
and for each of its sites the bytes of the site, in words most significant byte first; in writing the bytes come from a call of the `get` function
on the node that has the site, with the index of the site on that node and the number of data of the record; in reading the byte count per site
asked for is compared with that of the record, and the bytes are handed to the `put` function, likewise.  The order of the calls is left open.
A site type is a number of words of one kind, as all site types of QDP++ are.
-/
namespace Verif.QioField
open Verif Outcome ByteOrder Verif.Layout Verif.ParLayout Verif.Subset Verif.BinIO Verif.LatticeIO

/-! ## model -/

/-- the words sites are made of -/
inductive Word | f32 | f64 | i32 | u8
  deriving DecidableEq

def Word.size : Word → Nat
  | .f32 => 4 | .f64 => 8 | .i32 => 4 | .u8 => 1

/-- `QIOStringTraits<..>::tprec`, include/qdp_qdpio.h:122-124, lib/qdp_qio_strings.cc:27-35 -/
def Word.prec : Word → Char
  | .f32 => 'F' | .f64 => 'D' | .i32 => 'I' | .u8 => 'U'

/-- `SinglePrecType`, include/qdp_traits.h:38-62: other words stay what they are -/
def Word.single : Word → Word
  | .f32 => .f32 | .f64 => .f32 | w => w
/-- `DoublePrecType`, include/qdp_traits.h:44-75 -/
def Word.double : Word → Word
  | .f32 => .f64 | .f64 => .f64 | w => w

/-- a site type -/
structure Ty where
  w : Word
  n : Nat
/-- `sizeof(T)` -/
def Ty.size (T : Ty) : Nat := T.w.size * T.n

/-- the words of `bs` -/
def split (k : Nat) : Nat → List Byte → List (List Byte)
  | 0, _ => []
  | n + 1, bs => bs.take k :: split k n (bs.drop k)

/-- QIO: bring words of `k` bytes between the order of the host and that of the file -/
def order (be : Bool) (k : Nat) (bs : List Byte) : List Byte := mem be (split k (bs.length / k) bs)

/-- a record -/
structure Record where
  prec : Char
  typesize : Nat
  count : Nat
  data : List (List Nat × List Byte)

/-- QIO_write -/
def qioWrite (be : Bool) (g : Geom) (prec : Char) (typesize count : Nat) (get : Nat → Nat → Nat → Outcome (List Byte)) (word : Nat) (sites : List (List Nat)) : Outcome Record := do
  let d ← mapO (fun c => do
    let n ← g.nodeNumber c
    let i ← g.linearSiteIndex c
    let b ← get n i count
    ok (c, order be word b)) sites
  ok ⟨prec, typesize, count, d⟩

/-- QIO_read_record_data; a wrong byte count is an error, on which the readers abort -/
def qioRead {σ : Type} (be : Bool) (g : Geom) (rec : Record) (put : σ → Nat → Nat → Nat → List Byte → Outcome σ) (datum word : Nat) (s : σ) : Outcome σ :=
  if datum ≠ rec.typesize * rec.count then abort
  else foldO (fun s p => do
    let n ← g.nodeNumber p.1
    let i ← g.linearSiteIndex p.1
    put s n i rec.count (order be word p.2)) s rec.data

/-- `QDPOLatticeFactoryGet`, include/qdp_qdpio.h:1433-1440, with a buffer of `datum` bytes -/
def latGet (size : Nat) (M : Mem) (datum n linear count : Nat) : Outcome (List Byte) :=
  if datum < count * size then ub else sliceO (M n) (linear * size) (count * size)

/-- `QDPOLatticeFactoryPut`, include/qdp_qdpio.h:1183-1190 -/
def latPut (size : Nat) (M : Mem) (n linear count : Nat) (buf : List Byte) : Outcome Mem := do
  let b ← sliceO buf 0 (count * size)
  let m ← blitO (M n) (linear * size) b
  ok (M.put n m)

/-- `QDPOLatticeFactoryGetArray`, include/qdp_qdpio.h:1452-1463 -/
def arrGet (size : Nat) : List Mem → Nat → Nat → Nat → Outcome (List Byte)
  | [], _, _, _ => ok []
  | M :: Ms, datum, n, linear =>
    if datum < size then ub
    else do
      let b ← sliceO (M n) (linear * size) size
      let bs ← arrGet size Ms (datum - size) n linear
      ok (b ++ bs)

/-- `QDPOLatticeFactoryPutArray`, include/qdp_qdpio.h:1203-1214 -/
def arrPut (size : Nat) : List Mem → Nat → Nat → List Byte → Outcome (List Mem)
  | [], _, _, _ => ok []
  | M :: Ms, n, linear, buf => do
    let b ← sliceO buf 0 size
    let m ← blitO (M n) (linear * size) b
    let r ← arrPut size Ms n linear (buf.drop size)
    ok (M.put n m :: r)

/-- `QDPFileWriter::write(rec_xml, s1)`, include/qdp_qdpio.h:1475-1508; on a hypercube, 1521-1564 -/
def writeLat (be : Bool) (g : Geom) (T : Ty) (M : Mem) (sites : List (List Nat)) : Outcome Record :=
  qioWrite be g T.w.prec T.size 1 (latGet T.size M T.size) T.w.size sites

/-- arrays, include/qdp_qdpio.h:1575-1609, 1624-1667 -/
def writeArr (be : Bool) (g : Geom) (T : Ty) (Ms : List Mem) (sites : List (List Nat)) : Outcome Record :=
  qioWrite be g T.w.prec T.size Ms.length (fun n i _ => arrGet T.size Ms (Ms.length * T.size) n i) T.w.size sites

/-- `s1 = from_disk` at one site, word by word; `cv` converts a word -/
def castSite (cv : Word → Word → List Byte → List Byte) (be : Bool) (a b : Word) (n : Nat) (bs : List Byte) : List Byte :=
  mem be ((split a.size n bs).map fun w => cv a b (host be w))

/-- `s1 = from_disk` on all sites -/
def cast (cv : Word → Word → List Byte → List Byte) (be : Bool) (g : Geom) (a b : Word) (n : Nat) (M : Mem) : Mem := fun x =>
  (List.range g.sites).flatMap fun i => castSite cv be a b n (((M x).drop (i * (a.size * n))).take (a.size * n))

/-- `zero_rep(from_disk)` -/
def zeroMem (g : Geom) (size : Nat) : Mem := fun _ => List.replicate (g.sites * size) 0

/-- the words of the field the record is read into, by the precision of the record, include/qdp_qdpio.h:1239, 1339 -/
def fileWord (w : Word) (prec : Char) : Word := if prec = 'F' then w.single else if prec = 'D' then w.double else w

/-- `QDPFileReader::read(rec_xml, s1)`, include/qdp_qdpio.h:1224-1314 -/
def readLat (cv : Word → Word → List Byte → List Byte) (be : Bool) (g : Geom) (T : Ty) (rec : Record) (M : Mem) : Outcome Mem :=
  if rec.prec = 'F' ∨ rec.prec = 'D' then do
    let S : Ty := ⟨fileWord T.w rec.prec, T.n⟩
    let D ← qioRead be g rec (latPut S.size) S.size S.w.size (zeroMem g S.size)
    ok (cast cv be g S.w T.w T.n D)
  else qioRead be g rec (latPut T.size) T.size T.w.size M

/-- arrays, include/qdp_qdpio.h:1323-1421 -/
def readArr (cv : Word → Word → List Byte → List Byte) (be : Bool) (g : Geom) (T : Ty) (rec : Record) (Ms : List Mem) : Outcome (List Mem) :=
  if rec.prec = 'F' ∨ rec.prec = 'D' then do
    let S : Ty := ⟨fileWord T.w rec.prec, T.n⟩
    let Ds ← qioRead be g rec (fun s n i _ b => arrPut S.size s n i b) (Ms.length * S.size) S.w.size (Ms.map fun _ => zeroMem g S.size)
    ok (Ds.map (cast cv be g S.w T.w T.n))
  else qioRead be g rec (fun s n i _ b => arrPut T.size s n i b) (Ms.length * T.size) T.w.size Ms

/-! ## specification -/

/-- a conversion between words: nothing to do if they are of the same kind -/
structure Conv (cv : Word → Word → List Byte → List Byte) : Prop where
  same : ∀ a w, cv a a w = w
  size : ∀ a b w, w.length = a.size → (cv a b w).length = b.size

/-- the nodes hold a field of type `T` -/
def HoldsT (be : Bool) (g : Geom) (T : Ty) (M : Mem) (f : List Nat → List (List Byte)) : Prop := Holds be g T.w.size T.n M f

def IsT (L : List Nat) (T : Ty) (f : List Nat → List (List Byte)) : Prop := IsField L T.w.size T.n f

/-- floating-point words -/
def Word.Float : Word → Prop
  | .f32 => True | .f64 => True | _ => False

/-! ## proofs -/

theorem Word.size_pos (w : Word) : 0 < w.size := by cases w <;> decide

theorem split_mem {be : Bool} {k : Nat} : ∀ (ws : List (List Byte)), (∀ w ∈ ws, w.length = k) → split k ws.length (mem be ws) = ws.map (host be)
  | [], _ => rfl
  | w :: ws, h => by
    have hw : (host be w).length = k := by rw [host_length]; exact h w (by simp)
    have e : mem be (w :: ws) = host be w ++ mem be ws := by simp [mem]
    simp only [List.length_cons, split, List.map_cons]
    rw [e, ← hw, List.take_left, List.drop_left, hw, split_mem ws fun v hv => h v (by simp [hv])]

theorem split_flat {k : Nat} (ws : List (List Byte)) (h : ∀ w ∈ ws, w.length = k) : split k ws.length ws.flatten = ws := by
  have := split_mem (be := true) ws h
  rw [mem_true] at this
  rw [this]
  have : host true = id := by funext v; rfl
  rw [this, List.map_id]

theorem order_mem {be : Bool} {k : Nat} (hk : 0 < k) (ws : List (List Byte)) (h : ∀ w ∈ ws, w.length = k) : order be k (mem be ws) = ws.flatten := by
  rw [order, mem_length be ws h, Nat.mul_div_cancel_left _ hk, split_mem ws h]
  simp [mem, Function.comp_def, host_host]

theorem order_flat {be : Bool} {k : Nat} (hk : 0 < k) (ws : List (List Byte)) (h : ∀ w ∈ ws, w.length = k) : order be k ws.flatten = mem be ws := by
  rw [order, flatten_length ws h, Nat.mul_div_cancel_left _ hk, split_flat ws h]

theorem slice_all (bs : List Byte) {k : Nat} (h : bs.length = k) : sliceO bs 0 k = ok bs := by
  subst h
  simp [sliceO]

/-- writing -/
theorem qioWrite_ok {be : Bool} {g : Geom} {prec : Char} {ts count : Nat} {get : Nat → Nat → Nat → Outcome (List Byte)} {word : Nat} {sites : List (List Nat)} {φ : List Nat → List Byte}
    (hg : g.Good) (hs : ∀ c ∈ sites, InRange c g.L)
    (h : ∀ n i c, n < g.nodes → i < g.sites → g.siteCoords n i = ok c → ∃ b, get n i count = ok b ∧ order be word b = φ c) :
    qioWrite be g prec ts count get word sites = ok ⟨prec, ts, count, sites.map fun c => (c, φ c)⟩ := by
  unfold qioWrite
  rw [mapO_ok (h := fun c => (c, φ c))]
  · rfl
  · intro c hc
    obtain ⟨n, i, h1, h2, h3, h4, h5⟩ := hg.1 c (hs c hc)
    obtain ⟨b, hb, ho⟩ := h n i c h2 h4 h5
    simp [h1, h3, hb, ho]

theorem writeLat_ok {be : Bool} {g : Geom} {T : Ty} {M : Mem} {f : List Nat → List (List Byte)} {sites : List (List Nat)}
    (hg : g.Good) (hf : IsT g.L T f) (hM : HoldsT be g T M f) (hs : ∀ c ∈ sites, InRange c g.L) :
    writeLat be g T M sites = ok ⟨T.w.prec, T.size, 1, sites.map fun c => (c, (f c).flatten)⟩ := by
  refine qioWrite_ok hg hs fun n i c hn hi hc => ⟨mem be (f c), ?_, ?_⟩
  · rw [latGet, if_neg (by omega), Nat.one_mul]
    exact Cells.slice hM hn hi hc
  · obtain ⟨c', h1, h2, -⟩ := hg.2 n i hn hi
    rw [hc] at h1
    injection h1 with h1
    subst h1
    exact order_mem T.w.size_pos _ (hf c h2).2

/-- bytes of an array of fields at one site -/
def arrWords (fs : List (List Nat → List (List Byte))) (c : List Nat) : List (List Byte) := fs.flatMap fun f => f c

theorem arrGet_ok {be : Bool} {g : Geom} {T : Ty} {n i : Nat} {c : List Nat} (hn : n < g.nodes) (hi : i < g.sites) (hc : g.siteCoords n i = ok c) :
    ∀ {Ms : List Mem} {fs : List (List Nat → List (List Byte))} {datum : Nat}, List.Forall₂ (HoldsT be g T) Ms fs → Ms.length * T.size ≤ datum →
      arrGet T.size Ms datum n i = ok (mem be (arrWords fs c))
  | [], [], _, _, _ => by simp [arrGet, arrWords, mem]
  | M :: Ms, f :: fs, datum, h, hd => by
    cases h with
    | cons h1 h2 =>
      rw [List.length_cons, Nat.add_mul, Nat.one_mul] at hd
      rw [arrGet, if_neg (by omega), show sliceO (M n) (i * T.size) T.size = _ from Cells.slice h1 hn hi hc, ok_bind, arrGet_ok hn hi hc h2 (by omega)]
      simp [arrWords, mem]

theorem writeArr_ok {be : Bool} {g : Geom} {T : Ty} {Ms : List Mem} {fs : List (List Nat → List (List Byte))} {sites : List (List Nat)}
    (hg : g.Good) (hf : ∀ f ∈ fs, IsT g.L T f) (hM : List.Forall₂ (HoldsT be g T) Ms fs) (hs : ∀ c ∈ sites, InRange c g.L) :
    writeArr be g T Ms sites = ok ⟨T.w.prec, T.size, Ms.length, sites.map fun c => (c, (arrWords fs c).flatten)⟩ := by
  refine qioWrite_ok hg hs fun n i c hn hi hc => ⟨mem be (arrWords fs c), ?_, ?_⟩
  · exact arrGet_ok hn hi hc hM (Nat.le_refl _)
  · obtain ⟨c', h1, h2, -⟩ := hg.2 n i hn hi
    rw [hc] at h1
    injection h1 with h1
    subst h1
    refine order_mem T.w.size_pos _ ?_
    intro w hw
    obtain ⟨f, hf', hw'⟩ := List.mem_flatMap.1 hw
    exact (hf f hf' c h2).2 w hw'

/-! ### reading -/

theorem foldO_inv {σ α : Type} {f : σ → α → Outcome σ} (I : List α → σ → Prop) : ∀ (as : List α) (done : List α) (s : σ), I done s →
    (∀ done a s, a ∈ as → I done s → ∃ s', f s a = ok s' ∧ I (done ++ [a]) s') → ∃ s', foldO f s as = ok s' ∧ I (done ++ as) s'
  | [], done, s, h, _ => ⟨s, rfl, by simpa using h⟩
  | a :: as, done, s, h, hs => by
    obtain ⟨s1, h1, h2⟩ := hs done a s (by simp) h
    obtain ⟨s2, h3, h4⟩ := foldO_inv I as (done ++ [a]) s1 h2 fun d b t hb => hs d b t (by simp [hb])
    exact ⟨s2, by simp only [foldO, h1, ok_bind, h3], by simpa using h4⟩

/-- value after the sites `ds` have been read -/
def patch (f old : List Nat → List (List Byte)) (ds : List (List Nat)) : List Nat → List (List Byte) := fun c => if c ∈ ds then f c else old c

theorem latRead_ok {be : Bool} {g : Geom} {T : Ty} {M : Mem} {f old : List Nat → List (List Byte)} {rec : Record} {sites : List (List Nat)}
    (hg : g.Good) (hf : IsT g.L T f) (hM : HoldsT be g T M old) (hs : ∀ c ∈ sites, InRange c g.L)
    (hr : rec.data = sites.map fun c => (c, (f c).flatten)) (hc : rec.count = 1) (ht : rec.typesize = T.size) :
    ∃ M', qioRead be g rec (latPut T.size) T.size T.w.size M = ok M' ∧ HoldsT be g T M' (patch f old sites) := by
  rw [qioRead, if_neg (by rw [hc, ht]; omega), hc, hr]
  have key := foldO_inv (f := fun s (p : List Nat × List Byte) => (do
      let n ← g.nodeNumber p.1
      let i ← g.linearSiteIndex p.1
      latPut T.size s n i 1 (order be T.w.size p.2) : Outcome Mem))
    (fun done M => HoldsT be g T M (patch f old (done.map Prod.fst))) (sites.map fun c => (c, (f c).flatten)) [] M
    (by
      have : patch f old [] = old := by funext c; simp [patch]
      simpa [this] using hM) ?_
  · simpa [Function.comp_def] using key
  · intro done p M hp h
    obtain ⟨c, hc, rfl⟩ := List.mem_map.1 hp
    obtain ⟨n, i, h1, h2, h3, h4, h5⟩ := hg.1 c (hs c hc)
    have hfc := hf c (hs c hc)
    have hl : (mem be (f c)).length = T.size := by rw [mem_length be _ hfc.2, hfc.1]; rfl
    obtain ⟨m', h6, h7⟩ := Cells.blit hg (k := T.size) h h2 h4 h5 (bs := mem be (f c)) hl
    refine ⟨M.put n m', ?_, ?_⟩
    · simp only [h1, h3, ok_bind, latPut, Nat.one_mul, order_flat T.w.size_pos _ hfc.2, slice_all _ hl, h6]
    · refine Cells.congr hg h7 fun c' _ => ?_
      simp only [patch, List.map_append, List.map_cons, List.map_nil, List.mem_append, List.mem_singleton]
      by_cases e : c' = c
      · subst e; simp
      · rw [if_neg e]
        by_cases e' : c' ∈ done.map Prod.fst
        · rw [if_pos e', if_pos (Or.inl e')]
        · rw [if_neg e', if_neg (by rintro (h | h); exacts [e' h, e h])]

theorem arrPut_ok {be : Bool} {g : Geom} {T : Ty} (hg : g.Good) {n i : Nat} {c : List Nat} (hn : n < g.nodes) (hi : i < g.sites) (hc : g.siteCoords n i = ok c)
    (hcr : InRange c g.L) : ∀ {Ms : List Mem} {fs : List (List Nat → List (List Byte))} {gs : List (List Nat → List (List Byte))}, (∀ f ∈ fs, IsT g.L T f) →
    List.Forall₂ (HoldsT be g T) Ms gs → gs.length = fs.length →
      ∃ Ms', arrPut T.size Ms n i (mem be (arrWords fs c)) = ok Ms' ∧ List.Forall₂ (HoldsT be g T) Ms' (List.zipWith (fun f g => fun c' => if c' = c then f c else g c') fs gs)
  | [], [], [], _, _, _ => ⟨[], rfl, .nil⟩
  | [], f :: fs, [], _, _, hl => by simp at hl
  | M :: Ms, [], g' :: gs, _, _, hl => by simp at hl
  | M :: Ms, f :: fs, g' :: gs, hf, h, hl => by
    cases h with
    | cons h1 h2 =>
      have hfc := hf f (by simp) c hcr
      have hlen : (mem be (f c)).length = T.size := by rw [mem_length be _ hfc.2, hfc.1]; rfl
      have e : mem be (arrWords (f :: fs) c) = mem be (f c) ++ mem be (arrWords fs c) := by simp [arrWords, mem]
      obtain ⟨m', h6, h7⟩ := Cells.blit hg (k := T.size) h1 hn hi hc (bs := mem be (f c)) hlen
      obtain ⟨Ms', h8, h9⟩ := arrPut_ok (fs := fs) hg hn hi hc hcr (fun f hf' => hf f (by simp [hf'])) h2 (by simpa using hl)
      refine ⟨M.put n m' :: Ms', ?_, .cons ?_ h9⟩
      · have s1 : sliceO (mem be (f c) ++ mem be (arrWords fs c)) 0 T.size = ok (mem be (f c)) := sliceO_mid [] _ _ rfl hlen
        have s2 : (mem be (f c) ++ mem be (arrWords fs c)).drop T.size = mem be (arrWords fs c) := by rw [← hlen, List.drop_left]
        rw [arrPut, e, s1, ok_bind, h6, ok_bind, s2, h8]
        rfl
      · refine Cells.congr hg h7 fun c' _ => ?_
        by_cases e : c' = c
        · simp [e]
        · simp [e]

theorem zip_patch {fs olds : List (List Nat → List (List Byte))} (hl : olds.length = fs.length) (c : List Nat) (ds : List (List Nat)) :
    List.zipWith (fun f g => fun c' => if c' = c then f c else g c') fs (List.zipWith (fun f o => patch f o ds) fs olds) = List.zipWith (fun f o => patch f o (ds ++ [c])) fs olds := by
  induction fs generalizing olds with
  | nil => simp
  | cons f fs ih =>
    cases olds with
    | nil => simp at hl
    | cons o olds =>
      simp only [List.zipWith_cons_cons, List.cons.injEq]
      refine ⟨?_, ih (by simpa using hl)⟩
      funext c'
      by_cases e : c' = c
      · subst e; simp [patch]
      · simp [patch, e]

theorem arrRead_ok {be : Bool} {g : Geom} {T : Ty} {Ms : List Mem} {fs olds : List (List Nat → List (List Byte))} {rec : Record} {sites : List (List Nat)}
    (hg : g.Good) (hf : ∀ f ∈ fs, IsT g.L T f) (hM : List.Forall₂ (HoldsT be g T) Ms olds) (hl : olds.length = fs.length) (hs : ∀ c ∈ sites, InRange c g.L)
    (hr : rec.data = sites.map fun c => (c, (arrWords fs c).flatten)) (hc : Ms.length * T.size = rec.typesize * rec.count) :
    ∃ Ms', qioRead be g rec (fun s n i _ b => arrPut T.size s n i b) (Ms.length * T.size) T.w.size Ms = ok Ms' ∧
      List.Forall₂ (HoldsT be g T) Ms' (List.zipWith (fun f o => patch f o sites) fs olds) := by
  rw [qioRead, if_neg (by omega), hr]
  have key := foldO_inv (f := fun s (p : List Nat × List Byte) => (do
      let n ← g.nodeNumber p.1
      let i ← g.linearSiteIndex p.1
      arrPut T.size s n i (order be T.w.size p.2) : Outcome (List Mem)))
    (fun done Ms => List.Forall₂ (HoldsT be g T) Ms (List.zipWith (fun f o => patch f o (done.map Prod.fst)) fs olds)) (sites.map fun c => (c, (arrWords fs c).flatten)) [] Ms ?_ ?_
  · simpa [Function.comp_def] using key
  · have : List.zipWith (fun f o => patch f o ([] : List (List Nat))) fs olds = olds := by
      clear hM hr hf hc
      induction fs generalizing olds with
      | nil => cases olds with | nil => rfl | cons o os => simp at hl
      | cons f fs ih =>
        cases olds with
        | nil => simp at hl
        | cons o olds =>
          simp only [List.zipWith_cons_cons, List.cons.injEq]
          exact ⟨by funext c; simp [patch], ih (by simpa using hl)⟩
    simpa [this] using hM
  · intro done p Ms hp h
    obtain ⟨c, hc, rfl⟩ := List.mem_map.1 hp
    obtain ⟨n, i, h1, h2, h3, h4, h5⟩ := hg.1 c (hs c hc)
    have hw : ∀ w ∈ arrWords fs c, w.length = T.w.size := by
      intro w hw
      obtain ⟨f, hf', hw'⟩ := List.mem_flatMap.1 hw
      exact (hf f hf' c (hs c hc)).2 w hw'
    obtain ⟨Ms', h6, h7⟩ := arrPut_ok (be := be) (T := T) hg h2 h4 h5 (hs c hc) hf h (by simp [hl])
    refine ⟨Ms', ?_, ?_⟩
    · simp only [h1, h3, ok_bind, order_flat T.w.size_pos _ hw, h6]
    · rw [zip_patch hl] at h7
      simpa using h7

/-! ### conversion -/

theorem range_flatMap_length {n k : Nat} {f : Nat → List Byte} (h : ∀ i, i < n → (f i).length = k) : ((List.range n).flatMap f).length = n * k := by
  induction n with
  | zero => simp
  | succ n ih =>
    rw [List.range_succ, List.flatMap_append, List.length_append, ih fun i hi => h i (by omega)]
    simp [h n (by omega), Nat.add_mul]

theorem range_flatMap_slot {n k : Nat} {f : Nat → List Byte} (h : ∀ i, i < n → (f i).length = k) {i : Nat} (hi : i < n) :
    (((List.range n).flatMap f).drop (i * k)).take k = f i := by
  induction n with
  | zero => omega
  | succ n ih =>
    have hl := range_flatMap_length fun i (hi : i < n) => h i (by omega)
    rw [List.range_succ, List.flatMap_append]
    simp only [List.flatMap_singleton]
    by_cases e : i = n
    · subst e
      rw [← hl, List.drop_left, ← h i hi, List.take_length]
    · have hi' : i < n := by omega
      have := slot_le (k := k) hi'
      rw [List.drop_append_of_le_length (by omega), List.take_append_of_le_length (by rw [List.length_drop]; omega)]
      exact ih (fun j hj => h j (by omega)) hi'

theorem cast_ok {cv : Word → Word → List Byte → List Byte} (hcv : Conv cv) {be : Bool} {g : Geom} (hg : g.Good) {a b : Word} {n : Nat} {M : Mem} {f : List Nat → List (List Byte)}
    (hf : IsT g.L ⟨a, n⟩ f) (hM : HoldsT be g ⟨a, n⟩ M f) : HoldsT be g ⟨b, n⟩ (cast cv be g a b n M) (fun c => (f c).map (cv a b)) := by
  have site : ∀ x i, x < g.nodes → i < g.sites → ∃ c, g.siteCoords x i = ok c ∧ InRange c g.L ∧
      castSite cv be a b n (((M x).drop (i * (a.size * n))).take (a.size * n)) = mem be ((f c).map (cv a b)) := by
    intro x i hx hi
    obtain ⟨c, h1, h2, -⟩ := hg.2 x i hx hi
    refine ⟨c, h1, h2, ?_⟩
    have := hM.2 x i c hx hi h1
    simp only at this
    have hn : (f c).length = n := (hf c h2).1
    rw [this, castSite, ← hn, split_mem _ (hf c h2).2]
    simp [Function.comp_def, host_host]
  have len : ∀ x i, x < g.nodes → i < g.sites → (castSite cv be a b n (((M x).drop (i * (a.size * n))).take (a.size * n))).length = b.size * n := by
    intro x i hx hi
    obtain ⟨c, -, h2, h3⟩ := site x i hx hi
    rw [h3, mem_length (size := b.size), List.length_map, show (f c).length = n from (hf c h2).1]
    intro w hw
    obtain ⟨v, hv, rfl⟩ := List.mem_map.1 hw
    exact hcv.size a b v ((hf c h2).2 v hv)
  refine ⟨fun x hx => range_flatMap_length fun i hi => len x i hx hi, fun x i c hx hi hc => ?_⟩
  show (((List.range g.sites).flatMap _).drop (i * (b.size * n))).take (b.size * n) = _
  rw [range_flatMap_slot (fun j hj => len x j hx hj) hi]
  obtain ⟨c', h1, -, h3⟩ := site x i hx hi
  rw [hc] at h1
  injection h1 with h1
  subst h1
  exact h3

/-- zero words -/
def zeros (T : Ty) : List (List Byte) := List.replicate T.n (List.replicate T.w.size 0)

theorem mem_zeros (be : Bool) (T : Ty) : mem be (zeros T) = List.replicate T.size 0 := by
  have : host be (List.replicate T.w.size 0#8) = List.replicate T.w.size 0#8 := by cases be <;> simp [host]
  simp [mem, zeros, this, Ty.size, Nat.mul_comm]

theorem zeroMem_holds (be : Bool) (g : Geom) (T : Ty) : HoldsT be g T (zeroMem g T.size) (fun _ => zeros T) := by
  refine ⟨fun n _ => ?_, fun n i c _ hi _ => ?_⟩
  · simp [zeroMem, Ty.size]
  · show _ = mem be (zeros T)
    rw [mem_zeros]
    have := slot_le (k := T.size) hi
    simp only [zeroMem, List.drop_replicate, List.take_replicate]
    congr 1
    show min T.size (g.sites * T.size - i * T.size) = T.size
    omega

theorem zeros_isT (L : List Nat) (T : Ty) : IsT L T (fun _ => zeros T) := by
  intro c _
  refine ⟨by simp [zeros], fun w hw => ?_⟩
  rw [List.eq_of_mem_replicate hw]
  simp

theorem patch_isT {L : List Nat} {T : Ty} {f o : List Nat → List (List Byte)} {ds : List (List Nat)} (hf : IsT L T f) (ho : IsT L T o) : IsT L T (patch f o ds) := by
  intro c hc
  unfold patch
  split
  · exact hf c hc
  · exact ho c hc

/-- what a field is where the record has no site: zero for floating-point records, what it was for others -/
def outside (cv : Word → Word → List Byte → List Byte) (T : Ty) (prec : Char) (old : List Nat → List (List Byte)) : List Nat → List (List Byte) := fun c =>
  if prec = 'F' ∨ prec = 'D' then (zeros ⟨fileWord T.w prec, T.n⟩).map (cv (fileWord T.w prec) T.w) else old c

/-- reading, by the record alone -/
theorem C75_read {cv : Word → Word → List Byte → List Byte} (hcv : Conv cv) {be : Bool} {g : Geom} {T : Ty} {M : Mem} {f old : List Nat → List (List Byte)} {rec : Record} {sites : List (List Nat)}
    (hg : g.Good) (hf : IsT g.L ⟨fileWord T.w rec.prec, T.n⟩ f) (hM : HoldsT be g T M old) (hs : ∀ c ∈ sites, InRange c g.L)
    (hr : rec.data = sites.map fun c => (c, (f c).flatten)) (hc : rec.count = 1) (ht : rec.typesize = (fileWord T.w rec.prec).size * T.n) :
    ∃ M', readLat cv be g T rec M = ok M' ∧ HoldsT be g T M' (fun c => if c ∈ sites then (f c).map (cv (fileWord T.w rec.prec) T.w) else outside cv T rec.prec old c) := by
  unfold readLat
  split
  · rename_i hp
    obtain ⟨D, h1, h2⟩ := latRead_ok (T := ⟨fileWord T.w rec.prec, T.n⟩) hg hf (zeroMem_holds be g _) hs hr hc ht
    refine ⟨_, by simp only [h1, ok_bind]; rfl, ?_⟩
    have h3 := cast_ok (b := T.w) hcv hg (patch_isT hf (zeros_isT g.L ⟨fileWord T.w rec.prec, T.n⟩) (ds := sites)) h2
    refine Cells.congr hg h3 fun c _ => ?_
    by_cases e : c ∈ sites
    · simp [patch, e]
    · simp [patch, e, outside, hp]
  · rename_i hp
    have hw : fileWord T.w rec.prec = T.w := by
      simp only [not_or] at hp
      simp [fileWord, hp]
    rw [hw] at hf ht ⊢
    obtain ⟨D, h1, h2⟩ := latRead_ok hg hf hM hs hr hc ht
    refine ⟨D, h1, Cells.congr hg h2 fun c _ => ?_⟩
    have hid : cv T.w T.w = id := funext (hcv.same T.w)
    by_cases e : c ∈ sites
    · simp [patch, e, hid]
    · simp [patch, e, outside, hp]

theorem C75_read_array {cv : Word → Word → List Byte → List Byte} (hcv : Conv cv) {be : Bool} {g : Geom} {T : Ty} {Ms : List Mem} {fs olds : List (List Nat → List (List Byte))} {rec : Record}
    {sites : List (List Nat)} (hg : g.Good) (hf : ∀ f ∈ fs, IsT g.L ⟨fileWord T.w rec.prec, T.n⟩ f) (hM : List.Forall₂ (HoldsT be g T) Ms olds) (hl : olds.length = fs.length)
    (hs : ∀ c ∈ sites, InRange c g.L) (hr : rec.data = sites.map fun c => (c, (arrWords fs c).flatten))
    (hc : Ms.length * ((fileWord T.w rec.prec).size * T.n) = rec.typesize * rec.count) :
    ∃ Ms', readArr cv be g T rec Ms = ok Ms' ∧ List.Forall₂ (HoldsT be g T) Ms' (List.zipWith (fun f old => fun c =>
      if c ∈ sites then (f c).map (cv (fileWord T.w rec.prec) T.w) else outside cv T rec.prec old c) fs olds) := by
  unfold readArr
  have hlm := hM.length_eq
  split
  · rename_i hp
    have hz : List.Forall₂ (HoldsT be g ⟨fileWord T.w rec.prec, T.n⟩) (Ms.map fun _ => zeroMem g (Ty.size ⟨fileWord T.w rec.prec, T.n⟩)) (olds.map fun _ => fun _ => zeros ⟨fileWord T.w rec.prec, T.n⟩) := by
      clear hc hf hl hr hlm
      induction hM with
      | nil => exact .nil
      | cons _ _ ih => exact .cons (zeroMem_holds be g _) ih
    obtain ⟨Ds, h1, h2⟩ := arrRead_ok (rec := rec) hg hf hz (by simpa using hl) hs hr (by rw [List.length_map]; exact hc)
    rw [List.length_map] at h1
    refine ⟨_, by simp only [h1, ok_bind]; rfl, ?_⟩
    clear h1 hr hc hlm hz hM
    induction fs generalizing olds Ds with
    | nil =>
      cases olds with
      | cons o os => simp at hl
      | nil => simp only [List.zipWith_nil_left] at h2; cases h2; exact .nil
    | cons f fs ih =>
      cases olds with
      | nil => simp at hl
      | cons o olds =>
        simp only [List.map_cons, List.zipWith_cons_cons] at h2 ⊢
        cases h2 with
        | cons h3 h4 =>
          refine .cons ?_ (ih (fun f hf' => hf f (by simp [hf'])) (by simpa using hl) _ h4)
          have h5 := cast_ok (b := T.w) hcv hg (patch_isT (hf f (by simp)) (zeros_isT g.L ⟨fileWord T.w rec.prec, T.n⟩) (ds := sites)) h3
          refine Cells.congr hg h5 fun c _ => ?_
          by_cases e : c ∈ sites
          · simp [patch, e]
          · simp [patch, e, outside, hp]
  · rename_i hp
    have hw : fileWord T.w rec.prec = T.w := by
      simp only [not_or] at hp
      simp [fileWord, hp]
    rw [hw] at hf hc ⊢
    obtain ⟨Ds, h1, h2⟩ := arrRead_ok hg hf hM hl hs hr hc
    refine ⟨Ds, h1, ?_⟩
    have hid : cv T.w T.w = id := funext (hcv.same T.w)
    have e : (fun f old => fun c => if c ∈ sites then (f c).map (cv T.w T.w) else outside cv T rec.prec old c) = fun f o => patch f o sites := by
      funext f o c
      by_cases e : c ∈ sites
      · simp [patch, e, hid]
      · simp [patch, e, outside, hp]
    rw [e]
    exact h2

/-- a record of words `a` is read into a field of words `b` by way of words `a` -/
theorem fileWord_prec {a b : Word} (h : a = b ∨ (a.Float ∧ b.Float)) : fileWord b a.prec = a := by
  cases a <;> cases b <;> simp_all [fileWord, Word.prec, Word.single, Word.double, Word.Float]

theorem perm_map {α β : Type} {h : α → β} {l : List α} {d : List (α × β)} (hd : d.Perm (l.map fun c => (c, h c))) :
    d = (d.map Prod.fst).map (fun c => (c, h c)) ∧ ∀ c, c ∈ d.map Prod.fst ↔ c ∈ l := by
  have hm : ∀ p ∈ d, p = (p.1, h p.1) := by
    intro p hp
    obtain ⟨c, -, rfl⟩ := List.mem_map.1 (hd.mem_iff.1 hp)
    rfl
  refine ⟨?_, fun c => ?_⟩
  · rw [List.map_map]
    conv => lhs; rw [← List.map_id d]
    exact List.map_congr_left hm
  · have := (hd.map Prod.fst).mem_iff (a := c)
    rw [this]
    simp

/-- C75: a field written through QIO on one machine and read on another, of any number of nodes, ordering of the sites and byte order, by any order of the sites,
is at every site of the record the field that was written, its words converted to those of the field read into -/
theorem C75_field_partial (cv : Word → Word → List Byte → List Byte) (hcv : Conv cv) (be be' : Bool) (g g' : Geom) (hg : g.Good) (hg' : g'.Good) (hL : g'.L = g.L) (T U : Ty)
    (hn : U.n = T.n) (hw : T.w = U.w ∨ (T.w.Float ∧ U.w.Float)) (M M' : Mem) (f old : List Nat → List (List Byte)) (hf : IsT g.L T f) (hM : HoldsT be g T M f)
    (hM' : HoldsT be' g' U M' old) (sites : List (List Nat)) (hs : ∀ c ∈ sites, InRange c g.L) :
    ∃ rec, writeLat be g T M sites = ok rec ∧ ∀ d, d.Perm rec.data → ∃ R, readLat cv be' g' U { rec with data := d } M' = ok R ∧
      HoldsT be' g' U R (fun c => if c ∈ sites then (f c).map (cv T.w U.w) else outside cv U T.w.prec old c) := by
  refine ⟨_, writeLat_ok hg hf hM hs, fun d hd => ?_⟩
  obtain ⟨e, hmem⟩ := perm_map hd
  have hfw := fileWord_prec hw
  have hf' : IsT g'.L ⟨fileWord U.w T.w.prec, U.n⟩ f := by rw [hfw, hn, hL]; exact hf
  obtain ⟨R, h1, h2⟩ := C75_read hcv (T := U) (rec := ⟨T.w.prec, T.size, 1, d⟩) (sites := d.map Prod.fst) hg' hf' hM' (fun c hc => hL ▸ hs c ((hmem c).1 hc)) e rfl
    (by simp only [hfw, hn]; rfl)
  refine ⟨R, h1, Cells.congr hg' h2 fun c _ => ?_⟩
  simp only [hmem, hfw]

/-- C75, arrays of fields -/
theorem C75_array_partial (cv : Word → Word → List Byte → List Byte) (hcv : Conv cv) (be be' : Bool) (g g' : Geom) (hg : g.Good) (hg' : g'.Good) (hL : g'.L = g.L) (T U : Ty)
    (hn : U.n = T.n) (hw : T.w = U.w ∨ (T.w.Float ∧ U.w.Float)) (Ms Ms' : List Mem) (fs olds : List (List Nat → List (List Byte))) (hf : ∀ f ∈ fs, IsT g.L T f)
    (hM : List.Forall₂ (HoldsT be g T) Ms fs) (hM' : List.Forall₂ (HoldsT be' g' U) Ms' olds) (hl : olds.length = fs.length) (sites : List (List Nat)) (hs : ∀ c ∈ sites, InRange c g.L) :
    ∃ rec, writeArr be g T Ms sites = ok rec ∧ ∀ d, d.Perm rec.data → ∃ Rs, readArr cv be' g' U { rec with data := d } Ms' = ok Rs ∧
      List.Forall₂ (HoldsT be' g' U) Rs (List.zipWith (fun f old => fun c => if c ∈ sites then (f c).map (cv T.w U.w) else outside cv U T.w.prec old c) fs olds) := by
  refine ⟨_, writeArr_ok hg hf hM hs, fun d hd => ?_⟩
  obtain ⟨e, hmem⟩ := perm_map hd
  have hfw := fileWord_prec hw
  have hf' : ∀ f ∈ fs, IsT g'.L ⟨fileWord U.w T.w.prec, U.n⟩ f := by rw [hfw, hn, hL]; exact hf
  have hlen : Ms'.length = Ms.length := by rw [hM'.length_eq, hl, ← hM.length_eq]
  obtain ⟨R, h1, h2⟩ := C75_read_array hcv (T := U) (rec := ⟨T.w.prec, T.size, Ms.length, d⟩) (sites := d.map Prod.fst) hg' hf' hM' hl (fun c hc => hL ▸ hs c ((hmem c).1 hc)) e
    (by simp only [hfw, hn, hlen]; exact Nat.mul_comm _ _)
  refine ⟨R, h1, ?_⟩
  simp only [hmem, hfw] at h2
  exact h2

/-- C75: a whole field of the same type comes back bit for bit -/
theorem C75_same (cv : Word → Word → List Byte → List Byte) (hcv : Conv cv) (be be' : Bool) (g g' : Geom) (hg : g.Good) (hg' : g'.Good) (hL : g'.L = g.L) (T : Ty)
    (M M' : Mem) (f old : List Nat → List (List Byte)) (hf : IsT g.L T f) (hM : HoldsT be g T M f)
    (hM' : HoldsT be' g' T M' old) (sites : List (List Nat)) (hs : ∀ c, c ∈ sites ↔ InRange c g.L) :
    ∃ rec, writeLat be g T M sites = ok rec ∧ ∀ d, d.Perm rec.data → ∃ R, readLat cv be' g' T { rec with data := d } M' = ok R ∧ HoldsT be' g' T R f := by
  obtain ⟨rec, h1, h2⟩ := C75_field_partial cv hcv be be' g g' hg hg' hL T T rfl (Or.inl rfl) M M' f old hf hM hM' sites fun c hc => (hs c).1 hc
  refine ⟨rec, h1, fun d hd => ?_⟩
  obtain ⟨R, h3, h4⟩ := h2 d hd
  refine ⟨R, h3, Cells.congr hg' h4 fun c hc => ?_⟩
  have hid : cv T.w T.w = id := funext (hcv.same T.w)
  simp [(hs c).2 (hL ▸ hc), hid]

/-- C75: a record whose bytes per site are not those of the field is refused -/
theorem C75_refused (cv : Word → Word → List Byte → List Byte) (be : Bool) (g : Geom) (T : Ty) (rec : Record) (M : Mem)
    (h : (fileWord T.w rec.prec).size * T.n ≠ rec.typesize * rec.count) : readLat cv be g T rec M = abort := by
  unfold readLat
  split
  · have : Ty.size ⟨fileWord T.w rec.prec, T.n⟩ ≠ rec.typesize * rec.count := h
    simp only [qioRead]
    rw [if_pos this]
    rfl
  · rename_i hp
    have hw : fileWord T.w rec.prec = T.w := by
      simp only [not_or] at hp
      simp [fileWord, hp]
    rw [hw] at h
    have : T.size ≠ rec.typesize * rec.count := h
    rw [qioRead, if_pos this]

/-- C75 refuted: a record of integers is read into a field of single-precision numbers without complaint; the numbers are the bits of the integers -/
theorem C75_int_as_float (cv : Word → Word → List Byte → List Byte) (hcv : Conv cv) (be be' : Bool) (g g' : Geom) (hg : g.Good) (hg' : g'.Good) (hL : g'.L = g.L) (n : Nat)
    (M M' : Mem) (f old : List Nat → List (List Byte)) (hf : IsT g.L ⟨.i32, n⟩ f) (hM : HoldsT be g ⟨.i32, n⟩ M f)
    (hM' : HoldsT be' g' ⟨.f32, n⟩ M' old) (sites : List (List Nat)) (hs : ∀ c, c ∈ sites ↔ InRange c g.L) :
    ∃ rec R, writeLat be g ⟨.i32, n⟩ M sites = ok rec ∧ readLat cv be' g' ⟨.f32, n⟩ rec M' = ok R ∧ HoldsT be' g' ⟨.f32, n⟩ R f := by
  have hs' : ∀ c ∈ sites, InRange c g.L := fun c hc => (hs c).1 hc
  obtain ⟨R, h1, h2⟩ := C75_read hcv (T := ⟨.f32, n⟩) (f := f) (rec := ⟨'I', 4 * n, 1, sites.map fun c => (c, (f c).flatten)⟩) (sites := sites) hg' (by rw [hL]; exact hf) hM' (fun c hc => hL ▸ hs' c hc) rfl rfl rfl
  refine ⟨_, R, writeLat_ok hg hf hM hs', h1, Cells.congr hg' h2 fun c hc => ?_⟩
  have hid : cv .f32 .f32 = id := funext (hcv.same .f32)
  have : fileWord .f32 'I' = .f32 := by decide
  simp [(hs c).2 (hL ▸ hc), hid, this]

/-- C75 refuted: so is a record of single-precision numbers into a field of integers; the integers are the bits of the numbers -/
theorem C75_float_as_int (cv : Word → Word → List Byte → List Byte) (hcv : Conv cv) (be be' : Bool) (g g' : Geom) (hg : g.Good) (hg' : g'.Good) (hL : g'.L = g.L) (n : Nat)
    (M M' : Mem) (f old : List Nat → List (List Byte)) (hf : IsT g.L ⟨.f32, n⟩ f) (hM : HoldsT be g ⟨.f32, n⟩ M f)
    (hM' : HoldsT be' g' ⟨.i32, n⟩ M' old) (sites : List (List Nat)) (hs : ∀ c, c ∈ sites ↔ InRange c g.L) :
    ∃ rec R, writeLat be g ⟨.f32, n⟩ M sites = ok rec ∧ readLat cv be' g' ⟨.i32, n⟩ rec M' = ok R ∧ HoldsT be' g' ⟨.i32, n⟩ R f := by
  have hs' : ∀ c ∈ sites, InRange c g.L := fun c hc => (hs c).1 hc
  obtain ⟨R, h1, h2⟩ := C75_read hcv (T := ⟨.i32, n⟩) (f := f) (rec := ⟨'F', 4 * n, 1, sites.map fun c => (c, (f c).flatten)⟩) (sites := sites) hg' (by rw [hL]; exact hf) hM' (fun c hc => hL ▸ hs' c hc) rfl rfl rfl
  refine ⟨_, R, writeLat_ok hg hf hM hs', h1, Cells.congr hg' h2 fun c hc => ?_⟩
  have hid : cv .i32 .i32 = id := funext (hcv.same .i32)
  have : fileWord .i32 'F' = .i32 := by decide
  simp [(hs c).2 (hL ▸ hc), hid, this]

theorem split_length_le (k : Nat) : ∀ (n : Nat) (bs : List Byte), (split k n bs).flatten.length ≤ bs.length
  | 0, _ => by simp [split]
  | n + 1, bs => by
    have := split_length_le k n (bs.drop k)
    simp only [split, List.flatten_cons, List.length_append, List.length_take, List.length_drop] at this ⊢
    omega

theorem order_length_le (be : Bool) (k : Nat) (bs : List Byte) : (order be k bs).length ≤ bs.length := by
  have h : ∀ ws : List (List Byte), (mem be ws).length = ws.flatten.length := by
    intro ws
    induction ws with
    | nil => simp [mem]
    | cons w ws ih =>
      have e : mem be (w :: ws) = host be w ++ mem be ws := by simp [mem]
      rw [e, List.length_append, ih, host_length, List.flatten_cons, List.length_append]
  rw [order, h]
  exact split_length_le _ _ _

/-- C75 refuted: a record of `k > 1` fields is accepted by a single field whose sites are as large as those of the `k` fields together.  The single field is then filled by copying
`k` of its sites out of a buffer of one. -/
theorem C75_overrun (cv : Word → Word → List Byte → List Byte) (be be' : Bool) (g g' : Geom) (hg : g.Good) (hg' : g'.Good) (hL : g'.L = g.L) (T U : Ty)
    (Ms : List Mem) (M' : Mem) (fs : List (List Nat → List (List Byte))) (hf : ∀ f ∈ fs, IsT g.L T f)
    (hM : List.Forall₂ (HoldsT be g T) Ms fs) (sites : List (List Nat)) (hs : ∀ c ∈ sites, InRange c g.L) (hne : sites ≠ [])
    (hk : 1 < Ms.length) (hsz : (fileWord U.w T.w.prec).size * U.n = Ms.length * T.size) (hpos : 0 < T.size) :
    ∃ rec, writeArr be g T Ms sites = ok rec ∧ readLat cv be' g' U rec M' = ub := by
  refine ⟨_, writeArr_ok hg hf hM hs, ?_⟩
  have hlen : ∀ c ∈ sites, ((arrWords fs c).flatten).length = Ms.length * T.size := by
    intro c hc
    have hw : ∀ w ∈ arrWords fs c, w.length = T.w.size := by
      intro w hw
      obtain ⟨f, hf', hw'⟩ := List.mem_flatMap.1 hw
      exact (hf f hf' c (hs c hc)).2 w hw'
    rw [flatten_length _ hw, hM.length_eq]
    clear hM hk hsz hw
    have : (arrWords fs c).length = fs.length * T.n := by
      induction fs with
      | nil => simp [arrWords]
      | cons f fs ih =>
        have e : arrWords (f :: fs) c = f c ++ arrWords fs c := by simp [arrWords]
        rw [e, List.length_append, (hf f (by simp) c (hs c hc)).1, ih fun f hf' => hf f (by simp [hf']), List.length_cons, Nat.add_mul]
        omega
    rw [this, Ty.size]
    exact Nat.mul_left_comm _ _ _
  have key : ∀ (S : Ty) (M0 : Mem), S.size = Ms.length * T.size →
      qioRead be' g' ⟨T.w.prec, T.size, Ms.length, sites.map fun c => (c, (arrWords fs c).flatten)⟩ (latPut S.size) S.size S.w.size M0 = ub := by
    intro S M0 hS
    cases sites with
    | nil => exact absurd rfl hne
    | cons c cs =>
      rw [qioRead, if_neg (by rw [hS, Nat.mul_comm]; simp)]
      obtain ⟨n, i, h1, -, h3, -, -⟩ := hg'.1 c (hL ▸ hs c (by simp))
      simp only [List.map_cons, foldO, h1, h3, ok_bind, latPut]
      have hl := order_length_le be' S.w.size (arrWords fs c).flatten
      rw [hlen c (by simp), ← hS] at hl
      have hSp : 0 < S.size := by rw [hS]; exact Nat.mul_pos (by omega) hpos
      have : S.size < Ms.length * S.size := by
        have := Nat.mul_le_mul_right S.size hk
        simp only [Nat.succ_eq_add_one] at this
        omega
      have hu : sliceO (order be' S.w.size (arrWords fs c).flatten) 0 (Ms.length * S.size) = ub := if_neg (by omega)
      rw [hu]
      rfl
  unfold readLat
  split
  · simp only
    rw [key ⟨fileWord U.w T.w.prec, U.n⟩ _ hsz]
    rfl
  · rename_i hp
    have hw : fileWord U.w T.w.prec = U.w := by
      simp only [not_or] at hp
      simp [fileWord, hp]
    rw [hw] at hsz
    exact key U M' hsz

/-! ### a hypercube -/

/-- C75 refuted: where a record of a hypercube has no site, a floating-point field is overwritten with zero and an integer field is not -/
theorem C75_outside (cv : Word → Word → List Byte → List Byte) (T : Ty) (old : List Nat → List (List Byte)) (c : List Nat) :
    (T.w.Float → outside cv T T.w.prec old c = (zeros T).map (cv T.w T.w)) ∧ (¬ T.w.Float → outside cv T T.w.prec old c = old c) := by
  obtain ⟨w, n⟩ := T
  cases w <;> simp [outside, Word.prec, Word.Float, fileWord, Word.single, Word.double]

/-! ### scalars -/

/-- `QDPOScalarFactoryGet`, include/qdp_qdpio.h:1051-1058, on an array of `m.length / size` scalars -/
def scGet (size : Nat) (m : List Byte) (datum linear count : Nat) : Outcome (List Byte) :=
  if datum < count * size then ub else sliceO m (linear * size) (count * size)

/-- `QDPOScalarFactoryPut`, include/qdp_qdpio.h:834-841 -/
def scPut (size : Nat) (m : List Byte) (linear count : Nat) (buf : List Byte) : Outcome (List Byte) := do
  let b ← sliceO buf 0 (count * size)
  blitO m (linear * size) b

/-- a global record: one datum without site -/
structure Global where
  prec : Char
  typesize : Nat
  count : Nat
  data : List Byte

/-- `QDPFileWriter::write` of an array of `k` scalars, include/qdp_qdpio.h:1123-1158; of one, 1068-1105 with `k = 1` -/
def writeSc (be : Bool) (T : Ty) (k : Nat) (m : List Byte) : Outcome Global := do
  let b ← scGet T.size m (k * T.size) 0 k
  ok ⟨T.w.prec, T.size, k, order be T.w.size b⟩

/-- QIO_read_record_data of a global record, on each node -/
def qioReadGlobal (be : Bool) (rec : Global) (size datum word : Nat) (m : List Byte) : Outcome (List Byte) :=
  if datum ≠ rec.typesize * rec.count then abort else scPut size m 0 rec.count (order be word rec.data)

/-- `QDPFileReader::read` of an array of `k` scalars, include/qdp_qdpio.h:942-1030; of one, 851-931 with `k = 1` -/
def readSc (cv : Word → Word → List Byte → List Byte) (be : Bool) (T : Ty) (k : Nat) (rec : Global) (m : List Byte) : Outcome (List Byte) :=
  if rec.prec = 'F' ∨ rec.prec = 'D' then do
    let S : Ty := ⟨fileWord T.w rec.prec, T.n⟩
    let d ← qioReadGlobal be rec S.size (k * S.size) S.w.size (List.replicate (k * S.size) 0)
    ok (castSite cv be S.w T.w (k * T.n) d)
  else qioReadGlobal be rec T.size (k * T.size) T.w.size m

theorem blit_all {m bs : List Byte} (h : bs.length = m.length) : blitO m 0 bs = ok bs := by
  rw [blitO, if_pos (by omega)]
  simp [h]

/-- C75: scalars and arrays of scalars come back, converted, on every node -/
theorem C75_scalar (cv : Word → Word → List Byte → List Byte) (hcv : Conv cv) (be be' : Bool) (T U : Ty) (hn : U.n = T.n) (hw : T.w = U.w ∨ (T.w.Float ∧ U.w.Float)) (k : Nat)
    (ws : List (List Byte)) (hl : ws.length = k * T.n) (hsz : ∀ w ∈ ws, w.length = T.w.size) (m' : List Byte) (hm' : m'.length = k * U.size) :
    ∃ rec, writeSc be T k (mem be ws) = ok rec ∧ readSc cv be' U k rec m' = ok (mem be' (ws.map (cv T.w U.w))) := by
  have hlen : ∀ b : Bool, (mem b ws).length = k * T.size := fun b => by rw [mem_length b ws hsz, hl, Ty.size]; exact Nat.mul_left_comm _ _ _
  have hput : ∀ m : List Byte, m.length = k * T.size → qioReadGlobal be' ⟨T.w.prec, T.size, k, ws.flatten⟩ T.size (k * T.size) T.w.size m = ok (mem be' ws) := by
    intro m hm
    rw [qioReadGlobal, if_neg (by simp [Nat.mul_comm]), scPut, order_flat T.w.size_pos ws hsz, slice_all _ (hlen be'), ok_bind, Nat.zero_mul, blit_all (by rw [hlen, hm])]
  refine ⟨⟨T.w.prec, T.size, k, ws.flatten⟩, ?_, ?_⟩
  · rw [writeSc, scGet, if_neg (by omega), Nat.zero_mul, slice_all _ (hlen be), ok_bind, order_mem T.w.size_pos ws hsz]
  · have hfw := fileWord_prec hw
    have hcast : ∀ b, castSite cv be' T.w b (k * T.n) (mem be' ws) = mem be' (ws.map (cv T.w b)) := by
      intro b
      rw [castSite, ← hl, split_mem ws hsz]
      simp [Function.comp_def, host_host]
    unfold readSc
    split
    · simp only [hfw, hn]
      rw [show Ty.size ⟨T.w, T.n⟩ = T.size from rfl, hput _ (by simp), ok_bind, hcast]
    · rename_i hp
      have hU : fileWord U.w T.w.prec = U.w := by
        simp only [not_or] at hp
        simp [fileWord, hp]
      have e : U.w = T.w := hU.symm.trans hfw
      have e2 : U = T := by cases U; cases T; simp_all
      subst e2
      rw [hput _ hm']
      have hid : cv U.w U.w = id := funext (hcv.same U.w)
      rw [hid, List.map_id]

/-- C75: an array of another length is refused -/
theorem C75_scalar_length (cv : Word → Word → List Byte → List Byte) (be be' : Bool) (T U : Ty) (hn : U.n = T.n) (hw : T.w = U.w ∨ (T.w.Float ∧ U.w.Float)) (k k' : Nat) (hk : k' ≠ k)
    (hpos : 0 < T.size) (m m' : List Byte) (rec : Global) (hr : writeSc be T k m = ok rec) : readSc cv be' U k' rec m' = abort := by
  obtain ⟨b, -, h⟩ := bind_eq_ok.1 hr
  simp only [ok.injEq] at h
  subst h
  have hne : k' * T.size ≠ T.size * k := by
    rw [Nat.mul_comm T.size k]
    intro h
    exact hk (Nat.eq_of_mul_eq_mul_right hpos h)
  have hfw := fileWord_prec hw
  unfold readSc
  split
  · simp only [hfw, hn, qioReadGlobal]
    rw [show Ty.size ⟨T.w, T.n⟩ = T.size from rfl, if_pos hne]
    rfl
  · rename_i hp
    have hU : fileWord U.w T.w.prec = U.w := by
      simp only [not_or] at hp
      simp [fileWord, hp]
    have e : U.w = T.w := hU.symm.trans hfw
    have e2 : U = T := by cases U; cases T; simp_all
    subst e2
    rw [qioReadGlobal, if_pos hne]

/-- C75 refuted: an array of `k > 1` scalars is accepted by one scalar of the size of all, which is then overrun -/
theorem C75_scalar_overrun (cv : Word → Word → List Byte → List Byte) (be be' : Bool) (T U : Ty) (k : Nat) (hk : 1 < k) (hpos : 0 < T.size)
    (ws : List (List Byte)) (hl : ws.length = k * T.n) (hsz : ∀ w ∈ ws, w.length = T.w.size) (m' : List Byte) (hU : (fileWord U.w T.w.prec).size * U.n = k * T.size) :
    ∃ rec, writeSc be T k (mem be ws) = ok rec ∧ readSc cv be' U 1 rec m' = ub := by
  have hlen : (mem be ws).length = k * T.size := by rw [mem_length be ws hsz, hl, Ty.size]; exact Nat.mul_left_comm _ _ _
  refine ⟨⟨T.w.prec, T.size, k, ws.flatten⟩, ?_, ?_⟩
  · rw [writeSc, scGet, if_neg (by omega), Nat.zero_mul, slice_all _ hlen, ok_bind, order_mem T.w.size_pos ws hsz]
  · have key : ∀ (S : Ty) (m : List Byte), S.size = k * T.size → qioReadGlobal be' ⟨T.w.prec, T.size, k, ws.flatten⟩ S.size (1 * S.size) S.w.size m = ub := by
      intro S m hS
      rw [qioReadGlobal, if_neg (by rw [hS, Nat.mul_comm]; simp [Nat.mul_comm]), scPut]
      have h1 := order_length_le be' S.w.size ws.flatten
      have h2 : ws.flatten.length = k * T.size := by rw [flatten_length ws hsz, hl, Ty.size]; exact Nat.mul_left_comm _ _ _
      have hSp : 0 < S.size := by rw [hS]; exact Nat.mul_pos (by omega) hpos
      have h3 := Nat.mul_le_mul_right S.size hk
      simp only [Nat.succ_eq_add_one] at h3
      have hu : sliceO (order be' S.w.size ws.flatten) 0 (k * S.size) = ub := if_neg (by omega)
      rw [hu]
      rfl
    unfold readSc
    split
    · simp only
      rw [key ⟨fileWord U.w T.w.prec, U.n⟩ _ hU]
      rfl
    · rename_i hp
      have hw : fileWord U.w T.w.prec = U.w := by
        simp only [not_or] at hp
        simp [fileWord, hp]
      rw [hw] at hU
      exact key U m' hU

/-! ### cases -/

/-- a conversion that keeps nothing -/
def cvZero (a b : Word) (w : List Byte) : List Byte := if a = b then w else List.replicate b.size 0
theorem cvZero_conv : Conv cvZero := ⟨fun a w => by simp [cvZero], fun a b w h => by
  unfold cvZero
  split
  · next e => subst e; exact h
  · simp⟩

def m21 : Machine := lexMachine [2, 1]
def g21 : Geom := geomLex [4, 2] m21 [2, 2]
def g11 : Geom := geomLex [4, 2] (lexMachine [1, 1]) [4, 2]
theorem g21_good : g21.Good := C02_lexico [4, 2] [2, 2] m21 (lexMachine_good [2, 1]) (by simp [Cut, m21, lexMachine]) (by simp) (by decide) (by decide) (by decide)
theorem g11_good : g11.Good := C02_lexico [4, 2] [4, 2] (lexMachine [1, 1]) (lexMachine_good [1, 1]) (by simp [Cut, lexMachine]) (by simp) (by decide) (by decide) (by decide)

/-- a field of integers on two little-endian nodes: at site `(x, y)` the number `10 x + y` -/
def fEx (c : List Nat) : List (List Byte) := [[0, 0, 0, BitVec.ofNat 8 (10 * c[0]! + c[1]!)]]
def memEx : Mem := fun n => if n = 0 then mem false [[0, 0, 0, 0], [0, 0, 0, 10], [0, 0, 0, 1], [0, 0, 0, 11]] else mem false [[0, 0, 0, 20], [0, 0, 0, 30], [0, 0, 0, 21], [0, 0, 0, 31]]
def allEx : List (List Nat) := (List.range 8).map (digits · [4, 2])

/-- written on two nodes, read on one big-endian node -/
example : (do
    let r ← writeLat false g21 ⟨.i32, 1⟩ memEx allEx
    let R ← readLat cvZero true g11 ⟨.i32, 1⟩ r (fun _ => List.replicate 32 7)
    ok (R 0)) = ok (mem true [[0, 0, 0, 0], [0, 0, 0, 10], [0, 0, 0, 20], [0, 0, 0, 30], [0, 0, 0, 1], [0, 0, 0, 11], [0, 0, 0, 21], [0, 0, 0, 31]]) := by decide +kernel
/-- the same read into floating-point numbers: no error, the same bits -/
example : (do
    let r ← writeLat false g21 ⟨.i32, 1⟩ memEx allEx
    let R ← readLat cvZero true g11 ⟨.f32, 1⟩ r (fun _ => List.replicate 32 7)
    ok (R 0)) = ok (mem true [[0, 0, 0, 0], [0, 0, 0, 10], [0, 0, 0, 20], [0, 0, 0, 30], [0, 0, 0, 1], [0, 0, 0, 11], [0, 0, 0, 21], [0, 0, 0, 31]]) := by decide +kernel
/-- into double precision: refused -/
example : (do
    let r ← writeLat false g21 ⟨.i32, 1⟩ memEx allEx
    let R ← readLat cvZero true g11 ⟨.f64, 1⟩ r (fun _ => List.replicate 64 7)
    ok (R 0)) = abort := by decide +kernel
/-- three complex fields into a field of colour vectors: overrun -/
example : (do
    let r ← writeArr false g21 ⟨.f64, 2⟩ [zeroMem g21 16, zeroMem g21 16, zeroMem g21 16] allEx
    let R ← readLat cvZero true g11 ⟨.f64, 6⟩ r (zeroMem g11 48)
    ok (R 0)) = ub := by decide +kernel
/-- the hypotheses of the theorems -/
example : IsT [4, 2] ⟨.i32, 1⟩ fEx := fun _ _ => ⟨rfl, by simp [fEx, Word.size]⟩
example : ∃ rec, writeArr true g11 ⟨.f64, 2⟩ [zeroMem g11 16, zeroMem g11 16, zeroMem g11 16] allEx = ok rec ∧ readLat cvZero true g21 ⟨.f32, 6⟩ rec (zeroMem g21 24) = ub :=
  C75_overrun cvZero true true g11 g21 g11_good g21_good rfl ⟨.f64, 2⟩ ⟨.f32, 6⟩ _ _ [fun _ => zeros ⟨.f64, 2⟩, fun _ => zeros ⟨.f64, 2⟩, fun _ => zeros ⟨.f64, 2⟩]
    (by simp; exact zeros_isT _ _) (.cons (zeroMem_holds _ _ _) (.cons (zeroMem_holds _ _ _) (.cons (zeroMem_holds _ _ _) .nil))) allEx
    (by
      intro c hc
      obtain ⟨i, hi, rfl⟩ := List.mem_map.1 hc
      exact digits_inRange (by rw [List.mem_range] at hi; exact hi)) (by decide) (by decide) (by decide) (by decide)

end Verif.QioField
