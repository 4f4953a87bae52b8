import Verif.VecNodesIO
import Verif.ArchiveThm
/-
Gauge-field archives in the libraries with vector instructions: `computeChecksum`, `readArchiv`, `writeArchiv` of lib/qdp_scalarvec_specific.cc:51-303 (one node)
and of lib/qdp_parscalarvec_specific.cc:366-616 (many nodes).

A gauge field is, for every direction, vectors of links.  Numbers, links, and the loops over colours are those of `Verif.Archive`: the text is the same.
Many nodes are processes on the network.
-/
namespace Verif.VecArchive
open Verif Outcome ByteOrder Verif.Layout Verif.ParLayout Verif.Subset Verif.BinIO Verif.ParMap Verif.Network Verif.PeekPoke Verif.Archive
open Verif.LatticeIO (foldO indexOf)
open Verif.XmlField (AlwaysEnds alwaysEnds)
open Verif.LatticeIONet (At.congr)
open Verif.Vec (getAt Shape Site getAt_site setAt_ok site_val val)

variable {K : Type}

/-- the vectors of links of every direction -/
abbrev VField (K : Type) := Nat → List (List (Link K))

/-! ## Model: one node, lib/qdp_scalarvec_specific.cc -/

/-- `sa[dd].resize(nodeSites); QDP_extract(sa[dd], u[dd], all)` for all directions, lib/qdp_scalarvec_specific.cc:71-77; lib/qdp_parscalarvec_specific.cc:383-389.
`junk` is what a new array of links holds. -/
def extractAll (k n Nd : Nat) (junk : List (Link K)) (F : VField K) : Outcome (List (List (Link K))) :=
  mapO (fun dd => Vec.extract k (F dd) (List.range n) junk) (List.range Nd)

/-- one step of the loops of `computeChecksum`, lib/qdp_scalarvec_specific.cc:84-127; lib/qdp_parscalarvec_specific.cc:396-440 -/
def chkLinkV (be : Bool) (N : Num K) (mat : Nat) (junk : Nat → BitVec 32) (sa : List (List (Link K))) (i : Nat) (chk : BitVec 32) (dd : Nat) : Outcome (BitVec 32) := do
  let s ← rd sa dd
  let m ← rd s i
  if mat = 12 ∨ mat = 18 then do
    let b ← linkBytes be N mat junk m
    ok (addWords be chk b)
  else abort

/-- the loops -/
def chkNodeV (be : Bool) (N : Num K) (k n Nd mat : Nat) (junk : Nat → BitVec 32) (junkL : List (Link K)) (F : VField K) : Outcome (BitVec 32) := do
  let sa ← extractAll k n Nd junkL F
  foldO (fun chk i => foldO (chkLinkV be N mat junk sa i) chk (List.range Nd)) 0 (List.range n)

/-- `computeChecksum` on one node, lib/qdp_scalarvec_specific.cc:61-133 -/
def computeChecksumV (be : Bool) (N : Num K) (k : Nat) (g : Geom) (Nd mat : Nat) (junk : Nat → BitVec 32) (junkL : List (Link K)) (F : VField K) : Outcome (BitVec 32) :=
  chkNodeV be N k g.sites Nd mat junk junkL F

/-- one link written, lib/qdp_scalarvec_specific.cc:270-296 -/
def writeLinkV (be : Bool) (N : Num K) (k : Nat) (g : Geom) (mat : Nat) (junk : Nat → BitVec 32) (F : VField K) (site : Nat) (d : Dev) (dd : Nat) : Outcome Dev := do
  let c ← crtesn site g.L
  let m ← Vec.peekSite k g (F dd) c
  let b ← linkBytes be N mat junk m
  let r ← writeArray be b 4 mat d
  ok r.2

/-- `writeArchiv` on one node, lib/qdp_scalarvec_specific.cc:256-301 -/
def writeArchivV (be : Bool) (N : Num K) (k : Nat) (g : Geom) (Nd mat : Nat) (junk : Nat → BitVec 32) (F : VField K) (d : Dev) : Outcome Dev :=
  foldO (fun d site => foldO (writeLinkV be N k g mat junk F site) d (List.range Nd)) d (List.range (nsites g.L))

section arith
variable [Add K] [Sub K] [Mul K]

/-- one link read, lib/qdp_scalarvec_specific.cc:166-238; the state is (field, checksum, stream) -/
def readLinkV (be : Bool) (N : Num K) (k : Nat) (g : Geom) (mat fs : Nat) (sj : Nat → K) (site : Nat) (st : (VField K × BitVec 32) × Dev) (dd : Nat) :
    Outcome ((VField K × BitVec 32) × Dev) := do
  let r ← readArray be fs mat st.2
  let m ← unpack be N ub mat fs sj r.1
  let c ← crtesn site g.L
  let G ← Vec.pokeSite k g (st.1.1 dd) m c
  ok ((Function.update st.1.1 dd G, addWords be st.1.2 r.1), r.2)

/-- `readArchiv` on one node, lib/qdp_scalarvec_specific.cc:145-243 -/
def readArchivV (be : Bool) (N : Num K) (k : Nat) (g : Geom) (Nd mat fs : Nat) (sj : Nat → K) (F : VField K) (d : Dev) : Outcome ((VField K × BitVec 32) × Dev) :=
  foldO (fun st site => foldO (readLinkV be N k g mat fs sj site) st (List.range Nd)) ((F, 0), d) (List.range (nsites g.L))

end arith

/-! ## Model: many nodes, lib/qdp_parscalarvec_specific.cc -/

/-- `computeChecksum` on node `me`, lib/qdp_parscalarvec_specific.cc:374-450; the global sum adds modulo 2^32 -/
def checksumNode (be : Bool) (N : Num K) (g : Geom) (Nd mat : Nat) (junk : Nat → BitVec 32) (junkL : List (Link K)) (F : VField K) : Proc (BitVec 32) (BitVec 32) :=
  after (chkNodeV be N 2 g.sites Nd mat junk junkL F) fun c => .reduce c fun cs => .done (cs.foldl (· + ·) 0)

/-- the loops of `writeArchiv` on node `me`, lib/qdp_parscalarvec_specific.cc:573-608: the link is looked up by `peekSite`, which gives it to all nodes, and
written by the primary node; the list is that of the pairs of site and direction -/
def writeNode [Zero K] (be : Bool) (N : Num K) (g : Geom) (mat : Nat) (junk : Nat → BitVec 32) (me : Nat) (F : VField K) : List (Nat × Nat) → Dev → Proc (List (Link K)) Dev
  | [], d => .done d
  | p :: ps, d => after (crtesn p.1 g.L) fun c => VecNodes.peekSite g me (F p.2) c fun m => after (linkBytes be N mat junk m) fun b =>
      after (if me = 0 then writeArray be b 4 mat d else ok (b, d)) fun r => writeNode be N g mat junk me F ps r.2

/-- the pairs of site and direction in the order of the loops -/
def pairs (vol Nd : Nat) : List (Nat × Nat) := (List.range vol).flatMap fun s => (List.range Nd).map fun dd => (s, dd)

section arith
variable [Add K] [Sub K] [Mul K]

/-- `checksum += *(n_uint32_t*)(su3+k)`, lib/qdp_parscalarvec_specific.cc:522-523, 529-530: `su3` is an array of arrays of six numbers, so that `su3+k` lies
`6*k` numbers behind the beginning of the 18 -/
def chkSu3 (su3 : List (BitVec 32)) (chk : BitVec 32) (k : Nat) : Outcome (BitVec 32) := do
  let w ← rd su3 (6 * k)
  ok (chk + w)

/-- the loops over the colours, lib/qdp_parscalarvec_specific.cc:507-533 -/
def chkLoops (mat : Nat) (su3 : List (BitVec 32)) (chk : BitVec 32) : Outcome (BitVec 32) :=
  foldO (fun chk kk => foldO (fun chk ii =>
    if mat = 12 ∧ ¬ ii < 2 then ok chk
    else do
      let chk ← chkSu3 su3 chk ((ii * 3 + kk) * 2 + 0)
      chkSu3 su3 chk ((ii * 3 + kk) * 2 + 1)) chk (List.range 3)) chk (List.range 3)

/-- one link in `readArchiv`, lib/qdp_parscalarvec_specific.cc:485-533, after the numbers have been read: `su3` are 18 words, `old` is what they held before.
Simplified: `old` is the same for every link.  The size of the numbers in the file (`float_size`) is not looked at. -/
def readLinkN (be : Bool) (N : Num K) (mat : Nat) (old : Nat → BitVec 32) (b : List Byte) (chk : BitVec 32) : Outcome (Link K × BitVec 32) :=
  if 18 < mat then ub
  else do
    let w : Nat → BitVec 32 := fun j => ((wordsOf be b)[j]?).getD (old j)
    let w : Nat → BitVec 32 := if mat = 12 then fun j => if j < 12 then w j else N.toW (third (fun j => N.of32 (w j)) j) else w
    let chk ← chkLoops mat ((List.range 18).map w) chk
    ok (linkOf fun j => N.of32 (w j), chk)

/-- messages of `readArchiv`: the numbers of a link -/
abbrev ReadProc (K : Type) := Proc (List Byte) (VField K × BitVec 32)

/-- the loops of `readArchiv` on node `me`, lib/qdp_parscalarvec_specific.cc:467-540: `readArray` reads on the primary node and gives the numbers to all -/
def readNode (be : Bool) (N : Num K) (g : Geom) (mat : Nat) (old : Nat → BitVec 32) (me : Nat) : List (Nat × Nat) → VField K → BitVec 32 → Dev → ReadProc K
  | [], F, chk, _ => .done (F, chk)
  | p :: ps, F, chk, d => after (crtesn p.1 g.L) fun c => after (if me = 0 then readArray be 4 mat d else ok ([], d)) fun r =>
      .bcast r.1 fun b => after (readLinkN be N mat old b chk) fun q => after (VecNodes.pokeSite g me (F p.2) q.1 c) fun G =>
      readNode be N g mat old me ps (Function.update F p.2 G) q.2 r.2

end arith

/-! ## Lemmas -/

/-- the vectors hold the field of `Verif.Archive` -/
def Rep (k n Nd : Nat) (F : VField K) (F' : Archive.Field K) : Prop := ∀ dd, dd < Nd → Shape k (n / 2 ^ k) (F dd) ∧ ∀ i, i < n → Site k (F dd) i (F' dd i)

theorem extract_all {V : Type} {k n : Nat} {F : List (List V)} {h : Nat → V} (hF : ∀ i, i < n → Site k F i (h i)) {junk : List V} (hj : junk.length = n) :
    Vec.extract k F (List.range n) junk = ok ((List.range n).map h) := by
  obtain ⟨s, e1, e2, e3⟩ := LatticeIO.foldO_range_id (s := junk) (f := fun d i => do let x ← getAt k F i; wrElem d i x)
    (fun m d => d.length = n ∧ ∀ i, i < m → d[i]? = some (h i)) n ⟨hj, by intro i hi; omega⟩ (by
      rintro m d hm ⟨h1, h2⟩
      refine ⟨d.set m (h m), by rw [getAt_site.2 (hF m hm), ok_bind, wrElem, if_pos (by omega)], by rw [List.length_set, h1], fun i hi => ?_⟩
      by_cases him : i = m
      · subst him; rw [List.getElem?_set_self (by omega)]
      · rw [List.getElem?_set_ne (by omega)]; exact h2 i (by omega))
  rw [Vec.extract, e1]
  congr 1
  refine List.ext_getElem? fun i => ?_
  by_cases hi : i < n
  · rw [e3 i hi]; simp [hi]
  · rw [List.getElem?_eq_none (by omega), List.getElem?_eq_none (by simp; omega)]

theorem chkNodeV_eq (be : Bool) (N : Num K) (k n Nd mat : Nat) (junk : Nat → BitVec 32) (junkL : List (Link K)) (hj : junkL.length = n) (F : VField K) (F' : Archive.Field K)
    (h : Rep k n Nd F F') : chkNodeV be N k n Nd mat junk junkL F = chkNode be N n Nd mat junk F' := by
  have h1 : extractAll k n Nd junkL F = ok ((List.range Nd).map fun dd => (List.range n).map (F' dd)) := by
    unfold extractAll
    refine mapO_ok fun dd hdd => ?_
    exact extract_all (h dd (List.mem_range.1 hdd)).2 hj
  rw [chkNodeV, h1, ok_bind, chkNode]
  refine foldO_congr _ _ fun chk i hi => foldO_congr _ _ fun chk dd hdd => ?_
  have hi := List.mem_range.1 hi
  have hdd := List.mem_range.1 hdd
  have e1 : rd ((List.range Nd).map fun dd => (List.range n).map (F' dd)) dd = ok ((List.range n).map (F' dd)) := by
    rw [rd_of_lt (by simpa using hdd)]; simp
  have e2 : rd ((List.range n).map (F' dd)) i = ok (F' dd i) := by rw [rd_of_lt (by simpa using hi)]; simp
  rw [chkLinkV, e1, ok_bind, e2, ok_bind, chkLink, getLink, if_pos hi, ok_bind]

theorem foldO_sim {σ τ α : Type} (Rl : σ → τ → Prop) {f : σ → α → Outcome σ} {h : τ → α → Outcome τ} {l : List α}
    (hstep : ∀ a ∈ l, ∀ s t t', Rl s t → h t a = ok t' → ∃ s', f s a = ok s' ∧ Rl s' t') : ∀ s t t', Rl s t → foldO h t l = ok t' → ∃ s', foldO f s l = ok s' ∧ Rl s' t' := by
  induction l with
  | nil => intro s t t' hR he; cases he; exact ⟨s, rfl, hR⟩
  | cons a as ih =>
    intro s t t' hR he
    rw [foldO] at he
    obtain ⟨t1, h1, h2⟩ := bind_eq_ok.1 he
    obtain ⟨s1, e1, hR1⟩ := hstep a (by simp) s t t1 hR h1
    obtain ⟨s2, e2, hR2⟩ := ih (fun b hb => hstep b (by simp [hb])) s1 t1 t' hR1 h2
    exact ⟨s2, by rw [foldO, e1, ok_bind, e2], hR2⟩

theorem writeArchivV_eq (be : Bool) (N : Num K) (k : Nat) (g : Geom) (hg : g.Good) (h1 : g.nodes = 1) (Nd mat : Nat) (junk : Nat → BitVec 32) (F : VField K)
    (F' : Archive.Field K) (h : Rep k g.sites Nd F F') (d : Dev) : writeArchivV be N k g Nd mat junk F d = writeArchivS be N g Nd mat junk F' d := by
  refine foldO_congr _ _ fun d r hr => foldO_congr _ _ fun d dd hdd => ?_
  obtain ⟨k1, k2, k3, k4, k5, k6⟩ := slot_eq hg (List.mem_range.1 hr)
  rw [writeLinkV, writeLinkS, indexOf, k6, ok_bind, ok_bind, Vec.peekSite, k3, ok_bind, ok_bind, getLink, if_pos k4,
    getAt_site.2 ((h dd (List.mem_range.1 hdd)).2 _ k4)]

/-! ## Specification -/

/-- one node holds the gauge field `f` -/
def HoldsV (k : Nat) (g : Geom) (Nd : Nat) (F : VField K) (f : Nat → List Nat → Link K) : Prop := ∀ dd, dd < Nd → Vec.Holds k g (F dd) (f dd)

/-- the nodes hold the gauge field `f` -/
def HoldsN (g : Geom) (Nd : Nat) (F : Nat → VField K) (f : Nat → List Nat → Link K) : Prop := ∀ dd, dd < Nd → VecNodes.Holds g (fun n => F n dd) (f dd)

theorem rep_of_holds {k : Nat} {g : Geom} (hg : Vec.Lattice k g) {Nd : Nat} {F : VField K} {f : Nat → List Nat → Link K} (h : HoldsV k g Nd F f) :
    Rep k g.sites Nd F (fun dd i => f dd (co g 0 i)) ∧ HoldsG g Nd (fun _ => fun dd i => f dd (co g 0 i)) f := by
  refine ⟨fun dd hdd => ⟨(h dd hdd).1, fun i hi => ?_⟩, fun n i c dd hn hi hc hdd => ?_⟩
  · obtain ⟨c, e1, -⟩ := hg.coords hi
    have := (h dd hdd).2 i c hi e1
    show Site k (F dd) i (f dd (co g 0 i))
    rwa [show co g 0 i = c by simp [co, e1]]
  · rw [hg.one] at hn
    obtain rfl : n = 0 := by omega
    simp [co, hc]

theorem holds_of_rep {k : Nat} {g : Geom} (hg : Vec.Lattice k g) {Nd : Nat} {F : VField K} {F' : Archive.Field K} {f : Nat → List Nat → Link K}
    (h : Rep k g.sites Nd F F') (h' : HoldsG g Nd (fun _ => F') f) : HoldsV k g Nd F f := by
  refine fun dd hdd => ⟨(h dd hdd).1, fun i c hi hc => ?_⟩
  rw [← h' 0 i c dd (by rw [hg.one]; omega) hi hc hdd]
  exact (h dd hdd).2 i hi

/-! ## Theorems: one node -/

/-- C105: with vectors the checksum of a gauge field is the sum of the words of the file, as without. -/
theorem C105_checksum_one (be : Bool) (N : Num K) (k : Nat) (g : Geom) (hg : Vec.Lattice k g) (Nd mat : Nat) (hm : mat = 12 ∨ mat = 18) (junk : Nat → BitVec 32)
    (junkL : List (Link K)) (hj : junkL.length = g.sites) (F : VField K) (f : Nat → List Nat → Link K) (hF : HoldsV k g Nd F f) :
    computeChecksumV be N k g Nd mat junk junkL F = ok (fieldSum N g.L Nd mat f) := by
  obtain ⟨h1, h2⟩ := rep_of_holds hg hF
  rw [computeChecksumV, chkNodeV_eq be N k g.sites Nd mat junk junkL hj F _ h1]
  exact C45_checksum_single be N g hg.good hg.one Nd mat hm junk _ f h2

/-- C105: with vectors `writeArchiv` writes the file of C45. -/
theorem C105_archive_one (be : Bool) (N : Num K) (k : Nat) (g : Geom) (hg : Vec.Lattice k g) (Nd mat : Nat) (hm : mat = 12 ∨ mat = 18) (junk : Nat → BitVec 32)
    (F : VField K) (f : Nat → List Nat → Link K) (hF : HoldsV k g Nd F f) (d : Dev) :
    writeArchivV be N k g Nd mat junk F d = ok (d.put (archBytes N g.L Nd mat f)) := by
  obtain ⟨h1, h2⟩ := rep_of_holds hg hF
  rw [writeArchivV_eq be N k g hg.good hg.one Nd mat junk F _ h1]
  exact write_single be N g hg.good hg.one Nd mat hm junk _ f h2 d

section arith
variable [Add K] [Sub K] [Mul K]

theorem readLink_sim (be : Bool) (N : Num K) (k : Nat) (g : Geom) (hg : Vec.Lattice k g) (Nd mat fs : Nat) (sj : Nat → K) (site : Nat) (hs : site < nsites g.L) (dd : Nat)
    (hdd : dd < Nd) (F : VField K) (F' F1 : Archive.Field K) (c c1 : BitVec 32) (d d1 : Dev) (h : Rep k g.sites Nd F F')
    (he : readLinkS be N g mat fs sj site ((F', c), d) dd = ok ((F1, c1), d1)) :
    ∃ F2, readLinkV be N k g mat fs sj site ((F, c), d) dd = ok ((F2, c1), d1) ∧ Rep k g.sites Nd F2 F1 := by
  obtain ⟨k1, k2, k3, k4, k5, k6⟩ := slot_eq hg.good hs
  rw [readLinkS] at he
  obtain ⟨r, e1, he⟩ := bind_eq_ok.1 he
  obtain ⟨m, e2, he⟩ := bind_eq_ok.1 he
  rw [indexOf, k6, ok_bind, k3, ok_bind, if_pos k4] at he
  injection he with he
  simp only [Prod.mk.injEq] at he
  obtain ⟨⟨rfl, rfl⟩, rfl⟩ := he
  obtain ⟨G, g1, g2, g3, g4⟩ := setAt_ok (h dd hdd).1 (i := (slot g (digits site g.L)).2) (by rw [hg.sites_eq]; exact k4) m
  refine ⟨Function.update F dd G, ?_, fun x hx => ?_⟩
  · have e1' : readArray be fs mat d = ok r := e1
    rw [readLinkV, e1', ok_bind, e2, ok_bind, k6, ok_bind, Vec.pokeSite, k3, ok_bind, g1, ok_bind]
  · by_cases hxd : x = dd
    · subst hxd
      rw [Function.update_self]
      refine ⟨g2, fun i hi => ?_⟩
      by_cases hii : i = (slot g (digits site g.L)).2
      · subst hii
        simpa [Archive.Field.put] using g3
      · have := (g4 i hii _).2 ((h x hx).2 i hi)
        simpa [Archive.Field.put, hii] using this
    · rw [Function.update_of_ne hxd]
      refine ⟨(h x hx).1, fun i hi => ?_⟩
      simpa [Archive.Field.put, hxd] using (h x hx).2 i hi

/-- whatever a node without vectors reads, a node with vectors reads too -/
theorem readArchiv_sim (be : Bool) (N : Num K) (k : Nat) (g : Geom) (hg : Vec.Lattice k g) (Nd mat fs : Nat) (sj : Nat → K) (F : VField K) (F' F1 : Archive.Field K)
    (c1 : BitVec 32) (d d1 : Dev) (h : Rep k g.sites Nd F F') (he : readArchivS be N g Nd mat fs sj F' d = ok ((F1, c1), d1)) :
    ∃ F2, readArchivV be N k g Nd mat fs sj F d = ok ((F2, c1), d1) ∧ Rep k g.sites Nd F2 F1 := by
  let Rl : (VField K × BitVec 32) × Dev → (Archive.Field K × BitVec 32) × Dev → Prop := fun a b => Rep k g.sites Nd a.1.1 b.1.1 ∧ a.1.2 = b.1.2 ∧ a.2 = b.2
  obtain ⟨⟨⟨F2, c2⟩, d2⟩, e1, e2, rfl, rfl⟩ := foldO_sim Rl (f := fun st site => foldO (readLinkV be N k g mat fs sj site) st (List.range Nd))
    (h := fun st site => foldO (readLinkS be N g mat fs sj site) st (List.range Nd)) (l := List.range (nsites g.L)) (by
      intro site hs s t t' hR hh
      refine foldO_sim Rl ?_ s t t' hR hh
      rintro dd hdd ⟨⟨Fa, ca⟩, da⟩ ⟨⟨Fb, cb⟩, db⟩ ⟨⟨Fc, cc⟩, dc⟩ ⟨hr, rfl, rfl⟩ hl
      obtain ⟨F2, q1, q2⟩ := readLink_sim be N k g hg Nd mat fs sj site (List.mem_range.1 hs) dd (List.mem_range.1 hdd) Fa Fb Fc _ cc _ dc hr hl
      exact ⟨_, q1, q2, rfl, rfl⟩) ((F, 0), d) ((F', 0), d) ((F1, c1), d1) ⟨h, rfl, rfl⟩ he
  exact ⟨F2, e1, e2⟩

omit [Add K] [Sub K] [Mul K] in
/-- any vectors hold some field -/
theorem rep_exists {k n Nd : Nat} (hk : 2 ^ k ∣ n) [Nonempty K] (F : VField K) (h : ∀ dd, dd < Nd → Shape k (n / 2 ^ k) (F dd)) : ∃ F' : Archive.Field K, Rep k n Nd F F' := by
  classical
  have : ∀ dd i, ∃ x : Link K, dd < Nd → i < n → Site k (F dd) i x := by
    intro dd i
    by_cases hh : dd < Nd ∧ i < n
    · obtain ⟨x, hx⟩ := (h dd hh.1).site (i := i) (by rw [Nat.div_mul_cancel hk]; exact hh.2)
      exact ⟨x, fun _ _ => hx⟩
    · obtain ⟨x⟩ := ‹Nonempty K›
      exact ⟨fun _ _ => (x, x), fun a b => absurd ⟨a, b⟩ hh⟩
  choose F' hF' using this
  exact ⟨F', fun dd hdd => ⟨h dd hdd, fun i hi => hF' dd i hdd hi⟩⟩

/-- C105 (part): with vectors `readArchiv` on one node reads the file of C45 and finds its checksum.  Missing: many nodes, where it is false. -/
theorem C105_read_one_partial (be : Bool) (N : Num K) (k : Nat) (g : Geom) (hg : Vec.Lattice k g) (Nd mat : Nat) (hm : mat = 12 ∨ mat = 18) (sj : Nat → K)
    (f : Nat → List Nat → Link K) (d : Dev) (hd : d.Sees (archBytes N g.L Nd mat f)) (F : VField K) (hF : ∀ dd, dd < Nd → Shape k (g.sites / 2 ^ k) (F dd)) :
    ∃ F', readArchivV be N k g Nd mat 4 sj F d = ok ((F', fieldSum N g.L Nd mat f), d.skip (archBytes N g.L Nd mat f)) ∧
      HoldsV k g Nd F' (fun dd c => linkFrom N mat 4 sj (wordVals N mat f dd c)) := by
  have : Nonempty K := ⟨sj 0⟩
  obtain ⟨F0, h0⟩ := rep_exists hg.mult F hF
  obtain ⟨F1, e1, e2⟩ := (C45_read be N g hg.good Nd mat hm sj f d hd).1 F0 hg.one
  obtain ⟨F2, e3, e4⟩ := readArchiv_sim be N k g hg Nd mat 4 sj F F0 F1 _ d _ h0 e1
  exact ⟨F2, e3, holds_of_rep hg e4 e2⟩

/-- C105: … and a file with numbers of 64 bits. -/
theorem C105_double_one (be : Bool) (N : Num K) (k : Nat) (g : Geom) (hg : Vec.Lattice k g) (Nd mat : Nat) (hm : mat = 12 ∨ mat = 18) (sj : Nat → K)
    (v : Nat → List Nat → List (List Byte)) (hv : IsVals g.L Nd mat 8 v) (d : Dev) (hd : d.Sees (valBytes g.L Nd v)) (F : VField K)
    (hF : ∀ dd, dd < Nd → Shape k (g.sites / 2 ^ k) (F dd)) :
    ∃ F', readArchivV be N k g Nd mat 8 sj F d = ok ((F', valSum g.L Nd v), d.skip (valBytes g.L Nd v)) ∧
      HoldsV k g Nd F' (fun dd c => linkFrom N mat 8 sj (v dd c)) := by
  have : Nonempty K := ⟨sj 0⟩
  obtain ⟨F0, h0⟩ := rep_exists hg.mult F hF
  obtain ⟨F1, e1, e2⟩ := (C45_double be N g hg.good Nd mat hm sj v hv d hd).1 F0 hg.one
  obtain ⟨F2, e3, e4⟩ := readArchiv_sim be N k g hg Nd mat 8 sj F F0 F1 _ d _ h0 e1
  exact ⟨F2, e3, holds_of_rep hg e4 e2⟩

end arith

/-! ## Theorems: many nodes -/

/-- the machine at the beginning of `computeChecksum` -/
def checksumStart (be : Bool) (N : Num K) (g : Geom) (Nd mat : Nat) (junk : Nat → Nat → BitVec 32) (junkL : Nat → List (Link K)) (F : Nat → VField K) :
    State (BitVec 32) (BitVec 32) :=
  { proc := fun n => checksumNode be N g Nd mat (junk n) (junkL n) (F n), queue := fun _ => [], log := fun _ => [] }

/-- … of `writeArchiv` -/
def writeStart [Zero K] (be : Bool) (N : Num K) (g : Geom) (Nd mat : Nat) (junk : Nat → Nat → BitVec 32) (F : Nat → VField K) (D : Nat → Dev) : State (List (Link K)) Dev :=
  { proc := fun n => writeNode be N g mat (junk n) n (F n) (pairs (nsites g.L) Nd) (D n), queue := fun _ => [], log := fun _ => [] }

/-- … of `readArchiv` -/
def readStart [Add K] [Sub K] [Mul K] (be : Bool) (N : Num K) (g : Geom) (Nd mat : Nat) (old : Nat → Nat → BitVec 32) (F : Nat → VField K) (D : Nat → Dev) :
    State (List Byte) (VField K × BitVec 32) :=
  { proc := fun n => readNode be N g mat (old n) n (pairs (nsites g.L) Nd) (F n) 0 (D n), queue := fun _ => [], log := fun _ => [] }

/-- C105: the checksum on many nodes with vectors: every execution ends and gives every node the sum of the words of the file. -/
theorem C105_checksum_many (net : Net) (be : Bool) (N : Num K) (g : Geom) (hg : g.Good) (h4 : 4 ∣ g.sites) (Nd mat : Nat) (hm : mat = 12 ∨ mat = 18)
    (junk : Nat → Nat → BitVec 32) (junkL : Nat → List (Link K)) (hj : ∀ n, n < g.nodes → (junkL n).length = g.sites) (F : Nat → VField K) (f : Nat → List Nat → Link K)
    (hF : HoldsN g Nd F f) : AlwaysEnds net g.nodes (checksumStart be N g Nd mat junk junkL F) fun r => ∀ n, n < g.nodes → r n = fieldSum N g.L Nd mat f := by
  have hrep : ∀ n, n < g.nodes → Rep 2 g.sites Nd (F n) (fun dd i => f dd (co g n i)) := fun n hn dd hdd => ⟨(hF dd hdd n hn).1, fun i hi => by
    obtain ⟨e1, -⟩ := co_spec hg hn hi
    exact (hF dd hdd n hn).2 i _ hi e1⟩
  have hsum : ∀ n, n < g.nodes → ∃ c, chkNodeV be N 2 g.sites Nd mat (junk n) (junkL n) (F n) = ok c ∧ c = ∑ i ∈ Finset.range g.sites, ∑ dd ∈ Finset.range Nd, (linkWords N mat (f dd (co g n i))).sum := by
    intro n hn
    exact ⟨_, by rw [chkNodeV_eq be N 2 g.sites Nd mat (junk n) (junkL n) (hj n hn) (F n) _ (hrep n hn), chkNode_eq be N g.sites Nd hm], rfl⟩
  have hP := C45_checksum_par be N g hg Nd mat hm (junk 0) (fun n dd i => f dd (co g n i)) f (fun n i c dd hn hi hc hdd => by simp [co, hc])
  rw [computeChecksumP, mapO_ok (fun n _ => chkNode_eq be N g.sites Nd hm (junk 0) _), ok_bind] at hP
  injection hP with hP
  obtain ⟨m, t, hr, ha⟩ := reduce_all net g.nodes (checksumStart be N g Nd mat junk junkL F)
    (fun n => ∑ i ∈ Finset.range g.sites, ∑ dd ∈ Finset.range Nd, (linkWords N mat (f dd (co g n i))).sum)
    (fun _ cs => .done (cs.foldl (· + ·) 0)) 0 ⟨fun n hn => by
      obtain ⟨c, e1, rfl⟩ := hsum n hn
      show checksumNode be N g Nd mat (junk n) (junkL n) (F n) = _
      rw [checksumNode, e1]; rfl, fun _ => rfl, fun _ _ => rfl⟩
  exact alwaysEnds hr _ ha fun n hn => hP

theorem writeNode_all [Zero K] (net : Net) (be : Bool) (N : Num K) (g : Geom) (hg : g.Good) (h4 : 4 ∣ g.sites) (h0 : 0 < g.nodes) (Nd mat : Nat) (hm : mat = 12 ∨ mat = 18)
    (junk : Nat → Nat → BitVec 32) (F : Nat → VField K) (f : Nat → List Nat → Link K) (hF : HoldsN g Nd F f) : ∀ (ps : List (Nat × Nat)),
    (∀ p ∈ ps, p.1 < nsites g.L ∧ p.2 < Nd) → ∀ (D : Nat → Dev) (s : State (List (Link K)) Dev) (e : Nat),
    At g.nodes s (fun n => writeNode be N g mat (junk n) n (F n) ps (D n)) e →
    ∃ m t e', Run net g.nodes m s t ∧ At g.nodes t (fun n => .done (if n = 0 then (D 0).put (ps.flatMap fun p => (linkWords N mat (f p.2 (digits p.1 g.L))).flatMap (store32 true)) else D n)) e' := by
  intro ps
  induction ps with
  | nil =>
    intro _ D s e h
    refine ⟨0, s, e, Run.refl _, At.congr h fun n hn => ?_⟩
    by_cases hz : n = 0
    · subst hz; simp [writeNode, put_nil]
    · simp [writeNode, hz]
  | cons p ps ih =>
    intro hp D s e h
    obtain ⟨hp1, hp2⟩ := hp p (by simp)
    obtain ⟨k1, k2, k3, k4, k5, k6⟩ := slot_eq hg hp1
    obtain ⟨m, t, r1, a1⟩ := VecNodes.peek_all h4 net hg h0 (fun n => F n p.2) (f p.2) (hF p.2 hp2) (digits p.1 g.L) (digits_inRange hp1) s
      (fun n m => after (linkBytes be N mat (junk n) m) fun b => after (if n = 0 then writeArray be b 4 mat (D n) else ok (b, D n)) fun r => writeNode be N g mat (junk n) n (F n) ps r.2)
      e (At.congr h fun n hn => by rw [writeNode, k6]; rfl)
    have hw := writeArray_eq be (size := 4) (by unfold Supported; omega) (bigs (linkWords N mat (f p.2 (digits p.1 g.L)))) (bigs_length _)
      (Or.inr (by rw [bigs, List.length_map, linkWords_length N hm]; omega)) [] (D 0)
    rw [List.append_nil, show (bigs (linkWords N mat (f p.2 (digits p.1 g.L)))).length = mat by rw [bigs, List.length_map, linkWords_length N hm], flatten_bigs] at hw
    obtain ⟨m2, t2, e2, r2, a2⟩ := ih (fun q hq => hp q (by simp [hq])) (fun n => if n = 0 then (D 0).put ((linkWords N mat (f p.2 (digits p.1 g.L))).flatMap (store32 true)) else D n)
      t (e + 1) (At.congr a1 fun n hn => by
        rw [linkBytes_eq be N hm]
        by_cases hz : n = 0
        · subst hz; simp only [after, if_true]; rw [hw]
        · simp only [after, if_neg hz])
    refine ⟨_, t2, e2, r1.trans r2, At.congr a2 fun n hn => ?_⟩
    by_cases hz : n = 0
    · subst hz; simp [put_put]
    · simp [hz]

/-- C105: `writeArchiv` on many nodes with vectors: every execution ends, and the primary node has written the file of C45. -/
theorem C105_archive_many [Zero K] (net : Net) (be : Bool) (N : Num K) (g : Geom) (hg : g.Good) (h4 : 4 ∣ g.sites) (h0 : 0 < g.nodes) (Nd mat : Nat)
    (hm : mat = 12 ∨ mat = 18) (junk : Nat → Nat → BitVec 32) (F : Nat → VField K) (f : Nat → List Nat → Link K) (hF : HoldsN g Nd F f) (D : Nat → Dev) :
    AlwaysEnds net g.nodes (writeStart be N g Nd mat junk F D) fun r => r 0 = (D 0).put (archBytes N g.L Nd mat f) ∧ ∀ n, n ≠ 0 → r n = D n := by
  obtain ⟨m, t, e, hr, ha⟩ := writeNode_all net be N g hg h4 h0 Nd mat hm junk F f hF (pairs (nsites g.L) Nd) (by
    rintro ⟨s, dd⟩ hp
    simp only [pairs, List.mem_flatMap, List.mem_map, List.mem_range, Prod.mk.injEq] at hp
    obtain ⟨s', h1, dd', h2, rfl, rfl⟩ := hp
    exact ⟨h1, h2⟩) D (writeStart be N g Nd mat junk F D) 0 ⟨fun n hn => rfl, fun _ => rfl, fun _ _ => rfl⟩
  refine alwaysEnds hr _ ha ⟨?_, fun n hn => by simp [hn]⟩
  simp [archBytes, pairs, List.flatMap_assoc, List.flatMap_map]

section arith
variable [Add K] [Sub K] [Mul K]

/-- the sum of the words of a link goes beyond the array -/
theorem chkLoops_ub (mat : Nat) (w : Nat → BitVec 32) (chk : BitVec 32) : chkLoops mat ((List.range 18).map w) chk = ub := by
  have h : ∀ i, ¬ i < 18 → rd ((List.range 18).map w) i = ub := fun i hi => by simp [rd, hi]
  have h0 : rd ((List.range 18).map w) 0 = ok (w 0) := by simp [rd]
  have h6 : rd ((List.range 18).map w) 6 = ok (w 6) := by simp [rd]
  have h36 := h 36 (by omega)
  simp only [chkLoops, show List.range 3 = [0, 1, 2] from rfl, foldO, chkSu3]
  simp [h0, h6, h36, ok_bind]

/-- C105 (refuted, many nodes): `readArchiv` of the library for many nodes with vectors never reads a link: whatever the file, the summing of the checksum
leaves the array at the second row of the first link. -/
theorem C105_link_refuted (be : Bool) (N : Num K) (mat : Nat) (old : Nat → BitVec 32) (b : List Byte) (chk : BitVec 32) : readLinkN be N mat old b chk = ub := by
  unfold readLinkN
  split
  · rfl
  · simp only [chkLoops_ub]; rfl

/-- a node that reads has not finished and will not -/
def Doomed {V R : Type} : Proc V R → Prop
  | .stop => True
  | .bcast _ k => ∀ v, k v = .stop
  | .leave k => ∀ v, k v = .stop
  | _ => False

theorem doomed_run {V R : Type} (net : Net) (N : Nat) : ∀ (m : Nat) (s t : State V R), Run net N m s t → (∀ n, n < N → Doomed (s.proc n)) → ∀ n, n < N → Doomed (t.proc n) := by
  intro m s t h
  induction h with
  | refl s => exact fun h => h
  | @step m i s t u hs _ ih =>
    intro h
    refine ih fun n hn => ?_
    obtain ⟨hi, hs⟩ := hs
    have hd := h i hi
    cases hp : s.proc i with
    | stop => rw [hp] at hs; exact hs.elim
    | bcast v k =>
      rw [hp] at hs hd
      subst hs
      by_cases hni : n = i
      · subst hni; simp only [Function.update_self]; exact hd
      · simp only [Function.update_of_ne hni]; exact h n hn
    | leave k =>
      rw [hp] at hs hd
      obtain ⟨v, -, -, -, rfl⟩ := hs
      by_cases hni : n = i
      · subst hni; simp only [Function.update_self]; rw [show k v = .stop from hd v]; trivial
      · simp only [Function.update_of_ne hni]; exact h n hn
    | _ => rw [hp] at hd; exact hd.elim

/-- C105 (refuted, many nodes): no execution of `readArchiv` on any number of nodes ever lets a node finish — for every file, every lattice with a site, every
number of directions but 0, and every network. -/
theorem C105_read_many_refuted (net : Net) (be : Bool) (N : Num K) (g : Geom) (hL : 0 < nsites g.L) (Nd mat : Nat) (hd : 0 < Nd) (old : Nat → Nat → BitVec 32)
    (F : Nat → VField K) (D : Nat → Dev) (m : Nat) (t : State (List Byte) (VField K × BitVec 32)) (h : Run net g.nodes m (readStart be N g Nd mat old F D) t) (n : Nat)
    (hn : n < g.nodes) (r : VField K × BitVec 32) : t.proc n ≠ .done r := by
  have hdo := doomed_run net g.nodes m _ t h (by
    intro n hn
    show Doomed (readNode be N g mat (old n) n (pairs (nsites g.L) Nd) (F n) 0 (D n))
    obtain ⟨x, hx⟩ : ∃ x, nsites g.L = x + 1 := ⟨nsites g.L - 1, by omega⟩
    obtain ⟨y, rfl⟩ : ∃ y, Nd = y + 1 := ⟨Nd - 1, by omega⟩
    rw [pairs, hx, List.range_succ_eq_map, List.range_succ_eq_map, List.flatMap_cons, List.map_cons, List.cons_append, readNode]
    cases crtesn 0 g.L with
    | ok c =>
      simp only [after]
      cases (if n = 0 then readArray be 4 mat (D n) else ok ([], D n)) with
      | ok r => intro b; simp only [C105_link_refuted]
      | abort => trivial
      | ub => trivial
    | abort => trivial
    | ub => trivial) n hn
  intro he
  rw [he] at hdo
  exact hdo

end arith

/-! ### cases: the field of integers of C45, on one node (6 x 2) and on two (4 x 6) -/

/-- the vectors of one node -/
def vectors (g : Geom) (f : Nat → List Nat → Link Int) (n : Nat) : VField Int := fun dd => (List.range (g.sites / 4)).map fun o => (List.range 4).map fun j => f dd (co g n (4 * o + j))

theorem vectors_one : HoldsV 2 (Vec.geomV [6, 2]) 2 (vectors (Vec.geomV [6, 2]) intField 0) intField := by
  intro dd _
  exact VecNodes.pieces (Vec.geomV [6, 2]) (by decide) intField dd 0 (by decide)

theorem vectors_two : HoldsN VecNodes.two 2 (vectors VecNodes.two intField) intField := by
  intro dd _
  exact VecNodes.pieces VecNodes.two (by decide) intField dd

/-- one node -/
example (d : Dev) : computeChecksumV false ints 2 (Vec.geomV [6, 2]) 2 12 (fun _ => 7) (List.replicate 12 fun _ _ => (0, 0)) (vectors (Vec.geomV [6, 2]) intField 0) =
      ok (fieldSum ints [6, 2] 2 12 intField) ∧
    writeArchivV false ints 2 (Vec.geomV [6, 2]) 2 18 (fun _ => 7) (vectors (Vec.geomV [6, 2]) intField 0) d = ok (d.put (archBytes ints [6, 2] 2 18 intField)) :=
  ⟨C105_checksum_one false ints 2 _ Vec.case_lattice 2 12 (Or.inl rfl) _ _ (by decide) _ _ vectors_one,
    C105_archive_one false ints 2 _ Vec.case_lattice 2 18 (Or.inr rfl) _ _ _ vectors_one d⟩

example : fieldSum ints [6, 2] 2 12 intField = 3528#32 := by decide +kernel

/-- two nodes -/
example (net : Net) (d : Dev) : AlwaysEnds net 2 (checksumStart false ints VecNodes.two 2 12 (fun _ _ => 7) (fun _ => List.replicate 12 fun _ _ => (0, 0)) (vectors VecNodes.two intField))
      (fun r => ∀ n, n < 2 → r n = fieldSum ints [4, 6] 2 12 intField) ∧
    AlwaysEnds net 2 (writeStart true ints VecNodes.two 2 18 (fun _ _ => 7) (vectors VecNodes.two intField) (fun _ => d))
      (fun r => r 0 = d.put (archBytes ints [4, 6] 2 18 intField) ∧ ∀ n, n ≠ 0 → r n = d) :=
  ⟨C105_checksum_many net false ints _ VecNodes.two_good (by decide) 2 12 (Or.inl rfl) _ _ (fun _ _ => by decide) _ _ vectors_two,
    C105_archive_many net true ints _ VecNodes.two_good (by decide) (by decide) 2 18 (Or.inr rfl) _ _ _ vectors_two _⟩

/-- the file that was just written cannot be read: no node ever finishes -/
example (net : Net) (d : Dev) (m : Nat) (t : State (List Byte) (VField Int × BitVec 32))
    (h : Run net 2 m (readStart true ints VecNodes.two 2 18 (fun _ _ => 7) (vectors VecNodes.two intField) (fun _ => { d.put (archBytes ints [4, 6] 2 18 intField) with pos := d.pos })) t) :
    ∀ r, t.proc 1 ≠ .done r :=
  C105_read_many_refuted net true ints VecNodes.two (by decide) 2 18 (by decide) _ _ _ m t h 1 (by decide)

end Verif.VecArchive
