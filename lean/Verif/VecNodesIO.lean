import Verif.VecNodesThm
import Verif.XmlField
/-
Input and output of fields in the library for many nodes with vector instructions: include/qdp_parscalarvec_specific.h:1572-1833.

Every node is a process of its own; `Site_t recv_buf` is the buffer of a node, uninitialised when the function begins and used again for the next site.

Simplifications: those of `LatticeIONet` (`DML_route_bytes` is a message) and of `XmlField` (a writer is the list of what it was asked to write);
a value of a site is the bytes of `Site_t`, `getSite` and `copy_site` being those of `Vec` (C100).
-/
namespace Verif.VecNodes
open Verif Outcome ByteOrder Verif.Layout Verif.ParLayout Verif.Subset Verif.BinIO Verif.ParMap Verif.Network Verif.PeekPoke
open Verif.LatticeIO (foldO foldO_range_id IsField fileBytes)
open Verif.LatticeIONet (NodeProc routeN moved moved_length route_all At.congr after_ok)
open Verif.XmlField (AlwaysEnds alwaysEnds Fib Den Ev openTag closeTag putSite routeV)
open Verif.Vec (getAt setAt Shape Site getAt_site setAt_ok)

/-! ## Model -/

/-- `write(BinaryWriter, OLattice, coord)` on node `me`, include/qdp_parscalarvec_specific.h:1712-1749, and the body of the loop of `write(BinaryWriter, OLattice)`,
1675-1706: `buf` and `d` are the buffer and the stream of the node (that of the primary node is used) -/
def writeAt {R : Type} (be : Bool) (g : Geom) (size nmemb me : Nat) (F : List (List (List Byte))) (c : List Nat) (buf : List Byte) (d : Dev)
    (k : List Byte → Dev → NodeProc R) : NodeProc R :=
  after (g.nodeNumber c) fun node => after (g.linearSiteIndex c) fun linear =>
  after (if me = node then getAt 2 F linear else ok buf) fun b =>
  routeN me node node 0 (size * nmemb) b fun b =>
  after (if me = 0 then writeArray be b size nmemb d else ok (b, d)) fun r => k r.1 r.2

/-- `write(BinaryWriter, OLattice)` on node `me`, include/qdp_parscalarvec_specific.h:1667-1707: the loop over the sites -/
def writeLoop {R : Type} (be : Bool) (g : Geom) (size nmemb me : Nat) (F : List (List (List Byte))) : List Nat → List Byte → Dev →
    (Dev → NodeProc R) → NodeProc R
  | [], _, d, k => k d
  | s :: ss, buf, d, k => after (crtesn s g.L) fun c => writeAt be g size nmemb me F c buf d fun buf d => writeLoop be g size nmemb me F ss buf d k

/-- `read(BinaryReader, OLattice, coord)` on node `me`, include/qdp_parscalarvec_specific.h:1797-1833, and the body of the loop of `read(BinaryReader, OLattice)`,
1761-1791 -/
def readAt {R : Type} (be : Bool) (g : Geom) (size nmemb me : Nat) (F : List (List (List Byte))) (c : List Nat) (buf : List Byte) (d : Dev)
    (k : List (List (List Byte)) → List Byte → Dev → NodeProc R) : NodeProc R :=
  after (g.nodeNumber c) fun node => after (g.linearSiteIndex c) fun linear =>
  after (if me = 0 then readArray be size nmemb d else ok (buf, d)) fun r =>
  routeN me node 0 node (size * nmemb) r.1 fun b =>
  after (if me = node then setAt 2 F linear b else ok F) fun F => k F b r.2

/-- `read(BinaryReader, OLattice)` on node `me`, include/qdp_parscalarvec_specific.h:1754-1792: the loop over the sites -/
def readLoop {R : Type} (be : Bool) (g : Geom) (size nmemb me : Nat) : List Nat → List (List (List Byte)) → List Byte → Dev →
    (List (List (List Byte)) → Dev → NodeProc R) → NodeProc R
  | [], F, _, d, k => k F d
  | s :: ss, F, buf, d, k => after (crtesn s g.L) fun c => readAt be g size nmemb me F c buf d fun F buf d => readLoop be g size nmemb me ss F buf d k

/-- one pass of the loop of `operator<<(XMLWriter&, OLattice)`, include/qdp_parscalarvec_specific.h:1618-1658 -/
def xmlStep {W R : Type} (txt : W → List Byte) (g : Geom) (t : Fib) (me : Nat) (F : List (List (Den W t))) (site : Nat) (buf : Den W t) (d : List Ev)
    (k : Den W t → List Ev → Proc (Den W t) R) : Proc (Den W t) R :=
  after (crtesn site g.L) fun c => after (g.nodeNumber c) fun node => after (g.linearSiteIndex c) fun linear =>
  after (if me = node then getAt 2 F linear else ok buf) fun buf =>
  routeV me node buf fun buf => k buf (if me = 0 then putSite txt me t site c buf d else d)

def xmlLoop {W R : Type} (txt : W → List Byte) (g : Geom) (t : Fib) (me : Nat) (F : List (List (Den W t))) : List Nat → Den W t → List Ev →
    (List Ev → Proc (Den W t) R) → Proc (Den W t) R
  | [], _, d, k => k d
  | s :: ss, buf, d, k => xmlStep txt g t me F s buf d fun buf d => xmlLoop txt g t me F ss buf d k

/-- `write(xml, s, x)` of an `OLattice` (include/qdp_xmlio.h:880-887) with `operator<<(XMLWriter&, OLattice)`, include/qdp_parscalarvec_specific.h:1609-1664 -/
def xmlField {W R : Type} (txt : W → List Byte) (g : Geom) (t : Fib) (me : Nat) (s : String) (F : List (List (Den W t))) (junk : Den W t) (d : List Ev)
    (k : List Ev → Proc (Den W t) R) : Proc (Den W t) R :=
  xmlLoop txt g t me F (List.range (nsites g.L)) junk (openTag me "OLattice" [] (openTag me s [] d)) fun d => k (closeTag me (closeTag me d))

/-! ## Lemmas -/

section
variable {V : Type} {g : Geom}

/-- a site of the vectors is a site of the flattened piece, defined or not -/
theorem getAt_flat {n : Nat} {F : List (List V)} (h : Shape 2 n F) (i : Nat) : getAt 2 F i = rd F.flatten i := by
  by_cases hi : i < F.flatten.length
  · have h1 : F.flatten[i]? = some (F.flatten[i]) := List.getElem?_eq_getElem hi
    rw [getAt_site.2 ((flat_site h i _).1 h1), rd_of_lt hi]
  · have h1 : F.length ≤ i / 2 ^ 2 := by
      rw [flat_length h] at hi
      rw [h.1]
      omega
    have h2 : rd F.flatten i = ub := by simp [rd, List.getElem?_eq_none (by omega : F.flatten.length ≤ i)]
    rw [h2, getAt, Vec.outer_eq, rd, List.getElem?_eq_none h1]
    rfl

theorem xmlStep_eq {W R : Type} (txt : W → List Byte) (t : Fib) (me : Nat) {n : Nat} {F : List (List (Den W t))} (h : Shape 2 n F) (site : Nat) (buf : Den W t)
    (d : List Ev) (k : Den W t → List Ev → Proc (Den W t) R) : xmlStep txt g t me F site buf d k = XmlField.siteStep txt g t me F.flatten site buf d k := by
  unfold xmlStep XmlField.siteStep
  simp only [getAt_flat h]

theorem xmlLoop_eq {W R : Type} (txt : W → List Byte) (t : Fib) (me : Nat) {n : Nat} {F : List (List (Den W t))} (h : Shape 2 n F) (k : List Ev → Proc (Den W t) R) :
    ∀ (ss : List Nat) (buf : Den W t) (d : List Ev), xmlLoop txt g t me F ss buf d k = XmlField.siteLoop txt g t me F.flatten ss buf d k := by
  intro ss
  induction ss with
  | nil => intro buf d; rfl
  | cons s ss ih => intro buf d; rw [xmlLoop, XmlField.siteLoop, xmlStep_eq txt t me h]; congr; funext b d; exact ih b d

theorem xmlField_eq {W R : Type} (txt : W → List Byte) (t : Fib) (me : Nat) (s : String) {n : Nat} {F : List (List (Den W t))} (h : Shape 2 n F) (junk : Den W t)
    (d : List Ev) (k : List Ev → Proc (Den W t) R) : xmlField txt g t me s F junk d k = XmlField.writeField txt g t me s F.flatten junk d k := by
  unfold xmlField XmlField.writeField XmlField.putField
  exact xmlLoop_eq txt t me h _ _ _ _

theorem moved_here {sz node : Nat} {B : Nat → List Byte} (h1 : (B node).length = sz) (h2 : (B 0).length = sz) : moved node 0 sz B 0 = B node := by
  unfold moved
  split
  · rw [List.take_of_length_le (by omega), List.drop_eq_nil_of_le (by omega), List.append_nil]
  · rename_i h
    have : node = 0 := by by_contra hne; exact h ⟨hne, rfl⟩
    rw [this]

theorem moved_there {sz node : Nat} {B : Nat → List Byte} (h1 : (B node).length = sz) (h2 : (B 0).length = sz) : moved 0 node sz B node = B 0 := by
  unfold moved
  split
  · rw [List.take_of_length_le (by omega), List.drop_eq_nil_of_le (by omega), List.append_nil]
  · rename_i h
    have : node = 0 := by by_contra hne; exact h ⟨Ne.symm hne, rfl⟩
    rw [this]

variable (h4 : 4 ∣ g.sites)

include h4 in
/-- one site is written -/
theorem writeAt_all {R : Type} (net : Net) (hg : g.Good) (h0 : 0 < g.nodes) (be : Bool) (size nmemb : Nat) (hs : Supported size) (hsz : size * nmemb < 2 ^ 31)
    (F : Nat → List (List (List Byte))) (φ : List Nat → List Byte) (hF : Holds g F φ) (vs : List (List Byte)) (hv : vs.length = nmemb) (hw : ∀ v ∈ vs, v.length = size)
    (hnm : size = 1 ∨ nmemb < 2 ^ 32) (c : List Nat) (hc : InRange c g.L) (hφ : φ c = mem be vs) (B : Nat → List Byte)
    (hB : ∀ n, n < g.nodes → (B n).length = size * nmemb) (D : Nat → Dev) (k : Nat → List Byte → Dev → NodeProc R)
    (s : State (List Byte) R) (e : Nat) (h : At g.nodes s (fun n => writeAt be g size nmemb n (F n) c (B n) (D n) (k n)) e) :
    ∃ (m : Nat) (t : State (List Byte) R) (B' : Nat → List Byte), Run net g.nodes m s t ∧ (∀ n, n < g.nodes → (B' n).length = size * nmemb) ∧
      At g.nodes t (fun n => k n (B' n) (if n = 0 then (D 0).put vs.flatten else D n)) e := by
  obtain ⟨node, i, e1, hnode, e2, hi, e3⟩ := hg.1 c hc
  have hmem : (mem be vs).length = size * nmemb := by rw [mem_length be vs hw, hv, Nat.mul_comm]
  have hP : ∀ n, writeAt be g size nmemb n (F n) c (B n) (D n) (k n) =
      routeN n node node 0 (size * nmemb) (if n = node then mem be vs else B n) (fun b => after (if n = 0 then writeArray be b size nmemb (D n) else ok (b, D n)) fun r => k n r.1 r.2) := by
    intro n
    rw [writeAt, e1]; simp only [after]; rw [e2]; simp only
    have hx : (if n = node then getAt 2 (F n) i else ok (B n)) = ok (if n = node then mem be vs else B n) := by
      by_cases hnn : n = node
      · subst hnn; rw [if_pos rfl, if_pos rfl, getAt_site.2 ((hF n hnode).2 i c hi e3), hφ]
      · rw [if_neg hnn, if_neg hnn]
    rw [hx]
  have hl : ∀ n, n < g.nodes → (if n = node then mem be vs else B n).length = size * nmemb := by
    intro n hn; split
    · exact hmem
    · exact hB n hn
  obtain ⟨m, t, hr, ha⟩ := route_all net g.nodes s node node 0 hnode h0 (Or.inl ⟨rfl, rfl⟩) (fun _ => size * nmemb) (size * nmemb) (fun _ => rfl) (fun _ => rfl)
    (fun _ => hsz) (fun n => if n = node then mem be vs else B n) (by rw [hl node hnode]) (by rw [hl 0 h0]) _ e
    ⟨fun n hn => by rw [h.proc n hn, hP n], h.queue, h.log⟩
  refine ⟨m, t, moved node 0 (size * nmemb) (fun n => if n = node then mem be vs else B n), hr, fun n hn => ?_, ⟨fun n hn => ?_, ha.queue, ha.log⟩⟩
  · rw [moved_length (by rw [hl node hnode]) (by rw [hl 0 h0]), hl n hn]
  · rw [ha.proc n hn]
    by_cases hz : n = 0
    · subst hz
      have hw' := writeArray_eq be hs vs hw (by rw [hv]; exact hnm) [] (D 0)
      rw [List.append_nil, hv] at hw'
      rw [moved_here (hl node hnode) (hl 0 h0)]
      simp only [if_true]
      rw [hw']
      rfl
    · simp only [if_neg hz]; rfl

include h4 in
/-- the loop of the output -/
theorem writeLoop_all {R : Type} (net : Net) (hg : g.Good) (h0 : 0 < g.nodes) (be : Bool) (size nmemb : Nat) (hs : Supported size) (hsz : size * nmemb < 2 ^ 31)
    (f : List Nat → List (List Byte)) (hf : IsField g.L size nmemb f) (F : Nat → List (List (List Byte))) (hF : Holds g F (fun c => mem be (f c)))
    (hnm : size = 1 ∨ nmemb < 2 ^ 32) (hL : ∀ l ∈ g.L, 0 < l) (k : Nat → Dev → NodeProc R) : ∀ (ss : List Nat), (∀ p ∈ ss, p < nsites g.L) →
    ∀ (B : Nat → List Byte) (D : Nat → Dev) (s : State (List Byte) R) (e : Nat), (∀ n, n < g.nodes → (B n).length = size * nmemb) →
    At g.nodes s (fun n => writeLoop be g size nmemb n (F n) ss (B n) (D n) (k n)) e →
    ∃ m t, Run net g.nodes m s t ∧ At g.nodes t (fun n => k n (if n = 0 then (D 0).put (ss.flatMap fun p => (f (digits p g.L)).flatten) else D n)) e := by
  intro ss
  induction ss with
  | nil =>
    intro _ B D s e _ h
    refine ⟨0, s, Run.refl _, At.congr h fun n hn => ?_⟩
    by_cases hz : n = 0
    · subst hz; simp [writeLoop, put_nil]
    · simp [writeLoop, hz]
  | cons p ss ih =>
    intro hp B D s e hB h
    have hpp := hp p (by simp)
    have hin := digits_inRange hpp
    obtain ⟨m, t, B', r1, hB', a1⟩ := writeAt_all h4 net hg h0 be size nmemb hs hsz F _ hF (f (digits p g.L)) (hf _ hin).1 (hf _ hin).2 hnm (digits p g.L) hin rfl
      B hB D (fun n b d => writeLoop be g size nmemb n (F n) ss b d (k n)) s e (At.congr h fun n hn => by rw [writeLoop, crtesn_eq hL p]; rfl)
    obtain ⟨m2, t2, r2, a2⟩ := ih (fun q hq => hp q (by simp [hq])) B' _ t e hB' a1
    refine ⟨_, t2, r1.trans r2, At.congr a2 fun n hn => ?_⟩
    by_cases hz : n = 0
    · subst hz; simp [put_put]
    · simp [hz]

include h4 in
/-- one site is read -/
theorem readAt_all {R : Type} (net : Net) (hg : g.Good) (h0 : 0 < g.nodes) (be : Bool) (size nmemb : Nat) (hs : Supported size) (hsz : size * nmemb < 2 ^ 31)
    (F : Nat → List (List (List Byte))) (φ : List Nat → List Byte) (hF : Holds g F φ) (vs : List (List Byte)) (hv : vs.length = nmemb) (hw : ∀ v ∈ vs, v.length = size)
    (hnm : size = 1 ∨ nmemb < 2 ^ 32) (c : List Nat) (hc : InRange c g.L) (B : Nat → List Byte)
    (hB : ∀ n, n < g.nodes → (B n).length = size * nmemb) (D : Nat → Dev) (hD : (D 0).Sees vs.flatten) (k : Nat → List (List (List Byte)) → List Byte → Dev → NodeProc R)
    (s : State (List Byte) R) (e : Nat) (h : At g.nodes s (fun n => readAt be g size nmemb n (F n) c (B n) (D n) (k n)) e) :
    ∃ (m : Nat) (t : State (List Byte) R) (F' : Nat → List (List (List Byte))) (B' : Nat → List Byte), Run net g.nodes m s t ∧
      (∀ n, n < g.nodes → (B' n).length = size * nmemb) ∧ Holds g F' (fun c' => if c' = c then mem be vs else φ c') ∧
      At g.nodes t (fun n => k n (F' n) (B' n) (if n = 0 then (D 0).skip vs.flatten else D n)) e := by
  obtain ⟨node, i, e1, hnode, e2, hi, e3⟩ := hg.1 c hc
  have hmem : (mem be vs).length = size * nmemb := by rw [mem_length be vs hw, hv, Nat.mul_comm]
  have hrd := readArray_eq be hs vs hw (by rw [hv]; exact hnm) (D 0) hD
  rw [hv] at hrd
  have hP : ∀ n, readAt be g size nmemb n (F n) c (B n) (D n) (k n) =
      routeN n node 0 node (size * nmemb) (if n = 0 then mem be vs else B n) (fun b =>
        after (if n = node then setAt 2 (F n) i b else ok (F n)) fun F => k n F b (if n = 0 then (D 0).skip vs.flatten else D n)) := by
    intro n
    rw [readAt, e1]; simp only [after]; rw [e2]; simp only
    have hx : (if n = 0 then readArray be size nmemb (D n) else ok (B n, D n)) =
        ok (if n = 0 then mem be vs else B n, if n = 0 then (D 0).skip vs.flatten else D n) := by
      by_cases hz : n = 0
      · subst hz; simp [hrd]
      · simp [hz]
    rw [hx]
  have hl : ∀ n, n < g.nodes → (if n = 0 then mem be vs else B n).length = size * nmemb := by
    intro n hn; split
    · exact hmem
    · exact hB n hn
  obtain ⟨m, t, hr, ha⟩ := route_all net g.nodes s node 0 node h0 hnode (Or.inr ⟨rfl, rfl⟩) (fun _ => size * nmemb) (size * nmemb) (fun _ => rfl) (fun _ => rfl)
    (fun _ => hsz) (fun n => if n = 0 then mem be vs else B n) (by rw [hl 0 h0]) (by rw [hl node hnode]) _ e
    ⟨fun n hn => by rw [h.proc n hn, hP n], h.queue, h.log⟩
  obtain ⟨G, b1, b2, b3, b4⟩ := setAt_ok (hF node hnode).1 (i := i) (by rw [sites4 h4]; exact hi) (mem be vs)
  refine ⟨m, t, fun n => if n = node then G else F n, moved 0 node (size * nmemb) (fun n => if n = 0 then mem be vs else B n), hr, fun n hn => ?_, ?_, At.congr ha fun n hn => ?_⟩
  · rw [moved_length (by rw [hl 0 h0]) (by rw [hl node hnode]), hl n hn]
  · intro n hn
    by_cases hnn : n = node
    · subst hnn
      simp only [if_true]
      refine ⟨b2, fun i' c' hi' hc' => ?_⟩
      by_cases hii : i' = i
      · subst hii
        rw [e3] at hc'; injection hc' with hc'; subst hc'
        simpa using b3
      · have hcc : c' ≠ c := by
          rintro rfl
          obtain ⟨-, -, -, x1⟩ := co_spec hg hnode hi'
          obtain ⟨-, -, -, x2⟩ := co_spec hg hnode hi
          rw [show co g n i' = c' by simp [co, hc']] at x1
          rw [show co g n i = c' by simp [co, e3]] at x2
          omega
        rw [if_neg hcc]
        exact (b4 i' hii _).2 ((hF n hn).2 i' c' hi' hc')
    · simp only [if_neg hnn]
      refine ⟨(hF n hn).1, fun i' c' hi' hc' => ?_⟩
      have hcc : c' ≠ c := by
        rintro rfl
        obtain ⟨-, -, x1, -⟩ := co_spec hg hn hi'
        rw [show co g n i' = c' by simp [co, hc']] at x1
        have : nd g c' = node := by simp [nd, e1]
        omega
      rw [if_neg hcc]
      exact (hF n hn).2 i' c' hi' hc'
  · by_cases hnn : n = node
    · subst hnn
      rw [moved_there (hl n hnode) (hl 0 h0)]
      simp only [if_true]
      rw [b1]
      rfl
    · simp only [if_neg hnn]; rfl

include h4 in
/-- the loop of the input: after the sites of `ss` the field has their values -/
theorem readLoop_all {R : Type} (net : Net) (hg : g.Good) (h0 : 0 < g.nodes) (be : Bool) (size nmemb : Nat) (hs : Supported size) (hsz : size * nmemb < 2 ^ 31)
    (f : List Nat → List (List Byte)) (hf : IsField g.L size nmemb f) (hnm : size = 1 ∨ nmemb < 2 ^ 32) (hL : ∀ l ∈ g.L, 0 < l)
    (k : Nat → List (List (List Byte)) → Dev → NodeProc R) : ∀ (ss : List Nat), (∀ p ∈ ss, p < nsites g.L) →
    ∀ (F : Nat → List (List (List Byte))) (φ : List Nat → List Byte) (B : Nat → List Byte) (D : Nat → Dev) (s : State (List Byte) R) (e : Nat), Holds g F φ →
    (∀ n, n < g.nodes → (B n).length = size * nmemb) → (D 0).Sees (ss.flatMap fun p => (f (digits p g.L)).flatten) →
    At g.nodes s (fun n => readLoop be g size nmemb n ss (F n) (B n) (D n) (k n)) e →
    ∃ (m : Nat) (t : State (List Byte) R) (F' : Nat → List (List (List Byte))) (φ' : List Nat → List Byte), Run net g.nodes m s t ∧ Holds g F' φ' ∧
      (∀ c, InRange c g.L → φ' c = if rank c g.L ∈ ss then mem be (f c) else φ c) ∧
      At g.nodes t (fun n => k n (F' n) (if n = 0 then (D 0).skip (ss.flatMap fun p => (f (digits p g.L)).flatten) else D n)) e := by
  intro ss
  induction ss with
  | nil =>
    intro _ F φ B D s e hF _ _ h
    refine ⟨0, s, F, φ, Run.refl _, hF, fun c _ => by simp, At.congr h fun n hn => ?_⟩
    by_cases hz : n = 0
    · subst hz; simp [readLoop, skip_nil]
    · simp [readLoop, hz]
  | cons p ss ih =>
    intro hp F φ B D s e hF hB hD h
    have hpp := hp p (by simp)
    have hin := digits_inRange hpp
    rw [List.flatMap_cons] at hD
    obtain ⟨m, t, F1, B1, r1, hB1, hF1, a1⟩ := readAt_all h4 net hg h0 be size nmemb hs hsz F φ hF (f (digits p g.L)) (hf _ hin).1 (hf _ hin).2 hnm (digits p g.L) hin
      B hB D (Sees.left hD) (fun n F b d => readLoop be g size nmemb n ss F b d (k n)) s e (At.congr h fun n hn => by rw [readLoop, crtesn_eq hL p]; rfl)
    obtain ⟨m2, t2, F2, φ2, r2, hF2, hφ, a2⟩ := ih (fun q hq => hp q (by simp [hq])) F1 _ B1 _ t e hF1 hB1 (by simpa using Sees.right hD) a1
    refine ⟨_, t2, F2, φ2, r1.trans r2, hF2, fun c hc => ?_, At.congr a2 fun n hn => ?_⟩
    · rw [hφ c hc]
      by_cases h1 : rank c g.L ∈ ss
      · simp [h1]
      · by_cases h2 : rank c g.L = p
        · subst h2
          simp [digits_rank hc]
        · have h3 : c ≠ digits p g.L := by
            rintro rfl
            exact h2 (rank_digits hpp)
          simp [h1, h2, h3]
    · by_cases hz : n = 0
      · subst hz; simp [skip_skip]
      · simp [hz]

/-! ## Theorems -/

/-- the machine at the beginning of the output of a field to a file -/
def writeStart (be : Bool) (g : Geom) (size nmemb : Nat) (F : Nat → List (List (List Byte))) (B : Nat → List Byte) (D : Nat → Dev) : State (List Byte) Dev :=
  { proc := fun n => writeLoop be g size nmemb n (F n) (List.range (nsites g.L)) (B n) (D n) .done, queue := fun _ => [], log := fun _ => [] }

/-- … of its input -/
def readStart (be : Bool) (g : Geom) (size nmemb : Nat) (F : Nat → List (List (List Byte))) (B : Nat → List Byte) (D : Nat → Dev) :
    State (List Byte) (List (List (List Byte)) × Dev) :=
  { proc := fun n => readLoop be g size nmemb n (List.range (nsites g.L)) (F n) (B n) (D n) (fun F d => .done (F, d)), queue := fun _ => [], log := fun _ => [] }

/-- … of the output of one site -/
def writeSiteStart (be : Bool) (g : Geom) (size nmemb : Nat) (c : List Nat) (F : Nat → List (List (List Byte))) (B : Nat → List Byte) (D : Nat → Dev) : State (List Byte) Dev :=
  { proc := fun n => writeAt be g size nmemb n (F n) c (B n) (D n) (fun _ d => .done d), queue := fun _ => [], log := fun _ => [] }

/-- … of the input of one site -/
def readSiteStart (be : Bool) (g : Geom) (size nmemb : Nat) (c : List Nat) (F : Nat → List (List (List Byte))) (B : Nat → List Byte) (D : Nat → Dev) :
    State (List Byte) (List (List (List Byte)) × Dev) :=
  { proc := fun n => readAt be g size nmemb n (F n) c (B n) (D n) (fun F _ d => .done (F, d)), queue := fun _ => [], log := fun _ => [] }

/-- … of its XML output -/
def xmlStart {W : Type} (txt : W → List Byte) (g : Geom) (t : Fib) (s : String) (F : Nat → List (List (Den W t))) (junk : Nat → Den W t) (D : Nat → List Ev) :
    State (Den W t) (List Ev) :=
  { proc := fun n => xmlField txt g t n s (F n) (junk n) (D n) .done, queue := fun _ => [], log := fun _ => [] }

/-- C105: the output of a field by many nodes with vectors: every execution ends, no node waits forever, and the file gets the field, the sites in
lexicographic order — the file of C27, whatever the machine, the byte order, the network and the contents of the buffers. -/
theorem C105_write (net : Net) (hg : g.Good) (h4 : 4 ∣ g.sites) (h0 : 0 < g.nodes) (hL : ∀ l ∈ g.L, 0 < l) (be : Bool) (size nmemb : Nat) (hs : Supported size)
    (hsz : size * nmemb < 2 ^ 31) (hnm : size = 1 ∨ nmemb < 2 ^ 32) (f : List Nat → List (List Byte)) (hf : IsField g.L size nmemb f)
    (F : Nat → List (List (List Byte))) (hF : Holds g F (fun c => mem be (f c))) (B : Nat → List Byte) (hB : ∀ n, n < g.nodes → (B n).length = size * nmemb)
    (D : Nat → Dev) :
    AlwaysEnds net g.nodes (writeStart be g size nmemb F B D) fun r => r 0 = (D 0).put (fileBytes g.L f) ∧ ∀ n, n ≠ 0 → r n = D n := by
  obtain ⟨m, t, hr, ha⟩ := writeLoop_all h4 net hg h0 be size nmemb hs hsz f hf F hF hnm hL (fun _ => .done) (List.range (nsites g.L)) (by simp) B D
    (writeStart be g size nmemb F B D) 0 hB ⟨fun _ _ => rfl, fun _ => rfl, fun _ _ => rfl⟩
  exact alwaysEnds hr _ ha ⟨by simp [fileBytes], fun n hn => by simp [hn]⟩

/-- C105: the input of such a file gives the field, whatever was in the memory of the nodes. -/
theorem C105_read (net : Net) (hg : g.Good) (h4 : 4 ∣ g.sites) (h0 : 0 < g.nodes) (hL : ∀ l ∈ g.L, 0 < l) (be : Bool) (size nmemb : Nat) (hs : Supported size)
    (hsz : size * nmemb < 2 ^ 31) (hnm : size = 1 ∨ nmemb < 2 ^ 32) (f : List Nat → List (List Byte)) (hf : IsField g.L size nmemb f)
    (F : Nat → List (List (List Byte))) (φ : List Nat → List Byte) (hF : Holds g F φ) (B : Nat → List Byte) (hB : ∀ n, n < g.nodes → (B n).length = size * nmemb)
    (D : Nat → Dev) (hD : (D 0).Sees (fileBytes g.L f)) :
    AlwaysEnds net g.nodes (readStart be g size nmemb F B D) fun r =>
      Holds g (fun n => (r n).1) (fun c => mem be (f c)) ∧ (r 0).2 = (D 0).skip (fileBytes g.L f) := by
  obtain ⟨m, t, F', φ', hr, hF', hφ, ha⟩ := readLoop_all h4 net hg h0 be size nmemb hs hsz f hf hnm hL (fun _ F d => .done (F, d)) (List.range (nsites g.L)) (by simp) F φ B D
    (readStart be g size nmemb F B D) 0 hF hB hD ⟨fun _ _ => rfl, fun _ => rfl, fun _ _ => rfl⟩
  refine alwaysEnds hr _ ha ⟨fun n hn => ⟨(hF' n hn).1, fun i c hi hc => ?_⟩, by simp [fileBytes]⟩
  have hin : InRange c g.L := by
    obtain ⟨x1, x2, -⟩ := co_spec hg hn hi
    rw [hc] at x1; injection x1 with x1
    rw [x1]; exact x2
  have := (hF' n hn).2 i c hi hc
  rw [hφ c hin, if_pos (List.mem_range.2 (rank_lt hin))] at this
  exact this

/-- C105: one site is written … -/
theorem C105_write_site (net : Net) (hg : g.Good) (h4 : 4 ∣ g.sites) (h0 : 0 < g.nodes) (be : Bool) (size : Nat) (hs : Supported size)
    (vs : List (List Byte)) (hsz : size * vs.length < 2 ^ 31) (hnm : size = 1 ∨ vs.length < 2 ^ 32) (hw : ∀ v ∈ vs, v.length = size)
    (F : Nat → List (List (List Byte))) (φ : List Nat → List Byte) (hF : Holds g F φ) (c : List Nat) (hc : InRange c g.L) (hφ : φ c = mem be vs) (B : Nat → List Byte)
    (hB : ∀ n, n < g.nodes → (B n).length = size * vs.length) (D : Nat → Dev) :
    AlwaysEnds net g.nodes (writeSiteStart be g size vs.length c F B D) fun r => r 0 = (D 0).put vs.flatten ∧ ∀ n, n ≠ 0 → r n = D n := by
  obtain ⟨m, t, B', hr, -, ha⟩ := writeAt_all h4 net hg h0 be size vs.length hs hsz F φ hF vs rfl hw hnm c hc hφ B hB D (fun _ _ d => .done d)
    (writeSiteStart be g size vs.length c F B D) 0 ⟨fun _ _ => rfl, fun _ => rfl, fun _ _ => rfl⟩
  exact alwaysEnds hr _ ha ⟨by simp, fun n hn => by simp [hn]⟩

/-- … and read: that site of the field and no other changes. -/
theorem C105_read_site (net : Net) (hg : g.Good) (h4 : 4 ∣ g.sites) (h0 : 0 < g.nodes) (be : Bool) (size : Nat) (hs : Supported size)
    (vs : List (List Byte)) (hsz : size * vs.length < 2 ^ 31) (hnm : size = 1 ∨ vs.length < 2 ^ 32) (hw : ∀ v ∈ vs, v.length = size)
    (F : Nat → List (List (List Byte))) (φ : List Nat → List Byte) (hF : Holds g F φ) (c : List Nat) (hc : InRange c g.L) (B : Nat → List Byte)
    (hB : ∀ n, n < g.nodes → (B n).length = size * vs.length) (D : Nat → Dev) (hD : (D 0).Sees vs.flatten) :
    AlwaysEnds net g.nodes (readSiteStart be g size vs.length c F B D) fun r =>
      Holds g (fun n => (r n).1) (fun c' => if c' = c then mem be vs else φ c') ∧ (r 0).2 = (D 0).skip vs.flatten := by
  obtain ⟨m, t, F', B', hr, -, hF', ha⟩ := readAt_all h4 net hg h0 be size vs.length hs hsz F φ hF vs rfl hw hnm c hc B hB D hD (fun _ F _ d => .done (F, d))
    (readSiteStart be g size vs.length c F B D) 0 ⟨fun _ _ => rfl, fun _ => rfl, fun _ _ => rfl⟩
  exact alwaysEnds hr _ ha ⟨hF', by simp⟩

/-- C105: the XML output of a field is the document of C103, whatever the machine. -/
theorem C105_xml {W : Type} (txt : W → List Byte) (net : Net) (hg : g.Good) (h4 : 4 ∣ g.sites) (h0 : 0 < g.nodes) (hL : ∀ l ∈ g.L, 0 < l) (t : Fib) (s : String)
    (F : Nat → List (List (Den W t))) (f : List Nat → Den W t) (hF : Holds g F f) (junk : Nat → Den W t) (D : Nat → List Ev) :
    AlwaysEnds net g.nodes (xmlStart txt g t s F junk D) fun r =>
      r 0 = D 0 ++ XmlField.events (.node s [] [XmlField.fieldTree txt t g.L f]) ∧ ∀ n, n ≠ 0 → r n = D n := by
  obtain ⟨m, u, hr, ha⟩ := XmlField.loop_all txt net g hg h0 hL t (fun n => (F n).flatten) f (holds_flat h4 hF) (List.range (nsites g.L)) (by simp) junk
    (fun n => openTag n "OLattice" [] (openTag n s [] (D n))) (fun n d => .done (closeTag n (closeTag n d))) (xmlStart txt g t s F junk D) 0
    ⟨fun n hn => xmlField_eq txt t n s (hF n hn).1 (junk n) (D n) .done, fun _ => rfl, fun _ _ => rfl⟩
  refine alwaysEnds hr _ ha ⟨?_, fun n hn => by simp [hn, openTag, closeTag]⟩
  simp [openTag, closeTag, XmlField.events, XmlField.eventsL, XmlField.fieldTree_events]

/-- C105: what one machine has written another reads, whatever both are (nodes, layout, byte order, network); the reader is put where the writer began. -/
theorem C105_between_machines (net net' : Net) (g' : Geom) (hg : g.Good) (hg' : g'.Good) (h4 : 4 ∣ g.sites) (h4' : 4 ∣ g'.sites) (h0 : 0 < g.nodes) (h0' : 0 < g'.nodes)
    (hLL : g'.L = g.L) (hL : ∀ l ∈ g.L, 0 < l) (be be' : Bool) (size nmemb : Nat) (hs : Supported size) (hsz : size * nmemb < 2 ^ 31) (hnm : size = 1 ∨ nmemb < 2 ^ 32)
    (f : List Nat → List (List Byte)) (hf : IsField g.L size nmemb f) (F : Nat → List (List (List Byte))) (hF : Holds g F (fun c => mem be (f c)))
    (B : Nat → List Byte) (hB : ∀ n, n < g.nodes → (B n).length = size * nmemb) (D : Nat → Dev) (F' : Nat → List (List (List Byte))) (φ : List Nat → List Byte)
    (hF' : Holds g' F' φ) (B' : Nat → List Byte) (hB' : ∀ n, n < g'.nodes → (B' n).length = size * nmemb) (D' : Nat → Dev)
    (hdata : (D' 0).data = ((D 0).put (fileBytes g.L f)).data) (hpos : (D' 0).pos = (D 0).pos) :
    AlwaysEnds net g.nodes (writeStart be g size nmemb F B D) (fun r => r 0 = (D 0).put (fileBytes g.L f)) ∧
    AlwaysEnds net' g'.nodes (readStart be' g' size nmemb F' B' D') (fun r => Holds g' (fun n => (r n).1) (fun c => mem be' (f c))) := by
  constructor
  · obtain ⟨T, h⟩ := C105_write net hg h4 h0 hL be size nmemb hs hsz hnm f hf F hF B hB D
    exact ⟨T, fun m t ht => ⟨(h m t ht).1, (h m t ht).2.1, fun hft => by obtain ⟨r, h1, h2⟩ := (h m t ht).2.2 hft; exact ⟨r, h1, h2.1⟩⟩⟩
  · obtain ⟨T, h⟩ := C105_read net' hg' h4' h0' (by rw [hLL]; exact hL) be' size nmemb hs hsz hnm f (by rw [hLL]; exact hf) F' φ hF' B' hB' D' (by
      rw [hLL, Dev.Sees, hdata, hpos]
      exact overwrite_sees _ _ _)
    exact ⟨T, fun m t ht => ⟨(h m t ht).1, (h m t ht).2.1, fun hft => by obtain ⟨r, h1, h2⟩ := (h m t ht).2.2 hft; exact ⟨r, h1, h2.1⟩⟩⟩

/-! ### a case: two nodes of twelve sites each, three words of four bytes per site -/

/-- the words of a site -/
def caseWords (c : List Nat) : List (List Byte) := [[0, 1, BitVec.ofNat 8 (c.getD 0 0), BitVec.ofNat 8 (c.getD 1 0)], [0, 0, 0, 7], [BitVec.ofNat 8 (c.getD 1 0), 2, 2, 2]]

theorem caseWords_field (L : List Nat) : IsField L 4 3 caseWords := fun c _ => ⟨rfl, by simp [caseWords]⟩

/-- a little-endian machine of two nodes writes; a big-endian one of three nodes with another layout reads -/
example (net net' : Net) (d : Dev) : let g' : Geom := geomLex [4, 6] (lexMachine [1, 3]) [4, 2]
    ∃ F F' : Nat → List (List (List Byte)), Holds two F (fun c => mem false (caseWords c)) ∧
    AlwaysEnds net 2 (writeStart false two 4 3 F (fun _ => List.replicate 12 9) (fun _ => d)) (fun r => r 0 = d.put (fileBytes [4, 6] caseWords)) ∧
    AlwaysEnds net' 3 (readStart true g' 4 3 F' (fun _ => List.replicate 12 5) (fun _ => { d.put (fileBytes [4, 6] caseWords) with pos := d.pos }))
      (fun r => Holds g' (fun n => (r n).1) (fun c => mem true (caseWords c))) := by
  intro g'
  have hg' : g'.Good := C02_lexico [4, 6] [4, 2] (lexMachine [1, 3]) (lexMachine_good _) (by simp [Cut, lexMachine]) (by decide) (by decide) (by simp [lexMachine]) (by decide)
  have h1 := pieces two (by decide) (fun _ c => mem false (caseWords c)) 0
  have h2 := pieces g' (by decide) (fun _ (_ : List Nat) => (List.replicate 12 0 : List Byte)) 0
  obtain ⟨h3, h4⟩ := C105_between_machines net net' g' two_good hg' (by decide) (by decide) (by decide) (by decide) rfl (by decide) false true 4 3 (by unfold Supported; omega) (by decide)
    (by decide) caseWords (caseWords_field _) _ h1 (fun _ => List.replicate 12 9) (fun _ _ => by simp) (fun _ => d) _ _ h2 (fun _ => List.replicate 12 5) (fun _ _ => by simp)
    (fun _ => { d.put (fileBytes [4, 6] caseWords) with pos := d.pos }) rfl rfl
  exact ⟨_, _, h1, h3, h4⟩

example : fileBytes [2, 1] caseWords = [0, 1, 0, 0, 0, 0, 0, 7, 0, 2, 2, 2, 0, 1, 1, 0, 0, 0, 0, 7, 0, 2, 2, 2] := by decide

end
end Verif.VecNodes
