import Verif.LatticeIONet
/-
Property C87: lattice I/O on communicating nodes does what the machine run as one program does.
-/
namespace Verif.LatticeIONet
open Verif Outcome ByteOrder Verif.Layout Verif.ParLayout Verif.Subset Verif.BinIO Verif.LatticeIO Verif.Network Verif.PeekPoke

theorem At.congr {V R : Type} {N : Nat} {s : State V R} {P Q : Nat → Proc V R} {e : Nat} (h : At N s P e) (hPQ : ∀ n, n < N → P n = Q n) :
    At N s Q e := ⟨fun n hn => by rw [h.proc n hn, hPQ n hn], h.queue, h.log⟩

theorem after_ok {α V R : Type} {o : Outcome α} {a : α} (h : o = ok a) (k : α → Proc V R) : after o k = k a := by rw [h]; rfl

/-- a value goes from the buffer of one node to that of another -/
theorem transfer_all {R : Type} (net : Net) (N : Nat) (s : State (List Byte) R) (src dst : Nat) (hs : src < N) (hd : dst < N) (hne : src ≠ dst)
    (count : Nat → Nat) (c : Nat) (hcs : count src = c) (hcd : count dst = c) (hc : c < 2 ^ 31) (B : Nat → List Byte)
    (hbs : c ≤ (B src).length) (hbd : c ≤ (B dst).length) (k : Nat → List Byte → NodeProc R) (e : Nat)
    (h : At N s (fun n => transfer n src dst (count n) (B n) (k n)) e) :
    ∃ m t, Run net N m s t ∧ At N t (fun n => k n (if n = dst then (B src).take c ++ (B dst).drop c else B n)) e := by
  have hne' : dst ≠ src := Ne.symm hne
  let x := (B src).take c
  have hx : x.length = c := by simp [x, hbs]
  have p_src : s.proc src = .send dst x (.wait dst (k src (B src))) := by
    rw [h.proc src hs]
    simp only [transfer, if_true, hcs]
    rw [if_neg (by omega), after_ok (sliceO_of_le (by omega))]; simp [x]
  have p_dst : s.proc dst = .recv src fun b => if b.length ≠ c then .stop else after (blitO (B dst) 0 b) (k dst) := by
    rw [h.proc dst hd]
    simp only [transfer, hne', if_true, if_false, hcd]
    rw [if_neg (by omega)]
  have hb : blitO (B dst) 0 x = ok ((B src).take c ++ (B dst).drop c) := by
    rw [blitO, if_pos (by omega), hx]; simp [x]
  let s1 := eff src (.wait dst (k src (B src))) (.put dst x) s
  let s2 := eff dst (k dst ((B src).take c ++ (B dst).drop c)) (.take src x) s1
  let s3 := eff src (k src (B src)) .tau s2
  have st1 : Step net N src s s1 := by
    refine ⟨hs, ?_⟩; rw [p_src]
    exact ⟨by rw [h.queue]; exact net.room_zero, rfl⟩
  have st2 : Step net N dst s1 s2 := by
    refine ⟨hd, ?_⟩
    have : s1.proc dst = s.proc dst := by simp [s1, eff, Function.update_of_ne hne']
    rw [this, p_dst]
    refine ⟨x, [], by simp [s1, eff, h.queue], ?_⟩
    beta_reduce
    rw [if_neg (by simp [hx]), after_ok hb]
    simp [s2, eff, s1, h.queue]
  have st3 : Step net N src s2 s3 := by
    refine ⟨hs, ?_⟩
    have : s2.proc src = .wait dst (k src (B src)) := by simp [s2, s1, eff, Function.update_of_ne hne]
    rw [this]
    exact ⟨by simpa [s2, s1, eff, h.queue] using net.sent_zero, rfl⟩
  refine ⟨_, s3, Run.step st1 (Run.step st2 (Run.step st3 (Run.refl _))), ?_, ?_, h.log⟩
  · intro n hn
    by_cases h1 : n = src
    · subst h1; simp [s3, eff, hne]
    · by_cases h2 : n = dst
      · subst h2; simp [s3, s2, eff, Function.update_of_ne h1]
      · simp only [s3, s2, s1, eff, Function.update_of_ne h1, Function.update_of_ne h2, h.proc n hn, h2, if_false]
        simp [transfer, h1, h2]
  · intro q
    by_cases hq : q = (src, dst)
    · subst hq; simp [s3, s2, s1, eff, h.queue]
    · simp [s3, s2, s1, eff, Function.update_of_ne hq, h.queue]

/-- the buffers after a message from `src` to `dst` -/
def moved (src dst c : Nat) (B : Nat → List Byte) (n : Nat) : List Byte :=
  if src ≠ dst ∧ n = dst then (B src).take c ++ (B dst).drop c else B n

theorem moved_length {src dst c : Nat} {B : Nat → List Byte} {n : Nat} (h1 : c ≤ (B src).length) (h2 : c ≤ (B dst).length) :
    (moved src dst c B n).length = (B n).length := by
  unfold moved; split
  · rename_i h; rw [h.2]; simp; omega
  · rfl

theorem clear_all {R : Type} (net : Net) (N : Nat) (h0 : 0 < N) (s : State (List Byte) R) (grid : Bool) (node : Nat) (hn : node < N)
    (B : Nat → List Byte) {len : Nat} (hB : ∀ n, n < N → (B n).length = len) (hok : LatticeIO.clearToSend grid len node = ok ())
    (k : Nat → List Byte → NodeProc R) (e : Nat) (h : At N s (fun n => clearToSendN grid n 4 node (B n) (k n)) e) :
    ∃ (m : Nat) (t : State (List Byte) R) (B' : Nat → List Byte), Run net N m s t ∧ At N t (fun n => k n (B' n)) e ∧ ∀ n, n < N → (B' n).length = len := by
  by_cases hc : !grid ∧ node ≠ 0
  · have hl : 4 ≤ len := by
      unfold LatticeIO.clearToSend at hok
      by_contra hlt
      rw [if_pos ⟨hc.1, hc.2, by omega⟩] at hok; cases hok
    obtain ⟨m, t, hr, hat⟩ := transfer_all net N s 0 node h0 hn (Ne.symm hc.2) (fun _ => 4) 4 rfl rfl (by decide) B
      (by rw [hB 0 h0]; exact hl) (by rw [hB node hn]; exact hl) k e
      (At.congr h fun n _ => by unfold clearToSendN; rw [if_pos hc])
    refine ⟨m, t, _, hr, hat, fun n hnN => ?_⟩
    split
    · simp [hB 0 h0, hB node hn]; omega
    · exact hB n hnN
  · exact ⟨0, s, B, Run.refl _, At.congr h fun n _ => by unfold clearToSendN; rw [if_neg hc], hB⟩

theorem route_all {R : Type} (net : Net) (N : Nat) (s : State (List Byte) R) (node src dst : Nat) (hs : src < N) (hd : dst < N)
    (hsd : (src = node ∧ dst = 0) ∨ (src = 0 ∧ dst = node)) (count : Nat → Nat) (c : Nat) (hcs : node ≠ 0 → count src = c)
    (hcd : node ≠ 0 → count dst = c) (hc : node ≠ 0 → c < 2 ^ 31) (B : Nat → List Byte) (hbs : c ≤ (B src).length) (hbd : c ≤ (B dst).length)
    (k : Nat → List Byte → NodeProc R) (e : Nat) (h : At N s (fun n => routeN n node src dst (count n) (B n) (k n)) e) :
    ∃ m t, Run net N m s t ∧ At N t (fun n => k n (moved src dst c B n)) e := by
  by_cases hz : node = 0
  · subst hz
    have : src = dst := by omega
    exact ⟨0, s, Run.refl _, At.congr h fun n _ => by simp [routeN, moved, this]⟩
  · have hne : src ≠ dst := by omega
    obtain ⟨m, t, hr, hat⟩ := transfer_all net N s src dst hs hd hne count c (hcs hz) (hcd hz) (hc hz) B hbs hbd k e
      (At.congr h fun n _ => by unfold routeN; rw [if_pos hz])
    exact ⟨m, t, hr, At.congr hat fun n _ => by simp [moved, hne]⟩

/-! ### buffers filled from left to right -/

theorem sliceO_length {m b : List Byte} {off n : Nat} (h : sliceO m off n = ok b) : b.length = n := by
  unfold sliceO at h; split at h
  · cases h; simp; omega
  · cases h

theorem mapO_snoc {α β : Type} {f : α → Outcome β} {x : α} : ∀ {xs : List α} {bs : List β}, mapO f (xs ++ [x]) = ok bs →
    ∃ cs b, mapO f xs = ok cs ∧ f x = ok b ∧ bs = cs ++ [b] := by
  intro xs
  induction xs with
  | nil =>
    intro bs h
    rw [List.nil_append, mapO] at h
    obtain ⟨b, hb, h⟩ := bind_eq_ok.1 h
    cases h
    exact ⟨[], b, rfl, hb, rfl⟩
  | cons a as ih =>
    intro bs h
    rw [List.cons_append, mapO] at h
    obtain ⟨b, hb, h⟩ := bind_eq_ok.1 h
    obtain ⟨cs, hc, h⟩ := bind_eq_ok.1 h
    cases h
    obtain ⟨ds, x', h1, h2, rfl⟩ := ih hc
    exact ⟨b :: ds, x', by rw [mapO, hb, ok_bind, h1]; rfl, h2, rfl⟩

theorem blitO_at {a r b : List Byte} {off : Nat} (ho : a.length = off) (h : b.length ≤ r.length) :
    blitO (a ++ r) off b = ok (a ++ b ++ r.drop b.length) := by
  subst ho
  rw [blitO, if_pos (by simp; omega)]
  simp [List.drop_append]

theorem foldO_mono {σ α : Type} {f f' : σ → α → Outcome σ} (hf : ∀ s a r, f s a = ok r → f' s a = ok r) :
    ∀ {l : List α} {s r : σ}, foldO f s l = ok r → foldO f' s l = ok r := by
  intro l
  induction l with
  | nil => intro s r h; exact h
  | cons a as ih =>
    intro s r h
    rw [foldO] at h
    obtain ⟨s', h1, h2⟩ := bind_eq_ok.1 h
    rw [foldO, hf _ _ _ h1, ok_bind]
    exact ih h2

/-- the strip in the buffer -/
theorem fill_eq {g : Geom} {m : List Byte} {k site : Nat} {buf : List Byte} : ∀ (n : Nat) {ps : List (List Byte)}, n * k ≤ buf.length →
    mapO (fun i => do let l ← indexOf g (site + i); sliceO m (l * k) k) (List.range n) = ok ps →
    foldO (fillOne g m k site) buf (List.range n) = ok (ps.flatten ++ buf.drop (n * k)) ∧ ps.flatten.length = n * k := by
  intro n
  induction n with
  | zero => intro ps _ h; cases h; simp [foldO]
  | succ n ih =>
    intro ps hl h
    rw [List.range_succ] at h ⊢
    obtain ⟨cs, b, h1, h2, rfl⟩ := mapO_snoc h
    have e : (n + 1) * k = n * k + k := by rw [Nat.add_mul, Nat.one_mul]
    rw [e] at hl ⊢
    generalize hkn : n * k = kn at *
    obtain ⟨i1, i2⟩ := ih (by omega) h1
    obtain ⟨l, hl1, hl2⟩ := bind_eq_ok.1 h2
    have hb := sliceO_length hl2
    constructor
    · rw [foldO_snoc, i1, ok_bind, fillOne, hl1, ok_bind, hl2, ok_bind, hkn, blitO_at i2 (by simp; omega)]
      simp [List.drop_drop, hb]
    · simp [i2, hb]

theorem gather_fill {g : Geom} {m : List Byte} {k site n : Nat} {buf row : List Byte} (hl : buf.length = n * k)
    (h : LatticeIO.gather g m k site n = ok row) : foldO (fillOne g m k site) buf (List.range n) = ok row ∧ row.length = n * k := by
  unfold LatticeIO.gather at h
  obtain ⟨ps, h1, h2⟩ := bind_eq_ok.1 h
  cases h2
  obtain ⟨i1, i2⟩ := fill_eq n (by omega : n * k ≤ buf.length) h1
  exact ⟨by rw [i1, ← hl]; simp, i2⟩

/-- the elements of one colour in the buffer -/
theorem fillSub_eq {g : Geom} {m : List Byte} {col : List Nat} {color k site : Nat} {buf : List Byte} : ∀ (n : Nat) {b : List Byte} {cnt : Nat},
    n * k ≤ buf.length → foldO (gatherSub g m col color k site) ([], 0) (List.range n) = ok (b, cnt) →
    foldO (fillSub g m col color k site) (buf, 0) (List.range n) = ok (b ++ buf.drop (cnt * k), cnt) ∧ b.length = cnt * k ∧ cnt ≤ n := by
  intro n
  induction n with
  | zero => intro b cnt _ h; cases h; simp [foldO]
  | succ n ih =>
    intro b cnt hl h
    rw [List.range_succ] at h ⊢
    rw [foldO_snoc] at h
    obtain ⟨⟨b', cnt'⟩, h1, h2⟩ := bind_eq_ok.1 h
    have e : (n + 1) * k = n * k + k := by rw [Nat.add_mul, Nat.one_mul]
    rw [e] at hl
    obtain ⟨i1, i2, i3⟩ := ih (by omega) h1
    unfold gatherSub at h2
    obtain ⟨l, hl1, h2⟩ := bind_eq_ok.1 h2
    obtain ⟨c, hc, h2⟩ := bind_eq_ok.1 h2
    rw [foldO_snoc, i1, ok_bind, fillSub, hl1, ok_bind, hc, ok_bind]
    by_cases hcc : c = color
    · rw [if_pos hcc] at h2 ⊢
      obtain ⟨x, hx, h2⟩ := bind_eq_ok.1 h2
      cases h2
      have hb := sliceO_length hx
      have hle : cnt' * k ≤ n * k := Nat.mul_le_mul_right _ i3
      have e' : (cnt' + 1) * k = cnt' * k + k := by rw [Nat.add_mul, Nat.one_mul]
      rw [hx, ok_bind, e']
      dsimp only
      generalize cnt' * k = ck at *
      refine ⟨?_, by simp [i2, hb], by omega⟩
      rw [blitO_at i2 (by simp; omega)]
      simp [List.drop_drop, hb]
    · rw [if_neg hcc] at h2 ⊢
      cases h2
      exact ⟨rfl, i2, by omega⟩

theorem count_le_n {g : Geom} {col : List Nat} {color site : Nat} : ∀ (n : Nat) {cnt : Nat},
    foldO (countSub g col color site) 0 (List.range n) = ok cnt → cnt ≤ n := by
  intro n
  induction n with
  | zero => intro cnt h; cases h; exact Nat.le_refl _
  | succ n ih =>
    intro cnt h
    rw [List.range_succ, foldO_snoc] at h
    obtain ⟨cnt', h1, h2⟩ := bind_eq_ok.1 h
    have := ih h1
    unfold countSub at h2
    obtain ⟨l, -, h2⟩ := bind_eq_ok.1 h2
    obtain ⟨c, -, h2⟩ := bind_eq_ok.1 h2
    split at h2 <;> cases h2 <;> omega

theorem sliceO_append {a r b : List Byte} {off n : Nat} (h : sliceO a off n = ok b) : sliceO (a ++ r) off n = ok b := by
  unfold sliceO at h ⊢
  split at h
  · cases h
    rename_i hle
    rw [if_pos (by simp; omega), List.drop_append_of_le_length (by omega), List.take_append_of_le_length (by simp; omega)]
  · cases h

theorem scatterSub_append {g : Geom} {col : List Nat} {color k site : Nat} {a r : List Byte} {st res : List Byte × Nat} {l : List Nat}
    (h : foldO (scatterSub g col color k site a) st l = ok res) : foldO (scatterSub g col color k site (a ++ r)) st l = ok res := by
  refine foldO_mono (fun s i x hx => ?_) h
  unfold scatterSub at hx ⊢
  obtain ⟨l, h1, hx⟩ := bind_eq_ok.1 hx
  obtain ⟨c, h2, hx⟩ := bind_eq_ok.1 hx
  rw [h1, ok_bind, h2, ok_bind]
  by_cases hc : c = color
  · rw [if_pos hc] at hx ⊢
    obtain ⟨b, h3, hx⟩ := bind_eq_ok.1 hx
    rw [sliceO_append h3, ok_bind]; exact hx
  · rw [if_neg hc] at hx ⊢; exact hx

theorem revChunks_append {size : Nat} : ∀ (n : Nat) {a r : List Byte}, a.length = n * size →
    revChunks size n (a ++ r) = revChunks size n a ++ r := by
  intro n
  induction n with
  | zero => intro a r h; have : a = [] := List.length_eq_zero_iff.1 (by omega); subst this; rfl
  | succ n ih =>
    intro a r h
    rw [Nat.add_mul, Nat.one_mul] at h
    generalize hk : n * size = ns at h
    rw [revChunks, revChunks, List.take_append_of_le_length (by omega), List.drop_append_of_le_length (by omega), ih (by simp; omega),
      List.append_assoc]

theorem byteSwap_ok {be : Bool} {size n : Nat} {a b : List Byte} (hl : a.length = n * size) (h : byteSwap be size n a = ok b) (r : List Byte) :
    byteSwap be size n (a ++ r) = ok (b ++ r) ∧ b.length = a.length := by
  by_cases h1 : size = 1
  · subst h1
    rw [byteSwap, if_pos rfl] at h ⊢
    cases h; exact ⟨rfl, rfl⟩
  · by_cases h2 : size = 4 ∨ size = 8 ∨ size = 16 ∨ size = 2
    · by_cases h3 : n < 2 ^ 32
      · have hs : Supported size := by unfold Supported; omega
        rw [byteSwap_eq be hs h3 (by omega)] at h
        cases h
        rw [byteSwap_eq be hs h3 (by simp; omega), revChunks_append n hl, revChunks_length]
        exact ⟨rfl, rfl⟩
      · rw [byteSwap, if_neg h1, if_pos h2, if_neg h3] at h; cases h
    · rw [byteSwap, if_neg h1, if_neg h2] at h; cases h

theorem writeArray_append {be : Bool} {size n : Nat} {a a' : List Byte} {d d' : Dev} (hl : a.length = size * n)
    (h : writeArray be a size n d = ok (a', d')) (r : List Byte) : writeArray be (a ++ r) size n d = ok (a' ++ r, d') ∧ a'.length = a.length := by
  have hl' : a.length = n * size := by rw [hl, Nat.mul_comm]
  unfold writeArray at h ⊢
  rw [if_neg (by omega)] at h
  rw [if_neg (by simp; omega)]
  have htake : ∀ b : List Byte, b.length = a.length → (b ++ r).take (size * n) = b.take (size * n) := fun b hb =>
    List.take_append_of_le_length (by omega)
  cases be
  · simp only [Bool.false_eq_true, if_false] at h ⊢
    obtain ⟨b1, h1, h⟩ := bind_eq_ok.1 h
    obtain ⟨c, h2, h⟩ := bind_eq_ok.1 h
    obtain ⟨b2, h3, h⟩ := bind_eq_ok.1 h
    cases h
    obtain ⟨e1, e2⟩ := byteSwap_ok hl' h1 r
    obtain ⟨e3, e4⟩ := byteSwap_ok (e2.trans hl') h3 r
    rw [e1, ok_bind, htake b1 e2, h2, ok_bind, e3, ok_bind]
    exact ⟨rfl, e4.trans e2⟩
  · simp only [if_true] at h ⊢
    obtain ⟨c, h2, h⟩ := bind_eq_ok.1 h
    cases h
    rw [htake a rfl, h2, ok_bind]
    exact ⟨rfl, rfl⟩

theorem readArray_length {be : Bool} {size n : Nat} {b : List Byte} {d d' : Dev} (h : readArray be size n d = ok (b, d')) : b.length = size * n := by
  unfold readArray at h
  obtain ⟨⟨b0, d0⟩, h1, h⟩ := bind_eq_ok.1 h
  have hb : b0.length = size * n := by
    unfold rawRead at h1
    split at h1
    · rename_i hc
      cases h1
      rcases hc with hc | hc
      · rw [hc]; simp
      · simp; omega
    · cases h1
  obtain ⟨c, h2, h⟩ := bind_eq_ok.1 h
  cases be
  · simp only [Bool.false_eq_true, if_false] at h
    obtain ⟨b1, h3, h⟩ := bind_eq_ok.1 h
    cases h
    rw [(byteSwap_ok (by rw [hb, Nat.mul_comm]) h3 []).2, hb]
  · simp only [if_true] at h
    cases h; exact hb

theorem intOf_intBytes {n : Nat} (h : n < 2 ^ 31) : intOf (intBytes n) = ok n := by
  simp only [intBytes, intOf, BitVec.toNat_ofNat]
  congr 1
  omega

/-! ### one strip -/

theorem crtesn_inRange : ∀ {L : List Nat} {p : Nat} {c : List Nat}, crtesn p L = ok c → InRange c L := by
  intro L
  induction L with
  | nil => intro p c h; cases h; trivial
  | cons l ls ih =>
    intro p c h
    rw [crtesn] at h
    obtain ⟨x, h1, h⟩ := bind_eq_ok.1 h
    obtain ⟨q, h2, h⟩ := bind_eq_ok.1 h
    obtain ⟨cs, h3, h⟩ := bind_eq_ok.1 h
    cases h
    unfold cmod at h1
    split at h1
    · cases h1
    · cases h1
      exact ⟨Nat.mod_lt _ (by omega), ih h3⟩

theorem node_lt {g : Geom} (hg : g.Good) {c : List Nat} (hc : InRange c g.L) {node : Nat} (h : g.nodeNumber c = ok node) : node < g.nodes := by
  obtain ⟨n, i, h1, h2, -⟩ := hg.1 c hc
  rw [h1] at h; cases h; exact h2

/-- the nodes work through the strips together if they do so for each strip -/
theorem strips_all {R τ : Type} (net : Net) (N : Nat) (step : Nat → Vars → Nat → (Vars → NodeProc R) → NodeProc R) (f : τ → Nat → Outcome τ)
    (Inv : (Nat → Vars) → τ → Prop)
    (hstep : ∀ (s : State (List Byte) R) (W : Nat → Vars) (x x' : τ) (site : Nat) (K : Nat → Vars → NodeProc R) (e : Nat), Inv W x → f x site = ok x' → At N s (fun n => step n (W n) site (K n)) e →
      ∃ (m : Nat) (t : State (List Byte) R) (W' : Nat → Vars), Run net N m s t ∧ At N t (fun n => K n (W' n)) e ∧ Inv W' x')
    (k : Nat → Vars → NodeProc R) : ∀ ss s W x x' e, Inv W x → foldO f x ss = ok x' → At N s (fun n => strips (step n) ss (W n) (k n)) e →
      ∃ (m : Nat) (t : State (List Byte) R) (W' : Nat → Vars), Run net N m s t ∧ At N t (fun n => k n (W' n)) e ∧ Inv W' x' := by
  intro ss
  induction ss with
  | nil =>
    intro s W x x' e hi hf hat
    cases hf
    exact ⟨0, s, W, Run.refl _, hat, hi⟩
  | cons a as ih =>
    intro s W x x' e hi hf hat
    rw [foldO] at hf
    obtain ⟨y, h1, h2⟩ := bind_eq_ok.1 hf
    obtain ⟨m1, t1, W1, r1, a1, i1⟩ := hstep s W x y a _ e hi h1 hat
    obtain ⟨m2, t2, W2, r2, a2, i2⟩ := ih t1 W1 y x' e i1 h2 a1
    exact ⟨_, t2, W2, r1.trans r2, a2, i2⟩

theorem ready_all {R : Type} (net : Net) (N : Nat) (h0 : 0 < N) (s : State (List Byte) R) (grid : Bool) (node old : Nat) (hn : node < N)
    (W : Nat → Vars) {len : Nat} (hW : ∀ n, n < N → (W n).buf.length = len) (hold : ∀ n, n < N → (W n).old = old)
    (hok : handshake grid len old node = ok ()) (k : Nat → Vars → NodeProc R) (e : Nat) (h : At N s (fun n => getReady grid n node (W n) (k n)) e) :
    ∃ (m : Nat) (t : State (List Byte) R) (B : Nat → List Byte), Run net N m s t ∧
      At N t (fun n => k n ⟨node, B n, (W n).sz, (W n).m, (W n).d⟩) e ∧ ∀ n, n < N → (B n).length = len := by
  by_cases hno : node = old
  · refine ⟨0, s, fun n => (W n).buf, Run.refl _, At.congr h fun n hnN => ?_, hW⟩
    unfold getReady
    rw [hold n hnN, if_neg (by simp [hno]), hno, ← hold n hnN]
  · unfold handshake at hok
    rw [if_pos hno] at hok
    obtain ⟨m, t, B, r, a, l⟩ := clear_all net N h0 s grid node hn (fun n => (W n).buf) hW hok (fun n b => k n ⟨node, b, (W n).sz, (W n).m, (W n).d⟩) e
      (At.congr h fun n hnN => by unfold getReady; rw [hold n hnN, if_pos hno])
    exact ⟨m, t, B, r, a, l⟩

/-- the variables during a write: the fields do not change, the stream of the primary node is that of the program as a whole -/
def WInv (N len : Nat) (M : Mem) (W : Nat → Vars) (x : Nat × Dev) : Prop :=
  (∀ n, n < N → (W n).old = x.1 ∧ (W n).m = M n ∧ (W n).buf.length = len ∧ (W n).sz.length = 4) ∧ (W 0).d = x.2

theorem write_step {R : Type} (net : Net) (be : Bool) (g : Geom) (hg : g.Good) (h0 : 0 < g.nodes) (xinc : Nat) (grid : Bool) (size nmemb : Nat)
    (M : Mem) (s : State (List Byte) R) (W : Nat → Vars) (x x' : Nat × Dev) (site : Nat) (K : Nat → Vars → NodeProc R) (e : Nat)
    (hi : WInv g.nodes (size * nmemb * xinc) M W x) (hf : writeBlock be g xinc grid M size nmemb x site = ok x')
    (hat : At g.nodes s (fun n => writeStep be g xinc grid size nmemb n (W n) site (K n)) e) :
    ∃ (m : Nat) (t : State (List Byte) R) (W' : Nat → Vars), Run net g.nodes m s t ∧ At g.nodes t (fun n => K n (W' n)) e ∧
      WInv g.nodes (size * nmemb * xinc) M W' x' := by
  unfold writeBlock at hf
  obtain ⟨c, hc, hf⟩ := bind_eq_ok.1 hf
  obtain ⟨node, hnode, hf⟩ := bind_eq_ok.1 hf
  obtain ⟨u, hh, hf⟩ := bind_eq_ok.1 hf
  obtain ⟨row, hrow, hf⟩ := bind_eq_ok.1 hf
  obtain ⟨u', hr, hf⟩ := bind_eq_ok.1 hf
  obtain ⟨⟨row', d'⟩, hw, hf⟩ := bind_eq_ok.1 hf
  cases hf
  have hlt := node_lt hg (crtesn_inRange hc) hnode
  have hcnt : node ≠ 0 → size * nmemb * xinc < 2 ^ 31 := by
    intro hz
    unfold LatticeIO.route at hr
    by_contra hge
    rw [if_pos ⟨hz, by omega⟩] at hr; cases hr
  obtain ⟨m1, t1, B, r1, a1, l1⟩ := ready_all net g.nodes h0 s grid node x.1 hlt W (len := size * nmemb * xinc) (fun n hn => (hi.1 n hn).2.2.1)
    (fun n hn => (hi.1 n hn).1) hh _ e (At.congr hat fun n _ => by unfold writeStep; rw [after_ok hc, after_ok hnode])
  have hxl : xinc * (size * nmemb) = size * nmemb * xinc := Nat.mul_comm _ _
  obtain ⟨f1, f2⟩ := gather_fill (buf := B node) (by rw [l1 node hlt, hxl]) hrow
  rw [hxl] at f2
  let B1 : Nat → List Byte := fun n => if n = node then row else B n
  have hB1 : ∀ n, n < g.nodes → (B1 n).length = size * nmemb * xinc := by
    intro n hn; simp only [B1]; split
    · exact f2
    · exact l1 n hn
  obtain ⟨m2, t2, r2, a2⟩ := route_all net g.nodes t1 node node 0 hlt h0 (Or.inl ⟨rfl, rfl⟩) (fun _ => size * nmemb * xinc) (size * nmemb * xinc)
    (fun _ => rfl) (fun _ => rfl) hcnt B1 (by rw [hB1 node hlt]) (by rw [hB1 0 h0])
    (fun n b => after (writePrimary be n size (nmemb * xinc) ⟨node, b, (W n).sz, (W n).m, (W n).d⟩) (K n)) e (At.congr a1 fun n hn => by
      beta_reduce
      dsimp only
      have : (if n = node then foldO (fillOne g (W n).m (size * nmemb) site) (B n) (List.range xinc) else ok (B n)) = ok (B1 n) := by
        by_cases hnn : n = node
        · rw [if_pos hnn, (hi.1 n hn).2.1, hnn, f1]; simp [B1]
        · rw [if_neg hnn]; simp [B1, hnn]
      rw [after_ok this])
  have hB2 : moved node 0 (size * nmemb * xinc) B1 0 = row := by
    unfold moved
    by_cases hz : node = 0
    · subst hz; simp [B1]
    · rw [if_pos ⟨hz, rfl⟩]
      have e1 : B1 node = row := by simp [B1]
      have e2 : (B1 0).drop (size * nmemb * xinc) = [] := List.drop_eq_nil_of_le (by rw [hB1 0 h0])
      rw [e1, e2, List.append_nil, ← f2, List.take_length]
  have hwl := (writeArray_append (by rw [f2, Nat.mul_assoc]) hw []).2
  refine ⟨_, t2, fun n => if n = 0 then (⟨node, row', (W n).sz, (W n).m, d'⟩ : Vars) else
      ⟨node, moved node 0 (size * nmemb * xinc) B1 n, (W n).sz, (W n).m, (W n).d⟩, r1.trans r2, At.congr a2 fun n hn => ?_, ?_, ?_⟩
  · by_cases hz : n = 0
    · subst hz
      have : writePrimary be 0 size (nmemb * xinc) ⟨node, moved node 0 (size * nmemb * xinc) B1 0, (W 0).sz, (W 0).m, (W 0).d⟩ =
          ok ⟨node, row', (W 0).sz, (W 0).m, d'⟩ := by
        unfold writePrimary
        rw [if_pos rfl]
        dsimp only
        rw [hB2, hi.2, hw]; rfl
      rw [after_ok this]; rfl
    · have : writePrimary be n size (nmemb * xinc) ⟨node, moved node 0 (size * nmemb * xinc) B1 n, (W n).sz, (W n).m, (W n).d⟩ =
          ok ⟨node, moved node 0 (size * nmemb * xinc) B1 n, (W n).sz, (W n).m, (W n).d⟩ := by
        unfold writePrimary; rw [if_neg hz]
      rw [after_ok this]; simp only [if_neg hz]
  · intro n hn
    obtain ⟨-, i2, i3, i4⟩ := hi.1 n hn
    by_cases hz : n = 0
    · subst hz
      exact ⟨rfl, i2, hwl.trans f2, i4⟩
    · simp only [hz, if_false]
      exact ⟨trivial, i2, by rw [moved_length (by rw [hB1 node hlt]) (by rw [hB1 0 h0]), hB1 n hn], i4⟩
  · simp

theorem route_lt {node c : Nat} {u : Unit} (h : LatticeIO.route node c = ok u) : node ≠ 0 → c < 2 ^ 31 := by
  intro hz
  unfold LatticeIO.route at h
  by_contra hge
  rw [if_pos ⟨hz, by omega⟩] at h; cases h

/-- what the primary node learns about the number of elements -/
theorem count_all {R : Type} (net : Net) (N : Nat) (h0 : 0 < N) (s : State (List Byte) R) (node : Nat) (hn : node < N) (C : Nat → Nat)
    (hC : C node < 2 ^ 31) (Z : Nat → List Byte) (hZ : ∀ n, n < N → (Z n).length = 4) (k : Nat → List Byte → Nat → NodeProc R) (e : Nat)
    (h : At N s (fun n => routeN n node node 0 4 (if n = node then intBytes (C n) else Z n) fun sz =>
      after (if n = 0 ∧ node ≠ 0 then intOf sz else ok (C n)) (k n sz)) e) :
    ∃ (m : Nat) (t : State (List Byte) R) (Z' : Nat → List Byte), Run net N m s t ∧
      At N t (fun n => k n (Z' n) (if n = 0 then C node else C n)) e ∧ ∀ n, n < N → (Z' n).length = 4 := by
  have hl : ∀ n, n < N → (if n = node then intBytes (C n) else Z n).length = 4 := by
    intro n hnN; split
    · rfl
    · exact hZ n hnN
  obtain ⟨m, t, hr, ha⟩ := route_all net N s node node 0 hn h0 (Or.inl ⟨rfl, rfl⟩) (fun _ => 4) 4 (fun _ => rfl) (fun _ => rfl) (fun _ => by decide)
    (fun n => if n = node then intBytes (C n) else Z n) (by rw [hl node hn]) (by rw [hl 0 h0])
    (fun n sz => after (if n = 0 ∧ node ≠ 0 then intOf sz else ok (C n)) (k n sz)) e h
  refine ⟨m, t, moved node 0 4 (fun n => if n = node then intBytes (C n) else Z n), hr, At.congr ha fun n hnN => ?_, fun n hnN => ?_⟩
  · by_cases hz : n = 0 ∧ node ≠ 0
    · obtain ⟨rfl, hz⟩ := hz
      have e1 : moved node 0 4 (fun n => if n = node then intBytes (C n) else Z n) 0 = intBytes (C node) := by
        unfold moved
        rw [if_pos ⟨hz, rfl⟩]
        have e2 : (if 0 = node then intBytes (C 0) else Z 0).drop 4 = [] := List.drop_eq_nil_of_le (by rw [hl 0 h0])
        simp only [if_true]
        rw [e2]; rfl
      rw [if_pos ⟨rfl, hz⟩, after_ok (by rw [e1]; exact intOf_intBytes hC), if_pos rfl]
    · rw [if_neg hz, after_ok rfl]
      by_cases hn0 : n = 0
      · subst hn0
        have : node = 0 := by simpa using hz
        rw [this]; simp
      · rw [if_neg hn0]
  · rw [moved_length (by rw [hl node hn]) (by rw [hl 0 h0]), hl n hnN]

theorem writeSub_step {R : Type} (net : Net) (be : Bool) (g : Geom) (hg : g.Good) (h0 : 0 < g.nodes) (xinc : Nat) (hx : xinc < 2 ^ 31) (grid : Bool)
    (col : Nat → List Nat) (color size nmemb : Nat) (M : Mem) (s : State (List Byte) R) (W : Nat → Vars) (x x' : Nat × Dev) (site : Nat)
    (K : Nat → Vars → NodeProc R) (e : Nat) (hi : WInv g.nodes (size * nmemb * xinc) M W x)
    (hf : writeSubBlock be g xinc grid M col color size nmemb x site = ok x')
    (hat : At g.nodes s (fun n => writeSubStep be g xinc grid (col n) color size nmemb n (W n) site (K n)) e) :
    ∃ (m : Nat) (t : State (List Byte) R) (W' : Nat → Vars), Run net g.nodes m s t ∧ At g.nodes t (fun n => K n (W' n)) e ∧
      WInv g.nodes (size * nmemb * xinc) M W' x' := by
  unfold writeSubBlock at hf
  obtain ⟨c, hc, hf⟩ := bind_eq_ok.1 hf
  obtain ⟨node, hnode, hf⟩ := bind_eq_ok.1 hf
  obtain ⟨u, hh, hf⟩ := bind_eq_ok.1 hf
  obtain ⟨⟨row, cnt⟩, hrow, hf⟩ := bind_eq_ok.1 hf
  obtain ⟨u', hr, hf⟩ := bind_eq_ok.1 hf
  obtain ⟨⟨row', d'⟩, hw, hf⟩ := bind_eq_ok.1 hf
  cases hf
  dsimp only at hr hw
  have hlt := node_lt hg (crtesn_inRange hc) hnode
  obtain ⟨m1, t1, B, r1, a1, l1⟩ := ready_all net g.nodes h0 s grid node x.1 hlt W (len := size * nmemb * xinc) (fun n hn => (hi.1 n hn).2.2.1)
    (fun n hn => (hi.1 n hn).1) hh _ e (At.congr hat fun n _ => by unfold writeSubStep; rw [after_ok hc, after_ok hnode])
  have hxl : xinc * (size * nmemb) = size * nmemb * xinc := Nat.mul_comm _ _
  obtain ⟨f1, f2, f3⟩ := fillSub_eq (buf := B node) xinc (by rw [l1 node hlt, hxl]) hrow
  have hfit : cnt * (size * nmemb) ≤ size * nmemb * xinc := by rw [← hxl]; exact Nat.mul_le_mul_right _ f3
  have hcs : size * nmemb * cnt = cnt * (size * nmemb) := Nat.mul_comm _ _
  have hcs' : size * (nmemb * cnt) = cnt * (size * nmemb) := by rw [← Nat.mul_assoc, hcs]
  have hcnt : node ≠ 0 → cnt * (size * nmemb) < 2 ^ 31 := by rw [← hcs]; exact route_lt hr
  generalize hq : cnt * (size * nmemb) = q at *
  let B1 : Nat → List Byte := fun n => if n = node then row ++ (B node).drop q else B n
  have hB1 : ∀ n, n < g.nodes → (B1 n).length = size * nmemb * xinc := by
    intro n hn; simp only [B1]; split
    · have := l1 node hlt
      simp [f2]; omega
    · exact l1 n hn
  obtain ⟨m2, t2, Z, r2, a2, l2⟩ := count_all net g.nodes h0 t1 node hlt (fun n => if n = node then cnt else 0) (by simp; omega) (fun n => (W n).sz)
    (fun n hn => (hi.1 n hn).2.2.2)
    (fun n sz cnt => routeN n node node 0 (cnt * (size * nmemb)) (B1 n) fun b =>
      after (writePrimary be n size (nmemb * cnt) ⟨node, b, sz, (W n).m, (W n).d⟩) (K n)) e (At.congr a1 fun n hn => by
      beta_reduce
      dsimp only
      have : (if n = node then foldO (fillSub g (W n).m (col n) color (size * nmemb) site) (B n, 0) (List.range xinc) else ok (B n, 0)) =
          ok (B1 n, if n = node then cnt else 0) := by
        by_cases hnn : n = node
        · rw [if_pos hnn, (hi.1 n hn).2.1, hnn, f1]; simp [B1]
        · rw [if_neg hnn]; simp [B1, hnn]
      rw [after_ok this])
  obtain ⟨m3, t3, r3, a3⟩ := route_all net g.nodes t2 node node 0 hlt h0 (Or.inl ⟨rfl, rfl⟩)
    (fun n => (if n = 0 then (if node = node then cnt else 0) else if n = node then cnt else 0) * (size * nmemb)) q
    (fun hz => by simp [hz, hq]) (fun _ => by simp [hq]) hcnt B1 (by rw [hB1 node hlt]; exact hfit) (by rw [hB1 0 h0]; exact hfit)
    (fun n b => after (writePrimary be n size (nmemb * (if n = 0 then (if node = node then cnt else 0) else if n = node then cnt else 0))
      ⟨node, b, Z n, (W n).m, (W n).d⟩) (K n)) e a2
  obtain ⟨rest, hB2⟩ : ∃ rest, moved node 0 q B1 0 = row ++ rest := by
    unfold moved
    by_cases hz : node = 0
    · subst hz; exact ⟨_, by simp [B1]; rfl⟩
    · rw [if_pos ⟨hz, rfl⟩]
      refine ⟨(B1 0).drop q, ?_⟩
      have e1 : (B1 node).take q = row := by simp only [B1, if_true]; rw [← f2, List.take_left]
      rw [e1]
  obtain ⟨hw', hwl⟩ := writeArray_append (by rw [f2, hcs']) hw rest
  have hB2l : (row ++ rest).length = size * nmemb * xinc := by
    rw [← hB2, moved_length (by rw [hB1 node hlt]; exact hfit) (by rw [hB1 0 h0]; exact hfit), hB1 0 h0]
  refine ⟨_, t3, fun n => if n = 0 then (⟨node, row' ++ rest, Z n, (W n).m, d'⟩ : Vars) else
      ⟨node, moved node 0 q B1 n, Z n, (W n).m, (W n).d⟩, (r1.trans r2).trans r3, At.congr a3 fun n hn => ?_, ?_, ?_⟩
  · by_cases hz : n = 0
    · subst hz
      have : writePrimary be 0 size (nmemb * (if (0 : Nat) = 0 then (if node = node then cnt else 0) else if 0 = node then cnt else 0))
          ⟨node, moved node 0 q B1 0, Z 0, (W 0).m, (W 0).d⟩ = ok ⟨node, row' ++ rest, Z 0, (W 0).m, d'⟩ := by
        unfold writePrimary
        rw [if_pos rfl]
        simp only [if_true]
        rw [hB2, hi.2, hw']; rfl
      rw [after_ok this]; rfl
    · have : writePrimary be n size (nmemb * (if n = 0 then (if node = node then cnt else 0) else if n = node then cnt else 0))
          ⟨node, moved node 0 q B1 n, Z n, (W n).m, (W n).d⟩ = ok ⟨node, moved node 0 q B1 n, Z n, (W n).m, (W n).d⟩ := by
        unfold writePrimary; rw [if_neg hz]
      rw [after_ok this]; simp only [if_neg hz]
  · intro n hn
    obtain ⟨-, i2, i3, i4⟩ := hi.1 n hn
    by_cases hz : n = 0
    · subst hz
      exact ⟨rfl, i2, by simp only [if_true]; rw [List.length_append, hwl, ← List.length_append, hB2l], l2 0 hn⟩
    · simp only [hz, if_false]
      exact ⟨trivial, i2, by rw [moved_length (by rw [hB1 node hlt]; exact hfit) (by rw [hB1 0 h0]; exact hfit), hB1 n hn], l2 n hn⟩
  · simp

/-- the variables during a read: fields and stream are those of the program as a whole -/
def RInv (N len : Nat) (W : Nat → Vars) (x : Mem × Dev) : Prop :=
  (∀ n, n < N → (W n).m = x.1 n ∧ (W n).buf.length = len ∧ (W n).sz.length = 4) ∧ (W 0).d = x.2

theorem read_step {R : Type} (net : Net) (be : Bool) (g : Geom) (hg : g.Good) (h0 : 0 < g.nodes) (xinc : Nat) (size nmemb : Nat)
    (s : State (List Byte) R) (W : Nat → Vars) (x x' : Mem × Dev) (site : Nat) (K : Nat → Vars → NodeProc R) (e : Nat)
    (hi : RInv g.nodes (size * nmemb * xinc) W x) (hf : readBlock be g xinc size nmemb x site = ok x')
    (hat : At g.nodes s (fun n => readStep be g xinc size nmemb n (W n) site (K n)) e) :
    ∃ (m : Nat) (t : State (List Byte) R) (W' : Nat → Vars), Run net g.nodes m s t ∧ At g.nodes t (fun n => K n (W' n)) e ∧
      RInv g.nodes (size * nmemb * xinc) W' x' := by
  unfold readBlock at hf
  obtain ⟨c, hc, hf⟩ := bind_eq_ok.1 hf
  obtain ⟨node, hnode, hf⟩ := bind_eq_ok.1 hf
  obtain ⟨⟨row, d'⟩, hrd, hf⟩ := bind_eq_ok.1 hf
  obtain ⟨u', hr, hf⟩ := bind_eq_ok.1 hf
  obtain ⟨mm, hm, hf⟩ := bind_eq_ok.1 hf
  cases hf
  dsimp only at hm
  have hlt := node_lt hg (crtesn_inRange hc) hnode
  have hrl : row.length = size * nmemb * xinc := by rw [readArray_length hrd, Nat.mul_assoc]
  let W1 : Nat → Vars := fun n => if n = 0 then ⟨(W 0).old, row, (W 0).sz, (W 0).m, d'⟩ else W n
  have hW1 : ∀ n, n < g.nodes → readPrimary be n size (nmemb * xinc) (W n) = ok (W1 n) := by
    intro n hn
    by_cases hz : n = 0
    · subst hz
      unfold readPrimary
      rw [if_pos rfl, hi.2, hrd, ok_bind]
      have : blitO (W 0).buf 0 row = ok row := by
        have hl := (hi.1 0 hn).2.1
        rw [blitO, if_pos (by omega)]
        simp only [List.take_zero, List.nil_append, Nat.zero_add]
        rw [List.drop_eq_nil_of_le (by omega), List.append_nil]
      rw [this]; rfl
    · unfold readPrimary; rw [if_neg hz]; simp [W1, hz]
  have hB1 : ∀ n, n < g.nodes → (W1 n).buf.length = size * nmemb * xinc := by
    intro n hn; simp only [W1]; split
    · exact hrl
    · exact (hi.1 n hn).2.1
  have hm1 : ∀ n, (W1 n).m = (W n).m := by
    intro n; simp only [W1]; split
    · rename_i h; rw [h]
    · rfl
  have hs1 : ∀ n, (W1 n).sz = (W n).sz := by
    intro n; simp only [W1]; split
    · rename_i h; rw [h]
    · rfl
  have hd1 : (W1 0).d = d' := by simp [W1]
  obtain ⟨m1, t1, r1, a1⟩ := route_all net g.nodes s node 0 node h0 hlt (Or.inr ⟨rfl, rfl⟩) (fun _ => size * nmemb * xinc) (size * nmemb * xinc)
    (fun _ => rfl) (fun _ => rfl) (route_lt hr) (fun n => (W1 n).buf) (by rw [hB1 0 h0]) (by rw [hB1 node hlt])
    (fun n b => after (if n = node then foldO (scatter g (size * nmemb) site b) (W1 n).m (List.range xinc) else ok (W1 n).m) fun m =>
      K n ⟨(W1 n).old, b, (W1 n).sz, m, (W1 n).d⟩) e
    (At.congr hat fun n hn => by unfold readStep; rw [after_ok hc, after_ok hnode, after_ok (hW1 n hn)])
  have hB2 : moved 0 node (size * nmemb * xinc) (fun n => (W1 n).buf) node = row := by
    unfold moved
    by_cases hz : 0 ≠ node
    · rw [if_pos ⟨hz, rfl⟩, List.drop_eq_nil_of_le (by rw [hB1 node hlt]), List.append_nil]
      simp only [W1, if_true]
      rw [← hrl, List.take_length]
    · have : node = 0 := by omega
      subst this
      simp [W1]
  refine ⟨m1, t1, fun n => ⟨(W1 n).old, moved 0 node (size * nmemb * xinc) (fun n => (W1 n).buf) n, (W1 n).sz, (x.1.put node mm) n, (W1 n).d⟩,
    r1, At.congr a1 fun n hn => ?_, fun n hn => ⟨rfl, ?_, ?_⟩, hd1⟩
  · have : (if n = node then foldO (scatter g (size * nmemb) site (moved 0 node (size * nmemb * xinc) (fun n => (W1 n).buf) n)) (W1 n).m
        (List.range xinc) else ok (W1 n).m) = ok ((x.1.put node mm) n) := by
      by_cases hnn : n = node
      · subst hnn
        rw [if_pos rfl, hB2, hm1, (hi.1 n hn).1, hm]; simp [Mem.put]
      · rw [if_neg hnn, hm1, (hi.1 n hn).1]; simp [Mem.put, hnn]
    rw [after_ok this]
  · rw [moved_length (by rw [hB1 0 h0]) (by rw [hB1 node hlt]), hB1 n hn]
  · rw [hs1]; exact (hi.1 n hn).2.2

theorem readSub_step {R : Type} (net : Net) (be : Bool) (g : Geom) (hg : g.Good) (h0 : 0 < g.nodes) (xinc : Nat) (hx : xinc < 2 ^ 31)
    (col : Nat → List Nat) (color size nmemb : Nat) (s : State (List Byte) R) (W : Nat → Vars) (x x' : Mem × Dev) (site : Nat)
    (K : Nat → Vars → NodeProc R) (e : Nat) (hi : RInv g.nodes (size * nmemb * xinc) W x)
    (hf : readSubBlock be g xinc col color size nmemb x site = ok x')
    (hat : At g.nodes s (fun n => readSubStep be g xinc (col n) color size nmemb n (W n) site (K n)) e) :
    ∃ (m : Nat) (t : State (List Byte) R) (W' : Nat → Vars), Run net g.nodes m s t ∧ At g.nodes t (fun n => K n (W' n)) e ∧
      RInv g.nodes (size * nmemb * xinc) W' x' := by
  unfold readSubBlock at hf
  obtain ⟨c, hc, hf⟩ := bind_eq_ok.1 hf
  obtain ⟨node, hnode, hf⟩ := bind_eq_ok.1 hf
  obtain ⟨cnt, hcount, hf⟩ := bind_eq_ok.1 hf
  obtain ⟨⟨row, d'⟩, hrd, hf⟩ := bind_eq_ok.1 hf
  obtain ⟨u', hr, hf⟩ := bind_eq_ok.1 hf
  obtain ⟨⟨mm, j⟩, hm, hf⟩ := bind_eq_ok.1 hf
  cases hf
  dsimp only at hm
  have hlt := node_lt hg (crtesn_inRange hc) hnode
  have hcx := count_le_n xinc hcount
  have hcs : size * nmemb * cnt = cnt * (size * nmemb) := Nat.mul_comm _ _
  have hcs' : size * (nmemb * cnt) = cnt * (size * nmemb) := by rw [← Nat.mul_assoc, hcs]
  have hfit : cnt * (size * nmemb) ≤ size * nmemb * xinc := by rw [Nat.mul_comm]; exact Nat.mul_le_mul_left _ hcx
  have hcnt : node ≠ 0 → cnt * (size * nmemb) < 2 ^ 31 := by rw [← hcs]; exact route_lt hr
  have hrl : row.length = cnt * (size * nmemb) := by rw [readArray_length hrd, hcs']
  generalize hq : cnt * (size * nmemb) = q at *
  obtain ⟨m1, t1, Z, r1, a1, l1⟩ := count_all net g.nodes h0 s node hlt (fun n => if n = node then cnt else 0) (by simp; omega) (fun n => (W n).sz)
    (fun n hn => (hi.1 n hn).2.2)
    (fun n sz cnt => after (readPrimary be n size (nmemb * cnt) (W n)) fun v =>
      routeN n node 0 node (cnt * (size * nmemb)) v.buf fun b =>
      after (if n = node then foldO (scatterSub g (col n) color (size * nmemb) site b) (v.m, 0) (List.range xinc) else ok (v.m, 0)) fun m =>
      K n { v with buf := b, sz := sz, m := m.1 }) e (At.congr hat fun n hn => by
      unfold readSubStep
      rw [after_ok hc, after_ok hnode]
      have : (if n = node then foldO (countSub g (col n) color site) 0 (List.range xinc) else ok 0) = ok (if n = node then cnt else 0) := by
        by_cases hnn : n = node
        · rw [if_pos hnn, hnn, hcount]; simp
        · rw [if_neg hnn]; simp [hnn]
      rw [after_ok this])
  let W1 : Nat → Vars := fun n => if n = 0 then ⟨(W 0).old, row ++ (W 0).buf.drop q, (W 0).sz, (W 0).m, d'⟩ else W n
  have hW1 : ∀ n, n < g.nodes → readPrimary be n size (nmemb * (if n = 0 then (if node = node then cnt else 0) else if n = node then cnt else 0)) (W n) =
      ok (W1 n) := by
    intro n hn
    by_cases hz : n = 0
    · subst hz
      unfold readPrimary
      rw [if_pos rfl]
      simp only [if_true]
      rw [hi.2, hrd, ok_bind]
      have : blitO (W 0).buf 0 row = ok (row ++ (W 0).buf.drop q) := by
        have hl := (hi.1 0 hn).2.1
        rw [blitO, if_pos (by omega), hrl]
        simp
      rw [this]; rfl
    · unfold readPrimary; rw [if_neg hz]; simp [W1, hz]
  have hB1 : ∀ n, n < g.nodes → (W1 n).buf.length = size * nmemb * xinc := by
    intro n hn; simp only [W1]; split
    · have := (hi.1 0 h0).2.1
      simp [hrl]; omega
    · exact (hi.1 n hn).2.1
  have hm1 : ∀ n, (W1 n).m = (W n).m := by
    intro n; simp only [W1]; split
    · rename_i h; rw [h]
    · rfl
  have hd1 : (W1 0).d = d' := by simp [W1]
  obtain ⟨m2, t2, r2, a2⟩ := route_all net g.nodes t1 node 0 node h0 hlt (Or.inr ⟨rfl, rfl⟩)
    (fun n => (if n = 0 then (if node = node then cnt else 0) else if n = node then cnt else 0) * (size * nmemb)) q
    (fun _ => by simp [hq]) (fun hz => by simp [hz, hq]) hcnt (fun n => (W1 n).buf) (by rw [hB1 0 h0]; exact hfit) (by rw [hB1 node hlt]; exact hfit)
    (fun n b => after (if n = node then foldO (scatterSub g (col n) color (size * nmemb) site b) ((W1 n).m, 0) (List.range xinc) else
      ok ((W1 n).m, 0)) fun m => K n ⟨(W1 n).old, b, Z n, m.1, (W1 n).d⟩) e
    (At.congr a1 fun n hn => by rw [after_ok (hW1 n hn)])
  obtain ⟨rest, hB2⟩ : ∃ rest, moved 0 node q (fun n => (W1 n).buf) node = row ++ rest := by
    unfold moved
    by_cases hz : 0 ≠ node
    · refine ⟨(W1 node).buf.drop q, ?_⟩
      rw [if_pos ⟨hz, rfl⟩]
      simp only [W1, if_true]
      rw [← hrl, List.take_left]
    · have : node = 0 := by omega
      subst this
      exact ⟨_, by simp [W1]; rfl⟩
  refine ⟨_, t2, fun n => ⟨(W1 n).old, moved 0 node q (fun n => (W1 n).buf) n, Z n, (x.1.put node mm) n, (W1 n).d⟩,
    r1.trans r2, At.congr a2 fun n hn => ?_, fun n hn => ⟨rfl, ?_, l1 n hn⟩, hd1⟩
  · have : (if n = node then foldO (scatterSub g (col n) color (size * nmemb) site (moved 0 node q (fun n => (W1 n).buf) n)) ((W1 n).m, 0)
        (List.range xinc) else ok ((W1 n).m, 0)) = ok ((x.1.put node mm) n, if n = node then j else 0) := by
      by_cases hnn : n = node
      · subst hnn
        rw [if_pos rfl, hB2, hm1, (hi.1 n hn).1, scatterSub_append hm]; simp [Mem.put]
      · rw [if_neg hnn, hm1, (hi.1 n hn).1]; simp [Mem.put, hnn]
    rw [after_ok this]
  · rw [moved_length (by rw [hB1 0 h0]; exact hfit) (by rw [hB1 node hlt]; exact hfit), hB1 n hn]

/-! ### whole calls -/

/-- coordinates of single sites are on the lattice -/
def Call.Legal (g : Geom) : Call → Prop
  | .writeSite c => InRange c g.L
  | .readSite c => InRange c g.L
  | _ => True

theorem call_all {R : Type} (net : Net) (S : Setting) (hg : S.g.Good) (h0 : 0 < S.g.nodes) (hx : S.xinc < 2 ^ 31) (a : Call) (hl : a.Legal S.g)
    (M M' : Mem) (d d' : Dev) (h : call1 S M d a = ok (M', d')) (J Z : Nat → List Byte)
    (hJ : ∀ n, n < S.g.nodes → S.tot ≤ (J n).length ∧ S.size * S.nmemb ≤ (J n).length ∧ 4 ≤ (Z n).length) (m : Nat → List Byte)
    (hm : ∀ n, n < S.g.nodes → m n = M n) (D : Nat → Dev) (hD : D 0 = d) (k : Nat → List Byte → Dev → NodeProc R) (s : State (List Byte) R) (e : Nat)
    (hat : At S.g.nodes s (fun n => call S n (J n) (Z n) a (m n) (D n) (k n)) e) :
    ∃ (j : Nat) (t : State (List Byte) R) (m' : Nat → List Byte) (D' : Nat → Dev), Run net S.g.nodes j s t ∧ At S.g.nodes t (fun n => k n (m' n) (D' n)) e ∧
      (∀ n, n < S.g.nodes → m' n = M' n) ∧ D' 0 = d' := by
  -- the variables at the beginning of a call
  let W (len : Nat) (n : Nat) : Vars := ⟨0, (J n).take len, (Z n).take 4, m n, D n⟩
  have hW : WInv S.g.nodes S.tot M (W S.tot) (0, d) :=
    ⟨fun n hn => ⟨rfl, hm n hn, by simp [W, (hJ n hn).1], by simp [W, (hJ n hn).2.2]⟩, hD⟩
  have hRI : RInv S.g.nodes S.tot (W S.tot) (M, d) :=
    ⟨fun n hn => ⟨hm n hn, by simp [W, (hJ n hn).1], by simp [W, (hJ n hn).2.2]⟩, hD⟩
  have finW : ∀ (x : Nat × Dev) (j : Nat) (t : State (List Byte) R) (W' : Nat → Vars), Run net S.g.nodes j s t →
      At S.g.nodes t (fun n => k n (W' n).m (W' n).d) e → WInv S.g.nodes S.tot M W' x → ∃ (j : Nat) (t : State (List Byte) R) (m' : Nat → List Byte)
      (D' : Nat → Dev), Run net S.g.nodes j s t ∧ At S.g.nodes t (fun n => k n (m' n) (D' n)) e ∧ (∀ n, n < S.g.nodes → m' n = M n) ∧ D' 0 = x.2 :=
    fun x j t W' r ha hi => ⟨j, t, _, _, r, ha, fun n hn => (hi.1 n hn).2.1, hi.2⟩
  have finR : ∀ (x : Mem × Dev) (j : Nat) (t : State (List Byte) R) (W' : Nat → Vars), Run net S.g.nodes j s t →
      At S.g.nodes t (fun n => k n (W' n).m (W' n).d) e → RInv S.g.nodes S.tot W' x → ∃ (j : Nat) (t : State (List Byte) R) (m' : Nat → List Byte)
      (D' : Nat → Dev), Run net S.g.nodes j s t ∧ At S.g.nodes t (fun n => k n (m' n) (D' n)) e ∧ (∀ n, n < S.g.nodes → m' n = x.1 n) ∧ D' 0 = x.2 :=
    fun x j t W' r ha hi => ⟨j, t, _, _, r, ha, fun n hn => (hi.1 n hn).1, hi.2⟩
  cases a with
  | write =>
    simp only [call1] at h
    obtain ⟨d2, h, h'⟩ := bind_eq_ok.1 h; cases h'
    unfold writeOLattice at h
    obtain ⟨ss, hss, h⟩ := bind_eq_ok.1 h
    obtain ⟨x, hfold, h'⟩ := bind_eq_ok.1 h; cases h'
    obtain ⟨j, t, W', r, ha, hi⟩ := strips_all net S.g.nodes (fun n => writeStep S.be S.g S.xinc S.grid S.size S.nmemb n) _ _
      (fun s W x x' site K e hi hf hat => write_step net S.be S.g hg h0 S.xinc S.grid S.size S.nmemb M s W x x' site K e hi hf hat)
      (fun n v => k n v.m v.d) ss s (W S.tot) (0, d) x e hW hfold (At.congr hat fun n _ => by simp only [call]; rw [after_ok hss])
    exact finW x j t W' r ha hi
  | writeSub col color =>
    simp only [call1] at h
    obtain ⟨d2, h, h'⟩ := bind_eq_ok.1 h; cases h'
    unfold writeSub at h
    obtain ⟨ss, hss, h⟩ := bind_eq_ok.1 h
    obtain ⟨x, hfold, h'⟩ := bind_eq_ok.1 h; cases h'
    obtain ⟨j, t, W', r, ha, hi⟩ := strips_all net S.g.nodes (fun n => writeSubStep S.be S.g S.xinc S.grid (col n) color S.size S.nmemb n) _ _
      (fun s W x x' site K e hi hf hat => writeSub_step net S.be S.g hg h0 S.xinc hx S.grid col color S.size S.nmemb M s W x x' site K e hi hf hat)
      (fun n v => k n v.m v.d) ss s (W S.tot) (0, d) x e hW hfold (At.congr hat fun n _ => by simp only [call]; rw [after_ok hss])
    exact finW x j t W' r ha hi
  | writeSlice start stop =>
    simp only [call1] at h
    obtain ⟨d2, h, h'⟩ := bind_eq_ok.1 h; cases h'
    unfold writeSlice at h
    obtain ⟨q, hq, h⟩ := bind_eq_ok.1 h
    by_cases hq0 : q ≠ 0
    · rw [if_pos hq0] at h; cases h
    rw [if_neg hq0] at h
    obtain ⟨ss, hss, h⟩ := bind_eq_ok.1 h
    obtain ⟨x, hfold, h'⟩ := bind_eq_ok.1 h; cases h'
    obtain ⟨j, t, W', r, ha, hi⟩ := strips_all net S.g.nodes (fun n => writeStep S.be S.g S.xinc S.grid S.size S.nmemb n) _ _
      (fun s W x x' site K e hi hf hat => write_step net S.be S.g hg h0 S.xinc S.grid S.size S.nmemb M s W x x' site K e hi hf hat)
      (fun n v => k n v.m v.d) ss s (W S.tot) (0, d) x e hW hfold
      (At.congr hat fun n _ => by simp only [call]; rw [after_ok hq, if_neg hq0, after_ok hss])
    exact finW x j t W' r ha hi
  | read =>
    simp only [call1] at h
    unfold readOLattice at h
    obtain ⟨ss, hss, h⟩ := bind_eq_ok.1 h
    obtain ⟨j, t, W', r, ha, hi⟩ := strips_all net S.g.nodes (fun n => readStep S.be S.g S.xinc S.size S.nmemb n) _ _
      (fun s W x x' site K e hi hf hat => read_step net S.be S.g hg h0 S.xinc S.size S.nmemb s W x x' site K e hi hf hat)
      (fun n v => k n v.m v.d) ss s (W S.tot) (M, d) (M', d') e hRI h (At.congr hat fun n _ => by simp only [call]; rw [after_ok hss])
    exact finR (M', d') j t W' r ha hi
  | readSub col color =>
    simp only [call1] at h
    unfold readSub at h
    obtain ⟨ss, hss, h⟩ := bind_eq_ok.1 h
    obtain ⟨j, t, W', r, ha, hi⟩ := strips_all net S.g.nodes (fun n => readSubStep S.be S.g S.xinc (col n) color S.size S.nmemb n) _ _
      (fun s W x x' site K e hi hf hat => readSub_step net S.be S.g hg h0 S.xinc hx col color S.size S.nmemb s W x x' site K e hi hf hat)
      (fun n v => k n v.m v.d) ss s (W S.tot) (M, d) (M', d') e hRI h (At.congr hat fun n _ => by simp only [call]; rw [after_ok hss])
    exact finR (M', d') j t W' r ha hi
  | readSlice start stop =>
    simp only [call1] at h
    unfold readSlice at h
    obtain ⟨q, hq, h⟩ := bind_eq_ok.1 h
    by_cases hq0 : q ≠ 0
    · rw [if_pos hq0] at h; cases h
    rw [if_neg hq0] at h
    obtain ⟨ss, hss, h⟩ := bind_eq_ok.1 h
    obtain ⟨j, t, W', r, ha, hi⟩ := strips_all net S.g.nodes (fun n => readStep S.be S.g S.xinc S.size S.nmemb n) _ _
      (fun s W x x' site K e hi hf hat => read_step net S.be S.g hg h0 S.xinc S.size S.nmemb s W x x' site K e hi hf hat)
      (fun n v => k n v.m v.d) ss s (W S.tot) (M, d) (M', d') e hRI h
      (At.congr hat fun n _ => by simp only [call]; rw [after_ok hq, if_neg hq0, after_ok hss])
    exact finR (M', d') j t W' r ha hi
  | writeSite c =>
    simp only [call1] at h
    obtain ⟨d2, h, h'⟩ := bind_eq_ok.1 h; cases h'
    unfold writeSite at h
    obtain ⟨node, hnode, h⟩ := bind_eq_ok.1 h
    obtain ⟨l, hidx, h⟩ := bind_eq_ok.1 h
    obtain ⟨u, hh, h⟩ := bind_eq_ok.1 h
    obtain ⟨row, hrow, h⟩ := bind_eq_ok.1 h
    obtain ⟨u', hr, h⟩ := bind_eq_ok.1 h
    obtain ⟨⟨row', d'⟩, hw, h⟩ := bind_eq_ok.1 h
    cases h
    have hlt := node_lt hg hl hnode
    have hrl := sliceO_length hrow
    generalize hsm : S.size * S.nmemb = sm at *
    obtain ⟨m1, t1, B, r1, a1, l1⟩ := clear_all net S.g.nodes h0 s S.grid node hlt (fun n => (J n).take sm) (len := sm)
      (fun n hn => by simp [(hJ n hn).2.1]) hh _ e (At.congr hat fun n _ => by simp only [call]; rw [after_ok hnode, after_ok hidx, hsm])
    let B1 : Nat → List Byte := fun n => if n = node then row else B n
    have hB1 : ∀ n, n < S.g.nodes → (B1 n).length = sm := by
      intro n hn; simp only [B1]; split
      · exact hrl
      · exact l1 n hn
    obtain ⟨m2, t2, r2, a2⟩ := route_all net S.g.nodes t1 node node 0 hlt h0 (Or.inl ⟨rfl, rfl⟩) (fun _ => sm) sm (fun _ => rfl) (fun _ => rfl)
      (route_lt hr) B1 (by rw [hB1 node hlt]) (by rw [hB1 0 h0])
      (fun n b => after (writePrimary S.be n S.size S.nmemb ⟨0, b, (Z n).take 4, m n, D n⟩) fun v => k n v.m v.d) e (At.congr a1 fun n hn => by
        beta_reduce
        have : (if n = node then do let x ← sliceO (m n) (l * sm) sm; blitO (B n) 0 x else ok (B n)) = ok (B1 n) := by
          by_cases hnn : n = node
          · subst hnn
            rw [if_pos rfl, hm n hn, hrow, ok_bind, blitO, if_pos (by rw [l1 n hn]; omega), Nat.zero_add,
              List.drop_eq_nil_of_le (by rw [l1 n hn]; omega)]
            simp [B1]
          · rw [if_neg hnn]; simp [B1, hnn]
        rw [after_ok this])
    have hB2 : moved node 0 sm B1 0 = row := by
      unfold moved
      by_cases hz : node = 0
      · subst hz; simp [B1]
      · rw [if_pos ⟨hz, rfl⟩]
        have e1 : B1 node = row := by simp [B1]
        rw [e1, List.drop_eq_nil_of_le (by rw [hB1 0 h0]), List.append_nil, ← hrl, List.take_length]
    refine ⟨_, t2, m, fun n => if n = 0 then d' else D n, r1.trans r2, At.congr a2 fun n hn => ?_, hm, by simp⟩
    by_cases hz : n = 0
    · subst hz
      have : writePrimary S.be 0 S.size S.nmemb ⟨0, moved node 0 sm B1 0, (Z 0).take 4, m 0, D 0⟩ = ok ⟨0, row', (Z 0).take 4, m 0, d'⟩ := by
        unfold writePrimary
        rw [if_pos rfl]
        dsimp only
        rw [hB2, hD, hw]; rfl
      rw [after_ok this]; rfl
    · have : writePrimary S.be n S.size S.nmemb ⟨0, moved node 0 sm B1 n, (Z n).take 4, m n, D n⟩ =
          ok ⟨0, moved node 0 sm B1 n, (Z n).take 4, m n, D n⟩ := by
        unfold writePrimary; rw [if_neg hz]
      rw [after_ok this]; simp only [if_neg hz]
  | readSite c =>
    simp only [call1] at h
    unfold readSite at h
    obtain ⟨node, hnode, h⟩ := bind_eq_ok.1 h
    obtain ⟨l, hidx, h⟩ := bind_eq_ok.1 h
    obtain ⟨⟨row, d2⟩, hrd, h⟩ := bind_eq_ok.1 h
    obtain ⟨u', hr, h⟩ := bind_eq_ok.1 h
    obtain ⟨mm, hmm, h⟩ := bind_eq_ok.1 h
    cases h
    have hlt := node_lt hg hl hnode
    have hrl := readArray_length hrd
    generalize hsm : S.size * S.nmemb = sm at *
    let W1 : Nat → Vars := fun n => ⟨0, if n = 0 then row else (J n).take sm, (Z n).take 4, m n, if n = 0 then d2 else D n⟩
    have hW1 : ∀ n, n < S.g.nodes → readPrimary S.be n S.size S.nmemb ⟨0, (J n).take sm, (Z n).take 4, m n, D n⟩ = ok (W1 n) := by
      intro n hn
      by_cases hz : n = 0
      · subst hz
        unfold readPrimary
        rw [if_pos rfl]
        dsimp only
        rw [hD, hrd, ok_bind]
        dsimp only
        have hjl : ((J 0).take sm).length = sm := by simp [(hJ 0 hn).2.1]
        rw [blitO, if_pos (by omega), Nat.zero_add, List.drop_eq_nil_of_le (by omega)]
        simp [W1]
      · unfold readPrimary; rw [if_neg hz]; simp [W1, hz]
    have hB1 : ∀ n, n < S.g.nodes → (W1 n).buf.length = sm := by
      intro n hn; simp only [W1]; split
      · exact hrl
      · simp [(hJ n hn).2.1]
    obtain ⟨m1, t1, r1, a1⟩ := route_all net S.g.nodes s node 0 node h0 hlt (Or.inr ⟨rfl, rfl⟩) (fun _ => sm) sm (fun _ => rfl) (fun _ => rfl)
      (route_lt hr) (fun n => (W1 n).buf) (by rw [hB1 0 h0]) (by rw [hB1 node hlt])
      (fun n b => after (if n = node then do let x ← sliceO b 0 sm; blitO (m n) (l * sm) x else ok (m n)) fun m' => k n m' (W1 n).d) e
      (At.congr hat fun n hn => by simp only [call]; rw [after_ok hnode, after_ok hidx, hsm, after_ok (hW1 n hn)])
    have hB2 : moved 0 node sm (fun n => (W1 n).buf) node = row := by
      unfold moved
      by_cases hz : 0 ≠ node
      · rw [if_pos ⟨hz, rfl⟩, List.drop_eq_nil_of_le (by rw [hB1 node hlt]), List.append_nil]
        simp only [W1, if_true]
        rw [← hrl, List.take_length]
      · have : node = 0 := by omega
        subst this
        simp [W1]
    refine ⟨m1, t1, fun n => (M.put node mm) n, fun n => (W1 n).d, r1, At.congr a1 fun n hn => ?_, fun n hn => rfl, by simp [W1]⟩
    have : (if n = node then do let x ← sliceO (moved 0 node sm (fun n => (W1 n).buf) n) 0 sm; blitO (m n) (l * sm) x else ok (m n)) =
        ok ((M.put node mm) n) := by
      by_cases hnn : n = node
      · subst hnn
        have hsl : sliceO row 0 sm = ok row := by
          rw [sliceO_of_le (show 0 + sm ≤ row.length by omega), List.drop_zero, List.take_of_length_le (by omega)]
        rw [if_pos rfl, hB2, hsl, ok_bind, hm n hn, hmm]
        simp [Mem.put]
      · rw [if_neg hnn, hm n hn]; simp [Mem.put, hnn]
    rw [after_ok this]

theorem calls_all {R : Type} (net : Net) (S : Setting) (hg : S.g.Good) (h0 : 0 < S.g.nodes) (hx : S.xinc < 2 ^ 31)
    (k : Nat → List Byte → Dev → NodeProc R) : ∀ (as : List Call) (_ : ∀ a ∈ as, a.Legal S.g) (M M' : Mem) (d d' : Dev)
    (_ : calls1 S as M d = ok (M', d')) (J : Nat → List (Call × List Byte × List Byte))
    (_ : ∀ n, n < S.g.nodes → (J n).map (fun x => x.1) = as ∧ ∀ x ∈ J n, S.tot ≤ x.2.1.length ∧ S.size * S.nmemb ≤ x.2.1.length ∧ 4 ≤ x.2.2.length)
    (m : Nat → List Byte) (_ : ∀ n, n < S.g.nodes → m n = M n) (D : Nat → Dev) (_ : D 0 = d) (s : State (List Byte) R) (e : Nat)
    (_ : At S.g.nodes s (fun n => calls S n (k n) (J n) (m n) (D n)) e),
    ∃ (j : Nat) (t : State (List Byte) R) (m' : Nat → List Byte) (D' : Nat → Dev), Run net S.g.nodes j s t ∧ At S.g.nodes t (fun n => k n (m' n) (D' n)) e ∧
      (∀ n, n < S.g.nodes → m' n = M' n) ∧ D' 0 = d' := by
  intro as
  induction as with
  | nil =>
    intro _ M M' d d' h J hJ m hm D hD s e hat
    cases h
    refine ⟨0, s, m, D, Run.refl _, At.congr hat fun n hn => ?_, hm, hD⟩
    rw [List.map_eq_nil_iff.1 (hJ n hn).1]; rfl
  | cons a as ih =>
    intro hl M M' d d' h J hJ m hm D hD s e hat
    rw [calls1] at h
    obtain ⟨⟨M1, d1⟩, h1, h2⟩ := bind_eq_ok.1 h
    have hcons : ∀ n, n < S.g.nodes → ∃ x y, J n = x :: y ∧ x.1 = a ∧ y.map (fun x => x.1) = as := by
      intro n hn
      have := (hJ n hn).1
      cases hJn : J n with
      | nil => rw [hJn] at this; cases this
      | cons x y => rw [hJn] at this; simp at this; exact ⟨x, y, rfl, this.1, this.2⟩
    have hJ' : ∀ n, n < S.g.nodes → J n = (a, ((J n).headD (a, [], [])).2.1, ((J n).headD (a, [], [])).2.2) :: (J n).tail := by
      intro n hn
      obtain ⟨x, y, e1, e2, e3⟩ := hcons n hn
      rw [e1]; simp [← e2]
    have hmem : ∀ n, n < S.g.nodes → (J n).headD (a, [], []) ∈ J n := by
      intro n hn
      obtain ⟨x, y, e1, e2, e3⟩ := hcons n hn
      rw [e1]; simp
    obtain ⟨j1, t1, m1, D1, r1, a1, hm1, hD1⟩ := call_all net S hg h0 hx a (hl a (by simp)) M M1 d d1 h1
      (fun n => ((J n).headD (a, [], [])).2.1) (fun n => ((J n).headD (a, [], [])).2.2) (fun n hn => (hJ n hn).2 _ (hmem n hn)) m hm D hD
      (fun n m d => calls S n (k n) (J n).tail m d) s e (At.congr hat fun n hn => by rw [hJ' n hn]; rfl)
    obtain ⟨j2, t2, m2, D2, r2, a2, hm2, hD2⟩ := ih (fun b hb => hl b (by simp [hb])) M1 M' d1 d' h2 (fun n => (J n).tail) (fun n hn => by
      obtain ⟨x, y, e1, e2, e3⟩ := hcons n hn
      refine ⟨by rw [e1]; exact e3, fun x hx => (hJ n hn).2 x (List.mem_of_mem_tail hx)⟩) m1 hm1 D1 hD1 t1 e a1
    exact ⟨_, t2, m2, D2, r1.trans r2, a2, hm2, hD2⟩

/-! ### C87 -/

/-- every execution from `s` ends after the same number of steps, with no node left waiting, and the results of the nodes satisfy `P` -/
def AlwaysEnds {R : Type} (net : Net) (N : Nat) (s : State (List Byte) R) (P : (Nat → R) → Prop) : Prop :=
  ∃ T : Nat, ∀ (m : Nat) (t : State (List Byte) R), Run net N m s t →
    m ≤ T ∧ (Final net N t ↔ m = T) ∧ (Final net N t → ∃ r, (∀ n, n < N → t.proc n = .done (r n)) ∧ P r)

theorem alwaysEnds {R : Type} {net : Net} {N : Nat} {s t : State (List Byte) R} {P : (Nat → R) → Prop} {m e : Nat} (hr : Run net N m s t) (r : Nat → R)
    (he : At N t (fun n => .done (r n)) e) (hP : P r) : AlwaysEnds net N s P := by
  have hfin : Final net N t := final_of_done net N t r he.proc
  refine ⟨m, fun m' t' ht => ?_⟩
  obtain ⟨hle, hrest⟩ := all_executions hr hfin ht
  refine ⟨hle, ⟨fun hft => (stuck_is_end hr hfin ht hft).2, ?_⟩, ?_⟩
  · rintro rfl
    rw [Nat.sub_self] at hrest
    cases hrest
    exact hfin
  · intro hft
    obtain ⟨rfl, -⟩ := stuck_is_end hr hfin ht hft
    exact ⟨r, he.proc, hP⟩

/-- the machine at the beginning of a series of calls: node `n` has the calls and buffers `J n`, the piece `M n` of the field, the stream object `D n` -/
def start (S : Setting) (J : Nat → List (Call × List Byte × List Byte)) (M : Mem) (D : Nat → Dev) : State (List Byte) (List Byte × Dev) :=
  { proc := fun n => calls S n (fun m d => .done (m, d)) (J n) (M n) (D n), queue := fun _ => [], log := fun _ => [] }

/-- the nodes perform the calls `as`, each with fresh buffers of any contents -/
def Buffers (S : Setting) (as : List Call) (J : Nat → List (Call × List Byte × List Byte)) : Prop :=
  ∀ n, n < S.g.nodes → (J n).map (fun x => x.1) = as ∧ ∀ x ∈ J n, S.tot ≤ x.2.1.length ∧ S.size * S.nmemb ≤ x.2.1.length ∧ 4 ≤ x.2.2.length

/-- C87: if the machine run as one program performs the calls, then so does the machine of communicating nodes, in every interleaving, on every network, whatever
the buffers contain at first: every execution ends, no node waits forever, every node has the field of the one program, and the primary node its stream. -/
theorem C87_refines (net : Net) (S : Setting) (hg : S.g.Good) (h0 : 0 < S.g.nodes) (hx : S.xinc < 2 ^ 31) (as : List Call)
    (hl : ∀ a ∈ as, a.Legal S.g) (M M' : Mem) (d d' : Dev) (h : calls1 S as M d = ok (M', d')) (J : Nat → List (Call × List Byte × List Byte))
    (hJ : Buffers S as J) (D : Nat → Dev) (hD : D 0 = d) :
    AlwaysEnds net S.g.nodes (start S J M D) (fun r => (∀ n, n < S.g.nodes → (r n).1 = M' n) ∧ (r 0).2 = d') := by
  obtain ⟨j, t, m', D', hr, ha, h1, h2⟩ := calls_all net S hg h0 hx (fun _ m d => .done (m, d)) as hl M M' d d' h J hJ M (fun _ _ => rfl) D hD
    (start S J M D) 0 ⟨fun _ _ => rfl, fun _ => rfl, fun _ _ => rfl⟩
  exact alwaysEnds hr (fun n => (m' n, D' n)) ha ⟨h1, h2⟩

/-- the parts of `Ready` that the refinement needs -/
theorem ready_nodes {g : Geom} {xinc : Nat} (hR : Ready g xinc) : 0 < g.nodes ∧ xinc < 2 ^ 31 := by
  obtain ⟨l0, ls, hL, hd⟩ := hR.head
  have hpos := hR.pos
  have hv := hR.vol
  rw [hL, nsites] at hpos hv
  have hl0 : 0 < l0 := Nat.pos_of_mul_pos_right hpos
  have hls : 0 < nsites ls := Nat.pos_of_mul_pos_left hpos
  have : xinc ≤ l0 := Nat.le_of_dvd hl0 hd
  have : l0 ≤ l0 * nsites ls := Nat.le_mul_of_pos_right _ hls
  have hc : InRange (digits 0 g.L) g.L := crtesn_inRange (crtesn_eq (fun l hl => pos_of_nsites_pos hR.pos l hl) 0)
  obtain ⟨n, i, -, h2, -⟩ := hR.good.1 _ hc
  exact ⟨by omega, by omega⟩

/-- C87, writing: every execution of `writeOLattice` ends with the file of the field on the primary node (the bytes of C27: they depend on lattice and field only)
and leaves the field as it was.  The full claim has no condition `Sendable` (C27). -/
theorem C87_write_partial (net : Net) (S : Setting) (hR : Ready S.g S.xinc) (hs : Supported S.size) (f : List Nat → List (List Byte))
    (hf : IsField S.g.L S.size S.nmemb f) (M : Mem) (hM : Holds S.be S.g S.size S.nmemb M f) (hx : Sendable S.g S.grid S.tot)
    (J : Nat → List (Call × List Byte × List Byte)) (hJ : Buffers S [.write] J) (D : Nat → Dev) :
    AlwaysEnds net S.g.nodes (start S J M D) (fun r => (∀ n, n < S.g.nodes → (r n).1 = M n) ∧ (r 0).2 = (D 0).put (fileBytes S.g.L f)) :=
  C87_refines net S hR.good (ready_nodes hR).1 (ready_nodes hR).2 [.write] (by simp [Call.Legal]) M M (D 0) _
    (by simp only [calls1, call1, C27_par_partial S.g S.xinc hR S.be S.grid S.size S.nmemb hs f hf M hM hx]; rfl) J hJ D rfl

/-- C87, reading: every execution of `readOLattice` ends with the field of the file in the pieces of the nodes, on whatever machine the file was written. -/
theorem C87_read (net : Net) (S : Setting) (hR : Ready S.g S.xinc) (hs : Supported S.size) (f : List Nat → List (List Byte))
    (hf : IsField S.g.L S.size S.nmemb f) (M : Mem) (hM : ∀ n, n < S.g.nodes → (M n).length = S.g.sites * (S.size * S.nmemb)) (hx : S.tot < 2 ^ 31)
    (J : Nat → List (Call × List Byte × List Byte)) (hJ : Buffers S [.read] J) (D : Nat → Dev) (hd : (D 0).Sees (fileBytes S.g.L f)) :
    AlwaysEnds net S.g.nodes (start S J M D) (fun r => Holds S.be S.g S.size S.nmemb (fun n => (r n).1) f ∧ (r 0).2 = (D 0).skip (fileBytes S.g.L f)) := by
  obtain ⟨M', h1, h2⟩ := C28_par S.g S.xinc hR S.be S.size S.nmemb hs f hf hx M hM (D 0) hd
  obtain ⟨T, hT⟩ := C87_refines net S hR.good (ready_nodes hR).1 (ready_nodes hR).2 [.read] (by simp [Call.Legal]) M M' (D 0) _
    (by simp only [calls1, call1, h1]; rfl) J hJ D rfl
  refine ⟨T, fun m t ht => ?_⟩
  obtain ⟨a, b, c⟩ := hT m t ht
  refine ⟨a, b, fun hf => ?_⟩
  obtain ⟨r, hr, h3, h4⟩ := c hf
  exact ⟨r, hr, Cells.mem_congr h2 (fun n hn => (h3 n hn).symm), h4⟩

/-- C87, subsets: every execution of `writeOLattice(.., sub)` ends with the records of the sites of the subset.  The full claim has no condition `Sendable`. -/
theorem C87_write_subset_partial (net : Net) (S : Setting) (hR : Ready S.g S.xinc) (hs : Supported S.size) (f : List Nat → List (List Byte))
    (hf : IsField S.g.L S.size S.nmemb f) (M : Mem) (hM : Holds S.be S.g S.size S.nmemb M f) (hx : Sendable S.g S.grid S.tot)
    (fn : List Nat → Int) (nsub color : Nat) (O : Nat → SetObj) (hlegal : ∀ c, InRange c S.g.L → 0 ≤ fn c ∧ fn c < nsub)
    (hO : ∀ n, n < S.g.nodes → setMake S.g n fn nsub = ok (O n))
    (J : Nat → List (Call × List Byte × List Byte)) (hJ : Buffers S [.writeSub (fun n => (O n).latColor) color] J) (D : Nat → Dev) :
    AlwaysEnds net S.g.nodes (start S J M D) (fun r => (∀ n, n < S.g.nodes → (r n).1 = M n) ∧
      (r 0).2 = (D 0).put (subsetBytes S.g.L f (fun c => decide (fn c = (color : Int))))) :=
  C87_refines net S hR.good (ready_nodes hR).1 (ready_nodes hR).2 [.writeSub (fun n => (O n).latColor) color] (by simp [Call.Legal]) M M (D 0) _
    (by simp only [calls1, call1, C29_write_partial S.g S.xinc hR S.be S.grid S.size S.nmemb hs f hf M hM fn nsub color O hlegal hO hx]; rfl) J hJ D rfl

/-- C87, subsets: every execution of `readOLattice(.., sub)` changes the sites of the subset, and no others, to the records read. -/
theorem C87_read_subset (net : Net) (S : Setting) (hR : Ready S.g S.xinc) (hs : Supported S.size) (f : List Nat → List (List Byte))
    (hf : IsField S.g.L S.size S.nmemb f) (M : Mem) (φ : List Nat → List Byte) (hM : Cells S.g (S.size * S.nmemb) M φ) (hx : S.tot < 2 ^ 31)
    (fn : List Nat → Int) (nsub color : Nat) (O : Nat → SetObj) (hlegal : ∀ c, InRange c S.g.L → 0 ≤ fn c ∧ fn c < nsub)
    (hO : ∀ n, n < S.g.nodes → setMake S.g n fn nsub = ok (O n))
    (J : Nat → List (Call × List Byte × List Byte)) (hJ : Buffers S [.readSub (fun n => (O n).latColor) color] J) (D : Nat → Dev)
    (hd : (D 0).Sees (subsetBytes S.g.L f (fun c => decide (fn c = (color : Int))))) :
    AlwaysEnds net S.g.nodes (start S J M D) (fun r =>
      Cells S.g (S.size * S.nmemb) (fun n => (r n).1) (fun c => if fn c = (color : Int) then mem S.be (f c) else φ c) ∧
      (r 0).2 = (D 0).skip (subsetBytes S.g.L f (fun c => decide (fn c = (color : Int))))) := by
  obtain ⟨M', h1, h2⟩ := C29_read S.g S.xinc hR S.be S.size S.nmemb hs f hf hx fn nsub color O hlegal hO M φ hM (D 0) hd
  obtain ⟨T, hT⟩ := C87_refines net S hR.good (ready_nodes hR).1 (ready_nodes hR).2 [.readSub (fun n => (O n).latColor) color] (by simp [Call.Legal]) M M' (D 0) _
    (by simp only [calls1, call1, h1]; rfl) J hJ D rfl
  refine ⟨T, fun m t ht => ?_⟩
  obtain ⟨a, b, c⟩ := hT m t ht
  refine ⟨a, b, fun hf => ?_⟩
  obtain ⟨r, hr, h3, h4⟩ := c hf
  exact ⟨r, hr, Cells.mem_congr h2 (fun n hn => (h3 n hn).symm), h4⟩

/-! ### a case: the lattice 4 x 2 on two nodes, a field of two words per site; written by any execution, the file is the 64 bytes of `fileBytes` -/

/-- lattice 4 x 2, node grid 2 x 1, two-colour order; two words of four bytes at each site, little-endian nodes -/
def sample : Setting := { be := false, g := geomCB2 [4, 2] (lexMachine [2, 1]) [2, 2], xinc := 2, grid := false, size := 4, nmemb := 2 }

theorem sample_field : IsField sample.g.L sample.size sample.nmemb coordField := fun c _ => ⟨rfl, by simp [coordField, sample]⟩

example (net : Net) (D : Nat → Dev) (junk : Byte) : ∃ M, Holds false sample.g 4 2 M coordField ∧
    AlwaysEnds net 2 (start sample (fun _ => [(.write, List.replicate 16 junk, List.replicate 4 junk)]) M D)
      (fun r => (∀ n, n < 2 → (r n).1 = M n) ∧ (r 0).2 = (D 0).put (fileBytes [4, 2] coordField)) := by
  obtain ⟨M, hM⟩ := holds_exists (g := sample.g) (size := 4) (nmemb := 2) (f := coordField) false ready_example.good sample_field
  exact ⟨M, hM, C87_write_partial net sample ready_example (by decide) coordField sample_field M hM ⟨Or.inr (Or.inl (by decide)), by decide⟩
    (fun _ => [(.write, List.replicate 16 junk, List.replicate 4 junk)]) (fun n _ => ⟨rfl, by simp [sample, Setting.tot]⟩) D⟩

example (net : Net) (D : Nat → Dev) (hd : (D 0).Sees (fileBytes [4, 2] coordField)) :
    AlwaysEnds net 2 (start sample (fun _ => [(.read, List.replicate 16 0, List.replicate 4 0)]) (fun _ => List.replicate 32 0) D)
      (fun r => Holds false sample.g 4 2 (fun n => (r n).1) coordField ∧ (r 0).2 = (D 0).skip (fileBytes [4, 2] coordField)) :=
  C87_read net sample ready_example (by decide) coordField sample_field _ (fun n _ => by simp [sample, geomCB2]; decide) (by decide)
    (fun _ => [(.read, List.replicate 16 0, List.replicate 4 0)]) (fun n _ => ⟨rfl, by simp [sample, Setting.tot]⟩) D hd

end Verif.LatticeIONet
