import Verif.Network
/-
Rounds of communication in which all nodes take part: each is shown by one execution; `Network.all_executions` then speaks of all.
-/
namespace Verif.Network
open Verif

/-- `sendToPrimaryNode`, include/qdp_parscalar_specific.h:45-57, on node `me` with the local copy `dest` -/
def sendToPrimary {V R : Type} (me srcnode : Nat) (dest : V) (k : V → Proc V R) : Proc V R :=
  if srcnode ≠ 0 then
    let snd := fun d => if me = srcnode then Proc.send 0 d (Proc.wait 0 (k d)) else k d
    if me = 0 then Proc.recv srcnode snd else snd dest
  else k dest


/-- all nodes are at `P`, no message under way, every node has contributed to `e` broadcasts and sums -/
structure At {V R : Type} (N : Nat) (s : State V R) (P : Nat → Proc V R) (e : Nat) : Prop where
  proc : ∀ n, n < N → s.proc n = P n
  queue : ∀ q, s.queue q = []
  log : ∀ n, n < N → (s.log n).length = e

theorem final_of_done {V R : Type} (net : Net) (N : Nat) (t : State V R) (r : Nat → R) (h : ∀ n, n < N → t.proc n = .done (r n)) :
    Final net N t := by
  intro i u hs
  unfold Step at hs
  rw [h i hs.1] at hs
  exact hs.2


/-- all nodes contribute, one after the other -/
theorem post_all {V R : Type} (net : Net) (N : Nat) (s : State V R) (D : Nat → V) (P Q : Nat → Proc V R) (e : Nat)
    (hstep : ∀ n, n < N → ∀ t : State V R, t.proc n = P n → Step net N n t (eff n (Q n) (.post (D n)) t)) (h : At N s P e) : ∀ m, m ≤ N →
    ∃ t, Run net N m s t ∧ (∀ n, n < m → t.proc n = Q n) ∧ (∀ n, m ≤ n → n < N → t.proc n = P n) ∧
      (∀ q, t.queue q = []) ∧ (∀ n, n < m → t.log n = s.log n ++ [D n]) ∧ (∀ n, m ≤ n → t.log n = s.log n) := by
  intro m
  induction m with
  | zero => intro _; exact ⟨s, Run.refl _, fun _ h => by omega, fun n _ hN => h.proc n hN, h.queue, fun _ h => by omega, fun _ _ => rfl⟩
  | succ m ih =>
    intro hm
    obtain ⟨t, hr, h1, h2, h3, h4, h5⟩ := ih (by omega)
    refine ⟨_, hr.trans (Run.step (hstep m (by omega) t (h2 m (Nat.le_refl _) (by omega))) (Run.refl _)), ?_, ?_, h3, ?_, ?_⟩
    · intro n hn
      by_cases hnm : n = m
      · subst hnm; simp [eff]
      · simp [eff, Function.update_of_ne hnm, h1 n (by omega)]
    · intro n hn hN; have : n ≠ m := by omega
      simp [eff, Function.update_of_ne this, h2 n (by omega) hN]
    · intro n hn
      by_cases hnm : n = m
      · subst hnm; simp [eff, h5 n (Nat.le_refl _)]
      · simp [eff, Function.update_of_ne hnm, h4 n (by omega)]
    · intro n hn; have : n ≠ m := by omega
      simp [eff, Function.update_of_ne this, h5 n (by omega)]

/-- all nodes go on, one after the other -/
theorem tau_all {V R : Type} (net : Net) (N : Nat) (s : State V R) (P Q : Nat → Proc V R) (e : Nat)
    (hstep : ∀ n, n < N → ∀ t : State V R, t.proc n = P n → t.log = s.log → Step net N n t (eff n (Q n) .tau t)) (h : At N s P e) : ∀ m, m ≤ N →
    ∃ t, Run net N m s t ∧ (∀ n, n < m → t.proc n = Q n) ∧ (∀ n, m ≤ n → n < N → t.proc n = P n) ∧ t.queue = s.queue ∧ t.log = s.log := by
  intro m
  induction m with
  | zero => intro _; exact ⟨s, Run.refl _, fun _ h => by omega, fun n _ hN => h.proc n hN, rfl, rfl⟩
  | succ m ih =>
    intro hm
    obtain ⟨t, hr, h1, h2, h3, h4⟩ := ih (by omega)
    refine ⟨_, hr.trans (Run.step (hstep m (by omega) t (h2 m (Nat.le_refl _) (by omega)) h4) (Run.refl _)), ?_, ?_, h3, h4⟩
    · intro n hn
      by_cases hnm : n = m
      · subst hnm; simp [eff]
      · simp [eff, Function.update_of_ne hnm, h1 n (by omega)]
    · intro n hn hN; have : n ≠ m := by omega
      simp [eff, Function.update_of_ne this, h2 n (by omega) hN]

/-- a broadcast gives every node the value of node 0 -/
theorem bcast_all {V R : Type} (net : Net) (N : Nat) (h0 : 0 < N) (s : State V R) (D : Nat → V) (k : Nat → V → Proc V R) (e : Nat)
    (h : At N s (fun n => .bcast (D n) (k n)) e) : ∃ m t, Run net N m s t ∧ At N t (fun n => k n (D 0)) (e + 1) := by
  obtain ⟨t, hr, h1, -, h3, h4, -⟩ := post_all net N s D (fun n => .bcast (D n) (k n)) (fun n => .leave (k n)) e
    (fun n hn t ht => by unfold Step; rw [ht]; exact ⟨hn, rfl⟩) h N (Nat.le_refl _)
  have hlen : ∀ n, n < N → (t.log n).length = e + 1 := fun n hn => by rw [h4 n hn, List.length_append, h.log n hn]; rfl
  obtain ⟨u, hr2, g1, -, g3, g4⟩ := tau_all net N t (fun n => .leave (k n)) (fun n => k n (D 0)) (e + 1) (fun n hn u hu hl => by
    unfold Step; rw [hu]
    refine ⟨hn, D 0, ?_, ?_, ?_, rfl⟩
    · rw [hl, hlen n hn, h4 0 h0, Nat.add_sub_cancel, ← h.log 0 h0]; simp
    · rw [hl, hlen n hn]; omega
    · intro m hm; rw [hl, hlen n hn, hlen m hm, Nat.sub_self]; exact net.sync_zero) ⟨h1, h3, hlen⟩ N (Nat.le_refl _)
  exact ⟨_, u, hr.trans hr2, g1, fun q => by rw [g3, h3], fun n hn => by rw [g4, hlen n hn]⟩

/-- a sum gives every node the values of all nodes -/
theorem reduce_all {V R : Type} (net : Net) (N : Nat) (s : State V R) (D : Nat → V) (k : Nat → List V → Proc V R) (e : Nat)
    (h : At N s (fun n => .reduce (D n) (k n)) e) :
    ∃ m t, Run net N m s t ∧ At N t (fun n => k n ((List.range N).map D)) (e + 1) := by
  obtain ⟨t, hr, h1, -, h3, h4, -⟩ := post_all net N s D (fun n => .reduce (D n) (k n)) (fun n => .total (k n)) e
    (fun n hn t ht => by unfold Step; rw [ht]; exact ⟨hn, rfl⟩) h N (Nat.le_refl _)
  have hlen : ∀ n, n < N → (t.log n).length = e + 1 := fun n hn => by rw [h4 n hn, List.length_append, h.log n hn]; rfl
  obtain ⟨u, hr2, g1, -, g3, g4⟩ := tau_all net N t (fun n => .total (k n)) (fun n => k n ((List.range N).map D)) (e + 1) (fun n hn u hu hl => by
    unfold Step; rw [hu]
    refine ⟨hn, (List.range N).map D, by simp, ?_, ?_, ?_, rfl⟩
    · rw [hl, hlen n hn]; omega
    · intro m hm
      refine ⟨D m, by simp [hm], ?_⟩
      rw [hl, hlen n hn, h4 m hm, Nat.add_sub_cancel, ← h.log m hm]; simp
    · intro m hm; rw [hl, hlen n hn, hlen m hm, Nat.sub_self]; exact net.sync_zero) ⟨h1, h3, hlen⟩ N (Nat.le_refl _)
  exact ⟨_, u, hr.trans hr2, g1, fun q => by rw [g3, h3], fun n hn => by rw [g4, hlen n hn]⟩

/-- the value of the owner reaches node 0 -/
theorem send_all {V R : Type} (net : Net) (N : Nat) (h0 : 0 < N) (s : State V R) (node : Nat) (hnode : node < N) (D : Nat → V)
    (k : Nat → V → Proc V R) (e : Nat) (h : At N s (fun n => sendToPrimary n node (D n) (k n)) e) :
    ∃ (m : Nat) (t : State V R) (D' : Nat → V), Run net N m s t ∧ At N t (fun n => k n (D' n)) e ∧ D' 0 = D node := by
  by_cases hz : node = 0
  · subst hz
    exact ⟨0, s, D, Run.refl _, ⟨fun n hn => by rw [h.proc n hn]; simp [sendToPrimary], h.queue, h.log⟩, rfl⟩
  have hzn : (0 : Nat) ≠ node := fun e => hz e.symm
  -- the owner sends, node 0 receives, the owner finds the message received
  let P1 := Function.update s.proc node (.wait 0 (k node (D node)))
  let s1 : State V R := { s with proc := P1, queue := Function.update s.queue (node, 0) (s.queue (node, 0) ++ [D node]) }
  let s2 : State V R := { s with proc := Function.update P1 0 (k 0 (D node)), queue := Function.update s1.queue (node, 0) [] }
  let s3 : State V R := { s2 with proc := Function.update s2.proc node (k node (D node)) }
  have p_owner : s.proc node = .send 0 (D node) (.wait 0 (k node (D node))) := by
    rw [h.proc node hnode]; simp [sendToPrimary, hz]
  have p_zero : s.proc 0 = .recv node (k 0) := by
    rw [h.proc 0 h0]; simp [sendToPrimary, hz, hzn]
  have st1 : Step net N node s s1 := by
    unfold Step; rw [p_owner]
    exact ⟨hnode, by rw [h.queue]; exact net.room_zero, rfl⟩
  have st2 : Step net N 0 s1 s2 := by
    unfold Step
    have : s1.proc 0 = .recv node (k 0) := by simp [s1, P1, Function.update_of_ne hzn, p_zero]
    rw [this]
    exact ⟨h0, D node, [], by simp [s1, h.queue], rfl⟩
  have st3 : Step net N node s2 s3 := by
    unfold Step
    have : s2.proc node = .wait 0 (k node (D node)) := by simp [s2, P1, Function.update_of_ne hz]
    rw [this]
    exact ⟨hnode, by simpa [s2] using net.sent_zero, rfl⟩
  refine ⟨_, s3, fun n => if n = 0 then D node else D n, Run.step st1 (Run.step st2 (Run.step st3 (Run.refl _))), ⟨?_, ?_, h.log⟩, by simp⟩
  · intro n hn
    by_cases h1 : n = node
    · subst h1; simp [s3, hz]
    · by_cases h2 : n = 0
      · subst h2; simp [s3, s2, Function.update_of_ne h1]
      · simp only [s3, s2, P1, Function.update_of_ne h1, Function.update_of_ne h2, h.proc n hn]
        simp [sendToPrimary, hz, h1, h2]
  · intro q
    by_cases hq : q = (node, 0)
    · subst hq; simp [s3, s2]
    · simp [s3, s2, s1, Function.update_of_ne hq, h.queue]

/-- nodes move one after the other, each at most once -/
theorem sweep {V R : Type} (net : Net) (N : Nat) (I : Nat → State V R → Prop)
    (hstep : ∀ m, m < N → ∀ t, I m t → I (m + 1) t ∨ ∃ u, Step net N m t u ∧ I (m + 1) u) (s : State V R) (h : I 0 s) :
    ∀ m, m ≤ N → ∃ k t, Run net N k s t ∧ I m t := by
  intro m
  induction m with
  | zero => intro _; exact ⟨0, s, Run.refl _, h⟩
  | succ m ih =>
    intro hm
    obtain ⟨k, t, hr, hi⟩ := ih (by omega)
    rcases hstep m (by omega) t hi with h' | ⟨u, hu, h'⟩
    · exact ⟨k, t, hr, h'⟩
    · exact ⟨_, u, hr.trans (Run.step hu (Run.refl _)), h'⟩

/-- the nodes for which `act` holds each send one message and receive one: if the partners agree, everyone gets the message meant for it -/
theorem exchange_all {V R : Type} (net : Net) (N : Nat) (act : Nat → Bool) (to frm : Nat → Nat) (msg : Nat → V) (K : Nat → V → Proc V R)
    (Z : Nat → Proc V R) (hto : ∀ n, n < N → act n = true → to n < N ∧ act (to n) = true ∧ frm (to n) = n)
    (hfrm : ∀ n, n < N → act n = true → frm n < N ∧ act (frm n) = true ∧ to (frm n) = n)
    (hK : ∀ n, n < N → act n = true → K n (msg (frm n)) = .wait (to n) (Z n)) (s : State V R) (e : Nat)
    (h : At N s (fun n => if act n then .send (to n) (msg n) (.recv (frm n) (K n)) else Z n) e) :
    ∃ k t, Run net N k s t ∧ At N t Z e := by
  -- everyone sends
  obtain ⟨k1, s1, r1, a1, a2, a3⟩ := sweep net N (fun m t =>
      (∀ n, n < N → t.proc n = if act n then (if n < m then .recv (frm n) (K n) else .send (to n) (msg n) (.recv (frm n) (K n))) else Z n) ∧
      (∀ a b, t.queue (a, b) = if a < m ∧ act a = true ∧ b = to a then [msg a] else []) ∧ t.log = s.log) (by
    rintro m hm t ⟨h1, h2, h3⟩
    by_cases ha : act m = true
    · right
      have hp := h1 m hm
      rw [if_pos ha, if_neg (Nat.lt_irrefl _)] at hp
      have hq : t.queue (m, to m) = [] := by rw [h2, if_neg (by omega)]
      refine ⟨eff m (.recv (frm m) (K m)) (.put (to m) (msg m)) t, ⟨hm, by rw [hp]; exact ⟨by rw [hq]; exact net.room_zero, rfl⟩⟩, ?_, ?_, h3⟩
      · intro n hn
        by_cases hnm : n = m
        · subst hnm; simp [eff, ha]
        · simp only [eff, Function.update_of_ne hnm, h1 n hn]
          by_cases hlt : n < m
          · rw [if_pos hlt, if_pos (show n < m + 1 by omega)]
          · rw [if_neg hlt, if_neg (show ¬ n < m + 1 by omega)]
      · intro a b
        by_cases hab : (a, b) = (m, to m)
        · obtain ⟨rfl, rfl⟩ : a = m ∧ b = to m := by simpa using hab
          simp [eff, hq, ha]
        · simp only [eff, Function.update_of_ne hab, h2]
          by_cases hc : a < m ∧ act a = true ∧ b = to a
          · rw [if_pos hc, if_pos ⟨by omega, hc.2⟩]
          · rw [if_neg hc, if_neg]
            rintro ⟨c1, c2, c3⟩
            by_cases ham : a = m
            · subst ham; subst c3; exact hab rfl
            · exact hc ⟨by omega, c2, c3⟩
    · left
      refine ⟨fun n hn => ?_, fun a b => ?_, h3⟩
      · rw [h1 n hn]
        by_cases hnm : n = m
        · subst hnm; simp [ha]
        · by_cases hlt : n < m
          · rw [if_pos hlt, if_pos (show n < m + 1 by omega)]
          · rw [if_neg hlt, if_neg (show ¬ n < m + 1 by omega)]
      · rw [h2]
        by_cases hc : a < m ∧ act a = true ∧ b = to a
        · rw [if_pos hc, if_pos ⟨by omega, hc.2⟩]
        · rw [if_neg hc, if_neg]
          rintro ⟨c1, c2, c3⟩
          by_cases ham : a = m
          · subst ham; exact ha c2
          · exact hc ⟨by omega, c2, c3⟩) s
    ⟨fun n hn => by rw [h.proc n hn]; simp, fun a b => by rw [h.queue]; simp, rfl⟩ N (Nat.le_refl _)
  -- everyone receives
  obtain ⟨k2, s2, r2, b1, b2, b3⟩ := sweep net N (fun m t =>
      (∀ n, n < N → t.proc n = if act n then (if n < m then .wait (to n) (Z n) else .recv (frm n) (K n)) else Z n) ∧
      (∀ a b, t.queue (a, b) = if a < N ∧ act a = true ∧ b = to a ∧ ¬ b < m then [msg a] else []) ∧ t.log = s.log) (by
    rintro m hm t ⟨h1, h2, h3⟩
    by_cases ha : act m = true
    · right
      have hp := h1 m hm
      rw [if_pos ha, if_neg (Nat.lt_irrefl _)] at hp
      obtain ⟨f1, f2, f3⟩ := hfrm m hm ha
      have hq : t.queue (frm m, m) = [msg (frm m)] := by rw [h2, if_pos ⟨f1, f2, f3.symm, Nat.lt_irrefl _⟩]
      refine ⟨{ t with proc := Function.update t.proc m (K m (msg (frm m))), queue := Function.update t.queue (frm m, m) [] },
        ⟨hm, by rw [hp]; exact ⟨msg (frm m), [], hq, rfl⟩⟩, ?_, ?_, h3⟩
      · intro n hn
        by_cases hnm : n = m
        · subst hnm; simp [ha, hK n hn ha]
        · simp only [Function.update_of_ne hnm, h1 n hn]
          by_cases hlt : n < m
          · rw [if_pos hlt, if_pos (show n < m + 1 by omega)]
          · rw [if_neg hlt, if_neg (show ¬ n < m + 1 by omega)]
      · intro a b
        by_cases hab : (a, b) = (frm m, m)
        · obtain ⟨rfl, rfl⟩ : a = frm m ∧ b = m := by simpa using hab
          simp
        · simp only [Function.update_of_ne hab, h2]
          by_cases hc : a < N ∧ act a = true ∧ b = to a ∧ ¬ b < m
          · have hbm : b ≠ m := by
              rintro rfl
              apply hab
              rw [hc.2.2.1, (hto a hc.1 hc.2.1).2.2]
            rw [if_pos hc, if_pos ⟨hc.1, hc.2.1, hc.2.2.1, by omega⟩]
          · rw [if_neg hc, if_neg]
            rintro ⟨c1, c2, c3, c4⟩
            exact hc ⟨c1, c2, c3, by omega⟩
    · left
      refine ⟨fun n hn => ?_, fun a b => ?_, h3⟩
      · rw [h1 n hn]
        by_cases hnm : n = m
        · subst hnm; simp [ha]
        · by_cases hlt : n < m
          · rw [if_pos hlt, if_pos (show n < m + 1 by omega)]
          · rw [if_neg hlt, if_neg (show ¬ n < m + 1 by omega)]
      · rw [h2]
        by_cases hc : a < N ∧ act a = true ∧ b = to a ∧ ¬ b < m
        · have hbm : b ≠ m := by
            rintro rfl
            apply ha
            rw [hc.2.2.1]; exact (hto a hc.1 hc.2.1).2.1
          rw [if_pos hc, if_pos ⟨hc.1, hc.2.1, hc.2.2.1, by omega⟩]
        · rw [if_neg hc, if_neg]
          rintro ⟨c1, c2, c3, c4⟩
          exact hc ⟨c1, c2, c3, by omega⟩) s1
    ⟨fun n hn => by rw [a1 n hn]; simp [hn], fun a b => by rw [a2]; simp, a3⟩ N (Nat.le_refl _)
  have hempty : ∀ a b, s2.queue (a, b) = [] := by
    intro a b
    rw [b2, if_neg]
    rintro ⟨c1, c2, rfl, c4⟩
    exact c4 (hto a c1 c2).1
  -- everyone finds its message received
  obtain ⟨k3, s3, r3, d1, d2, d3⟩ := sweep net N (fun m t =>
      (∀ n, n < N → t.proc n = if act n then (if n < m then Z n else .wait (to n) (Z n)) else Z n) ∧
      (∀ a b, t.queue (a, b) = []) ∧ t.log = s.log) (by
    rintro m hm t ⟨h1, h2, h3⟩
    by_cases ha : act m = true
    · right
      have hp := h1 m hm
      rw [if_pos ha, if_neg (Nat.lt_irrefl _)] at hp
      refine ⟨eff m (Z m) .tau t, ⟨hm, by rw [hp]; exact ⟨by rw [h2]; exact net.sent_zero, rfl⟩⟩, ?_, h2, h3⟩
      intro n hn
      by_cases hnm : n = m
      · subst hnm; simp [eff]
      · simp only [eff, Function.update_of_ne hnm, h1 n hn]
        by_cases hlt : n < m
        · rw [if_pos hlt, if_pos (show n < m + 1 by omega)]
        · rw [if_neg hlt, if_neg (show ¬ n < m + 1 by omega)]
    · left
      refine ⟨fun n hn => ?_, h2, h3⟩
      rw [h1 n hn]
      by_cases hnm : n = m
      · subst hnm; simp [ha]
      · by_cases hlt : n < m
        · rw [if_pos hlt, if_pos (show n < m + 1 by omega)]
        · rw [if_neg hlt, if_neg (show ¬ n < m + 1 by omega)]) s2
    ⟨fun n hn => by rw [b1 n hn]; simp [hn], hempty, b3⟩ N (Nat.le_refl _)
  exact ⟨_, s3, (r1.trans r2).trans r3, fun n hn => by rw [d1 n hn]; simp [hn], fun q => d2 q.1 q.2, fun n hn => by rw [d3]; exact h.log n hn⟩

end Verif.Network
