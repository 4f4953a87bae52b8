import Verif.HadronCur
/-
C98: meson and current correlation functions.
-/
namespace Verif.Hadron
open Verif Outcome Verif.Layout Verif.ParLayout Verif.ParMap Verif.Spmd Verif.Shift Verif.Subset Verif.Network
open Verif.Gauge (Mat GaugeField shiftF up siteSum transform UnitaryOn Setup all_legal siteSum_congr source_up shift_legal)
open Verif.Dslash (gam gam5 down wilson)
open Finset
open scoped Kronecker

/-! ## The programs on any machine -/

section
variable {n : Nat} (tot : List (V n) → V n) (htot : ∀ l, tot l = l.sum) (net : Net) (g : Geom) (hs : Setup g) (F : Nat → Local (V n))
  (f : Nat → List Nat → V n) (hF : HoldsAll g F f) {jd : Nat} (hjd : jd < g.L.length) {t0 : Int}
  (h0 : -(2 ^ 31 - 2 * (g.L.getD jd 0 : Int)) < t0) (h1 : t0 ≤ g.L.getD jd 0)
include htot hs hF hjd h0 h1

/-- C98. `mesons` returns, for each of the sixteen bilinears, a list whose entry `s` is the sum of the correlation function over the time
slice that is `s` after the source, periodically.  The propagators are not changed. -/
theorem C98_mesons {q1 q2 b : Nat} (hq1 : q1 < b) (hq2 : q2 < b) :
    ∃ f', (∀ y, y < b → f' y = f y) ∧ AlwaysEndsIn net g (start tot g (mesons g.L q1 q2 b jd t0 .ret) F)
      (ok ((List.finRange 16).map fun m : Fin 16 => (List.range (g.L.getD jd 0)).map fun s =>
        timeSum g.L jd (after (g.L.getD jd 0) t0 s) fun x => mesonAt (pr (f q1) x) (pr (f q2) x) m)) f' := by
  obtain ⟨f', hf', hl⟩ := mesons_run hq1 hq2 hjd hs.ext h0 h1 f
  have := ends hs tot htot net (mesons g.L q1 q2 b jd t0 .ret) F f hF (hl.legal trivial)
    (mesonLoop_shifts (k := Prog.ret) (fun _ => True.intro) _ _)
  rw [hl.run] at this
  exact ⟨f', hf', this⟩

/-- C98. `FormFac` writes, for every direction and every momentum with `p^2 <= 4`, the local and half the conserved current, summed with
the phase over the time slices, entry `s` being the slice that is `s` after the source.  What the arrays contain before does not matter. -/
theorem C98_currents (h4 : g.L.length ≤ 4) {q s b : Nat} (hb : g.L.length ≤ b) (hq : q < b) (hs' : s < b) (any1 any2 : List ℂ)
    (hl1 : any1.length = g.L.getD jd 0) (hl2 : any2.length = g.L.getD jd 0) :
    ∃ f' st, (∀ y, y < b → f' y = f y) ∧
      st.out = (List.range g.L.length).flatMap (curRecs g.L (lk f) (fun x => onSpin gam5 * pr (f s) x * onSpin gam5) (pr (f q)) jd t0) ∧
      AlwaysEndsIn net g (start tot g (formFac g.L q s b jd t0 any1 any2 .ret) F) (ok st) f' := by
  obtain ⟨f', st, hf', ho, hl⟩ := formFac_run hjd hs.ext h4 h0 h1 hb hq hs' any1 any2 hl1 hl2 .ret f
  have := ends hs tot htot net (formFac g.L q s b jd t0 any1 any2 .ret) F f hF (hl.legal trivial)
    (coordLoop_shifts (by exact curLoop_shifts (k := Prog.ret) (fun _ => True.intro) _ _ fun m hm => List.mem_range.1 hm) _)
  rw [hl.run] at this
  exact ⟨f', st, hf', ho, this⟩

end

/-- the hypotheses hold for instance on sixteen nodes, with a source in the middle of the lattice -/
example : Setup (geomCB2 [16, 16, 16, 32] (lexMachine [2, 2, 2, 2]) [8, 8, 8, 16]) ∧ (3 : Nat) < [16, 16, 16, 32].length ∧
    -(2 ^ 31 - 2 * (([16, 16, 16, 32] : List Nat).getD 3 0 : Int)) < 12 ∧ (12 : Int) ≤ ([16, 16, 16, 32] : List Nat).getD 3 0 :=
  ⟨Gauge.setup_cb2 [16, 16, 16, 32] [8, 8, 16] 8 (lexMachine [2, 2, 2, 2]) (lexMachine_good _) (by simp [Cut, lexMachine]) rfl (by decide)
    (by simp [lexMachine]) (by decide) (by decide) (by decide), by decide, by decide, by decide⟩

/-- every slice is counted once: the entries of a list add up to the sum over the lattice -/
theorem C98_all_slices {M : Type} [AddCommMonoid M] {L : List Nat} {jd : Nat} (hjd : jd < L.length) (hpos : 0 < L.getD jd 0) (t0 : Int) (w : List Nat → M) :
    ((List.range (L.getD jd 0)).map fun s => timeSum L jd (after (L.getD jd 0) t0 s) w).sum = siteSum L w := by
  show ∑ s ∈ range (L.getD jd 0), timeSum L jd (after (L.getD jd 0) t0 s) w = _
  unfold timeSum siteSum
  rw [sum_comm]
  refine sum_congr rfl fun r hr => ?_
  have hx := getD_lt (digits_inRange (mem_range.1 hr)) hjd
  rw [sum_eq_single (slot (L.getD jd 0) t0 ((digits r L).getD jd 0))]
  · show (if _ = after _ _ _ then _ else _) = _
    rw [after_slot hx, if_pos rfl]
  · intro s hs hne
    show (if _ = after _ _ _ then _ else _) = _
    rw [if_neg]
    intro h
    exact hne (by rw [h, slot_after (mem_range.1 hs)])
  · intro h
    exact absurd (mem_range.2 (slot_lt hpos)) h

/-- C98. A source beyond the end of the lattice makes the index negative. -/
theorem C98_source_outside {K : Type} {len : Nat} (hlen : 2 ≤ len) {t0 : Int} (h : len < t0) (w : Nat → Int → K → Outcome K) (hw : ∀ t e x, ∃ y, w t e x = ok y)
    (a : List K) : slots len t0 w (List.range len) a = ub := by
  have hneg : ∀ t : Nat, tEff len t0 t = ub ∨ tEff len t0 t = ok (((t : Int) - t0 + len).tmod len) := by
    intro t
    unfold tEff
    simp only [if_neg (by omega : ¬ len = 0)]
    have hck : ∀ x, ckI x = ub ∨ ckI x = ok x := fun x => by unfold ckI; split_ifs <;> simp
    rcases hck ((t : Int) - t0) with h | h <;> rw [h]
    · left; rfl
    · show (ckI ((t : Int) - t0 + len) >>= fun e => ok (e.tmod len)) = ub ∨ (ckI ((t : Int) - t0 + len) >>= fun e => ok (e.tmod len)) = _
      rcases hck ((t : Int) - t0 + len) with h | h <;> rw [h]
      · left; rfl
      · right; rfl
  have hstep : ∀ (t : Nat) (ts : List Nat) (a : List K), ((t : Int) - t0 + len).tmod len < 0 → slots len t0 w (t :: ts) a = ub := by
    intro t ts a ht
    unfold slots
    rcases hneg t with h | h <;> rw [h]
    · rfl
    · show (if _ < 0 then ub else _) = _
      rw [if_pos ht]
  obtain ⟨m, rfl⟩ : ∃ m, len = m + 2 := ⟨len - 2, by omega⟩
  rw [show List.range (m + 2) = 0 :: 1 :: (List.range m).map (· + 2) by
    rw [List.range_succ_eq_map, List.range_succ_eq_map]; simp [List.map_map, Function.comp_def]]
  have hz : ∀ z : Int, z < 0 → z.tmod ((m + 2 : Nat) : Int) ≠ 0 → z.tmod ((m + 2 : Nat) : Int) < 0 := by
    intro z hz hne
    have h1 : z.tmod ((m + 2 : Nat) : Int) = -((-z).tmod ((m + 2 : Nat) : Int)) := by rw [Int.neg_tmod, neg_neg]
    have h2 : 0 ≤ (-z).tmod ((m + 2 : Nat) : Int) := Int.tmod_nonneg _ (by omega)
    omega
  by_cases hd : (((0 : Nat) : Int) - t0 + ((m + 2 : Nat) : Int)).tmod ((m + 2 : Nat) : Int) = 0
  · have h1 : (((1 : Nat) : Int) - t0 + ((m + 2 : Nat) : Int)).tmod ((m + 2 : Nat) : Int) < 0 := by
      refine hz _ ?_ ?_
      · have : ((m + 2 : Nat) : Int) ∣ (((0 : Nat) : Int) - t0 + ((m + 2 : Nat) : Int)) := Int.dvd_of_tmod_eq_zero hd
        have h2 : ((m + 2 : Nat) : Int) ≤ -(((0 : Nat) : Int) - t0 + ((m + 2 : Nat) : Int)) := Int.le_of_dvd (by omega) (by rwa [dvd_neg])
        omega
      · intro h
        have h2 := Int.dvd_of_tmod_eq_zero h
        have h3 := Int.dvd_of_tmod_eq_zero hd
        have h4 : ((m + 2 : Nat) : Int) ∣ 1 := by
          have := dvd_sub h2 h3
          rwa [show (((1 : Nat) : Int) - t0 + ((m + 2 : Nat) : Int)) - (((0 : Nat) : Int) - t0 + ((m + 2 : Nat) : Int)) = 1 by push_cast; ring] at this
        have := Int.le_of_dvd one_pos h4
        omega
    unfold slots
    rcases hneg 0 with h | h <;> rw [h]
    · rfl
    · show (if _ < 0 then ub else _) = _
      rw [hd, if_neg (by omega)]
      show (rd a 0 >>= fun old => w 0 0 old >>= fun new => slots _ t0 w _ (a.set 0 new)) = _
      cases hr : rd a 0 with
      | ok v =>
        show (w 0 0 v >>= fun new => slots _ t0 w _ (a.set 0 new)) = _
        obtain ⟨y, hy⟩ := hw 0 0 v
        rw [hy]
        exact hstep 1 _ _ h1
      | ub => rfl
      | abort => unfold rd at hr; split at hr <;> simp at hr
  · exact hstep 0 _ _ (hz _ (by omega) hd)

example : slots 4 9 (fun _ _ (x : Int) => ok (x + 1)) (List.range 4) [0, 0, 0, 0] = ub := C98_source_outside (by omega) (by omega) _ (fun _ _ x => ⟨x + 1, rfl⟩) _

/-! ## Mesons -/

theorem trace_cycle3 {n : Nat} (H X : PM n) (h : H * H.conjTranspose = 1) : (H.conjTranspose * X * H).trace = X.trace := by
  rw [Matrix.trace_mul_comm, ← Matrix.mul_assoc, h, Matrix.one_mul]

theorem spin_unitary {n : Nat} {A : Matrix (Fin 4) (Fin 4) ℂ} (h : A.conjTranspose * A = 1) : (onSpin A : PM n).conjTranspose * onSpin A = 1 := by
  rw [onSpin_adj, ← onSpin_mul, h, onSpin_one]

theorem colour_unitary {n : Nat} {U : Mat n} (h : star U * U = 1) : (onColour U).conjTranspose * onColour U = 1 := by
  rw [onColour_adj, ← onColour_mul, h, onColour_one]

theorem colour_unitary' {n : Nat} {U : Mat n} (h : star U * U = 1) : onColour U * (onColour U).conjTranspose = 1 := by
  rw [onColour_adj, ← onColour_mul, mul_eq_one_comm.1 h, onColour_one]

/-- the antiquark of a transformed propagator -/
theorem anti_gauge {n : Nat} (G h : Mat n) (S : PM n) :
    onSpin gam5 * (onColour G * S * onColour h) * onSpin gam5 = onColour G * (onSpin gam5 * S * onSpin gam5) * onColour h := by
  rw [Matrix.mul_assoc, Matrix.mul_assoc, ← spin_colour]
  simp only [← Matrix.mul_assoc]
  rw [spin_colour]

/-- C98. Mesons do not change under gauge transformations: `G` at the sink, `h` at the source. -/
theorem C98_meson_gauge {n : Nat} {G h : Mat n} (hG : star G * G = 1) (hh : star h * h = 1) (S1 S2 : PM n) (m : Nat) :
    mesonAt (onColour G * S1 * onColour h) (onColour G * S2 * onColour h) m = mesonAt S1 S2 m := by
  unfold mesonAt
  rw [anti_gauge]
  generalize onSpin gam5 * S2 * onSpin gam5 = X
  have hc : ∀ U : Mat n, onSpin (Gam m) * onColour U = onColour U * onSpin (Gam m) := spin_colour (Gam m)
  generalize (onSpin (Gam m) : PM n) = Y at hc ⊢
  have hGG := colour_unitary hG
  have e : (onColour G * X * onColour h).conjTranspose * Y * (onColour G * S1 * onColour h) * Y =
      (onColour h).conjTranspose * (X.conjTranspose * Y * S1 * Y) * onColour h := by
    calc _ = (onColour h).conjTranspose * X.conjTranspose * ((onColour G).conjTranspose * (Y * onColour G)) * S1 * (onColour h * Y) := by
          simp only [Matrix.conjTranspose_mul, Matrix.mul_assoc]
      _ = (onColour h).conjTranspose * X.conjTranspose * (((onColour G).conjTranspose * onColour G) * Y) * S1 * (Y * onColour h) := by
          rw [hc, hc, Matrix.mul_assoc ((onColour G).conjTranspose)]
      _ = _ := by
          rw [hGG]; simp only [Matrix.mul_assoc, Matrix.one_mul]
  rw [e, trace_cycle3 _ _ (colour_unitary' hh)]

/-- the square of the norm of a matrix -/
noncomputable def frob {n : Nat} (A : PM n) : ℝ := ∑ i, ∑ j, Complex.normSq (A i j)

theorem frob_trace {n : Nat} (A : PM n) : ((A.conjTranspose * A).trace) = (frob A : ℂ) := by
  unfold frob
  simp only [Matrix.trace, Matrix.diag, Matrix.mul_apply, Matrix.conjTranspose_apply]
  rw [sum_comm]
  push_cast
  refine sum_congr rfl fun i _ => sum_congr rfl fun j _ => ?_
  rw [Complex.normSq_eq_conj_mul_self]; rfl

theorem frob_unitary {n : Nat} {U W : PM n} (A : PM n) (hU : U.conjTranspose * U = 1) (hW : W.conjTranspose * W = 1) : frob (U * A * W) = frob A := by
  have h : ((frob (U * A * W) : ℝ) : ℂ) = (frob A : ℝ) := by
    rw [← frob_trace, ← frob_trace, Matrix.conjTranspose_mul, Matrix.mul_assoc, ← Matrix.mul_assoc _ (U * A) W, ← Matrix.mul_assoc W.conjTranspose,
      trace_cycle3 _ _ (mul_eq_one_comm.1 hW), Matrix.conjTranspose_mul, Matrix.mul_assoc, ← Matrix.mul_assoc U.conjTranspose, hU, Matrix.one_mul]
  exact_mod_cast h

theorem trace_le {n : Nat} (A B : PM n) : |((A.conjTranspose * B).trace).re| ≤ (frob A + frob B) / 2 := by
  have e : ((A.conjTranspose * B).trace).re = ∑ i, ∑ j, ((A i j).re * (B i j).re + (A i j).im * (B i j).im) := by
    simp only [Matrix.trace, Matrix.diag, Matrix.mul_apply, Matrix.conjTranspose_apply]
    rw [sum_comm]
    simp only [Complex.re_sum, Complex.mul_re, Complex.star_def, Complex.conj_re, Complex.conj_im, neg_mul, sub_neg_eq_add]
  have e2 : (frob A + frob B) / 2 = ∑ i, ∑ j, (Complex.normSq (A i j) + Complex.normSq (B i j)) / 2 := by
    unfold frob
    simp only [← sum_div, ← sum_add_distrib]
  rw [e, e2]
  refine (abs_sum_le_sum_abs _ _).trans (sum_le_sum fun i _ => (abs_sum_le_sum_abs _ _).trans (sum_le_sum fun j _ => ?_))
  simp only [Complex.normSq_apply]
  rw [abs_le]
  constructor <;> nlinarith [sq_nonneg ((A i j).re - (B i j).re), sq_nonneg ((A i j).im - (B i j).im), sq_nonneg ((A i j).re + (B i j).re), sq_nonneg ((A i j).im + (B i j).im)]

theorem gam5_unitary : gam5.conjTranspose * gam5 = 1 := by rw [gam5_herm, gam5_sq]

/-- C98. The pion: the sum of the squares of all entries of the propagator. -/
theorem C98_pion {n : Nat} (S : PM n) : mesonAt S S 15 = ∑ i, ∑ j, Complex.normSq (S i j) := by
  unfold mesonAt
  rw [Gam_15, Matrix.mul_assoc, Matrix.mul_assoc, ← Matrix.mul_assoc (onSpin gam5) S, frob_trace, Complex.ofReal_re]
  exact frob_unitary S (spin_unitary gam5_unitary) (spin_unitary gam5_unitary)

/-- C98. No correlation function of a quark and its antiquark is larger than that of the pion, configuration by configuration. -/
theorem C98_pion_largest {n : Nat} (S : PM n) (m : Nat) : |mesonAt S S m| ≤ mesonAt S S 15 := by
  rw [C98_pion]
  unfold mesonAt
  rw [Matrix.mul_assoc, Matrix.mul_assoc, ← Matrix.mul_assoc (onSpin (Gam m)) S]
  refine (trace_le _ _).trans (le_of_eq ?_)
  rw [frob_unitary S (spin_unitary gam5_unitary) (spin_unitary gam5_unitary), frob_unitary S (spin_unitary (Gam_unitary m)) (spin_unitary (Gam_unitary m))]
  unfold frob; ring

theorem timeSum_le {L : List Nat} {jd t : Nat} {w w' : List Nat → ℝ} (h : ∀ x, |w x| ≤ w' x) : |timeSum L jd t w| ≤ timeSum L jd t w' := by
  unfold timeSum siteSum
  refine (abs_sum_le_sum_abs _ _).trans (sum_le_sum fun r _ => ?_)
  dsimp only
  split_ifs
  · exact h _
  · simp

/-- C98. So for the sums over a time slice: those of the pion are not negative, and bound all others. -/
theorem C98_pion_slices {n : Nat} (L : List Nat) (jd t : Nat) (S : List Nat → PM n) (m : Nat) :
    |timeSum L jd t fun x => mesonAt (S x) (S x) m| ≤ timeSum L jd t fun x => mesonAt (S x) (S x) 15 :=
  timeSum_le fun x => C98_pion_largest (S x) m

/-! ## Momenta -/

/-- C98. The momenta written are all those with `p^2 <= 4`, each once. -/
theorem C98_momenta (nd : Nat) : (∀ p : List Int, p ∈ momenta nd ↔ p.length = nd - 1 ∧ (p.map fun x => x ^ 2).sum ≤ 4) ∧ (momenta nd).Nodup :=
  ⟨fun _ => mem_momenta, nodup_momenta nd⟩

/-- C98. Those of the comment, `[2,1,0]`, are not among them. -/
theorem C98_comment : [2, 1, 0] ∉ momenta 4 := by rw [mem_momenta]; decide

example : [-1, 0, 1] ∈ momenta 4 ∧ [0, 0, 2] ∈ momenta 4 := by simp only [mem_momenta]; decide

/-! ## Currents -/

/-- C98. The currents do not change under gauge transformations. -/
theorem C98_current_gauge {n : Nat} {L : List Nat} {G : List Nat → Mat n} (hG : UnitaryOn L G) {H : PM n} (hH : H * H.conjTranspose = 1) (u : GaugeField n)
    (A Q : List Nat → PM n) (mu : Fin 4) {x : List Nat} (hx : InRange x L) :
    conservedJ L (transform L G u) (fun y => onColour (G y) * A y * H) (fun y => onColour (G y) * Q y * H) mu x = conservedJ L u A Q mu x ∧
    localJ (fun y => onColour (G y) * A y * H) (fun y => onColour (G y) * Q y * H) mu x = localJ A Q mu x := by
  have key : ∀ (g1 g2 U : Mat n) (P : Matrix (Fin 4) (Fin 4) ℂ) (X Y : PM n), star g1 * g1 = 1 → star g2 * g2 = 1 →
      ((onColour g1 * X * H).conjTranspose * onColour (g1 * U * star g2) * onSpin P * (onColour g2 * Y * H)).trace =
        (X.conjTranspose * onColour U * onSpin P * Y).trace := by
    intro g1 g2 U P X Y h1 h2
    have e : (onColour g1 * X * H).conjTranspose * onColour (g1 * U * star g2) * onSpin P * (onColour g2 * Y * H) =
        H.conjTranspose * (X.conjTranspose * onColour U * onSpin P * Y) * H := by
      rw [Matrix.conjTranspose_mul, Matrix.conjTranspose_mul, onColour_adj, onColour_mul, onColour_mul]
      have a1 : onColour (star g1) * (onColour g1 * onColour U * onColour (star g2)) = onColour U * onColour (star g2) := by
        rw [← onColour_mul, ← onColour_mul, ← onColour_mul, ← Matrix.mul_assoc, ← Matrix.mul_assoc, h1, Matrix.one_mul, onColour_mul]
      have a2 : onColour (star g2) * onSpin P * (onColour g2 * Y * H) = onSpin P * Y * H := by
        rw [← spin_colour, Matrix.mul_assoc, ← Matrix.mul_assoc (onColour (star g2)), ← Matrix.mul_assoc (onColour (star g2)), ← onColour_mul, h2, onColour_one,
          Matrix.one_mul, Matrix.mul_assoc]
      calc H.conjTranspose * (X.conjTranspose * onColour (star g1)) * (onColour g1 * onColour U * onColour (star g2)) * onSpin P * (onColour g2 * Y * H)
          = H.conjTranspose * X.conjTranspose * (onColour (star g1) * (onColour g1 * onColour U * onColour (star g2))) * onSpin P * (onColour g2 * Y * H) := by
            simp only [Matrix.mul_assoc]
        _ = H.conjTranspose * X.conjTranspose * onColour U * (onColour (star g2) * onSpin P * (onColour g2 * Y * H)) := by
            rw [a1]; simp only [Matrix.mul_assoc]
        _ = _ := by rw [a2]; simp only [Matrix.mul_assoc]
    rw [e, trace_cycle3 _ _ hH]
  constructor
  · unfold conservedJ transform
    have hs : star (G x * u mu x * star (G (up L mu x))) = G (up L mu x) * star (u mu x) * star (G x) := by
      rw [star_mul, star_mul, star_star, mul_assoc]
    rw [hs, key _ _ _ _ _ _ (hG _ (nbr_inRange hx)) (hG _ hx), key _ _ _ _ _ _ (hG _ hx) (hG _ (nbr_inRange hx))]
  · unfold localJ
    have := key (G x) (G x) 1 (gam mu) (A x) (Q x) (hG _ hx) (hG _ hx)
    rw [Matrix.mul_one, hG.right hx, onColour_one, Matrix.mul_one, Matrix.mul_one] at this
    exact this

/-- the Wilson operator applied to every column of a propagator -/
noncomputable def hop {n : Nat} (L : List Nat) (u : GaugeField n) (s : ℂ) (S : List Nat → PM n) (x : List Nat) : PM n :=
  fun i j => wilson L u s (fun y a k => S y (a, k) j) x i.1 i.2

theorem hop_eq {n : Nat} (L : List Nat) (u : GaugeField n) (s : ℂ) (S : List Nat → PM n) (x : List Nat) :
    hop L u s S x = ∑ mu : Fin 4, if mu < L.length then
      onSpin (1 - s • gam mu) * onColour (u mu x) * S (up L mu x) + onSpin (1 + s • gam mu) * onColour (star (u mu (down L mu x))) * S (down L mu x) else 0 := by
  have key : ∀ (P : Matrix (Fin 4) (Fin 4) ℂ) (U : Mat n) (X : PM n) (i j : Fin 4 × Fin n),
      ((P * (Matrix.of fun a k => X (a, k) j) : Matrix (Fin 4) (Fin n) ℂ) * U.transpose) i.1 i.2 = (onSpin P * onColour U * X : PM n) i j := by
    rintro P U X ⟨a, i⟩ j
    have e : (onSpin P * onColour U : PM n) = P ⊗ₖ U := by
      unfold onSpin onColour
      rw [← Matrix.mul_kronecker_mul, Matrix.mul_one, Matrix.one_mul]
    rw [e]
    simp only [Matrix.mul_apply, Matrix.kroneckerMap_apply, Matrix.transpose_apply, Matrix.of_apply, Fintype.sum_prod_type, sum_mul]
    rw [sum_comm]
    exact sum_congr rfl fun b _ => sum_congr rfl fun k _ => by ring
  ext i j
  unfold hop wilson
  rw [Matrix.sum_apply, Matrix.sum_apply]
  refine sum_congr rfl fun mu _ => ?_
  split_ifs
  · rw [Matrix.add_apply, Matrix.add_apply, ← key, ← key]; rfl
  · rfl

/-- `gamma_5` on both sides turns it into the operator of the other sign -/
theorem hop_anti {n : Nat} (L : List Nat) (u : GaugeField n) (s : ℂ) (S : List Nat → PM n) (x : List Nat) :
    hop L u s (fun y => onSpin gam5 * S y * onSpin gam5) x = onSpin gam5 * hop L u (-s) S x * onSpin gam5 := by
  rw [hop_eq, hop_eq, Matrix.mul_sum, Matrix.sum_mul]
  refine sum_congr rfl fun mu _ => ?_
  split_ifs
  · have h1 : (1 - s • gam mu) * gam5 = gam5 * (1 - -s • gam mu) := by
      rw [Matrix.sub_mul, Matrix.mul_sub, Matrix.smul_mul, Matrix.mul_smul, Dslash.gam5_gam, Matrix.one_mul, Matrix.mul_one, neg_smul, smul_neg]
    have h2 : (1 + s • gam mu) * gam5 = gam5 * (1 + -s • gam mu) := by
      rw [Matrix.add_mul, Matrix.mul_add, Matrix.smul_mul, Matrix.mul_smul, Dslash.gam5_gam, Matrix.one_mul, Matrix.mul_one, neg_smul, smul_neg]
    have key : ∀ (P P' : Matrix (Fin 4) (Fin 4) ℂ) (U : Mat n) (X : PM n), P * gam5 = gam5 * P' →
        onSpin P * onColour U * (onSpin gam5 * X * onSpin gam5) = onSpin gam5 * (onSpin P' * onColour U * X) * onSpin gam5 := by
      intro P P' U X h
      have e : onSpin P * onColour U * onSpin gam5 = onSpin gam5 * (onSpin P' * onColour U) := by
        rw [Matrix.mul_assoc, ← spin_colour, ← Matrix.mul_assoc, ← onSpin_mul, h, onSpin_mul, Matrix.mul_assoc]
      rw [← Matrix.mul_assoc, ← Matrix.mul_assoc, e]
      simp only [Matrix.mul_assoc]
    rw [key _ _ _ _ h1, key _ _ _ _ h2, Matrix.mul_add, Matrix.add_mul]
  · rw [Matrix.mul_zero, Matrix.zero_mul]

/-- C98. The divergence of the conserved current. -/
theorem C98_ward {n : Nat} {L : List Nat} (u : GaugeField n) (A Q : List Nat → PM n) {x : List Nat} (hx : InRange x L) :
    (∑ mu : Fin 4, if mu < L.length then conservedJ L u A Q mu x - conservedJ L u A Q mu (down L mu x) else 0) =
      ((hop L u (-1) A x).conjTranspose * Q x).trace - ((A x).conjTranspose * hop L u 1 Q x).trace := by
  rw [hop_eq, hop_eq, Matrix.conjTranspose_sum, Matrix.sum_mul, Matrix.mul_sum, Matrix.trace_sum, Matrix.trace_sum, ← sum_sub_distrib]
  refine sum_congr rfl fun mu _ => ?_
  split_ifs
  swap
  · simp
  have hback : up L mu (down L mu x) = x := nbr_nbr (s := .bwd) hx
  unfold conservedJ
  rw [hback]
  have hP : (1 + gam mu).conjTranspose = 1 + gam mu := by rw [Matrix.conjTranspose_add, Matrix.conjTranspose_one, Dslash.gam_herm]
  have hM : (1 - gam mu).conjTranspose = 1 - gam mu := by rw [Matrix.conjTranspose_sub, Matrix.conjTranspose_one, Dslash.gam_herm]
  simp only [neg_smul, one_smul, sub_neg_eq_add, ← sub_eq_add_neg]
  rw [Matrix.conjTranspose_add, Matrix.add_mul, Matrix.mul_add, Matrix.trace_add, Matrix.trace_add]
  simp only [Matrix.conjTranspose_mul, onSpin_adj, onColour_adj, hP, hM, star_star]
  have c1 : ∀ (P : Matrix (Fin 4) (Fin 4) ℂ) (U : Mat n) (X Y : PM n), X * onColour U * onSpin P * Y = X * (onSpin P * onColour U * Y) := by
    intro P U X Y
    rw [spin_colour]; simp only [Matrix.mul_assoc]
  rw [c1 (1 - gam mu) (u mu x), c1 (1 + gam mu) (star (u mu (down L mu x)))]
  simp only [Matrix.mul_assoc]
  ring

/-- C98. With propagators of the Wilson operator, the current is conserved except at the sources `eta` and `xi`. -/
theorem C98_conserved {n : Nat} {L : List Nat} (u : GaugeField n) {kappa : ℝ} (Q S eta xi : List Nat → PM n) {x : List Nat} (hx : InRange x L)
    (hQ : Q x - (kappa : ℂ) • hop L u 1 Q x = eta x) (hS : S x - (kappa : ℂ) • hop L u 1 S x = xi x) :
    (kappa : ℂ) * (∑ mu : Fin 4, if mu < L.length then
        conservedJ L u (fun y => onSpin gam5 * S y * onSpin gam5) Q mu x - conservedJ L u (fun y => onSpin gam5 * S y * onSpin gam5) Q mu (down L mu x) else 0) =
      ((onSpin gam5 * S x * onSpin gam5).conjTranspose * eta x).trace - ((onSpin gam5 * xi x * onSpin gam5).conjTranspose * Q x).trace := by
  rw [C98_ward u _ Q hx, hop_anti, neg_neg, ← hQ, ← hS]
  simp only [Matrix.mul_sub, Matrix.sub_mul, Matrix.conjTranspose_sub, Matrix.trace_sub, Matrix.mul_smul, Matrix.smul_mul, Matrix.conjTranspose_smul, Matrix.trace_smul,
    smul_eq_mul, Complex.star_def, Complex.conj_ofReal]
  ring

theorem nbr_getD_ne : ∀ {L c : List Nat} {s : Sgn} {mu j : Nat}, mu ≠ j → (nbr L c s mu).getD j 0 = c.getD j 0
  | [], c, _, _, _, _ => by cases c <;> simp [nbr]
  | _ :: _, [], _, _, _, _ => by simp [nbr]
  | _ :: _, _ :: _, _, 0, 0, h => absurd rfl h
  | _ :: _, _ :: _, _, 0, j + 1, _ => by simp [nbr]
  | _ :: _, _ :: _, _, mu + 1, 0, _ => by simp [nbr]
  | _ :: L, _ :: c, s, mu + 1, j + 1, h => by
    have := nbr_getD_ne (L := L) (c := c) (s := s) (mu := mu) (j := j) (by omega)
    simpa [nbr] using this

theorem nbr_getD : ∀ {L c : List Nat} {s : Sgn} {j : Nat}, InRange c L → j < L.length → (nbr L c s j).getD j 0 = step (L.getD j 0) s (c.getD j 0)
  | [], _, _, _, _, h => by simp at h
  | _ :: _, [], _, _, h, _ => h.elim
  | l :: L, x :: c, s, 0, _, _ => by simp [nbr]
  | l :: L, x :: c, s, j + 1, h, hj => by
    have := nbr_getD (L := L) (c := c) (s := s) (j := j) h.2 (by simpa using hj)
    simpa [nbr] using this

/-- a shift in another direction maps a time slice to itself -/
theorem timeSum_down {M : Type} [AddCommMonoid M] {L : List Nat} {jd mu : Nat} (h : mu ≠ jd) (t : Nat) (w : List Nat → M) :
    timeSum L jd t (fun x => w (down L mu x)) = timeSum L jd t w := by
  unfold timeSum
  rw [← Dslash.siteSum_nbr (fun x => if x.getD jd 0 = t then w x else 0) .bwd mu]
  refine siteSum_congr fun x _ => ?_
  dsimp only
  rw [nbr_getD_ne h]

/-- one in the direction of time to the one before -/
theorem timeSum_before {M : Type} [AddCommMonoid M] {L : List Nat} {jd : Nat} (hjd : jd < L.length) {t : Nat} (ht : t < L.getD jd 0) (w : List Nat → M) :
    timeSum L jd t (fun x => w (down L jd x)) = timeSum L jd (step (L.getD jd 0) .bwd t) w := by
  unfold timeSum
  rw [← Dslash.siteSum_nbr (fun x => if x.getD jd 0 = step (L.getD jd 0) .bwd t then w x else 0) .bwd jd]
  refine siteSum_congr fun x hx => ?_
  have hlt := getD_lt hx hjd
  dsimp only
  rw [nbr_getD hx hjd]
  have : x.getD jd 0 = t ↔ step (L.getD jd 0) .bwd (x.getD jd 0) = step (L.getD jd 0) .bwd t := by
    simp only [step]
    split_ifs <;> omega
  by_cases h : x.getD jd 0 = t
  · rw [if_pos h, if_pos (this.1 h)]
  · rw [if_neg h, if_neg fun h' => h (this.2 h')]

/-- C98. The charge in a time slice without sources is that of the slice before. -/
theorem C98_charge {n : Nat} {L : List Nat} (u : GaugeField n) {kappa : ℝ} (hk : kappa ≠ 0) (Q S : List Nat → PM n) (jd : Fin 4) (hjd : jd < L.length)
    {t : Nat} (ht : t < L.getD jd 0)
    (hQ : ∀ x, InRange x L → x.getD jd 0 = t → Q x = (kappa : ℂ) • hop L u 1 Q x) (hS : ∀ x, InRange x L → x.getD jd 0 = t → S x = (kappa : ℂ) • hop L u 1 S x) :
    timeSum L jd t (conservedJ L u (fun y => onSpin gam5 * S y * onSpin gam5) Q jd) =
      timeSum L jd (step (L.getD jd 0) .bwd t) (conservedJ L u (fun y => onSpin gam5 * S y * onSpin gam5) Q jd) := by
  let J := conservedJ L u (fun y => onSpin gam5 * S y * onSpin gam5) Q
  have hadd : ∀ (w : Fin 4 → List Nat → ℂ), timeSum L jd t (fun x => ∑ mu, w mu x) = ∑ mu, timeSum L jd t (w mu) := by
    intro w
    unfold timeSum siteSum
    rw [sum_comm]
    refine sum_congr rfl fun r _ => ?_
    dsimp only
    split_ifs <;> simp
  have hsub : ∀ (w w' : List Nat → ℂ), timeSum L jd t (fun x => w x - w' x) = timeSum L jd t w - timeSum L jd t w' := by
    intro w w'
    unfold timeSum siteSum
    rw [← sum_sub_distrib]
    refine sum_congr rfl fun r _ => ?_
    dsimp only
    split_ifs <;> simp
  have hzero : timeSum L jd t (fun x => ∑ mu : Fin 4, if mu < L.length then J mu x - J mu (down L mu x) else 0) = 0 := by
    unfold timeSum siteSum
    refine sum_eq_zero fun r hr => ?_
    have hx := digits_inRange (mem_range.1 hr)
    dsimp only
    split_ifs with h
    · have h1 := C98_conserved u (kappa := kappa) Q S 0 0 hx (by rw [← hQ _ hx h]; simp) (by rw [← hS _ hx h]; simp)
      simp only [Pi.zero_apply, Matrix.mul_zero, Matrix.zero_mul, Matrix.conjTranspose_zero, Matrix.trace_zero, sub_zero] at h1
      exact (mul_eq_zero.1 h1).resolve_left (by exact_mod_cast hk)
    · rfl
  rw [hadd] at hzero
  have hterm : ∀ mu : Fin 4, timeSum L jd t (fun x => if mu < L.length then J mu x - J mu (down L mu x) else 0) =
      if mu = jd then timeSum L jd t (J jd) - timeSum L jd (step (L.getD jd 0) .bwd t) (J jd) else 0 := by
    intro mu
    by_cases hmu : mu < L.length
    · simp only [if_pos hmu]
      rw [hsub]
      by_cases h : mu = jd
      · subst h
        rw [if_pos rfl, timeSum_before hjd ht]
      · rw [if_neg h, timeSum_down (fun e => h (Fin.ext e)), sub_self]
    · rw [if_neg (fun h => hmu (by rw [h]; exact hjd))]
      simp only [if_neg hmu]
      unfold timeSum siteSum
      simp
  simp only [hterm, sum_ite_eq', mem_univ, if_true] at hzero
  exact sub_eq_zero.1 hzero

theorem phase_zero (L : List Nat) (jd k : Nat) (x : List Nat) : phase L jd (List.replicate k 0) x = 1 := by
  have : dot L jd (List.replicate k 0) x = 0 := by
    unfold dot
    refine sum_eq_zero fun nu _ => ?_
    have : ∀ j, (List.replicate k (0 : Int)).getD j 0 = 0 := fun j => by
      simp only [List.getD, List.getElem?_replicate]; split_ifs <;> rfl
    rw [this]
    simp
  rw [phase, this]; simp

/-- C98. In what `FormFac` writes: the charge at zero momentum is the same at times `s` and `s + 1` if there is no source at `s + 1`. -/
theorem C98_charge_written {n : Nat} {L : List Nat} (u : GaugeField n) {kappa : ℝ} (hk : kappa ≠ 0) (Q S : List Nat → PM n) (jd : Fin 4) (hjd : jd < L.length)
    (t0 : Int) {s : Nat} (hs : s + 1 < L.getD jd 0)
    (hQ : ∀ x, InRange x L → x.getD jd 0 = after (L.getD jd 0) t0 (s + 1) → Q x = (kappa : ℂ) • hop L u 1 Q x)
    (hS : ∀ x, InRange x L → x.getD jd 0 = after (L.getD jd 0) t0 (s + 1) → S x = (kappa : ℂ) • hop L u 1 S x) (JL : List Nat → ℂ) :
    (curRec L jd t0 jd JL (conservedJ L u (fun y => onSpin gam5 * S y * onSpin gam5) Q jd) (List.replicate (L.length - 1) 0)).non[s + 1]? =
    (curRec L jd t0 jd JL (conservedJ L u (fun y => onSpin gam5 * S y * onSpin gam5) Q jd) (List.replicate (L.length - 1) 0)).non[s]? := by
  have h := C98_charge u hk Q S jd hjd (after_lt (t0 := t0) (s := s + 1) (by omega)) hQ hS
  have hb : step (L.getD jd 0) .bwd (after (L.getD jd 0) t0 (s + 1)) = after (L.getD jd 0) t0 s := by
    generalize L.getD jd 0 = len at hs
    have hsucc : after len t0 (s + 1) = step len .fwd (after len t0 s) := by
      unfold after step
      have h1 : (t0 + ((s + 1 : Nat) : Int)) % len = ((t0 + s) % len + 1) % len := by
        rw [Int.emod_add_emod]; congr 1; push_cast; ring
      have h2 := Int.emod_nonneg (t0 + s) (show (len : Int) ≠ 0 by omega)
      have h3 := Int.emod_lt_of_pos (t0 + s) (show (0 : Int) < len by omega)
      rw [h1]
      dsimp only
      split_ifs with hc
      · have : (t0 + s) % len + 1 = len := by omega
        rw [this, Int.emod_self]; rfl
      · rw [Int.emod_eq_of_lt (by omega) (by omega)]
        omega
    rw [hsucc]
    exact step_step (s := .fwd) (after_lt (by omega))
  rw [hb] at h
  unfold curRec
  simp only [List.getElem?_map, List.getElem?_range hs, List.getElem?_range (show s < L.getD jd 0 by omega), Option.map_some, phase_zero, one_mul]
  rw [h]

/-- the list at zero momentum is written -/
example (nd : Nat) : List.replicate (nd - 1) 0 ∈ momenta nd := mem_momenta.2 ⟨by simp, by simp⟩

/-- a field without sources: constant quarks of the critical mass without gauge field -/
example (S : PM 3) (x : List Nat) : (fun _ => S : List Nat → PM 3) x = ((1 / 8 : ℝ) : ℂ) • hop [4, 4, 4, 8] (fun _ _ => 1) 1 (fun _ => S) x := by
  rw [hop_eq]
  simp only [Fin.sum_univ_four, List.length_cons, List.length_nil, one_smul, star_one, onColour_one, Matrix.mul_one, onSpin_add, onSpin_sub, onSpin_one,
    Matrix.sub_mul, Matrix.add_mul, Matrix.one_mul]
  norm_num
  module

end Verif.Hadron
