import Verif.DslashProps
/-
C95: the Wilson operator.
-/
namespace Verif.Dslash
open Verif Outcome Verif.Layout Verif.ParLayout Verif.ParMap Verif.Spmd Verif.Shift Verif.Subset Verif.Network
open Verif.Gauge (GaugeField Mat Setup up all_legal siteSum siteSum_congr transform UnitaryOn)
open Finset

/-! ## What the programs compute -/

section
variable {n : Nat} (tot : List (V n) → V n) (htot : ∀ l, tot l = l.sum) (net : Net) (g : Geom) (hs : Setup g) {chi psi b cb : Nat}
  (hchi : chi < b) (hpsi : psi < b) (hcl : g.L.length ≤ chi) (hcb : cb < 2) (F : Nat → Local (V n)) (f : Nat → List Nat → V n) (hF : HoldsAll g F f)
include htot hs hchi hpsi hcl hcb hF

/-- C95. `dslash` sets `chi` on the sites of one colour to the Wilson operator of `psi` and leaves all else as it was, on every machine and however its
nodes interleave.  `chi` and `psi` may be one field. -/
theorem C95_dslash (isign : Int) : ∃ f', Applied g.L chi psi b cb (if isign > 0 then 1 else -1) f f' ∧
    AlwaysEndsIn net g (start tot g (dslash g.L chi psi b isign cb (Prog.ret ())) F) () f' := by
  obtain ⟨f', ha, r⟩ := dslash_run hs.ext isign (by omega : g.L.length ≤ b) hchi hpsi hcb f
  obtain ⟨hr, hl⟩ := r (Prog.ret ())
  have := ends hs tot htot net (dslash g.L chi psi b isign cb (Prog.ret ())) F f hF (hl trivial) (dslash_shifts isign trivial)
  rw [hr] at this
  exact ⟨f', ha, this⟩

/-- C95. `dslash2` does the same if all extents are even: what `tmp` holds before, and on sites of the colour of the result, does not matter. -/
theorem C95_dslash2_partial (h4 : g.L.length = 4) (he : ∀ l ∈ g.L, l % 2 = 0) {isign : Int} (hi : isign = 1 ∨ isign = -1) :
    ∃ f', Applied g.L chi psi b cb isign f f' ∧ AlwaysEndsIn net g (start tot g (dslash2 g.L chi psi b isign cb (Prog.ret ())) F) () f' := by
  obtain ⟨f', ha, r⟩ := dslash2_run hs.ext he h4 hi hchi hpsi hcl hcb f
  obtain ⟨hr, hl⟩ := r (Prog.ret ())
  have := ends hs tot htot net (dslash2 g.L chi psi b isign cb (Prog.ret ())) F f hF (hl trivial) (dslash2_shifts h4 isign trivial)
  rw [hr] at this
  exact ⟨f', ha, this⟩

omit hchi hpsi hcl hcb in
/-- for other values of `isign` `dslash2` does nothing, where `dslash` takes the sign -/
theorem C95_dslash2_other {isign : Int} (h1 : isign ≠ 1) (h2 : isign ≠ -1) :
    AlwaysEndsIn net g (start tot g (dslash2 g.L chi psi b isign cb (Prog.ret ())) F) () f := by
  have e : dslash2 g.L chi psi b isign cb (Prog.ret ()) = (Prog.ret () : Prog (V n) Unit) := by
    unfold dslash2
    dsimp only
    rw [if_neg h1, if_neg h2]
  have := ends hs tot htot net (dslash2 g.L chi psi b isign cb (Prog.ret ())) F f hF (by rw [e]; trivial) (by rw [e]; trivial)
  rw [e] at this ⊢
  exact this

end

/-! ## Odd extents -/

theorem recon_zero {n : Nat} (d : Fin 8) : Spin.recon d (0 : Half n) = 0 := by
  have h := hop_eq d (0 : Mat n) 0
  have e : mulH (0 : Mat n) (Spin.proj d (0 : Ferm n)) = 0 := by
    funext a; exact Matrix.zero_mulVec _
  have h' : Spin.recon d (mulH (0 : Mat n) (Spin.proj d (0 : Ferm n))) = (0 : Ferm n) := h.trans (by rw [Matrix.mul_zero, Matrix.zero_mul]; rfl)
  rwa [e] at h'

theorem mulH_zero {n : Nat} (U : Mat n) : mulH U (0 : Half n) = 0 := by
  funext a; exact Matrix.mulVec_zero _

theorem mulH_one {n : Nat} (h : Half n) : mulH (1 : Mat n) h = h := by
  funext a; exact Matrix.one_mulVec _

theorem proj_zero {n : Nat} (d : Fin 8) : Spin.proj d (0 : Ferm n) = 0 := by
  funext a i
  fin_cases d <;> fin_cases a <;> simp [Spin.proj, Spin.projT, Spin.Ph.addTo, Spin.timesI_zero] <;> simp [Spin.Cpt.timesI, Spin.Cpt.timesMinusI] <;> rfl

theorem wilson_zero {n : Nat} (L : List Nat) (u : GaugeField n) (s : ℂ) (x : List Nat) : wilson L u s (fun _ => 0) x = 0 := by
  simp [wilson]

/-- the fields of the counterexample: unit links, no source, and a temporary with some contents -/
noncomputable def dirty : Nat → List Nat → V 1 := fun a _ => if a < 4 then (1, 0, 0) else if a = 6 then (0, 0, fun _ _ => 1) else 0

theorem stale_clean {x y : List Nat} {t : Term} (hy : nbr [2, 3, 2, 2] x t.sgn t.mu = y) (hc : y.sum % 2 ≠ 0) :
    t.stale [2, 3, 2, 2] 0 (lk dirty) (sp (dirty 5)) (th (dirty 6)) x = 0 := by
  have hp : ∀ z, sp (dirty 5) z = (0 : Ferm 1) := fun z => by simp only [sp, dirty]; rfl
  rw [Term.stale, hy, if_neg hc, hp, proj_zero, mulH_zero, ite_self, Term.val, mulH_zero, ite_self, recon_zero]

/-- C95 is false of `dslash2` on lattices with an odd extent, such as 2 x 3 x 2 x 2 with the two-colour layout: of no source it makes something, from what the
temporary happened to hold. -/
theorem C95_false : ∃ g : Geom, Setup g ∧ g.L.length = 4 ∧ ∃ x, InRange x g.L ∧ onCB 0 x ∧ wilson g.L (lk dirty) 1 (sp (dirty 5)) x = 0 ∧
    ∀ (tot : List (V 1) → V 1), (∀ l, tot l = l.sum) → ∀ (net : Net) (F : Nat → Local (V 1)), HoldsAll g F dirty →
      ∃ f', sp (f' 4) x 0 0 = 1 ∧ AlwaysEndsIn net g (start tot g (dslash2 g.L 4 5 6 1 0 (Prog.ret ())) F) () f' := by
  have hset : Setup (geomCB2 [2, 3, 2, 2] (lexMachine [1, 1, 1, 1]) [2, 3, 2, 2]) :=
    Gauge.setup_cb2 [2, 3, 2, 2] [3, 2, 2] 2 (lexMachine [1, 1, 1, 1]) (lexMachine_good _) (by simp [Cut, lexMachine]) rfl (by decide)
      (by simp [lexMachine]) (by decide) (by decide) (by decide)
  have hgL : (geomCB2 [2, 3, 2, 2] (lexMachine [1, 1, 1, 1]) [2, 3, 2, 2]).L = [2, 3, 2, 2] := rfl
  refine ⟨_, hset, rfl, [0, 2, 0, 0], by rw [hgL]; decide, rfl, ?_, fun tot htot net F hF => ?_⟩
  · have hp : sp (dirty 5) = fun _ => 0 := by
      funext z; simp only [sp, dirty]; rfl
    rw [hp]
    exact wilson_zero ..
  · obtain ⟨f', v, -, -, r⟩ := dslash2_stale (n := 1) (L := [2, 3, 2, 2]) (by decide) rfl (chi := 4) (psi := 5) (b := 6) (cb := 0) (isign := 1) (Or.inl rfl) (by omega)
      (by omega) (by decide) (by omega) dirty
    obtain ⟨hr, hl⟩ := r (Prog.ret ())
    have := ends hset tot htot net (dslash2 [2, 3, 2, 2] 4 5 6 1 0 (Prog.ret ())) F dirty hF (hl trivial) (dslash2_shifts rfl 1 trivial)
    rw [hgL, hr] at this
    refine ⟨f', ?_, this⟩
    have hx := v [0, 2, 0, 0] (by decide) rfl
    show (f' 4 [0, 2, 0, 0]).f 0 0 = 1
    rw [hx]
    have hmid : Term.stale [2, 3, 2, 2] 0 (lk dirty) (sp (dirty 5)) (th (dirty 6)) ⟨true, 3, 1, 3, 1⟩ [0, 2, 0, 0] = Spin.recon 3 fun _ _ => 1 := by
      show Spin.recon 3 (mulH (lk dirty 1 [0, 2, 0, 0]) (th (dirty 6) [0, 0, 0, 0])) = _
      have : lk dirty 1 [0, 2, 0, 0] = 1 := rfl
      rw [this, mulH_one]
      rfl
    simp only [table2, if_true, dslash2Plus, List.map_cons, List.map_nil, List.sum_cons, List.sum_nil, hmid]
    rw [stale_clean (y := [1, 2, 0, 0]) rfl (by decide), stale_clean (y := [0, 2, 1, 0]) rfl (by decide), stale_clean (y := [0, 2, 0, 1]) rfl (by decide),
      stale_clean (y := [1, 2, 0, 0]) rfl (by decide), stale_clean (y := [0, 1, 0, 0]) rfl (by decide), stale_clean (y := [0, 2, 1, 0]) rfl (by decide),
      stale_clean (y := [0, 2, 0, 1]) rfl (by decide)]
    simp only [zero_add, add_zero]
    rfl

/-! ## The operator -/

/-- only the other colour is read, if the extents are even -/
theorem C95_checkerboard {n : Nat} {L : List Nat} (he : ∀ l ∈ L, l % 2 = 0) (u : GaugeField n) (s : ℂ) {psi psi' : Spinor n} {cb : Nat}
    (h : ∀ y, InRange y L → ¬ onCB cb y → psi y = psi' y) {x : List Nat} (hx : InRange x L) (hc : onCB cb x) : wilson L u s psi x = wilson L u s psi' x := by
  unfold wilson
  refine sum_congr rfl fun mu _ => ?_
  split_ifs with hmu
  · have hn : ∀ t : Sgn, psi (nbr L x t mu) = psi' (nbr L x t mu) := by
      intro t
      refine h _ (nbr_inRange hx) fun h' => ?_
      have := nbr_sum (s := t) hx hmu (he _ (by rw [List.getD, List.getElem?_eq_getElem hmu]; exact List.getElem_mem hmu))
      unfold onCB at *
      omega
    rw [show psi (up L mu x) = _ from hn .fwd, show psi (down L mu x) = _ from hn .bwd]
  · rfl

/-- it is linear -/
theorem C95_linear {n : Nat} (L : List Nat) (u : GaugeField n) (s z : ℂ) (psi phi : Spinor n) (x : List Nat) :
    wilson L u s (fun y => psi y + z • phi y) x = wilson L u s psi x + z • wilson L u s phi x := by
  unfold wilson
  rw [smul_sum, ← sum_add_distrib]
  refine sum_congr rfl fun mu _ => ?_
  split_ifs
  · simp only [Matrix.mul_add, Matrix.add_mul, Matrix.mul_smul, Matrix.smul_mul, smul_add]
    abel
  · simp

/-- it is covariant: with the links transformed it takes the transformed spinors to the transformed result -/
theorem C95_covariant {n : Nat} {L : List Nat} {G : List Nat → Mat n} (hG : UnitaryOn L G) (u : GaugeField n) (s : ℂ) (psi : Spinor n) {x : List Nat}
    (hx : InRange x L) : wilson L (transform L G u) s (fun y => psi y * (G y).transpose) x = wilson L u s psi x * (G x).transpose := by
  unfold wilson
  rw [Matrix.sum_mul]
  refine sum_congr rfl fun mu _ => ?_
  split_ifs
  · have hback : up L mu (down L mu x) = x := nbr_nbr (s := .bwd) hx
    have h1 : ∀ y, InRange y L → (G y).transpose * (star (G y)).transpose = 1 := by
      intro y hy
      rw [← Matrix.transpose_mul, hG y hy, Matrix.transpose_one]
    simp only [transform, hback, star_mul, star_star, Matrix.transpose_mul]
    generalize (1 - s • gam mu) = P
    generalize (1 + s • gam mu) = Q
    have hA : ∀ (A B C D : Mat n) (P : Matrix (Fin 4) (Fin 4) ℂ) (q : Matrix (Fin 4) (Fin n) ℂ), A * B = 1 → P * (q * A) * (B * C * D) = P * q * C * D := by
      intro A B C D P q h
      have : P * (q * A) * (B * C * D) = P * q * (A * B) * C * D := by simp only [Matrix.mul_assoc]
      rw [this, h, Matrix.mul_one]
    rw [Matrix.add_mul, ← Matrix.mul_assoc (star (G (up L mu x))).transpose, hA _ _ _ _ _ _ (h1 _ (nbr_inRange hx)), hA _ _ _ _ _ _ (h1 _ (nbr_inRange hx))]
  · rw [Matrix.zero_mul]

/-- `Gamma(15)` -/
def gam5 : Matrix (Fin 4) (Fin 4) ℂ := Matrix.diagonal ![1, 1, -1, -1]

theorem gam5_gam (mu : Fin 4) : gam mu * gam5 = -(gam5 * gam mu) := by
  ext a b
  fin_cases mu <;> fin_cases a <;> fin_cases b <;> simp [gam, gam5, Matrix.mul_apply, Matrix.diagonal]

/-- `gamma_5` turns it into the operator of the other sign -/
theorem C95_gamma5 {n : Nat} (L : List Nat) (u : GaugeField n) (s : ℂ) (psi : Spinor n) (x : List Nat) :
    wilson L u s (fun y => gam5 * psi y) x = gam5 * wilson L u (-s) psi x := by
  unfold wilson
  rw [Matrix.mul_sum]
  refine sum_congr rfl fun mu _ => ?_
  split_ifs
  · have h1 : (1 - s • gam mu) * gam5 = gam5 * (1 - -s • gam mu) := by
      rw [Matrix.sub_mul, Matrix.mul_sub, Matrix.smul_mul, Matrix.mul_smul, gam5_gam, Matrix.one_mul, Matrix.mul_one, neg_smul, smul_neg]
    have h2 : (1 + s • gam mu) * gam5 = gam5 * (1 + -s • gam mu) := by
      rw [Matrix.add_mul, Matrix.mul_add, Matrix.smul_mul, Matrix.mul_smul, gam5_gam, Matrix.one_mul, Matrix.mul_one, neg_smul, smul_neg]
    rw [Matrix.mul_add, ← Matrix.mul_assoc, ← Matrix.mul_assoc, h1, h2]
    simp only [Matrix.mul_assoc]
  · rw [Matrix.mul_zero]

theorem gam_herm (mu : Fin 4) : (gam mu).conjTranspose = gam mu := by
  ext a b
  fin_cases mu <;> fin_cases a <;> fin_cases b <;> simp [gam, Matrix.conjTranspose]

/-- the sum over the lattice does not change under a shift -/
theorem siteSum_nbr {M : Type} [AddCommMonoid M] {L : List Nat} (w : List Nat → M) (s : Sgn) (mu : Nat) : siteSum L (fun x => w (nbr L x s mu)) = siteSum L w := by
  unfold siteSum
  refine sum_bij' (fun r _ => rank (nbr L (digits r L) s mu) L) (fun r _ => rank (nbr L (digits r L) s.neg mu) L) ?_ ?_ ?_ ?_ ?_
  · intro r hr
    exact mem_range.2 (rank_lt (nbr_inRange (digits_inRange (mem_range.1 hr))))
  · intro r hr
    exact mem_range.2 (rank_lt (nbr_inRange (digits_inRange (mem_range.1 hr))))
  · intro r hr
    have h := digits_inRange (mem_range.1 hr)
    rw [digits_rank (nbr_inRange h), nbr_nbr h, rank_digits (mem_range.1 hr)]
  · intro r hr
    have h := digits_inRange (mem_range.1 hr)
    have e : nbr L (nbr L (digits r L) s.neg mu) s mu = digits r L := by
      have := nbr_nbr (s := s.neg) (dir := mu) h
      cases s <;> exact this
    rw [digits_rank (nbr_inRange h), e, rank_digits (mem_range.1 hr)]
  · intro r hr
    have h := digits_inRange (mem_range.1 hr)
    rw [digits_rank (nbr_inRange h)]

/-- the inner product of two fields of spinors -/
noncomputable def inner {n : Nat} (L : List Nat) (phi psi : Spinor n) : ℂ := siteSum L fun x => ∑ a, ∑ i, star (phi x a i) * psi x a i

theorem inner_trace {n : Nat} (A B : Matrix (Fin 4) (Fin n) ℂ) : ∑ a, ∑ i, star (A a i) * B a i = (A.conjTranspose * B).trace := by
  simp only [Matrix.trace, Matrix.diag, Matrix.mul_apply, Matrix.conjTranspose_apply]
  exact sum_comm

/-- the operators of the two signs are adjoint -/
theorem C95_adjoint {n : Nat} (L : List Nat) (u : GaugeField n) {s : ℂ} (hs : star s = s) (phi psi : Spinor n) :
    inner L phi (wilson L u s psi) = inner L (wilson L u (-s) phi) psi := by
  have hsum : ∀ (F : Fin 4 → List Nat → ℂ), siteSum L (fun x => ∑ mu, F mu x) = ∑ mu, siteSum L (F mu) := by
    intro F
    unfold siteSum
    exact sum_comm
  have hadd : ∀ (F G : List Nat → ℂ), siteSum L (fun x => F x + G x) = siteSum L F + siteSum L G := by
    intro F G
    unfold siteSum
    exact sum_add_distrib
  unfold inner
  simp only [inner_trace, wilson, Matrix.mul_sum, Matrix.conjTranspose_sum, Matrix.sum_mul, Matrix.trace_sum]
  rw [hsum, hsum]
  refine sum_congr rfl fun mu _ => ?_
  by_cases hmu : mu < L.length
  swap
  · simp [hmu]
  have hP : (1 - s • gam mu).conjTranspose = 1 - s • gam mu := by
    rw [Matrix.conjTranspose_sub, Matrix.conjTranspose_smul, Matrix.conjTranspose_one, gam_herm, hs]
  have hQ : (1 + s • gam mu).conjTranspose = 1 + s • gam mu := by
    rw [Matrix.conjTranspose_add, Matrix.conjTranspose_smul, Matrix.conjTranspose_one, gam_herm, hs]
  have eQ : 1 - -s • gam mu = 1 + s • gam mu := by rw [neg_smul, sub_neg_eq_add]
  have eP : 1 + -s • gam mu = 1 - s • gam mu := by rw [neg_smul, ← sub_eq_add_neg]
  simp only [eQ, eP]
  generalize 1 - s • gam mu = P at hP
  generalize 1 + s • gam mu = Q at hQ
  have hconj : ∀ U : Mat n, ((star U).transpose).conjTranspose = U.transpose := by
    intro U; ext i j; simp [Matrix.star_eq_conjTranspose]
  simp only [if_pos hmu, Matrix.mul_add, Matrix.trace_add, Matrix.conjTranspose_add, Matrix.add_mul]
  rw [hadd, hadd, add_comm]
  congr 1
  · rw [← siteSum_nbr (fun x => ((phi x).conjTranspose * (Q * psi (down L mu x) * (star (u mu (down L mu x))).transpose)).trace) .fwd mu]
    refine siteSum_congr fun x hx => ?_
    have hb : down L mu (nbr L x .fwd mu) = x := nbr_nbr (s := .fwd) hx
    rw [hb]
    simp only [Matrix.conjTranspose_mul, hQ]
    rw [← Matrix.mul_assoc, Matrix.trace_mul_comm]
    simp only [Matrix.mul_assoc]
    rfl
  · rw [← siteSum_nbr (fun x => ((phi x).conjTranspose * (P * psi (up L mu x) * (u mu x).transpose)).trace) .bwd mu]
    refine siteSum_congr fun x hx => ?_
    have hb : up L mu (nbr L x .bwd mu) = x := nbr_nbr (s := .bwd) hx
    rw [hb]
    simp only [Matrix.conjTranspose_mul, hP, hconj]
    rw [← Matrix.mul_assoc, Matrix.trace_mul_comm]
    simp only [Matrix.mul_assoc]

/-- of a constant spinor and unit links it makes twice the number of dimensions times the spinor -/
theorem C95_free {n : Nat} {L : List Nat} (h4 : L.length ≤ 4) {u : GaugeField n} (hu : ∀ mu x, mu < L.length → InRange x L → u mu x = 1) (s : ℂ)
    (v : Matrix (Fin 4) (Fin n) ℂ) {x : List Nat} (hx : InRange x L) : wilson L u s (fun _ => v) x = (2 * L.length : ℂ) • v := by
  unfold wilson
  have h : ∀ mu : Fin 4, (if mu < L.length then (1 - s • gam mu) * v * (u mu x).transpose + (1 + s • gam mu) * v * (star (u mu (down L mu x))).transpose else 0) =
      (if mu.val < L.length then (2 : ℂ) • v else 0) := by
    intro mu
    split_ifs with hmu
    · rw [hu mu x hmu hx, hu mu _ hmu (nbr_inRange hx), star_one, Matrix.transpose_one, Matrix.mul_one, Matrix.mul_one, ← Matrix.add_mul,
        show (1 - s • gam mu) + (1 + s • gam mu) = (2 : ℂ) • (1 : Matrix (Fin 4) (Fin 4) ℂ) by rw [two_smul]; abel, Matrix.smul_mul, Matrix.one_mul]
    · rfl
  rw [sum_congr rfl fun mu _ => h mu, Fin.sum_univ_four]
  generalize hl : L.length = l at *
  interval_cases l <;> simp <;> module

/-- the hypotheses are met: the operator on a lattice of 16^3 x 32 on 16 nodes -/
example : Setup (geomCB2 [16, 16, 16, 32] (lexMachine [2, 2, 2, 2]) [8, 8, 8, 16]) ∧ ∀ l ∈ [16, 16, 16, 32], l % 2 = 0 :=
  ⟨Gauge.setup_cb2 [16, 16, 16, 32] [8, 8, 16] 8 (lexMachine [2, 2, 2, 2]) (lexMachine_good _) (by simp [Cut, lexMachine]) rfl (by decide)
    (by simp [lexMachine]) (by decide) (by decide) (by decide), by decide⟩

end Verif.Dslash
