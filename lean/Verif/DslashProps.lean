import Verif.Dslash
/-
C95: running `dslash` and `dslash2`.
-/
namespace Verif.Dslash
open Verif Outcome Verif.Layout Verif.ParLayout Verif.ParMap Verif.Spmd Verif.Shift Verif.Subset Verif.Network
open Verif.Gauge (GaugeField Mat Setup up all_legal)
open Finset

/-! ## Terms -/

instance : Spin.LawfulCpt ℂ where
  timesI_add x y := by apply Complex.ext <;> simp [Spin.Cpt.timesI] <;> ring
  timesI_timesI x := by apply Complex.ext <;> simp [Spin.Cpt.timesI]
  timesMinusI_eq x := by apply Complex.ext <;> simp [Spin.Cpt.timesI, Spin.Cpt.timesMinusI]

theorem timesI_eq (z : ℂ) : Spin.Cpt.timesI z = Complex.I * z := by apply Complex.ext <;> simp [Spin.Cpt.timesI]

/-- Gaussian integers as complex numbers -/
def toC (z : Spin.Gi) : ℂ := ⟨z.re, z.im⟩

theorem act_eq (z : Spin.Gi) (x : ℂ) : Spin.act z x = toC z * x := by
  unfold Spin.act toC
  rw [timesI_eq]
  apply Complex.ext <;> simp [sub_eq_add_neg]

/-- `1 ± gamma` -/
noncomputable def cPM (d : Fin 8) : Matrix (Fin 4) (Fin 4) ℂ := 1 + (if d.val % 2 = 0 then 1 else -1 : ℂ) • gam (Spin.dir d)

theorem toC_basis (mu a b : Fin 4) : toC (Spin.basis mu a b) = gam mu a b := by
  fin_cases mu <;> fin_cases a <;> fin_cases b <;> apply Complex.ext <;> simp [Spin.basis, gam, toC, Spin.I]

theorem toC_onePM (d : Fin 8) (a b : Fin 4) : toC (Spin.onePM d a b) = cPM d a b := by
  have hadd : ∀ z w, toC (z + w) = toC z + toC w := by
    intro z w; apply Complex.ext <;> simp [toC]
  have hneg : ∀ z, toC (-z) = -toC z := by
    intro z; apply Complex.ext <;> simp [toC]
  have h1 : toC ((1 : Matrix (Fin 4) (Fin 4) Spin.Gi) a b) = (1 : Matrix (Fin 4) (Fin 4) ℂ) a b := by
    by_cases h : a = b
    · subst h; rw [Matrix.one_apply_eq, Matrix.one_apply_eq]; apply Complex.ext <;> simp [toC]
    · rw [Matrix.one_apply_ne h, Matrix.one_apply_ne h]; apply Complex.ext <;> simp [toC]
  simp only [Spin.onePM, cPM, Matrix.add_apply, Matrix.smul_apply, hadd, h1, smul_eq_mul, Spin.sgn]
  split
  · rw [one_mul, one_mul, toC_basis]
  · rw [neg_mul, one_mul, neg_mul, one_mul, hneg, toC_basis]

/-- a hop: project, multiply by the link, reconstruct -/
theorem hop_eq {n : Nat} (d : Fin 8) (U : Mat n) (s : Matrix (Fin 4) (Fin n) ℂ) :
    Spin.recon d (mulH U (Spin.proj d s)) = cPM d * s * U.transpose := by
  let L : (Fin n → ℂ) →+ (Fin n → ℂ) := ⟨⟨U.mulVec, Matrix.mulVec_zero U⟩, Matrix.mulVec_add U⟩
  have hu : ∀ x : Fin n → ℂ, L (Spin.Cpt.timesI x) = Spin.Cpt.timesI (L x) := by
    intro x
    funext i
    show (U.mulVec fun j => Spin.Cpt.timesI (x j)) i = Spin.Cpt.timesI (U.mulVec x i)
    simp only [timesI_eq, Matrix.mulVec, dotProduct, mul_sum]
    exact sum_congr rfl fun j _ => by ring
  have h := Spin.C43_link L hu d s
  have e : mulH U (Spin.proj d s) = fun a => L (Spin.proj d s a) := rfl
  rw [e, h]
  funext a i
  show U.mulVec (Spin.mulVec (Spin.onePM d) s a) i = _
  have hm : Spin.mulVec (Spin.onePM d) s a = fun j => (cPM d * s) a j := by
    funext j
    simp only [Spin.mulVec, Finset.sum_apply, Matrix.mul_apply]
    refine sum_congr rfl fun b _ => ?_
    have : Spin.act (Spin.onePM d a b) (s b) j = Spin.act (Spin.onePM d a b) (s b j) := rfl
    rw [this, act_eq, toC_onePM]
  rw [hm]
  simp only [Matrix.mulVec, dotProduct, Matrix.mul_apply, Matrix.transpose_apply]
  exact sum_congr rfl fun j _ => mul_comm _ _

/-- what a term is meant to be at a site -/
noncomputable def Term.at {n : Nat} (L : List Nat) (u : GaugeField n) (psi : Spinor n) (t : Term) (x : List Nat) : Ferm n :=
  t.val (u t.link x) (if t.fwd then Spin.proj t.prj (psi (up L t.mu x)) else
    mulH (star (u t.link (down L t.mu x))) (Spin.proj t.prj (psi (down L t.mu x))))

theorem at_fwd {n : Nat} (L : List Nat) (u : GaugeField n) (psi : Spinor n) (d : Fin 8) (l mu : Nat) (x : List Nat) :
    Term.at L u psi ⟨true, d, l, d, mu⟩ x = cPM d * psi (up L mu x) * (u l x).transpose := hop_eq d _ _

theorem at_bwd {n : Nat} (L : List Nat) (u : GaugeField n) (psi : Spinor n) (d : Fin 8) (l mu : Nat) (x : List Nat) :
    Term.at L u psi ⟨false, d, l, d, mu⟩ x = cPM d * psi (down L mu x) * (star (u l (down L mu x))).transpose := hop_eq d _ _

/-! ## Sums over a table -/

theorem filter_sum {α M : Type} [AddCommMonoid M] (p : α → Bool) (F : α → M) : ∀ l : List α, ((l.filter p).map F).sum = (l.map fun t => if p t then F t else 0).sum
  | [] => rfl
  | t :: l => by
    rw [List.filter_cons, List.map_cons, List.sum_cons, ← filter_sum p F l]
    split <;> simp

theorem cPM_even (mu : Fin 4) : cPM ⟨2 * mu.val, by omega⟩ = 1 + gam mu := by
  have h1 : Spin.dir ⟨2 * mu.val, by omega⟩ = mu := by apply Fin.ext; simp [Spin.dir]
  simp only [cPM, h1, Nat.mul_mod_right, if_true, one_smul]

theorem cPM_odd (mu : Fin 4) : cPM ⟨2 * mu.val + 1, by omega⟩ = 1 - gam mu := by
  have h1 : Spin.dir ⟨2 * mu.val + 1, by omega⟩ = mu := by apply Fin.ext; simp only [Spin.dir]; omega
  have h2 : ¬ (2 * mu.val + 1) % 2 = 0 := by omega
  simp only [cPM, h1, if_neg h2, neg_smul, one_smul, sub_eq_add_neg]

theorem c0 : cPM 0 = 1 + gam 0 := cPM_even 0
theorem c1 : cPM 1 = 1 - gam 0 := cPM_odd 0
theorem c2 : cPM 2 = 1 + gam 1 := cPM_even 1
theorem c3 : cPM 3 = 1 - gam 1 := cPM_odd 1
theorem c4 : cPM 4 = 1 + gam 2 := cPM_even 2
theorem c5 : cPM 5 = 1 - gam 2 := cPM_odd 2
theorem c6 : cPM 6 = 1 + gam 3 := cPM_even 3
theorem c7 : cPM 7 = 1 - gam 3 := cPM_odd 3

theorem ite_add' {M : Type} [AddCommMonoid M] (p : Prop) [Decidable p] (a b : M) : (if p then a + b else 0) = (if p then a else 0) + (if p then b else 0) := by
  split <;> simp

/-- the sign the operator is applied with -/
noncomputable def sgnOf (isign : Int) : ℂ := if isign > 0 then 1 else -1

section
variable {n : Nat} (L : List Nat) (u : GaugeField n) (psi : Spinor n) (x : List Nat)

theorem table_plus : ((dslashPlus.filter fun t => t.mu < L.length).map fun t => t.at L u psi x).sum = wilson L u 1 psi x := by
  rw [filter_sum]
  simp only [dslashPlus, List.map_cons, List.map_nil, List.sum_cons, List.sum_nil, at_fwd, at_bwd, wilson, Fin.sum_univ_four, ite_add', one_smul,
    c0, c1, c2, c3, c4, c5, c6, c7, decide_eq_true_eq, add_zero]
  simp only [Fin.val_zero, Fin.val_one, Fin.val_two, show ((3 : Fin 4) : Nat) = 3 from rfl]
  exact Eq.trans rfl (by abel)

theorem table_minus : ((dslashMinus.filter fun t => t.mu < L.length).map fun t => t.at L u psi x).sum = wilson L u (-1) psi x := by
  rw [filter_sum]
  simp only [dslashMinus, List.map_cons, List.map_nil, List.sum_cons, List.sum_nil, at_fwd, at_bwd, wilson, Fin.sum_univ_four, ite_add', neg_smul, one_smul,
    sub_neg_eq_add, ← sub_eq_add_neg, c0, c1, c2, c3, c4, c5, c6, c7, decide_eq_true_eq, add_zero]
  simp only [Fin.val_zero, Fin.val_one, Fin.val_two, show ((3 : Fin 4) : Nat) = 3 from rfl]
  exact Eq.trans rfl (by abel)

theorem table2_plus (h4 : L.length = 4) : (dslash2Plus.map fun t => t.at L u psi x).sum = wilson L u 1 psi x := by
  simp only [dslash2Plus, List.map_cons, List.map_nil, List.sum_cons, List.sum_nil]
  simp only [at_fwd, at_bwd, wilson, Fin.sum_univ_four, one_smul,
    c0, c1, c2, c3, c4, c5, c6, c7, add_zero, h4]
  simp only [Fin.val_zero, Fin.val_one, Fin.val_two, show ((3 : Fin 4) : Nat) = 3 from rfl, show 0 < 4 by omega, show 1 < 4 by omega, show 2 < 4 by omega,
    show 3 < 4 by omega, if_true]
  exact Eq.trans rfl (by abel)

theorem table2_minus (h4 : L.length = 4) : (dslash2Minus.map fun t => t.at L u psi x).sum = wilson L u (-1) psi x := by
  simp only [dslash2Minus, List.map_cons, List.map_nil, List.sum_cons, List.sum_nil]
  simp only [at_fwd, at_bwd, wilson, Fin.sum_univ_four, neg_smul, one_smul,
    sub_neg_eq_add, ← sub_eq_add_neg, c0, c1, c2, c3, c4, c5, c6, c7, add_zero, h4]
  simp only [Fin.val_zero, Fin.val_one, Fin.val_two, show ((3 : Fin 4) : Nat) = 3 from rfl, show 0 < 4 by omega, show 1 < 4 by omega, show 2 < 4 by omega,
    show 3 < 4 by omega, if_true]
  exact Eq.trans rfl (by abel)

end

/-! ## Running -/

def Term.sgn (t : Term) : Sgn := if t.fwd then .fwd else .bwd

theorem rb_legal (L : List Nat) {cb : Nat} (h : cb < 2) : (rb cb).Legal L := by
  refine ⟨h, fun c _ => ?_⟩
  simp only [rb, rbFunc]
  have : c.sum &&& 1 < 2 := by rw [Nat.and_one_is_mod]; omega
  omega

theorem rb_iff (cb : Nat) (c : List Nat) : (rb cb).fn c = (rb cb).cb ↔ onCB cb c := by
  simp only [rb, rbFunc, onCB, Nat.and_one_is_mod]
  omega

theorem source_term {L : List Nat} (hL : ∀ l ∈ L, 5 * l < 2 ^ 31) {t : Term} (ht : t.mu < L.length) {c : List Nat} (hc : InRange c L) :
    source (t.shift L) c = nbr L c t.sgn t.mu := by
  unfold source Term.shift Term.sgn
  split_ifs
  · rw [((shift_isPerm hL ht Sgn.fwd).fwd c hc).1]
  · rw [((shift_isPerm hL ht Sgn.bwd).fwd c hc).1]

theorem term_legal {L : List Nat} (hL : ∀ l ∈ L, 5 * l < 2 ^ 31) {t : Term} (ht : t.mu < L.length) : ∃ φ ψ, IsPerm L (t.shift L) φ ψ :=
  ⟨_, _, shift_isPerm hL ht (if t.fwd then .fwd else .bwd)⟩

theorem at_nbr {n : Nat} (L : List Nat) (u : GaugeField n) (psi : Spinor n) (t : Term) (x : List Nat) : t.at L u psi x =
    t.val (u t.link x) (if t.fwd then Spin.proj t.prj (psi (nbr L x t.sgn t.mu)) else
      mulH (star (u t.link (nbr L x t.sgn t.mu))) (Spin.proj t.prj (psi (nbr L x t.sgn t.mu)))) := by
  unfold Term.at Term.sgn
  by_cases h : t.fwd = true <;> simp [h, up, down]

theorem arg_at {n : Nat} (t : Term) (psi : Nat) (f : Nat → List Nat → V n) (c : List Nat) : (t.arg psi).at f c =
    hv (if t.fwd then Spin.proj t.prj (sp (f psi) c) else mulH (star (lk f t.link c)) (Spin.proj t.prj (sp (f psi) c))) := rfl

@[simp] theorem h_hv {n : Nat} (x : Half n) : (hv x).h = x := rfl
@[simp] theorem f_fv {n : Nat} (x : Ferm n) : (fv x).f = x := rfl

theorem at_congr {n : Nat} {L : List Nat} {u u' : GaugeField n} {psi psi' : Spinor n} {t : Term} {x : List Nat} (hu : u t.link = u' t.link)
    (hp : psi (nbr L x t.sgn t.mu) = psi' (nbr L x t.sgn t.mu)) : t.at L u psi x = t.at L u' psi' x := by
  rw [at_nbr, at_nbr, hu, hp]

theorem prepare_run {n : Nat} {L : List Nat} (hL : ∀ l ∈ L, 5 * l < 2 ^ 31) {psi : Nat} : ∀ (ts : List Term) (b : Nat) (f : Nat → List Nat → V n),
    (∀ t ∈ ts, t.mu < L.length ∧ t.link < b) → psi < b → ∃ f', (∀ x, x < b → f' x = f x) ∧
      (∀ c, InRange c L → total ts ((sources ts b).map fun x => f' x c) = (ts.map fun t => t.at L (lk f) (sp (f psi)) c).sum) ∧
      ∀ {R : Type} (k : Prog (V n) R), run (latticeSum L) (prepare L psi ts b k) f = run (latticeSum L) k f' ∧
        (Legal (latticeSum L) L k f' → Legal (latticeSum L) L (prepare L psi ts b k) f)
  | [], b, f, _, _ => ⟨f, fun _ _ => rfl, fun _ _ => rfl, fun _ => ⟨rfl, id⟩⟩
  | t :: ts, b, f, h, hp => by
    let f1 := Function.update f b fun c => if allSites.fn c = allSites.cb then (t.arg psi).at f c else f b c
    let f2 := Function.update f1 (b + 1) fun c => f1 b (source (t.shift L) c)
    have e2 : ∀ x, x < b → f2 x = f x := fun x hx => by
      simp only [f2, f1]
      rw [Function.update_of_ne (by omega), Function.update_of_ne (by omega)]
    obtain ⟨ht, hl⟩ := h t List.mem_cons_self
    obtain ⟨f', e', v', r'⟩ := prepare_run (psi := psi) hL ts (b + 2) f2 (fun t' ht' => ⟨(h t' (List.mem_cons_of_mem _ ht')).1,
      by have := (h t' (List.mem_cons_of_mem _ ht')).2; omega⟩) (by omega)
    refine ⟨f', fun x hx => (e' x (by omega)).trans (e2 x hx), fun c hc => ?_, fun {R} k => ?_⟩
    · have hrest : (ts.map fun t => t.at L (lk f2) (sp (f2 psi)) c) = ts.map fun t => t.at L (lk f) (sp (f psi)) c := by
        refine List.map_congr_left fun t' ht' => at_congr ?_ ?_
        · funext x
          simp only [lk, e2 t'.link (h t' (List.mem_cons_of_mem _ ht')).2]
        · rw [e2 psi hp]
      have hall : ∀ c, allSites.fn c = allSites.cb := fun c => by simp [allSites, allFunc]
      have hb1 : f' (b + 1) c = (t.arg psi).at f (nbr L c t.sgn t.mu) := by
        rw [e' (b + 1) (by omega)]
        simp only [f2, f1, Function.update_self, hall, if_true, source_term hL ht hc]
      simp only [sources, List.map_cons, List.sum_cons, total]
      rw [v' c hc, hrest, hb1, e' t.link (show t.link < b + 2 by omega), e2 t.link hl, at_nbr, arg_at, h_hv]
      rfl
    · obtain ⟨rr, ll⟩ := r' k
      exact ⟨rr, fun hk => ⟨all_legal L, term_legal hL ht, ll hk⟩⟩

theorem prepare_shifts {n : Nat} {R : Type} {L : List Nat} {psi : Nat} {k : Prog (V n) R} (hk : OnlyShifts L k) : ∀ (ts : List Term) (b : Nat),
    (∀ t ∈ ts, t.mu < L.length) → OnlyShifts L (prepare L psi ts b k)
  | [], _, _ => hk
  | t :: ts, b, h => ⟨⟨if t.fwd then .fwd else .bwd, t.mu, h t List.mem_cons_self, rfl⟩,
      prepare_shifts hk ts (b + 2) fun t' ht' => h t' (List.mem_cons_of_mem _ ht')⟩

/-- what the programs do to the fields: `chi` becomes the Wilson operator on one colour, everything else stays -/
structure Applied {n : Nat} (L : List Nat) (chi psi b cb : Nat) (s : ℂ) (f f' : Nat → List Nat → V n) : Prop where
  on : ∀ x, InRange x L → onCB cb x → sp (f' chi) x = wilson L (lk f) s (sp (f psi)) x
  off : ∀ x, ¬ onCB cb x → f' chi x = f chi x
  rest : ∀ a, a < b → a ≠ chi → f' a = f a

theorem tables_link : ∀ t ∈ dslashPlus ++ dslashMinus ++ dslash2Plus ++ dslash2Minus, t.link = t.mu ∧ t.mu < 4 := by
  simp [dslashPlus, dslashMinus, dslash2Plus, dslash2Minus]

theorem dslash_run {n : Nat} {L : List Nat} (hL : ∀ l ∈ L, 5 * l < 2 ^ 31) {chi psi b cb : Nat} (isign : Int) (hb : L.length ≤ b) (hchi : chi < b)
    (hpsi : psi < b) (hcb : cb < 2) (f : Nat → List Nat → V n) :
    ∃ f', Applied L chi psi b cb (sgnOf isign) f f' ∧ ∀ {R : Type} (k : Prog (V n) R),
      run (latticeSum L) (dslash L chi psi b isign cb k) f = run (latticeSum L) k f' ∧
      (Legal (latticeSum L) L k f' → Legal (latticeSum L) L (dslash L chi psi b isign cb k) f) := by
  have hlink : ∀ t ∈ (if isign > 0 then dslashPlus else dslashMinus).filter fun t => t.mu < L.length, t.mu < L.length ∧ t.link < b := by
    intro t ht
    rw [List.mem_filter, decide_eq_true_eq] at ht
    have h1 : t.link = t.mu := by
      refine (tables_link t ?_).1
      have := ht.1
      split_ifs at this <;> simp [this]
    exact ⟨ht.2, by omega⟩
  obtain ⟨f1, e1, v1, r1⟩ := prepare_run hL ((if isign > 0 then dslashPlus else dslashMinus).filter fun t => t.mu < L.length) b f hlink hpsi
  have htab : ∀ c, ((((if isign > 0 then dslashPlus else dslashMinus).filter fun t => t.mu < L.length).map fun t => t.at L (lk f) (sp (f psi)) c).sum) =
      wilson L (lk f) (sgnOf isign) (sp (f psi)) c := by
    intro c
    unfold sgnOf
    split_ifs
    · exact table_plus ..
    · exact table_minus ..
  generalize hts : ((if isign > 0 then dslashPlus else dslashMinus).filter fun t => t.mu < L.length) = ts at v1 r1 htab
  refine ⟨Function.update f1 chi fun c => if (rb cb).fn c = (rb cb).cb then
    (⟨sources ts b, fun vs => fv (total ts vs)⟩ : Rhs (V n)).at f1 c else f1 chi c, ⟨?_, ?_, ?_⟩, fun {R} k => ?_⟩
  · intro x hx hc
    rw [Function.update_self, sp, if_pos ((rb_iff cb x).2 hc), ← htab, ← v1 x hx]
    rfl
  · intro x hc
    rw [Function.update_self, if_neg (fun h => hc ((rb_iff cb x).1 h)), e1 chi hchi]
  · intro a ha hne
    rw [Function.update_of_ne hne, e1 a ha]
  · obtain ⟨rr, ll⟩ := r1 (.assign chi (rb cb) ⟨sources ts b, fun vs => fv (total ts vs)⟩ k)
    unfold dslash
    simp only [hts]
    exact ⟨rr, fun hk => ll ⟨rb_legal L hcb, hk⟩⟩

theorem dslash_shifts {n : Nat} {R : Type} {L : List Nat} {chi psi b cb : Nat} (isign : Int) {k : Prog (V n) R} (hk : OnlyShifts L k) :
    OnlyShifts L (dslash L chi psi b isign cb k) := by
  unfold dslash
  refine prepare_shifts (k := .assign chi (rb cb) _ k) hk _ _ fun t ht => ?_
  simpa using (List.mem_filter.1 ht).2

/-! ## dslash2 -/

theorem nbr_sum : ∀ {L c : List Nat} {s : Sgn} {mu : Nat}, InRange c L → mu < L.length → L.getD mu 0 % 2 = 0 → (nbr L c s mu).sum % 2 ≠ c.sum % 2
  | [], _, _, mu, _, h, _ => by simp at h
  | l :: L, [], _, _, h, _, _ => absurd h (by simp [InRange])
  | l :: L, x :: c, s, 0, h, _, he => by
    have hx : x < l := h.1
    simp only [nbr, List.sum_cons, List.getD_cons_zero] at *
    cases s <;> simp only [step] <;> split_ifs <;> omega
  | l :: L, x :: c, s, mu + 1, h, hm, he => by
    have := nbr_sum (s := s) (mu := mu) h.2 (by simpa using hm) (by simpa using he)
    simp only [nbr, List.sum_cons]
    omega

/-- what a term of `dslash2` is at a site: the neighbour's projection if the neighbour is of the other colour, otherwise whatever `tmp` held there -/
noncomputable def Term.stale {n : Nat} (L : List Nat) (cb : Nat) (u : GaugeField n) (psi : Spinor n) (tmp : List Nat → Half n) (t : Term) (x : List Nat) : Ferm n :=
  let y := nbr L x t.sgn t.mu
  t.val (u t.link x) (if y.sum % 2 = cb then tmp y else if t.fwd then Spin.proj t.prj (psi y) else mulH (star (u t.link y)) (Spin.proj t.prj (psi y)))

theorem stale_even {n : Nat} {L : List Nat} (he : ∀ l ∈ L, l % 2 = 0) {cb : Nat} (u : GaugeField n) (psi : Spinor n) (tmp : List Nat → Half n) {t : Term}
    (ht : t.mu < L.length) {x : List Nat} (hx : InRange x L) (hc : onCB cb x) : t.stale L cb u psi tmp x = t.at L u psi x := by
  have := nbr_sum (s := t.sgn) hx ht (he _ (by rw [List.getD, List.getElem?_eq_getElem ht]; exact List.getElem_mem ht))
  rw [hc] at this
  rw [at_nbr, Term.stale, if_neg this]

theorem other_iff {cb : Nat} (hcb : cb < 2) (c : List Nat) : onCB (if cb = 0 then 1 else 0) c ↔ ¬ c.sum % 2 = cb := by
  unfold onCB
  split_ifs <;> omega

/-- the temporary -/
def th {n : Nat} (f : List Nat → V n) : List Nat → Half n := fun x => (f x).h

theorem step2_run {n : Nat} {L : List Nat} (hL : ∀ l ∈ L, 5 * l < 2 ^ 31) {chi psi b cb : Nat} (hchi : chi < b)
    (hcl : L.length ≤ chi) (hcb : cb < 2) (first : Bool) {on : SubsetOf} (hon : on = allSites ∨ on = rb cb) {t : Term} (ht : t.mu < L.length) (hlk : t.link = t.mu)
    (f : Nat → List Nat → V n) : ∃ f', (∀ x, InRange x L → onCB cb x → (f' chi x).f =
          (if first then t.stale L cb (lk f) (sp (f psi)) (th (f b)) x else (f chi x).f + t.stale L cb (lk f) (sp (f psi)) (th (f b)) x)) ∧
      (∀ x, ¬ onCB cb x → f' chi x = f chi x) ∧ (∀ x, onCB cb x → f' b x = f b x) ∧ (∀ a, a < b → a ≠ chi → f' a = f a) ∧
      ∀ {R : Type} (k : Prog (V n) R), run (latticeSum L) (step2 L chi psi b cb (if cb = 0 then 1 else 0) first on t k) f = run (latticeSum L) k f' ∧
        (Legal (latticeSum L) L k f' → Legal (latticeSum L) L (step2 L chi psi b cb (if cb = 0 then 1 else 0) first on t k) f) := by
  have hoth := other_iff hcb
  generalize ho : (if cb = 0 then 1 else 0) = other at hoth
  let f1 := Function.update f b fun c => if (rb other).fn c = (rb other).cb then (t.arg psi).at f c else f b c
  let f2 := Function.update f1 (b + 2) fun c => f1 b (source (t.shift L) c)
  let f3 := Function.update f2 (b + 1) fun c => if on.fn c = on.cb then (⟨[b + 2], fun vs => hv (vs.getD 0 0).h⟩ : Rhs (V n)).at f2 c else f2 (b + 1) c
  let r : Rhs (V n) := ⟨[chi, t.link, b + 1], fun vs =>
    fv (if first then t.val (vs.getD 1 0).m (vs.getD 2 0).h else (vs.getD 0 0).f + t.val (vs.getD 1 0).m (vs.getD 2 0).h)⟩
  let f4 := Function.update f3 chi fun c => if (rb cb).fn c = (rb cb).cb then r.at f3 c else f3 chi c
  have e3 : ∀ x, x < b → f3 x = f x := fun x hx => by
    simp only [f3, f2, f1]
    rw [Function.update_of_ne (by omega), Function.update_of_ne (by omega), Function.update_of_ne (by omega)]
  have honc : ∀ c, onCB cb c → on.fn c = on.cb := by
    intro c hc
    rcases hon with rfl | rfl
    · simp [allSites, allFunc]
    · exact (rb_iff cb c).2 hc
  have hleg : on.Legal L := by
    rcases hon with rfl | rfl
    · exact all_legal L
    · exact rb_legal L hcb
  refine ⟨f4, fun x hx hc => ?_, fun x hc => ?_, fun x hc => ?_, fun a ha hne => ?_, fun {R} k => ?_⟩
  · have h3 : (f3 (b + 1) x).h = (f2 (b + 2) x).h := by
      simp only [f3, Function.update_self, honc x hc, if_true]
      rfl
    have h2 : (f2 (b + 2) x).h = if (nbr L x t.sgn t.mu).sum % 2 = cb then th (f b) (nbr L x t.sgn t.mu) else
        if t.fwd then Spin.proj t.prj (sp (f psi) (nbr L x t.sgn t.mu)) else
          mulH (star (lk f t.link (nbr L x t.sgn t.mu))) (Spin.proj t.prj (sp (f psi) (nbr L x t.sgn t.mu))) := by
      simp only [f2, f1, Function.update_self, source_term hL ht hx]
      by_cases hn : (nbr L x t.sgn t.mu).sum % 2 = cb
      · rw [if_neg (fun h => (hoth _).1 ((rb_iff other _).1 h) hn), if_pos hn]
        rfl
      · rw [if_pos ((rb_iff other _).2 ((hoth _).2 hn)), if_neg hn, arg_at, h_hv]
    have h4 : (f4 chi x).f = if first then t.val (f3 t.link x).m (f3 (b + 1) x).h else (f3 chi x).f + t.val (f3 t.link x).m (f3 (b + 1) x).h := by
      simp only [f4, Function.update_self]
      rw [if_pos ((rb_iff cb x).2 hc)]
      rfl
    rw [h4, h3, h2, e3 t.link (by omega), e3 chi hchi]
    rfl
  · simp only [f4, Function.update_self]
    rw [if_neg (fun h => hc ((rb_iff cb x).1 h)), e3 chi hchi]
  · have hc' : x.sum % 2 = cb := hc
    simp only [f4, f3, f2, f1]
    rw [Function.update_of_ne (by omega), Function.update_of_ne (by omega), Function.update_of_ne (by omega), Function.update_self,
      if_neg (fun h => (hoth _).1 ((rb_iff other _).1 h) hc')]
  · simp only [f4]
    rw [Function.update_of_ne hne, e3 a ha]
  · exact ⟨rfl, fun hk => ⟨rb_legal L (by subst ho; split_ifs <;> omega), term_legal hL ht, hleg, rb_legal L hcb, hk⟩⟩

theorem steps2_run {n : Nat} {L : List Nat} (hL : ∀ l ∈ L, 5 * l < 2 ^ 31) {chi psi b cb : Nat} (hchi : chi < b) (hpsi : psi < b)
    (hcl : L.length ≤ chi) (hcb : cb < 2) (bare : Bool) : ∀ (ts : List Term) (first : Bool) (f : Nat → List Nat → V n),
    (∀ t ∈ ts, t.mu < L.length ∧ t.link = t.mu) →
    ∃ f', (∀ x, InRange x L → onCB cb x → (f' chi x).f = (if first && !ts.isEmpty then 0 else (f chi x).f) +
        (ts.map fun t => t.stale L cb (lk f) (sp (f psi)) (th (f b)) x).sum) ∧
      (∀ x, ¬ onCB cb x → f' chi x = f chi x) ∧ (∀ a, a < b → a ≠ chi → f' a = f a) ∧
      ∀ {R : Type} (k : Prog (V n) R), run (latticeSum L) (steps2 L chi psi b cb (if cb = 0 then 1 else 0) bare first ts k) f = run (latticeSum L) k f' ∧
        (Legal (latticeSum L) L k f' → Legal (latticeSum L) L (steps2 L chi psi b cb (if cb = 0 then 1 else 0) bare first ts k) f)
  | [], first, f, _ => ⟨f, fun _ _ _ => by simp, fun _ _ => rfl, fun _ _ _ => rfl, fun _ => ⟨rfl, id⟩⟩
  | t :: ts, first, f, h => by
    obtain ⟨ht, hl⟩ := h t List.mem_cons_self
    obtain ⟨f1, v1, o1, t1, e1, r1⟩ := step2_run (psi := psi) hL hchi hcl hcb first (on := if bare && ts.isEmpty then allSites else rb cb)
      (by split_ifs <;> simp) ht hl f
    obtain ⟨f2, v2, o2, e2, r2⟩ := steps2_run hL hchi hpsi hcl hcb bare ts false f1 (fun t' ht' => h t' (List.mem_cons_of_mem _ ht'))
    refine ⟨f2, fun x hx hc => ?_, fun x hc => (o2 x hc).trans (o1 x hc), fun a ha hne => (e2 a ha hne).trans (e1 a ha hne), fun {R} k => ?_⟩
    · have hrest : (ts.map fun t => t.stale L cb (lk f1) (sp (f1 psi)) (th (f1 b)) x) = ts.map fun t => t.stale L cb (lk f) (sp (f psi)) (th (f b)) x := by
        refine List.map_congr_left fun t' ht' => ?_
        obtain ⟨h1, h2⟩ := h t' (List.mem_cons_of_mem _ ht')
        have hlk : lk f1 t'.link = lk f t'.link := by
          funext y
          simp only [lk, e1 t'.link (by omega) (by omega)]
        unfold Term.stale
        dsimp only
        rw [hlk]
        by_cases hn : (nbr L x t'.sgn t'.mu).sum % 2 = cb
        · rw [if_pos hn, if_pos hn]
          simp only [th, t1 _ hn]
        · rw [if_neg hn, if_neg hn]
          by_cases hpc : psi = chi
          · subst hpc
            have : sp (f1 psi) (nbr L x t'.sgn t'.mu) = sp (f psi) (nbr L x t'.sgn t'.mu) := congrArg V.f (o1 _ hn)
            rw [this]
          · rw [e1 psi hpsi hpc]
      rw [v2 x hx hc, hrest, v1 x hx hc]
      simp only [Bool.false_and, List.isEmpty_cons, Bool.not_false, Bool.and_true, List.map_cons, List.sum_cons]
      by_cases hfirst : first = true
      · simp only [hfirst, if_true]
        simp
      · simp only [hfirst]
        exact add_assoc _ _ _
    · obtain ⟨ra, la⟩ := r1 (steps2 L chi psi b cb (if cb = 0 then 1 else 0) bare false ts k)
      obtain ⟨rb', lb⟩ := r2 k
      exact ⟨ra.trans rb', fun hk => la (lb hk)⟩

/-- the terms of `dslash2` -/
def table2 (isign : Int) : List Term := if isign = 1 then dslash2Plus else dslash2Minus

theorem table2_link (isign : Int) : ∀ t ∈ table2 isign, t.mu < 4 ∧ t.link = t.mu := by
  intro t ht
  unfold table2 at ht
  have := tables_link t (by split_ifs at ht <;> simp [ht])
  omega

/-- `dslash2` on any lattice of four dimensions -/
theorem dslash2_stale {n : Nat} {L : List Nat} (hL : ∀ l ∈ L, 5 * l < 2 ^ 31) (h4 : L.length = 4) {chi psi b cb : Nat} {isign : Int}
    (hs : isign = 1 ∨ isign = -1) (hchi : chi < b) (hpsi : psi < b) (hcl : L.length ≤ chi) (hcb : cb < 2) (f : Nat → List Nat → V n) :
    ∃ f', (∀ x, InRange x L → onCB cb x → (f' chi x).f = ((table2 isign).map fun t => t.stale L cb (lk f) (sp (f psi)) (th (f b)) x).sum) ∧
      (∀ x, ¬ onCB cb x → f' chi x = f chi x) ∧ (∀ a, a < b → a ≠ chi → f' a = f a) ∧ ∀ {R : Type} (k : Prog (V n) R),
      run (latticeSum L) (dslash2 L chi psi b isign cb k) f = run (latticeSum L) k f' ∧
      (Legal (latticeSum L) L k f' → Legal (latticeSum L) L (dslash2 L chi psi b isign cb k) f) := by
  rcases hs with rfl | rfl
  · obtain ⟨f', v, o, e, r⟩ := steps2_run hL hchi hpsi hcl hcb false dslash2Plus true f (fun t ht => by
      have := tables_link t (by simp [ht]); omega)
    exact ⟨f', fun x hx hc => (v x hx hc).trans (zero_add _), o, e, r⟩
  · obtain ⟨f', v, o, e, r⟩ := steps2_run hL hchi hpsi hcl hcb true dslash2Minus true f (fun t ht => by
      have := tables_link t (by simp [ht]); omega)
    exact ⟨f', fun x hx hc => (v x hx hc).trans (zero_add _), o, e, r⟩

theorem dslash2_run {n : Nat} {L : List Nat} (hL : ∀ l ∈ L, 5 * l < 2 ^ 31) (he : ∀ l ∈ L, l % 2 = 0) (h4 : L.length = 4) {chi psi b cb : Nat} {isign : Int}
    (hs : isign = 1 ∨ isign = -1) (hchi : chi < b) (hpsi : psi < b) (hcl : L.length ≤ chi) (hcb : cb < 2) (f : Nat → List Nat → V n) :
    ∃ f', Applied L chi psi b cb isign f f' ∧ ∀ {R : Type} (k : Prog (V n) R),
      run (latticeSum L) (dslash2 L chi psi b isign cb k) f = run (latticeSum L) k f' ∧
      (Legal (latticeSum L) L k f' → Legal (latticeSum L) L (dslash2 L chi psi b isign cb k) f) := by
  obtain ⟨f', v, o, e, r⟩ := dslash2_stale hL h4 hs hchi hpsi hcl hcb f
  refine ⟨f', ⟨fun x hx hc => ?_, o, e⟩, r⟩
  refine (v x hx hc).trans ?_
  have h : ((table2 isign).map fun t => t.stale L cb (lk f) (sp (f psi)) (th (f b)) x) = (table2 isign).map fun t => t.at L (lk f) (sp (f psi)) x :=
    List.map_congr_left fun t ht => stale_even he _ _ _ (by rw [h4]; exact (table2_link isign t ht).1) hx hc
  rw [h]
  rcases hs with rfl | rfl
  · rw [Int.cast_one]; exact table2_plus L _ _ _ h4
  · rw [Int.cast_neg, Int.cast_one]; exact table2_minus L _ _ _ h4

theorem steps2_shifts {n : Nat} {R : Type} {L : List Nat} {chi psi b cb other : Nat} {bare : Bool} {k : Prog (V n) R} (hk : OnlyShifts L k) : ∀ (ts : List Term)
    (first : Bool), (∀ t ∈ ts, t.mu < L.length) → OnlyShifts L (steps2 L chi psi b cb other bare first ts k)
  | [], _, _ => hk
  | t :: ts, _, h => ⟨⟨if t.fwd then .fwd else .bwd, t.mu, h t List.mem_cons_self, rfl⟩,
      steps2_shifts hk ts false fun t' ht' => h t' (List.mem_cons_of_mem _ ht')⟩

theorem dslash2_shifts {n : Nat} {R : Type} {L : List Nat} (h4 : L.length = 4) {chi psi b cb : Nat} (isign : Int) {k : Prog (V n) R} (hk : OnlyShifts L k) :
    OnlyShifts L (dslash2 L chi psi b isign cb k) := by
  unfold dslash2
  dsimp only
  split_ifs
  all_goals first
    | exact hk
    | exact steps2_shifts hk _ _ fun t ht => by have := tables_link t (by simp [ht]); omega

/-- programs of shifts on a machine of blocks -/
theorem ends {n : Nat} {R : Type} {g : Geom} (h : Setup g) (tot : List (V n) → V n) (htot : ∀ l, tot l = l.sum) (net : Net)
    (p : Prog (V n) R) (F : Nat → Local (V n)) (f : Nat → List Nat → V n) (hF : HoldsAll g F f) (hl : Legal (latticeSum g.L) g.L p f)
    (hs : OnlyShifts g.L p) : AlwaysEndsIn net g (start tot g p F) (run (latticeSum g.L) p f).1 (run (latticeSum g.L) p f).2 := by
  obtain ⟨m, S, hm, hcut, hnode⟩ := h.blocks
  exact C86_spmd tot htot net g h.good h.nodes p F f hF hl (accepted_of_shifts g h.good m hm S hcut hnode h.sites h.ext p hs)

end Verif.Dslash
