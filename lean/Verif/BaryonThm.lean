import Verif.BaryonProps
/-
C99: baryon correlation functions.
-/
namespace Verif.Baryon
open Verif Outcome Verif.Layout Verif.ParLayout Verif.ParMap Verif.Spmd Verif.Shift Verif.Subset Verif.Network Verif.Hadron
open Verif.Gauge (Mat siteSum Setup all_legal siteSum_congr)
open Verif.Dslash (gam gam5)
open Verif.Contract (colorContract)
open Finset

/-! ## Running the program -/

/-- what `b_prop_a[i]` holds -/
noncomputable def held (S : PM 3) (i : Nat) : ℂ := 2 * baryonAt S (Fin.ofNat 3 (i / 3)) (Fin.ofNat 3 i)

section
variable {R : Type} {L : List Nat} {q b : Nat} (hq : q < b) (S : List Nat → PM 3)
include hq

theorem contraction_run (w : ℂ) (dd : Pair) (M : SM) (hl : ∀ Q, dd.l Q = sR Q M) (hr : ∀ Q, dd.r Q = sL M Q) (k : Prog (V 3) R) (f : Nat → List Nat → V 3)
    (hS : pr (f q) = S) :
    ∃ f', (∀ y, y < b ∨ b + 2 ≤ y → f' y = f y) ∧ (∀ x, (f' (b + 1) x).z = codeVal w (S x) (Matrix.of M)) ∧ Leads L (contraction q b w dd k) f k f' := by
  refine ⟨_, ?_, ?_, Leads.trans (leads_assign _ _ _ _) (leads_assign _ _ _ _)⟩
  · intro y hy
    rw [Function.update_of_ne (by omega), Function.update_of_ne (by omega)]
  · intro x
    rw [Function.update_self]
    show bVal w (Function.update f b _ q x).p (Function.update f b _ b x).p = _
    rw [Function.update_of_ne (by omega), Function.update_self]
    show bVal w (f q x).p (diq (dd.l (f q x).p) (dd.r (f q x).p)) = _
    rw [hl, hr, bVal_eq, ← hS]; rfl

omit hq in
theorem times3_run (k : Prog (V 3) R) (f : Nat → List Nat → V 3) :
    ∃ f', (∀ y, y < b ∨ b + 2 ≤ y → f' y = f y) ∧ (∀ x, (f' (b + 1) x).z = (f (b + 1) x).z * 3) ∧ Leads L (times3 b k) f k f' := by
  refine ⟨_, ?_, ?_, leads_assign _ _ _ _⟩
  · intro y hy
    rw [Function.update_of_ne (by omega)]
  · intro x
    rw [Function.update_self]; rfl

theorem one_run (fail k : Prog (V 3) R) (i : Nat) (hi : i < 9) (f : Nat → List Nat → V 3) (hS : pr (f q) = S)
    (hprev : i % 3 = 1 → ∀ x, (f (b + 1) x).z = held (S x) (i - 1)) :
    ∃ f', (∀ y, y < b ∨ b + 2 ≤ y → f' y = f y) ∧ (∀ x, (f' (b + 1) x).z = held (S x) i) ∧ Leads L (oneBaryon q b fail i k) f k f' := by
  obtain ⟨h5, h13⟩ := cg5_eq
  have proton : ∀ (dd : Pair) (M : SM) (j : Fin 3), (∀ Q, dd.l Q = sR Q M) → (∀ Q, dd.r Q = sL M Q) → (∀ x, codeVal 1 (S x) (Matrix.of M) = codeVal 1 (S x) (diquark gam5 j)) →
      ∃ f', (∀ y, y < b ∨ b + 2 ≤ y → f' y = f y) ∧ (∀ x, (f' (b + 1) x).z = 2 * baryonAt (S x) j 0) ∧ Leads L (contraction q b 1 dd k) f k f' := by
    intro dd M j hl hr hM
    obtain ⟨f', a, v, l⟩ := contraction_run (L := L) hq S 1 dd M hl hr k f hS
    exact ⟨f', a, fun x => by rw [v, hM, code_proton], l⟩
  have lambda : ∀ (j : Fin 3), (∀ x, (f (b + 1) x).z = 2 * baryonAt (S x) j 0) →
      ∃ f', (∀ y, y < b ∨ b + 2 ≤ y → f' y = f y) ∧ (∀ x, (f' (b + 1) x).z = 2 * baryonAt (S x) j 1) ∧ Leads L (times3 b k) f k f' := by
    intro j hj
    obtain ⟨f', a, v, l⟩ := times3_run (L := L) (b := b) k f
    exact ⟨f', a, fun x => by rw [v, hj, ← code_lambda, ← code_proton], l⟩
  have delta : ∀ (dd : Pair) (M : SM) (j : Fin 3), (∀ Q, dd.l Q = sR Q M) → (∀ Q, dd.r Q = sL M Q) → Matrix.of M = diquark gMinus j →
      ∃ f', (∀ y, y < b ∨ b + 2 ≤ y → f' y = f y) ∧ (∀ x, (f' (b + 1) x).z = 2 * baryonAt (S x) j 2) ∧ Leads L (contraction q b 2 dd (times3 b k)) f k f' := by
    intro dd M j hl hr hM
    obtain ⟨f1, a1, v1, l1⟩ := contraction_run (L := L) hq S 2 dd M hl hr (times3 b k) f hS
    obtain ⟨f', a, v, l⟩ := times3_run (L := L) (b := b) k f1
    exact ⟨f', fun y hy => (a y hy).trans (a1 y hy), fun x => by rw [v, v1, hM, code_delta], l1.trans l⟩
  match i, hi with
  | 0, _ =>
    exact proton ⟨fun Q => gR 5 Q, fun Q => gL 5 Q⟩ (Gam (5 : Fin 16)) 0 (fun Q => gR_eq 5 Q) (fun Q => gL_eq 5 Q) fun x => by
      show codeVal 1 (S x) (Gam (5 : Fin 16)) = _
      rw [h5]; rfl
  | 1, _ => exact lambda 0 (hprev rfl)
  | 2, _ => exact delta ⟨fun Q => sR Q cgm, fun Q => sL cgm Q⟩ cgm 0 (fun _ => rfl) (fun _ => rfl) cgm_eq
  | 3, _ =>
    exact proton ⟨fun Q => gR 13 Q, fun Q => gL 13 Q⟩ (Gam (13 : Fin 16)) 1 (fun Q => gR_eq 13 Q) (fun Q => gL_eq 13 Q) fun x => by
      show codeVal 1 (S x) (Gam (13 : Fin 16)) = _
      rw [h13, codeVal_neg]; rfl
  | 4, _ => exact lambda 1 (hprev rfl)
  | 5, _ => exact delta ⟨fun Q => sR Q cg4m, fun Q => sL cg4m Q⟩ cg4m 1 (fun _ => rfl) (fun _ => rfl) cg4m_eq
  | 6, _ =>
    exact proton ⟨fun Q => gR 5 Q + gR 13 Q, fun Q => gL 5 Q + gL 13 Q⟩ (Gam (5 : Fin 16) + Gam (13 : Fin 16)) 2
      (fun Q => by show gR 5 Q + gR 13 Q = _; rw [gR_eq, gR_eq]; exact sR_add _ _ _) (fun Q => by show gL 5 Q + gL 13 Q = _; rw [gL_eq, gL_eq]; exact sL_add _ _ _) fun x => by
      show codeVal 1 (S x) (Gam (5 : Fin 16) + Gam (13 : Fin 16)) = _
      rw [h5, h13, ← sub_eq_add_neg]; rfl
  | 7, _ => exact lambda 2 (hprev rfl)
  | 8, _ => exact delta ⟨fun Q => sR Q cgmNR, fun Q => sL cgmNR Q⟩ cgmNR 2 (fun _ => rfl) (fun _ => rfl) cgmNR_eq

theorem bLoop_run (fail k : Prog (V 3) R) : ∀ (m i : Nat) (f : Nat → List Nat → V 3), i + m = 9 → pr (f q) = S →
    (i % 3 = 1 → ∀ x, (f (b + 1) x).z = held (S x) (i - 1)) → (∀ j, j < i → ∀ x, (f (b + 2 + j) x).z = held (S x) j) →
    ∃ f', (∀ y, y < b → f' y = f y) ∧ (∀ j, j < 9 → ∀ x, (f' (b + 2 + j) x).z = held (S x) j) ∧ Leads L (bLoop q b fail (List.range' i m) k) f k f'
  | 0, i, f, him, _, _, hh => ⟨f, fun _ _ => rfl, fun j hj => hh j (by omega), Leads.rfl'⟩
  | m + 1, i, f, him, hS, hprev, hh => by
    obtain ⟨f1, a1, v1, l1⟩ := one_run (L := L) hq S fail (.assign (b + 2 + i) allSites ⟨[b + 1], fun vs => zv (vs.getD 0 0).z⟩ <| bLoop q b fail (List.range' (i + 1) m) k)
      i (by omega) f hS hprev
    obtain ⟨f', a, v, l⟩ := bLoop_run fail k m (i + 1) (Function.update f1 (b + 2 + i) ((⟨[b + 1], fun vs => zv (vs.getD 0 0).z⟩ : Rhs (V 3)).at f1)) (by omega)
      (by rw [Function.update_of_ne (by omega), a1 q (by omega)]; exact hS)
      (fun _ x => by rw [Function.update_of_ne (by omega)]; exact v1 x)
      (fun j hj x => by
        by_cases hji : j = i
        · subst hji
          rw [Function.update_self]; exact v1 x
        · rw [Function.update_of_ne (by omega), a1 _ (by omega)]
          exact hh j (by omega) x)
    refine ⟨f', fun y hy => ?_, v, ?_⟩
    · rw [a y hy, Function.update_of_ne (by omega), a1 y (by omega)]
    · rw [List.range'_succ]
      exact l1.trans ((leads_assign _ _ _ _).trans l)

omit hq in
theorem sumsLoop_run {jd : Nat} (hjd : jd < L.length) (k : List (List ℂ) → Prog (V 3) R) (f : Nat → List Nat → V 3) : ∀ (is : List Nat) (acc : List (List ℂ)),
    Leads L (sumsLoop L jd b is acc k) f (k (acc ++ is.map fun i => (List.range (L.getD jd 0)).map fun t => timeSum L jd t fun x => (f (b + 2 + i) x).z)) f
  | [], acc => by
    simp only [sumsLoop, List.map_nil, List.append_nil]; exact Leads.rfl'
  | i :: is, acc => by
    have ih := sumsLoop_run hjd k f is (acc ++ [(List.range (L.getD jd 0)).map fun t => timeSum L jd t fun x => (f (b + 2 + i) x).z])
    rw [List.append_assoc, List.singleton_append] at ih
    rw [List.map_cons]
    exact Leads.trans (leads_sumAll hjd _ _ _) ih

end

theorem past_ok {len : Nat} {t0 bc : Int} {e : Nat} (hlen : 2 * len < 2 ^ 31) (h0 : -(2 ^ 31 - 2 * (len : Int)) < t0) (h1 : t0 ≤ len) (he : e < len) :
    past len t0 bc e = ok (decide (bc < 0 ∧ (len : Int) ≤ e + t0)) := by
  unfold past
  by_cases hb : bc < 0
  · rw [if_pos hb, ckI_ok (by omega)]
    show ok _ = _
    simp [hb]
  · rw [if_neg hb]
    simp [hb]

theorem place_ok {len : Nat} {t0 bc : Int} (hlen : 2 * len < 2 ^ 31) (h0 : -(2 ^ 31 - 2 * (len : Int)) < t0) (h1 : t0 ≤ len) (any : List ℂ) (ha : any.length = len)
    (w : Nat → ℂ) : place len t0 bc any ((List.range len).map w) = ok ((List.range len).map fun s => bcSign len t0 bc s * (0.5 * w (after len t0 s))) := by
  unfold place
  rw [slots_eq hlen h0 h1 _ (fun t _ => bcSign len t0 bc (slot len t0 t) * (0.5 * w t)) any (fun i => any.getD i default) (list_as_range ha)]
  · congr 1
    refine List.map_congr_left fun s hs => ?_
    rw [slot_after (List.mem_range.1 hs)]
  · intro t ht x
    rw [past_ok hlen h0 h1 (slot_lt (by omega)), rd_range ht]
    show ok _ = ok _
    congr 1
    unfold bcSign
    by_cases hc : bc < 0 ∧ (len : Int) ≤ (slot len t0 t : Nat) + t0
    · simp [hc]
    · rw [if_neg hc]
      simp [hc]

theorem mapO_ok {α β γ : Type} (f : β → Outcome γ) (h : α → β) (g : α → γ) : ∀ l : List α, (∀ a ∈ l, f (h a) = ok (g a)) → mapO f (l.map h) = ok (l.map g)
  | [], _ => rfl
  | a :: as, hh => by
    rw [List.map_cons]
    unfold mapO
    rw [hh a List.mem_cons_self, mapO_ok f h g as fun x hx => hh x (List.mem_cons_of_mem _ hx)]; rfl

/-- what `baryon` returns -/
noncomputable def table (L : List Nat) (S : List Nat → PM 3) (jd : Nat) (t0 bc : Int) (k j : Fin 3) : List ℂ :=
  (List.range (L.getD jd 0)).map fun s => bcSign (L.getD jd 0) t0 bc s * timeSum L jd (after (L.getD jd 0) t0 s) fun x => baryonAt (S x) k j

theorem timeSum_mul (L : List Nat) (jd t : Nat) (c : ℂ) (w : List Nat → ℂ) : (timeSum L jd t fun x => c * w x) = c * timeSum L jd t w := by
  unfold timeSum siteSum
  rw [mul_sum]
  refine sum_congr rfl fun r _ => ?_
  dsimp only
  split_ifs <;> simp

theorem baryon_run {L : List Nat} {q b jd : Nat} (hq : q < b) (hjd : jd < L.length) (hL : ∀ l ∈ L, 5 * l < 2 ^ 31) {t0 bc : Int}
    (h0 : -(2 ^ 31 - 2 * (L.getD jd 0 : Int)) < t0) (h1 : t0 ≤ L.getD jd 0) (any : List ℂ) (ha : any.length = L.getD jd 0) (f : Nat → List Nat → V 3) :
    ∃ f', (∀ y, y < b → f' y = f y) ∧ Leads L (baryon L q b jd t0 bc any .ret) f
      (.ret (ok ((List.finRange 3).flatMap fun k => (List.finRange 3).map fun j => table L (pr (f q)) jd t0 bc k j))) f' := by
  have hg := getD_ext hL hjd
  obtain ⟨f', a, v, l⟩ := bLoop_run (L := L) hq (pr (f q)) (Prog.ret (abort : Outcome (List (List ℂ))))
    (sumsLoop L jd b (List.range 9) [] fun hsum => Prog.ret (mapO (place (L.getD jd 0) t0 bc any) hsum)) 9 0 f rfl rfl (fun h => by simp at h) (fun j hj => by omega)
  refine ⟨f', a, ?_⟩
  refine l.trans ?_
  refine (sumsLoop_run hjd _ f' _ _).trans ?_
  rw [List.nil_append]
  have hp : mapO (place (L.getD jd 0) t0 bc any) ((List.range 9).map fun i => (List.range (L.getD jd 0)).map fun t => timeSum L jd t fun x => (f' (b + 2 + i) x).z) =
      ok ((List.range 9).map fun i => table L (pr (f q)) jd t0 bc (Fin.ofNat 3 (i / 3)) (Fin.ofNat 3 i)) := by
    refine mapO_ok _ _ _ _ fun i hi => ?_
    have hi9 : i < 9 := by exact List.mem_range.1 hi
    rw [place_ok (by omega) h0 h1 any ha]
    unfold table
    simp only [v i hi9]
    congr 1
    refine List.map_congr_left fun s _ => ?_
    unfold held
    rw [timeSum_mul]
    ring
  rw [hp]
  exact Leads.rfl'

theorem oneBaryon_shifts {R : Type} {L : List Nat} {q b : Nat} {fail k : Prog (V 3) R} (hf : OnlyShifts L fail) (hk : OnlyShifts L k) (i : Nat) :
    OnlyShifts L (oneBaryon q b fail i k) := by
  unfold oneBaryon
  split <;> first | exact hk | exact hf

theorem bLoop_shifts {R : Type} {L : List Nat} {q b : Nat} {fail k : Prog (V 3) R} (hf : OnlyShifts L fail) (hk : OnlyShifts L k) :
    ∀ is : List Nat, OnlyShifts L (bLoop q b fail is k)
  | [] => hk
  | i :: is => by
    unfold bLoop
    exact oneBaryon_shifts hf (show OnlyShifts L (Prog.assign _ _ _ _) from bLoop_shifts hf hk is) i

theorem sumsLoop_shifts {R : Type} {L L' : List Nat} {jd b : Nat} {k : List (List ℂ) → Prog (V 3) R} (hk : ∀ l, OnlyShifts L' (k l)) :
    ∀ (is : List Nat) (acc : List (List ℂ)), OnlyShifts L' (sumsLoop L jd b is acc k)
  | [], _ => hk _
  | _ :: is, _ => sumMulti_shifts (fun _ => sumsLoop_shifts hk is _) _ _

/-- C99. On every machine `baryon` returns nine lists; entry `s` of list `3k + j` is the sum, over the time slice that is `s` after the source, of
the correlation function of the operator of the comment with its Dirac adjoint, by Wick's theorem, projected on positive parity and
spin up.  Slices beyond the end of the lattice have a minus sign if `bc_spec < 0`.  What the arrays contain before does not matter; the propagator is
not changed. -/
theorem C99_baryons (tot : List (V 3) → V 3) (htot : ∀ l, tot l = l.sum) (net : Net) (g : Geom) (hs : Setup g) (F : Nat → Local (V 3))
    (f : Nat → List Nat → V 3) (hF : HoldsAll g F f) {jd : Nat} (hjd : jd < g.L.length) {t0 bc : Int}
    (h0 : -(2 ^ 31 - 2 * (g.L.getD jd 0 : Int)) < t0) (h1 : t0 ≤ g.L.getD jd 0) {q b : Nat} (hq : q < b) (any : List ℂ) (ha : any.length = g.L.getD jd 0) :
    ∃ f', (∀ y, y < b → f' y = f y) ∧ AlwaysEndsIn net g (start tot g (baryon g.L q b jd t0 bc any .ret) F)
      (ok ((List.finRange 3).flatMap fun k => (List.finRange 3).map fun j => (List.range (g.L.getD jd 0)).map fun s =>
        bcSign (g.L.getD jd 0) t0 bc s * timeSum g.L jd (after (g.L.getD jd 0) t0 s) fun x => baryonAt (pr (f q) x) k j)) f' := by
  obtain ⟨f', hf', hl⟩ := baryon_run (bc := bc) hq hjd hs.ext h0 h1 any ha f
  have := ends hs tot htot net (baryon g.L q b jd t0 bc any .ret) F f hF (hl.legal trivial)
    (bLoop_shifts (fail := Prog.ret abort) True.intro (sumsLoop_shifts (k := fun hsum => Prog.ret (mapO (place (g.L.getD jd 0) t0 bc any) hsum)) (fun _ => True.intro) _ _) _)
  rw [hl.run] at this
  exact ⟨f', hf', this⟩

/-- the hypotheses hold for instance on sixteen nodes, with a source in the middle of the lattice -/
example : Setup (geomCB2 [16, 16, 16, 32] (lexMachine [2, 2, 2, 2]) [8, 8, 8, 16]) ∧ (3 : Nat) < [16, 16, 16, 32].length ∧
    -(2 ^ 31 - 2 * (([16, 16, 16, 32] : List Nat).getD 3 0 : Int)) < 12 ∧ (12 : Int) ≤ ([16, 16, 16, 32] : List Nat).getD 3 0 :=
  ⟨Gauge.setup_cb2 [16, 16, 16, 32] [8, 8, 16] 8 (lexMachine [2, 2, 2, 2]) (lexMachine_good _) (by simp [Cut, lexMachine]) rfl (by decide)
    (by simp [lexMachine]) (by decide) (by decide) (by decide), by decide, by decide, by decide⟩

/-! ## The correlation functions -/

/-- the numbers in terms of the two contractions -/
theorem baryonAt_code (S : PM 3) (k : Fin 3) : baryonAt S k 0 = codeVal 1 S (diquark gam5 k) / 2 ∧ baryonAt S k 1 = 3 * codeVal 1 S (diquark gam5 k) / 2 ∧
    baryonAt S k 2 = 3 * codeVal 2 S (diquark gMinus k) / 2 := by
  refine ⟨?_, ?_, ?_⟩
  · rw [code_proton]; ring
  · rw [mul_comm, code_lambda]; ring
  · rw [mul_comm, code_delta]; ring

/-- C99. The Lambda is three times the proton, as the comment says: the two agree when the quarks are degenerate. -/
theorem C99_lambda (S : PM 3) (k : Fin 3) : (upProj * corr S (diquark gam5 k) lambdaOp).trace = 6 * (upProj * corr S (diquark gam5 k) protonOp).trace := by
  obtain ⟨h0, h1, _⟩ := baryonAt_code S k
  have e0 : baryonAt S k 0 = (upProj * corr S (diquark gam5 k) protonOp).trace := rfl
  have e1 : baryonAt S k 1 = (upProj * corr S (diquark gam5 k) lambdaOp).trace / 2 := rfl
  rw [e0] at h0
  rw [e1] at h1
  rw [h0]
  linear_combination 2 * h1

theorem blk_left (U : Mat 3) (S : PM 3) (a b : Fin 4) : blk (onColour U * S) a b = fun i j => ∑ k, U i k * blk S a b k j := by
  funext i j
  simp only [blk, onColour, Matrix.mul_apply, Fintype.sum_prod_type, Matrix.kroneckerMap_apply]
  rw [sum_eq_single a]
  · simp
  · intro c _ hc; simp [Matrix.one_apply_ne (Ne.symm hc)]
  · simp

theorem blk_right (U : Mat 3) (S : PM 3) (a b : Fin 4) : blk (S * onColour U) a b = fun i j => ∑ k, blk S a b i k * U k j := by
  funext i j
  simp only [blk, onColour, Matrix.mul_apply, Fintype.sum_prod_type, Matrix.kroneckerMap_apply]
  rw [sum_eq_single b]
  · simp
  · intro c _ hc; simp [Matrix.one_apply_ne hc]
  · simp

theorem T_gauge (U W : Mat 3) (S : PM 3) (s0 s1 s2 t0 t1 t2 : Fin 4) :
    T (onColour U * S * onColour W) s0 s1 s2 t0 t1 t2 = U.det * W.det * T S s0 s1 s2 t0 t1 t2 := by
  unfold T
  simp only [blk_right]
  refine (Contract.C65_right (fun a b => W a b) _ _ _).trans ?_
  simp only [blk_left]
  rw [Contract.C65_left (fun a b => U a b)]
  show W.det * (U.det * _) = _
  ring

theorem codeVal_scale (c w : ℂ) (S S' : PM 3) (M : Matrix (Fin 4) (Fin 4) ℂ) (h : ∀ s0 s1 s2 t0 t1 t2, T S' s0 s1 s2 t0 t1 t2 = c * T S s0 s1 s2 t0 t1 t2) :
    codeVal w S' M = c * codeVal w S M := by
  have hd : ∀ a b, dir S' M M.transpose a b = c * dir S M M.transpose a b := fun a b => by
    unfold dir
    rw [← mul4]
    refine sum_congr rfl fun s0 _ => sum_congr rfl fun s1 _ => sum_congr rfl fun t0 _ => sum_congr rfl fun t1 _ => ?_
    rw [h]; ring
  have he : ∀ a b, exch S' M M.transpose a b = c * exch S M M.transpose a b := fun a b => by
    unfold exch
    rw [← mul4]
    refine sum_congr rfl fun s0 _ => sum_congr rfl fun s1 _ => sum_congr rfl fun t0 _ => sum_congr rfl fun t1 _ => ?_
    rw [h]; ring
  unfold codeVal
  rw [trace_scale upProj _ c (Matrix.of fun al be => dir S M M.transpose al be + w * exch S M M.transpose al be)]
  · ring
  · intro a b
    simp only [Matrix.of_apply, hd, he]; ring

theorem baryonAt_scale (c : ℂ) (S S' : PM 3) (h : ∀ s0 s1 s2 t0 t1 t2, T S' s0 s1 s2 t0 t1 t2 = c * T S s0 s1 s2 t0 t1 t2) (k j : Fin 3) :
    baryonAt S' k j = c * baryonAt S k j := by
  obtain ⟨a0, a1, a2⟩ := baryonAt_code S k
  obtain ⟨b0, b1, b2⟩ := baryonAt_code S' k
  fin_cases j
  · show baryonAt S' k 0 = c * baryonAt S k 0
    rw [a0, b0, codeVal_scale c 1 S S' _ h]; ring
  · show baryonAt S' k 1 = c * baryonAt S k 1
    rw [a1, b1, codeVal_scale c 1 S S' _ h]; ring
  · show baryonAt S' k 2 = c * baryonAt S k 2
    rw [a2, b2, codeVal_scale c 2 S S' _ h]; ring

/-- C99. Gauge invariance: with transformations of determinant one at the sink and at the source nothing changes; in general there are the two
determinants, so that of U(3) is broken. -/
theorem C99_gauge (U W : Mat 3) (S : PM 3) (k j : Fin 3) : baryonAt (onColour U * S * onColour W) k j = U.det * W.det * baryonAt S k j :=
  baryonAt_scale _ _ _ (fun _ _ _ _ _ _ => T_gauge U W S _ _ _ _ _ _) k j

theorem C99_gauge_su3 (U W : Mat 3) (hU : U.det = 1) (hW : W.det = 1) (S : PM 3) (k j : Fin 3) : baryonAt (onColour U * S * onColour W) k j = baryonAt S k j := by
  rw [C99_gauge, hU, hW]; ring

example : ((Matrix.of ![![0, 1, 0], ![0, 0, 1], ![1, 0, 0]] : Mat 3)).det = 1 := by simp [Matrix.det_fin_three]

theorem T_neg (S : PM 3) (s0 s1 s2 t0 t1 t2 : Fin 4) : T (-S) s0 s1 s2 t0 t1 t2 = -1 * T S s0 s1 s2 t0 t1 t2 := by
  unfold T colorContract blk
  simp only [Matrix.neg_apply]
  ring

theorem baryonAt_neg (S : PM 3) (k j : Fin 3) : baryonAt (-S) k j = -baryonAt S k j := by
  rw [baryonAt_scale (-1) S (-S) (fun _ _ _ _ _ _ => T_neg S _ _ _ _ _ _)]; ring

/-- C99. The sign of `bc_spec < 0` is that of three quarks with antiperiodic boundary conditions: the entries are those of the propagator with
its sign changed on the slices beyond the end of the lattice. -/
theorem C99_boundary (len : Nat) (t0 bc : Int) (s : Nat) (L : List Nat) (jd : Nat) (S : List Nat → PM 3) (k j : Fin 3) :
    (bcSign len t0 bc s * timeSum L jd (after len t0 s) fun x => baryonAt (S x) k j) =
      timeSum L jd (after len t0 s) fun x => baryonAt (if bc < 0 ∧ (len : Int) ≤ s + t0 then -S x else S x) k j := by
  rw [← timeSum_mul]
  congr 1
  funext x
  unfold bcSign
  split_ifs
  · rw [baryonAt_neg]; ring
  · ring

/-- beyond the end: exactly the slices before the source -/
theorem C99_beyond {len : Nat} {t0 : Nat} (h : t0 < len) {s : Nat} (hs : s < len) : len ≤ s + t0 ↔ after len t0 s < t0 := by
  unfold after
  by_cases h1 : len ≤ s + t0
  · have e : ((t0 : Int) + s) % len = t0 + s - len := by
      rw [← Int.sub_emod_right, Int.emod_eq_of_lt (by omega) (by omega)]
    rw [e]; constructor <;> intro <;> omega
  · have e : ((t0 : Int) + s) % len = t0 + s := Int.emod_eq_of_lt (by omega) (by omega)
    rw [e]; constructor <;> intro <;> omega

example : (8 : Nat) ≤ 6 + 5 ∧ after 8 5 6 = 3 := by decide

/-- C99. Only the slice that is `s` after the source enters into entry `s`: nothing is added from the slice that is `s` before, contrary to the comment. -/
theorem C99_forward_only {L : List Nat} {jd : Nat} (t0 bc : Int) (S S' : List Nat → PM 3) (s : Nat) (k j : Fin 3)
    (h : ∀ x, InRange x L → x.getD jd 0 = after (L.getD jd 0) t0 s → S x = S' x) :
    (table L S jd t0 bc k j)[s]? = (table L S' jd t0 bc k j)[s]? := by
  have e : (timeSum L jd (after (L.getD jd 0) t0 s) fun x => baryonAt (S x) k j) = timeSum L jd (after (L.getD jd 0) t0 s) fun x => baryonAt (S' x) k j := by
    unfold timeSum
    refine siteSum_congr fun x hx => ?_
    split_ifs with hxt
    · show baryonAt (S x) k j = baryonAt (S' x) k j
      rw [h x hx hxt]
    · rfl
  unfold table
  rw [List.getElem?_map, List.getElem?_map]
  by_cases hs : s < L.getD jd 0
  · rw [List.getElem?_range hs]
    simp only [Option.map_some, e]
  · have hn : (List.range (L.getD jd 0))[s]? = none := List.getElem?_eq_none (by rw [List.length_range]; omega)
    rw [hn, Option.map_none, Option.map_none]

/-! ## Spin -/

theorem blk_spin_left (X : Matrix (Fin 4) (Fin 4) ℂ) (S : PM 3) (a b : Fin 4) : blk (onSpin X * S) a b = fun i j => ∑ c, X a c * blk S c b i j := by
  funext i j
  simp only [blk, onSpin, Matrix.mul_apply, Fintype.sum_prod_type, Matrix.kroneckerMap_apply]
  refine sum_congr rfl fun c _ => ?_
  rw [sum_eq_single i]
  · simp
  · intro k _ hk; simp [Matrix.one_apply_ne (Ne.symm hk)]
  · simp

theorem blk_spin_right (X : Matrix (Fin 4) (Fin 4) ℂ) (S : PM 3) (a b : Fin 4) : blk (S * onSpin X) a b = fun i j => ∑ c, X c b * blk S a c i j := by
  funext i j
  simp only [blk, onSpin, Matrix.mul_apply, Fintype.sum_prod_type, Matrix.kroneckerMap_apply]
  refine sum_congr rfl fun c _ => ?_
  rw [sum_eq_single j]
  · simp [mul_comm]
  · intro k _ hk; simp [Matrix.one_apply_ne hk]
  · simp

theorem T_left (X : Matrix (Fin 4) (Fin 4) ℂ) (S : PM 3) (s0 s1 s2 t0 t1 t2 : Fin 4) :
    T (onSpin X * S) s0 s1 s2 t0 t1 t2 = ∑ u2, X s2 u2 * ∑ u0, ∑ u1, X s0 u0 * X s1 u1 * T S u0 u1 u2 t0 t1 t2 := by
  unfold T
  simp only [blk_spin_left]
  rw [cc_sum3]
  refine sum_congr rfl fun u2 _ => ?_
  rw [cc_sum1]
  congr 1
  refine sum_congr rfl fun u0 _ => ?_
  rw [cc_sum2, mul_sum]
  exact sum_congr rfl fun u1 _ => by ring

theorem T_right (X : Matrix (Fin 4) (Fin 4) ℂ) (S : PM 3) (s0 s1 s2 t0 t1 t2 : Fin 4) :
    T (S * onSpin X) s0 s1 s2 t0 t1 t2 = ∑ v2, X v2 t2 * ∑ v0, ∑ v1, X v0 t0 * X v1 t1 * T S s0 s1 s2 v0 v1 v2 := by
  unfold T
  simp only [blk_spin_right]
  rw [cc_sum3]
  refine sum_congr rfl fun u2 _ => ?_
  rw [cc_sum1]
  congr 1
  refine sum_congr rfl fun u0 _ => ?_
  rw [cc_sum2, mul_sum]
  exact sum_congr rfl fun u1 _ => by ring

/-- a matrix taken through -/
theorem through (X M : Matrix (Fin 4) (Fin 4) ℂ) (h : Fin 4 → Fin 4 → ℂ) :
    ∑ s0, ∑ s1, M s0 s1 * ∑ u0, ∑ u1, X s0 u0 * X s1 u1 * h u0 u1 = ∑ u0, ∑ u1, (X.transpose * M * X) u0 u1 * h u0 u1 := by
  simp only [Matrix.mul_apply, Matrix.transpose_apply, Fin.sum_univ_four]
  ring

/-- a kernel in place of three propagators -/
def dirK (K : Fin 4 → Fin 4 → Fin 4 → Fin 4 → Fin 4 → Fin 4 → ℂ) (M M' : Matrix (Fin 4) (Fin 4) ℂ) : Matrix (Fin 4) (Fin 4) ℂ :=
  Matrix.of fun al be => ∑ s0, ∑ s1, ∑ t0, ∑ t1, M s0 s1 * M' t1 t0 * K s0 s1 al t0 t1 be

theorem through3 (X M : Matrix (Fin 4) (Fin 4) ℂ) (m : ℂ) (x : Fin 4 → ℂ) (h : Fin 4 → Fin 4 → Fin 4 → ℂ) :
    ∑ s0, ∑ s1, M s0 s1 * m * ∑ u2, x u2 * ∑ u0, ∑ u1, X s0 u0 * X s1 u1 * h u0 u1 u2 =
      ∑ u2, x u2 * ∑ u0, ∑ u1, (X.transpose * M * X) u0 u1 * m * h u0 u1 u2 := by
  have e : ∀ u2, ∑ u0, ∑ u1, (X.transpose * M * X) u0 u1 * m * h u0 u1 u2 = ∑ s0, ∑ s1, M s0 s1 * ∑ u0, ∑ u1, X s0 u0 * X s1 u1 * (m * h u0 u1 u2) := by
    intro u2
    rw [through X M fun u0 u1 => m * h u0 u1 u2]
    exact sum_congr rfl fun _ _ => sum_congr rfl fun _ _ => by ring
  simp only [e]
  calc _ = ∑ s0, ∑ s1, ∑ u2, x u2 * (M s0 s1 * ∑ u0, ∑ u1, X s0 u0 * X s1 u1 * (m * h u0 u1 u2)) := by
        refine sum_congr rfl fun s0 _ => sum_congr rfl fun s1 _ => ?_
        rw [mul_sum]
        refine sum_congr rfl fun u2 _ => ?_
        have : ∑ u0, ∑ u1, X s0 u0 * X s1 u1 * (m * h u0 u1 u2) = m * ∑ u0, ∑ u1, X s0 u0 * X s1 u1 * h u0 u1 u2 := by
          rw [mul_sum]
          refine sum_congr rfl fun u0 _ => ?_
          rw [mul_sum]
          exact sum_congr rfl fun u1 _ => by ring
        rw [this]; ring
    _ = ∑ s0, ∑ u2, ∑ s1, x u2 * (M s0 s1 * ∑ u0, ∑ u1, X s0 u0 * X s1 u1 * (m * h u0 u1 u2)) := sum_congr rfl fun _ _ => sum_comm
    _ = ∑ u2, ∑ s0, ∑ s1, x u2 * (M s0 s1 * ∑ u0, ∑ u1, X s0 u0 * X s1 u1 * (m * h u0 u1 u2)) := sum_comm
    _ = _ := by simp only [mul_sum]

theorem sums_out (A : Fin 4 → Fin 4 → Fin 4 → Fin 4 → ℂ) : ∑ s0, ∑ s1, ∑ t0, ∑ t1, A s0 s1 t0 t1 = ∑ t0, ∑ t1, ∑ s0, ∑ s1, A s0 s1 t0 t1 :=
  calc _ = ∑ s0, ∑ t0, ∑ s1, ∑ t1, A s0 s1 t0 t1 := sum_congr rfl fun _ _ => sum_comm
    _ = ∑ t0, ∑ s0, ∑ s1, ∑ t1, A s0 s1 t0 t1 := sum_comm
    _ = ∑ t0, ∑ s0, ∑ t1, ∑ s1, A s0 s1 t0 t1 := sum_congr rfl fun _ _ => sum_congr rfl fun _ _ => sum_comm
    _ = _ := sum_congr rfl fun _ _ => sum_comm

theorem dirK_left (X : Matrix (Fin 4) (Fin 4) ℂ) (K K' : Fin 4 → Fin 4 → Fin 4 → Fin 4 → Fin 4 → Fin 4 → ℂ) (M M' : Matrix (Fin 4) (Fin 4) ℂ)
    (h : ∀ s0 s1 s2 t0 t1 t2, K' s0 s1 s2 t0 t1 t2 = ∑ u2, X s2 u2 * ∑ u0, ∑ u1, X s0 u0 * X s1 u1 * K u0 u1 u2 t0 t1 t2) :
    dirK K' M M' = X * dirK K (X.transpose * M * X) M' := by
  ext al be
  rw [Matrix.mul_apply]
  show ∑ s0, ∑ s1, ∑ t0, ∑ t1, M s0 s1 * M' t1 t0 * K' s0 s1 al t0 t1 be =
    ∑ u2, X al u2 * ∑ u0, ∑ u1, ∑ t0, ∑ t1, (X.transpose * M * X) u0 u1 * M' t1 t0 * K u0 u1 u2 t0 t1 be
  rw [sums_out]
  simp only [h]
  calc _ = ∑ t0, ∑ t1, ∑ u2, X al u2 * ∑ u0, ∑ u1, (X.transpose * M * X) u0 u1 * M' t1 t0 * K u0 u1 u2 t0 t1 be :=
        sum_congr rfl fun t0 _ => sum_congr rfl fun t1 _ => through3 X M (M' t1 t0) (fun u2 => X al u2) fun u0 u1 u2 => K u0 u1 u2 t0 t1 be
    _ = ∑ t0, ∑ u2, ∑ t1, X al u2 * ∑ u0, ∑ u1, (X.transpose * M * X) u0 u1 * M' t1 t0 * K u0 u1 u2 t0 t1 be := sum_congr rfl fun _ _ => sum_comm
    _ = ∑ u2, ∑ t0, ∑ t1, X al u2 * ∑ u0, ∑ u1, (X.transpose * M * X) u0 u1 * M' t1 t0 * K u0 u1 u2 t0 t1 be := sum_comm
    _ = _ := by
      refine sum_congr rfl fun u2 _ => ?_
      rw [sums_out, mul_sum]
      exact sum_congr rfl fun t0 _ => by rw [mul_sum]

theorem dirK_right (X : Matrix (Fin 4) (Fin 4) ℂ) (K K' : Fin 4 → Fin 4 → Fin 4 → Fin 4 → Fin 4 → Fin 4 → ℂ) (M M' : Matrix (Fin 4) (Fin 4) ℂ)
    (h : ∀ s0 s1 s2 t0 t1 t2, K' s0 s1 s2 t0 t1 t2 = ∑ v2, X v2 t2 * ∑ v0, ∑ v1, X v0 t0 * X v1 t1 * K s0 s1 s2 v0 v1 v2) :
    dirK K' M M' = dirK K M (X * M' * X.transpose) * X := by
  have hl := dirK_left X.transpose (fun s0 s1 s2 t0 t1 t2 => K t0 t1 t2 s0 s1 s2) (fun s0 s1 s2 t0 t1 t2 => K' t0 t1 t2 s0 s1 s2) M'.transpose M.transpose
    (fun s0 s1 s2 t0 t1 t2 => h t0 t1 t2 s0 s1 s2)
  have ht : ∀ (K : Fin 4 → Fin 4 → Fin 4 → Fin 4 → Fin 4 → Fin 4 → ℂ) (N N' : Matrix (Fin 4) (Fin 4) ℂ),
      dirK (fun s0 s1 s2 t0 t1 t2 => K t0 t1 t2 s0 s1 s2) N'.transpose N.transpose = (dirK K N N').transpose := by
    intro K N N'
    ext al be
    show ∑ s0, ∑ s1, ∑ t0, ∑ t1, N' s1 s0 * N t0 t1 * K t0 t1 be s0 s1 al = ∑ s0, ∑ s1, ∑ t0, ∑ t1, N s0 s1 * N' t1 t0 * K s0 s1 be t0 t1 al
    rw [sums_out]
    exact sum_congr rfl fun _ _ => sum_congr rfl fun _ _ => sum_congr rfl fun _ _ => sum_congr rfl fun _ _ => by ring
  have hm : X.transpose.transpose * M'.transpose * X.transpose = (X * M' * X.transpose).transpose := by
    rw [Matrix.transpose_mul, Matrix.transpose_mul, Matrix.transpose_transpose, Matrix.mul_assoc]
  rw [hm, ht, ht, ← Matrix.transpose_mul] at hl
  exact Matrix.transpose_injective hl

/-- propagators between projected spins -/
theorem codeVal_spin (w : ℂ) (X Y : Matrix (Fin 4) (Fin 4) ℂ) (S : PM 3) (M : Matrix (Fin 4) (Fin 4) ℂ) (hX : X.transpose * M * X = M)
    (hY : Y * M.transpose * Y.transpose = M.transpose) (hP : Y * upProj * X = upProj) : codeVal w (onSpin X * S * onSpin Y) M = codeVal w S M := by
  have hd : dirK (T (onSpin X * S * onSpin Y)) M M.transpose = X * dirK (T S) M M.transpose * Y := by
    rw [dirK_right Y (T (onSpin X * S)) _ M M.transpose (fun s0 s1 s2 t0 t1 t2 => T_right Y _ s0 s1 s2 t0 t1 t2), hY,
      dirK_left X (T S) _ M M.transpose (fun s0 s1 s2 t0 t1 t2 => T_left X S s0 s1 s2 t0 t1 t2), hX]
  have he : dirK (fun s0 s1 s2 t0 t1 t2 => T (onSpin X * S * onSpin Y) s0 s1 s2 t0 t2 t1) M M.transpose =
      X * dirK (fun s0 s1 s2 t0 t1 t2 => T S s0 s1 s2 t0 t2 t1) M M.transpose * Y := by
    rw [dirK_right Y (fun s0 s1 s2 t0 t1 t2 => T (onSpin X * S) s0 s1 s2 t0 t2 t1) _ M M.transpose, hY,
      dirK_left X (fun s0 s1 s2 t0 t1 t2 => T S s0 s1 s2 t0 t2 t1) _ M M.transpose (fun s0 s1 s2 t0 t1 t2 => T_left X S s0 s1 s2 t0 t2 t1), hX]
    intro s0 s1 s2 t0 t1 t2
    rw [← T_swap12, T_right]
    refine sum_congr rfl fun v2 _ => ?_
    congr 1
    refine sum_congr rfl fun v0 _ => sum_congr rfl fun v1 _ => ?_
    rw [T_swap12]
  have hc : ∀ S : PM 3, codeVal w S M = 2 * (upProj * (dirK (T S) M M.transpose + w • dirK (fun s0 s1 s2 t0 t1 t2 => T S s0 s1 s2 t0 t2 t1) M M.transpose)).trace :=
    fun S => rfl
  rw [hc, hc, hd, he, ← Matrix.smul_mul, ← Matrix.mul_smul, ← Matrix.add_mul, ← Matrix.mul_add]
  generalize dirK (T S) M M.transpose + w • dirK (fun s0 s1 s2 t0 t1 t2 => T S s0 s1 s2 t0 t2 t1) M M.transpose = D
  congr 1
  rw [← Matrix.mul_assoc, Matrix.trace_mul_comm, ← Matrix.mul_assoc, ← Matrix.mul_assoc, hP]

/-- the upper components -/
noncomputable def upper : Matrix (Fin 4) (Fin 4) ℂ := (1 / 2 : ℂ) • (1 + gam 3)

theorem upper_entries : upper = !![1 / 2, 0, 1 / 2, 0; 0, 1 / 2, 0, 1 / 2; 1 / 2, 0, 1 / 2, 0; 0, 1 / 2, 0, 1 / 2] := by
  unfold upper
  ext a b
  fin_cases a <;> fin_cases b <;> simp [gam, Matrix.one_apply]

theorem upProj_entries : upProj = !![0, 0, 0, 0; 0, 1 / 2, 0, 1 / 2; 0, 0, 0, 0; 0, 1 / 2, 0, 1 / 2] := by
  have e : (1 / 2 : ℂ) • (1 - Complex.I • (gam 0 * gam 1)) = !![0, 0, 0, 0; 0, 1, 0, 0; 0, 0, 0, 0; 0, 0, 0, 1] := by
    ext a b
    fin_cases a <;> fin_cases b <;> simp [gam, Matrix.one_apply, Matrix.mul_apply, Fin.sum_univ_four] <;> norm_num
  have e2 : upProj = upper * ((1 / 2 : ℂ) • (1 - Complex.I • (gam 0 * gam 1))) := rfl
  rw [e2, e, upper_entries]
  ext a b
  fin_cases a <;> fin_cases b <;> simp [Matrix.mul_apply, Fin.sum_univ_four]

/-- C99. `B_3` is made of upper components only: the propagator between the projections (1 + gamma_4)/2 gives the same. -/
theorem C99_nonrelativistic (S : PM 3) (j : Fin 3) : baryonAt (onSpin upper * S * onSpin upper) 2 j = baryonAt S 2 j := by
  have ht : upper.transpose = upper := by
    rw [upper_entries]
    ext a b
    fin_cases a <;> fin_cases b <;> simp
  have hP : upper * upProj * upper = upProj := by
    rw [upper_entries, upProj_entries]
    ext a b
    fin_cases a <;> fin_cases b <;> simp [Matrix.mul_apply, Fin.sum_univ_four] <;> norm_num
  have h5 : upper * diquark gam5 2 * upper = diquark gam5 2 := by
    show upper * (C * gam5 - C * gam 3 * gam5) * upper = C * gam5 - C * gam 3 * gam5
    rw [C5_entries, C45_entries, upper_entries]
    ext a b
    fin_cases a <;> fin_cases b <;> simp [Matrix.mul_apply, Fin.sum_univ_four] <;> norm_num
  have hM : upper * diquark gMinus 2 * upper = diquark gMinus 2 := by
    show upper * (C * gMinus - C * gam 3 * gMinus) * upper = C * gMinus - C * gam 3 * gMinus
    rw [CM_entries, C4M_entries, upper_entries]
    ext a b
    fin_cases a <;> fin_cases b <;> simp [Matrix.mul_apply, Fin.sum_univ_four] <;> norm_num
  have tr : ∀ M : Matrix (Fin 4) (Fin 4) ℂ, upper * M * upper = M → upper * M.transpose * upper.transpose = M.transpose := by
    intro M h
    conv_rhs => rw [← h, Matrix.transpose_mul, Matrix.transpose_mul, ht, ← Matrix.mul_assoc]
    rw [ht]
  obtain ⟨a0, a1, a2⟩ := baryonAt_code S 2
  obtain ⟨b0, b1, b2⟩ := baryonAt_code (onSpin upper * S * onSpin upper) 2
  have v5 : ∀ w, codeVal w (onSpin upper * S * onSpin upper) (diquark gam5 2) = codeVal w S (diquark gam5 2) :=
    fun w => codeVal_spin w upper upper S _ (by rw [ht]; exact h5) (tr _ h5) hP
  have vM : ∀ w, codeVal w (onSpin upper * S * onSpin upper) (diquark gMinus 2) = codeVal w S (diquark gMinus 2) :=
    fun w => codeVal_spin w upper upper S _ (by rw [ht]; exact hM) (tr _ hM) hP
  fin_cases j
  · show baryonAt _ 2 0 = baryonAt S 2 0
    rw [a0, b0, v5]
  · show baryonAt _ 2 1 = baryonAt S 2 1
    rw [a1, b1, v5]
  · show baryonAt _ 2 2 = baryonAt S 2 2
    rw [a2, b2, vM]

/-- the spin along the third axis, twice -/
noncomputable def sigma3 : Matrix (Fin 4) (Fin 4) ℂ := -Complex.I • (gam 0 * gam 1)

theorem sigma3_entries : sigma3 = !![-1, 0, 0, 0; 0, 1, 0, 0; 0, 0, -1, 0; 0, 0, 0, 1] := by
  unfold sigma3
  ext a b
  fin_cases a <;> fin_cases b <;> simp [gam, Matrix.mul_apply, Fin.sum_univ_four]

/-- C99. The projector: hermitian, idempotent, of rank one, on positive parity and spin up. -/
theorem C99_projector : upProj * upProj = upProj ∧ upProj.conjTranspose = upProj ∧ upProj.trace = 1 ∧ gam 3 * upProj = upProj ∧ sigma3 * upProj = upProj := by
  have h4 : gam 3 = !![0, 0, 1, 0; 0, 0, 0, 1; 1, 0, 0, 0; 0, 1, 0, 0] := rfl
  rw [h4, upProj_entries, sigma3_entries]
  refine ⟨?_, ?_, ?_, ?_, ?_⟩
  · ext a b
    fin_cases a <;> fin_cases b <;> simp [Matrix.mul_apply, Fin.sum_univ_four] <;> norm_num
  · ext a b
    rw [Matrix.conjTranspose_apply]
    fin_cases a <;> fin_cases b <;> simp
  · simp [Matrix.trace, Fin.sum_univ_four]; norm_num
  · ext a b
    fin_cases a <;> fin_cases b <;> simp [Matrix.mul_apply, Fin.sum_univ_four]
  · ext a b
    fin_cases a <;> fin_cases b <;> simp [Matrix.mul_apply, Fin.sum_univ_four]

/-- C99. The diquarks: with gamma_5 their spin is zero, with gamma_- it is one along the third axis, so that with a third quark of spin up the
operators have spin 1/2 and 3/2. -/
theorem C99_spin (k : Fin 3) : sigma3.transpose * diquark gam5 k + diquark gam5 k * sigma3 = 0 ∧
    sigma3.transpose * diquark gMinus k + diquark gMinus k * sigma3 = (2 : ℂ) • diquark gMinus k := by
  unfold diquark
  rw [sigma3_entries, C5_entries, C45_entries, CM_entries, C4M_entries]
  constructor
  · ext a b
    fin_cases k <;> fin_cases a <;> fin_cases b <;> simp [Matrix.mul_apply, Fin.sum_univ_four]
  · ext a b
    fin_cases k <;> fin_cases a <;> fin_cases b <;> simp [Matrix.mul_apply, Fin.sum_univ_four] <;> norm_num

/-- C99. `C` is charge conjugation: `C gamma C^-1 = -gamma^T`; it is `Gamma(10)`. -/
theorem C99_charge_conjugation (mu : Fin 4) : C * gam mu = -((gam mu).transpose * C) ∧ C * C.transpose = 1 ∧ C = Gam 10 := by
  refine ⟨?_, ?_, ?_⟩
  · rw [C_entries]
    ext a b
    fin_cases mu <;> fin_cases a <;> fin_cases b <;> simp [gam, Matrix.mul_apply, Fin.sum_univ_four]
  · rw [C_entries]
    ext a b
    fin_cases a <;> fin_cases b <;> simp [Matrix.mul_apply, Fin.sum_univ_four]
  · exact Gam_lit.2.2.2.2.2.1.symm

/-- C99. The comments on the matrices: `C gamma_5 = Gamma(5)` is right; `C gamma_5 gamma_4` is `Gamma(13)` and not `-Gamma(13)`, which is
`C gamma_4 gamma_5`, the matrix of the comment at the head of the function. -/
theorem C99_matrices : C * gam5 = Gam 5 ∧ C * gam5 * gam 3 = Gam 13 ∧ C * gam 3 * gam5 = -Gam 13 ∧ C * gam5 * gam 3 ≠ -Gam 13 := by
  have h5 : Gam 5 = C * gam5 := cg5_eq.1
  have h13 : Gam 13 = -(C * gam 3 * gam5) := cg5_eq.2
  have e : C * gam5 * gam 3 = Gam 13 := by
    rw [h13, C5_entries, C45_entries]
    ext a b
    fin_cases a <;> fin_cases b <;> simp [gam, Matrix.mul_apply, Fin.sum_univ_four]
  refine ⟨h5.symm, e, by rw [h13, neg_neg], ?_⟩
  rw [e, h13, neg_neg, C45_entries]
  intro h
  have := congrFun (congrFun h 0) 3
  simp at this
  norm_num at this

/-! ## A value -/

theorem T_one (s0 s1 s2 t0 t1 t2 : Fin 4) : T 1 s0 s1 s2 t0 t1 t2 = if s0 = t0 then if s1 = t1 then if s2 = t2 then 6 else 0 else 0 else 0 := by
  have hb : ∀ a b : Fin 4, blk 1 a b = if a = b then fun i j => if i = j then 1 else 0 else fun _ _ => 0 := by
    intro a b
    funext i j
    unfold blk
    rw [Matrix.one_apply]
    split_ifs with h1 h2 h2 <;> simp_all
  unfold T
  rw [hb, hb, hb]
  split_ifs <;> simp [colorContract]
  norm_num

theorem codeVal_one (w : ℂ) (M : Matrix (Fin 4) (Fin 4) ℂ) :
    codeVal w 1 M = 12 * (upProj * ((M * M.transpose).trace • 1 + w • (M.transpose * M))).trace := by
  unfold codeVal
  have : (Matrix.of fun al be => dir 1 M M.transpose al be + w * exch 1 M M.transpose al be) = (6 : ℂ) • ((M * M.transpose).trace • 1 + w • (M.transpose * M)) := by
    ext al be
    have hd : dir 1 M M.transpose al be = 6 * ((M * M.transpose).trace * (1 : Matrix (Fin 4) (Fin 4) ℂ) al be) := by
      unfold dir
      simp only [T_one, Matrix.transpose_apply, Matrix.trace, Matrix.diag, Matrix.mul_apply, mul_sum, sum_mul]
      refine sum_congr rfl fun s0 _ => sum_congr rfl fun s1 _ => ?_
      rw [sum_eq_single s0]
      · rw [sum_eq_single s1]
        · rw [if_pos rfl, if_pos rfl, Matrix.one_apply]
          split_ifs <;> ring
        · intro t _ ht; rw [if_pos rfl, if_neg (Ne.symm ht), mul_zero]
        · simp
      · intro t _ ht
        exact sum_eq_zero fun t' _ => by rw [if_neg (Ne.symm ht), mul_zero]
      · simp
    have he : exch 1 M M.transpose al be = 6 * (M.transpose * M) al be := by
      unfold exch
      simp only [T_one, mul_ite, mul_zero, Matrix.transpose_apply, Matrix.mul_apply, mul_sum]
      refine sum_congr rfl fun s0 _ => ?_
      rw [sum_eq_single be]
      · rw [sum_eq_single s0]
        · simp; ring
        · intro t _ ht; simp [Ne.symm ht]
        · simp
      · intro t _ ht; simp [ht]
      · simp
    simp only [Matrix.of_apply, hd, he, Matrix.smul_apply, Matrix.add_apply, smul_eq_mul]
    ring
  rw [this, Matrix.mul_smul, Matrix.trace_smul, smul_eq_mul]
  ring

/-- with the unit matrix for the propagator the protons `B_1`, `B_2`, `B_3` are 30, 30 and 72 -/
theorem C99_values : baryonAt 1 0 0 = 30 ∧ baryonAt 1 1 0 = 30 ∧ baryonAt 1 2 0 = 72 := by
  refine ⟨?_, ?_, ?_⟩
  · rw [(baryonAt_code 1 0).1, codeVal_one]
    show 12 * (upProj * (((C * gam5) * (C * gam5).transpose).trace • 1 + (1 : ℂ) • ((C * gam5).transpose * (C * gam5)))).trace / 2 = 30
    rw [C5_entries, upProj_entries]
    simp only [Matrix.trace, Matrix.diag, Matrix.mul_apply, Fin.sum_univ_four, Matrix.add_apply, Matrix.smul_apply, Matrix.transpose_apply, Matrix.one_apply]
    simp
    norm_num
  · rw [(baryonAt_code 1 1).1, codeVal_one]
    show 12 * (upProj * (((C * gam 3 * gam5) * (C * gam 3 * gam5).transpose).trace • 1 + (1 : ℂ) • ((C * gam 3 * gam5).transpose * (C * gam 3 * gam5)))).trace / 2 = 30
    rw [C45_entries, upProj_entries]
    simp only [Matrix.trace, Matrix.diag, Matrix.mul_apply, Fin.sum_univ_four, Matrix.add_apply, Matrix.smul_apply, Matrix.transpose_apply, Matrix.one_apply]
    simp
    norm_num
  · rw [(baryonAt_code 1 2).1, codeVal_one]
    show 12 * (upProj * (((C * gam5 - C * gam 3 * gam5) * (C * gam5 - C * gam 3 * gam5).transpose).trace • 1 +
      (1 : ℂ) • ((C * gam5 - C * gam 3 * gam5).transpose * (C * gam5 - C * gam 3 * gam5)))).trace / 2 = 72
    have e : C * gam5 - C * gam 3 * gam5 = !![0, -1, 0, -1; 1, 0, 1, 0; 0, -1, 0, -1; 1, 0, 1, 0] := by
      rw [C5_entries, C45_entries]
      ext a b
      fin_cases a <;> fin_cases b <;> simp
    rw [e, upProj_entries]
    simp only [Matrix.trace, Matrix.diag, Matrix.mul_apply, Fin.sum_univ_four, Matrix.add_apply, Matrix.smul_apply, Matrix.transpose_apply, Matrix.one_apply]
    simp
    norm_num

/-- C99. `B_3` is the difference of `B_1` and `B_2` as an operator; the correlation functions are not proportional to the difference. -/
theorem C99_not_difference : ¬ ∃ c : ℂ, ∀ S : PM 3, baryonAt S 2 0 = c * (baryonAt S 0 0 - baryonAt S 1 0) := by
  rintro ⟨c, h⟩
  obtain ⟨h0, h1, h2⟩ := C99_values
  have := h 1
  rw [h0, h1, h2] at this
  norm_num at this

/-- C99. A phase is a gauge transformation of U(3) that changes the proton. -/
theorem C99_gauge_u3 : ∃ U : Mat 3, star U * U = 1 ∧ baryonAt (onColour U * 1) 0 0 ≠ baryonAt 1 0 0 := by
  refine ⟨-1, by simp, ?_⟩
  have := C99_gauge (-1) 1 1 0 0
  rw [onColour_one, Matrix.mul_one] at this
  rw [this, C99_values.1, Matrix.det_neg]
  simp
  norm_num

end Verif.Baryon
