import Verif.HadronProps
/-
C98: running `FormFac`.
-/
namespace Verif.Hadron
open Verif Outcome Verif.Layout Verif.ParLayout Verif.ParMap Verif.Spmd Verif.Shift Verif.Subset
open Verif.Gauge (Mat GaugeField shiftF up siteSum transform UnitaryOn Setup all_legal siteSum_congr source_up shift_legal)
open Verif.Dslash (gam gam5 down wilson)
open Finset
open scoped Kronecker

/-! ## Momenta -/

/-- the momenta written, in order -/
def momentaOf (nd : Nat) (ms : List Nat) : List (List Int) :=
  (ms.map fun m => (digits m (List.replicate (nd - 1) 5)).map fun (x : Nat) => (x : Int) - 2).filter fun p => qSq p ≤ 4

def momenta (nd : Nat) : List (List Int) := momentaOf nd (List.range (5 ^ (nd - 1)))

theorem inserMom_ok (nd m : Nat) : inserMom nd m = ok ((digits m (List.replicate (nd - 1) 5)).map fun (x : Nat) => (x : Int) - 2) := by
  unfold inserMom
  rw [crtesn_eq (by intro l hl; rw [List.eq_of_mem_replicate hl]; omega)]
  rfl

theorem nsites_replicate (l n : Nat) : nsites (List.replicate n l) = l ^ n := by
  induction n with
  | zero => rfl
  | succ n ih => rw [List.replicate_succ, nsites, ih, pow_succ, mul_comm]

theorem inRange_replicate {l n : Nat} {c : List Nat} : InRange c (List.replicate n l) ↔ c.length = n ∧ ∀ x ∈ c, x < l := by
  induction n generalizing c with
  | zero => cases c <;> simp [InRange]
  | succ n ih =>
    cases c with
    | nil => simp [List.replicate_succ, InRange]
    | cons x c =>
      rw [List.replicate_succ]
      show x < l ∧ InRange c _ ↔ _
      rw [ih]
      simp only [List.length_cons, List.mem_cons, forall_eq_or_imp, Nat.add_right_cancel_iff]
      tauto

theorem qSq_mem {p : List Int} {x : Int} (h : x ∈ p) : x * x ≤ qSq p := by
  induction p with
  | nil => simp at h
  | cons y p ih =>
    have h2 : 0 ≤ qSq p := List.sum_nonneg (by simp; intro a _; exact mul_self_nonneg a)
    have h3 : qSq (y :: p) = y * y + qSq p := rfl
    rcases List.mem_cons.1 h with rfl | h
    · omega
    · have := ih h
      have := mul_self_nonneg y
      omega

/-- all momenta with `p^2 <= 4` -/
theorem mem_momenta {nd : Nat} {p : List Int} : p ∈ momenta nd ↔ p.length = nd - 1 ∧ (p.map fun x => x ^ 2).sum ≤ 4 := by
  have hq : (p.map fun x => x ^ 2).sum = qSq p := by simp only [qSq, sq]
  rw [hq]
  unfold momenta momentaOf
  rw [List.mem_filter, List.mem_map]
  constructor
  · rintro ⟨⟨m, hm, rfl⟩, h⟩
    have hr := digits_inRange (L := List.replicate (nd - 1) 5) (p := m) (by rw [nsites_replicate]; exact List.mem_range.1 hm)
    exact ⟨by rw [List.length_map]; exact (inRange_replicate.1 hr).1, of_decide_eq_true h⟩
  · rintro ⟨hl, h⟩
    refine ⟨?_, decide_eq_true h⟩
    have hb : ∀ x ∈ p, -2 ≤ x ∧ x ≤ 2 := by
      intro x hx
      have h1 := le_trans (qSq_mem hx) h
      constructor <;> nlinarith
    have hr : InRange (p.map fun x => (x + 2).toNat) (List.replicate (nd - 1) 5) := by
      refine inRange_replicate.2 ⟨by rw [List.length_map, hl], fun x hx => ?_⟩
      obtain ⟨y, hy, rfl⟩ := List.mem_map.1 hx
      have := hb y hy
      omega
    refine ⟨rank (p.map fun x => (x + 2).toNat) (List.replicate (nd - 1) 5), ?_, ?_⟩
    · have := rank_lt hr
      rw [nsites_replicate] at this
      exact List.mem_range.2 this
    · rw [digits_rank hr, List.map_map]
      conv_rhs => rw [← List.map_id p]
      refine List.map_congr_left fun x hx => ?_
      have := hb x hx
      show (((x + 2).toNat : Nat) : Int) - 2 = x
      omega

/-- each once -/
theorem nodup_momenta (nd : Nat) : (momenta nd).Nodup := by
  unfold momenta momentaOf
  refine List.Nodup.filter _ (List.Nodup.map_on (fun m hm m' hm' h => ?_) List.nodup_range)
  have hs : ∀ m ∈ List.range (5 ^ (nd - 1)), m < nsites (List.replicate (nd - 1) 5) := fun m hm => by
    rw [nsites_replicate]; exact List.mem_range.1 hm
  have hd : digits m (List.replicate (nd - 1) 5) = digits m' (List.replicate (nd - 1) 5) :=
    List.map_injective_iff.2 (fun a b hab => by simpa using hab) h
  rw [← rank_digits (hs m hm), ← rank_digits (hs m' hm'), hd]

/-! ## The phase -/

theorem pDotX_eq (jd : Nat) (p : List Int) : ∀ (L x : List Nat) (nu : Nat), x.length = L.length →
    pDotX jd p nu (if nu ≤ jd then nu else nu - 1) L (x.map fun (c : Nat) => (c : ℝ)) =
      ∑ i ∈ range L.length, if nu + i = jd then 0 else
        2 * Real.pi * (p.getD (if nu + i < jd then nu + i else nu + i - 1) 0 : Int) * x.getD i 0 / L.getD i 0
  | [], [], nu, _ => by simp [pDotX]
  | [], _ :: _, _, h => by simp at h
  | _ :: _, [], _, h => by simp at h
  | l :: L, c :: x, nu, h => by
    have ih := pDotX_eq jd p L x (nu + 1) (by simpa using h)
    rw [List.length_cons, sum_range_succ', List.map_cons]
    have hsh : ∀ i, (if nu + (i + 1) = jd then (0 : ℝ) else
        2 * Real.pi * (p.getD (if nu + (i + 1) < jd then nu + (i + 1) else nu + (i + 1) - 1) 0 : Int) * (c :: x).getD (i + 1) 0 / (l :: L).getD (i + 1) 0) =
        if nu + 1 + i = jd then 0 else
        2 * Real.pi * (p.getD (if nu + 1 + i < jd then nu + 1 + i else nu + 1 + i - 1) 0 : Int) * x.getD i 0 / L.getD i 0 := by
      intro i
      rw [show nu + (i + 1) = nu + 1 + i by omega]
      simp only [List.getD_cons_succ]
    simp only [hsh]
    rw [← ih]
    show (if nu = jd then pDotX jd p (nu + 1) _ L _ else _ * (2 * Real.pi) * _ / _ + pDotX jd p (nu + 1) _ L _) = _
    simp only [Nat.add_zero, List.getD_cons_zero]
    by_cases hj : nu = jd
    · rw [if_pos hj, if_pos hj, add_zero]
      congr 1
      split_ifs <;> omega
    · rw [if_neg hj, if_neg hj]
      have e1 : (if nu ≤ jd then nu else nu - 1) + 1 = if nu + 1 ≤ jd then nu + 1 else nu + 1 - 1 := by
        split_ifs <;> omega
      have e2 : (if nu ≤ jd then nu else nu - 1) = if nu < jd then nu else nu - 1 := by
        split_ifs <;> omega
      rw [e1, e2]
      ring

theorem inRange_length : ∀ {c L : List Nat}, InRange c L → c.length = L.length
  | [], [], _ => rfl
  | _ :: _, _ :: _, h => by simp [inRange_length h.2]
  | [], _ :: _, h => h.elim
  | _ :: _, [], h => h.elim

theorem phase_at {n : Nat} {L : List Nat} {jd b : Nat} {p : List Int} {f : Nat → List Nat → V n}
    (hc : ∀ nu, nu < L.length → ∀ x, f (b + nu) x = zv ((x.getD nu 0 : Nat) : ℂ)) {x : List Nat} (hx : InRange x L) :
    ((phaseRhs L jd b p).at f x).z = phase L jd p x := by
  have hl := inRange_length hx
  have e : (((List.range L.length).map (b + ·)).map fun m => f m x).map (fun v => v.z.re) = x.map fun (c : Nat) => (c : ℝ) := by
    rw [List.map_map, List.map_map]
    refine List.ext_getElem (by simp [hl]) fun i h h' => ?_
    have hi : i < L.length := by simpa using h
    simp only [List.getElem_map, List.getElem_range, Function.comp]
    rw [hc i hi]
    show (((x.getD i 0 : Nat) : ℂ)).re = _
    rw [Complex.natCast_re]
    congr 1
    simp [List.getD, hl, hi]
  have hd := pDotX_eq jd p L x 0 hl
  rw [if_pos (Nat.zero_le _)] at hd
  show (⟨Real.cos (pDotX jd p 0 0 L ((((List.range L.length).map (b + ·)).map fun m => f m x).map (fun v => v.z.re))),
    Real.sin (pDotX jd p 0 0 L ((((List.range L.length).map (b + ·)).map fun m => f m x).map (fun v => v.z.re)))⟩ : ℂ) = _
  rw [e, hd]
  have ed : (∑ i ∈ range L.length, if 0 + i = jd then (0 : ℝ) else
        2 * Real.pi * (p.getD (if 0 + i < jd then 0 + i else 0 + i - 1) 0 : Int) * x.getD i 0 / L.getD i 0) = dot L jd p x := by
    unfold dot
    simp only [Nat.zero_add]
  rw [ed, phase, mul_comm, Complex.exp_mul_I]
  apply Complex.ext <;> simp [Complex.cos_ofReal_re, Complex.sin_ofReal_re, Complex.cos_ofReal_im, Complex.sin_ofReal_im]

/-! ## The loop over the momenta -/

/-- what is written for a current and a momentum -/
noncomputable def curRec (L : List Nat) (jd : Nat) (t0 : Int) (mu : Nat) (JL JN : List Nat → ℂ) (p : List Int) : Rec :=
  ⟨mu, p, (List.range (L.getD jd 0)).map fun s => timeSum L jd (after (L.getD jd 0) t0 s) fun x => phase L jd p x * JL x,
    (List.range (L.getD jd 0)).map fun s => 1 / 2 * timeSum L jd (after (L.getD jd 0) t0 s) fun x => phase L jd p x * JN x⟩

theorem list_as_range {K : Type} [Inhabited K] {a : List K} {len : Nat} (h : a.length = len) : a = (List.range len).map fun s => a.getD s default := by
  refine List.ext_getElem (by simp [h]) fun i h1 h2 => ?_
  simp [List.getD, h1]

theorem fillCur_ok {len : Nat} {t0 : Int} (hlen : 2 * len < 2 ^ 31) (h0 : -(2 ^ 31 - 2 * (len : Int)) < t0) (h1 : t0 ≤ len) (mu : Nat) (p : List Int)
    (a b : Nat → ℂ) (st : FState) (hl : st.loc.length = len) (hn : st.non.length = len) :
    fillCur len t0 mu p ((List.range len).map a) ((List.range len).map b) st = ok
      ⟨(List.range len).map fun s => a (after len t0 s), (List.range len).map fun s => 1 / 2 * b (after len t0 s),
        st.out ++ [⟨mu, p, (List.range len).map fun s => a (after len t0 s), (List.range len).map fun s => 1 / 2 * b (after len t0 s)⟩]⟩ := by
  unfold fillCur
  rw [slots_eq hlen h0 h1 _ (fun t _ => a t) st.loc _ (list_as_range hl) (fun t ht x => rd_range ht a)]
  show (slots len t0 (fun t _ _ => do let h ← rd ((List.range len).map b) t; return 0.5 * h) (List.range len) st.non >>= fun non => ok (FState.mk _ non _)) = _
  rw [slots_eq hlen h0 h1 _ (fun t _ => 1 / 2 * b t) st.non _ (list_as_range hn) (fun t ht x => by
    rw [rd_range ht]
    show ok (0.5 * b t) = _
    norm_num)]
  rfl

theorem momLoop_run {n : Nat} {R : Type} {L : List Nat} {jd : Nat} (hjd : jd < L.length) {t0 : Int} (hlen : 2 * L.getD jd 0 < 2 ^ 31)
    (h0 : -(2 ^ 31 - 2 * (L.getD jd 0 : Int)) < t0) (h1 : t0 ≤ L.getD jd 0) {b c mu : Nat} (hbc : b + L.length ≤ c) (JL JN : List Nat → ℂ)
    (k : Outcome FState → Prog (V n) R) : ∀ (ms : List Nat) (st : FState) (f : Nat → List Nat → V n),
    (∀ nu, nu < L.length → ∀ x, f (b + nu) x = zv ((x.getD nu 0 : Nat) : ℂ)) →
    (∀ x, InRange x L → (f (c + 1) x).z = JL x) → (∀ x, InRange x L → (f (c + 3) x).z = JN x) → st.loc.length = L.getD jd 0 → st.non.length = L.getD jd 0 →
    ∃ f' st', (∀ y, y < c + 6 → f' y = f y) ∧ st'.loc.length = L.getD jd 0 ∧ st'.non.length = L.getD jd 0 ∧
      st'.out = st.out ++ (momentaOf L.length ms).map (curRec L jd t0 mu JL JN) ∧ Leads L (momLoop L jd t0 b c mu ms (ok st) k) f (k (ok st')) f'
  | [], st, f, _, _, _, hl, hn => ⟨f, st, fun _ _ => rfl, hl, hn, by simp [momentaOf], by simp only [momLoop]; exact Leads.rfl'⟩
  | m :: ms, st, f, hc, hL, hN, hl, hn => by
    have ihm := momLoop_run (mu := mu) hjd hlen h0 h1 hbc JL JN k ms
    have hcons : momentaOf L.length (m :: ms) = ([(digits m (List.replicate (L.length - 1) 5)).map fun (x : Nat) => (x : Int) - 2].filter fun p => qSq p ≤ 4) ++
        momentaOf L.length ms := by
      rw [momentaOf, List.map_cons, ← List.singleton_append, List.filter_append]; rfl
    unfold momLoop
    rw [inserMom_ok, hcons]
    generalize (digits m (List.replicate (L.length - 1) 5)).map (fun (x : Nat) => (x : Int) - 2) = p
    dsimp only
    by_cases hq : qSq p > 4
    · rw [if_pos hq]
      obtain ⟨f', st', hf', l1, l2, o, hle⟩ := ihm st f hc hL hN hl hn
      refine ⟨f', st', hf', l1, l2, ?_, hle⟩
      rw [o, List.filter_cons_of_neg (by simpa using hq)]
      rfl
    · rw [if_neg hq]
      let f1 := Function.update f (c + 6) ((phaseRhs L jd b p).at f)
      have hlow : ∀ y, y < c + 6 → f1 y = f y := fun y hy => Function.update_of_ne (by omega) _ _
      have hph : ∀ x, InRange x L → (f1 (c + 6) x).z = phase L jd p x := fun x hx => by
        simp only [f1, Function.update_self]; exact phase_at hc hx
      have hs1 : ∀ t, (timeSum L jd t fun x => ((zmul (c + 6) (c + 1)).at f1 x).z) = timeSum L jd t fun x => phase L jd p x * JL x := fun t =>
        timeSum_congr fun x hx => by
          show (f1 (c + 6) x).z * (f1 (c + 1) x).z = _
          rw [hph x hx, hlow _ (by omega), hL x hx]
      have hs2 : ∀ t, (timeSum L jd t fun x => ((zmul (c + 6) (c + 3)).at f1 x).z) = timeSum L jd t fun x => phase L jd p x * JN x := fun t =>
        timeSum_congr fun x hx => by
          show (f1 (c + 6) x).z * (f1 (c + 3) x).z = _
          rw [hph x hx, hlow _ (by omega), hN x hx]
      obtain ⟨f', st', hf', l1, l2, o, hle⟩ := ihm
        ⟨(curRec L jd t0 mu JL JN p).loc, (curRec L jd t0 mu JL JN p).non, st.out ++ [curRec L jd t0 mu JL JN p]⟩ f1
        (fun nu hnu x => by rw [hlow _ (by omega)]; exact hc nu hnu x) (fun x hx => by rw [hlow _ (by omega)]; exact hL x hx)
        (fun x hx => by rw [hlow _ (by omega)]; exact hN x hx) (by simp [curRec]) (by simp [curRec])
      refine ⟨f', st', fun y hy => (hf' y hy).trans (hlow y hy), l1, l2, ?_, ?_⟩
      · rw [o, List.filter_cons_of_pos (by simpa using hq), List.filter_nil, List.map_append, ← List.append_assoc]; rfl
      · refine Leads.trans (leads_assign _ _ _ _) (Leads.trans (leads_sumAll hjd _ _ _) (Leads.trans (leads_sumAll hjd _ _ _) ?_))
        have e1 : ((List.range (L.getD jd 0)).map fun t => timeSum L jd t fun x => ((zmul (c + 6) (c + 1)).at f1 x).z) =
            (List.range (L.getD jd 0)).map fun t => timeSum L jd t fun x => phase L jd p x * JL x := by simp only [hs1]
        have e2 : ((List.range (L.getD jd 0)).map fun t => timeSum L jd t fun x => ((zmul (c + 6) (c + 3)).at f1 x).z) =
            (List.range (L.getD jd 0)).map fun t => timeSum L jd t fun x => phase L jd p x * JN x := by simp only [hs2]
        show Leads L (momLoop L jd t0 b c mu ms (fillCur _ t0 mu p ((List.range (L.getD jd 0)).map fun t => timeSum L jd t fun x => ((zmul (c + 6) (c + 1)).at f1 x).z)
          ((List.range (L.getD jd 0)).map fun t => timeSum L jd t fun x => ((zmul (c + 6) (c + 3)).at f1 x).z) st) k) f1 _ _
        rw [e1, e2, fillCur_ok hlen h0 h1 mu p _ _ st hl hn]
        exact hle

/-! ## The loop over the currents -/

/-- the gauge field held by the fields 0, 1, ... -/
def lk {n : Nat} (f : Nat → List Nat → V n) : GaugeField n := fun mu x => (f mu x).m

/-- the records of a direction -/
noncomputable def curRecs {n : Nat} (L : List Nat) (u : GaugeField n) (A Q : List Nat → PM n) (jd : Nat) (t0 : Int) (mu : Nat) : List Rec :=
  (momenta L.length).map (curRec L jd t0 mu (localJ A Q (Fin.ofNat 4 mu)) (conservedJ L u A Q (Fin.ofNat 4 mu)))

theorem curLoop_run {n : Nat} {R : Type} {L : List Nat} {jd : Nat} (hjd : jd < L.length) (hL : ∀ l ∈ L, 5 * l < 2 ^ 31) (h4 : L.length ≤ 4) {t0 : Int}
    (h0 : -(2 ^ 31 - 2 * (L.getD jd 0 : Int)) < t0) (h1 : t0 ≤ L.getD jd 0) {q b c : Nat} (hb : L.length ≤ b) (hq : q < b) (hbc : b + L.length ≤ c)
    (u : GaugeField n) (A Q : List Nat → PM n) (k : Outcome FState → Prog (V n) R) : ∀ (mus : List Nat) (st : FState) (f : Nat → List Nat → V n),
    (∀ mu ∈ mus, mu < L.length) →
    (∀ nu, nu < L.length → ∀ x, f (b + nu) x = zv ((x.getD nu 0 : Nat) : ℂ)) → (∀ mu, mu < L.length → ∀ x, (f mu x).m = u mu x) → pr (f q) = Q → pr (f c) = A →
    st.loc.length = L.getD jd 0 → st.non.length = L.getD jd 0 →
    ∃ f' st', (∀ y, y < c + 1 → f' y = f y) ∧ st'.out = st.out ++ mus.flatMap (curRecs L u A Q jd t0) ∧
      Leads L (curLoop L jd t0 q b c mus (ok st) k) f (k (ok st')) f'
  | [], st, f, _, _, _, _, _, _, _ => ⟨f, st, fun _ _ => rfl, by simp, by simp only [curLoop]; exact Leads.rfl'⟩
  | mu :: mus, st, f, hmus, hc, hu, hQ, hA, hl, hn => by
    have hmu : mu < L.length := hmus mu List.mem_cons_self
    have hg := getD_ext hL hjd
    have hf4 : (Fin.ofNat 4 mu).val = mu := by simp [Fin.ofNat]; omega
    have hgix : Gam (gix mu) = gam (Fin.ofNat 4 mu) := by
      have := Gam_pow (Fin.ofNat 4 mu)
      rwa [hf4] at this
    let f1 := Function.update f (c + 1) ((localRhs c q mu).at f)
    let f2 := Function.update f1 (c + 2) fun x => f1 c (source (shiftF L mu) x)
    let f3 := Function.update f2 (c + 3) ((nonlocalRhs mu (c + 2) q mu).at f2)
    let f4 := Function.update f3 (c + 4) fun x => f3 q (source (shiftF L mu) x)
    let f5 := Function.update f4 (c + 5) ((⟨[mu, c + 4], fun vs => pv (cmul (vs.getD 0 0).m (vs.getD 1 0).p)⟩ : Rhs (V n)).at f4)
    let f6 := Function.update f5 (c + 3) ((nonlocalRhs2 (c + 3) c (c + 5) mu).at f5)
    have l1 : ∀ y, y < c + 1 → f1 y = f y := fun y hy => Function.update_of_ne (by omega) _ _
    have l2 : ∀ y, y < c + 2 → f2 y = f1 y := fun y hy => Function.update_of_ne (by omega) _ _
    have l3 : ∀ y, y < c + 3 → f3 y = f2 y := fun y hy => Function.update_of_ne (by omega) _ _
    have l4 : ∀ y, y < c + 4 → f4 y = f3 y := fun y hy => Function.update_of_ne (by omega) _ _
    have l5 : ∀ y, y < c + 5 → f5 y = f4 y := fun y hy => Function.update_of_ne (by omega) _ _
    have l6 : ∀ y, y < c + 3 → f6 y = f5 y := fun y hy => Function.update_of_ne (by omega) _ _
    have low : ∀ y, y < c + 1 → f6 y = f y := fun y hy => by
      rw [l6 y (by omega), l5 y (by omega), l4 y (by omega), l3 y (by omega), l2 y (by omega), l1 y hy]
    have hAx : ∀ x, flat (f c x).p = A x := fun x => congrFun hA x
    have hQx : ∀ x, flat (f q x).p = Q x := fun x => congrFun hQ x
    have hux : ∀ x, (f mu x).m = u mu x := fun x => hu mu hmu x
    have hJL : ∀ x, InRange x L → (f6 (c + 1) x).z = localJ A Q (Fin.ofNat 4 mu) x := by
      intro x _
      rw [l6 _ (by omega), l5 _ (by omega), l4 _ (by omega), l3 _ (by omega), l2 _ (by omega)]
      simp only [f1, Function.update_self]
      show ptrace (pmul (gR (gix mu) (padj (f c x).p)) (f q x).p) = _
      rw [ptrace_eq, flat_pmul, flat_gR, flat_padj, hAx, hQx, hgix]; rfl
    have hJN : ∀ x, InRange x L → (f6 (c + 3) x).z = conservedJ L u A Q (Fin.ofNat 4 mu) x := by
      intro x hx
      have e3 : (f5 (c + 3) x).z = ptrace (pmul (padj (cmul (u mu x) (f c (up L mu x)).p)) ((f q x).p + gL (gix mu) (f q x).p)) := by
        rw [l5 _ (by omega), l4 _ (by omega)]
        simp only [f3, Function.update_self]
        show ptrace (pmul (padj (cmul (f2 mu x).m (f2 (c + 2) x).p)) ((f2 q x).p + gL (gix mu) (f2 q x).p)) = _
        rw [l2 mu (by omega), l1 mu (by omega), l2 q (by omega), l1 q (by omega), hux]
        have : f2 (c + 2) x = f c (up L mu x) := by
          simp only [f2, Function.update_self]
          rw [source_up hL hmu hx, l1 c (by omega)]
        rw [this]
      have e5 : (f5 (c + 5) x).p = cmul (u mu x) (f q (up L mu x)).p := by
        simp only [f5, Function.update_self]
        show cmul (f4 mu x).m (f4 (c + 4) x).p = _
        have : f4 (c + 4) x = f q (up L mu x) := by
          simp only [f4, Function.update_self]
          rw [source_up hL hmu hx, l3 q (by omega), l2 q (by omega), l1 q (by omega)]
        rw [this, l4 mu (by omega), l3 mu (by omega), l2 mu (by omega), l1 mu (by omega), hux]
      simp only [f6, Function.update_self]
      show (f5 (c + 3) x).z - ptrace (pmul (padj (f5 c x).p) ((f5 (c + 5) x).p - gL (gix mu) (f5 (c + 5) x).p)) = _
      rw [e3, e5, l5 c (by omega), l4 c (by omega), l3 c (by omega), l2 c (by omega), l1 c (by omega)]
      rw [ptrace_eq, ptrace_eq, flat_pmul, flat_pmul, flat_padj, flat_padj, flat_cmul, flat_add, flat_sub, flat_gL, flat_gL, flat_cmul, hAx, hAx, hQx, hQx, hgix]
      unfold conservedJ
      rw [hf4, Matrix.conjTranspose_mul, onColour_adj, onSpin_add, onSpin_sub, onSpin_one]
      congr 2
      · rw [Matrix.mul_assoc _ (1 + _), Matrix.add_mul, Matrix.one_mul]
      · rw [← Matrix.mul_assoc (onSpin _) (onColour _), spin_colour]
        simp only [Matrix.mul_sub, Matrix.sub_mul, Matrix.mul_one, Matrix.mul_assoc]
    obtain ⟨f', st', hf', m1, m2, o, hle⟩ := momLoop_run (mu := mu) hjd (by omega) h0 h1 hbc (localJ A Q (Fin.ofNat 4 mu)) (conservedJ L u A Q (Fin.ofNat 4 mu))
      (fun st => curLoop L jd t0 q b c mus st k) (List.range (5 ^ (L.length - 1))) st f6
      (fun nu hnu x => by rw [low _ (by omega)]; exact hc nu hnu x) hJL hJN hl hn
    have low' : ∀ y, y < c + 1 → f' y = f y := fun y hy => (hf' y (by omega)).trans (low y hy)
    obtain ⟨f'', st'', hf'', o', hle'⟩ := curLoop_run hjd hL h4 h0 h1 hb hq hbc u A Q k mus st' f' (fun m hm => hmus m (List.mem_cons_of_mem _ hm))
      (fun nu hnu x => by rw [low' _ (by omega)]; exact hc nu hnu x)
      (fun m hm x => by rw [low' _ (by omega)]; exact hu m hm x) (by rw [low' _ (by omega)]; exact hQ) (by rw [low' _ (by omega)]; exact hA) m1 m2
    refine ⟨f'', st'', fun y hy => (hf'' y hy).trans (low' y hy), ?_, ?_⟩
    · rw [o', o, List.flatMap_cons, List.append_assoc]; rfl
    · exact Leads.trans (leads_assign _ _ _ _) <| Leads.trans (leads_map hL _ _ _ hmu _ _) <| Leads.trans (leads_assign _ _ _ _) <|
        Leads.trans (leads_map hL _ _ _ hmu _ _) <| Leads.trans (leads_assign _ _ _ _) <| Leads.trans (leads_assign _ _ _ _) <| Leads.trans hle hle'

/-! ## All of it -/

theorem coordLoop_run {n : Nat} {R : Type} {L : List Nat} {b : Nat} (k : Prog (V n) R) : ∀ (mus : List Nat) (f : Nat → List Nat → V n),
    (∀ mu ∈ mus, mu < L.length) →
    ∃ f', (∀ y, y < b → f' y = f y) ∧ (∀ mu, (mu ∈ mus ∨ ∀ x, f (b + mu) x = zv ((x.getD mu 0 : Nat) : ℂ)) → ∀ x, f' (b + mu) x = zv ((x.getD mu 0 : Nat) : ℂ)) ∧
      Leads L (coordLoop b mus k) f k f'
  | [], f, _ => ⟨f, fun _ _ => rfl, fun mu h => by simpa using h, Leads.rfl'⟩
  | nu :: mus, f, h => by
    obtain ⟨f', h1, h2, h3⟩ := coordLoop_run k mus (Function.update f (b + nu) fun x => zv ((x.getD nu 0 : Nat) : ℂ)) fun m hm => h m (List.mem_cons_of_mem _ hm)
    refine ⟨f', fun y hy => (h1 y hy).trans (Function.update_of_ne (by omega) _ _), fun mu hmu => h2 mu ?_, Leads.trans (leads_coord _ _ _ (h nu List.mem_cons_self) _ _) h3⟩
    by_cases e : mu = nu
    · subst e
      exact Or.inr fun x => by rw [Function.update_self]
    · rcases hmu with hmu | hmu
      · exact Or.inl (by simpa [e] using hmu)
      · exact Or.inr fun x => by rw [Function.update_of_ne (by omega)]; exact hmu x

theorem formFac_run {n : Nat} {R : Type} {L : List Nat} {jd : Nat} (hjd : jd < L.length) (hL : ∀ l ∈ L, 5 * l < 2 ^ 31) (h4 : L.length ≤ 4) {t0 : Int}
    (h0 : -(2 ^ 31 - 2 * (L.getD jd 0 : Int)) < t0) (h1 : t0 ≤ L.getD jd 0) {q s b : Nat} (hb : L.length ≤ b) (hq : q < b) (hs : s < b)
    (any1 any2 : List ℂ) (hl1 : any1.length = L.getD jd 0) (hl2 : any2.length = L.getD jd 0) (k : Outcome FState → Prog (V n) R) (f : Nat → List Nat → V n) :
    ∃ f' st, (∀ y, y < b → f' y = f y) ∧
      st.out = (List.range L.length).flatMap (curRecs L (lk f) (fun x => onSpin gam5 * pr (f s) x * onSpin gam5) (pr (f q)) jd t0) ∧
      Leads L (formFac L q s b jd t0 any1 any2 k) f (k (ok st)) f' := by
  obtain ⟨f1, a1, a2, a3⟩ := coordLoop_run (L := L) (b := b) (.assign (b + L.length) allSites (anti s) <|
    curLoop L jd t0 q b (b + L.length) (List.range L.length) (ok ⟨any1, any2, []⟩) k) (List.range L.length) f fun m hm => List.mem_range.1 hm
  let f2 := Function.update f1 (b + L.length) ((anti s).at f1)
  have low : ∀ y, y < b + L.length → f2 y = f1 y := fun y hy => Function.update_of_ne (by omega) _ _
  obtain ⟨f3, st, b1, b2, b3⟩ := curLoop_run hjd hL h4 h0 h1 hb hq (le_refl _) (lk f) (fun x => onSpin gam5 * pr (f s) x * onSpin gam5) (pr (f q)) k
    (List.range L.length) ⟨any1, any2, []⟩ f2 (fun m hm => List.mem_range.1 hm)
    (fun nu hnu x => by rw [low _ (by omega)]; exact a2 nu (Or.inl (List.mem_range.2 hnu)) x)
    (fun mu hmu x => by rw [low _ (by omega), a1 _ (by omega)]; rfl) (by rw [low _ (by omega), a1 _ hq])
    (by
      funext x
      simp only [f2, Function.update_self]
      show flat (gR 15 (gL 15 (f1 s x).p)) = _
      rw [flat_gR, flat_gL, a1 s hs]
      show onSpin (Gam 15) * _ * onSpin (Gam 15) = _
      rw [Gam_15]; rfl) hl1 hl2
  exact ⟨f3, st, fun y hy => by rw [b1 y (by omega), low y (by omega), a1 y hy], by rw [b2]; rfl, Leads.trans a3 (Leads.trans (leads_assign _ _ _ _) b3)⟩

theorem momLoop_shifts {n : Nat} {R : Type} {L : List Nat} {jd : Nat} {t0 : Int} {b c mu : Nat} {k : Outcome FState → Prog (V n) R} (hk : ∀ o, OnlyShifts L (k o)) :
    ∀ (ms : List Nat) (st : Outcome FState), OnlyShifts L (momLoop L jd t0 b c mu ms st k)
  | [], _ => hk _
  | m :: ms, st => by
    unfold momLoop
    split
    · split_ifs
      · exact momLoop_shifts hk ms _
      · exact sumMulti_shifts (fun _ => sumMulti_shifts (fun _ => momLoop_shifts hk ms _) _ _) _ _
    · exact hk _

theorem curLoop_shifts {n : Nat} {R : Type} {L : List Nat} {jd : Nat} {t0 : Int} {q b c : Nat} {k : Outcome FState → Prog (V n) R} (hk : ∀ o, OnlyShifts L (k o)) :
    ∀ (mus : List Nat) (st : Outcome FState), (∀ mu ∈ mus, mu < L.length) → OnlyShifts L (curLoop L jd t0 q b c mus st k)
  | [], _, _ => hk _
  | mu :: mus, _, h => ⟨⟨.fwd, mu, h mu List.mem_cons_self, rfl⟩, ⟨.fwd, mu, h mu List.mem_cons_self, rfl⟩,
      momLoop_shifts (fun _ => curLoop_shifts hk mus _ fun m hm => h m (List.mem_cons_of_mem _ hm)) _ _⟩

theorem coordLoop_shifts {n : Nat} {R : Type} {L : List Nat} {b : Nat} {k : Prog (V n) R} (hk : OnlyShifts L k) : ∀ mus : List Nat, OnlyShifts L (coordLoop b mus k)
  | [] => hk
  | _ :: mus => coordLoop_shifts hk mus

end Verif.Hadron
