import Verif.Hadron
/-
C98: propagators as matrices; running the programs of Verif.Hadron.
-/
namespace Verif.Hadron
open Verif Outcome Verif.Layout Verif.ParLayout Verif.ParMap Verif.Spmd Verif.Shift Verif.Subset
open Verif.Gauge (Mat GaugeField shiftF up siteSum transform UnitaryOn Setup all_legal siteSum_congr source_up shift_legal)
open Verif.Dslash (gam gam5 down wilson toC toC_basis act_eq)
open Finset
open scoped Kronecker

/-! ## Propagators as matrices -/

theorem flat_pmul {n : Nat} (A B : Prp n) : flat (pmul A B) = flat A * flat B := by
  ext ⟨a, i⟩ ⟨b, j⟩
  simp only [flat, pmul, Matrix.mul_apply, Fintype.sum_prod_type]

theorem flat_padj {n : Nat} (A : Prp n) : flat (padj A) = (flat A).conjTranspose := rfl

theorem ptrace_eq {n : Nat} (A : Prp n) : ptrace A = (flat A).trace := by
  simp only [ptrace, flat, Matrix.trace, Matrix.diag, Fintype.sum_prod_type]

theorem flat_add {n : Nat} (A B : Prp n) : flat (A + B) = flat A + flat B := rfl
theorem flat_sub {n : Nat} (A B : Prp n) : flat (A - B) = flat A - flat B := rfl

theorem flat_cmul {n : Nat} (U : Mat n) (A : Prp n) : flat (cmul U A) = onColour U * flat A := by
  ext ⟨a, i⟩ ⟨b, j⟩
  simp only [flat, cmul, onColour, Matrix.mul_apply, Fintype.sum_prod_type, Matrix.kroneckerMap_apply]
  rw [sum_eq_single a]
  · simp
  · intro c _ hc; simp [Matrix.one_apply_ne (Ne.symm hc)]
  · simp

/-- Gaussian integers as complex numbers, a homomorphism -/
def toCHom : Spin.Gi →+* ℂ where
  toFun := toC
  map_one' := by apply Complex.ext <;> simp [toC]
  map_zero' := by apply Complex.ext <;> simp [toC]
  map_add' x y := by apply Complex.ext <;> simp [toC]
  map_mul' x y := by apply Complex.ext <;> simp [toC] <;> ring

theorem toC_gamma (m : Nat) (a b : Fin 4) : toC (Spin.gamma Spin.basis m a b) = Gam m a b := by
  have h1 : ∀ (t : Prop) [Decidable t] (mu : Fin 4), toCHom.mapMatrix (if t then Spin.basis mu else 1) = if t then gam mu else 1 := by
    intro t _ mu
    split_ifs
    · ext a b; exact toC_basis mu a b
    · exact map_one _
  have h : toCHom.mapMatrix (Spin.gamma Spin.basis m) = Gam m := by
    simp only [Spin.gamma, Gam, map_mul, h1]
  exact congrFun (congrFun h a) b

theorem act_pi {n : Nat} (z : Spin.Gi) (x : Fin n → Fin n → ℂ) (i j : Fin n) : Spin.act z x i j = toC z * x i j := by
  rw [← act_eq]; rfl

theorem flat_gL {n : Nat} (m : Fin 16) (A : Prp n) : flat (gL m A) = onSpin (Gam m) * flat A := by
  ext ⟨a, i⟩ ⟨b, j⟩
  have h : gL m A a b i j = ∑ c, Gam m a c * A c b i j := by
    unfold gL
    rw [Spin.C42_left]
    simp only [Finset.sum_apply, act_pi, toC_gamma]
  simp only [flat, h, onSpin, Matrix.mul_apply, Fintype.sum_prod_type, Matrix.kroneckerMap_apply]
  refine sum_congr rfl fun c _ => ?_
  rw [sum_eq_single i]
  · simp
  · intro k _ hk; simp [Matrix.one_apply_ne (Ne.symm hk)]
  · simp

theorem flat_gR {n : Nat} (m : Fin 16) (A : Prp n) : flat (gR m A) = flat A * onSpin (Gam m) := by
  ext ⟨a, i⟩ ⟨b, j⟩
  have h : gR m A a b i j = ∑ c, Gam m c b * A a c i j := by
    unfold gR
    rw [Spin.C42_right]
    simp only [Finset.sum_apply, act_pi, toC_gamma]
  simp only [flat, h, onSpin, Matrix.mul_apply, Fintype.sum_prod_type, Matrix.kroneckerMap_apply]
  refine sum_congr rfl fun c _ => ?_
  rw [sum_eq_single j]
  · simp [mul_comm]
  · intro k _ hk; simp [Matrix.one_apply_ne hk]
  · simp

theorem onSpin_mul {n : Nat} (A B : Matrix (Fin 4) (Fin 4) ℂ) : (onSpin (A * B) : PM n) = onSpin A * onSpin B := by
  unfold onSpin
  rw [← Matrix.mul_kronecker_mul, Matrix.one_mul]

theorem onColour_mul {n : Nat} (A B : Mat n) : onColour (A * B) = onColour A * onColour B := by
  unfold onColour
  rw [← Matrix.mul_kronecker_mul, Matrix.one_mul]

@[simp] theorem onSpin_one {n : Nat} : (onSpin 1 : PM n) = 1 := Matrix.one_kronecker_one
@[simp] theorem onColour_one {n : Nat} : (onColour 1 : PM n) = 1 := Matrix.one_kronecker_one

theorem onSpin_add {n : Nat} (A B : Matrix (Fin 4) (Fin 4) ℂ) : (onSpin (A + B) : PM n) = onSpin A + onSpin B := Matrix.add_kronecker A B 1
theorem onSpin_sub {n : Nat} (A B : Matrix (Fin 4) (Fin 4) ℂ) : (onSpin (A - B) : PM n) = onSpin A - onSpin B := by
  rw [eq_sub_iff_add_eq, ← onSpin_add, sub_add_cancel]

theorem onSpin_adj {n : Nat} (A : Matrix (Fin 4) (Fin 4) ℂ) : (onSpin A : PM n).conjTranspose = onSpin A.conjTranspose := by
  unfold onSpin
  rw [Matrix.conjTranspose_kronecker, Matrix.conjTranspose_one]

theorem onColour_adj {n : Nat} (U : Mat n) : (onColour U).conjTranspose = onColour (star U) := by
  unfold onColour
  rw [Matrix.conjTranspose_kronecker, Matrix.conjTranspose_one, Matrix.star_eq_conjTranspose]

theorem spin_colour {n : Nat} (A : Matrix (Fin 4) (Fin 4) ℂ) (U : Mat n) : onSpin A * onColour U = onColour U * onSpin A := by
  unfold onSpin onColour
  rw [← Matrix.mul_kronecker_mul, ← Matrix.mul_kronecker_mul, Matrix.one_mul, Matrix.mul_one, Matrix.one_mul, Matrix.mul_one]

theorem gam_sq (mu : Fin 4) : gam mu * gam mu = 1 := by
  ext a b
  fin_cases mu <;> fin_cases a <;> fin_cases b <;> simp [gam, Matrix.mul_apply, Fin.sum_univ_four]

theorem Gam_15 : Gam 15 = gam5 := by
  have : Gam 15 = gam 0 * gam 1 * gam 2 * gam 3 := by simp [Gam, Nat.testBit]
  rw [this]
  ext a b
  fin_cases a <;> fin_cases b <;> simp [gam, gam5, Matrix.mul_apply, Fin.sum_univ_four]

theorem gam5_sq : gam5 * gam5 = 1 := by
  ext a b
  fin_cases a <;> fin_cases b <;> simp [gam5, Matrix.mul_apply, Matrix.diagonal]

theorem gam5_herm : gam5.conjTranspose = gam5 := by
  ext a b
  fin_cases a <;> fin_cases b <;> simp [gam5, Matrix.conjTranspose, Matrix.diagonal]

/-- the sixteen matrices are unitary -/
theorem Gam_unitary (m : Nat) : (Gam m).conjTranspose * Gam m = 1 := by
  have h : ∀ (t : Prop) [Decidable t] (mu : Fin 4), (if t then gam mu else 1 : Matrix (Fin 4) (Fin 4) ℂ).conjTranspose * (if t then gam mu else 1) = 1 := by
    intro t _ mu
    split_ifs
    · rw [Dslash.gam_herm, gam_sq]
    · simp
  have h3 : ∀ A B : Matrix (Fin 4) (Fin 4) ℂ, A.conjTranspose * A = 1 → B.conjTranspose * B = 1 → (A * B).conjTranspose * (A * B) = 1 := by
    intro A B ha hb
    rw [Matrix.conjTranspose_mul, Matrix.mul_assoc, ← Matrix.mul_assoc A.conjTranspose, ha, Matrix.one_mul, hb]
  exact h3 _ _ (h3 _ _ (h3 _ _ (h _ _) (h _ _)) (h _ _)) (h _ _)

theorem Gam_pow (mu : Fin 4) : Gam (gix mu) = gam mu := by
  fin_cases mu <;> simp [Gam, gix, Nat.testBit]

/-! ## Placing the sums -/

theorem ckI_ok {x : Int} (h : -2 ^ 31 ≤ x ∧ x < 2 ^ 31) : ckI x = ok x := if_pos h

theorem tEff_ok {len : Nat} {t0 : Int} {t : Nat} (hlen : 2 * len < 2 ^ 31) (h0 : -(2 ^ 31 - 2 * (len : Int)) < t0) (h1 : t0 ≤ len) (ht : t < len) :
    tEff len t0 t = ok (((t : Int) - t0) % len) := by
  have hl : len ≠ 0 := by omega
  unfold tEff
  rw [ckI_ok (by omega)]
  show (ckI _ >>= fun e => if len = 0 then ub else ok (e.tmod len)) = _
  rw [ckI_ok (by omega)]
  show (if len = 0 then ub else ok _) = _
  rw [if_neg hl, Int.tmod_eq_emod_of_nonneg (by omega), Int.add_emod_right]

/-- where the slice `t` goes -/
def slot (len : Nat) (t0 : Int) (t : Nat) : Nat := (((t : Int) - t0) % len).toNat

theorem slot_lt {len : Nat} {t0 : Int} {t : Nat} (h : 0 < len) : slot len t0 t < len := by
  have := Int.emod_lt_of_pos ((t : Int) - t0) (show (0 : Int) < len by omega)
  have := Int.emod_nonneg ((t : Int) - t0) (show (len : Int) ≠ 0 by omega)
  unfold slot; omega

theorem after_lt {len : Nat} {t0 : Int} {s : Nat} (h : 0 < len) : after len t0 s < len := by
  have := Int.emod_lt_of_pos (t0 + s) (show (0 : Int) < len by omega)
  have := Int.emod_nonneg (t0 + s) (show (len : Int) ≠ 0 by omega)
  unfold after; omega

theorem after_slot {len : Nat} {t0 : Int} {t : Nat} (ht : t < len) : after len t0 (slot len t0 t) = t := by
  have := Int.emod_nonneg ((t : Int) - t0) (show (len : Int) ≠ 0 by omega)
  unfold after slot
  rw [Int.toNat_of_nonneg this, Int.add_emod_emod, show t0 + ((t : Int) - t0) = t by ring, Int.emod_eq_of_lt (by omega) (by omega), Int.toNat_natCast]

theorem slot_after {len : Nat} {t0 : Int} {s : Nat} (hs : s < len) : slot len t0 (after len t0 s) = s := by
  have := Int.emod_nonneg (t0 + s) (show (len : Int) ≠ 0 by omega)
  unfold after slot
  rw [Int.toNat_of_nonneg this, Int.emod_sub_emod, show t0 + (s : Int) - t0 = s by ring, Int.emod_eq_of_lt (by omega) (by omega), Int.toNat_natCast]

theorem slots_go {K : Type} {len : Nat} {t0 : Int} (hlen : 2 * len < 2 ^ 31) (h0 : -(2 ^ 31 - 2 * (len : Int)) < t0) (h1 : t0 ≤ len)
    (w : Nat → Int → K → Outcome K) (v : Nat → K → K) : ∀ (ts : List Nat) (a : List K), (∀ t ∈ ts, t < len ∧ ∀ x, w t (slot len t0 t) x = ok (v t x)) → ts.Nodup →
    a.length = len → ∃ a', slots len t0 w ts a = ok a' ∧ a'.length = len ∧
      ∀ s, s < len → a'[s]? = if after len t0 s ∈ ts then a[s]?.map (v (after len t0 s)) else a[s]?
  | [], a, _, _, ha => ⟨a, rfl, ha, fun s hs => by simp⟩
  | t :: ts, a, hw, hn, ha => by
    obtain ⟨ht, hwt⟩ := hw t List.mem_cons_self
    have hpos : 0 < len := by omega
    have hsl := slot_lt (t0 := t0) (t := t) hpos
    have hnn := Int.emod_nonneg ((t : Int) - t0) (show (len : Int) ≠ 0 by omega)
    have hcast : (((slot len t0 t : Nat) : Int)) = ((t : Int) - t0) % len := by unfold slot; omega
    obtain ⟨a', e, l, g⟩ := slots_go hlen h0 h1 w v ts (a.set (slot len t0 t) (v t (a[slot len t0 t]'(by omega))))
      (fun t' ht' => hw t' (List.mem_cons_of_mem _ ht')) (List.nodup_cons.1 hn).2 (by simp [ha])
    refine ⟨a', ?_, l, fun s hs => ?_⟩
    · unfold slots
      rw [tEff_ok hlen h0 h1 ht]
      show (if ((t : Int) - t0) % len < 0 then ub else _) = _
      rw [if_neg (by omega)]
      show (rd a (slot len t0 t) >>= fun old => w t (((t : Int) - t0) % len) old >>= fun new => slots len t0 w ts (a.set (slot len t0 t) new)) = _
      have hr : rd a (slot len t0 t) = ok (a[slot len t0 t]'(by omega)) := by
        unfold rd; rw [List.getElem?_eq_getElem (by omega)]
      rw [hr]
      show (w t (((t : Int) - t0) % len) _ >>= fun new => slots len t0 w ts (a.set (slot len t0 t) new)) = _
      rw [← hcast, hwt]
      exact e
    · rw [g s hs]
      by_cases hst : after len t0 s = t
      · have es : slot len t0 t = s := by rw [← hst, slot_after hs]
        rw [if_neg (by rw [hst]; exact (List.nodup_cons.1 hn).1), if_pos (by simp [hst]), hst]
        subst es
        rw [List.getElem?_set_self (by omega), List.getElem?_eq_getElem (by omega)]
        rfl
      · have hne : slot len t0 t ≠ s := fun h => hst (by rw [← h, after_slot ht])
        rw [List.getElem?_set_ne hne]
        simp [hst]

/-- the loops over `t`: position `s` holds what comes from the slice that is `s` after the source -/
theorem slots_eq {K : Type} {len : Nat} {t0 : Int} (hlen : 2 * len < 2 ^ 31) (h0 : -(2 ^ 31 - 2 * (len : Int)) < t0) (h1 : t0 ≤ len)
    (w : Nat → Int → K → Outcome K) (v : Nat → K → K) (a : List K) (b : Nat → K) (ha : a = (List.range len).map b)
    (hw : ∀ t, t < len → ∀ x, w t (slot len t0 t) x = ok (v t x)) :
    slots len t0 w (List.range len) a = ok ((List.range len).map fun s => v (after len t0 s) (b s)) := by
  obtain ⟨a', e, l, g⟩ := slots_go hlen h0 h1 w v (List.range len) a (fun t ht => ⟨List.mem_range.1 ht, hw t (List.mem_range.1 ht)⟩) List.nodup_range
    (by simp [ha])
  rw [e]
  congr 1
  refine List.ext_getElem? fun s => ?_
  by_cases hs : s < len
  · rw [g s hs, if_pos (List.mem_range.2 (after_lt (by omega))), ha]
    simp [hs]
  · rw [List.getElem?_eq_none (by omega), List.getElem?_eq_none (by simp; omega)]

/-! ## Running pieces of programs -/

/-- one program goes over into another -/
structure Leads {n : Nat} {R : Type} (L : List Nat) (p : Prog (V n) R) (f : Nat → List Nat → V n) (q : Prog (V n) R) (f' : Nat → List Nat → V n) : Prop where
  run : run (latticeSum L) p f = run (latticeSum L) q f'
  legal : Legal (latticeSum L) L q f' → Legal (latticeSum L) L p f

section
variable {n : Nat} {R : Type} {L : List Nat}

theorem Leads.rfl' {p : Prog (V n) R} {f : Nat → List Nat → V n} : Leads L p f p f := ⟨rfl, id⟩

theorem Leads.trans {p q r : Prog (V n) R} {f g h : Nat → List Nat → V n} (a : Leads L p f q g) (b : Leads L q g r h) : Leads L p f r h :=
  ⟨a.run.trans b.run, fun l => a.legal (b.legal l)⟩

theorem leads_assign (d : Nat) (rhs : Rhs (V n)) (k : Prog (V n) R) (f : Nat → List Nat → V n) :
    Leads L (.assign d allSites rhs k) f k (Function.update f d (rhs.at f)) := by
  have e : (fun c => if allSites.fn c = allSites.cb then rhs.at f c else f d c) = rhs.at f := by
    funext c; simp [allSites, allFunc]
  refine ⟨?_, fun h => ⟨all_legal L, ?_⟩⟩
  · show Spmd.run _ k (Function.update f d _) = _
    rw [e]
  · rw [e]; exact h

theorem leads_map (hL : ∀ l ∈ L, 5 * l < 2 ^ 31) (d s mu : Nat) (hmu : mu < L.length) (k : Prog (V n) R) (f : Nat → List Nat → V n) :
    Leads L (.map d s (shiftF L mu) k) f k (Function.update f d fun c => f s (source (shiftF L mu) c)) :=
  ⟨rfl, fun h => ⟨shift_legal hL hmu, h⟩⟩

theorem leads_coord (d mu : Nat) (conv : Nat → V n) (hmu : mu < L.length) (k : Prog (V n) R) (f : Nat → List Nat → V n) :
    Leads L (.coord d mu conv k) f k (Function.update f d fun c => conv (c.getD mu 0)) :=
  ⟨rfl, fun h => ⟨hmu, h⟩⟩

omit n R L in
theorem getD_lt : ∀ {c L : List Nat} {j : Nat}, InRange c L → j < L.length → c.getD j 0 < L.getD j 0
  | [], [], _, _, hj => by simp at hj
  | _ :: _, _ :: _, 0, h, _ => h.1
  | _ :: _, _ :: _, j + 1, h, hj => by simpa using getD_lt (j := j) h.2 (by simpa using hj)
  | [], _ :: _, _, h, _ => h.elim
  | _ :: _, [], _, h, _ => h.elim

theorem slice_legal {jd t : Nat} (hjd : jd < L.length) (ht : t < L.getD jd 0) : (slice L jd t).Legal L := by
  refine ⟨ht, fun c hc => ⟨Int.natCast_nonneg _, ?_⟩⟩
  exact Int.ofNat_lt.2 (getD_lt hc hjd)

theorem sum_z (L : List Nat) (sub : SubsetOf) (w : List Nat → V n) :
    (latticeSum L sub w).z = siteSum L fun x => if sub.fn x = sub.cb then (w x).z else 0 := by
  unfold latticeSum siteSum
  have : ∀ s : Finset Nat, (∑ r ∈ s, if sub.fn (digits r L) = sub.cb then w (digits r L) else 0).z =
      ∑ r ∈ s, if sub.fn (digits r L) = sub.cb then (w (digits r L)).z else 0 := by
    intro s
    induction s using Finset.induction_on with
    | empty => rfl
    | insert a s ha ih =>
      rw [sum_insert ha, sum_insert ha, ← ih]
      show V.z _ + V.z _ = _
      congr 1
      split_ifs <;> rfl
  exact this _

theorem leads_sumMulti {jd : Nat} (hjd : jd < L.length) (rhs : Rhs (V n)) (f : Nat → List Nat → V n) (k : List ℂ → Prog (V n) R) :
    ∀ (ts : List Nat) (acc : List ℂ), (∀ t ∈ ts, t < L.getD jd 0) →
    Leads L (sumMulti L jd rhs ts acc k) f (k (acc ++ ts.map fun t => timeSum L jd t fun x => (rhs.at f x).z)) f
  | [], acc, _ => by
    simp only [sumMulti, List.map_nil, List.append_nil]; exact Leads.rfl'
  | t :: ts, acc, h => by
    have ih := leads_sumMulti hjd rhs f k ts (acc ++ [timeSum L jd t fun x => (rhs.at f x).z]) fun t' ht' => h t' (List.mem_cons_of_mem _ ht')
    rw [List.append_assoc, List.singleton_append] at ih
    have e : (latticeSum L (slice L jd t) (rhs.at f)).z = timeSum L jd t fun x => (rhs.at f x).z := by
      rw [sum_z]
      unfold timeSum slice
      simp only [Nat.cast_inj]
    rw [List.map_cons]
    refine ⟨?_, fun hl => ⟨slice_legal hjd (h t List.mem_cons_self), ?_⟩⟩
    · rw [← ih.run, ← e]; rfl
    · have := ih.legal hl
      rw [← e] at this; exact this

theorem leads_sumAll {jd : Nat} (hjd : jd < L.length) (rhs : Rhs (V n)) (f : Nat → List Nat → V n) (k : List ℂ → Prog (V n) R) :
    Leads L (sumMulti L jd rhs (List.range (L.getD jd 0)) [] k) f (k ((List.range (L.getD jd 0)).map fun t => timeSum L jd t fun x => (rhs.at f x).z)) f := by
  have := leads_sumMulti hjd rhs f k (List.range (L.getD jd 0)) [] fun t ht => List.mem_range.1 ht
  rwa [List.nil_append] at this

end

/-- the propagators held by a field -/
def pr {n : Nat} (f : List Nat → V n) (x : List Nat) : PM n := flat (f x).p

theorem timeSum_congr {M : Type} [AddCommMonoid M] {L : List Nat} {jd t : Nat} {w w' : List Nat → M} (h : ∀ x, InRange x L → w x = w' x) :
    timeSum L jd t w = timeSum L jd t w' :=
  siteSum_congr fun x hx => by rw [h x hx]

theorem timeSum_re (L : List Nat) (jd t : Nat) (w : List Nat → ℝ) : (timeSum L jd t fun x => (w x : ℂ)).re = timeSum L jd t w := by
  unfold timeSum
  rw [← Gauge.siteSum_re]
  congr 2
  funext x
  split_ifs <;> simp

theorem rd_range {K : Type} {len t : Nat} (h : t < len) (b : Nat → K) : rd ((List.range len).map b) t = ok (b t) := by
  unfold rd
  rw [List.getElem?_map, List.getElem?_range h]; rfl

/-! ## Mesons -/

/-- what `mesons` returns -/
noncomputable def mesonTable {n : Nat} (L : List Nat) (S1 S2 : List Nat → PM n) (jd : Nat) (t0 : Int) (m : Nat) : List ℝ :=
  (List.range (L.getD jd 0)).map fun s => timeSum L jd (after (L.getD jd 0) t0 s) fun x => mesonAt (S1 x) (S2 x) m

theorem mesonLoop_run {n : Nat} {R : Type} {L : List Nat} {jd : Nat} (hjd : jd < L.length) {t0 : Int} (hlen : 2 * L.getD jd 0 < 2 ^ 31)
    (h0 : -(2 ^ 31 - 2 * (L.getD jd 0 : Int)) < t0) (h1 : t0 ≤ L.getD jd 0) {q b : Nat} (hq : q < b) (S1 S2 : List Nat → PM n)
    (k : Outcome (List (List ℝ)) → Prog (V n) R) : ∀ (ms : List (Fin 16)) (o : List (List ℝ)) (f : Nat → List Nat → V n), pr (f q) = S1 →
    (∀ x, pr (f b) x = onSpin gam5 * S2 x * onSpin gam5) →
    ∃ f', (∀ y, y < b → f' y = f y) ∧ Leads L (mesonLoop L jd t0 q b ms (ok o) k) f (k (ok (o ++ ms.map fun m : Fin 16 => mesonTable L S1 S2 jd t0 m))) f'
  | [], o, f, _, _ => ⟨f, fun _ _ => rfl, by simp only [mesonLoop, List.map_nil, List.append_nil]; exact Leads.rfl'⟩
  | m :: ms, o, f, hS1, hS2 => by
    let f1 := Function.update f (b + 1) ((mesonRhs b q m).at f)
    have hlow : ∀ y, y < b + 1 → f1 y = f y := fun y hy => Function.update_of_ne (by omega) _ _
    have hval : ∀ x, ((⟨[b + 1], fun vs => zv (vs.getD 0 0).z⟩ : Rhs (V n)).at f1 x).z = (mesonAt (S1 x) (S2 x) m : ℂ) := by
      intro x
      show (f1 (b + 1) x).z = _
      simp only [f1, Function.update_self]
      show (((ptrace (gR m (pmul (gR m (padj (f b x).p)) (f q x).p))).re : ℝ) : ℂ) = _
      rw [ptrace_eq, flat_gR, flat_pmul, flat_gR, flat_padj]
      have e1 : flat (f b x).p = onSpin gam5 * S2 x * onSpin gam5 := hS2 x
      have e2 : flat (f q x).p = S1 x := congrFun hS1 x
      rw [e1, e2]; rfl
    obtain ⟨f', hf', ih⟩ := mesonLoop_run hjd hlen h0 h1 hq S1 S2 k ms (o ++ [mesonTable L S1 S2 jd t0 m]) f1
      (by rw [hlow q (by omega)]; exact hS1) (fun x => by rw [hlow b (by omega)]; exact hS2 x)
    refine ⟨f', fun y hy => (hf' y hy).trans (hlow y (by omega)), ?_⟩
    rw [List.append_assoc, List.singleton_append] at ih
    rw [List.map_cons]
    refine Leads.trans (leads_assign _ _ _ _) (Leads.trans (leads_sumAll hjd _ _ _) ?_)
    have hs : slots (L.getD jd 0) t0 (fun t _ old => do
          let h ← rd ((List.range (L.getD jd 0)).map fun t => timeSum L jd t fun x => ((⟨[b + 1], fun vs => zv (vs.getD 0 0).z⟩ : Rhs (V n)).at f1 x).z) t
          return old + h.re) (List.range (L.getD jd 0)) (List.replicate (L.getD jd 0) 0) = ok (mesonTable L S1 S2 jd t0 m) := by
      rw [slots_eq hlen h0 h1 _ (fun t old => old + timeSum L jd t fun x => mesonAt (S1 x) (S2 x) m) _ (fun _ => 0) (by
        refine List.ext_getElem (by simp) fun i h h' => ?_
        simp)]
      · simp only [zero_add]; rfl
      · intro t ht x
        rw [rd_range ht]
        show ok _ = _
        simp only [hval]
        rw [timeSum_re]
    show Leads L (mesonLoop L jd t0 q b ms (do let o ← (ok o); let r ← slots _ _ _ _ _; return o ++ [r]) k) f1 _ _
    rw [hs]
    exact ih

theorem sumMulti_shifts {n : Nat} {R : Type} {L L' : List Nat} {jd : Nat} {rhs : Rhs (V n)} {k : List ℂ → Prog (V n) R} (hk : ∀ l, OnlyShifts L' (k l)) :
    ∀ (ts : List Nat) (acc : List ℂ), OnlyShifts L' (sumMulti L jd rhs ts acc k)
  | [], _ => hk _
  | _ :: ts, _ => fun _ => sumMulti_shifts hk ts _

theorem mesonLoop_shifts {n : Nat} {R : Type} {L : List Nat} {jd : Nat} {t0 : Int} {q b : Nat} {k : Outcome (List (List ℝ)) → Prog (V n) R}
    (hk : ∀ o, OnlyShifts L (k o)) : ∀ (ms : List (Fin 16)) (o : Outcome (List (List ℝ))), OnlyShifts L (mesonLoop L jd t0 q b ms o k)
  | [], _ => hk _
  | _ :: ms, _ => sumMulti_shifts (fun _ => mesonLoop_shifts hk ms _) _ _

/-- programs of shifts on a machine of blocks -/
theorem ends {n : Nat} {R : Type} {g : Geom} (h : Setup g) (tot : List (V n) → V n) (htot : ∀ l, tot l = l.sum) (net : Network.Net)
    (p : Prog (V n) R) (F : Nat → Local (V n)) (f : Nat → List Nat → V n) (hF : HoldsAll g F f) (hl : Legal (latticeSum g.L) g.L p f)
    (hs : OnlyShifts g.L p) : AlwaysEndsIn net g (start tot g p F) (run (latticeSum g.L) p f).1 (run (latticeSum g.L) p f).2 := by
  obtain ⟨m, S, hm, hcut, hnode⟩ := h.blocks
  exact C86_spmd tot htot net g h.good h.nodes p F f hF hl (accepted_of_shifts g h.good m hm S hcut hnode h.sites h.ext p hs)

theorem getD_ext {L : List Nat} (hL : ∀ l ∈ L, 5 * l < 2 ^ 31) {jd : Nat} (hjd : jd < L.length) : 5 * L.getD jd 0 < 2 ^ 31 := by
  have : L.getD jd 0 = L[jd] := by simp [List.getD, hjd]
  rw [this]; exact hL _ (List.getElem_mem hjd)

theorem mesons_run {n : Nat} {L : List Nat} {q1 q2 b jd : Nat} (h1 : q1 < b) (h2 : q2 < b) (hjd : jd < L.length) (hL : ∀ l ∈ L, 5 * l < 2 ^ 31)
    {t0 : Int} (ht : -(2 ^ 31 - 2 * (L.getD jd 0 : Int)) < t0) (ht' : t0 ≤ L.getD jd 0) (f : Nat → List Nat → V n) :
    ∃ f', (∀ y, y < b → f' y = f y) ∧ Leads L (mesons L q1 q2 b jd t0 .ret) f
      (.ret (ok ((List.finRange 16).map fun m : Fin 16 => mesonTable L (pr (f q1)) (pr (f q2)) jd t0 m))) f' := by
  have hg := getD_ext hL hjd
  obtain ⟨f', hf', hl⟩ := mesonLoop_run hjd (by omega) ht ht' h1 (pr (f q1)) (pr (f q2)) .ret (List.finRange 16) []
    (Function.update f b ((anti q2).at f)) (by rw [Function.update_of_ne (by omega)]) (fun x => by
      rw [Function.update_self]
      show flat (gR 15 (gL 15 (f q2 x).p)) = _
      rw [flat_gR, flat_gL]
      show onSpin (Gam 15) * _ * onSpin (Gam 15) = _
      rw [Gam_15]; rfl)
  refine ⟨f', fun y hy => (hf' y hy).trans (Function.update_of_ne (by omega) _ _), Leads.trans (leads_assign _ _ _ _) ?_⟩
  rwa [List.nil_append] at hl

end Verif.Hadron
