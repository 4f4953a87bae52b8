import Verif.Gauge
/-
C92: the average plaquette.
-/
namespace Verif.Gauge
open Verif Outcome Verif.Layout Verif.ParLayout Verif.ParMap Verif.Spmd Verif.Shift Verif.Subset Verif.Network
open Finset

/-! ## Running pieces of programs -/

theorem at_m1 {n : Nat} (a : Nat) (g : Mat n → Mat n) (f : Nat → List Nat → V n) (c : List Nat) : (m1 a g).at f c = mv (g (f a c).m) := rfl
theorem at_m2 {n : Nat} (a b : Nat) (g : Mat n → Mat n → Mat n) (f : Nat → List Nat → V n) (c : List Nat) :
    (m2 a b g).at f c = mv (g (f a c).m (f b c).m) := rfl
@[simp] theorem m_mv {n : Nat} (A : Mat n) : (mv A).m = A := rfl
@[simp] theorem z_zv {n : Nat} (z : ℂ) : (zv z : V n).z = z := rfl

theorem all_legal (L : List Nat) : allSites.Legal L := ⟨by decide, fun c _ => by simp [allSites, allFunc]⟩

theorem latticeSum_all {M : Type} [AddCommMonoid M] (L : List Nat) (w : List Nat → M) : latticeSum L allSites w = siteSum L w := by
  unfold latticeSum siteSum
  refine sum_congr rfl fun r _ => ?_
  simp [allSites, allFunc]

theorem siteSum_congr {M : Type} [AddCommMonoid M] {L : List Nat} {w w' : List Nat → M} (h : ∀ c, InRange c L → w c = w' c) : siteSum L w = siteSum L w' :=
  sum_congr rfl fun _ hr => h _ (digits_inRange (mem_range.1 hr))

theorem siteSum_z {n : Nat} (L : List Nat) (w : List Nat → ℂ) : (siteSum L fun c => (zv (w c) : V n)).z = siteSum L w := by
  unfold siteSum
  have : ∀ s : Finset Nat, (∑ r ∈ s, (zv (w (digits r L)) : V n)).z = ∑ r ∈ s, w (digits r L) := by
    intro s
    induction s using Finset.induction_on with
    | empty => rfl
    | insert a s ha ih =>
      rw [sum_insert ha, sum_insert ha, ← ih]; rfl
  exact this _

theorem siteSum_re (L : List Nat) (w : List Nat → ℝ) : (siteSum L fun c => (w c : ℂ)).re = siteSum L w := by
  unfold siteSum
  rw [← Complex.ofReal_sum, Complex.ofReal_re]

section
variable {n : Nat} {R : Type} {L : List Nat} (hL : ∀ l ∈ L, 5 * l < 2 ^ 31)
include hL

theorem source_up {mu : Nat} (hmu : mu < L.length) {c : List Nat} (hc : InRange c L) : source (shiftF L mu) c = up L mu c := by
  unfold source shiftF
  rw [((shift_isPerm hL hmu Sgn.fwd).fwd c hc).1]

theorem shift_legal {mu : Nat} (hmu : mu < L.length) : ∃ φ ψ, IsPerm L (shiftF L mu) φ ψ := ⟨_, _, shift_isPerm hL hmu .fwd⟩

/-- what one plane adds -/
theorem plane_run {b mu nu : Nat} (hb : L.length ≤ b) (hmu : mu < L.length) (hnu : nu < L.length) (f : Nat → List Nat → V n) :
    ∃ f', (∀ x, x < b → f' x = f x) ∧ ∀ k : ℝ → Prog (V n) R,
      run (latticeSum L) (plane L b mu nu k) f = run (latticeSum L) (k (planeSum L (links f) mu nu)) f' ∧
      (Legal (latticeSum L) L (k (planeSum L (links f) mu nu)) f' → Legal (latticeSum L) L (plane L b mu nu k) f) := by
  let f1 := Function.update f b fun c => f nu (source (shiftF L mu) c)
  let f2 := Function.update f1 (b + 1) fun c => f1 mu (source (shiftF L nu) c)
  let f3 := Function.update f2 (b + 2) fun c => if allSites.fn c = allSites.cb then (m2 b (b + 1) fun x y => x * star y).at f2 c else f2 (b + 2) c
  let f4 := Function.update f3 (b + 3) fun c => if allSites.fn c = allSites.cb then (m2 (b + 2) nu fun x y => x * star y).at f3 c else f3 (b + 3) c
  have e4 : ∀ x, x < b → f4 x = f x := by
    intro x hx
    simp only [f4, f3, f2, f1]
    rw [Function.update_of_ne (by omega), Function.update_of_ne (by omega), Function.update_of_ne (by omega), Function.update_of_ne (by omega)]
  have hall : ∀ c, allSites.fn c = allSites.cb := fun c => by simp [allSites, allFunc]
  have hval : ((latticeSum L allSites ((⟨[mu, b + 3], fun vs => zv (((vs.getD 0 0).m * (vs.getD 1 0).m).trace.re : ℂ)⟩ : Rhs (V n)).at f4)).z).re =
      planeSum L (links f) mu nu := by
    have : (⟨[mu, b + 3], fun vs => zv (((vs.getD 0 0).m * (vs.getD 1 0).m).trace.re : ℂ)⟩ : Rhs (V n)).at f4 =
        fun c => zv ((((f4 mu c).m * (f4 (b + 3) c).m).trace.re : ℝ) : ℂ) := rfl
    rw [this, latticeSum_all, siteSum_z, siteSum_re, planeSum]
    refine siteSum_congr fun c hc => ?_
    congr 2
    rw [e4 mu (by omega)]
    have h4 : (f4 (b + 3) c).m = (f3 (b + 2) c).m * star (f3 nu c).m := by
      simp only [f4, Function.update_self, hall, if_true, at_m2, m_mv]
    have h3 : (f3 (b + 2) c).m = (f2 b c).m * star (f2 (b + 1) c).m := by
      simp only [f3, Function.update_self, hall, if_true, at_m2, m_mv]
    have h3n : f3 nu = f nu := by
      simp only [f3, f2, f1]
      rw [Function.update_of_ne (by omega), Function.update_of_ne (by omega), Function.update_of_ne (by omega)]
    have h2 : f2 (b + 1) c = f mu (up L nu c) := by
      simp only [f2, f1, Function.update_self]
      rw [Function.update_of_ne (by omega), source_up hL hnu hc]
    have h1 : f2 b c = f nu (up L mu c) := by
      simp only [f2, f1]
      rw [Function.update_of_ne (by omega), Function.update_self, source_up hL hmu hc]
    rw [h4, h3, h3n, h2, h1]
    simp only [plaq, links, mul_assoc]
  refine ⟨f4, e4, fun k => ⟨?_, ?_⟩⟩
  · rw [← hval]
    rfl
  · intro h
    rw [← hval] at h
    exact ⟨shift_legal hL hmu, shift_legal hL hnu, all_legal L, all_legal L, all_legal L, h⟩

theorem planeLoop_run {b : Nat} (hb : L.length ≤ b) : ∀ (ps : List (Nat × Nat)), (∀ p ∈ ps, p.1 < L.length ∧ p.2 < L.length) →
    ∀ (a : Acc) (f : Nat → List Nat → V n), ∃ f', (∀ x, x < b → f' x = f x) ∧ ∀ k : Acc → Prog (V n) R,
      run (latticeSum L) (planeLoop L b ps a k) f =
        run (latticeSum L) (k (ps.foldl (fun (a : Acc) p => a.add L.length p.1 p.2 (planeSum L (links f) p.1 p.2)) a)) f' ∧
      (Legal (latticeSum L) L (k (ps.foldl (fun (a : Acc) p => a.add L.length p.1 p.2 (planeSum L (links f) p.1 p.2)) a)) f' →
        Legal (latticeSum L) L (planeLoop L b ps a k) f)
  | [], _, a, f => ⟨f, fun _ _ => rfl, fun _ => ⟨rfl, id⟩⟩
  | (mu, nu) :: ps, h, a, f => by
    obtain ⟨f1, e1, h1⟩ := plane_run (n := n) (R := R) hL hb (h _ List.mem_cons_self).1 (h _ List.mem_cons_self).2 f
    obtain ⟨f2, e2, h2⟩ := planeLoop_run hb ps (fun p hp => h p (List.mem_cons_of_mem _ hp)) (a.add L.length mu nu (planeSum L (links f) mu nu)) f1
    have hlk : ∀ p ∈ ps, planeSum L (links f1) p.1 p.2 = planeSum L (links f) p.1 p.2 := by
      intro p hp
      obtain ⟨q1, q2⟩ := h p (List.mem_cons_of_mem _ hp)
      simp only [planeSum, plaq, links, e1 p.1 (by omega), e1 p.2 (by omega)]
    have hfold : ∀ a, ps.foldl (fun (a : Acc) p => a.add L.length p.1 p.2 (planeSum L (links f1) p.1 p.2)) a =
        ps.foldl (fun (a : Acc) p => a.add L.length p.1 p.2 (planeSum L (links f) p.1 p.2)) a := by
      intro a
      refine List.foldl_ext _ _ a fun a p hp => ?_
      rw [hlk p hp]
    refine ⟨f2, fun x hx => (e2 x hx).trans (e1 x hx), fun k => ?_⟩
    obtain ⟨r1, l1⟩ := h1 fun tmp => planeLoop L b ps (a.add L.length mu nu tmp) k
    obtain ⟨r2, l2⟩ := h2 k
    simp only [hfold] at r2 l2
    rw [List.foldl_cons]
    exact ⟨r1.trans r2, fun h => l1 (l2 h)⟩

omit hL in
theorem linkLoop_run : ∀ (ms : List Nat) (x : ℝ) (f : Nat → List Nat → V n) (k : ℝ → Prog (V n) R),
    run (latticeSum L) (linkLoop ms x k) f = run (latticeSum L) (k (x + (ms.map fun mu => siteSum L fun c => (links f mu c).trace.re).sum)) f ∧
    (Legal (latticeSum L) L (k (x + (ms.map fun mu => siteSum L fun c => (links f mu c).trace.re).sum)) f → Legal (latticeSum L) L (linkLoop ms x k) f)
  | [], x, f, k => by simp [linkLoop]
  | mu :: ms, x, f, k => by
    have hval : ((latticeSum L allSites ((⟨[mu], fun vs => zv ((vs.getD 0 0).m.trace.re : ℂ)⟩ : Rhs (V n)).at f)).z).re =
        siteSum L fun c => (links f mu c).trace.re := by
      have : (⟨[mu], fun vs => zv ((vs.getD 0 0).m.trace.re : ℂ)⟩ : Rhs (V n)).at f = fun c => zv (((f mu c).m.trace.re : ℝ) : ℂ) := rfl
      rw [this, latticeSum_all, siteSum_z, siteSum_re]
      rfl
    obtain ⟨r, l⟩ := linkLoop_run ms (x + siteSum L fun c => (links f mu c).trace.re) f k
    rw [List.map_cons, List.sum_cons, ← add_assoc]
    refine ⟨?_, fun h => ?_⟩
    · rw [← r, ← hval]
      rfl
    · refine ⟨all_legal L, ?_⟩
      show Legal _ _ (linkLoop ms (x + _) k) f
      rw [hval]
      exact l h

end

/-! ## The sums over planes -/

theorem planes_sum (F : Nat × Nat → ℝ) : ∀ m, (((List.range' 1 m).flatMap fun mu => (List.range mu).map fun nu => (mu, nu)).map F).sum =
    ∑ mu ∈ range (m + 1), ∑ nu ∈ range mu, F (mu, nu)
  | 0 => by simp
  | m + 1 => by
    rw [List.range'_1_concat, List.flatMap_append, List.map_append, List.sum_append, planes_sum F m, sum_range_succ _ (m + 1)]
    simp only [List.flatMap_cons, List.flatMap_nil, List.append_nil, List.map_map]
    rw [Nat.add_comm 1 m]
    have : ∀ k j, (List.map (F ∘ fun nu => (k, nu)) (List.range j)).sum = ∑ nu ∈ range j, F (k, nu) := by
      intro k j
      induction j with
      | zero => rfl
      | succ j ih => rw [List.range_succ, List.map_append, List.sum_append, ih, sum_range_succ]; simp
    rw [this]

theorem mem_planes {nd : Nat} {p : Nat × Nat} (h : p ∈ planes nd) : p.1 < nd ∧ p.2 < p.1 := by
  simp only [planes, List.mem_flatMap, List.mem_map, List.mem_range, List.mem_range'_1] at h
  obtain ⟨mu, h1, nu, h2, rfl⟩ := h
  exact ⟨by simp only; omega, h2⟩

theorem fold_acc (nd : Nat) (F : Nat × Nat → ℝ) : ∀ (ps : List (Nat × Nat)) (a : Acc),
    ps.foldl (fun (a : Acc) p => a.add nd p.1 p.2 (F p)) a = ⟨a.w + (ps.map F).sum,
      a.s + (ps.map fun p => if p.1 = nd - 1 ∨ p.2 = nd - 1 then 0 else F p).sum,
      a.t + (ps.map fun p => if p.1 = nd - 1 ∨ p.2 = nd - 1 then F p else 0).sum⟩
  | [], a => by simp
  | p :: ps, a => by
    rw [List.foldl_cons, fold_acc nd F ps]
    simp only [List.map_cons, List.sum_cons, Acc.add]
    split <;> simp [add_assoc]

/-- the accumulators after all planes -/
theorem acc_eq (nd : Nat) (hnd : 1 ≤ nd) (F : Nat → Nat → ℝ) : (planes nd).foldl (fun (a : Acc) p => a.add nd p.1 p.2 (F p.1 p.2)) ⟨0, 0, 0⟩ =
    ⟨∑ mu ∈ range nd, ∑ nu ∈ range mu, F mu nu, ∑ mu ∈ range (nd - 1), ∑ nu ∈ range mu, F mu nu, ∑ nu ∈ range (nd - 1), F (nd - 1) nu⟩ := by
  rw [fold_acc nd fun p => F p.1 p.2]
  obtain ⟨m, rfl⟩ : ∃ m, nd = m + 1 := ⟨nd - 1, by omega⟩
  simp only [planes, Nat.add_sub_cancel, zero_add]
  rw [planes_sum, planes_sum, planes_sum]
  simp only [Acc.mk.injEq, true_and]
  constructor
  · rw [sum_range_succ, add_eq_left.2]
    · refine sum_congr rfl fun mu hmu => sum_congr rfl fun nu hnu => ?_
      have := mem_range.1 hmu
      have := mem_range.1 hnu
      rw [if_neg (by omega)]
    · exact sum_eq_zero fun nu _ => by simp
  · rw [sum_range_succ, add_eq_right.2]
    · exact sum_congr rfl fun nu _ => by simp
    · refine sum_eq_zero fun mu hmu => sum_eq_zero fun nu hnu => ?_
      have := mem_range.1 hmu
      have := mem_range.1 hnu
      rw [if_neg (by omega)]

/-! ## The program -/

theorem ckInt_le {x y : Nat} (h : x ≤ y) (hy : y < 2 ^ 31) : ckInt x = ok x := ckInt_of_lt (by omega)

theorem normalize_ok {vol nd n : Nat} (hvol : 0 < vol) (hnd : 2 ≤ nd) (hn : 1 ≤ n) (h1 : vol * nd * (nd - 1) * n < 2 ^ 31) (h2 : 12 * vol < 2 ^ 31)
    (a : Acc) (l : ℝ) : normalize vol nd n a l = ok ⟨a.w * (2 / (vol * nd * (nd - 1) * n)),
      a.s * (if nd > 2 then 2 / ((vol : ℝ) * (nd - 1) * (nd - 2) * n) else (1 : ℝ)), a.t / (vol * (nd - 1) * n), l / (12 * vol)⟩ := by
  obtain ⟨d, rfl⟩ : ∃ d, nd = d + 2 := ⟨nd - 2, by omega⟩
  simp only [show d + 2 - 1 = d + 1 by omega, show d + 2 - 2 = d by omega] at *
  have p1 : vol * (d + 2) * (d + 1) ≤ vol * (d + 2) * (d + 1) * n := Nat.le_mul_of_pos_right _ hn
  have p2 : vol * (d + 2) ≤ vol * (d + 2) * (d + 1) := Nat.le_mul_of_pos_right _ (by omega)
  have p3 : vol * (d + 1) * n ≤ vol * (d + 2) * (d + 1) * n := by
    refine Nat.mul_le_mul_right n ?_
    calc vol * (d + 1) ≤ vol * (d + 1) * (d + 2) := Nat.le_mul_of_pos_right _ (by omega)
      _ = vol * (d + 2) * (d + 1) := by ring
  have p4 : vol * (d + 1) ≤ vol * (d + 1) * n := Nat.le_mul_of_pos_right _ hn
  have p5 : vol * (d + 1) * d * n ≤ vol * (d + 2) * (d + 1) * n := by
    refine Nat.mul_le_mul_right n ?_
    calc vol * (d + 1) * d ≤ vol * (d + 1) * (d + 2) := Nat.mul_le_mul_left _ (by omega)
      _ = vol * (d + 2) * (d + 1) := by ring
  have p6 : vol * (d + 1) * d ≤ vol * (d + 1) * d * n := Nat.le_mul_of_pos_right _ hn
  have hv : (vol : ℝ) ≠ 0 := by exact_mod_cast hvol.ne'
  have hn' : (n : ℝ) ≠ 0 := by exact_mod_cast (show n ≠ 0 by omega)
  have hd1 : (d : ℝ) + 1 ≠ 0 := by positivity
  have hd2 : (d : ℝ) + 2 ≠ 0 := by positivity
  have c1 : ((vol * (d + 2) * (d + 1) * n : Nat) : ℝ) ≠ 0 := by push_cast; positivity
  have c2 : ((vol * (d + 1) * n : Nat) : ℝ) ≠ 0 := by push_cast; positivity
  have c3 : ((12 * vol : Nat) : ℝ) ≠ 0 := by push_cast; positivity
  simp only [normalize, show d + 2 - 1 = d + 1 by omega, show d + 2 - 2 = d by omega, ckInt_le (p2.trans p1) h1, ckInt_le p1 h1, ckInt_le le_rfl h1,
    ckInt_le (p4.trans p3) h1, ckInt_le p3 h1, ckInt_le le_rfl h2, ok_bind, Reunit.divR, if_neg c1, if_neg c2, if_neg c3, pure_def]
  by_cases hd : d = 0
  · subst hd
    simp only [show ¬ (0 + 2 > 2) by omega, if_false, ok_bind]
    push_cast
    norm_num
  · have c4 : ((vol * (d + 1) * d * n : Nat) : ℝ) ≠ 0 := by
      have : (d : ℝ) ≠ 0 := by exact_mod_cast hd
      push_cast; positivity
    simp only [show d + 2 > 2 by omega, if_true, ckInt_le (p6.trans p5) h1, ckInt_le p5 h1, ok_bind, if_neg c4]
    push_cast
    rw [show (d : ℝ) + 2 - 1 = d + 1 by ring, show (d : ℝ) + 2 - 2 = d by ring]

theorem mesPlq_run {n : Nat} {R : Type} {L : List Nat} (hL : ∀ l ∈ L, 5 * l < 2 ^ 31) {b : Nat} (hb : L.length ≤ b) (h1 : 1 ≤ L.length)
    (f : Nat → List Nat → V n) : ∃ f', (∀ x, x < b → f' x = f x) ∧ ∀ k : Outcome Obs → Prog (V n) R,
      let o := normalize (nsites L) L.length n ⟨∑ mu ∈ range L.length, ∑ nu ∈ range mu, planeSum L (links f) mu nu,
        ∑ mu ∈ range (L.length - 1), ∑ nu ∈ range mu, planeSum L (links f) mu nu, ∑ nu ∈ range (L.length - 1), planeSum L (links f) (L.length - 1) nu⟩
        (∑ mu ∈ range L.length, siteSum L fun x => (links f mu x).trace.re)
      run (latticeSum L) (mesPlq L b k) f = run (latticeSum L) (k o) f' ∧
      (Legal (latticeSum L) L (k o) f' → Legal (latticeSum L) L (mesPlq L b k) f) := by
  obtain ⟨f1, e1, r1⟩ := planeLoop_run (n := n) (R := R) hL hb (planes L.length)
    (fun p hp => ⟨(mem_planes hp).1, lt_trans (mem_planes hp).2 (mem_planes hp).1⟩) ⟨0, 0, 0⟩ f
  refine ⟨f1, e1, fun k => ?_⟩
  obtain ⟨ra, la⟩ := r1 fun a => linkLoop (List.range L.length) 0 fun l => k (normalize (nsites L) L.length n a l)
  rw [acc_eq L.length h1 fun mu nu => planeSum L (links f) mu nu] at ra la
  obtain ⟨rb, lb⟩ := linkLoop_run (L := L) (List.range L.length) 0 f1 fun l => k (normalize (nsites L) L.length n
    ⟨∑ mu ∈ range L.length, ∑ nu ∈ range mu, planeSum L (links f) mu nu,
        ∑ mu ∈ range (L.length - 1), ∑ nu ∈ range mu, planeSum L (links f) mu nu, ∑ nu ∈ range (L.length - 1), planeSum L (links f) (L.length - 1) nu⟩ l)
  have hs : (0 : ℝ) + ((List.range L.length).map fun mu => siteSum L fun c => (links f1 mu c).trace.re).sum =
      ∑ mu ∈ range L.length, siteSum L fun x => (links f mu x).trace.re := by
    have : ∀ m ≤ L.length, ((List.range m).map fun mu => siteSum L fun c => (links f1 mu c).trace.re).sum =
        ∑ mu ∈ range m, siteSum L fun x => (links f mu x).trace.re := by
      intro m
      induction m with
      | zero => intro _; rfl
      | succ m ih =>
        intro hm
        rw [List.range_succ, List.map_append, List.sum_append, ih (by omega), sum_range_succ]
        simp [links, e1 m (by omega)]
    rw [zero_add, this _ le_rfl]
  rw [hs] at rb lb
  exact ⟨ra.trans rb, fun h => la (lb h)⟩

theorem plane_shifts {n : Nat} {R : Type} {L : List Nat} {b mu nu : Nat} (hmu : mu < L.length) (hnu : nu < L.length) {k : ℝ → Prog (V n) R}
    (hk : ∀ x, OnlyShifts L (k x)) : OnlyShifts L (plane L b mu nu k) := ⟨⟨.fwd, mu, hmu, rfl⟩, ⟨.fwd, nu, hnu, rfl⟩, fun _ => hk _⟩

theorem planeLoop_shifts {n : Nat} {R : Type} {L : List Nat} {b : Nat} : ∀ (ps : List (Nat × Nat)), (∀ p ∈ ps, p.1 < L.length ∧ p.2 < L.length) →
    ∀ (a : Acc) {k : Acc → Prog (V n) R}, (∀ x, OnlyShifts L (k x)) → OnlyShifts L (planeLoop L b ps a k)
  | [], _, a, _, hk => hk a
  | (_, _) :: ps, h, _, _, hk => plane_shifts (h _ List.mem_cons_self).1 (h _ List.mem_cons_self).2 fun _ =>
      planeLoop_shifts ps (fun p hp => h p (List.mem_cons_of_mem _ hp)) _ hk

theorem linkLoop_shifts {n : Nat} {R : Type} {L : List Nat} : ∀ (ms : List Nat) (x : ℝ) {k : ℝ → Prog (V n) R}, (∀ x, OnlyShifts L (k x)) →
    OnlyShifts L (linkLoop ms x k)
  | [], x, _, hk => hk x
  | _ :: ms, _, _, hk => fun _ => linkLoop_shifts ms _ hk

theorem mesPlq_shifts {n : Nat} {R : Type} {L : List Nat} {b : Nat} {k : Outcome Obs → Prog (V n) R} (hk : ∀ x, OnlyShifts L (k x)) :
    OnlyShifts L (mesPlq L b k) :=
  planeLoop_shifts _ (fun _ hp => ⟨(mem_planes hp).1, lt_trans (mem_planes hp).2 (mem_planes hp).1⟩) _ fun _ => linkLoop_shifts _ _ fun _ => hk _

/-- a machine that can run the programs: blocks of one size on the nodes (C02), and extents for which `shift` does not overflow -/
structure Setup (g : Geom) : Prop where
  good : g.Good
  nodes : 0 < g.nodes
  blocks : ∃ (m : Machine) (S : List Nat), m.Good ∧ Cut g.L m.size S ∧ g.nodeNumber = nodeNumber m S
  sites : 0 < g.sites
  ext : ∀ l ∈ g.L, 5 * l < 2 ^ 31
  pos : ∀ l ∈ g.L, 0 < l

theorem Setup.ends {n : Nat} {R : Type} {g : Geom} (h : Setup g) (tot : List (V n) → V n) (htot : ∀ l, tot l = l.sum) (net : Net)
    (p : Prog (V n) R) (F : Nat → Local (V n)) (f : Nat → List Nat → V n) (hF : HoldsAll g F f) (hl : Legal (latticeSum g.L) g.L p f)
    (hs : OnlyShifts g.L p) : AlwaysEndsIn net g (start tot g p F) (run (latticeSum g.L) p f).1 (run (latticeSum g.L) p f).2 := by
  obtain ⟨m, S, hm, hcut, hnode⟩ := h.blocks
  exact C86_spmd tot htot net g h.good h.nodes p F f hF hl (accepted_of_shifts g h.good m hm S hcut hnode h.sites h.ext p hs)

/-- the lexicographic machines are such -/
theorem setup_lex (L S : List Nat) (m : Machine) (hm : m.Good) (hcut : Cut L m.size S) (hne : L ≠ []) (hS : ∀ s ∈ S, 0 < s)
    (hP : ∀ p ∈ m.size, 0 < p) (hv : nsites L < 2 ^ 31) (hL : ∀ l ∈ L, 5 * l < 2 ^ 31) (hpos : ∀ l ∈ L, 0 < l) : Setup (geomLex L m S) :=
  ⟨C02_lexico L S m hm hcut hne hS hP hv, nsites_pos hP, ⟨m, S, hm, hcut, rfl⟩, nsites_pos hS, hL, hpos⟩

/-- so are the two-colour ones -/
theorem setup_cb2 (L S : List Nat) (s0 : Nat) (m : Machine) (hm : m.Good) (hcut : Cut L m.size (s0 :: S)) (heven : s0 % 2 = 0)
    (hS : ∀ s ∈ s0 :: S, 0 < s) (hP : ∀ p ∈ m.size, 0 < p) (hv : nsites L < 2 ^ 31) (hL : ∀ l ∈ L, 5 * l < 2 ^ 31) (hpos : ∀ l ∈ L, 0 < l) :
    Setup (geomCB2 L m (s0 :: S)) :=
  ⟨C02_cb2 L S s0 m hm hcut heven hS hv, nsites_pos hP, ⟨m, s0 :: S, hm, hcut, rfl⟩, nsites_pos hS, hL, hpos⟩

theorem isPlaq_of {n : Nat} {L : List Nat} (hpos : ∀ l ∈ L, 0 < l) (hn : 1 ≤ n) (hnd : 2 ≤ L.length)
    (h1 : nsites L * L.length * (L.length - 1) * n < 2 ^ 31) (h2 : 12 * nsites L < 2 ^ 31) (u : GaugeField n) :
    ∃ o, normalize (nsites L) L.length n ⟨∑ mu ∈ range L.length, ∑ nu ∈ range mu, planeSum L u mu nu,
        ∑ mu ∈ range (L.length - 1), ∑ nu ∈ range mu, planeSum L u mu nu, ∑ nu ∈ range (L.length - 1), planeSum L u (L.length - 1) nu⟩
        (∑ mu ∈ range L.length, siteSum L fun x => (u mu x).trace.re) = ok o ∧ IsPlaq L u o :=
  ⟨_, normalize_ok (nsites_pos hpos) hnd hn h1 h2 _ _, ⟨mul_comm _ _, mul_comm _ _, by dsimp only; ring, by dsimp only; ring⟩⟩

/-- C92. `MesPlq` returns the averages of the traces of the plaquettes, on every machine and however its nodes interleave; the gauge field
(and every other field but the temporaries) is left as it was. -/
theorem C92_plaquette_partial {n : Nat} (hn : 1 ≤ n) (tot : List (V n) → V n) (htot : ∀ l, tot l = l.sum) (net : Net) (g : Geom) (hs : Setup g)
    (hnd : 2 ≤ g.L.length) (h1 : nsites g.L * g.L.length * (g.L.length - 1) * n < 2 ^ 31) (h2 : 12 * nsites g.L < 2 ^ 31) (b : Nat)
    (hb : g.L.length ≤ b) (F : Nat → Local (V n)) (f : Nat → List Nat → V n) (hF : HoldsAll g F f) :
    ∃ o f', IsPlaq g.L (links f) o ∧ (∀ x, x < b → f' x = f x) ∧ AlwaysEndsIn net g (start tot g (mesPlq g.L b Prog.ret) F) (ok o) f' := by
  obtain ⟨f', e, r⟩ := mesPlq_run (R := Outcome Obs) hs.ext hb (by omega) f
  obtain ⟨hr, hl⟩ := r Prog.ret
  obtain ⟨o, ho, hp⟩ := isPlaq_of hs.pos hn hnd h1 h2 (links f)
  have := hs.ends tot htot net (mesPlq g.L b Prog.ret) F f hF (hl trivial) (mesPlq_shifts fun _ => trivial)
  rw [hr, ho] at this
  exact ⟨o, f', hp, e, this⟩

end Verif.Gauge
