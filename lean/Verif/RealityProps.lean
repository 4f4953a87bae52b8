import Verif.Reality
/-
C89: arithmetic statements are arithmetic of numbers, whatever the types of the operands.
-/
namespace Verif.Reality
open Verif Outcome

/-- the operation on real numbers -/
noncomputable def Op.re : Op → ℝ → ℝ → ℝ
  | .add, a, b => a + b
  | .sub, a, b => a - b
  | .mul, a, b => a * b
  | .div, a, b => a / b

theorem promote_int {a b : Ty} : promote a b = .int ↔ a = .int ∧ b = .int := by
  cases a <;> cases b <;> simp [promote]

theorem promote_self (a : Ty) : promote a a = a := by cases a <;> rfl

theorem ck_ok {n m : Int} (h : ck n = ok m) : m = n := by
  unfold ck at h
  split at h
  · injection h with h; exact h.symm
  · simp at h

theorem conv_ok {t : Ty} {w w' : W} (h : conv t w = ok w') : w'.ty = t ∧ ((t = .int → w.ty = .int) → w'.val = w.val) := by
  cases t <;> cases w <;> simp only [conv, bind_eq_ok, pure_def] at h
  all_goals first
    | (injection h with h; subst h; simp [W.ty, W.val])
    | (obtain ⟨n, -, h⟩ := h; injection h with h; subst h; simp [W.ty])

theorem bin_ok {op : Op} {a b w : W} (h : bin op a b = ok w) :
    w.ty = promote a.ty b.ty ∧ ((op = .div → promote a.ty b.ty ≠ .int) → w.val = op.re a.val b.val) := by
  cases a <;> cases b <;> cases op <;>
    simp only [bin, bind_eq_ok, pure_def, Op.onReal, Op.onInt] at h <;> obtain ⟨n, h1, h⟩ := h <;>
    injection h with h <;> subst h
  all_goals first
    | (have := ck_ok h1; subst this; simp [W.ty, W.val, promote, Op.re])
    | (injection h1 with h1; subst h1; simp [W.ty, W.val, promote, Op.re])
    | (split at h1
       · simp at h1
       · first
         | (injection h1 with h1; subst h1; simp [W.ty, W.val, promote, Op.re])
         | simp [W.ty, promote])

theorem neg_ok {a w : W} (h : neg a = ok w) : w.ty = a.ty ∧ w.val = -a.val := by
  cases a <;> simp only [neg, bind_eq_ok, pure_def] at h
  · obtain ⟨n, h1, h⟩ := h
    injection h with h; subst h
    have := ck_ok h1; subst this
    simp [W.ty, W.val]
  all_goals (injection h with h; subst h; simp [W.ty, W.val])

theorem mk_ok {t : Ty} {re im : W} {v : V} (h : mk t re im = ok v) :
    v.ty = t ∧ v.Ok ∧ (∃ a b, v = .c a b) ∧ ((t = .int → re.ty = .int ∧ im.ty = .int) → v.val = ⟨re.val, im.val⟩) := by
  simp only [mk, bind_eq_ok, pure_def] at h
  obtain ⟨a, h1, b, h2, h⟩ := h
  injection h with h; subst h
  obtain ⟨a1, a2⟩ := conv_ok h1
  obtain ⟨b1, b2⟩ := conv_ok h2
  refine ⟨a1, by simp [V.Ok, a1, b1], ⟨a, b, rfl⟩, fun ht => ?_⟩
  simp [V.val, a2 fun e => (ht e).1, b2 fun e => (ht e).2]

theorem mkS_ok {t : Ty} {x : W} {v : V} (h : mkS t x = ok v) :
    v.ty = t ∧ v.Ok ∧ (∃ a, v = .s a) ∧ ((t = .int → x.ty = .int) → v.val = (x.val : ℂ)) := by
  simp only [mkS, bind_eq_ok, pure_def] at h
  obtain ⟨a, h1, h⟩ := h
  injection h with h; subst h
  obtain ⟨a1, a2⟩ := conv_ok h1
  exact ⟨a1, trivial, ⟨a, rfl⟩, fun ht => by simp [V.val, a2 ht]⟩

/-- a real number of scalar type -/
def V.isS : V → Bool
  | .s _ => true
  | .c _ _ => false

theorem one_ty (t : Ty) : (one t).ty = t ∧ (one t).val = 1 := by cases t <;> simp [one, W.ty, W.val]

/-- the reciprocal of the divisor, in a floating-point type -/
theorem tmp_ok {t : Ty} {n q tmp : W} (ht : t ≠ .int) (hn : n.ty = t) (h1 : bin .div (one t) n = ok q)
    (h2 : conv t q = ok tmp) : tmp.ty = t ∧ tmp.val = 1 / n.val := by
  obtain ⟨a1, a2⟩ := bin_ok h1
  obtain ⟨b1, b2⟩ := conv_ok h2
  rw [(one_ty t).1, hn, promote_self] at a1 a2
  refine ⟨b1, ?_⟩
  rw [b2 fun e => absurd e ht, a2 fun _ => ht, (one_ty t).2]
  rfl

theorem norm_ok {x y xx yy n : W} (hxy : x.ty = y.ty) (h1 : bin .mul x x = ok xx) (h2 : bin .mul y y = ok yy)
    (h3 : bin .add xx yy = ok n) : n.ty = x.ty ∧ n.val = x.val * x.val + y.val * y.val := by
  obtain ⟨a1, a2⟩ := bin_ok h1
  obtain ⟨b1, b2⟩ := bin_ok h2
  obtain ⟨c1, c2⟩ := bin_ok h3
  rw [promote_self] at a1 b1
  rw [a1, b1, hxy, promote_self] at c1
  refine ⟨c1.trans hxy.symm, ?_⟩
  rw [c2 (by simp), Op.re, a2 (by simp), b2 (by simp)]
  rfl

theorem opV_ok {op : Op} {l r v : V} (hl : l.Ok) (hr : r.Ok) (h : opV op l r = ok v) :
    v.ty = promote l.ty r.ty ∧ v.Ok ∧ v.isS = (l.isS && r.isS) ∧
      ((op = .div → r.ty ≠ .int ∨ (l.isS = true ∧ r.isS = true ∧ l.ty ≠ .int)) → v.val = op.den l.val r.val) := by
  cases l with
  | s a =>
    cases r with
    | s x =>
      have key : ∀ w, bin op a x = ok w → mkS (promote a.ty x.ty) w = ok v →
          v.ty = promote a.ty x.ty ∧ v.Ok ∧ v.isS = true ∧
          ((op = .div → x.ty ≠ .int ∨ a.ty ≠ .int) → v.val = ((op.re a.val x.val : ℝ) : ℂ)) := by
        intro w h1 h2
        obtain ⟨a1, a2⟩ := bin_ok h1
        obtain ⟨b1, b2, ⟨z, rfl⟩, b4⟩ := mkS_ok h2
        refine ⟨b1, b2, rfl, fun hd => ?_⟩
        rw [b4 fun e => a1.trans e, a2 ?_]
        intro e e2
        obtain ⟨e3, e4⟩ := promote_int.1 e2
        rcases hd e with h | h
        · exact h e4
        · exact h e3
      cases op <;> simp only [opV, addV, subV, mulV, divV, V.ty, bind_eq_ok] at h <;> obtain ⟨w, h1, h2⟩ := h <;>
        obtain ⟨k1, k2, k3, k4⟩ := key w h1 h2 <;> refine ⟨k1, k2, k3, fun hd => ?_⟩ <;>
        rw [k4 (fun e => (hd e).imp id fun h => h.2.2)] <;>
        simp [Op.re, Op.den, V.val]
    | c x y =>
      have hxy : x.ty = y.ty := hr
      cases op with
      | add =>
        simp only [opV, addV, V.ty, bind_eq_ok] at h
        obtain ⟨p, h1, h2⟩ := h
        obtain ⟨p1, p2⟩ := bin_ok h1
        obtain ⟨m1, m2, ⟨e, f, rfl⟩, m4⟩ := mk_ok h2
        refine ⟨m1, m2, rfl, fun _ => ?_⟩
        rw [m4 fun e => ⟨p1.trans e, hxy ▸ (promote_int.1 e).2⟩, p2 (by simp)]
        apply Complex.ext <;> simp [Op.re, Op.den, V.val]
      | sub =>
        simp only [opV, subV, V.ty, bind_eq_ok] at h
        obtain ⟨p, h1, q, h3, h2⟩ := h
        obtain ⟨p1, p2⟩ := bin_ok h1
        obtain ⟨q1, q2⟩ := neg_ok h3
        obtain ⟨m1, m2, ⟨e, f, rfl⟩, m4⟩ := mk_ok h2
        refine ⟨m1, m2, rfl, fun _ => ?_⟩
        rw [m4 fun e => ⟨p1.trans e, q1.trans (hxy ▸ (promote_int.1 e).2)⟩, p2 (by simp), q2]
        apply Complex.ext <;> simp [Op.re, Op.den, V.val]
      | mul =>
        simp only [opV, mulV, V.ty, bind_eq_ok] at h
        obtain ⟨p, h1, q, h3, h2⟩ := h
        obtain ⟨p1, p2⟩ := bin_ok h1
        obtain ⟨q1, q2⟩ := bin_ok h3
        obtain ⟨m1, m2, ⟨e, f, rfl⟩, m4⟩ := mk_ok h2
        refine ⟨m1, m2, rfl, fun _ => ?_⟩
        rw [m4 fun e => ⟨p1.trans e, q1.trans (hxy ▸ e)⟩, p2 (by simp), q2 (by simp)]
        apply Complex.ext <;> simp [Op.re, Op.den, V.val]
      | div =>
        simp only [opV, divV, V.ty, bind_eq_ok] at h
        obtain ⟨xx, h1, yy, h2, n, h3, q, h4, tmp, h5, p, h6, p', h7, na, h8, s, h9, s', h10, h11⟩ := h
        obtain ⟨m1, m2, ⟨e, f, rfl⟩, m4⟩ := mk_ok h11
        refine ⟨m1, m2, rfl, fun hd => ?_⟩
        have hx : x.ty ≠ .int := by
          rcases hd rfl with h | h
          · exact h
          · exact absurd h.2.1 (by simp [V.isS])
        obtain ⟨n1, n2⟩ := norm_ok hxy h1 h2 h3
        obtain ⟨t1, t2⟩ := tmp_ok hx n1 h4 h5
        rw [m4 fun e => absurd (promote_int.1 e).2 hx, (bin_ok h7).2 (by simp), (bin_ok h6).2 (by simp),
          (bin_ok h10).2 (by simp), (bin_ok h9).2 (by simp), (neg_ok h8).2, t2, n2]
        apply Complex.ext <;>
          simp [Op.re, Op.den, V.val, Complex.div_re, Complex.div_im, Complex.normSq_apply] <;> ring
  | c a b =>
    have hab : a.ty = b.ty := hl
    cases r with
    | s x =>
      cases op with
      | add =>
        simp only [opV, addV, V.ty, bind_eq_ok] at h
        obtain ⟨p, h1, h2⟩ := h
        obtain ⟨p1, p2⟩ := bin_ok h1
        obtain ⟨m1, m2, ⟨e, f, rfl⟩, m4⟩ := mk_ok h2
        refine ⟨m1, m2, rfl, fun _ => ?_⟩
        rw [m4 fun e => ⟨p1.trans e, hab ▸ (promote_int.1 e).1⟩, p2 (by simp)]
        apply Complex.ext <;> simp [Op.re, Op.den, V.val]
      | sub =>
        simp only [opV, subV, V.ty, bind_eq_ok] at h
        obtain ⟨p, h1, h2⟩ := h
        obtain ⟨p1, p2⟩ := bin_ok h1
        obtain ⟨m1, m2, ⟨e, f, rfl⟩, m4⟩ := mk_ok h2
        refine ⟨m1, m2, rfl, fun _ => ?_⟩
        rw [m4 fun e => ⟨p1.trans e, hab ▸ (promote_int.1 e).1⟩, p2 (by simp)]
        apply Complex.ext <;> simp [Op.re, Op.den, V.val]
      | mul =>
        simp only [opV, mulV, V.ty, bind_eq_ok] at h
        obtain ⟨p, h1, q, h3, h2⟩ := h
        obtain ⟨p1, p2⟩ := bin_ok h1
        obtain ⟨q1, q2⟩ := bin_ok h3
        obtain ⟨m1, m2, ⟨e, f, rfl⟩, m4⟩ := mk_ok h2
        refine ⟨m1, m2, rfl, fun _ => ?_⟩
        rw [m4 fun e => ⟨p1.trans e, q1.trans (hab ▸ e)⟩, p2 (by simp), q2 (by simp)]
        apply Complex.ext <;> simp [Op.re, Op.den, V.val]
      | div =>
        simp only [opV, divV, V.ty, bind_eq_ok] at h
        obtain ⟨q, h4, tmp, h5, p, h6, p', h7, h11⟩ := h
        obtain ⟨m1, m2, ⟨e, f, rfl⟩, m4⟩ := mk_ok h11
        refine ⟨m1, m2, rfl, fun hd => ?_⟩
        have hx : x.ty ≠ .int := by
          rcases hd rfl with h | h
          · exact h
          · exact absurd h.1 (by simp [V.isS])
        obtain ⟨t1, t2⟩ := tmp_ok hx rfl h4 h5
        rw [m4 fun e => absurd (promote_int.1 e).2 hx, (bin_ok h7).2 (by simp), (bin_ok h6).2 (by simp), t2]
        apply Complex.ext
        · simp only [Op.re, Op.den, V.val, Complex.div_ofReal_re]; ring
        · simp only [Op.re, Op.den, V.val, Complex.div_ofReal_im]; ring
    | c x y =>
      have hxy : x.ty = y.ty := hr
      cases op with
      | add =>
        simp only [opV, addV, V.ty, bind_eq_ok] at h
        obtain ⟨p, h1, q, h3, h2⟩ := h
        obtain ⟨p1, p2⟩ := bin_ok h1
        obtain ⟨q1, q2⟩ := bin_ok h3
        obtain ⟨m1, m2, ⟨e, f, rfl⟩, m4⟩ := mk_ok h2
        refine ⟨m1, m2, rfl, fun _ => ?_⟩
        rw [m4 fun e => ⟨p1.trans e, q1.trans (hab ▸ hxy ▸ e)⟩, p2 (by simp), q2 (by simp)]
        apply Complex.ext <;> simp [Op.re, Op.den, V.val]
      | sub =>
        simp only [opV, subV, V.ty, bind_eq_ok] at h
        obtain ⟨p, h1, q, h3, h2⟩ := h
        obtain ⟨p1, p2⟩ := bin_ok h1
        obtain ⟨q1, q2⟩ := bin_ok h3
        obtain ⟨m1, m2, ⟨e, f, rfl⟩, m4⟩ := mk_ok h2
        refine ⟨m1, m2, rfl, fun _ => ?_⟩
        rw [m4 fun e => ⟨p1.trans e, q1.trans (hab ▸ hxy ▸ e)⟩, p2 (by simp), q2 (by simp)]
        apply Complex.ext <;> simp [Op.re, Op.den, V.val]
      | mul =>
        simp only [opV, mulV, V.ty, bind_eq_ok] at h
        obtain ⟨p, h1, q, h3, s, h4, p', h5, q', h6, s', h7, h2⟩ := h
        have p1 := (bin_ok h1).1
        have q1 := (bin_ok h3).1
        have s1 := (bin_ok h4).1
        have p'1 := (bin_ok h5).1
        have q'1 := (bin_ok h6).1
        have s'1 := (bin_ok h7).1
        obtain ⟨m1, m2, ⟨e, f, rfl⟩, m4⟩ := mk_ok h2
        refine ⟨m1, m2, rfl, fun _ => ?_⟩
        rw [m4 ?_, (bin_ok h4).2 (by simp), (bin_ok h7).2 (by simp), (bin_ok h1).2 (by simp), (bin_ok h3).2 (by simp),
          (bin_ok h5).2 (by simp), (bin_ok h6).2 (by simp)]
        · apply Complex.ext <;> simp [Op.re, Op.den, V.val]
        · intro e
          rw [s1, s'1, p1, q1, p'1, q'1, ← hab, ← hxy, promote_self]
          exact ⟨e, e⟩
      | div =>
        simp only [opV, divV, V.ty, bind_eq_ok] at h
        obtain ⟨xx, h1, yy, h2, n, h3, q, h4, tmp, h5, p, h6, p', h7, p'', h8, s, h9, r, h10, r', h12, r'', h13, z, h14,
          h11⟩ := h
        obtain ⟨m1, m2, ⟨e, f, rfl⟩, m4⟩ := mk_ok h11
        refine ⟨m1, m2, rfl, fun hd => ?_⟩
        have hx : x.ty ≠ .int := by
          rcases hd rfl with h | h
          · exact h
          · exact absurd h.1 (by simp [V.isS])
        obtain ⟨n1, n2⟩ := norm_ok hxy h1 h2 h3
        obtain ⟨t1, t2⟩ := tmp_ok hx n1 h4 h5
        rw [m4 fun e => absurd (promote_int.1 e).2 hx, (bin_ok h9).2 (by simp), (bin_ok h8).2 (by simp),
          (bin_ok h7).2 (by simp), (bin_ok h6).2 (by simp), (bin_ok h14).2 (by simp), (bin_ok h13).2 (by simp),
          (bin_ok h12).2 (by simp), (bin_ok h10).2 (by simp), t2, n2]
        apply Complex.ext <;>
          simp [Op.re, Op.den, V.val, Complex.div_re, Complex.div_im, Complex.normSq_apply] <;> ring

theorem negV_ok {l v : V} (hl : l.Ok) (h : negV l = ok v) :
    v.ty = l.ty ∧ v.Ok ∧ v.isS = l.isS ∧ v.val = -l.val := by
  cases l with
  | s a =>
    simp only [negV, bind_eq_ok] at h
    obtain ⟨w, h1, h2⟩ := h
    obtain ⟨n1, n2⟩ := neg_ok h1
    obtain ⟨b1, b2, ⟨z, rfl⟩, b4⟩ := mkS_ok h2
    exact ⟨b1, b2, rfl, by rw [b4 fun e => n1.trans e, n2]; simp [V.val]⟩
  | c a b =>
    have hab : a.ty = b.ty := hl
    simp only [negV, bind_eq_ok] at h
    obtain ⟨w, h1, w', h3, h2⟩ := h
    obtain ⟨n1, n2⟩ := neg_ok h1
    obtain ⟨n3, n4⟩ := neg_ok h3
    obtain ⟨b1, b2, ⟨z, z', rfl⟩, b4⟩ := mk_ok h2
    refine ⟨b1, b2, rfl, ?_⟩
    rw [b4 fun e => ⟨n1.trans e, n3.trans (hab ▸ e)⟩, n2, n4]
    apply Complex.ext <;> simp [V.val]

/-- the result of an expression has the types computed for it, and for `Fine` expressions the value -/
theorem eval_ok (e : E) (hok : e.Ok) {v : V} (h : eval e = ok v) :
    v.ty = e.ty ∧ v.Ok ∧ v.isS = isReal e ∧ (Fine e → v.val = den e) := by
  induction e generalizing v with
  | field w =>
    simp only [eval] at h
    injection h with h; subst h
    refine ⟨rfl, hok, ?_, fun _ => rfl⟩
    cases w <;> rfl
  | neg e ih =>
    simp only [eval, bind_eq_ok] at h
    obtain ⟨w, h1, h2⟩ := h
    obtain ⟨a1, a2, a3, a4⟩ := ih hok h1
    obtain ⟨b1, b2, b3, b4⟩ := negV_ok a2 h2
    exact ⟨b1.trans a1, b2, b3.trans a3, fun hf => by rw [b4, a4 hf]; rfl⟩
  | bin op l r ihl ihr =>
    simp only [eval, bind_eq_ok] at h
    obtain ⟨w, h1, w', h2, h3⟩ := h
    obtain ⟨a1, a2, a3, a4⟩ := ihl hok.1 h1
    obtain ⟨b1, b2, b3, b4⟩ := ihr hok.2 h2
    obtain ⟨c1, c2, c3, c4⟩ := opV_ok a2 b2 h3
    rw [a1, b1] at c1 c4
    rw [a3, b3] at c3 c4
    refine ⟨c1, c2, c3, fun hf => ?_⟩
    rw [c4 hf.2.2, a4 hf.1, b4 hf.2.1]
    rfl
  | numR op l x ih =>
    simp only [eval, bind_eq_ok] at h
    obtain ⟨w, h1, w', h2, h3⟩ := h
    obtain ⟨a1, a2, a3, a4⟩ := ih hok h2
    obtain ⟨x1, x2⟩ := conv_ok h1
    obtain ⟨c1, c2, c3, c4⟩ := opV_ok a2 (r := .s w) trivial h3
    have ew : (V.s w).ty = l.ty := x1
    rw [a1, ew] at c1 c4
    refine ⟨c1, c2, ?_, fun hf => ?_⟩
    · rw [c3, a3]; simp [V.isS, isReal]
    · rw [c4 fun e => Or.inl (hf.2.2 e), a4 hf.1]
      simp only [V.val, den]
      rw [x2 hf.2.1]
  | numL op x r ih =>
    simp only [eval, bind_eq_ok] at h
    obtain ⟨w, h1, w', h2, h3⟩ := h
    obtain ⟨a1, a2, a3, a4⟩ := ih hok h2
    obtain ⟨x1, x2⟩ := conv_ok h1
    obtain ⟨c1, c2, c3, c4⟩ := opV_ok (l := .s w) trivial a2 h3
    have ew : (V.s w).ty = r.ty := x1
    rw [a1, ew] at c1
    rw [a1] at c4
    refine ⟨c1, c2, ?_, fun hf => ?_⟩
    · rw [c3, a3]; simp [V.isS, isReal]
    · rw [c4 fun e => Or.inl (hf.2.2 e), a4 hf.1]
      simp only [V.val, den]
      rw [x2 hf.2.1]
  | fn g e ih =>
    simp only [eval, bind_eq_ok] at h
    obtain ⟨w, h1, h2⟩ := h
    obtain ⟨a1, a2, a3, a4⟩ := ih hok h1
    cases w with
    | c _ _ => simp [fnV] at h2
    | s x =>
      simp only [fnV] at h2
      obtain ⟨b1, b2, ⟨z, rfl⟩, b4⟩ := mkS_ok h2
      refine ⟨b1.trans a1, b2, rfl, fun hf => ?_⟩
      have hx : x.ty ≠ .int := fun e => hf.2 (a1 ▸ e)
      rw [b4 fun e => absurd e hx]
      simp only [den]
      rw [← a4 hf.1]
      simp [V.val, W.val]

/-! ## Floating-point expressions have a value -/

theorem conv_total {t : Ty} (ht : t ≠ .int) (w : W) : ∃ w', conv t w = ok w' := by
  cases t <;> first | exact absurd rfl ht | exact ⟨_, rfl⟩

theorem onReal_total {op : Op} {a b : ℝ} (h : op = .div → b ≠ 0) : ∃ r, op.onReal a b = ok r := by
  cases op <;> simp only [Op.onReal] <;> first | exact ⟨_, rfl⟩ | skip
  rw [if_neg (h rfl)]
  exact ⟨_, rfl⟩

theorem bin_total {op : Op} {a b : W} (h : promote a.ty b.ty ≠ .int) (hd : op = .div → b.val ≠ 0) :
    ∃ w, bin op a b = ok w := by
  obtain ⟨r, hr⟩ := onReal_total (op := op) (a := a.val) (b := b.val) hd
  cases a <;> cases b <;> first | exact absurd rfl h | skip
  all_goals
    simp only [W.val] at hr
    simp only [bin, W.val, hr, ok_bind]
    exact ⟨_, rfl⟩

theorem neg_total {a : W} (h : a.ty ≠ .int) : ∃ w, neg a = ok w := by
  cases a <;> first | exact absurd rfl h | exact ⟨_, rfl⟩

theorem mk_total {t : Ty} (ht : t ≠ .int) (a b : W) : ∃ v, mk t a b = ok v := by
  obtain ⟨x, hx⟩ := conv_total ht a
  obtain ⟨y, hy⟩ := conv_total ht b
  exact ⟨.c x y, by simp [mk, hx, hy]⟩

theorem mkS_total {t : Ty} (ht : t ≠ .int) (a : W) : ∃ v, mkS t a = ok v := by
  obtain ⟨x, hx⟩ := conv_total ht a
  exact ⟨.s x, by simp [mkS, hx]⟩

/-- one operation of which an operand is of floating-point type -/
theorem bin_fl {op : Op} {a b : W} (h : a.ty ≠ .int ∨ b.ty ≠ .int) (hd : op = .div → b.val ≠ 0) :
    ∃ w, bin op a b = ok w ∧ w.ty ≠ .int ∧ w.val = op.re a.val b.val := by
  have hp : promote a.ty b.ty ≠ .int := fun e => by
    obtain ⟨e1, e2⟩ := promote_int.1 e
    rcases h with h | h
    · exact h e1
    · exact h e2
  obtain ⟨w, hw⟩ := bin_total hp hd
  obtain ⟨h1, h2⟩ := bin_ok hw
  exact ⟨w, hw, h1 ▸ hp, h2 fun _ => hp⟩

theorem normSq_ne {x y : W} (h : (⟨x.val, y.val⟩ : ℂ) ≠ 0) : x.val * x.val + y.val * y.val ≠ 0 := by
  intro e
  apply h
  have := Complex.normSq_eq_zero (z := ⟨x.val, y.val⟩)
  rw [Complex.normSq_apply] at this
  exact this.1 e

theorem opV_total {op : Op} {l r : V} (hl : l.Ok) (hr : r.Ok) (fl : l.ty ≠ .int) (fr : r.ty ≠ .int)
    (hd : op = .div → r.val ≠ 0) : ∃ v, opV op l r = ok v := by
  have ht : promote l.ty r.ty ≠ .int := fun e => fl (promote_int.1 e).1
  cases l with
  | s a =>
    have fa : a.ty ≠ .int := fl
    cases r with
    | s x =>
      have hd' : op = .div → x.val ≠ 0 := fun e h => hd e (by simp [V.val, h])
      obtain ⟨w, h1, -⟩ := bin_fl (op := op) (b := x) (Or.inl fa) hd'
      obtain ⟨v, hv⟩ := mkS_total ht w
      refine ⟨v, ?_⟩
      cases op <;> simp only [opV, addV, subV, mulV, divV, h1, ok_bind, hv]
    | c x y =>
      have fx : x.ty ≠ .int := fr
      have fy : y.ty ≠ .int := (show x.ty = y.ty from hr) ▸ fx
      cases op with
      | add =>
        obtain ⟨w, h1, -⟩ := bin_fl (op := .add) (b := x) (Or.inl fa) (by simp)
        simp only [opV, addV, h1, ok_bind]
        exact mk_total ht _ _
      | sub =>
        obtain ⟨w, h1, -⟩ := bin_fl (op := .sub) (b := x) (Or.inl fa) (by simp)
        obtain ⟨w', h2⟩ := neg_total fy
        simp only [opV, subV, h1, h2, ok_bind]
        exact mk_total ht _ _
      | mul =>
        obtain ⟨w, h1, -⟩ := bin_fl (op := .mul) (b := x) (Or.inl fa) (by simp)
        obtain ⟨w', h2, -⟩ := bin_fl (op := .mul) (b := y) (Or.inl fa) (by simp)
        simp only [opV, mulV, h1, h2, ok_bind]
        exact mk_total ht _ _
      | div =>
        obtain ⟨xx, h1, f1, v1⟩ := bin_fl (op := .mul) (b := x) (Or.inl fx) (by simp)
        obtain ⟨yy, h2, f2, v2⟩ := bin_fl (op := .mul) (b := y) (Or.inl fy) (by simp)
        obtain ⟨n, h3, f3, v3⟩ := bin_fl (op := .add) (b := yy) (Or.inl f1) (by simp)
        have hn : n.val ≠ 0 := by rw [v3, v1, v2]; exact normSq_ne (hd rfl)
        obtain ⟨q, h4, f4, -⟩ := bin_fl (op := .div) (a := one x.ty) (Or.inr f3) (fun _ => hn)
        obtain ⟨tmp, h5⟩ := conv_total fx q
        obtain ⟨p, h6, f6, -⟩ := bin_fl (op := .mul) (b := x) (Or.inl fa) (by simp)
        obtain ⟨p', h7, -⟩ := bin_fl (op := .mul) (b := tmp) (Or.inl f6) (by simp)
        obtain ⟨na, h8⟩ := neg_total fa
        obtain ⟨s, h9, f9, -⟩ := bin_fl (op := .mul) (a := na) (Or.inr fy) (by simp)
        obtain ⟨s', h10, -⟩ := bin_fl (op := .mul) (b := tmp) (Or.inl f9) (by simp)
        simp only [opV, divV, h1, h2, h3, h4, h5, h6, h7, h8, h9, h10, ok_bind]
        exact mk_total ht _ _
  | c a b =>
    have fa : a.ty ≠ .int := fl
    have fb : b.ty ≠ .int := (show a.ty = b.ty from hl) ▸ fa
    cases r with
    | s x =>
      have fx : x.ty ≠ .int := fr
      cases op with
      | add =>
        obtain ⟨w, h1, -⟩ := bin_fl (op := .add) (b := x) (Or.inl fa) (by simp)
        simp only [opV, addV, h1, ok_bind]
        exact mk_total ht _ _
      | sub =>
        obtain ⟨w, h1, -⟩ := bin_fl (op := .sub) (b := x) (Or.inl fa) (by simp)
        simp only [opV, subV, h1, ok_bind]
        exact mk_total ht _ _
      | mul =>
        obtain ⟨w, h1, -⟩ := bin_fl (op := .mul) (b := x) (Or.inl fa) (by simp)
        obtain ⟨w', h2, -⟩ := bin_fl (op := .mul) (b := x) (Or.inl fb) (by simp)
        simp only [opV, mulV, h1, h2, ok_bind]
        exact mk_total ht _ _
      | div =>
        have hx : x.val ≠ 0 := fun h => hd rfl (by simp [V.val, h])
        obtain ⟨q, h4, f4, -⟩ := bin_fl (op := .div) (a := one x.ty) (Or.inr fx) (fun _ => hx)
        obtain ⟨tmp, h5⟩ := conv_total fx q
        obtain ⟨w, h1, -⟩ := bin_fl (op := .mul) (b := tmp) (Or.inl fa) (by simp)
        obtain ⟨w', h2, -⟩ := bin_fl (op := .mul) (b := tmp) (Or.inl fb) (by simp)
        simp only [opV, divV, h1, h2, h4, h5, ok_bind]
        exact mk_total ht _ _
    | c x y =>
      have fx : x.ty ≠ .int := fr
      have fy : y.ty ≠ .int := (show x.ty = y.ty from hr) ▸ fx
      obtain ⟨ax, k1, g1, -⟩ := bin_fl (op := .mul) (b := x) (Or.inl fa) (by simp)
      obtain ⟨by', k2, g2, -⟩ := bin_fl (op := .mul) (b := y) (Or.inl fb) (by simp)
      obtain ⟨ay, k3, g3, -⟩ := bin_fl (op := .mul) (b := y) (Or.inl fa) (by simp)
      obtain ⟨bx, k4, g4, -⟩ := bin_fl (op := .mul) (b := x) (Or.inl fb) (by simp)
      cases op with
      | add =>
        obtain ⟨w, h1, -⟩ := bin_fl (op := .add) (b := x) (Or.inl fa) (by simp)
        obtain ⟨w', h2, -⟩ := bin_fl (op := .add) (b := y) (Or.inl fb) (by simp)
        simp only [opV, addV, h1, h2, ok_bind]
        exact mk_total ht _ _
      | sub =>
        obtain ⟨w, h1, -⟩ := bin_fl (op := .sub) (b := x) (Or.inl fa) (by simp)
        obtain ⟨w', h2, -⟩ := bin_fl (op := .sub) (b := y) (Or.inl fb) (by simp)
        simp only [opV, subV, h1, h2, ok_bind]
        exact mk_total ht _ _
      | mul =>
        obtain ⟨w, h1, -⟩ := bin_fl (op := .sub) (b := by') (Or.inl g1) (by simp)
        obtain ⟨w', h2, -⟩ := bin_fl (op := .add) (b := bx) (Or.inl g3) (by simp)
        simp only [opV, mulV, k1, k2, k3, k4, h1, h2, ok_bind]
        exact mk_total ht _ _
      | div =>
        obtain ⟨xx, h1, f1, v1⟩ := bin_fl (op := .mul) (b := x) (Or.inl fx) (by simp)
        obtain ⟨yy, h2, f2, v2⟩ := bin_fl (op := .mul) (b := y) (Or.inl fy) (by simp)
        obtain ⟨n, h3, f3, v3⟩ := bin_fl (op := .add) (b := yy) (Or.inl f1) (by simp)
        have hn : n.val ≠ 0 := by rw [v3, v1, v2]; exact normSq_ne (hd rfl)
        obtain ⟨q, h4, f4, -⟩ := bin_fl (op := .div) (a := one x.ty) (Or.inr f3) (fun _ => hn)
        obtain ⟨tmp, h5⟩ := conv_total fx q
        obtain ⟨p, h6, f6, -⟩ := bin_fl (op := .add) (b := by') (Or.inl g1) (by simp)
        obtain ⟨p', h7, -⟩ := bin_fl (op := .mul) (b := tmp) (Or.inl f6) (by simp)
        obtain ⟨s, h9, f9, -⟩ := bin_fl (op := .sub) (b := ay) (Or.inl g4) (by simp)
        obtain ⟨s', h10, -⟩ := bin_fl (op := .mul) (b := tmp) (Or.inl f9) (by simp)
        simp only [opV, divV, k1, k2, k3, k4, h1, h2, h3, h4, h5, h6, h7, h9, h10, ok_bind]
        exact mk_total ht _ _

theorem floating_ty {e : E} (h : Floating e) : e.ty ≠ .int := by
  induction e with
  | field v => exact h
  | neg e ih => exact ih h
  | bin op l r ihl ihr => exact fun e => ihl h.1 (promote_int.1 e).1
  | numR op l x ih => exact fun e => ih h (promote_int.1 e).1
  | numL op x r ih => exact fun e => ih h (promote_int.1 e).1
  | fn g e ih => exact ih h.1

theorem floating_fine {e : E} (h : Floating e) : Fine e := by
  induction e with
  | field v => trivial
  | neg e ih => exact ih h
  | bin op l r ihl ihr => exact ⟨ihl h.1, ihr h.2, fun _ => Or.inl (floating_ty h.2)⟩
  | numR op l x ih => exact ⟨ih h, fun e => absurd e (floating_ty (e := l) h), fun _ => floating_ty (e := l) h⟩
  | numL op x r ih => exact ⟨ih h, fun e => absurd e (floating_ty (e := r) h), fun _ => floating_ty (e := r) h⟩
  | fn g e ih => exact ⟨ih h.1, floating_ty h.1⟩

/-! ## C89 -/

/-- C89. In an expression whose fields are of floating-point type, real or complex, single or double precision mixed in
any way, with C++ numbers of any type, and in which no divisor is zero, the value at a site is the complex number
obtained by the operations written, and its type is the one computed for the expression. -/
theorem C89_floating (e : E) (hok : e.Ok) (hf : Floating e) (hz : NoZero e) :
    ∃ v, eval e = ok v ∧ v.val = den e ∧ v.ty = e.ty := by
  suffices h : ∃ v, eval e = ok v by
    obtain ⟨v, h⟩ := h
    obtain ⟨h1, -, -, h4⟩ := eval_ok e hok h
    exact ⟨v, h, h4 (floating_fine hf), h1⟩
  induction e with
  | field v => exact ⟨v, rfl⟩
  | neg e ih =>
    obtain ⟨v, h⟩ := ih hok hf hz
    obtain ⟨h1, h2, -, -⟩ := eval_ok e hok h
    have ft : v.ty ≠ .int := h1 ▸ floating_ty (e := e) hf
    simp only [eval, h, ok_bind]
    cases v with
    | s a =>
      obtain ⟨w, hw⟩ := neg_total (a := a) ft
      simp only [negV, hw, ok_bind]
      exact mkS_total ft _
    | c a b =>
      obtain ⟨w, hw⟩ := neg_total (a := a) ft
      obtain ⟨w', hw'⟩ := neg_total (a := b) ((show a.ty = b.ty from h2) ▸ ft)
      simp only [negV, hw, hw', ok_bind]
      exact mk_total ft _ _
  | bin op l r ihl ihr =>
    obtain ⟨v, h⟩ := ihl hok.1 hf.1 hz.1
    obtain ⟨v', h'⟩ := ihr hok.2 hf.2 hz.2.1
    obtain ⟨a1, a2, -, -⟩ := eval_ok l hok.1 h
    obtain ⟨b1, b2, -, b4⟩ := eval_ok r hok.2 h'
    simp only [eval, h, h', ok_bind]
    refine opV_total a2 b2 (a1 ▸ floating_ty hf.1) (b1 ▸ floating_ty hf.2) fun e => ?_
    rw [b4 (floating_fine hf.2)]
    exact hz.2.2 e
  | numR op l x ih =>
    obtain ⟨v, h⟩ := ih hok hf hz.1
    obtain ⟨a1, a2, -, -⟩ := eval_ok l hok h
    have fl := floating_ty (e := l) hf
    obtain ⟨n, hn⟩ := conv_total fl x
    obtain ⟨n1, n2⟩ := conv_ok hn
    simp only [eval, h, hn, ok_bind]
    refine opV_total a2 (r := .s n) trivial (a1 ▸ fl) (by simpa [V.ty, n1] using fl) fun e => ?_
    simp only [V.val]
    rw [n2 fun e => absurd e fl]
    exact_mod_cast hz.2 e
  | numL op x r ih =>
    obtain ⟨v, h⟩ := ih hok hf hz.1
    obtain ⟨a1, a2, -, a4⟩ := eval_ok r hok h
    have fl := floating_ty (e := r) hf
    obtain ⟨n, hn⟩ := conv_total fl x
    obtain ⟨n1, n2⟩ := conv_ok hn
    simp only [eval, h, hn, ok_bind]
    refine opV_total (l := .s n) trivial a2 (by simpa [V.ty, n1] using fl) (a1 ▸ fl) fun e => ?_
    rw [a4 (floating_fine (e := r) hf)]
    exact hz.2 e
  | fn g e ih =>
    obtain ⟨v, h⟩ := ih hok hf.1 hz
    obtain ⟨a1, a2, a3, -⟩ := eval_ok e hok h
    simp only [eval, h, ok_bind]
    cases v with
    | c _ _ => rw [hf.2] at a3; simp [V.isS] at a3
    | s x =>
      simp only [fnV]
      have hx : x.ty ≠ .int := fun h' => floating_ty hf.1 (a1.symm.trans h')
      exact mkS_total hx _

/-- C89, partial: what holds when integer fields occur.  If the expression is `Fine` and is evaluated without overflow
and division by zero, the value is the number written. Missing: the property does not hold without `Fine`, see
`C89_div_int`, `C89_number_int`, `C89_fn_int`. -/
theorem C89_value_partial (e : E) (hok : e.Ok) (hf : Fine e) (v : V) (h : eval e = ok v) : v.val = den e ∧ v.ty = e.ty :=
  ⟨(eval_ok e hok h).2.2.2 hf, (eval_ok e hok h).1⟩

/-- C89. The type of a result is the type C++ gives to the operation. -/
theorem C89_promote (op : Op) (a b w : W) (h : bin op a b = ok w) : w.ty = promote a.ty b.ty := (bin_ok h).1

theorem tdiv_one {n : Int} (h : 2 ≤ n.natAbs) : (1 : Int).tdiv n = 0 := by
  rcases Int.natAbs_eq n with e | e <;> rw [e]
  · rw [Int.tdiv_eq_zero_of_lt] <;> omega
  · rw [Int.tdiv_neg, Int.tdiv_eq_zero_of_lt] <;> omega

theorem bin_one_int {n : Int} (h : 2 ≤ n.natAbs) : bin .div (one .int) (.i n) = ok (.i 0) := by
  have hn : n ≠ 0 := by intro e; simp [e] at h
  simp [bin, one, Op.onInt, hn, tdiv_one h, ck]

/-- C89, refutation. A complex field divided by an integer of magnitude at least 2 is zero. -/
theorem C89_div_int (re im : W) (hf : re.ty ≠ .int) (hc : re.ty = im.ty) (n : Int) (hn : 2 ≤ n.natAbs) :
    ∃ v, eval (.bin .div (.field (.c re im)) (.field (.s (.i n)))) = ok v ∧ v.val = 0 := by
  have fi : im.ty ≠ .int := hc ▸ hf
  obtain ⟨w, h1, f1, v1⟩ := bin_fl (op := .mul) (a := re) (b := .i 0) (Or.inl hf) (by simp)
  obtain ⟨w', h2, f2, v2⟩ := bin_fl (op := .mul) (a := im) (b := .i 0) (Or.inl fi) (by simp)
  have ht : promote re.ty (W.i n).ty ≠ .int := fun e => hf (promote_int.1 e).1
  obtain ⟨v, hv⟩ := mk_total ht w w'
  refine ⟨v, ?_, ?_⟩
  · simp only [eval, ok_bind, opV, divV, V.ty]
    rw [show (W.i n).ty = .int from rfl, bin_one_int hn]
    simp only [ok_bind, conv, h1, h2]
    exact hv
  · rw [(mk_ok hv).2.2.2 fun e => absurd e ht, v1, v2]
    simp [Op.re, W.val]
    rfl

/-- C89, refutation. The same with a complex divisor of integer parts (no overflow in the square of its magnitude). -/
theorem C89_div_int_complex (re im : W) (hf : re.ty ≠ .int) (hc : re.ty = im.ty) (x y : Int) (h2 : 2 ≤ x * x + y * y)
    (ho : x * x + y * y < 2 ^ 31) :
    ∃ v, eval (.bin .div (.field (.c re im)) (.field (.c (.i x) (.i y)))) = ok v ∧ v.val = 0 := by
  have fi : im.ty ≠ .int := hc ▸ hf
  have hx := mul_self_nonneg x
  have hy := mul_self_nonneg y
  have e1 : bin .mul (.i x) (.i x) = ok (.i (x * x)) := by
    simp only [bin, Op.onInt, ck]; rw [if_pos (by omega)]; rfl
  have e2 : bin .mul (.i y) (.i y) = ok (.i (y * y)) := by
    simp only [bin, Op.onInt, ck]; rw [if_pos (by omega)]; rfl
  have e3 : bin .add (.i (x * x)) (.i (y * y)) = ok (.i (x * x + y * y)) := by
    simp only [bin, Op.onInt, ck]; rw [if_pos (by omega)]; rfl
  obtain ⟨ax, k1, g1, -⟩ := bin_fl (op := .mul) (b := .i x) (Or.inl hf) (by simp)
  obtain ⟨by', k2, g2, -⟩ := bin_fl (op := .mul) (b := .i y) (Or.inl fi) (by simp)
  obtain ⟨ay, k3, g3, -⟩ := bin_fl (op := .mul) (b := .i y) (Or.inl hf) (by simp)
  obtain ⟨bx, k4, g4, -⟩ := bin_fl (op := .mul) (b := .i x) (Or.inl fi) (by simp)
  obtain ⟨p, h6, f6, -⟩ := bin_fl (op := .add) (b := by') (Or.inl g1) (by simp)
  obtain ⟨p', h7, -, v7⟩ := bin_fl (op := .mul) (b := .i 0) (Or.inl f6) (by simp)
  obtain ⟨s, h9, f9, -⟩ := bin_fl (op := .sub) (b := ay) (Or.inl g4) (by simp)
  obtain ⟨s', h10, -, v10⟩ := bin_fl (op := .mul) (b := .i 0) (Or.inl f9) (by simp)
  have ht : promote re.ty (W.i x).ty ≠ .int := fun e => hf (promote_int.1 e).1
  obtain ⟨v, hv⟩ := mk_total ht p' s'
  refine ⟨v, ?_, ?_⟩
  · simp only [eval, ok_bind, opV, divV, V.ty, e1, e2, e3]
    rw [show (W.i x).ty = .int from rfl, bin_one_int (by omega)]
    simp only [ok_bind, conv, k1, k2, k3, k4, h6, h7, h9, h10]
    exact hv
  · rw [(mk_ok hv).2.2.2 fun e => absurd e ht, v7, v10]
    simp [Op.re, W.val]
    rfl

/-- C89, refutation. A C++ number of magnitude below 1 next to an integer field counts as zero: the product vanishes, the
sum is the field, the quotient is undefined. -/
theorem C89_number_int (n : Int) (hn : -2 ^ 31 ≤ n ∧ n < 2 ^ 31) (x : ℝ) (hx : |x| < 1) :
    eval (.numR .mul (.field (.s (.i n))) (.d x)) = ok (.s (.i 0)) ∧
    eval (.numL .mul (.d x) (.field (.s (.i n)))) = ok (.s (.i 0)) ∧
    eval (.numR .add (.field (.s (.i n))) (.d x)) = ok (.s (.i n)) ∧
    eval (.numR .div (.field (.s (.i n))) (.d x)) = ub := by
  have hc : toInt x = ok 0 := by
    obtain ⟨h1, h2⟩ := abs_lt.1 hx
    have : (if 0 ≤ x then ⌊x⌋ else ⌈x⌉) = 0 := by
      split
      · exact Int.floor_eq_zero_iff.2 ⟨by assumption, h2⟩
      · rw [Int.ceil_eq_iff]
        constructor
        · push_cast; linarith
        · push_cast; linarith
    rw [toInt, this]
    rfl
  have ht : (E.field (.s (.i n))).ty = .int := rfl
  have hn' : ck n = ok n := if_pos hn
  have h0 : ck 0 = ok 0 := rfl
  refine ⟨?_, ?_, ?_, ?_⟩ <;>
    simp [eval, ht, conv, hc, opV, mulV, addV, divV, bin, Op.onInt, V.ty, W.ty, promote, mkS, hn', h0]

/-- C89, refutation. A function of an integer field is cut to an integer: zero where the function is below 1 in
magnitude, for example sine and cosine. -/
theorem C89_fn_int (g : ℝ → ℝ) (n : Int) (hg : |g n| < 1) : eval (.fn g (.field (.s (.i n)))) = ok (.s (.i 0)) := by
  have hc : toInt (g n) = ok 0 := by
    obtain ⟨h1, h2⟩ := abs_lt.1 hg
    have : (if 0 ≤ g n then ⌊g n⌋ else ⌈g n⌉) = 0 := by
      split
      · exact Int.floor_eq_zero_iff.2 ⟨by assumption, h2⟩
      · rw [Int.ceil_eq_iff]
        constructor
        · push_cast; linarith
        · push_cast; linarith
    rw [toInt, this]
    rfl
  simp [eval, fnV, mkS, W.ty, W.val, conv, hc]

/-- C89, refutation of the property for expressions with integer fields: well-typed, no divisor zero, evaluated, wrong. -/
theorem C89_false : ∃ (e : E) (v : V), e.Ok ∧ NoZero e ∧ eval e = ok v ∧ v.val ≠ den e := by
  obtain ⟨v, h1, h2⟩ := C89_div_int (.d 6) (.d 4) (by simp [W.ty]) rfl 2 (by decide)
  refine ⟨.bin .div (.field (.c (.d 6) (.d 4))) (.field (.s (.i 2))), v, ⟨rfl, trivial⟩,
    ⟨trivial, trivial, fun _ => ?_⟩, h1, ?_⟩
  · simp [den, V.val, W.val]
  · rw [h2]
    simp only [den, Op.den, V.val, W.val]
    intro h
    have := congrArg Complex.re h
    rw [Complex.div_ofReal_re] at this
    norm_num at this

/-! ## Compound assignment -/

theorem opAssignW_ok {op : Op} {l x w : W} (hl : l.ty ≠ .int) (h : opAssignW op l x = ok w) :
    w.ty = l.ty ∧ w.val = op.re l.val x.val := by
  simp only [opAssignW, bind_eq_ok] at h
  obtain ⟨p, h1, h2⟩ := h
  obtain ⟨a1, a2⟩ := bin_ok h1
  obtain ⟨b1, b2⟩ := conv_ok h2
  refine ⟨b1, ?_⟩
  rw [b2 fun e => absurd e hl, a2 fun _ e => hl (promote_int.1 e).1]

/-- C89, compound assignment. `a op= b` for a left side of floating-point type, also when both are the same object:
only `a` changes, it keeps its type, its new value is the operation on the old values. A complex divisor must not be of
integer type, a real one may be. -/
theorem C89_compound (op : Op) (m m' : Mem) (a b : Nat) (ha : (m a).Ok) (hb : (m b).Ok) (hf : (m a).ty ≠ .int)
    (hd : op = .div → (m b).isS = true ∨ (m b).ty ≠ .int) (h : opAssign op m a b = ok m') :
    m' = Function.update m a (m' a) ∧ (m' a).ty = (m a).ty ∧ (m' a).Ok ∧
      (m' a).val = op.den (m a).val (m b).val := by
  unfold opAssign at h
  cases ea : m a with
  | s l =>
    rw [ea] at h hf ha
    cases eb : m b with
    | s x =>
      rw [eb] at h
      simp only [bind_eq_ok, pure_def] at h
      obtain ⟨w, h1, h⟩ := h
      injection h with h; subst h
      obtain ⟨w1, w2⟩ := opAssignW_ok hf h1
      refine ⟨by simp, by simpa [V.ty] using w1, by simp [V.Ok], ?_⟩
      simp only [Function.update_self, V.val, w2]
      cases op <;> simp [Op.re, Op.den]
    | c x y => rw [eb] at h; simp at h
  | c l k =>
    rw [ea] at h hf ha
    have hlk : l.ty = k.ty := ha
    have fl : l.ty ≠ .int := hf
    have fk : k.ty ≠ .int := hlk ▸ fl
    cases eb : m b with
    | s x =>
      rw [eb] at h
      have hab : a ≠ b := fun e => by rw [e, eb] at ea; exact absurd ea (by simp)
      by_cases ho : op = .add ∨ op = .sub
      · simp only [if_pos ho, bind_eq_ok, pure_def] at h
        obtain ⟨w, h1, h⟩ := h
        injection h with h; subst h
        obtain ⟨w1, w2⟩ := opAssignW_ok fl h1
        refine ⟨by simp, by simpa [V.ty] using w1, by simp [V.Ok, w1, hlk], ?_⟩
        simp only [Function.update_self, V.val, w2]
        rcases ho with rfl | rfl <;> apply Complex.ext <;> simp [Op.re, Op.den]
      · simp only [if_neg ho, bind_eq_ok, pure_def] at h
        obtain ⟨w, h1, h⟩ := h
        rw [Function.update_self, Function.update_of_ne (Ne.symm hab), eb] at h
        simp only [bind_eq_ok] at h
        obtain ⟨w', h2, h⟩ := h
        injection h with h; subst h
        obtain ⟨w1, w2⟩ := opAssignW_ok fl h1
        obtain ⟨w3, w4⟩ := opAssignW_ok fk h2
        refine ⟨by simp, by simpa [V.ty] using w1, by simp [V.Ok, w1, w3, hlk], ?_⟩
        simp only [Function.update_self, V.val, w2, w4]
        cases op with
        | add => simp at ho
        | sub => simp at ho
        | mul => apply Complex.ext <;> simp [Op.re, Op.den]
        | div =>
          apply Complex.ext
          · simp only [Op.re, Op.den, Complex.div_ofReal_re]
          · simp only [Op.re, Op.den, Complex.div_ofReal_im]
    | c x y =>
      rw [eb] at h
      by_cases ho : op = .add ∨ op = .sub
      · simp only [if_pos ho, bind_eq_ok] at h
        obtain ⟨w, h1, h⟩ := h
        rw [Function.update_self] at h
        obtain ⟨w1, w2⟩ := opAssignW_ok fl h1
        have hm : ∃ x', Function.update m a (V.c w k) b = V.c x' y := by
          by_cases hab : b = a
          · subst hab
            rw [ea] at eb
            injection eb with e1 e2
            exact ⟨w, by simp [e2]⟩
          · exact ⟨x, by simp [Function.update_of_ne hab, eb]⟩
        obtain ⟨x', hx'⟩ := hm
        rw [hx'] at h
        simp only [bind_eq_ok, pure_def] at h
        obtain ⟨w', h2, h⟩ := h
        injection h with h; subst h
        obtain ⟨w3, w4⟩ := opAssignW_ok fk h2
        refine ⟨by simp, by simpa [V.ty] using w1, by simp [V.Ok, w1, w3, hlk], ?_⟩
        simp only [Function.update_self, V.val, w2, w4]
        rcases ho with rfl | rfl <;> apply Complex.ext <;> simp [Op.re, Op.den]
      · simp only [if_neg ho, bind_eq_ok] at h
        obtain ⟨t, h1, h⟩ := h
        obtain ⟨o1, o2, o3, o4⟩ := opV_ok (l := .c l k) (r := .c x y) hlk (by rw [eb] at hb; exact hb) h1
        cases t with
        | s _ => simp [V.isS] at o3
        | c re im =>
          simp only [bind_eq_ok] at h
          obtain ⟨d, h2, h⟩ := h
          obtain ⟨m1, m2, ⟨re', im', rfl⟩, m4⟩ := mk_ok h2
          simp only [Function.update_self, pure_def] at h
          injection h with h; subst h
          refine ⟨by simp, by simpa [V.ty] using m1, by simpa using m2, ?_⟩
          simp only [Function.update_self]
          rw [m4 fun e => absurd e fl]
          have := o4 fun e => Or.inl (by
            rcases hd e with h | h
            · rw [eb] at h; simp [V.isS] at h
            · rw [eb] at h; exact h)
          rw [← this]
          rfl

/-- C89, refutation: the two ways to divide disagree. `c /= n` is the quotient, `c / n` is zero, for every complex number
different from zero and every integer of magnitude at least 2. -/
theorem C89_div_inconsistent (m m' : Mem) (a b : Nat) (re im : W) (ea : m a = .c re im) (hf : re.ty ≠ .int)
    (hc : re.ty = im.ty) (hne : (m a).val ≠ 0) (n : Int) (hn : 2 ≤ n.natAbs) (eb : m b = .s (.i n))
    (h : opAssign .div m a b = ok m') :
    (m' a).val = (m a).val / n ∧ ∃ v, eval (.bin .div (.field (m a)) (.field (m b))) = ok v ∧ v.val = 0 ∧
      (m' a).val ≠ v.val := by
  obtain ⟨-, -, -, h4⟩ := C89_compound .div m m' a b (by rw [ea]; exact hc) (by rw [eb]; trivial)
    (by rw [ea]; exact hf) (fun _ => Or.inl (by rw [eb]; rfl)) h
  have e1 : (m' a).val = (m a).val / n := by rw [h4, eb]; simp [Op.den, V.val, W.val]
  obtain ⟨v, h5, h6⟩ := C89_div_int re im hf hc n hn
  refine ⟨e1, v, by rw [ea, eb]; exact h5, h6, ?_⟩
  rw [e1, h6]
  refine div_ne_zero hne ?_
  intro e
  have : n = 0 := by exact_mod_cast e
  simp [this] at hn

/-! ### witnesses -/

-- (z + 2) * (r - z) / 3.0f with z = 1 + 2i in double, r = 5 in float
example : ∃ e : E, e = .numR .div (.bin .mul (.numR .add (.field (.c (.d 1) (.d 2))) (.i 2))
    (.bin .sub (.field (.s (.f 5))) (.field (.c (.d 1) (.d 2))))) (.f 3) ∧ e.Ok ∧ Floating e ∧ NoZero e := by
  refine ⟨_, rfl, ⟨rfl, trivial, rfl⟩, ⟨by simp [Floating, V.ty, W.ty], by simp [Floating, V.ty, W.ty],
    by simp [Floating, V.ty, W.ty]⟩, ?_⟩
  simp [NoZero, W.val]

-- a real field divided by an integer field times an int: `Fine`, evaluated
example : Fine (.numR .mul (.bin .div (.field (.s (.d 5))) (.field (.s (.i 2)))) (.i 3)) ∧
    ∃ v, eval (.numR .mul (.bin .div (.field (.s (.d 5))) (.field (.s (.i 2)))) (.i 3)) = ok v := by
  refine ⟨⟨⟨trivial, trivial, fun _ => Or.inr ⟨rfl, rfl, by simp [E.ty, V.ty, W.ty]⟩⟩, ?_, by simp⟩, ?_⟩
  · simp [E.ty, V.ty, W.ty, promote]
  · simp [eval, E.ty, V.ty, W.ty, promote, opV, divV, mulV, bin, W.val, Op.onReal, mkS, conv]

-- z /= z for z = 3 + 4i
example : ∃ m', opAssign .div (fun _ => .c (.d 3) (.d 4)) 0 0 = ok m' := by
  have : ¬ ((3:ℝ) * 3 + 4 * 4 = 0) := by norm_num
  simp [opAssign, opV, divV, V.ty, W.ty, promote, bin, W.val, Op.onReal, mk, conv, one, this]

-- sine of the integer 1 is below 1
example : |(fun x : ℝ => x / 2) ((1 : Int) : ℝ)| < 1 := by norm_num [abs_lt]

end Verif.Reality
