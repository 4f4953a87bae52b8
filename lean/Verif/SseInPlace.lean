import Verif.SseThm
/-
The statements on fields of colour matrices whose destination is also an operand that the kernels read after they have stored.
-/
set_option linter.unusedVariables false
namespace Verif.Sse
open Verif Outcome Verif.Poly Verif.SiteLoop Verif.Subset Verif.Dispatch Verif.Blas Verif.Su3

section
variable {K : Type} [CommRing K]

/-! ## operands that are also the destination -/

def intNum (a : Int) : Num Int := ⟨⟨0, fun a => -a, (· + ·), (· - ·), (· * ·)⟩, 1, a⟩
def factorI : Asg → Int
  | .sub => -1
  | _ => 1

theorem int_hom (op : Asg) : NumHom (intNum (factorI op)) (ringNum K (factor op)) (fun z : Int => (z : K)) where
  hom := ⟨by simp [intNum, ringNum, ringOps], by simp [intNum, ringNum, ringOps], by simp [intNum, ringNum, ringOps], by simp [intNum, ringNum, ringOps],
    by simp [intNum, ringNum, ringOps]⟩
  one := by simp [intNum, ringNum]
  a := by cases op <;> simp [intNum, ringNum, factor, factorI]

/-- the matrix that permutes: row `i` has its one in column `p[i]` -/
def perm (p : List Nat) : List Int := (List.range 18).map fun k => if k % 2 = 0 ∧ p[k / 6]? = some (k % 6 / 2) then 1 else 0

/-- exchange of the first two colours; nothing; a cyclic permutation -/
def swapM : List Int := perm [1, 0, 2]
def oneM : List Int := perm [0, 1, 2]
def cycM : List Int := perm [2, 0, 1]

/-- how the fields coincide in an unsafe statement -/
inductive Alias where
  | right | left | all
deriving DecidableEq

def Alias.σ : Alias → Nat → Nat
  | .right => σR
  | .left => σL
  | .all => σA

/-- the right operand when it is a field of its own -/
def rightM (q : Kind) (op : Asg) : List Int := match q, op with
  | .hm, .set => swapM
  | .hm, _ => oneM
  | _, _ => cycM

/-- the contents of the fields -/
def fieldsM (q : Kind) (op : Asg) : Alias → List (List Int)
  | .left => [swapM, rightM q op, rightM q op]
  | _ => [swapM, swapM, swapM]

/-- the word that is wrong -/
def wrongWord (q : Kind) (op : Asg) : Alias → Nat
  | .right => 6
  | .left => match q, op with
    | .hm, .set => 8
    | .hm, _ => 6
    | _, _ => 14
  | .all => match q, op with
    | .hm, .set => 8
    | _, _ => 6

def nth (m : List (List Int)) (f k : Nat) : Int := ((m[f]?.getD [])[k]?).getD 0

/-- the word of the kernel and the word of the statement -/
def bothWords (s : Bool) (q : Kind) (op : Asg) (al : Alias) : Option Int × Int :=
  let n := intNum (factorI op)
  let m := fieldsM q op al
  ((Sym.result n al.σ ((kern q op).body s) m).bind fun R => R[wrongWord q op al]?,
    newWord q op n (nth m (al.σ 0)) (nth m (al.σ 1)) (nth m (al.σ 2)) (wrongWord q op al))

def differ (w : Option Int × Int) : Bool := match w.1 with
  | some z => z - w.2 == 1 || z - w.2 == -1
  | none => false

def Alias.Bad (q : Kind) : Alias → Prop
  | .left => q = .hm ∨ q = .hh
  | _ => True

set_option maxHeartbeats 2000000 in
set_option maxRecDepth 100000 in
theorem words_differ (s : Bool) (q : Kind) (op : Asg) (al : Alias) (h : al.Bad q) : differ (bothWords s q op al) = true := by
  cases al
  · cases s <;> cases q <;> cases op <;> decide +kernel
  · rcases h with rfl | rfl <;> cases s <;> cases op <;> decide +kernel
  · cases s <;> cases q <;> cases op <;> decide +kernel

set_option maxRecDepth 100000 in
theorem kern_wellDef (s : Bool) (q : Kind) (op : Asg) : wellDef [] ((kern q op).body s) = true := by
  cases s <;> cases q <;> cases op <;> decide +kernel

/-- the fields of an unsafe statement -/
def Alias.fld (d e : Nat) : Alias → Nat × Nat
  | .right => (e, d)
  | .left => (d, e)
  | .all => (d, d)

theorem fld3_al (al : Alias) {d e : Nat} : fld3 d (al.fld d e).1 (al.fld d e).2 = fun p => fld3 d e e (al.σ p) := by
  cases al
  · funext p
    simp only [Alias.fld, Alias.σ, σR, fld3]
    by_cases h0 : p = 0
    · simp [h0]
    · by_cases h1 : p = 1
      · simp [h1]
      · simp [h0, h1, show ¬ p ≤ 1 by omega]
  · exact fld3_L d e
  · funext p
    simp [Alias.fld, Alias.σ, σA, fld3]

theorem al_σ (al : Alias) : al.σ 0 = 0 := by cases al <;> rfl

theorem nth_get {m : List (List Int)} {f k : Nat} {w : List Int} {z : Int} (h : m[f]? = some w) (hk : w[k]? = some z) : nth m f k = z := by
  simp [nth, h, hk]

theorem fieldsM_len (q : Kind) (op : Asg) (al : Alias) : (fieldsM q op al).length = 3 := by cases al <;> rfl

theorem differ_cast [Nontrivial K] {z y : Int} (h : differ (some z, y) = true) : (z : K) ≠ (y : K) := by
  intro hc
  have h0 : ((z - y : Int) : K) = 0 := by rw [Int.cast_sub, hc, sub_self]
  simp only [differ, Bool.or_eq_true, beq_iff_eq] at h
  rcases h with h | h <;> rw [h] at h0 <;> simp at h0

theorem kern_cs (q : Kind) (op : Asg) (s : Bool) (before : Nat → K × K) (fld : Nat → Nat) (lc : Nat → K × K) (v : View (Nat → K)) :
    runView (act (ringNum K (factor op)) (preRegs (ringNum K (factor op)) (kern q op).pre before) fld) ((kern q op).body s) lc v =
    runView (act (ringNum K (factor op)) (fun k => if k = 0 then (factor op, factor op) else preRegs (ringNum K (factor op)) (kern q op).pre before k) fld)
      ((kern q op).body s) lc v := by
  by_cases h : op = .set
  · subst h
    exact run_congr (set_noC s q) lc v
  · congr 2
    funext k
    split
    · next hk => rw [hk, kern_pre q h]
    · rfl

/-- one site of an unsafe statement on the matrices above -/
theorem bad_word [Nontrivial K] {q : Kind} {al : Alias} (hb : al.Bad q) (s : Bool) (op : Asg) {d e : Nat} (he : d ≠ e) (before lc : Nat → K × K)
    {v : View (Nat → K)} (hv : ∀ f, f < 3 → ∀ k, v (fld3 d e e f) k = (nth (fieldsM q op al) f k : K)) :
    (runView (actK (kern q op) (factor op) before d (al.fld d e).1 (al.fld d e).2) ((kern q op).body s) lc v).2 d (wrongWord q op al) ≠
      newWord q op (ringNum K (factor op)) (v d) (v (al.fld d e).1) (v (al.fld d e).2) (wrongWord q op al) := by
  have hd := words_differ s q op al hb
  unfold bothWords at hd
  simp only at hd
  cases hR : Sym.result (intNum (factorI op)) al.σ ((kern q op).body s) (fieldsM q op al) with
  | none => rw [hR] at hd; simp [differ] at hd
  | some R =>
    rw [hR] at hd
    simp only [Option.bind_some] at hd
    cases hz : R[wrongWord q op al]? with
    | none => rw [hz] at hd; simp [differ] at hd
    | some z =>
      rw [hz] at hd
      have hd := differ_cast (K := K) hd
      have hσ : ∀ p, p < 3 → al.σ p < 3 := by
        intro p hp
        cases al
        · simp only [Alias.σ, σR]; split <;> omega
        · simp only [Alias.σ, σL]; split <;> omega
        · simp [Alias.σ, σA]
      have hrun := run_result (int_hom (K := K) op) (σ := al.σ) (ι := fld3 d e e)
        (cs := fun k => if k = 0 then (factor op, factor op) else preRegs (ringNum K (factor op)) (kern q op).pre before k)
        (by rw [al_σ]; exact fld3_apart he he) (by simp [ringNum]) (by rw [fieldsM_len]) hR lc (v := v)
        (by
          intro f w k y hf hw
          have : f < 3 := by
            by_contra hc
            rw [List.getElem?_eq_none (by rw [fieldsM_len]; omega)] at hf
            simp at hf
          rw [hv f this, nth_get hf hw]) hz
      rw [al_σ] at hrun
      unfold actK
      rw [fld3_al, kern_cs]
      have e0 : fld3 d e e 0 = d := rfl
      rw [e0] at hrun
      rw [hrun]
      rw [newWord_hom (int_hom (K := K) op)] at hd
      intro hc
      apply hd
      rw [hc]
      have hw : ∀ p, p < 3 → v (fld3 d (al.fld d e).1 (al.fld d e).2 p) = fun k => ((nth (fieldsM q op al) (al.σ p) k : Int) : K) := by
        intro p hp
        rw [fld3_al]
        funext k
        exact hv _ (hσ p hp) k
      have h0 := hw 0 (by omega)
      have h1 := hw 1 (by omega)
      have h2 := hw 2 (by omega)
      simp only [fld3, if_true, Nat.one_ne_zero, if_false, show (2 : Nat) ≠ 0 by omega, show (2 : Nat) ≠ 1 by omega] at h0 h1 h2
      rw [h0, h1, h2]

theorem obj_word {A B : Nat → K} (h : obj colorMatrix A = obj colorMatrix B) {k : Nat} (hk : k < 18) : A k = B k := by
  have := congrFun (congrFun h ⟨k / 6, by omega⟩) ⟨k % 6 / 2, by omega⟩
  simp only [obj, size, Site.Cx.mk.injEq] at this
  by_cases hp : k % 2 = 0
  · have h1 := this.1
    rwa [show 2 * ((2 + 1) * (k / 6) + k % 6 / 2) + 0 = k by omega] at h1
  · have h1 := this.2
    rwa [show 2 * ((2 + 1) * (k / 6) + k % 6 / 2) + 1 = k by omega] at h1

theorem wrongWord_lt (q : Kind) (op : Asg) (al : Alias) : wrongWord q op al < 18 := by cases q <;> cases op <;> cases al <;> decide

/-- the unsafe statements are these -/
theorem unsafe_cases {q : Kind} {d l r : Nat} (h : ¬ Safe q d l r) : ∃ al e, Alias.Bad q al ∧ d ≠ e ∧ (l, r) = al.fld d e := by
  by_cases hr : d = r
  · subst hr
    by_cases hl : d = l
    · subst hl
      exact ⟨.all, d + 1, trivial, by omega, rfl⟩
    · exact ⟨.right, l, trivial, hl, rfl⟩
  · have hl : d = l ∧ ¬ (q = .mm ∨ q = .mh) := by
      by_contra hc
      exact h ⟨hr, fun he => by by_contra hn; exact hc ⟨he, hn⟩⟩
    obtain ⟨rfl, hq⟩ := hl
    exact ⟨.left, r, by cases q <;> simp [Alias.Bad] at hq ⊢, hr, rfl⟩

/-- C81 refuted for operands that are not safe: for each such statement there are fields, permutation matrices at each site, with which it assigns a
wrong value on all sites of the subset, in every finished execution -/
theorem C81_in_place [Nontrivial K] {q : Kind} {d l r : Nat} (hs : ¬ Safe q d l r) (sse3 : Bool) (op : Asg) :
    ∃ h : Interleave.Heap (Nat → K), ∀ {col : List Nat} {cb : Nat} {sub : Sub}, makeSub col cb = ok sub → ∀ {T : Nat}, 0 < T → col.length * T < 2 ^ 31 →
      ∀ (before : Nat → K × K) (l0 : Nat → Nat → K × K),
    (∃ s, StmtReaches sse3 q op d l r (Form.of sub) col.length T before l0 h s ∧ Interleave.Done s) ∧
    ∀ s, StmtReaches sse3 q op d l r (Form.of sub) col.length T before l0 h s → Interleave.Done s → ∀ i, col[i]? = some cb →
      obj colorMatrix (s.heap d i) ≠ assign op (obj colorMatrix (h d i)) (prodSite q (obj colorMatrix (h l i)) (obj colorMatrix (h r i))) := by
  obtain ⟨al, e, hb, he, hlr⟩ := unsafe_cases hs
  have hl : l = (al.fld d e).1 := by rw [← hlr]
  have hr : r = (al.fld d e).2 := by rw [← hlr]
  refine ⟨fun f i k => if f = d then (nth (fieldsM q op al) 0 k : K) else (nth (fieldsM q op al) 1 k : K), ?_⟩
  intro col cb sub hsub T hT hov before l0
  generalize hh : (fun f i k => if f = d then (nth (fieldsM q op al) 0 k : K) else (nth (fieldsM q op al) 1 k : K)) = h
  obtain ⟨h1, h2⟩ := subset_correct (act := actK (kern q op) (factor (K := K) op) before d l r) ((kern q op).body sse3)
    (fun a b v => run_indep (kern_wellDef sse3 q op) (by simp) v) hsub hT hov l0 (fun _ => (0, 0)) h
  refine ⟨h1, fun s hr' hd i hi hc => ?_⟩
  obtain ⟨a, b⟩ := (h2 s hr').2 hd
  have ha := congrFun (a i hi) d
  rw [← newWord_obj] at hc
  have hw := obj_word hc (wrongWord_lt q op al)
  rw [if_pos (wrongWord_lt q op al), ha] at hw
  subst hl hr
  refine bad_word hb sse3 op he before (fun _ => (0, 0)) (v := fun g => h g i) ?_ hw
  intro f hf k
  rw [← hh]
  by_cases h0 : f = 0
  · subst h0; simp [fld3]
  · have : fld3 d e e f = e := by unfold fld3; rw [if_neg h0]; split <;> rfl
    simp only [this, if_neg he.symm]
    have : f = 1 ∨ f = 2 := by omega
    rcases this with rfl | rfl
    · rfl
    · cases al <;> rfl

end
end Verif.Sse
