import Verif.BlasProps
import Mathlib.LinearAlgebra.Matrix.ConjTranspose
import Mathlib.Data.Matrix.Mul
import Mathlib.Tactic.Abel
import Mathlib.Tactic.NormNum
/-
The specialisations of `evaluate` for colour matrices that call the routines of the library Bagel
(include/scalarsite_bagel_qdp/qdp_scalarsite_bagel_qdp_linalg.h).  The routines are not part of the repository; what they write is an assumption (`Lib.Ok`,
`rows`).  For the products nothing is assumed about calls whose result is also an operand.
-/
set_option linter.unusedSectionVars false
namespace Verif.BagelMat
open Verif Outcome Verif.Subset Verif.Blas Matrix

/-- fields of 3 × 3 matrices, row by row: number of the field, number of the row -/
abbrev Heap (K : Type) := Nat → Nat → Fin 3 → K

/-- the products: `qdp_su3_mm`, `qdp_su3_am`, `qdp_su3_ma`, `qdp_su3_aa` -/
inductive Kind where
  | mm | am | ma | aa
deriving DecidableEq, Repr

section defs
variable {K : Type} [Field K] [StarRing K]

/-- the matrix that begins with row `q` -/
def mat (h : Heap K) (f q : Nat) : Matrix (Fin 3) (Fin 3) K := fun r c => h f (q + r.val) c

/-! ## the routines: assumed -/

/-- `a`: adjoint, `m`: as it is; from the messages before the calls, include/scalarsite_bagel_qdp/qdp_scalarsite_bagel_qdp_linalg.h:49, 103, 172, 227 -/
def Kind.app : Kind → Matrix (Fin 3) (Fin 3) K → Matrix (Fin 3) (Fin 3) K → Matrix (Fin 3) (Fin 3) K
  | .mm, A, B => A * B
  | .am, A, B => Aᴴ * B
  | .ma, A, B => A * Bᴴ
  | .aa, A, B => Aᴴ * Bᴴ

/-- the products of the library: kind, for the forms `_peq` the factor, result, operands, first row, number of matrices -/
structure Lib (K : Type) where
  su3 : Kind → Option K → Nat → Nat → Nat → Nat → Nat → Heap K → Heap K

/-- result and operands apart: the result gets the products, for `_peq` the factor times the products is added to it -/
def Lib.Ok (lib : Lib K) : Prop :=
  ∀ (k : Kind) (c : Option K) (out l r p n : Nat) (h : Heap K), out ≠ l → out ≠ r → ∀ f j, lib.su3 k c out l r p n h f j =
    if f = out ∧ p ≤ j ∧ j < p + 3 * n then
      let P := k.app (mat h l (p + 3 * ((j - p) / 3))) (mat h r (p + 3 * ((j - p) / 3))) (Fin.ofNat 3 ((j - p) % 3))
      match c with
      | none => P
      | some c => h f j + c • P
    else h f j

/-- `qdp_vaxpy3`, `qdp_vadd3`, `qdp_vsub3`: `n` rows from `p` on, each from the same rows of the operands -/
def rows (g : (Fin 3 → K) → (Fin 3 → K) → Fin 3 → K) (out x y p n : Nat) (h : Heap K) : Heap K :=
  fun f j => if f = out ∧ p ≤ j ∧ j < p + n then g (h x j) (h y j) else h f j

/-! ## model -/

/-- the factor: `plus_one`, `minus_one`, `scalar` with and without sign,
include/scalarsite_bagel_qdp/qdp_scalarsite_bagel_qdp_linalg.h:289-291, 535-537, 830-832, 930-932 -/
inductive Coef where
  | one | mone | sc | neg
deriving DecidableEq, Repr

def Coef.val (a : K) : Coef → K
  | .one => 1
  | .mone => -1
  | .sc => a
  | .neg => -a

/-- the call of a specialisation: a product, `qdp_vaxpy3(y, scalar, x, y, …)`, `qdp_vadd3(y, x, y, …)`, `qdp_vsub3(y, y, x, …)`; `y` is the destination -/
inductive Call where
  | su3 (k : Kind) (c : Option Coef)
  | axpy (c : Coef)
  | vadd
  | vsub
deriving DecidableEq, Repr

/-- `OpAssign`, `OpAddAssign`, `OpSubtractAssign` -/
inductive Op where
  | assign | add | sub
deriving DecidableEq, Repr

/-- the expressions: `l * r`, `adj(l) * r`, `l * adj(r)`, `adj(l) * adj(r)`, `(a * l) * r`, `a * r`, `r` -/
inductive Rhs where
  | mul | adjMul | mulAdj | adjMulAdj | scalMul | scal | id
deriving DecidableEq, Repr

structure Entry where
  op : Op
  rhs : Rhs
  call : Call
deriving DecidableEq, Repr

/-- include/scalarsite_bagel_qdp/qdp_scalarsite_bagel_qdp_linalg.h, one line per specialisation: 32-84, 86-138, 140-207, 210-265; 269-324, 326-382, 384-447, 450-509;
515-570, 572-628, 630-700, 703-762; 768-865, 868-965; 969-1036, 1039-1106; 1109-1162, 1165-1220.  Both branches have the same call -/
def entries : List Entry := [
  ⟨.assign, .mul, .su3 .mm none⟩, ⟨.assign, .adjMul, .su3 .am none⟩, ⟨.assign, .mulAdj, .su3 .ma none⟩, ⟨.assign, .adjMulAdj, .su3 .aa none⟩,
  ⟨.add, .mul, .su3 .mm (some .one)⟩, ⟨.add, .adjMul, .su3 .am (some .one)⟩, ⟨.add, .mulAdj, .su3 .ma (some .one)⟩, ⟨.add, .adjMulAdj, .su3 .aa (some .one)⟩,
  ⟨.sub, .mul, .su3 .mm (some .mone)⟩, ⟨.sub, .adjMul, .su3 .am (some .mone)⟩, ⟨.sub, .mulAdj, .su3 .ma (some .mone)⟩, ⟨.sub, .adjMulAdj, .su3 .aa (some .mone)⟩,
  ⟨.add, .scalMul, .su3 .mm (some .sc)⟩, ⟨.sub, .scalMul, .su3 .mm (some .neg)⟩,
  ⟨.add, .scal, .axpy .sc⟩, ⟨.sub, .scal, .axpy .neg⟩,
  ⟨.add, .id, .vadd⟩, ⟨.sub, .id, .vsub⟩]

/-- what stands in a statement: the numbers of the destination and of the operands, the real number -/
structure Inst (K : Type) where
  d : Nat
  l : Nat
  r : Nat
  a : K

/-- a call for `n` sites from site `i` on; the fields have `N` sites, a routine beyond them is undefined.  The count is `num_sites` for the products
and `3*num_sites` for the others: include/scalarsite_bagel_qdp/qdp_scalarsite_bagel_qdp_linalg.h:52-64 (ordered), 74-79, 1009-1020, 1027-1031 -/
def Call.go (lib : Lib K) (N : Nat) (I : Inst K) (c : Call) (i n : Nat) (h : Heap K) : Outcome (Heap K) :=
  if 3 * i + 3 * n ≤ 3 * N then
    ok (match c with
      | .su3 k c => lib.su3 k (c.map (Coef.val I.a)) I.d I.l I.r (3 * i) n h
      | .axpy c => rows (fun x y => c.val I.a • x + y) I.d I.r I.d (3 * i) (3 * n) h
      | .vadd => rows (fun x y => x + y) I.d I.r I.d (3 * i) (3 * n) h
      | .vsub => rows (fun x y => x - y) I.d I.d I.r (3 * i) (3 * n) h)
  else ub

/-- the loop over the site table, include/scalarsite_bagel_qdp/qdp_scalarsite_bagel_qdp_linalg.h:67-81 -/
def Call.loop (lib : Lib K) (N : Nat) (I : Inst K) (c : Call) : List Nat → Heap K → Outcome (Heap K)
  | [], h => ok h
  | i :: is, h => do
      let h ← c.go lib N I i 1 h
      c.loop lib N I is h

/-- `evaluate(d, op, rhs, s)`, include/scalarsite_bagel_qdp/qdp_scalarsite_bagel_qdp_linalg.h:52-82 -/
def Entry.run (e : Entry) (lib : Lib K) (N : Nat) (I : Inst K) (f : Form) (h : Heap K) : Outcome (Heap K) :=
  match f with
  | .ordered start n => e.call.go lib N I start n h
  | .unordered tab => e.call.loop lib N I tab h

/-! ## specification -/

/-- the matrix at a site -/
def site (h : Heap K) (f i : Nat) : Matrix (Fin 3) (Fin 3) K := Matrix.of fun r c => h f (3 * i + r.val) c

/-- the value of the expression at a site -/
def Rhs.val (a : K) (A B : Matrix (Fin 3) (Fin 3) K) : Rhs → Matrix (Fin 3) (Fin 3) K
  | .mul => A * B
  | .adjMul => (A.map star).transpose * B
  | .mulAdj => A * (B.map star).transpose
  | .adjMulAdj => (A.map star).transpose * (B.map star).transpose
  | .scalMul => (a • A) * B
  | .scal => a • B
  | .id => B

def Op.val (D W : Matrix (Fin 3) (Fin 3) K) : Op → Matrix (Fin 3) (Fin 3) K
  | .assign => W
  | .add => D + W
  | .sub => D - W

/-- the statement at a site, from the fields before -/
def value (e : Entry) (I : Inst K) (h : Heap K) (i : Nat) : Matrix (Fin 3) (Fin 3) K :=
  e.op.val (site h I.d i) (e.rhs.val I.a (site h I.l i) (site h I.r i))

/-- every site of the table gets the value computed from the old fields, nothing else changes -/
def Assigned (e : Entry) (I : Inst K) (tab : List Nat) (h h' : Heap K) : Prop :=
  (∀ i ∈ tab, site h' I.d i = value e I h i) ∧ (∀ i, i ∉ tab → site h' I.d i = site h I.d i) ∧ ∀ f, f ≠ I.d → ∀ i, site h' f i = site h f i

/-- a product, for which result and operands have to be apart -/
def Entry.Apart (e : Entry) (I : Inst K) : Prop :=
  match e.rhs with
  | .scal | .id => True
  | _ => I.d ≠ I.l ∧ I.d ≠ I.r

/-! ## proofs -/

theorem mat_site (h : Heap K) (f i : Nat) : mat h f (3 * i) = site h f i := rfl

theorem go_spec {lib : Lib K} (ok' : lib.Ok) {e : Entry} (he : e ∈ entries) {I : Inst K} (ha : e.Apart I) {N i n : Nat} (hN : i + n ≤ N) (h : Heap K) :
    ∃ h', e.call.go lib N I i n h = ok h' ∧ (∀ k, i ≤ k → k < i + n → site h' I.d k = value e I h k) ∧
      (∀ k, ¬ (i ≤ k ∧ k < i + n) → site h' I.d k = site h I.d k) ∧ ∀ f, f ≠ I.d → ∀ k, site h' f k = site h f k := by
  unfold Call.go
  rw [if_pos (by omega)]
  refine ⟨_, rfl, ?_, ?_, ?_⟩
  · intro k h1 h2
    ext s c
    have hs := s.isLt
    have e1 : (3 * k + s.val - 3 * i) / 3 = k - i := by omega
    have e2 : (3 * k + s.val - 3 * i) % 3 = s.val := by omega
    have e3 : 3 * i + 3 * (k - i) = 3 * k := by omega
    have e4 : (Fin.ofNat 3 s.val) = s := by ext; simp
    have hc : 3 * i ≤ 3 * k + s.val ∧ 3 * k + s.val < 3 * i + 3 * n := by omega
    simp only [entries, List.mem_cons, List.not_mem_nil, or_false] at he
    rcases he with rfl | rfl | rfl | rfl | rfl | rfl | rfl | rfl | rfl | rfl | rfl | rfl | rfl | rfl | rfl | rfl | rfl | rfl
    all_goals simp only [Entry.Apart] at ha
    all_goals simp only [site, value, Matrix.of_apply, Option.map_none, Option.map_some, Coef.val]
    all_goals first
      | rw [ok' _ _ _ _ _ _ _ _ ha.1 ha.2, if_pos ⟨rfl, hc⟩, e1, e2, e3, e4, mat_site, mat_site]
        simp [Kind.app, Op.val, Rhs.val, site, Matrix.conjTranspose, Matrix.transpose_map, sub_eq_add_neg, -Matrix.smul_of]
      | unfold rows
        rw [if_pos ⟨rfl, hc⟩]
        simp [Op.val, Rhs.val, sub_eq_add_neg, add_comm]
  · intro k hk
    ext s c
    have hs := s.isLt
    have hc : ¬ (3 * i ≤ 3 * k + s.val ∧ 3 * k + s.val < 3 * i + 3 * n) := by omega
    simp only [entries, List.mem_cons, List.not_mem_nil, or_false] at he
    rcases he with rfl | rfl | rfl | rfl | rfl | rfl | rfl | rfl | rfl | rfl | rfl | rfl | rfl | rfl | rfl | rfl | rfl | rfl
    all_goals simp only [Entry.Apart] at ha
    all_goals simp only [site, Matrix.of_apply]
    all_goals first
      | rw [ok' _ _ _ _ _ _ _ _ ha.1 ha.2, if_neg fun hx => hc hx.2]
      | (unfold rows; rw [if_neg fun hx => hc hx.2])
  · intro f hf k
    ext s c
    simp only [entries, List.mem_cons, List.not_mem_nil, or_false] at he
    rcases he with rfl | rfl | rfl | rfl | rfl | rfl | rfl | rfl | rfl | rfl | rfl | rfl | rfl | rfl | rfl | rfl | rfl | rfl
    all_goals simp only [Entry.Apart] at ha
    all_goals simp only [site, Matrix.of_apply]
    all_goals first
      | rw [ok' _ _ _ _ _ _ _ _ ha.1 ha.2, if_neg fun hx => hf hx.1]
      | (unfold rows; rw [if_neg fun hx => hf hx.1])

theorem loop_spec {lib : Lib K} (ok' : lib.Ok) {e : Entry} (he : e ∈ entries) {I : Inst K} (ha : e.Apart I) {N : Nat} : ∀ (tab : List Nat) (h : Heap K),
    tab.Nodup → (∀ i ∈ tab, i < N) → ∃ h', e.call.loop lib N I tab h = ok h' ∧ Assigned e I tab h h'
  | [], h, _, _ => ⟨h, rfl, by simp, fun _ _ => rfl, fun _ _ _ => rfl⟩
  | i :: is, h, hd, hN => by
      have hi := hN i (by simp)
      obtain ⟨h1, r1, a1, b1, c1⟩ := go_spec ok' he ha (N := N) (i := i) (n := 1) (by omega) h
      obtain ⟨h2, r2, a2, b2, c2⟩ := loop_spec ok' he ha is h1 (List.nodup_cons.mp hd).2 (fun k hk => hN k (by simp [hk]))
      have hni := (List.nodup_cons.mp hd).1
      refine ⟨h2, by simp only [Call.loop, r1, ok_bind, r2], ?_, ?_, fun f hf k => by rw [c2 f hf k, c1 f hf k]⟩
      · intro k hk
        rcases List.mem_cons.mp hk with rfl | hk
        · rw [b2 k hni, a1 k (by omega) (by omega)]
        · have hki : k ≠ i := fun hc => hni (hc ▸ hk)
          have same : ∀ f, site h1 f k = site h f k := by
            intro f
            by_cases hf : f = I.d
            · rw [hf, b1 k (by omega)]
            · rw [c1 f hf]
          rw [a2 k hk]
          simp only [value, same]
      · intro k hk
        have hk' := List.mem_cons.not.mp hk
        rw [b2 k (fun hc => hk' (Or.inr hc)), b1 k (fun hc => hk' (Or.inl (by omega)))]

/-! ## properties -/

/-- C133: every specialisation of `evaluate` for colour matrices that calls the library assigns what the statement says, on every subset of every set
of sites; for products the destination must not be an operand -/
theorem C133_assign_partial {lib : Lib K} (ok' : lib.Ok) {e : Entry} (he : e ∈ entries) {col : List Nat} {cb : Nat} {sub : Sub} (hsub : makeSub col cb = ok sub)
    (I : Inst K) (ha : e.Apart I) (h : Heap K) :
    ∃ h', e.run lib col.length I (Form.of sub) h = ok h' ∧ Assigned e I (sitesFrom cb col 0) h h' := by
  have htab := form_of_makeSub hsub
  have hlt : ∀ i ∈ sitesFrom cb col 0, i < col.length := by
    intro i hi
    rw [mem_sitesFrom] at hi
    obtain ⟨j, rfl, hi⟩ := hi
    by_contra hc
    rw [List.getElem?_eq_none (by omega)] at hi
    simp at hi
  have hnd : (sitesFrom cb col 0).Nodup := (sitesFrom_sorted cb col 0).imp fun hl => Nat.ne_of_lt hl
  rw [← htab] at hlt hnd ⊢
  rcases hf : Form.of sub with ⟨start, n⟩ | tab
  · rw [hf] at hlt hnd
    simp only [Form.table] at *
    rcases Nat.eq_zero_or_pos n with rfl | hn
    · exfalso
      obtain ⟨s', h', ht, _, h0, _⟩ := makeSub_eq col cb
      rw [hsub] at h'
      injection h' with h'
      subst h'
      have hnil : sub.table = [] := by
        rw [ht, ← htab, hf]
        rfl
      unfold Form.of at hf
      rw [(h0 hnil).1] at hf
      simp at hf
    · have hle : start + n ≤ col.length := by
        have := hlt (start + n - 1) (by rw [List.mem_range'_1]; omega)
        omega
      obtain ⟨h', r, a, b, c⟩ := go_spec ok' he ha hle h
      refine ⟨h', r, ?_, ?_, c⟩
      · intro i hi
        rw [List.mem_range'_1] at hi
        exact a i hi.1 hi.2
      · intro i hi
        rw [List.mem_range'_1] at hi
        exact b i hi
  · rw [hf] at hlt hnd
    simp only [Form.table] at *
    exact loop_spec ok' he ha tab h hnd hlt

/-- a library that does what is assumed: it computes the products of all sites before it writes -/
def model : Lib K where
  su3 k c out l r p n h := fun f j =>
    if f = out ∧ p ≤ j ∧ j < p + 3 * n then
      let P := k.app (mat h l (p + 3 * ((j - p) / 3))) (mat h r (p + 3 * ((j - p) / 3))) (Fin.ofNat 3 ((j - p) % 3))
      match c with
      | none => P
      | some c => h f j + c • P
    else h f j

theorem model_ok : (model : Lib K).Ok := fun _ _ _ _ _ _ _ _ _ _ _ _ => rfl

/-- a library that writes nothing if the result is an operand: allowed by the assumption, wrong for `d = d * r` -/
def eager : Lib K where
  su3 k c out l r p n h := if out = l ∨ out = r then h else (model : Lib K).su3 k c out l r p n h

theorem eager_ok : (eager : Lib K).Ok := by
  intro k c out l r p n h h1 h2 f j
  simp only [eager]
  rw [if_neg (by tauto)]
  exact model_ok k c out l r p n h h1 h2 f j

/-- what is missing in `C133_assign_partial` cannot be shown from the assumption: for `d = d * r` there is a library that satisfies it and leaves `d` alone,
while the general `evaluate` computes a site before it stores it -/
theorem C133_alias_open : ∃ (lib : Lib ℚ) (e : Entry) (I : Inst ℚ) (h h' : Heap ℚ), lib.Ok ∧ e ∈ entries ∧ e.run lib 1 I (.ordered 0 1) h = ok h' ∧
    ¬ Assigned e I [0] h h' := by
  refine ⟨eager, ⟨.assign, .mul, .su3 .mm none⟩, ⟨0, 0, 1, 0⟩, fun _ _ _ => 1, fun _ _ _ => 1, eager_ok, by decide, by simp [Entry.run, Call.go, eager], ?_⟩
  rintro ⟨h1, _⟩
  have := congrFun (congrFun (h1 0 (by simp)) 0) 0
  simp [site, value, Op.val, Rhs.val, Matrix.mul_apply] at this

end defs

/-- a case: `d += l * r` on a lattice of one site, with the library `model` -/
example : ∃ (e : Entry) (I : Inst ℚ) (h' : Heap ℚ), e ∈ entries ∧ e.Apart I ∧ e.run model 1 I (.ordered 0 1) (fun _ _ _ => 2) = ok h' ∧ h' 0 1 2 = 14 ∧ h' 0 3 0 = 2 := by
  refine ⟨⟨.add, .mul, .su3 .mm (some .one)⟩, ⟨0, 1, 2, 5⟩, _, by decide, ⟨by decide, by decide⟩, rfl, ?_, ?_⟩
  · norm_num [model, Coef.val, Kind.app, mat, Matrix.mul_apply, Fin.sum_univ_three]
  · simp [model]

end Verif.BagelMat
