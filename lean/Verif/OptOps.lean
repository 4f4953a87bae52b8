import Verif.Contract
/-
The rewriting of expressions while they are built: include/qdp_optops.h.  Overloads of `operator*`, `trace`, `traceColor`, `traceSpin` and `real` that are
more specialised than those of include/QDPOperators.h look at the top node of their operands and put one fused node in place of two.

Modelled: which overload is chosen, by the most specialised pattern, and the tree it returns; the value of a tree at one site, node by node, as
`forEach` computes it (see Verif.Evaluate).  Nodes of operators that take no part in the rewriting (addition, `shift`, `gamma`, `conj`, …) are `un` and
`bin` with an arbitrary function.  A leaf holds the value of a field at the site.  The container type carried along by the C++ is not modelled.  Whether the
functions of the fused nodes have overloads for their operands (so that the program compiles) is the predicate `Compiles`.
-/
set_option linter.unusedVariables false
namespace Verif.Site

section
variable {K : Type} [CommRing K]

/-- what the program says -/
inductive Src (K : Type) : Ty → Type
  | leaf {t} (x : Den K t) : Src K t
  | un {s t} (f : Den K s → Den K t) (e : Src K s) : Src K t
  | bin {s t u} (f : Den K s → Den K t → Den K u) (l : Src K s) (r : Src K t) : Src K u
  | adj {t} (e : Src K t) : Src K t
  | trace {t} (e : Src K t) : Src K (trTy t)
  | traceK (κ : Kind) {t} (e : Src K t) : Src K (trkTy κ t)
  | real {t} (e : Src K t) : Src K (reTy t)
  | mul {a b c} (p : Mul a b c) (l : Src K a) (r : Src K b) : Src K c
  /-- a product of which one operand is a number of the machine (WordType) -/
  | mulWord {a b c} (p : Mul a b c) (l : Src K a) (r : Src K b) : Src K c
  | outer {a b d} (p : Outer a b d) (l : Src K a) (r : Src K b) : Src K d
  | inner {a b d} (p : Inner a b d) (l : Src K a) (r : Src K b) : Src K d
  | con13 {a b c n} (f : Den K a → Den K b → Den K c) (l : Src K (.mat .spin n a)) (r : Src K (.mat .spin n b)) : Src K (.mat .spin n c)

/-- the tree: UnaryNode and BinaryNode with their operators -/
inductive Tm (K : Type) : Ty → Type
  | leaf {t} (x : Den K t) : Tm K t
  | un {s t} (f : Den K s → Den K t) (e : Tm K s) : Tm K t
  | bin {s t u} (f : Den K s → Den K t → Den K u) (l : Tm K s) (r : Tm K t) : Tm K u
  /-- OpIdentity, include/PETE/OperatorTags.h:254 -/
  | ident {t} (e : Tm K t) : Tm K t
  | adj {t} (e : Tm K t) : Tm K t
  | trace {t} (e : Tm K t) : Tm K (trTy t)
  | traceK (κ : Kind) {t} (e : Tm K t) : Tm K (trkTy κ t)
  | real {t} (e : Tm K t) : Tm K (reTy t)
  | realTrace {t} (e : Tm K t) : Tm K (reTy (trTy t))
  | mul {a b c} (p : Mul a b c) (l : Tm K a) (r : Tm K b) : Tm K c
  /-- OpAdjMultiply, include/qdp_optops.h:19-30 -/
  | adjMul {a b c} (p : Mul a b c) (l : Tm K a) (r : Tm K b) : Tm K c
  /-- OpMultiplyAdj, include/qdp_optops.h:32-43 -/
  | mulAdj {a b c} (p : Mul a b c) (l : Tm K a) (r : Tm K b) : Tm K c
  /-- OpAdjMultiplyAdj, include/qdp_optops.h:45-56 -/
  | adjMulAdj {a b c} (p : Mul a b c) (l : Tm K a) (r : Tm K b) : Tm K c
  /-- FnTraceMultiply, include/qdp_optops.h:170-181 -/
  | traceMul {a b c} (p : Mul a b c) (l : Tm K a) (r : Tm K b) : Tm K (trTy c)
  /-- FnTraceColorMultiply, FnTraceSpinMultiply, include/qdp_optops.h:183-207 -/
  | traceKMul (κ : Kind) {a b c} (p : Mul a b c) (l : Tm K a) (r : Tm K b) : Tm K (trkTy κ c)
  | outer {a b d} (p : Outer a b d) (l : Tm K a) (r : Tm K b) : Tm K d
  /-- FnTraceSpinOuterProduct, include/qdp_optops.h:209-220 -/
  | tso {a b d} (p : Outer a b d) (l : Tm K a) (r : Tm K b) : Tm K (trkTy .spin d)
  /-- FnLocalInnerProduct; `none` when there is no overload -/
  | inner {a b d} (p : Option (Inner a b d)) (l : Tm K a) (r : Tm K b) : Tm K d
  | innerReal {a b d} (p : Option (Inner a b d)) (l : Tm K a) (r : Tm K b) : Tm K (reTy d)
  | con13 {a b c n} (f : Den K a → Den K b → Den K c) (l : Tm K (.mat .spin n a)) (r : Tm K (.mat .spin n b)) : Tm K (.mat .spin n c)
  /-- FnTraceSpinQuarkContract13, include/qdp_optops.h:222-233 -/
  | tsc13 {a b c n} (f : Den K a → Den K b → Den K c) (l : Tm K (.mat .spin n a)) (r : Tm K (.mat .spin n b)) : Tm K (trkTy .spin (.mat .spin n c))

/-! ## the overloads -/

/-- `operator*`: include/qdp_optops.h:58-78 (adj(l)*r), 80-100 (adj(l)*Expr), 102-122 (l*adj(r)), 124-144 (Expr*adj(r)), 146-167 (adj(l)*adj(r)), else
include/QDPOperators.h:1928, 2587, 3147, 5797 -/
def Tm.mkMul {a b c : Ty} (p : Mul a b c) : Tm K a → Tm K b → Tm K c
  | .adj l, .adj r => .adjMulAdj p (.ident l) (.ident r)
  | .adj l, r => .adjMul p (.ident l) r
  | l, .adj r => .mulAdj p l (.ident r)
  | l, r => .mul p l r

/-- `trace`: include/qdp_optops.h:238-251 (trace(l*r)), 298-311 (trace(adj(l)*r)), else include/QDPOperators.h:641, 4906 -/
def Tm.mkTrace {t : Ty} : Tm K t → Tm K (trTy t)
  | .mul p l r => .traceMul p l r
  | .adjMul p l r => .inner p.inner l r
  | e => .trace e

/-- `traceColor`: include/qdp_optops.h:253-266, else include/QDPOperators.h:692, 4945 -/
def Tm.mkTraceColor {t : Ty} : Tm K t → Tm K (trkTy .color t)
  | .mul p l r => .traceKMul .color p l r
  | e => .traceK .color e

/-- `traceSpin`: include/qdp_optops.h:268-281 (traceSpin(l*r)), 283-296 (traceSpin(outerProduct(l,r))), 314-327 (traceSpin(quarkContract13(l,r))), else
include/QDPOperators.h:709, 4958 -/
def Tm.mkTraceSpin {t : Ty} : Tm K t → Tm K (trkTy .spin t)
  | .mul p l r => .traceKMul .spin p l r
  | .outer p l r => .tso p l r
  | .con13 f l r => .tsc13 f l r
  | e => .traceK .spin e

/-- `real`: include/qdp_optops.h:330-342 (real(trace(l))), 344-357 (real(localInnerProduct(l,r))), else include/QDPOperators.h:725, 4971 -/
def Tm.mkReal {t : Ty} : Tm K t → Tm K (reTy t)
  | .trace e => .realTrace e
  | .inner p l r => .innerReal p l r
  | e => .real e

/-- the tree the program builds, include/QDPOperators.h and include/qdp_optops.h -/
def build : {t : Ty} → Src K t → Tm K t
  | _, .leaf x => .leaf x
  | _, .un f e => .un f (build e)
  | _, .bin f l r => .bin f (build l) (build r)
  | _, .adj e => .adj (build e)
  | _, .trace e => (build e).mkTrace
  | _, .traceK .color e => (build e).mkTraceColor
  | _, .traceK .spin e => (build e).mkTraceSpin
  | _, .real e => (build e).mkReal
  | _, .mul p l r => Tm.mkMul p (build l) (build r)
  | _, .mulWord p l r => .mul p (build l) (build r)
  | _, .outer p l r => .outer p (build l) (build r)
  | _, .inner p l r => .inner (some p) (build l) (build r)
  | _, .con13 f l r => .con13 f (build l) (build r)

/-! ## values -/

/-- `traceSpinOuterProduct`: include/qdp_primspinmat.h:535-544, include/qdp_primscalar.h:745-750 -/
def tsoVal : {a b d : Ty} → Outer a b d → Den K a → Den K b → Den K (trkTy .spin d)
  | _, _, _, .rr, l, r => junk .rs
  | _, _, _, .rc, l, r => junk .rc
  | _, _, _, .cr, l, r => junk .rc
  | _, _, _, .cc, l, r => junk .rc
  | _, _, _, @Outer.ss _ _ d p, l, r => (tsoVal p l r : Den K (trkTy .spin d))
  | _, _, _, @Outer.vv _ _ d .spin n p, l, r => pick (traceSpinOuter p l r) (fun _ _ => junk (trkTy .spin d))
  | _, _, _, @Outer.vv _ _ d .color n p, l, r => junk (trkTy .spin (.mat .color n d))

/-- the pairs for which it compiles -/
def Outer.HasTso : {a b d : Ty} → Outer a b d → Prop
  | _, _, _, .rr | _, _, _, .rc | _, _, _, .cr | _, _, _, .cc => False
  | _, _, _, .ss p => p.HasTso
  | _, _, _, .vv k _ _ => k = .spin

/-- `localInnerProduct` if there is an overload -/
def lipO {a b d : Ty} : Option (Inner a b d) → Den K a → Den K b → Den K d
  | some q, l, r => lip q l r
  | none, _, _ => junk d

/-- `localInnerProductReal` if there is an overload -/
def lipRealO {a b d : Ty} : Option (Inner a b d) → Den K a → Den K b → Den K (reTy d)
  | some q, l, r => lipReal q l r
  | none, _, _ => junk (reTy d)

/-- the value of a tree at a site: `forEach` with the functions named by the operators -/
def Tm.val : {t : Ty} → Tm K t → Den K t
  | _, .leaf x => x
  | _, .un f e => f e.val
  | _, .bin f l r => f l.val r.val
  | _, .ident e => e.val
  | _, @Tm.adj _ t e => Site.adj t e.val
  | _, @Tm.trace _ t e => Site.trace t e.val
  | _, @Tm.traceK _ κ t e => Site.traceK κ t e.val
  | _, @Tm.real _ t e => Site.real t e.val
  | _, @Tm.realTrace _ t e => Site.realTrace t e.val
  | _, .mul p l r => Site.mul p l.val r.val
  | _, .adjMul p l r => Site.adjMul p l.val r.val
  | _, .mulAdj p l r => Site.mulAdj p l.val r.val
  | _, .adjMulAdj p l r => Site.adjMulAdj p l.val r.val
  | _, .traceMul p l r => Site.traceMul p l.val r.val
  | _, .traceKMul κ p l r => Site.traceKMul κ p l.val r.val
  | _, .outer p l r => Site.outer p l.val r.val
  | _, .tso p l r => tsoVal p l.val r.val
  | _, .inner q l r => lipO q l.val r.val
  | _, .innerReal q l r => lipRealO q l.val r.val
  | _, @Tm.con13 _ a b c n f l r => Contract.quarkContract .c13 (add c) f l.val r.val
  | _, @Tm.tsc13 _ a b c n f l r =>
      (pick (Contract.traceSpinQuarkContract13 (add c) f l.val r.val) (fun _ _ => junk (trkTy .spin c)) :
        Den K (if Kind.spin = .spin then .sca c else .mat .spin n (trkTy .spin c)))

/-- every function called has an overload -/
def Tm.Compiles : {t : Ty} → Tm K t → Prop
  | _, .leaf _ => True
  | _, .un _ e => e.Compiles
  | _, .bin _ l r => l.Compiles ∧ r.Compiles
  | _, .ident e => e.Compiles
  | _, @Tm.adj _ t e => NoVec t ∧ e.Compiles
  | _, @Tm.trace _ t e => NoVec t ∧ e.Compiles
  | _, @Tm.traceK _ _ t e => NoVec t ∧ e.Compiles
  | _, .real e => e.Compiles
  | _, @Tm.realTrace _ t e => NoVec t ∧ e.Compiles
  | _, .mul _ l r => l.Compiles ∧ r.Compiles
  | _, .adjMul p l r => p.HasAdjMul ∧ l.Compiles ∧ r.Compiles
  | _, .mulAdj p l r => p.HasMulAdj ∧ l.Compiles ∧ r.Compiles
  | _, .adjMulAdj p l r => p.HasAdjMulAdj ∧ l.Compiles ∧ r.Compiles
  | _, .traceMul p l r => p.HasTraceMul ∧ l.Compiles ∧ r.Compiles
  | _, @Tm.traceKMul _ κ _ _ c p l r => NoVec c ∧ p.HasTraceKMul κ ∧ l.Compiles ∧ r.Compiles
  | _, .outer _ l r => l.Compiles ∧ r.Compiles
  | _, .tso p l r => p.HasTso ∧ l.Compiles ∧ r.Compiles
  | _, .inner p l r => p.isSome ∧ l.Compiles ∧ r.Compiles
  | _, .innerReal p l r => (∃ q, p = some q ∧ q.HasReal) ∧ l.Compiles ∧ r.Compiles
  | _, .con13 _ l r => l.Compiles ∧ r.Compiles
  | _, .tsc13 _ l r => l.Compiles ∧ r.Compiles

/-! ## specification -/

/-- the value as the program says it, operator by operator: `quarkContract13` is the sum over the first indices -/
def Src.val : {t : Ty} → Src K t → Den K t
  | _, .leaf x => x
  | _, .un f e => f e.val
  | _, .bin f l r => f l.val r.val
  | _, @Src.adj _ t e => Site.adj t e.val
  | _, @Src.trace _ t e => Site.trace t e.val
  | _, @Src.traceK _ κ t e => Site.traceK κ t e.val
  | _, @Src.real _ t e => Site.real t e.val
  | _, .mul p l r => Site.mul p l.val r.val
  | _, .mulWord p l r => Site.mul p l.val r.val
  | _, .outer p l r => Site.outer p l.val r.val
  | _, .inner q l r => lip q l.val r.val
  | _, @Src.con13 _ a b c n f l r => fun i j => accum (A := Den K c) (add c) n fun k => f (l.val k i) (r.val k j)

/-! ## proofs -/

theorem tso_eq : ∀ {a b d : Ty} (p : Outer a b d), p.HasTso → ∀ (l : Den K a) (r : Den K b), tsoVal p l r = traceK .spin d (outer p l r)
  | _, _, _, .ss p, h, l, r => tso_eq p h l r
  | _, _, _, .vv .spin n p, h, l, r => pick_congr (fun _ => rfl) (fun h => absurd rfl h)

theorem noVec_left : ∀ {a b c : Ty} (p : Mul a b c), p.HasAdjMul → NoVec a
  | _, _, _, .rr, _ | _, _, _, .cc, _ => trivial
  | _, _, _, .ss p, h | _, _, _, .sm _ _ p, h | _, _, _, .ms _ _ p, h | _, _, _, .mm _ _ p, h | _, _, _, .sv _ _ p, h | _, _, _, .mv _ _ p, h =>
      (noVec_left p h : NoVec _)

theorem noVec_right : ∀ {a b c : Ty} (p : Mul a b c), p.HasMulAdj → NoVec b
  | _, _, _, .rr, _ | _, _, _, .cc, _ => trivial
  | _, _, _, .ss p, h | _, _, _, .sm _ _ p, h | _, _, _, .ms _ _ p, h | _, _, _, .mm _ _ p, h | _, _, _, .vs _ _ p, h =>
      (noVec_right p h : NoVec _)

theorem has_both : ∀ {a b c : Ty} (p : Mul a b c), p.HasAdjMulAdj → p.HasAdjMul ∧ p.HasMulAdj
  | _, _, _, .rr, _ | _, _, _, .cc, _ => ⟨trivial, trivial⟩
  | _, _, _, .ss p, h | _, _, _, .sm _ _ p, h | _, _, _, .ms _ _ p, h | _, _, _, .mm _ _ p, h => has_both p h

/-- a rewritten product compiles only if its operands do, and has the value of the plain product -/
theorem mkMul_ok {a b c : Ty} (p : Mul a b c) (l : Tm K a) (r : Tm K b) (h : (Tm.mkMul p l r).Compiles) :
    (l.Compiles ∧ r.Compiles) ∧ (Tm.mkMul p l r).val = Site.mul p l.val r.val := by
  unfold Tm.mkMul at h ⊢
  split at h
  · exact ⟨⟨⟨noVec_left p (has_both p h.1).1, h.2.1⟩, ⟨noVec_right p (has_both p h.1).2, h.2.2⟩⟩, C62_adjMulAdj p h.1 _ _⟩
  · exact ⟨⟨⟨noVec_left p h.1, h.2.1⟩, h.2.2⟩, C62_adjMul p h.1 _ _⟩
  · exact ⟨⟨h.2.1, ⟨noVec_right p h.1, h.2.2⟩⟩, C62_mulAdj p h.1 _ _⟩
  · exact ⟨h, rfl⟩

theorem mkTrace_ok {t : Ty} (e : Tm K t) (h : e.mkTrace.Compiles) : e.Compiles ∧ e.mkTrace.val = Site.trace t e.val := by
  unfold Tm.mkTrace at h ⊢
  split at h
  · exact ⟨h.2, C62_traceMul (K := K) _ h.1 _ _⟩
  · next p l r =>
    obtain ⟨q, hq⟩ := Option.isSome_iff_exists.1 h.1
    refine ⟨⟨((inner_isSome p).1 h.1).1, h.2⟩, ?_⟩
    show lipO p.inner l.val r.val = Site.trace _ (Site.adjMul p l.val r.val)
    rw [hq, C62_adjMul p ((inner_isSome p).1 h.1).1]
    exact C62_inner p q hq l.val r.val
  · exact ⟨h.2, rfl⟩

theorem mkTraceColor_ok {t : Ty} (e : Tm K t) (h : e.mkTraceColor.Compiles) :
    e.Compiles ∧ e.mkTraceColor.val = Site.traceK .color t e.val := by
  unfold Tm.mkTraceColor at h ⊢
  split at h
  · exact ⟨h.2.2, C62_traceKMul .color _ h.1 h.2.1 _ _⟩
  · exact ⟨h.2, rfl⟩

theorem mkTraceSpin_ok {t : Ty} (e : Tm K t) (h : e.mkTraceSpin.Compiles) :
    e.Compiles ∧ e.mkTraceSpin.val = Site.traceK .spin t e.val := by
  unfold Tm.mkTraceSpin at h ⊢
  split at h
  · exact ⟨h.2.2, C62_traceKMul .spin _ h.1 h.2.1 _ _⟩
  · exact ⟨h.2, tso_eq _ h.1 _ _⟩
  · next a b c n f l r =>
    refine ⟨h, pick_congr (fun _ => ?_) (fun h => absurd rfl h)⟩
    exact Contract.C65_traceSpin (add_assoc' c) f l.val r.val
  · exact ⟨h.2, rfl⟩

theorem mkReal_ok {t : Ty} (e : Tm K t) (h : e.mkReal.Compiles) : e.Compiles ∧ e.mkReal.val = Site.real t e.val := by
  unfold Tm.mkReal at h ⊢
  split at h
  · exact ⟨h, C62_realTrace _ h.1 _⟩
  · obtain ⟨⟨q, rfl, hr⟩, h⟩ := h
    exact ⟨⟨rfl, h⟩, C62_innerReal q hr _ _⟩
  · exact ⟨h, rfl⟩

/-- whatever expression the program writes, if it compiles then the tree built has the value of the expression -/
theorem C66_build : ∀ {t : Ty} (s : Src K t), (build s).Compiles → (build s).val = s.val
  | _, .leaf x, h => rfl
  | _, .un f e, h => congrArg f (C66_build e h)
  | _, .bin f l r, h => by
      show f (build l).val (build r).val = f l.val r.val
      rw [C66_build l h.1, C66_build r h.2]
  | _, @Src.adj _ t e, h => congrArg (Site.adj t) (C66_build e h.2)
  | _, @Src.trace _ t e, h => by
      obtain ⟨hc, hv⟩ := mkTrace_ok (build e) h
      exact hv.trans (congrArg (Site.trace t) (C66_build e hc))
  | _, @Src.traceK _ .color t e, h => by
      obtain ⟨hc, hv⟩ := mkTraceColor_ok (build e) h
      exact hv.trans (congrArg (Site.traceK .color t) (C66_build e hc))
  | _, @Src.traceK _ .spin t e, h => by
      obtain ⟨hc, hv⟩ := mkTraceSpin_ok (build e) h
      exact hv.trans (congrArg (Site.traceK .spin t) (C66_build e hc))
  | _, @Src.real _ t e, h => by
      obtain ⟨hc, hv⟩ := mkReal_ok (build e) h
      exact hv.trans (congrArg (Site.real t) (C66_build e hc))
  | _, .mul p l r, h => by
      obtain ⟨hc, hv⟩ := mkMul_ok p (build l) (build r) h
      refine hv.trans ?_
      rw [C66_build l hc.1, C66_build r hc.2]
      rfl
  | _, .mulWord p l r, h => by
      show Site.mul p (build l).val (build r).val = Site.mul p l.val r.val
      rw [C66_build l h.1, C66_build r h.2]
  | _, .outer p l r, h => by
      show Site.outer p (build l).val (build r).val = Site.outer p l.val r.val
      rw [C66_build l h.1, C66_build r h.2]
  | _, .inner p l r, h => by
      show lip p (build l).val (build r).val = lip p l.val r.val
      rw [C66_build l h.2.1, C66_build r h.2.2]
  | _, @Src.con13 _ a b c n f l r, h => by
      show Contract.quarkContract .c13 (add c) f (build l).val (build r).val = _
      rw [C66_build l h.1, C66_build r h.2]
      rfl

end

/-! ## cases -/

/-- `real(trace(adj(u)*v))` of two propagators becomes one node: `localInnerProductReal` -/
example (u v : Den Int (.mat .spin 3 (.mat .color 2 .rc))) :
    build (.real (.trace (.mul (.mm .spin 3 (.mm .color 2 .cc)) (.adj (.leaf u)) (.leaf v)))) =
      .innerReal (some (.mm .spin 3 (.mm .color 2 .cc))) (.ident (.leaf u)) (.leaf v) := rfl

/-- and it compiles -/
example (u v : Den Int (.mat .spin 3 (.mat .color 2 .rc))) :
    (build (.real (.trace (.mul (.mm .spin 3 (.mm .color 2 .cc)) (.adj (.leaf u)) (.leaf v))))).Compiles :=
  ⟨⟨_, rfl, trivial⟩, trivial, trivial⟩

/-- `adj(u)*c` of a complex matrix and a real number does not compile, though `adj(u)` and the product of both types do -/
theorem C66_not_compiled (u : Den Int (.mat .color 2 .rc)) (x : Den Int (.sca .rs)) :
    ¬ (build (.mul (.ms .color 2 .cr) (.adj (.leaf u)) (.leaf x))).Compiles ∧
    (build (.mulWord (.ms .color 2 .cr) (.adj (.leaf u)) (.leaf x))).Compiles :=
  ⟨fun h => h.1, ⟨trivial, trivial⟩, trivial⟩

end Verif.Site
