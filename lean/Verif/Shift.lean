import Verif.SubsetProps
/-
Shifts on one node: model of `NearestNeighborMapFunc` (lib/qdp_map.cc:17-37), `ArrayBiDirectionalMap::make`
(lib/qdp_map.cc:152-170), the single-node `Map::make` (lib/qdp_scalar_specific.cc:15-51) and the lazy evaluation of
shifted expressions (include/qdp_scalar_specific.h:1736-1779, 1811-1832, 2013-2038).

Simplifications: coordinates are natural numbers (a lattice coordinate is never negative); the `omp parallel for` of
`Map::make` runs in index order, each iteration writes its own slot.
-/
namespace Verif.Shift
open Verif Outcome Verif.Layout Verif.ParLayout Verif.Subset

/-! ## Model -/

/-- `NearestNeighborMapFunc::sgnum`, lib/qdp_map.cc:36 -/
def sgnum (x : Int) : Int := if x > 0 then 1 else -1

/-- `NearestNeighborMapFunc::operator()`, lib/qdp_map.cc:24-32.
`coord[dir] + sgnum(sign) + 4*nrow[dir]` can only be negative for extent 0, where `% 0` is undefined anyway. -/
def nnFunc (nrow coord : List Nat) (sign : Int) (dir : Nat) : Outcome (List Nat) := do
  let x ← rd coord dir
  let l ← rd nrow dir
  let f ← ckInt (4 * l)
  let s : Int := x + sgnum sign + f
  if s < 0 then ub
  else do
    let t ← ckInt s.toNat
    let r ← cmod t l
    return coord.set dir r

/-- single-node `Map::make`, lib/qdp_scalar_specific.cc:15-51: the table `goffsets` -/
def mapMake (g : Geom) (func : List Nat → Int → Outcome (List Nat)) : Outcome (List Nat) :=
  mapO (fun linear => do
    let coord ← g.siteCoords 0 linear
    let fcoord ← func coord 1
    g.linearSiteIndex fcoord) (List.range g.sites)

/-- `ArrayBiDirectionalMap::make`, lib/qdp_map.cc:152-170: per direction the pair (`bimapsa(0,dir)`, `bimapsa(1,dir)`) -/
def arrayBiMake (g : Geom) (func : List Nat → Int → Nat → Outcome (List Nat)) (numArray : Nat) :
    Outcome (List (List Nat × List Nat)) :=
  mapO (fun dir => do
    let neg ← mapMake g (fun coord isign => func coord (-1 * isign) dir)
    let pos ← mapMake g (fun coord isign => func coord (1 * isign) dir)
    return (neg, pos)) (List.range numArray)

/-- expression trees as built by PETE: fields, shifted subexpressions, site-wise operations -/
inductive Expr (α : Type) where
  | leaf (d : List α)
  | fnmap (goff : List Nat) (e : Expr α)
  | op1 (f : α → α) (e : Expr α)
  | op2 (f : α → α → α) (a b : Expr α)

/-- `forEach(expr, EvalLeaf1(i), OpCombine())`; the FnMap node re-indexes, include/qdp_scalar_specific.h:1768-1778 -/
def evalAt {α : Type} : Expr α → Nat → Outcome α
  | .leaf d, i => rd d i
  | .fnmap goff e, i => do let j ← rd goff i; evalAt e j
  | .op1 f e, i => do let x ← evalAt e i; return f x
  | .op2 f a b, i => do let x ← evalAt a i; let y ← evalAt b i; return f x y

/-- `ArrayBiDirectionalMap::operator()(l, isign, dir)`: selects `bimapsa((isign+1)>>1, dir)`,
include/qdp_scalar_specific.h:2013-2038.  Index outside the 2-by-Nd table is undefined. -/
def shift {α : Type} (tab : List (List Nat × List Nat)) (e : Expr α) (isign : Int) (dir : Nat) : Outcome (Expr α) := do
  let m ← rd tab dir
  let k := (isign + 1) / 2
  if k = 0 then return .fnmap m.1 e
  else if k = 1 then return .fnmap m.2 e
  else ub

/-! ## Specification -/

/-- `+` or `-` -/
inductive Sgn | fwd | bwd
deriving DecidableEq, Repr

/-- `FORWARD`, `BACKWARD` (include/qdp_map.h:15-16) -/
def Sgn.toInt : Sgn → Int
  | .fwd => 1
  | .bwd => -1

def Sgn.neg : Sgn → Sgn
  | .fwd => .bwd
  | .bwd => .fwd

/-- next or previous point on a circle of `l` points -/
def step (l : Nat) (s : Sgn) (x : Nat) : Nat :=
  match s with
  | .fwd => if x + 1 = l then 0 else x + 1
  | .bwd => if x = 0 then l - 1 else x - 1

/-- the site one step from `c` in direction `dir` of a periodic lattice -/
def nbr (L c : List Nat) (s : Sgn) (dir : Nat) : List Nat :=
  match L, c, dir with
  | l :: _, x :: xs, 0 => step l s x :: xs
  | _ :: L', x :: xs, dir + 1 => x :: nbr L' xs s dir
  | _, c, _ => c

/-- the value an expression has at a lattice coordinate -/
def valueAt {α : Type} (g : Geom) (e : Expr α) (c : List Nat) : Outcome α := do
  let i ← g.linearSiteIndex c
  evalAt e i

/-! ## Lemmas -/

theorem step_lt {l x : Nat} {s : Sgn} (h : x < l) : step l s x < l := by
  cases s <;> simp only [step] <;> split <;> omega

theorem step_step {l x : Nat} {s : Sgn} (h : x < l) : step l s.neg (step l s x) = x := by
  cases s <;> simp only [step, Sgn.neg] <;> (repeat' split) <;> omega

theorem nbr_inRange : ∀ {L c : List Nat} {s : Sgn} {dir : Nat}, InRange c L → InRange (nbr L c s dir) L
  | [], [], _, _, _ => by simp [nbr, InRange]
  | l :: L, x :: c, s, 0, h => (⟨step_lt h.1, h.2⟩ : step l s x < l ∧ InRange c L)
  | l :: L, x :: c, s, dir + 1, h => (⟨h.1, nbr_inRange h.2⟩ : x < l ∧ InRange (nbr L c s dir) L)
  | [], _ :: _, _, _, h => by simp [InRange] at h
  | _ :: _, [], _, _, h => by simp [InRange] at h

theorem nbr_nbr : ∀ {L c : List Nat} {s : Sgn} {dir : Nat}, InRange c L → nbr L (nbr L c s dir) s.neg dir = c
  | [], [], _, _, _ => by simp [nbr]
  | l :: L, x :: c, s, 0, h => by simp [nbr, step_step h.1]
  | l :: L, x :: c, s, dir + 1, h => by simp [nbr, nbr_nbr h.2]
  | [], _ :: _, _, _, h => by simp [InRange] at h
  | _ :: _, [], _, _, h => by simp [InRange] at h

theorem nbr_comm : ∀ {L c : List Nat} {s t : Sgn} {d e : Nat}, d ≠ e →
    nbr L (nbr L c s d) t e = nbr L (nbr L c t e) s d
  | [], c, _, _, _, _, _ => by cases c <;> simp [nbr]
  | _ :: _, [], _, _, _, _, _ => by simp [nbr]
  | l :: L, x :: c, s, t, 0, 0, h => absurd rfl h
  | l :: L, x :: c, s, t, 0, e + 1, h => by simp [nbr]
  | l :: L, x :: c, s, t, d + 1, 0, h => by simp [nbr]
  | l :: L, x :: c, s, t, d + 1, e + 1, h => by
      simp only [nbr]
      rw [nbr_comm (by omega)]

theorem nbr_set : ∀ {L c : List Nat} {s : Sgn} {dir : Nat} {x l : Nat}, InRange c L → c[dir]? = some x →
    L[dir]? = some l → nbr L c s dir = c.set dir (step l s x)
  | [], [], _, _, _, _, _, h, _ => by simp at h
  | l' :: L, x' :: c, s, 0, x, l, _, h, h' => by
      simp at h h'; subst h h'; simp [nbr]
  | l' :: L, x' :: c, s, dir + 1, x, l, hr, h, h' => by
      simp at h h'
      simp [nbr, nbr_set hr.2 h h']
  | [], _ :: _, _, _, _, _, h, _, _ => by simp [InRange] at h
  | _ :: _, [], _, _, _, _, h, _, _ => by simp [InRange] at h

theorem inRange_getElem : ∀ {c L : List Nat}, InRange c L → ∀ (i : Nat) (h : i < c.length) (h' : i < L.length), c[i] < L[i]
  | [], [], _, i, h, _ => by simp at h
  | x :: c, l :: L, hr, 0, _, _ => hr.1
  | x :: c, l :: L, hr, i + 1, h, h' => by
      simpa using inRange_getElem hr.2 i (by simpa using h) (by simpa using h')
  | [], _ :: _, hr, _, _, _ => by simp [InRange] at hr
  | _ :: _, [], hr, _, _, _ => by simp [InRange] at hr

theorem nnFunc_eq {L c : List Nat} (hc : InRange c L) (hL : ∀ l ∈ L, 5 * l < 2 ^ 31) {dir : Nat} (hd : dir < L.length)
    (sign : Int) (s : Sgn) (hs : sgnum sign = s.toInt) : nnFunc L c sign dir = ok (nbr L c s dir) := by
  have hdc : dir < c.length := by rw [hc.length_eq]; exact hd
  have hlt := inRange_getElem hc dir hdc hd
  have hb := hL L[dir] (List.getElem_mem hd)
  have hpos : 0 < L[dir] := by omega
  rw [nbr_set hc (List.getElem?_eq_getElem hdc) (List.getElem?_eq_getElem hd)]
  simp only [nnFunc, rd_of_lt hdc, rd_of_lt hd, ok_bind, ckInt_of_lt (show 4 * L[dir] < 2 ^ 31 by omega), hs]
  generalize L[dir] = l at *
  generalize c[dir] = x at *
  cases s
  · have : ((x : Int) + Sgn.fwd.toInt + (4 * l : Nat)) = ((x + 1 + 4 * l : Nat) : Int) := by
      simp [Sgn.toInt]
    rw [this, if_neg (by omega)]
    simp only [Int.toNat_natCast, ckInt_of_lt (show x + 1 + 4 * l < 2 ^ 31 by omega), ok_bind, cmod_pos hpos, pure_def,
      step]
    congr 2
    rw [Nat.mul_comm, Nat.add_mul_mod_self_left]
    split
    · next h => rw [h, Nat.mod_self]
    · exact Nat.mod_eq_of_lt (by omega)
  · have : ((x : Int) + Sgn.bwd.toInt + (4 * l : Nat)) = ((x + 4 * l - 1 : Nat) : Int) := by
      simp only [Sgn.toInt]; omega
    rw [this, if_neg (by omega)]
    simp only [Int.toNat_natCast, ckInt_of_lt (show x + 4 * l - 1 < 2 ^ 31 by omega), ok_bind, cmod_pos hpos, pure_def,
      step]
    congr 2
    split
    · next h =>
        subst h
        rw [show 0 + 4 * l - 1 = (l - 1) + l * 3 by omega, Nat.add_mul_mod_self_left]
        exact Nat.mod_eq_of_lt (by omega)
    · rw [show x + 4 * l - 1 = (x - 1) + l * 4 by omega, Nat.add_mul_mod_self_left]
      exact Nat.mod_eq_of_lt (by omega)

/-- a single-node table for a well-behaved coordinate map -/
theorem mapMake_ok {g : Geom} (hg : g.Good) (h1 : g.nodes = 1) {func : List Nat → Int → Outcome (List Nat)}
    {φ : List Nat → List Nat} (hf : ∀ c, InRange c g.L → func c 1 = ok (φ c) ∧ InRange (φ c) g.L) :
    ∃ t, mapMake g func = ok t ∧ t.length = g.sites ∧ ∀ c i, InRange c g.L → g.linearSiteIndex c = ok i →
      ∃ j, g.linearSiteIndex (φ c) = ok j ∧ rd t i = ok j := by
  let h : Nat → Nat := fun i => match g.siteCoords 0 i with
    | ok c => (match g.linearSiteIndex (φ c) with | ok j => j | _ => 0)
    | _ => 0
  refine ⟨(List.range g.sites).map h, ?_, by simp, ?_⟩
  · apply mapO_ok
    intro i hi
    obtain ⟨c, hc, hr, -, -⟩ := hg.2 0 i (by omega) (List.mem_range.1 hi)
    obtain ⟨n, j, -, -, hj, -, -⟩ := hg.1 _ (hf c hr).2
    simp [hc, (hf c hr).1, hj, h]
  · intro c i hc hi
    obtain ⟨n, i', hn, hn', hi', hlt, hsc⟩ := hg.1 c hc
    obtain ⟨n', j, -, -, hj, -, -⟩ := hg.1 _ (hf c hc).2
    rw [hi] at hi'; injection hi' with hi'; subst hi'
    refine ⟨j, hj, ?_⟩
    have hn0 : n = 0 := by omega
    subst hn0
    rw [rd_of_lt (by simpa using hlt)]
    simp [h, hsc, hj]

end Verif.Shift
