import Verif.Spin
/-
The inlined spin projection and reconstruction of include/scalarsite_generic: streams of real numbers, `n_vec` sites, three colours.
The source is the list of numbers found at `src`, the result the list of numbers stored from `dst` on.  `src` and `dst` do not overlap.
-/
set_option linter.unusedSectionVars false
namespace Verif.Spin
open Verif Outcome

variable {S : Type} [AddCommGroup S]

/-! ## model -/

/-- `tmp[k][col][c]` of `REAL tmp[4][3][2]` -/
def tmpAt (tmp : List S) (k col : Nat) (c : Bool) : Outcome S := rd tmp ((k * 3 + col) * 2 + if c then 1 else 0)

/-- one term of a store, with its sign, added to `x` -/
def addSrc (tmp : List S) (x : S) (e : Src) (col : Nat) : Outcome S := do
  let v ← tmpAt tmp e.k col e.c
  ok (if e.minus then x - v else x + v)

/-- `tmp[..] ± tmp[..]`; the first term never has a minus sign -/
def projStore (tmp : List S) (e : Src × Src) (col : Nat) : Outcome S := do
  let x ← tmpAt tmp e.1.k col e.1.c
  addSrc tmp x e.2 col

/-- `for (col = 0; col < Nc; col++) { *dst++ = re; *dst++ = im; }` -/
def colLoop (re im : Nat → Outcome S) : List Nat → Outcome (List S)
  | [] => ok []
  | col :: cs => do
    let a ← re col
    let b ← im col
    let r ← colLoop re im cs
    ok (a :: b :: r)

/-- `inlineSpinProjDir*`, include/scalarsite_generic/generic_spin_proj_inlines.h, one site -/
def inProjSite (t : Fin 4 → Src × Src) (tmp : List S) : Outcome (List S) := do
  let s0 ← colLoop (projStore tmp (t 0)) (projStore tmp (t 1)) [0, 1, 2]
  let s1 ← colLoop (projStore tmp (t 2)) (projStore tmp (t 3)) [0, 1, 2]
  ok (s0 ++ s1)

/-- the loop over the sites; 24 numbers are read for each -/
def inProj (t : Fin 4 → Src × Src) : Nat → List S → Outcome (List S)
  | 0, _ => ok []
  | n + 1, src =>
    if src.length < 24 then ub
    else do
      let a ← inProjSite t (src.take 24)
      let r ← inProj t n (src.drop 24)
      ok (a ++ r)

/-- `± tmp[..]` -/
def reconStore (tmp : List S) (e : Src) (col : Nat) : Outcome S := do
  let v ← tmpAt tmp e.k col e.c
  ok (if e.minus then -v else v)

/-- `inlineSpinReconDir*`, include/scalarsite_generic/generic_spin_recon_inlines.h, one site -/
def inReconSite (t : Fin 4 → Src) (tmp : List S) : Outcome (List S) := do
  let s2 ← colLoop (reconStore tmp (t 0)) (reconStore tmp (t 1)) [0, 1, 2]
  let s3 ← colLoop (reconStore tmp (t 2)) (reconStore tmp (t 3)) [0, 1, 2]
  ok (tmp ++ (s2 ++ s3))

def inRecon (t : Fin 4 → Src) : Nat → List S → Outcome (List S)
  | 0, _ => ok []
  | n + 1, src =>
    if src.length < 12 then ub
    else do
      let a ← inReconSite t (src.take 12)
      let r ← inRecon t n (src.drop 12)
      ok (a ++ r)

/-- the loop over colour of `inlineAddSpinReconDir*`: `*dst++ ±= tmp[..]`; `p` is the place of the first store -/
def addColLoop (tmp dst : List S) (er ei : Src) : Nat → List Nat → Outcome (List S)
  | _, [] => ok []
  | p, col :: cs => do
    let x ← rd dst p
    let a ← addSrc tmp x er col
    let y ← rd dst (p + 1)
    let b ← addSrc tmp y ei col
    let r ← addColLoop tmp dst er ei (p + 2) cs
    ok (a :: b :: r)

/-- `inlineAddSpinReconDir*`, same file, one site -/
def inAddReconSite (t : Fin 4 → Src) (tmp dst : List S) : Outcome (List S) := do
  let s2 ← addColLoop tmp dst (t 0) (t 1) 12 [0, 1, 2]
  let s3 ← addColLoop tmp dst (t 2) (t 3) 18 [0, 1, 2]
  ok (List.zipWith (· + ·) (dst.take 12) tmp ++ (s2 ++ s3))

def inAddRecon (t : Fin 4 → Src) : Nat → List S → List S → Outcome (List S)
  | 0, _, _ => ok []
  | n + 1, src, dst =>
    if src.length < 12 ∨ dst.length < 24 then ub
    else do
      let a ← inAddReconSite t (src.take 12) (dst.take 24)
      let r ← inAddRecon t n (src.drop 12) (dst.drop 24)
      ok (a ++ r)

/-! ## specification: spinors as they lie in memory -/

abbrev ColVec (S : Type) := Fin 3 → S × S

/-- a colour vector: three complex numbers, real part first -/
def flatC (v : ColVec S) : List S := [(v 0).1, (v 0).2, (v 1).1, (v 1).2, (v 2).1, (v 2).2]
def flat4 (s : Fin 4 → ColVec S) : List S := flatC (s 0) ++ (flatC (s 1) ++ (flatC (s 2) ++ flatC (s 3)))
def flat2 (s : Fin 2 → ColVec S) : List S := flatC (s 0) ++ flatC (s 1)

theorem flat4_length (s : Fin 4 → ColVec S) : (flat4 s).length = 24 := rfl
theorem flat2_length (s : Fin 2 → ColVec S) : (flat2 s).length = 12 := rfl

/-! ## one site -/

theorem inProjSite_eq (d : Fin 8) (s : Fin 4 → ColVec S) : inProjSite (inProjT d) (flat4 s) = ok (flat2 (proj d s)) := by
  fin_cases d <;>
    simp [inProjSite, colLoop, projStore, addSrc, tmpAt, flat4, flat2, flatC, rd, inProjT, proj, projT, Ph.addTo, Cpt.timesI, sub_eq_add_neg, Fin.castLE]

theorem inReconSite_eq (d : Fin 8) (s : Fin 2 → ColVec S) : inReconSite (inReconT d) (flat2 s) = ok (flat4 (recon d s)) := by
  fin_cases d <;>
    simp [inReconSite, colLoop, reconStore, tmpAt, flat4, flat2, flatC, rd, inReconT, recon, reconT, Ph.app, Cpt.timesI, Cpt.timesMinusI]

theorem inAddReconSite_eq (d : Fin 8) (s : Fin 2 → ColVec S) (t : Fin 4 → ColVec S) :
    inAddReconSite (inAddReconT d) (flat2 s) (flat4 t) = ok (flat4 (t + recon d s)) := by
  fin_cases d <;>
    simp [inAddReconSite, addColLoop, addSrc, tmpAt, flat4, flat2, flatC, rd, inAddReconT, recon, reconT, Ph.app, Cpt.timesI, Cpt.timesMinusI, sub_eq_add_neg]

/-! ## any number of sites -/

/-- C43: the inlined projection of any number of sites stores the projections of the spinors, in the order of the sites -/
theorem C43_inline_project (d : Fin 8) : ∀ (ss : List (Fin 4 → ColVec S)) (rest : List S),
    inProj (inProjT d) ss.length (ss.flatMap flat4 ++ rest) = ok (ss.flatMap fun s => flat2 (proj d s)) := by
  intro ss
  induction ss with
  | nil => intro rest; rfl
  | cons s ss ih =>
    intro rest
    have h24 := flat4_length s
    simp only [List.length_cons, inProj, List.flatMap_cons, List.append_assoc]
    rw [if_neg (by simp [h24]), List.take_append_of_le_length (by rw [h24]), List.take_of_length_le (by rw [h24]), inProjSite_eq, ok_bind,
      List.drop_append_of_le_length (by rw [h24]), List.drop_of_length_le (by rw [h24]), List.nil_append, ih, ok_bind]

theorem C43_inline_recon (d : Fin 8) : ∀ (ss : List (Fin 2 → ColVec S)) (rest : List S),
    inRecon (inReconT d) ss.length (ss.flatMap flat2 ++ rest) = ok (ss.flatMap fun s => flat4 (recon d s)) := by
  intro ss
  induction ss with
  | nil => intro rest; rfl
  | cons s ss ih =>
    intro rest
    have h24 := flat2_length s
    simp only [List.length_cons, inRecon, List.flatMap_cons, List.append_assoc]
    rw [if_neg (by simp [h24]), List.take_append_of_le_length (by rw [h24]), List.take_of_length_le (by rw [h24]), inReconSite_eq, ok_bind,
      List.drop_append_of_le_length (by rw [h24]), List.drop_of_length_le (by rw [h24]), List.nil_append, ih, ok_bind]

/-- C43: the inlined reconstruction with accumulation adds the reconstruction to what is there -/
theorem C43_inline_add_recon (d : Fin 8) : ∀ (ss : List ((Fin 2 → ColVec S) × (Fin 4 → ColVec S))) (rest rest' : List S),
    inAddRecon (inAddReconT d) ss.length (ss.flatMap (fun p => flat2 p.1) ++ rest) (ss.flatMap (fun p => flat4 p.2) ++ rest') =
      ok (ss.flatMap fun p => flat4 (p.2 + recon d p.1)) := by
  intro ss
  induction ss with
  | nil => intro rest rest'; rfl
  | cons s ss ih =>
    intro rest rest'
    have h12 := flat2_length s.1
    have h24 := flat4_length s.2
    simp only [List.length_cons, inAddRecon, List.flatMap_cons, List.append_assoc]
    rw [if_neg (by simp [h24, h12]), List.take_append_of_le_length (by rw [h12]), List.take_of_length_le (by rw [h12]),
      List.take_append_of_le_length (by rw [h24]), List.take_of_length_le (by rw [h24]), inAddReconSite_eq, ok_bind,
      List.drop_append_of_le_length (by rw [h12]), List.drop_of_length_le (by rw [h12]), List.nil_append,
      List.drop_append_of_le_length (by rw [h24]), List.drop_of_length_le (by rw [h24]), List.nil_append, ih, ok_bind]

/-- C43: projecting and reconstructing any number of sites with the inlined functions multiplies each spinor by `1 ± gamma` -/
theorem C43_inline (d : Fin 8) (ss : List (Fin 4 → ColVec S)) :
    (inProj (inProjT d) ss.length (ss.flatMap flat4) >>= inRecon (inReconT d) ss.length) = ok (ss.flatMap fun s => flat4 (mulVec (onePM d) s)) := by
  have h1 := C43_inline_project d ss []
  rw [List.append_nil] at h1
  rw [h1, ok_bind]
  have h2 := C43_inline_recon d (ss.map (proj d)) []
  rw [List.append_nil, List.length_map, List.flatMap_map, List.flatMap_map] at h2
  rw [h2]
  simp only [C43_project]

/-- a non-trivial case: two sites over the integers, direction 0, plus -/
example : (inProj (S := ℤ) (inProjT 0) 2 ((List.range 48).map Int.ofNat) >>= fun h => ok (h.take 6)) = ok [-19, 19, -19, 23, -19, 27] := by decide +kernel

end Verif.Spin
