import Verif.ArchiveProps
import Verif.LatticeIOThm
import Mathlib.LinearAlgebra.UnitaryGroup
import Mathlib.LinearAlgebra.Matrix.Adjugate
import Mathlib.Data.Complex.Basic
import Mathlib.Tactic.LinearCombination
import Mathlib.Tactic.FinCases
/-
C44: what is read back from a gauge-field archive.  C45: the checksum in the file is the one computed when it is read.
-/
namespace Verif.Archive
open Verif Outcome ByteOrder Verif.Layout Verif.ParLayout Verif.Subset Verif.BinIO Verif.LatticeIO Verif.GlobalSum

variable {K : Type}

/-! ## C45 -/

/-- the values written for a field -/
def wordVals (N : Num K) (mat : Nat) (f : Nat → List Nat → Link K) : Nat → List Nat → List (List Byte) := fun dd c => bigs (linkWords N mat (f dd c))

theorem wordVals_ok (N : Num K) {mat : Nat} (hm : mat = 12 ∨ mat = 18) (f : Nat → List Nat → Link K) (L : List Nat) (Nd : Nat) :
    IsVals L Nd mat 4 (wordVals N mat f) :=
  fun _ _ _ _ => ⟨by rw [wordVals, bigs, List.length_map, linkWords_length N hm], bigs_length _⟩

theorem valBytes_arch (N : Num K) (mat : Nat) (f : Nat → List Nat → Link K) (L : List Nat) (Nd : Nat) :
    valBytes L Nd (wordVals N mat f) = archBytes N L Nd mat f := by
  simp only [valBytes, archBytes, wordVals, flatten_bigs]

theorem valSum_field (N : Num K) (mat : Nat) (f : Nat → List Nat → Link K) (L : List Nat) (Nd : Nat) :
    valSum L Nd (wordVals N mat f) = fieldSum N L Nd mat f := by
  simp only [valSum, fieldSum, wordVals, wsum_bigs]

/-- C45: both kinds of machine write the same file, whatever their geometry and byte order -/
theorem C45_file (be : Bool) (N : Num K) (g : Geom) (hg : g.Good) (Nd mat : Nat) (hm : mat = 12 ∨ mat = 18) (junk : Nat → BitVec 32)
    (f : Nat → List Nat → Link K) (d : Dev) :
    (∀ F, g.nodes = 1 → HoldsG g Nd (fun _ => F) f → writeArchivS be N g Nd mat junk F d = ok (d.put (archBytes N g.L Nd mat f))) ∧
    (∀ F, 4 * mat * Nd < 2 ^ 31 → HoldsG g Nd F f → writeArchivP be N g Nd mat junk F d = ok (d.put (archBytes N g.L Nd mat f))) :=
  ⟨fun F h1 hF => write_single be N g hg h1 Nd mat hm junk F f hF d, fun F h hF => write_par be N g hg Nd mat hm h junk F f hF d⟩

section reading
variable [Add K] [Sub K] [Mul K]

/-- C45: the checksum found when the file of a field is read — on one node or many, of any geometry and byte order — is the one
`computeChecksum` gives for the field on the writing machine (`C45_checksum_par`, `C45_checksum_single`) -/
theorem C45_read (be : Bool) (N : Num K) (g : Geom) (hg : g.Good) (Nd mat : Nat) (hm : mat = 12 ∨ mat = 18) (sj : Nat → K)
    (f : Nat → List Nat → Link K) (d : Dev) (hd : d.Sees (archBytes N g.L Nd mat f)) :
    (∀ F, g.nodes = 1 → ∃ F', readArchivS be N g Nd mat 4 sj F d = ok ((F', fieldSum N g.L Nd mat f), d.skip (archBytes N g.L Nd mat f)) ∧
      HoldsG g Nd (fun _ => F') (fun dd c => linkFrom N mat 4 sj (wordVals N mat f dd c))) ∧
    (∀ F, 4 * mat * Nd < 2 ^ 31 → ∃ F', (∀ n, n < g.nodes →
      readArchivP be N g Nd mat 4 sj F d n = ok ((F' n, fieldSum N g.L Nd mat f), d.skip (archBytes N g.L Nd mat f))) ∧
      HoldsG g Nd F' (fun dd c => linkFrom N mat 4 sj (wordVals N mat f dd c))) := by
  rw [← valBytes_arch] at hd ⊢
  rw [← valSum_field]
  exact ⟨fun F h1 => read_single be N g hg h1 Nd mat 4 hm (Or.inl rfl) sj _ (wordVals_ok N hm f _ _) F d hd,
    fun F h => read_par be N g hg Nd mat 4 hm (Or.inl rfl) h sj _ (wordVals_ok N hm f _ _) F d hd⟩

/-- C45: the same holds of files of 64-bit numbers made elsewhere: the checksum is the sum of their 32-bit halves, the same on hosts of
both byte orders, although these see the halves in different order -/
theorem C45_double (be : Bool) (N : Num K) (g : Geom) (hg : g.Good) (Nd mat : Nat) (hm : mat = 12 ∨ mat = 18) (sj : Nat → K)
    (v : Nat → List Nat → List (List Byte)) (hv : IsVals g.L Nd mat 8 v) (d : Dev) (hd : d.Sees (valBytes g.L Nd v)) :
    (∀ F, g.nodes = 1 → ∃ F', readArchivS be N g Nd mat 8 sj F d = ok ((F', valSum g.L Nd v), d.skip (valBytes g.L Nd v)) ∧
      HoldsG g Nd (fun _ => F') (fun dd c => linkFrom N mat 8 sj (v dd c))) ∧
    (∀ F, 8 * mat * Nd < 2 ^ 31 → ∃ F', (∀ n, n < g.nodes →
      readArchivP be N g Nd mat 8 sj F d n = ok ((F' n, valSum g.L Nd v), d.skip (valBytes g.L Nd v))) ∧
      HoldsG g Nd F' (fun dd c => linkFrom N mat 8 sj (v dd c))) :=
  ⟨fun F h1 => read_single be N g hg h1 Nd mat 8 hm (Or.inr rfl) sj v hv F d hd,
    fun F h => read_par be N g hg Nd mat 8 hm (Or.inr rfl) h sj v hv F d hd⟩

/-! ## C44 -/

/-- what the numbers of a link become when they are stored as `float` and read again -/
def rounded (N : Num K) (m : Link K) : Link K := fun i k => (N.of32 (N.toW (m i k).1), N.of32 (N.toW (m i k).2))

/-- C44, three rows, any arithmetic: every number comes back, rounded to `float` -/
theorem C44_three_rows (N : Num K) (f : Nat → List Nat → Link K) (sj : Nat → K) (dd : Nat) (c : List Nat) :
    linkFrom N 18 4 sj (wordVals N 18 f dd c) = rounded N (f dd c) := by
  rw [linkFrom, if_neg (by decide), wordVals, dec_bigs]
  funext i k
  fin_cases i <;> fin_cases k <;> rfl

/-- C44, two rows, any arithmetic: the first two rows come back, rounded to `float` -/
theorem C44_first_rows (N : Num K) (f : Nat → List Nat → Link K) (sj : Nat → K) (dd : Nat) (c : List Nat) (i k : Fin 3) (hi : i ≠ 2) :
    linkFrom N 12 4 sj (wordVals N 12 f dd c) i k = rounded N (f dd c) i k := by
  rw [linkFrom, if_pos rfl, wordVals, dec_bigs]
  fin_cases i
  · fin_cases k <;> rfl
  · fin_cases k <;> rfl
  · exact absurd rfl hi

end reading

section ring
variable [CommRing K]

/-- complex arithmetic on pairs -/
def cmul (x y : K × K) : K × K := (x.1 * y.1 - x.2 * y.2, x.1 * y.2 + x.2 * y.1)
def csub (x y : K × K) : K × K := (x.1 - y.1, x.2 - y.2)
def cconj (x : K × K) : K × K := (x.1, -x.2)
/-- the conjugate of the cross product of two rows -/
def crossConj (a b : Fin 3 → K × K) (k : Fin 3) : K × K := cconj (csub (cmul (a (k + 1)) (b (k + 2))) (cmul (a (k + 2)) (b (k + 1))))
/-- the first two rows of `m` completed by the conjugate of their cross product -/
def completed (m : Link K) : Link K := fun i k => if i = 2 then crossConj (m 0) (m 1) k else m i k

theorem third_completed (s : Nat → K) : linkOf (third s) = completed (linkOf s) := by
  funext i k
  fin_cases i
  · fin_cases k <;> rfl
  · fin_cases k <;> rfl
  · fin_cases k
    · refine Prod.ext ?_ ?_
      · change s 2 * s 10 - s 3 * s 11 - s 4 * s 8 + s 5 * s 9 = s 2 * s 10 - s 3 * s 11 - (s 4 * s 8 - s 5 * s 9)
        ring
      · change s 4 * s 9 + s 5 * s 8 - s 2 * s 11 - s 3 * s 10 = -(s 2 * s 11 + s 3 * s 10 - (s 4 * s 9 + s 5 * s 8))
        ring
    · refine Prod.ext ?_ ?_
      · change s 4 * s 6 - s 5 * s 7 - s 0 * s 10 + s 1 * s 11 = s 4 * s 6 - s 5 * s 7 - (s 0 * s 10 - s 1 * s 11)
        ring
      · change s 0 * s 11 + s 1 * s 10 - s 4 * s 7 - s 5 * s 6 = -(s 4 * s 7 + s 5 * s 6 - (s 0 * s 11 + s 1 * s 10))
        ring
    · refine Prod.ext ?_ ?_
      · change s 0 * s 8 - s 1 * s 9 - s 2 * s 6 + s 3 * s 7 = s 0 * s 8 - s 1 * s 9 - (s 2 * s 6 - s 3 * s 7)
        ring
      · change s 2 * s 7 + s 3 * s 6 - s 0 * s 9 - s 1 * s 8 = -(s 0 * s 9 + s 1 * s 8 - (s 2 * s 7 + s 3 * s 6))
        ring

theorem completed_congr {m m' : Link K} (h : ∀ i k, i ≠ 2 → m i k = m' i k) : completed m = completed m' := by
  have h0 : m 0 = m' 0 := funext fun k => h 0 k (by decide)
  have h1 : m 1 = m' 1 := funext fun k => h 1 k (by decide)
  funext i k
  unfold completed
  by_cases hi : i = 2
  · rw [if_pos hi, if_pos hi, h0, h1]
  · rw [if_neg hi, if_neg hi, h i k hi]

/-- C44, two rows, exact arithmetic: the third row is the conjugate of the cross product of the first two -/
theorem C44_third_row (N : Num K) (f : Nat → List Nat → Link K) (sj : Nat → K) (dd : Nat) (c : List Nat) :
    linkFrom N 12 4 sj (wordVals N 12 f dd c) = completed (rounded N (f dd c)) := by
  have h := C44_first_rows N f sj dd c
  rw [linkFrom, if_pos rfl, third_completed] at h ⊢
  refine completed_congr fun i k hi => ?_
  rw [← h i k hi, completed, if_neg hi]

end ring

/-! ### SU(3) -/

/-- a link as a complex matrix -/
def toC (m : Link ℝ) : Matrix (Fin 3) (Fin 3) ℂ := Matrix.of fun i k => ⟨(m i k).1, (m i k).2⟩

theorem toC_completed (m : Link ℝ) (k : Fin 3) : toC (completed m) 2 k =
    star (toC m 0 (k + 1) * toC m 1 (k + 2) - toC m 0 (k + 2) * toC m 1 (k + 1)) := by
  apply Complex.ext
  · simp [toC, completed, crossConj, cconj, csub, cmul]
  · simp [toC, completed, crossConj, cconj, csub, cmul]
    ring

theorem toC_inj {m m' : Link ℝ} (h : toC m = toC m') : m = m' := by
  funext i k
  have := congrFun (congrFun h i) k
  simp only [toC, Matrix.of_apply, Complex.mk.injEq] at this
  exact Prod.ext this.1 this.2

/-- a matrix of SU(3) is determined by its first two rows in this way -/
theorem su3_completed (m : Link ℝ) (h : toC m ∈ Matrix.specialUnitaryGroup (Fin 3) ℂ) : completed m = m := by
  obtain ⟨hu, hdet⟩ := Matrix.mem_specialUnitaryGroup_iff.1 h
  have hs : star (toC m) = (toC m).adjugate := by
    have h1 : star (toC m) * toC m = 1 := Matrix.mem_unitaryGroup_iff'.1 hu
    have h2 : toC m * (toC m).adjugate = 1 := by rw [Matrix.mul_adjugate, hdet, one_smul]
    calc star (toC m) = star (toC m) * (toC m * (toC m).adjugate) := by rw [h2, mul_one]
      _ = (toC m).adjugate := by rw [← mul_assoc, h1, one_mul]
  apply toC_inj
  ext i k
  by_cases hi : i = 2
  · subst hi
    rw [toC_completed]
    have := congrFun (congrFun hs k) 2
    rw [Matrix.star_apply] at this
    rw [← star_star (toC m 2 k), this, Matrix.adjugate_fin_three]
    congr 1
    fin_cases k
    · simp
    · simp
      ring
    · simp
  · simp [toC, completed, hi]

/-- C44: the third row is orthogonal to the first two, whatever they are -/
theorem C44_orthogonal (m : Link ℝ) (r : Fin 3) (hr : r ≠ 2) : ∑ k, toC (completed m) r k * star (toC (completed m) 2 k) = 0 := by
  have h : ∀ k, toC (completed m) r k = toC m r k := fun k => by simp [toC, completed, hr]
  simp only [toC_completed, star_star, h, Fin.sum_univ_three]
  fin_cases r
  · simp only [Fin.zero_eta, Fin.isValue, zero_add, Fin.reduceAdd]; ring
  · simp only [Fin.mk_one, Fin.isValue, zero_add, Fin.reduceAdd]; ring
  · exact absurd rfl hr

/-- the inner product of two rows -/
def inner3 (a b : Fin 3 → ℂ) : ℂ := ∑ k, a k * star (b k)

/-- C44: the determinant is the squared area of the first two rows -/
theorem C44_det (m : Link ℝ) : (toC (completed m)).det =
    inner3 (toC m 0) (toC m 0) * inner3 (toC m 1) (toC m 1) - inner3 (toC m 0) (toC m 1) * inner3 (toC m 1) (toC m 0) := by
  have h0 : ∀ k, toC (completed m) 0 k = toC m 0 k := fun k => by simp [toC, completed]
  have h1 : ∀ k, toC (completed m) 1 k = toC m 1 k := fun k => by simp [toC, completed]
  rw [Matrix.det_fin_three]
  simp only [toC_completed, h0, h1, inner3, Fin.sum_univ_three, star_sub, star_mul', zero_add, Fin.reduceAdd, Fin.isValue]
  ring

/-- C44: if the first two rows are orthonormal, the completed matrix is in SU(3) -/
theorem C44_completes (m : Link ℝ) (h00 : inner3 (toC m 0) (toC m 0) = 1) (h11 : inner3 (toC m 1) (toC m 1) = 1)
    (h01 : inner3 (toC m 0) (toC m 1) = 0) : toC (completed m) ∈ Matrix.specialUnitaryGroup (Fin 3) ℂ := by
  have hr0 : ∀ k, toC (completed m) 0 k = toC m 0 k := fun k => by simp [toC, completed]
  have hr1 : ∀ k, toC (completed m) 1 k = toC m 1 k := fun k => by simp [toC, completed]
  have h10 : inner3 (toC m 1) (toC m 0) = 0 := by
    have := congrArg star h01
    simpa [inner3, mul_comm] using this
  have o0 := C44_orthogonal m 0 (by decide)
  have o1 := C44_orthogonal m 1 (by decide)
  have flip : ∀ r, ∑ k, toC (completed m) r k * star (toC (completed m) 2 k) = 0 → ∑ k, toC (completed m) 2 k * star (toC (completed m) r k) = 0 := by
    intro r hr
    have := congrArg star hr
    simpa [mul_comm] using this
  have d22 : ∑ k, toC (completed m) 2 k * star (toC (completed m) 2 k) = 1 := by
    have e : ∑ k, toC (completed m) 2 k * star (toC (completed m) 2 k) =
        inner3 (toC m 0) (toC m 0) * inner3 (toC m 1) (toC m 1) - inner3 (toC m 0) (toC m 1) * inner3 (toC m 1) (toC m 0) := by
      simp only [toC_completed, inner3, Fin.sum_univ_three, star_sub, star_mul', star_star, zero_add, Fin.reduceAdd, Fin.isValue]
      ring
    rw [e, h00, h11, h01]
    ring
  refine Matrix.mem_specialUnitaryGroup_iff.2 ⟨Matrix.mem_unitaryGroup_iff.2 ?_, ?_⟩
  · ext i j
    rw [Matrix.mul_apply]
    simp only [Matrix.star_apply]
    have key : ∀ i j : Fin 3, ∑ k, toC (completed m) i k * star (toC (completed m) j k) = if i = j then 1 else 0 := by
      intro i j
      fin_cases i <;> fin_cases j
      · simpa [inner3, hr0] using h00
      · simpa [inner3, hr0, hr1] using h01
      · exact o0
      · simpa [inner3, hr0, hr1] using h10
      · simpa [inner3, hr1] using h11
      · exact o1
      · exact flip 0 o0
      · exact flip 1 o1
      · exact d22
    rw [key, Matrix.one_apply]
  · rw [C44_det, h00, h11, h01]
    ring

/-! ### whole fields -/

/-- the numbers of a link are not changed by the conversion to `float` -/
def Exact (N : Num K) (m : Link K) : Prop := rounded N m = m

/-- C44: a field of SU(3) matrices stored with two rows (by any machine: `C45_file`) is read back exactly by every machine; one with three
rows needs no condition on the matrices.  Exact arithmetic; the numbers are exact as `float`. -/
theorem C44_field (be : Bool) (N : Num ℝ) (g : Geom) (hg : g.Good) (Nd mat : Nat) (hm : mat = 12 ∨ mat = 18) (sj : Nat → ℝ)
    (f : Nat → List Nat → Link ℝ) (hx : ∀ dd c, dd < Nd → InRange c g.L → Exact N (f dd c))
    (hsu : mat = 12 → ∀ dd c, dd < Nd → InRange c g.L → toC (f dd c) ∈ Matrix.specialUnitaryGroup (Fin 3) ℂ)
    (d : Dev) (hd : d.Sees (archBytes N g.L Nd mat f)) :
    (∀ F, g.nodes = 1 → ∃ F', readArchivS be N g Nd mat 4 sj F d = ok ((F', fieldSum N g.L Nd mat f), d.skip (archBytes N g.L Nd mat f)) ∧
      HoldsG g Nd (fun _ => F') f) ∧
    (∀ F, 4 * mat * Nd < 2 ^ 31 → ∃ F', (∀ n, n < g.nodes →
      readArchivP be N g Nd mat 4 sj F d n = ok ((F' n, fieldSum N g.L Nd mat f), d.skip (archBytes N g.L Nd mat f))) ∧ HoldsG g Nd F' f) := by
  have back : ∀ dd c, dd < Nd → InRange c g.L → linkFrom N mat 4 sj (wordVals N mat f dd c) = f dd c := by
    intro dd c hdd hc
    rcases hm with rfl | rfl
    · rw [C44_third_row, hx dd c hdd hc, su3_completed _ (hsu rfl dd c hdd hc)]
    · rw [C44_three_rows, hx dd c hdd hc]
  have conv : ∀ F', HoldsG g Nd F' (fun dd c => linkFrom N mat 4 sj (wordVals N mat f dd c)) → HoldsG g Nd F' f := by
    intro F' h n i c dd hn hi hc hdd
    obtain ⟨c', h1, h2, -⟩ := hg.2 n i hn hi
    rw [hc] at h1
    injection h1 with h1
    rw [h n i c dd hn hi hc hdd]
    exact back dd c hdd (h1 ▸ h2)
  obtain ⟨a, b⟩ := C45_read be N g hg Nd mat hm sj f d hd
  refine ⟨fun F h1 => ?_, fun F h => ?_⟩
  · obtain ⟨F', e1, e2⟩ := a F h1
    exact ⟨F', e1, conv _ e2⟩
  · obtain ⟨F', e1, e2⟩ := b F h
    exact ⟨F', e1, conv _ e2⟩

/-- C44: nothing else is restored: with orthonormal first rows, the matrices that come back unchanged are those of SU(3) -/
theorem C44_only (m : Link ℝ) (h00 : inner3 (toC m 0) (toC m 0) = 1) (h11 : inner3 (toC m 1) (toC m 1) = 1)
    (h01 : inner3 (toC m 0) (toC m 1) = 0) : completed m = m ↔ toC m ∈ Matrix.specialUnitaryGroup (Fin 3) ℂ :=
  ⟨fun h => h ▸ C44_completes m h00 h11 h01, su3_completed m⟩

/-! ### non-trivial cases -/

/-- the numbers 0, 1, -1 -/
noncomputable def signs : Num ℝ where
  toW x := open Classical in if x = 0 then 0#32 else if x = 1 then 0x3f800000#32 else 0xbf800000#32
  of32 w := if w = 0#32 then 0 else if w = 0x3f800000#32 then 1 else -1
  of64 _ := 0

/-- ((0,i,0),(i,0,0),(0,0,1)) -/
def exLink : Link ℝ := fun i k => if i = 0 ∧ k = 1 then (0, 1) else if i = 1 ∧ k = 0 then (0, 1) else if i = 2 ∧ k = 2 then (1, 0) else (0, 0)

theorem exLink_su3 : toC exLink ∈ Matrix.specialUnitaryGroup (Fin 3) ℂ := by
  have h : completed exLink = exLink := by
    funext i k
    fin_cases i <;> fin_cases k <;> simp [completed, exLink, crossConj, cconj, csub, cmul]
  rw [← h]
  refine C44_completes exLink ?_ ?_ ?_ <;>
  · rw [inner3, Fin.sum_univ_three]
    apply Complex.ext <;> simp [toC, exLink]

example : toC exLink ∈ Matrix.specialUnitaryGroup (Fin 3) ℂ ∧ Exact signs exLink ∧ completed exLink = exLink := by
  refine ⟨exLink_su3, ?_, su3_completed _ exLink_su3⟩
  funext i k
  fin_cases i <;> fin_cases k <;> simp [rounded, signs, exLink]

/-- a matrix that is not restored: its third row is minus that of the one above -/
example : completed (fun i k => if i = 2 ∧ k = 2 then (-1, 0) else exLink i k) ≠ fun i k => if i = 2 ∧ k = 2 then (-1, 0) else exLink i k := by
  intro h
  have := congrFun (congrFun h 2) 2
  simp [completed, exLink, crossConj, cconj, csub, cmul] at this
  norm_num at this

/-- integers as numbers -/
def ints : Num Int where
  toW x := BitVec.ofInt 32 x
  of32 w := w.toInt
  of64 w := w.toInt

/-- a field of integers that depends on direction, site and entry -/
def intField (dd : Nat) (c : List Nat) : Link Int := fun i k => (dd + 10 * c.headD 0 + i, -(c.getLastD 0 + k : Nat))
/-- the same on the nodes of a machine -/
def onNodes (g : Geom) (f : Nat → List Nat → Link Int) : Nat → Field Int := fun n dd i =>
  match g.siteCoords n i with
  | ok c => f dd c
  | _ => f dd []

theorem onNodes_holds (g : Geom) (Nd : Nat) (f : Nat → List Nat → Link Int) : HoldsG g Nd (onNodes g f) f := by
  intro n i c dd _ _ hc _
  rw [onNodes, hc]

/-- two nodes, lattice 4 x 2, two directions: the hypotheses of `C45_checksum_par` hold, and the checksum is a particular number -/
example : computeChecksumP false ints (geomCB2 [4, 2] (lexMachine [2, 1]) [2, 2]) 2 12 (fun _ => 7)
      (onNodes (geomCB2 [4, 2] (lexMachine [2, 1]) [2, 2]) intField) = ok (fieldSum ints [4, 2] 2 12 intField) ∧
    fieldSum ints [4, 2] 2 12 intField = 1392#32 := by
  refine ⟨C45_checksum_par false ints _ ready_example.good 2 12 (Or.inl rfl) _ _ intField (onNodes_holds _ _ _), ?_⟩
  decide +kernel

end Verif.Archive
