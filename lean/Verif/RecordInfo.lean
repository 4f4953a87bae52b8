import Mathlib.Data.List.Induction
import Mathlib.Data.List.Nodup
/-
The numbers of spins and colours stated in the records of QIO files: `NumSpins` and `NumColors`, include/qdp_qdpio.h:153-306, used at
include/qdp_qdpio.h:1074, 1129, 1480.

Each is a static member of a class template, a variable that is not constant.  A variable whose initial value is a literal has it before any code runs
(constant initialisation).  A variable initialised from another variable is 0 at first and is assigned when its initialisation is executed; for static members of
implicitly instantiated templates the order of these executions is not determined by the language, within a file as between files.  The model runs them in any order.
-/
namespace Verif.RecordInfo
open scoped List

/-- the type of a field at a site: `RScalar`, `RComplex`; any template of one class (`PScalar`, `PSeed`); `PSpinVector` or `PSpinMatrix` of `n` spins;
`PColorVector` or `PColorMatrix` of `n` colours.  include/qdp_qdpio.h:162-226, 239-306 -/
inductive Ty
  | rscalar
  | rcomplex
  | one (t : Ty)
  | spin (n : Nat) (t : Ty)
  | color (n : Nat) (t : Ty)
deriving DecidableEq

/-- how a variable is initialised: with a number, or with the value of the variable of another type -/
inductive Init
  | lit (n : Nat)
  | var (t : Ty)

/-- `NumSpins<T>::value`, include/qdp_qdpio.h:168-169, 177-178, 188-197, 207-216, 225-226 -/
def spinInit : Ty → Init
  | .rscalar => .lit 1
  | .rcomplex => .lit 1
  | .spin n _ => .lit n
  | .color _ t => .var t
  | .one t => .var t

/-- `NumColors<T>::value`, include/qdp_qdpio.h:245-246, 254-255, 265-274, 284-293, 304-305 -/
def colorInit : Ty → Init
  | .rscalar => .lit 1
  | .rcomplex => .lit 1
  | .spin _ t => .var t
  | .color n _ => .lit n
  | .one t => .var t

/-- the variables before any code runs -/
def atStart (I : Ty → Init) (t : Ty) : Nat :=
  match I t with
  | .lit n => n
  | .var _ => 0

/-- the initialisation of the variable of type `v` is executed -/
def execInit (I : Ty → Init) (m : Ty → Nat) (v : Ty) : Ty → Nat := fun t =>
  if t = v then
    match I v with
    | .lit n => n
    | .var s => m s
  else m t

/-- the initialisations are executed in the order of the list -/
def run (I : Ty → Init) (order : List Ty) : Ty → Nat := order.foldl (execInit I) (atStart I)

/-! ### specification -/

/-- the number of spin components: that of the outermost spin structure, 1 if there is none -/
def spins : Ty → Nat
  | .rscalar => 1
  | .rcomplex => 1
  | .one t => spins t
  | .spin n _ => n
  | .color _ t => spins t

/-- the number of colours: that of the outermost colour structure, 1 if there is none -/
def colors : Ty → Nat
  | .rscalar => 1
  | .rcomplex => 1
  | .one t => colors t
  | .spin _ t => colors t
  | .color n _ => n

/-- the types passed before the spin structure, from the outside -/
def spinPath : Ty → List Ty
  | .rscalar => []
  | .rcomplex => []
  | .spin _ _ => []
  | .one t => .one t :: spinPath t
  | .color n t => .color n t :: spinPath t

/-- the types passed before the colour structure, from the outside -/
def colorPath : Ty → List Ty
  | .rscalar => []
  | .rcomplex => []
  | .color _ _ => []
  | .one t => .one t :: colorPath t
  | .spin n t => .spin n t :: colorPath t

/-! ### proofs -/

theorem run_snoc (I : Ty → Init) (l : List Ty) (v : Ty) : run I (l ++ [v]) = execInit I (run I l) v := by
  simp [run, List.foldl_append]

theorem sub_snoc_ne {X l : List Ty} {t v : Ty} (h : t ≠ v) : X ++ [t] <+ l ++ [v] ↔ X ++ [t] <+ l := by
  constructor
  · intro hs
    have := hs.reverse
    simp only [List.reverse_append, List.reverse_cons, List.reverse_nil, List.nil_append, List.cons_append] at this
    cases this with
    | cons _ h2 => have := h2.reverse; simpa using this
    | cons_cons _ _ => exact absurd rfl h
  · intro hs
    exact hs.trans (List.sublist_append_left _ _)

theorem sub_snoc_eq {X l : List Ty} {t : Ty} : X ++ [t] <+ l ++ [t] ↔ X <+ l := by
  exact List.append_sublist_append_right [t]

/-- both cases at once: a variable along a path of copies -/
theorem run_path (I : Ty → Init) (spec : Ty → Nat) (path : Ty → List Ty)
    (h : ∀ t, (∃ n, I t = .lit n ∧ path t = [] ∧ spec t = n) ∨ (∃ s, I t = .var s ∧ path t = t :: path s ∧ spec t = spec s)) :
    ∀ (l : List Ty) (t : Ty), run I l t = if (path t).reverse <+ l then spec t else 0 := by
  intro l
  induction l using List.reverseRecOn with
  | nil =>
    intro t
    rcases h t with ⟨n, e1, e2, e3⟩ | ⟨s, e1, e2, e3⟩
    · simp [run, atStart, e1, e2, e3]
    · simp [run, atStart, e1, e2]
  | append_singleton l v ih =>
    intro t
    rw [run_snoc]
    unfold execInit
    by_cases hv : t = v
    · subst hv
      rw [if_pos rfl]
      rcases h t with ⟨n, e1, e2, e3⟩ | ⟨s, e1, e2, e3⟩
      · simp [e1, e2, e3]
      · rw [e1, e2, List.reverse_cons]
        simp only [sub_snoc_eq, e3]
        exact ih s
    · rw [if_neg hv, ih t]
      rcases h t with ⟨n, e1, e2, e3⟩ | ⟨s, e1, e2, e3⟩
      · simp [e2]
      · rw [e2, List.reverse_cons]
        simp only [sub_snoc_ne hv]

theorem spin_cases (t : Ty) : (∃ n, spinInit t = .lit n ∧ spinPath t = [] ∧ spins t = n) ∨
    (∃ s, spinInit t = .var s ∧ spinPath t = t :: spinPath s ∧ spins t = spins s) := by
  cases t with
  | rscalar => exact .inl ⟨1, rfl, rfl, rfl⟩
  | rcomplex => exact .inl ⟨1, rfl, rfl, rfl⟩
  | one t => exact .inr ⟨t, rfl, rfl, rfl⟩
  | spin n t => exact .inl ⟨n, rfl, rfl, rfl⟩
  | color n t => exact .inr ⟨t, rfl, rfl, rfl⟩

theorem color_cases (t : Ty) : (∃ n, colorInit t = .lit n ∧ colorPath t = [] ∧ colors t = n) ∨
    (∃ s, colorInit t = .var s ∧ colorPath t = t :: colorPath s ∧ colors t = colors s) := by
  cases t with
  | rscalar => exact .inl ⟨1, rfl, rfl, rfl⟩
  | rcomplex => exact .inl ⟨1, rfl, rfl, rfl⟩
  | one t => exact .inr ⟨t, rfl, rfl, rfl⟩
  | spin n t => exact .inr ⟨t, rfl, rfl, rfl⟩
  | color n t => exact .inl ⟨n, rfl, rfl, rfl⟩

/-- C109. What the record of a field states, for every order of the initialisations: the number of spins (colours) if the variables on the way to the spin
(colour) structure are initialised from the inside to the outside, and 0 otherwise. -/
theorem C109_exact (order : List Ty) (t : Ty) :
    run spinInit order t = (if (spinPath t).reverse <+ order then spins t else 0) ∧
    run colorInit order t = (if (colorPath t).reverse <+ order then colors t else 0) :=
  ⟨run_path _ _ _ spin_cases order t, run_path _ _ _ color_cases order t⟩

theorem short_sub {p order : List Ty} (h : p.length ≤ 1) (hin : ∀ v ∈ p, v ∈ order) : p.reverse <+ order := by
  match p, h with
  | [], _ => exact List.nil_sublist _
  | [v], _ => simpa using hin v (by simp)

/-- C109, partial. The numbers are right in every order when at most one type lies outside the spin structure (colour structure): fermions, propagators.
Missing: all other fields, see `C109_refuted`. -/
theorem C109_near_partial (order : List Ty) (t : Ty) :
    ((spinPath t).length ≤ 1 → (∀ v ∈ spinPath t, v ∈ order) → run spinInit order t = spins t) ∧
    ((colorPath t).length ≤ 1 → (∀ v ∈ colorPath t, v ∈ order) → run colorInit order t = colors t) := by
  refine ⟨fun h hin => ?_, fun h hin => ?_⟩
  · rw [(C109_exact order t).1, if_pos (short_sub h hin)]
  · rw [(C109_exact order t).2, if_pos (short_sub h hin)]

/-- fields at a site -/
def fermion (ns nc : Nat) : Ty := .spin ns (.color nc .rcomplex)
def colorMatrix (nc : Nat) : Ty := .one (.color nc .rcomplex)
def spinMatrix (ns : Nat) : Ty := .spin ns (.one .rcomplex)
def complex : Ty := .one (.one .rcomplex)
def real : Ty := .one (.one .rscalar)

/-- C109. The records of fermions and propagators are right for every order in which all variables are initialised. -/
theorem C109_fermion (ns nc : Nat) (order : List Ty) (h : fermion ns nc ∈ order) :
    run spinInit order (fermion ns nc) = ns ∧ run colorInit order (fermion ns nc) = nc :=
  ⟨(C109_near_partial order _).1 (by simp [fermion, spinPath]) (by simp [fermion, spinPath]),
   (C109_near_partial order _).2 (by simp [fermion, colorPath]) (by simpa [fermion, colorPath] using h)⟩

theorem spinPath_size (t : Ty) : ∀ v ∈ spinPath t, sizeOf v ≤ sizeOf t := by
  induction t with
  | rscalar => intro v h; cases h
  | rcomplex => intro v h; cases h
  | one t ih =>
    intro v h
    rcases List.mem_cons.1 h with rfl | h
    · exact Nat.le_refl _
    · have := ih v h; simp only [Ty.one.sizeOf_spec]; omega
  | spin n t _ => intro v h; cases h
  | color n t ih =>
    intro v h
    rcases List.mem_cons.1 h with rfl | h
    · exact Nat.le_refl _
    · have := ih v h; simp only [Ty.color.sizeOf_spec]; omega

theorem colorPath_size (t : Ty) : ∀ v ∈ colorPath t, sizeOf v ≤ sizeOf t := by
  induction t with
  | rscalar => intro v h; cases h
  | rcomplex => intro v h; cases h
  | one t ih =>
    intro v h
    rcases List.mem_cons.1 h with rfl | h
    · exact Nat.le_refl _
    · have := ih v h; simp only [Ty.one.sizeOf_spec]; omega
  | color n t _ => intro v h; cases h
  | spin n t ih =>
    intro v h
    rcases List.mem_cons.1 h with rfl | h
    · exact Nat.le_refl _
    · have := ih v h; simp only [Ty.spin.sizeOf_spec]; omega

theorem spinPath_nodup (t : Ty) : (spinPath t).Nodup := by
  induction t with
  | rscalar => exact List.nodup_nil
  | rcomplex => exact List.nodup_nil
  | one t ih =>
    refine List.nodup_cons.2 ⟨fun h => ?_, ih⟩
    have := spinPath_size t _ h; simp only [Ty.one.sizeOf_spec] at this; omega
  | spin n t _ => exact List.nodup_nil
  | color n t ih =>
    refine List.nodup_cons.2 ⟨fun h => ?_, ih⟩
    have := spinPath_size t _ h; simp only [Ty.color.sizeOf_spec] at this; omega

theorem colorPath_nodup (t : Ty) : (colorPath t).Nodup := by
  induction t with
  | rscalar => exact List.nodup_nil
  | rcomplex => exact List.nodup_nil
  | one t ih =>
    refine List.nodup_cons.2 ⟨fun h => ?_, ih⟩
    have := colorPath_size t _ h; simp only [Ty.one.sizeOf_spec] at this; omega
  | color n t _ => exact List.nodup_nil
  | spin n t ih =>
    refine List.nodup_cons.2 ⟨fun h => ?_, ih⟩
    have := colorPath_size t _ h; simp only [Ty.spin.sizeOf_spec] at this; omega

theorem long_not_sub {p : List Ty} (hn : p.Nodup) (h : 2 ≤ p.length) : ¬ p.reverse <+ p := by
  intro hs
  have e := hs.eq_of_length (by simp)
  match p, h with
  | a :: b :: q, _ =>
    have h1 : (a :: b :: q).head? = (a :: b :: q).getLast? := by rw [← List.head?_reverse, e]
    rw [List.head?_cons, List.getLast?_cons_cons] at h1
    have : a ∈ b :: q := List.mem_of_getLast? h1.symm
    exact (List.nodup_cons.1 hn).1 this

/-- C109, refutation. Whenever two or more types lie outside the spin structure (colour structure) there is an order, each variable initialised once, in which the
record states 0 spins (colours); so for the spins of a colour matrix, the colours of a spin matrix, both of a complex or real field. -/
theorem C109_refuted :
    (∀ t, 2 ≤ (spinPath t).length → ∃ order : List Ty, order.Nodup ∧ (∀ v ∈ spinPath t, v ∈ order) ∧ run spinInit order t = 0) ∧
    (∀ t, 2 ≤ (colorPath t).length → ∃ order : List Ty, order.Nodup ∧ (∀ v ∈ colorPath t, v ∈ order) ∧ run colorInit order t = 0) ∧
    (∀ nc, 2 ≤ (spinPath (colorMatrix nc)).length) ∧ (∀ ns, 2 ≤ (colorPath (spinMatrix ns)).length) ∧
    2 ≤ (spinPath complex).length ∧ 2 ≤ (colorPath complex).length ∧ 2 ≤ (spinPath real).length ∧ 2 ≤ (colorPath real).length := by
  refine ⟨fun t h => ⟨spinPath t, spinPath_nodup t, fun _ hv => hv, ?_⟩, fun t h => ⟨colorPath t, colorPath_nodup t, fun _ hv => hv, ?_⟩,
    fun nc => ?_, fun ns => ?_, by decide, by decide, by decide, by decide⟩
  · rw [(C109_exact _ t).1, if_neg (long_not_sub (spinPath_nodup t) h)]
  · rw [(C109_exact _ t).2, if_neg (long_not_sub (colorPath_nodup t) h)]
  · exact Nat.le_refl _
  · exact Nat.le_refl _

/-! ### witnesses -/
example : run spinInit [.color 3 .rcomplex, colorMatrix 3] (colorMatrix 3) = 1 ∧ run spinInit [colorMatrix 3, .color 3 .rcomplex] (colorMatrix 3) = 0 ∧
    run colorInit [colorMatrix 3] (colorMatrix 3) = 3 ∧ run colorInit [fermion 4 3] (fermion 4 3) = 3 := by decide
end Verif.RecordInfo
