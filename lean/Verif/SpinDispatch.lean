import Verif.Spin
/-
Property C43, the functions that choose the direction at run time: `spinProject(s1, mu, isign)` and
`spinReconstruct(s1, mu, isign)`, include/qdp_globalfuncs.h:343-458, on one site.  `exit(1)` is `abort`.
-/
namespace Verif.Spin
open Verif Outcome

variable {M : Type} [Cpt M]

/-- the switches of `spinProject`, include/qdp_globalfuncs.h:348-395; the numbers are those of the tables `projT` -/
def spinProject (s : Fin 4 → M) (mu isign : Int) : Outcome (Fin 2 → M) :=
  if isign = -1 then
    if mu = 0 then ok (proj 1 s)
    else if mu = 1 then ok (proj 3 s)
    else if mu = 2 then ok (proj 5 s)
    else if mu = 3 then ok (proj 7 s)
    else abort
  else if isign = 1 then
    if mu = 0 then ok (proj 0 s)
    else if mu = 1 then ok (proj 2 s)
    else if mu = 2 then ok (proj 4 s)
    else if mu = 3 then ok (proj 6 s)
    else abort
  else abort

/-- the switches of `spinReconstruct`, include/qdp_globalfuncs.h:408-455 -/
def spinReconstruct (s : Fin 2 → M) (mu isign : Int) : Outcome (Fin 4 → M) :=
  if isign = -1 then
    if mu = 0 then ok (recon 1 s)
    else if mu = 1 then ok (recon 3 s)
    else if mu = 2 then ok (recon 5 s)
    else if mu = 3 then ok (recon 7 s)
    else abort
  else if isign = 1 then
    if mu = 0 then ok (recon 0 s)
    else if mu = 1 then ok (recon 2 s)
    else if mu = 2 then ok (recon 4 s)
    else if mu = 3 then ok (recon 6 s)
    else abort
  else abort

/-! ## Specification -/

/-- `psi + isign * gamma_mu psi` -/
def oneGamma (s : Fin 4 → M) (mu : Fin 4) (plus : Bool) : Fin 4 → M :=
  fun a => ∑ b, act ((if a = b then (1 : Gi) else 0) + (if plus then 1 else -1) * basis mu a b) (s b)

def sign (plus : Bool) : Int := if plus then 1 else -1

/-! ## Theorems -/

variable [LawfulCpt M]

/-- C43: for every direction and both signs the two functions return, and one after the other they give `psi ± gamma_mu psi`. -/
theorem C43_run_time (s : Fin 4 → M) (mu : Fin 4) (plus : Bool) :
    ∃ h, spinProject s mu.val (sign plus) = ok h ∧ spinReconstruct h mu.val (sign plus) = ok (oneGamma s mu plus) := by
  have key : ∀ d : Fin 8, dir d = mu → sgn d = (if plus then 1 else -1) → recon d (proj d s) = oneGamma s mu plus := by
    intro d h1 h2
    rw [C43_project]
    funext a
    simp only [mulVec, oneGamma, onePM, h1, h2, Matrix.add_apply, Matrix.smul_apply, smul_eq_mul, Matrix.one_apply]
  cases plus <;> fin_cases mu
  all_goals
    simp only [spinProject, spinReconstruct, sign]
    refine ⟨_, by simp; rfl, ?_⟩
    simp
    apply key <;> decide

/-- C43: with any other direction or sign both stop, whatever the data. -/
theorem C43_run_time_illegal (s : Fin 4 → M) (h : Fin 2 → M) (mu isign : Int)
    (hb : ¬ (0 ≤ mu ∧ mu < 4 ∧ (isign = 1 ∨ isign = -1))) :
    spinProject s mu isign = abort ∧ spinReconstruct h mu isign = abort := by
  unfold spinProject spinReconstruct
  constructor <;> (repeat' split) <;> first | rfl | (exfalso; apply hb; omega)

example : ¬ (0 ≤ (4 : Int) ∧ (4 : Int) < 4 ∧ ((1 : Int) = 1 ∨ (1 : Int) = -1)) := by decide

end Verif.Spin
