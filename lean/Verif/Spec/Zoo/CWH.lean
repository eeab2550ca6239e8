import Verif.Model.Zoo.Inspection
import Mathlib.Analysis.Calculus.Deriv.Basic

/-!
Specification vocabulary for the relative motion problems.
-/
namespace RTA

/-- `y` solves the Clohessy-Wiltshire equations `ẏ = A y + B u` with the constant control `u`, at all times. -/
structure CWHSolution (n m : ℝ) (u : List ℝ) (y : ℝ → List ℝ) : Prop where
  length : ∀ t, (y t).length = 6
  deriv : ∀ i, i < 6 → ∀ t,
    HasDerivAt (fun τ => comp (y τ) i) (comp (vadd (matVec (cwhA3 n) (y t)) (matVec (cwhB3 m) u)) i) t

/-- The state a step of length `dt` later according to the closed-form matrices. -/
noncomputable def discreteStep (n m dt : ℝ) (x u : List ℝ) : List ℝ :=
  vadd (matVec (discreteA n dt) x) (matVec (discreteB n m dt) u)

end RTA
