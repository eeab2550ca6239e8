import Verif.Model.Zoo.CWH
import Verif.Model.Py
import Mathlib.Analysis.SpecialFunctions.Trigonometric.Basic
import Mathlib.Analysis.SpecialFunctions.Trigonometric.Inverse
import Mathlib.Analysis.SpecialFunctions.Sqrt

/-!
Model of the inspection problems (`run_time_assurance/zoo/cwh/inspection_1v1.py`, `inspection_3d.py`): dynamics and constraint
functions, over the real numbers. A state is the list of its components, with at least as many components as the module
uses. `Option ℝ` is the result of floating point code that can leave the finite numbers: `none` stands for NaN and infinite.
-/
namespace RTA
open Real

/-- `state[i]` for a component that exists. -/
def comp (x : List ℝ) (i : Nat) : ℝ := x.getD i 0

/-- `jnp.sqrt`: NaN for negative numbers. -/
noncomputable def sqrtF (x : ℝ) : Option ℝ := if x < 0 then none else some (√x)

/-- Floating point division: NaN or infinite for a zero denominator. -/
noncomputable def divF (x y : ℝ) : Option ℝ := if y = 0 then none else some (x / y)

/-- `jnp.linalg.norm` of a vector. -/
noncomputable def norm2 (v : List ℝ) : ℝ := √(sqNorm v)

/-- `DiscreteInspection1v1RTA.discrete_a_mat` (`zoo/cwh/inspection_1v1.py:568-588`). -/
noncomputable def discreteA (n dt : ℝ) : List (List ℝ) :=
  let c := cos (n * dt)
  let s := sin (n * dt)
  [[4 - 3 * c, 0, 0, 1 / n * s, 2 / n * (1 - c), 0],
   [6 * (s - n * dt), 1, 0, -2 / n * (1 - c), 1 / n * (4 * s - 3 * n * dt), 0],
   [0, 0, c, 0, 0, 1 / n * s],
   [3 * n * s, 0, 0, c, 2 * s, 0],
   [-6 * n * (1 - c), 0, 0, -2 * s, 4 * c - 3, 0],
   [0, 0, -n * s, 0, 0, c]]

/-- `DiscreteInspection1v1RTA.discrete_b_mat` (`zoo/cwh/inspection_1v1.py:590-610`). -/
noncomputable def discreteB (n m dt : ℝ) : List (List ℝ) :=
  let c := cos (n * dt)
  let s := sin (n * dt)
  [[1 / n ^ 2 * (1 - c), 2 / n ^ 2 * (n * dt - s), 0],
   [-2 / n ^ 2 * (n * dt - s), 4 / n ^ 2 * (1 - c) - 3 / 2 * dt ^ 2, 0],
   [0, 0, 1 / n ^ 2 * (1 - c)],
   [1 / n * s, 2 / n * (1 - c), 0],
   [-2 / n * (1 - c), 4 / n * s - 3 * dt, 0],
   [0, 0, 1 / n * s]].map fun r => r.map (· / m)

/-- `DiscreteInspection1v1RTA.next_state_differentiable` (`zoo/cwh/inspection_1v1.py:559-566`). -/
noncomputable def discreteNext (n m sunVel : ℝ) (state : List ℝ) (dt : ℝ) (control : List ℝ) : List ℝ :=
  vadd (matVec (discreteA n dt) (pySlice state 0 6)) (matVec (discreteB n m dt) control) ++
    [comp state 6 - sunVel * dt, 0]

/-- `Inspection1v1RTA.compute_state_dot` (`zoo/cwh/inspection_1v1.py:327-331`). -/
noncomputable def computeStateDot (n m sunVel : ℝ) (x : List ℝ) (u : List ℝ) : List ℝ :=
  vadd (matVec (cwhA3 n) (pySlice x 0 6)) (matVec (cwhB3 m) u) ++
    [sunVel, (u.map fun c => |c|).foldr (· + ·) 0 / m]

/-- `Inspection1v1RTA.state_transition_system` (`zoo/cwh/inspection_1v1.py:347-349`). -/
noncomputable def inspectionF (n sunVel : ℝ) (x : List ℝ) : List ℝ :=
  matVec (cwhA3 n) (pySlice x 0 6) ++ [sunVel, 0]

/-- `Inspection1v1RTA.state_transition_input` (`zoo/cwh/inspection_1v1.py:351-352`). -/
noncomputable def inspectionG (m : ℝ) : List (List ℝ) := cwhB3 m ++ [[0, 0, 0], [0, 0, 0]]

end RTA
