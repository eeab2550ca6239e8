import Verif.Model.LinAlg
import Mathlib.Algebra.Field.Basic

/-!
Model of `run_time_assurance/zoo/cwh/utils.py`: the Clohessy-Wiltshire matrices. Lists of rows. For a zero mass
Python raises `ZeroDivisionError` when a module is constructed; the model has `1 / 0 = 0` there, so its statements are about the code
for nonzero `m` only.
-/
namespace RTA
variable {K : Type} [Field K]

/-- `A` of `generate_cwh_matrices(m, n, mode="2d")` (`zoo/cwh/utils.py:28-38`). -/
def cwhA2 (n : K) : List (List K) :=
  [[0, 0, 1, 0],
   [0, 0, 0, 1],
   [3 * n ^ 2, 0, 0, 2 * n],
   [0, 0, -2 * n, 0]]

/-- `B` of `generate_cwh_matrices(m, n, mode="2d")` (`zoo/cwh/utils.py:39-48`). -/
def cwhB2 (m : K) : List (List K) :=
  [[0, 0],
   [0, 0],
   [1 / m, 0],
   [0, 1 / m]]

/-- `A` of `generate_cwh_matrices(m, n, mode="3d")` (`zoo/cwh/utils.py:49-60`). -/
def cwhA3 (n : K) : List (List K) :=
  [[0, 0, 0, 1, 0, 0],
   [0, 0, 0, 0, 1, 0],
   [0, 0, 0, 0, 0, 1],
   [3 * n ^ 2, 0, 0, 0, 2 * n, 0],
   [0, 0, 0, -2 * n, 0, 0],
   [0, 0, -(n ^ 2), 0, 0, 0]]

/-- `B` of `generate_cwh_matrices(m, n, mode="3d")` (`zoo/cwh/utils.py:61-74`). -/
def cwhB3 (m : K) : List (List K) :=
  [[0, 0, 0],
   [0, 0, 0],
   [0, 0, 0],
   [1 / m, 0, 0],
   [0, 1 / m, 0],
   [0, 0, 1 / m]]

end RTA
