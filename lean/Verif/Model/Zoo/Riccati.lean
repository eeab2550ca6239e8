import Verif.Model.Zoo.CWH
import Mathlib.Data.Real.Basic
import Mathlib.Data.Matrix.Block
import Mathlib.Data.Matrix.ColumnRowPartitioned
import Mathlib.LinearAlgebra.Matrix.NonsingularInverse

/-!
Model of the gain computation in `SwitchingDeltaVLimitRTA.__init__` (`run_time_assurance/zoo/cwh/inspection_1v1.py:663-678`), over the real
numbers. `scipy.linalg.solve_continuous_are(a, b, q, r)` is documented to return a symmetric `X` with `aᵀ X + X a - X b r⁻¹ bᵀ X + q = 0`; how it
computes one is not modelled.
-/
namespace RTA
open Matrix

/-- A 2-D array as a matrix. -/
def toMat {a b : Nat} (rows : List (List ℝ)) : Matrix (Fin a) (Fin b) ℝ := fun i j => (rows.getD i []).getD j 0

/-- `A_int` (`zoo/cwh/inspection_1v1.py:666-671`), the first six rows and columns on the left of the sum. -/
noncomputable def lqrA (n : ℝ) : Matrix (Fin 6 ⊕ Fin 6) (Fin 6 ⊕ Fin 6) ℝ := fromBlocks (toMat (cwhA3 n)) 0 1 0

/-- `B_int` (`zoo/cwh/inspection_1v1.py:672`). -/
noncomputable def lqrB (m : ℝ) : Matrix (Fin 6 ⊕ Fin 6) (Fin 3) ℝ := fromRows (toMat (cwhB3 m)) 0

/-- `Q` (`zoo/cwh/inspection_1v1.py:664`). -/
noncomputable def lqrQ : Matrix (Fin 6 ⊕ Fin 6) (Fin 6 ⊕ Fin 6) ℝ := (1 / 100000 : ℝ) • 1

/-- `R` (`zoo/cwh/inspection_1v1.py:665`). -/
noncomputable def lqrR : Matrix (Fin 3) (Fin 3) ℝ := (100000 : ℝ) • 1

/-- What `scipy.linalg.solve_continuous_are(a, b, q, r)` is documented to return (called at `zoo/cwh/inspection_1v1.py:674`). -/
def IsCARE {ι κ : Type} [Fintype ι] [DecidableEq ι] [Fintype κ] [DecidableEq κ] (a : Matrix ι ι ℝ) (b : Matrix ι κ ℝ) (q : Matrix ι ι ℝ)
    (r : Matrix κ κ ℝ) (X : Matrix ι ι ℝ) : Prop :=
  Xᵀ = X ∧ aᵀ * X + X * a - X * b * r⁻¹ * bᵀ * X + q = 0

/-- `self.Q` (`zoo/cwh/docking_2d.py:549`, `docking_3d.py:610`). -/
noncomputable def dockQ (k : Nat) : Matrix (Fin k) (Fin k) ℝ := (50 / 1000 : ℝ) • 1

/-- `self.R` (`zoo/cwh/docking_2d.py:550`, `docking_3d.py:611`). -/
noncomputable def dockR (k : Nat) : Matrix (Fin k) (Fin k) ℝ := (1000 : ℝ) • 1

/-- A matrix as a 2-D array. -/
def matRows {a b : Nat} (M : Matrix (Fin a) (Fin b) ℝ) : List (List ℝ) := List.ofFn fun i => List.ofFn fun j => M i j

/-- `self.K` (`zoo/cwh/docking_2d.py:557`, `docking_3d.py:618`). -/
noncomputable def lqrGain {k l : Nat} (b : Matrix (Fin k) (Fin l) ℝ) (r : Matrix (Fin l) (Fin l) ℝ) (P : Matrix (Fin k) (Fin k) ℝ) :
    Matrix (Fin l) (Fin k) ℝ := r⁻¹ * (bᵀ * P)

end RTA
