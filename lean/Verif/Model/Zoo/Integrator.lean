import Verif.Model.ASIF
import Verif.Model.Simplex
import Verif.Model.Implicit

/-!
Model of `run_time_assurance/zoo/integrators/integrator_1d.py`.

`PointMassIntegratorDynamics` (package `safe_autonomy_simulation`, not part of the repository) is taken to be the one-dimensional
point mass of mass `m`: `A = [[0, 1], [0, 0]]`, `B = [[0], [1 / m]]`, and its `step` to be one explicit Euler step or, for
`RK45`, the exact solution for the constant control (which that method reproduces for this system up to rounding).
-/
namespace RTA
variable {K : Type} [Field K]

/-- `self.A` (`zoo/integrators/integrator_1d.py:61-72`, for a valid `integration_method`). -/
def pointA : List (List K) := [[0, 1], [0, 0]]

/-- `self.B` (`zoo/integrators/integrator_1d.py:68`). -/
def pointB (m : K) : List (List K) := [[0], [1 / m]]

/-- `_docking_f_x` (`zoo/integrators/integrator_1d.py:103-105, 286-287`). -/
def pointF (x : List K) : List K := matVec pointA x

/-- `_docking_g_x` (`zoo/integrators/integrator_1d.py:107-109, 289-290`). -/
def pointG (m : K) (_ : List K) : List (List K) := pointB m

/-- `_docking_pred_state` with `integration_method="Euler"` (`zoo/integrators/integrator_1d.py:96-101, 167-170, 234-237`). -/
def pointEuler (m : K) (x : List K) (dt : K) (u : List K) : List K :=
  [x.getD 0 0 + dt * x.getD 1 0, x.getD 1 0 + dt * (u.getD 0 0 / m)]

/-- `_docking_pred_state` with `integration_method="RK45"` (`zoo/integrators/integrator_1d.py:96-101`). -/
def pointExact (m : K) (x : List K) (dt : K) (u : List K) : List K :=
  [x.getD 0 0 + dt * x.getD 1 0 + dt ^ 2 * (u.getD 0 0 / m) / 2, x.getD 1 0 + dt * (u.getD 0 0 / m)]

/-- `ConstraintIntegrator1dDockingCollisionExplicit` (`zoo/integrators/integrator_1d.py:377-393`). -/
def dockExplicitC : Constraint K (List K) Unit :=
  Constraint.mk' (fun x _ => -2 * x.getD 0 0 - x.getD 1 0 ^ 2) (fun x _ => [-2, -(2 * x.getD 1 0)])
    (some (polyAlpha [0, 1, 0, 30])) ()

/-- `ConstraintIntegrator1dDockingCollisionImplicit` (`zoo/integrators/integrator_1d.py:396-412`) with the subsampling options of
`_setup_docking_constraints_implicit` (lines 83-94). -/
def dockImplicitC : Constraint K (List K) Unit :=
  { Constraint.mk' (fun x _ => -x.getD 0 0) (fun _ _ => [-1, 0]) (some (polyAlpha [0, 10, 0, 30])) () with
    subsample := { numLeast := some 1 } }

/-- `Integrator1dDockingBackupController` (`zoo/integrators/integrator_1d.py:365-374`). -/
def dockBackup {A : Type} : Except PyErr (BackupController K (List K) A) :=
  BackupController.init (fun _ _ _ => some ([-1], .none)) .none

/-- `Integrator1dDockingExplicitSwitchingRTA.__init__` with default bounds (`zoo/integrators/integrator_1d.py:79-81, 130-165`). -/
def dockExplicitSimplex {A : Type} (latchTime : K) : Except PyErr (SimplexObj K (List K) Unit A) :=
  match (dockBackup : Except PyErr (BackupController K (List K) A)) with
  | .error e => .error e
  | .ok c => simplexInit (some (.scalar 1)) (some (.scalar (-1))) [("rel_vel", dockExplicitC)] none latchTime 0 c

/-- `Integrator1dDockingImplicitSwitchingRTA.__init__` with default bounds (`zoo/integrators/integrator_1d.py:85-94, 195-232`). -/
def dockImplicitSimplex {A : Type} (latchTime window : K) : Except PyErr (SimplexObj K (List K) Unit A) :=
  match (dockBackup : Except PyErr (BackupController K (List K) A)) with
  | .error e => .error e
  | .ok c => simplexInit (some (.scalar 1)) (some (.scalar (-1))) [("rel_vel", dockImplicitC)] none latchTime window c

/-- `Integrator1dDockingExplicitOptimizationRTA.__init__` with default bounds (`zoo/integrators/integrator_1d.py:258-284`). -/
def dockExplicitASIF [HasSqrt K] (epsilon : K) (solverException : Bool) : Except PyErr (ASIFObj K (List K) Unit Unit) :=
  asifInit (some (.scalar 1)) (some (.scalar (-1))) [("rel_vel", dockExplicitC)] none epsilon 1 solverException [] ()

/-- `Integrator1dDockingImplicitOptimizationRTA.__init__` with default bounds (`zoo/integrators/integrator_1d.py:318-356`). -/
def dockImplicitASIF {A : Type} [HasSqrt K] (epsilon : K) (solverException : Bool) (window : K) :
    Except PyErr (ImplicitObj K Unit A) :=
  match (dockBackup : Except PyErr (BackupController K (List K) A)) with
  | .error e => .error e
  | .ok c => asifInit (some (.scalar 1)) (some (.scalar (-1))) [("rel_vel", dockImplicitC)] none epsilon 1 solverException [] ⟨window, c⟩

end RTA
