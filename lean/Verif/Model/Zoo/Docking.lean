import Verif.Model.Zoo.InspectionConstraints
import Verif.Model.ASIF
import Verif.Model.Simplex
import Verif.Model.Implicit

/-!
Model of `run_time_assurance/zoo/cwh/docking_2d.py` and `docking_3d.py`, over the real numbers.

The gains of the LQR backup controllers come from `scipy.linalg.solve_continuous_are` and are parameters. The gradients are
those `jax.grad` computes; that they are the gradients is proved, not assumed. `dynamics.LinearODEDynamics` (package
`safe_autonomy_simulation`, not part of the repository) is a parameter of the switching modules.
-/
namespace RTA
open Real

/-- The entries of the `params` dicts of the docking constraints; entries a constraint does not have are zero. -/
structure DockParams where
  v0 : ℝ := 0
  v1 : ℝ := 0
  v0Distance : ℝ := 0
  limitVal : ℝ := 0

/-- `jax.grad` of `relativeVelocity` (`zoo/cwh/docking_2d.py:614-620`, `docking_3d.py:675-680`). Zero for further components. -/
noncomputable def relVelGrad (d : Nat) (v1 δ : ℝ) (x : List ℝ) : List ℝ :=
  (pySlice x 0 d).map (fun c => v1 * (c / normWithDelta (pySlice x 0 d) δ)) ++
    ((pySlice x d (2 * d)).map (fun c => -(c / normWithDelta (pySlice x d (2 * d)) δ)) ++ zeros (x.length - 2 * d))

/-- `ConstraintDocking2dRelativeVelocity` (`zoo/cwh/docking_2d.py:576-620`; `d = 2`) and `ConstraintCWH3dRelativeVelocity`
(`zoo/cwh/docking_3d.py:637-680`; `d = 3`) with the default `delta = 1e-5` and the bias `-1e-4` that the modules give them
(`docking_2d.py:130`, `docking_3d.py:153`). -/
noncomputable def dockRelVel (d : Nat) (coefs : List ℝ) (v0 v1 v0Distance : ℝ) : Constraint ℝ (List ℝ) DockParams :=
  { Constraint.mk' (fun x p => relativeVelocity d p.v0 p.v1 p.v0Distance (1 / 100000) x) (fun x p => relVelGrad d p.v1 (1 / 100000) x)
      (some (polyAlpha coefs)) { v0 := v0, v1 := v1, v0Distance := v0Distance } with bias := -(1 / 10000) }

/-- `ConstraintMagnitudeStateLimit` (`constraint.py:272-297`) with the params type of the docking modules. -/
noncomputable def dockLimit (limit : ℝ) (i : Nat) : Constraint ℝ (List ℝ) DockParams :=
  Constraint.mk' (fun x p => p.limitVal ^ 2 - stateAt x i ^ 2) (fun x _ => gradAt x.length i (-(2 * stateAt x i)))
    (some limitAlpha) { limitVal := limit }

/-- The default strengthener coefficients of the 2-D relative velocity constraint (`zoo/cwh/docking_2d.py:606-607`). -/
noncomputable def dockCoefs2 : List ℝ := [0, 1 / 100, 0, 1 / 10]

/-- The default strengthener coefficients of the 3-D relative velocity constraint (`zoo/cwh/docking_3d.py:667-668`). -/
noncomputable def dockCoefs3 : List ℝ := [0, 5 / 100, 0, 5 / 1000]

/-- `Docking2dRTAMixin._setup_docking_constraints` (`zoo/cwh/docking_2d.py:116-142`). -/
noncomputable def dockConstraints2 (v0 v1 v0Distance xLim yLim : ℝ) : Dict (Constraint ℝ (List ℝ) DockParams) :=
  [("rel_vel", dockRelVel 2 dockCoefs2 v0 v1 v0Distance), ("x_vel", dockLimit xLim 2), ("y_vel", dockLimit yLim 3)]

/-- `Docking3dRTAMixin._setup_docking_constraints` (`zoo/cwh/docking_3d.py:138-170`). -/
noncomputable def dockConstraints3 (v0 v1 v0Distance xLim yLim zLim : ℝ) : Dict (Constraint ℝ (List ℝ) DockParams) :=
  [("rel_vel", dockRelVel 3 dockCoefs3 v0 v1 v0Distance), ("x_vel", dockLimit xLim 3), ("y_vel", dockLimit yLim 4),
    ("z_vel", dockLimit zLim 5)]

/-- `_docking_f_x` in two dimensions (`zoo/cwh/docking_2d.py:153-155, 428-429`). -/
noncomputable def dockF2 (n : ℝ) (x : List ℝ) : List ℝ := matVec (cwhA2 n) x

/-- `_docking_g_x` in two dimensions (`zoo/cwh/docking_2d.py:157-159, 431-432`). -/
noncomputable def dockG2 (m : ℝ) (_ : List ℝ) : List (List ℝ) := cwhB2 m

/-- `_docking_f_x` in three dimensions (`zoo/cwh/docking_3d.py:178-180, 480-481`). -/
noncomputable def dockF3 (n : ℝ) (x : List ℝ) : List ℝ := matVec (cwhA3 n) x

/-- `_docking_g_x` in three dimensions (`zoo/cwh/docking_3d.py:182-184, 483-484`). -/
noncomputable def dockG3 (m : ℝ) (_ : List ℝ) : List (List ℝ) := cwhB3 m

/-- `_generate_control` of `Docking2dStopLQRBackupController` (`zoo/cwh/docking_2d.py:561-573`; `d = 2`) and
`Docking3dStopLQRBackupController` (`zoo/cwh/docking_3d.py:622-634`; `d = 3`) with gain matrix `G`:
`-K @ (state - state_des)`, where `state_des` is the state with the velocities set to zero. -/
def lqrControl (d : Nat) (G : List (List ℝ)) (x : List ℝ) : List ℝ :=
  matVec (G.map fun r => r.map fun c => -c) (vsub x (x.take d ++ zeros (x.length - d)))

/-- The LQR backup controllers (`zoo/cwh/docking_2d.py:536-573`, `docking_3d.py:597-634`). They have no state. -/
def lqrBackup {A : Type} (d : Nat) (G : List (List ℝ)) : Except PyErr (BackupController ℝ (List ℝ) A) :=
  BackupController.init (fun x _ _ => some (lqrControl d G x, .none)) .none

/-- `Docking2dExplicitOptimizationRTA.__init__` (`zoo/cwh/docking_2d.py:382-426`, with `v1 = v1_coef * n` from
`zoo/cwh/docking_2d.py:96-111`; the assertion on `integration_method` is not modelled: only valid names are considered). -/
noncomputable def dock2ASIF [HasSqrt ℝ] (n v0 v1Coef v0Distance xLim yLim : ℝ) (high low : Option (Bound ℝ)) (epsilon : ℝ)
    (solverException : Bool) : Except PyErr (ASIFObj ℝ (List ℝ) DockParams Unit) :=
  asifInit high low (dockConstraints2 v0 (v1Coef * n) v0Distance xLim yLim) none epsilon 2 solverException [] ()

/-- `Docking3dExplicitOptimizationRTA.__init__` (`zoo/cwh/docking_3d.py:427-478`, with `v1 = v1_coef * n` from
`zoo/cwh/docking_3d.py:117-133`). -/
noncomputable def dock3ASIF [HasSqrt ℝ] (n v0 v1Coef v0Distance xLim yLim zLim : ℝ) (high low : Option (Bound ℝ)) (epsilon : ℝ)
    (solverException : Bool) : Except PyErr (ASIFObj ℝ (List ℝ) DockParams Unit) :=
  asifInit high low (dockConstraints3 v0 (v1Coef * n) v0Distance xLim yLim zLim) none epsilon 3 solverException [] ()

/-- `Docking2dExplicitSwitchingRTA.__init__` (`window` is not used; `zoo/cwh/docking_2d.py:196-251`) and
`Docking2dImplicitSwitchingRTA.__init__` (`zoo/cwh/docking_2d.py:290-347`). -/
noncomputable def dock2Simplex {A : Type} (n v0 v1Coef v0Distance xLim yLim : ℝ) (high low : Option (Bound ℝ)) (G : List (List ℝ))
    (latchTime window : ℝ) : Except PyErr (SimplexObj ℝ (List ℝ) DockParams A) :=
  match (lqrBackup 2 G : Except PyErr (BackupController ℝ (List ℝ) A)) with
  | .error e => .error e
  | .ok c => simplexInit high low (dockConstraints2 v0 (v1Coef * n) v0Distance xLim yLim) none latchTime window c

/-- `Docking3dExplicitSwitchingRTA.__init__` (`window` is not used) and `Docking3dImplicitSwitchingRTA.__init__`
(`zoo/cwh/docking_3d.py:223-285, 326-390`). -/
noncomputable def dock3Simplex {A : Type} (n v0 v1Coef v0Distance xLim yLim zLim : ℝ) (high low : Option (Bound ℝ))
    (G : List (List ℝ)) (latchTime window : ℝ) : Except PyErr (SimplexObj ℝ (List ℝ) DockParams A) :=
  match (lqrBackup 3 G : Except PyErr (BackupController ℝ (List ℝ) A)) with
  | .error e => .error e
  | .ok c => simplexInit high low (dockConstraints3 v0 (v1Coef * n) v0Distance xLim yLim zLim) none latchTime window c

/-- `Docking2dImplicitOptimizationRTA.__init__` (`zoo/cwh/docking_2d.py:474-533`, with `v1 = v1_coef * n` from `:96`) for the backup
controller that `gen`, `initial` describe; the default is `lqrBackup 2` (`:500-501`). -/
noncomputable def dock2Implicit {A : Type} [HasSqrt ℝ] (n v0 v1Coef v0Distance xLim yLim : ℝ) (high low : Option (Bound ℝ))
    (gen : List ℝ → ℝ → CState A → Option (List ℝ × CState A)) (initial : CState A) (window epsilon : ℝ) (solverException : Bool) :
    Except PyErr (ImplicitObj ℝ DockParams A) :=
  match BackupController.init gen initial with
  | .error e => .error e
  | .ok c => asifInit high low (dockConstraints2 v0 (v1Coef * n) v0Distance xLim yLim) none epsilon 2 solverException [] ⟨window, c⟩

/-- `Docking3dImplicitOptimizationRTA.__init__` (`zoo/cwh/docking_3d.py:528-594`, with `v1 = v1_coef * n` from `:117`), likewise; the
default backup controller is `lqrBackup 3` (`:556-557`). -/
noncomputable def dock3Implicit {A : Type} [HasSqrt ℝ] (n v0 v1Coef v0Distance xLim yLim zLim : ℝ) (high low : Option (Bound ℝ))
    (gen : List ℝ → ℝ → CState A → Option (List ℝ × CState A)) (initial : CState A) (window epsilon : ℝ) (solverException : Bool) :
    Except PyErr (ImplicitObj ℝ DockParams A) :=
  match BackupController.init gen initial with
  | .error e => .error e
  | .ok c => asifInit high low (dockConstraints3 v0 (v1Coef * n) v0Distance xLim yLim zLim) none epsilon 3 solverException [] ⟨window, c⟩

end RTA
