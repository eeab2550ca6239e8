import Verif.Model.Zoo.InspectionModule
import Verif.Model.Discrete

/-!
Model of `DiscreteInspection1v1RTA` (`run_time_assurance/zoo/cwh/inspection_1v1.py:378-622`), over the real numbers.

As in `InspectionModule`, a constraint value that is NaN or infinite in the code is `0` here and the theorems only use values at states
where they are finite. `jnp.cos` and the other functions are the exact real ones. `delta_v_limit` is stored and never read. The Jacobians
given to the solver are not modelled.
-/
namespace RTA
open Real

/-- The components a jitted function reads from an array with fewer than eight components: a scalar index beyond the end reads the
last component. The module has no `_get_state` of its own, so arrays of any length reach the constraints (`rta/base.py:298-309`). -/
def jaxPad (x : List ℝ) : List ℝ := x ++ List.replicate (8 - x.length) (x.getLastD 0)

/-- `DiscreteInspection1v1RTA.next_state_differentiable` (`zoo/cwh/inspection_1v1.py:559-566`). -/
noncomputable def discInspNext (c : InspConfig) (x : List ℝ) (dt : ℝ) (u : List ℝ) : List ℝ :=
  discreteNext c.n c.m c.sunVel (jaxPad x) dt u

/-- `ConstraintCWHConicKeepOutZone` with the getters of this module (`zoo/cwh/inspection_1v1.py:494-506, 612-622`); only the sun angle
is read beyond the sixth component. -/
noncomputable def discInspSun (coefs : List ℝ) (bias aMax fov sunVel : ℝ) : Constraint ℝ (List ℝ) InspParams :=
  { inspSun coefs bias aMax fov sunVel with
    computeFn := fun x p => (inspSun coefs bias aMax fov sunVel).computeFn (jaxPad x) p
    phiFn := fun x p => (inspSun coefs bias aMax fov sunVel).phiFn (jaxPad x) p }

/-- `DiscreteInspection1v1RTA._setup_constraints` (`zoo/cwh/inspection_1v1.py:472-557`; the default strengthener of the first one is at
`:769`). -/
noncomputable def discInspConstraints (c : InspConfig) : Dict (Constraint ℝ (List ℝ) InspParams) :=
  [("chief_collision", inspCollision [0, 1 / 100, 0, 1 / 1000] c.radius c.aMax),
   ("rel_vel", inspRelVel [0, 1 / 100, 0, 1 / 1000] (-(1 / 1000)) c.v0 (c.v1Coef * c.n) c.v0Distance),
   ("sun", discInspSun [0, 1 / 1000, 0, 1 / 1000] (-(1 / 1000)) c.aMax c.fov c.sunVel),
   ("r_max", inspMaxDistance [0, 1 / 1000, 0, 1 / 1000] (-(1 / 1000)) c.rMax c.aMax),
   ("PSM", inspPSM [0, 1 / 1000, 0, 1 / 1000] c.radius c.n 1 100),
   ("x_vel", inspLimit [0, 1 / 10, 0, 1 / 100] (-(1 / 1000)) c.velLimit 3),
   ("y_vel", inspLimit [0, 1 / 10, 0, 1 / 100] (-(1 / 1000)) c.velLimit 4),
   ("z_vel", inspLimit [0, 1 / 10, 0, 1 / 100] (-(1 / 1000)) c.velLimit 5)]

/-- `DiscreteInspection1v1RTA.__init__` (`zoo/cwh/inspection_1v1.py:417-470`). -/
noncomputable def discInsp [HasSqrt ℝ] (c : InspConfig) (high low : Option (Bound ℝ)) (epsilon : ℝ) (solverException : Bool) :
    Except PyErr (DiscObj ℝ (List ℝ) InspParams) :=
  discInit high low (discInspConstraints c) none epsilon 3 solverException

end RTA
