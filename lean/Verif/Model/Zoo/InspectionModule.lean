import Verif.Model.HOCBF
import Verif.Model.Zoo.Docking
import Verif.Spec.Flow

/-!
Model of `Inspection1v1RTA` (`run_time_assurance/zoo/cwh/inspection_1v1.py:130-376`), over the real numbers.

A constraint value that is NaN or infinite in the code is `0` here; the theorems only speak about states where the values are
finite. `jax.grad` gives the list of the partial derivatives (`partials`) where the function is differentiable; the theorems prove
differentiability where they use it. `odeint` and the predicted states, which only the simulation uses, are not modelled, nor is
`delta_v_limit`, which the module stores and never reads.
-/
namespace RTA
open Real

/-- The arguments of `Inspection1v1RTA.__init__` (`zoo/cwh/inspection_1v1.py:171-195`). -/
structure InspConfig where
  m : ℝ
  n : ℝ
  chiefRadius : ℝ
  deputyRadius : ℝ
  v0 : ℝ
  v1Coef : ℝ
  v0Distance : ℝ
  rMax : ℝ
  fov : ℝ
  velLimit : ℝ
  sunVel : ℝ

/-- The default arguments (`zoo/cwh/inspection_1v1.py:30-43, 174-188`, `M_DEFAULT` 12 and `N_DEFAULT` 0.001027 are from the package `safe_autonomy_simulation`, not part of
the repository). -/
noncomputable def inspDefault : InspConfig where
  m := 12
  n := 1027 / 1000000
  chiefRadius := 5
  deputyRadius := 5
  v0 := 2 / 10
  v1Coef := 2
  v0Distance := 0
  rMax := 1000
  fov := 60 * π / 180
  velLimit := 1
  sunVel := -(1027 / 1000000)

/-- `self.a_max` (`zoo/cwh/inspection_1v1.py:211-215`). -/
noncomputable def InspConfig.aMax (c : InspConfig) : ℝ := inspectionAMax c.m c.n c.v0 c.v1Coef c.rMax c.velLimit

/-- `chief_radius + deputy_radius`. -/
noncomputable def InspConfig.radius (c : InspConfig) : ℝ := c.chiefRadius + c.deputyRadius

/-- The entries of the `params` dicts of the inspection constraints; entries a constraint does not have are zero. -/
structure InspParams where
  v0 : ℝ := 0
  v1 : ℝ := 0
  v0Distance : ℝ := 0
  limitVal : ℝ := 0
  fov : ℝ := 0
  aMax : ℝ := 0
  rMax : ℝ := 0
  collisionRadius : ℝ := 0
  dt : ℝ := 0

/-- A constraint whose gradient is the list of partial derivatives. -/
noncomputable def adConstraint (compute : List ℝ → InspParams → ℝ) (phi : List ℝ → InspParams → ℝ) (coefs : List ℝ) (bias : ℝ)
    (p : InspParams) : Constraint ℝ (List ℝ) InspParams :=
  { Constraint.mk' compute (fun x p => partials compute x p) (some (polyAlpha coefs)) p with phiFn := phi, bias := bias }

/-- `ConstraintCWH3dRelativeVelocity` (`zoo/cwh/docking_3d.py:637-680`, smoothing `delta = 1e-5`). -/
noncomputable def inspRelVel (coefs : List ℝ) (bias v0 v1 v0Distance : ℝ) : Constraint ℝ (List ℝ) InspParams :=
  adConstraint (fun x p => relativeVelocity 3 p.v0 p.v1 p.v0Distance (1 / 100000) x)
    (fun x p => relativeVelocity 3 p.v0 p.v1 p.v0Distance (1 / 100000) x) coefs bias { v0 := v0, v1 := v1, v0Distance := v0Distance }

/-- `ConstraintCWHConicKeepOutZone` (`zoo/cwh/inspection_1v1.py:813-905`) with the getters of the module (`:366-376`). -/
noncomputable def inspSun (coefs : List ℝ) (bias aMax fov sunVel : ℝ) : Constraint ℝ (List ℝ) InspParams :=
  adConstraint
    (fun x p => (conicKeepOut p.fov p.aMax [0, 0, sunVel] (pySlice x 0 3) (pySlice x 3 6) (sunVector x)).getD 0)
    (fun x p => (conicPhi p.fov (pySlice x 0 3) (sunVector x)).getD 0) coefs bias { fov := fov, aMax := aMax }

/-- `ConstraintCWHMaxDistance` (`zoo/cwh/inspection_1v1.py:988-1043`). -/
noncomputable def inspMaxDistance (coefs : List ℝ) (bias rMax aMax : ℝ) : Constraint ℝ (List ℝ) InspParams :=
  adConstraint (fun x p => (maxDistance p.rMax p.aMax x).getD 0) (fun x p => maxDistancePhi p.rMax x) coefs bias
    { rMax := rMax, aMax := aMax }

/-- `ConstraintCWHChiefCollision` (`zoo/cwh/inspection_1v1.py:747-810`). -/
noncomputable def inspCollision (coefs : List ℝ) (radius aMax : ℝ) : Constraint ℝ (List ℝ) InspParams :=
  adConstraint (fun x p => (chiefCollision p.collisionRadius p.aMax x).getD 0) (fun x p => chiefCollisionPhi p.collisionRadius x) coefs 0
    { collisionRadius := radius, aMax := aMax }

/-- The value of an operation that may raise; the constraints of the module never make it raise. -/
def Except.orZero (e : Except PyErr ℝ) : ℝ :=
  match e with
  | .ok v => v
  | .error _ => 0

/-- The elements of an array at which `jnp.min` of the values `F` attains the minimum. -/
noncomputable def leastTimes (F : ℝ → List ℝ → ℝ) (times : List ℝ) (x : List ℝ) : List ℝ :=
  open Classical in
  times.filter fun t => decide (.ok (F t x) = jnpMin (times.map fun t => F t x))

/-- `jax.grad` of the minimum over an array: the average of the gradients over the elements that attain the minimum. -/
noncomputable def minGrad (F : ℝ → List ℝ → ℝ) (times : List ℝ) (x : List ℝ) : List ℝ :=
  vscale (1 / ((leastTimes F times x).length : ℝ))
    ((leastTimes F times x).foldr (fun t acc => vadd (partials (fun y _ => F t y) x ()) acc) (zeros x.length))

/-- `jax.grad` of the passive safety constraint. -/
noncomputable def psmGrad (n radius dt : ℝ) (steps : Nat) (x : List ℝ) : List ℝ :=
  minGrad (fun t y => psmFutureState n y t radius) (linspace dt (steps * dt) steps) x

/-- `ConstraintPassivelySafeManeuver` (`zoo/cwh/inspection_1v1.py:908-985`). -/
noncomputable def inspPSM (coefs : List ℝ) (radius n dt : ℝ) (steps : Nat) : Constraint ℝ (List ℝ) InspParams :=
  Constraint.mk' (fun x p => Except.orZero (psmCompute n p.collisionRadius p.dt steps x)) (fun x p => psmGrad n p.collisionRadius p.dt steps x)
    (some (polyAlpha coefs)) { collisionRadius := radius, dt := dt }

/-- `ConstraintMagnitudeStateLimit` (`constraint.py:272-297`). -/
noncomputable def inspLimit (coefs : List ℝ) (bias limit : ℝ) (i : Nat) : Constraint ℝ (List ℝ) InspParams :=
  { Constraint.mk' (fun x p => p.limitVal ^ 2 - stateAt x i ^ 2) (fun x _ => gradAt x.length i (-(2 * stateAt x i)))
      (some (polyAlpha coefs)) { limitVal := limit } with bias := bias }

/-- The constraints of `Inspection1v1RTA._setup_constraints` other than the one on the collision with the chief, with their strengtheners
(`zoo/cwh/inspection_1v1.py:236-299`; the default strengtheners are at `:769, 849, 945, 1006` and `docking_3d.py:667-668`). -/
noncomputable def inspCommon (c : InspConfig) : Dict (Constraint ℝ (List ℝ) InspParams) :=
  [("rel_vel", inspRelVel [0, 5 / 100, 0, 5 / 1000] (-(1 / 1000)) c.v0 (c.v1Coef * c.n) c.v0Distance),
   ("sun", inspSun [0, 1 / 1000, 0, 1 / 10000] (-(1 / 1000)) c.aMax c.fov c.sunVel),
   ("r_max", inspMaxDistance [0, 1 / 100, 0, 1 / 1000] (-(1 / 1000)) c.rMax c.aMax),
   ("PSM", inspPSM [0, 1 / 100, 0, 1 / 1000] c.radius c.n 1 100),
   ("x_vel", inspLimit [0, 1 / 10, 0, 1 / 100] (-(1 / 1000)) c.velLimit 3),
   ("y_vel", inspLimit [0, 1 / 10, 0, 1 / 100] (-(1 / 1000)) c.velLimit 4),
   ("z_vel", inspLimit [0, 1 / 10, 0, 1 / 100] (-(1 / 1000)) c.velLimit 5)]

/-- `Inspection1v1RTA._setup_constraints` with `use_hocbf = False` (`zoo/cwh/inspection_1v1.py:236-317`). -/
noncomputable def inspConstraints (c : InspConfig) : Dict (Constraint ℝ (List ℝ) InspParams) :=
  inspCommon c ++ [("chief_collision", inspCollision [0, 1 / 100, 0, 1 / 1000] c.radius c.aMax)]

/-- `Inspection1v1RTA.__init__` with `use_hocbf = False` (`zoo/cwh/inspection_1v1.py:171-233`). -/
noncomputable def inspASIF [HasSqrt ℝ] (c : InspConfig) (high low : Option (Bound ℝ)) (epsilon : ℝ) (solverException : Bool) :
    Except PyErr (ASIFObj ℝ (List ℝ) InspParams Unit) :=
  asifInit high low (inspConstraints c) none epsilon 3 solverException [] ()

/-- `HOCBFExampleChiefCollision` (`zoo/cwh/inspection_1v1.py:1046-1069`). -/
noncomputable def inspHocbfBase (radius : ℝ) : Constraint ℝ (List ℝ) InspParams :=
  adConstraint (fun x p => hocbfChiefCollision p.collisionRadius x) (fun x p => hocbfChiefCollision p.collisionRadius x)
    [0, 1 / 100, 0, 1 / 100] 0 { collisionRadius := radius }

/-- The constraint on the collision with the chief with `use_hocbf = True` (`zoo/cwh/inspection_1v1.py:302-310`); automatic
differentiation is `partials` throughout. -/
noncomputable def inspHocbf (c : InspConfig) : Except PyErr (Constraint ℝ (List ℝ) InspParams) :=
  hocbf (fun h x p => partials h x p) (inspHocbfBase c.radius) 2 (inspectionF c.n c.sunVel) (polyAlpha [0, 1 / 10, 0, 1 / 10])

/-- `Inspection1v1RTA._setup_constraints` with `use_hocbf = True` (`zoo/cwh/inspection_1v1.py:236-317`). -/
noncomputable def inspHocbfConstraints (c : InspConfig) : Except PyErr (Dict (Constraint ℝ (List ℝ) InspParams)) :=
  (inspHocbf c).map fun h => inspCommon c ++ [("chief_collision_hocbf", h)]

/-- `Inspection1v1RTA.__init__` with `use_hocbf = True` (`zoo/cwh/inspection_1v1.py:171-233`). -/
noncomputable def inspHocbfASIF [HasSqrt ℝ] (c : InspConfig) (high low : Option (Bound ℝ)) (epsilon : ℝ) (solverException : Bool) :
    Except PyErr (ASIFObj ℝ (List ℝ) InspParams Unit) :=
  match inspHocbfConstraints c with
  | .error e => .error e
  | .ok cs => asifInit high low cs none epsilon 3 solverException [] ()

end RTA
