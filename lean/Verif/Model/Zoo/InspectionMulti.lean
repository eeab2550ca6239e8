import Verif.Model.Zoo.InspectionModule

/-!
Model of `InspectionRTA` (`run_time_assurance/zoo/cwh/inspection_3d.py:43-297`), over the real numbers. What is said about values,
gradients and parts that are not modelled in `Verif.Model.Zoo.InspectionModule` also holds here.

A state has six components for each deputy, the deputy that the module controls first, and the sun angle last.
-/
namespace RTA
open Real

/-- The arguments of `InspectionRTA.__init__` (`zoo/cwh/inspection_3d.py:83-105`). -/
structure MultiConfig extends InspConfig where
  numDeputies : Nat

/-- The default arguments (`zoo/cwh/inspection_3d.py:40, 86-97`). -/
noncomputable def multiDefault : MultiConfig := { inspDefault with numDeputies := 5 }

/-- `scipy.linalg.block_diag(A, B)` of matrices with `ca` and `cb` columns. -/
def blockDiag (A B : List (List ℝ)) (ca cb : Nat) : List (List ℝ) :=
  A.map (fun r => r ++ zeros cb) ++ B.map (fun r => zeros ca ++ r)

/-- `self.A_n` (`zoo/cwh/inspection_3d.py:129-132`); `k` is the number of iterations of the loop, `num_deputies - 1`. -/
noncomputable def multiA (n : ℝ) : Nat → List (List ℝ)
  | 0 => cwhA3 n
  | k + 1 => blockDiag (multiA n k) (cwhA3 n) (6 * (k + 1)) 6

/-- `self.B_n` (`zoo/cwh/inspection_3d.py:134-137`): only the first deputy has thrust. -/
noncomputable def multiB (m : ℝ) : Nat → List (List ℝ)
  | 0 => cwhB3 m
  | k + 1 => multiB m k ++ List.replicate 6 [0, 0, 0]

/-- `InspectionRTA.state_transition_system` (`zoo/cwh/inspection_3d.py:245-247`). -/
noncomputable def multiF (c : MultiConfig) (x : List ℝ) : List ℝ :=
  matVec (multiA c.n (c.numDeputies - 1)) (pySlice x 0 (c.numDeputies * 6)) ++ [c.sunVel]

/-- `InspectionRTA.state_transition_input` (`zoo/cwh/inspection_3d.py:249-251`). -/
noncomputable def multiG (c : MultiConfig) : List (List ℝ) := multiB c.m (c.numDeputies - 1) ++ [[0, 0, 0]]

/-- `InspectionRTA.get_sun_vector` (`zoo/cwh/inspection_3d.py:267-269`). -/
noncomputable def multiSun (x : List ℝ) : List ℝ := [-cos (comp x (x.length - 1)), -sin (comp x (x.length - 1)), 0]

/-- The position of the first deputy relative to deputy `i`, `pos` in `InspectionRTA.get_p1_p2` and `get_sign`
(`zoo/cwh/inspection_3d.py:281, 293`). -/
def relPos (i : Nat) (x : List ℝ) : List ℝ := vsub (pySlice x 0 3) (pySlice x (6 * i) (6 * i + 3))

/-- The relative velocity, `vel` in `InspectionRTA.get_v1_v2` (`zoo/cwh/inspection_3d.py:287`). -/
def relVel (i : Nat) (x : List ℝ) : List ℝ := vsub (pySlice x 3 6) (pySlice x (6 * i + 3) (6 * i + 6))

/-- `InspectionRTA.get_sign` (`zoo/cwh/inspection_3d.py:291-299`). A comparison with NaN is false. -/
noncomputable def getSign (i : Nat) (x : List ℝ) : ℝ :=
  let angle : Option ℝ := do
    let pHat ← vdivF (relPos i x) (norm2 (relPos i x))
    let cHat ← vdivF (multiSun x) (norm2 (multiSun x))
    arccosF (dot pHat cHat)
  match angle with
  | some a => if a > π / 2 then -1 else 1
  | none => 1

/-- The function `deputy_sun_i` computes: `ConstraintCWHConicKeepOutZone._compute` with `get_p1_p2` and `get_v1_v2`
(`zoo/cwh/inspection_3d.py:219-228, 279-289`). -/
noncomputable def deputySun (fov aMax sunVel : ℝ) (i : Nat) (x : List ℝ) : Option ℝ :=
  conicKeepOut fov aMax [0, 0, sunVel] (vscale (getSign i x) (relPos i x)) (vscale (getSign i x) (relVel i x)) (multiSun x)

/-- `ConstraintCWHConicKeepOutZone` for the chief (`zoo/cwh/inspection_3d.py:174-185`). -/
noncomputable def multiChiefSun (coefs : List ℝ) (bias aMax fov sunVel : ℝ) : Constraint ℝ (List ℝ) InspParams :=
  adConstraint
    (fun x p => (conicKeepOut p.fov p.aMax [0, 0, sunVel] (pySlice x 0 3) (pySlice x 3 6) (multiSun x)).getD 0)
    (fun x p => (conicPhi p.fov (pySlice x 0 3) (multiSun x)).getD 0) coefs bias { fov := fov, aMax := aMax }

/-- `ConstraintCWHDeputyCollision` (`zoo/cwh/inspection_3d.py:300-372`). -/
noncomputable def multiCollision (coefs : List ℝ) (radius aMax : ℝ) (i : Nat) : Constraint ℝ (List ℝ) InspParams :=
  adConstraint (fun x p => (deputyCollision p.collisionRadius p.aMax i x).getD 0) (fun x p => deputyCollisionPhi p.collisionRadius i x) coefs 0
    { collisionRadius := radius, aMax := aMax }

/-- `ConstraintCWHConicKeepOutZone` for another deputy (`zoo/cwh/inspection_3d.py:219-228`). -/
noncomputable def multiDeputySun (coefs : List ℝ) (bias aMax fov sunVel : ℝ) (i : Nat) : Constraint ℝ (List ℝ) InspParams :=
  adConstraint (fun x p => (deputySun p.fov p.aMax sunVel i x).getD 0)
    (fun x p => (conicPhi p.fov (vscale (getSign i x) (relPos i x)) (multiSun x)).getD 0) coefs bias { fov := fov, aMax := aMax }

/-- `ConstraintPSMDeputy` (`zoo/cwh/inspection_3d.py:375-470`). -/
noncomputable def multiPSM (coefs : List ℝ) (radius n dt : ℝ) (steps i : Nat) : Constraint ℝ (List ℝ) InspParams :=
  Constraint.mk' (fun x p => Except.orZero (psmDeputyCompute n p.collisionRadius p.dt steps i x))
    (fun x p => minGrad (fun t y => psmDeputyFutureState n i y t p.collisionRadius) (linspace p.dt (steps * p.dt) steps) x)
    (some (polyAlpha coefs)) { collisionRadius := radius, dt := dt }

/-- The constraints of the first deputy alone (`zoo/cwh/inspection_3d.py:155-214`; the default strengtheners are at
`inspection_1v1.py:769, 849, 945, 1006`). -/
noncomputable def multiOwn (c : MultiConfig) : Dict (Constraint ℝ (List ℝ) InspParams) :=
  [("chief_collision", inspCollision [0, 1 / 100, 0, 1 / 1000] c.radius c.aMax),
   ("rel_vel", inspRelVel [0, 0, 0, 1 / 10] (-(2 / 1000)) c.v0 (c.v1Coef * c.n) c.v0Distance),
   ("chief_sun", multiChiefSun [0, 1 / 1000, 0, 1 / 10000] (-(1 / 1000)) c.aMax c.fov c.sunVel),
   ("r_max", inspMaxDistance [0, 1 / 100, 0, 1 / 1000] 0 c.rMax c.aMax),
   ("PSM", inspPSM [0, 1 / 100, 0, 1 / 1000] c.radius c.n 1 100),
   ("x_vel", inspLimit [0, 1 / 10, 0, 1 / 100] (-(1 / 1000)) c.velLimit 3),
   ("y_vel", inspLimit [0, 1 / 10, 0, 1 / 100] (-(1 / 1000)) c.velLimit 4),
   ("z_vel", inspLimit [0, 1 / 10, 0, 1 / 100] (-(1 / 1000)) c.velLimit 5)]

/-- The constraints added for deputy `i` (`zoo/cwh/inspection_3d.py:216-242`; default strengtheners at `:327, 416`). The radius of
the passive safety constraint is `chief_radius + deputy_radius`. -/
noncomputable def multiPair (c : MultiConfig) (i : Nat) : Dict (Constraint ℝ (List ℝ) InspParams) :=
  [("deputy_collision_" ++ toString i, multiCollision [0, 1 / 100, 0, 1 / 1000] (c.deputyRadius * 2) c.aMax i),
   ("deputy_sun_" ++ toString i, multiDeputySun [0, 0, 0, 1 / 10] (-(1 / 1000)) c.aMax c.fov c.sunVel i),
   ("deputy_PSM_" ++ toString i, multiPSM [0, 1 / 100, 0, 1 / 1000] c.radius c.n 1 100 i)]

/-- `InspectionRTA._setup_constraints` (`zoo/cwh/inspection_3d.py:154-243`). -/
noncomputable def multiConstraints (c : MultiConfig) : Dict (Constraint ℝ (List ℝ) InspParams) :=
  multiOwn c ++ (List.range (c.numDeputies - 1)).flatMap fun j => multiPair c (j + 1)

/-- `InspectionRTA.__init__` (`zoo/cwh/inspection_3d.py:83-152`). -/
noncomputable def multiASIF [HasSqrt ℝ] (c : MultiConfig) (use : Option (List String)) (high low : Option (Bound ℝ)) (epsilon : ℝ)
    (solverException : Bool) : Except PyErr (ASIFObj ℝ (List ℝ) InspParams Unit) :=
  asifInit high low (multiConstraints c) use epsilon 3 solverException [] ()

end RTA
