import Verif.Model.Zoo.Inspection
import Mathlib.Data.List.MinMax

/-!
Model of the constraint functions of the inspection problems, over the real numbers.

In the ASIF modules these functions are also differentiated; their gradients are not part of this file. Python float
division by a zero mean motion raises `ZeroDivisionError`; the theorems assume a nonzero mean motion.
-/
namespace RTA
open Real

/-- `jnp.linspace(start, stop, num)`; `(stop - start) / 0 = 0` gives the right answer for `num = 1`. -/
noncomputable def linspace (start stop : ℝ) (num : Nat) : List ℝ :=
  (List.range num).map fun i : Nat => start + (i : ℝ) * ((stop - start) / (num - 1 : ℝ))

/-- `jnp.min` of a 1-D array: the minimum, or `ValueError` for an empty array. -/
noncomputable def jnpMin : List ℝ → Except PyErr ℝ
  | [] => .error (.valueError "zero-size array to reduction operation min which has no identity")
  | a :: l => .ok (l.foldl min a)

/-- `ConstraintPassivelySafeManeuver.get_future_state` (`zoo/cwh/inspection_1v1.py:961-975`). -/
noncomputable def psmFutureState (n : ℝ) (state : List ℝ) (t radius : ℝ) : ℝ :=
  let x := (4 - 3 * cos (n * t)) * comp state 0 + sin (n * t) * comp state 3 / n + 2 / n * (1 - cos (n * t)) * comp state 4
  let y := 6 * (sin (n * t) - n * t) * comp state 0 + comp state 1 - 2 / n * (1 - cos (n * t)) * comp state 3 +
    (4 * sin (n * t) - 3 * n * t) * comp state 4 / n
  let z := comp state 2 * cos (n * t) + comp state 5 / n * sin (n * t)
  norm2 [x, y, z] - radius

/-- `ConstraintPassivelySafeManeuver._compute` (`zoo/cwh/inspection_1v1.py:952-959`). -/
noncomputable def psmCompute (n radius dt : ℝ) (steps : Nat) (state : List ℝ) : Except PyErr ℝ :=
  jnpMin ((linspace dt (steps * dt) steps).map fun t => psmFutureState n state t radius)

/-- `ConstraintPassivelySafeManeuver.get_array` (`zoo/cwh/inspection_1v1.py:977-985`). -/
noncomputable def psmArray (n radius dt : ℝ) (steps : Nat) (state : List ℝ) : List ℝ :=
  (linspace 0 (steps * dt) (steps + 1)).map fun t => psmFutureState n state t radius

/-- The coasting position of the six state components from index `o` on at time `t`, as written out twice in
`ConstraintPSMDeputy.get_future_state` (`zoo/cwh/inspection_3d.py:430-458`). -/
noncomputable def psmCoast (n : ℝ) (state : List ℝ) (o : Nat) (t : ℝ) : List ℝ :=
  [(4 - 3 * cos (n * t)) * comp state (o + 0) + sin (n * t) * comp state (o + 3) / n + 2 / n * (1 - cos (n * t)) * comp state (o + 4),
    6 * (sin (n * t) - n * t) * comp state (o + 0) + comp state (o + 1) - 2 / n * (1 - cos (n * t)) * comp state (o + 3) +
      (4 * sin (n * t) - 3 * n * t) * comp state (o + 4) / n,
    comp state (o + 2) * cos (n * t) + comp state (o + 5) / n * sin (n * t)]

/-- `ConstraintPSMDeputy.get_future_state` (`zoo/cwh/inspection_3d.py:428-460`). -/
noncomputable def psmDeputyFutureState (n : ℝ) (deputy : Nat) (state : List ℝ) (t radius : ℝ) : ℝ :=
  norm2 (vsub (psmCoast n state 0 t) (psmCoast n state (deputy * 6) t)) - radius

/-- `ConstraintPSMDeputy._compute` (`zoo/cwh/inspection_3d.py:419-426`). -/
noncomputable def psmDeputyCompute (n radius dt : ℝ) (steps deputy : Nat) (state : List ℝ) : Except PyErr ℝ :=
  jnpMin ((linspace dt (steps * dt) steps).map fun t => psmDeputyFutureState n deputy state t radius)

/-- The check `jax.vmap` makes when the mapped function is called: a tuple `in_axes` has one entry per argument. -/
def vmapCall {α : Type} (inAxes numArgs : Nat) (result : α) : Except PyErr α :=
  if inAxes = numArgs then .ok result
  else .error (.valueError "vmap in_axes must be an int, None, or a tuple of entries corresponding to the positional arguments")

/-- `ConstraintPSMDeputy.get_array` (`zoo/cwh/inspection_3d.py:462-474`): `in_axes` has two entries, three arguments are given. -/
noncomputable def psmDeputyArray (n radius dt : ℝ) (steps deputy : Nat) (state : List ℝ) : Except PyErr (List ℝ) :=
  vmapCall 2 3 ((linspace 0 (steps * dt) (steps + 1)).map fun t => psmDeputyFutureState n deputy state t radius)

/-- The braking-distance expression shared by the chief and deputy collision constraints, of a relative position and velocity:
`sqrt(c * (|p| - R)) + p·v/|p|` outside the sphere, `-sqrt(c * (R - |p|)) + p·v/|p|` inside. -/
noncomputable def keepOut (c radius : ℝ) (p v : List ℝ) : Option ℝ :=
  if radius ≤ norm2 p then do
    let s ← sqrtF (c * (norm2 p - radius))
    let d ← divF (dot p v) (norm2 p)
    pure (s + d)
  else do
    let s ← sqrtF (c * (-norm2 p + radius))
    let d ← divF (dot p v) (norm2 p)
    pure (-s + d)

/-- `ConstraintCWHChiefCollision._compute` and the two branch functions (`zoo/cwh/inspection_1v1.py:776-810`). -/
noncomputable def chiefCollision (radius aMax : ℝ) (state : List ℝ) : Option ℝ :=
  keepOut (2 * aMax) radius (pySlice state 0 3) (pySlice state 3 6)

/-- `ConstraintCWHChiefCollision._phi` (`zoo/cwh/inspection_1v1.py:788-790`). -/
noncomputable def chiefCollisionPhi (radius : ℝ) (state : List ℝ) : ℝ := norm2 (pySlice state 0 3) - radius

/-- `ConstraintCWHDeputyCollision._compute` and the two branch functions (`zoo/cwh/inspection_3d.py:333-372`). -/
noncomputable def deputyCollision (radius aMax : ℝ) (deputy : Nat) (state : List ℝ) : Option ℝ :=
  keepOut (4 * aMax) radius (vsub (pySlice state 0 3) (pySlice state (deputy * 6) (deputy * 6 + 3)))
    (vsub (pySlice state 3 6) (pySlice state (deputy * 6 + 3) (deputy * 6 + 6)))

/-- `ConstraintCWHDeputyCollision._phi` (`zoo/cwh/inspection_3d.py:345-347`). -/
noncomputable def deputyCollisionPhi (radius : ℝ) (deputy : Nat) (state : List ℝ) : ℝ :=
  norm2 (vsub (pySlice state 0 3) (pySlice state (deputy * 6) (deputy * 6 + 3))) - radius

/-- `ConstraintCWHMaxDistance._compute` and the two branch functions (`zoo/cwh/inspection_1v1.py:1009-1043`). -/
noncomputable def maxDistance (rMax aMax : ℝ) (state : List ℝ) : Option ℝ :=
  let p := pySlice state 0 3
  let v := pySlice state 3 6
  if norm2 p ≤ rMax then do
    let s ← sqrtF (2 * aMax * (rMax - norm2 p))
    let d ← divF (dot p v) (norm2 p)
    pure (s - d)
  else do
    let s ← sqrtF (2 * aMax * (-rMax + norm2 p))
    let d ← divF (dot p v) (norm2 p)
    pure (-s - d)

/-- `ConstraintCWHMaxDistance._phi` (`zoo/cwh/inspection_1v1.py:1021-1023`). -/
noncomputable def maxDistancePhi (rMax : ℝ) (state : List ℝ) : ℝ := rMax - norm2 (pySlice state 0 3)

/-- `HOCBFExampleChiefCollision._compute` (`zoo/cwh/inspection_1v1.py:1067-1069`). -/
noncomputable def hocbfChiefCollision (radius : ℝ) (state : List ℝ) : ℝ := norm2 (pySlice state 0 3) - radius

/-- `Inspection1v1RTA.__init__`, the braking acceleration `a_max` (`zoo/cwh/inspection_1v1.py:202, 211-215`). The maximal thrust
in it is the constant `U_MAX_DEFAULT = 1` (`:211`), not the control bounds given by the user. -/
noncomputable def inspectionAMax (m n v0 v1Coef rMax velLimit : ℝ) : ℝ :=
  1 / m - 3 * n ^ 2 * rMax - 2 * n * min velLimit (v0 + v1Coef * n * rMax)

/-- `jnp.cross`. -/
def cross (a b : List ℝ) : List ℝ :=
  [comp a 1 * comp b 2 - comp a 2 * comp b 1, comp a 2 * comp b 0 - comp a 0 * comp b 2,
   comp a 0 * comp b 1 - comp a 1 * comp b 0]

/-- `v / s` for an array and a scalar; one NaN makes every later result NaN, so the whole array is `none`. -/
noncomputable def vdivF (v : List ℝ) (s : ℝ) : Option (List ℝ) := if s = 0 then none else some (v.map (· / s))

/-- `jnp.arccos`: NaN outside `[-1, 1]`. -/
noncomputable def arccosF (x : ℝ) : Option ℝ := if x < -1 ∨ 1 < x then none else some (arccos x)

/-- `Inspection1v1RTA.get_sun_vector` (`zoo/cwh/inspection_1v1.py:366-368`). -/
noncomputable def sunVector (state : List ℝ) : List ℝ := [-cos (comp state 6), -sin (comp state 6), 0]

/-- The signed distance to the cone, `mag_delta_p` in `ConstraintCWHConicKeepOutZone._compute`
(`zoo/cwh/inspection_1v1.py:876-878`), of a position and the unit vector of the cone axis. -/
noncomputable def conicMag (fov : ℝ) (pos unit : List ℝ) : Option ℝ := do
  let pHat ← vdivF pos (norm2 pos)
  let ang ← arccosF (dot unit pHat)
  pure (norm2 pos * sin (ang - fov / 2))

/-- The nearest point of the cone, `proj` (`zoo/cwh/inspection_1v1.py:858-871`). `jnp.tan` of the half angle is taken as the
real tangent. -/
noncomputable def conicProj (fov : ℝ) (pos unit : List ℝ) : Option (List ℝ) :=
  let theta := fov / 2
  let posCone := vsub pos (vscale (dot pos unit) unit)
  let mult := cos theta * (norm2 posCone - tan theta * dot pos unit)
  (vdivF (vscale (mult * cos theta) (vsub (vscale (dot pos unit) unit) pos)) (norm2 posCone)).map fun last =>
    vadd (vadd pos (vscale (mult * sin theta) unit)) last

/-- `ConstraintCWHConicKeepOutZone._compute` and the two branch functions (`zoo/cwh/inspection_1v1.py:852-889, 899-905`), of
`get_pos(state)`, `get_vel(state)`, `get_cone_vec(state)` and the configured angular velocity of the cone. -/
noncomputable def conicKeepOut (fov aMax : ℝ) (angVel pos vel coneVec : List ℝ) : Option ℝ := do
  let unit ← vdivF coneVec (norm2 coneVec)
  let proj ← conicProj fov pos unit
  let velProj := cross angVel proj
  let deltaP := vsub pos proj
  let deltaV := vsub vel velProj
  let mag ← conicMag fov pos unit
  if 0 ≤ mag then
    let s ← sqrtF (2 * aMax * mag)
    let d ← divF (dot deltaP deltaV) mag
    pure (s + d)
  else
    let s ← sqrtF (-2 * aMax * mag)
    let d ← divF (dot deltaP deltaV) mag
    pure (-s + d)

/-- `ConstraintCWHConicKeepOutZone._phi` (`zoo/cwh/inspection_1v1.py:891-897`). -/
noncomputable def conicPhi (fov : ℝ) (pos coneVec : List ℝ) : Option ℝ := do
  let pHat ← vdivF pos (norm2 pos)
  let cHat ← vdivF coneVec (norm2 coneVec)
  let ang ← arccosF (dot pHat cHat)
  pure (ang - fov / 2)

/-- `norm_with_delta` (`utils/utils.py:10-28`). -/
noncomputable def normWithDelta (x : List ℝ) (delta : ℝ) : ℝ := √((x.map (· ^ 2)).foldr (· + ·) 0 + delta)

/-- `ConstraintDocking2dRelativeVelocity._compute` (`zoo/cwh/docking_2d.py:576-620`; `d = 2`) and
`ConstraintCWH3dRelativeVelocity._compute` (`zoo/cwh/docking_3d.py:637-680`; `d = 3`). -/
noncomputable def relativeVelocity (d : Nat) (v0 v1 v0Distance delta : ℝ) (state : List ℝ) : ℝ :=
  v0 + v1 * (normWithDelta (pySlice state 0 d) delta - v0Distance) - normWithDelta (pySlice state d (2 * d)) delta

end RTA
