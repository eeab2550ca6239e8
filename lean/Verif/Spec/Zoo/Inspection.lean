import Verif.Model.Zoo.InspectionMulti
import Verif.Spec.Zoo.Motion

/-!
Vocabulary for the inspection problem.
-/
namespace RTA
open Set Real

/-- A motion of the deputy in the inspection problem: position and velocity obey the Clohessy-Wiltshire equations with thrust `u`, the
sun angle changes at the rate `sunVel`, and the fuel counter at the rate of the spent delta-v. -/
structure InspectionMotion (n m sunVel : ℝ) (x u : ℝ → List ℝ) : Prop where
  len : ∀ t, 0 ≤ t → (x t).length = 8
  ulen : ∀ t, 0 ≤ t → (u t).length = 3
  cont : ∀ i < 8, ContinuousOn (fun t => comp (x t) i) (Ici 0)
  deriv : ∀ t, 0 ≤ t → ∀ i < 8, HasDerivWithinAt (fun s => comp (x s) i) (comp (computeStateDot n m sunVel (x t) (u t)) i) (Ici t) t

/-- A motion of `N` deputies: the six components of each obey the Clohessy-Wiltshire equations with its own thrust `w t q`, the sun angle,
the last component, changes at the rate `sunVel`. -/
structure FleetMotion (n m sunVel : ℝ) (N : Nat) (x : ℝ → List ℝ) (w : ℝ → Nat → List ℝ) : Prop where
  len : ∀ t, 0 ≤ t → (x t).length = 6 * N + 1
  wlen : ∀ t, 0 ≤ t → ∀ q < N, (w t q).length = 3
  cont : ∀ i < 6 * N + 1, ContinuousOn (fun t => comp (x t) i) (Ici 0)
  deriv : ∀ t, 0 ≤ t → ∀ q < N, ∀ i < 6, HasDerivWithinAt (fun s => comp (x s) (6 * q + i))
    (comp (vadd (matVec (cwhA3 n) (pySlice (x t) (6 * q) (6 * q + 6))) (matVec (cwhB3 m) (w t q))) i) (Ici t) t
  angle : ∀ t, 0 ≤ t → HasDerivWithinAt (fun s => comp (x s) (6 * N)) sunVel (Ici t) t

/-- The first deputy has thrust `u`, the others coast. -/
def onlyFirst (u : ℝ → List ℝ) (t : ℝ) : Nat → List ℝ
  | 0 => u t
  | _ + 1 => [0, 0, 0]

/-- The direction of the sun for a sun angle. -/
noncomputable def sunDirection (angle : ℝ) : List ℝ := [-cos angle, -sin angle, 0]

/-- The position of the first deputy seen from deputy `i`. -/
def positionFrom (i : Nat) (x : List ℝ) : List ℝ := vsub (pySlice x 0 3) (pySlice x (6 * i) (6 * i + 3))

end RTA
