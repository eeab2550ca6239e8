import Verif.Model.Zoo.DeltaV

/-!
Specification vocabulary for the delta-v limiter.
-/
namespace RTA
variable {K : Type} [Field K] [LinearOrder K]

/-- The shapes of the matrices of a constructed limiter. -/
structure DVShape (s : DeltaVObj K) : Prop where
  A : s.A.length = 6
  B : s.B.length = 6
  K1 : s.K1.length = 3
  K2 : s.K2.length = 3

/-- `xs`, `is` are the predicted states and error integrals: the desired control for one step, then the backup controller. -/
structure IsPrediction (s : DeltaVObj K) (inp : List K) (dt : K) (u : List K) (xs is : Nat → List K) : Prop where
  start : s.predState inp dt u = .ok (xs 0)
  integral : is 0 = s.errorIntegral
  step : ∀ k, ∃ ub, s.backupControl (xs k) dt (is k) = .ok (ub, is (k + 1)) ∧ s.predState (xs k) dt ub = .ok (xs (k + 1))

/-- The delta-v component of a state. -/
def dvOf (x : List K) : K := x.getD 7 0

/-- What the user may do with the limiter. -/
inductive DVOp (K : Type) where
  | call (inp : List K) (dt : K) (u : List K)
  | setEnable (b : Bool)
  | reset

/-- Execute one operation. -/
def stepDV (s : DeltaVObj K) : DVOp K → DeltaVObj K
  | .call i dt u => (deltaVFilter s i dt u).2
  | .setEnable b => modifyBase (fun x => { x with enable := b }) s
  | .reset => deltaVReset s

/-- Execute operations in order. -/
def runDV (s : DeltaVObj K) (ops : List (DVOp K)) : DeltaVObj K := ops.foldl stepDV s

end RTA
