import Verif.Model.Zoo.InspectionCascade
import Verif.Spec.Zoo.Inspection

/-!
Histories of the cascade of the inspection problem.
-/
namespace RTA

/-- What the user may do with the cascade. -/
inductive CascadeOp where
  | call (x : List ℝ) (dt : ℝ) (u : List ℝ)
  | reset

/-- Execute an operation on the cascade. -/
noncomputable def stepCascade [HasSqrt ℝ] (solver : Solver ℝ) (c : InspConfig) (s : CascadeObj ℝ InspStage) : CascadeOp → CascadeObj ℝ InspStage
  | .call x dt u => (inspCascadeFilter solver c s x dt u).2
  | .reset => cascadeReset s

/-- The cascade after a history. -/
noncomputable def runCascade [HasSqrt ℝ] (solver : Solver ℝ) (c : InspConfig) (s : CascadeObj ℝ InspStage) (ops : List CascadeOp) :
    CascadeObj ℝ InspStage := ops.foldl (stepCascade solver c) s

/-- A call with a complete state and a control of three components, or a reset. -/
def CascadeOp.Proper : CascadeOp → Prop
  | .call x _ u => x.length = 8 ∧ u.length = 3
  | .reset => True

/-- `s` is a cascade as constructed (with any budget, horizon and gains of the right number of rows) and then used with complete states. -/
def CascadeModule [HasSqrt ℝ] (solver : Solver ℝ) (c : InspConfig) (s : CascadeObj ℝ InspStage) : Prop :=
  ∃ limit nSteps K1 K2 s0 ops, K1.length = 3 ∧ K2.length = 3 ∧ inspCascade c limit nSteps K1 K2 none none = .ok s0 ∧
    (∀ op ∈ ops, CascadeOp.Proper op) ∧ s = runCascade solver c s0 ops

/-- Whether the limiter of the cascade has switched to its backup controller. -/
def limiterLatched (s : CascadeObj ℝ InspStage) : Bool :=
  match s.rtaList with
  | [_, .deltaV d] => d.latched
  | _ => false

/-- The error integral of the limiter. -/
def limiterIntegral (s : CascadeObj ℝ InspStage) : List ℝ :=
  match s.rtaList with
  | [_, .deltaV d] => d.errorIntegral
  | _ => []

/-- The state is on a natural motion trajectory: the relative orbit closes without thrust. -/
structure OnNMT (n : ℝ) (x : List ℝ) : Prop where
  len : x.length = 8
  vx : comp x 3 = n / 2 * comp x 1
  vy : comp x 4 = -(2 * n * comp x 0)

end RTA
