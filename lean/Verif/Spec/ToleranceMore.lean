import Verif.Spec.Tolerance
import Verif.Spec.Implicit
import Verif.Spec.Discrete

/-!
Vocabulary for C102: tolerances of the solvers of implicit and discrete ASIF modules.
-/
namespace RTA
variable {K S P A : Type}

/-- Control `u` meets every condition of an implicit ASIF module in state `x` up to `η` (for negative `η`: with a margin). -/
structure AdmissibleIBy [Field K] [LinearOrder K] [FloorRing K] (η : K) (E : ImplicitEnv K) (s : ImplicitObj K P A) (x : List K)
    (dt : K) (u : List K) : Prop where
  len : u.length = s.ext.controlDim
  bounds : WithinBy η s.controlBoundsLow s.controlBoundsHigh u
  barrier : ∀ kc ∈ s.constraints, kc.2.enabled = true → ∀ k ∈ pointsOf E s x dt kc.2,
    ∃ m, pointValue E s x dt kc.2 u k = some m ∧ -η ≤ m
  direct : ∀ kc ∈ s.ext.direct, kc.2.enabled = true →
    kc.2.ineqConstant x kc.2.params - η ≤ dot (kc.2.ineqWeight x kc.2.params) u

/-- How strongly the control acts on the condition at point `k` of the backup trajectory: the sum over the components of the
change of the condition's left hand side when that component goes from 0 to 1. -/
def pointAuthority [Field K] [LinearOrder K] (E : ImplicitEnv K) (s : ImplicitObj K P A) (x : List K) (dt : K)
    (c : Constraint K (List K) P) (k : Nat) : K :=
  ((List.range s.ext.controlDim).map fun i =>
    |(pointValue E s x dt c (eyeRow s.ext.controlDim i) k).getD 0 -
      (pointValue E s x dt c (zeros s.ext.controlDim) k).getD 0|).sum

/-- A nonlinear programming solver with tolerances: when it reports success its answer meets every inequality up to `ε` and
every bound up to `η`. -/
def NLPTol [Field K] [LinearOrder K] (ε η : K) (solver : NLPSolver K) : Prop :=
  ∀ obj x0 fs bounds, x0.length = bounds.length → (solver obj x0 fs bounds).success = true →
    (solver obj x0 fs bounds).x.length = bounds.length ∧
    (∀ (i : Nat) l h, bounds[i]? = some (some l, h) → ∀ v, (solver obj x0 fs bounds).x[i]? = some v → l - η ≤ v) ∧
    (∀ (i : Nat) l h, bounds[i]? = some (l, some h) → ∀ v, (solver obj x0 fs bounds).x[i]? = some v → v ≤ h + η) ∧
    ∀ f ∈ fs, -ε ≤ f (solver obj x0 fs bounds).x

/-- Its objective moreover exceeds that of no feasible point by more than `δ`. -/
def NLPNear [Field K] [LinearOrder K] (δ : K) (solver : NLPSolver K) : Prop :=
  ∀ obj x0 fs bounds, x0.length = bounds.length → (solver obj x0 fs bounds).success = true →
    ∀ z, NLPFeasible fs bounds z → obj (solver obj x0 fs bounds).x ≤ obj z + δ

/-- The solver that works with inequalities relaxed by `ε`. -/
def relaxedNLP [Add K] (ε : K) (solver : NLPSolver K) : NLPSolver K :=
  fun obj x0 fs bounds => solver obj x0 (fs.map fun f z => f z + ε) bounds

end RTA
