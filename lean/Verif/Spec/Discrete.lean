import Verif.Model.Discrete
import Verif.Spec.ASIF

/-!
Specification vocabulary for the discrete-time module: admissible controls and what is assumed of the external nonlinear
solver.
-/
namespace RTA
variable {K S P : Type}

/-- Constraint value including its bias. -/
def hval [Add K] (c : Constraint K S P) (x : S) : K := c.computeFn x c.params + c.bias

/-- The documented discrete barrier condition with slack value `d`: `h(x⁺) ≥ h(x) - dt·alpha(h(x)) + dt·d`. -/
def DiscreteOK [Field K] [LinearOrder K] (next : S → K → List K → S) (c : Constraint K S P) (x : S) (dt : K)
    (u : List K) (d : K) : Prop :=
  ∃ al, c.alpha = some al ∧ hval c x - dt * al (hval c x) + dt * d ≤ hval c (next x dt u)

/-- Control `u` with slack values `d` is admissible for a discrete module in state `x`. -/
structure AdmissibleDS [Field K] [LinearOrder K] (next : S → K → List K → S) (s : DiscObj K S P) (x : S) (dt : K)
    (u d : List K) : Prop where
  len : u.length = s.ext.controlDim
  slen : d.length = (slackScales s.constraints).length
  bounds : Within s.controlBoundsLow s.controlBoundsHigh u
  barrier : ∀ cd ∈ assignSlack s.constraints d, cd.1.enabled = true → DiscreteOK next cd.1 x dt u cd.2

/-- `z` has the right number of entries, respects the limits and makes every constraint function non-negative. -/
structure NLPFeasible [Zero K] [LE K] (fs : List (List K → K)) (bounds : List (Option K × Option K)) (z : List K) : Prop where
  len : z.length = bounds.length
  low : ∀ (i : Nat) l h, bounds[i]? = some (some l, h) → ∀ v, z[i]? = some v → l ≤ v
  high : ∀ (i : Nat) l h, bounds[i]? = some (l, some h) → ∀ v, z[i]? = some v → v ≤ h
  ineq : ∀ f ∈ fs, 0 ≤ f z

/-- A solver that satisfies the constraints whenever it reports success. -/
def NLPSound [Zero K] [LE K] (solver : NLPSolver K) : Prop :=
  ∀ obj x0 fs bounds, x0.length = bounds.length → (solver obj x0 fs bounds).success = true →
    NLPFeasible fs bounds (solver obj x0 fs bounds).x

/-- A solver that moreover finds the global minimum whenever it reports success. -/
def NLPGlobal [Zero K] [LE K] (solver : NLPSolver K) : Prop :=
  ∀ obj x0 fs bounds, x0.length = bounds.length → (solver obj x0 fs bounds).success = true →
    ∀ z, NLPFeasible fs bounds z → obj (solver obj x0 fs bounds).x ≤ obj z

/-- A solver that reports success whenever the problem has a solution. -/
def NLPComplete [Zero K] [LE K] (solver : NLPSolver K) : Prop :=
  ∀ obj x0 fs bounds, x0.length = bounds.length → (∃ z, NLPFeasible fs bounds z ∧ ∀ y, NLPFeasible fs bounds y → obj z ≤ obj y) →
    (solver obj x0 fs bounds).success = true

/-- Constructed discrete modules: well formed, slack counted and weighted as the constraints ask, bounds not changed since construction. `discInv_init` shows that
construction establishes it. -/
structure DiscInv [One K] [HasSqrt K] (s : DiscObj K S P) : Prop where
  wf : WF s
  slack : s.ext.numSlack = (slackScales s.constraints).length
  weight : s.ext.objWeight = List.replicate s.ext.controlDim 1 ++ slackWeights s.constraints
  low : s.ext.optLow = s.controlBoundsLow
  high : s.ext.optHigh = s.controlBoundsHigh

end RTA
