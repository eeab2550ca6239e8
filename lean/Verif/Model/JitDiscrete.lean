import Verif.Model.Jit
import Verif.Model.Discrete

/-!
Model of `DiscreteASIFModule` as it runs: every `DiscreteCBFConstraint` jits its own `cbf_fn` in its constructor
(`constraint.py:532-533`). The module's `jit_enable` is not consulted there, so the compilation cannot be switched off.

Simplifications, beyond those of `Model/Jit.lean`: the Jacobian `jit(jacrev(self.cbf_fn))` is traced together with `cbf`, and
the solver evaluates every enabled constraint at least once.
-/
namespace RTA

/-- The attributes that `next_state_differentiable` reads from `self` (a mass, for example), and for every
`DiscreteCBFConstraint` its traces: the constraint object and those attributes as they were when the trace was made. -/
structure DiscJit (Sig K S P X : Type) where
  extra : X
  traces : List (JitCache Sig (Constraint K S P × X))

/-- A discrete ASIF module with its compiled constraints. -/
abbrev DiscJ (Sig K S P X : Type) := JObj (DiscObj K S P) (DiscJit Sig K S P X)

section
variable {K S P X Sig : Type}

/-- The constructor (`rta/asif.py:978-993`, `constraint.py:527-533`): nothing is traced yet, whatever `jit_enable` is. -/
def DiscJ.compose (_jitEnable : Bool) (e : X) (o : DiscObj K S P) : DiscJ Sig K S P X :=
  ⟨o, ⟨e, o.constraints.map fun _ => []⟩⟩

/-- `cbf_fn` (`constraint.py:535-560`) of one constraint, read from the constraint and attributes of `q`. -/
def cbfOf [Add K] [Sub K] [Mul K] [Div K] [Zero K] (next : X → S → K → List K → S) (controlDim : Nat) (idx : Option Nat) (x : S)
    (dt : K) (p : P) (q : Constraint K S P × X) : Except PyErr (List K → K) :=
  match q.1.alpha with
  | none => .error (.assertionError "alpha must be an instance/sub-class of ConstraintStrenthener")
  | some al => .ok (cbfFn q.1 al (next q.2) controlDim idx x dt p)

/-- As `enabledCbfs`, with `cbf` jitted: `sig` is the signature of `(control, state, step_size, params)`; the number of controls
does not change. Slack indices are fixed in the constructor. -/
def enabledCbfsJ [DecidableEq Sig] [Add K] [Sub K] [Mul K] [Div K] [Zero K] (sig : S → K → P → Sig)
    (next : X → S → K → List K → S) (extra : X) (controlDim : Nat) (x : S) (dt : K) :
    Nat → List (Constraint K S P) → List P → List Bool → List (JitCache Sig (Constraint K S P × X)) →
      Except PyErr (List (List K → K)) × List (JitCache Sig (Constraint K S P × X))
  | sc, c :: cs, p :: ps, e :: es, t :: ts =>
    let idx := if c.slackPriorityScale.isSome then some sc else none
    let sc' := if c.slackPriorityScale.isSome then sc + 1 else sc
    if e then
      match jitCall true (cbfOf next controlDim idx x dt p) t (sig x dt p) (c, extra) with
      | (.error er, t) => (.error er, t :: ts)
      | (.ok fn, t) =>
        match enabledCbfsJ sig next extra controlDim x dt sc' cs ps es ts with
        | (.error er, ts) => (.error er, t :: ts)
        | (.ok fs, ts) => (.ok (fn :: fs), t :: ts)
    else
      match enabledCbfsJ sig next extra controlDim x dt sc' cs ps es ts with
      | (r, ts) => (r, t :: ts)
  | _, _, _, _, ts => (.ok [], ts)

/-- `DiscreteASIFModule._filter_control` (`rta/asif.py:995-1016`), as `discFilter`. -/
def discFilterJ [DecidableEq Sig] [Field K] [HasSqrt K] [LT K] [DecidableLT K] (solver : NLPSolver K) (sig : S → K → P → Sig)
    (next : X → S → K → List K → S) (self : DiscJ Sig K S P X) (x : S) (dt : K) (u : List K) :
    Except PyErr (List K) × DiscJ Sig K S P X :=
  let desired := u ++ zeros self.obj.ext.numSlack
  match scalarBound self.obj.ext.optLow, scalarBound self.obj.ext.optHigh with
  | .ok lo, .ok hi =>
    if desired.length ≠ self.obj.ext.controlDim + self.obj.ext.numSlack then
      (.error (.valueError "The number of bounds is not compatible with the length of `x0`."), self)
    else
      match enabledCbfsJ sig next self.jit.extra self.obj.ext.controlDim x dt 0 (self.obj.constraints.map (·.2))
          (self.obj.params.map (·.2)) (self.obj.constraintEnabled.map (·.2)) self.jit.traces with
      | (.error e, ts) => (.error e, { self with jit := { self.jit with traces := ts } })
      | (.ok fs, ts) =>
        let self := { self with jit := { self.jit with traces := ts } }
        let res := solver (discObj self.obj.ext.objWeight desired) desired fs
          (List.replicate self.obj.ext.controlDim (lo, hi) ++ List.replicate self.obj.ext.numSlack (none, none))
        if ¬ res.success ∧ self.obj.ext.solverException then (.error .solverError, self)
        else
          (.ok (res.x.take self.obj.ext.controlDim), { self with obj := { self.obj with
            intervening := asifMonitor self.obj.ext.epsilon (desired.take self.obj.ext.controlDim)
              (res.x.take self.obj.ext.controlDim) } })
  | .error e, _ => (.error e, self)
  | _, .error e => (.error e, self)

/-- `filter_control` of a discrete ASIF module as it runs. -/
def discreteASIFJ [DecidableEq Sig] [Field K] [Max K] [Min K] [HasSqrt K] [LT K] [DecidableLT K] (solver : NLPSolver K)
    (sig : S → K → P → Sig) (next : X → S → K → List K → S) (self : DiscJ Sig K S P X) (inp : InputState S) (dt : K)
    (u : List K) : Except PyErr (List K) × DiscJ Sig K S P X :=
  filterControl (computeFilteredControlJ getStateDefault (discFilterJ solver sig next)) self inp dt u

end

end RTA
