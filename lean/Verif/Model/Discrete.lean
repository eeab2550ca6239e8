import Verif.Model.ASIF

/-!
Model of `DiscreteASIFModule` (`rta/asif.py:973-1033`) and `DiscreteCBFConstraint` (`constraint.py:512-560`).
`DiscreteASIFIntegratorModule` (`rta/asif.py:1057-1118`) is the case in which the abstract `next_state_differentiable` is one step of the
external ODE solver.
-/
namespace RTA

/-- What `scipy.optimize.minimize` reports: `res.success` and `res.x`. -/
structure NLPResult (K : Type) where
  success : Bool
  x : List K

/-- The external solver `minimize(obj, x0, method='SLSQP', constraints, bounds, args)` (`rta/asif.py:1003-1005`): objective
with the desired control already applied, start point, inequality functions (each to be made non-negative) with their
`args` already applied, and the lower and upper limit of every variable (`none`: unlimited). Jacobians are not modelled. -/
abbrev NLPSolver (K : Type) := (List K → K) → List K → List (List K → K) → List (Option K × Option K) → NLPResult K

/-- Attributes of `BaseOptimizationModule` (`rta/asif.py:42-58`) and `DiscreteASIFModule` (lines 978-993).
`scipy_constraints` is recomputed from the constraints: it only holds the constraint objects and their slack indices.
`optLow` and `optHigh` are the bounds at the time of construction, of which `opt_bounds` (line 981) is made. -/
structure DiscExt (K : Type) where
  epsilon : K
  controlDim : Nat
  solverException : Bool
  numSlack : Nat
  objWeight : List K
  optLow : Option (Bound K)
  optHigh : Option (Bound K)

/-- A discrete ASIF module object. -/
abbrev DiscObj (K S P : Type) := CBObj K S P (DiscExt K)

section
variable {K S P : Type}

/-- `BaseOptimizationModule.__init__` and `DiscreteASIFModule.__init__` (`rta/asif.py:42-58, 978-993`). -/
def discInit [One K] [HasSqrt K] (high low : Option (Bound K)) (all : Dict (Constraint K S P)) (use : Option (List String))
    (epsilon : K) (controlDim : Nat) (solverException : Bool) : Except PyErr (DiscObj K S P) :=
  match CBObj.init high low all use
      ({ epsilon := epsilon, controlDim := controlDim, solverException := solverException, numSlack := 0, objWeight := []
         optLow := low, optHigh := high } : DiscExt K) with
  | .error e => .error e
  | .ok self =>
    let w := slackWeights self.constraints
    .ok (self.setExt { self.ext with numSlack := w.length, objWeight := List.replicate controlDim 1 ++ w })

/-- `DiscreteCBFConstraint.cbf_fn` (`constraint.py:535-560`). `slackIdx` is `none` for constraints without slack. -/
def cbfFn [Add K] [Sub K] [Mul K] [Div K] [Zero K] (c : Constraint K S P) (al : K → K) (next : S → K → List K → S)
    (controlDim : Nat) (slackIdx : Option Nat) (x : S) (dt : K) (p : P) (z : List K) : K :=
  let h := (c.compute (next x dt (z.take controlDim)) p - c.compute x p) / dt + al (c.compute x p)
  match slackIdx with
  | none => h
  | some i => h - z.getD (controlDim + i) 0

/-- The loop of lines 983-993 that numbers the slack variables, zipped with the stored params and flags, and the selection
of the enabled constraints (`rta/asif.py:997-1002`). A constraint without strengthener makes the solver's first evaluation
raise `AssertionError` (`constraint.py:205`). -/
def enabledCbfs [Add K] [Sub K] [Mul K] [Div K] [Zero K] (next : S → K → List K → S) (controlDim : Nat) (x : S) (dt : K) :
    Nat → List (Constraint K S P) → List P → List Bool → Except PyErr (List (List K → K))
  | sc, c :: cs, p :: ps, e :: es =>
    let idx := if c.slackPriorityScale.isSome then some sc else none
    match enabledCbfs next controlDim x dt (if c.slackPriorityScale.isSome then sc + 1 else sc) cs ps es with
    | .error er => .error er
    | .ok fs =>
      if e then
        match c.alpha with
        | none => .error (.assertionError "alpha must be an instance/sub-class of ConstraintStrenthener")
        | some al => .ok (cbfFn c al next controlDim idx x dt p :: fs)
      else .ok fs
  | _, _, _, _ => .ok []

/-- One entry of `opt_bounds` (`rta/asif.py:981`) after SciPy's conversion to floats: arrays must have exactly one
element. -/
def scalarBound : Option (Bound K) → Except PyErr (Option K)
  | none => .ok none
  | some (.scalar b) => .ok (some b)
  | some (.arr _ [b]) => .ok (some b)
  | some (.arr _ _) => .error (.typeError "only length-1 arrays can be converted to Python scalars")

/-- `obj` (`rta/asif.py:1018-1033`): `0.5 * z @ (W.T @ W) @ z + (-W.T @ desired) @ z` for the diagonal matrix `W`. -/
def discObj [Field K] (W desired z : List K) : K :=
  dot (List.zipWith (· * ·) (List.zipWith (· * ·) W W) z) z / 2 + dot ((List.zipWith (· * ·) W desired).map (- ·)) z

/-- `DiscreteASIFModule._filter_control` (`rta/asif.py:995-1016`). A control of the wrong length does not fit `opt_bounds`
and `obj_weight`, so `minimize` raises. The warning of line 1009 is not modelled. -/
def discFilter [Field K] [HasSqrt K] [LT K] [DecidableLT K] (solver : NLPSolver K) (next : S → K → List K → S)
    (self : DiscObj K S P) (x : S) (dt : K) (u : List K) : Except PyErr (List K) × DiscObj K S P :=
  let desired := u ++ zeros self.ext.numSlack
  match scalarBound self.ext.optLow, scalarBound self.ext.optHigh with
  | .ok lo, .ok hi =>
    if desired.length ≠ self.ext.controlDim + self.ext.numSlack then
      (.error (.valueError "The number of bounds is not compatible with the length of `x0`."), self)
    else
      match enabledCbfs next self.ext.controlDim x dt 0 (self.constraints.map (·.2)) (self.params.map (·.2))
          (self.constraintEnabled.map (·.2)) with
      | .error e => (.error e, self)
      | .ok fs =>
        let res := solver (discObj self.ext.objWeight desired) desired fs
          (List.replicate self.ext.controlDim (lo, hi) ++ List.replicate self.ext.numSlack (none, none))
        if ¬ res.success ∧ self.ext.solverException then (.error .solverError, self)
        else
          (.ok (res.x.take self.ext.controlDim), { self with
            intervening := asifMonitor self.ext.epsilon (desired.take self.ext.controlDim) (res.x.take self.ext.controlDim) })
  | .error e, _ => (.error e, self)
  | _, .error e => (.error e, self)

/-- `filter_control` of a discrete ASIF module. -/
def discreteASIF [Field K] [Max K] [Min K] [HasSqrt K] [LT K] [DecidableLT K] (solver : NLPSolver K)
    (next : S → K → List K → S) (self : DiscObj K S P) (inp : InputState S) (dt : K) (u : List K) :
    Except PyErr (List K) × DiscObj K S P :=
  filterControlCB getStateDefault (discFilter solver next) self inp dt u

end

end RTA
