import Verif.Model.Discrete

/-!
`DiscreteASIFModule` with the list `scipy_constraints` it keeps from its construction (`rta/asif.py:981-993`). The model of
`Model/Discrete.lean` recomputes that list from the constraints at every call, which is the same as long as the dictionary
`constraints` is not changed (`discStored_eq`).
-/
namespace RTA
variable {K S P : Type}

/-- `DiscreteASIFModule.__init__` (`rta/asif.py:984-993`): the constraint objects with the indices of their slack variables. -/
def storeCbfs : Nat → List (Constraint K S P) → List (Constraint K S P × Option Nat)
  | _, [] => []
  | sc, c :: cs =>
    (c, if c.slackPriorityScale.isSome then some sc else none) ::
      storeCbfs (if c.slackPriorityScale.isSome then sc + 1 else sc) cs

/-- The selection of the enabled constraints (`rta/asif.py:997-1002`): the stored list zipped with the values of the
dictionaries `params` and `constraint_enabled_dict`. -/
def storedCbfs [Add K] [Sub K] [Mul K] [Div K] [Zero K] (next : S → K → List K → S) (controlDim : Nat) (x : S) (dt : K) :
    List (Constraint K S P × Option Nat) → List P → List Bool → Except PyErr (List (List K → K))
  | ci :: cs, p :: ps, e :: es =>
    match storedCbfs next controlDim x dt cs ps es with
    | .error er => .error er
    | .ok fs =>
      if e then
        match ci.1.alpha with
        | none => .error (.assertionError "alpha must be an instance/sub-class of ConstraintStrenthener")
        | some al => .ok (cbfFn ci.1 al next controlDim ci.2 x dt p :: fs)
      else .ok fs
  | _, _, _ => .ok []

/-- `DiscreteASIFModule._filter_control` (`rta/asif.py:995-1016`) with the stored list. -/
def discFilterStored [Field K] [HasSqrt K] [LT K] [DecidableLT K] (solver : NLPSolver K) (next : S → K → List K → S)
    (stored : List (Constraint K S P × Option Nat)) (self : DiscObj K S P) (x : S) (dt : K) (u : List K) :
    Except PyErr (List K) × DiscObj K S P :=
  let desired := u ++ zeros self.ext.numSlack
  match scalarBound self.ext.optLow, scalarBound self.ext.optHigh with
  | .ok lo, .ok hi =>
    if desired.length ≠ self.ext.controlDim + self.ext.numSlack then
      (.error (.valueError "The number of bounds is not compatible with the length of `x0`."), self)
    else
      match storedCbfs next self.ext.controlDim x dt stored (self.params.map (·.2)) (self.constraintEnabled.map (·.2)) with
      | .error e => (.error e, self)
      | .ok fs =>
        let res := solver (discObj self.ext.objWeight desired) desired fs
          (List.replicate self.ext.controlDim (lo, hi) ++ List.replicate self.ext.numSlack (none, none))
        if ¬ res.success ∧ self.ext.solverException then (.error .solverError, self)
        else
          (.ok (res.x.take self.ext.controlDim), { self with
            intervening := asifMonitor self.ext.epsilon (desired.take self.ext.controlDim) (res.x.take self.ext.controlDim) })
  | .error e, _ => (.error e, self)
  | _, .error e => (.error e, self)

/-- `filter_control` of a discrete ASIF module with the list stored at construction. -/
def discreteStored [Field K] [Max K] [Min K] [HasSqrt K] [LT K] [DecidableLT K] (solver : NLPSolver K)
    (next : S → K → List K → S) (stored : List (Constraint K S P × Option Nat)) (self : DiscObj K S P) (inp : InputState S) (dt : K)
    (u : List K) : Except PyErr (List K) × DiscObj K S P :=
  filterControlCB getStateDefault (discFilterStored solver next stored) self inp dt u

end RTA
