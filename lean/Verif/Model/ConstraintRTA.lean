import Verif.Model.Base
import Verif.Model.Constraint

/-!
Model of `run_time_assurance/rta/base.py`, class `ConstraintBasedRTA` (lines 141-356).
-/
namespace RTA

/-- An instance of a class deriving from `ConstraintBasedRTA`. `S` is the internal state type, `P` the type of constraint
params, `E` the attributes added by the subclass (latches, controllers, optimisation data ...). -/
structure CBObj (K S P E : Type) extends Base K where
  constraints : Dict (Constraint K S P)
  params : Dict P
  constraintEnabled : Dict Bool
  constraintValues : Dict K
  isStaleConstraints : Bool
  ext : E

instance {K S P E : Type} : HasBase (CBObj K S P E) K where
  get s := s.toBase
  set b s := { s with toBase := b }
  get_set _ _ := rfl
  set_get _ := rfl
  set_set _ _ _ := rfl

section
variable {K S P E I : Type}

/-- The loop `for k in self.constraints.keys(): if k in constraints_to_use: new_constraints[k] = self.constraints[k]`
and the emptiness check (`rta/base.py:183-191`). -/
def selectConstraints (all : Dict (Constraint K S P)) :
    Option (List String) → Except PyErr (Dict (Constraint K S P))
  | none => .ok all
  | some use =>
    let new := all.foldl (fun acc kc => if kc.1 ∈ use then dictSet acc kc.1 kc.2 else acc) []
    if new.length ≠ 0 then .ok new
    else .error (.valueError "No constraints are used, adjust \"constraints_to_use\"")

/-- `ConstraintBasedRTA._update_params` (`rta/base.py:207-211`). -/
def updateParams (self : CBObj K S P E) : CBObj K S P E :=
  { self with
    params := self.constraints.foldl (fun d kc => dictSet d kc.1 kc.2.params) self.params
    constraintEnabled := self.constraints.foldl (fun d kc => dictSet d kc.1 kc.2.enabled) self.constraintEnabled }

/-- `ConstraintBasedRTA.__init__` (`rta/base.py:162-205`). `dict.fromkeys` (lines 203-204) followed by `_update_params`
fills every key; the model starts from the empty dict, which has the same result because `_update_params` visits the
keys in the same order. `jit` bookkeeping (lines 173-178, 196-201) is not modelled. -/
def CBObj.init (high low : Option (Bound K)) (all : Dict (Constraint K S P)) (use : Option (List String)) (ext : E) :
    Except PyErr (CBObj K S P E) :=
  match selectConstraints all use with
  | .error e => .error e
  | .ok cs =>
    .ok (updateParams
      { toBase := Base.init high low, constraints := cs, params := [], constraintEnabled := []
        constraintValues := [], isStaleConstraints := false, ext := ext })

/-- `ConstraintBasedRTA._update_constraint_values` (`rta/base.py:323-337`). -/
def updateConstraintValuesAt (self : CBObj K S P E) (x : S) (stale : Bool) : CBObj K S P E :=
  { self with
    constraintValues := self.constraints.map fun kc => (kc.1, kc.2.phiFn x kc.2.params)
    isStaleConstraints := stale }

/-- `ConstraintBasedRTA.update_constraint_values` (`rta/base.py:311-321`). `getState` is the overridable `_get_state`
(lines 298-309): it may raise and may modify the object. -/
def updateConstraintValues (getState : CBObj K S P E → I → Except PyErr S × CBObj K S P E)
    (self : CBObj K S P E) (inp : I) : Except PyErr Unit × CBObj K S P E :=
  match getState self inp with
  | (.error e, self) => (.error e, self)
  | (.ok x, self) => (.ok (), updateConstraintValuesAt self x false)

/-- `ConstraintBasedRTA.compute_filtered_control` (`rta/base.py:213-238`). `filter` is the abstract `_filter_control`. -/
def computeFilteredControl (getState : CBObj K S P E → I → Except PyErr S × CBObj K S P E)
    (filter : CBObj K S P E → S → K → List K → Except PyErr (List K) × CBObj K S P E)
    (self : CBObj K S P E) (inp : I) (dt : K) (u : List K) : Except PyErr (List K) × CBObj K S P E :=
  let self := updateParams self
  match getState self inp with
  | (.error e, self) => (.error e, self)
  | (.ok x, self) =>
    let self := updateConstraintValuesAt self x true
    match filter self x dt u with
    | (.error e, self) => (.error e, self)
    | (.ok c, self) => (.ok c, { self with controlActual := some c })

/-- The user visible `filter_control` of a constraint based module: `RTAModule.filter_control` with
`compute_filtered_control` as above. -/
def filterControlCB [Max K] [Min K] (getState : CBObj K S P E → I → Except PyErr S × CBObj K S P E)
    (filter : CBObj K S P E → S → K → List K → Except PyErr (List K) × CBObj K S P E)
    (self : CBObj K S P E) (inp : I) (dt : K) (u : List K) : Except PyErr (List K) × CBObj K S P E :=
  filterControl (computeFilteredControl getState filter) self inp dt u

/-- Inputs of the default `_get_state` (`rta/base.py:298-309`): an array or something else. -/
inductive InputState (S : Type) where
  | array (x : S)
  | notArray
deriving Repr, DecidableEq

/-- The default `ConstraintBasedRTA._get_state` (`rta/base.py:298-309`). -/
def getStateDefault (self : CBObj K S P E) : InputState S → Except PyErr S × CBObj K S P E
  | .array x => (.ok x, self)
  | .notArray => (.error (.assertionError "input_state must be an RTAState or numpy array."), self)

/-- The info dictionary of `ConstraintBasedRTA.generate_info` (`rta/base.py:339-356`): the base entries and exactly one
entry for constraint values, under the key chosen at lines 349-352. -/
structure CBInfo (K : Type) where
  base : BaseInfo K
  constraintKey : String
  constraintVals : Dict K

/-- `ConstraintBasedRTA.generate_info` (`rta/base.py:339-356`). -/
def generateInfoCB (self : CBObj K S P E) : CBInfo K :=
  { base := generateInfo self
    constraintKey := if self.isStaleConstraints then "constraints_at_last_state" else "constraints"
    constraintVals := self.constraintValues }

end

end RTA
