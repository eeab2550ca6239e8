import Verif.Model.ConstraintRTA

/-!
Vocabulary for C88: the user assigns the attributes `control_bounds_high` and `control_bounds_low` of an existing module
(`rta/base.py:32-33`).
-/
namespace RTA
variable {K S P E : Type}

/-- The module after `control_bounds_high = high; control_bounds_low = low`. -/
def CBObj.withBounds (s : CBObj K S P E) (high low : Option (Bound K)) : CBObj K S P E :=
  { s with controlBoundsHigh := high, controlBoundsLow := low }

/-- A control clipped to the given bounds (C05 says what that means). -/
def clipTo [Max K] [Min K] (high low : Option (Bound K)) (u : List K) : Except PyErr (List K) :=
  (Base.init high low).clipControl u

end RTA
