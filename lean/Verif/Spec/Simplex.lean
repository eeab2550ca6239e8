import Verif.Spec.Modules
import Verif.Model.Simplex

/-!
Specification vocabulary for simplex modules.
-/
namespace RTA
variable {K S P A : Type}

/-- The backup controller is engaged and its latch time has not elapsed. -/
def Latched [LT K] (s : SimplexObj K S P A) : Prop := s.intervening = true ∧ s.ext.latchedElapsed < s.ext.latchTime

/-- `c` is the backup control at `x`: the control law evaluated with the controller's current internal state, clipped to
the bounds; `z` is the controller state the law returns. -/
def IsBackup [Max K] [Min K] (s : SimplexObj K S P A) (x : S) (dt : K) (c : List K) (z : CState A) : Prop :=
  ∃ ub, s.ext.ctrl.gen x dt s.ext.ctrl.state = some (ub, z) ∧ s.toBase.clipControl ub = .ok c

end RTA
