import Verif.Model.Shared
import Verif.Spec.Jit

/-!
Vocabulary for C97: two simplex modules with one backup controller.
-/
namespace RTA
variable {K S P Q A : Type}

/-- `f` is `filter_control` of an explicit or implicit simplex module. -/
def IsSimplexCall [Field K] [LinearOrder K] [FloorRing K] (f : SimplexCallFn K S P A) : Prop :=
  (∃ pred, f = explicitSimplex pred) ∨ ∃ pred, f = implicitSimplex pred

/-- A controller without internal state, as constructed. -/
structure StatelessCtrl (c : BackupController K S A) : Prop where
  law : NoCtrlState c
  saved : c.stateSaved = .none
  initial : c.stateInitial = .none

/-- In the run of the shared modules every operation on the second module is a call of `filter_control` that returns a control
and leaves the module not intervening. -/
def SecondSilent (f : SimplexCallFn K S P A) (g : SimplexCallFn K S Q A) :
    List (SharedOp K S) → SimplexObj K S P A × SimplexObj K S Q A → Prop
  | [], _ => True
  | op :: l, ab =>
    (op.second = true → (∃ inp dt u, op = .call true inp dt u) ∧ (∃ c, (sharedStep f g op ab).1 = .ok c) ∧
      (sharedStep f g op ab).2.2.intervening = false) ∧
    SecondSilent f g l (sharedStep f g op ab).2

/-- The results of the operations on the first module. -/
def firstResults (l : List (Bool × SharedOut K)) : List (SharedOut K) := (l.filter fun r => !r.1).map (·.2)

/-- The results of the first module when only its operations take place. -/
def aloneResults (f : SimplexCallFn K S P A) : List (SharedOp K S) → SimplexObj K S P A → List (SharedOut K)
  | [], _ => []
  | op :: l, s => if op.second then aloneResults f l s else (simplexOp f s op).1 :: aloneResults f l (simplexOp f s op).2

end RTA
