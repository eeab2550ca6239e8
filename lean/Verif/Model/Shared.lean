import Verif.Model.Simplex

/-!
Model of two simplex modules that were constructed with the same `backup_controller` object (`rta/base.py:400-401` keeps a
reference, not a copy): whatever one module does to the controller, the other one sees.
-/
namespace RTA
variable {K S P Q A : Type}

/-- What a user does with two modules; the flag says with which (`false`: the first). -/
inductive SharedOp (K S : Type) where
  | call (second : Bool) (inp : InputState S) (dt : K) (u : List K)
  | reset (second : Bool)

/-- What one operation returns: a control for `filter_control`, `None` for `reset`, or an exception. -/
abbrev SharedOut (K : Type) := Except PyErr (Option (List K))

/-- The `filter_control` of a module. -/
abbrev SimplexCallFn (K S P A : Type) :=
  SimplexObj K S P A → InputState S → K → List K → Except PyErr (List K) × SimplexObj K S P A

/-- `filter_control` or `reset` of one module. -/
def simplexOp (f : SimplexCallFn K S P A) (s : SimplexObj K S P A) : SharedOp K S → SharedOut K × SimplexObj K S P A
  | .call _ inp dt u => ((f s inp dt u).1.map some, (f s inp dt u).2)
  | .reset _ => ((simplexReset s).1.map fun _ => none, (simplexReset s).2)

/-- The module an operation is applied to. -/
def SharedOp.second : SharedOp K S → Bool
  | .call b _ _ _ => b
  | .reset b => b

/-- One operation on two modules that share the controller object: afterwards the other module holds the controller as this
operation left it. -/
def sharedStep (f : SimplexCallFn K S P A) (g : SimplexCallFn K S Q A) (op : SharedOp K S)
    (ab : SimplexObj K S P A × SimplexObj K S Q A) : SharedOut K × (SimplexObj K S P A × SimplexObj K S Q A) :=
  if op.second then
    let r := simplexOp g ab.2 op
    (r.1, (ab.1.setCtrl r.2.ext.ctrl, r.2))
  else
    let r := simplexOp f ab.1 op
    (r.1, (r.2, ab.2.setCtrl r.2.ext.ctrl))

/-- One operation on two modules with controllers of their own. -/
def ownStep (f : SimplexCallFn K S P A) (g : SimplexCallFn K S Q A) (op : SharedOp K S)
    (ab : SimplexObj K S P A × SimplexObj K S Q A) : SharedOut K × (SimplexObj K S P A × SimplexObj K S Q A) :=
  if op.second then
    let r := simplexOp g ab.2 op
    (r.1, (ab.1, r.2))
  else
    let r := simplexOp f ab.1 op
    (r.1, (r.2, ab.2))

/-- The results of a sequence of operations, with the module each belongs to. -/
def runOps {σ : Type} (step : SharedOp K S → σ → SharedOut K × σ) : List (SharedOp K S) → σ → List (Bool × SharedOut K)
  | [], _ => []
  | op :: l, s => (op.second, (step op s).1) :: runOps step l (step op s).2

end RTA
