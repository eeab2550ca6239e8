import Verif.Spec.ASIF

/-!
Histories of optimisation based modules as a user produces them.
-/
namespace RTA
variable {K S P X : Type}

/-- User visible operations on an optimisation based module. -/
inductive AOp (K S P : Type) where
  | call (inp : InputState S) (dt : K) (u : List K)
  | edit (f : String → P × Bool → P × Bool)
  | editDirect (f : String → P × Bool → P × Bool)
  | update (inp : InputState S)
  | setEnable (b : Bool)
  | reset

section
variable [Add K] [Mul K] [Neg K] [Sub K] [Zero K] [One K] [OfNat K 10] [Max K] [Min K] [HasSqrt K] [LT K] [DecidableLT K]

/-- Execute an operation on an explicit module: the result of a call (if it is one) and the new object. An
`ExplicitASIFModule` does not override `reset`. -/
def stepE (solver : Solver K) (f : S → List K) (g : S → List (List K)) (s : ASIFObj K S P X) :
    AOp K S P → Option (Except PyErr (List K)) × ASIFObj K S P X
  | .call i dt u => let r := explicitASIF solver f g s i dt u; (some r.1, r.2)
  | .edit h => (none, editConstraints h s)
  | .editDirect h => (none, editDirect h s)
  | .update i => (none, (updateConstraintValues getStateDefault s i).2)
  | .setEnable b => (none, modifyBase (fun x => { x with enable := b }) s)
  | .reset => (none, Base.reset s)

/-- The object after a history. -/
def runE (solver : Solver K) (f : S → List K) (g : S → List (List K)) : ASIFObj K S P X → List (AOp K S P) → ASIFObj K S P X
  | s, [] => s
  | s, op :: ops => runE solver f g (stepE solver f g s op).2 ops

/-- What the user sees over a history: results and exceptions of calls, and the enabled/intervening/desired/actual
entries of `generate_info` after every operation. -/
def observeE (solver : Solver K) (f : S → List K) (g : S → List (List K)) :
    ASIFObj K S P X → List (AOp K S P) → List (Option (Except PyErr (List K)) × BaseInfo K)
  | _, [] => []
  | s, op :: ops => ((stepE solver f g s op).1, generateInfo (stepE solver f g s op).2) ::
      observeE solver f g (stepE solver f g s op).2 ops

/-- `s` is an explicit module: constructed from dictionaries (no repeated keys) and then used in any way. -/
def ExplicitModule (solver : Solver K) (f : S → List K) (g : S → List (List K)) (s : ASIFObj K S P X) : Prop :=
  ∃ high low all use eps n exc direct extra s0 ops, (dictKeys all).Nodup ∧ (dictKeys direct).Nodup ∧
    asifInit (K := K) (S := S) (P := P) (X := X) high low all use eps n exc direct extra = .ok s0 ∧
    s = runE solver f g s0 ops

end

end RTA
