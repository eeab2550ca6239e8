import Verif.Spec.Implicit
import Verif.Spec.ASIFHistory

/-!
Histories of implicit optimisation modules as a user produces them.
-/
namespace RTA
variable {K P A : Type} [Field K] [LinearOrder K] [FloorRing K] [HasSqrt K]

/-- Execute an operation on an implicit module: the result of a call (if it is one) and the new object. -/
def stepI (solver : Solver K) (E : ImplicitEnv K) (s : ImplicitObj K P A) :
    AOp K (List K) P → Option (Except PyErr (List K)) × ImplicitObj K P A
  | .call i dt u => let r := E.call solver s i dt u; (some r.1, r.2)
  | .edit h => (none, editConstraints h s)
  | .editDirect h => (none, editDirect h s)
  | .update i => (none, (updateConstraintValues getStateDefault s i).2)
  | .setEnable b => (none, modifyBase (fun x => { x with enable := b }) s)
  | .reset => (none, (implicitReset s).2)

/-- The object after a history. -/
def runI (solver : Solver K) (E : ImplicitEnv K) : ImplicitObj K P A → List (AOp K (List K) P) → ImplicitObj K P A
  | s, [] => s
  | s, op :: ops => runI solver E (stepI solver E s op).2 ops

/-- What the user sees over a history. -/
def observeI (solver : Solver K) (E : ImplicitEnv K) :
    ImplicitObj K P A → List (AOp K (List K) P) → List (Option (Except PyErr (List K)) × BaseInfo K)
  | _, [] => []
  | s, op :: ops => ((stepI solver E s op).1, generateInfo (stepI solver E s op).2) ::
      observeI solver E (stepI solver E s op).2 ops

/-- `s` is an implicit module: constructed from dictionaries (no repeated keys), a window and a backup controller, and
then used in any way. -/
def ImplicitModule (solver : Solver K) (E : ImplicitEnv K) (s : ImplicitObj K P A) : Prop :=
  ∃ high low all use eps n exc direct window gen z c s0 ops, (dictKeys all).Nodup ∧ (dictKeys direct).Nodup ∧
    BackupController.init gen z = .ok c ∧
    asifInit (K := K) (S := List K) (P := P) (X := ImplicitExt K A) high low all use eps n exc direct ⟨window, c⟩ = .ok s0 ∧
    s = runI solver E s0 ops

/-- The control law never changes the controller's internal state. -/
def Stateless (gen : List K → K → CState A → Option (List K × CState A)) : Prop :=
  ∀ y dt z u z', gen y dt z = some (u, z') → z' = z

end RTA
