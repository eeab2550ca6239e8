import Verif.Model.Py

/-!
Model of `run_time_assurance/controller.py`.
-/
namespace RTA

/-- The internal state of a backup controller (`controller.py:18, 42-52`): `None`, an array, a dict of arrays, or a value
of an unsupported type. `A` is the type of array contents. -/
inductive CState (A : Type) where
  | none
  | array (a : A)
  | dict (d : Dict A)
  | unsupported (a : A)
deriving Repr, DecidableEq

/-- `RTABackupController._copy_controller_state` (`controller.py:42-52`). Copies are value copies. -/
def CState.copy {A : Type} : CState A → Except PyErr (CState A)
  | .none => .ok .none
  | .array a => .ok (.array a)
  | .dict d => .ok (.dict d)
  | .unsupported _ =>
    .error (.typeError "controller_state to copy must be one of (jnp.ndarray, Dict[str,jnp.ndarray], None)")

/-- An `RTABackupController` object (`controller.py:14-34`). `gen` is the abstract method `_generate_control`
(lines 108-138); `none` stands for a return value that is not a 2-tuple. `_generate_control` is a pure function of its
arguments, as the class documentation requires (lines 83-84). -/
structure BackupController (K S A : Type) where
  gen : S → K → CState A → Option (List K × CState A)
  stateInitial : CState A
  stateSaved : CState A
  state : CState A

section
variable {K S A : Type}

/-- `RTABackupController.__init__` (`controller.py:18-24`). -/
def BackupController.init (gen : S → K → CState A → Option (List K × CState A)) (initial : CState A) :
    Except PyErr (BackupController K S A) :=
  match initial.copy with
  | .error e => .error e
  | .ok i =>
    match i.copy with
    | .error e => .error e
    | .ok s => .ok { gen := gen, stateInitial := i, stateSaved := .none, state := s }

/-- `RTABackupController.reset` (`controller.py:36-40`). -/
def BackupController.reset (c : BackupController K S A) : Except PyErr Unit × BackupController K S A :=
  match c.stateInitial.copy with
  | .error e => (.error e, c)
  | .ok s => (.ok (), { c with state := s })

/-- `RTABackupController.generate_control` (`controller.py:54-73`). -/
def BackupController.generateControl (c : BackupController K S A) (x : S) (dt : K) :
    Except PyErr (List K) × BackupController K S A :=
  match c.gen x dt c.state with
  | none => (.error (.valueError "_generate_control should return 2 values: the control vector and the updated controller state"), c)
  | some (u, z) => (.ok u, { c with state := z })

/-- `RTABackupController.generate_control_with_controller_state` (`controller.py:75-106`): returns the raw result. -/
def BackupController.generateControlWithControllerState (c : BackupController K S A) (x : S) (dt : K)
    (z : CState A) : Option (List K × CState A) × BackupController K S A :=
  (c.gen x dt z, c)

/-- `RTABackupController.save` (`controller.py:157-161`). -/
def BackupController.save (c : BackupController K S A) : Except PyErr Unit × BackupController K S A :=
  match c.state.copy with
  | .error e => (.error e, c)
  | .ok s => (.ok (), { c with stateSaved := s })

/-- `RTABackupController.restore` (`controller.py:163-169`). -/
def BackupController.restore (c : BackupController K S A) : BackupController K S A :=
  { c with state := c.stateSaved }

end

end RTA
