import Verif.Model.Jit
import Verif.Model.Zoo.Docking

/-!
Model of the compile options `pred_state` and `integrate` of simplex modules (`rta/simplex.py:42-67, 256-272`) for predictions
that may raise while they are traced. `Model/Jit.lean` takes predictions that can be traced; here only the option and the
prediction matter, so traces are not kept and the other compiled parts are those of `Model/Simplex.lean`.

`jax` (not part of the repository) is taken to raise `TracerArrayConversionError`, a `TypeError`, when `np.array` is applied to a
traced array.
-/
namespace RTA

/-- The message of `jax.errors.TracerArrayConversionError`. -/
def tracerArrayMsg : String := "The numpy.ndarray conversion method __array__() was called on traced array"

/-- `np.array(a)` (`zoo/cwh/docking_2d.py:148-149`) for a concrete or a traced array. -/
def npArrayOf {K : Type} (traced : Bool) (a : List K) : Except PyErr (List K) :=
  if traced then .error (.typeError tracerArrayMsg) else .ok a

/-- `Docking2dRTAMixin._docking_pred_state` (`zoo/cwh/docking_2d.py:144-151`): `step` is `self.dynamics.step`. -/
def dockPred2 {K : Type} (step : List K → K → List K → List K) (traced : Bool) (x : List K) (dt : K) (u : List K) :
    Except PyErr (List K) :=
  match npArrayOf traced x with
  | .error e => .error e
  | .ok x =>
    match npArrayOf traced u with
    | .error e => .error e
    | .ok u => .ok (step x dt u)

/-- `Docking3dRTAMixin._docking_pred_state` (`zoo/cwh/docking_3d.py:171-176`). -/
def dockPred3 {K : Type} (step : List K → K → List K → List K) (_ : Bool) (x : List K) (dt : K) (u : List K) :
    Except PyErr (List K) := .ok (step x dt u)

/-- The options of `compose` about predictions. -/
structure PredOptions where
  predJit : Bool
  integrateJit : Bool

/-- `SimplexModule.compose` and `ImplicitSimplexModule.compose` (`rta/simplex.py:59-62, 269-272`); an explicit module has no
`integrate`. -/
def PredOptions.compose (jitEnable : Bool) (opts : Dict Bool) : PredOptions :=
  ⟨jitOption jitEnable opts "pred_state" false, jitOption jitEnable opts "integrate" false⟩

section
variable {K S P A : Type}

/-- `self._pred_state_fn(state, step_size, control)`; `inside` tells whether the caller is being traced. -/
def predFn (pred : Bool → S → K → List K → Except PyErr S) (o : PredOptions) (inside : Bool) (x : S) (dt : K) (u : List K) :
    Except PyErr S := pred (inside || o.predJit) x dt u

/-- `ExplicitSimplexModule._monitor` (`rta/simplex.py:232-234`). -/
def explicitMonitorP [Add K] [Zero K] [LT K] [DecidableLT K] (pred : Bool → S → K → List K → Except PyErr S) (o : PredOptions)
    (self : SimplexObj K S P A) (x : S) (dt : K) (u : List K) : Except PyErr Bool × SimplexObj K S P A :=
  match predFn pred o false x dt u with
  | .error e => (.error e, self)
  | .ok y => (constraintViolation self [y], self)

/-- The loop of `ImplicitSimplexModule.integrate` (`rta/simplex.py:304-307`). -/
def integrateLoopP [Max K] [Min K] (pred : Bool → S → K → List K → Except PyErr S) (o : PredOptions) (dt : K) :
    Nat → SimplexObj K S P A → S → List S → Except PyErr (List S) × SimplexObj K S P A
  | 0, self, _, acc => (.ok acc, self)
  | n + 1, self, x, acc =>
    match backupControl self x dt with
    | (.error e, self) => (.error e, self)
    | (.ok u, self) =>
      match predFn pred o o.integrateJit x dt u with
      | .error e => (.error e, self)
      | .ok y => integrateLoopP pred o dt n self y (acc ++ [y])

/-- `ImplicitSimplexModule.integrate` (`rta/simplex.py:280-311`). -/
def implicitIntegrateP [Field K] [LinearOrder K] [FloorRing K] (pred : Bool → S → K → List K → Except PyErr S) (o : PredOptions)
    (self : SimplexObj K S P A) (x : S) (dt : K) (u : List K) : Except PyErr (List S) × SimplexObj K S P A :=
  match backupSteps self.ext.backupWindow dt with
  | .error e => (.error e, self)
  | .ok n =>
    match predFn pred o o.integrateJit x dt u with
    | .error e => (.error e, self)
    | .ok x =>
      match backupControllerSave self with
      | (.error e, self) => (.error e, self)
      | (.ok (), self) =>
        match integrateLoopP pred o dt n.toNat self x [x] with
        | (.error e, self) => (.error e, self)
        | (.ok traj, self) => (.ok traj, backupControllerRestore self)

/-- `ImplicitSimplexModule._monitor` (`rta/simplex.py:274-278`). -/
def implicitMonitorP [Field K] [LinearOrder K] [FloorRing K] (pred : Bool → S → K → List K → Except PyErr S) (o : PredOptions)
    (self : SimplexObj K S P A) (x : S) (dt : K) (u : List K) : Except PyErr Bool × SimplexObj K S P A :=
  match implicitIntegrateP pred o self x dt u with
  | (.error e, self) => (.error e, self)
  | (.ok traj, self) => (constraintViolation self traj, self)

/-- `filter_control` of an `ExplicitSimplexModule` with these options. -/
def explicitSimplexP [Max K] [Min K] [Add K] [Zero K] [LE K] [DecidableLE K] [LT K] [DecidableLT K]
    (pred : Bool → S → K → List K → Except PyErr S) (o : PredOptions) (self : SimplexObj K S P A) (inp : InputState S) (dt : K)
    (u : List K) : Except PyErr (List K) × SimplexObj K S P A :=
  filterControlCB getStateDefault (simplexFilter (explicitMonitorP pred o)) self inp dt u

/-- `filter_control` of an `ImplicitSimplexModule` with these options. -/
def implicitSimplexP [Field K] [LinearOrder K] [FloorRing K]
    (pred : Bool → S → K → List K → Except PyErr S) (o : PredOptions) (self : SimplexObj K S P A) (inp : InputState S) (dt : K)
    (u : List K) : Except PyErr (List K) × SimplexObj K S P A :=
  filterControlCB getStateDefault (simplexFilter (implicitMonitorP pred o)) self inp dt u

end
end RTA
