import Verif.Model.ConstraintRTA
import Verif.Model.Controller
import Mathlib.Algebra.Order.Floor.Ring

/-!
Model of `run_time_assurance/rta/simplex.py` and of `BackupControlBasedRTA` (`rta/base.py:390-446`).
-/
namespace RTA

/-- Attributes added by `SimplexModule` (`rta/simplex.py:30-33`), `BackupControlBasedRTA` (`rta/base.py:400-401`) and
`ImplicitSimplexModule` (`rta/simplex.py:252-254`; `backupWindow` is unused by the explicit variant). -/
structure SimplexExt (K S A : Type) where
  latchTime : K
  latchedElapsed : K
  backupWindow : K
  ctrl : BackupController K S A

/-- A simplex module object. -/
abbrev SimplexObj (K S P A : Type) := CBObj K S P (SimplexExt K S A)

section
variable {K S P A : Type}

/-- Replace the backup controller of the object. -/
def SimplexObj.setCtrl (self : SimplexObj K S P A) (c : BackupController K S A) : SimplexObj K S P A :=
  { self with ext := { self.ext with ctrl := c } }

/-- `BackupControlBasedRTA.backup_control` (`rta/base.py:407-424`): generate, then clip. -/
def backupControl [Max K] [Min K] (self : SimplexObj K S P A) (x : S) (dt : K) :
    Except PyErr (List K) × SimplexObj K S P A :=
  match self.ext.ctrl.generateControl x dt with
  | (.error e, c) => (.error e, self.setCtrl c)
  | (.ok u, c) => (self.toBase.clipControl u, self.setCtrl c)

/-- `BackupControlBasedRTA.backup_controller_save` (`rta/base.py:431-435`). -/
def backupControllerSave (self : SimplexObj K S P A) : Except PyErr Unit × SimplexObj K S P A :=
  match self.ext.ctrl.save with
  | (r, c) => (r, self.setCtrl c)

/-- `BackupControlBasedRTA.backup_controller_restore` (`rta/base.py:437-441`). -/
def backupControllerRestore (self : SimplexObj K S P A) : SimplexObj K S P A :=
  self.setCtrl self.ext.ctrl.restore

/-- `SimplexModule.reset` (`rta/simplex.py:35-40`): base reset, then backup controller reset. -/
def simplexReset (self : SimplexObj K S P A) : Except PyErr Unit × SimplexObj K S P A :=
  let self := Base.reset self
  match self.ext.ctrl.reset with
  | (r, c) => (r, self.setCtrl c)

/-- `SimplexModule._get_constraint_vals_no_vmap` (`rta/simplex.py:185-223`): the append loop. The `vmap` variant
(lines 182-201) computes the same list. -/
def constraintVals [Add K] (c : Constraint K S P) (states : List S) (p : P) : List K :=
  states.foldl (fun acc x => acc ++ [c.compute x p]) []

/-- The loop body of `SimplexModule._constraint_violation` (`rta/simplex.py:154-170`) for one constraint: is some value
negative, after replacing the values by zeros when the constraint is disabled? -/
def constraintViolated [Add K] [Zero K] [LT K] [DecidableLT K] (c : Constraint K S P) (p : P) (en : Bool)
    (states : List S) : Bool :=
  let vals := constraintVals c states p
  let vals := if en then vals else vals.map fun _ => 0
  vals.any fun v => decide (v < 0)

/-- `SimplexModule._constraint_violation` (`rta/simplex.py:134-180`): the vector of violation flags and its `any`.
Missing dictionary keys raise `KeyError`. -/
def constraintViolationLoop [Add K] [Zero K] [LT K] [DecidableLT K] (params : Dict P) (en : Dict Bool)
    (states : List S) : Dict (Constraint K S P) → Except PyErr (List Bool)
  | [] => .ok []
  | (k, c) :: rest =>
    match dictGet params k, dictGet en k with
    | some p, some e =>
      match constraintViolationLoop params en states rest with
      | .error er => .error er
      | .ok l => .ok (constraintViolated c p e states :: l)
    | _, _ => .error (.keyError k)

/-- `jnp.any(constraint_violations)` (`rta/simplex.py:172`). -/
def constraintViolation [Add K] [Zero K] [LT K] [DecidableLT K] (self : SimplexObj K S P A) (states : List S) :
    Except PyErr Bool :=
  match constraintViolationLoop self.params self.constraintEnabled states self.constraints with
  | .error e => .error e
  | .ok l => .ok (l.any id)

/-- `SimplexModule._filter_control` (`rta/simplex.py:69-91`). `monitor` is the method `monitor` (`rta/simplex.py:93-110`), which
calls the abstract `_monitor`. -/
def simplexFilter [Max K] [Min K] [Add K] [Zero K] [LE K] [DecidableLE K]
    (monitor : SimplexObj K S P A → S → K → List K → Except PyErr Bool × SimplexObj K S P A)
    (self : SimplexObj K S P A) (x : S) (dt : K) (u : List K) : Except PyErr (List K) × SimplexObj K S P A :=
  -- lines 74-80
  let (latched, self) :=
    if self.intervening then
      if self.ext.latchedElapsed ≥ self.ext.latchTime then
        (false, { self with ext := { self.ext with latchedElapsed := 0 } })
      else
        (true, { self with ext := { self.ext with latchedElapsed := self.ext.latchedElapsed + dt } })
    else (false, self)
  -- lines 82-91
  if latched then backupControl self x dt
  else
    match monitor self x dt u with
    | (.error e, self) => (.error e, self)
    | (.ok b, self) =>
      let self := { self with intervening := b }
      if b then backupControl self x dt else (.ok u, self)

/-- `ExplicitSimplexModule._monitor` (`rta/simplex.py:232-234`). `pred` is the abstract `_pred_state`
(`rta/base.py:443-446`), a pure function. -/
def explicitMonitor [Add K] [Zero K] [LT K] [DecidableLT K] (pred : S → K → List K → S)
    (self : SimplexObj K S P A) (x : S) (dt : K) (u : List K) : Except PyErr Bool × SimplexObj K S P A :=
  (constraintViolation self [pred x dt u], self)

/-- The loop of `ImplicitSimplexModule.integrate` (`rta/simplex.py:304-307`): `n` backup steps from `x`, appending every
state. -/
def integrateLoop [Max K] [Min K] (pred : S → K → List K → S) (dt : K) :
    Nat → SimplexObj K S P A → S → List S → Except PyErr (List S) × SimplexObj K S P A
  | 0, self, _, acc => (.ok acc, self)
  | n + 1, self, x, acc =>
    match backupControl self x dt with
    | (.error e, self) => (.error e, self)
    | (.ok u, self) => integrateLoop pred dt n self (pred x dt u) (acc ++ [pred x dt u])

/-- Python `int(q)`: truncation toward zero. -/
def pyInt [Field K] [LinearOrder K] [FloorRing K] (q : K) : Int := if 0 ≤ q then ⌊q⌋ else ⌈q⌉

/-- `int(self.backup_window / step_size)` (`rta/simplex.py:298`, `rta/asif.py:590`); a zero step size raises. -/
def backupSteps [Field K] [LinearOrder K] [FloorRing K] (window dt : K) : Except PyErr Int :=
  if dt = 0 then .error .zeroDivision else .ok (pyInt (window / dt))

/-- `ImplicitSimplexModule.integrate` (`rta/simplex.py:280-311`). `range(Nsteps)` is empty for negative `Nsteps`. -/
def implicitIntegrate [Field K] [LinearOrder K] [FloorRing K] (pred : S → K → List K → S)
    (self : SimplexObj K S P A) (x : S) (dt : K) (u : List K) : Except PyErr (List S) × SimplexObj K S P A :=
  match backupSteps self.ext.backupWindow dt with
  | .error e => (.error e, self)
  | .ok n =>
    let x := pred x dt u
    match backupControllerSave self with
    | (.error e, self) => (.error e, self)
    | (.ok (), self) =>
      match integrateLoop pred dt n.toNat self x [x] with
      | (.error e, self) => (.error e, self)
      | (.ok traj, self) => (.ok traj, backupControllerRestore self)

/-- `ImplicitSimplexModule._monitor` (`rta/simplex.py:274-278`). -/
def implicitMonitor [Field K] [LinearOrder K] [FloorRing K] (pred : S → K → List K → S)
    (self : SimplexObj K S P A) (x : S) (dt : K) (u : List K) : Except PyErr Bool × SimplexObj K S P A :=
  match implicitIntegrate pred self x dt u with
  | (.error e, self) => (.error e, self)
  | (.ok traj, self) => (constraintViolation self traj, self)

/-- `filter_control` of an `ExplicitSimplexModule`. -/
def explicitSimplex [Max K] [Min K] [Add K] [Zero K] [LE K] [DecidableLE K] [LT K] [DecidableLT K]
    (pred : S → K → List K → S) (self : SimplexObj K S P A) (inp : InputState S) (dt : K) (u : List K) :
    Except PyErr (List K) × SimplexObj K S P A :=
  filterControlCB getStateDefault (simplexFilter (explicitMonitor pred)) self inp dt u

/-- `filter_control` of an `ImplicitSimplexModule`. -/
def implicitSimplex [Field K] [LinearOrder K] [FloorRing K]
    (pred : S → K → List K → S) (self : SimplexObj K S P A) (inp : InputState S) (dt : K) (u : List K) :
    Except PyErr (List K) × SimplexObj K S P A :=
  filterControlCB getStateDefault (simplexFilter (implicitMonitor pred)) self inp dt u

/-- `SimplexModule.__init__` (`rta/simplex.py:30-33, 252-254`, `rta/base.py:400-405`). -/
def simplexInit [Zero K] (high low : Option (Bound K)) (all : Dict (Constraint K S P)) (use : Option (List String))
    (latchTime backupWindow : K) (ctrl : BackupController K S A) : Except PyErr (SimplexObj K S P A) :=
  CBObj.init high low all use { latchTime := latchTime, latchedElapsed := 0, backupWindow := backupWindow, ctrl := ctrl }

end

end RTA
