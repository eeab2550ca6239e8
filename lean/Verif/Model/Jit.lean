import Verif.Model.Simplex
import Verif.Model.Implicit

/-!
Model of the `compose` methods (`rta/simplex.py:42-67, 256-272`, `rta/asif.py:106-124, 495-535`) and of the filters as they
run with `jit_enable=True`, the default. `jax.jit` traces a Python function once per signature (static arguments, tree
structure, shapes and types of the others); later calls with the same signature replay the trace, so attributes of `self`
that the function reads keep the values they had when it was traced. Arguments are passed anew in every call.

Simplifications. The signature is a parameter (`sig`) of the model. `_compute`, `_phi`, the gradients, `f`, `g` and `pred`
are pure functions of their arguments, as the documentation of the code requires (`constraint.py:155-156`), so the `jit` of
`constraint.py:105-115` and the option `pred_state` (`rta/simplex.py:59-62`) change nothing; constraints that wrap compiled
constraints are in `Model/JitHocbf.lean`. Values in `params` are numbers or
arrays. A trace that raises is not kept. Tracing `integrate` (option `integrate` of implicit simplex modules, default `False`)
with a controller that is not compiled and has internal state leaves tracers in that state, which the model does not express;
no theorem is about that case.
-/
namespace RTA

/-- The traces of one jitted method: the object as it was when the trace was made. -/
abbrev JitCache (Sig O : Type) := List (Sig × O)

/-- The trace for a signature. -/
def jitLookup {Sig O : Type} [DecidableEq Sig] : JitCache Sig O → Sig → Option O
  | [], _ => none
  | (s, o) :: c, q => if s = q then some o else jitLookup c q

/-- A call of `jit(self.method)` (or of `self.method` itself when `on` is false): `run o` is what the method computes, from
the arguments of this call, when it reads its attributes from `o`. -/
def jitCall {Sig O R : Type} [DecidableEq Sig] (on : Bool) (run : O → Except PyErr R) (cache : JitCache Sig O) (q : Sig)
    (self : O) : Except PyErr R × JitCache Sig O :=
  if on then
    match jitLookup cache q with
    | some snap => (run snap, cache)
    | none =>
      match run self with
      | .error e => (.error e, cache)
      | .ok r => (.ok r, (q, self) :: cache)
  else (run self, cache)

/-- A module object together with what `compose` adds. -/
structure JObj (O C : Type) where
  obj : O
  jit : C

instance {K O C : Type} [HasBase O K] : HasBase (JObj O C) K where
  get s := HasBase.get s.obj
  set b s := { s with obj := HasBase.set b s.obj }
  get_set _ _ := HasBase.get_set _ _
  set_get s := by cases s; simp [HasBase.set_get]
  set_set _ _ _ := by simp [HasBase.set_set]

/-- The message of `jax` for an argument declared static that is not hashable. -/
def nonHashableMsg : String := "Non-hashable static arguments are used in a jit function"

/-- `jit_enable and jit_compile_dict.get(name, default)` (`rta/simplex.py:54, 59, 269`, `rta/asif.py:116, 121, 508, 515, 522, 527`).
-/
def jitOption (jitEnable : Bool) (opts : Dict Bool) (name : String) (default : Bool) : Bool :=
  jitEnable && (dictGet opts name).getD default

section
variable {K S P A E X I C Sig : Type}

/-- `ConstraintBasedRTA.compute_filtered_control` (`rta/base.py:213-238`), as `computeFilteredControl`. -/
def computeFilteredControlJ (getState : CBObj K S P E → I → Except PyErr S × CBObj K S P E)
    (filter : JObj (CBObj K S P E) C → S → K → List K → Except PyErr (List K) × JObj (CBObj K S P E) C)
    (self : JObj (CBObj K S P E) C) (inp : I) (dt : K) (u : List K) : Except PyErr (List K) × JObj (CBObj K S P E) C :=
  match getState (updateParams self.obj) inp with
  | (.error e, o) => (.error e, { self with obj := o })
  | (.ok x, o) =>
    match filter { self with obj := updateConstraintValuesAt o x true } x dt u with
    | (.error e, self) => (.error e, self)
    | (.ok c, self) => (.ok c, { self with obj := { self.obj with controlActual := some c } })

/-- What `SimplexModule.compose` and `ImplicitSimplexModule.compose` (`rta/simplex.py:42-67, 256-272`) and the controller's
`_compose` (`controller.py:26-34`) set up: the options and the traces of `_constraint_violation`, of the controller's
`_generate_control` and of `integrate`. The trace of `integrate` includes what the traced `_generate_control` gave. -/
structure SimplexJit (Sig O : Type) where
  violationJit : Bool
  ctrlJit : Bool
  integrateJit : Bool
  violation : JitCache Sig O
  control : JitCache Sig O
  integrate : JitCache Sig (O × JitCache Sig O)

/-- A simplex module with its compiled methods. -/
abbrev SimplexJ (Sig K S P A : Type) := JObj (SimplexObj K S P A) (SimplexJit Sig (SimplexObj K S P A))

/-- The signatures of the arguments of `_constraint_violation`, `_generate_control` (whose static argument `controller_state` is
`None` in every call that does not raise) and `integrate`. -/
structure SimplexSig (Sig K S P : Type) where
  violation : List S → Dict P → Dict Bool → Sig
  control : S → K → Sig
  integrate : S → K → List K → Sig

/-- `ConstraintBasedRTA.__init__`, `BackupControlBasedRTA.__init__` and `SimplexModule.compose` (`rta/base.py:173-201, 400-405`,
`rta/simplex.py:53-67`): `ctrlJit` is the `jit_enable` argument given to the backup controller, switched off with the module's. -/
def SimplexJ.compose (jitEnable ctrlJit : Bool) (opts : Dict Bool) (o : SimplexObj K S P A) : SimplexJ Sig K S P A :=
  ⟨o, ⟨jitOption jitEnable opts "constraint_violation" true, jitEnable && ctrlJit, false, [], [], []⟩⟩

/-- The same with `ImplicitSimplexModule.compose` (`rta/simplex.py:256-272`). -/
def SimplexJ.composeImplicit (jitEnable ctrlJit : Bool) (opts : Dict Bool) (o : SimplexObj K S P A) : SimplexJ Sig K S P A :=
  ⟨o, ⟨jitOption jitEnable opts "constraint_violation" true, jitEnable && ctrlJit, jitOption jitEnable opts "integrate" false,
    [], [], []⟩⟩

/-- `BackupControlBasedRTA.backup_control` (`rta/base.py:407-424`) and `generate_control` (`controller.py:54-73`) with
`_generate_control_fn` jitted as in `controller.py:31`: `controller_state` is a static argument; arrays and dicts are not
hashable. The control bounds are read outside the compiled function. -/
def backupControlJ [DecidableEq Sig] [Max K] [Min K] (sig : SimplexSig Sig K S P) (self : SimplexJ Sig K S P A) (x : S) (dt : K) :
    Except PyErr (List K) × SimplexJ Sig K S P A :=
  match self.jit.ctrlJit, self.obj.ext.ctrl.state with
  | true, .array _ | true, .dict _ | true, .unsupported _ => (.error (.valueError nonHashableMsg), self)
  | on, z =>
    match jitCall on (fun o => .ok (o.ext.ctrl.gen x dt z)) self.jit.control (sig.control x dt) self.obj with
    | (.error e, c) => (.error e, { self with jit := { self.jit with control := c } })
    | (.ok none, c) =>
      (.error (.valueError "_generate_control should return 2 values: the control vector and the updated controller state"),
        { self with jit := { self.jit with control := c } })
    | (.ok (some (u, z)), c) =>
      (self.obj.toBase.clipControl u,
        { obj := self.obj.setCtrl { self.obj.ext.ctrl with state := z }, jit := { self.jit with control := c } })

/-- `SimplexModule.reset` (`rta/simplex.py:35-40`): the reset of the controller composes it anew (`controller.py:36-40`), which
drops its traces; those of the module stay. -/
def simplexResetJ (self : SimplexJ Sig K S P A) : Except PyErr Unit × SimplexJ Sig K S P A :=
  match simplexReset self.obj with
  | (.error e, o) => (.error e, { self with obj := o })
  | (.ok (), o) => (.ok (), { obj := o, jit := { self.jit with control := [] } })

/-- `self._constraint_violation_fn(states, self.params, self.constraint_enabled_dict)` (`rta/simplex.py:54-57, 234, 278`). -/
def constraintViolationJ [DecidableEq Sig] [Add K] [Zero K] [LT K] [DecidableLT K]
    (sig : SimplexSig Sig K S P) (self : SimplexJ Sig K S P A) (states : List S) :
    Except PyErr Bool × SimplexJ Sig K S P A :=
  match jitCall self.jit.violationJit
      (fun o => constraintViolation
        { o with params := self.obj.params, constraintEnabled := self.obj.constraintEnabled } states)
      self.jit.violation (sig.violation states self.obj.params self.obj.constraintEnabled) self.obj with
  | (r, c) => (r, { self with jit := { self.jit with violation := c } })

/-- `SimplexModule._filter_control` (`rta/simplex.py:69-91`), as `simplexFilter`. -/
def simplexFilterJ [DecidableEq Sig] [Max K] [Min K] [Add K] [Zero K] [LE K] [DecidableLE K] (sig : SimplexSig Sig K S P)
    (monitor : SimplexJ Sig K S P A → S → K → List K → Except PyErr Bool × SimplexJ Sig K S P A)
    (self : SimplexJ Sig K S P A) (x : S) (dt : K) (u : List K) : Except PyErr (List K) × SimplexJ Sig K S P A :=
  -- lines 74-80
  let (latched, o) :=
    if self.obj.intervening then
      if self.obj.ext.latchedElapsed ≥ self.obj.ext.latchTime then
        (false, { self.obj with ext := { self.obj.ext with latchedElapsed := 0 } })
      else
        (true, { self.obj with ext := { self.obj.ext with latchedElapsed := self.obj.ext.latchedElapsed + dt } })
    else (false, self.obj)
  let self := { self with obj := o }
  -- lines 82-91
  if latched then backupControlJ sig self x dt
  else
    match monitor self x dt u with
    | (.error e, self) => (.error e, self)
    | (.ok b, self) =>
      let self := { self with obj := { self.obj with intervening := b } }
      if b then backupControlJ sig self x dt else (.ok u, self)

/-- `ExplicitSimplexModule._monitor` (`rta/simplex.py:232-234`). -/
def explicitMonitorJ [DecidableEq Sig] [Add K] [Zero K] [LT K] [DecidableLT K] (sig : SimplexSig Sig K S P)
    (pred : S → K → List K → S) (self : SimplexJ Sig K S P A) (x : S) (dt : K) (u : List K) :
    Except PyErr Bool × SimplexJ Sig K S P A :=
  constraintViolationJ sig self [pred x dt u]

/-- The loop of `ImplicitSimplexModule.integrate` (`rta/simplex.py:304-307`), as `integrateLoop`. -/
def integrateLoopJ [DecidableEq Sig] [Max K] [Min K] (sig : SimplexSig Sig K S P) (pred : S → K → List K → S) (dt : K) :
    Nat → SimplexJ Sig K S P A → S → List S → Except PyErr (List S) × SimplexJ Sig K S P A
  | 0, self, _, acc => (.ok acc, self)
  | n + 1, self, x, acc =>
    match backupControlJ sig self x dt with
    | (.error e, self) => (.error e, self)
    | (.ok u, self) => integrateLoopJ sig pred dt n self (pred x dt u) (acc ++ [pred x dt u])

/-- `ImplicitSimplexModule.integrate` (`rta/simplex.py:280-311`), as `implicitIntegrate`. -/
def implicitIntegrateJ [DecidableEq Sig] [Field K] [LinearOrder K] [FloorRing K] (sig : SimplexSig Sig K S P)
    (pred : S → K → List K → S) (self : SimplexJ Sig K S P A) (x : S) (dt : K) (u : List K) : Except PyErr (List S) × SimplexJ Sig K S P A :=
  match backupSteps self.obj.ext.backupWindow dt with
  | .error e => (.error e, self)
  | .ok n =>
    let x := pred x dt u
    match backupControllerSave self.obj with
    | (.error e, o) => (.error e, { self with obj := o })
    | (.ok (), o) =>
      match integrateLoopJ sig pred dt n.toNat { self with obj := o } x [x] with
      | (.error e, self) => (.error e, self)
      | (.ok traj, self) => (.ok traj, { self with obj := backupControllerRestore self.obj })

/-- `self._integrate_fn(state, step_size, control)` (`rta/simplex.py:269-272, 276`). When a trace is replayed the backup
controller of the object is not touched. -/
def integrateFnJ [DecidableEq Sig] [Field K] [LinearOrder K] [FloorRing K] (sig : SimplexSig Sig K S P)
    (pred : S → K → List K → S) (self : SimplexJ Sig K S P A) (x : S) (dt : K) (u : List K) :
    Except PyErr (List S) × SimplexJ Sig K S P A :=
  if self.jit.integrateJit then
    match jitLookup self.jit.integrate (sig.integrate x dt u) with
    | some snap =>
      ((implicitIntegrateJ sig pred { obj := snap.1, jit := { self.jit with control := snap.2 } } x dt u).1, self)
    | none =>
      match implicitIntegrateJ sig pred self x dt u with
      | (.error e, self) => (.error e, self)
      | (.ok traj, self') =>
        (.ok traj, { self' with jit := { self'.jit with
          integrate := (sig.integrate x dt u, self.obj, self.jit.control) :: self'.jit.integrate } })
  else implicitIntegrateJ sig pred self x dt u

/-- `ImplicitSimplexModule._monitor` (`rta/simplex.py:274-278`). -/
def implicitMonitorJ [DecidableEq Sig] [Field K] [LinearOrder K] [FloorRing K]
    (sig : SimplexSig Sig K S P) (pred : S → K → List K → S) (self : SimplexJ Sig K S P A) (x : S) (dt : K)
    (u : List K) : Except PyErr Bool × SimplexJ Sig K S P A :=
  match integrateFnJ sig pred self x dt u with
  | (.error e, self) => (.error e, self)
  | (.ok traj, self) => constraintViolationJ sig self traj

/-- `filter_control` of an `ExplicitSimplexModule` with its compiled methods. -/
def explicitSimplexJ [DecidableEq Sig] [Max K] [Min K] [Add K] [Zero K] [LE K] [DecidableLE K] [LT K] [DecidableLT K]
    (sig : SimplexSig Sig K S P) (pred : S → K → List K → S) (self : SimplexJ Sig K S P A)
    (inp : InputState S) (dt : K) (u : List K) : Except PyErr (List K) × SimplexJ Sig K S P A :=
  filterControl (computeFilteredControlJ getStateDefault (simplexFilterJ sig (explicitMonitorJ sig pred))) self inp dt u

/-- `filter_control` of an `ImplicitSimplexModule` with its compiled methods. -/
def implicitSimplexJ [DecidableEq Sig] [Field K] [LinearOrder K] [FloorRing K]
    (sig : SimplexSig Sig K S P) (pred : S → K → List K → S) (self : SimplexJ Sig K S P A)
    (inp : InputState S) (dt : K) (u : List K) : Except PyErr (List K) × SimplexJ Sig K S P A :=
  filterControl (computeFilteredControlJ getStateDefault (simplexFilterJ sig (implicitMonitorJ sig pred))) self inp dt u

/-- What `ASIFModule.compose` and `ImplicitASIFModule.compose` set up (`rta/asif.py:106-124, 495-535`): options and traces of
`_generate_barrier_constraint_mats` (explicit) or `_generate_ineq_constraint_mats` (implicit), of `_update_ineq_mats` and of
`integrate` (implicit). -/
structure ASIFJit (Sig O : Type) where
  barrierJit : Bool
  directJit : Bool
  integrateJit : Bool
  barrier : JitCache Sig O
  direct : JitCache Sig O
  integrate : JitCache Sig O

/-- An ASIF module with its compiled methods. -/
abbrev ASIFJ (Sig K S P X : Type) := JObj (ASIFObj K S P X) (ASIFJit Sig (ASIFObj K S P X))

/-- `ASIFModule.compose` (`rta/asif.py:116-124`). -/
def ASIFJ.compose (jitEnable : Bool) (opts : Dict Bool) (o : ASIFObj K S P X) : ASIFJ Sig K S P X :=
  ⟨o, ⟨jitOption jitEnable opts "generate_barrier_constraint_mats" true, jitOption jitEnable opts "update_ineq_mats" true, false, [], [], []⟩⟩

/-- `self._generate_barrier_constraint_mats_fn(state, step_size, self.params, self.constraint_enabled_dict)` of an
`ExplicitASIFModule` (`rta/asif.py:128, 363-435`). `f` and `g` may read the attributes `extra` of the subclass (a mass, for
example). -/
def explicitGenRowsJ [DecidableEq Sig] [Add K] [Mul K] [Neg K] [Sub K] [Zero K] [One K] [OfNat K 10] [LT K] [DecidableLT K]
    (sig : S → K → Dict P → Dict Bool → Sig) (f : X → S → List K) (g : X → S → List (List K)) (self : ASIFJ Sig K S P X)
    (x : S) (dt : K) : Except PyErr (List (Row K)) × ASIFJ Sig K S P X :=
  match jitCall self.jit.barrierJit
      (fun o => (explicitGenRows (f o.ext.extra) (g o.ext.extra)
        { o with params := self.obj.params, constraintEnabled := self.obj.constraintEnabled } x dt).1)
      self.jit.barrier (sig x dt self.obj.params self.obj.constraintEnabled) self.obj with
  | (r, c) => (r, { self with jit := { self.jit with barrier := c } })

/-- `self._update_ineq_mats_fn(ineq_weight, ineq_constant, state, self.direct_inequality_params,
self.direct_inequality_enabled_dict)` (`rta/asif.py:129-131, 172-214`); `control_dim` is only a shape here. -/
def directRowsJ [DecidableEq Sig] [Zero K] (sig : List (Row K) → S → Dict P → Dict Bool → Sig) (self : ASIFJ Sig K S P X)
    (rows : List (Row K)) (x : S) : Except PyErr (List (Row K)) × ASIFJ Sig K S P X :=
  match jitCall self.jit.directJit
      (fun o => directRows self.obj.ext.directParams self.obj.ext.directEnabled o.ext.controlDim o.ext.numSlack x o.ext.direct)
      self.jit.direct (sig rows x self.obj.ext.directParams self.obj.ext.directEnabled) self.obj with
  | (r, c) => (r, { self with jit := { self.jit with direct := c } })

/-- `ASIFModule._filter_control` (`rta/asif.py:126-136`), as `asifFilter`. -/
def asifFilterJ [DecidableEq Sig] [Add K] [Mul K] [Sub K] [Zero K] [HasSqrt K] [LT K] [DecidableLT K] (solver : Solver K)
    (sigD : List (Row K) → S → Dict P → Dict Bool → Sig)
    (genRows : ASIFJ Sig K S P X → S → K → Except PyErr (List (Row K)) × ASIFJ Sig K S P X)
    (self : ASIFJ Sig K S P X) (x : S) (dt : K) (u : List K) : Except PyErr (List K) × ASIFJ Sig K S P X :=
  match genRows { self with obj := updateDirectParams self.obj } x dt with
  | (.error e, self) => (.error e, self)
  | (.ok rows, self) =>
    match directRowsJ sigD self rows x with
    | (.error e, self) => (.error e, self)
    | (.ok drows, self) =>
      match optimize solver self.obj u (rows ++ drows) with
      | (.error e, o) => (.error e, { self with obj := o })
      | (.ok actual, o) =>
        (.ok actual, { self with obj := { o with intervening := asifMonitor o.ext.epsilon u actual } })

/-- `filter_control` of an `ExplicitASIFModule` with its compiled methods. -/
def explicitASIFJ [DecidableEq Sig] [Add K] [Mul K] [Neg K] [Sub K] [Zero K] [One K] [OfNat K 10] [Max K] [Min K] [HasSqrt K]
    [LT K] [DecidableLT K] (solver : Solver K) (sig : S → K → Dict P → Dict Bool → Sig)
    (sigD : List (Row K) → S → Dict P → Dict Bool → Sig) (f : X → S → List K) (g : X → S → List (List K))
    (self : ASIFJ Sig K S P X) (inp : InputState S) (dt : K) (u : List K) : Except PyErr (List K) × ASIFJ Sig K S P X :=
  filterControl (computeFilteredControlJ getStateDefault (asifFilterJ solver sigD (explicitGenRowsJ sig f g))) self inp dt u

/-- `ImplicitASIFModule.compose` (`rta/asif.py:495-535`). The option `generate_barrier_constraint_mats` keeps its default `False`
(line 513), the others are as given; `_jacobian` and `_pred_state` are pure, their `jit` is the identity. -/
def ASIFJ.composeImplicit (jitEnable : Bool) (opts : Dict Bool) (o : ASIFObj K S P X) : ASIFJ Sig K S P X :=
  ⟨o, ⟨jitOption jitEnable opts "generate_ineq_constraint_mats" true, jitOption jitEnable opts "update_ineq_mats" true,
    jitOption jitEnable opts "integrate" true, [], [], []⟩⟩

/-- `self._integrate_fn(state, step_size, num_steps)` (`rta/asif.py:591, 527-530, 883-920`). When a trace is replayed the
backup controller of the object is not touched. -/
def sensIntegrateJ [DecidableEq Sig] [Add K] [Mul K] [Zero K] [One K] [Max K] [Min K] (sig : List K → K → Nat → Sig)
    (ad : (List K → List K) → List K → List (List K)) (f : List K → List K) (g : List K → List (List K))
    (pred : List K → K → List K → List K) (self : ASIFJ Sig K (List K) P (ImplicitExt K A)) (x : List K) (dt : K) (nsteps : Nat) :
    Except PyErr (List (List K × List (List K))) × ASIFJ Sig K (List K) P (ImplicitExt K A) :=
  match jitCall self.jit.integrateJit (fun o => (sensIntegrate ad f g pred o x dt nsteps).1) self.jit.integrate
      (sig x dt nsteps) self.obj with
  | (r, c) =>
    (r, { obj := if self.jit.integrateJit && (jitLookup self.jit.integrate (sig x dt nsteps)).isSome then self.obj
            else (sensIntegrate ad f g pred self.obj x dt nsteps).2
          jit := { self.jit with integrate := c } })

/-- `ImplicitASIFModule._generate_barrier_constraint_mats` (`rta/asif.py:566-609`) with its compiled parts. -/
def implicitGenRowsJ [DecidableEq Sig] [Field K] [LinearOrder K] [FloorRing K] (sigI : List K → K → Nat → Sig)
    (sig : List K → Nat → List (List K × List (List K)) → Dict P → Dict Bool → Sig)
    (ad : (List K → List K) → List K → List (List K)) (f : List K → List K) (g : List K → List (List K))
    (pred : List K → K → List K → List K) (self : ASIFJ Sig K (List K) P (ImplicitExt K A)) (x : List K) (dt : K) :
    Except PyErr (List (Row K)) × ASIFJ Sig K (List K) P (ImplicitExt K A) :=
  match backupSteps self.obj.ext.extra.backupWindow dt with
  | .error e => (.error e, self)
  | .ok m =>
    if m < 0 then (.error (.other "negative number of steps"), self)
    else
      match sensIntegrateJ sigI ad f g pred self x dt (m.toNat + 1) with
      | (.error e, self) => (.error e, self)
      | (.ok traj, self) =>
        match jitCall self.jit.barrierJit
            (fun o => match implicitRows f g self.obj.params self.obj.constraintEnabled o.ext.controlDim o.ext.numSlack x traj 0
                o.constraints with
              | .error e => .error e
              | .ok rows => .ok (o.ext.actuation ++ rows))
            self.jit.barrier (sig x (m.toNat + 1) traj self.obj.params self.obj.constraintEnabled) self.obj with
        | (.error e, c) => (.error e, { self with jit := { self.jit with barrier := c } })
        | (.ok rows, c) =>
          (.ok rows, { obj := self.obj.setExt { self.obj.ext with constraintNames := implicitNames self.obj (m.toNat + 1) }
                       jit := { self.jit with barrier := c } })

/-- `filter_control` of an `ImplicitASIFModule` with its compiled methods. -/
def implicitASIFJ [DecidableEq Sig] [Field K] [LinearOrder K] [FloorRing K] [HasSqrt K] (solver : Solver K)
    (sigI : List K → K → Nat → Sig) (sig : List K → Nat → List (List K × List (List K)) → Dict P → Dict Bool → Sig)
    (sigD : List (Row K) → List K → Dict P → Dict Bool → Sig) (ad : (List K → List K) → List K → List (List K))
    (f : List K → List K) (g : List K → List (List K)) (pred : List K → K → List K → List K)
    (self : ASIFJ Sig K (List K) P (ImplicitExt K A)) (inp : InputState (List K)) (dt : K) (u : List K) :
    Except PyErr (List K) × ASIFJ Sig K (List K) P (ImplicitExt K A) :=
  filterControl (computeFilteredControlJ getStateDefault (asifFilterJ solver sigD (implicitGenRowsJ sigI sig ad f g pred)))
    self inp dt u

end

end RTA
