import Verif.Model.ASIF
import Verif.Model.Controller
import Verif.Model.Simplex

/-!
Model of `ImplicitASIFModule` (`rta/asif.py:454-924`). Rta states are arrays, modelled as lists.

Parameters of the model: `f`, `g` are the abstract `state_transition_system`, `state_transition_input`; `pred` is
`_pred_state` (`rta/asif.py:922-924, 958-970`), one step of the external ODE solver; `ad` is `jax.jacfwd`, the Jacobian of a function at a
point. The functions are modelled as they run without `jit` (the code documents that stateful controllers are not
compatible with `jit`, `controller.py:167`).
-/
namespace RTA

/-- Attributes added by `ImplicitASIFModule` (`rta/asif.py:473-486`) and `BackupControlBasedRTA` (`rta/base.py:400-401`). -/
structure ImplicitExt (K A : Type) where
  backupWindow : K
  ctrl : BackupController K (List K) A

/-- An implicit ASIF module object. -/
abbrev ImplicitObj (K P A : Type) := ASIFObj K (List K) P (ImplicitExt K A)

section
variable {K P A : Type}

/-- `A @ B` where `B` has `n` columns. -/
def matMul [Add K] [Mul K] [Zero K] (M B : List (List K)) (n : Nat) : List (List K) := M.map fun r => vecMat r B n
/-- `A + B`. -/
def matAdd [Add K] (M B : List (List K)) : List (List K) := List.zipWith vadd M B
/-- `A * c`. -/
def matScale [Mul K] (M : List (List K)) (c : K) : List (List K) := M.map fun r => r.map (· * c)
/-- `jnp.eye(n)`. -/
def eyeMat [Zero K] [One K] (n : Nat) : List (List K) := (List.range n).map fun i => eyeRow n i

/-- Replace the backup controller of the object. -/
def setBackup (self : ImplicitObj K P A) (c : BackupController K (List K) A) : ImplicitObj K P A :=
  self.setExt { self.ext with extra := { self.ext.extra with ctrl := c } }

/-- `BackupControlBasedRTA.backup_control` (`rta/base.py:407-424`). -/
def implicitBackupControl [Max K] [Min K] (self : ImplicitObj K P A) (x : List K) (dt : K) :
    Except PyErr (List K) × ImplicitObj K P A :=
  match self.ext.extra.ctrl.generateControl x dt with
  | (.error e, c) => (.error e, setBackup self c)
  | (.ok u, c) => (self.toBase.clipControl u, setBackup self c)

/-- `ImplicitASIFModule._backup_state_transition` (`rta/asif.py:559-564`): the closed loop vector field, with the control
law not clipped. -/
def backupTransition [Add K] [Mul K] [Zero K] (f : List K → List K) (g : List K → List (List K))
    (gen : List K → K → CState A → Option (List K × CState A)) (dt : K) (z : CState A) (y : List K) : List K :=
  vadd (f y) (matVec (g y) ((gen y dt z).elim [] (·.1)))

/-- `ImplicitASIFModule.jacobian` (`rta/asif.py:537-557`) with the shape errors that `@` and `+` would raise in the traced
function or in line 911. -/
def backupJacobian [Add K] [Mul K] [Zero K] (ad : (List K → List K) → List K → List (List K)) (f : List K → List K)
    (g : List K → List (List K)) (gen : List K → K → CState A → Option (List K × CState A)) (n : Nat) (dt : K) (z : CState A)
    (x : List K) : Except PyErr (List (List K)) :=
  match gen x dt z with
  | none => .error (.typeError "'NoneType' object is not subscriptable")
  | some (v, _) =>
    let J := ad (backupTransition f g gen dt z) x
    if (g x).length ≠ (f x).length ∨ (∃ r ∈ g x, r.length ≠ v.length) ∨ J.length ≠ n ∨ ∃ r ∈ J, r.length ≠ n then
      .error (.typeError "dot_general requires contracting dimensions to have the same shape")
    else .ok J

/-- The loop of `ImplicitASIFModule.integrate` (`rta/asif.py:907-916`): `k` more steps from state `x` with sensitivity
`sens`; `n` is the size of the initial state. -/
def sensLoop [Add K] [Mul K] [Zero K] [Max K] [Min K] (ad : (List K → List K) → List K → List (List K))
    (f : List K → List K) (g : List K → List (List K)) (pred : List K → K → List K → List K) (n : Nat) (dt : K) :
    Nat → ImplicitObj K P A → List K → List (List K) → List (List K × List (List K)) →
      Except PyErr (List (List K × List (List K))) × ImplicitObj K P A
  | 0, self, _, _, acc => (.ok acc, self)
  | k + 1, self, x, sens, acc =>
    match implicitBackupControl self x dt with
    | (.error e, self) => (.error e, self)
    | (.ok u, self) =>
      let x := pred x dt u
      match backupJacobian ad f g self.ext.extra.ctrl.gen n dt self.ext.extra.ctrl.state x with
      | .error e => (.error e, self)
      | .ok J =>
        let sens := matAdd sens (matScale (matMul J sens n) dt)
        sensLoop ad f g pred n dt k self x sens (acc ++ [(x, sens)])

/-- `ImplicitASIFModule.integrate` (`rta/asif.py:883-920`): trajectory states paired with their sensitivities. -/
def sensIntegrate [Add K] [Mul K] [Zero K] [One K] [Max K] [Min K] (ad : (List K → List K) → List K → List (List K))
    (f : List K → List K) (g : List K → List (List K)) (pred : List K → K → List K → List K) (self : ImplicitObj K P A)
    (x : List K) (dt : K) (nsteps : Nat) :
    Except PyErr (List (List K × List (List K))) × ImplicitObj K P A :=
  match self.ext.extra.ctrl.save with
  | (.error e, c) => (.error e, setBackup self c)
  | (.ok (), c) =>
    match sensLoop ad f g pred x.length dt (nsteps - 1) (setBackup self c) x (eyeMat x.length) [(x, eyeMat x.length)] with
    | (.error e, self) => (.error e, self)
    | (.ok traj, self) => (.ok traj, setBackup self self.ext.extra.ctrl.restore)

/-- One trajectory point of one constraint: its inequality and the constraint value. -/
structure Point (K : Type) where
  row : Row K
  val : K

/-- `ImplicitASIFModule.invariance_constraints` (`rta/asif.py:837-881`) and the shape errors of its products. -/
def invarianceRow [Add K] [Mul K] [Neg K] [Zero K] (f : List K → List K) (g : List K → List (List K)) (c : Constraint K (List K) P)
    (p : P) (controlDim : Nat) (x0 : List K) (pt : List K × List (List K)) : Except PyErr (Point K) :=
  let grad := c.gradFn pt.1 p
  if grad.length ≠ x0.length ∨ (f x0).length ≠ x0.length ∨ (g x0).length ≠ x0.length ∨ (∃ r ∈ g x0, r.length ≠ controlDim) then
    .error (.typeError "dot_general requires contracting dimensions to have the same shape")
  else
    match c.alphaAt (c.compute pt.1 p) with
    | .error e => .error e
    | .ok al =>
      .ok ⟨⟨vecMat grad (matMul pt.2 (g x0) controlDim) controlDim, -(dot grad (matVec pt.2 (f x0)) + al)⟩,
        c.compute pt.1 p⟩

/-- `_get_constraint_ineq_mats_no_vmap` (`rta/asif.py:801-835`; the `vmap` variant of lines 767-799 computes the same). -/
def pointRows [Add K] [Mul K] [Neg K] [Zero K] (f : List K → List K) (g : List K → List (List K)) (c : Constraint K (List K) P)
    (p : P) (controlDim : Nat) (x0 : List K) : List (List K × List (List K)) → Except PyErr (List (Point K))
  | [] => .ok []
  | pt :: pts =>
    match invarianceRow f g c p controlDim x0 pt with
    | .error e => .error e
    | .ok r =>
      match pointRows f g c p controlDim x0 pts with
      | .error e => .error e
      | .ok rs => .ok (r :: rs)

/-- JAX array indexing with an integer array: negative indices wrap once, then everything is clamped into range
(default gather mode). -/
def jaxIndex (n : Nat) (i : Int) : Nat :=
  let j := if i < 0 then i + n else i
  if j < 0 then 0 else if j < n then j.toNat else n - 1

/-- `check_points` (`rta/asif.py:733-738`); `range` raises for a zero step. -/
def checkPoints (cfg : SubsampleConfig) (numSteps : Nat) : Except PyErr (List Int) :=
  if cfg.skipLength = 0 then .error (.valueError "range() arg 3 must not be zero")
  else .ok (pyRange 0 cfg.numCheckAll 1 ++ pyRange (cfg.numCheckAll + 1) numSteps cfg.skipLength)

/-- `l[0:N]` for an integer `N`, negative values counting from the end. -/
def takeInt {α : Type} (l : List α) (N : Int) : List α := if 0 ≤ N then l.take N.toNat else l.take (l.length + N).toNat

/-- The loop body of `ImplicitASIFModule.subsample_constraints` for one constraint (`rta/asif.py:726-760`). `argsort` is a
stable ascending sort. -/
def subsampleOne [LE K] [DecidableLE K] (cfg : SubsampleConfig) (pts : List (Point K)) : Except PyErr (List (Row K)) :=
  match checkPoints cfg pts.length with
  | .error e => .error e
  | .ok idx =>
    let sel := idx.filterMap fun i => pts[jaxIndex pts.length i]?
    let sel := match cfg.numLeast with
      | none => sel
      | some N => takeInt (sel.mergeSort fun a b => decide (a.val ≤ b.val)) N
    .ok (sel.map (·.row) ++ (if cfg.keepFirst then (pts.head?.map (·.row)).toList else []) ++
      (if cfg.keepLast then (pts.getLast?.map (·.row)).toList else []))

/-- `_generate_ineq_constraint_mats` and `subsample_constraints` (`rta/asif.py:611-765`) without the actuation rows: for
each constraint the points of the whole trajectory, zeroed when disabled, extended by the slack columns, then subsampled.
The accumulator `jnp.empty((0, control_dim))` (line 723) cannot be concatenated with rows that have slack columns. -/
def implicitRows [Add K] [Mul K] [Neg K] [Zero K] [One K] [LE K] [DecidableLE K] (f : List K → List K)
    (g : List K → List (List K)) (params : Dict P) (en : Dict Bool) (controlDim numSlack : Nat) (x0 : List K)
    (traj : List (List K × List (List K))) : Nat → Dict (Constraint K (List K) P) → Except PyErr (List (Row K))
  | _, [] => .ok []
  | sc, (k, c) :: rest =>
    match dictGet params k, dictGet en k with
    | some p, some e =>
      match pointRows f g c p controlDim x0 traj with
      | .error er => .error er
      | .ok pts =>
        let pts := pts.map fun pt =>
          (⟨⟨(if e then pt.row.w else zeros controlDim) ++
              (if c.slackPriorityScale.isSome then (zeros numSlack).set sc (-1) else zeros numSlack),
            if e then pt.row.b else 0⟩, pt.val⟩ : Point K)
        match subsampleOne c.subsample pts with
        | .error er => .error er
        | .ok rows =>
          if numSlack ≠ 0 then
            .error (.typeError "Cannot concatenate arrays with shapes that differ in dimensions other than the one being concatenated")
          else
            match implicitRows f g params en controlDim numSlack x0 traj
                (if c.slackPriorityScale.isSome then sc + 1 else sc) rest with
            | .error er => .error er
            | .ok rs => .ok (rows ++ rs)
    | _, _ => .error (.keyError k)

/-- The constraint names after a call (`rta/asif.py:596-607`). -/
def implicitNames (self : ImplicitObj K P A) (numSteps : Nat) : List String :=
  let idx := (if self.controlBoundsLow.isSome then self.ext.controlDim else 0) +
    (if self.controlBoundsHigh.isSome then self.ext.controlDim else 0)
  self.ext.constraintNames.take idx ++
    (self.constraints.flatMap (fun kc => List.replicate numSteps kc.1) ++ dictKeys self.ext.direct)

/-- `ImplicitASIFModule._generate_barrier_constraint_mats` (`rta/asif.py:566-609`). Simplification: a negative number of
steps (negative window or step size) leads to empty slices in the code; the model raises. -/
def implicitGenRows [Field K] [LinearOrder K] [FloorRing K] (ad : (List K → List K) → List K → List (List K))
    (f : List K → List K) (g : List K → List (List K)) (pred : List K → K → List K → List K) (self : ImplicitObj K P A)
    (x : List K) (dt : K) : Except PyErr (List (Row K)) × ImplicitObj K P A :=
  match backupSteps self.ext.extra.backupWindow dt with
  | .error e => (.error e, self)
  | .ok m =>
    if m < 0 then (.error (.other "negative number of steps"), self)
    else
      match sensIntegrate ad f g pred self x dt (m.toNat + 1) with
      | (.error e, self) => (.error e, self)
      | (.ok traj, self) =>
        match implicitRows f g self.params self.constraintEnabled self.ext.controlDim self.ext.numSlack x traj 0
            self.constraints with
        | .error e => (.error e, self)
        | .ok rows =>
          (.ok (self.ext.actuation ++ rows),
            self.setExt { self.ext with constraintNames := implicitNames self (m.toNat + 1) })

/-- `filter_control` of an `ImplicitASIFModule`. -/
def implicitASIF [Field K] [LinearOrder K] [FloorRing K] [HasSqrt K] (solver : Solver K)
    (ad : (List K → List K) → List K → List (List K)) (f : List K → List K) (g : List K → List (List K))
    (pred : List K → K → List K → List K) (self : ImplicitObj K P A) (inp : InputState (List K)) (dt : K) (u : List K) :
    Except PyErr (List K) × ImplicitObj K P A :=
  filterControlCB getStateDefault (asifFilter solver (implicitGenRows ad f g pred)) self inp dt u

/-- `ImplicitASIFModule.reset` (`rta/asif.py:488-493`). -/
def implicitReset (self : ImplicitObj K P A) : Except PyErr Unit × ImplicitObj K P A :=
  let self := Base.reset self
  match self.ext.extra.ctrl.reset with
  | (r, c) => (r, setBackup self c)

end

end RTA
