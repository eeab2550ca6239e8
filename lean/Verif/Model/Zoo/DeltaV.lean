import Verif.Model.Base
import Verif.Model.Zoo.CWH
import Mathlib.Algebra.Order.Group.Unbundled.Abs

/-!
Model of `run_time_assurance/zoo/cwh/inspection_1v1.py`, class `SwitchingDeltaVLimitRTA` (lines 625-737).

The LQR gains `K_1`, `K_2` (lines 663-679) come from `scipy.linalg.solve_continuous_are`; they are parameters (two matrices of
shape 3 by 6). States are 1-D arrays.
-/
namespace RTA
variable {K : Type}

/-- The attributes of a `SwitchingDeltaVLimitRTA` (`zoo/cwh/inspection_1v1.py:656-681`). `n_steps` is a natural number; a
negative number behaves as zero in `range`. -/
structure DeltaVObj (K : Type) extends Base K where
  m : K
  n : K
  deltaVLimit : K
  nSteps : Nat
  A : List (List K)
  B : List (List K)
  K1 : List (List K)
  K2 : List (List K)
  errorIntegral : List K
  latched : Bool

instance : HasBase (DeltaVObj K) K where
  get s := s.toBase
  set b s := { s with toBase := b }
  get_set _ _ := rfl
  set_get _ := rfl
  set_set _ _ _ := rfl

variable [Field K] [LinearOrder K]

/-- `SwitchingDeltaVLimitRTA.__init__` (`zoo/cwh/inspection_1v1.py:645-687`), with the two gain matrices given. A zero mass
raises in `generate_cwh_matrices` (`zoo/cwh/utils.py:43`). -/
def deltaVInit (m n deltaVLimit : K) (nSteps : Nat) (high low : Option (Bound K)) (K1 K2 : List (List K)) :
    Except PyErr (DeltaVObj K) :=
  if m = 0 then .error .zeroDivision
  else .ok { Base.init high low with
    m := m, n := n, deltaVLimit := deltaVLimit, nSteps := nSteps, A := cwhA3 n, B := cwhB3 m, K1 := K1, K2 := K2
    errorIntegral := zeros 6, latched := false }

/-- `SwitchingDeltaVLimitRTA._pred_state` (`zoo/cwh/inspection_1v1.py:689-695`). The products need at least six state
components and three control components, the final sum exactly eight state components; otherwise NumPy raises
`ValueError`. -/
def DeltaVObj.predState (self : DeltaVObj K) (state : List K) (dt : K) (control : List K) : Except PyErr (List K) :=
  if state.length ≠ 8 ∨ control.length ≠ 3 then .error (.valueError "operands could not be broadcast together")
  else
    let xd := vadd (matVec self.A (pySlice state 0 6)) (matVec self.B control)
    let sunDot := [-self.n]
    let deltaVDot := [(control.map fun c => |c|).foldr (· + ·) 0 / self.m]
    .ok (vadd state ((xd ++ sunDot ++ deltaVDot).map (· * dt)))

/-- The tracking error of `SwitchingDeltaVLimitRTA.backup_control` (`zoo/cwh/inspection_1v1.py:725-734`). -/
def DeltaVObj.trackError (self : DeltaVObj K) (state : List K) : Except PyErr (List K) :=
  match state[3]?, state[1]?, state[4]?, state[0]? with
  | some vx, some y, some vy, some x => .ok [0, 0, 0, vx - self.n / 2 * y, vy + 2 * self.n * x, 0]
  | _, _, _, _ => .error .indexError

/-- `SwitchingDeltaVLimitRTA.backup_control` (`zoo/cwh/inspection_1v1.py:723-737`): the clipped action and the new error
integral. -/
def DeltaVObj.backupControl (self : DeltaVObj K) (state : List K) (dt : K) (errorIntegral : List K) :
    Except PyErr (List K × List K) :=
  match self.trackError state with
  | .error e => .error e
  | .ok error =>
    let action := vsub ((matVec self.K1 error).map fun a => -a) (matVec self.K2 errorIntegral)
    .ok (action.map fun a => min (max a (-1)) 1, vadd errorIntegral (error.map (· * dt)))

/-- The loop of `SwitchingDeltaVLimitRTA.compute_filtered_control` (`zoo/cwh/inspection_1v1.py:703-715`). -/
def DeltaVObj.loop (inputState : List K) (dt : K) :
    Nat → List K → List K → DeltaVObj K → Except PyErr Unit × DeltaVObj K
  | 0, _, _, self => (.ok (), self)
  | k + 1, predState, errorIntegral, self =>
    match self.backupControl predState dt errorIntegral with
    | .error e => (.error e, self)
    | .ok (ub, errorIntegral) =>
      match self.predState predState dt ub with
      | .error e => (.error e, self)
      | .ok predState =>
        match predState[7]? with
        | none => (.error .indexError, self)
        | some dv =>
          if self.deltaVLimit < dv then
            match self.backupControl inputState dt self.errorIntegral with
            | .error e => (.error e, self)
            | .ok (_, newIntegral) =>
              DeltaVObj.loop inputState dt k predState errorIntegral
                { self with errorIntegral := newIntegral, latched := true, intervening := true }
          else DeltaVObj.loop inputState dt k predState errorIntegral self

/-- `SwitchingDeltaVLimitRTA.compute_filtered_control` (`zoo/cwh/inspection_1v1.py:697-721`). Line 716 overwrites `out` after
the loop. -/
def deltaVCompute (self : DeltaVObj K) (inputState : List K) (dt : K) (u : List K) :
    Except PyErr (List K) × DeltaVObj K :=
  if self.latched = false then
    match self.predState inputState dt u with
    | .error e => (.error e, self)
    | .ok pred =>
      match DeltaVObj.loop inputState dt self.nSteps pred self.errorIntegral self with
      | (.error e, self) => (.error e, self)
      | (.ok (), self) => (.ok u, self)
  else
    match self.backupControl inputState dt self.errorIntegral with
    | .error e => (.error e, self)
    | .ok (ub, newIntegral) => (.ok ub, { self with errorIntegral := newIntegral })

/-- `SwitchingDeltaVLimitRTA.filter_control`, inherited from `RTAModule` (`rta/base.py:60-85`). -/
def deltaVFilter (self : DeltaVObj K) (inputState : List K) (dt : K) (u : List K) : Except PyErr (List K) × DeltaVObj K :=
  filterControl deltaVCompute self inputState dt u

/-- `SwitchingDeltaVLimitRTA.reset`, inherited from `RTAModule` (`rta/base.py:52-58`). -/
def deltaVReset (self : DeltaVObj K) : DeltaVObj K := Base.reset self

end RTA
