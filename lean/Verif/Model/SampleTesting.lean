import Verif.Model.ConstraintRTA
import Verif.Model.LinAlg

/-!
Model of `run_time_assurance/utils/sample_testing.py`.

The methods a subclass provides, the module under test and the source of random numbers are the fields of `Sim`. `while` loops
are run with a bound on the number of iterations; `none` means the bound was reached. Printing, the creation of the output
directory and the CSV file are not modelled: `runSampleTest` returns the rows of the file.
-/
namespace RTA

/-- What `c.phi(state)` and `c(state)` do (`utils/sample_testing.py:279, 296`) for the constraints of the repository: `phi` and
`__call__` have the two positional parameters `state` and `params` (`constraint.py:115-133, 228-246`), so Python raises
`TypeError`. -/
def phiNoParams {K S P : Type} (_ : Constraint K S P) (_ : S) : Except PyErr K :=
  .error (.typeError "missing 1 required positional argument: 'params'")

/-- What a sample testing module is made of (the constructors `utils/sample_testing.py:37-40, 118-120, 224-226, 365-368` store it). `E` is the state of the random source and of the sampler, `R` the object of the RTA
module under test.

* `getInitial`: `_get_initial_state` (`utils/sample_testing.py:42-51`);
* `pred`: `_pred_state` (lines 53-71);
* `desired`: `_desired_control` (lines 73-86);
* `done`: `_check_done_conditions` (lines 88-103);
* `filter`, `intervening`, `constraints`: the method and the attributes of the RTA module;
* `transform`: `_transform_state` (`utils/sample_testing.py:301-314`);
* `phi1`, `value1`: `c.phi(state)` and `c(state)` with one argument. For the constraints of the repository this is `phiNoParams`;
  a user's constraint class may give `params` a default value. -/
structure Sim (K S P E R : Type) where
  getInitial : E → Except PyErr S × E
  pred : S → K → List K → S
  desired : S → List K
  done : S → K → Bool
  filter : R → S → K → List K → Except PyErr (List K) × R
  intervening : R → Bool
  constraints : R → Dict (Constraint K S P)
  transform : S → S := id
  phi1 : Constraint K S P → S → Except PyErr K := phiNoParams
  value1 : Constraint K S P → S → Except PyErr K := phiNoParams
  stepSize : K
  controlDim : Nat

section
variable {K S P E R : Type}

/-- The default `_desired_control` (`utils/sample_testing.py:73-86`). -/
def defaultDesired [Zero K] (controlDim : Nat) : S → List K := fun _ => zeros controlDim

/-- The default `_check_done_conditions` (`utils/sample_testing.py:88-103`). -/
def defaultDone [LE K] [DecidableLE K] (simulationTime : K) : S → K → Bool := fun _ time => decide (simulationTime ≤ time)

/-- `DataTrackingSampleTestingModule.check_if_safe_state` for a constraint based module (`utils/sample_testing.py:186-208`). -/
def checkIfSafeState [Add K] [Zero K] [LT K] [DecidableLT K] (x : S) : Dict (Constraint K S P) → Bool
  | [] => true
  | (_, c) :: rest =>
    if c.phiFn x c.params < 0 ∨ c.compute x c.params < 0 then false else checkIfSafeState x rest

/-- The sampling loop of `simulate_episode` (`utils/sample_testing.py:135-143`) with `n` attempts left: `check_counter` is increased
and compared before drawing. -/
def sampleSafe [Add K] [Zero K] [LT K] [DecidableLT K] (sim : Sim K S P E R) (r : R) : Nat → E → Except PyErr S × E
  | 0, e => (.error (.valueError "Unable to find safe initial state. To disable, set check_init_state = False."), e)
  | n + 1, e =>
    match sim.getInitial e with
    | (.error er, e) => (.error er, e)
    | (.ok x, e) => if checkIfSafeState x (sim.constraints r) then (.ok x, e) else sampleSafe sim r n e

/-- The three arrays of `simulate_episode`. -/
structure Record (K S : Type) where
  states : List S
  controls : List (List K)
  interventions : List Bool

/-- The loop of `simulate_episode` (`utils/sample_testing.py:154-166`), at most `fuel` iterations. -/
def episodeLoop [Add K] (sim : Sim K S P E R) : Nat → R → S → K → Record K S → Option (Except PyErr (Record K S) × R)
  | 0, _, _, _, _ => none
  | fuel + 1, r, x, time, t =>
    match sim.filter r x sim.stepSize (sim.desired x) with
    | (.error e, r) => some (.error e, r)
    | (.ok u, r) =>
      let x := sim.pred x sim.stepSize u
      let time := time + sim.stepSize
      let done := sim.done x time
      let t := { states := t.states ++ [x], controls := t.controls ++ [u]
                 interventions := t.interventions ++ [sim.intervening r] }
      if done then some (.ok t, r) else episodeLoop sim fuel r x time t

/-- `DataTrackingSampleTestingModule.simulate_episode` (`utils/sample_testing.py:122-166`). `_update_status` (lines 175-184) does
nothing by default. -/
def simulateEpisode [Add K] [Zero K] [LT K] [DecidableLT K] (sim : Sim K S P E R) (checkInit : Bool) (fuel : Nat) (r : R) (e : E) :
    Option (Except PyErr (Record K S) × R × E) :=
  match (if checkInit then sampleSafe sim r 99 e else sim.getInitial e) with
  | (.error er, e) => some (.error er, r, e)
  | (.ok x, e) =>
    (episodeLoop sim fuel r x 0 { states := [x], controls := [zeros sim.controlDim], interventions := [false] }).map
      fun p => (p.1, p.2, e)

/-! ### Safety assurance -/

/-- The initial check of `_simulate_episode` (`utils/sample_testing.py:278-280`): `true` when the initial state is unsafe. -/
def initialUnsafe [Zero K] [LT K] [DecidableLT K] (sim : Sim K S P E R) (x : S) : Dict (Constraint K S P) → Except PyErr Bool
  | [] => .ok false
  | (_, c) :: rest =>
    match sim.phi1 c x with
    | .error e => .error e
    | .ok v =>
      if v < 0 then .ok true
      else
        match sim.value1 c x with
        | .error e => .error e
        | .ok w => if w < 0 then .ok true else initialUnsafe sim x rest

/-- The check after every step (`utils/sample_testing.py:295-297`): `true` when some constraint is violated. -/
def stepUnsafe [Zero K] [LT K] [DecidableLT K] (sim : Sim K S P E R) (x : S) : Dict (Constraint K S P) → Except PyErr Bool
  | [] => .ok false
  | (_, c) :: rest =>
    match sim.phi1 c x with
    | .error e => .error e
    | .ok v => if v < 0 then .ok true else stepUnsafe sim x rest

/-- The loop of `_simulate_episode` (`utils/sample_testing.py:282-299`), at most `fuel` iterations. -/
def assureLoop [Add K] [Zero K] [LT K] [DecidableLT K] (sim : Sim K S P E R) : Nat → R → S → K → Option (Except PyErr Bool × R)
  | 0, _, _, _ => none
  | fuel + 1, r, x, time =>
    match sim.filter r x sim.stepSize (sim.desired x) with
    | (.error e, r) => if e = .solverError then some (.ok false, r) else some (.error e, r)
    | (.ok u, r) =>
      let x := sim.pred x sim.stepSize u
      let time := time + sim.stepSize
      let done := sim.done x time
      match stepUnsafe sim x (sim.constraints r) with
      | .error e => some (.error e, r)
      | .ok true => some (.ok false, r)
      | .ok false => if done then some (.ok true, r) else assureLoop sim fuel r x time

/-- `SafetyAssuranceSampleTestingModule._simulate_episode` (`utils/sample_testing.py:260-299`); the inner `none` is Python's `None`. -/
def assureEpisode [Add K] [Zero K] [LT K] [DecidableLT K] (sim : Sim K S P E R) (fuel : Nat) (r : R) (x : S) :
    Option (Except PyErr (Option Bool) × R) :=
  match initialUnsafe sim x (sim.constraints r) with
  | .error e => some (.error e, r)
  | .ok true => some (.ok none, r)
  | .ok false => (assureLoop sim fuel r x 0).map fun p => (p.1.map some, p.2)

/-- The `while` loop of `run_sample_test` (`utils/sample_testing.py:245-249`) for one point, at most `tries` iterations. -/
def onePoint [Add K] [Zero K] [LT K] [DecidableLT K] (sim : Sim K S P E R) (fuel : Nat) :
    Nat → R → E → Option (Except PyErr (Bool × S) × R × E)
  | 0, _, _ => none
  | tries + 1, r, e =>
    match sim.getInitial e with
    | (.error er, e) => some (.error er, r, e)
    | (.ok x, e) =>
      match assureEpisode sim fuel r (sim.transform x) with
      | none => none
      | some (.error er, r) => some (.error er, r, e)
      | some (.ok (some b), r) => some (.ok (b, sim.transform x), r, e)
      | some (.ok none, r) => onePoint sim fuel tries r e

/-- `SafetyAssuranceSampleTestingModule.run_sample_test` (`utils/sample_testing.py:228-258`): the rows written. -/
def runSampleTest [Add K] [Zero K] [LT K] [DecidableLT K] (sim : Sim K S P E R) (fuel tries : Nat) :
    Nat → R → E → List (Bool × S) → Option (Except PyErr (List (Bool × S)) × R × E)
  | 0, r, e, acc => some (.ok acc, r, e)
  | n + 1, r, e, acc =>
    match onePoint sim fuel tries r e with
    | none => none
    | some (.error er, r, e) => some (.error er, r, e)
    | some (.ok row, r, e) => runSampleTest sim fuel tries n r e (acc ++ [row])

/-- `LatinHypercubeRandomSampleTestingModule._get_initial_state` (`utils/sample_testing.py:336-346`): the next row of the table drawn at
construction; reading past the end raises `IndexError` and leaves the counter. -/
def latinInitial (allIcs : List S) (idx : Nat) : Except PyErr S × Nat :=
  match allIcs[idx]? with
  | none => (.error .indexError, idx)
  | some x => (.ok x, idx + 1)

/-- `ParametricRandomSampleTestingModule._get_initial_state` (`utils/sample_testing.py:370-388`), from component `i` on. `normal` and
`uniform` are the calls of `numpy.random`, which consume the random source; `p` and `q` are the two rows of
`distribution_params`. -/
def parametricInitial {E : Type} (normal uniform : K → K → E → K × E) (pdfs : List String) (p q : List K) :
    (i : Nat) → (n : Nat) → E → Except PyErr (List K) × E
  | _, 0, e => (.ok [], e)
  | i, n + 1, e =>
    match pdfs[i]?, p[i]?, q[i]? with
    | some pdf, some a, some b =>
      match (if pdf = "gaussian" then some (normal a b e) else if pdf = "constant" then some (a, e)
          else if pdf = "uniform" then some (uniform a b e) else none) with
      | none => (.error (.valueError "state_PDFs must be either gaussian, constant, or uniform"), e)
      | some (v, e) =>
        match parametricInitial normal uniform pdfs p q (i + 1) n e with
        | (.error er, e) => (.error er, e)
        | (.ok l, e) => (.ok (v :: l), e)
    | _, _, _ => (.error .indexError, e)

end

end RTA
