import Verif.Model.SampleTesting
import Verif.Model.Zoo.Docking

/-!
Model of `LatinHypercubeRandomSampleTestingModule.__init__` (`utils/sample_testing.py:329-334`), of
`DataTrackingSampleTestingModule.run_one_step` (`:168-173`) and of `zoo/cwh/random_sample_testing.py`.

`scipy.stats.qmc.LatinHypercube(d).random(n)` is a parameter: a function of `n` and `d` that returns `n` rows of `d` numbers. `n_points`
and `multiplier` are natural numbers. The plant step of the docking tests (`LinearODEDynamics.step`, not part of the repository) is a
parameter too.
-/
namespace RTA

section
variable {K S P E R : Type}

/-- `DataTrackingSampleTestingModule.run_one_step` (`utils/sample_testing.py:168-173`). The plant step has no effect that remains: its
result is a local variable. -/
def runOneStep (sim : Sim K S P E R) (r : R) (e : E) : Except PyErr Unit × R × E :=
  match sim.getInitial e with
  | (.error er, e) => (.error er, r, e)
  | (.ok x, e) =>
    match sim.filter r x sim.stepSize (sim.desired x) with
    | (.error er, r) => (.error er, r, e)
    | (.ok _, r) => (.ok (), r, e)

/-- `numpy.broadcast_to(bounds, d)` of a row of bounds, as `qmc.scale` applies it. -/
def broadcastRow (d : Nat) (l : List K) : Option (List K) :=
  if l.length = d then some l
  else match l with
    | [v] => some (List.replicate d v)
    | _ => none

/-- One row of `sample * (upper - lower) + lower`. -/
def scaleRow [Add K] [Sub K] [Mul K] : List K → List K → List K → List K
  | v :: vs, l :: ls, u :: us => (v * (u - l) + l) :: scaleRow vs ls us
  | _, _, _ => []

/-- `scipy.stats.qmc.scale(sample, l_bounds, u_bounds)` (called in `utils/sample_testing.py:333`) for a sample of `d` columns: an empty
sample has no maximum, the sample has to be in the unit cube, the bounds have to fit and each lower bound has to be below its upper
bound; otherwise `ValueError`. -/
def qmcScale [Add K] [Sub K] [Mul K] [Zero K] [One K] [LE K] [LT K] [DecidableLE K] [DecidableLT K] (d : Nat)
    (sample : List (List K)) (lower upper : List K) : Except PyErr (List (List K)) :=
  if sample = [] then .error (.valueError "zero-size array to reduction operation maximum which has no identity")
  else if sample.all fun r => r.all fun v => decide (0 ≤ v) && decide (v ≤ 1) then
    match broadcastRow d lower, broadcastRow d upper with
    | some l, some u =>
      if (l.zip u).all fun p => decide (p.1 < p.2) then .ok (sample.map fun r => scaleRow r l u)
      else .error (.valueError "Bounds are not consistent 'l_bounds' < 'u_bounds'")
    | _, _ => .error (.valueError "'l_bounds' and 'u_bounds' must be broadcastable and respect the sample dimension")
  else .error (.valueError "Sample is not in unit hypercube")

/-- `LatinHypercubeRandomSampleTestingModule.__init__` (`utils/sample_testing.py:329-334`): the table `all_ics`. The counter `idx`
starts at 0. `lower` and `upper` are `bounds[0, :]` and `bounds[1, :]`. -/
def latinInit [Add K] [Sub K] [Mul K] [Zero K] [One K] [LE K] [LT K] [DecidableLE K] [DecidableLT K]
    (sampler : Nat → Nat → List (List K)) (nPoints multiplier stateDim : Nat) (lower upper : List K) :
    Except PyErr (List (List K)) :=
  qmcScale stateDim (sampler (nPoints * multiplier) stateDim) lower upper

end

/-- `Docking2DLatinHypercubeRandomSampleTest` after construction with the table `table` and the module under test given as its filter
(`zoo/cwh/random_sample_testing.py:16-53`): desired control zero, done at `simulation_time`, plant step `step`. -/
noncomputable def dockLatinSim {P R : Type} (step : List ℝ → ℝ → List ℝ → List ℝ)
    (filter : R → List ℝ → ℝ → List ℝ → Except PyErr (List ℝ) × R) (intervening : R → Bool)
    (constraints : R → Dict (Constraint ℝ (List ℝ) P)) (simulationTime stepSize : ℝ) (controlDim : Nat) (table : List (List ℝ)) :
    Sim ℝ (List ℝ) P Nat R where
  getInitial := latinInitial table
  pred := step
  desired := defaultDesired controlDim
  done := defaultDone simulationTime
  filter := filter
  intervening := intervening
  constraints := constraints
  stepSize := stepSize
  controlDim := controlDim

/-- `Docking2DParametricRandomSampleTest` (`zoo/cwh/random_sample_testing.py:56-95`), likewise; `normal` and `uniform` are the calls of
`numpy.random`. -/
noncomputable def dockParamSim {P R E : Type} (step : List ℝ → ℝ → List ℝ → List ℝ)
    (filter : R → List ℝ → ℝ → List ℝ → Except PyErr (List ℝ) × R) (intervening : R → Bool)
    (constraints : R → Dict (Constraint ℝ (List ℝ) P)) (simulationTime stepSize : ℝ) (controlDim stateDim : Nat)
    (normal uniform : ℝ → ℝ → E → ℝ × E) (pdfs : List String) (p q : List ℝ) : Sim ℝ (List ℝ) P E R where
  getInitial := parametricInitial normal uniform pdfs p q 0 stateDim
  pred := step
  desired := defaultDesired controlDim
  done := defaultDone simulationTime
  filter := filter
  intervening := intervening
  constraints := constraints
  stepSize := stepSize
  controlDim := controlDim

end RTA
