import Verif.Model.Cascade
import Verif.Model.Zoo.DeltaV
import Verif.Model.Zoo.InspectionModule

/-!
Model of `InspectionCascadedRTA` (`run_time_assurance/zoo/cwh/inspection_1v1.py:740-745`), over the real numbers: the inspection module
`Inspection1v1RTA` followed by the delta-v limiter `SwitchingDeltaVLimitRTA`.

The gain matrices of the limiter are parameters, see `Model/Zoo/DeltaV.lean` and `Model/Zoo/Riccati.lean`. States are 1-D arrays.
-/
namespace RTA

/-- The objects in the list of the cascade. `sunVel` is the attribute `sun_vel` of the inspection module, which `_get_state` overwrites
(`zoo/cwh/inspection_1v1.py:208, 354-364`). -/
inductive InspStage where
  | asif (sunVel : ℝ) (s : ASIFObj ℝ (List ℝ) InspParams Unit)
  | deltaV (s : DeltaVObj ℝ)

instance : HasBase InspStage ℝ where
  get
    | .asif _ s => s.toBase
    | .deltaV s => s.toBase
  set b
    | .asif v s => .asif v { s with toBase := b }
    | .deltaV s => .deltaV { s with toBase := b }
  get_set b s := by cases s <;> rfl
  set_get s := by cases s <;> rfl
  set_set b b' s := by cases s <;> rfl

/-- `Inspection1v1RTA._get_state` (`zoo/cwh/inspection_1v1.py:354-364`): the state and the attribute `sun_vel` afterwards. The automatic
differentiation of the constraints uses the rate they were constructed with. -/
def inspGetState (sunVel : ℝ) (x : List ℝ) : List ℝ × ℝ :=
  if x.length < 8 then (x ++ [0, 0], 0) else (x, sunVel)

/-- `filter_control` of the two stages (`rta/base.py:60-85`, called in `rta/base.py:371`); `_get_state` runs only when the module is
enabled (`rta/base.py:77-83, 233`). -/
noncomputable def inspStageFilter [HasSqrt ℝ] (solver : Solver ℝ) (c : InspConfig) :
    InspStage → List ℝ → ℝ → List ℝ → Except PyErr (List ℝ) × InspStage
  | .asif sunVel s, x, dt, u =>
    let got := if s.enable then inspGetState sunVel x else (x, sunVel)
    let r := explicitASIF solver (inspectionF c.n got.2) (fun _ => inspectionG c.m) s (.array got.1) dt u
    (r.1, .asif got.2 r.2)
  | .deltaV s, x, dt, u =>
    let r := deltaVFilter s x dt u
    (r.1, .deltaV r.2)

/-- `InspectionCascadedRTA._setup_rta_list` and `CascadedRTA.__init__` (`zoo/cwh/inspection_1v1.py:743-745`, `rta/base.py:363-365`): both
stages are constructed with their default arguments (`zoo/cwh/inspection_1v1.py:30-43, 171-195, 645-655`, `epsilon` 0.01 and
`solver_exception` off from `rta/asif.py:42`; `U_MAX_DEFAULT` is 1, `DELTA_V_LIMIT_DEFAULT` 20), here with the configuration `c` and the limit as
parameters; the bounds of the cascade itself are those passed to its constructor. -/
noncomputable def inspCascade [HasSqrt ℝ] (c : InspConfig) (limit : ℝ) (nSteps : Nat) (K1 K2 : List (List ℝ)) (high low : Option (Bound ℝ)) :
    Except PyErr (CascadeObj ℝ InspStage) :=
  match inspASIF c (some (.scalar 1)) (some (.scalar (-1))) (1 / 100) false with
  | .error e => .error e
  | .ok s1 =>
    match deltaVInit c.m c.n limit nSteps (some (.scalar 1)) (some (.scalar (-1))) K1 K2 with
    | .error e => .error e
    | .ok s2 => .ok (cascadeInit high low [.asif c.sunVel s1, .deltaV s2])

/-- `InspectionCascadedRTA.filter_control` (`rta/base.py:60-85, 367-375`). -/
noncomputable def inspCascadeFilter [HasSqrt ℝ] (solver : Solver ℝ) (c : InspConfig) :
    CascadeObj ℝ InspStage → List ℝ → ℝ → List ℝ → Except PyErr (List ℝ) × CascadeObj ℝ InspStage :=
  cascadeFilter (inspStageFilter solver c)

end RTA
