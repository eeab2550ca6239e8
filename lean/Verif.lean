import Verif.Props.Base
import Verif.Props.ConstraintRTA
import Verif.Props.Simplex
import Verif.Props.Latch
import Verif.Props.ClosedLoop
import Verif.Props.NaN
import Verif.Props.Reset
import Verif.Props.ASIF
import Verif.Props.ASIFHistory
import Verif.Props.Constraints
import Verif.Props.Flow
import Verif.Props.Discrete
import Verif.Props.BoundsChange
import Verif.Props.Implicit
import Verif.Props.ImplicitHistory
import Verif.Props.ImplicitFlow
import Verif.Props.Sensitivity
import Verif.Spec.SensitivityNonlinear
import Verif.Props.SensitivityNonlinear
import Verif.Props.Cascade
import Verif.Props.Zoo.DeltaV
import Verif.Props.Heap
import Verif.Props.Zoo.CWH
import Verif.Props.Zoo.PSM
import Verif.Props.Zoo.KeepOut
import Verif.Props.Zoo.Limits
import Verif.Props.Zoo.Conic
import Verif.Props.Zoo.Combined
import Verif.Props.Zoo.Integrator
import Verif.Props.Zoo.IntegratorImplicit
import Verif.Props.Zoo.Docking
import Verif.Props.Zoo.Backup
import Verif.Props.Zoo.BackupGain
import Verif.Props.Zoo.InspectionModule
import Verif.Props.SampleTesting
import Verif.Props.Rest
import Verif.Spec.Zoo.Inspection
import Verif.Model.Zoo.InspectionModule
import Verif.Model.Zoo.InspectionMulti
import Verif.Lemmas.FlowEnd
import Verif.Lemmas.Zoo.InspectionModule
import Verif.Lemmas.Zoo.InspectionMotion
import Verif.Lemmas.Zoo.MultiDynamics
import Verif.Lemmas.Zoo.MultiMotion
import Verif.Lemmas.Zoo.MultiStays
import Verif.Props.Zoo.InspectionMulti
import Verif.Props.Zoo.CombinedInspection
import Verif.Lemmas.Zoo.InspectionHocbf
import Verif.Props.Zoo.InspectionHocbf
import Verif.Props.Strict
import Verif.Props.Zoo.DockingImplicit
import Verif.Props.State
import Verif.Model.Zoo.InspectionDiscrete
import Verif.Lemmas.DiscreteDesired
import Verif.Lemmas.Zoo.InspectionDiscrete
import Verif.Lemmas.Zoo.InspectionAxis
import Verif.Props.Zoo.InspectionDiscrete
import Verif.Props.Zoo.InspectionDiscreteRefuted
import Verif.Model.Zoo.InspectionCascade
import Verif.Spec.Zoo.InspectionCascade
import Verif.Lemmas.Zoo.InspectionCascade
import Verif.Props.Zoo.InspectionCascade
import Verif.Model.Zoo.Riccati
import Verif.Props.Zoo.Riccati
import Verif.Props.ClosedLoopOn
import Verif.Lemmas.Zoo.DockingGain
import Verif.Lemmas.Zoo.DockingStep
import Verif.Lemmas.Zoo.DockingFlow
import Verif.Props.Zoo.DockingSwitch
import Verif.Props.Zoo.DockingPredict
import Verif.Props.Zoo.InspectionDiscreteAll
import Verif.Lemmas.Hold
import Verif.Lemmas.Zoo.Hold
import Verif.Props.Sampled
import Verif.Props.Zoo.DockingSampled
import Verif.Props.Zoo.DockingSampledRefuted
import Verif.Model.Jit
import Verif.Spec.Jit
import Verif.Lemmas.Jit
import Verif.Lemmas.JitFrozen
import Verif.Lemmas.JitOff
import Verif.Props.Jit
import Verif.Model.JitDiscrete
import Verif.Lemmas.JitDiscrete
import Verif.Props.JitDiscrete
import Verif.Props.LatinHypercube
import Verif.Model.JitHocbf
import Verif.Props.JitHocbf
import Verif.Props.Zoo.DockingJit
import Verif.Props.Zoo.InspectionJit
import Verif.Spec.Order
import Verif.Lemmas.ASIFConvex
import Verif.Lemmas.ASIFPerm
import Verif.Props.ASIFLipschitz
import Verif.Props.Order
import Verif.Props.OrderDiscrete
import Verif.Props.SymmetryDiscrete
import Verif.Props.SymmetryImplicit
import Verif.Props.Zoo.DockingImplicitSymmetry
import Verif.Props.Zoo.InspectionSymmetry
import Verif.Props.Zoo.InspectionMirror
import Verif.Spec.Continuity
import Verif.Lemmas.ASIFContinuity
import Verif.Props.Continuity
import Verif.Model.Options
import Verif.Spec.Options
import Verif.Props.Options
import Verif.Model.Shared
import Verif.Spec.Shared
import Verif.Lemmas.Shared
import Verif.Props.Shared
import Verif.Spec.Tolerance
import Verif.Lemmas.Tolerance
import Verif.Props.Tolerance
import Verif.Model.CascadeShared
import Verif.Lemmas.CascadeShared
import Verif.Props.Idempotent
import Verif.Props.CascadeShared
import Verif.Lemmas.Frames
import Verif.Props.ModuleReports
import Verif.Props.Zoo.Reports
import Verif.Spec.Disturbance
import Verif.Props.Disturbance
import Verif.Props.DisturbanceImplicit
import Verif.Props.Zoo.DockingDisturbed
import Verif.Spec.ToleranceMore
import Verif.Lemmas.ToleranceDiscrete
import Verif.Lemmas.ToleranceImplicit
import Verif.Props.ToleranceDiscrete
import Verif.Props.ToleranceImplicit
import Verif.Model.Rounding
import Verif.Spec.Rounding
import Verif.Lemmas.Rounding
import Verif.Props.Rounding
import Verif.Props.Zoo.InspectionDefaults
import Verif.Props.Delay
import Verif.Props.Between
import Verif.Spec.ClosedForm
import Verif.Props.ClosedForm
import Verif.Spec.Symmetry
import Verif.Props.Symmetry
import Verif.Props.Zoo.DockingSymmetry
import Verif.Props.Units
import Verif.Props.SimplexSymmetry
import Verif.Props.Zoo.DockingSimplexSymmetry
import Verif.Spec.Caution
import Verif.Props.Caution
import Verif.Props.Window
import Verif.Props.Dwell
import Verif.Props.SmallSteps
import Verif.Props.DiscreteRecovery
import Verif.Props.CascadeJoin
import Verif.Spec.Zoo.Renumber
import Verif.Lemmas.Zoo.Renumber
import Verif.Props.Zoo.Renumber
import Verif.Spec.ChangedSet
import Verif.Lemmas.ChangedSet
import Verif.Lemmas.ChangedSetImplicit
import Verif.Props.ChangedSet
import Verif.Props.ChangedSetImplicit
import Verif.Props.ChangedSetDiscrete
import Verif.Spec.Soft
import Verif.Lemmas.Soft
import Verif.Props.Soft
import Verif.Props.SoftDiscrete
import Verif.Spec.ChangedScales
import Verif.Props.ChangedScales
import Verif.Props.SoftLoop
import Verif.Props.Zoo.IntegratorArrives
import Verif.Props.Steep
import Verif.Lemmas.GlobalODE
import Verif.Props.Existence
import Verif.Props.ExistenceSampled
import Verif.Props.Edges
import Verif.Props.ExistenceScalar
import Verif.Lemmas.SampledODE
import Verif.Props.SamplingLimit
import Verif.Props.SimplexMargin
import Verif.Props.SafetyNet
import Verif.Props.Zoo.IntegratorMargin
import Verif.Props.Zoo.IntegratorMarginImplicit
import Verif.Props.Zoo.IntegratorMotion
import Verif.Props.SafetyNetImplicit
import Verif.Props.ExistenceImplicit
import Verif.Props.Zoo.IntegratorHeld
import Verif.Props.Zoo.IntegratorNet
