import Verif.Lemmas.Frames
import Verif.Props.ASIF
import Verif.Props.ConstraintRTA

/-!
C07 and C08 for the modules of the library, with their own `reset`.
-/
namespace RTA

section
variable {K S P E I : Type}

/-- What `reset` leaves alone. -/
structure FrameReset (rst : CBObj K S P E → CBObj K S P E) : Prop where
  constraints : ∀ s, (rst s).constraints = s.constraints
  params : ∀ s, (rst s).params = s.params
  enabled : ∀ s, (rst s).constraintEnabled = s.constraintEnabled
  values : ∀ s, (rst s).constraintValues = s.constraintValues
  stale : ∀ s, (rst s).isStaleConstraints = s.isStaleConstraints

/-- Execute one operation with the `reset` of a subclass. -/
def stepM [Max K] [Min K] (rst : CBObj K S P E → CBObj K S P E) (getState : CBObj K S P E → I → Except PyErr S × CBObj K S P E)
    (filter : CBObj K S P E → S → K → List K → Except PyErr (List K) × CBObj K S P E) (s : CBObj K S P E) :
    CBOp K P I → CBObj K S P E
  | .reset => rst s
  | op => stepCB getState filter s op

/-- The module after a history. -/
def runM [Max K] [Min K] (rst : CBObj K S P E → CBObj K S P E) (getState : CBObj K S P E → I → Except PyErr S × CBObj K S P E)
    (filter : CBObj K S P E → S → K → List K → Except PyErr (List K) × CBObj K S P E) :
    CBObj K S P E → List (CBOp K P I) → CBObj K S P E
  | s, [] => s
  | s, op :: ops => runM rst getState filter (stepM rst getState filter s op) ops

/-- The states reached by the operations of a history, see `logEvent`. -/
def eventsM [Max K] [Min K] (rst : CBObj K S P E → CBObj K S P E) (getState : CBObj K S P E → I → Except PyErr S × CBObj K S P E)
    (filter : CBObj K S P E → S → K → List K → Except PyErr (List K) × CBObj K S P E) :
    CBObj K S P E → List (CBOp K P I) → List (LogEvent K S P)
  | _, [] => []
  | s, op :: ops => logEvent getState s op :: eventsM rst getState filter (stepM rst getState filter s op) ops

theorem reports_runM [Max K] [Min K] {rst : CBObj K S P E → CBObj K S P E} (hr : FrameReset rst)
    {getState : CBObj K S P E → I → Except PyErr S × CBObj K S P E}
    {filter : CBObj K S P E → S → K → List K → Except PyErr (List K) × CBObj K S P E}
    (hg : FrameGetState getState) (hf : FrameFilter filter) (ops : List (CBOp K P I)) (s : CBObj K S P E) :
    logOf (runM rst getState filter s ops) = reportLog (logOf s) (eventsM rst getState filter s ops) := by
  induction ops generalizing s with
  | nil => rfl
  | cons op ops ih =>
    simp only [runM, eventsM]
    rw [ih, reportLog_cons]
    congr 1
    have h1 := C08_labels hg hf [op] s
    simp only [runCB, logEvents] at h1
    cases op with
    | reset => simp only [stepM, logEvent, reportLog, logOf, generateInfoCB, hr.values, hr.stale]
    | _ => exact h1

theorem wf_runM [Max K] [Min K] {rst : CBObj K S P E → CBObj K S P E} (hr : FrameReset rst)
    {getState : CBObj K S P E → I → Except PyErr S × CBObj K S P E}
    {filter : CBObj K S P E → S → K → List K → Except PyErr (List K) × CBObj K S P E}
    (hg : FrameGetState getState) (hf : FrameFilter filter) (ops : List (CBOp K P I)) (s : CBObj K S P E) (h : WF s) :
    WF (runM rst getState filter s ops) := by
  induction ops generalizing s with
  | nil => exact h
  | cons op ops ih =>
    apply ih
    have h1 := wf_runCB hg hf [op] s h
    cases op with
    | reset =>
      exact ⟨by simp only [stepM, hr.constraints]; exact h.nodup, by simp only [stepM, hr.constraints, hr.params]; exact h.params,
        by simp only [stepM, hr.constraints, hr.enabled]; exact h.enabled⟩
    | _ => exact h1

theorem frame_baseReset : FrameReset (fun s : CBObj K S P E => Base.reset s) := by constructor <;> intro s <;> rfl

/-- The next call depends on the constraints as they are, not on what the caches held before. -/
theorem edits_of_wf [Max K] [Min K] {getState : CBObj K S P E → I → Except PyErr S × CBObj K S P E}
    {filter : CBObj K S P E → S → K → List K → Except PyErr (List K) × CBObj K S P E} {s fresh : CBObj K S P E} (hwf : WF s)
    {high low : Option (Bound K)} (hen : s.enable = true) (hfresh : CBObj.init high low s.constraints none s.ext = .ok fresh)
    (i : I) (dt : K) (u : List K) :
    filterControlCB getState filter s i dt u =
      filterControlCB getState filter { s with params := fresh.params, constraintEnabled := fresh.constraintEnabled } i dt u := by
  have hwf' : WF fresh := wf_init hwf.nodup hfresh
  have hc : fresh.constraints = s.constraints := by
    simp only [CBObj.init, selectConstraints, Except.ok.injEq] at hfresh
    rw [← hfresh]; rfl
  rw [filterControlCB_enabled hen, filterControlCB_enabled (by exact hen)]
  have hcomp : ∀ s1 s2 : CBObj K S P E, updateParams s1 = updateParams s2 →
      computeFilteredControl getState filter s1 i dt u = computeFilteredControl getState filter s2 i dt u := by
    intro s1 s2 h
    unfold computeFilteredControl
    rw [h]
  rw [hcomp (withDesired s u) _ ?_]
  rw [updateParams_eq (wf_withDesired hwf u)]
  refine ((updateParams_eq ?_).trans ?_).symm
  · exact wf_withDesired (s := { s with params := fresh.params, constraintEnabled := fresh.constraintEnabled })
      ⟨hwf.nodup, hwf'.params.trans (by rw [hc]), hwf'.enabled.trans (by rw [hc])⟩ u
  · rfl

end

section
variable {K S P X A : Type}

theorem frame_simplexReset : FrameReset (fun s : SimplexObj K S P A => (simplexReset s).2) := by
  constructor <;> intro s <;> unfold simplexReset <;> rfl

theorem frame_implicitReset : FrameReset (fun s : ImplicitObj K P A => (implicitReset s).2) := by
  constructor <;> intro s <;> unfold implicitReset <;> rfl

/-- **C08**, explicit ASIF modules: after any history of calls, updates, edits, resets and toggles the label and the values in
`generate_info` are those of the last operation that reached a state. -/
theorem C08_explicit_asif [Add K] [Mul K] [Neg K] [Sub K] [Zero K] [One K] [OfNat K 10] [Max K] [Min K] [HasSqrt K] [LT K]
    [DecidableLT K] (solver : Solver K) (f : S → List K) (g : S → List (List K)) (ops : List (CBOp K P (InputState S)))
    (s : ASIFObj K S P X) :
    logOf (runM (fun s => Base.reset s) getStateDefault (asifFilter solver (explicitGenRows f g)) s ops) =
      reportLog (logOf s) (eventsM (fun s => Base.reset s) getStateDefault (asifFilter solver (explicitGenRows f g)) s ops) :=
  reports_runM frame_baseReset frame_getStateDefault
    (frameFilter_of (asif_untouched solver (explicitGen_untouched f g))) ops s

/-- **C08**, implicit ASIF modules. -/
theorem C08_implicit_asif [Field K] [LinearOrder K] [FloorRing K] [HasSqrt K] (solver : Solver K) (E : ImplicitEnv K)
    (ops : List (CBOp K P (InputState (List K)))) (s : ImplicitObj K P A) :
    logOf (runM (fun s => (implicitReset s).2) getStateDefault (asifFilter solver (implicitGenRows E.ad E.f E.g E.pred)) s ops) =
      reportLog (logOf s)
        (eventsM (fun s => (implicitReset s).2) getStateDefault (asifFilter solver (implicitGenRows E.ad E.f E.g E.pred)) s ops) :=
  reports_runM frame_implicitReset frame_getStateDefault
    (frameFilter_of (asif_untouched solver (implicitGen_untouched E))) ops s

/-- **C08**, discrete ASIF modules. -/
theorem C08_discrete_asif [Field K] [Max K] [Min K] [HasSqrt K] [LT K] [DecidableLT K] (solver : NLPSolver K)
    (next : S → K → List K → S) (ops : List (CBOp K P (InputState S))) (s : DiscObj K S P) :
    logOf (runM (fun s => Base.reset s) getStateDefault (discFilter solver next) s ops) =
      reportLog (logOf s) (eventsM (fun s => Base.reset s) getStateDefault (discFilter solver next) s ops) :=
  reports_runM frame_baseReset frame_getStateDefault (frameFilter_of (disc_untouched solver next)) ops s

/-- **C08**, explicit and implicit simplex modules. -/
theorem C08_simplex [Field K] [LinearOrder K] [FloorRing K] (pred : S → K → List K → S)
    (ops : List (CBOp K P (InputState S))) (s : SimplexObj K S P A) :
    logOf (runM (fun s => (simplexReset s).2) getStateDefault (simplexFilter (explicitMonitor pred)) s ops) =
      reportLog (logOf s) (eventsM (fun s => (simplexReset s).2) getStateDefault (simplexFilter (explicitMonitor pred)) s ops) ∧
    logOf (runM (fun s => (simplexReset s).2) getStateDefault (simplexFilter (implicitMonitor pred)) s ops) =
      reportLog (logOf s) (eventsM (fun s => (simplexReset s).2) getStateDefault (simplexFilter (implicitMonitor pred)) s ops) :=
  ⟨reports_runM frame_simplexReset frame_getStateDefault (frameFilter_simplex (monFrame_explicit pred)) ops s,
    reports_runM frame_simplexReset frame_getStateDefault (frameFilter_simplex (monFrame_implicit pred)) ops s⟩

theorem wf_setExt {E : Type} {s : CBObj K S P E} (h : WF s) (e : E) : WF (s.setExt e) := ⟨h.nodup, h.params, h.enabled⟩

theorem wf_asifInit [Zero K] [One K] [Neg K] [HasSqrt K] {high low : Option (Bound K)} {all : Dict (Constraint K S P)}
    {use : Option (List String)} {epsilon : K} {controlDim : Nat} {exc : Bool} {direct : Dict (DirectConstraint K S P)} {extra : X}
    {s : ASIFObj K S P X} (hall : (dictKeys all).Nodup)
    (h : asifInit high low all use epsilon controlDim exc direct extra = .ok s) : WF s := by
  unfold asifInit at h
  split at h
  · cases h
  · rename_i s0 h0
    have hw := wf_init hall h0
    simp only at h
    split at h
    · cases h
    · simp only [Except.ok.injEq] at h
      subst h
      exact wf_setExt (wf_setExt hw _) _

theorem wf_discInit [One K] [HasSqrt K] {high low : Option (Bound K)} {all : Dict (Constraint K S P)} {use : Option (List String)}
    {epsilon : K} {controlDim : Nat} {exc : Bool} {s : DiscObj K S P} (hall : (dictKeys all).Nodup)
    (h : discInit high low all use epsilon controlDim exc = .ok s) : WF s := by
  unfold discInit at h
  split at h
  · cases h
  · rename_i s0 h0
    simp only [Except.ok.injEq] at h
    subst h
    exact wf_setExt (wf_init hall h0) _

/-- **C07**, explicit ASIF modules: after any history with any number of resets, a call uses the params and flags that the
constraints have when it is made. -/
theorem C07_explicit_asif [Add K] [Mul K] [Neg K] [Sub K] [Zero K] [One K] [OfNat K 10] [Max K] [Min K] [HasSqrt K] [LT K]
    [DecidableLT K] (solver : Solver K) (f : S → List K) (g : S → List (List K)) {high low : Option (Bound K)}
    {all : Dict (Constraint K S P)} {use : Option (List String)} {epsilon : K} {controlDim : Nat} {exc : Bool}
    {direct : Dict (DirectConstraint K S P)} {extra : X} {s0 fresh : ASIFObj K S P X} (hall : (dictKeys all).Nodup)
    (hinit : asifInit high low all use epsilon controlDim exc direct extra = .ok s0) (ops : List (CBOp K P (InputState S)))
    (e : String → P × Bool → P × Bool) (i : InputState S) (dt : K) (u : List K) :
    let s := editConstraints e (runM (fun s => Base.reset s) getStateDefault (asifFilter solver (explicitGenRows f g)) s0 ops)
    s.enable = true → CBObj.init high low s.constraints none s.ext = .ok fresh →
    explicitASIF solver f g s i dt u =
      explicitASIF solver f g { s with params := fresh.params, constraintEnabled := fresh.constraintEnabled } i dt u := by
  intro s hen hfresh
  exact edits_of_wf (wf_edit e (wf_runM frame_baseReset frame_getStateDefault
    (frameFilter_of (asif_untouched solver (explicitGen_untouched f g))) ops s0 (wf_asifInit hall hinit))) hen hfresh i dt u

/-- **C07**, implicit ASIF modules. -/
theorem C07_implicit_asif [Field K] [LinearOrder K] [FloorRing K] [HasSqrt K] (solver : Solver K) (E : ImplicitEnv K)
    {high low : Option (Bound K)} {all : Dict (Constraint K (List K) P)} {use : Option (List String)} {epsilon : K} {controlDim : Nat}
    {exc : Bool} {direct : Dict (DirectConstraint K (List K) P)} {extra : ImplicitExt K A} {s0 fresh : ImplicitObj K P A}
    (hall : (dictKeys all).Nodup)
    (hinit : asifInit high low all use epsilon controlDim exc direct extra = .ok s0) (ops : List (CBOp K P (InputState (List K))))
    (e : String → P × Bool → P × Bool) (i : InputState (List K)) (dt : K) (u : List K) :
    let s := editConstraints e
      (runM (fun s => (implicitReset s).2) getStateDefault (asifFilter solver (implicitGenRows E.ad E.f E.g E.pred)) s0 ops)
    s.enable = true → CBObj.init high low s.constraints none s.ext = .ok fresh →
    implicitASIF solver E.ad E.f E.g E.pred s i dt u =
      implicitASIF solver E.ad E.f E.g E.pred { s with params := fresh.params, constraintEnabled := fresh.constraintEnabled } i dt u := by
  intro s hen hfresh
  exact edits_of_wf (wf_edit e (wf_runM frame_implicitReset frame_getStateDefault
    (frameFilter_of (asif_untouched solver (implicitGen_untouched E))) ops s0 (wf_asifInit hall hinit))) hen hfresh i dt u

/-- **C07**, discrete ASIF modules. -/
theorem C07_discrete_asif [Field K] [Max K] [Min K] [HasSqrt K] [LT K] [DecidableLT K] (solver : NLPSolver K)
    (next : S → K → List K → S) {high low : Option (Bound K)} {all : Dict (Constraint K S P)} {use : Option (List String)}
    {epsilon : K} {controlDim : Nat} {exc : Bool} {s0 fresh : DiscObj K S P} (hall : (dictKeys all).Nodup)
    (hinit : discInit high low all use epsilon controlDim exc = .ok s0) (ops : List (CBOp K P (InputState S)))
    (e : String → P × Bool → P × Bool) (i : InputState S) (dt : K) (u : List K) :
    let s := editConstraints e (runM (fun s => Base.reset s) getStateDefault (discFilter solver next) s0 ops)
    s.enable = true → CBObj.init high low s.constraints none s.ext = .ok fresh →
    discreteASIF solver next s i dt u =
      discreteASIF solver next { s with params := fresh.params, constraintEnabled := fresh.constraintEnabled } i dt u := by
  intro s hen hfresh
  exact edits_of_wf (wf_edit e (wf_runM frame_baseReset frame_getStateDefault (frameFilter_of (disc_untouched solver next)) ops s0
    (wf_discInit hall hinit))) hen hfresh i dt u

/-- **C07**, explicit and implicit simplex modules. -/
theorem C07_simplex [Field K] [LinearOrder K] [FloorRing K]
    {mon : SimplexObj K S P A → S → K → List K → Except PyErr Bool × SimplexObj K S P A} {pred : S → K → List K → S}
    (hmon : mon = explicitMonitor pred ∨ mon = implicitMonitor pred) {high low : Option (Bound K)} {all : Dict (Constraint K S P)}
    {use : Option (List String)} {latchTime backupWindow : K} {ctrl : BackupController K S A} {s0 fresh : SimplexObj K S P A}
    (hall : (dictKeys all).Nodup) (hinit : simplexInit high low all use latchTime backupWindow ctrl = .ok s0)
    (ops : List (CBOp K P (InputState S))) (e : String → P × Bool → P × Bool) (i : InputState S) (dt : K) (u : List K) :
    let s := editConstraints e (runM (fun s => (simplexReset s).2) getStateDefault (simplexFilter mon) s0 ops)
    s.enable = true → CBObj.init high low s.constraints none s.ext = .ok fresh →
    filterControlCB getStateDefault (simplexFilter mon) s i dt u =
      filterControlCB getStateDefault (simplexFilter mon)
        { s with params := fresh.params, constraintEnabled := fresh.constraintEnabled } i dt u := by
  intro s hen hfresh
  have hm : MonFrame mon := by
    rcases hmon with rfl | rfl
    · exact monFrame_explicit pred
    · exact monFrame_implicit pred
  exact edits_of_wf (wf_edit e (wf_runM frame_simplexReset frame_getStateDefault (frameFilter_simplex hm) ops s0
    (wf_init hall hinit))) hen hfresh i dt u

end

/-- A constructed module meeting the hypotheses: after an update at 3 and a reset it reports the value 3 under the label `constraints`,
after one more call at 4 - whatever the solver and the desired control - the value 4 under the other label. -/
example (solver : Solver ℝ) (exc : Bool) (u : List ℝ) :
    let run := runM (fun s => Base.reset s) getStateDefault (asifFilter solver (explicitGenRows toyF toyG)) (toyObj none exc)
    (dictKeys [("c", toyC none)]).Nodup ∧ toyInit none exc = .ok (toyObj none exc) ∧
    logOf (run [.update (.array 3), .reset]) = ("constraints", [("c", 3)]) ∧
    logOf (run [.update (.array 3), .reset, .call (.array 4) 1 u]) = ("constraints_at_last_state", [("c", 4)]) := by
  refine ⟨by simp [dictKeys], rfl, rfl, ?_⟩
  rw [C08_explicit_asif]
  rfl

end RTA
