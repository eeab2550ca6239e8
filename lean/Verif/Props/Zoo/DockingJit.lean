import Verif.Spec.Jit
import Verif.Model.Zoo.DockingJit
import Verif.Props.Zoo.DockingSwitch

/-!
C90: the documented compile options of the switching docking modules.
-/
namespace RTA
section
variable {K S P A : Type}

/-- Where the prediction used by the options gives `p`, an explicit module answers as the module without compilation. -/
theorem C90_explicit_agrees [Max K] [Min K] [Add K] [Zero K] [LE K] [DecidableLE K] [LT K] [DecidableLT K]
    {pred : Bool → S → K → List K → Except PyErr S} {p : S → K → List K → S} {o : PredOptions}
    (hp : ∀ x dt u, pred o.predJit x dt u = .ok (p x dt u)) (s : SimplexObj K S P A) (inp : InputState S) (dt : K) (u : List K) :
    explicitSimplexP pred o s inp dt u = explicitSimplex p s inp dt u := by
  have e : explicitMonitorP pred o = explicitMonitor (P := P) (A := A) p := by
    funext s x dt u
    simp only [explicitMonitorP, predFn, Bool.false_or, hp, explicitMonitor]
  unfold explicitSimplexP explicitSimplex
  rw [e]

theorem integrateLoopP_eq [Max K] [Min K] {pred : Bool → S → K → List K → Except PyErr S} {p : S → K → List K → S} {o : PredOptions}
    (hp : ∀ x dt u, pred (o.integrateJit || o.predJit) x dt u = .ok (p x dt u)) (dt : K) (n : Nat) (s : SimplexObj K S P A) (x : S)
    (acc : List S) : integrateLoopP pred o dt n s x acc = integrateLoop p dt n s x acc := by
  induction n generalizing s x acc with
  | zero => rfl
  | succ n ih =>
    simp only [integrateLoopP, integrateLoop, predFn, hp]
    rcases backupControl s x dt with ⟨_ | u, s'⟩
    · rfl
    · exact ih s' _ _

/-- The same for implicit modules. -/
theorem C90_implicit_agrees [Field K] [LinearOrder K] [FloorRing K]
    {pred : Bool → S → K → List K → Except PyErr S} {p : S → K → List K → S} {o : PredOptions}
    (hp : ∀ x dt u, pred (o.integrateJit || o.predJit) x dt u = .ok (p x dt u)) (s : SimplexObj K S P A) (inp : InputState S) (dt : K)
    (u : List K) : implicitSimplexP pred o s inp dt u = implicitSimplex p s inp dt u := by
  have e : implicitMonitorP pred o = implicitMonitor (P := P) (A := A) p := by
    funext s x dt u
    simp only [implicitMonitorP, implicitMonitor, implicitIntegrateP, implicitIntegrate, predFn, hp, integrateLoopP_eq hp]
    rcases backupSteps s.ext.backupWindow dt with _ | n
    · rfl
    · rcases backupControllerSave s with ⟨_ | _, s'⟩
      · rfl
      · rcases integrateLoop p dt n.toNat s' (p x dt u) [p x dt u] with ⟨_ | _, _⟩ <;> rfl
  unfold implicitSimplexP implicitSimplex
  rw [e]

/-- A monitor that raises makes every call of a module that is enabled and not intervening raise, and changes neither. -/
theorem filter_raises [Max K] [Min K] [Add K] [Zero K] [LE K] [DecidableLE K]
    {monitor : SimplexObj K S P A → S → K → List K → Except PyErr Bool × SimplexObj K S P A} {x : S} {dt : K} {u : List K}
    {e : PyErr} (hm : ∀ s, monitor s x dt u = (.error e, s)) {s : SimplexObj K S P A} (he : s.enable = true)
    (hi : s.intervening = false) :
    (filterControlCB getStateDefault (simplexFilter monitor) s (.array x) dt u).1 = .error e ∧
      (filterControlCB getStateDefault (simplexFilter monitor) s (.array x) dt u).2.enable = true ∧
      (filterControlCB getStateDefault (simplexFilter monitor) s (.array x) dt u).2.intervening = false := by
  have hf : ∀ t : SimplexObj K S P A, t.intervening = false → simplexFilter monitor t x dt u = (.error e, t) := by
    intro t ht
    simp only [simplexFilter, ht, Bool.false_eq_true, if_false, hm]
  simp only [filterControlCB, filterControl, computeFilteredControl, getStateDefault, modifyBase, HasBase.get, HasBase.set, he, if_true]
  rw [hf _ (by exact hi)]
  exact ⟨rfl, rfl, hi⟩

/-- A module all of whose predictions raise never answers. -/
theorem answers_raise [Max K] [Min K] [Add K] [Zero K] [LE K] [DecidableLE K]
    {monitor : SimplexObj K S P A → S → K → List K → Except PyErr Bool × SimplexObj K S P A} {e : PyErr}
    {l : List (S × K × List K)} (hm : ∀ c ∈ l, ∀ s, monitor s c.1 c.2.1 c.2.2 = (.error e, s)) {s : SimplexObj K S P A}
    (he : s.enable = true) (hi : s.intervening = false) :
    ∀ a ∈ answers (filterControlCB getStateDefault (simplexFilter monitor)) s l, a = .error e := by
  induction l generalizing s with
  | nil => intro a ha; simp [answers] at ha
  | cons c l ih =>
    obtain ⟨x, dt, u⟩ := c
    obtain ⟨h1, h2, h3⟩ := filter_raises (hm (x, dt, u) List.mem_cons_self) he hi
    intro a ha
    rcases List.mem_cons.1 ha with rfl | ha
    · exact h1
    · exact ih (fun c hc => hm c (List.mem_cons_of_mem _ hc)) h2 h3 a ha

end

section
variable {A : Type}

/-- The compile options do not change any answer of the 3-D switching docking modules (nor the object they leave behind). -/
theorem C90_dock3 (step : List ℝ → ℝ → List ℝ → List ℝ) (o : PredOptions) (s : SimplexObj ℝ (List ℝ) DockParams A)
    (inp : InputState (List ℝ)) (dt : ℝ) (u : List ℝ) :
    explicitSimplexP (dockPred3 step) o s inp dt u = explicitSimplex step s inp dt u ∧
      implicitSimplexP (dockPred3 step) o s inp dt u = implicitSimplex step s inp dt u :=
  ⟨C90_explicit_agrees (fun _ _ _ => rfl) s inp dt u, C90_implicit_agrees (fun _ _ _ => rfl) s inp dt u⟩

/-- Nor those of the 2-D modules as long as neither option is switched on. Missing: the cases where one is; they are refuted
below. -/
theorem C90_dock2_partial (step : List ℝ → ℝ → List ℝ → List ℝ) {o : PredOptions} (hp : o.predJit = false) (hi : o.integrateJit = false)
    (s : SimplexObj ℝ (List ℝ) DockParams A) (inp : InputState (List ℝ)) (dt : ℝ) (u : List ℝ) :
    explicitSimplexP (dockPred2 step) o s inp dt u = explicitSimplex step s inp dt u ∧
      implicitSimplexP (dockPred2 step) o s inp dt u = implicitSimplex step s inp dt u :=
  ⟨C90_explicit_agrees (fun x dt u => by rw [hp]; rfl) s inp dt u, C90_implicit_agrees (fun x dt u => by rw [hp, hi]; rfl) s inp dt u⟩

/-- The options that a module gets by default, or with `jit_enable=False`, are of that kind. -/
theorem C90_default_options (jitEnable : Bool) {opts : Dict Bool} (hp : dictGet opts "pred_state" = none)
    (hi : dictGet opts "integrate" = none) :
    (PredOptions.compose jitEnable opts).predJit = false ∧ (PredOptions.compose jitEnable opts).integrateJit = false ∧
      ∀ opts, (PredOptions.compose false opts).predJit = false ∧ (PredOptions.compose false opts).integrateJit = false := by
  simp [PredOptions.compose, jitOption, hp, hi]

/-- With `jit_compile_dict={"pred_state": True, ...}` the explicit 2-D docking module raises `TypeError` in every call. -/
theorem C90_refuted_explicit (step : List ℝ → ℝ → List ℝ → List ℝ) {n v0 v1Coef v0Distance xLim yLim latchTime window : ℝ}
    {high low : Option (Bound ℝ)} {G : List (List ℝ)} {s : SimplexObj ℝ (List ℝ) DockParams A}
    (h : dock2Simplex n v0 v1Coef v0Distance xLim yLim high low G latchTime window = .ok s) {opts : Dict Bool}
    (ho : dictGet opts "pred_state" = some true) (l : List (List ℝ × ℝ × List ℝ)) :
    ∀ a ∈ answers (explicitSimplexP (dockPred2 step) (PredOptions.compose true opts)) s l, a = .error (.typeError tracerArrayMsg) := by
  obtain ⟨-, he, -, -, -, -, -, -, -, -, hi⟩ := dock2S_init h
  refine answers_raise (fun c _ s => ?_) he hi
  simp [explicitMonitorP, predFn, dockPred2, npArrayOf, PredOptions.compose, jitOption, ho]

/-- With `pred_state` or `integrate` switched on the implicit 2-D docking module raises `TypeError` in every call. -/
theorem C90_refuted_implicit (step : List ℝ → ℝ → List ℝ → List ℝ) {n v0 v1Coef v0Distance xLim yLim latchTime window : ℝ}
    {high low : Option (Bound ℝ)} {G : List (List ℝ)} {s : SimplexObj ℝ (List ℝ) DockParams A}
    (h : dock2Simplex n v0 v1Coef v0Distance xLim yLim high low G latchTime window = .ok s) {opts : Dict Bool}
    (ho : dictGet opts "pred_state" = some true ∨ dictGet opts "integrate" = some true) {l : List (List ℝ × ℝ × List ℝ)}
    (hl : ∀ c ∈ l, c.2.1 ≠ 0) :
    ∀ a ∈ answers (implicitSimplexP (dockPred2 step) (PredOptions.compose true opts)) s l, a = .error (.typeError tracerArrayMsg) := by
  obtain ⟨-, he, -, -, -, -, -, -, -, -, hi⟩ := dock2S_init h
  refine answers_raise (fun c hc s => ?_) he hi
  have hc := hl c hc
  rcases ho with ho | ho <;>
    simp [implicitMonitorP, implicitIntegrateP, backupSteps, hc, predFn, dockPred2, npArrayOf, PredOptions.compose, jitOption, ho]

/-- The hypotheses are met by the module with the default parameters, and there is an answer to speak about. -/
example : ∃ s : SimplexObj ℝ (List ℝ) DockParams Unit,
    dock2Simplex (1 / 1000) (1 / 5) 2 0 10 10 (some (.scalar 1)) (some (.scalar (-1))) [[0, 0, 1, 0], [0, 0, 0, 1]] 0 5 = .ok s ∧
      answers (explicitSimplexP (dockPred2 fun x _ _ => x) (PredOptions.compose true [("constraint_violation", true), ("pred_state", true)])) s
        [([100, 0, 0, 0], 1, [0, 0])] = [.error (.typeError tracerArrayMsg)] := by
  obtain ⟨s, hs⟩ : ∃ s : SimplexObj ℝ (List ℝ) DockParams Unit,
    dock2Simplex (1 / 1000) (1 / 5) 2 0 10 10 (some (.scalar 1)) (some (.scalar (-1))) [[0, 0, 1, 0], [0, 0, 0, 1]] 0 5 = .ok s := ⟨_, rfl⟩
  refine ⟨s, hs, congrArg (fun a => [a]) ?_⟩
  exact C90_refuted_explicit _ hs rfl [([100, 0, 0, 0], 1, [0, 0])] _ List.mem_cons_self

/-- The same call is answered when nothing is compiled. -/
example : ∃ s : SimplexObj ℝ (List ℝ) DockParams Unit,
    dock2Simplex (1 / 1000) (1 / 5) 2 0 10 10 (some (.scalar 1)) (some (.scalar (-1))) [[0, 0, 1, 0], [0, 0, 0, 1]] 0 5 = .ok s ∧
      ∃ a, (explicitSimplexP (dockPred2 fun x _ _ => x) (PredOptions.compose true [("constraint_violation", true)]) s
        (.array [100, 0, 0, 0]) 1 [0, 0]).1 = .ok a := by
  obtain ⟨s, hs⟩ : ∃ s : SimplexObj ℝ (List ℝ) DockParams Unit,
    dock2Simplex (1 / 1000) (1 / 5) 2 0 10 10 (some (.scalar 1)) (some (.scalar (-1))) [[0, 0, 1, 0], [0, 0, 0, 1]] 0 5 = .ok s := ⟨_, rfl⟩
  refine ⟨s, hs, ?_⟩
  rw [(C90_dock2_partial (fun x _ _ => x) rfl rfl s _ _ _).1]
  obtain ⟨-, he, hl, hh, hg, hz, hw, -⟩ := dock2S_init hs
  have hz2 : ∀ c ∈ ([0, 0] : List ℝ), |c| ≤ 1 := by simp
  have hu : lqrControl 2 [[0, 0, 1, 0], [0, 0, 0, 1]] [100, 0, 0, 0] = [0, 0] := by
    simp [lqrControl, matVec, dot, vsub, zeros]
  obtain ⟨c, s', h⟩ := C13_explicit_returns (fun x _ _ => x) s hw he [100, 0, 0, 0] 1 [0, 0] [0, 0] [0, 0] [0, 0] .none
    (by rw [hg]; exact congrArg (fun v => some (v, CState.none)) hu) (clip_unit _ hh hl hz2) (clip_unit _ hh hl hz2)
  exact ⟨c, by rw [h]⟩

end
end RTA
