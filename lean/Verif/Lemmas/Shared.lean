import Verif.Spec.Shared
import Verif.Lemmas.Simplex
import Verif.Lemmas.Jit

/-!
Helper lemmas for C97: what a call of a simplex module does to its backup controller.
-/
namespace RTA
variable {K S P Q A : Type} [Field K] [LinearOrder K] [FloorRing K]

set_option linter.unusedSectionVars false

/-! ### A call does not change a controller without state -/

theorem explicitMonitor_obj (pred : S → K → List K → S) (s : SimplexObj K S P A) (x : S) (dt : K) (u : List K) :
    (explicitMonitor pred s x dt u).2 = s := rfl

theorem implicitMonitor_obj (pred : S → K → List K → S) (s : SimplexObj K S P A) (x : S) (dt : K) (u : List K) :
    (implicitMonitor pred s x dt u).2 = (implicitIntegrate pred s x dt u).2 := by
  unfold implicitMonitor
  rcases implicitIntegrate pred s x dt u with ⟨r, s'⟩
  cases r <;> rfl

theorem simplexFilter_keeps {mon : SimplexObj K S P A → S → K → List K → Except PyErr Bool × SimplexObj K S P A}
    (hmon : ∀ s x dt u, IdleCtrl s.ext.ctrl → (mon s x dt u).2.ext.ctrl = s.ext.ctrl) (s : SimplexObj K S P A)
    (h : IdleCtrl s.ext.ctrl) (x : S) (dt : K) (u : List K) : (simplexFilter mon s x dt u).2.ext.ctrl = s.ext.ctrl := by
  have hb : ∀ o : SimplexObj K S P A, o.ext.ctrl = s.ext.ctrl → (backupControl o x dt).2.ext.ctrl = s.ext.ctrl := by
    intro o ho
    have : NoCtrlState o.ext.ctrl := by rw [ho]; exact h.1
    rw [backupControl_idle this]
    exact ho
  have hm : ∀ o : SimplexObj K S P A, o.ext.ctrl = s.ext.ctrl →
      (match mon o x dt u with
        | (.error e, self) => ((.error e : Except PyErr (List K)), self)
        | (.ok b, self) =>
          let self := { self with intervening := b }
          if b then backupControl self x dt else (.ok u, self)).2.ext.ctrl = s.ext.ctrl := by
    intro o ho
    have h1 := hmon o x dt u (by rw [ho]; exact h)
    rcases hq : mon o x dt u with ⟨r, o'⟩
    rw [hq] at h1
    cases r with
    | error e => exact h1.trans ho
    | ok b =>
      cases b with
      | true => exact hb _ (h1.trans ho)
      | false => exact h1.trans ho
  unfold simplexFilter
  by_cases hi : s.intervening = true
  · by_cases hl : s.ext.latchedElapsed ≥ s.ext.latchTime
    · simp only [hi, hl, if_true, Bool.false_eq_true, if_false]
      exact hm _ rfl
    · simp only [hi, hl, if_true, if_false]
      exact hb _ rfl
  · simp only [hi, if_false, Bool.false_eq_true]
    exact hm _ rfl

theorem filterCB_keeps {filter : SimplexObj K S P A → S → K → List K → Except PyErr (List K) × SimplexObj K S P A}
    (hf : ∀ s x dt u, IdleCtrl s.ext.ctrl → (filter s x dt u).2.ext.ctrl = s.ext.ctrl) (s : SimplexObj K S P A)
    (h : IdleCtrl s.ext.ctrl) (inp : InputState S) (dt : K) (u : List K) :
    (filterControlCB getStateDefault filter s inp dt u).2.ext.ctrl = s.ext.ctrl := by
  by_cases hen : s.enable = true
  · rw [filterControlCB_enabled hen]
    cases inp with
    | notArray => rfl
    | array x =>
      rw [computeFiltered_array]
      have h1 := hf (prep s x u) x dt u h
      rcases hq : filter (prep s x u) x dt u with ⟨r, o⟩
      rw [hq] at h1
      cases r with
      | error e => exact h1
      | ok c =>
        dsimp only
        cases (withActual o c).toBase.clipControl c with
        | error e => exact h1
        | ok d => exact h1
  · rw [filterControlCB_disabled (by simpa using hen)]
    rfl

theorem call_keeps {f : SimplexCallFn K S P A} (hf : IsSimplexCall f) {s : SimplexObj K S P A} (h : StatelessCtrl s.ext.ctrl)
    (inp : InputState S) (dt : K) (u : List K) : (f s inp dt u).2.ext.ctrl = s.ext.ctrl := by
  rcases hf with ⟨pred, rfl⟩ | ⟨pred, rfl⟩
  · exact filterCB_keeps (fun s x dt u h => simplexFilter_keeps (fun s x dt u _ => rfl) s h x dt u) s ⟨h.law, h.saved⟩ inp dt u
  · refine filterCB_keeps (fun s x dt u h => simplexFilter_keeps (fun s x dt u h => ?_) s h x dt u) s ⟨h.law, h.saved⟩ inp dt u
    rw [implicitMonitor_obj, implicitIntegrate_idle pred h]

theorem reset_keeps {s : SimplexObj K S P A} (h : StatelessCtrl s.ext.ctrl) : (simplexReset s).2.ext.ctrl = s.ext.ctrl := by
  have e : (Base.reset s).ext.ctrl = s.ext.ctrl := rfl
  have h1 : (Base.reset s).ext.ctrl.reset = (.ok (), s.ext.ctrl) := by
    rw [e]
    have hc : s.ext.ctrl.stateInitial.copy = .ok .none := by rw [h.initial]; rfl
    have h0 : { s.ext.ctrl with state := .none } = s.ext.ctrl := by rw [← h.law.1]
    unfold BackupController.reset
    rw [hc]
    simp only [h0]
  unfold simplexReset
  simp only [h1]
  rfl

theorem op_keeps {f : SimplexCallFn K S P A} (hf : IsSimplexCall f) {s : SimplexObj K S P A} (h : StatelessCtrl s.ext.ctrl)
    (op : SharedOp K S) : (simplexOp f s op).2.ext.ctrl = s.ext.ctrl := by
  cases op with
  | call b inp dt u => exact call_keeps hf h inp dt u
  | reset b => exact reset_keeps h

/-! ### Saved states do not matter -/

/-- The same module up to the saved controller state. -/
def UpToSaved (s t : SimplexObj K S P A) : Prop := ∃ z, t = s.setCtrl { s.ext.ctrl with stateSaved := z }

theorem backupControl_saved {s t : SimplexObj K S P A} (h : UpToSaved s t) (x : S) (dt : K) :
    (backupControl t x dt).1 = (backupControl s x dt).1 ∧ UpToSaved (backupControl s x dt).2 (backupControl t x dt).2 := by
  obtain ⟨z, rfl⟩ := h
  unfold backupControl BackupController.generateControl
  have e : (s.setCtrl { s.ext.ctrl with stateSaved := z }).ext.ctrl = { s.ext.ctrl with stateSaved := z } := rfl
  simp only [e]
  rcases hg : s.ext.ctrl.gen x dt s.ext.ctrl.state with - | ⟨u, w⟩
  · exact ⟨rfl, z, rfl⟩
  · exact ⟨rfl, z, rfl⟩

theorem integrate_saved (pred : S → K → List K → S) {s t : SimplexObj K S P A} (h : UpToSaved s t) (x : S) (dt : K) (u : List K) :
    (implicitIntegrate pred t x dt u).1 = (implicitIntegrate pred s x dt u).1 ∧
      UpToSaved (implicitIntegrate pred s x dt u).2 (implicitIntegrate pred t x dt u).2 := by
  obtain ⟨z, rfl⟩ := h
  unfold implicitIntegrate
  have e0 : (s.setCtrl { s.ext.ctrl with stateSaved := z }).ext.backupWindow = s.ext.backupWindow := rfl
  rw [e0]
  cases hn : backupSteps s.ext.backupWindow dt with
  | error e => exact ⟨rfl, z, rfl⟩
  | ok n =>
    dsimp only
    cases hc : s.ext.ctrl.state.copy with
    | error e =>
      have h1 : backupControllerSave s = (.error e, s) := by
        unfold backupControllerSave BackupController.save
        rw [hc]; rfl
      have h2 : backupControllerSave (s.setCtrl { s.ext.ctrl with stateSaved := z }) =
          (.error e, s.setCtrl { s.ext.ctrl with stateSaved := z }) := by
        unfold backupControllerSave BackupController.save
        have : (s.setCtrl { s.ext.ctrl with stateSaved := z }).ext.ctrl.state = s.ext.ctrl.state := rfl
        rw [this, hc]; rfl
      rw [h1, h2]
      exact ⟨rfl, z, rfl⟩
    | ok w =>
      have h1 : backupControllerSave s = (.ok (), s.setCtrl { s.ext.ctrl with stateSaved := w }) := by
        unfold backupControllerSave BackupController.save
        rw [hc]
      have h2 : backupControllerSave (s.setCtrl { s.ext.ctrl with stateSaved := z }) =
          (.ok (), s.setCtrl { s.ext.ctrl with stateSaved := w }) := by
        unfold backupControllerSave BackupController.save
        have : (s.setCtrl { s.ext.ctrl with stateSaved := z }).ext.ctrl.state = s.ext.ctrl.state := rfl
        rw [this, hc]; rfl
      rw [h1, h2]
      exact ⟨rfl, _, rfl⟩

theorem implicitMonitor_saved (pred : S → K → List K → S) {s t : SimplexObj K S P A} (h : UpToSaved s t) (x : S) (dt : K) (u : List K) :
    (implicitMonitor pred t x dt u).1 = (implicitMonitor pred s x dt u).1 ∧
      UpToSaved (implicitMonitor pred s x dt u).2 (implicitMonitor pred t x dt u).2 := by
  obtain ⟨h1, h2⟩ := integrate_saved pred h x dt u
  unfold implicitMonitor
  rcases hq : implicitIntegrate pred s x dt u with ⟨r, s'⟩
  rcases hq' : implicitIntegrate pred t x dt u with ⟨r', t'⟩
  rw [hq, hq'] at h1 h2
  obtain rfl : r' = r := h1
  cases r' with
  | error e => exact ⟨rfl, h2⟩
  | ok traj =>
    refine ⟨?_, h2⟩
    obtain ⟨z, hz⟩ := h2
    simp only at hz ⊢
    rw [hz]
    rfl

theorem simplexFilter_saved {mon : SimplexObj K S P A → S → K → List K → Except PyErr Bool × SimplexObj K S P A}
    (hmon : ∀ s t x dt u, UpToSaved s t → (mon t x dt u).1 = (mon s x dt u).1 ∧ UpToSaved (mon s x dt u).2 (mon t x dt u).2)
    {s t : SimplexObj K S P A} (h : UpToSaved s t) (x : S) (dt : K) (u : List K) :
    (simplexFilter mon t x dt u).1 = (simplexFilter mon s x dt u).1 ∧
      UpToSaved (simplexFilter mon s x dt u).2 (simplexFilter mon t x dt u).2 := by
  have hm : ∀ o q : SimplexObj K S P A, UpToSaved o q →
      (match mon q x dt u with
        | (.error e, self) => ((.error e : Except PyErr (List K)), self)
        | (.ok b, self) =>
          let self := { self with intervening := b }
          if b then backupControl self x dt else (.ok u, self)).1 =
      (match mon o x dt u with
        | (.error e, self) => ((.error e : Except PyErr (List K)), self)
        | (.ok b, self) =>
          let self := { self with intervening := b }
          if b then backupControl self x dt else (.ok u, self)).1 ∧
      UpToSaved (match mon o x dt u with
        | (.error e, self) => ((.error e : Except PyErr (List K)), self)
        | (.ok b, self) =>
          let self := { self with intervening := b }
          if b then backupControl self x dt else (.ok u, self)).2
      (match mon q x dt u with
        | (.error e, self) => ((.error e : Except PyErr (List K)), self)
        | (.ok b, self) =>
          let self := { self with intervening := b }
          if b then backupControl self x dt else (.ok u, self)).2 := by
    intro o q hoq
    obtain ⟨h1, h2⟩ := hmon o q x dt u hoq
    rcases hq : mon o x dt u with ⟨r, o'⟩
    rcases hq' : mon q x dt u with ⟨r', q'⟩
    rw [hq, hq'] at h1 h2
    obtain rfl : r' = r := h1
    cases r' with
    | error e => exact ⟨rfl, h2⟩
    | ok b =>
      obtain ⟨z, hz⟩ := h2
      simp only at hz
      subst hz
      cases b with
      | true => exact backupControl_saved (s := { o' with intervening := true }) ⟨z, rfl⟩ x dt
      | false => exact ⟨rfl, z, rfl⟩
  obtain ⟨z, rfl⟩ := h
  unfold simplexFilter
  have e1 : (s.setCtrl { s.ext.ctrl with stateSaved := z }).intervening = s.intervening := rfl
  have e2 : (s.setCtrl { s.ext.ctrl with stateSaved := z }).ext.latchedElapsed = s.ext.latchedElapsed := rfl
  have e3 : (s.setCtrl { s.ext.ctrl with stateSaved := z }).ext.latchTime = s.ext.latchTime := rfl
  rw [e1, e2, e3]
  by_cases hi : s.intervening = true
  · by_cases hl : s.ext.latchedElapsed ≥ s.ext.latchTime
    · simp only [hi, hl, if_true, Bool.false_eq_true, if_false]
      exact hm _ _ ⟨z, rfl⟩
    · simp only [hi, hl, if_true, if_false]
      exact backupControl_saved (s := { s with ext := { s.ext with latchedElapsed := s.ext.latchedElapsed + dt } }) ⟨z, rfl⟩ x dt
  · simp only [hi, if_false, Bool.false_eq_true]
    exact hm _ _ ⟨z, rfl⟩

theorem filterCB_saved {filter : SimplexObj K S P A → S → K → List K → Except PyErr (List K) × SimplexObj K S P A}
    (hf : ∀ s t x dt u, UpToSaved s t →
      (filter t x dt u).1 = (filter s x dt u).1 ∧ UpToSaved (filter s x dt u).2 (filter t x dt u).2)
    {s t : SimplexObj K S P A} (h : UpToSaved s t) (inp : InputState S) (dt : K) (u : List K) :
    (filterControlCB getStateDefault filter t inp dt u).1 = (filterControlCB getStateDefault filter s inp dt u).1 ∧
      UpToSaved (filterControlCB getStateDefault filter s inp dt u).2 (filterControlCB getStateDefault filter t inp dt u).2 := by
  obtain ⟨z, rfl⟩ := h
  by_cases hen : s.enable = true
  · rw [filterControlCB_enabled hen,
      filterControlCB_enabled (s := s.setCtrl { s.ext.ctrl with stateSaved := z }) (show _ = true from hen)]
    cases inp with
    | notArray => exact ⟨rfl, z, rfl⟩
    | array x =>
      rw [computeFiltered_array, computeFiltered_array]
      obtain ⟨h1, h2⟩ := hf (prep s x u) (prep (s.setCtrl { s.ext.ctrl with stateSaved := z }) x u) x dt u ⟨z, rfl⟩
      rcases hq : filter (prep s x u) x dt u with ⟨r, o⟩
      rcases hq' : filter (prep (s.setCtrl { s.ext.ctrl with stateSaved := z }) x u) x dt u with ⟨r', q⟩
      rw [hq, hq'] at h1 h2
      obtain rfl : r' = r := h1
      obtain ⟨w, hw⟩ := h2
      simp only at hw
      subst hw
      cases r' with
      | error e => exact ⟨rfl, w, rfl⟩
      | ok c =>
        dsimp only
        have e : (withActual (o.setCtrl { o.ext.ctrl with stateSaved := w }) c).toBase.clipControl c =
          (withActual o c).toBase.clipControl c := rfl
        rw [e]
        cases (withActual o c).toBase.clipControl c with
        | error e => exact ⟨rfl, w, rfl⟩
        | ok d => exact ⟨rfl, w, rfl⟩
  · have hen' : s.enable = false := by simpa using hen
    rw [filterControlCB_disabled hen', filterControlCB_disabled (s := s.setCtrl { s.ext.ctrl with stateSaved := z }) (show _ = false from hen')]
    exact ⟨rfl, z, rfl⟩

theorem op_saved {f : SimplexCallFn K S P A} (hf : IsSimplexCall f) {s t : SimplexObj K S P A} (h : UpToSaved s t) (op : SharedOp K S) :
    (simplexOp f t op).1 = (simplexOp f s op).1 ∧ UpToSaved (simplexOp f s op).2 (simplexOp f t op).2 := by
  cases op with
  | call b inp dt u =>
    have key : (f t inp dt u).1 = (f s inp dt u).1 ∧ UpToSaved (f s inp dt u).2 (f t inp dt u).2 := by
      rcases hf with ⟨pred, rfl⟩ | ⟨pred, rfl⟩
      · refine filterCB_saved (fun s t x dt u h => simplexFilter_saved (fun s t x dt u h => ?_) h x dt u) h inp dt u
        obtain ⟨z, rfl⟩ := h
        exact ⟨rfl, z, rfl⟩
      · exact filterCB_saved (fun s t x dt u h => simplexFilter_saved (fun s t x dt u h => implicitMonitor_saved pred h x dt u) h x dt u)
          h inp dt u
    exact ⟨congrArg (Except.map some) key.1, key.2⟩
  | reset b =>
    obtain ⟨z, rfl⟩ := h
    unfold simplexOp simplexReset BackupController.reset
    have e : (Base.reset (s.setCtrl { s.ext.ctrl with stateSaved := z })).ext.ctrl.stateInitial = s.ext.ctrl.stateInitial := rfl
    have e' : (Base.reset s).ext.ctrl.stateInitial = s.ext.ctrl.stateInitial := rfl
    simp only [e, e']
    cases s.ext.ctrl.stateInitial.copy with
    | error er => exact ⟨rfl, z, rfl⟩
    | ok w => exact ⟨rfl, z, rfl⟩

/-- A call that returns a control and leaves the module not intervening changes at most the saved state of the controller. -/
theorem silent_ctrl {f : SimplexCallFn K S P A} (hf : IsSimplexCall f) {s : SimplexObj K S P A} {inp : InputState S} {dt : K}
    {u c : List K} (h : (f s inp dt u).1 = .ok c) (hi : (f s inp dt u).2.intervening = false) :
    ∃ z, (f s inp dt u).2.ext.ctrl = { s.ext.ctrl with stateSaved := z } := by
  have key : ∀ mon : SimplexObj K S P A → S → K → List K → Except PyErr Bool × SimplexObj K S P A, MonFrame mon →
      (filterControlCB getStateDefault (simplexFilter mon) s inp dt u).1 = .ok c →
      (filterControlCB getStateDefault (simplexFilter mon) s inp dt u).2.intervening = false →
      ∃ z, (filterControlCB getStateDefault (simplexFilter mon) s inp dt u).2.ext.ctrl = { s.ext.ctrl with stateSaved := z } := by
    intro mon hm h hi
    by_cases hen : s.enable = true
    · cases inp with
      | notArray =>
        rw [filterControlCB_enabled hen] at h
        exact absurd h (by simp [computeFilteredControl, getStateDefault])
      | array x =>
        obtain ⟨-, h'⟩ := simplex_ok hm (s' := (filterControlCB getStateDefault (simplexFilter mon) s (.array x) dt u).2) hen
          (Prod.ext h rfl)
        rcases h' with ⟨-, ht, -⟩ | ⟨-, b, sm, sv, -, hb, h'⟩
        · rw [ht] at hi; exact absurd hi (by simp)
        · rcases h' with ⟨rfl, -⟩ | ⟨-, -, he⟩
          · rw [hb] at hi; exact absurd hi (by simp)
          · exact ⟨sv, by rw [he]⟩
    · rw [filterControlCB_disabled (by simpa using hen)]
      exact ⟨s.ext.ctrl.stateSaved, rfl⟩
  rcases hf with ⟨pred, rfl⟩ | ⟨pred, rfl⟩
  · exact key _ (monFrame_explicit pred) h hi
  · exact key _ (monFrame_implicit pred) h hi

end RTA
