import Verif.Props.Simplex

/-!
C16 (latching), C17 (monitoring leaves the backup controller alone), C21 (controller contract).
-/
namespace RTA
variable {K S P A : Type}

/-- Operations of a simplex episode: a call at state `x` or a reset. -/
inductive SOp (K S : Type) where
  | call (x : S) (dt : K) (u : List K)
  | reset

/-- What the user observes of an operation: the returned control and the intervening flag afterwards, or a reset. -/
inductive SEvent (K S : Type) where
  | called (x : S) (dt : K) (returned : List K) (intervening : Bool)
  | reset
deriving DecidableEq

/-- Execute a history; `none` when an operation raises. -/
def runSimplex [Max K] [Min K] [Add K] [Zero K] [LE K] [DecidableLE K]
    (mon : SimplexObj K S P A → S → K → List K → Except PyErr Bool × SimplexObj K S P A) :
    SimplexObj K S P A → List (SOp K S) → Option (List (SEvent K S) × SimplexObj K S P A)
  | s, [] => some ([], s)
  | s, .call x dt u :: ops =>
    match filterControlCB getStateDefault (simplexFilter mon) s (.array x) dt u with
    | (.error _, _) => none
    | (.ok c, s1) =>
      match runSimplex mon s1 ops with
      | none => none
      | some (es, s2) => some (.called x dt c s1.intervening :: es, s2)
  | s, .reset :: ops =>
    match simplexReset s with
    | (.error _, _) => none
    | (.ok (), s1) =>
      match runSimplex mon s1 ops with
      | none => none
      | some (es, s2) => some (.reset :: es, s2)

section latch
variable [AddCommMonoid K] [LinearOrder K]

/-! ### C16 -/

/-- **C16**: a latched call returns the backup control whatever the desired control is and whatever a monitor would say
(the two sides of the last conjunct have different monitors and different desired controls), keeps intervening, and
adds its step size to the elapsed latch time. -/
theorem C16_latched_call (mon mon' : SimplexObj K S P A → S → K → List K → Except PyErr Bool × SimplexObj K S P A)
    (hm : MonFrame mon) (s s' : SimplexObj K S P A) (hen : s.enable = true) (hlat : Latched s) (x : S) (dt : K)
    (u v c : List K)
    (h : filterControlCB getStateDefault (simplexFilter mon) s (.array x) dt u = (.ok c, s')) :
    (∃ z, IsBackup s x dt c z) ∧ s'.intervening = true ∧
    s'.ext.latchedElapsed = s.ext.latchedElapsed + dt ∧ s'.ext.latchTime = s.ext.latchTime ∧
    (filterControlCB getStateDefault (simplexFilter mon') s (.array x) dt v).1 = .ok c := by
  obtain ⟨_, h'⟩ := simplex_ok hm hen h
  rcases h' with ⟨_, hi, z, hz, he⟩ | ⟨hn, _⟩
  · refine ⟨⟨z, hz⟩, hi, by rw [he], by rw [he], ?_⟩
    rw [filterControlCB_enabled hen, computeFiltered_array] at h ⊢
    have hL : ∀ w, Latched (prep s x w) := fun w => hlat
    rw [simplexFilter_latched mon _ x dt u (hL u)] at h
    rw [simplexFilter_latched mon' _ x dt v (hL v)]
    obtain ⟨ub, hg, hc⟩ := hz
    have hg' : ∀ w, backupControl { (prep s x w) with ext := { (prep s x w).ext with
        latchedElapsed := (prep s x w).ext.latchedElapsed + dt } } x dt = (.ok c, SimplexObj.setCtrl { (prep s x w) with ext := { (prep s x w).ext with
        latchedElapsed := (prep s x w).ext.latchedElapsed + dt } } { s.ext.ctrl with state := z }) :=
      fun w => backupControl_of hg hc
    rw [hg']
    have := C05_clip_idempotent s.toBase ub c hc
    simp only
    rw [show (withActual (SimplexObj.setCtrl { (prep s x v) with ext := { (prep s x v).ext with
        latchedElapsed := (prep s x v).ext.latchedElapsed + dt } } { s.ext.ctrl with state := z }) c).toBase.clipControl c
        = s.toBase.clipControl c from rfl, this]
  · exact absurd hlat hn

/-- Specification of latching as an automaton over what the user observes: `some acc` means the backup controller is
engaged and `acc` is the sum of the step sizes of the latched calls since it was engaged. -/
def latchSpec (T : K) : Option K → List (SEvent K S) → Option K
  | st, [] => st
  | some acc, .called _ dt _ flag :: es =>
    if acc < T then latchSpec T (some (acc + dt)) es
    else latchSpec T (if flag then some 0 else none) es
  | none, .called _ _ _ flag :: es => latchSpec T (if flag then some 0 else none) es
  | _, .reset :: es => latchSpec T none es

/-- The calls of a history. -/
def onlyCalls : List (SOp K S) → Prop
  | [] => True
  | .call .. :: ops => onlyCalls ops
  | .reset :: _ => False

/-- **C16**, histories: start from a newly constructed module and make any sequence of (successful) calls with arbitrary
step sizes. The module is latched for the next call exactly when the automaton says that the backup controller is engaged
and the step sizes of the latched calls so far sum to less than `latch_time`. (Latched calls are answered by the backup
controller without the monitor: `C16_latched_call`; unlatched ones are decided by the monitor: C13, C14.) -/
theorem C16_latch_history {mon : SimplexObj K S P A → S → K → List K → Except PyErr Bool × SimplexObj K S P A}
    (hm : MonFrame mon) (ops : List (SOp K S)) (hcalls : onlyCalls ops) (s s' : SimplexObj K S P A)
    (hen : s.enable = true) (hfresh : s.intervening = false) (h0 : s.ext.latchedElapsed = 0)
    (es : List (SEvent K S)) (h : runSimplex mon s ops = some (es, s')) :
    Latched s' ↔ ∃ acc, latchSpec s.ext.latchTime none es = some acc ∧ acc < s.ext.latchTime := by
  -- invariant: the object and the automaton state agree
  suffices H : ∀ (st : Option K) (s : SimplexObj K S P A), s.enable = true →
      ((st = none ∧ s.intervening = false ∧ s.ext.latchedElapsed = 0) ∨
       (∃ acc, st = some acc ∧ s.intervening = true ∧ s.ext.latchedElapsed = acc)) →
      ∀ es s', runSimplex mon s ops = some (es, s') →
      (Latched s' ↔ ∃ acc, latchSpec s.ext.latchTime st es = some acc ∧ acc < s.ext.latchTime) from
    H none s hen (Or.inl ⟨rfl, hfresh, h0⟩) es s' h
  clear h h0 hfresh hen es s' s
  induction ops with
  | nil =>
    intro st s _ hinv es s' h
    simp only [runSimplex, Option.some.injEq, Prod.mk.injEq] at h
    obtain ⟨rfl, rfl⟩ := h
    rcases hinv with ⟨rfl, hi, _⟩ | ⟨acc, rfl, hi, he⟩
    · simp [Latched, hi, latchSpec]
    · simp [Latched, hi, latchSpec, he]
  | cons op ops ih =>
    intro st s hen hinv es s' h
    cases op with
    | reset => exact absurd hcalls (by simp [onlyCalls])
    | call x dt u =>
      simp only [runSimplex] at h
      rcases hcall : filterControlCB getStateDefault (simplexFilter mon) s (.array x) dt u with ⟨_ | c, s1⟩
      · rw [hcall] at h; simp at h
      rw [hcall] at h
      simp only at h
      rcases hrun : runSimplex mon s1 ops with _ | ⟨es', s2⟩
      · rw [hrun] at h; simp at h
      rw [hrun] at h
      simp only [Option.some.injEq, Prod.mk.injEq] at h
      obtain ⟨rfl, rfl⟩ := h
      obtain ⟨⟨hen1, _⟩, hdesc⟩ := simplex_ok hm hen hcall
      rcases hinv with ⟨rfl, hi, he⟩ | ⟨acc, rfl, hi, he⟩
      · -- not engaged
        rcases hdesc with ⟨hl, _⟩ | ⟨_, b, sm, sv, _, hib, hcase⟩
        · exact absurd hl.1 (by simp [hi])
        have hT : s1.ext.latchTime = s.ext.latchTime ∧ s1.ext.latchedElapsed = 0 := by
          rcases hcase with ⟨_, z, _, hext⟩ | ⟨_, _, hext⟩ <;> rw [hext] <;> simp [elapsedAfter, hi, he]
        simp only [latchSpec]
        rw [← hT.1]
        apply ih (by simpa [onlyCalls] using hcalls) _ s1 hen1 ?_ es' s2 hrun
        cases hfl : s1.intervening with
        | true => exact Or.inr ⟨0, by simp, rfl, hT.2⟩
        | false => exact Or.inl ⟨by simp, rfl, hT.2⟩
      · by_cases hlt : acc < s.ext.latchTime
        · -- latched
          rcases hdesc with ⟨_, hi1, z, _, hext⟩ | ⟨hn, _⟩
          · simp only [latchSpec, hlt, if_true]
            have hT : s1.ext.latchTime = s.ext.latchTime := by rw [hext]
            rw [← hT]
            apply ih (by simpa [onlyCalls] using hcalls) _ s1 hen1 ?_ es' s2 hrun
            exact Or.inr ⟨acc + dt, rfl, hi1, by rw [hext, he]⟩
          · exact absurd ⟨hi, by rw [he]; exact hlt⟩ hn
        · -- latch expired
          rcases hdesc with ⟨hl, _⟩ | ⟨_, b, sm, sv, _, hib, hcase⟩
          · exact absurd hl.2 (by rw [he]; exact hlt)
          have hT : s1.ext.latchTime = s.ext.latchTime ∧ s1.ext.latchedElapsed = 0 := by
            rcases hcase with ⟨_, z, _, hext⟩ | ⟨_, _, hext⟩ <;> rw [hext] <;> simp [elapsedAfter, hi]
          simp only [latchSpec, hlt, if_false]
          rw [← hT.1]
          apply ih (by simpa [onlyCalls] using hcalls) _ s1 hen1 ?_ es' s2 hrun
          cases hfl : s1.intervening with
          | true => exact Or.inr ⟨0, by simp, rfl, hT.2⟩
          | false => exact Or.inl ⟨by simp, rfl, hT.2⟩

/-- **C16**, no latching: with `latch_time <= 0` a module built with elapsed time 0 is never latched, so every call is
decided by the monitor. -/
theorem C16_no_latch {mon : SimplexObj K S P A → S → K → List K → Except PyErr Bool × SimplexObj K S P A}
    (hm : MonFrame mon) (ops : List (SOp K S)) (hcalls : onlyCalls ops) (s s' : SimplexObj K S P A)
    (hen : s.enable = true) (h0 : s.ext.latchedElapsed = 0) (hT : s.ext.latchTime ≤ 0)
    (es : List (SEvent K S)) (h : runSimplex mon s ops = some (es, s')) : ¬ Latched s' := by
  suffices H : ∀ s : SimplexObj K S P A, s.enable = true → s.ext.latchedElapsed = 0 → s.ext.latchTime ≤ 0 →
      ∀ es s', runSimplex mon s ops = some (es, s') → ¬ Latched s' from H s hen h0 hT es s' h
  clear h h0 hT hen es s' s
  induction ops with
  | nil =>
    intro s _ h0 hT es s' h
    simp only [runSimplex, Option.some.injEq, Prod.mk.injEq] at h
    obtain ⟨rfl, rfl⟩ := h
    intro hl
    exact absurd hl.2 (by rw [h0]; exact not_lt.2 hT)
  | cons op ops ih =>
    intro s hen h0 hT es s' h
    cases op with
    | reset => exact absurd hcalls (by simp [onlyCalls])
    | call x dt u =>
      simp only [runSimplex] at h
      rcases hcall : filterControlCB getStateDefault (simplexFilter mon) s (.array x) dt u with ⟨_ | c, s1⟩
      · rw [hcall] at h; simp at h
      rw [hcall] at h
      simp only at h
      rcases hrun : runSimplex mon s1 ops with _ | ⟨es', s2⟩
      · rw [hrun] at h; simp at h
      rw [hrun] at h
      simp only [Option.some.injEq, Prod.mk.injEq] at h
      obtain ⟨rfl, rfl⟩ := h
      obtain ⟨⟨hen1, _⟩, hdesc⟩ := simplex_ok hm hen hcall
      rcases hdesc with ⟨hl, _⟩ | ⟨_, b, sm, sv, _, hib, hcase⟩
      · exact absurd hl.2 (by rw [h0]; exact not_lt.2 hT)
      · have hE : s1.ext.latchTime = s.ext.latchTime ∧ s1.ext.latchedElapsed = 0 := by
          rcases hcase with ⟨_, z, _, hext⟩ | ⟨_, _, hext⟩ <;> rw [hext] <;> simp [elapsedAfter, h0]
        exact ih (by simpa [onlyCalls] using hcalls) s1 hen1 hE.2 (by rw [hE.1]; exact hT) es' s2 hrun

/-- `toySimplex` with latch time 2: rejected at 0, the two latched calls (step 1 each) return the backup control although
the desired control 9 would be accepted, the next call is decided by the monitor. -/
example : (runSimplex (explicitMonitor toyPred)
      { toySimplex (-9) 9 with ext := { (toySimplex (-9) 9).ext with latchTime := 2 } }
      [.call 0 1 [2], .call 0 1 [9], .call 0 1 [9], .call 0 1 [9]]).map Prod.fst
    = some [.called 0 1 [0] true, .called 0 1 [0] true, .called 0 1 [0] true, .called 0 1 [9] false] := rfl

/-! ### C17 -/

/-- Specification: the controller state after what the user observed, from `z`, with initial value `z0`: the law is
applied once per call answered by the backup controller, and a reset returns to the initial value. -/
def controllerSpec (gen : S → K → CState A → Option (List K × CState A)) (z0 : CState A) :
    CState A → List (SEvent K S) → CState A
  | z, [] => z
  | z, .called x dt _ true :: es => controllerSpec gen z0 (((gen x dt z).map Prod.snd).getD z) es
  | z, .called _ _ _ false :: es => controllerSpec gen z0 z es
  | _, .reset :: es => controllerSpec gen z0 z0 es

/-- **C17**. Over any history of successful calls and resets of an enabled simplex module (explicit or implicit) the
internal state of the backup controller is obtained by applying the control law exactly once per call answered by the
backup controller since the last reset: evaluating desired controls does not disturb it. -/
theorem C17_monitor_leaves_controller {mon : SimplexObj K S P A → S → K → List K → Except PyErr Bool × SimplexObj K S P A}
    (hm : MonFrame mon) (ops : List (SOp K S)) (s s' : SimplexObj K S P A)
    (hen : s.enable = true) (es : List (SEvent K S)) (h : runSimplex mon s ops = some (es, s')) :
    s'.ext.ctrl.state = controllerSpec s.ext.ctrl.gen s.ext.ctrl.stateInitial s.ext.ctrl.state es := by
  induction ops generalizing s es with
  | nil =>
    simp only [runSimplex, Option.some.injEq, Prod.mk.injEq] at h
    obtain ⟨rfl, rfl⟩ := h
    rfl
  | cons op ops ih =>
    cases op with
    | reset =>
      simp only [runSimplex, simplexReset, BackupController.reset] at h
      cases hc : (Base.reset s).ext.ctrl.stateInitial.copy with
      | error e => simp only [hc] at h; simp at h
      | ok z =>
        obtain rfl := copy_ok hc
        simp only [hc] at h
        rcases hrun : runSimplex mon ((Base.reset s).setCtrl
            { (Base.reset s).ext.ctrl with state := (Base.reset s).ext.ctrl.stateInitial }) ops with _ | ⟨es', s2⟩
        · rw [hrun] at h; simp at h
        · rw [hrun] at h
          simp only [Option.some.injEq, Prod.mk.injEq] at h
          obtain ⟨rfl, rfl⟩ := h
          have := ih _ rfl es' hrun
          simp only [controllerSpec]
          exact this
    | call x dt u =>
      simp only [runSimplex] at h
      rcases hcall : filterControlCB getStateDefault (simplexFilter mon) s (.array x) dt u with ⟨_ | c, s1⟩
      · rw [hcall] at h; simp at h
      rw [hcall] at h
      simp only at h
      rcases hrun : runSimplex mon s1 ops with _ | ⟨es', s2⟩
      · rw [hrun] at h; simp at h
      rw [hrun] at h
      simp only [Option.some.injEq, Prod.mk.injEq] at h
      obtain ⟨rfl, rfl⟩ := h
      obtain ⟨⟨hen1, _⟩, hdesc⟩ := simplex_ok hm hen hcall
      have ih1 := ih s1 hen1 es' hrun
      have hfacts : s1.ext.ctrl.gen = s.ext.ctrl.gen ∧ s1.ext.ctrl.stateInitial = s.ext.ctrl.stateInitial := by
        rcases hdesc with ⟨_, _, z, _, hext⟩ | ⟨_, b, sm, sv, _, _, ⟨_, z, _, hext⟩ | ⟨_, _, hext⟩⟩ <;> rw [hext] <;> simp
      rw [hfacts.1, hfacts.2] at ih1
      rw [ih1]
      rcases hdesc with ⟨_, hi1, z, ⟨ub, hg, _⟩, hext⟩ | ⟨_, b, sm, sv, _, hib, ⟨hb, z, ⟨ub, hg, _⟩, hext⟩ | ⟨hb, _, hext⟩⟩
      · rw [hi1]
        simp [controllerSpec, hg, hext]
      · rw [hib, hb]
        simp [controllerSpec, hg, hext]
      · rw [hib, hb]
        simp [controllerSpec, hext]

end latch

/-- **C17**, instances: both simplex modules have a monitor to which `C17_monitor_leaves_controller`, `C16_*` and
`C28_simplex_intervening_truthful` apply. -/
theorem C17_instances [Field K] [LinearOrder K] [FloorRing K] (pred : S → K → List K → S) :
    MonFrame (explicitMonitor (K := K) (S := S) (P := P) (A := A) pred) ∧
    MonFrame (implicitMonitor (K := K) (S := S) (P := P) (A := A) pred) :=
  ⟨monFrame_explicit pred, monFrame_implicit pred⟩

/-- A stateful law evaluated along a predicted trajectory is rolled back: after one accepted call (which evaluates the law
four times) and one rejected call the counter of `toyImplicit` is 1. -/
example : (runSimplex (implicitMonitor (fun (x dt : Rat) u => x + dt * u.headD 0)) toyImplicit
      [.call 0 (1/2) [2], .call 0 (1/2) [9]]).map (fun r => (r.1, r.2.ext.ctrl.state))
    = some ([.called 0 (1/2) [2] false, .called 0 (1/2) [-1] true], .array 1) := by
  decide +kernel

/-- When the control law fails inside the monitor's look-ahead, the controller state is *not* put back (there is no
`finally` in `integrate`): here the law counts its invocations and refuses at states above 1; evaluating the desired
control raises and leaves the counter at 1. So C17 is limited to calls that do not raise. -/
theorem C17_not_exception_safe :
    ∃ (s : SimplexObj Rat Rat Rat Nat) (pred : Rat → Rat → List Rat → Rat), s.enable = true ∧
      (∃ e, (implicitSimplex pred s (.array 0) 1 [0]).1 = .error e) ∧
      s.ext.ctrl.state = .array 0 ∧ (implicitSimplex pred s (.array 0) 1 [0]).2.ext.ctrl.state = .array 1 := by
  refine ⟨{ toyImplicit with ext := { toyImplicit.ext with ctrl := { toyImplicit.ext.ctrl with
      gen := fun x _ z => match z with
        | .array n => if x ≤ 1 then some ([1], .array (n + 1)) else none
        | _ => none } } }, fun x dt u => x + dt * (u.headD 0 + 1), rfl, ?_, rfl, by decide +kernel⟩
  exact ⟨.valueError "_generate_control should return 2 values: the control vector and the updated controller state",
    by decide +kernel⟩

/-! ### C21 -/

section C21

/-- Operations a caller can perform on a controller between `save` and `restore`. -/
inductive CtrlOp (K S A : Type) where
  | generate (x : S) (dt : K)
  | generateWith (x : S) (dt : K) (z : CState A)
  | reset

/-- Execute a controller operation, ignoring its result. -/
def ctrlStep (c : BackupController K S A) : CtrlOp K S A → BackupController K S A
  | .generate x dt => (c.generateControl x dt).2
  | .generateWith x dt z => (c.generateControlWithControllerState x dt z).2
  | .reset => c.reset.2

/-- **C21**: `reset` returns the controller state to the initial value given at construction, whatever happened. -/
theorem C21_reset (gen : S → K → CState A → Option (List K × CState A)) (init : CState A)
    (c : BackupController K S A) (h : BackupController.init gen init = .ok c) (ops : List (CtrlOp K S A)) :
    ∃ c', (ops.foldl ctrlStep c).reset = (.ok (), c') ∧ c'.state = init := by
  have hinit : c.stateInitial = init ∧ init.copy = .ok init := by
    unfold BackupController.init at h
    cases hc : init.copy with
    | error e => rw [hc] at h; simp at h
    | ok i =>
      obtain rfl := copy_ok hc
      simp only [hc, Except.ok.injEq] at h
      rw [← h]
      exact ⟨rfl, rfl⟩
  have hpres : ∀ (ops : List (CtrlOp K S A)) (c : BackupController K S A),
      (ops.foldl ctrlStep c).stateInitial = c.stateInitial := by
    intro ops
    induction ops with
    | nil => intro c; rfl
    | cons op ops ih =>
      intro c
      simp only [List.foldl_cons, ih]
      cases op with
      | generate x dt =>
        simp only [ctrlStep, BackupController.generateControl]
        cases c.gen x dt c.state <;> rfl
      | generateWith x dt z => rfl
      | reset =>
        simp only [ctrlStep, BackupController.reset]
        cases c.stateInitial.copy <;> rfl
  unfold BackupController.reset
  rw [hpres, hinit.1, hinit.2]
  exact ⟨_, rfl, rfl⟩

/-- **C21**: `restore` after `save` returns to the saved state whatever was done in between (short of another `save`). -/
theorem C21_save_restore (c c1 : BackupController K S A) (h : c.save = (.ok (), c1)) (ops : List (CtrlOp K S A)) :
    (ops.foldl ctrlStep c1).restore.state = c.state := by
  have h1 : c1.stateSaved = c.state := by
    unfold BackupController.save at h
    cases hc : c.state.copy with
    | error e => rw [hc] at h; simp at h
    | ok i =>
      rw [hc] at h
      simp only [Prod.mk.injEq, true_and] at h
      rw [← h, copy_ok hc]
  have hpres : ∀ (ops : List (CtrlOp K S A)) (c : BackupController K S A),
      (ops.foldl ctrlStep c).stateSaved = c.stateSaved := by
    intro ops
    induction ops with
    | nil => intro c; rfl
    | cons op ops ih =>
      intro c
      simp only [List.foldl_cons, ih]
      cases op with
      | generate x dt =>
        simp only [ctrlStep, BackupController.generateControl]
        cases c.gen x dt c.state <;> rfl
      | generateWith x dt z => rfl
      | reset =>
        simp only [ctrlStep, BackupController.reset]
        cases c.stateInitial.copy <;> rfl
  simp only [BackupController.restore, hpres, h1]

/-- **C21**: `generate_control` returns the law's control and stores exactly the state it returned, nothing else;
a law that does not return a pair raises `ValueError` and leaves the controller alone. -/
theorem C21_generate (c : BackupController K S A) (x : S) (dt : K) :
    (∀ u z, c.gen x dt c.state = some (u, z) → c.generateControl x dt = (.ok u, { c with state := z })) ∧
    (c.gen x dt c.state = none → ∃ msg, c.generateControl x dt = (.error (.valueError msg), c)) := by
  unfold BackupController.generateControl
  constructor
  · intro u z h; rw [h]
  · intro h; rw [h]; exact ⟨_, rfl⟩

/-- **C21**: `generate_control_with_controller_state` evaluates the law at the given state and changes nothing. -/
theorem C21_generate_with_state (c : BackupController K S A) (x : S) (dt : K) (z : CState A) :
    c.generateControlWithControllerState x dt z = (c.gen x dt z, c) := rfl

/-- **C21**: states of unsupported types are rejected with `TypeError` at construction and when saving; supported ones
are accepted. -/
theorem C21_unsupported (gen : S → K → CState A → Option (List K × CState A)) (z : CState A) :
    ((∃ a, z = .unsupported a) ↔ ∃ msg, BackupController.init gen z = .error (.typeError msg)) ∧
    (∀ c : BackupController K S A, (∃ a, c.state = .unsupported a) ↔ ∃ msg, c.save = (.error (.typeError msg), c)) := by
  constructor
  · constructor
    · rintro ⟨a, rfl⟩; exact ⟨_, rfl⟩
    · rintro ⟨msg, h⟩
      cases z with
      | unsupported a => exact ⟨a, rfl⟩
      | _ => simp [BackupController.init, CState.copy] at h
  · intro c
    constructor
    · rintro ⟨a, h⟩; exact ⟨_, by simp [BackupController.save, h, CState.copy]; rfl⟩
    · rintro ⟨msg, h⟩
      cases hz : c.state with
      | unsupported a => exact ⟨a, rfl⟩
      | _ => simp [BackupController.save, CState.copy, hz] at h

/-- A counting controller: generate twice, save, generate, restore gives 2; reset gives 0. -/
example :
    let c : BackupController Int Int Nat :=
      { gen := fun x _ z => match z with | .array n => some ([x], .array (n + 1)) | _ => none
        stateInitial := .array 0, stateSaved := .none, state := .array 0 }
    let c2 := [CtrlOp.generate 5 1, .generate 6 1].foldl ctrlStep c
    (c2.save.2.generateControl 7 1).2.restore.state = .array 2 ∧ c2.reset.2.state = .array 0 ∧
    c2.save.1 = .ok () := by
  exact ⟨rfl, rfl, rfl⟩

/-- Observation: `restore` without an earlier `save` replaces the state by `None`. -/
theorem restore_without_save (gen : S → K → CState A → Option (List K × CState A)) (init : CState A)
    (c : BackupController K S A) (h : BackupController.init gen init = .ok c) : c.restore.state = .none := by
  unfold BackupController.init at h
  cases hc : init.copy with
  | error e => rw [hc] at h; simp at h
  | ok i =>
    obtain rfl := copy_ok hc
    simp only [hc, Except.ok.injEq] at h
    rw [← h]; rfl

end C21

end RTA
