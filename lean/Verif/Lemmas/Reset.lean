import Verif.Lemmas.Simplex

/-!
Congruence lemmas: two module objects that differ only in what a call overwrites before reading respond alike.
-/
set_option linter.unusedSectionVars false
namespace RTA
variable {K S P A E I : Type}

/-- Two objects that agree on everything a call can depend on; `Q` relates the subclass attributes. The caches of
constraint params/flags, the logged constraint values and the stale flag may differ. -/
structure SameResp (Q : E → E → Prop) (s t : CBObj K S P E) : Prop where
  base : t.toBase = s.toBase
  constraints : t.constraints = s.constraints
  wfs : WF s
  wft : WF t
  ext : Q s.ext t.ext

/-- `_filter_control` cannot tell `Q`-related subclass attributes apart. -/
def FilterCong (Q : E → E → Prop) (filter : CBObj K S P E → S → K → List K → Except PyErr (List K) × CBObj K S P E) : Prop :=
  ∀ s e x dt u, Q s.ext e → (filter { s with ext := e } x dt u).1 = (filter s x dt u).1 ∧
    ∃ e', Q (filter s x dt u).2.ext e' ∧ (filter { s with ext := e } x dt u).2 = { (filter s x dt u).2 with ext := e' }

theorem sameResp_prep {Q : E → E → Prop} {s t : CBObj K S P E} (h : SameResp Q s t) (x : S) (u : List K) :
    prep t x u = { prep s x u with ext := t.ext } := by
  unfold prep
  rw [updateParams_eq (wf_withDesired h.wfs u), updateParams_eq (wf_withDesired h.wft u)]
  obtain ⟨tb, tc, tp, te, tv, ts, tx⟩ := t
  obtain ⟨hb, hc, _, _, _⟩ := h
  simp only at hb hc
  subst hb; subst hc
  rfl

/-- A call on related objects gives the same result and leaves related objects. -/
theorem sameResp_call [LinearOrder K] {Q : E → E → Prop}
    {filter : CBObj K S P E → S → K → List K → Except PyErr (List K) × CBObj K S P E}
    (hcong : FilterCong Q filter) (hframe : FrameFilter filter) {s t : CBObj K S P E} (h : SameResp Q s t)
    (i : InputState S) (dt : K) (u : List K) :
    (filterControlCB getStateDefault filter t i dt u).1 = (filterControlCB getStateDefault filter s i dt u).1 ∧
    SameResp Q (filterControlCB getStateDefault filter s i dt u).2 (filterControlCB getStateDefault filter t i dt u).2 := by
  have ws := (filterControlCB_frame frame_getStateDefault hframe s i dt u).2 h.wfs
  have wt := (filterControlCB_frame frame_getStateDefault hframe t i dt u).2 h.wft
  have cs := (filterControlCB_frame frame_getStateDefault hframe s i dt u).1
  have ct := (filterControlCB_frame frame_getStateDefault hframe t i dt u).1
  have hcc := ct.trans (h.constraints.trans cs.symm)
  suffices H : (filterControlCB getStateDefault filter t i dt u).1 = (filterControlCB getStateDefault filter s i dt u).1 ∧
      (filterControlCB getStateDefault filter t i dt u).2.toBase = (filterControlCB getStateDefault filter s i dt u).2.toBase ∧
      Q (filterControlCB getStateDefault filter s i dt u).2.ext (filterControlCB getStateDefault filter t i dt u).2.ext from
    ⟨H.1, H.2.1, hcc, ws, wt, H.2.2⟩
  clear hcc cs ct ws wt
  by_cases hen : s.enable = true
  · have hen' : t.enable = true := by rw [h.base]; exact hen
    rw [filterControlCB_enabled hen, filterControlCB_enabled hen']
    cases i with
    | notArray =>
      simp only [computeFilteredControl, getStateDefault]
      refine ⟨trivial, ?_, h.ext⟩
      simp only [updateParams, withDesired, h.base]
    | array x =>
      rw [computeFiltered_array, computeFiltered_array, sameResp_prep h]
      obtain ⟨h1, e', hq, h2⟩ := hcong (prep s x u) t.ext x dt u h.ext
      rcases hf : filter (prep s x u) x dt u with ⟨_ | c, s1⟩
      · rcases hg : filter { prep s x u with ext := t.ext } x dt u with ⟨_ | c', t1⟩
        · rw [hf, hg] at h1 h2
          rw [hf] at hq
          simp only at h1 h2 hq ⊢
          subst h2
          exact ⟨h1, rfl, hq⟩
        · rw [hf, hg] at h1
          simp at h1
      · rcases hg : filter { prep s x u with ext := t.ext } x dt u with ⟨_ | c', t1⟩
        · rw [hf, hg] at h1
          simp at h1
        · rw [hf, hg] at h1 h2
          rw [hf] at hq
          simp only [Except.ok.injEq] at h1 h2 hq ⊢
          subst h1
          subst h2
          have e : (withActual { s1 with ext := e' } c').toBase.clipControl c' = (withActual s1 c').toBase.clipControl c' := rfl
          rw [e]
          rcases (withActual s1 c').toBase.clipControl c' with _ | c''
          · exact ⟨rfl, rfl, hq⟩
          · exact ⟨rfl, rfl, hq⟩
  · have hen : s.enable = false := by simpa using hen
    have hen' : t.enable = false := by rw [h.base]; exact hen
    rw [filterControlCB_disabled hen, filterControlCB_disabled hen']
    refine ⟨rfl, ?_, h.ext⟩
    simp only [withActual, withDesired, h.base]

/-! ### Simplex -/

/-- Simplex attributes equal up to the saved controller state. -/
def SameExt (e e' : SimplexExt K S A) : Prop := ∃ sv, e' = { e with ctrl := { e.ctrl with stateSaved := sv } }

/-- A monitor that cannot see the saved controller state. -/
def MonCong (mon : SimplexObj K S P A → S → K → List K → Except PyErr Bool × SimplexObj K S P A) : Prop :=
  ∀ s sv x dt u, (mon (s.setCtrl { s.ext.ctrl with stateSaved := sv }) x dt u).1 = (mon s x dt u).1 ∧
    ∃ sv', (mon (s.setCtrl { s.ext.ctrl with stateSaved := sv }) x dt u).2 =
      (mon s x dt u).2.setCtrl { (mon s x dt u).2.ext.ctrl with stateSaved := sv' }

theorem backupControl_cong [Max K] [Min K] (s : SimplexObj K S P A) (sv : CState A) (x : S) (dt : K) :
    (backupControl (s.setCtrl { s.ext.ctrl with stateSaved := sv }) x dt).1 = (backupControl s x dt).1 ∧
    (backupControl (s.setCtrl { s.ext.ctrl with stateSaved := sv }) x dt).2 =
      (backupControl s x dt).2.setCtrl { (backupControl s x dt).2.ext.ctrl with stateSaved := sv } := by
  unfold backupControl BackupController.generateControl
  have e1 : (s.setCtrl { s.ext.ctrl with stateSaved := sv }).ext.ctrl.gen = s.ext.ctrl.gen := rfl
  have e2 : (s.setCtrl { s.ext.ctrl with stateSaved := sv }).ext.ctrl.state = s.ext.ctrl.state := rfl
  rw [e1, e2]
  rcases s.ext.ctrl.gen x dt s.ext.ctrl.state with _ | ⟨ub, z⟩
  · exact ⟨rfl, rfl⟩
  · exact ⟨rfl, rfl⟩

theorem monCong_explicit [Add K] [Zero K] [LT K] [DecidableLT K] (pred : S → K → List K → S) :
    MonCong (explicitMonitor (K := K) (S := S) (P := P) (A := A) pred) :=
  fun _ sv _ _ _ => ⟨rfl, sv, rfl⟩

theorem monCong_implicit [Field K] [LinearOrder K] [FloorRing K] (pred : S → K → List K → S) :
    MonCong (implicitMonitor (K := K) (S := S) (P := P) (A := A) pred) := by
  intro s sv x dt u
  have hsave : (∃ e, backupControllerSave (s.setCtrl { s.ext.ctrl with stateSaved := sv }) =
        (.error e, s.setCtrl { s.ext.ctrl with stateSaved := sv }) ∧ backupControllerSave s = (.error e, s)) ∨
      (∃ s1, backupControllerSave (s.setCtrl { s.ext.ctrl with stateSaved := sv }) = (.ok (), s1) ∧
        backupControllerSave s = (.ok (), s1)) := by
    unfold backupControllerSave BackupController.save
    have e2 : (s.setCtrl { s.ext.ctrl with stateSaved := sv }).ext.ctrl.state = s.ext.ctrl.state := rfl
    rw [e2]
    rcases s.ext.ctrl.state.copy with e | z
    · exact Or.inl ⟨e, rfl, rfl⟩
    · exact Or.inr ⟨_, rfl, rfl⟩
  have hw : (s.setCtrl { s.ext.ctrl with stateSaved := sv }).ext.backupWindow = s.ext.backupWindow := rfl
  unfold implicitMonitor implicitIntegrate
  rw [hw]
  rcases backupSteps s.ext.backupWindow dt with e | n
  · exact ⟨rfl, sv, rfl⟩
  · rcases hsave with ⟨e, h1, h2⟩ | ⟨s1, h1, h2⟩
    · simp only [h1, h2]
      exact ⟨trivial, sv, rfl⟩
    · simp only [h1, h2]
      rcases integrateLoop pred dt n.toNat s1 (pred x dt u) [pred x dt u] with ⟨_ | tr, s2⟩
      · exact ⟨trivial, s2.ext.ctrl.stateSaved, rfl⟩
      · exact ⟨trivial, (backupControllerRestore s2).ext.ctrl.stateSaved, rfl⟩

theorem filterCong_simplex [AddCommMonoid K] [LinearOrder K]
    {mon : SimplexObj K S P A → S → K → List K → Except PyErr Bool × SimplexObj K S P A} (hm : MonCong mon) :
    FilterCong SameExt (simplexFilter mon) := by
  rintro (s : SimplexObj K S P A) e x dt u ⟨sv, rfl⟩
  have he : ({ s with ext := { s.ext with ctrl := { s.ext.ctrl with stateSaved := sv } } } : SimplexObj K S P A) =
      s.setCtrl { s.ext.ctrl with stateSaved := sv } := rfl
  rw [he]
  by_cases hl : Latched s
  · have hl' : Latched (s.setCtrl { s.ext.ctrl with stateSaved := sv }) := hl
    rw [simplexFilter_latched mon _ x dt u hl, simplexFilter_latched mon _ x dt u hl']
    set s1 : SimplexObj K S P A := { s with ext := { s.ext with latchedElapsed := s.ext.latchedElapsed + dt } } with hs1
    have e1 : ({ s.setCtrl { s.ext.ctrl with stateSaved := sv } with
        ext := { (s.setCtrl { s.ext.ctrl with stateSaved := sv }).ext with
          latchedElapsed := (s.setCtrl { s.ext.ctrl with stateSaved := sv }).ext.latchedElapsed + dt } } : SimplexObj K S P A)
        = s1.setCtrl { s1.ext.ctrl with stateSaved := sv } := rfl
    rw [e1]
    obtain ⟨h1, h2⟩ := backupControl_cong s1 sv x dt
    exact ⟨h1, _, ⟨sv, rfl⟩, h2⟩
  · have hl' : ¬ Latched (s.setCtrl { s.ext.ctrl with stateSaved := sv }) := hl
    rw [simplexFilter_unlatched mon _ x dt u hl, simplexFilter_unlatched mon _ x dt u hl']
    have e1 : unlatch (s.setCtrl { s.ext.ctrl with stateSaved := sv }) =
        (unlatch s).setCtrl { (unlatch s).ext.ctrl with stateSaved := sv } := by
      unfold unlatch
      have : (s.setCtrl { s.ext.ctrl with stateSaved := sv }).intervening = s.intervening := rfl
      rw [this]
      split <;> rfl
    rw [e1]
    obtain ⟨h1, sv', h2⟩ := hm (unlatch s) sv x dt u
    rcases hf : mon (unlatch s) x dt u with ⟨_ | b, s1⟩
    · rcases hg : mon ((unlatch s).setCtrl { (unlatch s).ext.ctrl with stateSaved := sv }) x dt u with ⟨_ | b', t1⟩
      · rw [hf, hg] at h1 h2
        simp only at h1 h2
        simp only [Except.error.injEq] at h1
        subst h1; subst h2
        exact ⟨rfl, _, ⟨sv', rfl⟩, rfl⟩
      · rw [hf, hg] at h1; simp at h1
    · rcases hg : mon ((unlatch s).setCtrl { (unlatch s).ext.ctrl with stateSaved := sv }) x dt u with ⟨_ | b', t1⟩
      · rw [hf, hg] at h1; simp at h1
      · rw [hf, hg] at h1 h2
        simp only [Except.ok.injEq] at h1 h2
        subst h1; subst h2
        simp only
        cases b' with
        | false => exact ⟨rfl, _, ⟨sv', rfl⟩, rfl⟩
        | true =>
          simp only [if_true]
          obtain ⟨h3, h4⟩ := backupControl_cong { s1 with intervening := true } sv' x dt
          exact ⟨h3, _, ⟨sv', rfl⟩, h4⟩

end RTA
