import Verif.Lemmas.Reset
import Verif.Props.Latch

/-!
C10: `reset()` compared with a newly constructed module. Simplex modules.
-/
namespace RTA
variable {K S P A : Type}

/-- What can be done to a simplex module. -/
inductive ROp (K S P : Type) where
  | call (inp : InputState S) (dt : K) (u : List K)
  | edit (f : String → P × Bool → P × Bool)
  | setEnable (b : Bool)
  | reset

/-- Execute an operation: the result of a call (if it is one) and the new object. A failing `reset` keeps what it has
done so far. -/
def stepR [Max K] [Min K] [Add K] [Zero K] [LE K] [DecidableLE K]
    (mon : SimplexObj K S P A → S → K → List K → Except PyErr Bool × SimplexObj K S P A) (s : SimplexObj K S P A) :
    ROp K S P → Option (Except PyErr (List K)) × SimplexObj K S P A
  | .call i dt u =>
    let r := filterControlCB getStateDefault (simplexFilter mon) s i dt u
    (some r.1, r.2)
  | .edit f => (none, editConstraints f s)
  | .setEnable b => (none, modifyBase (fun x => { x with enable := b }) s)
  | .reset => (none, (simplexReset s).2)

/-- Everything the user sees over a sequence of operations: for each of them the returned value or exception, and the
enabled/intervening/desired/actual entries of `generate_info` afterwards. -/
def observeR [Max K] [Min K] [Add K] [Zero K] [LE K] [DecidableLE K]
    (mon : SimplexObj K S P A → S → K → List K → Except PyErr Bool × SimplexObj K S P A) :
    SimplexObj K S P A → List (ROp K S P) → List (Option (Except PyErr (List K)) × BaseInfo K)
  | _, [] => []
  | s, op :: ops => ((stepR mon s op).1, generateInfo (stepR mon s op).2) :: observeR mon (stepR mon s op).2 ops

/-- The object after a sequence of operations. -/
def runR [Max K] [Min K] [Add K] [Zero K] [LE K] [DecidableLE K]
    (mon : SimplexObj K S P A → S → K → List K → Except PyErr Bool × SimplexObj K S P A) :
    SimplexObj K S P A → List (ROp K S P) → SimplexObj K S P A
  | s, [] => s
  | s, op :: ops => runR mon (stepR mon s op).2 ops

section
variable [AddCommMonoid K] [LinearOrder K]

/-- Related objects stay related and are observed alike. -/
theorem observe_same {mon : SimplexObj K S P A → S → K → List K → Except PyErr Bool × SimplexObj K S P A}
    (hm : MonFrame mon) (hc : MonCong mon) (ops : List (ROp K S P)) (s t : SimplexObj K S P A)
    (h : SameResp SameExt s t) : observeR mon t ops = observeR mon s ops := by
  induction ops generalizing s t with
  | nil => rfl
  | cons op ops ih =>
    have key : (stepR mon t op).1 = (stepR mon s op).1 ∧ SameResp SameExt (stepR mon s op).2 (stepR mon t op).2 := by
      cases op with
      | call i dt u =>
        obtain ⟨h1, h2⟩ := sameResp_call (filterCong_simplex hc) (frameFilter_simplex hm) h i dt u
        exact ⟨by simp only [stepR, h1], h2⟩
      | edit f =>
        refine ⟨rfl, ?_, ?_, wf_edit f h.wfs, wf_edit f h.wft, h.ext⟩
        · exact h.base
        · simp only [stepR, editConstraints, h.constraints]
      | setEnable b =>
        refine ⟨rfl, ?_, h.constraints, ⟨h.wfs.nodup, h.wfs.params, h.wfs.enabled⟩,
          ⟨h.wft.nodup, h.wft.params, h.wft.enabled⟩, h.ext⟩
        have : t.toBase = s.toBase := h.base
        simp only [stepR, modifyBase, HasBase.get, HasBase.set, this]
      | reset =>
        obtain ⟨sv, hsv⟩ := h.ext
        have hb : (Base.reset t : SimplexObj K S P A).toBase = (Base.reset s : SimplexObj K S P A).toBase := by
          have : t.toBase = s.toBase := h.base
          simp only [Base.reset, modifyBase, HasBase.get, HasBase.set, this]
        refine ⟨rfl, ?_, ?_, ?_, ?_, ?_⟩ <;> simp only [stepR, simplexReset, BackupController.reset]
        · have e1 : (Base.reset t).ext.ctrl.stateInitial = (Base.reset s).ext.ctrl.stateInitial := by
            show t.ext.ctrl.stateInitial = s.ext.ctrl.stateInitial
            rw [hsv]
          rw [e1]
          rcases (Base.reset s).ext.ctrl.stateInitial.copy with e | z <;> exact hb
        · rcases (Base.reset t).ext.ctrl.stateInitial.copy with e | z <;>
            rcases (Base.reset s).ext.ctrl.stateInitial.copy with e' | z' <;> exact h.constraints
        · rcases (Base.reset s).ext.ctrl.stateInitial.copy with e | z <;>
            exact ⟨h.wfs.nodup, h.wfs.params, h.wfs.enabled⟩
        · rcases (Base.reset t).ext.ctrl.stateInitial.copy with e | z <;>
            exact ⟨h.wft.nodup, h.wft.params, h.wft.enabled⟩
        · have e1 : (Base.reset t).ext.ctrl.stateInitial = (Base.reset s).ext.ctrl.stateInitial := by
            show t.ext.ctrl.stateInitial = s.ext.ctrl.stateInitial
            rw [hsv]
          rw [e1]
          rcases (Base.reset s).ext.ctrl.stateInitial.copy with e | z
          · refine ⟨sv, ?_⟩
            show { t.ext with ctrl := t.ext.ctrl } = _
            rw [hsv]; rfl
          · refine ⟨sv, ?_⟩
            show { t.ext with ctrl := { t.ext.ctrl with state := z, stateInitial := s.ext.ctrl.stateInitial } } = _
            rw [hsv]; rfl
    have hbase : (stepR mon t op).2.toBase = (stepR mon s op).2.toBase := key.2.base
    have hinfo : generateInfo (stepR mon t op).2 = generateInfo (stepR mon s op).2 := by
      simp only [generateInfo, HasBase.get, hbase]
    simp only [observeR]
    rw [key.1, hinfo, ih _ _ key.2]

/-- **C10, the part that holds for simplex modules.** After a `reset()` that finds the latch counter at zero, every future
sequence of operations (calls, constraint edits, enabling/disabling, further resets) is observed exactly as with a newly
constructed module with the same bounds, constraints, latch time, window and controller. What is missing: `reset` does not
clear the latch counter (`C10_refuted_simplex_reset`). For modules without latching the restriction is void
(`C10_simplex_no_latch_partial`). -/
theorem C10_simplex_reset_partial {mon : SimplexObj K S P A → S → K → List K → Except PyErr Bool × SimplexObj K S P A}
    (hm : MonFrame mon) (hc : MonCong mon) (s s' t : SimplexObj K S P A) (c0 : BackupController K S A) (hwf : WF s)
    (h0 : s.ext.latchedElapsed = 0) (hr : simplexReset s = (.ok (), s'))
    (hc0 : BackupController.init s.ext.ctrl.gen s.ext.ctrl.stateInitial = .ok c0)
    (ht : simplexInit s.controlBoundsHigh s.controlBoundsLow s.constraints none s.ext.latchTime s.ext.backupWindow c0 = .ok t)
    (ops : List (ROp K S P)) : observeR mon s' ops = observeR mon t ops := by
  symm
  refine observe_same hm hc ops s' t ?_
  have wt : WF t := wf_init hwf.nodup ht
  simp only [simplexInit, CBObj.init, selectConstraints, Except.ok.injEq] at ht
  unfold simplexReset BackupController.reset at hr
  have e0 : (Base.reset s).ext.ctrl.stateInitial = s.ext.ctrl.stateInitial := rfl
  simp only [e0] at hr
  rcases hcp : s.ext.ctrl.stateInitial.copy with e | z
  · rw [hcp] at hr; simp at hr
  · obtain rfl := copy_ok hcp
    rw [hcp] at hr
    simp only [Prod.mk.injEq, true_and] at hr
    unfold BackupController.init at hc0
    rw [hcp] at hc0
    simp only [hcp, Except.ok.injEq] at hc0
    subst hr
    subst ht
    subst hc0
    refine ⟨rfl, rfl, ⟨hwf.nodup, hwf.params, hwf.enabled⟩, wt, ⟨.none, ?_⟩⟩
    simp only [updateParams]
    rw [← h0]
    rfl

/-- Without latching the latch counter never leaves zero, whatever is done and whatever fails. -/
theorem elapsed_zero {mon : SimplexObj K S P A → S → K → List K → Except PyErr Bool × SimplexObj K S P A}
    (hm : MonFrame mon) (ops : List (ROp K S P)) (s : SimplexObj K S P A) (hT : s.ext.latchTime ≤ 0)
    (h0 : s.ext.latchedElapsed = 0) (hw : WF s) :
    (runR mon s ops).ext.latchedElapsed = 0 ∧ WF (runR mon s ops) := by
  induction ops generalizing s with
  | nil => exact ⟨h0, hw⟩
  | cons op ops ih =>
    have key : (stepR mon s op).2.ext.latchTime ≤ 0 ∧ (stepR mon s op).2.ext.latchedElapsed = 0 ∧ WF (stepR mon s op).2 := by
      cases op with
      | edit f => exact ⟨hT, h0, wf_edit f hw⟩
      | setEnable b => exact ⟨hT, h0, ⟨hw.nodup, hw.params, hw.enabled⟩⟩
      | reset =>
        simp only [stepR, simplexReset, BackupController.reset]
        rcases (Base.reset s).ext.ctrl.stateInitial.copy with e | z <;>
          exact ⟨hT, h0, ⟨hw.nodup, hw.params, hw.enabled⟩⟩
      | call i dt u =>
        have hwf' := (filterControlCB_frame frame_getStateDefault (frameFilter_simplex hm) s i dt u).2 hw
        suffices H : (filterControlCB getStateDefault (simplexFilter mon) s i dt u).2.ext.latchTime ≤ 0 ∧
            (filterControlCB getStateDefault (simplexFilter mon) s i dt u).2.ext.latchedElapsed = 0 from
          ⟨H.1, H.2, hwf'⟩
        by_cases hen : s.enable = true
        · rw [filterControlCB_enabled hen]
          cases i with
          | notArray => exact ⟨hT, h0⟩
          | array x =>
            rw [computeFiltered_array]
            have hT' : (prep s x u).ext.latchTime ≤ 0 := hT
            have h0' : (prep s x u).ext.latchedElapsed = 0 := h0
            have hf : (simplexFilter mon (prep s x u) x dt u).2.ext.latchTime ≤ 0 ∧
                (simplexFilter mon (prep s x u) x dt u).2.ext.latchedElapsed = 0 := by
              refine ⟨by rw [(simplexFilter_frame hm _ x dt u).latchTime]; exact hT', ?_⟩
              have hnl : ¬ Latched (prep s x u) := fun hl => absurd hl.2 (by rw [h0']; exact not_lt.2 hT')
              rw [simplexFilter_unlatched mon _ x dt u hnl]
              have hu : (unlatch (prep s x u)).ext.latchedElapsed = 0 := by
                rw [unlatch_ext]; simp only [elapsedAfter, h0']; split <;> rfl
              obtain ⟨st, sv, hfr⟩ := hm.frame (unlatch (prep s x u)) x dt u
              have h1 : (mon (unlatch (prep s x u)) x dt u).2.ext.latchedElapsed = 0 := by rw [hfr]; exact hu
              rcases hr : mon (unlatch (prep s x u)) x dt u with ⟨_ | b, s1⟩
              · rw [hr] at h1; exact h1
              · rw [hr] at h1
                simp only
                split
                · obtain ⟨st', hb⟩ := backupControl_frame { s1 with intervening := b } x dt
                  rw [hb]; exact h1
                · exact h1
            rcases hr : simplexFilter mon (prep s x u) x dt u with ⟨_ | c, s1⟩
            · rw [hr] at hf; exact hf
            · rw [hr] at hf
              simp only
              rcases (withActual s1 c).toBase.clipControl c with _ | c'
              · exact hf
              · exact hf
        · have hen : s.enable = false := by simpa using hen
          rw [filterControlCB_disabled hen]
          exact ⟨hT, h0⟩
    exact ih _ key.1 key.2.1 key.2.2

/-- **C10 for simplex modules without latching** (`latch_time <= 0`, the default): after any history at all from a newly
constructed module — including calls that raised — `reset()` makes the module indistinguishable from a new one with the
constraints as they are now. -/
theorem C10_simplex_no_latch_partial {mon : SimplexObj K S P A → S → K → List K → Except PyErr Bool × SimplexObj K S P A}
    (hm : MonFrame mon) (hc : MonCong mon) (s0 s s' t : SimplexObj K S P A) (c0 : BackupController K S A) (hwf : WF s0)
    (hT : s0.ext.latchTime ≤ 0) (h0 : s0.ext.latchedElapsed = 0) (past : List (ROp K S P)) (hs : s = runR mon s0 past)
    (hr : simplexReset s = (.ok (), s'))
    (hc0 : BackupController.init s.ext.ctrl.gen s.ext.ctrl.stateInitial = .ok c0)
    (ht : simplexInit s.controlBoundsHigh s.controlBoundsLow s.constraints none s.ext.latchTime s.ext.backupWindow c0 = .ok t)
    (ops : List (ROp K S P)) : observeR mon s' ops = observeR mon t ops := by
  obtain ⟨he, hw⟩ := elapsed_zero hm past s0 hT h0 hwf
  subst hs
  exact C10_simplex_reset_partial hm hc _ s' t c0 hw he hr hc0 ht ops

end

/-- Both simplex modules qualify. -/
theorem C10_instances [Field K] [LinearOrder K] [FloorRing K] (pred : S → K → List K → S) :
    (MonFrame (explicitMonitor (K := K) (S := S) (P := P) (A := A) pred) ∧
     MonCong (explicitMonitor (K := K) (S := S) (P := P) (A := A) pred)) ∧
    (MonFrame (implicitMonitor (K := K) (S := S) (P := P) (A := A) pred) ∧
     MonCong (implicitMonitor (K := K) (S := S) (P := P) (A := A) pred)) :=
  ⟨⟨monFrame_explicit pred, monCong_explicit pred⟩, ⟨monFrame_implicit pred, monCong_implicit pred⟩⟩

/-- `toySimplex` with latch time 2. -/
def toyLatched : SimplexObj Int Int Int Unit :=
  { toySimplex (-9) 9 with ext := { (toySimplex (-9) 9).ext with latchTime := 2 } }

/-- **C10 is false for latched simplex modules.** `reset` leaves the latch counter: after a rejected call, one latched
call and a reset, the module answers the sequence "bad, good, good" differently from a new one — it lets go of the backup
controller one call too early (returns 9, not intervening, where a new module returns the backup control 0). -/
theorem C10_refuted_simplex_reset :
    ∃ (past ops : List (ROp Int Int Int)) (s' t : SimplexObj Int Int Int Unit),
      simplexReset (runR (explicitMonitor toyPred) toyLatched past) = (.ok (), s') ∧
      simplexInit (some (.scalar 9)) (some (.scalar (-9))) toyLatched.constraints none 2 0 toyLatched.ext.ctrl = .ok t ∧
      (observeR (explicitMonitor toyPred) s' ops).map Prod.fst = [some (.ok [0]), some (.ok [0]), some (.ok [9])] ∧
      (observeR (explicitMonitor toyPred) t ops).map Prod.fst = [some (.ok [0]), some (.ok [0]), some (.ok [0])] :=
  ⟨[.call (.array 0) 1 [2], .call (.array 0) 1 [9]],
   [.call (.array 0) 1 [2], .call (.array 0) 1 [9], .call (.array 0) 1 [9]], _, _, rfl, rfl, rfl, rfl⟩

/-- The positive theorem has instances: the unlatched toy module after a history with an intervention. -/
example : ∃ s' t c0, simplexReset (runR (explicitMonitor toyPred) (toySimplex (-9) 9) [.call (.array 0) 1 [2]]) = (.ok (), s') ∧
    BackupController.init (toySimplex (-9) 9).ext.ctrl.gen .none = .ok c0 ∧
    simplexInit (some (.scalar 9)) (some (.scalar (-9))) (toySimplex (-9) 9).constraints none 0 0 c0 = .ok t ∧
    (runR (explicitMonitor toyPred) (toySimplex (-9) 9) [.call (.array 0) 1 [2]]).intervening = true :=
  ⟨_, _, _, rfl, rfl, rfl, rfl⟩

end RTA
