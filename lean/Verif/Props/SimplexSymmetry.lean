import Verif.Lemmas.Simplex
import Verif.Lemmas.ASIF
import Mathlib.Data.Rat.Floor
import Verif.Spec.Symmetry
import Verif.Spec.Jit

/-!
C107 for simplex modules: in mirror image situations they give mirror image answers, along whole runs, including the latch and the state of
the backup controller.
-/
set_option linter.unusedSectionVars false

namespace RTA
variable {K S P A : Type}

theorem Symmetric.frame [Max K] [Min K] {pred : S → K → List K → S} {φ : S → S} {T : List K → List K} {s s' : SimplexObj K S P A}
    (h : Symmetric pred φ T s) (hc : s'.constraints = s.constraints) (hg : s'.ext.ctrl.gen = s.ext.ctrl.gen)
    (hlo : s'.controlBoundsLow = s.controlBoundsLow) (hhi : s'.controlBoundsHigh = s.controlBoundsHigh) : Symmetric pred φ T s' := by
  refine ⟨h.pred, by rw [hc]; exact h.value, by rw [hc]; exact h.phi, by rw [hg]; exact h.gen, fun u => ?_⟩
  have e : ∀ w, s'.toBase.clipControl w = s.toBase.clipControl w := fun w => by unfold Base.clipControl; rw [hlo, hhi]
  rw [e, e, h.clip]

theorem mirror_backup [Max K] [Min K] {pred : S → K → List K → S} {φ : S → S} {T : List K → List K} {s : SimplexObj K S P A}
    (h : Symmetric pred φ T s) (x : S) (dt : K) :
    backupControl (s.mirror T) (φ x) dt = ((backupControl s x dt).1.map T, (backupControl s x dt).2.mirror T) := by
  have hg : (s.mirror T).ext.ctrl.gen (φ x) dt (s.mirror T).ext.ctrl.state = (s.ext.ctrl.gen x dt s.ext.ctrl.state).map fun r => (T r.1, r.2) :=
    h.gen x dt _
  have hcl : ∀ w, (s.mirror T).toBase.clipControl w = s.toBase.clipControl w := fun w => rfl
  unfold backupControl BackupController.generateControl
  rw [hg]
  rcases s.ext.ctrl.gen x dt s.ext.ctrl.state with _ | ⟨u, z⟩
  · rfl
  · simp only [Option.map_some]
    rw [hcl, h.clip]
    rfl

section order
variable [AddCommMonoid K] [LinearOrder K]

theorem mirror_violation {φ : S → S} {T : List K → List K} {s : SimplexObj K S P A}
    (h : ∀ kc ∈ s.constraints, ∀ x p, kc.2.computeFn (φ x) p = kc.2.computeFn x p) (xs : List S) :
    constraintViolation (s.mirror T) (xs.map φ) = constraintViolation s xs := by
  have key : ∀ cs : Dict (Constraint K S P), (∀ kc ∈ cs, ∀ x p, kc.2.computeFn (φ x) p = kc.2.computeFn x p) →
      constraintViolationLoop s.params s.constraintEnabled (xs.map φ) cs = constraintViolationLoop s.params s.constraintEnabled xs cs := by
    intro cs
    induction cs with
    | nil => intro _; rfl
    | cons kc cs ih =>
      intro hcs
      obtain ⟨k, c⟩ := kc
      have e : ∀ p, constraintVals c (xs.map φ) p = constraintVals c xs p := by
        intro p
        rw [constraintVals_eq, constraintVals_eq, List.map_map]
        refine List.map_congr_left fun x _ => ?_
        have hx : c.computeFn (φ x) p = c.computeFn x p := hcs (k, c) (List.mem_cons_self ..) x p
        simp only [Function.comp, Constraint.compute, hx]
      simp only [constraintViolationLoop, constraintViolated, e, ih fun kc hkc => hcs kc (List.mem_cons_of_mem _ hkc)]
  show (match constraintViolationLoop s.params s.constraintEnabled (xs.map φ) s.constraints with | .error e => _ | .ok l => _) = _
  rw [key _ h]
  rfl

/-- What the symmetry means for a monitor. -/
def MirrorMonitor (pred : S → K → List K → S) (φ : S → S) (T : List K → List K)
    (mon : SimplexObj K S P A → S → K → List K → Except PyErr Bool × SimplexObj K S P A) : Prop :=
  ∀ s x dt u, Symmetric pred φ T s → mon (s.mirror T) (φ x) dt (T u) = ((mon s x dt u).1, (mon s x dt u).2.mirror T)

theorem mirror_explicit (pred : S → K → List K → S) (φ : S → S) (T : List K → List K) :
    MirrorMonitor (P := P) (A := A) pred φ T (explicitMonitor pred) := by
  intro s x dt u h
  have := mirror_violation (T := T) h.value [pred x dt u]
  simp only [explicitMonitor, h.pred]
  simpa using this

theorem mirror_filter {pred : S → K → List K → S} {φ : S → S} {T : List K → List K}
    {mon : SimplexObj K S P A → S → K → List K → Except PyErr Bool × SimplexObj K S P A} (hfr : MonFrame mon)
    (hm : MirrorMonitor pred φ T mon) {s : SimplexObj K S P A} (h : Symmetric pred φ T s) (x : S) (dt : K) (u : List K) :
    simplexFilter mon (s.mirror T) (φ x) dt (T u) =
      ((simplexFilter mon s x dt u).1.map T, (simplexFilter mon s x dt u).2.mirror T) := by
  by_cases hl : Latched s
  · have hl' : Latched (s.mirror T) := hl
    rw [simplexFilter_latched _ _ _ _ _ hl, simplexFilter_latched _ _ _ _ _ hl']
    have hs : Symmetric pred φ T { s with ext := { s.ext with latchedElapsed := s.ext.latchedElapsed + dt } } :=
      h.frame rfl rfl rfl rfl
    exact mirror_backup hs x dt
  · have hl' : ¬ Latched (s.mirror T) := hl
    rw [simplexFilter_unlatched _ _ _ _ _ hl, simplexFilter_unlatched _ _ _ _ _ hl']
    have e : unlatch (s.mirror T) = (unlatch s).mirror T := by
      unfold unlatch
      show (if s.intervening = true then _ else _) = _
      split <;> rfl
    have hs : Symmetric pred φ T (unlatch s) :=
      h.frame (unlatch_constraints s) (by rw [unlatch_ext]) (by rw [unlatch_toBase]) (by rw [unlatch_toBase])
    rw [e, hm _ x dt u hs]
    obtain ⟨st, sv, hf⟩ := hfr.frame (unlatch s) x dt u
    rcases hr : mon (unlatch s) x dt u with ⟨_ | b, s1⟩
    · rfl
    · rw [hr] at hf
      simp only at hf
      cases b
      · rfl
      · have hs1 : Symmetric pred φ T { s1 with intervening := true } := by
          rw [hf]
          exact hs.frame rfl rfl rfl rfl
        exact mirror_backup hs1 x dt

theorem mirror_call {pred : S → K → List K → S} {φ : S → S} {T : List K → List K}
    {mon : SimplexObj K S P A → S → K → List K → Except PyErr Bool × SimplexObj K S P A} (hfr : MonFrame mon)
    (hm : MirrorMonitor pred φ T mon) {s : SimplexObj K S P A} (h : Symmetric pred φ T s) (x : S) (dt : K) (u : List K) :
    filterControlCB getStateDefault (simplexFilter mon) (s.mirror T) (.array (φ x)) dt (T u) =
        ((filterControlCB getStateDefault (simplexFilter mon) s (.array x) dt u).1.map T,
          (filterControlCB getStateDefault (simplexFilter mon) s (.array x) dt u).2.mirror T) ∧
      Symmetric pred φ T (filterControlCB getStateDefault (simplexFilter mon) s (.array x) dt u).2 := by
  have hp : prep (s.mirror T) (φ x) (T u) = (prep s x u).mirror T := by
    have hv : (s.constraints.map fun kc => (kc.1, kc.2.phiFn (φ x) kc.2.params)) = s.constraints.map fun kc => (kc.1, kc.2.phiFn x kc.2.params) :=
      List.map_congr_left fun kc hkc => by rw [h.phi kc hkc]
    show ({ updateParams (withDesired (s.mirror T) (T u)) with
        constraintValues := s.constraints.map fun kc => (kc.1, kc.2.phiFn (φ x) kc.2.params), isStaleConstraints := true } :
          SimplexObj K S P A) = _
    rw [hv]
    rfl
  have hs : Symmetric pred φ T (prep s x u) := h.frame rfl rfl rfl rfl
  have hf := mirror_filter hfr hm hs x dt u
  have hfra := simplexFilter_frame hfr (prep s x u) x dt u
  have hs2 := hs.frame hfra.constraints hfra.gen hfra.low hfra.high
  unfold filterControlCB filterControl
  show (if s.enable = true then _ else _) = _ ∧ _
  by_cases hen : s.enable = true
  · have e1 := computeFiltered_array (simplexFilter mon) (s.mirror T) (φ x) dt (T u)
    have e2 := computeFiltered_array (simplexFilter mon) s x dt u
    rw [hp, hf] at e1
    have d1 : modifyBase (fun b => { b with controlDesired := some (T u) }) (s.mirror T) = withDesired (s.mirror T) (T u) := rfl
    have d2 : modifyBase (fun b => { b with controlDesired := some u }) s = withDesired s u := rfl
    have hen2 : (HasBase.get (withDesired s u)).enable = true := hen
    simp only [d1, d2, e1, e2, hen, hen2, if_true]
    rcases hr : simplexFilter mon (prep s x u) x dt u with ⟨_ | c, s1⟩
    · rw [hr] at hs2
      exact ⟨rfl, hs2⟩
    · rw [hr] at hs2
      have hc : s1.toBase.clipControl (T c) = (s1.toBase.clipControl c).map T := hs2.clip c
      have c1 : (HasBase.get (withActual (s1.mirror T) (T c))).clipControl (T c) = s1.toBase.clipControl (T c) := rfl
      have c2 : (HasBase.get (withActual s1 c)).clipControl c = s1.toBase.clipControl c := rfl
      simp only [Except.map, c1, c2, hc]
      rcases s1.toBase.clipControl c with _ | w
      · exact ⟨rfl, hs2.frame rfl rfl rfl rfl⟩
      · exact ⟨rfl, hs2.frame rfl rfl rfl rfl⟩
  · have hen2 : ¬ (HasBase.get (modifyBase (fun b => { b with controlDesired := some u }) s)).enable = true := hen
    simp only [hen, hen2]
    exact ⟨rfl, h.frame rfl rfl rfl rfl⟩

/-- A sequence of calls in the mirror. -/
theorem mirror_run {pred : S → K → List K → S} {φ : S → S} {T : List K → List K}
    {mon : SimplexObj K S P A → S → K → List K → Except PyErr Bool × SimplexObj K S P A} (hfr : MonFrame mon)
    (hm : MirrorMonitor pred φ T mon) (cs : List (S × K × List K)) {s : SimplexObj K S P A} (h : Symmetric pred φ T s) :
    answers (filterControlCB getStateDefault (simplexFilter mon)) (s.mirror T) (cs.map fun c => (φ c.1, c.2.1, T c.2.2)) =
      (answers (filterControlCB getStateDefault (simplexFilter mon)) s cs).map (Except.map T) := by
  induction cs generalizing s with
  | nil => rfl
  | cons c cs ih =>
    obtain ⟨x, dt, u⟩ := c
    obtain ⟨e, hs⟩ := mirror_call hfr hm h x dt u
    have := ih hs
    simp only [List.map_cons, answers, e, this]

/-- **C107, explicit simplex modules.** If the prediction, the constraints, the backup controller and the bounds are symmetric, mirror
image situations get mirror image answers, and the module is left in the mirror image state: intervening, latch, state of the backup
controller and constraint values are the same. -/
theorem C107_simplex {pred : S → K → List K → S} {φ : S → S} {T : List K → List K} {s : SimplexObj K S P A} (h : Symmetric pred φ T s)
    (x : S) (dt : K) (u : List K) :
    explicitSimplex pred (s.mirror T) (.array (φ x)) dt (T u) =
      ((explicitSimplex pred s (.array x) dt u).1.map T, (explicitSimplex pred s (.array x) dt u).2.mirror T) :=
  (mirror_call (monFrame_explicit pred) (mirror_explicit pred φ T) h x dt u).1

/-- **C107, runs of explicit simplex modules**: so a whole sequence of mirror image calls, some of which may raise, gets the mirror image
answers. -/
theorem C107_simplex_run {pred : S → K → List K → S} {φ : S → S} {T : List K → List K} {s : SimplexObj K S P A} (h : Symmetric pred φ T s)
    (hd : s.controlDesired = none) (ha : s.controlActual = none) (cs : List (S × K × List K)) :
    answers (explicitSimplex pred) s (cs.map fun c => (φ c.1, c.2.1, T c.2.2)) =
      (answers (explicitSimplex pred) s cs).map (Except.map T) := by
  have e : s.mirror T = s := by unfold CBObj.mirror; rw [hd, ha]; cases s; cases ‹Base K›; simp_all
  have := mirror_run (monFrame_explicit pred) (mirror_explicit pred φ T) cs h
  rw [e] at this
  exact this

end order

section implicit
variable [Field K] [LinearOrder K] [FloorRing K]

theorem mirror_loop {pred : S → K → List K → S} {φ : S → S} {T : List K → List K} (dt : K) (n : Nat) {s : SimplexObj K S P A}
    (h : Symmetric pred φ T s) (x : S) (acc : List S) :
    integrateLoop pred dt n (s.mirror T) (φ x) (acc.map φ) =
      ((integrateLoop pred dt n s x acc).1.map (List.map φ), (integrateLoop pred dt n s x acc).2.mirror T) := by
  induction n generalizing s x acc with
  | zero => rfl
  | succ n ih =>
    simp only [integrateLoop]
    rw [mirror_backup h x dt]
    have hfr := SimplexFrame.backup s x dt
    rcases hb : backupControl s x dt with ⟨_ | u, s1⟩
    · rfl
    · rw [hb] at hfr
      have := ih (h.frame hfr.constraints hfr.gen hfr.low hfr.high) (pred x dt u) (acc ++ [pred x dt u])
      rw [List.map_append] at this
      show integrateLoop pred dt n (s1.mirror T) (pred (φ x) dt (T u)) (acc.map φ ++ [pred (φ x) dt (T u)]) = _
      rw [h.pred]
      exact this

theorem mirror_implicit (pred : S → K → List K → S) (φ : S → S) (T : List K → List K) :
    MirrorMonitor (P := P) (A := A) pred φ T (implicitMonitor pred) := by
  intro s x dt u h
  unfold implicitMonitor implicitIntegrate backupControllerSave BackupController.save
  have hw : (s.mirror T).ext.backupWindow = s.ext.backupWindow := rfl
  rw [hw]
  rcases backupSteps s.ext.backupWindow dt with _ | n
  · rfl
  · have hz : (s.mirror T).ext.ctrl.state = s.ext.ctrl.state := rfl
    simp only [hz, h.pred]
    rcases s.ext.ctrl.state.copy with _ | z
    · rfl
    · have hs : Symmetric pred φ T (s.setCtrl { s.ext.ctrl with stateSaved := z }) := h.frame rfl rfl rfl rfl
      have hl := mirror_loop dt n.toNat hs (pred x dt u) [pred x dt u]
      have hm : SimplexObj.setCtrl (s.mirror T) (BackupController.mk (s.mirror T).ext.ctrl.gen (s.mirror T).ext.ctrl.stateInitial z
          s.ext.ctrl.state) = (s.setCtrl { s.ext.ctrl with stateSaved := z }).mirror T := rfl
      obtain ⟨st, hf⟩ := integrateLoop_frame pred dt n.toNat (s.setCtrl { s.ext.ctrl with stateSaved := z }) (pred x dt u) [pred x dt u]
      simp only [List.map_cons, List.map_nil] at hl
      simp only [hm, hl]
      rcases hr : integrateLoop pred dt n.toNat (s.setCtrl { s.ext.ctrl with stateSaved := z }) (pred x dt u) [pred x dt u] with ⟨_ | tr, s1⟩
      · rfl
      · rw [hr] at hf
        simp only at hf
        have hc : (backupControllerRestore s1).constraints = s.constraints := by rw [hf]; rfl
        have := mirror_violation (T := T) (s := backupControllerRestore s1) (φ := φ) (by rw [hc]; exact h.value) tr
        simp only [Except.map]
        rw [← this]
        rfl

/-- **C107, implicit simplex modules**, likewise, whatever the backup window. -/
theorem C107_implicit_simplex {pred : S → K → List K → S} {φ : S → S} {T : List K → List K} {s : SimplexObj K S P A}
    (h : Symmetric pred φ T s) (x : S) (dt : K) (u : List K) :
    implicitSimplex pred (s.mirror T) (.array (φ x)) dt (T u) =
      ((implicitSimplex pred s (.array x) dt u).1.map T, (implicitSimplex pred s (.array x) dt u).2.mirror T) :=
  (mirror_call (monFrame_implicit pred) (mirror_implicit pred φ T) h x dt u).1

/-- **C107, runs of implicit simplex modules.** -/
theorem C107_implicit_simplex_run {pred : S → K → List K → S} {φ : S → S} {T : List K → List K} {s : SimplexObj K S P A}
    (h : Symmetric pred φ T s) (hd : s.controlDesired = none) (ha : s.controlActual = none) (cs : List (S × K × List K)) :
    answers (implicitSimplex pred) s (cs.map fun c => (φ c.1, c.2.1, T c.2.2)) =
      (answers (implicitSimplex pred) s cs).map (Except.map T) := by
  have e : s.mirror T = s := by unfold CBObj.mirror; rw [hd, ha]; cases s; cases ‹Base K›; simp_all
  have := mirror_run (monFrame_implicit pred) (mirror_implicit pred φ T) cs h
  rw [e] at this
  exact this

end implicit
/-- A position within two units of the origin, and a backup controller that returns to it. -/
def swing : SimplexObj ℚ ℚ Unit Unit :=
  { toBase := Base.init none none, constraints := [("near", Constraint.mk' (fun x _ => 4 - x ^ 2) (fun x _ => [-(2 * x)]) none ())]
    params := [("near", ())], constraintEnabled := [("near", true)], constraintValues := [], isStaleConstraints := false
    ext := { latchTime := 0, latchedElapsed := 0, backupWindow := 1, ctrl := ⟨fun x _ _ => some ([-x], .none), .none, .none, .none⟩ } }

/-- One Euler step. -/
def swingPred (x dt : ℚ) (u : List ℚ) : ℚ := x + dt * u.headD 0

theorem swing_symmetric : Symmetric swingPred (fun x => -x) (List.map fun c => -c) swing := by
  refine ⟨fun x dt u => ?_, fun kc hkc x p => ?_, fun kc hkc x p => ?_, fun x dt z => rfl, fun u => rfl⟩
  · cases u <;> simp [swingPred]; ring
  · simp only [swing, List.mem_cons, List.not_mem_nil, or_false] at hkc
    subst hkc
    simp [Constraint.mk']
  · simp only [swing, List.mem_cons, List.not_mem_nil, or_false] at hkc
    subst hkc
    simp [Constraint.mk']

/-- Moving outwards from 1 to the limit is allowed, moving beyond it is not, on either side. -/
example : answers (explicitSimplex swingPred) swing [(1, 1, [1]), (2, 1, [1])] = [.ok [1], .ok [-2]] ∧
    answers (explicitSimplex swingPred) swing [(-1, 1, [-1]), (-2, 1, [-1])] = [.ok [-1], .ok [2]] ∧
    answers (implicitSimplex swingPred) swing [(-1, 1, [-1]), (-2, 1, [-1])] = [.ok [-1], .ok [2]] := by
  decide +kernel

end RTA
