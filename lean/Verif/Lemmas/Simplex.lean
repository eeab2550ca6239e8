import Verif.Lemmas.Modules
import Verif.Props.Base
import Verif.Spec.Simplex

set_option linter.unusedSectionVars false

namespace RTA
variable {K S P A : Type}

/-- The object handed to `_filter_control` in a call at state `x`. -/
def prep {E : Type} (s : CBObj K S P E) (x : S) (u : List K) : CBObj K S P E :=
  updateConstraintValuesAt (updateParams (withDesired s u)) x true

/-- Line 74-80 for an unlatched module. -/
def unlatch [Zero K] (s : SimplexObj K S P A) : SimplexObj K S P A :=
  if s.intervening then { s with ext := { s.ext with latchedElapsed := 0 } } else s

theorem constraintVals_eq [Add K] (c : Constraint K S P) (states : List S) (p : P) :
    constraintVals c states p = states.map fun x => c.compute x p := by
  unfold constraintVals
  suffices h : ∀ acc : List K, states.foldl (fun acc x => acc ++ [c.compute x p]) acc
      = acc ++ states.map fun x => c.compute x p by simpa using h []
  induction states with
  | nil => simp
  | cons x xs ih => intro acc; simp [ih]

section order
variable [AddCommMonoid K] [LinearOrder K]

theorem constraintViolated_iff (c : Constraint K S P) (p : P) (en : Bool) (states : List S) :
    constraintViolated c p en states = true ↔ en = true ∧ ∃ x ∈ states, c.computeFn x p + c.bias < 0 := by
  unfold constraintViolated
  rw [constraintVals_eq]
  cases en with
  | true => simp [Constraint.compute]
  | false => simp

theorem constraintViolationLoop_iff (params : Dict P) (en : Dict Bool) (states : List S)
    (cs : Dict (Constraint K S P))
    (hp : ∀ kc ∈ cs, dictGet params kc.1 = some kc.2.params)
    (he : ∀ kc ∈ cs, dictGet en kc.1 = some kc.2.enabled) :
    ∃ l, constraintViolationLoop params en states cs = .ok l ∧
      (l.any id = true ↔ ∃ x ∈ states, ¬ SafeAt cs x) := by
  induction cs with
  | nil => exact ⟨[], rfl, by simp [SafeAt]⟩
  | cons kc cs ih =>
    obtain ⟨k, c⟩ := kc
    obtain ⟨l, hl, hiff⟩ := ih (fun kc h => hp kc (List.mem_cons_of_mem _ h)) (fun kc h => he kc (List.mem_cons_of_mem _ h))
    have h1 := hp (k, c) (List.mem_cons_self ..)
    have h2 := he (k, c) (List.mem_cons_self ..)
    refine ⟨constraintViolated c c.params c.enabled states :: l, ?_, ?_⟩
    · simp only [constraintViolationLoop, h1, h2, hl]
    · rw [List.any_cons, Bool.or_eq_true, hiff, id_eq, constraintViolated_iff]
      constructor
      · rintro (⟨hen, x, hx, hlt⟩ | ⟨x, hx, hns⟩)
        · refine ⟨x, hx, fun hs => ?_⟩
          exact absurd (hs (k, c) (List.mem_cons_self ..) hen) (not_le.2 hlt)
        · exact ⟨x, hx, fun hs => hns fun kc hkc => hs kc (List.mem_cons_of_mem _ hkc)⟩
      · rintro ⟨x, hx, hns⟩
        by_cases hc : c.enabled = true ∧ c.computeFn x c.params + c.bias < 0
        · exact Or.inl ⟨hc.1, x, hx, hc.2⟩
        · refine Or.inr ⟨x, hx, fun hs => hns fun kc hkc hen => ?_⟩
          rcases List.mem_cons.1 hkc with rfl | hkc
          · exact not_lt.1 fun hlt => hc ⟨hen, hlt⟩
          · exact hs kc hkc hen

/-- The caches hold what the constraint objects hold. -/
structure CachesFresh {E : Type} (s : CBObj K S P E) : Prop where
  params : ∀ kc ∈ s.constraints, dictGet s.params kc.1 = some kc.2.params
  enabled : ∀ kc ∈ s.constraints, dictGet s.constraintEnabled kc.1 = some kc.2.enabled

omit [AddCommMonoid K] [LinearOrder K] in
theorem cachesFresh_prep {E : Type} {s : CBObj K S P E} (h : WF s) (x : S) (u : List K) : CachesFresh (prep s x u) := by
  have hw := wf_withDesired h u
  unfold prep
  rw [updateParams_eq hw]
  constructor
  · intro kc hkc
    have hkc : kc ∈ s.constraints := hkc
    simp only [updateConstraintValuesAt, cacheParams]
    rw [dictGet_map (fun c : Constraint K S P => c.params)]
    have := dictGet_of_mem_nodup _ h.nodup (k := kc.1) (v := kc.2) hkc
    simp only [withDesired]
    rw [this]; rfl
  · intro kc hkc
    have hkc : kc ∈ s.constraints := hkc
    simp only [updateConstraintValuesAt, cacheEnabled]
    rw [dictGet_map (fun c : Constraint K S P => c.enabled)]
    have := dictGet_of_mem_nodup _ h.nodup (k := kc.1) (v := kc.2) hkc
    simp only [withDesired]
    rw [this]; rfl

/-- With fresh caches the violation check does not raise and answers the question of the specification. -/
theorem constraintViolation_fresh {s : SimplexObj K S P A} (h : CachesFresh s) (states : List S) :
    ∃ b, constraintViolation s states = .ok b ∧ (b = true ↔ ∃ x ∈ states, ¬ SafeAt s.constraints x) := by
  obtain ⟨l, hl, hiff⟩ := constraintViolationLoop_iff s.params s.constraintEnabled states s.constraints h.params h.enabled
  refine ⟨l.any id, ?_, hiff⟩
  simp only [constraintViolation, hl]

end order

/-- What the simplex logic relies on in a monitor: it only touches the mutable state of the backup controller, and when
it answers it has put the controller state back. -/
structure MonFrame (mon : SimplexObj K S P A → S → K → List K → Except PyErr Bool × SimplexObj K S P A) : Prop where
  frame : ∀ s x dt u, ∃ st sv, (mon s x dt u).2 = s.setCtrl { s.ext.ctrl with state := st, stateSaved := sv }
  ok : ∀ s x dt u b s', mon s x dt u = (.ok b, s') → ∃ sv, s' = s.setCtrl { s.ext.ctrl with stateSaved := sv }

theorem monFrame_explicit [Add K] [Zero K] [LT K] [DecidableLT K] (pred : S → K → List K → S) :
    MonFrame (explicitMonitor (K := K) (S := S) (P := P) (A := A) pred) := by
  constructor
  · intro s x dt u; exact ⟨s.ext.ctrl.state, s.ext.ctrl.stateSaved, rfl⟩
  · intro s x dt u b s' h
    simp only [explicitMonitor, Prod.mk.injEq] at h
    exact ⟨s.ext.ctrl.stateSaved, by rw [← h.2]; rfl⟩

/-- Shape of a backup control call. -/
theorem backupControl_frame [Max K] [Min K] (s : SimplexObj K S P A) (x : S) (dt : K) :
    ∃ st, (backupControl s x dt).2 = s.setCtrl { s.ext.ctrl with state := st } := by
  unfold backupControl BackupController.generateControl
  cases h : s.ext.ctrl.gen x dt s.ext.ctrl.state with
  | none => exact ⟨s.ext.ctrl.state, rfl⟩
  | some uz => exact ⟨uz.2, rfl⟩

theorem backupControl_ok [Max K] [Min K] {s s' : SimplexObj K S P A} {x : S} {dt : K} {c : List K}
    (h : backupControl s x dt = (.ok c, s')) :
    ∃ ub z, s.ext.ctrl.gen x dt s.ext.ctrl.state = some (ub, z) ∧ s.toBase.clipControl ub = .ok c ∧
      s' = s.setCtrl { s.ext.ctrl with state := z } := by
  unfold backupControl BackupController.generateControl at h
  cases hg : s.ext.ctrl.gen x dt s.ext.ctrl.state with
  | none => rw [hg] at h; simp at h
  | some uz =>
    rw [hg] at h
    simp only [Prod.mk.injEq] at h
    exact ⟨uz.1, uz.2, rfl, h.1, h.2.symm⟩

theorem backupControl_of [Max K] [Min K] {s : SimplexObj K S P A} {x : S} {dt : K} {ub c : List K} {z : CState A}
    (hg : s.ext.ctrl.gen x dt s.ext.ctrl.state = some (ub, z)) (hc : s.toBase.clipControl ub = .ok c) :
    backupControl s x dt = (.ok c, s.setCtrl { s.ext.ctrl with state := z }) := by
  unfold backupControl BackupController.generateControl
  simp only [hg, hc]

theorem integrateLoop_frame [Max K] [Min K] (pred : S → K → List K → S) (dt : K) (n : Nat)
    (s : SimplexObj K S P A) (x : S) (acc : List S) :
    ∃ st, (integrateLoop pred dt n s x acc).2 = s.setCtrl { s.ext.ctrl with state := st } := by
  induction n generalizing s x acc with
  | zero => exact ⟨s.ext.ctrl.state, rfl⟩
  | succ n ih =>
    obtain ⟨st, hst⟩ := backupControl_frame s x dt
    unfold integrateLoop
    rcases h : backupControl s x dt with ⟨_ | u, s1⟩
    · rw [h] at hst; exact ⟨st, hst⟩
    · rw [h] at hst
      simp only at hst
      obtain ⟨st', h'⟩ := ih s1 (pred x dt u) (acc ++ [pred x dt u])
      refine ⟨st', ?_⟩
      refine h'.trans ?_
      rw [hst]; rfl

theorem copy_ok {z z' : CState A} (h : z.copy = .ok z') : z' = z := by
  cases z <;> simp [CState.copy] at h <;> exact h.symm

theorem monFrame_implicit [Field K] [LinearOrder K] [FloorRing K] (pred : S → K → List K → S) :
    MonFrame (implicitMonitor (K := K) (S := S) (P := P) (A := A) pred) := by
  have key : ∀ (s : SimplexObj K S P A) x dt u,
      (∃ st sv, (implicitIntegrate pred s x dt u).2 = s.setCtrl { s.ext.ctrl with state := st, stateSaved := sv }) ∧
      (∀ b s', implicitIntegrate pred s x dt u = (.ok b, s') →
        ∃ sv, s' = s.setCtrl { s.ext.ctrl with stateSaved := sv }) := by
    intro s x dt u
    unfold implicitIntegrate
    cases backupSteps s.ext.backupWindow dt with
    | error e => exact ⟨⟨s.ext.ctrl.state, s.ext.ctrl.stateSaved, rfl⟩, fun b s' h => by simp at h⟩
    | ok n =>
      simp only [backupControllerSave, BackupController.save]
      cases hc : s.ext.ctrl.state.copy with
      | error e => exact ⟨⟨s.ext.ctrl.state, s.ext.ctrl.stateSaved, rfl⟩, fun b s' h => by simp at h⟩
      | ok z =>
        obtain rfl := copy_ok hc
        simp only
        obtain ⟨st, hst⟩ := integrateLoop_frame pred dt n.toNat
          (s.setCtrl { s.ext.ctrl with stateSaved := s.ext.ctrl.state }) (pred x dt u) [pred x dt u]
        rcases h : integrateLoop pred dt n.toNat
          (s.setCtrl { s.ext.ctrl with stateSaved := s.ext.ctrl.state }) (pred x dt u) [pred x dt u] with ⟨_ | tr, s1⟩
        · rw [h] at hst
          exact ⟨⟨st, s.ext.ctrl.state, hst⟩, fun b s' h => by simp at h⟩
        · rw [h] at hst
          simp only at hst
          have e : backupControllerRestore s1 = s.setCtrl { s.ext.ctrl with stateSaved := s.ext.ctrl.state } := by
            rw [hst]; rfl
          refine ⟨⟨s.ext.ctrl.state, s.ext.ctrl.state, ?_⟩, fun b s' h => ⟨s.ext.ctrl.state, ?_⟩⟩
          · simp only [e]
          · simp only [Prod.mk.injEq] at h
            rw [← h.2, e]
  constructor
  · intro s x dt u
    obtain ⟨⟨st, sv, h1⟩, _⟩ := key s x dt u
    unfold implicitMonitor
    rcases h : implicitIntegrate pred s x dt u with ⟨_ | tr, s1⟩ <;> rw [h] at h1 <;> exact ⟨st, sv, h1⟩
  · intro s x dt u b s' hm
    obtain ⟨_, h2⟩ := key s x dt u
    unfold implicitMonitor at hm
    rcases h : implicitIntegrate pred s x dt u with ⟨_ | tr, s1⟩
    · rw [h] at hm; simp at hm
    · rw [h] at hm
      simp only [Prod.mk.injEq] at hm
      rw [← hm.2]
      exact h2 tr s1 h

section filter
variable [AddCommMonoid K] [LinearOrder K]

theorem simplexFilter_latched (mon : SimplexObj K S P A → S → K → List K → Except PyErr Bool × SimplexObj K S P A)
    (s : SimplexObj K S P A) (x : S) (dt : K) (u : List K) (h : Latched s) :
    simplexFilter mon s x dt u =
      backupControl { s with ext := { s.ext with latchedElapsed := s.ext.latchedElapsed + dt } } x dt := by
  unfold simplexFilter
  simp only [h.1, if_true, ge_iff_le, not_le.2 h.2, if_false]

theorem simplexFilter_unlatched (mon : SimplexObj K S P A → S → K → List K → Except PyErr Bool × SimplexObj K S P A)
    (s : SimplexObj K S P A) (x : S) (dt : K) (u : List K) (h : ¬ Latched s) :
    simplexFilter mon s x dt u =
      match mon (unlatch s) x dt u with
      | (.error e, s1) => (.error e, s1)
      | (.ok b, s1) =>
        if b then backupControl { s1 with intervening := b } x dt else (.ok u, { s1 with intervening := b }) := by
  unfold simplexFilter unlatch
  by_cases hi : s.intervening = true
  · have : s.ext.latchTime ≤ s.ext.latchedElapsed := not_lt.1 fun hlt => h ⟨hi, hlt⟩
    simp only [hi, if_true, ge_iff_le, this]
    rfl
  · simp only [hi]
    rfl

/-- Relation between the object before `_filter_control` and after it: only the intervening flag, the latch and the
mutable controller state may have changed. -/
structure SimplexFrame (s s' : SimplexObj K S P A) : Prop where
  constraints : s'.constraints = s.constraints
  params : s'.params = s.params
  enabled : s'.constraintEnabled = s.constraintEnabled
  values : s'.constraintValues = s.constraintValues
  stale : s'.isStaleConstraints = s.isStaleConstraints
  desired : s'.controlDesired = s.controlDesired
  actual : s'.controlActual = s.controlActual
  enable : s'.enable = s.enable
  high : s'.controlBoundsHigh = s.controlBoundsHigh
  low : s'.controlBoundsLow = s.controlBoundsLow
  latchTime : s'.ext.latchTime = s.ext.latchTime
  window : s'.ext.backupWindow = s.ext.backupWindow
  gen : s'.ext.ctrl.gen = s.ext.ctrl.gen
  initial : s'.ext.ctrl.stateInitial = s.ext.ctrl.stateInitial

omit [AddCommMonoid K] [LinearOrder K] in
theorem SimplexFrame.trans {a b c : SimplexObj K S P A} (h : SimplexFrame a b) (h' : SimplexFrame b c) : SimplexFrame a c :=
  ⟨h'.1.trans h.1, h'.2.trans h.2, h'.3.trans h.3, h'.4.trans h.4, h'.5.trans h.5, h'.6.trans h.6, h'.7.trans h.7,
   h'.8.trans h.8, h'.9.trans h.9, h'.10.trans h.10, h'.11.trans h.11, h'.12.trans h.12, h'.13.trans h.13, h'.14.trans h.14⟩

omit [AddCommMonoid K] [LinearOrder K] in
theorem SimplexFrame.backup [Max K] [Min K] (s : SimplexObj K S P A) (x : S) (dt : K) : SimplexFrame s (backupControl s x dt).2 := by
  obtain ⟨st, h⟩ := backupControl_frame s x dt
  rw [h]
  constructor <;> rfl

theorem simplexFilter_frame {mon : SimplexObj K S P A → S → K → List K → Except PyErr Bool × SimplexObj K S P A}
    (hm : MonFrame mon) (s : SimplexObj K S P A) (x : S) (dt : K) (u : List K) :
    SimplexFrame s (simplexFilter mon s x dt u).2 := by
  by_cases h : Latched s
  · rw [simplexFilter_latched mon s x dt u h]
    refine SimplexFrame.trans ?_ (SimplexFrame.backup _ x dt)
    constructor <;> rfl
  · rw [simplexFilter_unlatched mon s x dt u h]
    have h0 : SimplexFrame s (unlatch s) := by
      unfold unlatch
      split <;> constructor <;> rfl
    obtain ⟨st, sv, hfr⟩ := hm.frame (unlatch s) x dt u
    have h1 : SimplexFrame (unlatch s) (mon (unlatch s) x dt u).2 := by
      rw [hfr]; constructor <;> rfl
    rcases hr : mon (unlatch s) x dt u with ⟨_ | b, s1⟩
    · rw [hr] at h1; exact h0.trans h1
    · rw [hr] at h1
      have h2 := h0.trans h1
      have h3 : SimplexFrame s1 { s1 with intervening := b } := by constructor <;> rfl
      simp only
      split
      · exact (h2.trans h3).trans (SimplexFrame.backup _ x dt)
      · exact h2.trans h3

theorem frameFilter_simplex {mon : SimplexObj K S P A → S → K → List K → Except PyErr Bool × SimplexObj K S P A}
    (hm : MonFrame mon) : FrameFilter (simplexFilter mon) :=
  ⟨fun s x dt u => (simplexFilter_frame hm s x dt u).constraints, fun s x dt u => (simplexFilter_frame hm s x dt u).params,
   fun s x dt u => (simplexFilter_frame hm s x dt u).enabled, fun s x dt u => (simplexFilter_frame hm s x dt u).values,
   fun s x dt u => (simplexFilter_frame hm s x dt u).stale⟩

theorem frameFilterBase_simplex {mon : SimplexObj K S P A → S → K → List K → Except PyErr Bool × SimplexObj K S P A}
    (hm : MonFrame mon) : FrameFilterBase (simplexFilter mon) :=
  ⟨fun s x dt u => (simplexFilter_frame hm s x dt u).desired, fun s x dt u => (simplexFilter_frame hm s x dt u).actual,
   fun s x dt u => (simplexFilter_frame hm s x dt u).enable, fun s x dt u => (simplexFilter_frame hm s x dt u).high,
   fun s x dt u => (simplexFilter_frame hm s x dt u).low⟩

/-- The latch counter left by an unlatched call. -/
def elapsedAfter (s : SimplexObj K S P A) : K := if s.intervening then 0 else s.ext.latchedElapsed

theorem unlatch_ext (s : SimplexObj K S P A) : (unlatch s).ext = { s.ext with latchedElapsed := elapsedAfter s } := by
  unfold unlatch elapsedAfter
  split <;> rfl

theorem unlatch_constraints (s : SimplexObj K S P A) : (unlatch s).constraints = s.constraints := by
  unfold unlatch; split <;> rfl

theorem unlatch_toBase (s : SimplexObj K S P A) : (unlatch s).toBase = s.toBase := by
  unfold unlatch; split <;> rfl

theorem cachesFresh_unlatch {s : SimplexObj K S P A} (h : CachesFresh s) : CachesFresh (unlatch s) := by
  unfold unlatch
  split
  · exact ⟨h.params, h.enabled⟩
  · exact h

omit [AddCommMonoid K] in
theorem computeFiltered_array {E : Type} (filter : CBObj K S P E → S → K → List K → Except PyErr (List K) × CBObj K S P E)
    (s : CBObj K S P E) (x : S) (dt : K) (u : List K) :
    computeFilteredControl getStateDefault filter (withDesired s u) (.array x) dt u =
      match filter (prep s x u) x dt u with
      | (.error e, s1) => (.error e, s1)
      | (.ok c, s1) => (.ok c, withActual s1 c) := by
  unfold computeFilteredControl getStateDefault prep
  simp only
  rcases filter (updateConstraintValuesAt (updateParams (withDesired s u)) x true) x dt u with ⟨_ | c, s1⟩ <;> rfl

/-- A successful simplex call, completely described. -/
theorem simplex_ok {mon : SimplexObj K S P A → S → K → List K → Except PyErr Bool × SimplexObj K S P A}
    (hm : MonFrame mon) {s s' : SimplexObj K S P A} {x : S} {dt : K} {u c : List K} (hen : s.enable = true)
    (h : filterControlCB getStateDefault (simplexFilter mon) s (.array x) dt u = (.ok c, s')) :
    (s'.enable = true ∧ s'.constraints = s.constraints ∧ s'.controlBoundsHigh = s.controlBoundsHigh ∧
      s'.controlBoundsLow = s.controlBoundsLow) ∧
    ((Latched s ∧ s'.intervening = true ∧ ∃ z, IsBackup s x dt c z ∧
        s'.ext = { s.ext with latchedElapsed := s.ext.latchedElapsed + dt, ctrl := { s.ext.ctrl with state := z } }) ∨
     (¬ Latched s ∧ ∃ b sm sv, mon (unlatch (prep s x u)) x dt u = (.ok b, sm) ∧ s'.intervening = b ∧
        ((b = true ∧ ∃ z, IsBackup s x dt c z ∧
            s'.ext = { s.ext with latchedElapsed := elapsedAfter s
                                  ctrl := { s.ext.ctrl with state := z, stateSaved := sv } }) ∨
         (b = false ∧ s.toBase.clipControl u = .ok c ∧
            s'.ext = { s.ext with latchedElapsed := elapsedAfter s
                                  ctrl := { s.ext.ctrl with stateSaved := sv } })))) := by
  rw [filterControlCB_enabled hen, computeFiltered_array] at h
  have hfr := simplexFilter_frame hm (prep s x u) x dt u
  have hL : Latched (prep s x u) ↔ Latched s := Iff.rfl
  have hE : elapsedAfter (prep s x u) = elapsedAfter s := rfl
  have hfr2 := @simplexFilter_frame K S P A
  rcases hf : simplexFilter mon (prep s x u) x dt u with ⟨_ | c0, s1⟩
  · rw [hf] at h; simp at h
  rw [hf] at h hfr
  simp only at h hfr
  rcases hcl : (withActual s1 c0).toBase.clipControl c0 with _ | c1
  · rw [hcl] at h; simp at h
  rw [hcl] at h
  simp only [Prod.mk.injEq, Except.ok.injEq] at h
  obtain ⟨rfl, rfl⟩ := h
  have hclip : ∀ w, (withActual s1 c0).toBase.clipControl w = s.toBase.clipControl w := by
    intro w
    unfold Base.clipControl
    have e1 : (withActual s1 c0).controlBoundsHigh = s.controlBoundsHigh := hfr.high
    have e2 : (withActual s1 c0).controlBoundsLow = s.controlBoundsLow := hfr.low
    rw [e1, e2]
  rw [hclip] at hcl
  refine ⟨⟨hfr.enable.trans hen, hfr.constraints, hfr.high, hfr.low⟩, ?_⟩
  by_cases hlat : Latched s
  · left
    rw [simplexFilter_latched mon _ x dt u (hL.2 hlat)] at hf
    obtain ⟨ub, z, h1, h2, h3⟩ := backupControl_ok hf
    have h2' : s.toBase.clipControl ub = .ok c0 := h2
    have : c0 = c1 := by
      have := C05_clip_idempotent s.toBase ub c0 h2'
      rw [this] at hcl
      simpa using hcl
    subst this
    refine ⟨hlat, ?_, z, ⟨ub, h1, h2'⟩, ?_⟩
    · rw [h3]; exact hlat.1
    · rw [h3]; rfl
  · right
    rw [simplexFilter_unlatched mon _ x dt u (fun h => hlat (hL.1 h))] at hf
    refine ⟨hlat, ?_⟩
    rcases hr : mon (unlatch (prep s x u)) x dt u with ⟨_ | b, sm⟩
    · rw [hr] at hf; simp at hf
    obtain ⟨sv, hsv⟩ := hm.ok _ _ _ _ _ _ hr
    rw [hr] at hf
    refine ⟨b, sm, sv, rfl, ?_⟩
    have hext : sm.ext = { s.ext with latchedElapsed := elapsedAfter s, ctrl := { s.ext.ctrl with stateSaved := sv } } := by
      rw [hsv]
      simp only [SimplexObj.setCtrl, unlatch_ext, hE]
      rfl
    have hbase : sm.toBase = { s.toBase with controlDesired := some u } := by
      rw [hsv]
      simp only [SimplexObj.setCtrl]
      rw [unlatch_toBase]; rfl
    cases b with
    | true =>
      simp only [if_true] at hf
      obtain ⟨ub, z, h1, h2, h3⟩ := backupControl_ok hf
      simp only [hext] at h1
      have h2' : s.toBase.clipControl ub = .ok c0 := by
        rw [← h2]
        unfold Base.clipControl
        have e1 : sm.controlBoundsHigh = s.controlBoundsHigh := by rw [hbase]
        have e2 : sm.controlBoundsLow = s.controlBoundsLow := by rw [hbase]
        simp only [e1, e2]
      have : c0 = c1 := by
        have := C05_clip_idempotent s.toBase ub c0 h2'
        rw [this] at hcl
        simpa using hcl
      subst this
      refine ⟨by rw [h3]; rfl, Or.inl ⟨rfl, z, ⟨ub, h1, h2'⟩, ?_⟩⟩
      rw [h3]
      simp only [SimplexObj.setCtrl, withActual, hext]
    | false =>
      simp only [Bool.false_eq_true, if_false, Prod.mk.injEq, Except.ok.injEq] at hf
      obtain ⟨rfl, rfl⟩ := hf
      refine ⟨rfl, Or.inr ⟨rfl, hcl, ?_⟩⟩
      simp only [withActual, hext]

/-- A simplex call returns when the monitor answers, the control law returns a pair and the bounds fit. -/
theorem simplex_total {mon : SimplexObj K S P A → S → K → List K → Except PyErr Bool × SimplexObj K S P A}
    (hm : MonFrame mon) {s : SimplexObj K S P A} {x : S} {dt : K} {u : List K} (hen : s.enable = true)
    (hmon : ¬ Latched s → ∃ b sm, mon (unlatch (prep s x u)) x dt u = (.ok b, sm))
    {ub : List K} {z : CState A} (hgen : s.ext.ctrl.gen x dt s.ext.ctrl.state = some (ub, z))
    {cb cu : List K} (hcb : s.toBase.clipControl ub = .ok cb) (hcu : s.toBase.clipControl u = .ok cu) :
    ∃ c s', filterControlCB getStateDefault (simplexFilter mon) s (.array x) dt u = (.ok c, s') := by
  rw [filterControlCB_enabled hen, computeFiltered_array]
  have hfr := simplexFilter_frame hm (prep s x u) x dt u
  have hL : Latched (prep s x u) ↔ Latched s := Iff.rfl
  have hcl : ∀ (t : SimplexObj K S P A) w, t.controlBoundsHigh = s.controlBoundsHigh →
      t.controlBoundsLow = s.controlBoundsLow → t.toBase.clipControl w = s.toBase.clipControl w := by
    intro t w h1 h2
    unfold Base.clipControl
    rw [h1, h2]
  have key : ∃ c0 s1 c1, simplexFilter mon (prep s x u) x dt u = (.ok c0, s1) ∧ s.toBase.clipControl c0 = .ok c1 := by
    by_cases hlat : Latched s
    · rw [simplexFilter_latched mon _ x dt u (hL.2 hlat)]
      have hb := backupControl_of (s := { (prep s x u) with ext := { (prep s x u).ext with
        latchedElapsed := (prep s x u).ext.latchedElapsed + dt } }) (x := x) (dt := dt) hgen
        ((hcl _ ub rfl rfl).trans hcb)
      exact ⟨cb, _, cb, hb, C05_clip_idempotent _ _ _ hcb⟩
    · rw [simplexFilter_unlatched mon _ x dt u (fun h => hlat (hL.1 h))]
      obtain ⟨b, sm, hb⟩ := hmon hlat
      obtain ⟨sv, hsv⟩ := hm.ok _ _ _ _ _ _ hb
      rw [hb]
      cases b with
      | false => exact ⟨u, _, cu, rfl, hcu⟩
      | true =>
        simp only [if_true]
        have hb := backupControl_of (s := { sm with intervening := true }) (x := x) (dt := dt) (ub := ub) (z := z)
          (c := cb) (by
            rw [hsv]
            simp only [SimplexObj.setCtrl, unlatch_ext]
            exact hgen)
          (by
            rw [← hcb]
            apply hcl
            · rw [hsv]
              show (unlatch (prep s x u)).controlBoundsHigh = _
              rw [unlatch_toBase]; rfl
            · rw [hsv]
              show (unlatch (prep s x u)).controlBoundsLow = _
              rw [unlatch_toBase]; rfl)
        exact ⟨cb, _, cb, hb, C05_clip_idempotent _ _ _ hcb⟩
  obtain ⟨c0, s1, c1, h1, h2⟩ := key
  rw [h1] at hfr ⊢
  simp only
  rw [hcl (withActual s1 c0) c0 hfr.high hfr.low, h2]
  exact ⟨c1, _, rfl⟩

end filter

/-! The implicit monitor. -/
section implicit
variable [Field K] [LinearOrder K] [FloorRing K]

/-- One step of the closed loop under the (clipped) backup law. -/
def backupIter (pred : S → K → List K → S) (dt : K) (claw : S → CState A → List K) (next : S → CState A → CState A) :
    S × CState A → S × CState A :=
  fun xz => (pred xz.1 dt (claw xz.1 xz.2), next xz.1 xz.2)

theorem integrateLoop_eq (pred : S → K → List K → S) (dt : K) {claw : S → CState A → List K}
    {next : S → CState A → CState A} (n : Nat) (s : SimplexObj K S P A)
    (hlaw : ∀ x z, ∃ ub, s.ext.ctrl.gen x dt z = some (ub, next x z) ∧ s.toBase.clipControl ub = .ok (claw x z))
    (x : S) (acc : List S) :
    ∃ s', integrateLoop pred dt n s x acc = (.ok (acc ++ (List.range n).map
      (fun k => ((backupIter pred dt claw next)^[k + 1] (x, s.ext.ctrl.state)).1)), s') := by
  induction n generalizing s x acc with
  | zero => exact ⟨s, by simp [integrateLoop]⟩
  | succ n ih =>
    obtain ⟨ub, h1, h2⟩ := hlaw x s.ext.ctrl.state
    have hb : backupControl s x dt = (.ok (claw x s.ext.ctrl.state),
        s.setCtrl { s.ext.ctrl with state := next x s.ext.ctrl.state }) := by
      unfold backupControl BackupController.generateControl
      simp only [h1, h2]
    unfold integrateLoop
    rw [hb]
    simp only
    obtain ⟨s', hs'⟩ := ih (s.setCtrl { s.ext.ctrl with state := next x s.ext.ctrl.state })
      (fun x z => hlaw x z) (pred x dt (claw x s.ext.ctrl.state)) (acc ++ [pred x dt (claw x s.ext.ctrl.state)])
    refine ⟨s', ?_⟩
    rw [hs']
    congr 2
    rw [List.append_assoc]
    congr 1
    rw [List.range_succ_eq_map]
    simp only [List.singleton_append, List.map_cons, List.map_map]
    congr 1

/-- The implicit monitor answers whether the trajectory leaves the constraint set. -/
theorem implicitMonitor_eq (pred : S → K → List K → S) {dt : K} {claw : S → CState A → List K}
    {next : S → CState A → CState A} {s : SimplexObj K S P A} (hc : CachesFresh s) (hdt : dt ≠ 0)
    (hlaw : ∀ x z, ∃ ub, s.ext.ctrl.gen x dt z = some (ub, next x z) ∧ s.toBase.clipControl ub = .ok (claw x z))
    (hcopy : s.ext.ctrl.state.copy = .ok s.ext.ctrl.state) (x : S) (u : List K) :
    ∃ b s', implicitMonitor pred s x dt u = (.ok b, s') ∧
      (b = true ↔ ∃ k ≤ (pyInt (s.ext.backupWindow / dt)).toNat,
        ¬ SafeAt s.constraints ((backupIter pred dt claw next)^[k] (pred x dt u, s.ext.ctrl.state)).1) := by
  have hint : ∃ s', CachesFresh s' ∧ s'.constraints = s.constraints ∧ implicitIntegrate pred s x dt u = (.ok (pred x dt u ::
      (List.range (pyInt (s.ext.backupWindow / dt)).toNat).map
      (fun k => ((backupIter pred dt claw next)^[k + 1] (pred x dt u, s.ext.ctrl.state)).1)), s') := by
    unfold implicitIntegrate backupSteps
    simp only [hdt, if_false, backupControllerSave, BackupController.save, hcopy]
    obtain ⟨s', hs'⟩ := integrateLoop_eq pred dt (pyInt (s.ext.backupWindow / dt)).toNat
      (s.setCtrl { s.ext.ctrl with stateSaved := s.ext.ctrl.state }) hlaw (pred x dt u) [pred x dt u]
    obtain ⟨st, hfr⟩ := integrateLoop_frame pred dt (pyInt (s.ext.backupWindow / dt)).toNat
      (s.setCtrl { s.ext.ctrl with stateSaved := s.ext.ctrl.state }) (pred x dt u) [pred x dt u]
    rw [hs'] at hfr
    simp only at hfr
    rw [hs']
    refine ⟨backupControllerRestore s', ?_, ?_, rfl⟩
    · rw [hfr]; exact ⟨hc.params, hc.enabled⟩
    · rw [hfr]; rfl
  obtain ⟨s', hc', hcs, hint⟩ := hint
  unfold implicitMonitor
  rw [hint]
  simp only
  obtain ⟨b, hb, hiff⟩ := constraintViolation_fresh hc' (pred x dt u ::
      (List.range (pyInt (s.ext.backupWindow / dt)).toNat).map
      (fun k => ((backupIter pred dt claw next)^[k + 1] (pred x dt u, s.ext.ctrl.state)).1))
  refine ⟨b, s', by rw [hb], ?_⟩
  rw [hiff, hcs]
  constructor
  · rintro ⟨y, hy, hns⟩
    rcases List.mem_cons.1 hy with rfl | hy
    · exact ⟨0, Nat.zero_le _, hns⟩
    · obtain ⟨k, hk, rfl⟩ := List.mem_map.1 hy
      exact ⟨k + 1, List.mem_range.1 hk, hns⟩
  · rintro ⟨k, hk, hns⟩
    cases k with
    | zero => exact ⟨_, List.mem_cons_self .., hns⟩
    | succ k => exact ⟨_, List.mem_cons_of_mem _ (List.mem_map.2 ⟨k, List.mem_range.2 hk, rfl⟩), hns⟩

end implicit

end RTA
