import Verif.Lemmas.Simplex
import Mathlib.Algebra.Order.Ring.Rat
import Mathlib.Algebra.Field.Rat
import Mathlib.Data.Rat.Floor

/-!
Decision rules of the simplex modules: C13, C14, C15, the simplex parts of C09 and C28.
-/
namespace RTA
variable {K S P A : Type}

section explicit
variable [AddCommMonoid K] [LinearOrder K]

/-! ### C13 -/

/-- **C13**. A successful unlatched call of an enabled explicit simplex module: it does not intervene exactly when every
enabled constraint, including its bias, is non-negative at the state predicted for the desired control; then it returns
the clipped desired control, otherwise the clipped backup control. -/
theorem C13_explicit_decision (pred : S → K → List K → S) (s s' : SimplexObj K S P A) (hwf : WF s)
    (hen : s.enable = true) (x : S) (dt : K) (u c : List K) (hlat : ¬ Latched s)
    (h : explicitSimplex pred s (.array x) dt u = (.ok c, s')) :
    (s'.intervening = false ↔ SafeAt s.constraints (pred x dt u)) ∧
    (SafeAt s.constraints (pred x dt u) → s.toBase.clipControl u = .ok c) ∧
    (¬ SafeAt s.constraints (pred x dt u) → ∃ z, IsBackup s x dt c z) := by
  obtain ⟨_, h⟩ := simplex_ok (monFrame_explicit pred) hen h
  rcases h with ⟨h, _⟩ | ⟨_, b, sm, sv, hm, hi, h⟩
  · exact absurd h hlat
  obtain ⟨b', hb', hiff⟩ := constraintViolation_fresh (cachesFresh_unlatch (cachesFresh_prep hwf x u)) [pred x dt u]
  simp only [explicitMonitor, Prod.mk.injEq] at hm
  rw [hb'] at hm
  obtain rfl : b' = b := by simpa using hm.1
  rw [unlatch_constraints, show (prep s x u).constraints = s.constraints from rfl] at hiff
  have hiff : b' = true ↔ ¬ SafeAt s.constraints (pred x dt u) := by
    simpa using hiff
  rw [hi]
  rcases h with ⟨rfl, z, hz, _⟩ | ⟨rfl, hc, _⟩
  · have hns := hiff.1 rfl
    exact ⟨⟨fun h => (by cases h), fun h => absurd h hns⟩, fun h => absurd h hns, fun _ => ⟨z, hz⟩⟩
  · have hs : SafeAt s.constraints (pred x dt u) := by
      by_contra hns
      exact absurd (hiff.2 hns) (by simp)
    exact ⟨⟨fun _ => hs, fun _ => rfl⟩, fun _ => hc, fun h => absurd hs h⟩

/-- **C13**, totality: the call does return when the control law returns a pair and the bounds fit. -/
theorem C13_explicit_returns (pred : S → K → List K → S) (s : SimplexObj K S P A) (hwf : WF s) (hen : s.enable = true)
    (x : S) (dt : K) (u ub cb cu : List K) (z : CState A)
    (hgen : s.ext.ctrl.gen x dt s.ext.ctrl.state = some (ub, z))
    (hcb : s.toBase.clipControl ub = .ok cb) (hcu : s.toBase.clipControl u = .ok cu) :
    ∃ c s', explicitSimplex pred s (.array x) dt u = (.ok c, s') := by
  refine simplex_total (monFrame_explicit pred) hen (fun _ => ?_) hgen hcb hcu
  obtain ⟨b', hb', _⟩ := constraintViolation_fresh (cachesFresh_unlatch (cachesFresh_prep hwf x u)) [pred x dt u]
  exact ⟨b', unlatch (prep s x u), by simp only [explicitMonitor, hb']⟩

/-! ### C28, simplex part -/

/-- **C28**, simplex: after a successful call of an enabled simplex module (any monitor that respects the object)
intervening is true exactly when the call was answered by the backup controller, and the returned control is then the
clipped backup control; otherwise it is the clipped desired control. -/
theorem C28_simplex_intervening_truthful
    {mon : SimplexObj K S P A → S → K → List K → Except PyErr Bool × SimplexObj K S P A}
    (hm : MonFrame mon) (s s' : SimplexObj K S P A) (hen : s.enable = true) (x : S) (dt : K) (u c : List K)
    (h : filterControlCB getStateDefault (simplexFilter mon) s (.array x) dt u = (.ok c, s')) :
    (s'.intervening = true ∧ ∃ z, IsBackup s x dt c z ∧ s'.ext.ctrl.state = z) ∨
    (s'.intervening = false ∧ s.toBase.clipControl u = .ok c ∧ s'.ext.ctrl.state = s.ext.ctrl.state) := by
  obtain ⟨_, h⟩ := simplex_ok hm hen h
  rcases h with ⟨_, hi, z, hz, he⟩ | ⟨_, b, sm, sv, _, hi, ⟨hb, z, hz, he⟩ | ⟨hb, hc, he⟩⟩
  · exact Or.inl ⟨hi, z, hz, by rw [he]⟩
  · exact Or.inl ⟨by rw [hi, hb], z, hz, by rw [he]⟩
  · exact Or.inr ⟨by rw [hi, hb], hc, by rw [he]⟩

/-! ### C15 -/

/-- **C15**, part. If the desired control is not changed by clipping and an unlatched explicit simplex call reports not
intervening, the state predicted for the control it returned satisfies every enabled constraint. Missing: desired
controls outside the bounds, for which the property is false (`C15_refuted_out_of_bounds`). -/
theorem C15_accepted_is_safe_partial (pred : S → K → List K → S) (s s' : SimplexObj K S P A) (hwf : WF s)
    (hen : s.enable = true) (x : S) (dt : K) (u c : List K) (hin : s.toBase.clipControl u = .ok u)
    (h : explicitSimplex pred s (.array x) dt u = (.ok c, s')) (hi : s'.intervening = false) :
    c = u ∧ SafeAt s.constraints (pred x dt c) := by
  have hlat : ¬ Latched s := by
    intro hlat
    obtain ⟨_, h⟩ := simplex_ok (monFrame_explicit pred) hen h
    rcases h with ⟨_, h, _⟩ | ⟨h, _⟩
    · rw [hi] at h; cases h
    · exact h hlat
  obtain ⟨h1, h2, _⟩ := C13_explicit_decision pred s s' hwf hen x dt u c hlat h
  have hs := h1.1 hi
  have hc := h2 hs
  rw [hin] at hc
  obtain rfl : u = c := by simpa using hc
  exact ⟨rfl, hs⟩

end explicit

/-- A one-dimensional test module: state and control are numbers, next state `x + u`, constraint `x >= 3` (param 3),
control bounded by 1, backup control 0. -/
def toySimplex (lo hi : Int) : SimplexObj Int Int Int Unit :=
  let c : Constraint Int Int Int :=
    { computeFn := fun x p => x - p, phiFn := fun x p => x - p, gradFn := fun _ _ => [1], alpha := none
      alphaNeg := none, bias := 0, biasNegative := 0, slackPriorityScale := none, params := 3, enabled := true
      subsample := {} }
  { toBase := Base.init (some (.scalar hi)) (some (.scalar lo)), constraints := [("c", c)]
    params := [("c", 3)], constraintEnabled := [("c", true)], constraintValues := [], isStaleConstraints := false
    ext := { latchTime := 0, latchedElapsed := 0, backupWindow := 0
             ctrl := { gen := fun _ _ z => some ([0], z), stateInitial := .none, stateSaved := .none, state := .none } } }

def toyPred : Int → Int → List Int → Int := fun x dt u => x + dt * u.headD 0

theorem wf_toySimplex (lo hi : Int) : WF (toySimplex lo hi) :=
  ⟨by simp [dictKeys, toySimplex], by simp [dictKeys, toySimplex], by simp [dictKeys, toySimplex]⟩

theorem toy_safe_iff (lo hi x : Int) : SafeAt (toySimplex lo hi).constraints x ↔ 3 ≤ x := by
  simp [SafeAt, toySimplex]

/-- **C15 is false outside the bounds.** The monitor examines the unclipped desired control but the clipped one is
returned: here 5 is requested, bounds are ±1; the module predicts 0+5 >= 3, reports not intervening, and returns 1, for
which the predicted state 1 violates the constraint. -/
theorem C15_refuted_out_of_bounds :
    ∃ (s s' : SimplexObj Int Int Int Unit) (u c : List Int) (x dt : Int),
      WF s ∧ s.enable = true ∧ explicitSimplex toyPred s (.array x) dt u = (.ok c, s') ∧
      s'.intervening = false ∧ ¬ SafeAt s.constraints (toyPred x dt c) := by
  refine ⟨toySimplex (-1) 1, _, [5], [1], 0, 1, wf_toySimplex _ _, rfl, rfl, rfl, ?_⟩
  rw [toy_safe_iff]
  decide

/-- Cases meeting the hypotheses of C13 and C15: at 0 the control 4 (bounds ±9) is accepted, at 0 the control 2 is
replaced by the backup control 0. -/
example : ∃ s', explicitSimplex toyPred (toySimplex (-9) 9) (.array 0) 1 [4] = (.ok [4], s') ∧ s'.intervening = false :=
  ⟨_, rfl, rfl⟩
example : ∃ s', explicitSimplex toyPred (toySimplex (-9) 9) (.array 0) 1 [2] = (.ok [0], s') ∧ s'.intervening = true :=
  ⟨_, rfl, rfl⟩
example : ¬ Latched (toySimplex (-9) 9) := by simp [Latched, toySimplex, Base.init]

/-! ### C14 -/

section implicit
variable [Field K] [LinearOrder K] [FloorRing K]

/-- **C14**. Successful unlatched call of an enabled implicit simplex module whose control law `gen` always returns a
pair: with `claw x z` the clipped backup control at state `x` and controller state `z` and `next x z` the controller
state returned by the law, the desired control is accepted exactly when every enabled constraint is non-negative at
each of the `⌊backup_window / step_size⌋ + 1` states reached by one step of the desired control followed by
`0, 1, ..., ⌊backup_window / step_size⌋` steps of the backup closed loop. -/
theorem C14_implicit_decision [IsStrictOrderedRing K] (pred : S → K → List K → S) (s s' : SimplexObj K S P A) (hwf : WF s)
    (hen : s.enable = true) (x : S) (dt : K) (hdt : 0 < dt) (hwin : 0 ≤ s.ext.backupWindow) (u c : List K)
    (claw : S → CState A → List K) (next : S → CState A → CState A)
    (hlaw : ∀ x z, ∃ ub, s.ext.ctrl.gen x dt z = some (ub, next x z) ∧ s.toBase.clipControl ub = .ok (claw x z))
    (hlat : ¬ Latched s) (h : implicitSimplex pred s (.array x) dt u = (.ok c, s')) :
    let traj : Nat → S := fun k =>
      ((fun xz : S × CState A => (pred xz.1 dt (claw xz.1 xz.2), next xz.1 xz.2))^[k] (pred x dt u, s.ext.ctrl.state)).1
    (s'.intervening = false ↔ ∀ k : Nat, (k : Int) ≤ ⌊s.ext.backupWindow / dt⌋ → SafeAt s.constraints (traj k)) ∧
    (s'.intervening = false → s.toBase.clipControl u = .ok c) ∧
    (s'.intervening = true → c = claw x s.ext.ctrl.state) := by
  intro traj
  have hq : 0 ≤ s.ext.backupWindow / dt := div_nonneg hwin hdt.le
  have hpy : pyInt (s.ext.backupWindow / dt) = ⌊s.ext.backupWindow / dt⌋ := by simp [pyInt, hq]
  have hfl : 0 ≤ ⌊s.ext.backupWindow / dt⌋ := Int.floor_nonneg.2 hq
  obtain ⟨_, h⟩ := simplex_ok (monFrame_implicit pred) hen h
  rcases h with ⟨h, _⟩ | ⟨_, b, sm, sv, hm, hi, h⟩
  · exact absurd h hlat
  have hext : (unlatch (prep s x u)).ext = { s.ext with latchedElapsed := elapsedAfter s } := unlatch_ext (prep s x u)
  have hclip : ∀ w, (unlatch (prep s x u)).toBase.clipControl w = s.toBase.clipControl w := by
    intro w; rw [unlatch_toBase]; rfl
  -- the save at the beginning of the integration succeeded, so the controller state is a supported one
  have hcopy : s.ext.ctrl.state.copy = .ok s.ext.ctrl.state := by
    cases hz : s.ext.ctrl.state with
    | unsupported a =>
      exfalso
      unfold implicitMonitor implicitIntegrate backupSteps backupControllerSave BackupController.save at hm
      simp only [hext, hz, hdt.ne', if_false, CState.copy] at hm
      simp at hm
    | _ => rfl
  obtain ⟨b', s1, hb', hiff⟩ := implicitMonitor_eq pred (s := unlatch (prep s x u)) (dt := dt) (claw := claw) (next := next)
    (cachesFresh_unlatch (cachesFresh_prep hwf x u)) hdt.ne'
    (fun y z => by
      obtain ⟨ub, h1, h2⟩ := hlaw y z
      exact ⟨ub, by rw [hext]; exact h1, by rw [hclip]; exact h2⟩) (by rw [hext]; exact hcopy) x u
  rw [hb'] at hm
  simp only [Prod.mk.injEq, Except.ok.injEq] at hm
  obtain ⟨rfl, _⟩ := hm
  have hiff : b' = true ↔ ∃ k : Nat, (k : Int) ≤ ⌊s.ext.backupWindow / dt⌋ ∧ ¬ SafeAt s.constraints (traj k) := by
    rw [hiff, hext, unlatch_constraints, hpy]
    constructor
    · rintro ⟨k, hk, hns⟩
      exact ⟨k, by omega, hns⟩
    · rintro ⟨k, hk, hns⟩
      exact ⟨k, by omega, hns⟩
  rw [hi]
  rcases h with ⟨rfl, z, ⟨ub, h1, h2⟩, _⟩ | ⟨rfl, hc, _⟩
  · obtain ⟨k, hk, hns⟩ := hiff.1 rfl
    refine ⟨⟨fun h => (by cases h), fun h => absurd (h k hk) hns⟩, fun h => (by cases h), fun _ => ?_⟩
    obtain ⟨ub', h1', h2'⟩ := hlaw x s.ext.ctrl.state
    rw [h1'] at h1
    simp only [Option.some.injEq, Prod.mk.injEq] at h1
    rw [← h1.1, h2'] at h2
    simpa using h2.symm
  · refine ⟨⟨fun _ k hk => ?_, fun _ => rfl⟩, fun _ => hc, fun h => by cases h⟩
    by_contra hns
    exact absurd (hiff.2 ⟨k, hk, hns⟩) (by simp)

/-- **C14**, totality: such a call returns when the bounds fit the desired control and the controller state is of a
supported type. -/
theorem C14_implicit_returns [IsStrictOrderedRing K] (pred : S → K → List K → S) (s : SimplexObj K S P A) (hwf : WF s)
    (hen : s.enable = true) (x : S) (dt : K) (hdt : dt ≠ 0) (u cu : List K)
    (claw : S → CState A → List K) (next : S → CState A → CState A)
    (hlaw : ∀ x z, ∃ ub, s.ext.ctrl.gen x dt z = some (ub, next x z) ∧ s.toBase.clipControl ub = .ok (claw x z))
    (hcopy : ∀ a, s.ext.ctrl.state ≠ .unsupported a) (hcu : s.toBase.clipControl u = .ok cu) :
    ∃ c s', implicitSimplex pred s (.array x) dt u = (.ok c, s') := by
  obtain ⟨ub, h1, h2⟩ := hlaw x s.ext.ctrl.state
  refine simplex_total (monFrame_implicit pred) hen (fun _ => ?_) h1 h2 hcu
  have hext : (unlatch (prep s x u)).ext = { s.ext with latchedElapsed := elapsedAfter s } := unlatch_ext (prep s x u)
  have hclip : ∀ w, (unlatch (prep s x u)).toBase.clipControl w = s.toBase.clipControl w := by
    intro w; rw [unlatch_toBase]; rfl
  obtain ⟨b', s1, hb', _⟩ := implicitMonitor_eq pred (s := unlatch (prep s x u)) (dt := dt) (claw := claw) (next := next)
    (cachesFresh_unlatch (cachesFresh_prep hwf x u)) hdt
    (fun y z => by
      obtain ⟨ub, h1, h2⟩ := hlaw y z
      exact ⟨ub, by rw [hext]; exact h1, by rw [hclip]; exact h2⟩)
    (by
      rw [hext]
      cases hz : s.ext.ctrl.state with
      | unsupported a => exact absurd hz (hcopy a)
      | _ => simp [CState.copy]) x u
  exact ⟨b', s1, hb'⟩

end implicit

/-- A rational test module with a stateful backup law: the controller state counts its invocations, `x' = x + dt*u`,
constraint `x <= 3`, backup control `-1`, window 2. -/
def toyImplicit : SimplexObj Rat Rat Rat Nat :=
  let c : Constraint Rat Rat Rat :=
    { computeFn := fun x p => p - x, phiFn := fun x p => p - x, gradFn := fun _ _ => [-1], alpha := none
      alphaNeg := none, bias := 0, biasNegative := 0, slackPriorityScale := none, params := 3, enabled := true
      subsample := {} }
  { toBase := Base.init none none, constraints := [("c", c)]
    params := [("c", 3)], constraintEnabled := [("c", true)], constraintValues := [], isStaleConstraints := false
    ext := { latchTime := 0, latchedElapsed := 0, backupWindow := 2
             ctrl := { gen := fun _ _ z => match z with
                         | .array n => some ([-1], .array (n + 1))
                         | z => some ([-1], z)
                       stateInitial := .array 0, stateSaved := .none, state := .array 0 } } }

/-- The hypotheses of C14 hold for it; `claw` is constantly `[-1]`. -/
example : WF toyImplicit ∧ ¬ Latched toyImplicit ∧
    (∀ x z, ∃ ub, toyImplicit.ext.ctrl.gen x (1/2) z = some (ub, (fun _ z => match z with
        | CState.array n => CState.array (n + 1) | z => z) x z) ∧
      toyImplicit.toBase.clipControl ub = .ok ((fun _ _ => [-1]) x z)) := by
  refine ⟨⟨by simp [dictKeys, toyImplicit], by simp [dictKeys, toyImplicit], by simp [dictKeys, toyImplicit]⟩,
    by simp [Latched, toyImplicit, Base.init], fun x z => ?_⟩
  cases z <;> exact ⟨[-1], rfl, rfl⟩

/-! ### C09, simplex part -/

section C09
variable [AddCommMonoid K] [LinearOrder K]

/-- Removing the disabled constraints does not change what counts as safe. -/
theorem safeAt_filter (cs : Dict (Constraint K S P)) (x : S) :
    SafeAt (cs.filter fun kc => kc.2.enabled) x ↔ SafeAt cs x := by
  constructor
  · intro h kc hkc hen
    exact h kc (List.mem_filter.2 ⟨hkc, hen⟩) hen
  · intro h kc hkc hen
    exact h kc (List.mem_filter.1 hkc).1 hen

/-- **C09**, explicit simplex: an explicit simplex module returns the same control and the same intervening flag as the
module from which the disabled constraints have been removed. -/
theorem C09_simplex_disabled_no_influence (pred : S → K → List K → S) (s t s' t' : SimplexObj K S P A)
    (hs : WF s) (ht : WF t) (hbase : t.toBase = s.toBase) (hext : t.ext = s.ext)
    (hc : t.constraints = s.constraints.filter fun kc => kc.2.enabled)
    (hen : s.enable = true) (x : S) (dt : K) (u c d : List K)
    (h1 : explicitSimplex pred s (.array x) dt u = (.ok c, s'))
    (h2 : explicitSimplex pred t (.array x) dt u = (.ok d, t')) :
    c = d ∧ s'.intervening = t'.intervening := by
  have hIB : ∀ c z, IsBackup t x dt c z ↔ IsBackup s x dt c z := by
    intro c z; unfold IsBackup; rw [hbase, hext]
  have hdet : ∀ c d z w, IsBackup s x dt c z → IsBackup s x dt d w → c = d := by
    rintro c d z w ⟨ub, a1, a2⟩ ⟨vb, b1, b2⟩
    rw [a1] at b1
    simp only [Option.some.injEq, Prod.mk.injEq] at b1
    rw [b1.1, b2] at a2
    simpa using a2.symm
  have hL : Latched t ↔ Latched s := by unfold Latched; rw [hbase, hext]
  have ht_en : t.enable = true := by rw [hbase]; exact hen
  by_cases hlat : Latched s
  · obtain ⟨_, h1⟩ := simplex_ok (monFrame_explicit pred) hen h1
    obtain ⟨_, h2⟩ := simplex_ok (monFrame_explicit pred) ht_en h2
    rcases h1 with ⟨_, i1, z, b1, _⟩ | ⟨h, _⟩
    · rcases h2 with ⟨_, i2, w, b2, _⟩ | ⟨h, _⟩
      · exact ⟨hdet c d z w b1 ((hIB d w).1 b2), by rw [i1, i2]⟩
      · exact absurd (hL.2 hlat) h
    · exact absurd hlat h
  · obtain ⟨a1, a2, a3⟩ := C13_explicit_decision pred s s' hs hen x dt u c hlat h1
    obtain ⟨b1, b2, b3⟩ := C13_explicit_decision pred t t' ht ht_en x dt u d (fun h => hlat (hL.1 h)) h2
    rw [hc, safeAt_filter] at b1 b2 b3
    by_cases hsafe : SafeAt s.constraints (pred x dt u)
    · have e1 := a2 hsafe
      have e2 := b2 hsafe
      rw [hbase, e1] at e2
      exact ⟨by simpa using e2, by rw [a1.2 hsafe, b1.2 hsafe]⟩
    · obtain ⟨z, hz⟩ := a3 hsafe
      obtain ⟨w, hw⟩ := b3 hsafe
      refine ⟨hdet c d z w hz ((hIB d w).1 hw), ?_⟩
      have n1 : s'.intervening = true := by
        by_contra h; exact hsafe (a1.1 (by simpa using h))
      have n2 : t'.intervening = true := by
        by_contra h; exact hsafe (b1.1 (by simpa using h))
      rw [n1, n2]

/-- **C09**, implicit simplex: same statement, for control laws that always return a pair. -/
theorem C09_implicit_simplex_disabled_no_influence {K : Type} [Field K] [LinearOrder K] [FloorRing K]
    [IsStrictOrderedRing K] (pred : S → K → List K → S) (s t s' t' : SimplexObj K S P A)
    (hs : WF s) (ht : WF t) (hbase : t.toBase = s.toBase) (hext : t.ext = s.ext)
    (hc : t.constraints = s.constraints.filter fun kc => kc.2.enabled)
    (hen : s.enable = true) (x : S) (dt : K) (hdt : 0 < dt) (hwin : 0 ≤ s.ext.backupWindow) (u c d : List K)
    (claw : S → CState A → List K) (next : S → CState A → CState A)
    (hlaw : ∀ x z, ∃ ub, s.ext.ctrl.gen x dt z = some (ub, next x z) ∧ s.toBase.clipControl ub = .ok (claw x z))
    (h1 : implicitSimplex pred s (.array x) dt u = (.ok c, s'))
    (h2 : implicitSimplex pred t (.array x) dt u = (.ok d, t')) :
    c = d ∧ s'.intervening = t'.intervening := by
  have hL : Latched t ↔ Latched s := by unfold Latched; rw [hbase, hext]
  have ht_en : t.enable = true := by rw [hbase]; exact hen
  by_cases hlat : Latched s
  · obtain ⟨_, h1⟩ := simplex_ok (monFrame_implicit pred) hen h1
    obtain ⟨_, h2⟩ := simplex_ok (monFrame_implicit pred) ht_en h2
    rcases h1 with ⟨_, i1, z, ⟨ub, a1, a2⟩, _⟩ | ⟨h, _⟩
    · rcases h2 with ⟨_, i2, w, ⟨vb, b1, b2⟩, _⟩ | ⟨h, _⟩
      · rw [hext, a1] at b1
        simp only [Option.some.injEq, Prod.mk.injEq] at b1
        rw [← b1.1, hbase, a2] at b2
        exact ⟨by simpa using b2, by rw [i1, i2]⟩
      · exact absurd (hL.2 hlat) h
    · exact absurd hlat h
  · obtain ⟨a1, a2, a3⟩ := C14_implicit_decision pred s s' hs hen x dt hdt hwin u c claw next hlaw hlat h1
    obtain ⟨b1, b2, b3⟩ := C14_implicit_decision pred t t' ht ht_en x dt hdt (by rw [hext]; exact hwin) u d claw next
      (by rw [hext, hbase]; exact hlaw) (fun h => hlat (hL.1 h)) h2
    simp only [hc, safeAt_filter, hext] at b1 b2 b3
    have hfl : s'.intervening = false ↔ t'.intervening = false := a1.trans b1.symm
    cases hi : s'.intervening with
    | false =>
      have hj := hfl.1 hi
      have e1 := a2 hi
      have e2 := b2 hj
      rw [hbase, e1] at e2
      exact ⟨by simpa using e2, hj.symm⟩
    | true =>
      have hj : t'.intervening = true := by
        by_contra h; have := hfl.2 (by simpa using h); rw [hi] at this; cases this
      exact ⟨by rw [a3 hi, b3 hj], hj.symm⟩

/-- A module meeting the hypotheses: `toySimplex` with a second, disabled, always violated constraint. -/
example :
    let c2 : Constraint Int Int Int :=
      { computeFn := fun _ _ => -1, phiFn := fun _ _ => -1, gradFn := fun _ _ => [0], alpha := none
        alphaNeg := none, bias := 0, biasNegative := 0, slackPriorityScale := none, params := 0, enabled := false
        subsample := {} }
    let t := toySimplex (-9) 9
    let s : SimplexObj Int Int Int Unit := { t with
      constraints := t.constraints ++ [("d", c2)], params := t.params ++ [("d", 7)]
      constraintEnabled := t.constraintEnabled ++ [("d", true)] }
    WF s ∧ t.constraints = s.constraints.filter (fun kc => kc.2.enabled) ∧
    (explicitSimplex toyPred s (.array 0) 1 [4]).1 = .ok [4] := by
  refine ⟨⟨by simp [dictKeys, toySimplex], by simp [dictKeys, toySimplex], by simp [dictKeys, toySimplex]⟩, rfl, rfl⟩

end C09

end RTA
