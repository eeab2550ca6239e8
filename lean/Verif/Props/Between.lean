import Verif.Props.Disturbance
import Verif.Lemmas.DiscreteDesired
import Verif.Props.ClosedLoopOn
import Verif.Props.Sampled

/-!
C105: what modules that look at the state at the end of a step (explicit and implicit simplex, discrete ASIF) guarantee between the steps.
-/
namespace RTA
open Set
variable {S P A : Type}

/-- The true motion `x` passes through the states of the loop at the sample times, and on the way no constraint changes faster than `ρ`. -/
structure Passes {σ : Type} (cs : Dict (Constraint ℝ S P)) (ρ dt : ℝ) (τ : ℕ → ℝ) (x : ℝ → S) (loop : ℕ → Option (S × σ)) : Prop where
  times : SampleTimes dt τ
  through : ∀ n y s, loop n = some (y, s) → x (τ n) = y
  rate : ∀ kc ∈ cs, kc.2.enabled = true → ∀ n, ∀ s ∈ Icc (τ n) (τ (n + 1)), ∀ t ∈ Icc (τ n) (τ (n + 1)),
    |kc.2.computeFn (x s) kc.2.params - kc.2.computeFn (x t) kc.2.params| ≤ ρ * |s - t|

/-- **C105, one step.** Safe at both ends of a step, by at most `ρ dt / 2` unsafe in between. -/
theorem C105_step {σ : Type} {cs : Dict (Constraint ℝ S P)} {ρ dt : ℝ} {τ : ℕ → ℝ} {x : ℝ → S} {loop : ℕ → Option (S × σ)} (hρ : 0 ≤ ρ)
    (h : Passes cs ρ dt τ x loop) {n : ℕ} {e : ℝ} (h0 : SafeBy e cs (x (τ n))) (h1 : SafeBy e cs (x (τ (n + 1)))) {t : ℝ}
    (ht : t ∈ Icc (τ n) (τ (n + 1))) : SafeBy (e + ρ * dt / 2) cs (x t) := by
  intro kc hkc hen
  have a0 := h0 kc hkc hen
  have a1 := h1 kc hkc hen
  have r0 := h.rate kc hkc hen n (τ n) ⟨le_rfl, h.times.mono n⟩ t ht
  have r1 := h.rate kc hkc hen n (τ (n + 1)) ⟨h.times.mono n, le_rfl⟩ t ht
  rw [abs_sub_comm (τ n), abs_of_nonneg (by linarith [ht.1] : 0 ≤ t - τ n)] at r0
  rw [abs_of_nonneg (by linarith [ht.2] : 0 ≤ τ (n + 1) - t)] at r1
  have b0 := (abs_le.1 r0).2
  have b1 := (abs_le.1 r1).2
  have h2 := mul_le_mul_of_nonneg_left (show τ (n + 1) - τ n ≤ dt by linarith [h.times.step n]) hρ
  linarith

theorem safeBy_zero {cs : Dict (Constraint ℝ S P)} {x : S} : SafeBy 0 cs x ↔ SafeAt cs x := by
  simp [SafeBy, SafeAt]

/-- What a margin of `e` means for the quantities the constraints are about. -/
theorem safeBy_bias {cs : Dict (Constraint ℝ S P)} {x : S} {e : ℝ} (h : SafeBy e cs x) (hb : ∀ kc ∈ cs, kc.2.bias ≤ -e) :
    ∀ kc ∈ cs, kc.2.enabled = true → 0 ≤ kc.2.computeFn x kc.2.params := fun kc hkc hen => by
  have := h kc hkc hen
  have := hb kc hkc
  linarith

/-- A loop that is safe whenever it gets to a step is safe by `ρ dt / 2` in between. -/
theorem between_of_steps {σ : Type} {cs : Dict (Constraint ℝ S P)} {ρ dt : ℝ} {τ : ℕ → ℝ} {x : ℝ → S} {loop : ℕ → Option (S × σ)}
    (hρ : 0 ≤ ρ) (h : Passes cs ρ dt τ x loop) (hsafe : ∀ n y s, loop n = some (y, s) → SafeAt cs y)
    (hprev : ∀ n, (loop (n + 1)).isSome → (loop n).isSome) {n : ℕ} (hn : (loop (n + 1)).isSome) {t : ℝ}
    (ht : t ∈ Icc (τ n) (τ (n + 1))) : SafeBy (ρ * dt / 2) cs (x t) := by
  obtain ⟨⟨y, s⟩, h1⟩ := Option.isSome_iff_exists.1 hn
  obtain ⟨⟨y0, s0⟩, h0⟩ := Option.isSome_iff_exists.1 (hprev n hn)
  have := C105_step (e := 0) hρ h (safeBy_zero.2 (by rw [h.through _ _ _ h0]; exact hsafe _ _ _ h0))
    (safeBy_zero.2 (by rw [h.through _ _ _ h1]; exact hsafe _ _ _ h1)) ht
  rwa [zero_add] at this

theorem closedLoop_prev {σ : Type} {fc : σ → InputState S → ℝ → List ℝ → Except PyErr (List ℝ) × σ}
    {pred : S → ℝ → List ℝ → S} {dts : Nat → ℝ} {us : Nat → List ℝ} {x0 : S} {s0 : σ} (n : ℕ)
    (h : (closedLoop fc pred dts us x0 s0 (n + 1)).isSome) : (closedLoop fc pred dts us x0 s0 n).isSome := by
  simp only [closedLoop] at h
  rcases hn : closedLoop fc pred dts us x0 s0 n with _ | q
  · rw [hn] at h; simp at h
  · rfl

/-- **C105, explicit simplex.** Under the hypotheses of C18, at every instant of every step that the loop completes no enabled
constraint is violated by more than `ρ dt / 2`; where every `bias` is at most `-ρ dt / 2`, no quantity the constraints are about is
negative at any instant. -/
theorem C105_explicit_simplex {pred : S → ℝ → List ℝ → S} {dts : Nat → ℝ} {us : Nat → List ℝ} {x0 : S}
    {s0 : SimplexObj ℝ S P A} (hwf : WF s0) (hen : s0.enable = true) (hsafe : SafeAt s0.constraints x0)
    (hus : ∀ n, s0.toBase.clipControl (us n) = .ok (us n))
    (hback : ∀ n x z ub z' cb, SafeAt s0.constraints x → s0.ext.ctrl.gen x (dts n) z = some (ub, z') →
      s0.toBase.clipControl ub = .ok cb → SafeAt s0.constraints (pred x (dts n) cb))
    {ρ dt : ℝ} (hρ : 0 ≤ ρ) {τ : ℕ → ℝ} {x : ℝ → S}
    (hx : Passes s0.constraints ρ dt τ x (closedLoop (explicitSimplex pred) pred dts us x0 s0)) {n : ℕ}
    (hn : (closedLoop (explicitSimplex pred) pred dts us x0 s0 (n + 1)).isSome) {t : ℝ} (ht : t ∈ Icc (τ n) (τ (n + 1))) :
    SafeBy (ρ * dt / 2) s0.constraints (x t) ∧ ((∀ kc ∈ s0.constraints, kc.2.bias ≤ -(ρ * dt / 2)) →
      ∀ kc ∈ s0.constraints, kc.2.enabled = true → 0 ≤ kc.2.computeFn (x t) kc.2.params) := by
  have key := between_of_steps hρ hx (fun n y s h => C18_explicit_closed_loop_safe pred dts us x0 s0 hwf hen hsafe hus hback n y s h)
    closedLoop_prev hn ht
  exact ⟨key, safeBy_bias key⟩

/-- **C105, implicit simplex.** The same under the hypotheses of C19, for every step. -/
theorem C105_implicit_simplex {pred : S → ℝ → List ℝ → S} {dt : ℝ} {us : Nat → List ℝ} {x0 : S}
    {s0 : SimplexObj ℝ S P A} (hwf : WF s0) (hen : s0.enable = true) (hdt : dt ≠ 0)
    (claw : S → CState A → List ℝ) (next : S → CState A → CState A)
    (hlaw : ∀ x z, ∃ ub, s0.ext.ctrl.gen x dt z = some (ub, next x z) ∧ s0.toBase.clipControl ub = .ok (claw x z))
    (hcopy0 : s0.ext.ctrl.state.copy = .ok s0.ext.ctrl.state)
    (hcopy : ∀ x z, z.copy = .ok z → (next x z).copy = .ok (next x z))
    (hus : ∀ n, s0.toBase.clipControl (us n) = .ok (us n))
    (hwindow : ∀ x z, (∀ k ≤ (pyInt (s0.ext.backupWindow / dt)).toNat,
        SafeAt s0.constraints ((backupIter pred dt claw next)^[k] (x, z)).1) →
      ∀ k, SafeAt s0.constraints ((backupIter pred dt claw next)^[k] (x, z)).1)
    (hsafe : ∀ k, SafeAt s0.constraints ((backupIter pred dt claw next)^[k] (x0, s0.ext.ctrl.state)).1)
    {ρ d : ℝ} (hρ : 0 ≤ ρ) {τ : ℕ → ℝ} {x : ℝ → S}
    (hx : Passes s0.constraints ρ d τ x (closedLoop (implicitSimplex pred) pred (fun _ => dt) us x0 s0)) {n : ℕ}
    {t : ℝ} (ht : t ∈ Icc (τ n) (τ (n + 1))) :
    SafeBy (ρ * d / 2) s0.constraints (x t) ∧ ((∀ kc ∈ s0.constraints, kc.2.bias ≤ -(ρ * d / 2)) →
      ∀ kc ∈ s0.constraints, kc.2.enabled = true → 0 ≤ kc.2.computeFn (x t) kc.2.params) := by
  have hall := C19_implicit_closed_loop_safe pred dt us x0 s0 hwf hen hdt claw next hlaw hcopy0 hcopy hus hwindow hsafe
  have key := between_of_steps hρ hx (fun n y s h => by
      obtain ⟨y', s', h', hs⟩ := hall n
      rw [h] at h'
      simp only [Option.some.injEq, Prod.mk.injEq] at h'
      rw [h'.1]; exact hs)
    closedLoop_prev (by obtain ⟨y, s, h, -⟩ := hall (n + 1); rw [h]; rfl) ht
  exact ⟨key, safeBy_bias key⟩

/-- **C105, discrete ASIF.** The same for an enabled constraint without slack under the hypotheses of C39. -/
theorem C105_discrete [HasSqrt ℝ] {solver : NLPSolver ℝ} (hsound : NLPSound solver) {next : S → ℝ → List ℝ → S}
    {dts : Nat → ℝ} {us : Nat → List ℝ} {x0 : S} {s0 : DiscObj ℝ S P} (hinv : DiscInv s0) (hen : s0.enable = true)
    (hexc : s0.ext.solverException = true) (hdt : ∀ n, 0 < dts n) {k : String} {c : Constraint ℝ S P} {al : ℝ → ℝ}
    (hc : (k, c) ∈ s0.constraints) (hce : c.enabled = true) (hcs : c.slackPriorityScale = none) (hal : c.alpha = some al)
    (hk : ∀ n y, 0 ≤ y → dts n * al y ≤ y) (h0 : 0 ≤ c.computeFn x0 c.params + c.bias) {ρ dt : ℝ} (hρ : 0 ≤ ρ) {τ : ℕ → ℝ} {x : ℝ → S}
    (hx : Passes [(k, c)] ρ dt τ x (closedLoop (discreteASIF solver next) next dts us x0 s0)) {n : ℕ}
    (hn : (closedLoop (discreteASIF solver next) next dts us x0 s0 (n + 1)).isSome) {t : ℝ} (ht : t ∈ Icc (τ n) (τ (n + 1))) :
    -(ρ * dt / 2) ≤ c.computeFn (x t) c.params + c.bias ∧ (c.bias ≤ -(ρ * dt / 2) → 0 ≤ c.computeFn (x t) c.params) := by
  have key := between_of_steps hρ hx (fun n y s h => by
      intro kc hkc _
      obtain rfl : kc = (k, c) := by simpa using hkc
      exact C39_closed_loop hsound next dts us x0 s0 hinv hen hexc hdt hc hce hcs hal hk h0 n y s h)
    closedLoop_prev hn ht (k, c) (by simp) hce
  exact ⟨key, fun hb => by simp only at key; linarith⟩

/-! ### The bound is attained -/

/-- Keep further than `r` from the origin of a line; the backup control holds the position. -/
noncomputable def gapSimplex (r window : ℝ) : SimplexObj ℝ ℝ Unit Unit :=
  let c : Constraint ℝ ℝ Unit :=
    { computeFn := fun x _ => |x| - r, phiFn := fun x _ => |x| - r, gradFn := fun _ _ => [0], alpha := none
      alphaNeg := none, bias := 0, biasNegative := 0, slackPriorityScale := none, params := (), enabled := true
      subsample := {} }
  { toBase := Base.init none none, constraints := [("c", c)]
    params := [("c", ())], constraintEnabled := [("c", true)], constraintValues := [], isStaleConstraints := false
    ext := { latchTime := 0, latchedElapsed := 0, backupWindow := window
             ctrl := { gen := fun _ _ z => some ([0], z), stateInitial := .none, stateSaved := .none, state := .none } } }

/-- The position after a step. -/
noncomputable def gapPred : ℝ → ℝ → List ℝ → ℝ := fun x dt u => x + dt * u.headD 0

theorem gap_wf (r window : ℝ) : WF (gapSimplex r window) :=
  ⟨by simp [dictKeys, gapSimplex], by simp [dictKeys, gapSimplex], by simp [dictKeys, gapSimplex]⟩

theorem gap_safe {r window x : ℝ} : SafeAt (gapSimplex r window).constraints x ↔ r ≤ |x| := by
  simp [SafeAt, gapSimplex]

theorem gap_clip (r window : ℝ) (u : List ℝ) : (gapSimplex r window).toBase.clipControl u = .ok u := rfl

/-- **C105, the bound is attained.** A vehicle at the distance `r` from an obstacle asks to be at the same distance on the other side
after a step of length `dt`. The explicit and the implicit simplex module let it: the constraint has the rate `2 r / dt`, and half way
the vehicle is in the centre of the obstacle, where the constraint is violated by `r = (2 r / dt) dt / 2`. -/
theorem C105_attained {r dt window : ℝ} (hr : 0 < r) (hdt : 0 < dt) (hw : 0 ≤ window) :
    (explicitSimplex gapPred (gapSimplex r window) (.array r) dt [-(2 * r / dt)]).1 = .ok [-(2 * r / dt)] ∧
    (implicitSimplex gapPred (gapSimplex r window) (.array r) dt [-(2 * r / dt)]).1 = .ok [-(2 * r / dt)] ∧
    (∀ s t, |gapPred r s [-(2 * r / dt)] - gapPred r t [-(2 * r / dt)]| = 2 * r / dt * |s - t|) ∧
    SafeAt (gapSimplex r window).constraints r ∧ SafeAt (gapSimplex r window).constraints (gapPred r dt [-(2 * r / dt)]) ∧
    ∀ e, SafeBy e (gapSimplex r window).constraints (gapPred r (dt / 2) [-(2 * r / dt)]) ↔ 2 * r / dt * dt / 2 ≤ e := by
  have hend : gapPred r dt [-(2 * r / dt)] = -r := by
    simp only [gapPred, List.headD_cons]; field_simp; ring
  have hmid : gapPred r (dt / 2) [-(2 * r / dt)] = 0 := by
    simp only [gapPred, List.headD_cons]; field_simp; ring
  have hsafe : SafeAt (gapSimplex r window).constraints (-r) := gap_safe.2 (by rw [abs_neg, abs_of_pos hr])
  have hnl : ¬ Latched (gapSimplex r window) := by simp [Latched, gapSimplex]
  refine ⟨?_, ?_, fun s t => ?_, gap_safe.2 (le_abs_self r), by rw [hend]; exact hsafe, fun e => ?_⟩
  · obtain ⟨c, s', h⟩ := C13_explicit_returns gapPred (gapSimplex r window) (gap_wf r window) rfl r dt [-(2 * r / dt)] [0] [0] _
      .none rfl (gap_clip _ _ _) (gap_clip _ _ _)
    have := (C13_explicit_decision gapPred _ s' (gap_wf r window) rfl r dt _ c hnl h).2.1 (by rw [hend]; exact hsafe)
    rw [gap_clip] at this
    rw [h, this]
  · have hlaw : ∀ (x : ℝ) (z : CState Unit), ∃ ub, (gapSimplex r window).ext.ctrl.gen x dt z = some (ub, z) ∧
        (gapSimplex r window).toBase.clipControl ub = .ok [0] := fun x z => ⟨[0], rfl, rfl⟩
    obtain ⟨c, s', h⟩ := C14_implicit_returns gapPred (gapSimplex r window) (gap_wf r window) rfl r dt hdt.ne' [-(2 * r / dt)] _
      (fun _ _ => [0]) (fun _ z => z) hlaw (fun a => by simp [gapSimplex]) (gap_clip _ _ _)
    have hd := C14_implicit_decision gapPred _ s' (gap_wf r window) rfl r dt hdt hw _ c (fun _ _ => [0]) (fun _ z => z) hlaw hnl h
    have := hd.2.1 (hd.1.2 fun k _ => by
      rw [hend]
      have : ∀ k : ℕ, ((fun xz : ℝ × CState Unit => (gapPred xz.1 dt [0], xz.2))^[k] (-r, (gapSimplex r window).ext.ctrl.state)).1 = -r := by
        intro k
        induction k with
        | zero => rfl
        | succ k ih => rw [Function.iterate_succ_apply']; simpa [gapPred] using ih
      simp only [this]; exact hsafe)
    rw [gap_clip] at this
    rw [h, this]
  · simp only [gapPred, List.headD_cons]
    rw [show r + s * -(2 * r / dt) - (r + t * -(2 * r / dt)) = 2 * r / dt * (t - s) by ring, abs_mul, abs_of_pos (by positivity), abs_sub_comm]
  · rw [hmid, div_mul_cancel₀ _ hdt.ne']
    simp [SafeBy, gapSimplex]

/-- The loop goes on like this: the vehicle moves straight through the obstacle with a constant velocity, and is never stopped. -/
theorem gap_loop {r dt window : ℝ} (hr : 0 < r) (hdt : 0 < dt) (n : ℕ) :
    ∃ s, closedLoop (explicitSimplex gapPred) gapPred (fun _ => dt) (fun _ => [-(2 * r / dt)]) r (gapSimplex r window) n =
        some (r - 2 * r / dt * (n * dt), s) ∧ WF s ∧ s.enable = true ∧ s.intervening = false ∧
      s.constraints = (gapSimplex r window).constraints ∧ s.controlBoundsHigh = none ∧ s.controlBoundsLow = none ∧
      s.ext.ctrl.gen = (gapSimplex r window).ext.ctrl.gen := by
  induction n with
  | zero => exact ⟨gapSimplex r window, by simp [closedLoop], gap_wf r window, rfl, rfl, rfl, rfl, rfl, rfl⟩
  | succ n ih =>
    obtain ⟨s, hn, hw, he, hi, hcs, hhi, hlo, hgen⟩ := ih
    have hclip : ∀ u, s.toBase.clipControl u = .ok u := fun u => by unfold Base.clipControl; rw [hhi, hlo]; rfl
    have hnl : ¬ Latched s := fun h => by rw [Latched, hi] at h; simp at h
    set x := r - 2 * r / dt * (n * dt) with hx
    have hnext : gapPred x dt [-(2 * r / dt)] = r - 2 * r / dt * (((n + 1 : ℕ) : ℝ) * dt) := by
      simp only [gapPred, List.headD_cons, hx]; push_cast; ring
    have hval : gapPred x dt [-(2 * r / dt)] = -(r + 2 * n * r) := by
      rw [hnext]; push_cast; field_simp; ring
    have hsafe : SafeAt s.constraints (gapPred x dt [-(2 * r / dt)]) := by
      rw [hcs, gap_safe, hval, abs_neg, abs_of_nonneg (by positivity)]
      have : (0 : ℝ) ≤ 2 * n * r := by positivity
      linarith
    obtain ⟨c, s', h⟩ := C13_explicit_returns gapPred s hw he x dt [-(2 * r / dt)] [0] [0] _ s.ext.ctrl.state
      (by rw [hgen]; rfl) (hclip _) (hclip _)
    have hd := C13_explicit_decision gapPred s s' hw he x dt _ c hnl h
    have hc := hd.2.1 hsafe
    rw [hclip] at hc
    obtain rfl : [-(2 * r / dt)] = c := by simpa using hc
    have hw' : WF s' := by
      have := (filterControlCB_frame frame_getStateDefault (frameFilter_simplex (monFrame_explicit gapPred)) s (.array x)
        dt [-(2 * r / dt)]).2 hw
      unfold explicitSimplex at h
      rwa [h] at this
    obtain ⟨⟨he', hcs', hhi', hlo'⟩, hq⟩ := simplex_ok (monFrame_explicit gapPred) he h
    have hgen' : s'.ext.ctrl.gen = s.ext.ctrl.gen := by
      rcases hq with ⟨_, _, z, _, hext⟩ | ⟨_, b, sm, sv, _, _, ⟨_, z, _, hext⟩ | ⟨_, _, hext⟩⟩ <;> rw [hext]
    refine ⟨s', ?_, hw', he', hd.1.2 hsafe, hcs'.trans hcs, hhi'.trans hhi, hlo'.trans hlo, hgen'.trans hgen⟩
    simp only [closedLoop, hn, h, hnext]

/-- The motion with the constant velocity passes through the states of the loop, and no constraint changes faster than `2 r / dt`. -/
theorem gap_passes {r dt window : ℝ} (hr : 0 < r) (hdt : 0 < dt) :
    Passes (gapSimplex r window).constraints (2 * r / dt) dt (fun n => n * dt) (fun t => r - 2 * r / dt * t)
      (closedLoop (explicitSimplex gapPred) gapPred (fun _ => dt) (fun _ => [-(2 * r / dt)]) r (gapSimplex r window)) where
  times := ⟨by simp, fun k => by push_cast; linarith, fun k => by push_cast; linarith⟩
  through := fun n y s h => by
    obtain ⟨s', h', -⟩ := gap_loop (window := window) hr hdt n
    rw [h'] at h
    simp only [Option.some.injEq, Prod.mk.injEq] at h
    exact h.1
  rate := fun kc hkc _ n s _ t _ => by
    obtain rfl := List.mem_singleton.1 hkc
    show |(|r - 2 * r / dt * s| - r) - (|r - 2 * r / dt * t| - r)| ≤ _
    rw [sub_sub_sub_cancel_right]
    refine (abs_abs_sub_abs_le _ _).trans (le_of_eq ?_)
    rw [show r - 2 * r / dt * s - (r - 2 * r / dt * t) = 2 * r / dt * (t - s) by ring, abs_mul, abs_of_pos (by positivity), abs_sub_comm]

/-- C105 (explicit simplex): every hypothesis is met by the vehicle that moves through the obstacle, so its guarantee is the best one. -/
example (t : ℝ) (h0 : 0 ≤ t) (h1 : t ≤ 1) : SafeBy (2 * 5 / 1 * 1 / 2) (gapSimplex 5 0).constraints (5 - 2 * 5 / 1 * t) := by
  have := C105_explicit_simplex (pred := gapPred) (dts := fun _ => 1) (us := fun _ => [-(2 * 5 / 1)]) (x0 := (5 : ℝ))
    (s0 := gapSimplex 5 0) (gap_wf 5 0) rfl (gap_safe.2 (le_abs_self 5)) (fun _ => gap_clip _ _ _)
    (by
      intro n x z ub z' cb hx hg hc
      obtain ⟨rfl, rfl⟩ : [0] = ub ∧ z = z' := by simpa [gapSimplex] using hg
      rw [gap_clip] at hc
      obtain rfl : [0] = cb := by simpa using hc
      simpa [gapPred] using hx)
    (by norm_num) (gap_passes (by norm_num) (by norm_num)) (n := 0)
    (by obtain ⟨s, h, -⟩ := gap_loop (r := 5) (dt := 1) (window := 0) (by norm_num) (by norm_num) 1; rw [h]; rfl)
    (t := t) ⟨by simpa using h0, by simpa using h1⟩
  exact this.1

/-- A plant that moves away from the origin with velocity one, whatever the control. -/
noncomputable def awayPred : ℝ → ℝ → List ℝ → ℝ := fun x dt _ => if 0 ≤ x then x + dt else x - dt

theorem away_loop {σ : Type} {fc : σ → InputState ℝ → ℝ → List ℝ → Except PyErr (List ℝ) × σ} {us : Nat → List ℝ} {s0 : σ} (n : ℕ) :
    ∀ y s, closedLoop fc awayPred (fun _ => 1 / 2) us 3 s0 n = some (y, s) → 3 + (n * (1 / 2) : ℝ) = y := by
  induction n with
  | zero => intro y s h; simp only [closedLoop, Option.some.injEq, Prod.mk.injEq] at h; rw [← h.1]; simp
  | succ n ih =>
    intro y s h
    simp only [closedLoop] at h
    rcases hn : closedLoop fc awayPred (fun _ => 1 / 2) us 3 s0 n with _ | ⟨x1, s1⟩
    · rw [hn] at h; simp at h
    rw [hn] at h
    simp only at h
    rcases hf : fc s1 (.array x1) (1 / 2) (us n) with ⟨_ | c, s2⟩
    · rw [hf] at h; simp at h
    rw [hf] at h
    simp only [Option.some.injEq, Prod.mk.injEq] at h
    have := ih x1 s1 hn
    have h0 : (0 : ℝ) ≤ n := n.cast_nonneg
    rw [← h.1, awayPred, if_pos (by linarith), ← this]
    push_cast; ring

theorem away_abs {x dt : ℝ} (hdt : 0 ≤ dt) (u : List ℝ) : |x| ≤ |awayPred x dt u| := by
  unfold awayPred
  split
  · rename_i h; rw [abs_of_nonneg h, abs_of_nonneg (by linarith)]; linarith
  · rename_i h; rw [abs_of_neg (not_le.1 h), abs_of_neg (by linarith [not_le.1 h])]; linarith

theorem away_iter {x dt : ℝ} (hdt : 0 ≤ dt) {claw : ℝ → CState Unit → List ℝ} {next : ℝ → CState Unit → CState Unit} (z : CState Unit) (k : ℕ) :
    |x| ≤ |((backupIter awayPred dt claw next)^[k] (x, z)).1| := by
  induction k with
  | zero => exact le_rfl
  | succ k ih => rw [Function.iterate_succ_apply']; exact ih.trans (away_abs hdt [])

theorem away_times : SampleTimes (1 / 2) (fun n => n * (1 / 2)) :=
  ⟨by simp, fun k => by push_cast; linarith, fun k => by push_cast; linarith⟩

/-- C105 (implicit simplex): a module with a one-second window around a plant that moves away from the obstacle. -/
example (us : ℕ → List ℝ) (t : ℝ) (h0 : 7 * (1 / 2) ≤ t) (h1 : t ≤ 8 * (1 / 2)) :
    SafeBy (1 * (1 / 2) / 2) (gapSimplex 2 1).constraints (3 + t) := by
  refine (C105_implicit_simplex (pred := awayPred) (dt := 1 / 2) (us := us) (x0 := (3 : ℝ)) (s0 := gapSimplex 2 1) (gap_wf 2 1) rfl
    (by norm_num) (fun _ _ => [0]) (fun _ z => z) (fun _ _ => ⟨[0], rfl, rfl⟩) rfl (fun _ _ h => h) (fun _ => gap_clip _ _ _)
    (fun x z h k => gap_safe.2 ((gap_safe.1 (h 0 (Nat.zero_le _))).trans (away_iter (by norm_num) z k)))
    (fun k => gap_safe.2 (le_trans (by norm_num [abs_of_pos]) (away_iter (x := 3) (by norm_num) _ k)))
    (ρ := 1) (d := 1 / 2) (by norm_num) (τ := fun n => n * (1 / 2)) (x := fun t => 3 + t)
    ⟨away_times, fun n y s h => away_loop n y s h, fun kc hkc _ n s _ t _ => ?_⟩ (n := 7) (t := t)
    ⟨by exact_mod_cast h0, by push_cast; linarith⟩).1
  obtain rfl := List.mem_singleton.1 hkc
  show |(|3 + s| - 2) - (|3 + t| - 2)| ≤ _
  rw [sub_sub_sub_cancel_right, one_mul]
  exact (abs_abs_sub_abs_le _ _).trans (le_of_eq (by congr 1; ring))

/-- C105 (discrete ASIF): the module `stepObj` (`x ≥ 0`) around the same plant. -/
example (t : ℝ) (h0 : 0 ≤ t) (h1 : t ≤ 1 / 2) : -(1 * (1 / 2) / 2) ≤ 3 + t + 0 := by
  refine (C105_discrete refNLP_sound (next := awayPred) (dts := fun _ => 1 / 2) (us := fun _ => [1]) (x0 := 3) (s0 := stepObj true)
    (step_inv true) rfl rfl (fun _ => by norm_num) (k := "a") (c := stepC true) (al := id) (by simp [stepObj]) rfl rfl rfl
    (fun _ y hy => by simp only [id]; linarith) (by simp [stepC]) (ρ := 1) (dt := 1 / 2) (by norm_num) (τ := fun n => n * (1 / 2))
    (x := fun t => 3 + t)
    ⟨away_times, fun n y s h => away_loop n y s h, fun kc hkc _ n s _ t _ => ?_⟩ (n := 0) ?_ (t := t)
    ⟨by simpa using h0, by simpa using h1⟩).1
  · obtain rfl := List.mem_singleton.1 hkc
    simp [stepC]
  · have h := disc_desired refNLP_sound refNLP_global refNLP_complete (next := awayPred) (step_inv true) (by simp [stepObj, stepC]; rfl) rfl
      (lo := some (-2)) (hi := some 2) rfl rfl (by simp [stepObj, stepC]) (x := 3) (dt := 1 / 2) (by norm_num) (u := [1]) ?_
    · simp only [closedLoop]
      rcases hf : discreteASIF refNLP awayPred (stepObj true) (.array 3) (1 / 2) [1] with ⟨_ | c, s2⟩
      · rw [hf] at h; simp at h
      · rfl
    · refine ⟨rfl, rfl, ?_, ?_⟩
      · intro i v hv
        rcases i with _ | i
        · obtain rfl : (1 : ℝ) = v := by simpa using hv
          constructor <;> intro c hc <;> obtain rfl := Option.some.inj hc <;> norm_num
        · simp at hv
      · intro cd hcd hen
        obtain rfl | rfl : cd = (stepC true, 0) ∨ cd = (stepC false, 0) := by
          simpa [assignSlack, stepObj, stepC] using hcd
        · exact ⟨id, rfl, by simp [hval, stepC, awayPred]; norm_num⟩
        · cases hen

end RTA
