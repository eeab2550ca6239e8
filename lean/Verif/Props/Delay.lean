import Verif.Props.Disturbance
import Verif.Props.Sampled
import Mathlib.Tactic.IntervalCases
import Mathlib.Analysis.SpecialFunctions.Trigonometric.Deriv

/-!
C104: controls that were computed for an older state. A module is called at sample times, its answer is available only after a
while and is held until the next one arrives. What this costs is bounded by the age of the state, and `bias` and `bias_negative` make
up for it.
-/
namespace RTA
open Set
variable {P X : Type}

/-- The loop through an explicit ASIF module with old states. The true system is `dx/dt = f(x) + g(x) u + w`. From the time `start` on, the
control at time `t` is what a module (after whatever history, for whatever desired control) returns for the state at some earlier
time, at most `Δ` ago. `W` bounds the disturbance, `V` the velocity of the entries of the state, `L` the sum of the absolute partial
derivatives of the constraint, `B` the influence of the control on it (if the solver has a tolerance `ε > 0`); between two states
whose entries differ by at most `r` the rate of the constraint under the same control changes by at most `M r`. -/
structure DelayedLoop (solver : Solver ℝ) (k : String) (c : Constraint ℝ (List ℝ) P) (D : Set (List ℝ)) (n : Nat)
    (f : List ℝ → List ℝ) (g : List ℝ → List (List ℝ)) (x u w : ℝ → List ℝ) (ε W L B V M Δ start : ℝ) (X : Type) : Prop where
  grad : IsGradientOn D n (fun x => c.computeFn x c.params) (fun x => c.gradFn x c.params)
  motion : Disturbed D n f g x u w
  enabled : c.enabled = true
  noSlack : c.slackPriorityScale = none
  disturbance : ∀ t, 0 ≤ t → ∀ i, |(w t).getD i 0| ≤ W
  slope : ∀ t, 0 ≤ t → oneNorm (c.gradFn (x t) c.params) ≤ L
  speed : ∀ t, 0 ≤ t → ∀ i, |(vadd (vadd (f (x t)) (matVec (g (x t)) (u t))) (w t)).getD i 0| ≤ V
  rate : ∀ t, start ≤ t → ∀ a ∈ D, ∀ b ∈ D, a.length = n → b.length = n → ∀ r, (∀ i, |a.getD i 0 - b.getD i 0| ≤ r) →
    c.rate f g a (u t) - M * r ≤ c.rate f g b (u t)
  filtered : ∀ t, start ≤ t → ∃ τ, 0 ≤ τ ∧ τ ≤ t ∧ t ≤ τ + Δ ∧ ∃ (s s' : ASIFObj ℝ (List ℝ) P X) (dt : ℝ) (uDes : List ℝ),
    ExplicitModule solver f g s ∧ ScalesPos s.constraints ∧ BoundsConsistent s.controlBoundsLow s.controlBoundsHigh ∧ s.enable = true ∧
    (k, c) ∈ s.constraints ∧ ShapesOK f g s (x τ) ∧ ε * authority g s.ext.controlDim c (x τ) ≤ ε * B ∧
    (s.ext.solverException = true ∨ ∃ w d, AdmissibleBy (-ε) f g s (x τ) w d) ∧
    explicitASIF solver f g s (.array (x τ)) dt uDes = (.ok (u t), s')

/-! ### How far the state gets -/

section
variable {D : Set (List ℝ)} {n : Nat} {f : List ℝ → List ℝ} {g : List ℝ → List (List ℝ)} {x u w : ℝ → List ℝ}

theorem state_drift (h : Disturbed D n f g x u w) {V : ℝ} (hV : 0 ≤ V)
    (hv : ∀ t, 0 ≤ t → ∀ i, |(vadd (vadd (f (x t)) (matVec (g (x t)) (u t))) (w t)).getD i 0| ≤ V) {τ t : ℝ} (h0 : 0 ≤ τ) (h1 : τ ≤ t)
    (i : Nat) : |(x τ).getD i 0 - (x t).getD i 0| ≤ V * (t - τ) := by
  rcases Nat.lt_or_ge i n with hi | hi
  · have key := norm_image_sub_le_of_norm_deriv_right_le_segment (f := fun s => (x s).getD i 0) (a := τ) (b := t) (C := V)
      (f' := fun s => (vadd (f (x s)) (matVec (g (x s)) (u s))).getD i 0 + (w s).getD i 0)
      ((h.cont i hi).mono fun s hs => h0.trans hs.1) (fun s hs => h.deriv s (h0.trans hs.1) i hi)
      (fun s hs => by
        have hs0 := h0.trans hs.1
        rw [← getD_vadd' ((h.len s hs0).trans (h.wlen s hs0).symm), Real.norm_eq_abs]
        exact hv s hs0 i) t ⟨h1, le_rfl⟩
    rw [abs_sub_comm]
    simpa using key
  · have e : ∀ s, 0 ≤ s → (x s).getD i 0 = 0 := fun s hs => by
      rw [List.getD_eq_default]
      rw [(h.curve s hs).2]; exact hi
    rw [e τ h0, e t (h0.trans h1), sub_zero, abs_zero]
    exact mul_nonneg hV (by linarith)

theorem dot_abs_le {V : ℝ} (hV : 0 ≤ V) (r v : List ℝ) (h : ∀ i, |v.getD i 0| ≤ V) : -(V * oneNorm r) ≤ dot r v := by
  have e : dot r (zeros (K := ℝ) v.length) = 0 := dot_zeros_right _ _
  have := dot_near_le hV r (v := v) (w := zeros v.length) (by simp [zeros]) fun i => by
    have : (zeros (K := ℝ) v.length).getD i 0 = 0 := by
      simp only [zeros, List.getD_eq_getElem?_getD, List.getElem?_replicate]
      split <;> rfl
    rw [this, sub_zero]; exact h i
  linarith

theorem value_drift {c : Constraint ℝ (List ℝ) P} (hg : IsGradientOn D n (fun x => c.computeFn x c.params) (fun x => c.gradFn x c.params))
    (h : Disturbed D n f g x u w) {V L : ℝ} (hV : 0 ≤ V) (hL : ∀ t, 0 ≤ t → oneNorm (c.gradFn (x t) c.params) ≤ L)
    (hv : ∀ t, 0 ≤ t → ∀ i, |(vadd (vadd (f (x t)) (matVec (g (x t)) (u t))) (w t)).getD i 0| ≤ V) {τ t : ℝ} (h0 : 0 ≤ τ) (h1 : τ ≤ t) :
    c.value (x τ) ≤ c.value (x t) + V * L * (t - τ) := by
  have key := stays_nonneg (h := fun s => c.value (x s) - c.value (x τ) + V * L * (s - τ)) (a := τ)
    (h' := fun s => dot (c.gradFn (x s) c.params) (vadd (vadd (f (x s)) (matVec (g (x s)) (u s))) (w s)) + V * L * 1)
    ((((disturbed_cont h hg).mono fun s hs => h0.trans hs).add continuousOn_const |>.sub continuousOn_const).add
      (continuousOn_const.mul (continuousOn_id.sub continuousOn_const)))
    (fun s hs => (((disturbed_deriv h hg (h0.trans hs)).add_const _).sub_const _).add
      (((hasDerivWithinAt_id s (Ici s)).sub_const τ).const_mul (V * L)))
    (fun s hs _ => by
      have h2 := dot_abs_le hV (c.gradFn (x s) c.params) _ (hv s (h0.trans hs))
      have h3 := mul_le_mul_of_nonneg_left (hL s (h0.trans hs)) hV
      linarith)
    (by simp) t h1
  linarith

end

/-! ### C104 -/

section
variable {ε δ W L B V M Δ start : ℝ} {solver : Solver ℝ} {k : String} {c : Constraint ℝ (List ℝ) P} {D : Set (List ℝ)} {n : Nat}
  {f : List ℝ → List ℝ} {g : List ℝ → List (List ℝ)} {x u w : ℝ → List ℝ}

/-- Old states are estimates of the current one: off by at most `V Δ` in each entry. -/
theorem delayed_robust (hM : 0 ≤ M) (hV : 0 ≤ V) (hstart : 0 ≤ start) (h : DelayedLoop solver k c D n f g x u w ε W L B V M Δ start X) :
    ∃ y : ℝ → List ℝ, RobustLoop solver k c D n f g (fun t => x (start + t)) y (fun t => u (start + t)) (fun t => w (start + t))
      ε W L B (M * (V * Δ)) (V * L * Δ) X := by
  have hL : 0 ≤ V * L := mul_nonneg hV ((List.sum_nonneg (by simp)).trans (h.slope 0 le_rfl))
  choose! τ h0 h1 h2 hf using h.filtered
  have pos : ∀ t, 0 ≤ t → start ≤ start + t := fun t ht => by linarith
  have pos' : ∀ t, 0 ≤ t → 0 ≤ start + t := fun t ht => by linarith
  refine ⟨fun t => x (τ (start + t)), h.grad, ⟨fun t ht => h.motion.curve _ (pos' t ht), fun i hi => ?_, fun t ht => h.motion.len _ (pos' t ht),
    fun t ht => h.motion.wlen _ (pos' t ht), fun t ht i hi => ?_⟩, h.enabled, h.noSlack, fun t ht => h.disturbance _ (pos' t ht),
    fun t ht => h.slope _ (pos' t ht), fun t ht => ?_, fun t ht => ?_, fun t ht => hf _ (pos t ht)⟩
  · exact (h.motion.cont i hi).comp (by fun_prop) fun t ht => pos' t ht
  · have hd := h.motion.deriv (start + t) (pos' t ht) i hi
    have := hd.scomp (h := fun s => start + s) t (((hasDerivAt_id t).const_add start).hasDerivWithinAt (s := Ici t))
      (fun s hs => add_le_add_right (show t ≤ s from hs) start)
    exact this.congr_deriv (one_smul _ _)
  · have p := pos t ht
    refine (sub_le_sub_left (mul_le_mul_of_nonneg_left (mul_le_mul_of_nonneg_left (?_ : start + t - τ (start + t) ≤ Δ) hV) hM) _).trans
      (h.rate (start + t) p _ (h.motion.curve _ (h0 _ p)).1 _ (h.motion.curve _ (pos' t ht)).1 (h.motion.curve _ (h0 _ p)).2
        (h.motion.curve _ (pos' t ht)).2 _ fun i => state_drift h.motion hV h.speed (h0 _ p) (h1 _ p) i)
    have := h2 _ p
    linarith
  · have p := pos t ht
    have key := value_drift h.grad h.motion hV h.slope h.speed (h0 _ p) (h1 _ p)
    have h3 : V * L * (start + t - τ (start + t)) ≤ V * L * Δ := mul_le_mul_of_nonneg_left (by have := h2 _ p; linarith) hL
    show c.value (x (τ (start + t))) ≤ c.value (x (start + t)) + V * L * Δ
    linarith

/-- **C104, loop.** If the strengthening term makes up for the errors of solver and disturbance and for `M V Δ` below `V L Δ - η`, the
value of an enabled constraint without slack never falls below `-η`. -/
theorem C104_loop (hε : 0 ≤ ε) (hW : 0 ≤ W) (hM : 0 ≤ M) (hV : 0 ≤ V) (hstart : 0 ≤ start) (hspec : SolverTol ε δ solver)
    (h : DelayedLoop solver k c D n f g x u w ε W L B V M Δ start X) {al : ℝ → ℝ} (ha : c.alpha = some al) {η : ℝ}
    (hneg : ∀ v < V * L * Δ - η, strengthening c al v ≤ -(ε * (1 + B) + W * L + M * (V * Δ))) (h0 : -η ≤ c.value (x start)) :
    ∀ t, start ≤ t → -η ≤ c.value (x t) := by
  obtain ⟨y, hr⟩ := delayed_robust hM hV hstart h
  intro t ht
  have := C101_loop hε hW hspec hr ha hneg (by simpa using h0) (t - start) (by linarith)
  simpa using this

/-- **C104, `bias_negative` and `bias`.** With a class-K strengthener and the default negative branch: if `-bias_negative` is at least
`ε (1 + B) + W L + M V Δ` the value never falls below `-V L Δ`, and if also `-bias` is at least `V L Δ` the quantity the constraint is
about never becomes negative. -/
theorem C104_bias (hε : 0 ≤ ε) (hW : 0 ≤ W) (hM : 0 ≤ M) (hV : 0 ≤ V) (hstart : 0 ≤ start) (hspec : SolverTol ε δ solver)
    (h : DelayedLoop solver k c D n f g x u w ε W L B V M Δ start X) {coefs : List ℝ} (hk : ClassKCoefs coefs)
    (ha : c.alpha = some (polyAlpha coefs)) (hnegb : c.alphaNeg = none) (hbias : ε * (1 + B) + W * L + M * (V * Δ) ≤ -c.biasNegative)
    (h0 : -(V * L * Δ) ≤ c.value (x start)) :
    (∀ t, start ≤ t → -(V * L * Δ) ≤ c.value (x t)) ∧ (V * L * Δ ≤ -c.bias → ∀ t, start ≤ t → 0 ≤ c.computeFn (x t) c.params) := by
  obtain ⟨y, hr⟩ := delayed_robust hM hV hstart h
  obtain ⟨h1, h2⟩ := C101_bias hε hW hspec hr hk ha hnegb hbias (by simpa using h0)
  exact ⟨fun t ht => by simpa using h1 (t - start) (by linarith), fun hb t ht => by simpa using h2 hb (t - start) (by linarith)⟩

/-- **C104, without `bias_negative`.** A linear strengthener with slope `a` keeps the value above minus `V L Δ` minus a tenth of the
errors over `a`. -/
theorem C104_linear (hε : 0 ≤ ε) (hW : 0 ≤ W) (hM : 0 ≤ M) (hV : 0 ≤ V) (hstart : 0 ≤ start) (hspec : SolverTol ε δ solver)
    (h : DelayedLoop solver k c D n f g x u w ε W L B V M Δ start X) {a η : ℝ} (hap : 0 < a) (ha : c.alpha = some fun v => a * v)
    (hnegb : c.alphaNeg = none) (hbn : c.biasNegative ≤ 0) (hη : V * L * Δ ≤ η)
    (hsize : ε * (1 + B) + W * L + M * (V * Δ) ≤ 10 * a * (η - V * L * Δ)) (h0 : -η ≤ c.value (x start)) :
    ∀ t, start ≤ t → -η ≤ c.value (x t) := by
  obtain ⟨y, hr⟩ := delayed_robust hM hV hstart h
  intro t ht
  simpa using C101_linear hε hW hspec hr hap ha hnegb hbn hη hsize (by simpa using h0) (t - start) (by linarith)

/-- **C104, recovery.** With `κ > 0` to spare, a value `v < -η` at `start` is back at `-η` after `(-η - v) / κ` and stays there. -/
theorem C104_recovery (hε : 0 ≤ ε) (hW : 0 ≤ W) (hM : 0 ≤ M) (hV : 0 ≤ V) (hstart : 0 ≤ start) (hspec : SolverTol ε δ solver)
    (h : DelayedLoop solver k c D n f g x u w ε W L B V M Δ start X) {al : ℝ → ℝ} (ha : c.alpha = some al) {η κ : ℝ} (hκ : 0 < κ)
    (hneg : ∀ v < V * L * Δ - η, strengthening c al v ≤ -(ε * (1 + B) + W * L + M * (V * Δ) + κ)) (h0 : c.value (x start) < -η) :
    ∀ t, start + (-η - c.value (x start)) / κ ≤ t → -η ≤ c.value (x t) := by
  obtain ⟨y, hr⟩ := delayed_robust hM hV hstart h
  intro t ht
  simpa using C101_recovery hε hW hκ hspec hr ha hneg (by simpa using h0) (t - start) (by simp only [add_zero]; linarith)

end

/-! ### Sample times and computing times -/

/-- The module is called at the times `τ 0 ≤ τ 1 ≤ …`, at most `dt` apart, for as long as anybody cares; its answer to call `j` is applied
after `lat j ≤ ℓ` (never overtaking), and until the next answer. -/
structure Commands (dt ℓ : ℝ) (τ lat : ℕ → ℝ) : Prop where
  times : SampleTimes dt τ
  forever : ∀ t, ∃ j, t < τ j
  nonneg : ∀ j, 0 ≤ lat j
  late : ∀ j, lat j ≤ ℓ

/-- **C104, schedule.** With sample times at most `dt` apart and computing times of at most `ℓ`, from the time `ℓ` on some answer is
being applied, and the state it was computed for is at most `dt + ℓ` old. -/
theorem C104_age {dt ℓ : ℝ} {τ lat : ℕ → ℝ} (h : Commands dt ℓ τ lat) {t : ℝ} (ht : ℓ ≤ t) :
    ∃ j, τ j + lat j ≤ t ∧ t < τ (j + 1) + lat (j + 1) ∧ 0 ≤ τ j ∧ τ j ≤ t ∧ t ≤ τ j + (dt + ℓ) := by
  have hex : ∃ j, t < τ (j + 1) + lat (j + 1) := by
    obtain ⟨j, hj⟩ := h.forever t
    exact ⟨j, by have := h.times.mono j; have := h.nonneg (j + 1); linarith⟩
  classical
  have hj := Nat.find_spec hex
  have hmin : τ (Nat.find hex) + lat (Nat.find hex) ≤ t := by
    rcases Nat.eq_zero_or_pos (Nat.find hex) with h0 | h0
    · rw [h0, h.times.zero]; have := h.late 0; linarith
    · have := Nat.find_min hex (Nat.sub_lt h0 Nat.one_pos)
      rw [Nat.sub_add_cancel h0] at this
      exact not_lt.1 this
  refine ⟨Nat.find hex, hmin, hj, h.times.nonneg _, ?_, ?_⟩
  · have := h.nonneg (Nat.find hex); linarith
  · have := h.times.step (Nat.find hex); have := h.late (Nat.find hex + 1); linarith

/-- **C104, sampled loop.** A module that is called at such times for the current state, each answer applied when it is there and held until
the next one, makes a `DelayedLoop` with `Δ = dt + ℓ`. -/
theorem C104_sampled {dt ℓ : ℝ} {τ lat : ℕ → ℝ} (hτ : Commands dt ℓ τ lat) {ε W L B V M : ℝ} {solver : Solver ℝ} {k : String}
    {c : Constraint ℝ (List ℝ) P} {D : Set (List ℝ)} {n : Nat} {f : List ℝ → List ℝ} {g : List ℝ → List (List ℝ)} {x u w : ℝ → List ℝ}
    (hgrad : IsGradientOn D n (fun x => c.computeFn x c.params) (fun x => c.gradFn x c.params)) (hmotion : Disturbed D n f g x u w)
    (henabled : c.enabled = true) (hslack : c.slackPriorityScale = none) (hdist : ∀ t, 0 ≤ t → ∀ i, |(w t).getD i 0| ≤ W)
    (hslope : ∀ t, 0 ≤ t → oneNorm (c.gradFn (x t) c.params) ≤ L)
    (hspeed : ∀ t, 0 ≤ t → ∀ i, |(vadd (vadd (f (x t)) (matVec (g (x t)) (u t))) (w t)).getD i 0| ≤ V)
    (hrate : ∀ t, ℓ ≤ t → ∀ a ∈ D, ∀ b ∈ D, a.length = n → b.length = n → ∀ r, (∀ i, |a.getD i 0 - b.getD i 0| ≤ r) →
      c.rate f g a (u t) - M * r ≤ c.rate f g b (u t))
    (hcall : ∀ j, ∃ (s s' : ASIFObj ℝ (List ℝ) P X) (d : ℝ) (uDes v : List ℝ), ExplicitModule solver f g s ∧ ScalesPos s.constraints ∧
      BoundsConsistent s.controlBoundsLow s.controlBoundsHigh ∧ s.enable = true ∧ (k, c) ∈ s.constraints ∧ ShapesOK f g s (x (τ j)) ∧
      ε * authority g s.ext.controlDim c (x (τ j)) ≤ ε * B ∧
      (s.ext.solverException = true ∨ ∃ w d, AdmissibleBy (-ε) f g s (x (τ j)) w d) ∧
      explicitASIF solver f g s (.array (x (τ j))) d uDes = (.ok v, s') ∧ ∀ t, τ j + lat j ≤ t → t < τ (j + 1) + lat (j + 1) → u t = v) :
    DelayedLoop solver k c D n f g x u w ε W L B V M (dt + ℓ) ℓ X := by
  refine ⟨hgrad, hmotion, henabled, hslack, hdist, hslope, hspeed, hrate, fun t ht => ?_⟩
  obtain ⟨j, h1, h2, h3, h4, h5⟩ := C104_age hτ ht
  obtain ⟨s, s', d, uDes, v, q1, q2, q3, q4, q5, q6, q7, q8, q9, q10⟩ := hcall j
  exact ⟨τ j, h3, h4, h5, s, s', d, uDes, q1, q2, q3, q4, q5, q6, q7, q8, by rw [q10 t h1 h2]; exact q9⟩

/-! ### `bias` is needed -/

/-- A wind that grows with time, which is the second entry of the state. -/
def windF (x : List ℝ) : List ℝ := [-x.getD 1 0, 1]

theorem lineObj_module (solver : Solver ℝ) (f : List ℝ → List ℝ) (g : List ℝ → List (List ℝ)) (al : ℝ → ℝ) (b : ℝ) :
    ExplicitModule solver f g (lineObj al b) :=
  ⟨none, none, [("c", lineC al b)], none, 1 / 100, 1, false, [], (), lineObj al b, [], by simp [dictKeys], by simp [dictKeys], rfl, rfl⟩

theorem wind_shapes (al : ℝ → ℝ) (b p q : ℝ) : ShapesOK windF (fun _ => [[1], [0]]) (lineObj al b) [p, q] :=
  ⟨by simp [lineObj, lineC], by simp [lineObj, lineC, posC, minLimit, Constraint.mk', gradAt, windF], rfl,
    by simp [lineObj], by simp [lineObj]⟩

theorem wind_barrier (al : ℝ → ℝ) (b p q u : ℝ) : barrierValue windF (fun _ => [[1], [0]]) (lineC al b) [p, q] [u] =
    some (u - q + strengthening (lineC al b) al p) := by
  have : dot (gradAt 2 0 (1 : ℝ)) (vadd (windF [p, q]) (matVec [[1], [0]] [u])) = u - q := by
    simp [gradAt, vadd, matVec, List.range_succ, windF]; ring
  simp only [barrierValue, lineC, posC, minLimit, Constraint.mk', Option.map_some, stateAt, List.length_cons, List.length_nil,
    List.getD_cons_zero, sub_zero, add_zero, this]

/-- **C104, `bias` is needed.** The position must not become negative, the wind grows. For every strengthener with `α(0) = 0`, every
`bias_negative` and every step length there is a trajectory that starts with the constraint satisfied, along which the control is the
answer of the module (which does not intervene) to the call at the start, and which violates the constraint at all later times of
the step. -/
theorem C104_bias_needed {al : ℝ → ℝ} (h0 : al 0 = 0) (b : ℝ) {dt : ℝ} (_ : 0 < dt) : ∃ x u : ℝ → List ℝ,
    Trajectory univ 2 windF (fun _ => [[1], [0]]) x u ∧
    (explicitASIF refSolver windF (fun _ => [[1], [0]]) (lineObj al b) (.array (x 0)) dt [0]).1 = .ok (u 0) ∧
    (explicitASIF refSolver windF (fun _ => [[1], [0]]) (lineObj al b) (.array (x 0)) dt [0]).2.intervening = false ∧
    (∀ t, 0 ≤ t → t < dt → u t = u 0) ∧ (lineC al b).value (x 0) = 0 ∧ ∀ t, 0 < t → t ≤ dt → (lineC al b).value (x t) < 0 := by
  have hv : ∀ p q, (lineC al b).value [p, q] = p := fun p q => by
    simp [Constraint.value, lineC, posC, minLimit, Constraint.mk', stateAt]
  have hadm : Admissible windF (fun _ => [[1], [0]]) (lineObj al b) [-(0 ^ 2 / 2), 0] [0] := by
    refine ⟨rfl, fun i l _ => ⟨fun c hl => ?_, fun c hl => ?_⟩, fun kc hkc _ => ?_, fun kd hkd => ?_⟩
    · simp [lineObj, Base.init, boundAt] at hl
    · simp [lineObj, Base.init, boundAt] at hl
    · obtain rfl : kc = ("c", lineC al b) := by simpa [lineObj] using hkc
      refine ⟨_, wind_barrier al b _ _ _, ?_⟩
      unfold strengthening
      rw [show -((0 : ℝ) ^ 2 / 2) = 0 by norm_num, if_pos le_rfl, h0]
      norm_num
    · simp [lineObj] at hkd
  obtain ⟨h1, h2⟩ := C25_no_interference refSolver_spec (lineObj_module _ _ _ al b) (line_pos al b)
    (show (0 : ℝ) ≤ 1 / 100 by norm_num) rfl _ (wind_shapes al b _ _) dt [0] hadm
  refine ⟨fun t => [-(t ^ 2 / 2), t], fun _ => [0], ⟨fun t _ => ⟨mem_univ _, rfl⟩, fun i hi => ?_, fun t _ => rfl, fun t _ i hi => ?_⟩, h1, h2,
    fun _ _ _ => rfl, by rw [hv]; norm_num, fun t ht _ => by rw [hv]; have := pow_pos ht 2; linarith⟩
  · interval_cases i
    · show ContinuousOn (fun t : ℝ => -(t ^ 2 / 2)) _; fun_prop
    · exact continuousOn_id
  · interval_cases i
    · have e : (vadd (windF [-(t ^ 2 / 2), t]) (matVec [[1], [0]] [0])).getD 0 0 = -t := by simp [vadd, matVec, windF]
      show HasDerivWithinAt (fun t : ℝ => -(t ^ 2 / 2)) _ _ _
      rw [e]
      exact (((hasDerivAt_pow 2 t).div_const 2).neg.congr_deriv (by ring)).hasDerivWithinAt
    · have e : (vadd (windF [-(t ^ 2 / 2), t]) (matVec [[1], [0]] [0])).getD 1 0 = 1 := by simp [vadd, matVec, windF]
      show HasDerivWithinAt (fun t : ℝ => t) _ _ _
      rw [e]
      exact hasDerivWithinAt_id t _

/-! ### The hypotheses are met -/

/-- A vehicle that swings between 1 and 3; its control was computed for the state a tenth of a second ago. -/
theorem swing_delayed : DelayedLoop refSolver "c" (lineC (polyAlpha [0, 1]) (-1 / 100)) univ 1 (fun _ => [0]) (fun _ => [[1]])
    (fun t => [2 + Real.sin t]) (fun t => [Real.cos t]) (fun _ => [0]) 0 0 1 1 1 0 (1 / 10) 0 Unit := by
  have hr : ∀ a v : List ℝ, a.length = 1 → (lineC (polyAlpha [0, 1]) (-1 / 100)).rate (fun _ => [0]) (fun _ => [[1]]) a v =
      dot (gradAt 1 0 (1 : ℝ)) (vadd [0] (matVec [[1]] v)) := fun a v ha => by
    unfold Constraint.rate
    simp only [lineC, posC, minLimit, Constraint.mk', ha]
  refine ⟨posC_grad, single_disturbed fun t _ => ?_, rfl, rfl, fun t _ i => ?_, fun t _ => ?_, fun t _ i => ?_,
    fun t _ a _ b _ ha hb r _ => ?_, fun t ht => ?_⟩
  · exact ((Real.hasDerivAt_sin t).const_add 2).congr_deriv (add_zero _).symm
  · rcases i with _ | i <;> simp
  · simp [lineC, posC, minLimit, Constraint.mk', gradAt, oneNorm, List.range_succ]
  · rcases i with _ | i
    · simpa [vadd, matVec] using Real.abs_cos_le_one t
    · simp [vadd, matVec]
  · rw [hr a _ ha, hr b _ hb]; simp
  · have hadm : AdmissibleBy 0 (fun _ => [0]) (fun _ => [[1]]) (lineObj (polyAlpha [0, 1]) (-1 / 100)) [2 + Real.sin (max 0 (t - 1 / 10))]
        [Real.cos t] [] := by
      refine line_by.2 ⟨_, rfl, rfl, ?_⟩
      have h1 := Real.neg_one_le_sin (max 0 (t - 1 / 10))
      have h2 := Real.neg_one_le_cos t
      unfold strengthening
      rw [if_pos (by linarith)]
      simp [polyAlpha, polyLoop]
      linarith
    obtain ⟨h1, -⟩ := C25_no_interference refSolver_spec (line_module _ (polyAlpha [0, 1]) (-1 / 100)) (line_pos _ _)
      (show (0 : ℝ) ≤ 1 / 100 by norm_num) rfl _ (line_shapes _ _ _) 1 _ (admissible_iff_zeros.2 (admissibleBy_zero.1 hadm))
    refine ⟨max 0 (t - 1 / 10), le_max_left _ _, max_le ht (by linarith), by linarith [le_max_right 0 (t - 1 / 10)],
      lineObj (polyAlpha [0, 1]) (-1 / 100), _, 1, [Real.cos t], line_module _ _ _, line_pos _ _, ?_, rfl, by simp [lineObj],
      line_shapes _ _ _, by rw [zero_mul, zero_mul], Or.inr ⟨_, [], by rw [neg_zero]; exact hadm⟩, Prod.ext h1 rfl⟩
    intro i l h hl
    simp [lineObj, Base.init, boundAt] at hl

/-- C104 (`bias_negative`) for the swinging vehicle. -/
example : ∀ t : ℝ, 0 ≤ t → -(1 * 1 * (1 / 10)) ≤ (lineC (polyAlpha [0, 1]) (-1 / 100)).value [2 + Real.sin t] := by
  refine (C104_bias le_rfl le_rfl le_rfl zero_le_one le_rfl (C98_exact refSolver_spec le_rfl le_rfl (ε := 0) (δ := 0)) swing_delayed
    classK_one rfl rfl ?_ ?_).1
  · show (0 : ℝ) * (1 + 1) + 0 * 1 + 0 * (1 * (1 / 10)) ≤ -(-1 / 100)
    norm_num
  · rw [line_value]; simp; norm_num

/-- Ten calls a second whose answers take 20 ms. -/
example : Commands (1 / 10) (1 / 50) (fun j => j / 10) (fun _ => 1 / 50) where
  times := ⟨by simp, fun j => by push_cast; linarith, fun j => by push_cast; linarith⟩
  forever t := by
    obtain ⟨j, hj⟩ := exists_nat_gt (10 * t)
    exact ⟨j, by linarith⟩
  nonneg _ := by norm_num
  late _ := le_rfl

end RTA
