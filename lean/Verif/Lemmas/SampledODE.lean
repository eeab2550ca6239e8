import Verif.Lemmas.GlobalODE

/-!
Sampling: the solution of `β' = p(β) + q(β at the last sample)` is close to that of `α' = p(α) + q(α)`.
-/
namespace RTA
open Set
open scoped NNReal
variable {E : Type*} [NormedAddCommGroup E] [NormedSpace ℝ E]

theorem gronwall_linear {A N r : ℝ} (hA : 0 ≤ A) (hN : 0 ≤ N) (hr : 0 ≤ r) : gronwallBound 0 A N r ≤ N * r * Real.exp (A * r) := by
  by_cases h : A = 0
  · rw [h, gronwallBound_K0]
    simp
  · rw [gronwallBound_of_K_ne_0 h]
    have hA' : 0 < A := lt_of_le_of_ne hA (Ne.symm h)
    have h1 := Real.add_one_le_exp (-(A * r))
    have h2 := Real.exp_pos (A * r)
    have h3 : Real.exp (-(A * r)) * Real.exp (A * r) = 1 := by rw [← Real.exp_add]; simp
    have h4 : Real.exp (A * r) - 1 ≤ A * r * Real.exp (A * r) := by
      have := mul_le_mul_of_nonneg_right h1 h2.le
      rw [h3] at this
      linarith
    have h5 : N / A * (Real.exp (A * r) - 1) ≤ N / A * (A * r * Real.exp (A * r)) := mul_le_mul_of_nonneg_left h4 (div_nonneg hN hA)
    have h6 : N / A * (A * r * Real.exp (A * r)) = N * r * Real.exp (A * r) := by field_simp
    beta_reduce
    rw [zero_mul, zero_add]
    linarith

/-- For every end time there is a constant such that solutions with samples at distance `Δ ≤ 1` differ from the solution without sampling by at
most this constant times `Δ`. -/
theorem sampled_close {p q : E → E} {Kp Kq : ℝ≥0} (hp : LipschitzWith Kp p) (hq : LipschitzWith Kq q) {T : ℝ} (hT : 0 ≤ T) (x0 : E) :
    ∃ C, 0 ≤ C ∧ ∀ Δ : ℝ, 0 < Δ → Δ ≤ 1 → ∀ α β : ℝ → E, ContinuousOn α (Ici 0) →
      (∀ t, 0 ≤ t → HasDerivWithinAt α (p (α t) + q (α t)) (Ici t) t) → ContinuousOn β (Ici 0) →
      (∀ k : ℕ, ∀ t ∈ Ico ((k : ℝ) * Δ) ((k + 1) * Δ), HasDerivWithinAt β (p (β t) + q (β (k * Δ))) (Ici t) t) → α 0 = x0 → β 0 = x0 →
      ∀ t, 0 ≤ t → t ≤ T → dist (α t) (β t) ≤ C * Δ := by
  obtain ⟨A, hAdef⟩ : ∃ A : ℝ, A = (Kp : ℝ) := ⟨_, rfl⟩
  have hA : 0 ≤ A := by rw [hAdef]; exact Kp.2
  have hB : (0 : ℝ) ≤ Kq := Kq.2
  set e0 := Real.exp A with he0
  have he0p : 0 < e0 := Real.exp_pos _
  set V := ‖p x0 + q x0‖ * Real.exp ((A + Kq) * e0 * T) with hV
  have hV0 : 0 ≤ V := mul_nonneg (norm_nonneg _) (Real.exp_pos _).le
  have hpq : LipschitzWith (Kp + Kq) fun y => p y + q y := hp.add hq
  refine ⟨Kq * V * e0 * T * Real.exp ((A + Kq) * T), by positivity, fun Δ hΔ hΔ1 α β hα hα' hβ hβ' ha hb t ht htT => ?_⟩
  have hk0 : ∀ k : ℕ, 0 ≤ (k : ℝ) * Δ := fun k => mul_nonneg (Nat.cast_nonneg k) hΔ.le
  -- within a step
  have hstep : ∀ k : ℕ, ∀ r ∈ Icc ((k : ℝ) * Δ) ((k + 1) * Δ), ‖β r - β (k * Δ)‖ ≤ ‖p (β (k * Δ)) + q (β (k * Δ))‖ * Δ * e0 := by
    intro k r hr
    have h1 := norm_le_gronwallBound_of_norm_deriv_right_le (f := fun t => β t - β (k * Δ)) (f' := fun t => p (β t) + q (β (k * Δ)))
      (δ := 0) (K := A) (ε := ‖p (β (k * Δ)) + q (β (k * Δ))‖) (a := k * Δ) (b := (k + 1) * Δ)
      ((hβ.mono fun s hs => (hk0 k).trans hs.1).sub continuousOn_const) (fun s hs => (hβ' k s hs).sub_const _) (by simp)
      (fun s hs => ?_) r hr
    · refine h1.trans ((gronwall_linear hA (norm_nonneg _) (by linarith [hr.1])).trans ?_)
      have h2 : r - k * Δ ≤ Δ := by linarith [hr.2]
      have h2' : 0 ≤ r - k * Δ := by linarith [hr.1]
      have h3 : Real.exp (A * (r - k * Δ)) ≤ e0 := Real.exp_le_exp.2 (by nlinarith)
      exact mul_le_mul (mul_le_mul_of_nonneg_left h2 (norm_nonneg _)) h3 (Real.exp_pos _).le (by positivity)
    · have h2 := hp.dist_le_mul (β s) (β (k * Δ))
      rw [dist_eq_norm, dist_eq_norm] at h2
      rw [← hAdef] at h2
      have h3 : p (β s) + q (β (k * Δ)) = (p (β s) - p (β (k * Δ))) + (p (β (k * Δ)) + q (β (k * Δ))) := by abel
      rw [h3]
      exact (norm_add_le _ _).trans (by linarith)
  -- speeds at the samples
  have hN : ∀ k : ℕ, ‖p (β (k * Δ)) + q (β (k * Δ))‖ ≤ ‖p x0 + q x0‖ * Real.exp ((A + Kq) * e0 * (k * Δ)) := by
    intro k
    induction k with
    | zero => simp [hb]
    | succ k ih =>
      have h1 := hstep k ((k + 1) * Δ) ⟨by linarith, le_rfl⟩
      have h2 := hpq.dist_le_mul (β ((k + 1) * Δ)) (β (k * Δ))
      rw [dist_eq_norm, dist_eq_norm] at h2
      push_cast at h2 ⊢
      rw [← hAdef] at h2
      set N := ‖p (β (k * Δ)) + q (β (k * Δ))‖ with hNd
      have h3 := norm_le_norm_add_norm_sub' (p (β ((k + 1) * Δ)) + q (β ((k + 1) * Δ))) (p (β (k * Δ)) + q (β (k * Δ)))
      have h4 : ‖p (β ((k + 1) * Δ)) + q (β ((k + 1) * Δ))‖ ≤ N * (1 + (A + Kq) * e0 * Δ) := by
        have := mul_le_mul_of_nonneg_left h1 (show 0 ≤ A + (Kq : ℝ) by positivity)
        have e : N * (1 + (A + Kq) * e0 * Δ) = N + (A + Kq) * (N * Δ * e0) := by ring
        rw [e]
        linarith
      have h5 := Real.add_one_le_exp ((A + Kq) * e0 * Δ)
      have h6 : Real.exp ((A + Kq) * e0 * ((k + 1) * Δ)) = Real.exp ((A + Kq) * e0 * (k * Δ)) * Real.exp ((A + Kq) * e0 * Δ) := by
        rw [← Real.exp_add]; ring_nf
      rw [h6, ← mul_assoc]
      refine h4.trans (mul_le_mul ih (by linarith) (by positivity) (by positivity))
  -- the defect
  have hdef : ∀ r ∈ Ico 0 t, HasDerivWithinAt β (p (β r) + q (β (⌊r / Δ⌋₊ * Δ))) (Ici r) r ∧
      dist (p (β r) + q (β (⌊r / Δ⌋₊ * Δ))) (p (β r) + q (β r)) ≤ Kq * V * e0 * Δ := by
    intro r hr
    have h1 : (⌊r / Δ⌋₊ : ℝ) * Δ ≤ r := (le_div_iff₀ hΔ).1 (Nat.floor_le (div_nonneg hr.1 hΔ.le))
    have h2 : r < ((⌊r / Δ⌋₊ : ℝ) + 1) * Δ := (div_lt_iff₀ hΔ).1 (Nat.lt_floor_add_one (r / Δ))
    refine ⟨hβ' _ r ⟨h1, h2⟩, ?_⟩
    rw [dist_add_left]
    refine (hq.dist_le_mul _ _).trans ?_
    rw [dist_comm, dist_eq_norm]
    have h3 := hstep ⌊r / Δ⌋₊ r ⟨h1, h2.le⟩
    have h4 : ‖p (β (⌊r / Δ⌋₊ * Δ)) + q (β (⌊r / Δ⌋₊ * Δ))‖ ≤ V := by
      refine (hN _).trans (mul_le_mul_of_nonneg_left (Real.exp_le_exp.2 (mul_le_mul_of_nonneg_left ?_ (by positivity))) (norm_nonneg _))
      linarith [hr.2]
    have h5 : ‖β r - β (⌊r / Δ⌋₊ * Δ)‖ ≤ V * Δ * e0 :=
      h3.trans (mul_le_mul_of_nonneg_right (mul_le_mul_of_nonneg_right h4 hΔ.le) he0p.le)
    have := mul_le_mul_of_nonneg_left h5 hB
    linarith [this, show (Kq : ℝ) * (V * Δ * e0) = Kq * V * e0 * Δ by ring]
  have h7 := dist_le_of_approx_trajectories_ODE (v := fun _ => fun y => p y + q y) (fun _ => hpq) (hα.mono Icc_subset_Ici_self)
    (fun s hs => hα' s hs.1) (εf := 0) (fun s _ => by simp) (hβ.mono Icc_subset_Ici_self) (fun s hs => (hdef s hs).1)
    (fun s hs => (hdef s hs).2) (δ := 0) (by rw [ha, hb, dist_self]) t ⟨ht, le_rfl⟩
  refine h7.trans ?_
  rw [zero_add, sub_zero]
  refine (gronwall_linear (by positivity) (by positivity) ht).trans ?_
  have h8 : Real.exp ((Kp + Kq : ℝ≥0) * t) ≤ Real.exp ((A + Kq) * T) := by
    refine Real.exp_le_exp.2 ?_
    push_cast
    rw [← hAdef]
    exact mul_le_mul_of_nonneg_left htT (by positivity)
  have h9 : Kq * V * e0 * Δ * t ≤ Kq * V * e0 * Δ * T := mul_le_mul_of_nonneg_left htT (by positivity)
  have := mul_le_mul h9 h8 (Real.exp_pos _).le (by positivity)
  linarith [this, show Kq * V * e0 * Δ * T * Real.exp ((A + Kq) * T) = Kq * V * e0 * T * Real.exp ((A + Kq) * T) * Δ by ring]

end RTA
