import Mathlib.Analysis.ODE.ExistUnique
import Mathlib.Analysis.ODE.Gronwall

/-! Solutions of `x' = F x` for all times, for `F` with a Lipschitz constant. -/
namespace RTA
open Set Metric
open scoped NNReal

variable {E : Type} [NormedAddCommGroup E] [NormedSpace ℝ E] [CompleteSpace E]

/-- A solution on an interval whose length does not depend on the start. -/
theorem ode_step {F : E → E} {K : ℝ≥0} (hF : LipschitzWith K F) (y : E) :
    ∃ α : ℝ → E, α 0 = y ∧ ∀ t ∈ Icc (0 : ℝ) (1 / (1 + K)), HasDerivWithinAt α (F (α t)) (Icc 0 (1 / (1 + K))) t := by
  have hε : (0 : ℝ) ≤ 1 / (1 + K) := by positivity
  have h := IsPicardLindelof.of_time_independent (f := F) (tmin := 0) (tmax := 1 / (1 + (K : ℝ))) (t₀ := ⟨0, le_rfl, hε⟩) (x₀ := y)
    (a := ‖F y‖₊ + 1) (r := 0) (L := (1 + K) * (‖F y‖₊ + 1)) (K := K) (fun x hx => ?_) (hF.lipschitzOnWith) ?_
  · exact h.exists_eq_forall_mem_Icc_hasDerivWithinAt₀
  · have h1 := hF.dist_le_mul x y
    rw [dist_eq_norm] at h1
    have h2 : dist x y ≤ ‖F y‖ + 1 := by simpa using mem_closedBall.1 hx
    have h3 := norm_le_norm_add_norm_sub' (F x) (F y)
    have h4 := mul_le_mul_of_nonneg_left h2 K.2
    have h4 : (K : ℝ) * dist x y ≤ K * (‖F y‖ + 1) := h4
    push_cast
    linarith
  · simp only [sub_zero, sub_self, max_eq_left hε, NNReal.coe_zero, NNReal.coe_mul, NNReal.coe_add, NNReal.coe_one]
    have : (1 + (K : ℝ)) ≠ 0 := by positivity
    refine le_of_eq ?_
    field_simp

/-- A solution for all times, by joining the pieces. -/
theorem ode_global {F : E → E} {K : ℝ≥0} (hF : LipschitzWith K F) (x0 : E) :
    ∃ α : ℝ → E, α 0 = x0 ∧ ContinuousOn α (Ici 0) ∧ ∀ t, 0 ≤ t → HasDerivWithinAt α (F (α t)) (Ici t) t := by
  choose φ h0 hd using ode_step hF
  set ε : ℝ := 1 / (1 + K) with hεd
  have hε : 0 < ε := by positivity
  let y : ℕ → E := fun k => Nat.rec x0 (fun _ z => φ z ε) k
  have hy : ∀ k, y (k + 1) = φ (y k) ε := fun k => rfl
  let α : ℝ → E := fun t => φ (y ⌊t / ε⌋₊) (t - ⌊t / ε⌋₊ * ε)
  have hfl : ∀ (k : ℕ) (t : ℝ), k * ε ≤ t → t < (k + 1) * ε → ⌊t / ε⌋₊ = k := by
    intro k t h1 h2
    have h3 : (k : ℝ) ≤ t / ε := (le_div_iff₀ hε).2 h1
    exact (Nat.floor_eq_iff ((Nat.cast_nonneg k).trans h3)).2 ⟨h3, (div_lt_iff₀ hε).2 h2⟩
  have hα : ∀ (k : ℕ) (t : ℝ), t ∈ Icc (k * ε) ((k + 1) * ε) → α t = φ (y k) (t - k * ε) := by
    intro k t ht
    rcases ht.2.lt_or_eq with h | h
    · simp only [α, hfl k t ht.1 h]
    · have e : ⌊t / ε⌋₊ = k + 1 := hfl (k + 1) t (by push_cast; exact h.ge) (by push_cast; linarith)
      simp only [α, e, hy]
      rw [h]
      push_cast
      rw [sub_self, h0, show (k + 1 : ℝ) * ε - k * ε = ε by ring]
  have hpiece : ∀ (k : ℕ) (t : ℝ), t ∈ Icc (k * ε) ((k + 1) * ε) →
      HasDerivWithinAt α (F (α t)) (Icc (k * ε) ((k + 1) * ε)) t := by
    intro k t ht
    have hmem : t - k * ε ∈ Icc 0 ε := ⟨by linarith [ht.1], by linarith [ht.2]⟩
    have h1 := hd (y k) _ hmem
    have h2 : HasDerivWithinAt (fun s : ℝ => s - k * ε) 1 (Icc (k * ε) ((k + 1) * ε)) t := ((hasDerivAt_id t).sub_const _).hasDerivWithinAt
    have h3 := h1.scomp t h2 (fun s hs => show s - k * ε ∈ Icc 0 ε from ⟨by linarith [hs.1], by linarith [hs.2]⟩)
    rw [one_smul, ← hα k t ht] at h3
    exact h3.congr (fun s hs => hα k s hs) (hα k t ht)
  have hright : ∀ t, 0 ≤ t → HasDerivWithinAt α (F (α t)) (Ici t) t := by
    intro t ht
    have h1 := Nat.floor_le (div_nonneg ht hε.le)
    have h2 := Nat.lt_floor_add_one (t / ε)
    have h1 := (le_div_iff₀ hε).1 h1
    have h2 := (div_lt_iff₀ hε).1 h2
    exact ((hpiece _ t ⟨h1, h2.le⟩).mono (Icc_subset_Icc_left h1)).mono_of_mem_nhdsWithin (Icc_mem_nhdsGE h2)
  refine ⟨α, ?_, fun t ht => ?_, hright⟩
  · have := hα 0 0 (by simp [hε.le])
    rw [this]
    simp [h0, y]
  · rcases (mem_Ici.1 ht).eq_or_lt with rfl | hpos
    · exact (hright 0 le_rfl).continuousWithinAt
    · refine ContinuousAt.continuousWithinAt (continuousAt_iff_continuous_left_right.2 ⟨?_, (hright t hpos.le).continuousWithinAt⟩)
      have hc : 0 < ⌈t / ε⌉₊ := Nat.ceil_pos.2 (div_pos hpos hε)
      obtain ⟨k, hk⟩ := Nat.exists_eq_succ_of_ne_zero hc.ne'
      have h1 := Nat.le_ceil (t / ε)
      have h2 : (k : ℝ) < t / ε := Nat.lt_ceil.1 (by omega)
      rw [hk] at h1
      push_cast at h1
      have h1 := (div_le_iff₀ hε).1 h1
      have h2 := (lt_div_iff₀ hε).1 h2
      exact ((hpiece k t ⟨h2.le, h1⟩).continuousWithinAt.mono (Icc_subset_Icc_right h1)).mono_of_mem_nhdsWithin (Icc_mem_nhdsLE h2)

omit [CompleteSpace E] in
/-- Two solutions move apart at most exponentially. -/
theorem ode_dependence {F : E → E} {K : ℝ≥0} (hF : LipschitzWith K F) {α β : ℝ → E} (hα : ContinuousOn α (Ici 0))
    (hα' : ∀ t, 0 ≤ t → HasDerivWithinAt α (F (α t)) (Ici t) t) (hβ : ContinuousOn β (Ici 0))
    (hβ' : ∀ t, 0 ≤ t → HasDerivWithinAt β (F (β t)) (Ici t) t) {t : ℝ} (ht : 0 ≤ t) :
    dist (α t) (β t) ≤ dist (α 0) (β 0) * Real.exp (K * t) := by
  have := dist_le_of_trajectories_ODE (v := fun _ => F) (fun _ => hF) (hα.mono Icc_subset_Ici_self) (fun s hs => hα' s hs.1)
    (hβ.mono Icc_subset_Ici_self) (fun s hs => hβ' s hs.1) le_rfl t ⟨ht, le_rfl⟩
  simpa using this

omit [CompleteSpace E] in
/-- Pieces on intervals of length `ε`, each starting where the last one ends, joined. -/
theorem ode_join {ε : ℝ} (hε : 0 < ε) {F : ℕ → E → E} {φ : ℕ → ℝ → E} (hc : ∀ k, ContinuousOn (φ k) (Icc 0 ε))
    (hd : ∀ k, ∀ t ∈ Ico 0 ε, HasDerivWithinAt (φ k) (F k (φ k t)) (Ici t) t) (hj : ∀ k, φ (k + 1) 0 = φ k ε) :
    ∃ α : ℝ → E, ContinuousOn α (Ici 0) ∧ (∀ k : ℕ, ∀ t ∈ Icc (k * ε) ((k + 1) * ε), α t = φ k (t - k * ε)) ∧
      ∀ k : ℕ, ∀ t ∈ Ico (k * ε) ((k + 1) * ε), HasDerivWithinAt α (F k (α t)) (Ici t) t := by
  let α : ℝ → E := fun t => φ ⌊t / ε⌋₊ (t - ⌊t / ε⌋₊ * ε)
  have hfl : ∀ (k : ℕ) (t : ℝ), k * ε ≤ t → t < (k + 1) * ε → ⌊t / ε⌋₊ = k := by
    intro k t h1 h2
    have h3 : (k : ℝ) ≤ t / ε := (le_div_iff₀ hε).2 h1
    exact (Nat.floor_eq_iff ((Nat.cast_nonneg k).trans h3)).2 ⟨h3, (div_lt_iff₀ hε).2 h2⟩
  have hα : ∀ (k : ℕ) (t : ℝ), t ∈ Icc (k * ε) ((k + 1) * ε) → α t = φ k (t - k * ε) := by
    intro k t ht
    rcases ht.2.lt_or_eq with h | h
    · simp only [α, hfl k t ht.1 h]
    · have e : ⌊t / ε⌋₊ = k + 1 := hfl (k + 1) t (by push_cast; exact h.ge) (by push_cast; linarith)
      simp only [α, e]
      rw [h]
      push_cast
      rw [sub_self, hj, show (k + 1 : ℝ) * ε - k * ε = ε by ring]
  have hright : ∀ k : ℕ, ∀ t ∈ Ico (k * ε) ((k + 1) * ε), HasDerivWithinAt α (F k (α t)) (Ici t) t := by
    intro k t ht
    have hmem : t - k * ε ∈ Ico 0 ε := ⟨by linarith [ht.1], by linarith [ht.2]⟩
    have h1 := hd k _ hmem
    have h2 : HasDerivWithinAt (fun s : ℝ => s - k * ε) 1 (Ici t) t := ((hasDerivAt_id t).sub_const _).hasDerivWithinAt
    have h3 := h1.scomp t h2 (fun s hs => show s - k * ε ∈ Ici (t - k * ε) from sub_le_sub_right (mem_Ici.1 hs) _)
    rw [one_smul, ← hα k t ⟨ht.1, ht.2.le⟩] at h3
    have hnear : Icc t ((k + 1) * ε) ∈ nhdsWithin t (Ici t) := Icc_mem_nhdsGE ht.2
    refine h3.congr_of_eventuallyEq ?_ (hα k t ⟨ht.1, ht.2.le⟩)
    filter_upwards [hnear] with s hs
    exact hα k s ⟨ht.1.trans hs.1, hs.2⟩
  have hpiece : ∀ k : ℕ, ContinuousOn α (Icc (k * ε) ((k + 1) * ε)) := fun k => by
    refine ContinuousOn.congr ?_ (hα k)
    exact (hc k).comp (continuousOn_id.sub continuousOn_const) fun s hs =>
      show s - k * ε ∈ Icc 0 ε from ⟨by linarith [hs.1], by linarith [hs.2]⟩
  refine ⟨α, fun t ht => ?_, hα, hright⟩
  have ht := mem_Ici.1 ht
  have h1 := (le_div_iff₀ hε).1 (Nat.floor_le (div_nonneg ht hε.le))
  have h2 := (div_lt_iff₀ hε).1 (Nat.lt_floor_add_one (t / ε))
  have hr : ContinuousWithinAt α (Ici t) t := (hright _ t ⟨h1, h2⟩).continuousWithinAt
  rcases ht.eq_or_lt with rfl | hpos
  · exact hr
  · refine ContinuousAt.continuousWithinAt (continuousAt_iff_continuous_left_right.2 ⟨?_, hr⟩)
    have hc : 0 < ⌈t / ε⌉₊ := Nat.ceil_pos.2 (div_pos hpos hε)
    obtain ⟨k, hk⟩ := Nat.exists_eq_succ_of_ne_zero hc.ne'
    have h1 := Nat.le_ceil (t / ε)
    have h2 : (k : ℝ) < t / ε := Nat.lt_ceil.1 (by omega)
    rw [hk] at h1
    push_cast at h1
    have h1 := (div_le_iff₀ hε).1 h1
    have h2 := (lt_div_iff₀ hε).1 h2
    exact ((hpiece k t ⟨h2.le, h1⟩).mono (Icc_subset_Icc_right h1)).mono_of_mem_nhdsWithin (Icc_mem_nhdsLE h2)

end RTA
