import Verif.Lemmas.Zoo.DockingStep
import Mathlib.Analysis.Calculus.Deriv.Mul
import Mathlib.Analysis.Calculus.Deriv.Add

/-!
Exact solutions of the equations of motion are close to Euler steps.
-/
namespace RTA
open Real Set

/-- Solutions of a second-order equation with a weak force field and a constant acceleration, for ten seconds. -/
theorem flow_near {E : Type} [NormedAddCommGroup E] [NormedSpace ℝ E] {r v : ℝ → E} {F : E → E → E} {g : E} {n dt : ℝ} (hn : 0 ≤ n)
    (hn1 : n ≤ 11 / 10000) (hdt : 0 ≤ dt) (hdt1 : dt ≤ 10)
    (hr : ∀ t ∈ Icc 0 dt, HasDerivWithinAt r (v t) (Icc 0 dt) t)
    (hv : ∀ t ∈ Icc 0 dt, HasDerivWithinAt v (F (r t) (v t) + g) (Icc 0 dt) t)
    (hF : ∀ p q p' q', ‖F p q - F p' q'‖ ≤ 3 * n ^ 2 * ‖p - p'‖ + 2 * n * ‖q - q'‖) (hF0 : F 0 0 = 0) (hg : ‖g‖ ≤ ‖v 0‖ / 24) :
    ‖r dt - r 0‖ ≤ 3 / 2 * dt * (‖v 0‖ + n * ‖r 0‖) ∧
      ‖v dt - (v 0 + dt • (F (r 0) (v 0) + g))‖ ≤ dt / 400 * (‖v 0‖ + n * ‖r 0‖) := by
  have h0 : (0 : ℝ) ∈ Icc 0 dt := ⟨le_rfl, hdt⟩
  have h1 : dt ∈ Icc 0 dt := ⟨hdt, le_rfl⟩
  obtain ⟨τ, hτ, hmax⟩ := (isCompact_Icc (a := (0 : ℝ)) (b := dt)).exists_isMaxOn ⟨0, h0⟩ (f := fun t => ‖v t - v 0‖)
    (ContinuousOn.norm (ContinuousOn.sub (fun t ht => (hv t ht).continuousWithinAt) continuousOn_const))
  generalize hM : ‖v τ - v 0‖ = M at hmax
  have hMle : ∀ t ∈ Icc 0 dt, ‖v t - v 0‖ ≤ M := fun t ht => by rw [← hM]; exact hmax ht
  have hM0 : 0 ≤ M := by rw [← hM]; exact norm_nonneg _
  have hV := norm_nonneg (v 0)
  have hR := norm_nonneg (r 0)
  have hF00 : ‖F (r 0) (v 0)‖ ≤ 3 * n ^ 2 * ‖r 0‖ + 2 * n * ‖v 0‖ := by simpa [hF0] using hF (r 0) (v 0) 0 0
  generalize hVd : ‖v 0‖ = V at *
  generalize hRd : ‖r 0‖ = R at *
  have hvn : ∀ t ∈ Icc 0 dt, ‖v t‖ ≤ V + M := fun t ht => by
    have := norm_sub_norm_le (v t) (v 0)
    have := hMle t ht
    linarith
  have hrt : ∀ t ∈ Icc 0 dt, ‖r t - r 0‖ ≤ (V + M) * dt := fun t ht => by
    have := norm_image_sub_le_of_norm_deriv_le_segment' hr (fun s hs => hvn s (Ico_subset_Icc_self hs)) t ht
    refine this.trans (mul_le_mul_of_nonneg_left ?_ (by linarith))
    linarith [ht.2]
  have hn2 : n ^ 2 ≤ 11 / 10000 * n := by rw [pow_two]; exact mul_le_mul_of_nonneg_right hn1 hn
  have hdr : ∀ t ∈ Icc 0 dt, ‖F (r t) (v t) - F (r 0) (v 0)‖ ≤ 4 / 100000 * (V + M) + 22 / 10000 * M := fun t ht => by
    have e1 := hF (r t) (v t) (r 0) (v 0)
    have e2 : 3 * n ^ 2 * ‖r t - r 0‖ ≤ 3 * (121 / 100000000) * ((V + M) * 10) :=
      mul_le_mul (by nlinarith) ((hrt t ht).trans (mul_le_mul_of_nonneg_left hdt1 (by linarith))) (norm_nonneg _) (by norm_num)
    have e3 : 2 * n * ‖v t - v 0‖ ≤ 2 * (11 / 10000) * M := mul_le_mul (by linarith) (hMle t ht) (norm_nonneg _) (by norm_num)
    linarith
  have hnR : 3 * n ^ 2 * R ≤ 33 / 10000 * (n * R) := by
    have := mul_le_mul_of_nonneg_right hn2 hR
    linarith
  have hnR0 : 0 ≤ n * R := mul_nonneg hn hR
  have hnV : 2 * n * V ≤ 22 / 10000 * V := by
    have := mul_le_mul_of_nonneg_right hn1 hV
    linarith
  have hMb : M ≤ 45 / 100 * V + 4 / 100 * (n * R) := by
    have e := norm_image_sub_le_of_norm_deriv_le_segment' hv (C := 4 / 100000 * (V + M) + 22 / 10000 * M + 33 / 10000 * (n * R) + 22 / 10000 * V + V / 24)
      (fun t ht => by
        have e1 := hdr t (Ico_subset_Icc_self ht)
        have e2 : ‖F (r t) (v t) + g‖ ≤ ‖F (r t) (v t) - F (r 0) (v 0)‖ + ‖F (r 0) (v 0)‖ + ‖g‖ := by
          refine (norm_add_le _ _).trans ?_
          have := norm_sub_norm_le (F (r t) (v t)) (F (r 0) (v 0))
          linarith
        linarith) τ hτ
    rw [hM, sub_zero] at e
    have e2 := mul_le_mul_of_nonneg_left (hτ.2.trans hdt1)
      (by positivity : 0 ≤ 4 / 100000 * (V + M) + 22 / 10000 * M + 33 / 10000 * (n * R) + 22 / 10000 * V + V / 24)
    linarith
  refine ⟨?_, ?_⟩
  · have e1 := hrt dt h1
    have e2 : (V + M) * dt ≤ (3 / 2 * (V + n * R)) * dt := mul_le_mul_of_nonneg_right (by linarith) hdt
    linarith
  · have e := norm_image_sub_le_of_norm_deriv_le_segment' (f := fun t => v t - t • (F (r 0) (v 0) + g)) (f' := fun t => F (r t) (v t) + g - (1 : ℝ) • (F (r 0) (v 0) + g))
      (a := 0) (b := dt) (C := 1 / 400 * (V + n * R)) (fun t ht => (hv t ht).sub ((hasDerivWithinAt_id t _).smul_const _)) (fun t ht => by
        have e1 := hdr t (Ico_subset_Icc_self ht)
        have e3 : F (r t) (v t) + g - (1 : ℝ) • (F (r 0) (v 0) + g) = F (r t) (v t) - F (r 0) (v 0) := by rw [one_smul]; abel
        rw [e3]
        linarith) dt h1
    have e3 : v dt - dt • (F (r 0) (v 0) + g) - (v 0 - (0 : ℝ) • (F (r 0) (v 0) + g)) = v dt - (v 0 + dt • (F (r 0) (v 0) + g)) := by
      rw [zero_smul]; abel
    simp only [e3] at e
    refine e.trans (le_of_eq ?_)
    ring

/-- Vectors of functions. -/
theorem two_eq (a b : ℝ) : (!₂[a, b] : EuclideanSpace ℝ (Fin 2)) = a • !₂[1, 0] + b • !₂[0, 1] := by
  ext i; fin_cases i <;> simp

theorem three_eq (a b c : ℝ) : (!₂[a, b, c] : EuclideanSpace ℝ (Fin 3)) = a • !₂[1, 0, 0] + b • !₂[0, 1, 0] + c • !₂[0, 0, 1] := by
  ext i; fin_cases i <;> simp

theorem deriv_two {f g : ℝ → ℝ} {f' g' t : ℝ} {S : Set ℝ} (hf : HasDerivWithinAt f f' S t) (hg : HasDerivWithinAt g g' S t) :
    HasDerivWithinAt (fun t => (!₂[f t, g t] : EuclideanSpace ℝ (Fin 2))) !₂[f', g'] S t := by
  have := (hf.smul_const (!₂[1, 0] : EuclideanSpace ℝ (Fin 2))).add (hg.smul_const (!₂[0, 1] : EuclideanSpace ℝ (Fin 2)))
  rw [← two_eq] at this
  exact this.congr_of_eventuallyEq (Filter.Eventually.of_forall fun s => two_eq _ _) (two_eq _ _)

theorem deriv_three {f g h : ℝ → ℝ} {f' g' h' t : ℝ} {S : Set ℝ} (hf : HasDerivWithinAt f f' S t) (hg : HasDerivWithinAt g g' S t)
    (hh : HasDerivWithinAt h h' S t) :
    HasDerivWithinAt (fun t => (!₂[f t, g t, h t] : EuclideanSpace ℝ (Fin 3))) !₂[f', g', h'] S t := by
  have := ((hf.smul_const (!₂[1, 0, 0] : EuclideanSpace ℝ (Fin 3))).add (hg.smul_const (!₂[0, 1, 0] : EuclideanSpace ℝ (Fin 3)))).add
    (hh.smul_const (!₂[0, 0, 1] : EuclideanSpace ℝ (Fin 3)))
  rw [← three_eq] at this
  exact this.congr_of_eventuallyEq (Filter.Eventually.of_forall fun s => three_eq _ _ _) (three_eq _ _ _)

end RTA
