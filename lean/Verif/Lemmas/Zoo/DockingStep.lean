import Verif.Lemmas.Zoo.DockingGain
import Mathlib.Analysis.InnerProductSpace.PiL2
import Mathlib.Analysis.Calculus.MeanValue

/-!
One step of the docking backup law. Under the limit `s ≤ w + v1 ρ` on the smoothed speed, one period of braking with a gain between `0.39` and
`0.44` keeps the limit when the prediction is close to Euler's.
-/
namespace RTA
open Real Matrix

/-- Smoothed norms satisfy the triangle inequality. -/
theorem smooth_add {c V e δ : ℝ} (hc : 0 ≤ c) (hc1 : c ≤ 1) (he : 0 ≤ e) (hδ : 0 ≤ δ) :
    √((c * V + e) ^ 2 + δ) ≤ c * √(V ^ 2 + δ) + e + (1 - c) * √δ := by
  have h1 : V ≤ √(V ^ 2 + δ) := le_sqrt_of_sq_le (by linarith)
  have h2 : √δ ≤ √(V ^ 2 + δ) := sqrt_le_sqrt (by nlinarith)
  have h3 := sq_sqrt (by positivity : 0 ≤ V ^ 2 + δ)
  have h4 := sq_sqrt hδ
  have h5 := sqrt_nonneg δ
  generalize √(V ^ 2 + δ) = s at *
  generalize √δ = q at *
  refine sqrt_le_iff.2 ⟨by have := mul_nonneg hc (h5.trans h2); have := mul_nonneg (sub_nonneg.2 hc1) h5; linarith, ?_⟩
  have a1 := mul_nonneg (mul_nonneg hc he) (sub_nonneg.2 h1)
  have a2 := mul_nonneg (mul_nonneg (mul_nonneg hc (sub_nonneg.2 hc1)) h5) (sub_nonneg.2 h2)
  have a3 := mul_nonneg (mul_nonneg (sub_nonneg.2 hc1) h5) he
  linear_combination 2 * a1 + 2 * a2 + 2 * a3 - c ^ 2 * h3 - (1 - c ^ 2) * h4

/-- The smoothed norm of a larger number is larger. -/
theorem smooth_mono {V W δ : ℝ} (hV : 0 ≤ V) (h : V ≤ W) : √(V ^ 2 + δ) ≤ √(W ^ 2 + δ) :=
  sqrt_le_sqrt (by nlinarith)

/-- The step in terms of the norms: `V`, `R` before, `V'`, `R'` after. -/
theorem step_core {n C w dt V R V' R' : ℝ} (hn : 0 ≤ n) (hn1 : n ≤ 11 / 10000) (hC : 1 ≤ C) (hC4 : C ≤ 4) (hw : 1 / 20 ≤ w) (hdt : 0 ≤ dt)
    (hdt1 : dt ≤ 25) (hV : 0 ≤ V) (hR : 0 ≤ R) (hV'0 : 0 ≤ V')
    (hsafe : √(V ^ 2 + 1 / 100000) ≤ w + C * n * √(R ^ 2 + 1 / 100000))
    (hV' : V' ≤ (1 - dt * (13 / 400)) * V + dt * (2 * n * V + 3 * n ^ 2 * R + (V + n * R) / 400))
    (hR' : R ≤ R' + 3 / 2 * dt * (V + n * R)) :
    √(V' ^ 2 + 1 / 100000) ≤ w + C * n * √(R' ^ 2 + 1 / 100000) ∧
      √(V' ^ 2 + 1 / 100000) ≤ w + C * n * √(R ^ 2 + 1 / 100000) := by
  have hCn : 0 ≤ C * n := by positivity
  have e0 : 0 ≤ dt * (2 * n * V + 3 * n ^ 2 * R + (V + n * R) / 400) := by positivity
  have d0 : 0 ≤ 3 / 2 * dt * (V + n * R) := by positivity
  have s1 := (smooth_mono hV'0 hV').trans (smooth_add (c := 1 - dt * (13 / 400)) (δ := 1 / 100000) (by linarith) (by linarith) e0 (by norm_num))
  have s2 := (smooth_mono (δ := 1 / 100000) hR hR').trans
    ((by rw [one_mul] : √((R' + 3 / 2 * dt * (V + n * R)) ^ 2 + 1 / 100000) = √((1 * R' + 3 / 2 * dt * (V + n * R)) ^ 2 + 1 / 100000)).trans_le
      (smooth_add (c := 1) (δ := 1 / 100000) zero_le_one le_rfl d0 (by norm_num)))
  rw [one_mul, sub_self, zero_mul, add_zero] at s2
  have hVs : V ≤ √(V ^ 2 + 1 / 100000) := le_sqrt_of_sq_le (by linarith)
  have hRs : R ≤ √(R ^ 2 + 1 / 100000) := le_sqrt_of_sq_le (by linarith)
  have hq : √(1 / 100000) ≤ 1 / 300 := sqrt_le_iff.2 (by norm_num)
  generalize √(V ^ 2 + 1 / 100000) = s at *
  generalize √(R ^ 2 + 1 / 100000) = ρ at *
  generalize √(V' ^ 2 + 1 / 100000) = s' at *
  generalize √(R' ^ 2 + 1 / 100000) = ρ' at *
  generalize √(1 / 100000 : ℝ) = q at *
  generalize hL : w + C * n * ρ = L at hsafe ⊢
  -- the rate at which the limit shrinks and the speed fails to
  have hnR : n * R ≤ L - w := by
    have h1 : n * R ≤ n * ρ := mul_le_mul_of_nonneg_left hRs hn
    have h2 : 0 ≤ (C - 1) * (n * ρ) := mul_nonneg (by linarith) (mul_nonneg hn (hR.trans hRs))
    linarith
  have hCnR : C * n * R ≤ L - w := by
    have h1 := mul_le_mul_of_nonneg_left hRs hCn
    linarith
  have hVL : V ≤ L := hVs.trans hsafe
  have hnR0 : 0 ≤ n * R := mul_nonneg hn hR
  have hL0 : 0 ≤ L := hV.trans hVL
  have hwL : w ≤ L := by linarith
  have b1 : 2 * n * V ≤ 22 / 10000 * L := by
    have := mul_le_mul_of_nonneg_right hn1 hV
    linarith
  have b2 : 3 * n ^ 2 * R ≤ 33 / 10000 * L := by
    have := mul_le_mul_of_nonneg_right hn1 hnR0
    have h : 3 * n ^ 2 * R = 3 * (n * (n * R)) := by ring
    linarith
  have b3 : (V + n * R) / 400 ≤ L / 200 := by linarith
  have b4 : C * n * (V + n * R) ≤ 55 / 10000 * L := by
    have h1 : C * n ≤ 4 * (11 / 10000) := mul_le_mul hC4 hn1 hn (by norm_num)
    have h2 := mul_le_mul h1 hVL hV (by norm_num)
    have h3 := mul_le_mul hn1 hCnR (mul_nonneg hCn hR) (by norm_num)
    have h : C * n * (V + n * R) = C * n * V + n * (C * n * R) := by ring
    linarith
  have key : 2 * n * V + 3 * n ^ 2 * R + (V + n * R) / 400 + 3 / 2 * (C * n * (V + n * R)) ≤ 13 / 400 * (L - q) := by linarith
  have b4' : 0 ≤ 3 / 2 * (C * n * (V + n * R)) := by positivity
  have k1 := mul_le_mul_of_nonneg_left key hdt
  have k2 : (1 - dt * (13 / 400)) * s ≤ (1 - dt * (13 / 400)) * L := mul_le_mul_of_nonneg_left hsafe (by linarith)
  have s3 : s' ≤ L - dt * (3 / 2 * (C * n * (V + n * R))) := by linarith
  have s4 := mul_le_mul_of_nonneg_left s2 hCn
  have s5 := mul_nonneg hdt b4'
  constructor
  · linarith
  · linarith

/-- The same for vectors of any dimension. -/
theorem step_vec {d : Nat} {n C w dt : ℝ} (hn : 0 ≤ n) (hn1 : n ≤ 11 / 10000) (hC : 1 ≤ C) (hC4 : C ≤ 4) (hw : 1 / 20 ≤ w) (hdt : 0 ≤ dt)
    (hdt1 : dt ≤ 25) {r v r' v' f tv : EuclideanSpace ℝ (Fin d)}
    (hsafe : √(‖v‖ ^ 2 + 1 / 100000) ≤ w + C * n * √(‖r‖ ^ 2 + 1 / 100000))
    (htv : ‖tv‖ ≤ (1 - dt * (13 / 400)) * ‖v‖) (hf : ‖f‖ ≤ 2 * n * ‖v‖ + 3 * n ^ 2 * ‖r‖)
    (hr' : ‖r' - r‖ ≤ 3 / 2 * dt * (‖v‖ + n * ‖r‖)) (hv' : ‖v' - (tv + dt • f)‖ ≤ dt / 400 * (‖v‖ + n * ‖r‖)) :
    √(‖v'‖ ^ 2 + 1 / 100000) ≤ w + C * n * √(‖r'‖ ^ 2 + 1 / 100000) ∧
      √(‖v'‖ ^ 2 + 1 / 100000) ≤ w + C * n * √(‖r‖ ^ 2 + 1 / 100000) := by
  refine step_core hn hn1 hC hC4 hw hdt hdt1 (norm_nonneg _) (norm_nonneg _) (norm_nonneg _) hsafe ?_ ?_
  · have h1 : ‖v'‖ ≤ ‖v' - (tv + dt • f)‖ + (‖tv‖ + dt * ‖f‖) := by
      calc ‖v'‖ = ‖v' - (tv + dt • f) + (tv + dt • f)‖ := by rw [sub_add_cancel]
        _ ≤ ‖v' - (tv + dt • f)‖ + ‖tv + dt • f‖ := norm_add_le _ _
        _ ≤ ‖v' - (tv + dt • f)‖ + (‖tv‖ + dt * ‖f‖) := by
          gcongr
          refine (norm_add_le _ _).trans ?_
          rw [norm_smul, norm_eq_abs, abs_of_nonneg hdt]
    have h2 := mul_le_mul_of_nonneg_left hf hdt
    linarith
  · have h1 : ‖r‖ ≤ ‖r'‖ + ‖r' - r‖ := by
      have := norm_sub_norm_le r (r - r')
      have h3 : ‖r - (r - r')‖ = ‖r'‖ := by rw [sub_sub_cancel]
      have h2 : ‖r - r'‖ = ‖r' - r‖ := norm_sub_rev _ _
      have h4 := norm_sub_norm_le r r'
      linarith
    linarith

theorem norm_two (a b : ℝ) : ‖(!₂[a, b] : EuclideanSpace ℝ (Fin 2))‖ = √(a ^ 2 + b ^ 2) := by
  rw [EuclideanSpace.norm_eq]; simp [Fin.sum_univ_succ]

theorem norm_three (a b c : ℝ) : ‖(!₂[a, b, c] : EuclideanSpace ℝ (Fin 3))‖ = √(a ^ 2 + b ^ 2 + c ^ 2) := by
  rw [EuclideanSpace.norm_eq]; simp [Fin.sum_univ_succ, add_assoc]

/-- Braking with a gain between `0.39` and `0.44` for `dt` seconds, in the plane. -/
theorem shrink2 {dt k11 k12 k22 : ℝ} (h0 : 0 ≤ dt) (h1 : dt ≤ 25)
    (hk : ∀ a b : ℝ, 39 / 100 * (a ^ 2 + b ^ 2) ≤ a * (k11 * a + k12 * b) + b * (k12 * a + k22 * b) ∧
        a * (k11 * a + k12 * b) + b * (k12 * a + k22 * b) ≤ 44 / 100 * (a ^ 2 + b ^ 2)) (a b : ℝ) :
    √((a - dt * (1 / 12 * (k11 * a + k12 * b))) ^ 2 + (b - dt * (1 / 12 * (k12 * a + k22 * b))) ^ 2) ≤
      (1 - dt * (13 / 400)) * √(a ^ 2 + b ^ 2) := by
  have hc : 0 ≤ 1 - dt * (13 / 400) := by linarith
  have h := psd_shorten (T := !![1 - dt / 12 * k11, -(dt / 12 * k12); -(dt / 12 * k12), 1 - dt / 12 * k22]) (c := 1 - dt * (13 / 400))
    (by ext i j; fin_cases i <;> fin_cases j <;> rfl) hc (fun y => by
      have := mul_le_mul_of_nonneg_left (hk (y 0) (y 1)).2 h0
      have := mul_le_mul_of_nonneg_right h1 (by positivity : 0 ≤ y 0 ^ 2 + y 1 ^ 2)
      simp [dotProduct, mulVec, Fin.sum_univ_succ]
      nlinarith) (fun y => by
      have := mul_le_mul_of_nonneg_left (hk (y 0) (y 1)).1 h0
      simp [dotProduct, mulVec, Fin.sum_univ_succ, sub_mul]
      nlinarith) ![a, b]
  simp [dotProduct, mulVec, Fin.sum_univ_succ] at h
  refine sqrt_le_iff.2 ⟨by positivity, ?_⟩
  rw [mul_pow, sq_sqrt (by positivity)]
  nlinarith

/-- In space. -/
theorem shrink3 {dt k11 k12 k13 k22 k23 k33 : ℝ} (h0 : 0 ≤ dt) (h1 : dt ≤ 25)
    (hk : ∀ a b c : ℝ, 39 / 100 * (a ^ 2 + b ^ 2 + c ^ 2) ≤
          a * (k11 * a + k12 * b + k13 * c) + b * (k12 * a + k22 * b + k23 * c) + c * (k13 * a + k23 * b + k33 * c) ∧
        a * (k11 * a + k12 * b + k13 * c) + b * (k12 * a + k22 * b + k23 * c) + c * (k13 * a + k23 * b + k33 * c) ≤
          44 / 100 * (a ^ 2 + b ^ 2 + c ^ 2)) (a b c : ℝ) :
    √((a - dt * (1 / 12 * (k11 * a + k12 * b + k13 * c))) ^ 2 + (b - dt * (1 / 12 * (k12 * a + k22 * b + k23 * c))) ^ 2 +
        (c - dt * (1 / 12 * (k13 * a + k23 * b + k33 * c))) ^ 2) ≤
      (1 - dt * (13 / 400)) * √(a ^ 2 + b ^ 2 + c ^ 2) := by
  have hc : 0 ≤ 1 - dt * (13 / 400) := by linarith
  have h := psd_shorten (T := !![1 - dt / 12 * k11, -(dt / 12 * k12), -(dt / 12 * k13); -(dt / 12 * k12), 1 - dt / 12 * k22, -(dt / 12 * k23);
      -(dt / 12 * k13), -(dt / 12 * k23), 1 - dt / 12 * k33]) (c := 1 - dt * (13 / 400))
    (by ext i j; fin_cases i <;> fin_cases j <;> rfl) hc (fun y => by
      have := mul_le_mul_of_nonneg_left (hk (y 0) (y 1) (y 2)).2 h0
      have := mul_le_mul_of_nonneg_right h1 (by positivity : 0 ≤ y 0 ^ 2 + y 1 ^ 2 + y 2 ^ 2)
      simp [dotProduct, mulVec, Fin.sum_univ_succ]
      nlinarith) (fun y => by
      have := mul_le_mul_of_nonneg_left (hk (y 0) (y 1) (y 2)).1 h0
      simp [dotProduct, mulVec, Fin.sum_univ_succ, sub_mul]
      nlinarith) ![a, b, c]
  simp [dotProduct, mulVec, Fin.sum_univ_succ] at h
  refine sqrt_le_iff.2 ⟨by positivity, ?_⟩
  rw [mul_pow, sq_sqrt (by positivity)]
  nlinarith

/-- The gain itself is at most `0.44`. -/
theorem gain2_size {k11 k12 k22 : ℝ}
    (hk : ∀ a b : ℝ, 39 / 100 * (a ^ 2 + b ^ 2) ≤ a * (k11 * a + k12 * b) + b * (k12 * a + k22 * b) ∧
        a * (k11 * a + k12 * b) + b * (k12 * a + k22 * b) ≤ 44 / 100 * (a ^ 2 + b ^ 2)) (a b : ℝ) :
    (k11 * a + k12 * b) ^ 2 + (k12 * a + k22 * b) ^ 2 ≤ (44 / 100) ^ 2 * (a ^ 2 + b ^ 2) := by
  have h := psd_shorten (T := !![k11, k12; k12, k22]) (c := 44 / 100)
    (by ext i j; fin_cases i <;> fin_cases j <;> rfl) (by norm_num) (fun y => by
      have := (hk (y 0) (y 1)).1
      simp [dotProduct, mulVec, Fin.sum_univ_succ]
      nlinarith) (fun y => by
      have := (hk (y 0) (y 1)).2
      simp [dotProduct, mulVec, Fin.sum_univ_succ, sub_mul]
      nlinarith) ![a, b]
  simp [dotProduct, mulVec, Fin.sum_univ_succ] at h
  nlinarith

theorem gain3_size {k11 k12 k13 k22 k23 k33 : ℝ}
    (hk : ∀ a b c : ℝ, 39 / 100 * (a ^ 2 + b ^ 2 + c ^ 2) ≤
          a * (k11 * a + k12 * b + k13 * c) + b * (k12 * a + k22 * b + k23 * c) + c * (k13 * a + k23 * b + k33 * c) ∧
        a * (k11 * a + k12 * b + k13 * c) + b * (k12 * a + k22 * b + k23 * c) + c * (k13 * a + k23 * b + k33 * c) ≤
          44 / 100 * (a ^ 2 + b ^ 2 + c ^ 2)) (a b c : ℝ) :
    (k11 * a + k12 * b + k13 * c) ^ 2 + (k12 * a + k22 * b + k23 * c) ^ 2 + (k13 * a + k23 * b + k33 * c) ^ 2 ≤
      (44 / 100) ^ 2 * (a ^ 2 + b ^ 2 + c ^ 2) := by
  have h := psd_shorten (T := !![k11, k12, k13; k12, k22, k23; k13, k23, k33]) (c := 44 / 100)
    (by ext i j; fin_cases i <;> fin_cases j <;> rfl) (by norm_num) (fun y => by
      have := (hk (y 0) (y 1) (y 2)).1
      simp [dotProduct, mulVec, Fin.sum_univ_succ]
      nlinarith) (fun y => by
      have := (hk (y 0) (y 1) (y 2)).2
      simp [dotProduct, mulVec, Fin.sum_univ_succ, sub_mul]
      nlinarith) ![a, b, c]
  simp [dotProduct, mulVec, Fin.sum_univ_succ] at h
  nlinarith

end RTA
