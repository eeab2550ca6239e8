import Verif.Props.Zoo.BackupGain

/-!
Bounds for the gains of the docking backup controllers with a mass of 12 kg and mean motions up to `0.0011`: block multiples of the identity
enclose the solution of the Riccati equation.
-/
namespace RTA
open Matrix

def ans2 (p q r : ℝ) : Matrix (Fin 4) (Fin 4) ℝ := !![p, 0, q, 0; 0, p, 0, q; q, 0, r, 0; 0, q, 0, r]

def ans3 (p q r : ℝ) : Matrix (Fin 6) (Fin 6) ℝ :=
  !![p, 0, 0, q, 0, 0; 0, p, 0, 0, q, 0; 0, 0, p, 0, 0, q; q, 0, 0, r, 0, 0; 0, q, 0, 0, r, 0; 0, 0, q, 0, 0, r]

theorem ans2_sym (p q r : ℝ) : (ans2 p q r)ᵀ = ans2 p q r := by
  ext i j; fin_cases i <;> fin_cases j <;> rfl

theorem ans3_sym (p q r : ℝ) : (ans3 p q r)ᵀ = ans3 p q r := by
  ext i j; fin_cases i <;> fin_cases j <;> rfl

theorem form4 (w : Fin 4 → ℝ) : w = ![w 0, w 1, w 2, w 3] := by
  ext i; fin_cases i <;> rfl

theorem form6 (w : Fin 6 → ℝ) : w = ![w 0, w 1, w 2, w 3, w 4, w 5] := by
  ext i; fin_cases i <;> rfl

theorem cwhA2_mat (n : ℝ) : (toMat (cwhA2 n) : Matrix (Fin 4) (Fin 4) ℝ) = !![0, 0, 1, 0; 0, 0, 0, 1; 3 * n ^ 2, 0, 0, 2 * n; 0, 0, -2 * n, 0] := by
  ext i j; fin_cases i <;> fin_cases j <;> rfl

theorem cwhB2_mat (m : ℝ) : (toMat (cwhB2 m) : Matrix (Fin 4) (Fin 2) ℝ) = !![0, 0; 0, 0; 1 / m, 0; 0, 1 / m] := by
  ext i j; fin_cases i <;> fin_cases j <;> rfl

theorem cwhA3_mat (n : ℝ) : (toMat (cwhA3 n) : Matrix (Fin 6) (Fin 6) ℝ) = !![0, 0, 0, 1, 0, 0; 0, 0, 0, 0, 1, 0; 0, 0, 0, 0, 0, 1;
    3 * n ^ 2, 0, 0, 0, 2 * n, 0; 0, 0, 0, -2 * n, 0, 0; 0, 0, -n ^ 2, 0, 0, 0] := by
  ext i j; fin_cases i <;> fin_cases j <;> rfl

theorem cwhB3_mat (m : ℝ) : (toMat (cwhB3 m) : Matrix (Fin 6) (Fin 3) ℝ) =
    !![0, 0, 0; 0, 0, 0; 0, 0, 0; 1 / m, 0, 0; 0, 1 / m, 0; 0, 0, 1 / m] := by
  ext i j; fin_cases i <;> fin_cases j <;> rfl

/-- The Riccati operator of a symmetric matrix as a quadratic form. -/
theorem ric_form {k l : Nat} {A X : Matrix (Fin k) (Fin k) ℝ} {B : Matrix (Fin k) (Fin l) ℝ} (hX : Xᵀ = X) (w : Fin k → ℝ) :
    w ⬝ᵥ (Aᵀ * X + X * A - X * B * (dockR l)⁻¹ * Bᵀ * X + dockQ k) *ᵥ w =
      2 * ((X *ᵥ w) ⬝ᵥ A *ᵥ w) - 1 / 1000 * ((Bᵀ *ᵥ (X *ᵥ w)) ⬝ᵥ (Bᵀ *ᵥ (X *ᵥ w))) + 1 / 20 * (w ⬝ᵥ w) := by
  rw [add_mulVec, sub_mulVec, dotProduct_add, dotProduct_sub, form_sym hX, dockR_inv, dockQ]
  congr 1
  · congr 1
    rw [Matrix.mul_smul, Matrix.mul_one, Matrix.smul_mul, Matrix.smul_mul, smul_mulVec, dotProduct_smul, smul_eq_mul, ← mulVec_mulVec,
      ← mulVec_mulVec, ← mulVec_mulVec, sym_dot hX, dotProduct_mulVec, ← mulVec_transpose]
  · rw [smul_mulVec, one_mulVec, dotProduct_smul, smul_eq_mul]
    norm_num

theorem ric2 (n p q r x y a b : ℝ) : ![x, y, a, b] ⬝ᵥ ((toMat (cwhA2 n) : Matrix (Fin 4) (Fin 4) ℝ)ᵀ * ans2 p q r +
      ans2 p q r * toMat (cwhA2 n) - ans2 p q r * (toMat (cwhB2 12) : Matrix (Fin 4) (Fin 2) ℝ) * (dockR 2)⁻¹ *
        (toMat (cwhB2 12) : Matrix (Fin 4) (Fin 2) ℝ)ᵀ * ans2 p q r + dockQ 4) *ᵥ ![x, y, a, b] =
    2 * (p * (x * a + y * b) + q * (a ^ 2 + b ^ 2) + 3 * n ^ 2 * q * x ^ 2 + 2 * n * q * (x * b - y * a) + 3 * n ^ 2 * r * (x * a)) -
      ((q * x + r * a) ^ 2 + (q * y + r * b) ^ 2) / 144000 + 1 / 20 * (x ^ 2 + y ^ 2 + a ^ 2 + b ^ 2) := by
  rw [ric_form (ans2_sym p q r), cwhA2_mat, cwhB2_mat]
  simp [ans2, mulVec, dotProduct, Fin.sum_univ_succ]
  ring

theorem ric3 (n p q r x y z a b c : ℝ) : ![x, y, z, a, b, c] ⬝ᵥ ((toMat (cwhA3 n) : Matrix (Fin 6) (Fin 6) ℝ)ᵀ * ans3 p q r +
      ans3 p q r * toMat (cwhA3 n) - ans3 p q r * (toMat (cwhB3 12) : Matrix (Fin 6) (Fin 3) ℝ) * (dockR 3)⁻¹ *
        (toMat (cwhB3 12) : Matrix (Fin 6) (Fin 3) ℝ)ᵀ * ans3 p q r + dockQ 6) *ᵥ ![x, y, z, a, b, c] =
    2 * (p * (x * a + y * b + z * c) + q * (a ^ 2 + b ^ 2 + c ^ 2) + 3 * n ^ 2 * q * x ^ 2 - n ^ 2 * q * z ^ 2 + 2 * n * q * (x * b - y * a) +
        3 * n ^ 2 * r * (x * a) - n ^ 2 * r * (z * c)) -
      ((q * x + r * a) ^ 2 + (q * y + r * b) ^ 2 + (q * z + r * c) ^ 2) / 144000 + 1 / 20 * (x ^ 2 + y ^ 2 + z ^ 2 + a ^ 2 + b ^ 2 + c ^ 2) := by
  rw [ric_form (ans3_sym p q r), cwhA3_mat, cwhB3_mat]
  simp [ans3, mulVec, dotProduct, Fin.sum_univ_succ]
  ring

theorem ric2_low {n : ℝ} (h0 : 0 ≤ n) (h1 : n ≤ 11 / 10000) (x y a b : ℝ) :
    0 ≤ 2 * (13 / 5 * (x * a + y * b) + 80 * (a ^ 2 + b ^ 2) + 3 * n ^ 2 * 80 * x ^ 2 + 2 * n * 80 * (x * b - y * a) +
      3 * n ^ 2 * 4680 * (x * a)) - ((80 * x + 4680 * a) ^ 2 + (80 * y + 4680 * b) ^ 2) / 144000 + 1 / 20 * (x ^ 2 + y ^ 2 + a ^ 2 + b ^ 2) := by
  have hn2 : n ^ 2 ≤ 121 / 100000000 := by nlinarith
  have e1 := mul_nonneg h0 (sq_nonneg (x + 38 * b))
  have e2 := mul_nonneg h0 (sq_nonneg (y - 38 * a))
  have e3 := mul_nonneg (sq_nonneg n) (sq_nonneg (x + 38 * a))
  have f1 := mul_nonneg (by nlinarith : 0 ≤ 1 / 180 + 480 * n ^ 2 - 160 / 38 * n - 14040 / 38 * n ^ 2) (sq_nonneg x)
  have f2 := mul_nonneg (by nlinarith : 0 ≤ 1 / 180 - 160 / 38 * n) (sq_nonneg y)
  have f3 := mul_nonneg (by nlinarith : 0 ≤ 159 / 20 - 6080 * n - 533520 * n ^ 2) (sq_nonneg a)
  have f4 := mul_nonneg (by nlinarith : 0 ≤ 159 / 20 - 6080 * n) (sq_nonneg b)
  linarith

theorem ric2_high {n : ℝ} (h0 : 0 ≤ n) (h1 : n ≤ 11 / 10000) (x y a b : ℝ) :
    0 ≤ -(2 * (253 / 75 * (x * a + y * b) + 92 * (a ^ 2 + b ^ 2) + 3 * n ^ 2 * 92 * x ^ 2 + 2 * n * 92 * (x * b - y * a) +
      3 * n ^ 2 * 5280 * (x * a)) - ((92 * x + 5280 * a) ^ 2 + (92 * y + 5280 * b) ^ 2) / 144000 + 1 / 20 * (x ^ 2 + y ^ 2 + a ^ 2 + b ^ 2)) := by
  have hn2 : n ^ 2 ≤ 121 / 100000000 := by nlinarith
  have e1 := mul_nonneg h0 (sq_nonneg (x - 38 * b))
  have e2 := mul_nonneg h0 (sq_nonneg (y + 38 * a))
  have e3 := mul_nonneg (sq_nonneg n) (sq_nonneg (x - 38 * a))
  have f1 := mul_nonneg (by nlinarith : 0 ≤ 8464 / 144000 - 1 / 20 - 552 * n ^ 2 - 184 / 38 * n - 15840 / 38 * n ^ 2) (sq_nonneg x)
  have f2 := mul_nonneg (by nlinarith : 0 ≤ 8464 / 144000 - 1 / 20 - 184 / 38 * n) (sq_nonneg y)
  have f3 := mul_nonneg (by nlinarith : 0 ≤ 1936 / 10 - 18405 / 100 - 6992 * n - 601920 * n ^ 2) (sq_nonneg a)
  have f4 := mul_nonneg (by nlinarith : 0 ≤ 1936 / 10 - 18405 / 100 - 6992 * n) (sq_nonneg b)
  linarith

/-- The out-of-plane parts of the forms. -/
theorem ricz_low {n : ℝ} (h0 : 0 ≤ n) (h1 : n ≤ 11 / 10000) (z c : ℝ) :
    0 ≤ 2 * (13 / 5 * (z * c) + 80 * c ^ 2 - n ^ 2 * 80 * z ^ 2 - n ^ 2 * 4680 * (z * c)) - (80 * z + 4680 * c) ^ 2 / 144000 +
      1 / 20 * (z ^ 2 + c ^ 2) := by
  have hn2 : n ^ 2 ≤ 121 / 100000000 := by nlinarith
  have e3 := mul_nonneg (sq_nonneg n) (sq_nonneg (z - 38 * c))
  have f1 := mul_nonneg (by nlinarith : 0 ≤ 1 / 180 - 160 * n ^ 2 - 4680 / 38 * n ^ 2) (sq_nonneg z)
  have f3 := mul_nonneg (by nlinarith : 0 ≤ 159 / 20 - 177840 * n ^ 2) (sq_nonneg c)
  linarith

theorem ricz_high {n : ℝ} (h0 : 0 ≤ n) (h1 : n ≤ 11 / 10000) (z c : ℝ) :
    0 ≤ -(2 * (253 / 75 * (z * c) + 92 * c ^ 2 - n ^ 2 * 92 * z ^ 2 - n ^ 2 * 5280 * (z * c)) - (92 * z + 5280 * c) ^ 2 / 144000 +
      1 / 20 * (z ^ 2 + c ^ 2)) := by
  have hn2 : n ^ 2 ≤ 121 / 100000000 := by nlinarith
  have e3 := mul_nonneg (sq_nonneg n) (sq_nonneg (z + 38 * c))
  have f1 := mul_nonneg (by nlinarith : 0 ≤ 8464 / 144000 - 1 / 20 + 184 * n ^ 2 - 5280 / 38 * n ^ 2) (sq_nonneg z)
  have f3 := mul_nonneg (by nlinarith : 0 ≤ 1936 / 10 - 18405 / 100 - 200640 * n ^ 2) (sq_nonneg c)
  linarith

theorem ans2_pd : Pd (ans2 (253 / 75) 92 5280) := fun w hw => by
  have h := dot_self_pos hw
  rw [form4 w] at h ⊢
  simp [dotProduct, Fin.sum_univ_succ] at h
  simp [ans2, dotProduct, mulVec, Fin.sum_univ_succ]
  nlinarith [sq_nonneg (w 0 + 30 * w 2), sq_nonneg (w 1 + 30 * w 3)]

theorem ans3_pd : Pd (ans3 (253 / 75) 92 5280) := fun w hw => by
  have h := dot_self_pos hw
  rw [form6 w] at h ⊢
  simp [dotProduct, Fin.sum_univ_succ] at h
  simp [ans3, dotProduct, mulVec, Fin.sum_univ_succ]
  nlinarith [sq_nonneg (w 0 + 30 * w 3), sq_nonneg (w 1 + 30 * w 4), sq_nonneg (w 2 + 30 * w 5)]

/-- The gains in the plane: symmetric, between `0.39` and `0.44`. -/
theorem gain2_bounds {n : ℝ} (h0 : 0 ≤ n) (h1 : n ≤ 11 / 10000) {P : Matrix (Fin 4) (Fin 4) ℝ}
    (hP : IsCARE (toMat (cwhA2 n)) (toMat (cwhB2 12)) (dockQ 4) (dockR 2) P) (hpsd : Psd P) :
    ∃ p11 p12 p21 p22 k11 k12 k22 : ℝ,
      matRows (lqrGain (toMat (cwhB2 12)) (dockR 2) P) = [[p11, p12, k11, k12], [p21, p22, k12, k22]] ∧
      ∀ a b : ℝ, 39 / 100 * (a ^ 2 + b ^ 2) ≤ a * (k11 * a + k12 * b) + b * (k12 * a + k22 * b) ∧
        a * (k11 * a + k12 * b) + b * (k12 * a + k22 * b) ≤ 44 / 100 * (a ^ 2 + b ^ 2) := by
  have lo := care_above (dockQ_pos 4) (dockR_sym 2) (dockR_psd 2) (dockR_mul 2) hP hpsd (ans2_sym (13 / 5) 80 4680) (fun w => by
    rw [form4 w, ric2]; exact ric2_low h0 h1 _ _ _ _)
  have hi := care_below (dockQ_pos 4) (dockR_sym 2) (dockR_psd 2) (dockR_mul 2) hP (ans2_sym (253 / 75) 92 5280) ans2_pd (fun w => by
    rw [form4 w, neg_mulVec, dotProduct_neg, ric2]; exact ric2_high h0 h1 _ _ _ _)
  have hs : P 3 2 = P 2 3 := congrFun (congrFun hP.1 2) 3
  refine ⟨1 / 1000 * (1 / 12 * P 2 0), 1 / 1000 * (1 / 12 * P 2 1), 1 / 1000 * (1 / 12 * P 3 0), 1 / 1000 * (1 / 12 * P 3 1),
    1 / 1000 * (1 / 12 * P 2 2), 1 / 1000 * (1 / 12 * P 2 3), 1 / 1000 * (1 / 12 * P 3 3), ?_, fun a b => ?_⟩
  · simp only [matRows, gain2_eq, List.ofFn_succ, List.ofFn_zero]
    have h : 1 / 1000 * (1 / 12 * P 2 3) = 1 / 1000 * (1 / 12 * P 3 2) := by rw [hs]
    exact congrArg (fun t => [[1 / 1000 * (1 / 12 * P 2 0), 1 / 1000 * (1 / 12 * P 2 1), 1 / 1000 * (1 / 12 * P 2 2), 1 / 1000 * (1 / 12 * P 2 3)],
      [1 / 1000 * (1 / 12 * P 3 0), 1 / 1000 * (1 / 12 * P 3 1), t, 1 / 1000 * (1 / 12 * P 3 3)]]) h.symm
  · have l := lo ![0, 0, a, b]
    have h := hi ![0, 0, a, b]
    simp [ans2, dotProduct, mulVec, Fin.sum_univ_succ, hs] at l h
    constructor <;> linarith

/-- The gains in space: symmetric, between `0.39` and `0.44`. -/
theorem gain3_bounds {n : ℝ} (h0 : 0 ≤ n) (h1 : n ≤ 11 / 10000) {P : Matrix (Fin 6) (Fin 6) ℝ}
    (hP : IsCARE (toMat (cwhA3 n)) (toMat (cwhB3 12)) (dockQ 6) (dockR 3) P) (hpsd : Psd P) :
    ∃ p11 p12 p13 p21 p22 p23 p31 p32 p33 k11 k12 k13 k22 k23 k33 : ℝ,
      matRows (lqrGain (toMat (cwhB3 12)) (dockR 3) P) =
        [[p11, p12, p13, k11, k12, k13], [p21, p22, p23, k12, k22, k23], [p31, p32, p33, k13, k23, k33]] ∧
      ∀ a b c : ℝ, 39 / 100 * (a ^ 2 + b ^ 2 + c ^ 2) ≤
          a * (k11 * a + k12 * b + k13 * c) + b * (k12 * a + k22 * b + k23 * c) + c * (k13 * a + k23 * b + k33 * c) ∧
        a * (k11 * a + k12 * b + k13 * c) + b * (k12 * a + k22 * b + k23 * c) + c * (k13 * a + k23 * b + k33 * c) ≤
          44 / 100 * (a ^ 2 + b ^ 2 + c ^ 2) := by
  have lo := care_above (dockQ_pos 6) (dockR_sym 3) (dockR_psd 3) (dockR_mul 3) hP hpsd (ans3_sym (13 / 5) 80 4680) (fun w => by
    rw [form6 w, ric3]
    have e := ric2_low h0 h1 (w 0) (w 1) (w 3) (w 4)
    have f := ricz_low h0 h1 (w 2) (w 5)
    linarith)
  have hi := care_below (dockQ_pos 6) (dockR_sym 3) (dockR_psd 3) (dockR_mul 3) hP (ans3_sym (253 / 75) 92 5280) ans3_pd (fun w => by
    rw [form6 w, neg_mulVec, dotProduct_neg, ric3]
    have e := ric2_high h0 h1 (w 0) (w 1) (w 3) (w 4)
    have f := ricz_high h0 h1 (w 2) (w 5)
    linarith)
  have hs : P 4 3 = P 3 4 := congrFun (congrFun hP.1 3) 4
  have ht : P 5 3 = P 3 5 := congrFun (congrFun hP.1 3) 5
  have hu : P 5 4 = P 4 5 := congrFun (congrFun hP.1 4) 5
  refine ⟨1 / 1000 * (1 / 12 * P 3 0), 1 / 1000 * (1 / 12 * P 3 1), 1 / 1000 * (1 / 12 * P 3 2), 1 / 1000 * (1 / 12 * P 4 0),
    1 / 1000 * (1 / 12 * P 4 1), 1 / 1000 * (1 / 12 * P 4 2), 1 / 1000 * (1 / 12 * P 5 0), 1 / 1000 * (1 / 12 * P 5 1),
    1 / 1000 * (1 / 12 * P 5 2),
    1 / 1000 * (1 / 12 * P 3 3), 1 / 1000 * (1 / 12 * P 3 4), 1 / 1000 * (1 / 12 * P 3 5), 1 / 1000 * (1 / 12 * P 4 4),
    1 / 1000 * (1 / 12 * P 4 5), 1 / 1000 * (1 / 12 * P 5 5), ?_, fun a b c => ?_⟩
  · simp only [matRows, gain3_eq, List.ofFn_succ, List.ofFn_zero]
    have e := congrArg (fun t => 1 / 1000 * (1 / 12 * t)) hs
    have f := congrArg (fun t => 1 / 1000 * (1 / 12 * t)) ht
    have g := congrArg (fun t => 1 / 1000 * (1 / 12 * t)) hu
    refine congr (congrArg List.cons rfl) (congr (congrArg List.cons ?_) (congr (congrArg List.cons ?_) rfl))
    · exact congrArg (fun t => [1 / 1000 * (1 / 12 * P 4 0), 1 / 1000 * (1 / 12 * P 4 1), 1 / 1000 * (1 / 12 * P 4 2), t,
        1 / 1000 * (1 / 12 * P 4 4), 1 / 1000 * (1 / 12 * P 4 5)]) e
    · exact congrArg₂ (fun t u => [1 / 1000 * (1 / 12 * P 5 0), 1 / 1000 * (1 / 12 * P 5 1), 1 / 1000 * (1 / 12 * P 5 2), t,
        u, 1 / 1000 * (1 / 12 * P 5 5)]) f g
  · have l := lo ![0, 0, 0, a, b, c]
    have h := hi ![0, 0, 0, a, b, c]
    simp [ans3, dotProduct, mulVec, Fin.sum_univ_succ] at l h
    have hs' := hs; have ht' := ht; have hu' := hu
    constructor <;> (try simp only [hs, ht, hu] at l h) <;> linarith

end RTA
