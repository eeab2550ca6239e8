import Verif.Props.Zoo.Backup
import Verif.Lemmas.Riccati

/-!
C82: the gains that the docking backup controllers compute, whatever positive semidefinite solution of the Riccati equation they are made from.
-/
namespace RTA
open Matrix Set Real

/-- A positive semidefinite solution of a Riccati equation with positive definite weight is bounded below by a multiple of the identity. -/
theorem care_bound {k l : Nat} {a : Matrix (Fin k) (Fin k) ℝ} {b : Matrix (Fin k) (Fin l) ℝ} {q : Matrix (Fin k) (Fin k) ℝ}
    {r : Matrix (Fin l) (Fin l) ℝ} {P : Matrix (Fin k) (Fin k) ℝ} (hq : Pd q) (hrs : rᵀ = r) (hri : r * r⁻¹ = 1) (hP : IsCARE a b q r P)
    (hpsd : Psd P) : ∃ κ, 0 < κ ∧ ∀ x : Fin k → ℝ, κ * (x ⬝ᵥ x) ≤ x ⬝ᵥ P *ᵥ x := by
  have hpos := (care_cost hq hrs hri hP hpsd).pos
  rcases Nat.eq_zero_or_pos k with rfl | hk
  · exact ⟨1, one_pos, fun x => by simp [dotProduct]⟩
  obtain ⟨z, c, hz, he, hle⟩ := rayleigh hk (S := 1) (X := P) (fun x hx => by rw [one_mulVec]; exact dot_self_pos hx)
  simp only [one_mulVec] at he hle
  have h1 := hpos z hz
  rw [he] at h1
  exact ⟨c, pos_of_mul_pos_left h1 (dot_self_pos hz).le, hle⟩

theorem dockQ_pos (k : Nat) : Pd (dockQ k) := fun x hx => by
  have : 0 < x ⬝ᵥ x := dot_self_pos hx
  simp only [dockQ, smul_mulVec, one_mulVec, dotProduct_smul, smul_eq_mul]
  positivity

theorem dockR_inv (k : Nat) : (dockR k)⁻¹ = (1 / 1000 : ℝ) • 1 := by
  refine inv_eq_left_inv ?_
  rw [dockR, smul_mul_smul_comm, Matrix.one_mul]
  norm_num

theorem dockR_mul (k : Nat) : dockR k * (dockR k)⁻¹ = 1 := by
  rw [dockR_inv, dockR, smul_mul_smul_comm, Matrix.one_mul]
  norm_num

theorem dockR_sym (k : Nat) : (dockR k)ᵀ = dockR k := by simp [dockR]

theorem dockR_psd (k : Nat) : Psd (dockR k) := fun x => by
  have : 0 ≤ x ⬝ᵥ x := Finset.sum_nonneg fun _ _ => mul_self_nonneg _
  simp only [dockR, smul_mulVec, one_mulVec, dotProduct_smul, smul_eq_mul]
  positivity

theorem dockQ_sym (k : Nat) : (dockQ k)ᵀ = dockQ k := by simp [dockQ]

theorem gain2_eq (m : ℝ) (P : Matrix (Fin 4) (Fin 4) ℝ) (i : Fin 2) (j : Fin 4) :
    lqrGain (toMat (cwhB2 m)) (dockR 2) P i j = 1 / 1000 * (1 / m * P (Fin.natAdd 2 i) j) := by
  rw [lqrGain, dockR_inv, Matrix.smul_mul, Matrix.one_mul, Matrix.smul_apply, smul_eq_mul]
  congr 1
  fin_cases i <;> simp [toMat, cwhB2, Matrix.mul_apply, Fin.sum_univ_succ]

theorem gain3_eq (m : ℝ) (P : Matrix (Fin 6) (Fin 6) ℝ) (i : Fin 3) (j : Fin 6) :
    lqrGain (toMat (cwhB3 m)) (dockR 3) P i j = 1 / 1000 * (1 / m * P (Fin.natAdd 3 i) j) := by
  rw [lqrGain, dockR_inv, Matrix.smul_mul, Matrix.one_mul, Matrix.smul_apply, smul_eq_mul]
  congr 1
  fin_cases i <;> simp [toMat, cwhB3, Matrix.mul_apply, Fin.sum_univ_succ]

/-- The gain matrix in the plane, entry by entry, with its damping. -/
theorem gain2_shape {m : ℝ} (hm : 0 < m) {n : ℝ} {P : Matrix (Fin 4) (Fin 4) ℝ}
    (hP : IsCARE (toMat (cwhA2 n)) (toMat (cwhB2 m)) (dockQ 4) (dockR 2) P) (hpsd : Psd P) :
    ∃ κ p11 p12 p21 p22 k11 k12 k21 k22 : ℝ, 0 < κ ∧
      matRows (lqrGain (toMat (cwhB2 m)) (dockR 2) P) = [[p11, p12, k11, k12], [p21, p22, k21, k22]] ∧
      ∀ a b : ℝ, κ * (a ^ 2 + b ^ 2) ≤ a * (k11 * a + k12 * b) + b * (k21 * a + k22 * b) := by
  obtain ⟨κ, hκ, hb⟩ := care_bound (dockQ_pos 4) (dockR_sym 2) (dockR_mul 2) hP hpsd
  refine ⟨1 / 1000 * (1 / m * κ), _, _, _, _, _, _, _, _, by positivity, rfl, fun a b => ?_⟩
  simp only [gain2_eq]
  have := hb ![0, 0, a, b]
  simp [dotProduct, mulVec, Fin.sum_univ_succ] at this
  change _ ≤ a * (1 / 1000 * (1 / m * P 2 2) * a + 1 / 1000 * (1 / m * P 2 3) * b) +
    b * (1 / 1000 * (1 / m * P 3 2) * a + 1 / 1000 * (1 / m * P 3 3) * b)
  have h := mul_le_mul_of_nonneg_left this (by positivity : 0 ≤ 1 / 1000 * (1 / m))
  linarith

/-- The same in space. -/
theorem gain3_shape {m : ℝ} (hm : 0 < m) {n : ℝ} {P : Matrix (Fin 6) (Fin 6) ℝ}
    (hP : IsCARE (toMat (cwhA3 n)) (toMat (cwhB3 m)) (dockQ 6) (dockR 3) P) (hpsd : Psd P) :
    ∃ κ p11 p12 p13 p21 p22 p23 p31 p32 p33 k11 k12 k13 k21 k22 k23 k31 k32 k33 : ℝ, 0 < κ ∧
      matRows (lqrGain (toMat (cwhB3 m)) (dockR 3) P) =
        [[p11, p12, p13, k11, k12, k13], [p21, p22, p23, k21, k22, k23], [p31, p32, p33, k31, k32, k33]] ∧
      ∀ a b c : ℝ, κ * (a ^ 2 + b ^ 2 + c ^ 2) ≤
        a * (k11 * a + k12 * b + k13 * c) + b * (k21 * a + k22 * b + k23 * c) + c * (k31 * a + k32 * b + k33 * c) := by
  obtain ⟨κ, hκ, hb⟩ := care_bound (dockQ_pos 6) (dockR_sym 3) (dockR_mul 3) hP hpsd
  refine ⟨1 / 1000 * (1 / m * κ), _, _, _, _, _, _, _, _, _, _, _, _, _, _, _, _, _, _, by positivity, rfl, fun a b c => ?_⟩
  simp only [gain3_eq]
  have := hb ![0, 0, 0, a, b, c]
  simp [dotProduct, mulVec, Fin.sum_univ_succ] at this
  change _ ≤ a * (1 / 1000 * (1 / m * P 3 3) * a + 1 / 1000 * (1 / m * P 3 4) * b + 1 / 1000 * (1 / m * P 3 5) * c) +
    b * (1 / 1000 * (1 / m * P 4 3) * a + 1 / 1000 * (1 / m * P 4 4) * b + 1 / 1000 * (1 / m * P 4 5) * c) +
    c * (1 / 1000 * (1 / m * P 5 3) * a + 1 / 1000 * (1 / m * P 5 4) * b + 1 / 1000 * (1 / m * P 5 5) * c)
  have h := mul_le_mul_of_nonneg_left this (by positivity : 0 ≤ 1 / 1000 * (1 / m))
  linarith

/-- **C82 in the plane.** Whatever symmetric positive semidefinite solution of its Riccati equation the docking backup controller is made
from, for every positive mass and every mean motion, its thrust opposes the motion: there is `κ > 0` with `v · u ≤ -κ |v|²` in every state. -/
theorem C82_work_2d {m : ℝ} (hm : 0 < m) (n : ℝ) {P : Matrix (Fin 4) (Fin 4) ℝ}
    (hP : IsCARE (toMat (cwhA2 n)) (toMat (cwhB2 m)) (dockQ 4) (dockR 2) P) (hpsd : ∀ x : Fin 4 → ℝ, 0 ≤ x ⬝ᵥ P *ᵥ x) :
    ∃ κ, 0 < κ ∧ ∀ x y a b : ℝ, ∃ u w : ℝ, lqrControl 2 (matRows (lqrGain (toMat (cwhB2 m)) (dockR 2) P)) [x, y, a, b] = [u, w] ∧
      a * u + b * w ≤ -κ * (a ^ 2 + b ^ 2) := by
  obtain ⟨κ, p11, p12, p21, p22, k11, k12, k21, k22, hκ, e, hd⟩ := gain2_shape hm hP hpsd
  refine ⟨κ, hκ, fun x y a b => ⟨_, _, by rw [e]; exact lqr2_eq _ _ _ _ _ _ _ _ _ _ _ _, ?_⟩⟩
  have := hd a b
  linarith

/-- **C82 in space.** -/
theorem C82_work_3d {m : ℝ} (hm : 0 < m) (n : ℝ) {P : Matrix (Fin 6) (Fin 6) ℝ}
    (hP : IsCARE (toMat (cwhA3 n)) (toMat (cwhB3 m)) (dockQ 6) (dockR 3) P) (hpsd : ∀ x : Fin 6 → ℝ, 0 ≤ x ⬝ᵥ P *ᵥ x) :
    ∃ κ, 0 < κ ∧ ∀ x y z a b c : ℝ, ∃ u v w : ℝ,
      lqrControl 3 (matRows (lqrGain (toMat (cwhB3 m)) (dockR 3) P)) [x, y, z, a, b, c] = [u, v, w] ∧
      a * u + b * v + c * w ≤ -κ * (a ^ 2 + b ^ 2 + c ^ 2) := by
  obtain ⟨κ, p11, p12, p13, p21, p22, p23, p31, p32, p33, k11, k12, k13, k21, k22, k23, k31, k32, k33, hκ, e, hd⟩ := gain3_shape hm hP hpsd
  refine ⟨κ, hκ, fun x y z a b c => ⟨_, _, _, by rw [e]; exact lqr3_eq _ _ _ _ _ _ _ _ _ _ _ _ _ _ _ _ _ _ _ _ _ _ _ _, ?_⟩⟩
  have := hd a b c
  linarith

/-- **C82, settling in the plane.** With these gains the speed falls exponentially to within a multiple of `R` while the radial distance
stays within `R`; the rate `l` and the factor `d` do not depend on the motion. -/
theorem C82_settles_2d {m : ℝ} (hm : 0 < m) (n : ℝ) {P : Matrix (Fin 4) (Fin 4) ℝ}
    (hP : IsCARE (toMat (cwhA2 n)) (toMat (cwhB2 m)) (dockQ 4) (dockR 2) P) (hpsd : ∀ x : Fin 4 → ℝ, 0 ≤ x ⬝ᵥ P *ᵥ x) :
    ∃ l d, 0 < l ∧ ∀ (R : ℝ) (x u : ℝ → List ℝ), Trajectory univ 4 (dockF2 n) (dockG2 m) x u →
      (∀ t, 0 ≤ t → u t = lqrControl 2 (matRows (lqrGain (toMat (cwhB2 m)) (dockR 2) P)) (x t)) → (∀ t, 0 ≤ t → |comp (x t) 0| ≤ R) →
      ∀ t, 0 ≤ t → comp (x t) 2 ^ 2 + comp (x t) 3 ^ 2 ≤ exp (-l * t) * (comp (x 0) 2 ^ 2 + comp (x 0) 3 ^ 2) + (d * R) ^ 2 := by
  obtain ⟨κ, p11, p12, p21, p22, k11, k12, k21, k22, hκ, e, hd⟩ := gain2_shape hm hP hpsd
  refine ⟨κ / m, 3 * n ^ 2 * m / κ, by positivity, fun R x u hx hu hR t ht => ?_⟩
  rw [e] at hu
  have := C65_settles_2d_partial hm hκ hd hx hu hR t ht
  rwa [show 3 * n ^ 2 * m / κ * R = 3 * n ^ 2 * m * R / κ by ring]

/-- **C82, settling in space.** -/
theorem C82_settles_3d {m : ℝ} (hm : 0 < m) (n : ℝ) {P : Matrix (Fin 6) (Fin 6) ℝ}
    (hP : IsCARE (toMat (cwhA3 n)) (toMat (cwhB3 m)) (dockQ 6) (dockR 3) P) (hpsd : ∀ x : Fin 6 → ℝ, 0 ≤ x ⬝ᵥ P *ᵥ x) :
    ∃ l d, 0 < l ∧ ∀ (R : ℝ) (x u : ℝ → List ℝ), 0 ≤ R → Trajectory univ 6 (dockF3 n) (dockG3 m) x u →
      (∀ t, 0 ≤ t → u t = lqrControl 3 (matRows (lqrGain (toMat (cwhB3 m)) (dockR 3) P)) (x t)) →
      (∀ t, 0 ≤ t → comp (x t) 0 ^ 2 + comp (x t) 2 ^ 2 ≤ R ^ 2) →
      ∀ t, 0 ≤ t → comp (x t) 3 ^ 2 + comp (x t) 4 ^ 2 + comp (x t) 5 ^ 2 ≤
        exp (-l * t) * (comp (x 0) 3 ^ 2 + comp (x 0) 4 ^ 2 + comp (x 0) 5 ^ 2) + (d * R) ^ 2 := by
  obtain ⟨κ, p11, p12, p13, p21, p22, p23, p31, p32, p33, k11, k12, k13, k21, k22, k23, k31, k32, k33, hκ, e, hd⟩ := gain3_shape hm hP hpsd
  refine ⟨κ / m, 3 * n ^ 2 * m / κ, by positivity, fun R x u hR0 hx hu hR t ht => ?_⟩
  rw [e] at hu
  have := C65_settles_3d_partial hm hκ hR0 hd hx hu hR t ht
  rwa [show 3 * n ^ 2 * m / κ * R = 3 * n ^ 2 * m * R / κ by ring]

/-- **C82, limits in the plane.** These gains do not bring the velocity to zero either: motions of every small size speed up exponentially. -/
theorem C82_grows_2d {m n : ℝ} (hm : 0 < m) (hn : n ≠ 0) {P : Matrix (Fin 4) (Fin 4) ℝ}
    (hP : IsCARE (toMat (cwhA2 n)) (toMat (cwhB2 m)) (dockQ 4) (dockR 2) P) (hpsd : ∀ x : Fin 4 → ℝ, 0 ≤ x ⬝ᵥ P *ᵥ x) :
    ∃ l, 0 < l ∧ ∀ T U, 0 < U → ∃ x u : ℝ → List ℝ, Trajectory univ 4 (dockF2 n) (dockG2 m) x u ∧
      (∀ t, u t = lqrControl 2 (matRows (lqrGain (toMat (cwhB2 m)) (dockR 2) P)) (x t)) ∧
      (∀ t, t ≤ T → ∀ c ∈ u t, |c| ≤ U) ∧ 0 < √(comp (x 0) 2 ^ 2 + comp (x 0) 3 ^ 2) ∧
      ∀ t, √(comp (x t) 2 ^ 2 + comp (x t) 3 ^ 2) = exp (l * t) * √(comp (x 0) 2 ^ 2 + comp (x 0) 3 ^ 2) := by
  obtain ⟨κ, p11, p12, p21, p22, k11, k12, k21, k22, hκ, e, hd⟩ := gain2_shape hm hP hpsd
  rw [e]
  exact C65_refuted_2d hm hn _ _ _ _ _ _ _ _ (by have := hd 0 1; linarith)

/-- **C82, limits in space.** -/
theorem C82_grows_3d {m n : ℝ} (hm : 0 < m) (hn : n ≠ 0) {P : Matrix (Fin 6) (Fin 6) ℝ}
    (hP : IsCARE (toMat (cwhA3 n)) (toMat (cwhB3 m)) (dockQ 6) (dockR 3) P) (hpsd : ∀ x : Fin 6 → ℝ, 0 ≤ x ⬝ᵥ P *ᵥ x) :
    ∃ l, 0 < l ∧ ∀ T U, 0 < U → ∃ x u : ℝ → List ℝ, Trajectory univ 6 (dockF3 n) (dockG3 m) x u ∧
      (∀ t, u t = lqrControl 3 (matRows (lqrGain (toMat (cwhB3 m)) (dockR 3) P)) (x t)) ∧
      (∀ t, t ≤ T → ∀ c ∈ u t, |c| ≤ U) ∧ 0 < √(comp (x 0) 3 ^ 2 + comp (x 0) 4 ^ 2 + comp (x 0) 5 ^ 2) ∧
      ∀ t, √(comp (x t) 3 ^ 2 + comp (x t) 4 ^ 2 + comp (x t) 5 ^ 2) =
        exp (l * t) * √(comp (x 0) 3 ^ 2 + comp (x 0) 4 ^ 2 + comp (x 0) 5 ^ 2) := by
  obtain ⟨κ, p11, p12, p13, p21, p22, p23, p31, p32, p33, k11, k12, k13, k21, k22, k23, k31, k32, k33, hκ, e, hd⟩ := gain3_shape hm hP hpsd
  rw [e]
  exact C65_refuted_3d hm hn _ _ _ _ _ _ _ _ _ _ _ _ _ _ _ _ _ _ (by have := hd 0 1 0; linarith)

/-- A gain that turns the motion into `ẍ = -x - ẋ` on every axis. -/
def placeK2 (m n : ℝ) : Matrix (Fin 2) (Fin 4) ℝ := toMat [[m * (1 + 3 * n ^ 2), 0, m, m * (2 * n)], [0, m, -(m * (2 * n)), m]]

def placeK3 (m n : ℝ) : Matrix (Fin 3) (Fin 6) ℝ :=
  toMat [[m * (1 + 3 * n ^ 2), 0, 0, m, m * (2 * n), 0], [0, m, 0, -(m * (2 * n)), m, 0], [0, 0, m * (1 - n ^ 2), 0, 0, m]]

def placeM2 : Matrix (Fin 4) (Fin 4) ℝ := !![0, 0, 1, 0; 0, 0, 0, 1; -1, 0, -1, 0; 0, -1, 0, -1]

def placeM3 : Matrix (Fin 6) (Fin 6) ℝ :=
  !![0, 0, 0, 1, 0, 0; 0, 0, 0, 0, 1, 0; 0, 0, 0, 0, 0, 1; -1, 0, 0, -1, 0, 0; 0, -1, 0, 0, -1, 0; 0, 0, -1, 0, 0, -1]

noncomputable def placeS2 : Matrix (Fin 4) (Fin 4) ℝ := !![3 / 2, 0, 1 / 2, 0; 0, 3 / 2, 0, 1 / 2; 1 / 2, 0, 1, 0; 0, 1 / 2, 0, 1]

noncomputable def placeS3 : Matrix (Fin 6) (Fin 6) ℝ :=
  !![3 / 2, 0, 0, 1 / 2, 0, 0; 0, 3 / 2, 0, 0, 1 / 2, 0; 0, 0, 3 / 2, 0, 0, 1 / 2; 1 / 2, 0, 0, 1, 0, 0; 0, 1 / 2, 0, 0, 1, 0;
    0, 0, 1 / 2, 0, 0, 1]

theorem place2 {m : ℝ} (hm : m ≠ 0) (n : ℝ) : toMat (cwhA2 n) - toMat (cwhB2 m) * placeK2 m n = placeM2 := by
  ext i j
  fin_cases i <;> fin_cases j <;> simp [toMat, cwhA2, cwhB2, placeK2, placeM2, Matrix.mul_apply, Fin.sum_univ_succ, hm]

theorem place3 {m : ℝ} (hm : m ≠ 0) (n : ℝ) : toMat (cwhA3 n) - toMat (cwhB3 m) * placeK3 m n = placeM3 := by
  ext i j
  fin_cases i <;> fin_cases j <;> simp [toMat, cwhA3, cwhB3, placeK3, placeM3, Matrix.mul_apply, Fin.sum_univ_succ, hm]
  ring

theorem placeS2_lyap : placeM2ᵀ * placeS2 + placeS2 * placeM2 = -1 := by
  ext i j
  fin_cases i <;> fin_cases j <;> simp [placeM2, placeS2, Matrix.mul_apply, Fin.sum_univ_succ] <;> norm_num

theorem placeS3_lyap : placeM3ᵀ * placeS3 + placeS3 * placeM3 = -1 := by
  ext i j
  fin_cases i <;> fin_cases j <;> simp [placeM3, placeS3, Matrix.mul_apply, Fin.sum_univ_succ] <;> norm_num

theorem one_pd (k : Nat) : Pd (1 : Matrix (Fin k) (Fin k) ℝ) := fun x hx => by rw [one_mulVec]; exact dot_self_pos hx

theorem placeS2_sym : placeS2ᵀ = placeS2 := by
  ext i j
  fin_cases i <;> fin_cases j <;> rfl

theorem placeS3_sym : placeS3ᵀ = placeS3 := by
  ext i j
  fin_cases i <;> fin_cases j <;> rfl

theorem placeS2_pd : Pd placeS2 := fun x hx => by
  have h := dot_self_pos hx
  simp [dotProduct, Fin.sum_univ_succ] at h
  simp [placeS2, dotProduct, mulVec, Fin.sum_univ_succ]
  nlinarith [sq_nonneg (x 0 + x 2), sq_nonneg (x 1 + x 3), sq_nonneg (x 0), sq_nonneg (x 1)]

theorem placeS3_pd : Pd placeS3 := fun x hx => by
  have h := dot_self_pos hx
  simp [dotProduct, Fin.sum_univ_succ] at h
  simp [placeS3, dotProduct, mulVec, Fin.sum_univ_succ]
  nlinarith [sq_nonneg (x 0 + x 3), sq_nonneg (x 1 + x 4), sq_nonneg (x 2 + x 5), sq_nonneg (x 0), sq_nonneg (x 1), sq_nonneg (x 2)]

/-- **C82, the gains are defined in the plane.** The Riccati equation of the docking backup controller has exactly one positive semidefinite
solution, for every mass and every mean motion. -/
theorem C82_unique_2d {m : ℝ} (hm : 0 < m) (n : ℝ) :
    ∃! P : Matrix (Fin 4) (Fin 4) ℝ, IsCARE (toMat (cwhA2 n)) (toMat (cwhB2 m)) (dockQ 4) (dockR 2) P ∧ ∀ x : Fin 4 → ℝ, 0 ≤ x ⬝ᵥ P *ᵥ x := by
  obtain ⟨P, hP⟩ := cost_exists (A := toMat (cwhA2 n)) (B := toMat (cwhB2 m)) (K := placeK2 m n) (dockQ_sym 4) (dockQ_pos 4) (dockR_sym 2)
    (dockR_psd 2) placeS2_sym placeS2_pd (by rw [place2 hm.ne']; exact placeS2_lyap) (one_pd 4)
  obtain ⟨X, h1, h2⟩ := care_exists (dockQ_sym 4) (dockQ_pos 4) (dockR_sym 2) (dockR_psd 2) (dockR_mul 2) hP
  exact ⟨X, ⟨h1, h2⟩, fun Y hY => care_unique (dockQ_pos 4) (dockR_sym 2) (dockR_psd 2) (dockR_mul 2) hY.1 hY.2 h1 h2⟩

/-- **C82, the gains are defined in space.** -/
theorem C82_unique_3d {m : ℝ} (hm : 0 < m) (n : ℝ) :
    ∃! P : Matrix (Fin 6) (Fin 6) ℝ, IsCARE (toMat (cwhA3 n)) (toMat (cwhB3 m)) (dockQ 6) (dockR 3) P ∧ ∀ x : Fin 6 → ℝ, 0 ≤ x ⬝ᵥ P *ᵥ x := by
  obtain ⟨P, hP⟩ := cost_exists (A := toMat (cwhA3 n)) (B := toMat (cwhB3 m)) (K := placeK3 m n) (dockQ_sym 6) (dockQ_pos 6) (dockR_sym 3)
    (dockR_psd 3) placeS3_sym placeS3_pd (by rw [place3 hm.ne']; exact placeS3_lyap) (one_pd 6)
  obtain ⟨X, h1, h2⟩ := care_exists (dockQ_sym 6) (dockQ_pos 6) (dockR_sym 3) (dockR_psd 3) (dockR_mul 3) hP
  exact ⟨X, ⟨h1, h2⟩, fun Y hY => care_unique (dockQ_pos 6) (dockR_sym 3) (dockR_psd 3) (dockR_mul 3) hY.1 hY.2 h1 h2⟩

/-- The hypotheses of the theorems above with the default mass and mean motion. -/
example : ∃ P, IsCARE (toMat (cwhA2 (1027 / 1000000))) (toMat (cwhB2 12)) (dockQ 4) (dockR 2) P ∧ ∀ x : Fin 4 → ℝ, 0 ≤ x ⬝ᵥ P *ᵥ x :=
  (C82_unique_2d (by norm_num) _).exists

example : ∃ P, IsCARE (toMat (cwhA3 (1027 / 1000000))) (toMat (cwhB3 12)) (dockQ 6) (dockR 3) P ∧ ∀ x : Fin 6 → ℝ, 0 ≤ x ⬝ᵥ P *ᵥ x :=
  (C82_unique_3d (by norm_num) _).exists

end RTA
