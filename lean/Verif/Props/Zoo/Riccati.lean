import Verif.Model.Zoo.Riccati
import Mathlib.LinearAlgebra.Matrix.ToLin
import Mathlib.LinearAlgebra.FiniteDimensional.Basic
import Mathlib.LinearAlgebra.Matrix.DotProduct
import Mathlib.Analysis.Calculus.Deriv.Add
import Mathlib.Analysis.Calculus.Deriv.Mul
import Mathlib.Analysis.Calculus.MeanValue

/-!
The gains of the delta-v limiter's backup controller.
-/
namespace RTA
open Matrix Set

/-- A direction that neither the dynamics nor the input changes excludes every solution of the Riccati equation with a positive definite weight. -/
theorem care_none {ι κ : Type} [Fintype ι] [DecidableEq ι] [Fintype κ] [DecidableEq κ] {a : Matrix ι ι ℝ} {b : Matrix ι κ ℝ} {q : Matrix ι ι ℝ}
    {r : Matrix κ κ ℝ} (hq : ∀ x : ι → ℝ, x ≠ 0 → 0 < x ⬝ᵥ q *ᵥ x) {v : ι → ℝ} (hv : v ≠ 0) (ha : aᵀ *ᵥ v = 0) (hb : bᵀ *ᵥ v = 0) :
    ¬ ∃ X, IsCARE a b q r X := by
  rintro ⟨X, hs, he⟩
  have hform : ∀ x : ι → ℝ, x ⬝ᵥ aᵀ *ᵥ (X *ᵥ x) + (X *ᵥ x) ⬝ᵥ a *ᵥ x - (X *ᵥ x) ⬝ᵥ b *ᵥ (r⁻¹ *ᵥ (bᵀ *ᵥ (X *ᵥ x))) + x ⬝ᵥ q *ᵥ x = 0 := by
    intro x
    have hsym : ∀ y, x ⬝ᵥ X *ᵥ y = (X *ᵥ x) ⬝ᵥ y := fun y => by
      rw [dotProduct_mulVec, ← mulVec_transpose, hs]
    have := congrArg (fun M => x ⬝ᵥ M *ᵥ x) he
    simp only [add_mulVec, sub_mulVec, dotProduct_add, dotProduct_sub, ← mulVec_mulVec, zero_mulVec, dotProduct_zero, hsym] at this
    exact this
  have hinj : Function.Injective X.mulVecLin := by
    rw [injective_iff_map_eq_zero]
    intro x hx
    have hx' : X *ᵥ x = 0 := hx
    by_contra hne
    have := hform x
    rw [hx'] at this
    simp only [mulVec_zero, dotProduct_zero, zero_dotProduct, zero_add, sub_zero] at this
    exact absurd this (hq x hne).ne'
  obtain ⟨x, hx⟩ := (LinearMap.injective_iff_surjective.1 hinj) v
  have hx' : X *ᵥ x = v := hx
  have := hform x
  rw [hx', ha, hb] at this
  have h2 : v ⬝ᵥ a *ᵥ x = 0 := by rw [dotProduct_mulVec, ← mulVec_transpose, ha, zero_dotProduct]
  simp only [h2, mulVec_zero, dotProduct_zero, zero_add, sub_zero] at this
  have hx0 : x ≠ 0 := by rintro rfl; rw [mulVec_zero] at hx'; exact hv hx'.symm
  exact absurd this (hq x hx0).ne'

/-- The integral of the velocity along x less the position along x. -/
def lqrV : Fin 6 ⊕ Fin 6 → ℝ := Sum.elim ![-1, 0, 0, 0, 0, 0] ![0, 0, 0, 1, 0, 0]

theorem lqrV_ne : lqrV ≠ 0 := fun h => by
  have := congrFun h (.inl 0)
  simp [lqrV] at this

theorem lqrA_v (n : ℝ) : (lqrA n)ᵀ *ᵥ lqrV = 0 := by
  funext i
  rcases i with i | i
  · fin_cases i <;>
      simp [lqrA, lqrV, mulVec, dotProduct, toMat, cwhA3, Fin.sum_univ_succ, Matrix.one_apply]
  · simp [lqrA, lqrV, mulVec, dotProduct]

theorem lqrB_v (m : ℝ) : (lqrB m)ᵀ *ᵥ lqrV = 0 := by
  funext i
  fin_cases i <;> simp [lqrB, lqrV, mulVec, dotProduct, toMat, cwhB3, Fin.sum_univ_succ]

/-- **C81.** The Riccati equation from which the delta-v limiter takes the gains of its backup controller has no symmetric solution, for no
mass and no mean motion. -/
theorem C81_no_solution (n m : ℝ) : ¬ ∃ X, IsCARE (lqrA n) (lqrB m) lqrQ lqrR X := by
  refine care_none (fun x hx => ?_) lqrV_ne (lqrA_v n) (lqrB_v m)
  have : 0 < x ⬝ᵥ x := lt_of_le_of_ne (Finset.sum_nonneg fun i _ => mul_self_nonneg _) fun h => hx (dotProduct_self_eq_zero.1 h.symm)
  simp only [lqrQ, smul_mulVec, one_mulVec, dotProduct_smul, smul_eq_mul]
  positivity

/-- **C81, other weights.** Nor has it one with any other positive definite cost of the error and any cost of the control. -/
theorem C81_other_weights (n m : ℝ) {q : Matrix (Fin 6 ⊕ Fin 6) (Fin 6 ⊕ Fin 6) ℝ} (hq : ∀ x, x ≠ 0 → 0 < x ⬝ᵥ q *ᵥ x) (r : Matrix (Fin 3) (Fin 3) ℝ) :
    ¬ ∃ X, IsCARE (lqrA n) (lqrB m) q r X :=
  care_none hq lqrV_ne (lqrA_v n) (lqrB_v m)

/-- Unit costs are such costs. -/
example (n m : ℝ) : ¬ ∃ X, IsCARE (lqrA n) (lqrB m) 1 1 X :=
  C81_other_weights n m (fun x hx => by
    rw [one_mulVec]
    exact lt_of_le_of_ne (Finset.sum_nonneg fun i _ => mul_self_nonneg _) fun h => hx (dotProduct_self_eq_zero.1 h.symm)) 1

/-- **C81, no gains.** No gains make the error of the design decay: in every motion of the error and its integral under any linear
feedback the difference of the integrated velocity error and the position error stays what it was at the start. -/
theorem C81_no_gains (n m : ℝ) (K : Matrix (Fin 3) (Fin 6 ⊕ Fin 6) ℝ) {e : ℝ → Fin 6 ⊕ Fin 6 → ℝ}
    (he : ∀ t i, HasDerivAt (fun s => e s i) (((lqrA n - lqrB m * K) *ᵥ e t) i) t) (t : ℝ) :
    e t (.inr 3) - e t (.inl 0) = e 0 (.inr 3) - e 0 (.inl 0) := by
  have key : ∀ t, HasDerivAt (fun s => lqrV ⬝ᵥ e s) 0 t := by
    intro t
    have h : HasDerivAt (fun s => ∑ i, lqrV i * e s i) (∑ i, lqrV i * ((lqrA n - lqrB m * K) *ᵥ e t) i) t :=
      HasDerivAt.fun_sum fun i _ => (he t i).const_mul (lqrV i)
    have h0 : ∑ i, lqrV i * ((lqrA n - lqrB m * K) *ᵥ e t) i = 0 := by
      have : lqrV ⬝ᵥ (lqrA n - lqrB m * K) *ᵥ e t = 0 := by
        rw [sub_mulVec, dotProduct_sub, ← mulVec_mulVec, dotProduct_mulVec, ← mulVec_transpose, lqrA_v, dotProduct_mulVec, ← mulVec_transpose,
          lqrB_v, zero_dotProduct, zero_dotProduct, sub_zero]
      exact this
    rw [h0] at h
    exact h
  have hc := is_const_of_deriv_eq_zero (f := fun s => lqrV ⬝ᵥ e s) (fun t => (key t).differentiableAt) (fun t => (key t).deriv) t 0
  have hv : ∀ t, lqrV ⬝ᵥ e t = e t (.inr 3) - e t (.inl 0) := fun t => by
    simp [lqrV, dotProduct, Fin.sum_univ_succ]
    ring
  rw [← hv, ← hv]
  exact hc

/-- A motion as in `C81_no_gains`: without feedback an error integral stays. -/
example (n m : ℝ) (t : ℝ) (i : Fin 6 ⊕ Fin 6) : HasDerivAt (fun _ : ℝ => (Pi.single (.inr 3) 1 : Fin 6 ⊕ Fin 6 → ℝ) i)
    (((lqrA n - lqrB m * (0 : Matrix (Fin 3) (Fin 6 ⊕ Fin 6) ℝ)) *ᵥ (Pi.single (.inr 3) 1 : Fin 6 ⊕ Fin 6 → ℝ)) i) t := by
  refine (hasDerivAt_const t _).congr_deriv ?_
  rw [Matrix.mul_zero, sub_zero, mulVec_single_one]
  rcases i with i | i <;> simp [lqrA, Matrix.col_apply]

/-- The equation has solutions for other systems: `X = 1` for an integrator with unit weights. -/
example : IsCARE (ι := Fin 1) (κ := Fin 1) 0 1 1 1 1 := by
  refine ⟨by simp, ?_⟩
  simp

end RTA
