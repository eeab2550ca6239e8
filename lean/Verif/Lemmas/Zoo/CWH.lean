import Verif.Spec.Zoo.CWH
import Mathlib.Analysis.SpecialFunctions.Trigonometric.Deriv
import Mathlib.Analysis.Calculus.MeanValue
import Mathlib.Tactic.FieldSimp
import Mathlib.Tactic.Ring
import Mathlib.Tactic.IntervalCases
import Mathlib.Tactic.LinearCombination

/-!
Lemmas about the Clohessy-Wiltshire flow.
-/
set_option linter.unusedSimpArgs false
namespace RTA
open Real

theorem list6 {x : List ℝ} (h : x.length = 6) : x = [comp x 0, comp x 1, comp x 2, comp x 3, comp x 4, comp x 5] := by
  match x, h with
  | [a, b, c, d, e, f], _ => rfl

theorem list3 {x : List ℝ} (h : x.length = 3) : x = [comp x 0, comp x 1, comp x 2] := by
  match x, h with
  | [a, b, c], _ => rfl

/-- The components of the closed-form step. -/
theorem discreteStep_eq (n m dt x y z a b w u1 u2 u3 : ℝ) :
    discreteStep n m dt [x, y, z, a, b, w] [u1, u2, u3] =
    [(4 - 3 * cos (n * dt)) * x + 1 / n * sin (n * dt) * a + 2 / n * (1 - cos (n * dt)) * b +
        (1 / n ^ 2 * (1 - cos (n * dt)) / m * u1 + 2 / n ^ 2 * (n * dt - sin (n * dt)) / m * u2),
      6 * (sin (n * dt) - n * dt) * x + y + -2 / n * (1 - cos (n * dt)) * a + 1 / n * (4 * sin (n * dt) - 3 * n * dt) * b +
        (-2 / n ^ 2 * (n * dt - sin (n * dt)) / m * u1 + (4 / n ^ 2 * (1 - cos (n * dt)) - 3 / 2 * dt ^ 2) / m * u2),
      cos (n * dt) * z + 1 / n * sin (n * dt) * w + 1 / n ^ 2 * (1 - cos (n * dt)) / m * u3,
      3 * n * sin (n * dt) * x + cos (n * dt) * a + 2 * sin (n * dt) * b +
        (1 / n * sin (n * dt) / m * u1 + 2 / n * (1 - cos (n * dt)) / m * u2),
      -6 * n * (1 - cos (n * dt)) * x + -2 * sin (n * dt) * a + (4 * cos (n * dt) - 3) * b +
        (-2 / n * (1 - cos (n * dt)) / m * u1 + (4 / n * sin (n * dt) - 3 * dt) / m * u2),
      -n * sin (n * dt) * z + cos (n * dt) * w + 1 / n * sin (n * dt) / m * u3] := by
  simp only [discreteStep, discreteA, discreteB, matVec, vadd, dot, List.map_cons, List.map_nil, List.zipWith_cons_cons,
    List.zipWith_nil_right, List.foldr_cons, List.foldr_nil, zero_mul, one_mul, zero_add, add_zero, zero_div]
  simp only [List.cons.injEq, and_true]
  exact ⟨by ring, by ring, trivial, by ring, by ring⟩

/-- The components of the vector field. -/
theorem field_eq (n m x y z a b w u1 u2 u3 : ℝ) :
    vadd (matVec (cwhA3 n) [x, y, z, a, b, w]) (matVec (cwhB3 m) [u1, u2, u3]) =
    [a, b, w, 3 * n ^ 2 * x + 2 * n * b + 1 / m * u1, -2 * n * a + 1 / m * u2, -(n ^ 2) * z + 1 / m * u3] := by
  simp only [cwhA3, cwhB3, matVec, vadd, dot, List.map_cons, List.map_nil, List.zipWith_cons_cons,
    List.zipWith_nil_right, List.foldr_cons, List.foldr_nil, zero_mul, one_mul, zero_add, add_zero]

/-- The derivatives of the six components of a solution. -/
theorem sol_derivs {n m u1 u2 u3 : ℝ} {y : ℝ → List ℝ} (h : CWHSolution n m [u1, u2, u3] y) (t : ℝ) :
    HasDerivAt (fun τ => comp (y τ) 0) (comp (y t) 3) t ∧
    HasDerivAt (fun τ => comp (y τ) 1) (comp (y t) 4) t ∧
    HasDerivAt (fun τ => comp (y τ) 2) (comp (y t) 5) t ∧
    HasDerivAt (fun τ => comp (y τ) 3) (3 * n ^ 2 * comp (y t) 0 + 2 * n * comp (y t) 4 + 1 / m * u1) t ∧
    HasDerivAt (fun τ => comp (y τ) 4) (-2 * n * comp (y t) 3 + 1 / m * u2) t ∧
    HasDerivAt (fun τ => comp (y τ) 5) (-(n ^ 2) * comp (y t) 2 + 1 / m * u3) t := by
  have e := field_eq n m (comp (y t) 0) (comp (y t) 1) (comp (y t) 2) (comp (y t) 3) (comp (y t) 4) (comp (y t) 5) u1 u2 u3
  rw [← list6 (h.length t)] at e
  refine ⟨?_, ?_, ?_, ?_, ?_, ?_⟩
  · simpa [e, comp] using h.deriv 0 (by omega) t
  · simpa [e, comp] using h.deriv 1 (by omega) t
  · simpa [e, comp] using h.deriv 2 (by omega) t
  · simpa [e, comp] using h.deriv 3 (by omega) t
  · simpa [e, comp] using h.deriv 4 (by omega) t
  · simpa [e, comp] using h.deriv 5 (by omega) t

theorem const_of_deriv_zero {f : ℝ → ℝ} (h : ∀ t, HasDerivAt f 0 t) (a b : ℝ) : f a = f b :=
  is_const_of_deriv_eq_zero (fun t => (h t).differentiableAt) (fun t => (h t).deriv) a b

theorem hasDerivAt_cos_mul (n t : ℝ) : HasDerivAt (fun τ => cos (n * τ)) (-(n * sin (n * t))) t := by
  have h := ((hasDerivAt_id t).const_mul n).cos
  simp only [id, mul_one] at h
  convert h using 1
  ring

theorem hasDerivAt_sin_mul (n t : ℝ) : HasDerivAt (fun τ => sin (n * τ)) (n * cos (n * t)) t := by
  have h := ((hasDerivAt_id t).const_mul n).sin
  simp only [id, mul_one] at h
  convert h using 1
  ring

theorem hasDerivAt_cos_sub (n T t : ℝ) : HasDerivAt (fun τ => cos (n * (T - τ))) (n * sin (n * (T - t))) t := by
  have h := (((hasDerivAt_id t).const_sub T).const_mul n).cos
  simp only [id] at h
  convert h using 1
  ring

theorem hasDerivAt_sin_sub (n T t : ℝ) : HasDerivAt (fun τ => sin (n * (T - τ))) (-(n * cos (n * (T - t)))) t := by
  have h := (((hasDerivAt_id t).const_sub T).const_mul n).sin
  simp only [id] at h
  convert h using 1
  ring

/-- The closed-form step solves the equations. -/
theorem step_solution {n : ℝ} (hn : n ≠ 0) (m x y z a b w u1 u2 u3 : ℝ) :
    CWHSolution n m [u1, u2, u3] (fun t => discreteStep n m t [x, y, z, a, b, w] [u1, u2, u3]) := by
  simp only [discreteStep_eq]
  refine ⟨fun t => rfl, fun i hi t => ?_⟩
  rw [field_eq]
  have hc := hasDerivAt_cos_mul n t
  have hs := hasDerivAt_sin_mul n t
  have ht := hasDerivAt_id t
  have h1c := hc.const_sub 1
  have ht2 := ht.pow 2
  interval_cases i
  · have := ((((hc.const_mul 3).const_sub 4).mul_const x).add ((hs.const_mul (1 / n)).mul_const a)).add
      ((h1c.const_mul (2 / n)).mul_const b) |>.add
      ((((h1c.const_mul (1 / n ^ 2)).div_const m).mul_const u1).add
        ((((((ht.const_mul n).sub hs).const_mul (2 / n ^ 2)).div_const m).mul_const u2)))
    refine this.congr_deriv ?_
    simp only [comp, List.getD_cons_zero, List.getD_cons_succ]
    field_simp
  · have := (((hs.sub (ht.const_mul n)).const_mul 6).mul_const x).add_const y |>.add
      ((h1c.const_mul (-2 / n)).mul_const a) |>.add
      ((((hs.const_mul 4).sub (ht.const_mul (3 * n))).const_mul (1 / n)).mul_const b) |>.add
      ((((((ht.const_mul n).sub hs).const_mul (-2 / n ^ 2)).div_const m).mul_const u1).add
        ((((h1c.const_mul (4 / n ^ 2)).sub (ht2.const_mul (3 / 2))).div_const m).mul_const u2))
    refine this.congr_deriv ?_
    simp only [comp, List.getD_cons_zero, List.getD_cons_succ, id, Pi.sub_apply]
    field_simp
    ring
  · have := ((hc.mul_const z).add ((hs.const_mul (1 / n)).mul_const w)).add
      (((h1c.const_mul (1 / n ^ 2)).div_const m).mul_const u3)
    refine this.congr_deriv ?_
    simp only [comp, List.getD_cons_zero, List.getD_cons_succ, id, Pi.sub_apply]
    field_simp
  · have := (((hs.const_mul (3 * n)).mul_const x).add (hc.mul_const a)).add ((hs.const_mul 2).mul_const b) |>.add
      ((((hs.const_mul (1 / n)).div_const m).mul_const u1).add (((h1c.const_mul (2 / n)).div_const m).mul_const u2))
    refine this.congr_deriv ?_
    simp only [comp, List.getD_cons_zero, List.getD_cons_succ, id, Pi.sub_apply]
    field_simp
    ring
  · have := (((h1c.const_mul (-6 * n)).mul_const x).add ((hs.const_mul (-2)).mul_const a)).add
      (((hc.const_mul 4).sub_const 3).mul_const b) |>.add
      ((((h1c.const_mul (-2 / n)).div_const m).mul_const u1).add
        ((((hs.const_mul (4 / n)).sub (ht.const_mul 3)).div_const m).mul_const u2))
    refine this.congr_deriv ?_
    simp only [comp, List.getD_cons_zero, List.getD_cons_succ, id, Pi.sub_apply]
    field_simp
    ring
  · have := (((hs.const_mul (-n)).mul_const z).add (hc.mul_const w)).add
      (((hs.const_mul (1 / n)).div_const m).mul_const u3)
    refine this.congr_deriv ?_
    simp only [comp, List.getD_cons_zero, List.getD_cons_succ, id, Pi.sub_apply]
    field_simp
    ring

/-- Running a solution to the end of the step with the closed form gives the same state from everywhere on the way. -/
theorem step_along_const {n m u1 u2 u3 : ℝ} (hn : n ≠ 0) {y : ℝ → List ℝ} (h : CWHSolution n m [u1, u2, u3] y) (T : ℝ)
    (i : Nat) (hi : i < 6) (t : ℝ) :
    HasDerivAt (fun τ => comp (discreteStep n m (T - τ) (y τ) [u1, u2, u3]) i) 0 t := by
  have e : ∀ τ, discreteStep n m (T - τ) (y τ) [u1, u2, u3] = discreteStep n m (T - τ)
      [comp (y τ) 0, comp (y τ) 1, comp (y τ) 2, comp (y τ) 3, comp (y τ) 4, comp (y τ) 5] [u1, u2, u3] :=
    fun τ => by rw [← list6 (h.length τ)]
  simp only [e, discreteStep_eq]
  obtain ⟨h0, h1, h2, h3, h4, h5⟩ := sol_derivs h t
  have hc := hasDerivAt_cos_sub n T t
  have hs := hasDerivAt_sin_sub n T t
  have ht := (hasDerivAt_id t).const_sub T
  have h1c := hc.const_sub 1
  have ht2 := ht.pow 2
  interval_cases i
  · have := ((((hc.const_mul 3).const_sub 4).mul h0).add ((hs.const_mul (1 / n)).mul h3)).add
      ((h1c.const_mul (2 / n)).mul h4) |>.add
      ((((h1c.const_mul (1 / n ^ 2)).div_const m).mul_const u1).add
        ((((((ht.const_mul n).sub hs).const_mul (2 / n ^ 2)).div_const m).mul_const u2)))
    refine this.congr_deriv ?_
    simp only [comp, List.getD_cons_zero, List.getD_cons_succ, id, Pi.sub_apply]
    field_simp
    ring
  · have := (((hs.sub (ht.const_mul n)).const_mul 6).mul h0).add h1 |>.add
      ((h1c.const_mul (-2 / n)).mul h3) |>.add
      ((((hs.const_mul 4).sub (ht.const_mul (3 * n))).const_mul (1 / n)).mul h4) |>.add
      ((((((ht.const_mul n).sub hs).const_mul (-2 / n ^ 2)).div_const m).mul_const u1).add
        ((((h1c.const_mul (4 / n ^ 2)).sub (ht2.const_mul (3 / 2))).div_const m).mul_const u2))
    refine this.congr_deriv ?_
    simp only [comp, List.getD_cons_zero, List.getD_cons_succ, id, Pi.sub_apply]
    field_simp
    ring
  · have := ((hc.mul h2).add ((hs.const_mul (1 / n)).mul h5)).add
      (((h1c.const_mul (1 / n ^ 2)).div_const m).mul_const u3)
    refine this.congr_deriv ?_
    simp only [comp, List.getD_cons_zero, List.getD_cons_succ, id, Pi.sub_apply]
    field_simp
    ring
  · have := (((hs.const_mul (3 * n)).mul h0).add (hc.mul h3)).add ((hs.const_mul 2).mul h4) |>.add
      ((((hs.const_mul (1 / n)).div_const m).mul_const u1).add (((h1c.const_mul (2 / n)).div_const m).mul_const u2))
    refine this.congr_deriv ?_
    simp only [comp, List.getD_cons_zero, List.getD_cons_succ, id, Pi.sub_apply]
    field_simp
    ring
  · have := (((h1c.const_mul (-6 * n)).mul h0).add ((hs.const_mul (-2)).mul h3)).add
      (((hc.const_mul 4).sub_const 3).mul h4) |>.add
      ((((h1c.const_mul (-2 / n)).div_const m).mul_const u1).add
        ((((hs.const_mul (4 / n)).sub (ht.const_mul 3)).div_const m).mul_const u2))
    refine this.congr_deriv ?_
    simp only [comp, List.getD_cons_zero, List.getD_cons_succ, id, Pi.sub_apply]
    field_simp
    ring
  · have := (((hs.const_mul (-n)).mul h2).add (hc.mul h5)).add
      (((hs.const_mul (1 / n)).div_const m).mul_const u3)
    refine this.congr_deriv ?_
    simp only [comp, List.getD_cons_zero, List.getD_cons_succ, id, Pi.sub_apply]
    field_simp
    ring

theorem ext6 {x y : List ℝ} (hx : x.length = 6) (hy : y.length = 6) (h : ∀ i, i < 6 → comp x i = comp y i) : x = y := by
  rw [list6 hx, list6 hy, h 0 (by omega), h 1 (by omega), h 2 (by omega), h 3 (by omega), h 4 (by omega), h 5 (by omega)]

theorem discreteStep_length {n m dt : ℝ} {x u : List ℝ} : (discreteStep n m dt x u).length = 6 := rfl

theorem discreteStep_zero {n m : ℝ} {x u : List ℝ} (hx : x.length = 6) (hu : u.length = 3) : discreteStep n m 0 x u = x := by
  rw [list6 hx, list3 hu, discreteStep_eq]
  simp
  constructor <;> ring

end RTA
