import Verif.Props.Zoo.DockingSwitch
import Verif.Lemmas.Zoo.DockingFlow
import Mathlib.Analysis.SpecialFunctions.Exponential

/-!
C83: predictions that meet the hypotheses, runs of finite length without a hypothesis on the loop, and the failure far away from the chief.
-/
namespace RTA
open Real Matrix Set
variable {A : Type}

/-- One Euler step of the equations of motion in the plane. -/
noncomputable def eulerDock2 (n : ℝ) (X : List ℝ) (dt : ℝ) (u : List ℝ) : List ℝ :=
  vadd X (vscale dt (vadd (dockF2 n X) (matVec (dockG2 12 X) u)))

/-- One Euler step of the equations of motion in space. -/
noncomputable def eulerDock3 (n : ℝ) (X : List ℝ) (dt : ℝ) (u : List ℝ) : List ℝ :=
  vadd X (vscale dt (vadd (dockF3 n X) (matVec (dockG3 12 X) u)))

theorem eulerDock2_eq (n dt x y a b u w : ℝ) : eulerDock2 n [x, y, a, b] dt [u, w] =
    [x + dt * a, y + dt * b, a + dt * (3 * n ^ 2 * x + 2 * n * b + 1 / 12 * u), b + dt * (-2 * n * a + 1 / 12 * w)] := by
  unfold eulerDock2
  rw [field2_eq]; rfl

theorem eulerDock3_eq (n dt x y z a b c u w q : ℝ) : eulerDock3 n [x, y, z, a, b, c] dt [u, w, q] =
    [x + dt * a, y + dt * b, z + dt * c, a + dt * (3 * n ^ 2 * x + 2 * n * b + 1 / 12 * u), b + dt * (-2 * n * a + 1 / 12 * w),
      c + dt * (-(n ^ 2) * z + 1 / 12 * q)] := by
  unfold eulerDock3
  rw [field3_eq]; rfl

/-- Euler's method is close to itself. -/
theorem euler_near2 {n dt : ℝ} (hn : 0 ≤ n) (hdt : 0 ≤ dt) : NearEuler2 n dt (eulerDock2 n) := by
  intro x y a b u w _
  refine ⟨_, _, _, _, eulerDock2_eq _ _ _ _ _ _ _ _, ?_, ?_⟩
  · have e : (x + dt * a - x) ^ 2 + (y + dt * b - y) ^ 2 = dt ^ 2 * (a ^ 2 + b ^ 2) := by ring
    rw [e, sqrt_mul (sq_nonneg _), sqrt_sq hdt]
    have : 0 ≤ dt * √(a ^ 2 + b ^ 2) := by positivity
    have : 0 ≤ dt * (n * √(x ^ 2 + y ^ 2)) := by positivity
    linarith
  · simp only [sub_self]
    norm_num
    positivity

theorem euler_near3 {n dt : ℝ} (hn : 0 ≤ n) (hdt : 0 ≤ dt) : NearEuler3 n dt (eulerDock3 n) := by
  intro x y z a b c u w q _
  refine ⟨_, _, _, _, _, _, eulerDock3_eq _ _ _ _ _ _ _ _ _ _ _, ?_, ?_⟩
  · have e : (x + dt * a - x) ^ 2 + (y + dt * b - y) ^ 2 + (z + dt * c - z) ^ 2 = dt ^ 2 * (a ^ 2 + b ^ 2 + c ^ 2) := by ring
    rw [e, sqrt_mul (sq_nonneg _), sqrt_sq hdt]
    have : 0 ≤ dt * √(a ^ 2 + b ^ 2 + c ^ 2) := by positivity
    have : 0 ≤ dt * (n * √(x ^ 2 + y ^ 2 + z ^ 2)) := by positivity
    linarith
  · simp only [sub_self]
    norm_num
    positivity

/-- **C83, exact predictions**: a prediction that solves the equations of motion is close enough to Euler's for steps of up to ten seconds. -/
theorem C83_exact_2d {n dt : ℝ} (hn : 0 ≤ n) (hn1 : n ≤ 11 / 10000) (hdt : 0 ≤ dt) (hdt1 : dt ≤ 10) {pred : List ℝ → ℝ → List ℝ → List ℝ}
    (h : ExactFlow2 n dt pred) : NearEuler2 n dt pred := by
  intro x y a b u w hu
  obtain ⟨X, Y, A, B, hX, hY, hA, hB, hp, hd⟩ := h x y a b u w
  subst hX hY hA hB
  have key := flow_near (E := EuclideanSpace ℝ (Fin 2)) (r := fun t => !₂[X t, Y t]) (v := fun t => !₂[A t, B t])
    (F := fun p q => !₂[3 * n ^ 2 * p 0 + 2 * n * q 1, -2 * n * q 0]) (g := !₂[1 / 12 * u, 1 / 12 * w]) hn hn1 hdt hdt1
    (fun t ht => deriv_two (hd t ht).1 (hd t ht).2.1)
    (fun t ht => by
      have e := deriv_two (hd t ht).2.2.1 (hd t ht).2.2.2
      refine e.congr_deriv ?_
      ext i; fin_cases i <;> simp)
    (fun p q p' q' => by
      have e : (!₂[3 * n ^ 2 * p 0 + 2 * n * q 1, -2 * n * q 0] : EuclideanSpace ℝ (Fin 2)) - !₂[3 * n ^ 2 * p' 0 + 2 * n * q' 1, -2 * n * q' 0] =
          !₂[3 * n ^ 2 * (p 0 - p' 0) + 2 * n * (q 1 - q' 1), -2 * n * (q 0 - q' 0)] := by ext i; fin_cases i <;> simp <;> ring
      have e1 : p - p' = !₂[p 0 - p' 0, p 1 - p' 1] := by ext i; fin_cases i <;> simp
      have e2 : q - q' = !₂[q 0 - q' 0, q 1 - q' 1] := by ext i; fin_cases i <;> simp
      rw [e, e1, e2, norm_two (p 0 - p' 0), norm_two (q 0 - q' 0)]
      exact (force2_norm hn (p 0 - p' 0) (p 1 - p' 1) (q 0 - q' 0) (q 1 - q' 1)).trans (le_of_eq (add_comm _ _)))
    (by ext i; fin_cases i <;> simp)
    (by
      rw [norm_two, norm_two]
      refine (sqrt_scale (k := 1 / 24) (by norm_num) (T := A 0 ^ 2 + B 0 ^ 2) (by positivity) (by linarith)).trans (le_of_eq (by ring)))
  refine ⟨_, _, _, _, hp, ?_, ?_⟩
  · have e : (!₂[X dt, Y dt] : EuclideanSpace ℝ (Fin 2)) - !₂[X 0, Y 0] = !₂[X dt - X 0, Y dt - Y 0] := by ext i; fin_cases i <;> simp
    have k := key.1
    rw [e, norm_two, norm_two, norm_two] at k
    exact k
  · have k := key.2
    have e : (!₂[A dt, B dt] : EuclideanSpace ℝ (Fin 2)) - (!₂[A 0, B 0] + dt • (!₂[3 * n ^ 2 * X 0 + 2 * n * B 0, -2 * n * A 0] +
        !₂[1 / 12 * u, 1 / 12 * w])) = !₂[A dt - (A 0 + dt * (3 * n ^ 2 * X 0 + 2 * n * B 0 + 1 / 12 * u)), B dt - (B 0 + dt * (-2 * n * A 0 + 1 / 12 * w))] := by
      ext i; fin_cases i <;> simp <;> ring
    have k' : ‖(!₂[A dt, B dt] : EuclideanSpace ℝ (Fin 2)) - (!₂[A 0, B 0] + dt • (!₂[3 * n ^ 2 * X 0 + 2 * n * B 0, -2 * n * A 0] +
        !₂[1 / 12 * u, 1 / 12 * w]))‖ ≤ dt / 400 * (‖(!₂[A 0, B 0] : EuclideanSpace ℝ (Fin 2))‖ + n * ‖(!₂[X 0, Y 0] : EuclideanSpace ℝ (Fin 2))‖) := k
    rw [e, norm_two, norm_two, norm_two] at k'
    exact k'

theorem C83_exact_3d {n dt : ℝ} (hn : 0 ≤ n) (hn1 : n ≤ 11 / 10000) (hdt : 0 ≤ dt) (hdt1 : dt ≤ 10) {pred : List ℝ → ℝ → List ℝ → List ℝ}
    (h : ExactFlow3 n dt pred) : NearEuler3 n dt pred := by
  intro x y z a b c u w o hu
  obtain ⟨X, Y, Z, A, B, C, hX, hY, hZ, hA, hB, hC, hp, hd⟩ := h x y z a b c u w o
  subst hX hY hZ hA hB hC
  have key := flow_near (E := EuclideanSpace ℝ (Fin 3)) (r := fun t => !₂[X t, Y t, Z t]) (v := fun t => !₂[A t, B t, C t])
    (F := fun p q => !₂[3 * n ^ 2 * p 0 + 2 * n * q 1, -2 * n * q 0, -(n ^ 2) * p 2]) (g := !₂[1 / 12 * u, 1 / 12 * w, 1 / 12 * o]) hn hn1 hdt hdt1
    (fun t ht => deriv_three (hd t ht).1 (hd t ht).2.1 (hd t ht).2.2.1)
    (fun t ht => by
      have e := deriv_three (hd t ht).2.2.2.1 (hd t ht).2.2.2.2.1 (hd t ht).2.2.2.2.2
      refine e.congr_deriv ?_
      ext i; fin_cases i <;> simp)
    (fun p q p' q' => by
      have e : (!₂[3 * n ^ 2 * p 0 + 2 * n * q 1, -2 * n * q 0, -(n ^ 2) * p 2] : EuclideanSpace ℝ (Fin 3)) -
          !₂[3 * n ^ 2 * p' 0 + 2 * n * q' 1, -2 * n * q' 0, -(n ^ 2) * p' 2] =
          !₂[3 * n ^ 2 * (p 0 - p' 0) + 2 * n * (q 1 - q' 1), -2 * n * (q 0 - q' 0), -(n ^ 2) * (p 2 - p' 2)] := by
        ext i; fin_cases i <;> simp <;> ring
      have e1 : p - p' = !₂[p 0 - p' 0, p 1 - p' 1, p 2 - p' 2] := by ext i; fin_cases i <;> simp
      have e2 : q - q' = !₂[q 0 - q' 0, q 1 - q' 1, q 2 - q' 2] := by ext i; fin_cases i <;> simp
      rw [e, e1, e2, norm_three (p 0 - p' 0), norm_three (q 0 - q' 0)]
      exact (force3_norm hn (p 0 - p' 0) (p 1 - p' 1) (p 2 - p' 2) (q 0 - q' 0) (q 1 - q' 1) (q 2 - q' 2)).trans (le_of_eq (add_comm _ _)))
    (by ext i; fin_cases i <;> simp)
    (by
      rw [norm_three, norm_three]
      refine (sqrt_scale (k := 1 / 24) (by norm_num) (T := A 0 ^ 2 + B 0 ^ 2 + C 0 ^ 2) (by positivity) (by linarith)).trans (le_of_eq (by ring)))
  refine ⟨_, _, _, _, _, _, hp, ?_, ?_⟩
  · have e : (!₂[X dt, Y dt, Z dt] : EuclideanSpace ℝ (Fin 3)) - !₂[X 0, Y 0, Z 0] = !₂[X dt - X 0, Y dt - Y 0, Z dt - Z 0] := by
      ext i; fin_cases i <;> simp
    have k := key.1
    rw [e, norm_three, norm_three, norm_three] at k
    exact k
  · have k := key.2
    have e : (!₂[A dt, B dt, C dt] : EuclideanSpace ℝ (Fin 3)) - (!₂[A 0, B 0, C 0] + dt • (!₂[3 * n ^ 2 * X 0 + 2 * n * B 0, -2 * n * A 0, -(n ^ 2) * Z 0] +
        !₂[1 / 12 * u, 1 / 12 * w, 1 / 12 * o])) = !₂[A dt - (A 0 + dt * (3 * n ^ 2 * X 0 + 2 * n * B 0 + 1 / 12 * u)),
          B dt - (B 0 + dt * (-2 * n * A 0 + 1 / 12 * w)), C dt - (C 0 + dt * (-(n ^ 2) * Z 0 + 1 / 12 * o))] := by
      ext i; fin_cases i <;> simp <;> ring
    have k' : ‖(!₂[A dt, B dt, C dt] : EuclideanSpace ℝ (Fin 3)) - (!₂[A 0, B 0, C 0] + dt • (!₂[3 * n ^ 2 * X 0 + 2 * n * B 0, -2 * n * A 0, -(n ^ 2) * Z 0] +
        !₂[1 / 12 * u, 1 / 12 * w, 1 / 12 * o]))‖ ≤
          dt / 400 * (‖(!₂[A 0, B 0, C 0] : EuclideanSpace ℝ (Fin 3))‖ + n * ‖(!₂[X 0, Y 0, Z 0] : EuclideanSpace ℝ (Fin 3))‖) := k
    rw [e, norm_three, norm_three, norm_three] at k'
    exact k'

/-- The solution of a linear equation with constant coefficients. -/
noncomputable def linFlow {k : Nat} (M : Matrix (Fin k) (Fin k) ℝ) (t : ℝ) (z : Fin k → ℝ) : Fin k → ℝ :=
  NormedSpace.exp (t • LinearMap.toContinuousLinearMap M.mulVecLin) z

theorem linFlow_zero {k : Nat} (M : Matrix (Fin k) (Fin k) ℝ) (z : Fin k → ℝ) : linFlow M 0 z = z := by
  simp [linFlow]

theorem linFlow_deriv {k : Nat} (M : Matrix (Fin k) (Fin k) ℝ) (z : Fin k → ℝ) (t : ℝ) (i : Fin k) :
    HasDerivAt (fun t => linFlow M t z i) ((M *ᵥ linFlow M t z) i) t := by
  have h := hasDerivAt_exp_smul_const' (𝕂 := ℝ) (LinearMap.toContinuousLinearMap M.mulVecLin) t
  have h2 := (ContinuousLinearMap.apply ℝ (Fin k → ℝ) z).hasFDerivAt.comp_hasDerivAt t h
  exact (hasDerivAt_pi.1 h2) i

theorem linFlow_const {k : Nat} (M : Matrix (Fin k) (Fin k) ℝ) (z : Fin k → ℝ) (t : ℝ) {i : Fin k} (h : ∀ y, (M *ᵥ y) i = 0) :
    linFlow M t z i = z i := by
  have h1 := is_const_of_deriv_eq_zero (f := fun t => linFlow M t z i) (fun t => (linFlow_deriv M z t i).differentiableAt)
    (fun t => by rw [(linFlow_deriv M z t i).deriv, h]) t 0
  simpa [linFlow_zero] using h1

/-- The exact solution in the plane, with the thrust as two more components that do not change. -/
noncomputable def exactDock2 (n : ℝ) (X : List ℝ) (dt : ℝ) (u : List ℝ) : List ℝ :=
  let z := linFlow !![0, 0, 1, 0, 0, 0; 0, 0, 0, 1, 0, 0; 3 * n ^ 2, 0, 0, 2 * n, 1 / 12, 0; 0, 0, -2 * n, 0, 0, 1 / 12; 0, 0, 0, 0, 0, 0; 0, 0, 0, 0, 0, 0] dt
    ![X.getD 0 0, X.getD 1 0, X.getD 2 0, X.getD 3 0, u.getD 0 0, u.getD 1 0]
  [z 0, z 1, z 2, z 3]

/-- Exact predictions exist. -/
theorem exactDock2_flow (n dt : ℝ) : ExactFlow2 n dt (exactDock2 n) := by
  intro x y a b u w
  set M : Matrix (Fin 6) (Fin 6) ℝ := !![0, 0, 1, 0, 0, 0; 0, 0, 0, 1, 0, 0; 3 * n ^ 2, 0, 0, 2 * n, 1 / 12, 0; 0, 0, -2 * n, 0, 0, 1 / 12; 0, 0, 0, 0, 0, 0; 0, 0, 0, 0, 0, 0] with hM
  have hr : ∀ q : Fin 6 → ℝ, (M *ᵥ q) 0 = q 2 ∧ (M *ᵥ q) 1 = q 3 ∧ (M *ᵥ q) 2 = 3 * n ^ 2 * q 0 + 2 * n * q 3 + 1 / 12 * q 4 ∧
      (M *ᵥ q) 3 = -2 * n * q 2 + 1 / 12 * q 5 ∧ (M *ᵥ q) 4 = 0 ∧ (M *ᵥ q) 5 = 0 := fun q => by
    simp [hM, mulVec, dotProduct, Fin.sum_univ_succ]
    ring
  clear_value M
  have h4 : ∀ t, linFlow M t ![x, y, a, b, u, w] 4 = u := fun t => linFlow_const M _ t (fun q => (hr q).2.2.2.2.1)
  have h5 : ∀ t, linFlow M t ![x, y, a, b, u, w] 5 = w := fun t => linFlow_const M _ t (fun q => (hr q).2.2.2.2.2)
  refine ⟨fun t => linFlow M t ![x, y, a, b, u, w] 0, fun t => linFlow M t ![x, y, a, b, u, w] 1, fun t => linFlow M t ![x, y, a, b, u, w] 2,
    fun t => linFlow M t ![x, y, a, b, u, w] 3, by simp [linFlow_zero], by simp [linFlow_zero], by simp [linFlow_zero], by simp [linFlow_zero],
    by rw [hM]; rfl, fun t _ => ?_⟩
  obtain ⟨r0, r1, r2, r3, -⟩ := hr (linFlow M t ![x, y, a, b, u, w])
  rw [h4 t] at r2
  rw [h5 t] at r3
  exact ⟨((linFlow_deriv M _ t 0).congr_deriv r0).hasDerivWithinAt, ((linFlow_deriv M _ t 1).congr_deriv r1).hasDerivWithinAt,
    ((linFlow_deriv M _ t 2).congr_deriv r2).hasDerivWithinAt, ((linFlow_deriv M _ t 3).congr_deriv r3).hasDerivWithinAt⟩

/-- The exact solution in space. -/
noncomputable def exactDock3 (n : ℝ) (X : List ℝ) (dt : ℝ) (u : List ℝ) : List ℝ :=
  let z := linFlow !![0, 0, 0, 1, 0, 0, 0, 0, 0; 0, 0, 0, 0, 1, 0, 0, 0, 0; 0, 0, 0, 0, 0, 1, 0, 0, 0; 3 * n ^ 2, 0, 0, 0, 2 * n, 0, 1 / 12, 0, 0;
      0, 0, 0, -2 * n, 0, 0, 0, 1 / 12, 0; 0, 0, -(n ^ 2), 0, 0, 0, 0, 0, 1 / 12; 0, 0, 0, 0, 0, 0, 0, 0, 0; 0, 0, 0, 0, 0, 0, 0, 0, 0;
      0, 0, 0, 0, 0, 0, 0, 0, 0] dt
    ![X.getD 0 0, X.getD 1 0, X.getD 2 0, X.getD 3 0, X.getD 4 0, X.getD 5 0, u.getD 0 0, u.getD 1 0, u.getD 2 0]
  [z 0, z 1, z 2, z 3, z 4, z 5]

theorem exactDock3_flow (n dt : ℝ) : ExactFlow3 n dt (exactDock3 n) := by
  intro x y z a b c u w o
  set M : Matrix (Fin 9) (Fin 9) ℝ := !![0, 0, 0, 1, 0, 0, 0, 0, 0; 0, 0, 0, 0, 1, 0, 0, 0, 0; 0, 0, 0, 0, 0, 1, 0, 0, 0;
      3 * n ^ 2, 0, 0, 0, 2 * n, 0, 1 / 12, 0, 0;
      0, 0, 0, -2 * n, 0, 0, 0, 1 / 12, 0; 0, 0, -(n ^ 2), 0, 0, 0, 0, 0, 1 / 12; 0, 0, 0, 0, 0, 0, 0, 0, 0; 0, 0, 0, 0, 0, 0, 0, 0, 0;
      0, 0, 0, 0, 0, 0, 0, 0, 0] with hM
  have hr : ∀ q : Fin 9 → ℝ, (M *ᵥ q) 0 = q 3 ∧ (M *ᵥ q) 1 = q 4 ∧ (M *ᵥ q) 2 = q 5 ∧ (M *ᵥ q) 3 = 3 * n ^ 2 * q 0 + 2 * n * q 4 + 1 / 12 * q 6 ∧
      (M *ᵥ q) 4 = -2 * n * q 3 + 1 / 12 * q 7 ∧ (M *ᵥ q) 5 = -(n ^ 2) * q 2 + 1 / 12 * q 8 ∧ (M *ᵥ q) 6 = 0 ∧ (M *ᵥ q) 7 = 0 ∧
      (M *ᵥ q) 8 = 0 := fun q => by
    simp [hM, mulVec, dotProduct, Fin.sum_univ_succ]
    ring
  clear_value M
  have h6 : ∀ t, linFlow M t ![x, y, z, a, b, c, u, w, o] 6 = u := fun t => linFlow_const M _ t (fun q => (hr q).2.2.2.2.2.2.1)
  have h7 : ∀ t, linFlow M t ![x, y, z, a, b, c, u, w, o] 7 = w := fun t => linFlow_const M _ t (fun q => (hr q).2.2.2.2.2.2.2.1)
  have h8 : ∀ t, linFlow M t ![x, y, z, a, b, c, u, w, o] 8 = o := fun t => linFlow_const M _ t (fun q => (hr q).2.2.2.2.2.2.2.2)
  refine ⟨fun t => linFlow M t ![x, y, z, a, b, c, u, w, o] 0, fun t => linFlow M t ![x, y, z, a, b, c, u, w, o] 1,
    fun t => linFlow M t ![x, y, z, a, b, c, u, w, o] 2, fun t => linFlow M t ![x, y, z, a, b, c, u, w, o] 3,
    fun t => linFlow M t ![x, y, z, a, b, c, u, w, o] 4, fun t => linFlow M t ![x, y, z, a, b, c, u, w, o] 5,
    by simp [linFlow_zero], by simp [linFlow_zero], by simp [linFlow_zero], by simp [linFlow_zero], by simp [linFlow_zero], by simp [linFlow_zero],
    by rw [hM]; rfl, fun t _ => ?_⟩
  obtain ⟨r0, r1, r2, r3, r4, r5, -⟩ := hr (linFlow M t ![x, y, z, a, b, c, u, w, o])
  rw [h6 t] at r3
  rw [h7 t] at r4
  rw [h8 t] at r5
  exact ⟨((linFlow_deriv M _ t 0).congr_deriv r0).hasDerivWithinAt, ((linFlow_deriv M _ t 1).congr_deriv r1).hasDerivWithinAt,
    ((linFlow_deriv M _ t 2).congr_deriv r2).hasDerivWithinAt, ((linFlow_deriv M _ t 3).congr_deriv r3).hasDerivWithinAt,
    ((linFlow_deriv M _ t 4).congr_deriv r4).hasDerivWithinAt, ((linFlow_deriv M _ t 5).congr_deriv r5).hasDerivWithinAt⟩

/-- An Euler step moves the position by the velocity, whatever the control. -/
theorem euler2_any (n dt x y a b : ℝ) (c : List ℝ) : ∃ a' b', eulerDock2 n [x, y, a, b] dt c = [x + dt * a, y + dt * b, a', b'] := by
  have h0 : dot [0, 0] c = 0 := by
    rcases c with _ | ⟨u, _ | ⟨w, c⟩⟩ <;> simp [dot]
  have h : matVec (dockG2 12 [x, y, a, b]) c = [dot [0, 0] c, dot [0, 0] c, dot [1 / 12, 0] c, dot [0, 1 / 12] c] := rfl
  have hf : dockF2 n [x, y, a, b] = [a, b, 3 * n ^ 2 * x + 2 * n * b, -2 * n * a] := by
    simp [dockF2, cwhA2, matVec, dot]
  unfold eulerDock2
  rw [h, h0, hf]
  exact ⟨_, _, by simp only [vadd, vscale, List.zipWith_cons_cons, List.zipWith_nil_right, List.map_cons, List.map_nil, add_zero]; rfl⟩

theorem euler3_any (n dt x y z a b c : ℝ) (u : List ℝ) :
    ∃ a' b' c', eulerDock3 n [x, y, z, a, b, c] dt u = [x + dt * a, y + dt * b, z + dt * c, a', b', c'] := by
  have h0 : dot [0, 0, 0] u = 0 := by
    rcases u with _ | ⟨u, _ | ⟨w, _ | ⟨q, c⟩⟩⟩ <;> simp [dot]
  have h : matVec (dockG3 12 [x, y, z, a, b, c]) u = [dot [0, 0, 0] u, dot [0, 0, 0] u, dot [0, 0, 0] u, dot [1 / 12, 0, 0] u, dot [0, 1 / 12, 0] u,
    dot [0, 0, 1 / 12] u] := rfl
  have hf : dockF3 n [x, y, z, a, b, c] = [a, b, c, 3 * n ^ 2 * x + 2 * n * b, -2 * n * a, -(n ^ 2) * z] := by
    simp [dockF3, cwhA3, matVec, dot]
  unfold eulerDock3
  rw [h, h0, hf]
  exact ⟨_, _, _, by simp only [vadd, vscale, List.zipWith_cons_cons, List.zipWith_nil_right, List.map_cons, List.map_nil, add_zero]; rfl⟩

/-- How fast the enforced limit can grow. -/
theorem limit_growth {w v1 dt V R R' : ℝ} (hv1 : 0 ≤ v1) (hdt : 0 ≤ dt) (hR' : R' ≤ R + dt * V) (hR'0 : 0 ≤ R') (hV0 : 0 ≤ V)
    (hV : √(V ^ 2 + 1 / 100000) ≤ w + v1 * √(R ^ 2 + 1 / 100000)) :
    w + v1 * √(R' ^ 2 + 1 / 100000) ≤ (w + v1 * √(R ^ 2 + 1 / 100000)) * (1 + v1 * dt) := by
  have h1 := smooth_add (c := 1) (V := R) (e := dt * V) (δ := 1 / 100000) zero_le_one le_rfl (by positivity) (by norm_num)
  have h2 := smooth_mono (δ := 1 / 100000) hR'0 hR'
  rw [one_mul, one_mul, sub_self, zero_mul, add_zero] at h1
  have h3 : V ≤ √(V ^ 2 + 1 / 100000) := le_sqrt_of_sq_le (by linarith)
  have h4 := mul_le_mul_of_nonneg_left (h2.trans h1) hv1
  have h5 := mul_le_mul_of_nonneg_left (h3.trans hV) (mul_nonneg hv1 hdt)
  linarith

/-- The enforced speed limit at a position at distance `√q` from the chief. -/
noncomputable def dockLimitAt (v0 v1 v0Distance q : ℝ) : ℝ := v0 + v1 * (√(q + 1 / 100000) - v0Distance) - 1 / 10000

theorem euler_growth2 {v0 v1 v0Distance xLim yLim dt x y a b : ℝ} (hv1 : 0 ≤ v1) (hdt : 0 ≤ dt)
    (hs : Docking2Safe v0 v1 v0Distance xLim yLim x y a b) :
    dockLimitAt v0 v1 v0Distance ((x + dt * a) ^ 2 + (y + dt * b) ^ 2) ≤ dockLimitAt v0 v1 v0Distance (x ^ 2 + y ^ 2) * (1 + v1 * dt) := by
  have e : (!₂[x + dt * a, y + dt * b] : EuclideanSpace ℝ (Fin 2)) = !₂[x, y] + dt • !₂[a, b] := by ext i; fin_cases i <;> simp
  have h := limit_growth (w := v0 - v1 * v0Distance - 1 / 10000) hv1 hdt (V := √(a ^ 2 + b ^ 2)) (R := √(x ^ 2 + y ^ 2))
    (R' := √((x + dt * a) ^ 2 + (y + dt * b) ^ 2)) (by
      rw [← norm_two a b, ← norm_two x y, ← norm_two (x + dt * a), e]
      refine (norm_add_le _ _).trans ?_
      rw [norm_smul, norm_eq_abs, abs_of_nonneg hdt]) (sqrt_nonneg _) (sqrt_nonneg _)
    (by rw [sq_sqrt (by positivity), sq_sqrt (by positivity)]; linarith [hs.rel])
  rw [sq_sqrt (by positivity), sq_sqrt (by positivity)] at h
  unfold dockLimitAt
  linarith

theorem euler_growth3 {v0 v1 v0Distance xLim yLim zLim dt x y z a b c : ℝ} (hv1 : 0 ≤ v1) (hdt : 0 ≤ dt)
    (hs : Docking3Safe v0 v1 v0Distance xLim yLim zLim x y z a b c) :
    dockLimitAt v0 v1 v0Distance ((x + dt * a) ^ 2 + (y + dt * b) ^ 2 + (z + dt * c) ^ 2) ≤
      dockLimitAt v0 v1 v0Distance (x ^ 2 + y ^ 2 + z ^ 2) * (1 + v1 * dt) := by
  have e : (!₂[x + dt * a, y + dt * b, z + dt * c] : EuclideanSpace ℝ (Fin 3)) = !₂[x, y, z] + dt • !₂[a, b, c] := by
    ext i; fin_cases i <;> simp
  have h := limit_growth (w := v0 - v1 * v0Distance - 1 / 10000) hv1 hdt (V := √(a ^ 2 + b ^ 2 + c ^ 2)) (R := √(x ^ 2 + y ^ 2 + z ^ 2))
    (R' := √((x + dt * a) ^ 2 + (y + dt * b) ^ 2 + (z + dt * c) ^ 2)) (by
      rw [← norm_three a b c, ← norm_three x y z, ← norm_three (x + dt * a), e]
      refine (norm_add_le _ _).trans ?_
      rw [norm_smul, norm_eq_abs, abs_of_nonneg hdt]) (sqrt_nonneg _) (sqrt_nonneg _)
    (by rw [sq_sqrt (by positivity), sq_sqrt (by positivity)]; linarith [hs.rel])
  rw [sq_sqrt (by positivity), sq_sqrt (by positivity)] at h
  unfold dockLimitAt
  linarith

/-- Runs that cannot leave the region within `N` steps. -/
theorem horizon_near {L0 q : ℝ} {N k : Nat} (h0 : 0 ≤ L0) (hq : 1 ≤ q) (hN : L0 * q ^ N ≤ 9 / 4) (hk : k ≤ N) : L0 * q ^ k ≤ 9 / 4 :=
  (mul_le_mul_of_nonneg_left (pow_le_pow_right₀ hq hk) h0).trans hN

/-- **C83, runs of `N` steps in the plane, explicit switching**, with Euler prediction: no hypothesis about the loop. If the initial limit, growing by
the factor `1 + v1 dt` per step, stays below 2.25 m/s for `N` steps, the loop runs and keeps the limits for `N` steps. -/
theorem C83_horizon_explicit_2d {n v0 v1Coef v0Distance xLim yLim latchTime window : ℝ} (hn : 0 ≤ n) (hn1 : n ≤ 11 / 10000) (hC : 1 ≤ v1Coef)
    (hC4 : v1Coef ≤ 4) (hw : 1 / 20 ≤ v0 - v1Coef * n * v0Distance - 1 / 10000) (hx : 9 / 4 ≤ xLim) (hy : 9 / 4 ≤ yLim)
    {P : Matrix (Fin 4) (Fin 4) ℝ} (hP : IsCARE (toMat (cwhA2 n)) (toMat (cwhB2 12)) (dockQ 4) (dockR 2) P) (hpsd : Psd P)
    {s0 : SimplexObj ℝ (List ℝ) DockParams A}
    (hs : dock2Simplex n v0 v1Coef v0Distance xLim yLim (some (.scalar 1)) (some (.scalar (-1)))
      (matRows (lqrGain (toMat (cwhB2 12)) (dockR 2) P)) latchTime window = .ok s0)
    {dt : ℝ} (hdt : 0 ≤ dt) (hdt1 : dt ≤ 25) {us : Nat → List ℝ} (hus : ∀ k, ∀ c ∈ us k, |c| ≤ 1) {x y a b : ℝ}
    (hsafe : Docking2Safe v0 (v1Coef * n) v0Distance xLim yLim x y a b) (N : Nat)
    (hN : dockLimitAt v0 (v1Coef * n) v0Distance (x ^ 2 + y ^ 2) * (1 + v1Coef * n * dt) ^ N ≤ 9 / 4) (k : Nat) (hk : k ≤ N) :
    ∃ x' y' a' b' s, closedLoop (explicitSimplex (eulerDock2 n)) (eulerDock2 n) (fun _ => dt) us [x, y, a, b] s0 k = some ([x', y', a', b'], s) ∧
      Docking2Safe v0 (v1Coef * n) v0Distance xLim yLim x' y' a' b' := by
  obtain ⟨p11, p12, p21, p22, k11, k12, k22, hG, hkg⟩ := gain2_bounds hn hn1 hP hpsd
  rw [hG] at hs
  obtain ⟨hcs, hen, hl, hh, hgen, hst, hwf, -⟩ := dock2S_init hs
  have hv1 : 0 ≤ v1Coef * n := by positivity
  have hL0 : 0 ≤ dockLimitAt v0 (v1Coef * n) v0Distance (x ^ 2 + y ^ 2) := by
    have := hsafe.rel
    have := sqrt_nonneg (a ^ 2 + b ^ 2 + 1 / 100000)
    unfold dockLimitAt
    linarith
  have hq : 1 ≤ 1 + v1Coef * n * dt := by have := mul_nonneg hv1 hdt; linarith
  obtain ⟨X, s, hX, hsX, x', y', a', b', rfl, -⟩ := C18_explicit_closed_loop_safe_upto N
    (fun j X => ∃ x' y' a' b', X = [x', y', a', b'] ∧ dockLimitAt v0 (v1Coef * n) v0Distance (x' ^ 2 + y' ^ 2) ≤
      dockLimitAt v0 (v1Coef * n) v0Distance (x ^ 2 + y ^ 2) * (1 + v1Coef * n * dt) ^ j) (eulerDock2 n) (fun _ => dt) us [x, y, a, b] s0 hwf hen
    (by rw [hcs]; exact dock2_safe_iff.2 hsafe) (fun k => clip_unit _ hh hl (hus k))
    (fun k _ X z _ => by
      obtain ⟨c, hc, -⟩ := C05_clip_total s0.toBase (lqrControl 2 [[p11, p12, k11, k12], [p21, p22, k12, k22]] X) (by rw [hl]; trivial)
        (by rw [hh]; trivial)
      exact ⟨_, _, c, by rw [hgen], hc⟩)
    (fun k hk X z ub z' cb hg hS hgn hc => by
      rw [hgen, Option.some.injEq, Prod.mk.injEq] at hgn
      rw [← hgn.1] at hc
      rw [hcs] at hS ⊢
      obtain ⟨x', y', a', b', hX, hL⟩ := hg
      exact back_step2 hn hn1 hC hC4 hw hx hy hdt hdt1 (euler_near2 hn hdt) hkg _ hh hl
        ⟨x', y', a', b', hX, hL.trans (horizon_near hL0 hq hN hk.le)⟩ hS hc)
    ⟨x, y, a, b, rfl, by rw [pow_zero, mul_one]⟩
    (fun k _ X s c s' _ hg hS _ _ _ => by
      obtain ⟨x', y', a', b', rfl, hL⟩ := hg
      rw [hcs, dock2_safe_iff] at hS
      obtain ⟨a'', b'', he⟩ := euler2_any n dt x' y' a' b' c
      refine ⟨_, _, _, _, he, (euler_growth2 hv1 hdt hS).trans ?_⟩
      rw [pow_succ (1 + v1Coef * n * dt) k, ← mul_assoc]
      exact mul_le_mul_of_nonneg_right hL (by linarith)) k hk
  rw [hcs, dock2_safe_iff] at hsX
  exact ⟨x', y', a', b', s, hX, hsX⟩

/-- **C83, runs of `N` steps in space, explicit switching**. -/
theorem C83_horizon_explicit_3d {n v0 v1Coef v0Distance xLim yLim zLim latchTime window : ℝ} (hn : 0 ≤ n) (hn1 : n ≤ 11 / 10000) (hC : 1 ≤ v1Coef)
    (hC4 : v1Coef ≤ 4) (hw : 1 / 20 ≤ v0 - v1Coef * n * v0Distance - 1 / 10000) (hx : 9 / 4 ≤ xLim) (hy : 9 / 4 ≤ yLim) (hz : 9 / 4 ≤ zLim)
    {P : Matrix (Fin 6) (Fin 6) ℝ} (hP : IsCARE (toMat (cwhA3 n)) (toMat (cwhB3 12)) (dockQ 6) (dockR 3) P) (hpsd : Psd P)
    {s0 : SimplexObj ℝ (List ℝ) DockParams A}
    (hs : dock3Simplex n v0 v1Coef v0Distance xLim yLim zLim (some (.scalar 1)) (some (.scalar (-1)))
      (matRows (lqrGain (toMat (cwhB3 12)) (dockR 3) P)) latchTime window = .ok s0)
    {dt : ℝ} (hdt : 0 ≤ dt) (hdt1 : dt ≤ 25) {us : Nat → List ℝ} (hus : ∀ k, ∀ c ∈ us k, |c| ≤ 1) {x y z a b c : ℝ}
    (hsafe : Docking3Safe v0 (v1Coef * n) v0Distance xLim yLim zLim x y z a b c) (N : Nat)
    (hN : dockLimitAt v0 (v1Coef * n) v0Distance (x ^ 2 + y ^ 2 + z ^ 2) * (1 + v1Coef * n * dt) ^ N ≤ 9 / 4) (k : Nat) (hk : k ≤ N) :
    ∃ x' y' z' a' b' c' s, closedLoop (explicitSimplex (eulerDock3 n)) (eulerDock3 n) (fun _ => dt) us [x, y, z, a, b, c] s0 k = some ([x', y', z', a', b', c'], s) ∧
      Docking3Safe v0 (v1Coef * n) v0Distance xLim yLim zLim x' y' z' a' b' c' := by
  obtain ⟨p11, p12, p13, p21, p22, p23, p31, p32, p33, k11, k12, k13, k22, k23, k33, hG, hkg⟩ := gain3_bounds hn hn1 hP hpsd
  rw [hG] at hs
  obtain ⟨hcs, hen, hl, hh, hgen, hst, hwf, -⟩ := dock3S_init hs
  have hv1 : 0 ≤ v1Coef * n := by positivity
  have hL0 : 0 ≤ dockLimitAt v0 (v1Coef * n) v0Distance (x ^ 2 + y ^ 2 + z ^ 2) := by
    have := hsafe.rel
    have := sqrt_nonneg (a ^ 2 + b ^ 2 + c ^ 2 + 1 / 100000)
    unfold dockLimitAt
    linarith
  have hq : 1 ≤ 1 + v1Coef * n * dt := by have := mul_nonneg hv1 hdt; linarith
  obtain ⟨X, s, hX, hsX, x', y', z', a', b', c', rfl, -⟩ := C18_explicit_closed_loop_safe_upto N
    (fun j X => ∃ x' y' z' a' b' c', X = [x', y', z', a', b', c'] ∧ dockLimitAt v0 (v1Coef * n) v0Distance (x' ^ 2 + y' ^ 2 + z' ^ 2) ≤
      dockLimitAt v0 (v1Coef * n) v0Distance (x ^ 2 + y ^ 2 + z ^ 2) * (1 + v1Coef * n * dt) ^ j) (eulerDock3 n) (fun _ => dt) us [x, y, z, a, b, c] s0 hwf hen
    (by rw [hcs]; exact dock3_safe_iff.2 hsafe) (fun k => clip_unit _ hh hl (hus k))
    (fun k _ X q _ => by
      obtain ⟨c, hc, -⟩ := C05_clip_total s0.toBase (lqrControl 3
        [[p11, p12, p13, k11, k12, k13], [p21, p22, p23, k12, k22, k23], [p31, p32, p33, k13, k23, k33]] X) (by rw [hl]; trivial)
        (by rw [hh]; trivial)
      exact ⟨_, _, c, by rw [hgen], hc⟩)
    (fun k hk X q ub q' cb hg hS hgn hc => by
      rw [hgen, Option.some.injEq, Prod.mk.injEq] at hgn
      rw [← hgn.1] at hc
      rw [hcs] at hS ⊢
      obtain ⟨x', y', z', a', b', c', hX, hL⟩ := hg
      exact back_step3 hn hn1 hC hC4 hw hx hy hz hdt hdt1 (euler_near3 hn hdt) hkg _ hh hl
        ⟨x', y', z', a', b', c', hX, hL.trans (horizon_near hL0 hq hN hk.le)⟩ hS hc)
    ⟨x, y, z, a, b, c, rfl, by rw [pow_zero, mul_one]⟩
    (fun k _ X s o s' _ hg hS _ _ _ => by
      obtain ⟨x', y', z', a', b', c', rfl, hL⟩ := hg
      rw [hcs, dock3_safe_iff] at hS
      obtain ⟨a'', b'', c'', he⟩ := euler3_any n dt x' y' z' a' b' c' o
      refine ⟨_, _, _, _, _, _, he, (euler_growth3 hv1 hdt hS).trans ?_⟩
      rw [pow_succ (1 + v1Coef * n * dt) k, ← mul_assoc]
      exact mul_le_mul_of_nonneg_right hL (by linarith)) k hk
  rw [hcs, dock3_safe_iff] at hsX
  exact ⟨x', y', z', a', b', c', s, hX, hsX⟩

/-- **C83, runs of `N` steps in the plane, implicit switching**, for any backup window. -/
theorem C83_horizon_implicit_2d {n v0 v1Coef v0Distance xLim yLim latchTime window : ℝ} (hn : 0 ≤ n) (hn1 : n ≤ 11 / 10000) (hC : 1 ≤ v1Coef)
    (hC4 : v1Coef ≤ 4) (hw : 1 / 20 ≤ v0 - v1Coef * n * v0Distance - 1 / 10000) (hx : 9 / 4 ≤ xLim) (hy : 9 / 4 ≤ yLim)
    {P : Matrix (Fin 4) (Fin 4) ℝ} (hP : IsCARE (toMat (cwhA2 n)) (toMat (cwhB2 12)) (dockQ 4) (dockR 2) P) (hpsd : Psd P)
    {s0 : SimplexObj ℝ (List ℝ) DockParams A}
    (hs : dock2Simplex n v0 v1Coef v0Distance xLim yLim (some (.scalar 1)) (some (.scalar (-1)))
      (matRows (lqrGain (toMat (cwhB2 12)) (dockR 2) P)) latchTime window = .ok s0)
    {dt : ℝ} (hdt : 0 < dt) (hdt1 : dt ≤ 25) {us : Nat → List ℝ} (hus : ∀ k, ∀ c ∈ us k, |c| ≤ 1) {x y a b : ℝ}
    (hsafe : Docking2Safe v0 (v1Coef * n) v0Distance xLim yLim x y a b) (N : Nat)
    (hN : dockLimitAt v0 (v1Coef * n) v0Distance (x ^ 2 + y ^ 2) * (1 + v1Coef * n * dt) ^ N ≤ 9 / 4) (k : Nat) (hk : k ≤ N) :
    ∃ x' y' a' b' s, closedLoop (implicitSimplex (eulerDock2 n)) (eulerDock2 n) (fun _ => dt) us [x, y, a, b] s0 k = some ([x', y', a', b'], s) ∧
      Docking2Safe v0 (v1Coef * n) v0Distance xLim yLim x' y' a' b' := by
  obtain ⟨p11, p12, p21, p22, k11, k12, k22, hG, hkg⟩ := gain2_bounds hn hn1 hP hpsd
  rw [hG] at hs
  obtain ⟨hcs, hen, hl, hh, hgen, hst, hwf, -⟩ := dock2S_init hs
  have hclip : ∀ X : List ℝ, ∃ c, s0.toBase.clipControl (lqrControl 2 [[p11, p12, k11, k12], [p21, p22, k12, k22]] X) = .ok c := fun X => by
    obtain ⟨c, hc, -⟩ := C05_clip_total s0.toBase (lqrControl 2 [[p11, p12, k11, k12], [p21, p22, k12, k22]] X)
      (by rw [hl]; trivial) (by rw [hh]; trivial)
    exact ⟨c, hc⟩
  choose claw hclaw using hclip
  have hv1 : 0 ≤ v1Coef * n := by positivity
  have hL0 : 0 ≤ dockLimitAt v0 (v1Coef * n) v0Distance (x ^ 2 + y ^ 2) := by
    have := hsafe.rel
    have := sqrt_nonneg (a ^ 2 + b ^ 2 + 1 / 100000)
    unfold dockLimitAt
    linarith
  have hq : 1 ≤ 1 + v1Coef * n * dt := by have := mul_nonneg hv1 hdt.le; linarith
  obtain ⟨X, s, hX, hsX, x', y', a', b', rfl, -⟩ := C18_implicit_closed_loop_safe_upto N
    (fun j X => ∃ x' y' a' b', X = [x', y', a', b'] ∧ dockLimitAt v0 (v1Coef * n) v0Distance (x' ^ 2 + y' ^ 2) ≤
      dockLimitAt v0 (v1Coef * n) v0Distance (x ^ 2 + y ^ 2) * (1 + v1Coef * n * dt) ^ j) (eulerDock2 n) dt us [x, y, a, b] s0 hwf hen hdt.ne'
    (by rw [hcs]; exact dock2_safe_iff.2 hsafe) (fun X _ => claw X) (fun _ _ => .none) (fun X _ => ⟨_, by rw [hgen], hclaw X⟩) (by rw [hst]; rfl)
    (fun _ _ _ => rfl) (fun k => clip_unit _ hh hl (hus k))
    (fun k hk X _ hg hS => by
      rw [hcs] at hS ⊢
      obtain ⟨x', y', a', b', hX, hL⟩ := hg
      exact back_step2 hn hn1 hC hC4 hw hx hy hdt.le hdt1 (euler_near2 hn hdt.le) hkg _ hh hl
        ⟨x', y', a', b', hX, hL.trans (horizon_near hL0 hq hN hk.le)⟩ hS (hclaw X))
    ⟨x, y, a, b, rfl, by rw [pow_zero, mul_one]⟩
    (fun k _ X s c s' _ hg hS _ _ _ => by
      obtain ⟨x', y', a', b', rfl, hL⟩ := hg
      rw [hcs, dock2_safe_iff] at hS
      obtain ⟨a'', b'', he⟩ := euler2_any n dt x' y' a' b' c
      refine ⟨_, _, _, _, he, (euler_growth2 hv1 hdt.le hS).trans ?_⟩
      rw [pow_succ (1 + v1Coef * n * dt) k, ← mul_assoc]
      exact mul_le_mul_of_nonneg_right hL (by linarith)) k hk
  rw [hcs, dock2_safe_iff] at hsX
  exact ⟨x', y', a', b', s, hX, hsX⟩

/-- **C83, runs of `N` steps in space, implicit switching**. -/
theorem C83_horizon_implicit_3d {n v0 v1Coef v0Distance xLim yLim zLim latchTime window : ℝ} (hn : 0 ≤ n) (hn1 : n ≤ 11 / 10000) (hC : 1 ≤ v1Coef)
    (hC4 : v1Coef ≤ 4) (hw : 1 / 20 ≤ v0 - v1Coef * n * v0Distance - 1 / 10000) (hx : 9 / 4 ≤ xLim) (hy : 9 / 4 ≤ yLim) (hz : 9 / 4 ≤ zLim)
    {P : Matrix (Fin 6) (Fin 6) ℝ} (hP : IsCARE (toMat (cwhA3 n)) (toMat (cwhB3 12)) (dockQ 6) (dockR 3) P) (hpsd : Psd P)
    {s0 : SimplexObj ℝ (List ℝ) DockParams A}
    (hs : dock3Simplex n v0 v1Coef v0Distance xLim yLim zLim (some (.scalar 1)) (some (.scalar (-1)))
      (matRows (lqrGain (toMat (cwhB3 12)) (dockR 3) P)) latchTime window = .ok s0)
    {dt : ℝ} (hdt : 0 < dt) (hdt1 : dt ≤ 25) {us : Nat → List ℝ} (hus : ∀ k, ∀ c ∈ us k, |c| ≤ 1) {x y z a b c : ℝ}
    (hsafe : Docking3Safe v0 (v1Coef * n) v0Distance xLim yLim zLim x y z a b c) (N : Nat)
    (hN : dockLimitAt v0 (v1Coef * n) v0Distance (x ^ 2 + y ^ 2 + z ^ 2) * (1 + v1Coef * n * dt) ^ N ≤ 9 / 4) (k : Nat) (hk : k ≤ N) :
    ∃ x' y' z' a' b' c' s, closedLoop (implicitSimplex (eulerDock3 n)) (eulerDock3 n) (fun _ => dt) us [x, y, z, a, b, c] s0 k = some ([x', y', z', a', b', c'], s) ∧
      Docking3Safe v0 (v1Coef * n) v0Distance xLim yLim zLim x' y' z' a' b' c' := by
  obtain ⟨p11, p12, p13, p21, p22, p23, p31, p32, p33, k11, k12, k13, k22, k23, k33, hG, hkg⟩ := gain3_bounds hn hn1 hP hpsd
  rw [hG] at hs
  obtain ⟨hcs, hen, hl, hh, hgen, hst, hwf, -⟩ := dock3S_init hs
  have hclip : ∀ X : List ℝ, ∃ c, s0.toBase.clipControl (lqrControl 3 [[p11, p12, p13, k11, k12, k13], [p21, p22, p23, k12, k22, k23], [p31, p32, p33, k13, k23, k33]] X) = .ok c := fun X => by
    obtain ⟨c, hc, -⟩ := C05_clip_total s0.toBase (lqrControl 3 [[p11, p12, p13, k11, k12, k13], [p21, p22, p23, k12, k22, k23], [p31, p32, p33, k13, k23, k33]] X)
      (by rw [hl]; trivial) (by rw [hh]; trivial)
    exact ⟨c, hc⟩
  choose claw hclaw using hclip
  have hv1 : 0 ≤ v1Coef * n := by positivity
  have hL0 : 0 ≤ dockLimitAt v0 (v1Coef * n) v0Distance (x ^ 2 + y ^ 2 + z ^ 2) := by
    have := hsafe.rel
    have := sqrt_nonneg (a ^ 2 + b ^ 2 + c ^ 2 + 1 / 100000)
    unfold dockLimitAt
    linarith
  have hq : 1 ≤ 1 + v1Coef * n * dt := by have := mul_nonneg hv1 hdt.le; linarith
  obtain ⟨X, s, hX, hsX, x', y', z', a', b', c', rfl, -⟩ := C18_implicit_closed_loop_safe_upto N
    (fun j X => ∃ x' y' z' a' b' c', X = [x', y', z', a', b', c'] ∧ dockLimitAt v0 (v1Coef * n) v0Distance (x' ^ 2 + y' ^ 2 + z' ^ 2) ≤
      dockLimitAt v0 (v1Coef * n) v0Distance (x ^ 2 + y ^ 2 + z ^ 2) * (1 + v1Coef * n * dt) ^ j) (eulerDock3 n) dt us [x, y, z, a, b, c] s0 hwf hen hdt.ne'
    (by rw [hcs]; exact dock3_safe_iff.2 hsafe) (fun X _ => claw X) (fun _ _ => .none) (fun X _ => ⟨_, by rw [hgen], hclaw X⟩) (by rw [hst]; rfl)
    (fun _ _ _ => rfl) (fun k => clip_unit _ hh hl (hus k))
    (fun k hk X _ hg hS => by
      rw [hcs] at hS ⊢
      obtain ⟨x', y', z', a', b', c', hX, hL⟩ := hg
      exact back_step3 hn hn1 hC hC4 hw hx hy hz hdt.le hdt1 (euler_near3 hn hdt.le) hkg _ hh hl
        ⟨x', y', z', a', b', c', hX, hL.trans (horizon_near hL0 hq hN hk.le)⟩ hS (hclaw X))
    ⟨x, y, z, a, b, c, rfl, by rw [pow_zero, mul_one]⟩
    (fun k _ X s o s' _ hg hS _ _ _ => by
      obtain ⟨x', y', z', a', b', c', rfl, hL⟩ := hg
      rw [hcs, dock3_safe_iff] at hS
      obtain ⟨a'', b'', c'', he⟩ := euler3_any n dt x' y' z' a' b' c' o
      refine ⟨_, _, _, _, _, _, he, (euler_growth3 hv1 hdt.le hS).trans ?_⟩
      rw [pow_succ (1 + v1Coef * n * dt) k, ← mul_assoc]
      exact mul_le_mul_of_nonneg_right hL (by linarith)) k hk
  rw [hcs, dock3_safe_iff] at hsX
  exact ⟨x', y', z', a', b', c', s, hX, hsX⟩

/-- **C83, the limits of the guarantee**: forty kilometres from the chief the default 2-D module accepts a state at the component limit 10 m/s from
which no control within the bounds keeps the limit over the next second, so every answer of the filter leads out of the safe set. -/
theorem C83_refuted_far {G : List (List ℝ)} {latchTime window : ℝ} {s0 : SimplexObj ℝ (List ℝ) DockParams A}
    (hs : dock2Simplex (1027 / 1000000) (1 / 5) 2 0 10 10 (some (.scalar 1)) (some (.scalar (-1))) G latchTime window = .ok s0) :
    Docking2Safe (1 / 5) (2 * (1027 / 1000000)) 0 10 10 40000 0 10 0 ∧
    (∀ u c s', explicitSimplex (eulerDock2 (1027 / 1000000)) s0 (.array [40000, 0, 10, 0]) 1 u = (.ok c, s') →
      ¬ SafeAt s0.constraints (eulerDock2 (1027 / 1000000) [40000, 0, 10, 0] 1 c)) ∧
    ∀ u c s', implicitSimplex (eulerDock2 (1027 / 1000000)) s0 (.array [40000, 0, 10, 0]) 1 u = (.ok c, s') →
      ¬ SafeAt s0.constraints (eulerDock2 (1027 / 1000000) [40000, 0, 10, 0] 1 c) := by
  obtain ⟨hcs, hen, hl, hh, -, -, -, -⟩ := dock2S_init hs
  have hbad : ∀ c : List ℝ, (∀ v : ℝ, c[0]? = some v → -1 ≤ v) → ¬ SafeAt s0.constraints (eulerDock2 (1027 / 1000000) [40000, 0, 10, 0] 1 c) := by
    intro c hc hsafe
    have h1 := hsafe ("x_vel", dockLimit 10 2) (by rw [hcs]; unfold dockConstraints2; exact .tail _ (.head _)) rfl
    have h2 := limit_value 10 2 (eulerDock2 (1027 / 1000000) [40000, 0, 10, 0] 1 c)
    have h3 : (dockLimit 10 2).value (eulerDock2 (1027 / 1000000) [40000, 0, 10, 0] 1 c) =
      (dockLimit 10 2).computeFn (eulerDock2 (1027 / 1000000) [40000, 0, 10, 0] 1 c) (dockLimit 10 2).params + (dockLimit 10 2).bias := rfl
    rw [h3] at h2
    rw [h2] at h1
    have h4 : (eulerDock2 (1027 / 1000000) [40000, 0, 10, 0] 1 c).getD 2 0 = 10 + (3 * (1027 / 1000000) ^ 2 * 40000 + dot [1 / 12, 0] c) := by
      have h : matVec (dockG2 12 [40000, 0, 10, 0]) c = [dot [0, 0] c, dot [0, 0] c, dot [1 / 12, 0] c, dot [0, 1 / 12] c] := rfl
      have hf : dockF2 (1027 / 1000000) [40000, 0, 10, 0] = [10, 0, 3 * (1027 / 1000000) ^ 2 * 40000, -2 * (1027 / 1000000) * 10] := by
        simp [dockF2, cwhA2, matVec, dot]
      unfold eulerDock2
      rw [h, hf]
      simp [vadd, vscale]
    rw [h4] at h1
    have h5 : -(1 / 12) ≤ dot [1 / 12, 0] c := by
      rcases c with _ | ⟨u, c⟩
      · simp [dot]
      · have := hc u rfl
        rcases c with _ | ⟨w, c⟩ <;> simp [dot] <;> linarith
    nlinarith
  have hlow : ∀ (mon : SimplexObj ℝ (List ℝ) DockParams A → List ℝ → ℝ → List ℝ → Except PyErr Bool × SimplexObj ℝ (List ℝ) DockParams A),
      MonFrame mon → ∀ u c s', filterControlCB getStateDefault (simplexFilter mon) s0 (.array [40000, 0, 10, 0]) 1 u = (.ok c, s') →
      ∀ v : ℝ, c[0]? = some v → -1 ≤ v := by
    intro mon hm u c s' h v hv
    obtain ⟨⟨-, -, hh', hl'⟩, -⟩ := simplex_ok hm hen h
    refine (C01_filtered_control_in_bounds _ s0 _ 1 u c s' hen h 0 v hv).2 (-1) ?_ (fun b hb => ?_)
    · show boundAt s'.controlBoundsLow 0 = _
      rw [hl', hl]; rfl
    · have hb' : boundAt s'.controlBoundsHigh 0 = some b := hb
      rw [hh', hh] at hb'
      simp only [boundAt, Option.some.injEq] at hb'
      linarith
  refine ⟨⟨?_, by norm_num, by norm_num⟩, fun u c s' h => hbad c (hlow _ (monFrame_explicit _) u c s' h),
    fun u c s' h => hbad c (hlow _ (monFrame_implicit _) u c s' h)⟩
  have h1 : √((10 : ℝ) ^ 2 + 0 ^ 2 + 1 / 100000) ≤ 11 := sqrt_le_iff.2 (by norm_num)
  have h2 : (40000 : ℝ) ≤ √(40000 ^ 2 + 0 ^ 2 + 1 / 100000) := le_sqrt_of_sq_le (by norm_num)
  linarith

/-- The hypotheses are met: the default 2-D module, a hundred metres away and closing at 0.14 m/s, keeps the limits for the first 300 steps of one second
whatever is asked for within the bounds. -/
example {latchTime window : ℝ} {us : Nat → List ℝ} (hus : ∀ k, ∀ c ∈ us k, |c| ≤ 1) :
    ∃ (P : Matrix (Fin 4) (Fin 4) ℝ) (s0 : SimplexObj ℝ (List ℝ) DockParams A),
      IsCARE (toMat (cwhA2 (1027 / 1000000))) (toMat (cwhB2 12)) (dockQ 4) (dockR 2) P ∧
      dock2Simplex (1027 / 1000000) (1 / 5) 2 0 10 10 (some (.scalar 1)) (some (.scalar (-1)))
        (matRows (lqrGain (toMat (cwhB2 12)) (dockR 2) P)) latchTime window = .ok s0 ∧
      ∀ k ≤ 300, ∃ x y a b s, closedLoop (explicitSimplex (eulerDock2 (1027 / 1000000))) (eulerDock2 (1027 / 1000000)) (fun _ => 1) us
        [60, 80, -(1 / 10), -(1 / 10)] s0 k = some ([x, y, a, b], s) ∧ Docking2Safe (1 / 5) (2 * (1027 / 1000000)) 0 10 10 x y a b := by
  obtain ⟨P, ⟨hP, hpsd⟩, -⟩ := C82_unique_2d (m := 12) (n := 1027 / 1000000) (by norm_num)
  have h1 : √((60 : ℝ) ^ 2 + 80 ^ 2 + 1 / 100000) ≤ 101 := sqrt_le_iff.2 (by norm_num)
  have h2 : (100 : ℝ) ≤ √(60 ^ 2 + 80 ^ 2 + 1 / 100000) := le_sqrt_of_sq_le (by norm_num)
  have h3 : √((-(1 / 10) : ℝ) ^ 2 + (-(1 / 10)) ^ 2 + 1 / 100000) ≤ 1 / 5 := sqrt_le_iff.2 (by norm_num)
  refine ⟨P, _, hP, rfl, fun k hk => C83_horizon_explicit_2d (by norm_num) (by norm_num) (by norm_num) (by norm_num) (by norm_num) (by norm_num)
    (by norm_num) hP hpsd rfl (by norm_num) (by norm_num) hus ⟨by linarith, by norm_num, by norm_num⟩ 300 ?_ k hk⟩
  have h4 : dockLimitAt (1 / 5) (2 * (1027 / 1000000)) 0 (60 ^ 2 + 80 ^ 2) ≤ 41 / 100 := by unfold dockLimitAt; linarith
  have h5 : ((1 : ℝ) + 2 * (1027 / 1000000) * 1) ^ 300 ≤ (5 / 4) ^ 3 := by
    rw [show 300 = 100 * 3 from rfl, pow_mul]
    exact pow_le_pow_left₀ (by positivity) (by norm_num) 3
  refine (mul_le_mul h4 h5 (by positivity) (by norm_num)).trans ?_
  norm_num

end RTA
