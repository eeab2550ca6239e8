import Verif.Lemmas.Zoo.CWH

/-!
C43: the closed-form discrete matrices are the exact flow of the continuous relative motion model.
-/
namespace RTA
open Real

/-- **C43.** A zero-length step changes nothing. -/
theorem C43_identity {n m : ℝ} {x u : List ℝ} (hx : x.length = 6) (hu : u.length = 3) :
    vadd (matVec (discreteA n 0) x) (matVec (discreteB n m 0) u) = x :=
  discreteStep_zero hx hu

/-- **C43.** As a function of the step length, the closed form solves the continuous-time equations of motion with the
control held constant. -/
theorem C43_solution {n m : ℝ} (hn : n ≠ 0) {x u : List ℝ} (hx : x.length = 6) (hu : u.length = 3) :
    CWHSolution n m u (fun t => vadd (matVec (discreteA n t) x) (matVec (discreteB n m t) u)) := by
  rw [list6 hx, list3 hu]
  exact step_solution hn m _ _ _ _ _ _ _ _ _

/-- **C43.** Every solution of the equations of motion with constant control is given by the closed form: the step is exact,
whatever its length. -/
theorem C43_exact {n m : ℝ} (hn : n ≠ 0) {u : List ℝ} (hu : u.length = 3) {y : ℝ → List ℝ} (hy : CWHSolution n m u y) (s dt : ℝ) :
    y (s + dt) = vadd (matVec (discreteA n dt) (y s)) (matVec (discreteB n m dt) u) := by
  change _ = discreteStep n m dt (y s) u
  refine ext6 (hy.length _) rfl fun i hi => ?_
  have hy' := hy
  rw [list3 hu] at hy'
  have h := const_of_deriv_zero (step_along_const hn hy' (s + dt) i hi) (s + dt) s
  simp only [sub_self, add_sub_cancel_left, ← list3 hu] at h
  rw [discreteStep_zero (hy.length _) hu] at h
  exact h

/-- **C43.** Two steps with the same control are one step of the summed length. -/
theorem C43_compose {n m : ℝ} (hn : n ≠ 0) {x u : List ℝ} (hx : x.length = 6) (hu : u.length = 3) (s t : ℝ) :
    vadd (matVec (discreteA n (s + t)) x) (matVec (discreteB n m (s + t)) u) =
    vadd (matVec (discreteA n t) (vadd (matVec (discreteA n s) x) (matVec (discreteB n m s) u)))
      (matVec (discreteB n m t) u) :=
  C43_exact hn hu (C43_solution hn hx hu) s t

/-- **C43.** The position and velocity the discrete-time module predicts are those reached by the continuous-time module's
dynamics, `state_transition_system + state_transition_input @ control`, after `dt`: `z` is any trajectory of the whole
eight-component state under that vector field from the same state. -/
theorem C43_next_state {n m sunVel dt : ℝ} (hn : n ≠ 0) {state control : List ℝ} (hu : control.length = 3)
    {z : ℝ → List ℝ} (hz : ∀ t, (z t).length = 8)
    (hd : ∀ i, i < 8 → ∀ t, HasDerivAt (fun τ => comp (z τ) i)
      (comp (vadd (inspectionF n sunVel (z t)) (matVec (inspectionG m) control)) i) t)
    (h0 : z 0 = state) (i : Nat) (hi : i < 6) :
    comp (discreteNext n m sunVel state dt control) i = comp (z dt) i := by
  have hsl : ∀ t, (pySlice (z t) 0 6).length = 6 := fun t => by simp [pySlice, hz t]
  have hcomp : ∀ t i, i < 6 → comp (pySlice (z t) 0 6) i = comp (z t) i := fun t i hi => by
    have e := hz t
    generalize z t = l at e
    match l, e with
    | [a, b, c, d, e, f, g, h], _ =>
      interval_cases i <;> rfl
  have hsol : CWHSolution n m control (fun t => pySlice (z t) 0 6) := by
    refine ⟨hsl, fun i hi t => ?_⟩
    have := hd i (by omega) t
    have e1 : (fun τ => comp (pySlice (z τ) 0 6) i) = fun τ => comp (z τ) i := funext fun τ => hcomp τ i hi
    rw [e1]
    refine this.congr_deriv ?_
    have e := hsl t
    rw [list3 hu]
    simp only [inspectionF, inspectionG]
    interval_cases i <;> rfl
  have h := C43_exact hn hu hsol 0 dt
  rw [zero_add, h0] at h
  rw [← hcomp dt i hi, h]
  interval_cases i <;> rfl

/-- A quarter of an orbit, starting at rest one unit ahead on the radial axis. -/
example : comp (discreteNext 1 1 0 [1, 0, 0, 0, 0, 0, 0, 0] (π / 2) [0, 0, 0]) 0 = 4 := by
  simp [discreteNext, discreteA, discreteB, matVec, vadd, dot, comp, pySlice]

example : CWHSolution 1 1 [1, 0, 0]
    (fun t => vadd (matVec (discreteA 1 t) [1, 2, 3, 0, 0, 0]) (matVec (discreteB 1 1 t) [1, 0, 0])) :=
  C43_solution one_ne_zero rfl rfl

end RTA
