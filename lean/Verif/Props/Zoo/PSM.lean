import Verif.Lemmas.Zoo.PSM
import Verif.Props.Zoo.CWH

/-!
C44: the passively-safe-maneuver constraint looks at the true coasting trajectory. C66: so does the one between deputies.
-/
namespace RTA
open Real

/-- **C44.** The value of the constraint is the smallest margin `distance - radius` over the sampling times `dt, 2dt, ..,
steps * dt` of the trajectory without thrust, for every solution `y` of the equations of motion from the state's position and
velocity. -/
theorem C44_value {n m radius dt h : ℝ} {steps : Nat} {state : List ℝ} (hn : n ≠ 0) (hs : 6 ≤ state.length)
    (hh : psmCompute n radius dt steps state = .ok h) {y : ℝ → List ℝ} (hy : CWHSolution n m [0, 0, 0] y)
    (h0 : y 0 = pySlice state 0 6) :
    (∀ k : Nat, 1 ≤ k → k ≤ steps → h ≤ √(sqNorm (pySlice (y (k * dt)) 0 3)) - radius) ∧
    ∃ k : Nat, 1 ≤ k ∧ k ≤ steps ∧ h = √(sqNorm (pySlice (y (k * dt)) 0 3)) - radius := by
  have hy' : ∀ t, psmFutureState n state t radius = √(sqNorm (pySlice (y t) 0 3)) - radius := fun t => by
    rw [psmFutureState_eq (m := m) hs, ← h0]
    have := C43_exact hn rfl hy 0 t
    rw [zero_add] at this
    rw [this]; rfl
  obtain ⟨h1, h2⟩ := jnpMin_spec hh
  rw [linspace_dt, List.map_map] at h1 h2
  constructor
  · intro k hk1 hk2
    have := h1 _ (List.mem_map_of_mem (List.mem_range.mpr (show k - 1 < steps by omega)))
    simp only [Function.comp, hy'] at this
    have e : ((k - 1 : Nat) : ℝ) + 1 = k := by
      rw [Nat.cast_sub hk1]; push_cast; ring
    rw [e] at this
    exact this
  · obtain ⟨i, hi, e⟩ := List.mem_map.mp h2
    rw [List.mem_range] at hi
    refine ⟨i + 1, by omega, by omega, ?_⟩
    rw [← e]
    simp only [Function.comp, hy']
    push_cast
    rfl

/-- **C44.** The constraint is nonnegative exactly when the spacecraft, coasting without thrust, is at least the collision
radius away from the chief at every sampling time. -/
theorem C44_nonneg_iff {n m radius dt h : ℝ} {steps : Nat} {state : List ℝ} (hn : n ≠ 0) (hs : 6 ≤ state.length)
    (hh : psmCompute n radius dt steps state = .ok h) {y : ℝ → List ℝ} (hy : CWHSolution n m [0, 0, 0] y)
    (h0 : y 0 = pySlice state 0 6) :
    0 ≤ h ↔ ∀ k : Nat, 1 ≤ k → k ≤ steps → radius ≤ √(sqNorm (pySlice (y (k * dt)) 0 3)) := by
  obtain ⟨h1, k, hk1, hk2, e⟩ := C44_value hn hs hh hy h0
  constructor
  · intro hp k hk1 hk2
    have := h1 k hk1 hk2
    linarith
  · intro hp
    have := hp k hk1 hk2
    linarith

/-- **C44.** The constraint has a value exactly when at least one step is sampled. -/
theorem C44_defined_iff (n radius dt : ℝ) (steps : Nat) (state : List ℝ) :
    (∃ h, psmCompute n radius dt steps state = .ok h) ↔ 0 < steps := by
  unfold psmCompute
  rw [linspace_dt]
  cases steps with
  | zero => simp [jnpMin]
  | succ k => simp [List.range_succ_eq_map, jnpMin]

/-- **C44.** Entry `k` of the reported trajectory is the margin at time `k * dt`, from the current time `k = 0` on. -/
theorem C44_array {n m radius dt : ℝ} {steps : Nat} {state : List ℝ} (hn : n ≠ 0) (hs : 6 ≤ state.length)
    {y : ℝ → List ℝ} (hy : CWHSolution n m [0, 0, 0] y) (h0 : y 0 = pySlice state 0 6) :
    psmArray n radius dt steps state =
      (List.range (steps + 1)).map fun k : Nat => √(sqNorm (pySlice (y (k * dt)) 0 3)) - radius := by
  unfold psmArray
  rw [linspace_zero_dt, List.map_map]
  refine List.map_congr_left fun k _ => ?_
  simp only [Function.comp]
  rw [psmFutureState_eq (m := m) hs, ← h0]
  have := C43_exact hn rfl hy 0 (k * dt)
  rw [zero_add] at this
  rw [this]; rfl

/-- A spacecraft at rest on the along-track axis coasts in place: its constraint value is its distance less the radius. -/
example : CWHSolution 1 12 [0, 0, 0] (fun _ => [0, 100, 0, 0, 0, 0]) := by
  refine ⟨fun _ => rfl, fun i hi t => ?_⟩
  rw [field_eq]
  refine (hasDerivAt_const t _).congr_deriv ?_
  interval_cases i <;> simp [comp]

example : ∃ h, psmCompute 1 10 1 100 [0, 100, 0, 0, 0, 0, 0, 0] = .ok h := (C44_defined_iff ..).mpr (by omega)

/-! ### C66 -/

/-- The margin between two coasting vehicles. -/
theorem deputy_margin {n m radius : ℝ} {deputy : Nat} {state : List ℝ} (hn : n ≠ 0) (hs6 : 6 ≤ state.length) (hs : deputy * 6 + 6 ≤ state.length)
    {y z : ℝ → List ℝ} (hy : CWHSolution n m [0, 0, 0] y) (h0 : y 0 = pySlice state 0 6)
    (hz : CWHSolution n m [0, 0, 0] z) (hz0 : z 0 = pySlice state (deputy * 6) (deputy * 6 + 6)) (t : ℝ) :
    psmDeputyFutureState n deputy state t radius = √(sqNorm (vsub (pySlice (y t) 0 3) (pySlice (z t) 0 3))) - radius := by
  have h1 := C43_exact hn rfl hy 0 t
  have h2 := C43_exact hn rfl hz 0 t
  rw [zero_add] at h1 h2
  unfold psmDeputyFutureState
  rw [psmCoast_eq (m := m) (by omega), psmCoast_eq (m := m) hs, h1, h2, hz0, h0]
  rfl

/-- **C66.** The value of the deputy passive-safety constraint is the smallest margin `distance - radius` between the two deputies over the sampling
times `dt, 2dt, .., steps * dt`, for every pair of motions without thrust from the two positions and velocities in the state. -/
theorem C66_value {n m radius dt h : ℝ} {steps deputy : Nat} {state : List ℝ} (hn : n ≠ 0) (hs6 : 6 ≤ state.length)
    (hs : deputy * 6 + 6 ≤ state.length) (hh : psmDeputyCompute n radius dt steps deputy state = .ok h)
    {y z : ℝ → List ℝ} (hy : CWHSolution n m [0, 0, 0] y) (h0 : y 0 = pySlice state 0 6)
    (hz : CWHSolution n m [0, 0, 0] z) (hz0 : z 0 = pySlice state (deputy * 6) (deputy * 6 + 6)) :
    (∀ k : Nat, 1 ≤ k → k ≤ steps → h ≤ √(sqNorm (vsub (pySlice (y (k * dt)) 0 3) (pySlice (z (k * dt)) 0 3))) - radius) ∧
    ∃ k : Nat, 1 ≤ k ∧ k ≤ steps ∧ h = √(sqNorm (vsub (pySlice (y (k * dt)) 0 3) (pySlice (z (k * dt)) 0 3))) - radius := by
  have hy' := deputy_margin (radius := radius) hn hs6 hs hy h0 hz hz0
  obtain ⟨h1, h2⟩ := jnpMin_spec hh
  rw [linspace_dt, List.map_map] at h1 h2
  constructor
  · intro k hk1 hk2
    have := h1 _ (List.mem_map_of_mem (List.mem_range.mpr (show k - 1 < steps by omega)))
    simp only [Function.comp, hy'] at this
    have e : ((k - 1 : Nat) : ℝ) + 1 = k := by
      rw [Nat.cast_sub hk1]; push_cast; ring
    rw [e] at this
    exact this
  · obtain ⟨i, hi, e⟩ := List.mem_map.mp h2
    rw [List.mem_range] at hi
    refine ⟨i + 1, by omega, by omega, ?_⟩
    rw [← e]
    simp only [Function.comp, hy']
    push_cast
    rfl

/-- **C66.** It is nonnegative exactly when the two deputies, both coasting, are at least the collision radius apart at every sampling time. -/
theorem C66_nonneg_iff {n m radius dt h : ℝ} {steps deputy : Nat} {state : List ℝ} (hn : n ≠ 0) (hs6 : 6 ≤ state.length)
    (hs : deputy * 6 + 6 ≤ state.length) (hh : psmDeputyCompute n radius dt steps deputy state = .ok h)
    {y z : ℝ → List ℝ} (hy : CWHSolution n m [0, 0, 0] y) (h0 : y 0 = pySlice state 0 6)
    (hz : CWHSolution n m [0, 0, 0] z) (hz0 : z 0 = pySlice state (deputy * 6) (deputy * 6 + 6)) :
    0 ≤ h ↔ ∀ k : Nat, 1 ≤ k → k ≤ steps → radius ≤ √(sqNorm (vsub (pySlice (y (k * dt)) 0 3) (pySlice (z (k * dt)) 0 3))) := by
  obtain ⟨h1, k, hk1, hk2, e⟩ := C66_value hn hs6 hs hh hy h0 hz hz0
  constructor
  · intro hp k hk1 hk2
    have := h1 k hk1 hk2
    linarith
  · intro hp
    have := hp k hk1 hk2
    linarith

/-- **C66.** It has a value exactly when at least one step is sampled. -/
theorem C66_defined_iff (n radius dt : ℝ) (steps deputy : Nat) (state : List ℝ) :
    (∃ h, psmDeputyCompute n radius dt steps deputy state = .ok h) ↔ 0 < steps := by
  unfold psmDeputyCompute
  rw [linspace_dt]
  cases steps with
  | zero => simp [jnpMin]
  | succ k => simp [List.range_succ_eq_map, jnpMin]

/-- **C66 for the reported trajectory is false**: asking for it always raises `ValueError`. -/
theorem C66_refuted_array (n radius dt : ℝ) (steps deputy : Nat) (state : List ℝ) :
    ∃ msg, psmDeputyArray n radius dt steps deputy state = .error (.valueError msg) := ⟨_, rfl⟩

/-- **C66, the sampling times are all that is looked at**: two deputies can pass through each other between two of them. One is at rest in the
origin, the other oscillates through it along the orbit normal with period `2π`. Sampled at time `π` they are one unit apart, so
the constraint with radius 1 is satisfied, while at time `π / 2` they are in the same place. -/
theorem C66_between_samples :
    psmDeputyCompute 1 1 π 1 1 [0, 0, 1, 0, 0, 0, 0, 0, 0, 0, 0, 0] = .ok 0 ∧
    CWHSolution 1 12 [0, 0, 0] (fun t => [0, 0, cos t, 0, 0, -sin t]) ∧ CWHSolution 1 12 [0, 0, 0] (fun _ => [0, 0, 0, 0, 0, 0]) ∧
    sqNorm (vsub (pySlice [0, 0, cos (π / 2), 0, 0, -sin (π / 2)] 0 3) (pySlice [0, 0, 0, 0, 0, 0] 0 3)) = 0 := by
  refine ⟨?_, ⟨fun _ => rfl, fun i hi t => ?_⟩, ⟨fun _ => rfl, fun i hi t => ?_⟩, ?_⟩
  · simp [psmDeputyCompute, linspace, psmDeputyFutureState, psmCoast, jnpMin, comp, vsub, norm2, sqNorm, dot]
  · rw [field_eq]
    have hcos := Real.hasDerivAt_cos t
    have hsin := (Real.hasDerivAt_sin t).neg
    interval_cases i <;> simp only [comp, List.getD_cons_zero, List.getD_cons_succ]
    · exact (hasDerivAt_const t _).congr_deriv (by ring)
    · exact (hasDerivAt_const t _).congr_deriv (by ring)
    · exact hcos
    · exact (hasDerivAt_const t _).congr_deriv (by ring)
    · exact (hasDerivAt_const t _).congr_deriv (by ring)
    · exact hsin.congr_deriv (by ring)
  · rw [field_eq]
    refine (hasDerivAt_const t _).congr_deriv ?_
    interval_cases i <;> simp [comp]
  · simp [pySlice, vsub, sqNorm, dot]

/-- Two deputies at rest on the along-track axis keep their distance. -/
example : ∃ h, psmDeputyCompute 1 10 1 100 1 [0, 100, 0, 0, 0, 0, 0, 200, 0, 0, 0, 0] = .ok h := (C66_defined_iff ..).mpr (by omega)

end RTA
