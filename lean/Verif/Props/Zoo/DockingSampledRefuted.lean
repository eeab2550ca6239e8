import Verif.Props.Zoo.DockingSampled

/-!
Property C84: instances of the bound between samples, and what happens with steps of one second.
-/
namespace RTA
open Set Real

/-! ### The bound applies -/

/-- The default module in the plane, 100 m away and closing at 0.14 m/s, filtered eight times a second for two minutes: the documented limit is
exceeded by less than 0.8 mm/s at any time. -/
example {solver : Solver ℝ} (hspec : SolverSpec solver) {us : Nat → List ℝ} (hus : ∀ k, (us k).length = 2) :
    ∃ s0 : ASIFObj ℝ (List ℝ) DockParams Unit,
      dock2ASIF (1027 / 1000000) (1 / 5) 2 0 10 10 (some (.scalar 1)) (some (.scalar (-1))) (1 / 100) false = .ok s0 ∧
      ∀ k ≤ 960, ∃ Xk sk u s', closedLoop (explicitASIF solver (dockF2 (1027 / 1000000)) (dockG2 12)) (exactDock2 (1027 / 1000000)) (fun _ => 1 / 8) us
          [60, 80, -(1 / 10), -(1 / 10)] s0 k = some (Xk, sk) ∧
        explicitASIF solver (dockF2 (1027 / 1000000)) (dockG2 12) sk (.array Xk) (1 / 8) (us k) = (.ok u, s') ∧
        ∀ r, 0 ≤ r → r ≤ 1 / 8 → SpeedWithin2 (1 / 5) (2 * (1027 / 1000000)) 0 ((1 / 8) ^ 2 / 20) (exactDock2 (1027 / 1000000) Xk r u) := by
  have h1 : √((60 : ℝ) ^ 2 + 80 ^ 2 + 1 / 100000) ≤ 101 := sqrt_le_iff.2 (by norm_num)
  have h2 : (100 : ℝ) ≤ √(60 ^ 2 + 80 ^ 2 + 1 / 100000) := le_sqrt_of_sq_le (by norm_num)
  have h3 : √((-(1 / 10) : ℝ) ^ 2 + (-(1 / 10)) ^ 2 + 1 / 100000) ≤ 1 / 5 := sqrt_le_iff.2 (by norm_num)
  refine ⟨_, rfl, fun k hk => ?_⟩
  obtain ⟨Xk, sk, u, s', g1, g2, -, g3⟩ := C84_docking_2d hspec (v0 := 1 / 5) (v0Distance := 0) (xLim := 10) (yLim := 10) (dt := 1 / 8) (by norm_num) (by norm_num) (by norm_num) le_rfl rfl
    (fun r _ _ => exactDock2_flow _ r) (dts := fun _ => 1 / 8) (fun _ => ⟨by norm_num, le_rfl⟩) hus (x := 60) (y := 80) (a := -(1 / 10)) (b := -(1 / 10))
    (by linarith) 960 (by push_cast; linarith) k hk
  exact ⟨Xk, sk, u, s', g1, g2, g3⟩

/-- The same in space, for one minute. -/
example {solver : Solver ℝ} (hspec : SolverSpec solver) {us : Nat → List ℝ} (hus : ∀ k, (us k).length = 3) :
    ∃ s0 : ASIFObj ℝ (List ℝ) DockParams Unit,
      dock3ASIF (1027 / 1000000) (1 / 5) 4 0 10 10 10 (some (.scalar 1)) (some (.scalar (-1))) (1 / 100) false = .ok s0 ∧
      ∀ k ≤ 480, ∃ Xk sk u s', closedLoop (explicitASIF solver (dockF3 (1027 / 1000000)) (dockG3 12)) (exactDock3 (1027 / 1000000)) (fun _ => 1 / 8) us
          [60, 80, 0, -(1 / 10), -(1 / 10), 0] s0 k = some (Xk, sk) ∧
        explicitASIF solver (dockF3 (1027 / 1000000)) (dockG3 12) sk (.array Xk) (1 / 8) (us k) = (.ok u, s') ∧
        ∀ r, 0 ≤ r → r ≤ 1 / 8 → SpeedWithin3 (1 / 5) (4 * (1027 / 1000000)) 0 (7 * (1 / 8) ^ 2 / 100) (exactDock3 (1027 / 1000000) Xk r u) := by
  have h1 : √((60 : ℝ) ^ 2 + 80 ^ 2 + 0 ^ 2 + 1 / 100000) ≤ 101 := sqrt_le_iff.2 (by norm_num)
  have h2 : (100 : ℝ) ≤ √(60 ^ 2 + 80 ^ 2 + 0 ^ 2 + 1 / 100000) := le_sqrt_of_sq_le (by norm_num)
  have h3 : √((-(1 / 10) : ℝ) ^ 2 + (-(1 / 10)) ^ 2 + 0 ^ 2 + 1 / 100000) ≤ 1 / 5 := sqrt_le_iff.2 (by norm_num)
  refine ⟨_, rfl, fun k hk => ?_⟩
  obtain ⟨Xk, sk, u, s', g1, g2, -, g3⟩ := C84_docking_3d hspec (v0 := 1 / 5) (v0Distance := 0) (xLim := 10) (yLim := 10) (zLim := 10) (dt := 1 / 8) (by norm_num) (by norm_num) (by norm_num) (by norm_num) le_rfl rfl
    (fun r _ _ => exactDock3_flow _ r) (dts := fun _ => 1 / 8) (fun _ => ⟨by norm_num, le_rfl⟩) hus (x := 60) (y := 80) (z := 0) (a := -(1 / 10))
    (b := -(1 / 10)) (c := 0) (by linarith) 480 (by push_cast; linarith) k hk
  exact ⟨Xk, sk, u, s', g1, g2, g3⟩

/-! ### Steps of one second -/

/-- Thrusting across the direction of motion for one second. -/
theorem cross_thrust {X Y A B : ℝ → ℝ} (h : DockHold (1027 / 1000000) (1 / 12 * 0) (1 / 12 * 1) 0 0 1 X Y (fun _ => 0) A B (fun _ => 0))
    (hX : X 0 = 0) (hY : Y 0 = 0) (hA : A 0 = 999 / 5000) (hB : B 0 = 0) :
    198 / 1000 ≤ A 1 ∧ 8 / 100 ≤ B 1 ∧ √(X 1 ^ 2 + Y 1 ^ 2) ≤ 32 / 100 := by
  have hs : √((999 / 5000 : ℝ) ^ 2 + 0 ^ 2 + 0 ^ 2 + 1 / 100000) ≤ 1 / 5 := sqrt_le_iff.2 (by norm_num)
  have hr : √((0 : ℝ) ^ 2 + 0 ^ 2 + 0 ^ 2 + 1 / 100000) ≤ 1 / 100 := sqrt_le_iff.2 (by norm_num)
  -- a rough region
  have reg : ∀ t ∈ Icc (0 : ℝ) 1, |X t| ≤ 122 := by
    intro t ht
    have key := region_hold (by norm_num : (0 : ℝ) ≤ 1027 / 1000000) (by norm_num) (δ := 1 / 100000) (by norm_num) (c := 1 / 10) (by norm_num) (by norm_num)
      (h.mono ht.2) ht.1 (by rw [hX, hY, hA, hB]; linarith [ht.2])
    rw [hX, hY, hA, hB] at key
    have hsn := sqrt_nonneg (A t ^ 2 + B t ^ 2 + 0 ^ 2 + 1 / 100000)
    refine (abs_le_sqrt (y := X t ^ 2 + Y t ^ 2 + 0 ^ 2 + 1 / 100000) (by nlinarith [sq_nonneg (Y t)])).trans ?_
    linarith [ht.2]
  -- the speed
  have hsp : ∀ t ∈ Icc (0 : ℝ) 1, √(A t ^ 2 + B t ^ 2 + 0 ^ 2 + 1 / 100000) ≤ 3 / 10 := by
    intro t ht
    have key := (speed_hold (δ := 1 / 100000) (E := 9 / 100) (by norm_num) (by norm_num) (h.mono ht.2) ht.1 (fun q hq => by
      have := abs_le.1 (reg q ⟨hq.1, hq.2.le.trans ht.2⟩)
      have e : |3 * (1027 / 1000000) ^ 2 * X q| ≤ 1 / 1000 := by rw [abs_le]; constructor <;> linarith
      have := pow_le_pow_left₀ (abs_nonneg _) e 2
      rw [sq_abs] at this
      nlinarith)).2
    rw [hA, hB] at key
    linarith [ht.2]
  have hA' : ∀ t ∈ Icc (0 : ℝ) 1, |A t| ≤ 3 / 10 := fun t ht =>
    (abs_le_sqrt (y := A t ^ 2 + B t ^ 2 + 0 ^ 2 + 1 / 100000) (by nlinarith [sq_nonneg (B t)])).trans (hsp t ht)
  have hB' : ∀ t ∈ Icc (0 : ℝ) 1, |B t| ≤ 3 / 10 := fun t ht =>
    (abs_le_sqrt (y := A t ^ 2 + B t ^ 2 + 0 ^ 2 + 1 / 100000) (by nlinarith [sq_nonneg (A t)])).trans (hsp t ht)
  refine ⟨?_, ?_, ?_⟩
  · have := hold_lower0 (r := -(11 / 10000)) zero_le_one h.cA h.dA (fun t ht => by
      have h1 := abs_le.1 (reg t ⟨ht.1, ht.2.le⟩)
      have h2 := abs_le.1 (hB' t ⟨ht.1, ht.2.le⟩)
      linarith)
    rw [hA] at this
    linarith
  · have := hold_lower0 (r := 8 / 100) zero_le_one h.cB h.dB (fun t ht => by
      have h2 := abs_le.1 (hA' t ⟨ht.1, ht.2.le⟩)
      linarith)
    rw [hB] at this
    linarith
  · have key := dist_hold (δ := 1 / 100000) (V := 3 / 10) (by norm_num) h zero_le_one (fun t ht => hsp t ⟨ht.1, ht.2.le⟩)
    rw [hX, hY] at key
    have h2 : √(X 1 ^ 2 + Y 1 ^ 2) ≤ √(X 1 ^ 2 + Y 1 ^ 2 + 0 ^ 2 + 1 / 100000) := sqrt_le_sqrt (by linarith)
    linarith

/-- Moving at the limit, full thrust across the direction of motion is admissible: at that instant it does not change the speed. -/
theorem cross_admissible {s : ASIFObj ℝ (List ℝ) DockParams Unit} (hc : s.constraints = dockConstraints2 (1 / 5) (2 * (1027 / 1000000)) 0 10 10)
    (hdim : s.ext.controlDim = 2) (hdir : s.ext.direct = []) (hlo : s.controlBoundsLow = some (.scalar (-1))) (hhi : s.controlBoundsHigh = some (.scalar 1)) :
    Admissible (dockF2 (1027 / 1000000)) (dockG2 12) s [0, 0, 999 / 5000, 0] [0, 1] := by
  refine ⟨hdim.symm, ?_, ?_, by rw [hdir]; simp⟩
  · rw [hlo, hhi]; exact within_scalar (by simp)
  · intro q hq _
    rw [hc] at hq
    simp only [dockConstraints2, List.mem_cons, List.not_mem_nil, or_false] at hq
    have hf := field2_eq (1027 / 1000000) 12 0 0 (999 / 5000) 0 0 1 [0, 0, 999 / 5000, 0]
    have hlim : ∀ i, (i = 2 ∨ i = 3) → BarrierOK (dockF2 (1027 / 1000000)) (dockG2 12) (dockLimit 10 i) [0, 0, 999 / 5000, 0] [0, 1] 0 := by
      intro i hi
      refine ⟨_, rfl, ?_⟩
      have hv := limit_value 10 i [0, 0, 999 / 5000, 0]
      have hpos : 0 ≤ (dockLimit 10 i).value [0, 0, 999 / 5000, 0] := by
        rw [hv]; rcases hi with rfl | rfl <;> norm_num
      have ha := limitAlpha_nonneg hpos
      show 0 ≤ dot ((dockLimit 10 i).gradFn [0, 0, 999 / 5000, 0] (dockLimit 10 i).params)
          (vadd (dockF2 (1027 / 1000000) [0, 0, 999 / 5000, 0]) (matVec (dockG2 12 [0, 0, 999 / 5000, 0]) [0, 1])) +
        strengthening (dockLimit 10 i) limitAlpha ((dockLimit 10 i).value [0, 0, 999 / 5000, 0])
      rw [hf]
      have hz : dot ((dockLimit (10 : ℝ) i).gradFn [0, 0, 999 / 5000, 0] (dockLimit 10 i).params)
          [999 / 5000, 0, 3 * (1027 / 1000000) ^ 2 * 0 + 2 * (1027 / 1000000) * 0 + 1 / 12 * 0, -2 * (1027 / 1000000) * (999 / 5000) + 1 / 12 * 1] = 0 := by
        rcases hi with rfl | rfl <;> simp [dockLimit, Constraint.mk', gradAt, dot, stateAt, List.range_succ]
      rw [hz, zero_add]
      unfold strengthening
      rw [if_pos hpos]
      exact ha
    rcases hq with rfl | rfl | rfl
    · refine ⟨_, rfl, ?_⟩
      have hr := rel2_relRate dockCoefs2 (1027 / 1000000) 12 (1 / 5) (2 * (1027 / 1000000)) 0 0 0 (999 / 5000) 0 0 1
      have hv : 0 ≤ (dockRelVel 2 dockCoefs2 (1 / 5) (2 * (1027 / 1000000)) 0).value [0, 0, 999 / 5000, 0] := by
        rw [rel_value2]
        have h1 : √((999 / 5000 : ℝ) ^ 2 + 0 ^ 2 + 1 / 100000) ≤ 1999 / 10000 := sqrt_le_iff.2 (by norm_num)
        have h2 := sqrt_nonneg ((0 : ℝ) ^ 2 + 0 ^ 2 + 1 / 100000)
        linarith
      have hz : relRate (1027 / 1000000) (1 / 12 * 0) (1 / 12 * 1) 0 (2 * (1027 / 1000000)) (1 / 100000) 0 0 0 (999 / 5000) 0 0 = 0 := by
        simp [relRate]
      show 0 ≤ (dockRelVel 2 dockCoefs2 (1 / 5) (2 * (1027 / 1000000)) 0).rate (dockF2 (1027 / 1000000)) (dockG2 12) [0, 0, 999 / 5000, 0] [0, 1] +
        strengthening (dockRelVel 2 dockCoefs2 (1 / 5) (2 * (1027 / 1000000)) 0) (polyAlpha dockCoefs2)
          ((dockRelVel 2 dockCoefs2 (1 / 5) (2 * (1027 / 1000000)) 0).value [0, 0, 999 / 5000, 0])
      rw [hr, hz, zero_add, dock_strength_pos hv, dock_alpha2]
      positivity
    · exact hlim 2 (.inl rfl)
    · exact hlim 3 (.inr rfl)

/-- **C84, steps of one second**. The default 2-D docking module with one-second steps. In the state `[0, 0, 0.1998, 0]`, within the enforced limit,
it passes the desired thrust `[0, 1]` unchanged; holding it for the second takes any vehicle that follows the equations of motion exactly
0.012 m/s beyond the documented limit of 0.2006 m/s. -/
theorem C84_refuted_one_second {solver : Solver ℝ} (hspec : SolverSpec solver) {epsilon : ℝ} (heps : 0 ≤ epsilon) {exc : Bool}
    {plant : List ℝ → ℝ → List ℝ → List ℝ} (hplant : ExactFlow2 (1027 / 1000000) 1 plant) :
    ∃ s0 : ASIFObj ℝ (List ℝ) DockParams Unit,
      dock2ASIF (1027 / 1000000) (1 / 5) 2 0 10 10 (some (.scalar 1)) (some (.scalar (-1))) epsilon exc = .ok s0 ∧
      0 ≤ (dockRelVel 2 dockCoefs2 (1 / 5) (2 * (1027 / 1000000)) 0).value [0, 0, 999 / 5000, 0] ∧
      (explicitASIF solver (dockF2 (1027 / 1000000)) (dockG2 12) s0 (.array [0, 0, 999 / 5000, 0]) 1 [0, 1]).1 = .ok [0, 1] ∧
      ¬ SpeedWithin2 (1 / 5) (2 * (1027 / 1000000)) 0 (12 / 1000) (plant [0, 0, 999 / 5000, 0] 1 [0, 1]) := by
  obtain ⟨s0, hinit⟩ := dock2_init_ok (1027 / 1000000) (1 / 5) 2 0 10 10 1 epsilon exc
  obtain ⟨hc, hdim, hdir, hen, hlo, hhi, -, hep⟩ := dock2_init hinit
  have hns : slackScales s0.constraints = [] := by rw [hc]; exact dock2_noslack
  have hpos : ScalesPos s0.constraints := by intro w hw'; rw [hns] at hw'; simp at hw'
  refine ⟨s0, hinit, ?_, ?_, ?_⟩
  · rw [rel_value2]
    have h1 : √((999 / 5000 : ℝ) ^ 2 + 0 ^ 2 + 1 / 100000) ≤ 1999 / 10000 := sqrt_le_iff.2 (by norm_num)
    have h2 := sqrt_nonneg ((0 : ℝ) ^ 2 + 0 ^ 2 + 1 / 100000)
    linarith
  · exact (C25_no_interference hspec (dock2_module hinit) hpos (by rw [hep]; exact heps) hen _ (dock2_shapes hc hdim hdir _ _ _ _) 1 [0, 1]
      (cross_admissible hc hdim hdir hlo hhi)).1
  · obtain ⟨X, Y, A, B, hX, hY, hA, hB, hp, hd⟩ := hplant 0 0 (999 / 5000) 0 0 1
    obtain ⟨g1, g2, g3⟩ := cross_thrust (exact_hold2 hd) hX hY hA hB
    rw [hp]
    rintro ⟨x, y, a, b, he, hle⟩
    simp only [List.cons.injEq, and_true] at he
    obtain ⟨rfl, rfl, rfl, rfl⟩ := he
    have : (213 / 1000 : ℝ) ≤ √(A 1 ^ 2 + B 1 ^ 2) := le_sqrt_of_sq_le (by nlinarith)
    linarith

end RTA
