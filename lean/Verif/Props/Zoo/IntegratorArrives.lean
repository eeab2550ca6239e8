import Verif.Props.Zoo.Integrator
import Mathlib.Topology.Order.MonotoneConvergence
import Mathlib.Analysis.SpecialFunctions.Sqrt

/-!
C119: whether a filtered vehicle still arrives. The explicit optimisation filter of the one-dimensional integrator never stops a vehicle
short of its target; a filter for an obstacle in the plane can.
-/
namespace RTA
open Set Filter Topology

/-- If control `c` is admissible and not above the desired control, the filter returns at least `c`. -/
theorem dock_at_least {solver : Solver ℝ} (hspec : SolverSpec solver) {m : ℝ} (hm0 : 0 < m) (hm : m ≤ 1) (epsilon : ℝ) (exc : Bool)
    {p v : ℝ} (h : 0 ≤ -2 * p - v ^ 2) {dt u : ℝ} {r : List ℝ}
    (hcall : (explicitASIF solver pointF (pointG m) (dockEOObj epsilon exc) (.array [p, v]) dt [u]).1 = .ok r) {c : ℝ} (hcu : c ≤ u)
    (hc1 : -1 ≤ c) (hc2 : c ≤ 1) (hc : 0 ≤ -2 * v - 2 * v * (c / m) + ((-2 * p - v ^ 2) + 30 * (-2 * p - v ^ 2) ^ 3)) :
    ∃ w, r = [w] ∧ c ≤ w := by
  obtain ⟨w, s', hw, -, -, -, hmin⟩ := C52_solvable hspec hm0 hm epsilon exc h dt u
  rw [hw] at hcall
  simp only [Except.ok.injEq] at hcall
  refine ⟨w, hcall.symm, ?_⟩
  by_contra hlt
  have hlt := not_le.1 hlt
  have := hmin c hc1 hc2 hc
  rw [abs_of_nonpos (by linarith), abs_of_nonpos (by linarith)] at this
  linarith

/-- **C119, the 1-D filter.** Let a vehicle of mass at most 1 at every time apply the control the explicit optimisation filter returns for
its current state and the desired control, and start in the interior of the safe set. If the desired control pushes on wherever the vehicle
is slow and not yet there - for every distance `ε` there are a speed and a thrust such that at least this thrust is desired whenever the
vehicle is at least `ε` away and not faster - then the vehicle arrives at the target, and comes to rest there. -/
theorem C119_arrives {solver : Solver ℝ} (hspec : SolverSpec solver) {m : ℝ} (hm0 : 0 < m) (hm : m ≤ 1) (epsilon : ℝ) (exc : Bool)
    {x u : ℝ → List ℝ} {uDes : ℝ → ℝ} (htraj : Trajectory univ 2 pointF (pointG m) x u)
    (hloop : ∀ t, 0 ≤ t → ∃ dt : ℝ,
      (explicitASIF solver pointF (pointG m) (dockEOObj epsilon exc) (.array (x t)) dt [uDes t]).1 = .ok (u t))
    (h0 : 0 < -2 * (x 0).getD 0 0 - (x 0).getD 1 0 ^ 2)
    (heager : ∀ ε > 0, ∃ s > 0, ∃ δ > 0, ∀ t, 0 ≤ t → (x t).getD 0 0 ≤ -ε → (x t).getD 1 0 ≤ s → δ ≤ uDes t) :
    Tendsto (fun t => (x t).getD 0 0) atTop (𝓝 0) ∧ Tendsto (fun t => (x t).getD 1 0) atTop (𝓝 0) := by
  have hsafe := C60_interior_partial hspec hm0 hm epsilon exc htraj
    (fun t ht => by obtain ⟨dt, h⟩ := hloop t ht; exact ⟨dt, _, h⟩) h0
  have hpc : ContinuousOn (fun t => (x t).getD 0 0) (Ici 0) := htraj.cont 0 (by norm_num)
  have hvc : ContinuousOn (fun t => (x t).getD 1 0) (Ici 0) := htraj.cont 1 (by norm_num)
  -- what the filter returns
  have hpush : ∀ t, 0 ≤ t → ∀ c, c ≤ uDes t → -1 ≤ c → c ≤ 1 →
      0 ≤ -2 * (x t).getD 1 0 - 2 * (x t).getD 1 0 * (c / m) + ((-2 * (x t).getD 0 0 - (x t).getD 1 0 ^ 2) +
        30 * (-2 * (x t).getD 0 0 - (x t).getD 1 0 ^ 2) ^ 3) → c ≤ (u t).getD 0 0 := by
    intro t ht c h1 h2 h3 h4
    obtain ⟨dt, hc⟩ := hloop t ht
    obtain ⟨hs, -⟩ := hsafe t ht
    obtain ⟨p, v, e⟩ := List.length_eq_two.1 (htraj.curve t ht).2
    rw [e] at hc hs h4
    obtain ⟨w, hw, hcw⟩ := dock_at_least hspec hm0 hm epsilon exc (p := p) (v := v) hs.le hc h1 h2 h3 h4
    rw [hw]; exact hcw
  have hul : ∀ t, 0 ≤ t → ∃ w, u t = [w] := by
    intro t ht
    obtain ⟨dt, hc⟩ := hloop t ht
    obtain ⟨hs, -⟩ := hsafe t ht
    obtain ⟨p, v, e⟩ := List.length_eq_two.1 (htraj.curve t ht).2
    rw [e] at hc hs
    obtain ⟨w, s', hw, -⟩ := C52_solvable hspec hm0 hm epsilon exc (p := p) (v := v) hs.le dt (uDes t)
    rw [hw] at hc
    simp only [Except.ok.injEq] at hc
    exact ⟨w, hc.symm⟩
  have hpd : ∀ t, 0 ≤ t → HasDerivWithinAt (fun t => (x t).getD 0 0) ((x t).getD 1 0) (Ici t) t := by
    intro t ht
    obtain ⟨p, v, e⟩ := List.length_eq_two.1 (htraj.curve t ht).2
    obtain ⟨w, hw⟩ := hul t ht
    refine (htraj.deriv t ht 0 (by norm_num)).congr_deriv ?_
    simp [e, hw, pointF, pointG, pointA, pointB, matVec, vadd, dot]
  have hvd : ∀ t, 0 ≤ t → HasDerivWithinAt (fun t => (x t).getD 1 0) ((u t).getD 0 0 / m) (Ici t) t := by
    intro t ht
    obtain ⟨p, v, e⟩ := List.length_eq_two.1 (htraj.curve t ht).2
    obtain ⟨w, hw⟩ := hul t ht
    refine (htraj.deriv t ht 1 (by norm_num)).congr_deriv ?_
    simp [e, hw, pointF, pointG, pointA, pointB, matVec, vadd, dot]
    ring
  -- a vehicle that is slow and away is accelerated
  have hacc : ∀ ε > 0, ∃ s > 0, ∃ a > 0, ∀ t, 0 ≤ t → (x t).getD 0 0 ≤ -ε → (x t).getD 1 0 < s → a ≤ (u t).getD 0 0 / m := by
    intro ε hε
    obtain ⟨s, hs, δ, hδ, hd⟩ := heager ε hε
    refine ⟨min s (min (ε / 4) 1), by positivity, min δ m / m, by positivity, fun t ht hp hv => ?_⟩
    obtain ⟨hv1, hv2⟩ := lt_min_iff.1 hv
    obtain ⟨hv2, hv3⟩ := lt_min_iff.1 hv2
    refine div_le_div_of_nonneg_right ?_ hm0.le
    have hc0 : 0 < min δ m := by positivity
    have hcm : min δ m / m ≤ 1 := by rw [div_le_one hm0]; exact min_le_right _ _
    have hcm0 : 0 < min δ m / m := by positivity
    obtain ⟨hs', -⟩ := hsafe t ht
    refine hpush t ht _ ((min_le_left _ _).trans (hd t ht hp hv1.le)) (by linarith) ((min_le_right _ _).trans hm) ?_
    set p := (x t).getD 0 0
    set v := (x t).getD 1 0
    set k := min δ m / m
    have hcube : 0 < 30 * (-2 * p - v ^ 2) ^ 3 := by positivity
    rcases le_total v 0 with h | h
    · nlinarith [mul_nonneg (neg_nonneg.2 h) hcm0.le]
    · have h1 : v * k ≤ v := by nlinarith
      have h2 : v ^ 2 ≤ v := by nlinarith
      nlinarith
  -- so it comes within every distance
  have hclose : ∀ ε > 0, ∃ t, 0 ≤ t ∧ -ε < (x t).getD 0 0 := by
    intro ε hε
    by_contra hno
    push Not at hno
    obtain ⟨s, hs, a, ha, hac⟩ := hacc ε hε
    obtain ⟨T, hT0, hT⟩ : ∃ T, 0 ≤ T ∧ ∀ t, T ≤ t → s ≤ (x t).getD 1 0 := by
      by_cases hv0 : s ≤ (x 0).getD 1 0
      · refine ⟨0, le_rfl, fun t ht => ?_⟩
        have := stays_nonneg (h := fun t => (x t).getD 1 0 - s) (a := 0) (hvc.sub continuousOn_const)
          (fun t ht => (hvd t ht).sub_const _) (fun t ht hlt => ha.le.trans (hac t ht (hno t ht) (by linarith))) (by linarith) t ht
        linarith
      · have hv0 := not_le.1 hv0
        refine ⟨0 + -((x 0).getD 1 0 - s) / a, ?_, fun t ht => ?_⟩
        · rw [zero_add]
          exact div_nonneg (by linarith) ha.le
        · have := recovers (h := fun t => (x t).getD 1 0 - s) (a := 0) ha (hvc.sub continuousOn_const)
            (fun t ht => (hvd t ht).sub_const _) (fun t ht hlt => hac t ht (hno t ht) (by linarith)) (by linarith) t ht
          linarith
    have hneg : (x T).getD 0 0 + ε / 2 < 0 := by have := hno T hT0; linarith
    have := recovers (h := fun t => (x t).getD 0 0 + ε / 2) (a := T) hs
      ((hpc.mono (Ici_subset_Ici.2 hT0)).add continuousOn_const) (fun t ht => (hpd t (hT0.trans ht)).add_const _)
      (fun t ht _ => hT t ht) hneg _ le_rfl
    have hge : 0 ≤ T + -((x T).getD 0 0 + ε / 2) / s := add_nonneg hT0 (div_nonneg (by linarith) hs.le)
    have := hno _ hge
    linarith
  -- it never moves away again once it moves towards the target
  have hforth : ∀ T, 0 ≤ T → 0 ≤ (x T).getD 1 0 → ∀ t, T ≤ t → 0 ≤ (x t).getD 1 0 := by
    intro T hT0 hv
    refine stays_nonneg (a := T) (hvc.mono (Ici_subset_Ici.2 hT0)) (fun t ht => hvd t (hT0.trans ht)) (fun t ht hlt => ?_) hv
    obtain ⟨-, hp⟩ := hsafe t (hT0.trans ht)
    obtain ⟨s, hs, a, ha, hac⟩ := hacc (-(x t).getD 0 0) (by linarith)
    exact ha.le.trans (hac t (hT0.trans ht) (by rw [neg_neg]) (by linarith))
  have hmoves : ∃ T, 0 ≤ T ∧ 0 ≤ (x T).getD 1 0 := by
    by_contra hno
    push Not at hno
    obtain ⟨-, hp⟩ := hsafe 0 le_rfl
    obtain ⟨t, ht, hlt⟩ := hclose (-(x 0).getD 0 0) (by linarith)
    have := stays_nonneg (h := fun t => (x 0).getD 0 0 - (x t).getD 0 0) (a := 0) (continuousOn_const.sub hpc)
      (fun t ht => (hpd t ht).const_sub _) (fun t ht _ => by have := hno t ht; linarith) (by simp) t ht
    linarith
  obtain ⟨T, hT0, hvT⟩ := hmoves
  have hmono : ∀ r, T ≤ r → ∀ t, r ≤ t → (x r).getD 0 0 ≤ (x t).getD 0 0 := by
    intro r hr t ht
    have := stays_nonneg (h := fun t => (x t).getD 0 0 - (x r).getD 0 0) (a := r)
      ((hpc.mono (Ici_subset_Ici.2 (hT0.trans hr))).sub continuousOn_const)
      (fun t ht => (hpd t ((hT0.trans hr).trans ht)).sub_const _) (fun t ht _ => hforth T hT0 hvT t (hr.trans ht)) (by simp) t ht
    linarith
  have key : ∀ ε > 0, ∃ R, T ≤ R ∧ ∀ t, R ≤ t → -ε < (x t).getD 0 0 := by
    intro ε hε
    obtain ⟨-, hpT⟩ := hsafe T hT0
    by_cases hlt : -ε < (x T).getD 0 0
    · exact ⟨T, le_rfl, fun t ht => hlt.trans_le (hmono T le_rfl t ht)⟩
    · -- a time after `T`
      obtain ⟨t, ht, hc⟩ : ∃ t, T ≤ t ∧ -ε < (x t).getD 0 0 := by
        by_contra hno
        push Not at hno
        -- before `T` there is a least distance
        obtain ⟨z, hz, hmax⟩ := isCompact_Icc.exists_isMaxOn (nonempty_Icc.2 hT0) (hpc.mono Icc_subset_Ici_self)
        obtain ⟨-, hpz⟩ := hsafe z hz.1
        obtain ⟨t, ht, hlt⟩ := hclose (min ε (-(x z).getD 0 0)) (lt_min hε (by linarith))
        rcases le_total T t with h | h
        · have := hno t h
          have := min_le_left ε (-(x z).getD 0 0)
          linarith
        · have h1 : (x t).getD 0 0 ≤ (x z).getD 0 0 := hmax ⟨ht, h⟩
          have := min_le_right ε (-(x z).getD 0 0)
          linarith
      exact ⟨t, ht, fun r hr => hc.trans_le (hmono t ht r hr)⟩
  constructor
  · rw [Metric.tendsto_atTop]
    intro ε hε
    obtain ⟨R, hR, h⟩ := key ε hε
    refine ⟨R, fun t ht => ?_⟩
    obtain ⟨-, hp⟩ := hsafe t (hT0.trans (hR.trans ht))
    rw [Real.dist_eq, sub_zero, abs_of_neg hp]
    linarith [h t ht]
  · rw [Metric.tendsto_atTop]
    intro ε hε
    obtain ⟨R, hR, h⟩ := key (ε ^ 2 / 2) (by positivity)
    refine ⟨R, fun t ht => ?_⟩
    obtain ⟨hs, -⟩ := hsafe t (hT0.trans (hR.trans ht))
    rw [Real.dist_eq, sub_zero]
    have := h t ht
    exact abs_lt_of_sq_lt_sq (by nlinarith) hε.le

/-! ### Example -/

/-- The vehicle starts one unit away with speed 1/2 and slows down exponentially, as desired; the filter leaves it alone. -/
example {solver : Solver ℝ} (hspec : SolverSpec solver) : Tendsto (fun t : ℝ => -Real.exp (-(t / 2))) atTop (𝓝 0) := by
  have hexp : ∀ t : ℝ, HasDerivAt (fun t : ℝ => Real.exp (-(t / 2))) (-(Real.exp (-(t / 2)) / 2)) t := fun t => by
    have := (((hasDerivAt_id t).div_const 2).neg).exp
    refine this.congr_deriv ?_
    show Real.exp (-(t / 2)) * -(1 / 2) = _
    ring
  have htraj : Trajectory univ 2 pointF (pointG 1) (fun t => [-Real.exp (-(t / 2)), Real.exp (-(t / 2)) / 2])
      (fun t => [-(Real.exp (-(t / 2)) / 4)]) := by
    refine ⟨fun t _ => ⟨mem_univ _, rfl⟩, fun i hi => ?_, fun t _ => rfl, fun t _ i hi => ?_⟩
    · interval_cases i
      · exact fun t _ => (hexp t).neg.continuousAt.continuousWithinAt
      · exact fun t _ => ((hexp t).div_const 2).continuousAt.continuousWithinAt
    · interval_cases i
      · refine ((hexp t).neg.congr_deriv ?_).hasDerivWithinAt
        simp [pointF, pointG, pointA, pointB, matVec, vadd, dot]
      · refine (((hexp t).div_const 2).congr_deriv ?_).hasDerivWithinAt
        simp [pointF, pointG, pointA, pointB, matVec, vadd, dot]
        ring
  have key := (C119_arrives (uDes := fun t => -(Real.exp (-(t / 2)) / 4)) hspec one_pos le_rfl (1 / 100) true htraj (fun t ht => ⟨1, ?_⟩)
    (by norm_num) fun ε hε => ⟨ε / 4, by positivity, 1, one_pos, fun t _ h1 h2 => ?_⟩).1
  · exact key
  · have he0 := Real.exp_pos (-(t / 2))
    have he1 : Real.exp (-(t / 2)) ≤ 1 := Real.exp_le_one_iff.2 (by linarith)
    set q := Real.exp (-(t / 2))
    have hsafe : 0 ≤ -2 * (-q) - (q / 2) ^ 2 := by nlinarith
    have hcube : 0 ≤ 30 * (-2 * (-q) - (q / 2) ^ 2) ^ 3 := by positivity
    exact (C25_no_interference hspec (dockEO_module solver 1 (1 / 100) true) (dockEO_pos (1 / 100) true) (show (0 : ℝ) ≤ 1 / 100 by norm_num) rfl
      [-q, q / 2] (dockEO_shapes 1 (1 / 100) true _) 1 [-(q / 4)]
      ((dockEO_admissible 1 (1 / 100) true (-q) (q / 2) hsafe _).2 ⟨_, rfl, ⟨by linarith, by linarith⟩, by nlinarith⟩)).1
  · simp only [List.getD_cons_zero, List.getD_cons_succ] at h1 h2
    linarith

/-! ### An obstacle in the plane -/

/-- Keep out of the unit disc. -/
noncomputable def obstacleC : Constraint ℝ (List ℝ) Unit :=
  Constraint.mk' (fun x _ => x.getD 0 0 ^ 2 + x.getD 1 0 ^ 2 - 1) (fun x _ => [2 * x.getD 0 0, 2 * x.getD 1 0]) (some (polyAlpha [0, 1])) ()

/-- The module with this constraint for the system `x' = u` in the plane, without control bounds. -/
noncomputable def obstacleObj : ASIFObj ℝ (List ℝ) Unit Unit :=
  { toBase := Base.init none none
    constraints := [("c", obstacleC)], params := [("c", ())], constraintEnabled := [("c", true)]
    constraintValues := [], isStaleConstraints := false
    ext := { epsilon := 1 / 100, controlDim := 2, solverException := true, numSlack := 0, objWeight := [1, 1]
             constraintNames := ["c"], actuation := [], direct := [], directParams := [], directEnabled := [], causing := none
             extra := () } }

theorem obstacle_module (solver : Solver ℝ) : ExplicitModule solver (fun _ => [0, 0]) (fun _ => [[1, 0], [0, 1]]) obstacleObj :=
  ⟨none, none, [("c", obstacleC)], none, 1 / 100, 2, true, [], (), obstacleObj, [], by simp [dictKeys], by simp [dictKeys], rfl, rfl⟩

theorem obstacle_noslack : slackScales obstacleObj.constraints = [] := rfl

theorem obstacle_shapes (x : List ℝ) : ShapesOK (fun _ => [0, 0]) (fun _ => [[1, 0], [0, 1]]) obstacleObj x :=
  ⟨by simp [obstacleObj, obstacleC, Constraint.mk'], by simp [obstacleObj, obstacleC, Constraint.mk'], rfl, by simp [obstacleObj], by simp [obstacleObj]⟩

theorem obstacle_admissible {p : ℝ} (hp : 1 ≤ p) (w : List ℝ) :
    Admissible (fun _ => [0, 0]) (fun _ => [[1, 0], [0, 1]]) obstacleObj [p, 0] w ↔ ∃ a b, w = [a, b] ∧ 0 ≤ 2 * p * a + (p ^ 2 - 1) := by
  have hb : ∀ a b, barrierValue (fun _ => [0, 0]) (fun _ => [[1, 0], [0, 1]]) obstacleC [p, 0] [a, b] = some (2 * p * a + (p ^ 2 - 1)) := by
    intro a b
    have h0 : 0 ≤ p ^ 2 - 1 := by nlinarith
    simp [barrierValue, obstacleC, Constraint.mk', strengthening, matVec, vadd, dot, h0, polyAlpha, polyLoop]
  constructor
  · intro h
    obtain ⟨a, b, rfl⟩ := List.length_eq_two.1 (show w.length = 2 from h.len)
    obtain ⟨m, hm, hd⟩ := h.barrier ("c", obstacleC) (by simp [obstacleObj]) rfl
    rw [hb] at hm
    simp only [Option.some.injEq] at hm
    exact ⟨a, b, rfl, by rw [hm]; exact hd⟩
  · rintro ⟨a, b, rfl, h⟩
    refine ⟨rfl, fun i v hv => ⟨fun l h => ?_, fun l h => ?_⟩, fun kc hkc _ => ?_, by simp [obstacleObj]⟩
    · simp [obstacleObj, Base.init, boundAt] at h
    · simp [obstacleObj, Base.init, boundAt] at h
    · simp only [obstacleObj, List.mem_singleton] at hkc
      subst hkc
      exact ⟨_, hb a b, h⟩

/-- Straight to the point `(-2, 0)`. -/
def toGoal (x : List ℝ) : List ℝ := [-2 - x.getD 0 0, -x.getD 1 0]

theorem obstacle_call {solver : Solver ℝ} (hspec : SolverSpec solver) {p : ℝ} (hp : 1 < p) :
    (explicitASIF solver (fun _ => [0, 0]) (fun _ => [[1, 0], [0, 1]]) obstacleObj (.array [p, 0]) 1 (toGoal [p, 0])).1 =
      .ok [-((p ^ 2 - 1) / (2 * p)), 0] := by
  have hr : 2 * p * ((p ^ 2 - 1) / (2 * p)) = p ^ 2 - 1 := by field_simp
  have hadm : Admissible (fun _ => [0, 0]) (fun _ => [[1, 0], [0, 1]]) obstacleObj [p, 0] [-((p ^ 2 - 1) / (2 * p)), 0] :=
    (obstacle_admissible hp.le _).2 ⟨_, _, rfl, by linarith⟩
  have hpos : ScalesPos obstacleObj.constraints := fun w hw => by rw [obstacle_noslack] at hw; simp at hw
  obtain ⟨v, hv⟩ := C24_returns hspec (obstacle_module solver) hpos rfl [p, 0] (obstacle_shapes _) 1 (toGoal [p, 0]) rfl
    ⟨_, _, admissible_iff_zeros.1 hadm⟩
  have hcall : explicitASIF solver (fun _ => [0, 0]) (fun _ => [[1, 0], [0, 1]]) obstacleObj (.array [p, 0]) 1 (toGoal [p, 0]) =
    (.ok v, (explicitASIF solver (fun _ => [0, 0]) (fun _ => [[1, 0], [0, 1]]) obstacleObj (.array [p, 0]) 1 (toGoal [p, 0])).2) := Prod.ext hv rfl
  rw [hv]
  obtain ⟨hva, hmin⟩ := C24_closest_admissible hspec (obstacle_module solver) obstacle_noslack rfl [p, 0] 1 (toGoal [p, 0]) v hcall ⟨_, hadm⟩
  obtain ⟨a, b, rfl, hab⟩ := (obstacle_admissible hp.le v).1 hva
  by_contra hne
  have := hmin _ hadm (fun e => hne (by rw [e]))
  set z := (p ^ 2 - 1) / (2 * p)
  have hz : z ≤ p + 2 := by nlinarith
  have ha : -z ≤ a := by nlinarith
  simp [sqDist, sqNorm, vsub, dot, toGoal] at this
  nlinarith [mul_self_nonneg b]

/-- **C119 is false for obstacles in the plane**: the vehicle `x' = u` shall go from `(2, 0)` straight to `(-2, 0)`, where it would arrive
without filter, and keep out of the unit disc. With the filter it stops in front of the disc: its distance from the goal stays above 3, and
it comes to rest at `(1, 0)`. -/
theorem C119_refuted_obstacle {solver : Solver ℝ} (hspec : SolverSpec solver) : ∃ x u y : ℝ → List ℝ,
    Trajectory univ 2 (fun _ => [0, 0]) (fun _ => [[1, 0], [0, 1]]) x u ∧ x 0 = [2, 0] ∧
    (∀ t, 0 ≤ t → (explicitASIF solver (fun _ => [0, 0]) (fun _ => [[1, 0], [0, 1]]) obstacleObj (.array (x t)) 1 (toGoal (x t))).1 =
      .ok (u t)) ∧
    (∀ t, 0 ≤ t → 1 < (x t).getD 0 0 ∧ (x t).getD 1 0 = 0) ∧ Tendsto (fun t => (x t).getD 0 0) atTop (𝓝 1) ∧
    Trajectory univ 2 (fun _ => [0, 0]) (fun _ => [[1, 0], [0, 1]]) y (fun t => toGoal (y t)) ∧ y 0 = [2, 0] ∧
    Tendsto (fun t => (y t).getD 0 0) atTop (𝓝 (-2)) ∧ (∀ t, (y t).getD 1 0 = 0) ∧ 0 < obstacleC.value [-2, 0] := by
  have hexp : ∀ t : ℝ, HasDerivAt (fun t : ℝ => Real.exp (-t)) (-Real.exp (-t)) t := fun t => by
    have := ((hasDerivAt_id t).neg).exp
    simpa using this
  have hlim : Tendsto (fun t : ℝ => Real.exp (-t)) atTop (𝓝 0) := Real.tendsto_exp_neg_atTop_nhds_zero
  have hgt : ∀ t : ℝ, 1 < √(1 + 3 * Real.exp (-t)) := fun t => by
    rw [Real.lt_sqrt (by norm_num)]
    have := Real.exp_pos (-t)
    linarith
  have hsq : ∀ t : ℝ, √(1 + 3 * Real.exp (-t)) ^ 2 = 1 + 3 * Real.exp (-t) := fun t => Real.sq_sqrt (by positivity)
  have hp : ∀ t : ℝ, HasDerivAt (fun t : ℝ => √(1 + 3 * Real.exp (-t)))
      (-((√(1 + 3 * Real.exp (-t)) ^ 2 - 1) / (2 * √(1 + 3 * Real.exp (-t))))) t := fun t => by
    have h1 := (((hexp t).const_mul 3).const_add 1).sqrt (by positivity)
    refine h1.congr_deriv ?_
    rw [hsq, ← neg_div]
    congr 1; ring
  refine ⟨fun t => [√(1 + 3 * Real.exp (-t)), 0], _, fun t => [-2 + 4 * Real.exp (-t), 0],
    ⟨fun t _ => ⟨mem_univ _, rfl⟩, fun i hi => ?_, fun t _ => ?_, fun t _ i hi => ?_⟩, ?_, fun t _ => obstacle_call hspec (hgt t),
    fun t _ => ⟨hgt t, rfl⟩, ?_, ⟨fun t _ => ⟨mem_univ _, rfl⟩, fun i hi => ?_, fun t _ => ?_, fun t _ i hi => ?_⟩, ?_, ?_,
    fun _ => rfl, ?_⟩
  · interval_cases i
    · exact fun t _ => (hp t).continuousAt.continuousWithinAt
    · exact continuousOn_const
  · rfl
  · interval_cases i
    · refine ((hp t).congr_deriv ?_).hasDerivWithinAt
      simp [matVec, vadd, dot]
    · refine ((hasDerivAt_const t (0 : ℝ)).congr_deriv ?_).hasDerivWithinAt
      simp [matVec, vadd, dot]
  · have : √(1 + 3 * Real.exp (-0)) = 2 := by
      rw [neg_zero, Real.exp_zero, Real.sqrt_eq_iff_mul_self_eq (by norm_num) (by norm_num)]
      norm_num
    simp only [this]
  · have h1 : Tendsto (fun t : ℝ => 1 + 3 * Real.exp (-t)) atTop (𝓝 (1 + 3 * 0)) := (hlim.const_mul 3).const_add 1
    have h2 := h1.sqrt
    simpa using h2
  · interval_cases i
    · exact fun t _ => (((hexp t).const_mul 4).const_add (-2)).continuousAt.continuousWithinAt
    · exact continuousOn_const
  · rfl
  · interval_cases i
    · refine ((((hexp t).const_mul 4).const_add (-2)).congr_deriv ?_).hasDerivWithinAt
      simp [matVec, vadd, dot, toGoal]
    · refine ((hasDerivAt_const t (0 : ℝ)).congr_deriv ?_).hasDerivWithinAt
      simp [matVec, vadd, dot, toGoal]
  · simp only [neg_zero, Real.exp_zero]; norm_num
  · have h1 : Tendsto (fun t : ℝ => -2 + 4 * Real.exp (-t)) atTop (𝓝 (-2 + 4 * 0)) := (hlim.const_mul 4).const_add (-2)
    simpa using h1
  · simp [Constraint.value, obstacleC, Constraint.mk']

end RTA
