import Verif.Props.Symmetry
import Verif.Props.Zoo.Docking

/-!
C107 for the docking modules: mirror image situations get mirror image answers.
-/
namespace RTA

theorem sign_sq {e : ℝ} (he : e = 1 ∨ e = -1) (x : ℝ) : (e * x) ^ 2 = x ^ 2 := by
  rcases he with rfl | rfl <;> ring

theorem symmetric_scalar (sg : List ℝ) (U : ℝ) : SymmetricBounds sg (some (.scalar (-U))) (some (.scalar U)) := by
  intro i _; simp [boundAt]

theorem consistent_scalar {U : ℝ} (hU : 0 ≤ U) : BoundsConsistent (some (.scalar (-U))) (some (.scalar U)) := by
  intro i a b ha hb
  simp only [boundAt, Option.some.injEq] at ha hb
  linarith

/-- **C107, docking in the plane.** The explicit optimisation module for 2-D docking, after any history: seen from the opposite side of the
target, with opposite velocity and opposite desired control, it answers with the opposite control. -/
theorem C107_docking_2d {solver : Solver ℝ} (hspec : SolverSpec solver) {m n v0 v1 v0Distance xLim yLim U : ℝ} (hU : 0 ≤ U)
    {s : ASIFObj ℝ (List ℝ) DockParams Unit} (hs : ExplicitModule solver (dockF2 n) (dockG2 m) s)
    (hc : s.constraints = dockConstraints2 v0 v1 v0Distance xLim yLim) (hdim : s.ext.controlDim = 2) (hdir : s.ext.direct = [])
    (hen : s.enable = true) (hlo : s.controlBoundsLow = some (.scalar (-U))) (hhi : s.controlBoundsHigh = some (.scalar U))
    (x y a b dt dt' u1 u2 : ℝ) :
    (explicitASIF solver (dockF2 n) (dockG2 m) s (.array [-x, -y, -a, -b]) dt' [-u1, -u2]).1 =
      ((explicitASIF solver (dockF2 n) (dockG2 m) s (.array [x, y, a, b]) dt [u1, u2]).1).map (flip [-1, -1]) := by
  have hns : slackScales s.constraints = [] := by rw [hc]; exact dock2_noslack
  have hpos : ScalesPos s.constraints := by intro w hw; rw [hns] at hw; simp at hw
  have h := C107_mirror hspec hs hpos hen (dock2_shapes (n := n) (m := m) hc hdim hdir x y a b)
    (dock2_shapes hc hdim hdir (-x) (-y) (-a) (-b)) (sg := [-1, -1]) (ta := [-1, -1, -1, -1]) (by simp) (by simp) hdim.symm
    (by simp [dockF2, cwhA2]) (by simp [dockF2, cwhA2, matVec, flip, dot]; ring)
    (by
      intro w hw
      rw [hdim] at hw
      obtain ⟨p, q, rfl⟩ := List.length_eq_two.1 hw
      simp [dockG2, cwhB2, matVec, flip, dot])
    (by
      intro kc hkc _
      rw [hc] at hkc
      simp only [dockConstraints2, List.mem_cons, List.not_mem_nil, or_false] at hkc
      rcases hkc with rfl | rfl | rfl <;>
      simp [dockRelVel, dockLimit, Constraint.mk', relativeVelocity, relVelGrad, normWithDelta, pySlice, stateAt, gradAt, flip, zeros,
        List.range_succ, neg_div])
    (by rw [hdir]; simp) (by rw [hlo, hhi]; exact symmetric_scalar _ U) (by rw [hlo, hhi]; exact consistent_scalar hU) dt dt' (u := [u1, u2])
    hdim.symm
  have e : flip [-1, -1] [u1, u2] = [-u1, -u2] := by simp [flip]
  rwa [e] at h

/-- **C107, docking in space.** The same for 3-D docking: the module commutes with the reflection in the orbital plane (`e = 1`, `k = -1`),
with the rotation by 180 degrees about the axis perpendicular to it (`e = -1`, `k = 1`) and with the reflection in the target (both). -/
theorem C107_docking_3d {solver : Solver ℝ} (hspec : SolverSpec solver) {m n v0 v1 v0Distance xLim yLim zLim U : ℝ} (hU : 0 ≤ U)
    {s : ASIFObj ℝ (List ℝ) DockParams Unit} (hs : ExplicitModule solver (dockF3 n) (dockG3 m) s)
    (hc : s.constraints = dockConstraints3 v0 v1 v0Distance xLim yLim zLim) (hdim : s.ext.controlDim = 3) (hdir : s.ext.direct = [])
    (hen : s.enable = true) (hlo : s.controlBoundsLow = some (.scalar (-U))) (hhi : s.controlBoundsHigh = some (.scalar U))
    {e k : ℝ} (he : e = 1 ∨ e = -1) (hk : k = 1 ∨ k = -1) (x y z a b c dt dt' u1 u2 u3 : ℝ) :
    (explicitASIF solver (dockF3 n) (dockG3 m) s (.array [e * x, e * y, k * z, e * a, e * b, k * c]) dt' [e * u1, e * u2, k * u3]).1 =
      ((explicitASIF solver (dockF3 n) (dockG3 m) s (.array [x, y, z, a, b, c]) dt [u1, u2, u3]).1).map (flip [e, e, k]) := by
  have hns : slackScales s.constraints = [] := by rw [hc]; exact dock3_noslack
  have hpos : ScalesPos s.constraints := by intro w hw; rw [hns] at hw; simp at hw
  refine C107_mirror hspec hs hpos hen (dock3_shapes (n := n) (m := m) hc hdim hdir x y z a b c)
    (dock3_shapes hc hdim hdir (e * x) (e * y) (k * z) (e * a) (e * b) (k * c)) (sg := [e, e, k]) (ta := [e, e, k, e, e, k])
    (by simp [he, hk]) (by simp [he, hk]) hdim.symm (by simp [dockF3, cwhA3]) ?_ ?_ ?_ (by rw [hdir]; simp)
    (by rw [hlo, hhi]; exact symmetric_scalar _ U) (by rw [hlo, hhi]; exact consistent_scalar hU) dt dt' (u := [u1, u2, u3]) hdim.symm
  · simp only [dockF3, cwhA3, matVec, flip, dot, List.map_cons, List.map_nil, List.zipWith_cons_cons, List.zipWith_nil_right,
      List.foldr_cons, List.foldr_nil, List.cons.injEq, and_true]
    refine ⟨?_, ?_, ?_, ?_, ?_, ?_⟩ <;> ring
  · intro w hw
    rw [hdim] at hw
    obtain ⟨p, q, r, rfl⟩ := List.length_eq_three.1 hw
    simp only [dockG3, cwhB3, matVec, flip, dot, List.map_cons, List.map_nil, List.zipWith_cons_cons, List.zipWith_nil_right,
      List.foldr_cons, List.foldr_nil, List.cons.injEq, and_true]
    refine ⟨?_, ?_, ?_, ?_, ?_, ?_⟩ <;> ring
  · intro kc hkc _
    rw [hc] at hkc
    simp only [dockConstraints3, List.mem_cons, List.not_mem_nil, or_false] at hkc
    rcases hkc with rfl | rfl | rfl | rfl
    · simp only [dockRelVel, Constraint.mk', relativeVelocity, relVelGrad, normWithDelta, pySlice, flip, zeros, List.drop_succ_cons, List.drop_zero,
        List.take_succ_cons, List.take_zero, List.map_cons, List.map_nil, List.foldr_cons, List.foldr_nil, sign_sq he, sign_sq hk, true_and,
        List.cons_append, List.nil_append, List.zipWith_cons_cons]
      simp [mul_div_assoc, mul_left_comm]
    all_goals
      simp [dockLimit, Constraint.mk', stateAt, gradAt, flip, List.range_succ, sign_sq he, sign_sq hk, mul_left_comm]

/-- The module with the default parameters exists, and so do the situations. -/
example {solver : Solver ℝ} (hspec : SolverSpec solver) {epsilon : ℝ} {exc : Bool} {s : ASIFObj ℝ (List ℝ) DockParams Unit}
    (h : dock3ASIF (1027 / 1000000) (1 / 5) 4 0 10 10 10 (some (.scalar 1)) (some (.scalar (-1))) epsilon exc = .ok s) :
    (explicitASIF solver (dockF3 (1027 / 1000000)) (dockG3 12) s (.array [1 * 100, 1 * 0, -1 * 5, 1 * -3, 1 * 0, -1 * 1]) 1
      [1 * 1, 1 * 0, -1 * (1 / 2)]).1 =
    ((explicitASIF solver (dockF3 (1027 / 1000000)) (dockG3 12) s (.array [100, 0, 5, -3, 0, 1]) 1 [1, 0, 1 / 2]).1).map (flip [1, 1, -1]) := by
  obtain ⟨hc, hdim, hdir, hen, hlo, hhi, -⟩ := dock3_init h
  exact C107_docking_3d hspec zero_le_one (dock3_module h) hc hdim hdir hen hlo hhi (.inl rfl) (.inr rfl) _ _ _ _ _ _ _ _ _ _ _

end RTA
