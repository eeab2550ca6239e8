import Verif.Lemmas.Zoo.Docking
import Verif.Spec.Zoo.Docking
import Verif.Props.ASIF
import Verif.Props.ASIFHistory
import Verif.Lemmas.Zoo.CWH

/-!
C63 and C64: the optimisation modules of the docking problems.
-/
namespace RTA
open Set Real

theorem dockCoefs2_class_k : ClassKCoefs dockCoefs2 := by
  refine ⟨?_, 1, 1 / 100, rfl, by norm_num⟩
  intro i c hc
  match i with
  | 0 => simp [dockCoefs2] at hc; subst hc; exact ⟨fun _ => rfl, le_rfl⟩
  | 1 => simp [dockCoefs2] at hc; subst hc; exact ⟨fun h => absurd h (by decide), by norm_num⟩
  | 2 => simp [dockCoefs2] at hc; subst hc; exact ⟨fun _ => rfl, le_rfl⟩
  | 3 => simp [dockCoefs2] at hc; subst hc; exact ⟨fun h => absurd h (by decide), by norm_num⟩
  | i + 4 => simp [dockCoefs2] at hc

theorem dockCoefs3_class_k : ClassKCoefs dockCoefs3 := by
  refine ⟨?_, 1, 5 / 100, rfl, by norm_num⟩
  intro i c hc
  match i with
  | 0 => simp [dockCoefs3] at hc; subst hc; exact ⟨fun _ => rfl, le_rfl⟩
  | 1 => simp [dockCoefs3] at hc; subst hc; exact ⟨fun h => absurd h (by decide), by norm_num⟩
  | 2 => simp [dockCoefs3] at hc; subst hc; exact ⟨fun _ => rfl, le_rfl⟩
  | 3 => simp [dockCoefs3] at hc; subst hc; exact ⟨fun h => absurd h (by decide), by norm_num⟩
  | i + 4 => simp [dockCoefs3] at hc

theorem field2_eq (n m x y a b u1 u2 : ℝ) (z : List ℝ) :
    vadd (dockF2 n [x, y, a, b]) (matVec (dockG2 m z) [u1, u2]) =
    [a, b, 3 * n ^ 2 * x + 2 * n * b + 1 / m * u1, -2 * n * a + 1 / m * u2] := by
  simp only [dockF2, dockG2, cwhA2, cwhB2, matVec, vadd, dot, List.map_cons, List.map_nil, List.zipWith_cons_cons,
    List.zipWith_nil_right, List.foldr_cons, List.foldr_nil, zero_mul, one_mul, zero_add, add_zero]

theorem field3_eq (n m x y z a b c u1 u2 u3 : ℝ) (w : List ℝ) :
    vadd (dockF3 n [x, y, z, a, b, c]) (matVec (dockG3 m w) [u1, u2, u3]) =
    [a, b, c, 3 * n ^ 2 * x + 2 * n * b + 1 / m * u1, -2 * n * a + 1 / m * u2, -(n ^ 2) * z + 1 / m * u3] :=
  field_eq n m x y z a b c u1 u2 u3

theorem rel_value2 (coefs : List ℝ) (v0 v1 v0Distance x y a b : ℝ) : (dockRelVel 2 coefs v0 v1 v0Distance).value [x, y, a, b] =
    v0 + v1 * (√(x ^ 2 + y ^ 2 + 1 / 100000) - v0Distance) - √(a ^ 2 + b ^ 2 + 1 / 100000) - 1 / 10000 := by
  have := @relVel2 (1 / 100000) v0 v1 v0Distance x y a b
  show relativeVelocity 2 v0 v1 v0Distance (1 / 100000) [x, y, a, b] + -(1 / 10000) = _
  rw [this]; ring

theorem rel_value3 (coefs : List ℝ) (v0 v1 v0Distance x y z a b c : ℝ) : (dockRelVel 3 coefs v0 v1 v0Distance).value [x, y, z, a, b, c] =
    v0 + v1 * (√(x ^ 2 + y ^ 2 + z ^ 2 + 1 / 100000) - v0Distance) - √(a ^ 2 + b ^ 2 + c ^ 2 + 1 / 100000) - 1 / 10000 := by
  have := @relVel3 (1 / 100000) v0 v1 v0Distance x y z a b c
  show relativeVelocity 3 v0 v1 v0Distance (1 / 100000) [x, y, z, a, b, c] + -(1 / 10000) = _
  rw [this]; ring

theorem norm2d (a b : ℝ) : normWithDelta [a, b] (1 / 100000) = √(a ^ 2 + b ^ 2 + 1 / 100000) := by simp [normWithDelta]
theorem norm3d (a b c : ℝ) : normWithDelta [a, b, c] (1 / 100000) = √(a ^ 2 + b ^ 2 + c ^ 2 + 1 / 100000) := by
  simp [normWithDelta, add_assoc]

/-- A force of the right size on a unit of mass `m`. -/
theorem thrust_le {m U q r Q R : ℝ} (hm : 0 < m) (hq : |q| ≤ Q) (hr : |r| ≤ R) (h : m * (Q + R) ≤ U) : |m * (-r - q)| ≤ U := by
  rw [abs_mul, abs_of_pos hm]
  refine (mul_le_mul_of_nonneg_left ?_ hm.le).trans h
  have : |-r - q| ≤ |r| + |q| := by
    have := abs_sub (-r) q
    rwa [abs_neg] at this
  linarith

/-- **C63, a braking control is admissible** in the plane: in a safe state with enough authority. -/
theorem dock2_feasible {m n v0 v1 v0Distance xLim yLim U : ℝ} (hm : 0 < m) (hv1 : 0 ≤ v1) {s : ASIFObj ℝ (List ℝ) DockParams Unit}
    (hc : s.constraints = dockConstraints2 v0 v1 v0Distance xLim yLim) (hdim : s.ext.controlDim = 2) (hdir : s.ext.direct = [])
    (hb : ∀ w : List ℝ, w.length = 2 → (∀ c ∈ w, |c| ≤ U) → Within s.controlBoundsLow s.controlBoundsHigh w)
    {x y a b : ℝ} (hsafe : Docking2Safe v0 v1 v0Distance xLim yLim x y a b) (hauth : Docking2Authority m n v1 U x a b) :
    ∃ w, Admissible (dockF2 n) (dockG2 m) s [x, y, a, b] w := by
  have hk := brake_nonneg (δ := 1 / 100000) hv1 [a, b]
  have ha := brake_comp (δ := 1 / 100000) (v := [a, b]) (c := a) hv1 (by simp)
  have hb' := brake_comp (δ := 1 / 100000) (v := [a, b]) (c := b) hv1 (by simp)
  rw [norm2d] at ha hb'
  generalize hke : brake v1 (1 / 100000) [a, b] = k at *
  have hx : vadd (dockF2 n ([x, y] ++ [a, b])) (matVec (dockG2 m ([x, y] ++ [a, b]))
      [m * (-(k * a) - (3 * n ^ 2 * x + 2 * n * b)), m * (-(k * b) - (-2 * n * a))]) =
      [a, b] ++ vscale (-brake v1 (1 / 100000) [a, b]) [a, b] := by
    rw [hke]
    refine (field2_eq n m x y a b _ _ _).trans ?_
    simp only [vscale, List.map_cons, List.map_nil, List.cons_append, List.nil_append, List.cons.injEq, and_true, true_and]
    constructor <;> (field_simp; ring)
  refine ⟨[m * (-(k * a) - (3 * n ^ 2 * x + 2 * n * b)), m * (-(k * b) - (-2 * n * a))], by rw [hdim]; rfl, hb _ rfl ?_, ?_,
    by rw [hdir]; simp⟩
  · intro c hcw
    have hn1 : |3 * n ^ 2 * x + 2 * n * b| ≤ 3 * n ^ 2 * |x| + 2 * |n| * |b| := by
      refine (abs_add_le _ _).trans ?_
      rw [abs_mul, abs_mul (2 * n), abs_mul 2 n, abs_of_nonneg (show (0 : ℝ) ≤ 3 * n ^ 2 by positivity), abs_two]
    have hn2 : |-2 * n * a| ≤ 2 * |n| * |a| := by
      rw [abs_mul, abs_mul, abs_neg, abs_two]
    simp only [List.mem_cons, List.not_mem_nil, or_false] at hcw
    rcases hcw with rfl | rfl
    · exact thrust_le hm hn1 ha hauth.x
    · exact thrust_le hm hn2 hb' hauth.y
  · intro kc hkc _
    rw [hc] at hkc
    simp only [dockConstraints2, List.mem_cons, List.not_mem_nil, or_false] at hkc
    have hx' := hx
    rw [hke] at hx'
    rcases hkc with rfl | rfl | rfl
    · refine rel_barrier (d := 2) (p := [x, y]) (v := [a, b]) rfl rfl dockCoefs2_class_k hv1 hx ?_
      have := hsafe.rel
      show 0 ≤ (dockRelVel 2 dockCoefs2 v0 v1 v0Distance).value [x, y, a, b]
      rw [rel_value2]; linarith
    · refine limit_barrier (d := 2) (p := [x, y]) (v := [a, b]) rfl rfl (by decide) (by decide) hk hx' ?_
      rw [limit_value]
      have := hsafe.xv
      show 0 ≤ xLim ^ 2 - a ^ 2
      linarith
    · refine limit_barrier (d := 2) (p := [x, y]) (v := [a, b]) rfl rfl (by decide) (by decide) hk hx' ?_
      rw [limit_value]
      have := hsafe.yv
      show 0 ≤ yLim ^ 2 - b ^ 2
      linarith

/-- The same in space. -/
theorem dock3_feasible {m n v0 v1 v0Distance xLim yLim zLim U : ℝ} (hm : 0 < m) (hv1 : 0 ≤ v1)
    {s : ASIFObj ℝ (List ℝ) DockParams Unit}
    (hc : s.constraints = dockConstraints3 v0 v1 v0Distance xLim yLim zLim) (hdim : s.ext.controlDim = 3) (hdir : s.ext.direct = [])
    (hb : ∀ w : List ℝ, w.length = 3 → (∀ c ∈ w, |c| ≤ U) → Within s.controlBoundsLow s.controlBoundsHigh w)
    {x y z a b c : ℝ} (hsafe : Docking3Safe v0 v1 v0Distance xLim yLim zLim x y z a b c)
    (hauth : Docking3Authority m n v1 U x z a b c) :
    ∃ w, Admissible (dockF3 n) (dockG3 m) s [x, y, z, a, b, c] w := by
  have hk := brake_nonneg (δ := 1 / 100000) hv1 [a, b, c]
  have ha := brake_comp (δ := 1 / 100000) (v := [a, b, c]) (c := a) hv1 (by simp)
  have hb' := brake_comp (δ := 1 / 100000) (v := [a, b, c]) (c := b) hv1 (by simp)
  have hc' := brake_comp (δ := 1 / 100000) (v := [a, b, c]) (c := c) hv1 (by simp)
  rw [norm3d] at ha hb' hc'
  generalize hke : brake v1 (1 / 100000) [a, b, c] = k at *
  have hx : vadd (dockF3 n ([x, y, z] ++ [a, b, c])) (matVec (dockG3 m ([x, y, z] ++ [a, b, c]))
      [m * (-(k * a) - (3 * n ^ 2 * x + 2 * n * b)), m * (-(k * b) - (-2 * n * a)), m * (-(k * c) - (-(n ^ 2) * z))]) =
      [a, b, c] ++ vscale (-brake v1 (1 / 100000) [a, b, c]) [a, b, c] := by
    rw [hke]
    refine (field3_eq n m x y z a b c _ _ _ _).trans ?_
    simp only [vscale, List.map_cons, List.map_nil, List.cons_append, List.nil_append, List.cons.injEq, and_true, true_and]
    refine ⟨?_, ?_, ?_⟩ <;> (field_simp; ring)
  refine ⟨[m * (-(k * a) - (3 * n ^ 2 * x + 2 * n * b)), m * (-(k * b) - (-2 * n * a)), m * (-(k * c) - (-(n ^ 2) * z))],
    by rw [hdim]; rfl, hb _ rfl ?_, ?_, by rw [hdir]; simp⟩
  · intro w hcw
    have hn1 : |3 * n ^ 2 * x + 2 * n * b| ≤ 3 * n ^ 2 * |x| + 2 * |n| * |b| := by
      refine (abs_add_le _ _).trans ?_
      rw [abs_mul, abs_mul (2 * n), abs_mul 2 n, abs_of_nonneg (show (0 : ℝ) ≤ 3 * n ^ 2 by positivity), abs_two]
    have hn2 : |-2 * n * a| ≤ 2 * |n| * |a| := by
      rw [abs_mul, abs_mul, abs_neg, abs_two]
    have hn3 : |-(n ^ 2) * z| ≤ n ^ 2 * |z| := by
      rw [abs_mul, abs_neg, abs_of_nonneg (sq_nonneg n)]
    simp only [List.mem_cons, List.not_mem_nil, or_false] at hcw
    rcases hcw with rfl | rfl | rfl
    · exact thrust_le hm hn1 ha hauth.x
    · exact thrust_le hm hn2 hb' hauth.y
    · exact thrust_le hm hn3 hc' hauth.z
  · intro kc hkc _
    rw [hc] at hkc
    simp only [dockConstraints3, List.mem_cons, List.not_mem_nil, or_false] at hkc
    have hx' := hx
    rw [hke] at hx'
    rcases hkc with rfl | rfl | rfl | rfl
    · refine rel_barrier (d := 3) (p := [x, y, z]) (v := [a, b, c]) rfl rfl dockCoefs3_class_k hv1 hx ?_
      have := hsafe.rel
      show 0 ≤ (dockRelVel 3 dockCoefs3 v0 v1 v0Distance).value [x, y, z, a, b, c]
      rw [rel_value3]; linarith
    · refine limit_barrier (d := 3) (p := [x, y, z]) (v := [a, b, c]) rfl rfl (by decide) (by decide) hk hx' ?_
      rw [limit_value]
      have := hsafe.xv
      show 0 ≤ xLim ^ 2 - a ^ 2
      linarith
    · refine limit_barrier (d := 3) (p := [x, y, z]) (v := [a, b, c]) rfl rfl (by decide) (by decide) hk hx' ?_
      rw [limit_value]
      have := hsafe.yv
      show 0 ≤ yLim ^ 2 - b ^ 2
      linarith
    · refine limit_barrier (d := 3) (p := [x, y, z]) (v := [a, b, c]) rfl rfl (by decide) (by decide) hk hx' ?_
      rw [limit_value]
      have := hsafe.zv
      show 0 ≤ zLim ^ 2 - c ^ 2
      linarith

theorem dock2_noslack {v0 v1 v0Distance xLim yLim : ℝ} : slackScales (dockConstraints2 v0 v1 v0Distance xLim yLim) = [] := by
  simp [dockConstraints2, slackScales, dockRelVel, dockLimit, Constraint.mk']

theorem dock3_noslack {v0 v1 v0Distance xLim yLim zLim : ℝ} : slackScales (dockConstraints3 v0 v1 v0Distance xLim yLim zLim) = [] := by
  simp [dockConstraints3, slackScales, dockRelVel, dockLimit, Constraint.mk']

theorem dock2_shapes {n m v0 v1 v0Distance xLim yLim : ℝ} {s : ASIFObj ℝ (List ℝ) DockParams Unit}
    (hc : s.constraints = dockConstraints2 v0 v1 v0Distance xLim yLim) (hdim : s.ext.controlDim = 2) (hdir : s.ext.direct = [])
    (x y a b : ℝ) : ShapesOK (dockF2 n) (dockG2 m) s [x, y, a, b] := by
  refine ⟨?_, ?_, by simp [dockF2, dockG2, cwhA2, cwhB2], ?_, by rw [hdir]; simp⟩
  · rw [hc]; simp [dockConstraints2, dockRelVel, dockLimit, Constraint.mk']
  · rw [hc]; simp [dockConstraints2, dockRelVel, dockLimit, Constraint.mk', dockF2, cwhA2, relVelGrad2, gradAt]
  · rw [hdim]; simp [dockG2, cwhB2]

theorem dock3_shapes {n m v0 v1 v0Distance xLim yLim zLim : ℝ} {s : ASIFObj ℝ (List ℝ) DockParams Unit}
    (hc : s.constraints = dockConstraints3 v0 v1 v0Distance xLim yLim zLim) (hdim : s.ext.controlDim = 3) (hdir : s.ext.direct = [])
    (x y z a b c : ℝ) : ShapesOK (dockF3 n) (dockG3 m) s [x, y, z, a, b, c] := by
  refine ⟨?_, ?_, by simp [dockF3, dockG3, cwhA3, cwhB3], ?_, by rw [hdir]; simp⟩
  · rw [hc]; simp [dockConstraints3, dockRelVel, dockLimit, Constraint.mk']
  · rw [hc]; simp [dockConstraints3, dockRelVel, dockLimit, Constraint.mk', dockF3, cwhA3, relVelGrad3, gradAt]
  · rw [hdim]; simp [dockG3, cwhB3]

/-- **C63 in the plane**. A 2-D docking optimisation module (after any history), in a safe state from which the thrust `U` its bounds
allow suffices to cancel the relative acceleration and brake: for every desired control the call returns, namely the unique
admissible control closest to the desired one. -/
theorem C63_solvable_2d {solver : Solver ℝ} (hspec : SolverSpec solver) {m n v0 v1 v0Distance xLim yLim U : ℝ} (hm : 0 < m)
    (hv1 : 0 ≤ v1) {s : ASIFObj ℝ (List ℝ) DockParams Unit} (hs : ExplicitModule solver (dockF2 n) (dockG2 m) s)
    (hc : s.constraints = dockConstraints2 v0 v1 v0Distance xLim yLim) (hdim : s.ext.controlDim = 2) (hdir : s.ext.direct = [])
    (hen : s.enable = true)
    (hb : ∀ w : List ℝ, w.length = 2 → (∀ c ∈ w, |c| ≤ U) → Within s.controlBoundsLow s.controlBoundsHigh w)
    {x y a b : ℝ} (hsafe : Docking2Safe v0 v1 v0Distance xLim yLim x y a b) (hauth : Docking2Authority m n v1 U x a b) (dt : ℝ)
    (u : List ℝ) (hu : u.length = 2) :
    ∃ r s', explicitASIF solver (dockF2 n) (dockG2 m) s (.array [x, y, a, b]) dt u = (.ok r, s') ∧
      Admissible (dockF2 n) (dockG2 m) s [x, y, a, b] r ∧
      ∀ w, Admissible (dockF2 n) (dockG2 m) s [x, y, a, b] w → w ≠ r → sqDist r u < sqDist w u := by
  have hadm := dock2_feasible hm hv1 hc hdim hdir hb hsafe hauth
  have hns : slackScales s.constraints = [] := by rw [hc]; exact dock2_noslack
  have hpos : ScalesPos s.constraints := by intro w hw; rw [hns] at hw; simp at hw
  obtain ⟨w, hw⟩ := id hadm
  obtain ⟨r, hr⟩ := C24_returns hspec hs hpos hen [x, y, a, b] (dock2_shapes hc hdim hdir x y a b) dt u (hu.trans hdim.symm)
    ⟨w, _, admissible_iff_zeros.1 hw⟩
  have hcall : explicitASIF solver (dockF2 n) (dockG2 m) s (.array [x, y, a, b]) dt u =
    (.ok r, (explicitASIF solver (dockF2 n) (dockG2 m) s (.array [x, y, a, b]) dt u).2) := Prod.ext hr rfl
  exact ⟨r, _, hcall, C24_closest_admissible hspec hs hns hen _ dt u r hcall hadm⟩

/-- **C63 in space**. -/
theorem C63_solvable_3d {solver : Solver ℝ} (hspec : SolverSpec solver) {m n v0 v1 v0Distance xLim yLim zLim U : ℝ} (hm : 0 < m)
    (hv1 : 0 ≤ v1) {s : ASIFObj ℝ (List ℝ) DockParams Unit} (hs : ExplicitModule solver (dockF3 n) (dockG3 m) s)
    (hc : s.constraints = dockConstraints3 v0 v1 v0Distance xLim yLim zLim) (hdim : s.ext.controlDim = 3) (hdir : s.ext.direct = [])
    (hen : s.enable = true)
    (hb : ∀ w : List ℝ, w.length = 3 → (∀ c ∈ w, |c| ≤ U) → Within s.controlBoundsLow s.controlBoundsHigh w)
    {x y z a b c : ℝ} (hsafe : Docking3Safe v0 v1 v0Distance xLim yLim zLim x y z a b c)
    (hauth : Docking3Authority m n v1 U x z a b c) (dt : ℝ) (u : List ℝ) (hu : u.length = 3) :
    ∃ r s', explicitASIF solver (dockF3 n) (dockG3 m) s (.array [x, y, z, a, b, c]) dt u = (.ok r, s') ∧
      Admissible (dockF3 n) (dockG3 m) s [x, y, z, a, b, c] r ∧
      ∀ w, Admissible (dockF3 n) (dockG3 m) s [x, y, z, a, b, c] w → w ≠ r → sqDist r u < sqDist w u := by
  have hadm := dock3_feasible hm hv1 hc hdim hdir hb hsafe hauth
  have hns : slackScales s.constraints = [] := by rw [hc]; exact dock3_noslack
  have hpos : ScalesPos s.constraints := by intro w hw; rw [hns] at hw; simp at hw
  obtain ⟨w, hw⟩ := id hadm
  obtain ⟨r, hr⟩ := C24_returns hspec hs hpos hen [x, y, z, a, b, c] (dock3_shapes hc hdim hdir x y z a b c) dt u (hu.trans hdim.symm)
    ⟨w, _, admissible_iff_zeros.1 hw⟩
  have hcall : explicitASIF solver (dockF3 n) (dockG3 m) s (.array [x, y, z, a, b, c]) dt u =
    (.ok r, (explicitASIF solver (dockF3 n) (dockG3 m) s (.array [x, y, z, a, b, c]) dt u).2) := Prod.ext hr rfl
  exact ⟨r, _, hcall, C24_closest_admissible hspec hs hns hen _ dt u r hcall hadm⟩

/-- Scalar bounds `±U`. -/
theorem within_scalar {U : ℝ} {w : List ℝ} (h : ∀ c ∈ w, |c| ≤ U) : Within (some (.scalar (-U))) (some (.scalar U)) w := by
  intro i v hv
  have := abs_le.1 (h v (List.mem_of_getElem? hv))
  refine ⟨fun b hb => ?_, fun b hb => ?_⟩
  · simp only [boundAt, Option.some.injEq] at hb; linarith
  · simp only [boundAt, Option.some.injEq] at hb; linarith

/-- What every constructed 2-D module looks like. -/
theorem dock2_init {n v0 v1Coef v0Distance xLim yLim epsilon : ℝ} {high low : Option (Bound ℝ)} {exc : Bool}
    {s : ASIFObj ℝ (List ℝ) DockParams Unit} (h : dock2ASIF n v0 v1Coef v0Distance xLim yLim high low epsilon exc = .ok s) :
    s.constraints = dockConstraints2 v0 (v1Coef * n) v0Distance xLim yLim ∧ s.ext.controlDim = 2 ∧ s.ext.direct = [] ∧
      s.enable = true ∧ s.controlBoundsLow = low ∧ s.controlBoundsHigh = high ∧ s.ext.solverException = exc ∧ s.ext.epsilon = epsilon := by
  unfold dock2ASIF asifInit CBObj.init at h
  have e : selectConstraints (dockConstraints2 v0 (v1Coef * n) v0Distance xLim yLim) none = .ok (dockConstraints2 v0 (v1Coef * n) v0Distance xLim yLim) := rfl
  rw [e] at h
  simp only at h
  split at h
  · cases h
  · simp only [Except.ok.injEq] at h
    subst h
    exact ⟨rfl, rfl, rfl, rfl, rfl, rfl, rfl, rfl⟩

/-- With scalar bounds construction succeeds. -/
theorem dock2_init_ok (n v0 v1Coef v0Distance xLim yLim U epsilon : ℝ) (exc : Bool) :
    ∃ s, dock2ASIF n v0 v1Coef v0Distance xLim yLim (some (.scalar U)) (some (.scalar (-U))) epsilon exc = .ok s := ⟨_, rfl⟩

theorem dock2_module {solver : Solver ℝ} {m n v0 v1Coef v0Distance xLim yLim epsilon : ℝ} {high low : Option (Bound ℝ)} {exc : Bool}
    {s : ASIFObj ℝ (List ℝ) DockParams Unit} (h : dock2ASIF n v0 v1Coef v0Distance xLim yLim high low epsilon exc = .ok s) :
    ExplicitModule solver (dockF2 n) (dockG2 m) s :=
  ⟨_, _, _, _, _, _, _, _, _, _, [], by simp [dictKeys, dockConstraints2], by simp [dictKeys], h, rfl⟩

/-- What every constructed 3-D module looks like. -/
theorem dock3_init {n v0 v1Coef v0Distance xLim yLim zLim epsilon : ℝ} {high low : Option (Bound ℝ)} {exc : Bool}
    {s : ASIFObj ℝ (List ℝ) DockParams Unit} (h : dock3ASIF n v0 v1Coef v0Distance xLim yLim zLim high low epsilon exc = .ok s) :
    s.constraints = dockConstraints3 v0 (v1Coef * n) v0Distance xLim yLim zLim ∧ s.ext.controlDim = 3 ∧ s.ext.direct = [] ∧
      s.enable = true ∧ s.controlBoundsLow = low ∧ s.controlBoundsHigh = high ∧ s.ext.solverException = exc ∧ s.ext.epsilon = epsilon := by
  unfold dock3ASIF asifInit CBObj.init at h
  have e : selectConstraints (dockConstraints3 v0 (v1Coef * n) v0Distance xLim yLim zLim) none =
    .ok (dockConstraints3 v0 (v1Coef * n) v0Distance xLim yLim zLim) := rfl
  rw [e] at h
  simp only at h
  split at h
  · cases h
  · simp only [Except.ok.injEq] at h
    subst h
    exact ⟨rfl, rfl, rfl, rfl, rfl, rfl, rfl, rfl⟩

/-- With scalar bounds construction succeeds. -/
theorem dock3_init_ok (n v0 v1Coef v0Distance xLim yLim zLim U epsilon : ℝ) (exc : Bool) :
    ∃ s, dock3ASIF n v0 v1Coef v0Distance xLim yLim zLim (some (.scalar U)) (some (.scalar (-U))) epsilon exc = .ok s := ⟨_, rfl⟩

theorem dock3_module {solver : Solver ℝ} {m n v0 v1Coef v0Distance xLim yLim zLim epsilon : ℝ} {high low : Option (Bound ℝ)} {exc : Bool}
    {s : ASIFObj ℝ (List ℝ) DockParams Unit} (h : dock3ASIF n v0 v1Coef v0Distance xLim yLim zLim high low epsilon exc = .ok s) :
    ExplicitModule solver (dockF3 n) (dockG3 m) s :=
  ⟨_, _, _, _, _, _, _, _, _, _, [], by simp [dictKeys, dockConstraints3], by simp [dictKeys], h, rfl⟩

/-- With the default parameters (mass 12, mean motion 0.001027, limits 10, bounds 1) the thrust suffices in every safe state within
5 km of the target in the radial direction. -/
theorem dock2_default_authority {v0 v0Distance x y a b : ℝ} (hsafe : Docking2Safe v0 (2 * (1027 / 1000000)) v0Distance 10 10 x y a b)
    (hx : |x| ≤ 5000) : Docking2Authority 12 (1027 / 1000000) (2 * (1027 / 1000000)) 1 x a b := by
  have ha : |a| ≤ 10 := abs_le_of_sq_le_sq (by have := hsafe.xv; linarith) (by norm_num)
  have hb : |b| ≤ 10 := abs_le_of_sq_le_sq (by have := hsafe.yv; linarith) (by norm_num)
  have hs : √(a ^ 2 + b ^ 2 + 1 / 100000) ≤ 15 := by
    rw [sqrt_le_left (by norm_num)]
    have := hsafe.xv
    have := hsafe.yv
    linarith
  have hn : |(1027 / 1000000 : ℝ)| = 1027 / 1000000 := abs_of_pos (by norm_num)
  constructor <;> rw [hn] <;> nlinarith

/-- **C63, default configuration**: constructed with the default arguments, the 2-D module answers every query for a safe state within
5 km radially, whatever the desired control; with or without `solver_exception`. -/
theorem C63_default_2d {solver : Solver ℝ} (hspec : SolverSpec solver) {v0 v0Distance epsilon : ℝ} {exc : Bool}
    {s : ASIFObj ℝ (List ℝ) DockParams Unit}
    (h : dock2ASIF (1027 / 1000000) v0 2 v0Distance 10 10 (some (.scalar 1)) (some (.scalar (-1))) epsilon exc = .ok s)
    {x y a b : ℝ} (hsafe : Docking2Safe v0 (2 * (1027 / 1000000)) v0Distance 10 10 x y a b) (hx : |x| ≤ 5000) (dt : ℝ)
    (u : List ℝ) (hu : u.length = 2) :
    ∃ r s', explicitASIF solver (dockF2 (1027 / 1000000)) (dockG2 12) s (.array [x, y, a, b]) dt u = (.ok r, s') ∧
      Admissible (dockF2 (1027 / 1000000)) (dockG2 12) s [x, y, a, b] r ∧
      ∀ w, Admissible (dockF2 (1027 / 1000000)) (dockG2 12) s [x, y, a, b] w → w ≠ r → sqDist r u < sqDist w u := by
  obtain ⟨hc, hdim, hdir, hen, hlo, hhi, -⟩ := dock2_init h
  refine C63_solvable_2d hspec (by norm_num) (by norm_num) (dock2_module h) hc hdim hdir hen ?_ hsafe
    (dock2_default_authority hsafe hx) dt u hu
  intro w _ hw
  rw [hlo, hhi]
  exact within_scalar hw

/-- A safe state that needs the filter: 100 m away, approaching at 0.3 m/s. -/
example : Docking2Safe (1 / 5) (2 * (1027 / 1000000)) 0 10 10 100 0 (-(3 / 10)) 0 ∧ |(100 : ℝ)| ≤ 5000 := by
  refine ⟨⟨?_, by norm_num, by norm_num⟩, by norm_num [abs_of_pos]⟩
  have h1 : √((-(3 / 10)) ^ 2 + 0 ^ 2 + 1 / 100000) ≤ 31 / 100 := by
    rw [sqrt_le_left (by norm_num)]; norm_num
  have h2 : (100 : ℝ) ≤ √(100 ^ 2 + 0 ^ 2 + 1 / 100000) := by
    rw [le_sqrt' (by norm_num)]; norm_num
  nlinarith

/-- In space with the default parameters (`v1_coef` is 4) the thrust suffices in every safe state within 2 km. -/
theorem dock3_default_authority {x y z a b c : ℝ} (hsafe : Docking3Safe (1 / 5) (4 * (1027 / 1000000)) 0 10 10 10 x y z a b c)
    (hr : x ^ 2 + y ^ 2 + z ^ 2 ≤ 2000 ^ 2) : Docking3Authority 12 (1027 / 1000000) (4 * (1027 / 1000000)) 1 x z a b c := by
  have hR : √(x ^ 2 + y ^ 2 + z ^ 2 + 1 / 100000) ≤ 2001 := by
    rw [sqrt_le_left (by norm_num)]; linarith
  have hs : √(a ^ 2 + b ^ 2 + c ^ 2 + 1 / 100000) ≤ 9 := by
    have := hsafe.rel
    nlinarith
  have hv : a ^ 2 + b ^ 2 + c ^ 2 + 1 / 100000 ≤ 9 ^ 2 := (sqrt_le_left (by norm_num)).1 hs
  have ha : |a| ≤ 9 := abs_le_of_sq_le_sq (by nlinarith [sq_nonneg b, sq_nonneg c]) (by norm_num)
  have hb : |b| ≤ 9 := abs_le_of_sq_le_sq (by nlinarith [sq_nonneg a, sq_nonneg c]) (by norm_num)
  have hx : |x| ≤ 2000 := abs_le_of_sq_le_sq (by nlinarith [sq_nonneg y, sq_nonneg z]) (by norm_num)
  have hz : |z| ≤ 2000 := abs_le_of_sq_le_sq (by nlinarith [sq_nonneg y, sq_nonneg x]) (by norm_num)
  have hn : |(1027 / 1000000 : ℝ)| = 1027 / 1000000 := abs_of_pos (by norm_num)
  constructor <;> (try rw [hn]) <;> nlinarith

/-- **C63, default configuration in space**: answers every query for a safe state within 2 km of the target. -/
theorem C63_default_3d {solver : Solver ℝ} (hspec : SolverSpec solver) {epsilon : ℝ} {exc : Bool}
    {s : ASIFObj ℝ (List ℝ) DockParams Unit}
    (h : dock3ASIF (1027 / 1000000) (1 / 5) 4 0 10 10 10 (some (.scalar 1)) (some (.scalar (-1))) epsilon exc = .ok s)
    {x y z a b c : ℝ} (hsafe : Docking3Safe (1 / 5) (4 * (1027 / 1000000)) 0 10 10 10 x y z a b c)
    (hr : x ^ 2 + y ^ 2 + z ^ 2 ≤ 2000 ^ 2) (dt : ℝ) (u : List ℝ) (hu : u.length = 3) :
    ∃ r s', explicitASIF solver (dockF3 (1027 / 1000000)) (dockG3 12) s (.array [x, y, z, a, b, c]) dt u = (.ok r, s') ∧
      Admissible (dockF3 (1027 / 1000000)) (dockG3 12) s [x, y, z, a, b, c] r ∧
      ∀ w, Admissible (dockF3 (1027 / 1000000)) (dockG3 12) s [x, y, z, a, b, c] w → w ≠ r → sqDist r u < sqDist w u := by
  obtain ⟨hc, hdim, hdir, hen, hlo, hhi, -⟩ := dock3_init h
  refine C63_solvable_3d hspec (by norm_num) (by norm_num) (dock3_module h) hc hdim hdir hen ?_ hsafe
    (dock3_default_authority hsafe hr) dt u hu
  intro w _ hw
  rw [hlo, hhi]
  exact within_scalar hw

/-- A safe state in space. -/
example : Docking3Safe (1 / 5) (4 * (1027 / 1000000)) 0 10 10 10 100 0 0 (-(3 / 10)) 0 0 ∧ (100 : ℝ) ^ 2 + 0 ^ 2 + 0 ^ 2 ≤ 2000 ^ 2 := by
  refine ⟨⟨?_, by norm_num, by norm_num, by norm_num⟩, by norm_num⟩
  have h1 : √((-(3 / 10)) ^ 2 + 0 ^ 2 + 0 ^ 2 + 1 / 100000) ≤ 31 / 100 := by
    rw [sqrt_le_left (by norm_num)]; norm_num
  have h2 : (100 : ℝ) ≤ √(100 ^ 2 + 0 ^ 2 + 0 ^ 2 + 1 / 100000) := by
    rw [le_sqrt' (by norm_num)]; norm_num
  nlinarith

/-! ### C64 -/

/-- The margin of `1e-4` makes up for the smoothing of the norms: where the constraint with its bias holds, the documented speed limit
holds exactly, provided `v1` is at most `1/32` per second (the defaults are below `0.005`). -/
theorem C64_documented_limit {v1 P V δ lim : ℝ} (hv1 : 0 ≤ v1) (hv1' : v1 ≤ 1 / 32) (hP : 0 ≤ P) (hδ : δ = 1 / 100000) {v0 v0Distance : ℝ}
    (h : √(V + δ) + 1 / 10000 ≤ v0 + v1 * (√(P + δ) - v0Distance)) (hlim : lim = v0 + v1 * (√P - v0Distance)) : √V ≤ lim := by
  subst hδ hlim
  have h1 : √V ≤ √(V + 1 / 100000) := sqrt_le_sqrt (by linarith)
  have h2 : √(P + 1 / 100000) ≤ √P + 32 / 10000 := by
    rw [sqrt_le_left (by positivity)]
    have := sq_sqrt hP
    nlinarith [sqrt_nonneg P]
  have h3 := mul_le_mul_of_nonneg_left h2 hv1
  nlinarith

/-- **C64 in the plane**. A vehicle with the module's dynamics that up to time `T` applies at every instant the control the module (after
any history) returns for its current state and some desired control, starting strictly inside the limits, satisfies at time `T`
the documented speed limit `|v| ≤ v0 + v1 (|r| - v0_distance)` and the limits on the velocity components, as long as the
thrust sufficed before `T`. -/
theorem C64_closed_loop_2d {solver : Solver ℝ} (hspec : SolverSpec solver) {m n v0 v1 v0Distance xLim yLim U : ℝ} (hm : 0 < m)
    (hv1 : 0 ≤ v1) (hv1' : v1 ≤ 1 / 32) {x u : ℝ → List ℝ} (htraj : Trajectory univ 4 (dockF2 n) (dockG2 m) x u) {T : ℝ} (hT : 0 ≤ T)
    (hloop : ∀ t, 0 ≤ t → t < T → ∃ (s s' : ASIFObj ℝ (List ℝ) DockParams Unit) (dt : ℝ) (uDes : List ℝ),
      ExplicitModule solver (dockF2 n) (dockG2 m) s ∧ s.constraints = dockConstraints2 v0 v1 v0Distance xLim yLim ∧
      s.ext.controlDim = 2 ∧ s.ext.direct = [] ∧ s.enable = true ∧
      (∀ w : List ℝ, w.length = 2 → (∀ c ∈ w, |c| ≤ U) → Within s.controlBoundsLow s.controlBoundsHigh w) ∧
      explicitASIF solver (dockF2 n) (dockG2 m) s (.array (x t)) dt uDes = (.ok (u t), s'))
    (hauth : ∀ t, 0 ≤ t → t < T → Docking2Authority m n v1 U (comp (x t) 0) (comp (x t) 2) (comp (x t) 3))
    (h0 : √(comp (x 0) 2 ^ 2 + comp (x 0) 3 ^ 2 + 1 / 100000) + 1 / 10000 <
      v0 + v1 * (√(comp (x 0) 0 ^ 2 + comp (x 0) 1 ^ 2 + 1 / 100000) - v0Distance))
    (h0x : comp (x 0) 2 ^ 2 < xLim ^ 2) (h0y : comp (x 0) 3 ^ 2 < yLim ^ 2) :
    √(comp (x T) 2 ^ 2 + comp (x T) 3 ^ 2) ≤ v0 + v1 * (√(comp (x T) 0 ^ 2 + comp (x T) 1 ^ 2) - v0Distance) ∧
      comp (x T) 2 ^ 2 < xLim ^ 2 ∧ comp (x T) 3 ^ 2 < yLim ^ 2 := by
  have hval : ∀ y : List ℝ, y.length = 4 → (dockRelVel 2 dockCoefs2 v0 v1 v0Distance).value y =
      v0 + v1 * (√(comp y 0 ^ 2 + comp y 1 ^ 2 + 1 / 100000) - v0Distance) - √(comp y 2 ^ 2 + comp y 3 ^ 2 + 1 / 100000) - 1 / 10000 := by
    intro y hy
    match y, hy with
    | [a, b, c, d], _ => exact rel_value2 _ _ _ _ _ _ _ _
  have key := C31_asif_loop_until (X := Unit) hspec (cs := dockConstraints2 v0 v1 v0Distance xLim yLim) (x := x) (u := u)
    (by
      intro kc hkc
      simp only [dockConstraints2, List.mem_cons, List.not_mem_nil, or_false] at hkc
      rcases hkc with rfl | rfl | rfl
      · exact rel_gradient2 _ _ _ _
      · exact limit_gradient (by decide) _
      · exact limit_gradient (by decide) _) htraj (fun k => if k = "rel_vel" then dockCoefs2 else [0, 5 / 10000, 0, 1 / 1000])
    (by
      intro kc hkc
      simp only [dockConstraints2, List.mem_cons, List.not_mem_nil, or_false] at hkc
      rcases hkc with rfl | rfl | rfl
      · exact ⟨rfl, dockCoefs2_class_k⟩
      · exact ⟨rfl, limitAlpha_class_k⟩
      · exact ⟨rfl, limitAlpha_class_k⟩)
    (by
      intro kc hkc
      simp only [dockConstraints2, List.mem_cons, List.not_mem_nil, or_false] at hkc
      rcases hkc with rfl | rfl | rfl <;> rfl)
    (by
      intro kc hkc
      simp only [dockConstraints2, List.mem_cons, List.not_mem_nil, or_false] at hkc
      rcases hkc with rfl | rfl | rfl <;> rfl) hT
    (by
      intro t ht htT
      obtain ⟨s, s', dt, uDes, hs, hc, hdim, hdir, hen, hb, hcall⟩ := hloop t ht htT
      have hpos : ScalesPos s.constraints := by rw [hc]; intro w hw; rw [dock2_noslack] at hw; simp at hw
      refine ⟨s, s', dt, uDes, hs, hpos, hen, fun kc hkc => by rw [hc]; exact hkc, fun hp => ?_, hcall⟩
      have hau := hauth t ht htT
      have h1 := hp ("rel_vel", dockRelVel 2 dockCoefs2 v0 v1 v0Distance) (by simp [dockConstraints2])
      have h2 := hp ("x_vel", dockLimit xLim 2) (by simp [dockConstraints2])
      have h3 := hp ("y_vel", dockLimit yLim 3) (by simp [dockConstraints2])
      have hl := (htraj.curve t ht).2
      rw [hval _ hl] at h1
      rw [limit_value] at h2 h3
      clear hcall hp
      generalize x t = y at *
      match y, hl with
      | [p, q, a, b], _ =>
        simp only [comp, List.getD_cons_zero, List.getD_cons_succ] at h1 h2 h3 hau
        obtain ⟨w, hw⟩ := dock2_feasible hm hv1 hc hdim hdir hb (x := p) (y := q) (a := a) (b := b) ⟨by linarith, by linarith, by linarith⟩ hau
        exact ⟨w, _, admissible_iff_zeros.1 hw⟩)
    (by
      intro kc hkc
      simp only [dockConstraints2, List.mem_cons, List.not_mem_nil, or_false] at hkc
      have hl := (htraj.curve 0 (by simp)).2
      rcases hkc with rfl | rfl | rfl
      · rw [hval _ hl]; linarith
      · rw [limit_value]; unfold comp at h0x; linarith
      · rw [limit_value]; unfold comp at h0y; linarith)
  have h1 := key ("rel_vel", dockRelVel 2 dockCoefs2 v0 v1 v0Distance) (by simp [dockConstraints2])
  have h2 := key ("x_vel", dockLimit xLim 2) (by simp [dockConstraints2])
  have h3 := key ("y_vel", dockLimit yLim 3) (by simp [dockConstraints2])
  rw [hval _ (htraj.curve T hT).2] at h1
  rw [limit_value] at h2 h3
  refine ⟨C64_documented_limit hv1 hv1' (by positivity) rfl (v0 := v0) (v0Distance := v0Distance)
    (P := comp (x T) 0 ^ 2 + comp (x T) 1 ^ 2) (V := comp (x T) 2 ^ 2 + comp (x T) 3 ^ 2) (by linarith) rfl, ?_, ?_⟩
  · unfold comp; linarith
  · unfold comp; linarith

/-- **C64 in space**. -/
theorem C64_closed_loop_3d {solver : Solver ℝ} (hspec : SolverSpec solver) {m n v0 v1 v0Distance xLim yLim zLim U : ℝ} (hm : 0 < m)
    (hv1 : 0 ≤ v1) (hv1' : v1 ≤ 1 / 32) {x u : ℝ → List ℝ} (htraj : Trajectory univ 6 (dockF3 n) (dockG3 m) x u) {T : ℝ} (hT : 0 ≤ T)
    (hloop : ∀ t, 0 ≤ t → t < T → ∃ (s s' : ASIFObj ℝ (List ℝ) DockParams Unit) (dt : ℝ) (uDes : List ℝ),
      ExplicitModule solver (dockF3 n) (dockG3 m) s ∧ s.constraints = dockConstraints3 v0 v1 v0Distance xLim yLim zLim ∧
      s.ext.controlDim = 3 ∧ s.ext.direct = [] ∧ s.enable = true ∧
      (∀ w : List ℝ, w.length = 3 → (∀ c ∈ w, |c| ≤ U) → Within s.controlBoundsLow s.controlBoundsHigh w) ∧
      explicitASIF solver (dockF3 n) (dockG3 m) s (.array (x t)) dt uDes = (.ok (u t), s'))
    (hauth : ∀ t, 0 ≤ t → t < T →
      Docking3Authority m n v1 U (comp (x t) 0) (comp (x t) 2) (comp (x t) 3) (comp (x t) 4) (comp (x t) 5))
    (h0 : √(comp (x 0) 3 ^ 2 + comp (x 0) 4 ^ 2 + comp (x 0) 5 ^ 2 + 1 / 100000) + 1 / 10000 <
      v0 + v1 * (√(comp (x 0) 0 ^ 2 + comp (x 0) 1 ^ 2 + comp (x 0) 2 ^ 2 + 1 / 100000) - v0Distance))
    (h0x : comp (x 0) 3 ^ 2 < xLim ^ 2) (h0y : comp (x 0) 4 ^ 2 < yLim ^ 2) (h0z : comp (x 0) 5 ^ 2 < zLim ^ 2) :
    √(comp (x T) 3 ^ 2 + comp (x T) 4 ^ 2 + comp (x T) 5 ^ 2) ≤
        v0 + v1 * (√(comp (x T) 0 ^ 2 + comp (x T) 1 ^ 2 + comp (x T) 2 ^ 2) - v0Distance) ∧
      comp (x T) 3 ^ 2 < xLim ^ 2 ∧ comp (x T) 4 ^ 2 < yLim ^ 2 ∧ comp (x T) 5 ^ 2 < zLim ^ 2 := by
  have hval : ∀ y : List ℝ, y.length = 6 → (dockRelVel 3 dockCoefs3 v0 v1 v0Distance).value y =
      v0 + v1 * (√(comp y 0 ^ 2 + comp y 1 ^ 2 + comp y 2 ^ 2 + 1 / 100000) - v0Distance) -
        √(comp y 3 ^ 2 + comp y 4 ^ 2 + comp y 5 ^ 2 + 1 / 100000) - 1 / 10000 := by
    intro y hy
    match y, hy with
    | [a, b, c, d, e, f], _ => exact rel_value3 _ _ _ _ _ _ _ _ _ _
  have key := C31_asif_loop_until (X := Unit) hspec (cs := dockConstraints3 v0 v1 v0Distance xLim yLim zLim) (x := x) (u := u)
    (by
      intro kc hkc
      simp only [dockConstraints3, List.mem_cons, List.not_mem_nil, or_false] at hkc
      rcases hkc with rfl | rfl | rfl | rfl
      · exact rel_gradient3 _ _ _ _
      · exact limit_gradient (by decide) _
      · exact limit_gradient (by decide) _
      · exact limit_gradient (by decide) _) htraj (fun k => if k = "rel_vel" then dockCoefs3 else [0, 5 / 10000, 0, 1 / 1000])
    (by
      intro kc hkc
      simp only [dockConstraints3, List.mem_cons, List.not_mem_nil, or_false] at hkc
      rcases hkc with rfl | rfl | rfl | rfl
      · exact ⟨rfl, dockCoefs3_class_k⟩
      · exact ⟨rfl, limitAlpha_class_k⟩
      · exact ⟨rfl, limitAlpha_class_k⟩
      · exact ⟨rfl, limitAlpha_class_k⟩)
    (by
      intro kc hkc
      simp only [dockConstraints3, List.mem_cons, List.not_mem_nil, or_false] at hkc
      rcases hkc with rfl | rfl | rfl | rfl <;> rfl)
    (by
      intro kc hkc
      simp only [dockConstraints3, List.mem_cons, List.not_mem_nil, or_false] at hkc
      rcases hkc with rfl | rfl | rfl | rfl <;> rfl) hT
    (by
      intro t ht htT
      obtain ⟨s, s', dt, uDes, hs, hc, hdim, hdir, hen, hb, hcall⟩ := hloop t ht htT
      have hpos : ScalesPos s.constraints := by rw [hc]; intro w hw; rw [dock3_noslack] at hw; simp at hw
      refine ⟨s, s', dt, uDes, hs, hpos, hen, fun kc hkc => by rw [hc]; exact hkc, fun hp => ?_, hcall⟩
      have hau := hauth t ht htT
      have h1 := hp ("rel_vel", dockRelVel 3 dockCoefs3 v0 v1 v0Distance) (by simp [dockConstraints3])
      have h2 := hp ("x_vel", dockLimit xLim 3) (by simp [dockConstraints3])
      have h3 := hp ("y_vel", dockLimit yLim 4) (by simp [dockConstraints3])
      have h4 := hp ("z_vel", dockLimit zLim 5) (by simp [dockConstraints3])
      have hl := (htraj.curve t ht).2
      rw [hval _ hl] at h1
      rw [limit_value] at h2 h3 h4
      clear hcall hp
      generalize x t = y at *
      match y, hl with
      | [p, q, r, a, b, c], _ =>
        simp only [comp, List.getD_cons_zero, List.getD_cons_succ] at h1 h2 h3 h4 hau
        obtain ⟨w, hw⟩ := dock3_feasible hm hv1 hc hdim hdir hb (x := p) (y := q) (z := r) (a := a) (b := b) (c := c)
          ⟨by linarith, by linarith, by linarith, by linarith⟩ hau
        exact ⟨w, _, admissible_iff_zeros.1 hw⟩)
    (by
      intro kc hkc
      simp only [dockConstraints3, List.mem_cons, List.not_mem_nil, or_false] at hkc
      have hl := (htraj.curve 0 (by simp)).2
      rcases hkc with rfl | rfl | rfl | rfl
      · rw [hval _ hl]; linarith
      · rw [limit_value]; unfold comp at h0x; linarith
      · rw [limit_value]; unfold comp at h0y; linarith
      · rw [limit_value]; unfold comp at h0z; linarith)
  have h1 := key ("rel_vel", dockRelVel 3 dockCoefs3 v0 v1 v0Distance) (by simp [dockConstraints3])
  have h2 := key ("x_vel", dockLimit xLim 3) (by simp [dockConstraints3])
  have h3 := key ("y_vel", dockLimit yLim 4) (by simp [dockConstraints3])
  have h4 := key ("z_vel", dockLimit zLim 5) (by simp [dockConstraints3])
  rw [hval _ (htraj.curve T hT).2] at h1
  rw [limit_value] at h2 h3 h4
  refine ⟨C64_documented_limit hv1 hv1' (by positivity) rfl (v0 := v0) (v0Distance := v0Distance)
    (P := comp (x T) 0 ^ 2 + comp (x T) 1 ^ 2 + comp (x T) 2 ^ 2) (V := comp (x T) 3 ^ 2 + comp (x T) 4 ^ 2 + comp (x T) 5 ^ 2)
    (by linarith) rfl, ?_, ?_, ?_⟩
  · unfold comp; linarith
  · unfold comp; linarith
  · unfold comp; linarith

/-- Trajectories as in the closed-loop theorem exist: a vehicle at rest on the along-track axis, 100 m ahead, with desired control zero, under
the default module. The module returns the zero control, so the vehicle stays. -/
example {solver : Solver ℝ} (hspec : SolverSpec solver) {epsilon : ℝ} {exc : Bool} :
    Trajectory univ 4 (dockF2 (1027 / 1000000)) (dockG2 12) (fun _ => [0, 100, 0, 0]) (fun _ => [0, 0]) ∧
    ∃ (s s' : ASIFObj ℝ (List ℝ) DockParams Unit),
      dock2ASIF (1027 / 1000000) (1 / 5) 2 0 10 10 (some (.scalar 1)) (some (.scalar (-1))) epsilon exc = .ok s ∧
      explicitASIF solver (dockF2 (1027 / 1000000)) (dockG2 12) s (.array [0, 100, 0, 0]) 1 [0, 0] = (.ok [0, 0], s') := by
  have hfield : vadd (dockF2 (1027 / 1000000) [0, 100, 0, 0]) (matVec (dockG2 12 [0, 100, 0, 0]) [0, 0]) = [0, 0, 0, 0] := by
    rw [field2_eq]; norm_num
  refine ⟨⟨fun _ _ => ⟨mem_univ _, rfl⟩, fun _ _ => continuousOn_const, fun t _ => by rw [hfield]; rfl, fun t _ i hi => ?_⟩, ?_⟩
  · rw [hfield]
    refine (hasDerivWithinAt_const t (Ici t) _).congr_deriv ?_
    match i, hi with
    | 0, _ => rfl
    | 1, _ => rfl
    | 2, _ => rfl
    | 3, _ => rfl
  · obtain ⟨s, h⟩ := dock2_init_ok (1027 / 1000000) (1 / 5) 2 0 10 10 1 epsilon exc
    have hsafe : Docking2Safe (1 / 5) (2 * (1027 / 1000000)) 0 10 10 0 100 0 0 := by
      refine ⟨?_, by norm_num, by norm_num⟩
      have h1 : √((0 : ℝ) ^ 2 + 0 ^ 2 + 1 / 100000) ≤ 1 / 100 := by
        rw [sqrt_le_left (by norm_num)]; norm_num
      have h2 := sqrt_nonneg ((0 : ℝ) ^ 2 + 100 ^ 2 + 1 / 100000)
      nlinarith
    obtain ⟨r, s', hcall, -, hmin⟩ := C63_default_2d hspec h hsafe (by norm_num) 1 [0, 0] rfl
    obtain ⟨hc, hdim, hdir, hen, hlo, hhi, -⟩ := dock2_init h
    have hadm : Admissible (dockF2 (1027 / 1000000)) (dockG2 12) s [0, 100, 0, 0] [0, 0] := by
      refine ⟨by rw [hdim]; rfl, ?_, ?_, by rw [hdir]; simp⟩
      · rw [hlo, hhi]; exact within_scalar (by simp)
      · intro kc hkc _
        rw [hc] at hkc
        simp only [dockConstraints2, List.mem_cons, List.not_mem_nil, or_false] at hkc
        rcases hkc with rfl | rfl | rfl
        · refine rel_barrier (d := 2) (p := [0, 100]) (v := [0, 0]) rfl rfl dockCoefs2_class_k (by norm_num) (hfield.trans (by simp [vscale])) ?_
          have := hsafe.rel
          show 0 ≤ (dockRelVel 2 dockCoefs2 _ _ _).value [0, 100, 0, 0]
          rw [rel_value2]; linarith
        · refine limit_barrier (d := 2) (b := 0) (p := [0, 100]) (v := [0, 0]) rfl rfl (by decide) (by decide) le_rfl (hfield.trans (by simp [vscale])) ?_
          rw [limit_value]; norm_num
        · refine limit_barrier (d := 2) (b := 0) (p := [0, 100]) (v := [0, 0]) rfl rfl (by decide) (by decide) le_rfl (hfield.trans (by simp [vscale])) ?_
          rw [limit_value]; norm_num
    have hr : [0, 0] = r := by
      by_contra hne
      have := hmin _ hadm hne
      have h0 : sqDist ([0, 0] : List ℝ) [0, 0] = 0 := sqDist_self _
      rw [h0] at this
      exact absurd this (not_lt.2 (sqDist_nonneg _ _))
    exact ⟨s, s', h, by rw [hcall, hr]⟩

end RTA
