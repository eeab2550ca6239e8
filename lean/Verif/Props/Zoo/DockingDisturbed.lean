import Verif.Props.Disturbance
import Verif.Props.Zoo.Docking

/-!
C101 for the planar docking module: its defaults withstand small unmodelled accelerations.
-/
namespace RTA
open Real Set

theorem quotient_le_one {a q : ℝ} (h : a ^ 2 ≤ q) (hq : 0 < q) : |a / √q| ≤ 1 := by
  rw [abs_div, abs_of_pos (sqrt_pos.2 hq), div_le_one (sqrt_pos.2 hq)]
  exact abs_le_sqrt h

/-- The partial derivatives of the speed constraint add up to at most `2 + 2 v1`. -/
theorem rel_slope2 {v1 : ℝ} (hv1 : 0 ≤ v1) (v0 v0Distance : ℝ) (coefs : List ℝ) {x : List ℝ} (hx : x.length = 4) :
    oneNorm ((dockRelVel 2 coefs v0 v1 v0Distance).gradFn x (dockRelVel 2 coefs v0 v1 v0Distance).params) ≤ 2 + 2 * v1 := by
  match x, hx with
  | [x, y, a, b], _ =>
    have e : (dockRelVel 2 coefs v0 v1 v0Distance).gradFn [x, y, a, b] (dockRelVel 2 coefs v0 v1 v0Distance).params =
        relVelGrad 2 v1 (1 / 100000) [x, y, a, b] := rfl
    rw [e, relVelGrad2]
    have h : ∀ p q : ℝ, 0 < p ^ 2 + q ^ 2 + 1 / 100000 := fun p q => by positivity
    have hl : ∀ p q : ℝ, |p / √(p ^ 2 + q ^ 2 + 1 / 100000)| ≤ 1 := fun p q => quotient_le_one (by nlinarith [sq_nonneg q]) (h p q)
    have hr : ∀ p q : ℝ, |q / √(p ^ 2 + q ^ 2 + 1 / 100000)| ≤ 1 := fun p q => quotient_le_one (by nlinarith [sq_nonneg p]) (h p q)
    simp only [oneNorm, List.map_cons, List.map_nil, List.sum_cons, List.sum_nil, abs_neg, abs_mul, abs_of_nonneg hv1]
    have h1 := mul_le_mul_of_nonneg_left (hl x y) hv1
    have h2 := mul_le_mul_of_nonneg_left (hr x y) hv1
    have h3 := hl a b
    have h4 := hr a b
    linarith

theorem limit_slope (L : ℝ) {i : Nat} (hi : i = 2 ∨ i = 3) {x : List ℝ} (hx : x.length = 4) :
    oneNorm ((dockLimit L i).gradFn x (dockLimit L i).params) ≤ 2 * |x.getD i 0| := by
  have e : (dockLimit L i).gradFn x (dockLimit L i).params = gradAt x.length i (-(2 * stateAt x i)) := rfl
  rw [e, hx]
  rcases hi with rfl | rfl <;>
    simp [oneNorm, gradAt, List.range_succ, stateAt, abs_mul]

/-- A planar docking vehicle whose motion departs from the module's dynamics by `w` and whose control is at every time what an explicit
ASIF module with the docking constraints (after whatever history, for whatever desired control) returns for its state. -/
structure DisturbedDocking (solver : Solver ℝ) (m n v0 v1 v0Distance xLim yLim W : ℝ) (x u w : ℝ → List ℝ) : Prop where
  motion : Disturbed univ 4 (dockF2 n) (dockG2 m) x u w
  disturbance : ∀ t, 0 ≤ t → ∀ i, |(w t).getD i 0| ≤ W
  filtered : ∀ t, 0 ≤ t → ∃ (s s' : ASIFObj ℝ (List ℝ) DockParams Unit) (dt : ℝ) (uDes : List ℝ),
    ExplicitModule solver (dockF2 n) (dockG2 m) s ∧ s.constraints = dockConstraints2 v0 v1 v0Distance xLim yLim ∧
    s.ext.controlDim = 2 ∧ s.ext.direct = [] ∧ s.enable = true ∧ BoundsConsistent s.controlBoundsLow s.controlBoundsHigh ∧
    (s.ext.solverException = true ∨ ∃ r, Admissible (dockF2 n) (dockG2 m) s (x t) r) ∧
    explicitASIF solver (dockF2 n) (dockG2 m) s (.array (x t)) dt uDes = (.ok (u t), s')

theorem dock_filtered {solver : Solver ℝ} {m n v0 v1 v0Distance xLim yLim W : ℝ} {x u w : ℝ → List ℝ}
    (h : DisturbedDocking solver m n v0 v1 v0Distance xLim yLim W x u w) {k : String} {c : Constraint ℝ (List ℝ) DockParams}
    (hk : (k, c) ∈ dockConstraints2 v0 v1 v0Distance xLim yLim)
    (hg : IsGradientOn univ 4 (fun x => c.computeFn x c.params) (fun x => c.gradFn x c.params)) (hen : c.enabled = true)
    (hns : c.slackPriorityScale = none) {L : ℝ} (hL : ∀ t, 0 ≤ t → oneNorm (c.gradFn (x t) c.params) ≤ L) :
    RobustLoop solver k c univ 4 (dockF2 n) (dockG2 m) x x u w 0 W L 0 0 0 Unit where
  grad := hg
  motion := h.motion
  enabled := hen
  noSlack := hns
  disturbance := h.disturbance
  slope := hL
  rate t _ := (sub_zero _).le
  value t _ := (add_zero _).ge
  filtered t ht := by
    obtain ⟨s, s', dt, uDes, hs, hc, hdim, hdir, hens, hcons, hsol, hcall⟩ := h.filtered t ht
    have hns' : slackScales s.constraints = [] := by rw [hc]; exact dock2_noslack
    have hpos : ScalesPos s.constraints := by intro w hw; rw [hns'] at hw; simp at hw
    have hsh : ShapesOK (dockF2 n) (dockG2 m) s (x t) := by
      have hx := (h.motion.curve t ht).2
      match x t, hx with
      | [_, _, _, _], _ => exact dock2_shapes hc hdim hdir _ _ _ _
    refine ⟨s, s', dt, uDes, hs, hpos, hcons, hens, hc ▸ hk, hsh, by rw [zero_mul, zero_mul], ?_, hcall⟩
    refine hsol.imp_right fun ⟨r, hr⟩ => ⟨r, zeros (slackScales s.constraints).length, ?_⟩
    rw [neg_zero]
    exact admissibleBy_zero.2 (admissible_iff_zeros.1 hr)

/-- **C101, planar docking.** The default `bias_negative` of the docking constraints makes up for every disturbance whose entries are at
most `W`, if `W (2 + 2 v1)` and `2 W V` are at most `0.01`, where `V` bounds the speed limit along the way: the documented limits hold
at all times. -/
theorem C101_docking_2d {solver : Solver ℝ} (hspec : SolverSpec solver) {m n v0 v1 v0Distance xLim yLim W V : ℝ} (hW : 0 ≤ W)
    (hv1 : 0 ≤ v1) (hv1' : v1 ≤ 1 / 32) (h1 : W * (2 + 2 * v1) ≤ 1 / 100) (h2 : W * (2 * V) ≤ 1 / 100) {x u w : ℝ → List ℝ}
    (h : DisturbedDocking solver m n v0 v1 v0Distance xLim yLim W x u w)
    (hV : ∀ t, 0 ≤ t → v0 + v1 * (√(comp (x t) 0 ^ 2 + comp (x t) 1 ^ 2 + 1 / 100000) - v0Distance) ≤ V)
    (h0 : Docking2Safe v0 v1 v0Distance xLim yLim (comp (x 0) 0) (comp (x 0) 1) (comp (x 0) 2) (comp (x 0) 3)) :
    ∀ t, 0 ≤ t → √(comp (x t) 2 ^ 2 + comp (x t) 3 ^ 2) ≤ v0 + v1 * (√(comp (x t) 0 ^ 2 + comp (x t) 1 ^ 2) - v0Distance) ∧
      comp (x t) 2 ^ 2 ≤ xLim ^ 2 ∧ comp (x t) 3 ^ 2 ≤ yLim ^ 2 := by
  have hlen : ∀ t, 0 ≤ t → (x t).length = 4 := fun t ht => (h.motion.curve t ht).2
  have hval : ∀ y : List ℝ, y.length = 4 → (dockRelVel 2 dockCoefs2 v0 v1 v0Distance).value y =
      v0 + v1 * (√(comp y 0 ^ 2 + comp y 1 ^ 2 + 1 / 100000) - v0Distance) - √(comp y 2 ^ 2 + comp y 3 ^ 2 + 1 / 100000) - 1 / 10000 := by
    intro y hy
    match y, hy with
    | [_, _, _, _], _ => exact rel_value2 _ _ _ _ _ _ _ _
  have htol := C98_exact hspec le_rfl le_rfl (ε := 0) (δ := 0)
  have hrel := (C101_bias le_rfl hW htol (dock_filtered h (k := "rel_vel") (by simp [dockConstraints2]) (rel_gradient2 _ _ _ _) rfl rfl
    fun t ht => rel_slope2 hv1 v0 v0Distance dockCoefs2 (hlen t ht)) dockCoefs2_class_k rfl rfl
    (by show (0 : ℝ) * (1 + 0) + W * (2 + 2 * v1) + 0 ≤ - -(1 / 100); linarith)
    (by rw [hval _ (hlen 0 le_rfl)]; have := h0.rel; linarith)).1
  have hspeed : ∀ t, 0 ≤ t → √(comp (x t) 2 ^ 2 + comp (x t) 3 ^ 2 + 1 / 100000) + 1 / 10000 ≤
      v0 + v1 * (√(comp (x t) 0 ^ 2 + comp (x t) 1 ^ 2 + 1 / 100000) - v0Distance) := fun t ht => by
    have := hrel t ht
    rw [hval _ (hlen t ht)] at this
    linarith
  have hlim : ∀ (lim : ℝ) (k : String) (i : Nat), (i = 2 ∨ i = 3) → (k, dockLimit lim i) ∈ dockConstraints2 v0 v1 v0Distance xLim yLim →
      comp (x 0) i ^ 2 ≤ lim ^ 2 → ∀ t, 0 ≤ t → comp (x t) i ^ 2 ≤ lim ^ 2 := by
    intro lim k i hi hk hs t ht
    have hb : ∀ t, 0 ≤ t → oneNorm ((dockLimit lim i).gradFn (x t) (dockLimit lim i).params) ≤ 2 * V := fun t ht => by
      refine (limit_slope lim hi (hlen t ht)).trans ?_
      have h3 : |comp (x t) i| ≤ √(comp (x t) 2 ^ 2 + comp (x t) 3 ^ 2 + 1 / 100000) := by
        refine abs_le_sqrt ?_
        rcases hi with rfl | rfl
        · nlinarith [sq_nonneg (comp (x t) 3)]
        · nlinarith [sq_nonneg (comp (x t) 2)]
      have h4 := hspeed t ht
      have h5 := hV t ht
      show 2 * |comp (x t) i| ≤ 2 * V
      linarith
    have := (C101_bias le_rfl hW htol (dock_filtered h hk (limit_gradient (by rcases hi with rfl | rfl <;> decide) lim) rfl rfl hb) limitAlpha_class_k rfl rfl
      (by show (0 : ℝ) * (1 + 0) + W * (2 * V) + 0 ≤ - -(1 / 100); linarith)
      (by rw [limit_value]; show -(0 : ℝ) ≤ lim ^ 2 - comp (x 0) i ^ 2; linarith)).1 t ht
    rw [limit_value] at this
    have : -(0 : ℝ) ≤ lim ^ 2 - comp (x t) i ^ 2 := this
    linarith
  intro t ht
  refine ⟨C64_documented_limit hv1 hv1' (by positivity) rfl (hspeed t ht) rfl, ?_, ?_⟩
  · exact hlim xLim "x_vel" 2 (Or.inl rfl) (by simp [dockConstraints2]) h0.xv t ht
  · exact hlim yLim "y_vel" 3 (Or.inr rfl) (by simp [dockConstraints2]) h0.yv t ht

theorem still_barrier {f : List ℝ → List ℝ} {g : List ℝ → List (List ℝ)} {c : Constraint ℝ (List ℝ) DockParams} {x u coefs : List ℝ}
    (hk : ClassKCoefs coefs) (ha : c.alpha = some (polyAlpha coefs)) (hv : 0 ≤ c.value x)
    (hd : dot (c.gradFn x c.params) (vadd (f x) (matVec (g x) u)) = 0) : BarrierOK f g c x u 0 := by
  refine ⟨_, by rw [barrierValue, ha]; rfl, ?_⟩
  have hs : strengthening c (polyAlpha coefs) (c.computeFn x c.params + c.bias) = polyAlpha coefs (c.value x) := if_pos hv
  simp only
  rw [hd, hs, zero_add]
  rcases hv.eq_or_lt with h | h
  · rw [← h, (C33_class_k coefs hk).1]
  · exact ((C33_sign coefs hk _).2 h).le

/-- C101 (docking): a vehicle at rest 100 m ahead, pushed with an acceleration of 0.004 that the desired control withstands; the default
module lets that control through, and the conclusion holds for all times. -/
example {solver : Solver ℝ} (hspec : SolverSpec solver) {epsilon : ℝ} :
    DisturbedDocking solver 12 (1027 / 1000000) (1 / 5) (2 * (1027 / 1000000)) 0 10 10 (1 / 250) (fun _ => [0, 100, 0, 0])
      (fun _ => [-(12 / 250), 0]) (fun _ => [0, 0, 1 / 250, 0]) ∧
    ∀ _ : ℝ, √((0 : ℝ) ^ 2 + 0 ^ 2) ≤ 1 / 5 + 2 * (1027 / 1000000) * (√((0 : ℝ) ^ 2 + 100 ^ 2) - 0) := by
  have hfield : vadd (dockF2 (1027 / 1000000) [0, 100, 0, 0]) (matVec (dockG2 12 [0, 100, 0, 0]) [-(12 / 250), 0]) =
      [0, 0, -(1 / 250), 0] := by
    rw [field2_eq]; norm_num
  have hsafe : Docking2Safe (1 / 5) (2 * (1027 / 1000000)) 0 10 10 0 100 0 0 := by
    refine ⟨?_, by norm_num, by norm_num⟩
    have h1 : √((0 : ℝ) ^ 2 + 0 ^ 2 + 1 / 100000) ≤ 1 / 100 := by
      rw [sqrt_le_left (by norm_num)]; norm_num
    have h2 := sqrt_nonneg ((0 : ℝ) ^ 2 + 100 ^ 2 + 1 / 100000)
    nlinarith
  have hD : DisturbedDocking solver 12 (1027 / 1000000) (1 / 5) (2 * (1027 / 1000000)) 0 10 10 (1 / 250) (fun _ => [0, 100, 0, 0])
      (fun _ => [-(12 / 250), 0]) (fun _ => [0, 0, 1 / 250, 0]) := by
    refine ⟨⟨fun _ _ => ⟨mem_univ _, rfl⟩, fun _ _ => continuousOn_const, fun t _ => by rw [hfield]; rfl, fun _ _ => rfl,
      fun t _ i hi => ?_⟩, fun t _ i => ?_, fun t _ => ?_⟩
    · rw [hfield]
      refine (hasDerivWithinAt_const t (Ici t) _).congr_deriv ?_
      match i, hi with
      | 0, _ => simp
      | 1, _ => simp
      | 2, _ => simp
      | 3, _ => simp
    · match i with
      | 0 => norm_num
      | 1 => norm_num
      | 2 => norm_num
      | 3 => norm_num
      | i + 4 => norm_num
    · obtain ⟨s, h⟩ := dock2_init_ok (1027 / 1000000) (1 / 5) 2 0 10 10 1 epsilon true
      obtain ⟨r, s', hcall, -, hmin⟩ := C63_default_2d hspec h hsafe (by norm_num) 1 [-(12 / 250), 0] rfl
      obtain ⟨hc, hdim, hdir, hen, hlo, hhi, hexc, -⟩ := dock2_init h
      have hadm : Admissible (dockF2 (1027 / 1000000)) (dockG2 12) s [0, 100, 0, 0] [-(12 / 250), 0] := by
        refine ⟨by rw [hdim]; rfl, ?_, ?_, by rw [hdir]; simp⟩
        · rw [hlo, hhi]; exact within_scalar (by simp; rw [abs_of_pos] <;> norm_num)
        · intro kc hkc _
          rw [hc] at hkc
          simp only [dockConstraints2, List.mem_cons, List.not_mem_nil, or_false] at hkc
          rcases hkc with rfl | rfl | rfl
          · refine still_barrier dockCoefs2_class_k rfl ?_ ?_
            · have := hsafe.rel
              rw [rel_value2]; linarith
            · rw [hfield]
              show dot (relVelGrad 2 _ (1 / 100000) [0, 100, 0, 0]) _ = 0
              rw [relVelGrad2]
              simp [dot]
          · refine still_barrier limitAlpha_class_k rfl ?_ ?_
            · rw [limit_value]; norm_num
            · rw [hfield]
              simp [dockLimit, Constraint.mk', stateAt, gradAt, dot, List.range_succ]
          · refine still_barrier limitAlpha_class_k rfl ?_ ?_
            · rw [limit_value]; norm_num
            · rw [hfield]
              simp [dockLimit, Constraint.mk', stateAt, gradAt, dot, List.range_succ]
      have hr : [-(12 / 250), 0] = r := by
        by_contra hne
        have := hmin _ hadm hne
        have h0 : sqDist ([-(12 / 250), 0] : List ℝ) [-(12 / 250), 0] = 0 := sqDist_self _
        rw [h0] at this
        exact absurd this (not_lt.2 (sqDist_nonneg _ _))
      refine ⟨s, s', 1, [-(12 / 250), 0], dock2_module h, hc, hdim, hdir, hen, ?_, Or.inl hexc, by rw [hcall, hr]⟩
      rw [hlo, hhi]
      intro i a b ha hb
      simp only [boundAt, Option.some.injEq] at ha hb
      linarith
  refine ⟨hD, fun _ => ?_⟩
  have hr : √((0 : ℝ) ^ 2 + 100 ^ 2 + 1 / 100000) ≤ 101 := by
    rw [sqrt_le_left (by norm_num)]; norm_num
  exact (C101_docking_2d hspec (V := 1 / 2) (by norm_num) (by norm_num) (by norm_num) (by norm_num) (by norm_num) hD
    (fun t _ => by show (1 / 5 : ℝ) + 2 * (1027 / 1000000) * (√((0 : ℝ) ^ 2 + 100 ^ 2 + 1 / 100000) - 0) ≤ 1 / 2; linarith) hsafe 0 le_rfl).1

end RTA
