import Verif.Props.Zoo.IntegratorMargin
import Verif.Lemmas.Zoo.CombinedCall
import Verif.Props.ASIFHistory

/-!
C127: the explicit optimisation filter of the one-dimensional docking example with a bias, called every `Δ`, its control held in between.

A bias makes the switching filter of the same example safe (C125). It does not help here: near rest the barrier condition does not restrict the
acceleration, however small the distance to the limit is, so that within one step the limit is passed; beyond it no control is admissible, and the
desired control is passed on. Desired controls that do not accelerate towards the target are filtered safely.
-/
namespace RTA

/-- The explicit optimisation module of the example, with a bias. -/
noncomputable def dockEOBiased (b epsilon : ℝ) (exc : Bool) : ASIFObj ℝ (List ℝ) Unit Unit :=
  { dockEOObj epsilon exc with constraints := [("rel_vel", { dockExplicitC with bias := b })] }

theorem dockEB_module (solver : Solver ℝ) (b epsilon : ℝ) (exc : Bool) : ExplicitModule solver pointF (pointG 1) (dockEOBiased b epsilon exc) :=
  ⟨some (.scalar 1), some (.scalar (-1)), [("rel_vel", { dockExplicitC with bias := b })], none, epsilon, 1, exc, [], (), dockEOBiased b epsilon exc,
    [], by simp [dictKeys], by simp [dictKeys], rfl, rfl⟩

/-- The module at any time later. -/
structure DockEB (solver : Solver ℝ) (b epsilon : ℝ) (exc : Bool) (s : ASIFObj ℝ (List ℝ) Unit Unit) : Prop where
  built : ExplicitModule solver pointF (pointG 1) s
  kept : KeptBy (dockEOBiased b epsilon exc) s

theorem DockEB.call {solver : Solver ℝ} {b epsilon : ℝ} {exc : Bool} {s : ASIFObj ℝ (List ℝ) Unit Unit} (h : DockEB solver b epsilon exc s)
    (x : InputState (List ℝ)) (dt : ℝ) (u : List ℝ) : DockEB solver b epsilon exc (explicitASIF solver pointF (pointG 1) s x dt u).2 := by
  refine ⟨?_, h.kept.trans (h.built.kept x dt u)⟩
  obtain ⟨high, low, all, use, eps, n, e, direct, extra, s0, ops0, e1, e2, e3, rfl⟩ := h.built
  exact ⟨high, low, all, use, eps, n, e, direct, extra, s0, ops0 ++ [.call x dt u], e1, e2, e3, by rw [runE_append]; rfl⟩

section
variable {solver : Solver ℝ} {b epsilon : ℝ} {exc : Bool} {s : ASIFObj ℝ (List ℝ) Unit Unit}

theorem DockEB.noslack (h : DockEB solver b epsilon exc s) : slackScales s.constraints = [] := by
  rw [h.kept.constraints]
  simp [dockEOBiased, slackScales, dockExplicitC, Constraint.mk']

theorem DockEB.pos (h : DockEB solver b epsilon exc s) : ScalesPos s.constraints := by
  intro w hw; rw [h.noslack] at hw; simp at hw

theorem DockEB.enabled (h : DockEB solver b epsilon exc s) : s.enable = true := h.kept.enable

theorem DockEB.shapes (h : DockEB solver b epsilon exc s) (x : List ℝ) : ShapesOK pointF (pointG 1) s x := by
  refine ⟨?_, ?_, by simp [pointG, pointB, pointF, pointA, matVec], ?_, ?_⟩
  · rw [h.kept.constraints]; simp [dockEOBiased, dockExplicitC, Constraint.mk']
  · rw [h.kept.constraints]; simp [dockEOBiased, dockExplicitC, Constraint.mk', pointF, pointA, matVec]
  · rw [h.kept.controlDim]; simp [pointG, pointB, dockEOBiased, dockEOObj]
  · rw [h.kept.direct]; simp [dockEOBiased, dockEOObj]

/-- The barrier condition within the limit. -/
theorem dockEB_barrier (b p v u : ℝ) (h : 0 ≤ -2 * p - v ^ 2 + b) :
    BarrierOK pointF (pointG 1) { dockExplicitC with bias := b } [p, v] [u] 0 ↔
      0 ≤ -2 * v - 2 * v * u + ((-2 * p - v ^ 2 + b) + 30 * (-2 * p - v ^ 2 + b) ^ 3) := by
  have e : barrierValue pointF (pointG 1) { dockExplicitC with bias := b } [p, v] [u] =
      some (-2 * v - 2 * v * u + ((-2 * p - v ^ 2 + b) + 30 * (-2 * p - v ^ 2 + b) ^ 3)) := by
    simp only [barrierValue, dockExplicitC, Constraint.mk', Option.map_some, strengthening, List.getD_cons_zero, List.getD_cons_succ,
      if_pos h, Option.some.injEq, pointF, pointG, pointA, pointB, matVec, vadd, List.map_cons, List.map_nil,
      List.zipWith_cons_cons, List.zipWith_nil_right, dot_cons, dot_nil_left, polyAlpha, polyLoop]
    ring
  unfold BarrierOK
  rw [e]
  simp

theorem DockEB.admissible (hs : DockEB solver b epsilon exc s) {p v : ℝ} (h : 0 ≤ -2 * p - v ^ 2 + b) (w : List ℝ) :
    Admissible pointF (pointG 1) s [p, v] w ↔
      ∃ u, w = [u] ∧ (-1 ≤ u ∧ u ≤ 1) ∧ 0 ≤ -2 * v - 2 * v * u + ((-2 * p - v ^ 2 + b) + 30 * (-2 * p - v ^ 2 + b) ^ 3) := by
  constructor
  · intro ha
    have hl : w.length = 1 := ha.len.trans hs.kept.controlDim
    obtain ⟨u, rfl⟩ := List.length_eq_one_iff.1 hl
    have hb := ha.bounds
    rw [hs.kept.low, hs.kept.high] at hb
    exact ⟨u, rfl, (dock_within u).1 hb, (dockEB_barrier b p v u h).1 (ha.barrier ("rel_vel", { dockExplicitC with bias := b })
      (by rw [hs.kept.constraints]; simp [dockEOBiased]) rfl)⟩
  · rintro ⟨u, rfl, h1, h2⟩
    refine ⟨hs.kept.controlDim.symm, by rw [hs.kept.low, hs.kept.high]; exact (dock_within u).2 h1, ?_, ?_⟩
    · intro kc hkc _
      rw [hs.kept.constraints] at hkc
      simp only [dockEOBiased, List.mem_singleton] at hkc
      subst hkc
      exact (dockEB_barrier b p v u h).2 h2
    · rw [hs.kept.direct]; simp [dockEOBiased, dockEOObj]

/-- Beyond the limit no control is admissible for a vehicle that moves towards the target. -/
theorem DockEB.infeasible (hs : DockEB solver b epsilon exc s) {p v : ℝ} (h : -2 * p - v ^ 2 + b < 0) (hv : 0 ≤ v) :
    ¬ ∃ w d, AdmissibleS pointF (pointG 1) s [p, v] w d := by
  rintro ⟨w, d, hw⟩
  obtain ⟨-, ha⟩ := (admissibleS_noslack hs.noslack).1 hw
  have hl : w.length = 1 := ha.len.trans hs.kept.controlDim
  obtain ⟨u, rfl⟩ := List.length_eq_one_iff.1 hl
  have hb := ha.bounds
  rw [hs.kept.low, hs.kept.high] at hb
  obtain ⟨hu, -⟩ := (dock_within u).1 hb
  obtain ⟨q, hq, hq0⟩ := ha.barrier ("rel_vel", { dockExplicitC with bias := b }) (by rw [hs.kept.constraints]; simp [dockEOBiased]) rfl
  have e : barrierValue pointF (pointG 1) { dockExplicitC with bias := b } [p, v] [u] =
      some (-2 * v - 2 * v * u + (10 * ((-2 * p - v ^ 2 + b) + 30 * (-2 * p - v ^ 2 + b) ^ 3) - 1 / 100)) := by
    simp only [barrierValue, dockExplicitC, Constraint.mk', Option.map_some, strengthening, List.getD_cons_zero, List.getD_cons_succ,
      if_neg (not_le.2 h), Option.some.injEq, pointF, pointG, pointA, pointB, matVec, vadd, List.map_cons, List.map_nil,
      List.zipWith_cons_cons, List.zipWith_nil_right, dot_cons, dot_nil_left, polyAlpha, polyLoop]
    ring
  simp only [e, Option.some.injEq] at hq
  have h3 : (-2 * p - v ^ 2 + b) ^ 3 < 0 := by
    have : 0 < (-2 * p - v ^ 2 + b) ^ 2 := sq_pos_of_neg h
    nlinarith
  have : 0 ≤ v * (1 + u) := mul_nonneg hv (by linarith)
  linarith

end

/-- One more step of a closed loop. -/
theorem loop_step {σ : Type} {fc : σ → InputState (List ℝ) → ℝ → List ℝ → Except PyErr (List ℝ) × σ} {plant : List ℝ → ℝ → List ℝ → List ℝ}
    {dts : Nat → ℝ} {us : Nat → List ℝ} {x0 x c : List ℝ} {s0 s : σ} {n : Nat} (h : closedLoop fc plant dts us x0 s0 n = some (x, s))
    (hc : (fc s (.array x) (dts n) (us n)).1 = .ok c) :
    closedLoop fc plant dts us x0 s0 (n + 1) = some (plant x (dts n) c, (fc s (.array x) (dts n) (us n)).2) := by
  rw [closedLoop, h]
  dsimp only
  generalize fc s (.array x) (dts n) (us n) = r at hc ⊢
  obtain ⟨r1, r2⟩ := r
  simp only at hc
  subst hc
  rfl

theorem loop_raises {σ : Type} {fc : σ → InputState (List ℝ) → ℝ → List ℝ → Except PyErr (List ℝ) × σ} {plant : List ℝ → ℝ → List ℝ → List ℝ}
    {dts : Nat → ℝ} {us : Nat → List ℝ} {x0 x : List ℝ} {s0 s : σ} {n : Nat} {e : PyErr} (h : closedLoop fc plant dts us x0 s0 n = some (x, s))
    (hc : (fc s (.array x) (dts n) (us n)).1 = .error e) : closedLoop fc plant dts us x0 s0 (n + 1) = none := by
  rw [closedLoop, h]
  dsimp only
  generalize fc s (.array x) (dts n) (us n) = r at hc ⊢
  obtain ⟨r1, r2⟩ := r
  simp only at hc
  subst hc
  rfl

/-- **C127 is false for every bias and every step size.** The point mass at rest, with the constraint and its bias satisfied strictly but by less than
`2 Δ²`, asked to accelerate for ever: the module lets it accelerate at every call, and in the end it has passed the target. -/
theorem C127_refuted {solver : Solver ℝ} (hspec : SolverSpec solver) (b : ℝ) {epsilon Δ δ : ℝ} (heps : 0 ≤ epsilon) (hΔ : 0 < Δ) (hδ0 : 0 < δ)
    (hδ : δ < Δ ^ 2) :
    0 < dockVal [b / 2 - δ, 0] + b ∧
    (∀ n : Nat, ∃ s, closedLoop (explicitASIF solver pointF (pointG 1)) (pointExact 1) (fun _ => Δ) (fun _ => [1]) [b / 2 - δ, 0]
      (dockEOBiased b epsilon false) n = some ([b / 2 - δ + (n * Δ) ^ 2 / 2, n * Δ], s)) ∧
    ∃ n : Nat, 0 < b / 2 - δ + (n * Δ) ^ 2 / 2 := by
  refine ⟨by simp [dockVal]; linarith, fun n => ?_, ?_⟩
  · suffices h : ∃ s, DockEB solver b epsilon false s ∧ closedLoop (explicitASIF solver pointF (pointG 1)) (pointExact 1) (fun _ => Δ)
        (fun _ => [1]) [b / 2 - δ, 0] (dockEOBiased b epsilon false) n = some ([b / 2 - δ + (n * Δ) ^ 2 / 2, n * Δ], s) by
      obtain ⟨s, -, h⟩ := h
      exact ⟨s, h⟩
    induction n with
    | zero => exact ⟨_, ⟨dockEB_module solver b epsilon false, KeptBy.refl _⟩, by simp [closedLoop]⟩
    | succ n ih =>
      obtain ⟨s, hs, hn⟩ := ih
      have hcall : (explicitASIF solver pointF (pointG 1) s (.array [b / 2 - δ + (n * Δ) ^ 2 / 2, n * Δ]) Δ [1]).1 = .ok [1] := by
        rcases Nat.eq_zero_or_pos n with rfl | hpos
        · have h0 : (0 : ℝ) ≤ -2 * (b / 2 - δ + (((0 : ℕ) : ℝ) * Δ) ^ 2 / 2) - (((0 : ℕ) : ℝ) * Δ) ^ 2 + b := by
            simp; linarith
          refine (C25_no_interference hspec hs.built hs.pos (by rw [hs.kept.epsilon]; exact heps) hs.enabled _ (hs.shapes _) Δ [1]
            ((hs.admissible h0 _).2 ⟨1, rfl, by norm_num, ?_⟩)).1
          have h3 : 0 ≤ (-2 * (b / 2 - δ + (((0 : ℕ) : ℝ) * Δ) ^ 2 / 2) - (((0 : ℕ) : ℝ) * Δ) ^ 2 + b) ^ 3 := pow_nonneg h0 3
          have e : (((0 : ℕ) : ℝ) * Δ) = 0 := by simp
          rw [e] at h0 h3 ⊢
          linarith
        · have h1 : (1 : ℝ) ≤ n := by exact_mod_cast hpos
          have h2 : Δ ^ 2 ≤ (n * Δ) ^ 2 := by
            rw [mul_pow]
            nlinarith [sq_nonneg Δ, sq_nonneg ((n : ℝ) - 1)]
          rw [C27_infeasible_policy hspec hs.built hs.pos hs.enabled _ (hs.shapes _) Δ [1] hs.kept.controlDim.symm
            (hs.infeasible (by linarith) (by positivity)), hs.kept.exc]
          exact dock_clip (K := ℝ) s.toBase hs.kept.high hs.kept.low 1 (by norm_num) le_rfl
      refine ⟨_, hs.call (.array [b / 2 - δ + (n * Δ) ^ 2 / 2, n * Δ]) Δ [1], ?_⟩
      refine (loop_step hn hcall).trans ?_
      rw [Option.some.injEq, Prod.mk.injEq]
      refine ⟨?_, rfl⟩
      simp only [pointExact, List.getD_cons_zero, List.getD_cons_succ, div_one, List.cons.injEq, and_true]
      push_cast
      constructor <;> ring
  · obtain ⟨n, hn⟩ := exists_nat_gt ((1 + |2 * δ - b|) / Δ)
    refine ⟨n, ?_⟩
    rw [div_lt_iff₀ hΔ] at hn
    have h1 := le_abs_self (2 * δ - b)
    have h2 := abs_nonneg (2 * δ - b)
    nlinarith

/-- With `solver_exception` the same loop raises at the second call. -/
theorem C127_raises {solver : Solver ℝ} (hspec : SolverSpec solver) (b : ℝ) {epsilon Δ δ : ℝ} (heps : 0 ≤ epsilon) (hΔ : 0 < Δ) (hδ0 : 0 < δ)
    (hδ : δ < Δ ^ 2) :
    closedLoop (explicitASIF solver pointF (pointG 1)) (pointExact 1) (fun _ => Δ) (fun _ => [1]) [b / 2 - δ, 0]
      (dockEOBiased b epsilon true) 2 = none := by
  have hs : DockEB solver b epsilon true (dockEOBiased b epsilon true) := ⟨dockEB_module solver b epsilon true, KeptBy.refl _⟩
  have h0 : (0 : ℝ) ≤ -2 * (b / 2 - δ) - 0 ^ 2 + b := by linarith
  have hcall : (explicitASIF solver pointF (pointG 1) (dockEOBiased b epsilon true) (.array [b / 2 - δ, 0]) Δ [1]).1 = .ok [1] :=
    (C25_no_interference hspec hs.built hs.pos (by rw [hs.kept.epsilon]; exact heps) hs.enabled _ (hs.shapes _) Δ [1]
      ((hs.admissible h0 _).2 ⟨1, rfl, by norm_num, by have h3 : 0 ≤ (-2 * (b / 2 - δ) - 0 ^ 2 + b) ^ 3 := pow_nonneg h0 3; linarith⟩)).1
  have hs' := hs.call (.array [b / 2 - δ, 0]) Δ [1]
  have h1 := loop_step (fc := explicitASIF solver pointF (pointG 1)) (plant := pointExact 1) (dts := fun _ => Δ) (us := fun _ => [1])
    (x0 := [b / 2 - δ, 0]) (s0 := dockEOBiased b epsilon true) (n := 0) rfl hcall
  have e : pointExact 1 [b / 2 - δ, 0] Δ [1] = [b / 2 - δ + Δ ^ 2 / 2, Δ] := by
    simp only [pointExact, List.getD_cons_zero, List.getD_cons_succ, div_one, List.cons.injEq, and_true]
    constructor <;> ring
  simp only [e] at h1
  have h2 := C27_infeasible_policy hspec hs'.built hs'.pos hs'.enabled _ (hs'.shapes _) Δ [1] hs'.kept.controlDim.symm
    (hs'.infeasible (p := b / 2 - δ + Δ ^ 2 / 2) (v := Δ) (by linarith) hΔ.le)
  rw [hs'.kept.exc] at h2
  exact loop_raises h1 h2

/-- **C127 for desired controls that do not accelerate towards the target** (`as n ≤ 0`): called every `Δ` with the control held in between, from a state
within the limit, the constraint with its bias holds at all times, at the calls and between them, as long as the step size fits the strengthener in the
states met (`hstep`). A bias is not needed. What is missing: other desired controls, for which the statement is false (`C127_refuted`). -/
theorem C127_coasting_partial {solver : Solver ℝ} (hspec : SolverSpec solver) {b epsilon Δ : ℝ} {exc : Bool} (hΔ : 0 < Δ)
    {as : Nat → ℝ} (has : ∀ n, as n ≤ 0) {N : Nat} {y : Nat → List ℝ} {s : Nat → ASIFObj ℝ (List ℝ) Unit Unit} {c : Nat → List ℝ}
    (hs : s 0 = dockEOBiased b epsilon exc)
    (hrun : NoisyRun (explicitASIF solver pointF (pointG 1)) (fun x h u x' => x' = pointExact 1 x h u) (fun x e => e = x) (fun _ => Δ)
      (fun n => [as n]) N y y s c) (hy : (y 0).length = 2) (h0 : 0 ≤ dockVal (y 0) + b)
    (hstep : ∀ n < N, Δ * (1 + 30 * (dockVal (y n) + b) ^ 2) ≤ 1) :
    (∀ n ≤ N, 0 ≤ dockVal (y n) + b) ∧
    ∀ n < N, ∀ l, 0 ≤ l → l ≤ 1 → 0 ≤ dockVal (pointExact 1 (y n) (l * Δ) (c n)) + b := by
  have one : ∀ n < N, (y n).length = 2 → DockEB solver b epsilon exc (s n) → 0 ≤ dockVal (y n) + b →
      DockEB solver b epsilon exc (s (n + 1)) ∧ ∀ l, 0 ≤ l → l ≤ 1 → 0 ≤ dockVal (pointExact 1 (y n) (l * Δ) (c n)) + b := by
    intro n hn hl hsn hval
    have hcall := hrun.call n hn
    refine ⟨by have := hsn.call (.array (y n)) Δ [as n]; rwa [hcall] at this, fun l hl0 hl1 => ?_⟩
    have hst := hstep n hn
    generalize y n = x at hl hval hcall hst ⊢
    obtain ⟨p, v, rfl⟩ := List.length_eq_two.1 hl
    simp only [dockVal, List.getD_cons_zero, List.getD_cons_succ] at hval hst
    have hα : 0 ≤ (-2 * p - v ^ 2 + b) + 30 * (-2 * p - v ^ 2 + b) ^ 3 := by positivity
    have hadm : ∃ w, Admissible pointF (pointG 1) (s n) [p, v] w := by
      rcases le_total 0 v with hv | hv
      · exact ⟨[-1], (hsn.admissible hval _).2 ⟨-1, rfl, by norm_num, by linarith⟩⟩
      · exact ⟨[0], (hsn.admissible hval _).2 ⟨0, rfl, by norm_num, by linarith⟩⟩
    obtain ⟨hca, hmin⟩ := C24_closest_admissible hspec hsn.built hsn.noslack hsn.enabled [p, v] Δ [as n] (c n) hcall hadm
    obtain ⟨a, hc, ⟨ha1, ha2⟩, hrow⟩ := (hsn.admissible hval _).1 hca
    rw [hc] at hmin ⊢
    have ha0 : a ≤ 0 := by
      by_contra hpos
      have hpos := not_le.1 hpos
      have hw : max (as n) (-1) ≤ 0 := max_le (has n) (by norm_num)
      have hw1 : -1 ≤ max (as n) (-1) := le_max_right _ _
      have hne : [max (as n) (-1)] ≠ [a] := by
        intro e
        have : max (as n) (-1) = a := by simpa using e
        linarith
      have := hmin [max (as n) (-1)] ((hsn.admissible hval _).2 ⟨_, rfl, ⟨hw1, by linarith⟩, by
        rcases le_total 0 v with hv | hv
        · have := mul_le_mul_of_nonneg_left (show max (as n) (-1) ≤ a by linarith) hv
          linarith
        · have := mul_nonneg (neg_nonneg.2 hv) (show 0 ≤ 1 + max (as n) (-1) by linarith)
          linarith⟩) hne
      simp only [sqDist, vsub, sqNorm, List.zipWith_cons_cons, List.zipWith_nil_right, dot_cons, dot_nil_left, add_zero] at this
      rcases le_total (as n) (-1) with h | h
      · rw [max_eq_right h] at this
        nlinarith
      · rw [max_eq_left h] at this
        nlinarith [sq_nonneg (a - as n)]
    have e : dockVal (pointExact 1 [p, v] (l * Δ) [a]) + b =
        (-2 * p - v ^ 2 + b) + l * Δ * (-2 * v - 2 * v * a) - (l * Δ) ^ 2 * (a * (1 + a)) := by
      simp only [dockVal, pointExact, List.getD_cons_zero, List.getD_cons_succ, div_one]
      ring
    rw [e]
    have h1 : 0 ≤ -((l * Δ) ^ 2 * (a * (1 + a))) := by
      have := mul_nonneg (sq_nonneg (l * Δ)) (mul_nonneg (neg_nonneg.2 ha0) (show 0 ≤ 1 + a by linarith))
      linarith
    have hlΔ : 0 ≤ l * Δ := mul_nonneg hl0 hΔ.le
    have h2 := mul_nonneg hlΔ hrow
    have h3 : l * Δ * ((-2 * p - v ^ 2 + b) + 30 * (-2 * p - v ^ 2 + b) ^ 3) ≤ -2 * p - v ^ 2 + b := by
      have h4 := mul_le_mul_of_nonneg_right hst hval
      have h5 := mul_le_mul_of_nonneg_right (mul_le_mul_of_nonneg_right hl1 hΔ.le) hα
      nlinarith
    linarith
  have all : ∀ n ≤ N, (y n).length = 2 ∧ DockEB solver b epsilon exc (s n) ∧ 0 ≤ dockVal (y n) + b := by
    intro n hn
    induction n with
    | zero => exact ⟨hy, by rw [hs]; exact ⟨dockEB_module solver b epsilon exc, KeptBy.refl _⟩, h0⟩
    | succ n ih =>
      obtain ⟨h1, h2, h3⟩ := ih (Nat.le_of_succ_le hn)
      obtain ⟨h4, h5⟩ := one n hn h1 h2 h3
      have hm : y (n + 1) = pointExact 1 (y n) Δ (c n) := hrun.move n hn
      refine ⟨by rw [hm]; rfl, h4, ?_⟩
      have := h5 1 zero_le_one le_rfl
      rwa [one_mul, ← hm] at this
  exact ⟨fun n hn => (all n hn).2.2, fun n hn => (one n hn (all n hn.le).1 (all n hn.le).2.1 (all n hn.le).2.2).2⟩

/-- A vehicle half a metre from the target moving towards it at `9/10`, asked to coast: the module returns a control (coasting is not admissible), and
for the next quarter of a second the constraint holds. -/
example : ∃ (y : Nat → List ℝ) (s : Nat → ASIFObj ℝ (List ℝ) Unit Unit) (c : Nat → List ℝ), y 0 = [-1 / 2, 9 / 10] ∧
    NoisyRun (explicitASIF refSolver pointF (pointG 1)) (fun x h u x' => x' = pointExact 1 x h u) (fun x e => e = x) (fun _ => 1 / 4)
      (fun _ => [0]) 1 y y s c ∧
    ¬ Admissible pointF (pointG 1) (s 0) (y 0) [0] ∧
    ∀ l, 0 ≤ l → l ≤ 1 → 0 ≤ dockVal (pointExact 1 (y 0) (l * (1 / 4)) (c 0)) := by
  have hs : DockEB refSolver 0 0 false (dockEOBiased 0 0 false) := ⟨dockEB_module refSolver 0 0 false, KeptBy.refl _⟩
  have h0 : (0 : ℝ) ≤ -2 * (-1 / 2) - (9 / 10) ^ 2 + 0 := by norm_num
  have ha : Admissible pointF (pointG 1) (dockEOBiased 0 0 false) [-1 / 2, 9 / 10] [-1] := (hs.admissible h0 _).2 ⟨-1, rfl, by norm_num, by norm_num⟩
  obtain ⟨v, hv⟩ := C24_returns refSolver_spec hs.built hs.pos rfl [-1 / 2, 9 / 10] (hs.shapes _) (1 / 4) [0] hs.kept.controlDim.symm
    ⟨[-1], [], (admissibleS_noslack hs.noslack).2 ⟨rfl, ha⟩⟩
  have hrun : NoisyRun (explicitASIF refSolver pointF (pointG 1)) (fun x h u x' => x' = pointExact 1 x h u) (fun x e => e = x) (fun _ => 1 / 4)
      (fun _ => [0]) 1 (fun n => if n = 0 then [-1 / 2, 9 / 10] else pointExact 1 [-1 / 2, 9 / 10] (1 / 4) v)
      (fun n => if n = 0 then [-1 / 2, 9 / 10] else pointExact 1 [-1 / 2, 9 / 10] (1 / 4) v)
      (fun n => if n = 0 then dockEOBiased 0 0 false else
        (explicitASIF refSolver pointF (pointG 1) (dockEOBiased 0 0 false) (.array [-1 / 2, 9 / 10]) (1 / 4) [0]).2) (fun _ => v) := by
    refine ⟨fun _ _ => rfl, fun n hn => ?_, fun n hn => ?_⟩
    · obtain rfl : n = 0 := by omega
      exact Prod.ext hv rfl
    · obtain rfl : n = 0 := by omega
      rfl
  refine ⟨_, _, _, rfl, hrun, ?_, fun l hl0 hl1 => ?_⟩
  · intro h
    obtain ⟨u, hu, -, h⟩ := (hs.admissible h0 _).1 h
    obtain rfl : 0 = u := by simpa using hu
    norm_num at h
  · have := (C127_coasting_partial refSolver_spec (by norm_num) (as := fun _ => 0) (fun _ => le_rfl) rfl hrun rfl
      (by norm_num [dockVal]) (by intro n hn; obtain rfl : n = 0 := by omega
                                  norm_num [dockVal])).2 0 one_pos l hl0 hl1
    simpa using this

/-- The conditions of the refutation: a bias of `-100`, called ten times a second. -/
example : 0 < dockVal [(-100 : ℝ) / 2 - 1 / 200, 0] + -100 ∧ ∃ n : Nat, ∃ p v s, closedLoop (explicitASIF refSolver pointF (pointG 1)) (pointExact 1)
    (fun _ => (1 / 10 : ℝ)) (fun _ => [1]) [-100 / 2 - 1 / 200, 0] (dockEOBiased (-100) 0 false) n = some ([p, v], s) ∧ 0 < p := by
  obtain ⟨h1, h2, n, h3⟩ := C127_refuted refSolver_spec (-100) (epsilon := 0) (Δ := 1 / 10) (δ := 1 / 200) le_rfl (by norm_num) (by norm_num) (by norm_num)
  obtain ⟨s, hs⟩ := h2 n
  exact ⟨h1, n, _, _, s, hs, h3⟩

end RTA
