import Verif.Props.Continuity
import Verif.Props.Disturbance
import Mathlib.Topology.Order.Compact
import Mathlib.Analysis.Calculus.Deriv.Pow

/-!
C120: a steeper strengthener lets more motions pass. Every motion that stays strictly safe for a bounded time passes an explicit ASIF
module unaltered once its strengtheners are steep enough; no slope is steep enough for all motions, or for all time.
-/
namespace RTA
open Set
variable {K S P X : Type}

section
variable [Field K] [LinearOrder K] [IsStrictOrderedRing K] [HasSqrt K] [LawfulSqrt K]

/-- **C120, one call**: if the desired control meets bounds and direct inequalities, every enabled constraint has at least value `η ≥ 0`
(with bias) and falls at most at rate `M`, and the strengtheners are at least `k·h` with `M ≤ k·η`, the control is returned unaltered. -/
theorem C120_passes {solver : Solver K} (hspec : SolverSpec solver) {f : S → List K} {g : S → List (List K)} {s : ASIFObj K S P X}
    (hs : ExplicitModule solver f g s) (hpos : ScalesPos s.constraints) (heps : 0 ≤ s.ext.epsilon) (hen : s.enable = true) {x : S}
    (hsh : ShapesOK f g s x) (dt : K) {u : List K} (hu : u.length = s.ext.controlDim)
    (hb : Within s.controlBoundsLow s.controlBoundsHigh u)
    (hd : ∀ kc ∈ s.ext.direct, kc.2.enabled = true → DirectOK kc.2 x u) {η M k : K} (hη : 0 ≤ η) (hk0 : 0 ≤ k) (hk : M ≤ k * η)
    (hc : ∀ kc ∈ s.constraints, kc.2.enabled = true → (∃ al, kc.2.alpha = some al ∧ ∀ h, 0 ≤ h → k * h ≤ al h) ∧
      η ≤ kc.2.computeFn x kc.2.params + kc.2.bias ∧ -M ≤ dot (kc.2.gradFn x kc.2.params) (vadd (f x) (matVec (g x) u))) :
    (explicitASIF solver f g s (.array x) dt u).1 = .ok u ∧ (explicitASIF solver f g s (.array x) dt u).2.intervening = false := by
  refine C25_no_interference hspec hs hpos heps hen x hsh dt u ⟨hu, hb, fun kc hkc he => ?_, hd⟩
  obtain ⟨⟨al, hal, hle⟩, h1, h2⟩ := hc kc hkc he
  have h0 := hη.trans h1
  refine ⟨_, by rw [barrierValue, hal]; rfl, ?_⟩
  have hst : strengthening kc.2 al (kc.2.computeFn x kc.2.params + kc.2.bias) = al (kc.2.computeFn x kc.2.params + kc.2.bias) := if_pos h0
  beta_reduce
  rw [hst]
  have h3 := hle _ h0
  have h4 := mul_le_mul_of_nonneg_left h1 hk0
  linarith
end

/-- **C120, bounded time**: let a motion with controls within the bounds keep finitely many constraint functions positive from time 0 to
`T`, their values and rates of change being continuous in time. Then there is a slope such that every module with these constraints, whose
strengtheners have at least this slope, returns the controls of the motion unaltered, at all times up to `T`. -/
theorem C120_steep {solver : Solver ℝ} (hspec : SolverSpec solver) {f : S → List ℝ} {g : S → List (List ℝ)} {T : ℝ} {x : ℝ → S}
    {u : ℝ → List ℝ} (cs : List (Constraint ℝ S P))
    (hval : ∀ c ∈ cs, ContinuousOn (fun t => c.computeFn (x t) c.params + c.bias) (Icc 0 T))
    (hrate : ∀ c ∈ cs, ContinuousOn (fun t => dot (c.gradFn (x t) c.params) (vadd (f (x t)) (matVec (g (x t)) (u t)))) (Icc 0 T))
    (hsafe : ∀ c ∈ cs, ∀ t ∈ Icc 0 T, 0 < c.computeFn (x t) c.params + c.bias) :
    ∃ k0 : ℝ, ∀ k, k0 ≤ k → ∀ s : ASIFObj ℝ S P X, ExplicitModule solver f g s → ScalesPos s.constraints → 0 ≤ s.ext.epsilon →
      s.enable = true → (∀ kc ∈ s.constraints, (∃ al, kc.2.alpha = some al ∧ ∀ h, 0 ≤ h → k * h ≤ al h) ∧
        ∃ c ∈ cs, kc.2.computeFn = c.computeFn ∧ kc.2.gradFn = c.gradFn ∧ kc.2.params = c.params ∧ kc.2.bias = c.bias) →
      ∀ t ∈ Icc 0 T, ShapesOK f g s (x t) → (u t).length = s.ext.controlDim → Within s.controlBoundsLow s.controlBoundsHigh (u t) →
        (∀ kc ∈ s.ext.direct, kc.2.enabled = true → DirectOK kc.2 (x t) (u t)) → ∀ dt,
          (explicitASIF solver f g s (.array (x t)) dt (u t)).1 = .ok (u t) ∧
          (explicitASIF solver f g s (.array (x t)) dt (u t)).2.intervening = false := by
  -- one slope for all constraints
  have key : ∃ k0 : ℝ, 0 ≤ k0 ∧ ∀ c ∈ cs, ∀ t ∈ Icc 0 T,
      -dot (c.gradFn (x t) c.params) (vadd (f (x t)) (matVec (g (x t)) (u t))) ≤ k0 * (c.computeFn (x t) c.params + c.bias) := by
    induction cs with
    | nil => exact ⟨0, le_rfl, by simp⟩
    | cons c cs ih =>
      obtain ⟨k1, hk1, h1⟩ := ih (fun c hc => hval c (List.mem_cons_of_mem _ hc)) (fun c hc => hrate c (List.mem_cons_of_mem _ hc))
        (fun c hc => hsafe c (List.mem_cons_of_mem _ hc))
      have hq : ContinuousOn (fun t => -dot (c.gradFn (x t) c.params) (vadd (f (x t)) (matVec (g (x t)) (u t))) /
          (c.computeFn (x t) c.params + c.bias)) (Icc 0 T) :=
        (hrate c List.mem_cons_self).neg.div (hval c List.mem_cons_self) fun t ht => (hsafe c List.mem_cons_self t ht).ne'
      obtain ⟨k2, h2⟩ := (isCompact_Icc.image_of_continuousOn hq).bddAbove
      refine ⟨max k1 k2, hk1.trans (le_max_left _ _), fun c' hc' t ht => ?_⟩
      rcases List.mem_cons.1 hc' with rfl | hc'
      · have hp := hsafe c' List.mem_cons_self t ht
        have h3 := (h2 (mem_image_of_mem _ ht)).trans (le_max_right k1 k2)
        exact (div_le_iff₀ hp).1 h3
      · exact (h1 c' hc' t ht).trans
          (mul_le_mul_of_nonneg_right (le_max_left _ _) (hsafe c' (List.mem_cons_of_mem _ hc') t ht).le)
  obtain ⟨k0, hk0, hkey⟩ := key
  refine ⟨k0, fun k hk s hs hpos heps hen hcs t ht hsh hu hb hd dt => ?_⟩
  refine C25_no_interference hspec hs hpos heps hen (x t) hsh dt (u t) ⟨hu, hb, fun kc hkc he => ?_, hd⟩
  obtain ⟨⟨al, hal, hle⟩, c, hc, e1, e2, e3, e4⟩ := hcs kc hkc
  have h0 := hsafe c hc t ht
  have h1 := hkey c hc t ht
  refine ⟨_, by rw [barrierValue, hal]; rfl, ?_⟩
  have hst : strengthening kc.2 al (c.computeFn (x t) c.params + c.bias) = al (c.computeFn (x t) c.params + c.bias) := if_pos h0.le
  beta_reduce
  rw [e1, e2, e3, e4, hst]
  have h3 := hle _ h0.le
  have h4 := mul_le_mul_of_nonneg_right hk h0.le
  linarith

/-! ### No slope lets everything pass -/

theorem steep_admissible (k x : ℝ) (hx : 0 ≤ x) (w : List ℝ) :
    Admissible (fun _ => [0]) (fun _ => [[1]]) (lineObj (fun h => k * h) 0) [x] w ↔ ∃ a, w = [a] ∧ 0 ≤ a + k * x := by
  have hst : strengthening (lineC (fun h => k * h) 0) (fun h => k * h) x = k * x := by rw [strengthening, if_pos hx]
  constructor
  · intro h
    obtain ⟨a, rfl⟩ := List.length_eq_one_iff.1 (show w.length = 1 from h.len)
    obtain ⟨m, hm, hle⟩ := h.barrier ("c", lineC (fun h => k * h) 0) (by simp [lineObj]) rfl
    rw [line_barrier, hst] at hm
    simp only [Option.some.injEq] at hm
    exact ⟨a, rfl, by rw [hm]; exact hle⟩
  · rintro ⟨a, rfl, h⟩
    refine ⟨rfl, fun i v _ => ⟨fun b hb => ?_, fun b hb => ?_⟩, fun kc hkc _ => ?_, by simp [lineObj]⟩
    · simp [lineObj, Base.init, boundAt] at hb
    · simp [lineObj, Base.init, boundAt] at hb
    · simp only [lineObj, List.mem_singleton] at hkc
      subst hkc
      exact ⟨_, line_barrier _ 0 x a, by rw [hst]; exact h⟩

theorem steep_answer {solver : Solver ℝ} (hspec : SolverSpec solver) {k x a : ℝ} (hx : 0 ≤ x) (ha : a + k * x ≤ 0) (dt : ℝ) :
    (explicitASIF solver (fun _ => [0]) (fun _ => [[1]]) (lineObj (fun h => k * h) 0) (.array [x]) dt [a]).1 = .ok [-(k * x)] := by
  refine answer_of_closest hspec (line_module solver _ 0) rfl rfl (line_shapes _ 0 x) dt rfl
    ((steep_admissible k x hx _).2 ⟨_, rfl, by linarith⟩) ?_
  intro v hv
  obtain ⟨q, rfl, hq⟩ := (steep_admissible k x hx v).1 hv
  rw [sqDist_one, sqDist_one]
  nlinarith

/-- **C120 needs the slope to depend on the motion**: for every slope there is a motion that is strictly safe at all times and altered
at all times. -/
theorem C120_refuted_slope {solver : Solver ℝ} (hspec : SolverSpec solver) (k : ℝ) : ∃ x u : ℝ → ℝ,
    Trajectory univ 1 (fun _ => [0]) (fun _ => [[1]]) (fun t => [x t]) (fun t => [u t]) ∧
    ∀ t dt, 0 < (lineC (fun h => k * h) 0).value [x t] ∧ u t < -(k * x t) ∧
      (explicitASIF solver (fun _ => [0]) (fun _ => [[1]]) (lineObj (fun h => k * h) 0) (.array [x t]) dt [u t]).1 =
        .ok [-(k * x t)] := by
  refine ⟨fun t => Real.exp (-(k + 1) * t), fun t => Real.exp (-(k + 1) * t) * -(k + 1), single_trajectory fun t => ?_, fun t dt => ?_⟩
  · have := ((hasDerivAt_id t).const_mul (-(k + 1))).exp
    simpa using this
  · have hp := Real.exp_pos (-(k + 1) * t)
    have hlt : Real.exp (-(k + 1) * t) * -(k + 1) < -(k * Real.exp (-(k + 1) * t)) := by nlinarith
    exact ⟨by rw [line_value]; exact hp, hlt, steep_answer hspec hp.le (by linarith) dt⟩

/-- **C120 needs bounded time**: there is a motion that is strictly safe at all times, and that every slope alters from some time on. -/
theorem C120_refuted_forever {solver : Solver ℝ} (hspec : SolverSpec solver) : ∃ x u : ℝ → ℝ,
    Trajectory univ 1 (fun _ => [0]) (fun _ => [[1]]) (fun t => [x t]) (fun t => [u t]) ∧ (∀ t, 0 < x t) ∧
    ∀ k : ℝ, ∃ t0, ∀ t, t0 < t → ∀ dt, u t < -(k * x t) ∧
      (explicitASIF solver (fun _ => [0]) (fun _ => [[1]]) (lineObj (fun h => k * h) 0) (.array [x t]) dt [u t]).1 =
        .ok [-(k * x t)] := by
  refine ⟨fun t => Real.exp (-t ^ 2), fun t => Real.exp (-t ^ 2) * -(2 * t), single_trajectory fun t => ?_, fun t => Real.exp_pos _,
    fun k => ⟨k / 2, fun t ht dt => ?_⟩⟩
  · have := ((hasDerivAt_pow 2 t).neg).exp
    simpa using this
  · have hp := Real.exp_pos (-t ^ 2)
    have hlt : Real.exp (-t ^ 2) * -(2 * t) < -(k * Real.exp (-t ^ 2)) := by nlinarith
    exact ⟨hlt, steep_answer hspec hp.le (by linarith) dt⟩

/-- C120: the motion of `C120_refuted_forever` passes unaltered up to time 5 if the slope is large enough. -/
example {solver : Solver ℝ} (hspec : SolverSpec solver) : ∃ k0 : ℝ, ∀ k, k0 ≤ k → ∀ t ∈ Icc (0 : ℝ) 5,
    (explicitASIF solver (fun _ => [0]) (fun _ => [[1]]) (lineObj (fun h => k * h) 0) (.array [Real.exp (-t ^ 2)]) 1
      [Real.exp (-t ^ 2) * -(2 * t)]).1 = .ok [Real.exp (-t ^ 2) * -(2 * t)] := by
  have hrate : ∀ a b : ℝ, dot ((lineC (fun h => h) 0).gradFn [a] (lineC (fun h => h) 0).params) (vadd [0] (matVec [[1]] [b])) = b := by
    intro a b
    simp [lineC, posC, minLimit, Constraint.mk', gradAt, vadd, matVec, List.range_succ]
  have hv : ∀ a : ℝ, (lineC (fun h => h) 0).computeFn [a] (lineC (fun h => h) 0).params + (lineC (fun h => h) 0).bias = a := by
    intro a
    simp [lineC, posC, minLimit, Constraint.mk', stateAt]
  obtain ⟨k0, h⟩ := C120_steep (X := Unit) hspec (f := fun _ => [0]) (g := fun _ => [[1]]) (T := 5) (x := fun t => [Real.exp (-t ^ 2)])
    (u := fun t => [Real.exp (-t ^ 2) * -(2 * t)]) [lineC (fun h => h) 0]
    (by simp only [List.mem_singleton, forall_eq, hv]; fun_prop) (by simp only [List.mem_singleton, forall_eq, hrate]; fun_prop)
    (by simp only [List.mem_singleton, forall_eq, hv]; exact fun t _ => Real.exp_pos _)
  refine ⟨k0, fun k hk t ht => (h k hk _ (line_module solver _ 0) (line_pos _ 0) (by norm_num [lineObj]) rfl ?_ t ht (line_shapes _ 0 _) rfl
    (fun i v _ => ⟨fun b hb => ?_, fun b hb => ?_⟩) (by simp [lineObj]) 1).1⟩
  · intro kc hkc
    simp only [lineObj, List.mem_singleton] at hkc
    subst hkc
    exact ⟨⟨_, rfl, fun _ _ => le_rfl⟩, _, List.mem_singleton.2 rfl, rfl, rfl, rfl, rfl⟩
  · simp [lineObj, Base.init, boundAt] at hb
  · simp [lineObj, Base.init, boundAt] at hb

end RTA
