import Verif.Props.Soft
import Verif.Props.SoftDiscrete
import Verif.Props.Disturbance

/-!
C118: soft constraints in closed loop. A constraint with a `slack_priority_scale` is kept up to a margin that shrinks as the scale grows,
and exactly where `bias_negative` makes up for it; without `bias_negative` every scale lets it be violated.
-/
set_option linter.unusedSectionVars false
namespace RTA
open Set
variable {K S P X A : Type}

section
variable [Field K] [LinearOrder K] [IsStrictOrderedRing K] [HasSqrt K] [LawfulSqrt K]

/-- **C118, one call**: if control `a` satisfies every condition without slack, and that of the soft constraint with `m` to spare,
the returned control misses the soft constraint by at most the `ν` with `2·√scale·ν·(ν + m) = |a - u|² - |a - v|² - |v - u|²`, so
`ν ≤ |a - u|²/(4·m·√scale)`. -/
theorem C118_margin {solver : Solver K} (hspec : SolverSpec solver) {f : S → List K} {g : S → List (List K)}
    {s s' : ASIFObj K S P X} (hs : ExplicitModule solver f g s) (hpos : ScalesPos s.constraints) (hen : s.enable = true)
    (hal : HasAlpha s.constraints) (x : S) (dt : K) (u v : List K)
    (hcall : explicitASIF solver f g s (.array x) dt u = (.ok v, s')) (a : List K) (ha : Admissible f g s x a)
    (q : String) (c : Constraint K S P) (w m : K) (hqc : (q, c) ∈ s.constraints) (hce : c.enabled = true)
    (hcw : c.slackPriorityScale = some w) (ham : BarrierOK f g c x a m) :
    2 * (HasSqrt.sqrt w * (violation f g c x v * (violation f g c x v + m))) ≤ sqDist a u - sqDist a v - sqDist v u ∧
      4 * (HasSqrt.sqrt w * (violation f g c x v * (violation f g c x v + m))) ≤ sqDist a u := by
  obtain ⟨hu, hv, hmin⟩ := soft_solved hspec hs hpos hen hal hcall ⟨a, admissible_firmOK ha⟩
  have lv : v.length = u.length := hv.len.trans hu.symm
  have la : a.length = u.length := ha.len.trans hu.symm
  have lva : v.length = a.length := lv.trans la.symm
  set ν := violation f g c x v with hν
  have hν0 : 0 ≤ ν := violation_nonneg f g c x v
  have hr : 0 < (HasSqrt.sqrt w : K) := hasSqrt_pos (hpos w (List.mem_filterMap.2 ⟨(q, c), hqc, hcw⟩))
  set r : K := HasSqrt.sqrt w with hrdef
  obtain ⟨l, l', hl⟩ := List.append_of_mem hqc
  have hrest : ∀ t : K, 0 ≤ t → t ≤ 1 → ∀ l0 : Dict (Constraint K S P), (∀ kc ∈ l0, kc ∈ s.constraints) →
      (l0.map fun kc => penalty HasSqrt.sqrt kc.2 (violation f g kc.2 x (mix t v a))).sum ≤
        (l0.map fun kc => penalty HasSqrt.sqrt kc.2 (violation f g kc.2 x v)).sum := by
    intro t h0 h1 l0 hl0
    refine List.sum_le_sum fun kc hkc => ?_
    by_cases he : kc.2.enabled = true
    · have hz : violation f g kc.2 x a = 0 := by
        have := violation_le (ha.barrier kc (hl0 kc hkc) he)
        have h1 := violation_nonneg f g kc.2 x a
        nlinarith
      have h2 := violation_mix f g kc.2 x h0 h1 lva
      have h3 := penalty_mix (scales_nonneg hpos kc (hl0 kc hkc)) h0 h1 (violation_nonneg f g kc.2 x (mix t v a)) h2
      rw [hz] at h3
      have h4 : penalty HasSqrt.sqrt kc.2 (0 : K) = 0 := by
        unfold penalty
        split <;> simp
      have h5 := penalty_nonneg (scales_nonneg hpos kc (hl0 kc hkc)) (violation f g kc.2 x v)
      rw [h4] at h3
      nlinarith
    · unfold penalty
      split <;> simp [he]
  have hD : 0 ≤ dot (vsub v u) (vsub a v) - r * (ν * (ν + m)) := by
    refine first_order (q := sqDist a v + r * ((ν + m) * (ν + m))) fun t h0 h1 => ?_
    have hle : softCost HasSqrt.sqrt (fun c y => violation f g c x y) s.constraints u v ≤
        softCost HasSqrt.sqrt (fun c y => violation f g c x y) s.constraints u (mix t v a) := by
      by_cases e : mix t v a = v
      · rw [e]
      · exact (hmin _ (firmOK_mix h0 h1 hv (admissible_firmOK ha)) e).le
    unfold softCost at hle
    rw [hl, List.map_append, List.map_append, List.map_cons, List.map_cons, List.sum_append, List.sum_append, List.sum_cons,
      List.sum_cons, sqDist_mix t lv la] at hle
    have h3 := hrest t h0 h1 l (fun kc h => by rw [hl]; simp [h])
    have h4 := hrest t h0 h1 l' (fun kc h => by rw [hl]; simp [h])
    have e1 : ∀ y, penalty HasSqrt.sqrt c y = r * (y * y) := fun y => by
      unfold penalty; rw [hcw]; simp [hce, hrdef]
    simp only [e1] at hle
    have h5 := violation_le (barrierOK_mix h0 h1 lva (violation_barrier (f := f) (g := g) (hal _ hqc hce) x v) ham)
    rw [← hν] at h5 hle
    have h6 := mul_le_mul_of_nonneg_left h5 hr.le
    have e2 : r * ((-ν + t * (m - -ν)) * (-ν + t * (m - -ν))) =
        r * (ν * ν) - 2 * t * (r * (ν * (ν + m))) + t ^ 2 * (r * ((ν + m) * (ν + m))) := by ring
    rw [e2] at h6
    have e3 : 2 * t * (dot (vsub v u) (vsub a v) - r * (ν * (ν + m))) + t ^ 2 * (sqDist a v + r * ((ν + m) * (ν + m))) =
      (2 * t * dot (vsub v u) (vsub a v) + t ^ 2 * sqDist a v) - 2 * t * (r * (ν * (ν + m))) + t ^ 2 * (r * ((ν + m) * (ν + m))) := by ring
    rw [e3]
    linarith
  have h1 := sqDist_mix 1 lv la
  rw [mix_full lva] at h1
  have h2 := dot_le_half (a := vsub v u) (b := vsub a v) (by simp [vsub, lv, la])
  have e4 : dot (vsub v u) (vsub v u) = sqDist v u := rfl
  have e5 : dot (vsub a v) (vsub a v) = sqDist a v := rfl
  rw [e4, e5] at h2
  constructor <;> linarith

/-- A bound `N` with `|a - u|² ≤ 4·√scale·N·(N + m)` bounds the violation. -/
theorem margin_le {r m ν N R : K} (hr : 0 < r) (hm : 0 ≤ m) (hN : 0 ≤ N) (h : 4 * (r * (ν * (ν + m))) ≤ R)
    (hR : R ≤ 4 * (r * (N * (N + m)))) : ν ≤ N := by
  by_contra hlt
  have hlt := not_le.1 hlt
  have h1 : N * (N + m) < ν * (ν + m) := by nlinarith
  have := mul_lt_mul_of_pos_left h1 hr
  linarith

/-- The condition of a constraint missed by at most `N`. -/
theorem barrier_of_violation {f : S → List K} {g : S → List (List K)} {c : Constraint K S P} (ha : c.alpha.isSome = true) {x : S}
    {v : List K} {N : K} (h : violation f g c x v ≤ N) : BarrierOK f g c x v (-N) := by
  obtain ⟨m, hm, hd⟩ := violation_barrier (f := f) (g := g) ha x v
  exact ⟨m, hm, by linarith⟩
end

/-! ### Explicit ASIF modules -/

/-- At every time the control is what an explicit ASIF module (after whatever history) with the soft constraint `c` of scale `w` returns
for the state and some desired control, and some control within squared distance `R` of the desired one satisfies every condition without
slack and that of `c` with `m` to spare. -/
structure SoftLoop (solver : Solver ℝ) (k : String) (c : Constraint ℝ (List ℝ) P) (D : Set (List ℝ)) (n : Nat)
    (f : List ℝ → List ℝ) (g : List ℝ → List (List ℝ)) (x u : ℝ → List ℝ) (w m R : ℝ) (X : Type) : Prop where
  grad : IsGradientOn D n (fun x => c.computeFn x c.params) (fun x => c.gradFn x c.params)
  motion : Trajectory D n f g x u
  enabled : c.enabled = true
  scale : c.slackPriorityScale = some w
  filtered : ∀ t, 0 ≤ t → ∃ (s s' : ASIFObj ℝ (List ℝ) P X) (dt : ℝ) (uDes a : List ℝ), ExplicitModule solver f g s ∧
    ScalesPos s.constraints ∧ s.enable = true ∧ HasAlpha s.constraints ∧ (k, c) ∈ s.constraints ∧ Admissible f g s (x t) a ∧
    BarrierOK f g c (x t) a m ∧ sqDist a uDes ≤ R ∧ explicitASIF solver f g s (.array (x t)) dt uDes = (.ok (u t), s')

/-- At all times the condition of the soft constraint is missed by at most `N`. -/
theorem soft_rate {solver : Solver ℝ} (hspec : SolverSpec solver) {k : String} {c : Constraint ℝ (List ℝ) P} {D : Set (List ℝ)}
    {n : Nat} {f : List ℝ → List ℝ} {g : List ℝ → List (List ℝ)} {x u : ℝ → List ℝ} {w m R N : ℝ}
    (h : SoftLoop solver k c D n f g x u w m R X) (hm : 0 ≤ m) (hN : 0 ≤ N) (hR : R ≤ 4 * (HasSqrt.sqrt w * (N * (N + m)))) {t : ℝ}
    (ht : 0 ≤ t) : BarrierOK f g c (x t) (u t) (-N) := by
  obtain ⟨s, s', dt, uDes, a, hs, hpos, hens, hal, hmem, hadm, ham, hle, hcall⟩ := h.filtered t ht
  have h1 := (C118_margin hspec hs hpos hens hal (x t) dt uDes (u t) hcall a hadm k c w m hmem h.enabled h.scale ham).2
  exact barrier_of_violation (hal _ hmem h.enabled)
    (margin_le (hasSqrt_pos (hpos w (List.mem_filterMap.2 ⟨(k, c), hmem, h.scale⟩))) hm hN (h1.trans hle) hR)

/-- **C118, loop.** If the strengthening term makes up for a violation of `N` below `-η`, where `R ≤ 4·√scale·N·(N + m)`, the value of
the soft constraint never falls below `-η`. -/
theorem C118_loop {solver : Solver ℝ} (hspec : SolverSpec solver) {k : String} {c : Constraint ℝ (List ℝ) P} {D : Set (List ℝ)}
    {n : Nat} {f : List ℝ → List ℝ} {g : List ℝ → List (List ℝ)} {x u : ℝ → List ℝ} {w m R N η : ℝ}
    (h : SoftLoop solver k c D n f g x u w m R X) (hm : 0 ≤ m) (hN : 0 ≤ N) (hR : R ≤ 4 * (HasSqrt.sqrt w * (N * (N + m))))
    {al : ℝ → ℝ} (ha : c.alpha = some al) (hneg : ∀ v < -η, strengthening c al v ≤ -N) (h0 : -η ≤ c.value (x 0)) :
    ∀ t, 0 ≤ t → -η ≤ c.value (x t) := by
  have key := stays_nonneg (h := fun t => c.value (x t) + η) (a := 0)
    (((along_cont h.motion h.grad).add continuousOn_const).add continuousOn_const)
    (fun t ht => ((along_deriv h.motion h.grad ht).add_const _).add_const _) (fun t ht hlt => ?_) (by linarith)
  · intro t ht
    have := key t ht
    linarith
  · obtain ⟨b, hb, hle⟩ := soft_rate hspec h hm hN hR ht
    simp only [barrierValue, ha, Option.map_some, Option.some.injEq] at hb
    have h1 := hneg (c.value (x t)) (by linarith)
    unfold Constraint.value at h1
    linarith

/-- **C118, recovery.** If it makes up for it with `κ > 0` to spare, a trajectory that starts at `h < -η` is back at `-η` after
`(-η - h) / κ` and stays there. -/
theorem C118_recovery {solver : Solver ℝ} (hspec : SolverSpec solver) {k : String} {c : Constraint ℝ (List ℝ) P} {D : Set (List ℝ)}
    {n : Nat} {f : List ℝ → List ℝ} {g : List ℝ → List (List ℝ)} {x u : ℝ → List ℝ} {w m R N η κ : ℝ}
    (h : SoftLoop solver k c D n f g x u w m R X) (hm : 0 ≤ m) (hN : 0 ≤ N) (hR : R ≤ 4 * (HasSqrt.sqrt w * (N * (N + m))))
    (hκ : 0 < κ) {al : ℝ → ℝ} (ha : c.alpha = some al) (hneg : ∀ v < -η, strengthening c al v ≤ -(N + κ))
    (h0 : c.value (x 0) < -η) : ∀ t, (-η - c.value (x 0)) / κ ≤ t → -η ≤ c.value (x t) := by
  have key := recovers (h := fun t => c.value (x t) + η) (a := 0) hκ
    (((along_cont h.motion h.grad).add continuousOn_const).add continuousOn_const)
    (fun t ht => ((along_deriv h.motion h.grad ht).add_const _).add_const _) (fun t ht hlt => ?_) (by linarith)
  · intro t ht
    have := key t (by rw [zero_add]; convert ht using 2; ring)
    linarith
  · obtain ⟨b, hb, hle⟩ := soft_rate hspec h hm hN hR ht
    simp only [barrierValue, ha, Option.map_some, Option.some.injEq] at hb
    have h1 := hneg (c.value (x t)) (by linarith)
    unfold Constraint.value at h1
    linarith

/-- **C118, `bias_negative`.** With a class-K strengthener, the default negative branch and `β = -bias_negative > 0`, a scale with
`R ≤ 4·√scale·β·(β + m)` lets the soft constraint never be violated. -/
theorem C118_bias {solver : Solver ℝ} (hspec : SolverSpec solver) {k : String} {c : Constraint ℝ (List ℝ) P} {D : Set (List ℝ)}
    {n : Nat} {f : List ℝ → List ℝ} {g : List ℝ → List (List ℝ)} {x u : ℝ → List ℝ} {w m R : ℝ}
    (h : SoftLoop solver k c D n f g x u w m R X) (hm : 0 ≤ m) {coefs : List ℝ} (hk : ClassKCoefs coefs)
    (ha : c.alpha = some (polyAlpha coefs)) (hnegb : c.alphaNeg = none) (hb : c.biasNegative ≤ 0)
    (hR : R ≤ 4 * (HasSqrt.sqrt w * (-c.biasNegative * (-c.biasNegative + m)))) (h0 : 0 ≤ c.value (x 0)) :
    ∀ t, 0 ≤ t → 0 ≤ c.value (x t) := by
  intro t ht
  have := C118_loop hspec h hm (neg_nonneg.2 hb) hR (η := 0) ha
    (fun v hv => (strengthening_neg hk hnegb (by linarith)).trans (by linarith)) (by linarith) t ht
  linarith

/-- **C118, without `bias_negative`.** A linear strengthener with slope `b` and its tenfold negative branch keep the value of the soft
constraint above `-N / (10 b)`; with `m > 0` to spare that margin is at most `R / (40·b·m·√scale)`. -/
theorem C118_linear {solver : Solver ℝ} (hspec : SolverSpec solver) {k : String} {c : Constraint ℝ (List ℝ) P} {D : Set (List ℝ)}
    {n : Nat} {f : List ℝ → List ℝ} {g : List ℝ → List (List ℝ)} {x u : ℝ → List ℝ} {w m R : ℝ}
    (h : SoftLoop solver k c D n f g x u w m R X) (hm : 0 ≤ m) {b : ℝ} (hb : 0 < b) (ha : c.alpha = some fun v => b * v)
    (hnegb : c.alphaNeg = none) (hbn : c.biasNegative ≤ 0) :
    (∀ N, 0 ≤ N → R ≤ 4 * (HasSqrt.sqrt w * (N * (N + m))) → -(N / (10 * b)) ≤ c.value (x 0) →
      ∀ t, 0 ≤ t → -(N / (10 * b)) ≤ c.value (x t)) ∧
    (0 < m → 0 < w → 0 ≤ R → 0 ≤ c.value (x 0) → ∀ t, 0 ≤ t → -(R / (40 * b * m * HasSqrt.sqrt w)) ≤ c.value (x t)) := by
  have key : ∀ N, 0 ≤ N → R ≤ 4 * (HasSqrt.sqrt w * (N * (N + m))) → -(N / (10 * b)) ≤ c.value (x 0) →
      ∀ t, 0 ≤ t → -(N / (10 * b)) ≤ c.value (x t) := by
    intro N hN hR h0
    have hq : N / (10 * b) * (10 * b) = N := by field_simp
    have hq0 : 0 ≤ N / (10 * b) := by positivity
    refine C118_loop hspec h hm hN hR ha (fun v hv => ?_) h0
    unfold strengthening
    rw [if_neg (by push Not; linarith), hnegb]
    simp only
    nlinarith
  refine ⟨key, fun hm' hw hR0 h0 => ?_⟩
  have hr : 0 < (HasSqrt.sqrt w : ℝ) := hasSqrt_pos hw
  have hN : 0 ≤ R / (4 * m * HasSqrt.sqrt w) := by positivity
  have e : R / (40 * b * m * HasSqrt.sqrt w) = R / (4 * m * HasSqrt.sqrt w) / (10 * b) := by field_simp; ring
  rw [e]
  refine key _ hN ?_ ?_
  · have e2 : 4 * (HasSqrt.sqrt w * (R / (4 * m * HasSqrt.sqrt w) * m)) = R := by field_simp
    have : 0 ≤ HasSqrt.sqrt w * (R / (4 * m * HasSqrt.sqrt w) * (R / (4 * m * HasSqrt.sqrt w))) := by positivity
    nlinarith
  · have : 0 ≤ R / (4 * m * HasSqrt.sqrt w) / (10 * b) := by positivity
    linarith

/-! ### Discrete ASIF modules -/

/-- **C118, discrete.** Let at every step the control be what a discrete ASIF module that raises on failed solves returns for the state,
its solver find global optima, some control within squared distance `R` of the desired one satisfy every condition without slack, and the
constraint's value at the true next state be at most `e` below that at the predicted one. If `R ≤ scale·N²` and one step of the
strengthener from a value of at least `-η` ends at `dt·N + e - η` or above, the value of the soft constraint never falls below `-η`. -/
theorem C118_discrete [Field K] [LinearOrder K] [IsStrictOrderedRing K] [HasSqrt K] [LawfulSqrt K] {solver : NLPSolver K}
    (hsound : NLPSound solver) (hglob : NLPGlobal solver) {next : S → K → List K → S} {k : String} {c : Constraint K S P} {al : K → K}
    {w : K} (hce : c.enabled = true) (hcs : c.slackPriorityScale = some w) (hal : c.alpha = some al) {dts : Nat → K}
    (hdt : ∀ n, 0 < dts n) {xs : Nat → S} {vs : Nat → List K} {R N e η : K} (hN : 0 ≤ N) (hR : R ≤ w * (N * N))
    (hloop : ∀ n, ∃ (s s' : DiscObj K S P) (uDes a : List K), DiscInv s ∧ ScalesPos s.constraints ∧ s.enable = true ∧
      s.ext.solverException = true ∧ HasAlpha s.constraints ∧ (k, c) ∈ s.constraints ∧ FirmOKD next s (xs n) (dts n) a ∧
      (∀ kc ∈ s.constraints, kc.2.enabled = true → DiscreteOK next kc.2 (xs n) (dts n) a 0) ∧ sqDist a uDes ≤ R ∧
      discreteASIF solver next s (.array (xs n)) (dts n) uDes = (.ok (vs n), s'))
    (hnext : ∀ n, hval c (next (xs n) (dts n) (vs n)) - e ≤ hval c (xs (n + 1)))
    (hstep : ∀ n v, -η ≤ v → dts n * N + e - η ≤ v - dts n * al v) (h0 : -η ≤ hval c (xs 0)) : ∀ n, -η ≤ hval c (xs n) := by
  intro n
  induction n with
  | zero => exact h0
  | succ n ih =>
    obtain ⟨s, s', uDes, a, hinv, hpos, hen, hexc, hala, hmem, hfa, has, hle, hcall⟩ := hloop n
    have hb := (C117_discrete_bound hsound hglob hinv hpos hen (hdt n) hexc hala hcall a hfa has).2 k c w hmem hce hcs
    have hw := hpos w (List.mem_filterMap.2 ⟨(k, c), hmem, hcs⟩)
    have hv0 := violationD_nonneg next c (xs n) (dts n) (vs n)
    have hs0 := sqDist_nonneg (vs n) uDes
    have hvN : violationD next c (xs n) (dts n) (vs n) ≤ N := by
      by_contra hlt
      have h1 := mul_lt_mul_of_pos_left (mul_self_lt_mul_self hN (not_le.1 hlt)) hw
      linarith
    have h2 : -(hval c (next (xs n) (dts n) (vs n)) - hval c (xs n)) / dts n - al (hval c (xs n)) ≤ N := by
      refine le_trans ?_ hvN
      unfold violationD
      rw [hal, Option.getD_some, neg_div]
      refine le_trans (le_of_eq ?_) (le_max_right _ _)
      ring
    have h3 := mul_le_mul_of_nonneg_left h2 (hdt n).le
    rw [mul_sub, mul_div_cancel₀ _ (hdt n).ne'] at h3
    have h4 := hstep n _ ih
    have h5 := hnext n
    linarith

/-- **C118, discrete, linear strengtheners.** With slope `b`, `dt b ≤ 1`, `R ≤ scale·N²` and no error of the prediction to the worse the
value of the soft constraint never falls below `-N / b`; a `bias` of at most `-N / b` makes up for it. -/
theorem C118_discrete_linear [Field K] [LinearOrder K] [IsStrictOrderedRing K] [HasSqrt K] [LawfulSqrt K] {solver : NLPSolver K}
    (hsound : NLPSound solver) (hglob : NLPGlobal solver) {next : S → K → List K → S} {k : String} {c : Constraint K S P} {b dt : K}
    {w : K} (hce : c.enabled = true) (hcs : c.slackPriorityScale = some w) (hb : 0 < b) (hal : c.alpha = some fun v => b * v)
    (hdt : 0 < dt) (hdb : dt * b ≤ 1) {xs : Nat → S} {vs : Nat → List K} {R N : K} (hN : 0 ≤ N) (hR : R ≤ w * (N * N))
    (hloop : ∀ n, ∃ (s s' : DiscObj K S P) (uDes a : List K), DiscInv s ∧ ScalesPos s.constraints ∧ s.enable = true ∧
      s.ext.solverException = true ∧ HasAlpha s.constraints ∧ (k, c) ∈ s.constraints ∧ FirmOKD next s (xs n) dt a ∧
      (∀ kc ∈ s.constraints, kc.2.enabled = true → DiscreteOK next kc.2 (xs n) dt a 0) ∧ sqDist a uDes ≤ R ∧
      discreteASIF solver next s (.array (xs n)) dt uDes = (.ok (vs n), s'))
    (hnext : ∀ n, hval c (next (xs n) dt (vs n)) ≤ hval c (xs (n + 1))) (h0 : -(N / b) ≤ hval c (xs 0)) :
    (∀ n, -(N / b) ≤ hval c (xs n)) ∧ (N / b ≤ -c.bias → ∀ n, 0 ≤ c.computeFn (xs n) c.params) := by
  have key := C118_discrete hsound hglob (dts := fun _ => dt) hce hcs hal (fun _ => hdt) hN hR hloop (e := 0)
    (fun n => by have := hnext n; linarith) (fun _ v hv => ?_) h0
  · refine ⟨key, fun hbb n => ?_⟩
    have := key n
    unfold hval at this
    linarith
  · have h1 := mul_le_mul_of_nonneg_left hv (show 0 ≤ 1 - dt * b by linarith)
    have e1 : v - dt * (b * v) = (1 - dt * b) * v := by ring
    have e2 : dt * b * (N / b) = dt * N := by field_simp
    rw [e1]
    nlinarith

/-! ### Without `bias_negative` -/

/-- The constraint `x ≥ 0` with scale `w`. -/
noncomputable def softLineC (al : ℝ → ℝ) (b w : ℝ) : Constraint ℝ (List ℝ) ℝ := { lineC al b with slackPriorityScale := some w }

/-- The module with this constraint for the system `x' = u`. -/
noncomputable def softLineObj (al : ℝ → ℝ) (b w : ℝ) : ASIFObj ℝ (List ℝ) ℝ Unit :=
  { toBase := Base.init none none
    constraints := [("c", softLineC al b w)], params := [("c", (softLineC al b w).params)], constraintEnabled := [("c", true)]
    constraintValues := [], isStaleConstraints := false
    ext := { epsilon := 1 / 100, controlDim := 1, solverException := false, numSlack := (slackWeights [("c", softLineC al b w)]).length
             objWeight := [1] ++ slackWeights [("c", softLineC al b w)]
             constraintNames := ["c"], actuation := [], direct := [], directParams := [], directEnabled := [], causing := none
             extra := () } }

theorem softLine_module (solver : Solver ℝ) (al : ℝ → ℝ) (b w : ℝ) :
    ExplicitModule solver (fun _ => [0]) (fun _ => [[1]]) (softLineObj al b w) :=
  ⟨none, none, [("c", softLineC al b w)], none, 1 / 100, 1, false, [], (), softLineObj al b w, [], by simp [dictKeys],
    by simp [dictKeys], rfl, rfl⟩

theorem softLine_pos (al : ℝ → ℝ) (b : ℝ) {w : ℝ} (hw : 0 < w) : ScalesPos (softLineObj al b w).constraints := by
  have e : slackScales (softLineObj al b w).constraints = [w] := rfl
  intro v hv
  rw [e, List.mem_singleton] at hv
  rw [hv]; exact hw

theorem softLine_barrier (al : ℝ → ℝ) (b w x u : ℝ) : barrierValue (fun _ => [0]) (fun _ => [[1]]) (softLineC al b w) [x] [u] =
    some (u + strengthening (softLineC al b w) al x) := line_barrier al b x u

theorem softLine_shapes (al : ℝ → ℝ) (b w x : ℝ) : ShapesOK (fun _ => [0]) (fun _ => [[1]]) (softLineObj al b w) [x] :=
  ⟨by simp [softLineObj, softLineC, lineC], by simp [softLineObj, softLineC, lineC, posC, minLimit, Constraint.mk', gradAt], rfl,
    by simp [softLineObj], by simp [softLineObj]⟩

theorem softLine_alpha (al : ℝ → ℝ) (b w : ℝ) : HasAlpha (softLineObj al b w).constraints := by
  intro kc hkc _
  simp only [softLineObj, List.mem_singleton] at hkc
  subst hkc; rfl

theorem softLine_firm (al : ℝ → ℝ) (b w x r : ℝ) : FirmOK (fun _ => [0]) (fun _ => [[1]]) (softLineObj al b w) [x] [r] := by
  refine ⟨rfl, fun i v hv => ⟨fun l h => ?_, fun l h => ?_⟩, fun kc hkc _ hn => ?_, by simp [softLineObj]⟩
  · simp [softLineObj, Base.init, boundAt] at h
  · simp [softLineObj, Base.init, boundAt] at h
  · simp only [softLineObj, List.mem_singleton] at hkc
    subst hkc
    simp [softLineC] at hn

theorem softLine_admissible {al : ℝ → ℝ} {b w x r : ℝ} (h : 0 ≤ r + strengthening (softLineC al b w) al x) :
    Admissible (fun _ => [0]) (fun _ => [[1]]) (softLineObj al b w) [x] [r] := by
  have hf := softLine_firm al b w x r
  refine ⟨hf.len, hf.bounds, fun kc hkc _ => ?_, hf.direct⟩
  simp only [softLineObj, List.mem_singleton] at hkc
  subst hkc
  exact ⟨_, softLine_barrier al b w x r, h⟩

/-- Where the desired control `-1` misses the condition `u + y ≥ 0`, the answer is `-(1 + √w·y)/(1 + √w)`. -/
theorem softLine_call {al : ℝ → ℝ} {b w x y : ℝ} (hw : 0 < w) (hy : strengthening (softLineC al b w) al x = y) (hy1 : y ≤ 1) :
    ∃ s', explicitASIF refSolver (fun _ => [0]) (fun _ => [[1]]) (softLineObj al b w) (.array [x]) 1 [-1] =
      (.ok [-((1 + HasSqrt.sqrt w * y) / (1 + HasSqrt.sqrt w))], s') := by
  obtain ⟨v, hv⟩ := C117_returns refSolver_spec (softLine_module refSolver al b w) (softLine_pos al b hw) rfl [x]
    (softLine_shapes al b w x) 1 [-1] rfl ⟨[0], softLine_firm al b w x 0⟩
  have hcall : explicitASIF refSolver (fun _ => [0]) (fun _ => [[1]]) (softLineObj al b w) (.array [x]) 1 [-1] =
    (.ok v, (explicitASIF refSolver (fun _ => [0]) (fun _ => [[1]]) (softLineObj al b w) (.array [x]) 1 [-1]).2) := Prod.ext hv rfl
  obtain ⟨hf, hmin⟩ := C117_penalty refSolver_spec (softLine_module refSolver al b w) (softLine_pos al b hw) rfl (softLine_alpha al b w)
    [x] 1 [-1] v hcall ⟨[0], softLine_firm al b w x 0⟩
  have hr : 0 < (HasSqrt.sqrt w : ℝ) := hasSqrt_pos hw
  set r : ℝ := HasSqrt.sqrt w with hrdef
  suffices e : v = [-((1 + r * y) / (1 + r))] by rw [← e]; exact ⟨_, hcall⟩
  have hden : (1 + r) * ((1 + r * y) / (1 + r)) = 1 + r * y := by field_simp
  set p : ℝ := (1 + r * y) / (1 + r) with hpdef
  have hpy : y ≤ p := by
    rw [hpdef, le_div_iff₀ (by linarith)]; nlinarith
  have hcost : ∀ a : ℝ, softCost HasSqrt.sqrt (fun c u => violation (fun _ => [0]) (fun _ => [[1]]) c [x] u)
      (softLineObj al b w).constraints [-1] [a] = (a + 1) * (a + 1) + r * (max 0 (-(a + y)) * max 0 (-(a + y))) := by
    intro a
    have e1 : (softLineObj al b w).constraints = [("c", softLineC al b w)] := rfl
    have e2 : violation (fun _ => [0]) (fun _ => [[1]]) (softLineC al b w) [x] [a] = max 0 (-(a + y)) := by
      unfold violation
      rw [softLine_barrier, Option.getD_some, hy]
    have e3 : penalty HasSqrt.sqrt (softLineC al b w) (max 0 (-(a + y))) = r * (max 0 (-(a + y)) * max 0 (-(a + y))) := by
      simp [penalty, softLineC, lineC, posC, minLimit, Constraint.mk', hrdef]
    unfold softCost
    rw [e1, List.map_cons, List.map_nil, List.sum_cons, List.sum_nil, add_zero]
    simp only [e2, e3, sqDist_one]
    ring
  obtain ⟨a, rfl⟩ := List.length_eq_one_iff.1 (show v.length = 1 from hf.len)
  by_contra hne
  have := hmin [-p] (softLine_firm al b w x (-p)) (fun e => hne (by rw [e]))
  rw [hcost, hcost, max_eq_right (show 0 ≤ -(-p + y) by linarith)] at this
  have hmx : -(a + y) ≤ max 0 (-(a + y)) := le_max_right _ _
  set M := max 0 (-(a + y)) with hM
  have e1 : r * (p - y) = 1 - p := by nlinarith
  have h1 : 0 ≤ r * ((M - (p - y)) * (M - (p - y))) := mul_nonneg hr.le (mul_self_nonneg _)
  have h2 : 0 ≤ r * (p - y) * (M + (a + y)) := mul_nonneg (mul_nonneg hr.le (by linarith)) (by linarith)
  have e2 : r * (p - y) * (M + (a + y)) = (1 - p) * (M + (a + y)) := by rw [e1]
  have e3 : r * ((M - (p - y)) * (M - (p - y))) = r * (M * M) - 2 * (r * (p - y)) * M + r * (p - y) * (p - y) := by ring
  rw [e3, e1] at h1
  rw [e2] at h2
  have e4 : r * (-(-p + y) * -(-p + y)) = (1 - p) * (p - y) := by
    have : r * (-(-p + y) * -(-p + y)) = r * (p - y) * (p - y) := by ring
    rw [this, e1]
  rw [e4] at this
  nlinarith [mul_self_nonneg (a + p)]

theorem softLine_value (al : ℝ → ℝ) (b w y : ℝ) : (softLineC al b w).value [y] = y := line_value al b y

/-- **C118, `bias_negative` is needed.** Without it, for every slope of the strengthener and every scale there is a trajectory along which
the control is at all times the exact answer of the module for the desired control `-1`, on which a control that satisfies every condition
exists at all times, and which starts with the soft constraint satisfied and violates it at all later times: it approaches
`-1/(10·b·√scale)`. -/
theorem C118_bias_needed {w b : ℝ} (hw : 0 < w) (hb : 0 < b) : ∃ x u : ℝ → List ℝ,
    SoftLoop refSolver "c" (softLineC (fun v => b * v) 0 w) univ 1 (fun _ => [0]) (fun _ => [[1]]) x u w 0
      ((1 + 1 / HasSqrt.sqrt w) * (1 + 1 / HasSqrt.sqrt w)) Unit ∧
    (softLineC (fun v => b * v) 0 w).value (x 0) = 0 ∧ (∀ t, 0 < t → (softLineC (fun v => b * v) 0 w).value (x t) < 0) ∧
    ∀ η, η < 1 / (10 * b * HasSqrt.sqrt w) → ∃ t, 0 ≤ t ∧ (softLineC (fun v => b * v) 0 w).value (x t) < -η := by
  have hr : 0 < (HasSqrt.sqrt w : ℝ) := hasSqrt_pos hw
  set r : ℝ := HasSqrt.sqrt w with hrdef
  obtain ⟨q, hq, hq0⟩ : ∃ q, q * (10 * b * r) = 1 ∧ 0 < q := ⟨1 / (10 * b * r), by field_simp, by positivity⟩
  have hqe : 1 / (10 * b * r) = q := by rw [← hq]; field_simp
  obtain ⟨l, hl, hl0⟩ : ∃ l, l * (1 + r) = 10 * b * r ∧ 0 < l := ⟨10 * b * r / (1 + r), by field_simp, by positivity⟩
  have hexp : ∀ t : ℝ, HasDerivAt (fun t : ℝ => Real.exp (-(l * t))) (Real.exp (-(l * t)) * (-l)) t := fun t => by
    have := (((hasDerivAt_id t).const_mul l).neg).exp
    simpa using this
  have hle : ∀ t, 0 ≤ t → Real.exp (-(l * t)) ≤ 1 := fun t ht => Real.exp_le_one_iff.2 (by nlinarith [mul_nonneg hl0.le ht])
  have hst : ∀ v : ℝ, v ≤ 0 → strengthening (softLineC (fun v => b * v) 0 w) (fun v => b * v) v = 10 * b * v := by
    intro v hv
    unfold strengthening
    split
    · rename_i h
      have : v = 0 := le_antisymm hv h
      rw [this]; ring
    · simp [softLineC, lineC, posC, minLimit, Constraint.mk']; ring
  refine ⟨fun t => [-q * (1 - Real.exp (-(l * t)))], fun t => [-q * (l * Real.exp (-(l * t)))], ⟨posC_grad, single_trajectory (fun t => ?_),
    rfl, rfl, fun t ht => ?_⟩, ?_, fun t ht => ?_, fun η hη => ?_⟩
  · exact (((hexp t).const_sub 1).const_mul (-q)).congr_deriv (by ring)
  · have hx : -q * (1 - Real.exp (-(l * t))) ≤ 0 := by nlinarith [hle t ht]
    have he0 := Real.exp_pos (-(l * t))
    have he1 := hle t ht
    obtain ⟨s', hc⟩ := softLine_call hw (hst _ hx) (by nlinarith [mul_nonneg hb.le (neg_nonneg.2 hx)])
    set e := Real.exp (-(l * t)) with hedef
    have hqb : 10 * b * q = 1 / r := by rw [eq_div_iff hr.ne']; linarith
    refine ⟨softLineObj (fun v => b * v) 0 w, s', 1, [-1], [1 / r * (1 - e)], softLine_module _ _ _ _, softLine_pos _ _ hw, rfl,
      softLine_alpha _ _ _, by simp [softLineObj], softLine_admissible ?_, ⟨_, softLine_barrier _ _ _ _ _, ?_⟩, ?_, ?_⟩
    · rw [hst _ hx, ← hqb]; nlinarith
    · rw [hst _ hx, ← hqb]; nlinarith
    · rw [sqDist_one]
      have h1 : 0 < 1 / r := by positivity
      have h2 : 1 / r * (1 - e) ≤ 1 / r := by nlinarith
      have h3 : 0 ≤ 1 / r * (1 - e) := mul_nonneg h1.le (by linarith)
      nlinarith
    · rw [hc]
      congr 3
      have h1 : q * l * (1 + r) = 1 := by rw [mul_assoc, hl, hq]
      have h2 : r * (10 * b * (-q * (1 - e))) = -(1 - e) := by
        have : r * (10 * b * (-q * (1 - e))) = -(q * (10 * b * r)) * (1 - e) := by ring
        rw [this, hq]; ring
      rw [h2]
      have h3 : (1 + -(1 - e)) / (1 + r) = q * l * e := by
        rw [div_eq_iff (by linarith)]
        have : q * l * e * (1 + r) = (q * l * (1 + r)) * e := by ring
        rw [this, h1]; ring
      rw [h3]; ring
  · rw [softLine_value]; simp
  · rw [softLine_value]
    have : Real.exp (-(l * t)) < 1 := Real.exp_lt_one_iff.2 (by nlinarith [mul_pos hl0 ht])
    nlinarith
  · rw [hqe] at hη
    have hp : 0 < (q - η) / q := div_pos (by linarith) hq0
    set z := (q - η) / q with hz
    have hrq : z * q = q - η := by rw [hz]; field_simp
    refine ⟨1 / z / l, by positivity, ?_⟩
    rw [softLine_value]
    have e : l * (1 / z / l) = 1 / z := by field_simp
    rw [e]
    have h1 : 1 / z + 1 ≤ Real.exp (1 / z) := Real.add_one_le_exp _
    have h3 : Real.exp (-(1 / z)) < z := by
      rw [Real.exp_neg, inv_lt_comm₀ (Real.exp_pos _) hp]
      rw [one_div] at h1 ⊢
      linarith
    nlinarith

/-! ### Examples -/

/-- C118 (one call and loop, `bias_negative`): `x' = u` with desired control `-x`, which keeps the condition at all times; control `1`
keeps it with 1 to spare and is within 4 of it, so a scale of 10000 makes up for the default `bias_negative` of `-0.01`. -/
example : ∀ t : ℝ, 0 ≤ t → 0 ≤ (softLineC (polyAlpha [0, 1]) (-1 / 100) 10000).value [Real.exp (-t)] := by
  have hst : ∀ v : ℝ, 0 ≤ v → strengthening (softLineC (polyAlpha [0, 1]) (-1 / 100) 10000) (polyAlpha [0, 1]) v = v := by
    intro v hv
    unfold strengthening
    rw [if_pos hv]
    simp [polyAlpha, polyLoop]
  have hs0 : (100 : ℝ) ≤ HasSqrt.sqrt (10000 : ℝ) := by
    have h1 := LawfulSqrt.nonneg (10000 : ℝ) (by norm_num)
    have h2 := LawfulSqrt.mul_self (10000 : ℝ) (by norm_num)
    nlinarith
  have h : SoftLoop refSolver "c" (softLineC (polyAlpha [0, 1]) (-1 / 100) 10000) univ 1 (fun _ => [0]) (fun _ => [[1]])
      (fun t => [Real.exp (-t)]) (fun t => [-Real.exp (-t)]) 10000 1 4 Unit := by
    refine ⟨posC_grad, single_trajectory (fun t => ?_), rfl, rfl, fun t ht => ?_⟩
    · have := ((hasDerivAt_id t).neg).exp
      simpa using this
    · have he0 := Real.exp_pos (-t)
      have he1 : Real.exp (-t) ≤ 1 := Real.exp_le_one_iff.2 (by linarith)
      have hz := hst _ he0.le
      have hadm : Admissible (fun _ => [0]) (fun _ => [[1]]) (softLineObj (polyAlpha [0, 1]) (-1 / 100) 10000) [Real.exp (-t)]
        [-Real.exp (-t)] := softLine_admissible (by rw [hz]; linarith)
      obtain ⟨h1, -⟩ := C25_no_interference refSolver_spec (softLine_module _ _ _ _) (softLine_pos _ _ (by norm_num))
        (show (0 : ℝ) ≤ 1 / 100 by norm_num) rfl [Real.exp (-t)] (softLine_shapes _ _ _ _) 1 [-Real.exp (-t)] hadm
      refine ⟨_, _, 1, [-Real.exp (-t)], [1], softLine_module _ _ _ _, softLine_pos _ _ (by norm_num), rfl, softLine_alpha _ _ _,
        by simp [softLineObj], softLine_admissible (by rw [hz]; linarith), ⟨_, softLine_barrier _ _ _ _ _, by rw [hz]; linarith⟩, ?_,
        Prod.ext h1 rfl⟩
      rw [sqDist_one]
      nlinarith
  refine C118_bias refSolver_spec h zero_le_one classK_one rfl rfl (show (-1 / 100 : ℝ) ≤ 0 by norm_num) ?_ ?_
  · show (4 : ℝ) ≤ 4 * (HasSqrt.sqrt 10000 * (-(-1 / 100) * (-(-1 / 100) + 1)))
    linarith
  · rw [softLine_value]
    exact (Real.exp_pos _).le

/-- C118 (without `bias_negative`): for the trajectory of `C118_bias_needed` with slope 1 and scale 1, that approaches `-1/10`, the theorem
bounds the value by `-1/10` as well, since `(1 + 1)² = 4·1·1²`. -/
example : ∃ x u : ℝ → List ℝ, SoftLoop refSolver "c" (softLineC (fun v => 1 * v) 0 1) univ 1 (fun _ => [0]) (fun _ => [[1]]) x u 1 0
      ((1 + 1 / HasSqrt.sqrt 1) * (1 + 1 / HasSqrt.sqrt 1)) Unit ∧
    (∀ t, 0 < t → (softLineC (fun v => 1 * v) 0 1).value (x t) < 0) ∧
    ∀ t, 0 ≤ t → -(1 / (10 * 1)) ≤ (softLineC (fun v => 1 * v) 0 1).value (x t) := by
  have hs : (HasSqrt.sqrt 1 : ℝ) = 1 := by
    have h1 := LawfulSqrt.nonneg (1 : ℝ) (by norm_num)
    have h2 := LawfulSqrt.mul_self (1 : ℝ) (by norm_num)
    nlinarith
  obtain ⟨x, u, h, h0, hlt, -⟩ := C118_bias_needed (w := 1) (b := 1) one_pos one_pos
  refine ⟨x, u, h, hlt, (C118_linear refSolver_spec h le_rfl one_pos rfl rfl le_rfl).1 1 zero_le_one ?_ ?_⟩
  · rw [hs]; norm_num
  · rw [h0]; norm_num

/-- C118 (discrete): the module of `x⁺ = x + dt u` with scale 4 and desired control `-1` answers `-1/5` at 0, which predicts `-1/10`;
something puts the state back to 0 each time. -/
example : ∀ n : ℕ, -(1 / 2) ≤ hval (softC 4) ((fun _ => 0 : ℕ → ℝ) n) := by
  obtain ⟨s', h⟩ := soft_call (w := 4) (by norm_num)
  refine C118_discrete refNLP_sound refNLP_global (next := stepNext) (k := "a") (al := id) (w := 4) (dts := fun _ => 1 / 2)
    (vs := fun _ => [-(1 / (1 + 4))]) (R := 1) (N := 1 / 2) (e := 0) rfl rfl rfl (fun _ => by norm_num) (by norm_num) (by norm_num)
    (fun _ => ?_) (fun _ => ?_) (fun _ v hv => ?_) ?_
  · have hz : ∀ kc ∈ (softObj 4).constraints, kc.2.enabled = true → DiscreteOK stepNext kc.2 0 (1 / 2) [0] 0 := by
      intro kc hkc _
      simp only [softObj, List.mem_singleton] at hkc
      subst hkc
      exact ⟨id, rfl, by simp [hval, softC, stepNext]⟩
    refine ⟨softObj 4, s', [-1], [0], soft_inv 4, soft_pos (by norm_num), rfl, rfl, soft_alpha 4, by simp [softObj],
      ⟨rfl, ?_, fun kc hkc he _ => hz kc hkc he⟩, hz, by simp [sqDist, sqNorm, vsub, dot], h⟩
    intro i v hv
    rcases i with _ | i
    · simp at hv
      subst hv
      constructor <;> intro b hb <;> simp [softObj, Base.init, boundAt] at hb <;> subst hb <;> norm_num
    · simp at hv
  · simp [hval, softC, stepNext]
    norm_num
  · simp only [id]; linarith
  · simp [hval, softC]

end RTA
