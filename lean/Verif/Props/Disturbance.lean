import Verif.Spec.Disturbance
import Verif.Props.Tolerance
import Verif.Props.Discrete
import Verif.Props.ClosedLoop

/-!
C101: disturbances of the system, errors of the model and errors of the state estimate cost as much safety as they are large, and
nothing where `bias_negative` and `bias` make up for them.
-/
namespace RTA
open Set
variable {K S P X A : Type}

/-! ### Along disturbed trajectories -/

theorem disturbed_cont {D : Set (List ℝ)} {n : Nat} {f : List ℝ → List ℝ} {g : List ℝ → List (List ℝ)} {x u w : ℝ → List ℝ}
    (ht : Disturbed D n f g x u w) {h : List ℝ → ℝ} {grad : List ℝ → List ℝ} (hg : IsGradientOn D n h grad) :
    ContinuousOn (fun t => h (x t)) (Ici 0) := hg.cont _ x ht.curve ht.cont

theorem disturbed_deriv {D : Set (List ℝ)} {n : Nat} {f : List ℝ → List ℝ} {g : List ℝ → List (List ℝ)} {x u w : ℝ → List ℝ}
    (ht : Disturbed D n f g x u w) {h : List ℝ → ℝ} {grad : List ℝ → List ℝ} (hg : IsGradientOn D n h grad) {t : ℝ} (h0 : 0 ≤ t) :
    HasDerivWithinAt (fun s => h (x s)) (dot (grad (x t)) (vadd (vadd (f (x t)) (matVec (g (x t)) (u t))) (w t))) (Ici t) t := by
  refine hg.deriv (Ici t) x _ t self_mem_Ici (fun s hs => ht.curve s (le_trans h0 hs)) ?_ fun i hi => ?_
  · rw [vadd_length _ _ ((ht.len t h0).trans (ht.wlen t h0).symm), ht.wlen t h0]
  · rw [getD_vadd' ((ht.len t h0).trans (ht.wlen t h0).symm)]
    exact ht.deriv t h0 i hi

/-- A disturbance whose entries are at most `W` changes the rate of a constraint by at most `W` times the sum of the absolute values
of its partial derivatives. -/
theorem dot_disturbed {W : ℝ} (hW : 0 ≤ W) (r : List ℝ) {v w : List ℝ} (hl : v.length = w.length) (hw : ∀ i, |w.getD i 0| ≤ W) :
    dot r v - W * oneNorm r ≤ dot r (vadd v w) := by
  refine dot_near_le hW r ((vadd_length _ _ hl).trans hl.symm) fun i => ?_
  rw [getD_vadd' hl]
  simpa using hw i

/-! ### Explicit ASIF modules -/

/-- What the true system and the module that filters for it have in common. At every time the control is what an explicit ASIF module
(after whatever history, for whatever desired control) returns for an estimate `y t` of the state `x t`; `W` bounds the disturbance, `L`
the sum of the absolute partial derivatives of the constraint, `B` the influence of the control on it (if the solver has a tolerance
`ε > 0`), `E₁` the error the estimate
causes in the rate of the constraint and `E₂` the error it causes in its value. -/
structure RobustLoop (solver : Solver ℝ) (k : String) (c : Constraint ℝ (List ℝ) P) (D : Set (List ℝ)) (n : Nat)
    (f : List ℝ → List ℝ) (g : List ℝ → List (List ℝ)) (x y u w : ℝ → List ℝ) (ε W L B E₁ E₂ : ℝ) (X : Type) : Prop where
  grad : IsGradientOn D n (fun x => c.computeFn x c.params) (fun x => c.gradFn x c.params)
  motion : Disturbed D n f g x u w
  enabled : c.enabled = true
  noSlack : c.slackPriorityScale = none
  disturbance : ∀ t, 0 ≤ t → ∀ i, |(w t).getD i 0| ≤ W
  slope : ∀ t, 0 ≤ t → oneNorm (c.gradFn (x t) c.params) ≤ L
  rate : ∀ t, 0 ≤ t → dot (c.gradFn (y t) c.params) (vadd (f (y t)) (matVec (g (y t)) (u t))) - E₁ ≤
    dot (c.gradFn (x t) c.params) (vadd (f (x t)) (matVec (g (x t)) (u t)))
  value : ∀ t, 0 ≤ t → c.value (y t) ≤ c.value (x t) + E₂
  filtered : ∀ t, 0 ≤ t → ∃ (s s' : ASIFObj ℝ (List ℝ) P X) (dt : ℝ) (uDes : List ℝ), ExplicitModule solver f g s ∧
    ScalesPos s.constraints ∧ BoundsConsistent s.controlBoundsLow s.controlBoundsHigh ∧ s.enable = true ∧
    (k, c) ∈ s.constraints ∧ ShapesOK f g s (y t) ∧ ε * authority g s.ext.controlDim c (y t) ≤ ε * B ∧
    (s.ext.solverException = true ∨ ∃ w d, AdmissibleBy (-ε) f g s (y t) w d) ∧
    explicitASIF solver f g s (.array (y t)) dt uDes = (.ok (u t), s')

/-- While the value is below `-η`, its rate is at least `κ`. -/
theorem robust_rate {ε δ W L B E₁ E₂ η κ : ℝ} (hε : 0 ≤ ε) (hW : 0 ≤ W) {solver : Solver ℝ} (hspec : SolverTol ε δ solver) {k : String}
    {c : Constraint ℝ (List ℝ) P} {D : Set (List ℝ)} {n : Nat} {f : List ℝ → List ℝ} {g : List ℝ → List (List ℝ)}
    {x y u w : ℝ → List ℝ} (h : RobustLoop solver k c D n f g x y u w ε W L B E₁ E₂ X) {al : ℝ → ℝ} (ha : c.alpha = some al)
    (hneg : ∀ v < E₂ - η, strengthening c al v ≤ -(ε * (1 + B) + W * L + E₁ + κ)) {t : ℝ} (ht : 0 ≤ t) (hlt : c.value (x t) < -η) :
    κ ≤ dot (c.gradFn (x t) c.params) (vadd (vadd (f (x t)) (matVec (g (x t)) (u t))) (w t)) := by
  obtain ⟨s, s', dt, uDes, hs, hpos, hcons, hens, hmem, hsh, hB, hsol, hcall⟩ := h.filtered t ht
  obtain ⟨-, d, -, hbar, -⟩ := C98_conditions hε hspec hs hpos hcons hens hsh hcall hsol
  obtain ⟨m, hm, hle⟩ := hbar (c, 0) (assignSlack_zero d hmem h.noSlack) h.enabled
  simp only [barrierValue, ha, Option.map_some, Option.some.injEq] at hm
  have h1 := hneg (c.value (y t)) (by have := h.value t ht; linarith)
  unfold Constraint.value at h1
  have h2 := hB
  have h3 := h.rate t ht
  have h4 := dot_disturbed hW (c.gradFn (x t) c.params) ((h.motion.len t ht).trans (h.motion.wlen t ht).symm) (h.disturbance t ht)
  have h5 := mul_le_mul_of_nonneg_left (h.slope t ht) hW
  simp only at hle
  linarith

/-- **C101, loop.** If the strengthening term makes up for all errors below `E₂ - η`, the value of an enabled constraint without slack
never falls below `-η` along the true trajectory. -/
theorem C101_loop {ε δ W L B E₁ E₂ η : ℝ} (hε : 0 ≤ ε) (hW : 0 ≤ W) {solver : Solver ℝ} (hspec : SolverTol ε δ solver) {k : String}
    {c : Constraint ℝ (List ℝ) P} {D : Set (List ℝ)} {n : Nat} {f : List ℝ → List ℝ} {g : List ℝ → List (List ℝ)}
    {x y u w : ℝ → List ℝ} (h : RobustLoop solver k c D n f g x y u w ε W L B E₁ E₂ X) {al : ℝ → ℝ} (ha : c.alpha = some al)
    (hneg : ∀ v < E₂ - η, strengthening c al v ≤ -(ε * (1 + B) + W * L + E₁)) (h0 : -η ≤ c.value (x 0)) :
    ∀ t, 0 ≤ t → -η ≤ c.value (x t) := by
  have key := stays_nonneg (h := fun t => c.value (x t) + η) (a := 0)
    (((disturbed_cont h.motion h.grad).add continuousOn_const).add continuousOn_const)
    (fun t ht => ((disturbed_deriv h.motion h.grad ht).add_const _).add_const _)
    (fun t ht hlt => robust_rate hε hW hspec h ha (κ := 0) (by simpa using hneg) ht (by linarith)) (by linarith)
  intro t ht
  have := key t ht
  linarith

/-- **C101, recovery.** If it makes up for them with `κ > 0` to spare, a trajectory that starts at `h < -η` is back at `-η` after
`(-η - h) / κ` and stays there. -/
theorem C101_recovery {ε δ W L B E₁ E₂ η κ : ℝ} (hε : 0 ≤ ε) (hW : 0 ≤ W) (hκ : 0 < κ) {solver : Solver ℝ}
    (hspec : SolverTol ε δ solver) {k : String} {c : Constraint ℝ (List ℝ) P} {D : Set (List ℝ)} {n : Nat} {f : List ℝ → List ℝ}
    {g : List ℝ → List (List ℝ)} {x y u w : ℝ → List ℝ} (h : RobustLoop solver k c D n f g x y u w ε W L B E₁ E₂ X) {al : ℝ → ℝ}
    (ha : c.alpha = some al) (hneg : ∀ v < E₂ - η, strengthening c al v ≤ -(ε * (1 + B) + W * L + E₁ + κ))
    (h0 : c.value (x 0) < -η) : ∀ t, (-η - c.value (x 0)) / κ ≤ t → -η ≤ c.value (x t) := by
  have key := recovers (h := fun t => c.value (x t) + η) (a := 0) hκ
    (((disturbed_cont h.motion h.grad).add continuousOn_const).add continuousOn_const)
    (fun t ht => ((disturbed_deriv h.motion h.grad ht).add_const _).add_const _)
    (fun t ht hlt => robust_rate hε hW hspec h ha hneg ht (by linarith)) (by linarith)
  intro t ht
  have := key t (by rw [zero_add]; convert ht using 2; ring)
  linarith

theorem strengthening_neg {c : Constraint ℝ (List ℝ) P} {coefs : List ℝ} (hk : ClassKCoefs coefs) (hnegb : c.alphaNeg = none) {v : ℝ}
    (hv : v < 0) : strengthening c (polyAlpha coefs) v ≤ c.biasNegative := by
  unfold strengthening
  rw [if_neg (not_le.2 hv), hnegb]
  have := (C33_sign coefs hk v).1 hv
  simp only
  linarith

/-- **C101, `bias_negative` and `bias`.** With a class-K strengthener and the default negative branch, errors that are together at most
`-bias_negative` are made up for up to the error of the estimate, and a `bias` of at most minus that error makes up for the rest: the
quantity the constraint is about never becomes negative. -/
theorem C101_bias {ε δ W L B E₁ E₂ : ℝ} (hε : 0 ≤ ε) (hW : 0 ≤ W) {solver : Solver ℝ} (hspec : SolverTol ε δ solver) {k : String}
    {c : Constraint ℝ (List ℝ) P} {D : Set (List ℝ)} {n : Nat} {f : List ℝ → List ℝ} {g : List ℝ → List (List ℝ)}
    {x y u w : ℝ → List ℝ} (h : RobustLoop solver k c D n f g x y u w ε W L B E₁ E₂ X) {coefs : List ℝ} (hk : ClassKCoefs coefs)
    (ha : c.alpha = some (polyAlpha coefs)) (hnegb : c.alphaNeg = none)
    (hbias : ε * (1 + B) + W * L + E₁ ≤ -c.biasNegative) (h0 : -E₂ ≤ c.value (x 0)) :
    (∀ t, 0 ≤ t → -E₂ ≤ c.value (x t)) ∧ (E₂ ≤ -c.bias → ∀ t, 0 ≤ t → 0 ≤ c.computeFn (x t) c.params) := by
  have key := C101_loop (η := E₂) hε hW hspec h ha
    (fun v hv => (strengthening_neg hk hnegb (by linarith)).trans (by linarith)) h0
  refine ⟨key, fun hb t ht => ?_⟩
  have := key t ht
  unfold Constraint.value at this
  linarith

/-- **C101, without `bias_negative`.** A linear strengthener with slope `a` and its tenfold negative branch keep the value above minus a
tenth of the errors over `a`, minus the error of the estimate. -/
theorem C101_linear {ε δ W L B E₁ E₂ a η : ℝ} (hε : 0 ≤ ε) (hW : 0 ≤ W) {solver : Solver ℝ} (hspec : SolverTol ε δ solver) {k : String}
    {c : Constraint ℝ (List ℝ) P} {D : Set (List ℝ)} {n : Nat} {f : List ℝ → List ℝ} {g : List ℝ → List (List ℝ)}
    {x y u w : ℝ → List ℝ} (h : RobustLoop solver k c D n f g x y u w ε W L B E₁ E₂ X) (hap : 0 < a)
    (ha : c.alpha = some fun v => a * v) (hnegb : c.alphaNeg = none) (hbn : c.biasNegative ≤ 0)
    (hη : E₂ ≤ η) (hsize : ε * (1 + B) + W * L + E₁ ≤ 10 * a * (η - E₂)) (h0 : -η ≤ c.value (x 0)) :
    ∀ t, 0 ≤ t → -η ≤ c.value (x t) := by
  refine C101_loop hε hW hspec h ha (fun v hv => ?_) h0
  unfold strengthening
  rw [if_neg (by push Not; linarith), hnegb]
  simp only
  nlinarith

/-! ### Discrete ASIF modules -/

/-- **C101, discrete.** Let at every step the control be what a discrete ASIF module that raises on failed solves returns for an estimate
`ys k` of the state, the constraint's value at the true next state be at most `e` below that at the predicted one, and its value at the
estimate at most `ρ` below that at the state. If one step of the strengthener from a value of at least `-η - ρ` ends at `e - η` or
above, the value never falls below `-η`. -/
theorem C101_discrete [Field K] [LinearOrder K] [IsStrictOrderedRing K] [HasSqrt K] {solver : NLPSolver K} (hsound : NLPSound solver)
    {next : S → K → List K → S} {k : String} {c : Constraint K S P} {al : K → K} (hce : c.enabled = true)
    (hcs : c.slackPriorityScale = none) (hal : c.alpha = some al) {dts : Nat → K} (hdt : ∀ n, 0 < dts n) {xs ys : Nat → S}
    {vs : Nat → List K} {e ρ η : K}
    (hloop : ∀ n, ∃ (s s' : DiscObj K S P) (uDes : List K), DiscInv s ∧ s.enable = true ∧ s.ext.solverException = true ∧
      (k, c) ∈ s.constraints ∧ discreteASIF solver next s (.array (ys n)) (dts n) uDes = (.ok (vs n), s'))
    (hpred : ∀ n, hval c (next (ys n) (dts n) (vs n)) - e ≤ hval c (xs (n + 1)))
    (hest : ∀ n, hval c (xs n) - ρ ≤ hval c (ys n))
    (hstep : ∀ n v, -η - ρ ≤ v → e - η ≤ v - dts n * al v) (h0 : -η ≤ hval c (xs 0)) : ∀ n, -η ≤ hval c (xs n) := by
  intro n
  induction n with
  | zero => exact h0
  | succ n ih =>
    obtain ⟨s, s', uDes, hinv, hen, hexc, hmem, hcall⟩ := hloop n
    obtain ⟨d, -, -, -, had, -⟩ := disc_solved hsound hinv hen (hdt n) hcall hexc
    obtain ⟨al', hal', hle⟩ := had.barrier (c, 0) (mem_assignSlack_none hmem hcs d) hce
    rw [hal] at hal'
    simp only [Option.some.injEq] at hal'
    subst hal'
    have h1 := hstep n _ (show -η - ρ ≤ hval c (ys n) by have := hest n; linarith)
    have h2 := hpred n
    simp only at hle
    linarith

/-- **C101, discrete, linear strengtheners.** With slope `a` and `dt a ≤ 1` the errors `e` and `ρ` cost `η` with
`e + (1 - dt a) ρ ≤ dt a η`; a `bias` of at most `-η` makes up for it. -/
theorem C101_discrete_linear [Field K] [LinearOrder K] [IsStrictOrderedRing K] [HasSqrt K] {solver : NLPSolver K}
    (hsound : NLPSound solver) {next : S → K → List K → S} {k : String} {c : Constraint K S P} {a dt : K} (hce : c.enabled = true)
    (hcs : c.slackPriorityScale = none) (hal : c.alpha = some fun v => a * v) (hdt : 0 < dt) (hda : dt * a ≤ 1)
    {xs ys : Nat → S} {vs : Nat → List K} {e ρ η : K}
    (hloop : ∀ n, ∃ (s s' : DiscObj K S P) (uDes : List K), DiscInv s ∧ s.enable = true ∧ s.ext.solverException = true ∧
      (k, c) ∈ s.constraints ∧ discreteASIF solver next s (.array (ys n)) dt uDes = (.ok (vs n), s'))
    (hpred : ∀ n, hval c (next (ys n) dt (vs n)) - e ≤ hval c (xs (n + 1)))
    (hest : ∀ n, hval c (xs n) - ρ ≤ hval c (ys n)) (hsize : e + (1 - dt * a) * ρ ≤ dt * a * η) (h0 : -η ≤ hval c (xs 0)) :
    (∀ n, -η ≤ hval c (xs n)) ∧ (η ≤ -c.bias → ∀ n, 0 ≤ c.computeFn (xs n) c.params) := by
  have key := C101_discrete hsound (dts := fun _ => dt) hce hcs hal (fun _ => hdt) hloop hpred hest (fun _ v hv => ?_) h0
  · refine ⟨key, fun hb n => ?_⟩
    have := key n
    unfold hval at this
    linarith
  · have := mul_le_mul_of_nonneg_left hv (show 0 ≤ 1 - dt * a by linarith)
    have e1 : v - dt * (a * v) = (1 - dt * a) * v := by ring
    rw [e1]
    linarith

/-! ### Explicit simplex modules -/

/-- All enabled constraints are at least `-e` in state `x`. -/
def SafeBy [Add K] [Neg K] [LE K] (e : K) (cs : Dict (Constraint K S P)) (x : S) : Prop :=
  ∀ kc ∈ cs, kc.2.enabled = true → -e ≤ kc.2.computeFn x kc.2.params + kc.2.bias

/-- **C101, simplex.** Let at every step the control be what an explicit simplex module returns for an estimate of the state, the values
at the true next state be at most `e` below those at the predicted one, and a step with the backup control keep them at `-e` or above.
Then they never fall below `-e`, and where every `bias` is at most `-e` no quantity the constraints are about becomes negative. -/
theorem C101_simplex [CommRing K] [LinearOrder K] [IsStrictOrderedRing K] {pred : S → K → List K → S} {cs : Dict (Constraint K S P)}
    {dts : Nat → K} {xs ys : Nat → S} {vs : Nat → List K} {e : K}
    (hloop : ∀ n, ∃ (s s' : SimplexObj K S P A) (u : List K), WF s ∧ s.enable = true ∧ s.constraints = cs ∧
      s.toBase.clipControl u = .ok u ∧ explicitSimplex pred s (.array (ys n)) (dts n) u = (.ok (vs n), s') ∧
      ∀ z, IsBackup s (ys n) (dts n) (vs n) z → SafeBy e cs (xs n) → SafeBy e cs (xs (n + 1)))
    (hpred : ∀ n, ∀ kc ∈ cs, kc.2.enabled = true → kc.2.computeFn (pred (ys n) (dts n) (vs n)) kc.2.params - e ≤
      kc.2.computeFn (xs (n + 1)) kc.2.params) (h0 : SafeBy e cs (xs 0)) :
    (∀ n, SafeBy e cs (xs n)) ∧ ((∀ kc ∈ cs, kc.2.bias ≤ -e) →
      ∀ n, ∀ kc ∈ cs, kc.2.enabled = true → 0 ≤ kc.2.computeFn (xs n) kc.2.params) := by
  have key : ∀ n, SafeBy e cs (xs n) := by
    intro n
    induction n with
    | zero => exact h0
    | succ n ih =>
      obtain ⟨s, s', u, hw, hen, hcs, hcu, hcall, hback⟩ := hloop n
      obtain ⟨-, hd⟩ := simplex_ok (monFrame_explicit pred) hen hcall
      rcases hd with ⟨_, _, z, hz, _⟩ | ⟨hnl, b, sm, sv, hm, hib, ⟨_, z, hz, _⟩ | ⟨hbf, hcu', _⟩⟩
      · exact hback z hz ih
      · exact hback z hz ih
      · rw [hcu] at hcu'
        obtain rfl : u = vs n := by simpa using hcu'
        have hsafe := (C13_explicit_decision pred s s' hw hen (ys n) (dts n) (vs n) (vs n) hnl hcall).1.1 (hib.trans hbf)
        rw [hcs] at hsafe
        intro kc hkc hke
        have h1 := hsafe kc hkc hke
        have h2 := hpred n kc hkc hke
        linarith
  refine ⟨key, fun hb n kc hkc hke => ?_⟩
  have h1 := key n kc hkc hke
  have h2 := hb kc hkc
  linarith

/-! ### `bias_negative` is needed, and the bounds are met -/

/-- A single state with velocity `u + w`. -/
theorem single_disturbed {x u w : ℝ → ℝ} (h : ∀ t, 0 ≤ t → HasDerivAt x (u t + w t) t) :
    Disturbed univ 1 (fun _ => [0]) (fun _ => [[1]]) (fun t => [x t]) (fun t => [u t]) (fun t => [w t]) where
  curve t _ := ⟨mem_univ _, rfl⟩
  cont i hi := by
    obtain rfl : i = 0 := by omega
    exact fun t ht => (h t ht).continuousAt.continuousWithinAt
  len t _ := rfl
  wlen t _ := rfl
  deriv t ht i hi := by
    obtain rfl : i = 0 := by omega
    have e : (vadd [(0 : ℝ)] (matVec [[1]] [u t])).getD 0 0 = u t := by simp [vadd, matVec]
    rw [e]
    exact (h t ht).hasDerivWithinAt

/-- The line system with a control that its module returns: one that meets the condition at the estimate `y` of the state. -/
theorem line_robust {al : ℝ → ℝ} {b W ρ : ℝ} {x y u w : ℝ → ℝ} (hx : ∀ t, 0 ≤ t → HasDerivAt x (u t + w t) t) (hw : ∀ t, |w t| ≤ W)
    (hy : ∀ t, y t ≤ x t + ρ) (hu : ∀ t, 0 ≤ t → -strengthening (lineC al b) al (y t) ≤ u t) :
    RobustLoop refSolver "c" (lineC al b) univ 1 (fun _ => [0]) (fun _ => [[1]]) (fun t => [x t]) (fun t => [y t])
      (fun t => [u t]) (fun t => [w t]) 0 W 1 1 0 ρ Unit where
  grad := posC_grad
  motion := single_disturbed hx
  enabled := rfl
  noSlack := rfl
  disturbance t _ i := by
    rcases i with _ | i
    · exact hw t
    · simpa using (abs_nonneg _).trans (hw t)
  slope t _ := by simp [lineC, posC, minLimit, Constraint.mk', gradAt, oneNorm, List.range_succ]
  rate t _ := by
    simp only [lineC, posC, minLimit, Constraint.mk', List.length_singleton, sub_zero, le_refl]
  value t _ := by rw [line_value, line_value]; exact hy t
  filtered t ht := by
    have hadm : AdmissibleBy 0 (fun _ => [0]) (fun _ => [[1]]) (lineObj al b) [y t] [u t] [] :=
      line_by.2 ⟨u t, rfl, rfl, by linarith [hu t ht]⟩
    obtain ⟨h1, -⟩ := C25_no_interference refSolver_spec (line_module _ al b) (line_pos al b)
      (show (0 : ℝ) ≤ 1 / 100 by norm_num) rfl [y t] (line_shapes al b (y t)) 1 [u t] (admissible_iff_zeros.2 (admissibleBy_zero.1 hadm))
    refine ⟨lineObj al b, _, 1, [u t], line_module _ _ _, line_pos _ _, ?_, rfl, by simp [lineObj], line_shapes _ _ _,
      by rw [zero_mul, zero_mul], Or.inr ⟨[u t], [], by rw [neg_zero]; exact hadm⟩, Prod.ext h1 rfl⟩
    intro i l h hl
    simp [lineObj, Base.init, boundAt] at hl

/-- **C101, `bias_negative` is needed.** Without it, for every slope of the strengthener and every `W > 0` there is a disturbance of size
`W` for which a trajectory whose control is the exact answer of the module at all times starts with the constraint satisfied and violates
it at all later times; and no bound better than that of `C101_linear` holds: every value above `-W / (10 a)` is fallen below. -/
theorem C101_bias_needed {W a : ℝ} (hW : 0 < W) (ha : 0 < a) : ∃ x u : ℝ → List ℝ,
    RobustLoop refSolver "c" (lineC (fun v => a * v) 0) univ 1 (fun _ => [0]) (fun _ => [[1]]) x x u (fun _ => [-W]) 0 W 1 1 0 0 Unit ∧
    (lineC (fun v => a * v) 0).value (x 0) = 0 ∧ (∀ t, 0 < t → (lineC (fun v => a * v) 0).value (x t) < 0) ∧
    ∀ η, η < W / (10 * a) → ∃ t, 0 ≤ t ∧ (lineC (fun v => a * v) 0).value (x t) < -η := by
  have hexp : ∀ t : ℝ, HasDerivAt (fun t : ℝ => Real.exp (-(10 * a * t))) (Real.exp (-(10 * a * t)) * (-(10 * a))) t := fun t => by
    have := (((hasDerivAt_id t).const_mul (10 * a)).neg).exp
    simpa using this
  have hle : ∀ t, 0 ≤ t → Real.exp (-(10 * a * t)) ≤ 1 := fun t ht => Real.exp_le_one_iff.2 (by nlinarith [mul_nonneg ha.le ht])
  obtain ⟨q, hq, hq0⟩ : ∃ q, q * (10 * a) = W ∧ 0 < q := ⟨W / (10 * a), by field_simp, by positivity⟩
  have hqe : W / (10 * a) = q := by rw [← hq]; field_simp
  refine ⟨fun t => [-q * (1 - Real.exp (-(10 * a * t)))], fun t => [W * (1 - Real.exp (-(10 * a * t)))],
    line_robust (fun t _ => ?_) (fun t => ?_) (fun t => (add_zero _).ge) (fun t ht => ?_), ?_, fun t ht => ?_, fun η hη => ?_⟩
  · exact (((hexp t).const_sub 1).const_mul (-q)).congr_deriv (by rw [← hq]; ring)
  · rw [abs_neg, abs_of_pos hW]
  · have hx : -q * (1 - Real.exp (-(10 * a * t))) ≤ 0 := by nlinarith [hle t ht]
    unfold strengthening
    simp only [lineC, posC, minLimit, Constraint.mk', add_zero]
    split
    · rename_i h
      have : -q * (1 - Real.exp (-(10 * a * t))) = 0 := le_antisymm hx h
      have h2 := mul_nonneg hW.le (sub_nonneg.2 (hle t ht))
      rw [this]
      simpa using h2
    · rw [← hq]; exact le_of_eq (by ring)
  · rw [line_value]; simp
  · rw [line_value]
    have : Real.exp (-(10 * a * t)) < 1 := Real.exp_lt_one_iff.2 (by nlinarith [mul_pos ha ht])
    nlinarith
  · rw [hqe] at hη
    have hp : 0 < (q - η) / q := div_pos (by linarith) hq0
    set r := (q - η) / q with hr
    have hrq : r * q = q - η := by rw [hr]; field_simp
    refine ⟨1 / r / (10 * a), by positivity, ?_⟩
    rw [line_value]
    have e : 10 * a * (1 / r / (10 * a)) = 1 / r := by field_simp
    rw [e]
    have h1 : 1 / r + 1 ≤ Real.exp (1 / r) := Real.add_one_le_exp _
    have h3 : Real.exp (-(1 / r)) < r := by
      rw [Real.exp_neg, inv_lt_comm₀ (Real.exp_pos _) hp]
      rw [one_div] at h1 ⊢
      linarith
    nlinarith

/-- C101 (loop): and that bound holds. -/
example {W a : ℝ} (hW : 0 < W) (ha : 0 < a) {x u : ℝ → List ℝ}
    (h : RobustLoop refSolver "c" (lineC (fun v => a * v) 0) univ 1 (fun _ => [0]) (fun _ => [[1]]) x x u (fun _ => [-W]) 0 W 1 1 0 0 Unit)
    (h0 : (lineC (fun v => a * v) 0).value (x 0) = 0) (t : ℝ) (ht : 0 ≤ t) : -(W / (10 * a)) ≤ (lineC (fun v => a * v) 0).value (x t) := by
  refine C101_linear le_rfl hW.le (C98_exact refSolver_spec le_rfl le_rfl (ε := 0) (δ := 0)) h ha rfl rfl le_rfl (by positivity) ?_ ?_ t ht
  · rw [sub_zero, mul_div_cancel₀ _ (by positivity)]
    linarith
  · rw [h0]
    have : 0 < W / (10 * a) := by positivity
    linarith

theorem classK_one : ClassKCoefs [(0 : ℝ), 1] := by
  refine ⟨fun i c hc => ?_, 1, 1, rfl, one_pos⟩
  rcases i with _ | _ | i
  · simp at hc; subst hc; simp
  · simp at hc; subst hc; simp
  · simp at hc

/-- C101 (`bias_negative`): a wind of `-1/100` that the desired control withstands; the estimate is off by `1/10`, the state stays at
`-1/10`, and the default `bias_negative` of `-0.01` is just enough. -/
example : ∀ t : ℝ, 0 ≤ t → -(1 / 10) ≤ (lineC (polyAlpha [0, 1]) (-1 / 100)).value [(fun _ : ℝ => -(1 / 10 : ℝ)) t] := by
  have h := line_robust (al := polyAlpha [0, 1]) (b := -1 / 100) (W := 1 / 100) (ρ := 1 / 10) (x := fun _ => -(1 / 10)) (y := fun _ => 0)
    (u := fun _ => 1 / 100) (w := fun _ => -(1 / 100)) (fun t _ => by simpa using hasDerivAt_const t (-(1 / 10 : ℝ)))
    (fun t => by rw [abs_neg, abs_of_pos (by norm_num)]) (fun t => by norm_num) (fun t _ => by
      unfold strengthening; rw [if_pos le_rfl]; simp [polyAlpha, polyLoop])
  refine (C101_bias le_rfl (by norm_num) (C98_exact refSolver_spec le_rfl le_rfl (ε := 0) (δ := 0)) h classK_one rfl rfl ?_ ?_).1
  · show (0 : ℝ) * (1 + 1) + 1 / 100 * 1 + 0 ≤ -(-1 / 100)
    norm_num
  · rw [line_value]

/-- C101 (discrete): the module of `x⁺ = x + dt u` with desired control `-2` answers `-1` at 1, which predicts `1/2`; a disturbance
puts the state back to 1 each time. -/
example : ∀ n : ℕ, -(1 / 2) ≤ hval (stepC true) ((fun _ => 1 : ℕ → ℝ) n) := by
  refine C101_discrete refNLP_sound (next := stepNext) (k := "a") (al := id) (dts := fun _ => 1 / 2) (ys := fun _ => 1) (vs := fun _ => [-1])
    (e := 1 / 4) (ρ := 0) rfl rfl rfl (fun _ => by norm_num) (fun _ => ?_) (fun _ => ?_) (fun _ => ?_) (fun _ v hv => ?_) ?_
  · exact ⟨stepObj true, _, [-2], step_inv true, rfl, rfl, by simp [stepObj], Prod.ext step_call rfl⟩
  · simp [hval, stepC, stepNext]; norm_num
  · simp
  · simp only [id]; linarith
  · simp [hval, stepC]; norm_num

/-- C101 (simplex): the desired control -5 is refused at 4, the backup control 0 keeps the state there. -/
example : ∀ n : ℕ, SafeBy 1 (toySimplex (-9) 9).constraints ((fun _ => 4 : ℕ → Int) n) := by
  have h4 : SafeBy 1 (toySimplex (-9) 9).constraints 4 := by
    intro kc hkc hke
    have := (show SafeAt (toySimplex (-9) 9).constraints 4 by rw [toy_safe_iff]; decide) kc hkc hke
    linarith
  refine (C101_simplex (A := Unit) (pred := toyPred) (dts := fun _ => 1) (ys := fun _ => 4) (vs := fun _ => [0]) (fun _ => ?_) (fun _ kc hkc hke => ?_) h4).1
  · exact ⟨toySimplex (-9) 9, _, [-5], wf_toySimplex _ _, rfl, rfl, rfl, rfl, fun _ _ _ => h4⟩
  · have e : toyPred 4 1 [0] = 4 := rfl
    simp only [e]
    linarith

end RTA
