import Verif.Lemmas.Tolerance
import Verif.Lemmas.ASIFContinuity
import Verif.Props.ASIFLipschitz
import Verif.Props.Flow

/-!
C98: with a solver that meets the inequalities up to `ε` and minimises up to `δ`, the guarantees of explicit ASIF modules hold
up to correspondingly small errors, and with a negative `bias_negative` the safe set is still kept exactly.
-/
namespace RTA
open Set
variable {K S P X : Type}

section
variable [Field K] [LinearOrder K] [IsStrictOrderedRing K]

/-! ### The contract -/

/-- An exact solver meets the contract for all tolerances. -/
theorem C98_exact {solver : Solver K} (hspec : SolverSpec solver) {ε δ : K} (hε : 0 ≤ ε) (hδ : 0 ≤ δ) : SolverTol ε δ solver where
  solved G a rows z iact hG ha hr h := by
    obtain ⟨hf, hm, -, hi, -⟩ := hspec.solved G a rows z iact hG ha hr h
    refine ⟨hf.1, fun r hr => ?_, fun y hy => (hm y hy).trans (by linarith), fun i hi' => ?_⟩
    · have : r.b ≤ dot r.w z := hf.2 r hr
      linarith
    · obtain ⟨r, hr, -⟩ := hi i hi'
      rw [hr]; rfl
  failed G a rows msg hG ha hr h := by
    obtain ⟨hm, hn⟩ := hspec.failed G a rows msg hG ha hr h
    refine ⟨hm, fun ⟨y, hl, hy⟩ => hn ⟨y, hl, fun r hr => ?_⟩⟩
    rcases hy r hr with h | h
    · show r.b ≤ _; linarith
    · exact zeroRow_holds h y

/-- A solver that works with relaxed inequalities meets it: it is never exact where an inequality is tight. -/
theorem C98_relaxed {solver : Solver K} (hspec : SolverSpec solver) {ε δ : K} (hε : 0 ≤ ε) (hδ : 0 ≤ δ) :
    SolverTol ε δ (relaxedSolver ε solver) where
  solved G a rows z iact hG ha hr h := by
    obtain ⟨hf, hm, -, hi, -⟩ := hspec.solved G a _ z iact hG ha (by simpa using hr) h
    have hrow : ∀ {y : List K}, (∀ r ∈ rows, RowHolds r y) → ∀ r ∈ rows.map fun r => (⟨r.w, r.b - ε⟩ : Row K), RowHolds r y := by
      intro y hy r hr
      obtain ⟨q, hq, rfl⟩ := List.mem_map.1 hr
      have : q.b ≤ dot q.w y := hy q hq
      show q.b - ε ≤ dot q.w y
      linarith
    refine ⟨hf.1, fun r hr => ?_, fun y hy => (hm y ⟨hy.1, hrow hy.2⟩).trans (by linarith), fun i hi' => ?_⟩
    · exact hf.2 _ (List.mem_map_of_mem hr)
    · obtain ⟨r, hr, -⟩ := hi i hi'
      unfold rowAt at hr ⊢
      by_cases h1 : 1 ≤ i
      · rw [if_pos h1, List.getElem?_map] at hr
        rw [if_pos h1]
        cases hq : rows[(i - 1).toNat]? with
        | none => rw [hq] at hr; simp at hr
        | some q => rfl
      · rw [if_neg h1] at hr; simp at hr
  failed G a rows msg hG ha hr h := by
    obtain ⟨hm, hn⟩ := hspec.failed G a _ msg hG ha (by simpa using hr) h
    refine ⟨hm, fun ⟨y, hl, hy⟩ => hn ⟨y, hl, fun r hr => ?_⟩⟩
    obtain ⟨q, hq, rfl⟩ := List.mem_map.1 hr
    show q.b - ε ≤ dot q.w y
    rcases hy q hq with h | h
    · linarith
    · have : q.b ≤ dot q.w y := zeroRow_holds h y
      linarith

variable [HasSqrt K] [LawfulSqrt K]

/-! ### The conditions -/

/-- **C98, conditions.** A returned control respects its bounds exactly, and for every enabled constraint (with the slack value
`d` the solver chose for it) the barrier condition holds up to `ε` for the solver and `ε` times the control's influence on the
constraint for the final clipping. The hypothesis excludes the fallback: the module raises on failure, or some control meets all
conditions with margin `ε`. -/
theorem C98_conditions {ε δ : K} (hε : 0 ≤ ε) {solver : Solver K} (hspec : SolverTol ε δ solver) {f : S → List K}
    {g : S → List (List K)} {s s' : ASIFObj K S P X} (hs : ExplicitModule solver f g s) (hpos : ScalesPos s.constraints)
    (hcons : BoundsConsistent s.controlBoundsLow s.controlBoundsHigh) (hen : s.enable = true) {x : S} (hsh : ShapesOK f g s x)
    {dt : K} {u v : List K} (hcall : explicitASIF solver f g s (.array x) dt u = (.ok v, s'))
    (hsol : s.ext.solverException = true ∨ ∃ w d, AdmissibleBy (-ε) f g s x w d) :
    Within s.controlBoundsLow s.controlBoundsHigh v ∧ ∃ d, d.length = (slackScales s.constraints).length ∧
      (∀ cd ∈ assignSlack s.constraints d, cd.1.enabled = true →
        ∃ m, barrierValue f g cd.1 x v = some m ∧ cd.2 - ε * (1 + authority g s.ext.controlDim cd.1 x) ≤ m) ∧
      ∀ kc ∈ s.ext.direct, kc.2.enabled = true → kc.2.ineqConstant x kc.2.params -
        ε * (1 + oneNorm (kc.2.ineqWeight x kc.2.params)) ≤ dot (kc.2.ineqWeight x kc.2.params) v := by
  obtain ⟨hinv, hnames⟩ := hs.inv
  obtain ⟨-, w, d, had, hclip, -⟩ := tol_solved hspec hinv hnames hpos hen hcall hsol
  obtain ⟨names, hact⟩ := hinv.act
  obtain ⟨fl, fh⟩ := boundFits_of_act hact
  obtain ⟨hvl, hnear⟩ := clipControl_near hε (by rw [had.len]; exact fl) (by rw [had.len]; exact fh) had.bounds hclip
  refine ⟨clip_within s.toBase w v hcons hclip, d, had.slen, fun cd hcd hce => ?_, fun kc hkc hke => ?_⟩
  · obtain ⟨m, hm, hle⟩ := had.barrier cd hcd hce
    obtain ⟨k, hk⟩ := assignSlack_of hcd
    obtain ⟨m', hm', hle'⟩ := barrierValue_near hε hsh.input (hsh.grad _ hk) hsh.cols (hvl.trans had.len) had.len hnear hm
    exact ⟨m', hm', by linarith⟩
  · have h1 := had.direct kc hkc hke
    have h2 := dot_near_le hε (kc.2.ineqWeight x kc.2.params) hvl hnear
    linarith

/-- **C98, answers.** A call returns a control whenever some control meets all conditions with margin `ε`, or the module does not
raise on failure. -/
theorem C98_returns {ε δ : K} {solver : Solver K} (hspec : SolverTol ε δ solver) {f : S → List K}
    {g : S → List (List K)} {s : ASIFObj K S P X} (hs : ExplicitModule solver f g s) (hpos : ScalesPos s.constraints)
    (hen : s.enable = true) {x : S} (hsh : ShapesOK f g s x) (dt : K) {u : List K} (hu : u.length = s.ext.controlDim)
    (hsol : s.ext.solverException = false ∨ ∃ w d, AdmissibleBy (-ε) f g s x w d) :
    ∃ v, (explicitASIF solver f g s (.array x) dt u).1 = .ok v :=
  tol_total hspec hs.inv.1 hs.inv.2 hpos hsh dt hu hen hsol

/-! ### Interference -/

/-- Clipping brings a control no farther from one that respects the bounds. -/
theorem clip_closer {b : Base K} {u w v : List K} (hlo : BoundFits w.length b.controlBoundsLow)
    (hhi : BoundFits w.length b.controlBoundsHigh) (hl : u.length = w.length)
    (hu : Within b.controlBoundsLow b.controlBoundsHigh u) (h : b.clipControl w = .ok v) : sqDist v u ≤ sqDist w u := by
  have hu' : b.clipControl u = .ok u := C05_clip_identity b u (hl ▸ hlo) (hl ▸ hhi) hu
  obtain ⟨l1, l2, hf⟩ := clipControl_firm hlo hhi hl h hu'
  have := dot_le_half (a := vsub w u) (b := vsub v u) (by simp [vsub, l1])
  unfold sqDist sqNorm at *
  linarith

/-- A control within `√(2δ)` of the desired one is not reported as an intervention if the threshold is at least that. -/
theorem monitor_close {δ e : K} {u w : List K} (hwl : w.length = u.length) (hw : sqDist w u ≤ 2 * δ) (he : 0 ≤ e)
    (hd : 2 * δ ≤ e * e) : asifMonitor e u w = false := by
  unfold asifMonitor
  rw [decide_eq_false_iff_not, not_lt]
  have e : sqNorm (vsub u w) = sqDist w u := by
    have : ∀ {a b : List K}, a.length = b.length → sqNorm (vsub a b) = sqDist b a := by
      intro a
      induction a with
      | nil => intro b hb; cases b with
        | nil => rfl
        | cons q b => simp at hb
      | cons p a ih => intro b hb; cases b with
        | nil => simp at hb
        | cons q b =>
          have := ih (b := b) (by simpa using hb)
          show (p - q) * (p - q) + sqNorm (vsub a b) = _
          rw [sqDist_cons, this]
          ring
    exact this hwl.symm
  rw [e]
  have h0 := sqDist_nonneg w u
  have h1 := LawfulSqrt.mul_self _ h0
  have h2 := LawfulSqrt.nonneg _ h0
  by_contra hc
  rw [not_le] at hc
  nlinarith

/-- **C98, interference.** If the desired control is admissible, every returned control is within `√(2δ)` of it, and
`intervening` is `False` if `√(2δ)` does not exceed the module's threshold `epsilon`. -/
theorem C98_interference {ε δ : K} (hδ : 0 ≤ δ) {solver : Solver K} (hspec : SolverTol ε δ solver) {f : S → List K}
    {g : S → List (List K)} {s s' : ASIFObj K S P X} (hs : ExplicitModule solver f g s) (hpos : ScalesPos s.constraints)
    (hen : s.enable = true) {x : S} {dt : K} {u v : List K} (hadm : Admissible f g s x u)
    (hcall : explicitASIF solver f g s (.array x) dt u = (.ok v, s')) :
    sqDist v u ≤ 2 * δ ∧ (0 ≤ s.ext.epsilon → 2 * δ ≤ s.ext.epsilon * s.ext.epsilon → s'.intervening = false) := by
  obtain ⟨hinv, hnames⟩ := hs.inv
  obtain ⟨names, hact⟩ := hinv.act
  obtain ⟨fl, fh⟩ := boundFits_of_act hact
  by_cases hsol : s.ext.solverException = true ∨ ∃ w d, AdmissibleBy (-ε) f g s x w d
  · obtain ⟨hul, w, d, had, hclip, hmin, hint⟩ := tol_solved hspec hinv hnames hpos hen hcall hsol
    have h1 := hmin u _ (admissible_iff_zeros.1 hadm)
    rw [slackCost_zeros, sqDist_self] at h1
    have h2 : sqDist w u ≤ 2 * δ := by
      have := slackSq_nonneg (qpWeights_pos hpos) d
      unfold slackCost at h1
      linarith
    have h3 := clip_closer (by rw [had.len]; exact fl) (by rw [had.len]; exact fh) (hul.trans had.len.symm) hadm.bounds hclip
    refine ⟨h3.trans h2, fun he hd => ?_⟩
    rw [hint]
    exact monitor_close (had.len.trans hul.symm) h2 he hd
  · rw [not_or] at hsol
    obtain ⟨nm, ex, rows, drows, w0, cz, hgen, hdir, hout, hclip, hs'⟩ := asif_ok (genFrame_explicit f g) hen hcall
    cases hout with
    | infeasible hq hx =>
      rw [zeros_append_take hadm.len] at hclip hs'
      have hvu : v = u := by
        have := C05_clip_identity s.toBase u (by rw [hadm.len]; exact fl) (by rw [hadm.len]; exact fh) hadm.bounds
        rw [this] at hclip
        exact (Except.ok.inj hclip).symm
      subst hvu
      refine ⟨by rw [sqDist_self]; linarith, fun he hd => ?_⟩
      rw [hs']
      exact monitor_close rfl (by rw [sqDist_self]; linarith) he hd
    | @solved z iact l hq hcause =>
      have hG := objWeight_pos hinv hpos
      have hGl := objWeight_length hinv
      obtain ⟨hqs, hal, hrw⟩ := quadprogSolve_dims (Or.inl ⟨_, _, hq⟩)
      obtain ⟨hzl', hrows, hmin, -⟩ := hspec.solved _ _ _ _ _ hG hal hrw (hqs.symm.trans hq)
      have hzl : z.length = s.ext.controlDim + s.ext.numSlack := hzl'.trans hGl
      have hvl : (z.take s.ext.controlDim).length = s.ext.controlDim := by rw [List.length_take]; omega
      have hz : z.take s.ext.controlDim ++ z.drop s.ext.controlDim = z := List.take_append_drop _ _
      have had := admissible_iff_zeros.1 hadm
      have hfe := (explicit_feasible hinv hnames hgen hdir had.len (had.slen.trans hinv.slack.symm)).2 had
      have h1 := hmin _ hfe
      have c1 := qpObj_eq_cost hinv (d := z.drop s.ext.controlDim) hadm.len hvl
      rw [hz] at c1
      rw [c1, qpObj_eq_cost hinv hadm.len had.len, slackCost_zeros, sqDist_self] at h1
      have h2 : sqDist (z.take s.ext.controlDim) u ≤ 2 * δ := by
        have := slackSq_nonneg (qpWeights_pos hpos) (z.drop s.ext.controlDim)
        unfold slackCost at h1
        linarith
      have h3 := clip_closer (by rw [hvl]; exact fl) (by rw [hvl]; exact fh) (hadm.len.trans hvl.symm) hadm.bounds hclip
      refine ⟨h3.trans h2, fun he hd => ?_⟩
      rw [hs']
      exact monitor_close (hvl.trans hadm.len.symm) h2 he hd

end

/-! ### The distance from the exact answer -/

/-- **C98, distance.** If some control meets all conditions with margin `m > 0`, at cost `C` (its squared distance from the desired
control plus its weighted squared slack), then the answer obtained with a solver of tolerances `ε ≤ m` and `δ` differs from the
answer obtained with an exact solver by a squared distance of at most `4 δ + 2 θ C + 8 θ² (C + δ)` with `θ = ε / (ε + m)`. -/
theorem C98_distance {ε δ m : ℝ} (hε : 0 ≤ ε) (hδ : 0 ≤ δ) (hm : 0 < m) (hεm : ε ≤ m) {solver exact : Solver ℝ}
    (hspec : SolverTol ε δ solver) (hexact : SolverSpec exact) {f : S → List ℝ} {g : S → List (List ℝ)}
    {s s1 s2 : ASIFObj ℝ S P X} (hs : ExplicitModule solver f g s) (hpos : ScalesPos s.constraints) (hen : s.enable = true)
    {x : S} {dt dt' : ℝ} {u v v' u0 d0 : List ℝ} (hmargin : AdmissibleBy (-m) f g s x u0 d0)
    (hcall : explicitASIF solver f g s (.array x) dt u = (.ok v, s1))
    (hcall' : explicitASIF exact f g s (.array x) dt' u = (.ok v', s2)) :
    sqDist v v' ≤ 4 * δ + 2 * (ε / (ε + m)) * slackCost (qpWeights s) u u0 d0 +
      8 * (ε / (ε + m)) ^ 2 * (slackCost (qpWeights s) u u0 d0 + δ) := by
  obtain ⟨hinv, hnames⟩ := hs.inv
  obtain ⟨names, hact⟩ := hinv.act
  obtain ⟨fl, fh⟩ := boundFits_of_act hact
  have hW := qpWeights_pos hpos
  have h0adm : AdmissibleS f g s x u0 d0 := admissibleBy_zero.1 (admissibleBy_mono (by linarith) hmargin)
  obtain ⟨hul, w, d, had, hclip, hmin, -⟩ := tol_solved hspec hinv hnames hpos hen hcall
    (Or.inr ⟨u0, d0, admissibleBy_mono (by linarith) hmargin⟩)
  obtain ⟨-, d', l, had', hmin', -⟩ := explicit_solved hexact hinv hnames hpos hen hcall' ⟨_, _, h0adm⟩
  have weak : ∀ w e, AdmissibleS f g s x w e → slackCost (qpWeights s) u v' d' ≤ slackCost (qpWeights s) u w e := by
    intro w e hw
    by_cases he : v' ++ d' = w ++ e
    · obtain ⟨rfl, rfl⟩ := List.append_inj he (had'.len.trans hw.len.symm)
      exact le_rfl
    · exact (hmin' w e hw he).le
  set θ := ε / (ε + m) with hθ
  have hden : 0 < ε + m := by linarith
  have θ0 : 0 ≤ θ := div_nonneg hε hden.le
  have θδ := mul_nonneg θ0 hδ
  have θ1 : θ ≤ 1 := by rw [hθ, div_le_one hden]; linarith
  have hzero : ε + θ * (-m - ε) = 0 := by
    rw [hθ]
    field_simp
    ring
  have hp : AdmissibleS f g s x (mix θ w u0) (mix θ d d0) := by
    have := admissibleBy_mix θ0 θ1 had hmargin
    rw [hzero] at this
    exact admissibleBy_zero.1 this
  have hstrong := slackCost_strong hW (C := AdmissibleS f g s x) (n := s.ext.controlDim)
    (m := (slackScales s.constraints).length) (fun w e hw => ⟨hw.len, hw.slen⟩)
    (fun t h0 h1 a b d e ha hb => admissibleS_mix h0 h1 ha hb) hul had' weak hp
  have hconv := slackCost_convex hW u θ0 θ1 (had.len.trans hul.symm) (hmargin.len.trans hul.symm) (had.slen.trans hmargin.slen.symm)
  have hopt := hmin v' d' had'
  have hC := weak u0 d0 h0adm
  have nn : ∀ a e : List ℝ, 0 ≤ slackCost (qpWeights s) u a e := fun a e =>
    add_nonneg (sqDist_nonneg _ _) (slackSq_nonneg hW _)
  have le : ∀ a e : List ℝ, sqDist a u ≤ slackCost (qpWeights s) u a e := fun a e => by
    have := slackSq_nonneg hW e
    unfold slackCost
    linarith
  have hlw := had.len.trans hmargin.len.symm
  have t1 := sqDist_triangle (a := w) (b := mix θ w u0) (c := v') (by simp [hlw]) (by simp [hlw, had'.len, hmargin.len])
  have t2 := sqDist_mix_left θ hlw
  have t3 := sqDist_triangle (a := u0) (b := u) (c := w) (hmargin.len.trans hul.symm) (hul.trans had.len.symm)
  have t4 : sqDist u w = sqDist w u := sqDist_comm _ _
  have t5 := clip_closer (by rw [had.len]; exact fl) (by rw [had.len]; exact fh) (had'.len.trans had.len.symm) had'.bounds hclip
  have l1 := le u0 d0
  have l2 := le w d
  have n1 := nn v' d'
  have n2 := nn w d
  rw [t2] at t1
  set C := slackCost (qpWeights s) u u0 d0
  set cw := slackCost (qpWeights s) u w d
  set cs := slackCost (qpWeights s) u v' d'
  have b1 : sqDist (mix θ w u0) v' ≤ 2 * δ + θ * C := by nlinarith [mul_nonneg θ0 n2, mul_nonneg θ0 n1, θδ]
  have b2 : sqDist u0 w ≤ 4 * C + 4 * δ := by linarith
  have b3 := mul_le_mul_of_nonneg_left b2 (sq_nonneg θ)
  nlinarith

/-! ### The closed loop -/

/-- **C98, loop.** If at every time the control is what an explicit ASIF module with a tolerant solver returns, the control's
influence on the constraint is at most `B`, and the strengthening term is at most `-ε (1 + B)` below `-η`, then the value of an
enabled constraint without slack never falls below `-η`. -/
theorem C98_loop {ε δ B η : ℝ} (hε : 0 ≤ ε) {solver : Solver ℝ} (hspec : SolverTol ε δ solver) {k : String}
    {c : Constraint ℝ (List ℝ) P} {D : Set (List ℝ)} {n : Nat} {f : List ℝ → List ℝ} {g : List ℝ → List (List ℝ)}
    {x u : ℝ → List ℝ} (hgrad : IsGradientOn D n (fun x => c.computeFn x c.params) (fun x => c.gradFn x c.params))
    (htraj : Trajectory D n f g x u) {al : ℝ → ℝ} (ha : c.alpha = some al)
    (hneg : ∀ y < -η, strengthening c al y ≤ -(ε * (1 + B))) (hen : c.enabled = true) (hns : c.slackPriorityScale = none)
    (hloop : ∀ t, 0 ≤ t → ∃ (s s' : ASIFObj ℝ (List ℝ) P X) (dt : ℝ) (uDes : List ℝ), ExplicitModule solver f g s ∧
      ScalesPos s.constraints ∧ BoundsConsistent s.controlBoundsLow s.controlBoundsHigh ∧ s.enable = true ∧
      (k, c) ∈ s.constraints ∧ ShapesOK f g s (x t) ∧ authority g s.ext.controlDim c (x t) ≤ B ∧
      (s.ext.solverException = true ∨ ∃ w d, AdmissibleBy (-ε) f g s (x t) w d) ∧
      explicitASIF solver f g s (.array (x t)) dt uDes = (.ok (u t), s'))
    (h0 : -η ≤ c.value (x 0)) : ∀ t, 0 ≤ t → -η ≤ c.value (x t) := by
  have key := stays_nonneg (h := fun t => c.value (x t) + η) (a := 0)
    (((along_cont htraj hgrad).add continuousOn_const).add continuousOn_const)
    (fun t ht => ((along_deriv htraj hgrad ht).add_const _).add_const _) ?_ (by linarith)
  · intro t ht
    have := key t ht
    linarith
  · intro t ht hlt
    obtain ⟨s, s', dt, uDes, hs, hpos, hcons, hens, hmem, hsh, hB, hsol, hcall⟩ := hloop t ht
    obtain ⟨-, d, -, hbar, -⟩ := C98_conditions hε hspec hs hpos hcons hens hsh hcall hsol
    obtain ⟨m, hm, hle⟩ := hbar (c, 0) (assignSlack_zero d hmem hns) hen
    simp only [barrierValue, ha, Option.map_some, Option.some.injEq] at hm
    have h1 := hneg (c.value (x t)) (by linarith)
    unfold Constraint.value at h1
    have h2 := mul_le_mul_of_nonneg_left hB hε
    simp only at hle
    linarith

/-- **C98, `bias_negative`.** For class-K strengtheners with the default negative branch, a `bias_negative` of at most
`-ε (1 + B)` makes up for the solver: the constraint stays satisfied exactly. The default `-0.01` does so when
`ε (1 + B) ≤ 0.01`. -/
theorem C98_bias {ε δ B : ℝ} (hε : 0 ≤ ε) {solver : Solver ℝ} (hspec : SolverTol ε δ solver) {k : String}
    {c : Constraint ℝ (List ℝ) P} {D : Set (List ℝ)} {n : Nat} {f : List ℝ → List ℝ} {g : List ℝ → List (List ℝ)}
    {x u : ℝ → List ℝ} (hgrad : IsGradientOn D n (fun x => c.computeFn x c.params) (fun x => c.gradFn x c.params))
    (htraj : Trajectory D n f g x u) {coefs : List ℝ} (hk : ClassKCoefs coefs) (ha : c.alpha = some (polyAlpha coefs))
    (hnegb : c.alphaNeg = none) (hbias : ε * (1 + B) ≤ -c.biasNegative) (hen : c.enabled = true)
    (hns : c.slackPriorityScale = none)
    (hloop : ∀ t, 0 ≤ t → ∃ (s s' : ASIFObj ℝ (List ℝ) P X) (dt : ℝ) (uDes : List ℝ), ExplicitModule solver f g s ∧
      ScalesPos s.constraints ∧ BoundsConsistent s.controlBoundsLow s.controlBoundsHigh ∧ s.enable = true ∧
      (k, c) ∈ s.constraints ∧ ShapesOK f g s (x t) ∧ authority g s.ext.controlDim c (x t) ≤ B ∧
      (s.ext.solverException = true ∨ ∃ w d, AdmissibleBy (-ε) f g s (x t) w d) ∧
      explicitASIF solver f g s (.array (x t)) dt uDes = (.ok (u t), s'))
    (h0 : 0 ≤ c.value (x 0)) : ∀ t, 0 ≤ t → 0 ≤ c.value (x t) := by
  have key := C98_loop (η := 0) hε hspec hgrad htraj ha (fun y hy => ?_) hen hns hloop (by simpa using h0)
  · simpa using key
  · rw [neg_zero] at hy
    unfold strengthening
    rw [if_neg (not_le.2 hy), hnegb]
    have := (C33_sign coefs hk y).1 hy
    simp only
    linarith

/-! ### Without `bias_negative` -/

/-- Position at least 0, with any strengthener and `bias_negative`. -/
noncomputable def lineC (al : ℝ → ℝ) (b : ℝ) : Constraint ℝ (List ℝ) ℝ := { posC with alpha := some al, biasNegative := b }

/-- The module with this constraint for the system `x' = u`. -/
noncomputable def lineObj (al : ℝ → ℝ) (b : ℝ) : ASIFObj ℝ (List ℝ) ℝ Unit :=
  { toBase := Base.init none none
    constraints := [("c", lineC al b)], params := [("c", (lineC al b).params)], constraintEnabled := [("c", true)]
    constraintValues := [], isStaleConstraints := false
    ext := { epsilon := 1 / 100, controlDim := 1, solverException := false, numSlack := 0, objWeight := [1]
             constraintNames := ["c"], actuation := [], direct := [], directParams := [], directEnabled := [], causing := none
             extra := () } }

theorem line_module (solver : Solver ℝ) (al : ℝ → ℝ) (b : ℝ) :
    ExplicitModule solver (fun _ => [0]) (fun _ => [[1]]) (lineObj al b) :=
  ⟨none, none, [("c", lineC al b)], none, 1 / 100, 1, false, [], (), lineObj al b, [], by simp [dictKeys], by simp [dictKeys],
    rfl, rfl⟩

theorem line_pos (al : ℝ → ℝ) (b : ℝ) : ScalesPos (lineObj al b).constraints := by
  have e : slackScales (lineObj al b).constraints = [] := rfl
  intro w hw
  rw [e] at hw
  simp at hw

theorem line_barrier (al : ℝ → ℝ) (b x u : ℝ) : barrierValue (fun _ => [0]) (fun _ => [[1]]) (lineC al b) [x] [u] =
    some (u + strengthening (lineC al b) al x) := by
  have : dot (gradAt 1 0 (1 : ℝ)) (vadd [0] (matVec [[1]] [u])) = u := by simp [gradAt, vadd, matVec, List.range_succ]
  simp only [barrierValue, lineC, posC, minLimit, Constraint.mk', Option.map_some, stateAt,
    List.getD_cons_zero, sub_zero, add_zero, List.length_singleton, this]

theorem line_by {al : ℝ → ℝ} {b η x : ℝ} {w d : List ℝ} :
    AdmissibleBy η (fun _ => [0]) (fun _ => [[1]]) (lineObj al b) [x] w d ↔
      ∃ a, w = [a] ∧ d = [] ∧ -η ≤ a + strengthening (lineC al b) al x := by
  constructor
  · intro h
    obtain ⟨a, rfl⟩ := List.length_eq_one_iff.1 (show w.length = 1 from h.len)
    have hd : d = [] := List.length_eq_zero_iff.1 h.slen
    subst hd
    obtain ⟨m, hm, hle⟩ := h.barrier (lineC al b, 0) (assignSlack_zero [] (k := "c") (by simp [lineObj]) rfl) rfl
    rw [line_barrier] at hm
    simp only [Option.some.injEq] at hm
    exact ⟨a, rfl, rfl, by rw [hm]; simpa using hle⟩
  · rintro ⟨a, rfl, rfl, h⟩
    refine ⟨rfl, rfl, fun i v _ => ⟨fun b hb => ?_, fun b hb => ?_⟩, fun cd hcd hen => ?_, by simp [lineObj]⟩
    · simp [lineObj, Base.init, boundAt] at hb
    · simp [lineObj, Base.init, boundAt] at hb
    · have e : assignSlack (lineObj al b).constraints [] = [(lineC al b, 0)] := rfl
      rw [e, List.mem_singleton] at hcd
      subst hcd
      exact ⟨_, line_barrier al b x a, by simpa using h⟩

theorem line_shapes (al : ℝ → ℝ) (b x : ℝ) : ShapesOK (fun _ => [0]) (fun _ => [[1]]) (lineObj al b) [x] :=
  ⟨by simp [lineObj, lineC], by simp [lineObj, lineC, posC, minLimit, Constraint.mk', gradAt], rfl,
    by simp [lineObj], by simp [lineObj]⟩

theorem line_value (al : ℝ → ℝ) (b y : ℝ) : (lineC al b).value [y] = y := by
  simp [Constraint.value, lineC, posC, minLimit, Constraint.mk', stateAt]

theorem line_authority (al : ℝ → ℝ) (b x : ℝ) : authority (fun _ => [[1]]) 1 (lineC al b) [x] = 1 := by
  have e : vecMat (gradAt 1 0 (1 : ℝ)) [[1]] 1 = [1] := by
    simp [vecMat, gradAt, List.range_succ]
  simp only [authority, lineC, posC, minLimit, Constraint.mk', List.length_singleton, e, oneNorm]
  simp

theorem sqDist_one (p q : ℝ) : sqDist [p] [q] = (p - q) * (p - q) := by simp [sqDist, sqNorm, vsub, dot]

/-- With the relaxed solver and a desired control below what the relaxed condition allows, the answer is the control at which the
relaxed condition is tight. -/
theorem line_answer {al : ℝ → ℝ} {b ε x a : ℝ} (hε : 0 ≤ ε) (ha : a + ε + strengthening (lineC al b) al x ≤ 0) :
    ∃ s', explicitASIF (relaxedSolver ε refSolver) (fun _ => [0]) (fun _ => [[1]]) (lineObj al b) (.array [x]) 1 [a] =
      (.ok [-ε - strengthening (lineC al b) al x], s') := by
  have hm := line_module (relaxedSolver ε refSolver) al b
  have hpos := line_pos al b
  obtain ⟨v, hv⟩ := C98_returns (C98_relaxed refSolver_spec hε le_rfl) hm hpos rfl (line_shapes al b x) 1 (u := [a]) rfl (Or.inl rfl)
  set y := strengthening (lineC al b) al x with hy
  have hcall : explicitASIF (relaxedSolver ε refSolver) (fun _ => [0]) (fun _ => [[1]]) (lineObj al b) (.array [x]) 1 [a] =
    (.ok v, (explicitASIF (relaxedSolver ε refSolver) (fun _ => [0]) (fun _ => [[1]]) (lineObj al b) (.array [x]) 1 [a]).2) :=
    Prod.ext hv rfl
  have hbest : AdmissibleBy ε (fun _ => [0]) (fun _ => [[1]]) (lineObj al b) [x] [-ε - y] [] :=
    line_by.2 ⟨_, rfl, rfl, by rw [← hy]; linarith⟩
  obtain ⟨w, d, had, hclip, hmin⟩ := relaxed_solved hε refSolver_spec hm.inv.1 hm.inv.2 hpos rfl hcall ⟨_, _, hbest⟩
  obtain ⟨c, rfl, rfl, hc⟩ := line_by.1 had
  rw [← hy] at hc
  have h1 := hmin _ _ hbest
  have e : qpWeights (lineObj al b) = [] := rfl
  rw [e, slackCost_nil, slackCost_nil, sqDist_one, sqDist_one] at h1
  have hcy : c = -ε - y := by
    have h2 : -ε - y ≤ c := by linarith
    refine le_antisymm ?_ h2
    by_contra hc
    nlinarith
  subst hcy
  have : v = [-ε - y] := by
    have e3 : (lineObj al b).toBase.clipControl [-ε - y] = .ok [-ε - y] := rfl
    rw [e3] at hclip
    exact (Except.ok.inj hclip).symm
  rw [this] at hcall
  exact ⟨_, hcall⟩

/-- **C98, `bias_negative` is needed.** Without it, for every `ε > 0` there are a solver within tolerance `ε`, a module and a
trajectory whose control is the module's answer at all times, that starts with the constraint satisfied and violates it at all
later times. -/
theorem C98_bias_needed {ε : ℝ} (hε : 0 < ε) : ∃ (solver : Solver ℝ) (x u : ℝ → List ℝ), SolverTol ε 0 solver ∧
    (lineC id 0).biasNegative = 0 ∧ ExplicitModule solver (fun _ => [0]) (fun _ => [[1]]) (lineObj id 0) ∧
    Trajectory univ 1 (fun _ => [0]) (fun _ => [[1]]) x u ∧
    (∀ t, 0 ≤ t → ∃ s' uDes, explicitASIF solver (fun _ => [0]) (fun _ => [[1]]) (lineObj id 0) (.array (x t)) 1 uDes = (.ok (u t), s')) ∧
    (lineC id 0).value (x 0) = 0 ∧ ∀ t, 0 < t → (lineC id 0).value (x t) < 0 := by
  refine ⟨relaxedSolver ε refSolver, fun t => [-(ε / 10) * (1 - Real.exp (-10 * t))], fun t => [-(ε * Real.exp (-10 * t))],
    C98_relaxed refSolver_spec hε.le le_rfl, rfl, line_module _ _ _, single_trajectory fun t => ?_, fun t ht => ?_, ?_, fun t ht => ?_⟩
  · have h1 : HasDerivAt (fun t : ℝ => Real.exp (-10 * t)) (Real.exp (-10 * t) * (-10)) t := by
      have := ((hasDerivAt_id t).const_mul (-10)).exp
      simpa using this
    have h2 := (h1.const_sub 1).const_mul (-(ε / 10))
    exact h2.congr_deriv (by ring)
  · have he : Real.exp (-10 * t) ≤ 1 := Real.exp_le_one_iff.2 (by linarith)
    have hx : -(ε / 10) * (1 - Real.exp (-10 * t)) ≤ 0 := by nlinarith
    have hy : strengthening (lineC id 0) id (-(ε / 10) * (1 - Real.exp (-10 * t))) = -ε * (1 - Real.exp (-10 * t)) := by
      unfold strengthening
      simp only [lineC, posC, minLimit, Constraint.mk', id, add_zero]
      split
      · rename_i h
        have : -(ε / 10) * (1 - Real.exp (-10 * t)) = 0 := le_antisymm hx h
        linarith
      · ring
    obtain ⟨s', hs'⟩ := line_answer (al := id) (b := 0) (ε := ε) (x := -(ε / 10) * (1 - Real.exp (-10 * t))) (a := -ε) hε.le (by rw [hy]; nlinarith)
    rw [hy] at hs'
    refine ⟨s', [-ε], ?_⟩
    have e : -ε - -ε * (1 - Real.exp (-10 * t)) = -(ε * Real.exp (-10 * t)) := by ring
    rw [e] at hs'
    exact hs'
  · rw [line_value]; simp
  · rw [line_value]
    have : Real.exp (-10 * t) < 1 := Real.exp_lt_one_iff.2 (by linarith)
    nlinarith

/-! ### Concrete instances -/

/-- C98 (conditions): at `x = 1` with tolerance `1/10` and desired control `-3` the answer is `-11/10`, which misses the condition by
the tolerance but not by more than the bound `2/10`. -/
example : ∃ s', explicitASIF (relaxedSolver (1 / 10) refSolver) (fun _ => [0]) (fun _ => [[1]]) (lineObj id 0) (.array [1]) 1 [-3] =
      (.ok [-11 / 10], s') ∧ ¬ BarrierOK (fun _ => [0]) (fun _ => [[1]]) (lineC id 0) [1] [-11 / 10] 0 ∧
    ∃ m, barrierValue (fun _ => [0]) (fun _ => [[1]]) (lineC id 0) [1] [-11 / 10] = some m ∧ -(2 / 10) ≤ m := by
  have e : strengthening (lineC id 0) id 1 = 1 := by unfold strengthening; rw [if_pos (by norm_num)]; rfl
  obtain ⟨s', hs'⟩ := line_answer (al := id) (b := 0) (ε := 1 / 10) (x := 1) (a := -3) (by norm_num) (by rw [e]; norm_num)
  rw [e] at hs'
  norm_num at hs'
  refine ⟨s', by norm_num; exact hs', ?_, ?_⟩
  · rintro ⟨m, hm, hle⟩
    rw [line_barrier, e, Option.some.injEq] at hm
    linarith
  · obtain ⟨-, d, hd, hb, -⟩ := C98_conditions (by norm_num) (C98_relaxed refSolver_spec (ε := 1 / 10) (δ := 0) (by norm_num) le_rfl)
      (line_module _ id 0) (line_pos id 0) (by intro i l h hl; simp [lineObj, Base.init, boundAt] at hl) rfl (line_shapes id 0 1) hs'
      (Or.inr ⟨[0], [], line_by.2 ⟨0, rfl, rfl, by rw [e]; norm_num⟩⟩)
    obtain ⟨m, hm, hle⟩ := hb (lineC id 0, 0) (assignSlack_zero d (k := "c") (by simp [lineObj]) rfl) rfl
    have ea : authority (fun _ => [[1]]) (lineObj id 0).ext.controlDim (lineC id 0) [1] = 1 := line_authority id 0 1
    simp only [ea] at hle
    refine ⟨m, ?_, by linarith⟩
    rw [← hm]
    norm_num

/-- C98 (distance): there the exact answer is `-1`; the bound with the margin point `0` (margin 1, cost 9) is below `1/5` for tolerance `1/100`. -/
example {v v' : List ℝ} {s1 s2 : ASIFObj ℝ (List ℝ) ℝ Unit}
    (h : explicitASIF (relaxedSolver (1 / 100) refSolver) (fun _ => [0]) (fun _ => [[1]]) (lineObj id 0) (.array [1]) 1 [-3] = (.ok v, s1))
    (h' : explicitASIF refSolver (fun _ => [0]) (fun _ => [[1]]) (lineObj id 0) (.array [1]) 1 [-3] = (.ok v', s2)) :
    sqDist v v' ≤ 1 / 5 := by
  have e : strengthening (lineC id 0) id 1 = 1 := by unfold strengthening; rw [if_pos (by norm_num)]; rfl
  have := C98_distance (m := 1) (by norm_num) le_rfl one_pos (by norm_num)
    (C98_relaxed refSolver_spec (ε := 1 / 100) (δ := 0) (by norm_num) le_rfl) refSolver_spec (line_module _ id 0) (line_pos id 0) rfl
    (u0 := [0]) (d0 := []) (line_by.2 ⟨0, rfl, rfl, by rw [e]; norm_num⟩) h h'
  have ew : qpWeights (lineObj id 0) = [] := rfl
  rw [ew, slackCost_nil, sqDist_one] at this
  norm_num at this
  linarith

/-- C98 (interference, loop and `bias_negative`): with the default bias `-0.01` and tolerance `1/1000` the state `1` with desired
control `0` is left alone, and the loop theorem applies. -/
example : ∀ t : ℝ, 0 ≤ t → 0 ≤ (lineC (polyAlpha [0, 1]) (-1 / 100)).value [(fun _ : ℝ => (1 : ℝ)) t] := by
  have e : strengthening (lineC (polyAlpha [0, 1]) (-1 / 100)) (polyAlpha [0, 1]) 1 = 1 := by
    unfold strengthening; rw [if_pos (by norm_num)]; simp [polyAlpha, polyLoop]
  have hk : ClassKCoefs [(0 : ℝ), 1] := by
    refine ⟨fun i c hc => ?_, 1, 1, rfl, one_pos⟩
    rcases i with _ | _ | i
    · simp at hc; subst hc; simp
    · simp at hc; subst hc; simp
    · simp at hc
  have hspec : SolverTol (1 / 1000) 0 (relaxedSolver (1 / 1000) refSolver) := C98_relaxed refSolver_spec (by norm_num) le_rfl
  refine C98_bias (ε := 1 / 1000) (δ := 0) (B := 1) (X := Unit) (x := fun _ => [1]) (u := fun _ => [0]) (k := "c") (coefs := [0, 1])
    (by norm_num) hspec posC_grad (single_trajectory fun t => hasDerivAt_const t 1) hk rfl rfl
    (by norm_num [lineC]) rfl rfl (fun t _ => ?_) (by rw [line_value]; norm_num)
  have hm := line_module (relaxedSolver (1 / 1000) refSolver) (polyAlpha [0, 1]) (-1 / 100)
  have hp := line_pos (polyAlpha [0, 1]) (-1 / 100)
  obtain ⟨v, hv⟩ := C98_returns hspec hm hp rfl (line_shapes _ _ 1) 1 (u := [0]) rfl (Or.inl rfl)
  have hcall := Prod.ext (x := explicitASIF (relaxedSolver (1 / 1000) refSolver) (fun _ => [0]) (fun _ => [[1]])
    (lineObj (polyAlpha [0, 1]) (-1 / 100)) (.array [1]) 1 [0]) (y := (.ok v, _)) hv rfl
  have hadm : Admissible (fun _ => [0]) (fun _ => [[1]]) (lineObj (polyAlpha [0, 1]) (-1 / 100)) [(1 : ℝ)] [0] :=
    admissible_iff_zeros.2 (admissibleBy_zero.1 (line_by.2 ⟨0, rfl, rfl, by rw [e]; norm_num⟩))
  obtain ⟨h1, h2⟩ := C98_interference le_rfl hspec hm hp rfl hadm hcall
  have hlen : v.length = 1 := by
    obtain ⟨-, w, d, had, hclip, -⟩ := tol_solved hspec hm.inv.1 hm.inv.2 hp rfl hcall
      (Or.inr ⟨[0], [], line_by.2 ⟨0, rfl, rfl, by rw [e]; norm_num⟩⟩)
    have : v = w := (Except.ok.inj hclip).symm
    rw [this]
    exact had.len
  obtain ⟨p, rfl⟩ := List.length_eq_one_iff.1 hlen
  rw [sqDist_one] at h1
  have hp0 : p = 0 := by nlinarith [mul_self_nonneg p]
  subst hp0
  exact ⟨_, _, 1, [0], hm, hp, by intro i l h hl; simp [lineObj, Base.init, boundAt] at hl, rfl, by simp [lineObj], line_shapes _ _ 1,
    (line_authority _ _ 1).le, Or.inr ⟨[0], [], line_by.2 ⟨0, rfl, rfl, by rw [e]; norm_num⟩⟩, hcall⟩

end RTA
