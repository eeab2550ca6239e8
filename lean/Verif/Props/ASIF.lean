import Verif.Lemmas.ASIFReach
import Verif.Lemmas.ASIFCost
import Verif.Lemmas.QPExists
import Verif.Props.Base

/-!
Properties of explicit ASIF modules: C22-C30 and the ASIF parts of C09-C12 and C28.

`K` is any ordered field with a square root; concrete instances use `ℝ` with `refSolver`, a solver that satisfies
`SolverSpec` (`refSolver_spec`). `ExplicitModule solver f g s` says that `s` was constructed by `__init__` and then used in
any way (calls, also failing ones, edits, value updates, enabling, resets).
-/
set_option linter.unusedSectionVars false
namespace RTA
variable {K S P X : Type}

/-! ### A concrete module

One control in `[-2, 2]`, `dx/dt = u`, constraint `x >= 0` with the identity as strengthener. -/

/-- `h(x) = x`; optional slack. -/
noncomputable def toyC (slack : Option ℝ) : Constraint ℝ ℝ Unit :=
  { computeFn := fun x _ => x, phiFn := fun x _ => x, gradFn := fun _ _ => [1], alpha := some id, alphaNeg := none
    bias := 0, biasNegative := -(1 / 100), slackPriorityScale := slack, params := (), enabled := true, subsample := {} }

noncomputable def toyF : ℝ → List ℝ := fun _ => [0]
noncomputable def toyG : ℝ → List (List ℝ) := fun _ => [[1]]

/-- The constructed module. -/
noncomputable def toyInit (slack : Option ℝ) (exc : Bool) : Except PyErr (ASIFObj ℝ ℝ Unit Unit) :=
  asifInit (some (.scalar 2)) (some (.scalar (-2))) [("c", toyC slack)] none (1 / 10000) 1 exc [] ()

noncomputable def toyObj (slack : Option ℝ) (exc : Bool) : ASIFObj ℝ ℝ Unit Unit :=
  { toBase := Base.init (some (.scalar 2)) (some (.scalar (-2)))
    constraints := [("c", toyC slack)], params := [("c", ())], constraintEnabled := [("c", true)], constraintValues := []
    isStaleConstraints := false
    ext := { epsilon := 1 / 10000, controlDim := 1, solverException := exc, numSlack := (slackWeights [("c", toyC slack)]).length
             objWeight := [1] ++ slackWeights [("c", toyC slack)], constraintNames := ["u1_min", "u1_max", "c"]
             actuation := [⟨[1] ++ zeros (slackWeights [("c", toyC slack)]).length, -2⟩,
               ⟨[-1] ++ zeros (slackWeights [("c", toyC slack)]).length, -2⟩]
             direct := [], directParams := [], directEnabled := [], causing := none, extra := () } }

theorem toy_init (slack : Option ℝ) (exc : Bool) : toyInit slack exc = .ok (toyObj slack exc) := rfl

theorem toy_module (solver : Solver ℝ) (slack : Option ℝ) (exc : Bool) :
    ExplicitModule solver toyF toyG (toyObj slack exc) :=
  ⟨_, _, _, _, _, _, _, _, _, _, [], by simp [dictKeys], by simp [dictKeys], toy_init slack exc, rfl⟩

theorem toy_shapes (slack : Option ℝ) (exc : Bool) (x : ℝ) : ShapesOK toyF toyG (toyObj slack exc) x :=
  ⟨by simp [toyObj, toyC], by simp [toyObj, toyC, toyF], rfl, by simp [toyG, toyObj], by simp [toyObj]⟩

theorem toy_strength (slack : Option ℝ) (x : ℝ) :
    strengthening (toyC slack) id x = if 0 ≤ x then x else 10 * x - 1 / 100 := by
  unfold strengthening
  split
  · rfl
  · simp [toyC]; ring

theorem toy_barrier (slack : Option ℝ) (x u d : ℝ) :
    BarrierOK toyF toyG (toyC slack) x [u] d ↔ d ≤ u + if 0 ≤ x then x else 10 * x - 1 / 100 := by
  have e : barrierValue toyF toyG (toyC slack) x [u] = some (u + if 0 ≤ x then x else 10 * x - 1 / 100) := by
    rw [← toy_strength slack]
    simp [barrierValue, toyC, toyF, toyG, matVec, vadd]
  unfold BarrierOK
  rw [e]
  simp

theorem toy_within (slack : Option ℝ) (exc : Bool) (u : ℝ) :
    Within (toyObj slack exc).controlBoundsLow (toyObj slack exc).controlBoundsHigh [u] ↔ -2 ≤ u ∧ u ≤ 2 := by
  constructor
  · intro h
    obtain ⟨h1, h2⟩ := h 0 u rfl
    exact ⟨h1 _ rfl, h2 _ rfl⟩
  · rintro ⟨h1, h2⟩ i v hv
    cases i with
    | zero =>
      simp only [List.getElem?_cons_zero, Option.some.injEq] at hv
      subst hv
      refine ⟨fun b hb => ?_, fun b hb => ?_⟩
      · simp only [toyObj, Base.init, boundAt, Option.some.injEq] at hb; rw [← hb]; exact h1
      · simp only [toyObj, Base.init, boundAt, Option.some.injEq] at hb; rw [← hb]; exact h2
    | succ i => simp at hv

theorem toy_admissible (slack : Option ℝ) (exc : Bool) (x : ℝ) (w : List ℝ) :
    Admissible toyF toyG (toyObj slack exc) x w ↔
      ∃ u, w = [u] ∧ (-2 ≤ u ∧ u ≤ 2) ∧ 0 ≤ u + if 0 ≤ x then x else 10 * x - 1 / 100 := by
  constructor
  · intro h
    have hl := h.len
    obtain ⟨u, rfl⟩ := List.length_eq_one_iff.1 (show w.length = 1 from hl)
    exact ⟨u, rfl, (toy_within slack exc u).1 h.bounds, (toy_barrier slack x u 0).1 (h.barrier ("c", toyC slack) (by simp [toyObj]) rfl)⟩
  · rintro ⟨u, rfl, h1, h2⟩
    refine ⟨rfl, (toy_within slack exc u).2 h1, ?_, by simp [toyObj]⟩
    intro kc hkc _
    simp only [toyObj, List.mem_singleton] at hkc
    subst hkc
    exact (toy_barrier slack x u 0).2 h2

theorem toy_pos (w : ℝ) (hw : 0 < w) (exc : Bool) : ScalesPos (toyObj (some w) exc).constraints := by
  intro q hq
  simp only [toyObj, slackScales, toyC, List.filterMap_cons, List.filterMap_nil, List.mem_singleton] at hq
  subst hq; exact hw

theorem toy_pos_none (exc : Bool) : ScalesPos (toyObj none exc).constraints := by
  intro q hq
  simp [toyObj, slackScales, toyC] at hq

section
variable [Field K] [LinearOrder K] [IsStrictOrderedRing K]

/-! ### C22 -/

/-- **C22**. Whatever bounds were given and for any number of slack variables: the actuation inequalities are satisfied by a
control `u` followed by any slack values exactly when `u` respects its bounds in every component. -/
theorem C22_actuation_rows (low high : Option (Bound K)) (n numSlack : Nat) (rows : List (Row K)) (names : List String)
    (h : actuationMats low high n numSlack = .ok (rows, names)) (u d : List K) (hu : u.length = n) :
    (∀ r ∈ rows, RowHolds r (u ++ d)) ↔ Within low high u :=
  actuation_iff h hu

/-- Bounds `u1 ≥ -1`, `u2 ≥ -2`, `u ≤ 3` with one slack variable. -/
example : ∃ rows names, actuationMats (some (.arr false [(-1 : ℚ), -2])) (some (.scalar 3)) 2 1 = .ok (rows, names) ∧
    rows.length = 4 ∧ (∀ r ∈ rows, RowHolds r ([3, -2] ++ [100])) ∧ ¬ (∀ r ∈ rows, RowHolds r ([-2, 0] ++ [100])) := by
  refine ⟨_, _, rfl, rfl, ?_, ?_⟩
  · simp only [RowHolds]; decide +kernel
  · simp only [RowHolds]; decide +kernel

/-! ### C23 and the problem handed to the solver -/

/-- **C23**. For each constraint in order, with the slack value assigned to it (zero if it has no slack): the inequality
generated for an enabled constraint is satisfied by `u` and slack values `d` exactly when
`grad h . (f(x) + g(x) u) + a(h(x)) >= slack`; the inequality generated for a disabled one is always satisfied. -/
theorem C23_barrier_rows [HasSqrt K] {solver : Solver K} {f : S → List K} {g : S → List (List K)} {s : ASIFObj K S P X}
    (hs : ExplicitModule solver f g s) (x : S) (dt : K) (u0 : List K) (rows : List (Row K)) (s1 : ASIFObj K S P X)
    (h : explicitGenRows f g (aprep s x u0) x dt = (.ok rows, s1)) :
    ∃ bar, rows = s.ext.actuation ++ bar ∧ ∀ u d : List K, u.length = s.ext.controlDim → d.length = (slackScales s.constraints).length →
      List.Forall₂ (fun r cd => RowHolds r (u ++ d) ↔ (cd.1.enabled = true → BarrierOK f g cd.1 x u cd.2)) bar
        (assignSlack s.constraints d) := by
  obtain ⟨hinv, hnames⟩ := hs.inv
  obtain ⟨-, bar, hbar, rfl⟩ := explicitGenRows_ok h
  have hcf := cachesFresh_aprep hinv.wf x u0
  refine ⟨bar, rfl, fun u d hu hd => ?_⟩
  obtain ⟨-, hrep⟩ := explicitRows_spec (f := f) (g := g) (n := s.ext.controlDim) (k := s.ext.numSlack) s.constraints hcf.params
    hcf.enabled 0 (by rw [hinv.slack]; omega) hbar
  have := hrep u d hu (hd.trans hinv.slack.symm)
  rw [List.drop_zero] at this
  exact this.imp fun r cd hr => rep_holds hr

/-- **C22, C23, C27, seen from outside**. Whenever the array shapes fit, an enabled module confronts the solver with one
problem: minimise `½ zᵀ diag(1,..,1,√w₁,..,√w_k) z - (u_des, 0,..,0)ᵀ z` under `rows`, where a point `(w, d)` satisfies the
rows exactly when `w` with slack values `d` is admissible. What the call returns is determined by the solver's answer to
this problem: the clipped control part of a solution; on inconsistency `SolverError` or the clipped desired control,
according to `solver_exception`; any other solver error is raised again. -/
theorem C23_problem_handed_to_solver [HasSqrt K] {solver0 : Solver K} {f : S → List K} {g : S → List (List K)} {s : ASIFObj K S P X}
    (hs : ExplicitModule solver0 f g s) (hen : s.enable = true) (x : S) (hsh : ShapesOK f g s x) (dt : K) (u : List K)
    (hu : u.length = s.ext.controlDim) :
    ∃ rows : List (Row K),
      (∀ w d : List K, w.length = s.ext.controlDim → d.length = (slackScales s.constraints).length →
        ((∀ r ∈ rows, RowHolds r (w ++ d)) ↔ AdmissibleS f g s x w d)) ∧
      ∀ solver : Solver K,
        let answer := solver (List.replicate s.ext.controlDim 1 ++ (slackScales s.constraints).map HasSqrt.sqrt)
          (u ++ zeros (slackScales s.constraints).length) rows
        (∀ z iact, answer = .solved z iact → (∀ i ∈ iact, (rowAt rows i).isSome) →
          (explicitASIF solver f g s (.array x) dt u).1 = s.toBase.clipControl (z.take s.ext.controlDim)) ∧
        (answer = .valueError inconsistentMsg → (explicitASIF solver f g s (.array x) dt u).1 =
          if s.ext.solverException then .error .solverError else s.toBase.clipControl u) ∧
        (∀ msg, answer = .valueError msg → msg ≠ inconsistentMsg →
          (explicitASIF solver f g s (.array x) dt u).1 = .error (.valueError msg)) := by
  obtain ⟨hinv, hnames⟩ := hs.inv
  have hcf := cachesFresh_aprep hinv.wf x u
  have hdf := directFresh_aprep hinv x u
  obtain ⟨bar, hbar⟩ := explicitRows_total (n := s.ext.controlDim) (k := s.ext.numSlack) s.constraints hcf.params hcf.enabled
    hsh.alpha hsh.grad hsh.input hsh.cols 0
  obtain ⟨drows, hdr⟩ := directRows_total (n := s.ext.controlDim) (k := s.ext.numSlack) s.ext.direct hdf.1 hdf.2 hsh.direct
  have hgen : explicitGenRows f g (aprep s x u) x dt = (.ok (s.ext.actuation ++ bar), aprep s x u) := by
    unfold explicitGenRows
    have e : explicitRows f g (aprep s x u).params (aprep s x u).constraintEnabled (aprep s x u).ext.controlDim
      (aprep s x u).ext.numSlack x 0 (aprep s x u).constraints = .ok bar := hbar
    rw [e]
    rfl
  obtain ⟨hl, hwid, hrep⟩ := explicit_rep hinv hnames hgen hdr
  have hGl := objWeight_length hinv
  refine ⟨s.ext.actuation ++ bar ++ drows, ?_, ?_⟩
  · intro w d hw hd
    rw [← explicit_feasible hinv hnames hgen hdr hw (hd.trans hinv.slack.symm)]
    unfold Feasible
    have : (w ++ d).length = s.ext.objWeight.length := by rw [List.length_append, hGl, hw, hd, hinv.slack]
    simp [this]
  · intro solver
    have hal : (u ++ zeros s.ext.numSlack).length = s.ext.objWeight.length := by
      rw [List.length_append, zeros_length, hGl, hu]
    have hrw : ∀ r ∈ s.ext.actuation ++ bar ++ drows, r.w.length = s.ext.objWeight.length := by
      rw [hGl]; exact hwid
    have hqs : quadprogSolve solver s.ext.objWeight (u ++ zeros s.ext.numSlack) (s.ext.actuation ++ bar ++ drows) =
        solver s.ext.objWeight (u ++ zeros s.ext.numSlack) (s.ext.actuation ++ bar ++ drows) := by
      unfold quadprogSolve
      rw [if_pos ⟨hal, hrw⟩]
    have ew : List.replicate s.ext.controlDim 1 ++ (slackScales s.constraints).map HasSqrt.sqrt = s.ext.objWeight := by
      rw [hinv.weight, slackWeights_eq]
    rw [ew, ← hinv.slack]
    have hcall : (explicitASIF solver f g s (.array x) dt u).1 =
        match optimize solver (aprep s x u) u (s.ext.actuation ++ bar ++ drows) with
        | (.error e, _) => .error e
        | (.ok c, _) => s.toBase.clipControl c := by
      unfold explicitASIF
      rw [call_eq _ hen, asifFilter_core]
      unfold asifCore
      simp only [hgen]
      have e2 : directRows (aprep s x u).ext.directParams (aprep s x u).ext.directEnabled (aprep s x u).ext.controlDim
          (aprep s x u).ext.numSlack x (aprep s x u).ext.direct = .ok drows := hdr
      simp only [e2]
      obtain ⟨-, -, -, o3⟩ := optimize_blur solver (aprep s x u) s.intervening s.controlActual s.ext.causing s.ext.extra u
        (s.ext.actuation ++ bar ++ drows)
      rcases ho : optimize solver (aprep s x u) u (s.ext.actuation ++ bar ++ drows) with ⟨_ | c, s1⟩
      · rfl
      · simp only
        rw [ho] at o3
        simp only at o3
        rw [clipControl_congr s.toBase]
        · rcases s.toBase.clipControl c with _ | c' <;> rfl
        · show s1.controlBoundsLow = _
          rw [o3]; rfl
        · show s1.controlBoundsHigh = _
          rw [o3]; rfl
    have w1 : (aprep s x u).ext.objWeight = s.ext.objWeight := rfl
    have w2 : (aprep s x u).ext.numSlack = s.ext.numSlack := rfl
    have w3 : (aprep s x u).ext.controlDim = s.ext.controlDim := rfl
    have w4 : (aprep s x u).ext.constraintNames = s.ext.constraintNames := rfl
    have w5 : (aprep s x u).ext.solverException = s.ext.solverException := rfl
    refine ⟨?_, ?_, ?_⟩
    · intro z iact hq hi
      have hir : ∀ i ∈ iact, 1 ≤ i ∧ (i - 1).toNat < s.ext.constraintNames.length := by
        intro i hii
        obtain ⟨r, hr⟩ := Option.isSome_iff_exists.1 (hi i hii)
        obtain ⟨h1, h2, -⟩ := rowAt_some hr
        rw [hl]
        exact ⟨h1, h2⟩
      obtain ⟨l, hlp, -, -⟩ := causingLoop_spec s.ext.constraintNames iact hir [] List.nodup_nil
      rw [hcall]
      unfold optimize
      simp only [w1, w2, w3, w4, hqs, hq, hlp]
    · intro hq
      rw [hcall]
      unfold optimize
      simp only [w1, w2, w3, w5, hqs, hq, zeros_append_take hu, if_true]
      cases s.ext.solverException <;> simp
    · intro msg hq hm
      rw [hcall]
      unfold optimize
      simp only [w1, w2, hqs, hq, if_neg hm]

/-- The concrete module meets the hypotheses in every state. -/
example (x u dt : ℝ) : ∃ rows : List (Row ℝ), (∀ w d : List ℝ, w.length = 1 → d.length = 1 →
    ((∀ r ∈ rows, RowHolds r (w ++ d)) ↔ AdmissibleS toyF toyG (toyObj (some 4) false) x w d)) :=
  Exists.imp (fun _ h => h.1)
    (C23_problem_handed_to_solver (toy_module refSolver (some 4) false) rfl x (toy_shapes _ _ x) dt [u] rfl)

variable [HasSqrt K] [LawfulSqrt K]

/-! ### C24 -/

/-- **C24**. With a solver that does what it promises, no slack variables, and a state in which some control is admissible: a
returned control satisfies every enabled barrier condition, every enabled direct inequality and the bounds, and every other
control that does is strictly farther from the desired control. -/
theorem C24_closest_admissible {solver : Solver K} (hspec : SolverSpec solver) {f : S → List K} {g : S → List (List K)}
    {s s' : ASIFObj K S P X} (hs : ExplicitModule solver f g s) (hns : slackScales s.constraints = []) (hen : s.enable = true)
    (x : S) (dt : K) (u v : List K) (hcall : explicitASIF solver f g s (.array x) dt u = (.ok v, s'))
    (hadm : ∃ w, Admissible f g s x w) :
    Admissible f g s x v ∧ ∀ w, Admissible f g s x w → w ≠ v → sqDist v u < sqDist w u := by
  obtain ⟨hinv, hnames⟩ := hs.inv
  have hpos : ScalesPos s.constraints := by intro w hw; rw [hns] at hw; simp at hw
  obtain ⟨w0, hw0⟩ := hadm
  obtain ⟨-, d, l, had, hmin, -⟩ := explicit_solved hspec hinv hnames hpos hen hcall
    ⟨w0, [], (admissibleS_noslack hns).2 ⟨rfl, hw0⟩⟩
  obtain ⟨rfl, hav⟩ := (admissibleS_noslack hns).1 had
  refine ⟨hav, fun w hw hne => ?_⟩
  have := hmin w [] ((admissibleS_noslack hns).2 ⟨rfl, hw⟩) (by simpa using hne.symm)
  have e : qpWeights s = [] := by unfold qpWeights; rw [hns]; rfl
  rwa [e, slackCost_nil, slackCost_nil] at this

/-- Such calls return. (Solver promise, shapes, some admissible control.) -/
theorem C24_returns {solver : Solver K} (hspec : SolverSpec solver) {f : S → List K} {g : S → List (List K)}
    {s : ASIFObj K S P X} (hs : ExplicitModule solver f g s) (hpos : ScalesPos s.constraints) (hen : s.enable = true)
    (x : S) (hsh : ShapesOK f g s x) (dt : K) (u : List K) (hu : u.length = s.ext.controlDim)
    (hadm : ∃ w d, AdmissibleS f g s x w d) : ∃ v, (explicitASIF solver f g s (.array x) dt u).1 = .ok v :=
  (explicit_total hspec hs.inv.1 hs.inv.2 hpos hsh dt hu hen).1 hadm

theorem toy_call (exc : Bool) (x dt u : ℝ) (hadm : ∃ w, Admissible toyF toyG (toyObj none exc) x w) :
    ∃ v s', explicitASIF refSolver toyF toyG (toyObj none exc) (.array x) dt [u] = (.ok v, s') := by
  obtain ⟨w, hw⟩ := hadm
  obtain ⟨v, hv⟩ := C24_returns refSolver_spec (toy_module refSolver none exc) (toy_pos_none exc) rfl x (toy_shapes none exc x) dt
    [u] rfl ⟨w, _, admissible_iff_zeros.1 hw⟩
  exact ⟨v, _, Prod.ext hv rfl⟩

/-- At `x = 1` with desired control `-2` the hypotheses hold, and the call returns `-1`. -/
theorem toy_result (solver : Solver ℝ) (hspec : SolverSpec solver) (exc : Bool) (dt : ℝ) (v : List ℝ) (s' : ASIFObj ℝ ℝ Unit Unit)
    (h : explicitASIF solver toyF toyG (toyObj none exc) (.array 1) dt [-2] = (.ok v, s')) : v = [-1] := by
  have h1 : Admissible toyF toyG (toyObj none exc) (1 : ℝ) [-1] := (toy_admissible none exc 1 [-1]).2 ⟨-1, rfl, by norm_num⟩
  obtain ⟨hv, hmin⟩ := C24_closest_admissible hspec (toy_module solver none exc) (by simp [toyObj, slackScales, toyC]) rfl 1 dt [-2] v h
    ⟨_, h1⟩
  obtain ⟨w, rfl, hw, hb⟩ := (toy_admissible none exc 1 v).1 hv
  by_contra hne
  have := hmin [-1] h1 (fun e => hne (by rw [e]))
  simp only [sqDist, vsub, sqNorm, List.zipWith_cons_cons, List.zipWith_nil_right, dot_cons, dot_nil_left] at this
  norm_num at hb this
  nlinarith

example : ∃ v s', explicitASIF refSolver toyF toyG (toyObj none false) (.array 1) (1 : ℝ) [-2] = (.ok v, s') ∧ v = [-1] := by
  obtain ⟨v, s', h⟩ := toy_call false 1 1 (-2) ⟨[-1], (toy_admissible none false 1 [-1]).2 ⟨-1, rfl, by norm_num⟩⟩
  exact ⟨v, s', h, toy_result refSolver refSolver_spec false 1 v s' h⟩

/-! ### C25 -/

/-- **C25**. If the desired control satisfies all barrier conditions (without slack), direct inequalities and bounds, it is
returned unchanged and `intervening` is `False` - also in modules with slack variables. -/
theorem C25_no_interference {solver : Solver K} (hspec : SolverSpec solver) {f : S → List K} {g : S → List (List K)}
    {s : ASIFObj K S P X} (hs : ExplicitModule solver f g s) (hpos : ScalesPos s.constraints) (heps : 0 ≤ s.ext.epsilon)
    (hen : s.enable = true) (x : S) (hsh : ShapesOK f g s x) (dt : K) (u : List K) (hadm : Admissible f g s x u) :
    (explicitASIF solver f g s (.array x) dt u).1 = .ok u ∧
      (explicitASIF solver f g s (.array x) dt u).2.intervening = false := by
  obtain ⟨hinv, hnames⟩ := hs.inv
  have had := admissible_iff_zeros.1 hadm
  obtain ⟨v, hv⟩ := (explicit_total hspec hinv hnames hpos hsh dt hadm.len hen).1 ⟨_, _, had⟩
  have hcall : explicitASIF solver f g s (.array x) dt u = (.ok v, (explicitASIF solver f g s (.array x) dt u).2) := Prod.ext hv rfl
  obtain ⟨-, d, l, hav, hmin, hint, -⟩ := explicit_solved hspec hinv hnames hpos hen hcall ⟨_, _, had⟩
  have hvu : v = u := by
    by_contra hne
    have := hmin u _ had (fun e => hne (List.append_inj_left e (hav.len.trans hadm.len.symm)))
    rw [slackCost_zeros, sqDist_self] at this
    exact absurd this (not_lt.2 (slackCost_nonneg (qpWeights_pos hpos) _ _ _))
  subst hvu
  refine ⟨hv, ?_⟩
  rw [hint]
  unfold asifMonitor
  rw [sqNorm_vsub_self, decide_eq_false_iff_not, not_lt]
  have h0 := LawfulSqrt.mul_self (0 : K) le_rfl
  rw [mul_self_eq_zero] at h0
  rw [h0]
  exact heps

/-- At `x = 1` the desired control `0.5` is admissible, with or without slack variable. -/
example (sl : Option ℝ) : Admissible toyF toyG (toyObj sl false) (1 : ℝ) [1 / 2] ∧ (0 : ℝ) ≤ (toyObj sl false).ext.epsilon :=
  ⟨(toy_admissible sl false 1 _).2 ⟨1 / 2, rfl, by norm_num⟩, by simp only [toyObj]; norm_num⟩

/-! ### C26 -/

omit [HasSqrt K] [LawfulSqrt K] in
theorem clip_within (b : Base K) (u c : List K) (hcons : BoundsConsistent b.controlBoundsLow b.controlBoundsHigh)
    (h : b.clipControl u = .ok c) : Within b.controlBoundsLow b.controlBoundsHigh c := by
  have hc : filterControl (σ := Base K) (I := Unit) (fun s _ _ u => (.ok u, s)) { b with enable := true } () 0 u =
      (.ok c, { b with enable := true, controlDesired := some u, controlActual := some c }) := by
    unfold filterControl
    simp only [modifyBase, HasBase.get, HasBase.set, id, if_true]
    have e : ({ b with enable := true, controlDesired := some u } : Base K).clipControl u = .ok c := by
      rw [← h]; rfl
    rw [e]
  exact C01_filtered_control_within (σ := Base K) (I := Unit) (fun s _ _ u => (.ok u, s)) (fun _ _ _ _ => ⟨rfl, rfl⟩)
    { b with enable := true } () 0 u c _ rfl hcons hc

/-- A list of very small slack values satisfies all barrier conditions. -/
theorem exists_low_slack {f : S → List K} {g : S → List (List K)} (x : S) (w : List K) (cs : Dict (Constraint K S P))
    (ha : ∀ kc ∈ cs, kc.2.alpha.isSome = true) (hsl : ∀ kc ∈ cs, kc.2.enabled = true → kc.2.slackPriorityScale.isSome = true) :
    ∃ d : List K, d.length = (slackScales cs).length ∧
      ∀ cd ∈ assignSlack cs d, cd.1.enabled = true → BarrierOK f g cd.1 x w cd.2 := by
  induction cs with
  | nil => exact ⟨[], rfl, by simp [assignSlack]⟩
  | cons kc cs ih =>
    obtain ⟨q, c⟩ := kc
    obtain ⟨d, hd, hb⟩ := ih (fun kc h => ha kc (by simp [h])) (fun kc h => hsl kc (by simp [h]))
    obtain ⟨al, hal⟩ := Option.isSome_iff_exists.1 (ha (q, c) (by simp))
    rcases hs : c.slackPriorityScale with _ | w'
    · refine ⟨d, by rw [slackScales_cons, hs]; exact hd, ?_⟩
      intro cd hcd hen
      unfold assignSlack at hcd
      simp only [hs, Option.isSome_none, Bool.false_eq_true, if_false, List.mem_cons] at hcd
      rcases hcd with rfl | hcd
      · have := hsl (q, c) (by simp) hen
        simp [hs] at this
      · exact hb cd hcd hen
    · simp only at hal
      refine ⟨(dot (c.gradFn x c.params) (vadd (f x) (matVec (g x) w)) + strengthening c al (c.computeFn x c.params + c.bias)) :: d,
        by rw [slackScales_cons, hs]; simp [hd], ?_⟩
      intro cd hcd hen
      unfold assignSlack at hcd
      simp only [hs, Option.isSome_some, if_true, List.headD_cons, List.tail_cons, List.mem_cons] at hcd
      rcases hcd with rfl | hcd
      · exact ⟨_, by simp only [barrierValue, hal, Option.map_some], le_rfl⟩
      · exact hb cd hcd hen

/-- **C26, feasibility**. If every enabled barrier constraint has a slack variable, no direct constraint is enabled and the
bounds do not contradict each other, the optimisation has a solution in every state, so the call returns a control
whatever the solver exception policy. -/
theorem C26_slack_always_feasible {solver : Solver K} (hspec : SolverSpec solver) {f : S → List K} {g : S → List (List K)}
    {s : ASIFObj K S P X} (hs : ExplicitModule solver f g s) (hpos : ScalesPos s.constraints) (hen : s.enable = true)
    (hsl : ∀ kc ∈ s.constraints, kc.2.enabled = true → kc.2.slackPriorityScale.isSome = true)
    (hdir : ∀ kc ∈ s.ext.direct, kc.2.enabled = false) (hb : BoundsConsistent s.controlBoundsLow s.controlBoundsHigh)
    (x : S) (hsh : ShapesOK f g s x) (dt : K) (u : List K) (hu : u.length = s.ext.controlDim) :
    (∃ w d, AdmissibleS f g s x w d) ∧ ∃ v, (explicitASIF solver f g s (.array x) dt u).1 = .ok v := by
  obtain ⟨hinv, hnames⟩ := hs.inv
  obtain ⟨names, hact⟩ := hinv.act
  obtain ⟨fl, fh⟩ := boundFits_of_act hact
  obtain ⟨c, hc, hcl⟩ := C05_clip_total s.toBase u (by rw [hu]; exact fl) (by rw [hu]; exact fh)
  have hin : Within s.controlBoundsLow s.controlBoundsHigh c := clip_within s.toBase u c hb hc
  obtain ⟨d, hd, hbar⟩ := exists_low_slack (f := f) (g := g) x c s.constraints hsh.alpha hsl
  have hadm : ∃ w d, AdmissibleS f g s x w d :=
    ⟨c, d, hcl.trans hu, hd, hin, hbar, fun kc hkc he => by rw [hdir kc hkc] at he; simp at he⟩
  exact ⟨hadm, C24_returns hspec hs hpos hen x hsh dt u hu hadm⟩

/-- **C26, objective, the part that holds.** The returned control together with some slack values is admissible and strictly
cheaper than every other admissible pair for the objective `|u - u_des|² + Σ √wᵢ dᵢ²`, `wᵢ` the slack priority scales. What
is missing: the documented weights are `wᵢ`, not `√wᵢ` (`C26_refuted_slack_weight`); they agree when every scale is one. -/
theorem C26_slack_objective_partial {solver : Solver K} (hspec : SolverSpec solver) {f : S → List K} {g : S → List (List K)}
    {s s' : ASIFObj K S P X} (hs : ExplicitModule solver f g s) (hpos : ScalesPos s.constraints) (hen : s.enable = true)
    (x : S) (dt : K) (u v : List K) (hcall : explicitASIF solver f g s (.array x) dt u = (.ok v, s'))
    (hadm : ∃ w d, AdmissibleS f g s x w d) :
    ∃ d, AdmissibleS f g s x v d ∧ ∀ w e, AdmissibleS f g s x w e → v ++ d ≠ w ++ e →
      slackCost ((slackScales s.constraints).map HasSqrt.sqrt) u v d <
        slackCost ((slackScales s.constraints).map HasSqrt.sqrt) u w e := by
  obtain ⟨-, d, l, hav, hmin, -⟩ := explicit_solved hspec hs.inv.1 hs.inv.2 hpos hen hcall hadm
  exact ⟨d, hav, hmin⟩

theorem lawful_sqrt_one : (HasSqrt.sqrt (1 : K)) = 1 := by
  have h1 := LawfulSqrt.mul_self (1 : K) zero_le_one
  have h2 := LawfulSqrt.nonneg (1 : K) zero_le_one
  rcases mul_self_eq_one_iff.1 h1 with h | h
  · exact h
  · rw [h] at h2; linarith

/-- **C26, objective, unit scales**: with every slack priority scale equal to one the documented objective is minimised. -/
theorem C26_slack_objective_unit_partial {solver : Solver K} (hspec : SolverSpec solver) {f : S → List K} {g : S → List (List K)}
    {s s' : ASIFObj K S P X} (hs : ExplicitModule solver f g s) (hone : ∀ w ∈ slackScales s.constraints, w = 1)
    (hen : s.enable = true) (x : S) (dt : K) (u v : List K)
    (hcall : explicitASIF solver f g s (.array x) dt u = (.ok v, s')) (hadm : ∃ w d, AdmissibleS f g s x w d) :
    ∃ d, AdmissibleS f g s x v d ∧ ∀ w e, AdmissibleS f g s x w e → v ++ d ≠ w ++ e →
      slackCost (slackScales s.constraints) u v d < slackCost (slackScales s.constraints) u w e := by
  have e : (slackScales s.constraints).map HasSqrt.sqrt = slackScales s.constraints := by
    conv_rhs => rw [← List.map_id (slackScales s.constraints)]
    refine List.map_congr_left fun w hw => ?_
    rw [hone w hw]; exact lawful_sqrt_one
  have := C26_slack_objective_partial hspec hs (fun w hw => by rw [hone w hw]; exact zero_lt_one) hen x dt u v hcall hadm
  rwa [e] at this

/-- The module with a slack variable of scale 4 meets the hypotheses, also where no control is admissible without slack. -/
example (u dt : ℝ) : (∃ w d, AdmissibleS toyF toyG (toyObj (some 4) true) (-3 : ℝ) w d) ∧
    ∃ v, (explicitASIF refSolver toyF toyG (toyObj (some 4) true) (.array (-3)) dt [u]).1 = .ok v :=
  C26_slack_always_feasible refSolver_spec (toy_module refSolver (some 4) true) (toy_pos 4 (by norm_num) true) rfl
    (by simp [toyObj, toyC]) (by simp [toyObj])
    (fun i a b ha hb => by
      simp only [toyObj, Base.init, boundAt, Option.some.injEq] at ha hb
      rw [← ha, ← hb]; norm_num) (-3) (toy_shapes _ _ _) dt [u] rfl

end


/-- **C26 is violated in the objective**: with a slack priority scale of 4 a call with a correct solver returns a control
that, with every choice of slack values, is more expensive in the documented objective `|u - u_des|² + 4 d²` than some
admissible pair. (The code puts `sqrt(4)` on the diagonal, `rta/asif.py:52`.) -/
theorem C26_refuted_slack_weight (solver : Solver ℝ) (hspec : SolverSpec solver) (dt : ℝ) :
    ∃ v s', explicitASIF solver toyF toyG (toyObj (some 4) false) (.array 0) dt [-1] = (.ok v, s') ∧
      ∃ w e, AdmissibleS toyF toyG (toyObj (some 4) false) 0 w e ∧
        ∀ d, AdmissibleS toyF toyG (toyObj (some 4) false) 0 v d → slackCost [4] [-1] w e < slackCost [4] [-1] v d := by
  have adm : ∀ u d : ℝ, AdmissibleS toyF toyG (toyObj (some 4) false) (0 : ℝ) [u] [d] ↔ (-2 ≤ u ∧ u ≤ 2) ∧ d ≤ u := by
    intro u d
    constructor
    · intro h
      refine ⟨(toy_within _ _ u).1 h.bounds, ?_⟩
      have := (toy_barrier (some 4) 0 u d).1 (h.barrier (toyC (some 4), d) (by simp [toyObj, assignSlack, toyC]) rfl)
      simpa using this
    · rintro ⟨h1, h2⟩
      refine ⟨rfl, by simp [toyObj, slackScales, toyC], (toy_within _ _ u).2 h1, ?_, by simp [toyObj]⟩
      intro cd hcd _
      simp only [toyObj, assignSlack, toyC, Option.isSome_some, if_true, List.headD_cons, List.mem_singleton] at hcd
      subst hcd
      exact (toy_barrier (some 4) 0 u d).2 (by simpa using h2)
  have cost : ∀ p u d : ℝ, slackCost [p] [-1] [u] [d] = (u + 1) * (u + 1) + p * (d * d) := by
    intro p u d
    simp [slackCost, sqDist, sqNorm, vsub]
  have hscale : slackScales (toyObj (some 4) false).constraints = [4] := by simp [toyObj, slackScales, toyC]
  have hsq : (HasSqrt.sqrt (4 : ℝ)) = 2 := by
    have h1 := LawfulSqrt.mul_self (4 : ℝ) (by norm_num)
    have h2 := LawfulSqrt.nonneg (4 : ℝ) (by norm_num)
    nlinarith
  have h3 : AdmissibleS toyF toyG (toyObj (some 4) false) (0 : ℝ) [-1 / 3] [-1 / 3] := (adm _ _).2 (by norm_num)
  have hpos := toy_pos 4 (by norm_num) false
  obtain ⟨v, hv⟩ := C24_returns hspec (toy_module solver (some 4) false) hpos rfl 0 (toy_shapes _ _ _) dt [-1] rfl ⟨_, _, h3⟩
  have hcall : explicitASIF solver toyF toyG (toyObj (some 4) false) (.array 0) dt [-1] =
    (.ok v, (explicitASIF solver toyF toyG (toyObj (some 4) false) (.array 0) dt [-1]).2) := Prod.ext hv rfl
  obtain ⟨d, hd, hmin⟩ := C26_slack_objective_partial hspec (toy_module solver (some 4) false) hpos rfl 0 dt [-1] v hcall ⟨_, _, h3⟩
  rw [hscale] at hmin
  simp only [List.map_cons, List.map_nil, hsq] at hmin
  have hvl : v.length = 1 := hd.len
  have hdl : d.length = 1 := hd.slen.trans (by rw [hscale]; rfl)
  obtain ⟨v, rfl⟩ := List.length_eq_one_iff.1 hvl
  obtain ⟨d, rfl⟩ := List.length_eq_one_iff.1 hdl
  have hv3 : v = -1 / 3 := by
    by_contra hne
    have := hmin _ _ h3 (by simp [hne])
    rw [cost, cost] at this
    have hvd := ((adm v d).1 hd).2
    rcases le_or_gt 0 v with h0 | h0
    · nlinarith [mul_self_nonneg d]
    · have : v * v ≤ d * d := by nlinarith
      nlinarith [mul_self_nonneg (v + 1 / 3)]
  subst hv3
  refine ⟨_, _, hcall, [-1 / 5], [-1 / 5], (adm _ _).2 (by norm_num), ?_⟩
  intro e he
  have hel : e.length = 1 := he.slen.trans (by rw [hscale]; rfl)
  obtain ⟨e, rfl⟩ := List.length_eq_one_iff.1 hel
  rw [cost, cost]
  have h5 := ((adm _ _).1 he).2
  nlinarith

section
variable [Field K] [LinearOrder K] [IsStrictOrderedRing K] [HasSqrt K] [LawfulSqrt K]

/-! ### C27 -/

/-- **C27**. When no control (with slack values) is admissible, the call raises `SolverError` if `solver_exception` is set
and otherwise returns the desired control clipped to the bounds. Other solver errors: `C23_problem_handed_to_solver`. -/
theorem C27_infeasible_policy {solver : Solver K} (hspec : SolverSpec solver) {f : S → List K} {g : S → List (List K)}
    {s : ASIFObj K S P X} (hs : ExplicitModule solver f g s) (hpos : ScalesPos s.constraints) (hen : s.enable = true)
    (x : S) (hsh : ShapesOK f g s x) (dt : K) (u : List K) (hu : u.length = s.ext.controlDim)
    (hno : ¬ ∃ w d, AdmissibleS f g s x w d) :
    (explicitASIF solver f g s (.array x) dt u).1 =
      if s.ext.solverException then .error .solverError else s.toBase.clipControl u :=
  (explicit_total hspec hs.inv.1 hs.inv.2 hpos hsh dt hu hen).2 hno

end

theorem toy_infeasible (exc : Bool) : ¬ ∃ w d, AdmissibleS toyF toyG (toyObj none exc) (-3 : ℝ) w d := by
  rintro ⟨w, d, h⟩
  obtain ⟨-, h⟩ := (admissibleS_noslack (by simp [toyObj, slackScales, toyC])).1 h
  obtain ⟨u, rfl, hu, hb⟩ := (toy_admissible none exc (-3) w).1 h
  norm_num at hb
  linarith [hu.2]

/-- At `x = -3` nothing is admissible: with the exception policy the call raises, otherwise `5` is clipped to `2`. -/
theorem toy_infeasible_call (solver : Solver ℝ) (hspec : SolverSpec solver) (dt : ℝ) :
    (explicitASIF solver toyF toyG (toyObj none true) (.array (-3)) dt [5]).1 = .error .solverError ∧
    (explicitASIF solver toyF toyG (toyObj none false) (.array (-3)) dt [5]).1 = .ok [2] := by
  constructor
  · rw [C27_infeasible_policy hspec (toy_module solver none true) (toy_pos_none true) rfl (-3) (toy_shapes _ _ _) dt [5] rfl
      (toy_infeasible true)]
    rfl
  · rw [C27_infeasible_policy hspec (toy_module solver none false) (toy_pos_none false) rfl (-3) (toy_shapes _ _ _) dt [5] rfl
      (toy_infeasible false)]
    have : (toyObj none false).ext.solverException = false := rfl
    simp only [this, Bool.false_eq_true, if_false]
    have e : (toyObj none false).toBase.clipControl [5] = .ok [min (max 5 (-2)) 2] := rfl
    rw [e]
    norm_num

/-! ### C28 -/

section
variable [Field K] [LinearOrder K] [IsStrictOrderedRing K] [HasSqrt K] [LawfulSqrt K]

theorem lt_sqrt_iff {e q : K} (he : 0 ≤ e) (hq : 0 ≤ q) : e < HasSqrt.sqrt q ↔ e * e < q := by
  have h1 := LawfulSqrt.nonneg q hq
  have h2 := LawfulSqrt.mul_self q hq
  constructor
  · intro h; nlinarith
  · intro h
    by_contra hc
    rw [not_lt] at hc
    nlinarith

/-- **C28 for explicit ASIF, the part that holds.** After a call of an enabled module that returns `v`, `intervening` is
`True` exactly when `v` is farther than `epsilon` from the desired control - provided some control was admissible, or the
desired control respects the bounds. What is missing: if the problem is infeasible and the desired control is out of
bounds the flag stays `False` although the control was clipped (`C28_refuted_infeasible_clip`); a disabled module keeps
the old flag (`C28_refuted_disabled_stale`). -/
theorem C28_asif_intervening_partial {solver : Solver K} (hspec : SolverSpec solver) {f : S → List K} {g : S → List (List K)}
    {s s' : ASIFObj K S P X} (hs : ExplicitModule solver f g s) (hpos : ScalesPos s.constraints) (heps : 0 ≤ s.ext.epsilon)
    (hen : s.enable = true) (x : S) (dt : K) (u v : List K)
    (hcall : explicitASIF solver f g s (.array x) dt u = (.ok v, s'))
    (hcase : (∃ w d, AdmissibleS f g s x w d) ∨ Within s.controlBoundsLow s.controlBoundsHigh u) :
    s'.intervening = true ↔ s.ext.epsilon * s.ext.epsilon < sqDist u v := by
  obtain ⟨hinv, hnames⟩ := hs.inv
  have hmon : ∀ w, asifMonitor s.ext.epsilon u w = true ↔ s.ext.epsilon * s.ext.epsilon < sqDist u w := by
    intro w
    unfold asifMonitor
    rw [decide_eq_true_iff]
    exact lt_sqrt_iff heps (sqNorm_nonneg _)
  by_cases hadm : ∃ w d, AdmissibleS f g s x w d
  · obtain ⟨-, d, l, -, -, hint, -⟩ := explicit_solved hspec hinv hnames hpos hen hcall hadm
    rw [hint]
    exact hmon v
  · have hw := hcase.resolve_left hadm
    obtain ⟨nm, ex, rows, drows, w0, cz, hgen, hdir, hout, hclip, hs'⟩ := asif_ok (genFrame_explicit f g) hen hcall
    have hG := objWeight_pos hinv hpos
    have hGl := objWeight_length hinv
    obtain ⟨names, hact⟩ := hinv.act
    obtain ⟨fl, fh⟩ := boundFits_of_act hact
    cases hout with
    | solved hq hc =>
      exfalso
      obtain ⟨hqs, hal, hrw⟩ := quadprogSolve_dims (Or.inl ⟨_, _, hq⟩)
      rename_i z iact l
      have hfz := (hspec.solved _ _ _ _ _ hG hal hrw (hqs.symm.trans hq)).1
      have hzl : z.length = s.ext.controlDim + s.ext.numSlack := hfz.1.trans hGl
      have hvl : (z.take s.ext.controlDim).length = s.ext.controlDim := by rw [List.length_take]; omega
      have hdl : (z.drop s.ext.controlDim).length = s.ext.numSlack := by rw [List.length_drop]; omega
      refine hadm ⟨_, _, (explicit_feasible hinv hnames hgen hdir hvl hdl).1 ?_⟩
      rw [List.take_append_drop]
      exact hfz
    | infeasible hq hx =>
      obtain ⟨-, hal, -⟩ := quadprogSolve_dims (Or.inr hq)
      have hul : u.length = s.ext.controlDim := by
        rw [hGl, List.length_append, zeros_length] at hal; omega
      rw [zeros_append_take hul] at hclip hs'
      rw [C05_clip_identity s.toBase u (by rw [hul]; exact fl) (by rw [hul]; exact fh) hw] at hclip
      obtain rfl := Except.ok.inj hclip
      rw [hs']
      exact hmon u

end

/-- The hypotheses are met at `x = 1`, desired control `-2`: the flag is set. -/
theorem toy_intervening (solver : Solver ℝ) (hspec : SolverSpec solver) (dt : ℝ) : ∃ s',
    explicitASIF solver toyF toyG (toyObj none false) (.array 1) dt [-2] = (.ok [-1], s') ∧ s'.intervening = true := by
  have h1 : Admissible toyF toyG (toyObj none false) (1 : ℝ) [-1] := (toy_admissible none false 1 [-1]).2 ⟨-1, rfl, by norm_num⟩
  obtain ⟨v, hv⟩ := C24_returns hspec (toy_module solver none false) (toy_pos_none false) rfl 1 (toy_shapes _ _ _) dt [-2] rfl
    ⟨_, _, admissible_iff_zeros.1 h1⟩
  have hcall : explicitASIF solver toyF toyG (toyObj none false) (.array 1) dt [-2] =
    (.ok v, (explicitASIF solver toyF toyG (toyObj none false) (.array 1) dt [-2]).2) := Prod.ext hv rfl
  obtain rfl := toy_result solver hspec false dt v _ hcall
  refine ⟨_, hcall, ?_⟩
  rw [C28_asif_intervening_partial hspec (toy_module solver none false) (toy_pos_none false) (by simp only [toyObj]; norm_num) rfl 1 dt
    _ _ hcall (Or.inl ⟨_, _, admissible_iff_zeros.1 h1⟩)]
  simp only [toyObj, sqDist, vsub, sqNorm, List.zipWith_cons_cons, List.zipWith_nil_right, dot_cons, dot_nil_left]
  norm_num

/-- **C28 is violated** by an infeasible problem without exception policy: the desired control `5` comes back as `2`, far
more than `epsilon` away, with `intervening` `False`. -/
theorem C28_refuted_infeasible_clip (solver : Solver ℝ) (hspec : SolverSpec solver) (dt : ℝ) : ∃ s',
    explicitASIF solver toyF toyG (toyObj none false) (.array (-3)) dt [5] = (.ok [2], s') ∧ s'.intervening = false ∧
      (toyObj none false).ext.epsilon * (toyObj none false).ext.epsilon < sqDist [(5 : ℝ)] [2] := by
  have h2 := (toy_infeasible_call solver hspec dt).2
  have hcall : explicitASIF solver toyF toyG (toyObj none false) (.array (-3)) dt [5] =
    (.ok [2], (explicitASIF solver toyF toyG (toyObj none false) (.array (-3)) dt [5]).2) := Prod.ext h2 rfl
  refine ⟨_, hcall, ?_, ?_⟩
  · have hinv := (toy_module solver none false).inv.1
    have hnames := (toy_module solver none false).inv.2
    obtain ⟨nm, ex, rows, drows, w0, cz, hgen, hdir, hout, hclip, hs'⟩ := asif_ok (genFrame_explicit toyF toyG) rfl hcall
    have hG := objWeight_pos hinv (toy_pos_none false)
    have hGl := objWeight_length hinv
    cases hout with
    | solved hq hc =>
      exfalso
      obtain ⟨hqs, hal, hrw⟩ := quadprogSolve_dims (Or.inl ⟨_, _, hq⟩)
      rename_i z iact l
      have hfz := (hspec.solved _ _ _ _ _ hG hal hrw (hqs.symm.trans hq)).1
      have hzl : z.length = (toyObj none false).ext.controlDim + (toyObj none false).ext.numSlack := hfz.1.trans hGl
      refine toy_infeasible false ⟨_, _, (explicit_feasible hinv hnames hgen hdir (u := z.take 1) (d := z.drop 1) ?_ ?_).1 ?_⟩
      · rw [List.length_take, hzl]; rfl
      · rw [List.length_drop, hzl]; rfl
      · rw [List.take_append_drop]; exact hfz
    | infeasible hq hx =>
      rw [hs']
      show asifMonitor (toyObj none false).ext.epsilon [5] (([5] ++ zeros 0 : List ℝ).take 1) = false
      have : (([5] ++ zeros 0 : List ℝ).take 1) = [5] := rfl
      rw [this]
      unfold asifMonitor
      rw [sqNorm_vsub_self, decide_eq_false_iff_not, not_lt]
      have h0 := LawfulSqrt.mul_self (0 : ℝ) le_rfl
      rw [mul_self_eq_zero] at h0
      rw [h0]
      simp only [toyObj]; norm_num
  · simp only [toyObj, sqDist, vsub, sqNorm, List.zipWith_cons_cons, List.zipWith_nil_right, dot_cons, dot_nil_left]
    norm_num

/-- **C28 is violated** by a disabled module: after a call that intervened, the user disables the module; the next call
returns the desired control unchanged, yet `intervening` is still `True`. -/
theorem C28_refuted_disabled_stale (solver : Solver ℝ) (hspec : SolverSpec solver) (dt : ℝ) :
    let s1 := runE solver toyF toyG (toyObj none false) [.call (.array 1) dt [-2], .setEnable false]
    (explicitASIF solver toyF toyG s1 (.array 1) dt [2]).1 = .ok [2] ∧
      (explicitASIF solver toyF toyG s1 (.array 1) dt [2]).2.intervening = true := by
  obtain ⟨s', hc, hi⟩ := toy_intervening solver hspec dt
  intro s1
  have hs1 : s1 = modifyBase (fun x => { x with enable := false }) s' := by
    simp only [s1, runE, stepE, hc]
  have hdis : s1.enable = false := by rw [hs1]; rfl
  unfold explicitASIF
  rw [filterControlCB_disabled hdis]
  refine ⟨rfl, ?_⟩
  show s1.intervening = true
  rw [hs1]; exact hi

/-! ### C29 -/

section
variable [Field K] [LinearOrder K] [IsStrictOrderedRing K] [HasSqrt K] [LawfulSqrt K]

/-- **C29, the part that holds for explicit ASIF.** After a call that found an admissible control, the list has no
duplicates, every name in it belongs to a condition (bound component, enabled constraint or enabled direct inequality of
that name) that is tight at the result, and the conditions with listed names alone already force the result: every other
pair is at least as expensive as soon as it satisfies those. So nothing that mattered is missing and nothing disabled or
slack is listed. What is missing: infeasible calls leave the list of an earlier call (`C29_refuted_stale_list`). -/
theorem C29_active_constraints_partial {solver : Solver K} (hspec : SolverSpec solver) {f : S → List K} {g : S → List (List K)}
    {s s' : ASIFObj K S P X} (hs : ExplicitModule solver f g s) (hpos : ScalesPos s.constraints) (hen : s.enable = true)
    (x : S) (dt : K) (u v : List K) (hcall : explicitASIF solver f g s (.array x) dt u = (.ok v, s'))
    (hadm : ∃ w d, AdmissibleS f g s x w d) :
    ∃ d l, AdmissibleS f g s x v d ∧ s'.ext.causing = some l ∧ l.Nodup ∧
      (∀ q ∈ l, ∃ c ∈ explicitConds f g s x v d, c.label = q ∧ c.tight) ∧
      (∀ w e, w.length = s.ext.controlDim → e.length = (slackScales s.constraints).length →
        (∀ c ∈ explicitConds f g s x w e, c.label ∈ l → c.holds) →
        slackCost ((slackScales s.constraints).map HasSqrt.sqrt) u v d ≤
          slackCost ((slackScales s.constraints).map HasSqrt.sqrt) u w e) := by
  obtain ⟨-, d, l, hav, -, -, h1, h2, h3, h4⟩ := explicit_solved hspec hs.inv.1 hs.inv.2 hpos hen hcall hadm
  exact ⟨d, l, hav, h1, h2, h3, fun w e hw he => h4 w e hw (he.trans hs.inv.1.slack.symm)⟩

end

/-- At `x = 1` with desired control `-2` the list is exactly `["c"]`. -/
theorem toy_causing (solver : Solver ℝ) (hspec : SolverSpec solver) (dt : ℝ) : ∃ s',
    explicitASIF solver toyF toyG (toyObj none false) (.array 1) dt [-2] = (.ok [-1], s') ∧ s'.ext.causing = some ["c"] := by
  obtain ⟨s', hcall, -⟩ := toy_intervening solver hspec dt
  refine ⟨s', hcall, ?_⟩
  have h1 : Admissible toyF toyG (toyObj none false) (1 : ℝ) [-1] := (toy_admissible none false 1 [-1]).2 ⟨-1, rfl, by norm_num⟩
  obtain ⟨d, l, hav, hl, hnd, htight, hsuff⟩ := C29_active_constraints_partial hspec (toy_module solver none false)
    (toy_pos_none false) rfl 1 dt _ _ hcall ⟨_, _, admissible_iff_zeros.1 h1⟩
  have hsc : slackScales (toyObj none false).constraints = [] := by simp [toyObj, slackScales, toyC]
  obtain ⟨rfl, -⟩ := (admissibleS_noslack hsc).1 hav
  have hsub : ∀ q ∈ l, q = "c" := by
    intro q hq
    obtain ⟨c, hc, hlab, ht⟩ := htight q hq
    simp only [explicitConds, lowConds, highConds, barrierConds, directConds, toyObj, Base.init, Option.isSome_some, if_true,
      List.mem_append, List.map_cons, List.map_nil, List.range_succ, List.range_zero, List.nil_append,
      dictKeys, assignSlack, List.mem_cons, List.not_mem_nil, or_false] at hc
    rcases hc with (rfl | rfl) | hc
    · simp [boundAt] at ht
    · simp [boundAt] at ht; norm_num at ht
    · have hns : (toyC none).slackPriorityScale.isSome = false := rfl
      simp only [hns, Bool.false_eq_true, if_false, List.zipWith_cons_cons, List.zipWith_nil_right, List.mem_singleton] at hc
      subst hc
      exact hlab.symm
  have hne : l ≠ [] := by
    rintro rfl
    have := hsuff [-2] [] rfl (by rw [hsc]) (by simp)
    rw [hsc] at this
    simp only [List.map_nil, slackCost_nil, sqDist, vsub, sqNorm, List.zipWith_cons_cons, List.zipWith_nil_right, dot_cons,
      dot_nil_left] at this
    norm_num at this
  match l, hne, hsub, hnd with
  | [], h, _, _ => exact absurd rfl h
  | [a], _, h, _ => rw [hl, h a (by simp)]
  | a :: b :: l, _, h, hnd =>
    have ha := h a (by simp)
    have hb := h b (by simp)
    subst ha
    subst hb
    simp at hnd

/-- **C29 is violated** by infeasible calls without exception policy: no problem was solved in the second call, but the
list still shows the constraint of the first one. -/
theorem C29_refuted_stale_list (solver : Solver ℝ) (hspec : SolverSpec solver) (dt : ℝ) :
    let s1 := (explicitASIF solver toyF toyG (toyObj none false) (.array 1) dt [-2]).2
    (¬ ∃ w d, AdmissibleS toyF toyG s1 (-3 : ℝ) w d) ∧
    (explicitASIF solver toyF toyG s1 (.array (-3)) dt [0]).1 = .ok [0] ∧
    (explicitASIF solver toyF toyG s1 (.array (-3)) dt [0]).2.ext.causing = some ["c"] := by
  intro s1
  obtain ⟨s', hc, hca⟩ := toy_causing solver hspec dt
  have e1 : s1 = s' := by simp only [s1, hc]
  have hmod : ExplicitModule solver toyF toyG s1 := by
    refine ⟨_, _, _, _, _, _, _, _, _, _, [.call (.array 1) dt [-2]], by simp [dictKeys], by simp [dictKeys], toy_init none false, rfl⟩
  have hsame : SameAS Eq (toyObj none false) s1 :=
    explicit_after_call solver toyF toyG (directWF_of_inv (toy_module solver none false).inv.1) _ _ _
  have hno : ¬ ∃ w d, AdmissibleS toyF toyG s1 (-3 : ℝ) w d := by
    rintro ⟨w, d, h⟩
    refine toy_infeasible false ⟨w, d, ?_, ?_, ?_, ?_, ?_⟩
    · rw [← hsame.controlDim]; exact h.len
    · rw [← hsame.constraints]; exact h.slen
    · have := h.bounds; rwa [hsame.low, hsame.high] at this
    · rw [← hsame.constraints]; exact h.barrier
    · rw [← hsame.direct]; exact h.direct
  have hen : s1.enable = true := hsame.enable
  have hpos : ScalesPos s1.constraints := by rw [hsame.constraints]; exact toy_pos_none false
  have hsh : ShapesOK toyF toyG s1 (-3 : ℝ) := by
    have := toy_shapes none false (-3)
    exact ⟨by rw [hsame.constraints]; exact this.alpha, by rw [hsame.constraints]; exact this.grad, this.input,
      by rw [hsame.controlDim]; exact this.cols, by rw [hsame.direct, hsame.controlDim]; exact this.direct⟩
  have hres : (explicitASIF solver toyF toyG s1 (.array (-3)) dt [0]).1 = .ok [0] := by
    rw [C27_infeasible_policy hspec hmod hpos hen (-3) hsh dt [0] (by rw [hsame.controlDim]; rfl) hno]
    have : s1.ext.solverException = false := hsame.exc
    simp only [this, Bool.false_eq_true, if_false]
    rw [clipControl_congr (toyObj none false).toBase hsame.low hsame.high]
    have e : (toyObj none false).toBase.clipControl [0] = .ok [min (max 0 (-2)) 2] := rfl
    rw [e]
    norm_num
  refine ⟨hno, hres, ?_⟩
  have hcall : explicitASIF solver toyF toyG s1 (.array (-3)) dt [0] =
    (.ok [0], (explicitASIF solver toyF toyG s1 (.array (-3)) dt [0]).2) := Prod.ext hres rfl
  obtain ⟨nm, ex, rows, drows, w0, cz, hgen, hdir, hout, hclip, hs'⟩ := asif_ok (genFrame_explicit toyF toyG) hen hcall
  have hG := objWeight_pos hmod.inv.1 hpos
  have hGl := objWeight_length hmod.inv.1
  cases hout with
  | solved hq hc' =>
    exfalso
    obtain ⟨hqs, hal, hrw⟩ := quadprogSolve_dims (Or.inl ⟨_, _, hq⟩)
    rename_i z iact l
    have hfz := (hspec.solved _ _ _ _ _ hG hal hrw (hqs.symm.trans hq)).1
    have hzl : z.length = s1.ext.controlDim + s1.ext.numSlack := hfz.1.trans hGl
    refine hno ⟨_, _, (explicit_feasible hmod.inv.1 hmod.inv.2 hgen hdir (u := z.take s1.ext.controlDim) (d := z.drop s1.ext.controlDim) ?_ ?_).1 ?_⟩
    · rw [List.length_take, hzl]; omega
    · rw [List.length_drop, hzl]; omega
    · rw [List.take_append_drop]; exact hfz
  | infeasible hq hx =>
    rw [hs']
    show s1.ext.causing = _
    rw [e1]; exact hca

/-! ### C30 -/

section
variable [Field K] [LinearOrder K] [IsStrictOrderedRing K]

/-- **C30**. In a state where an enabled constraint is violated, with the default negative strengthener, a strengthener that
is not positive below zero (every odd class-K polynomial is such, `C33`) and negative `bias_negative`: every control
admissible without slack makes the constraint grow at a rate of at least `|bias_negative| > 0`. -/
theorem C30_driven_back {f : S → List K} {g : S → List (List K)} {s : ASIFObj K S P X} {x : S} {u : List K}
    (hadm : Admissible f g s x u) {k : String} {c : Constraint K S P} (hc : (k, c) ∈ s.constraints) (hen : c.enabled = true)
    {al : K → K} (ha : c.alpha = some al) (hneg : c.alphaNeg = none) (hal : ∀ y < 0, al y ≤ 0) (hbias : c.biasNegative < 0)
    (hviol : c.computeFn x c.params + c.bias < 0) :
    0 < |c.biasNegative| ∧ |c.biasNegative| ≤ dot (c.gradFn x c.params) (vadd (f x) (matVec (g x) u)) := by
  refine ⟨abs_pos.2 hbias.ne, ?_⟩
  obtain ⟨m, hm, h0⟩ := hadm.barrier (k, c) hc hen
  simp only [barrierValue, ha, Option.map_some, Option.some.injEq] at hm
  have hs : strengthening c al (c.computeFn x c.params + c.bias) =
      10 * al (c.computeFn x c.params + c.bias) + c.biasNegative := by
    unfold strengthening
    rw [if_neg (not_le.2 hviol), hneg]
  rw [hs] at hm
  rw [abs_of_neg hbias]
  have := hal _ hviol
  linarith

end

/-- At `x = -1/20` the control `0.6` is admissible and the constraint is violated. -/
example : Admissible toyF toyG (toyObj none false) (-1 / 20 : ℝ) [3 / 5] ∧ (toyC none).computeFn (-1 / 20) () + (toyC none).bias < 0 :=
  ⟨(toy_admissible none false _ _).2 ⟨3 / 5, rfl, by norm_num⟩, by simp only [toyC]; norm_num⟩

end RTA
