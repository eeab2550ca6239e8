import Verif.Props.Implicit

/-!
Implicit optimisation modules: which constraints they report (C29), skipped points (C37), and their behaviour over their
lifetime (C09, C10, C11, C12).
-/
set_option linter.unusedSectionVars false
namespace RTA
variable {K P A : Type} [Field K] [LinearOrder K] [IsStrictOrderedRing K] [FloorRing K] [HasSqrt K]

/-! ### C29 -/

/-- **C29 for implicit modules, the part that holds.** When every constraint contributes as many rows as the trajectory has
points (for instance with the default subsampling), the reported constraints have no repetitions, each is tight at the
returned control in one of the trajectory points looked at, and the reported conditions alone already force every control to
be at least as far from the desired one. What is missing: with other settings names and rows do not match
(`C29_refuted_implicit_names`). -/
theorem C29_implicit_partial [LawfulSqrt K] {solver : Solver K} (hspec : SolverSpec solver) {E : ImplicitEnv K}
    {s s' : ImplicitObj K P A} (hs : ImplicitModule solver E s) (hen : s.enable = true) (x : List K) (dt : K) (u v : List K)
    (hfit : ∀ kc ∈ s.constraints, (pointsOf E s x dt kc.2).length = numPoints s dt)
    (hcall : E.call solver s (.array x) dt u = (.ok v, s')) (hadm : ∃ w, AdmissibleI E s x dt w) :
    ∃ l, s'.ext.causing = some l ∧ l.Nodup ∧ (∀ q ∈ l, ∃ c ∈ implicitConds E s x dt v, c.label = q ∧ c.tight) ∧
      (∀ w, w.length = s.ext.controlDim → (∀ c ∈ implicitConds E s x dt w, c.label ∈ l → c.holds) →
        sqDist v u ≤ sqDist w u) := by
  obtain ⟨-, -, -, -, -, -, -, h⟩ := implicit_solved hspec hs.inv.inv hen hcall hadm
  obtain ⟨names, hact, ht⟩ := hs.inv.names
  refine h names hact ?_
  have h1 := actuation_names_length hact
  unfold implicitNames alignedNames
  simp only
  rw [← h1, ht]
  congr 2
  rw [List.flatMap_def, List.flatMap_def]
  congr 1
  refine List.map_congr_left fun kc hkc => ?_
  rw [hfit kc hkc]

/-- With default subsampling every constraint contributes one row per point. -/
theorem C29_default_fits (E : ImplicitEnv K) (s : ImplicitObj K P A) (x : List K) (dt : K)
    (hdef : ∀ kc ∈ s.constraints, kc.2.subsample = {}) :
    ∀ kc ∈ s.constraints, (pointsOf E s x dt kc.2).length = numPoints s dt := by
  intro kc hkc
  unfold pointsOf
  rw [hdef kc hkc, C37_default_every_point, List.length_range]

/-- The conditions of the concrete module. -/
theorem i_conds (cs : Dict (Constraint ℝ (List ℝ) Unit)) (w : ℝ) (exc : Bool) (x u : ℝ) :
    implicitConds iE (iObj cs w exc) [x] 1 [u] =
      ⟨"u1_min", ∀ b, some (-2 : ℝ) = some b → b ≤ u, some (-2 : ℝ) = some u⟩ ::
      ⟨"u1_max", ∀ b, some (2 : ℝ) = some b → u ≤ b, some (2 : ℝ) = some u⟩ ::
      (cs.flatMap fun kc => (pointsOf iE (iObj cs w exc) [x] 1 kc.2).map fun k =>
        ⟨kc.1, kc.2.enabled = true → PointOK iE (iObj cs w exc) [x] 1 kc.2 [u] k,
          kc.2.enabled = true ∧ pointValue iE (iObj cs w exc) [x] 1 kc.2 [u] k = some 0⟩) := by
  have e : implicitConds iE (iObj cs w exc) [x] 1 [u] =
      ⟨"u1_min", ∀ b, some (-2 : ℝ) = some b → b ≤ u, some (-2 : ℝ) = some u⟩ ::
      ⟨"u1_max", ∀ b, some (2 : ℝ) = some b → u ≤ b, some (2 : ℝ) = some u⟩ ::
      ((cs.flatMap fun kc => (pointsOf iE (iObj cs w exc) [x] 1 kc.2).map fun k =>
        ⟨kc.1, kc.2.enabled = true → PointOK iE (iObj cs w exc) [x] 1 kc.2 [u] k,
          kc.2.enabled = true ∧ pointValue iE (iObj cs w exc) [x] 1 kc.2 [u] k = some 0⟩) ++ []) := rfl
  rw [e, List.append_nil]

/-- When exactly one condition stands between the desired control and the module, the solver reports that condition's row. -/
theorem implicit_active_single [LawfulSqrt K] {solver : Solver K} (hspec : SolverSpec solver) {E : ImplicitEnv K}
    {s : ImplicitObj K P A} (hs : ImplicitModule solver E s) {x : List K} {dt : K} (hsh : ShapesI E s x dt) {u z0 w0 : List K}
    (hu : u.length = s.ext.controlDim) (hen : s.enable = true) (hz : AdmissibleI E s x dt z0)
    (hmin : ∀ w, AdmissibleI E s x dt w → sqDist z0 u ≤ sqDist w u) (hwl : w0.length = s.ext.controlDim)
    (hw : sqDist w0 u < sqDist z0 u) (j : Nat)
    (htight : ∀ (i : Nat) c, (implicitConds E s x dt z0)[i]? = some c → c.tight → i = j) :
    (E.call solver s (.array x) dt u).1 =
      (match (causingLoop (implicitNames s (numPoints s dt)) [(j : Int) + 1] []).1 with
        | .error e => .error e
        | .ok () => .ok z0) ∧
    (E.call solver s (.array x) dt u).2.ext.causing = some (causingLoop (implicitNames s (numPoints s dt)) [(j : Int) + 1] []).2 := by
  obtain ⟨z, iact, hz', hmin', hnd, ht, hsuff, h1, h2⟩ := implicit_active hspec hs.inv.inv hsh hu hen ⟨_, hz⟩
  have hzz : z = z0 := by
    by_contra hne
    have := hmin' z0 hz (fun h => hne h.symm)
    have := hmin z hz'
    linarith
  subst hzz
  have hall : ∀ i ∈ iact, i = (j : Int) + 1 := by
    intro i hi
    obtain ⟨h1, c, hc, hct⟩ := ht i hi
    have := htight _ c hc hct
    omega
  have hmem : (j : Int) + 1 ∈ iact := by
    by_contra hne
    have : sqDist z u ≤ sqDist w0 u := by
      refine hsuff w0 hwl fun i hi c hc => ?_
      exact absurd (hall i hi ▸ hi) hne
    linarith
  have hia : iact = [(j : Int) + 1] := by
    cases iact with
    | nil => simp at hmem
    | cons a l =>
      have ha := hall a List.mem_cons_self
      subst ha
      cases l with
      | nil => rfl
      | cons b l =>
        have hb := hall b (by simp)
        subst hb
        simp at hnd
  rw [hia] at h1 h2
  exact ⟨h1, h2⟩

/-- **C29 is violated** by implicit modules that subsample: two constraints `a` and `b`, both with `num_check_all = 0`, window
and step 1. At `x = 0` only `b` (at the second trajectory point) keeps the desired control `-2` from being applied, `a` is
far from tight at every point, and yet the module reports `a`. -/
theorem C29_refuted_implicit_names (solver : Solver ℝ) (hspec : SolverSpec solver) (exc : Bool) :
    ∃ s', iE.call solver (iObj [("a", iC 10 { numCheckAll := 0 } true none), ("b", iC 0 { numCheckAll := 0 } true none)] 1 exc)
      (.array [0]) 1 [-2] = (.ok [-1], s') ∧ s'.ext.causing = some ["a"] ∧
    (∀ k : Nat, 0 < -1 + ((0 : ℝ) + 1 * k + 10)) ∧ -1 + ((0 : ℝ) + 1 * (1 : Nat) + 0) = 0 := by
  obtain ⟨cs, hcs⟩ : ∃ cs, cs = [("a", iC 10 { numCheckAll := 0 } true none), ("b", iC 0 { numCheckAll := 0 } true none)] := ⟨_, rfl⟩
  rw [← hcs]
  have hw : ((1 : Nat) : ℝ) = 1 := by norm_num
  have hmod := i_module solver (cs := cs) (by rw [hcs]; simp [dictKeys]) 1 exc
  have hnp := i_numPoints cs 1 exc
  have hsh := i_shapes (cs := cs) (by
    intro kc hkc; rw [hcs] at hkc; simp only [List.mem_cons, List.not_mem_nil, or_false] at hkc
    rcases hkc with rfl | rfl
    · exact ⟨10, _, true, rfl, by decide⟩
    · exact ⟨0, _, true, rfl, by decide⟩) 1 exc 0
  have hadm := @i_admissible cs 1 exc 0
  simp only [hw] at hnp hsh hadm
  have hpts : ∀ o, pointsOf iE (iObj cs 1 exc) [0] 1 (iC o { numCheckAll := 0 } true none) = [1] := by
    intro o
    unfold pointsOf
    rw [hnp]
    rfl
  have hadm : ∀ v, AdmissibleI iE (iObj cs 1 exc) [0] 1 v ↔ ∃ u, v = [u] ∧ -1 ≤ u ∧ u ≤ 2 := by
    intro v
    rw [hadm]
    refine exists_congr fun u => and_congr_right fun _ => ?_
    have e : ∀ o cfg, (iC o cfg true none).enabled = true := fun _ _ => rfl
    simp only [hcs, List.mem_cons, List.not_mem_nil, or_false, forall_eq_or_imp, forall_eq, true_implies, e]
    rw [← hcs]
    simp only [hpts, List.mem_cons, List.not_mem_nil, or_false, forall_eq, i_point]
    constructor
    · rintro ⟨-, h2, -, h3⟩
      norm_num at h3
      exact ⟨by linarith, h2⟩
    · rintro ⟨h1, h2⟩
      refine ⟨by linarith, h2, by norm_num; linarith, by norm_num; linarith⟩
  have hz : AdmissibleI iE (iObj cs 1 exc) [0] 1 [-1] := (hadm _).2 ⟨-1, rfl, by norm_num⟩
  have hpv : ∀ u o k, pointValue iE (iObj cs 1 exc) [0] 1 (iC o { numCheckAll := 0 } true none) [u] k = some (u + (0 + 1 * (k : ℝ) + o)) := by
    intro u o k
    have e : vadd (iE.f [0]) (matVec (iE.g [0]) [u]) = [u] := by simp [iE, matVec, vadd]
    unfold pointValue
    rw [i_path, e, i_variation]
    simp [iC]
  have hconds : ∀ u, implicitConds iE (iObj cs 1 exc) [0] 1 [u] = 
      [⟨"u1_min", ∀ b, some (-2 : ℝ) = some b → b ≤ u, some (-2 : ℝ) = some u⟩,
       ⟨"u1_max", ∀ b, some (2 : ℝ) = some b → u ≤ b, some (2 : ℝ) = some u⟩,
       ⟨"a", True → PointOK iE (iObj cs 1 exc) [0] 1 (iC 10 { numCheckAll := 0 } true none) [u] 1, 
         true = true ∧ pointValue iE (iObj cs 1 exc) [0] 1 (iC 10 { numCheckAll := 0 } true none) [u] 1 = some 0⟩,
       ⟨"b", True → PointOK iE (iObj cs 1 exc) [0] 1 (iC 0 { numCheckAll := 0 } true none) [u] 1, 
         true = true ∧ pointValue iE (iObj cs 1 exc) [0] 1 (iC 0 { numCheckAll := 0 } true none) [u] 1 = some 0⟩] := by
    intro u
    rw [i_conds]
    conv_lhs => rw [hcs]
    simp only [List.flatMap_cons, List.flatMap_nil]
    rw [← hcs]
    simp only [hpts]
    have e : ∀ o cfg, ((iC o cfg true none).enabled = true) = True := fun _ _ => eq_true rfl
    simp [e]
  obtain ⟨h1, h2⟩ := implicit_active_single hspec hmod hsh (u := [-2]) (z0 := [-1]) (w0 := [-2]) rfl rfl hz (by
      intro w hw
      obtain ⟨u, rfl, hu, -⟩ := (hadm w).1 hw
      simp only [sqDist, vsub, sqNorm, List.zipWith_cons_cons, List.zipWith_nil_right, dot_cons, dot_nil_left]
      nlinarith) rfl (by
      simp only [sqDist, vsub, sqNorm, List.zipWith_cons_cons, List.zipWith_nil_right, dot_cons, dot_nil_left]
      norm_num) 3 (by
      intro i c hc ht
      rw [hconds] at hc
      rcases i with _ | _ | _ | _ | i
      · simp only [List.getElem?_cons_zero, Option.some.injEq] at hc; subst hc; norm_num at ht
      · simp only [zero_add, List.getElem?_cons_succ, List.getElem?_cons_zero, Option.some.injEq] at hc; subst hc; norm_num at ht
      · simp only [zero_add, Nat.reduceAdd, List.getElem?_cons_succ, List.getElem?_cons_zero, Option.some.injEq] at hc; subst hc
        simp only [hpv] at ht
        norm_num at ht
      · rfl
      · simp at hc)
  have hnames : implicitNames (iObj cs 1 exc) (numPoints (iObj cs 1 exc) 1) = ["u1_min", "u1_max", "a", "a", "b", "b"] := by
    rw [hnp, hcs]; rfl
  rw [hnames] at h1 h2
  have hcl : causingLoop ["u1_min", "u1_max", "a", "a", "b", "b"] [((3 : Nat) : Int) + 1] [] = (.ok (), ["a"]) := by decide
  rw [hcl] at h1 h2
  refine ⟨_, Prod.ext h1 rfl, h2, fun k => ?_, by norm_num⟩
  have : (0 : ℝ) ≤ k := by positivity
  linarith

/-! ### C37, an observable consequence -/

/-- **C37 is violated**, observably: the module with one constraint `x ≥ 0`, `num_check_all = 0` and window and step 1 hands
back the control `-1` at `x = 0` although `-1` violates the condition at trajectory point 0, which is the condition the
explicit module would enforce. -/
theorem C37_refuted_gap_observable (solver : Solver ℝ) (hspec : SolverSpec solver) (exc : Bool) :
    (iE.call solver (iObj [("c", iC 0 { numCheckAll := 0 } true none)] 1 exc) (.array [0]) 1 [-1]).1 = .ok [-1] ∧
    ¬ PointOK iE (iObj [("c", iC 0 { numCheckAll := 0 } true none)] 1 exc) [0] 1 (iC 0 { numCheckAll := 0 } true none) [-1] 0 := by
  obtain ⟨cs, hcs⟩ : ∃ cs, cs = [("c", iC 0 { numCheckAll := 0 } true none)] := ⟨_, rfl⟩
  rw [← hcs]
  have hw : ((1 : Nat) : ℝ) = 1 := by norm_num
  have hmod := i_module solver (cs := cs) (by rw [hcs]; simp [dictKeys]) 1 exc
  have hnp := i_numPoints cs 1 exc
  have hsh := i_shapes (cs := cs) (by
    intro kc hkc; rw [hcs] at hkc; simp only [List.mem_cons, List.not_mem_nil, or_false] at hkc
    subst hkc
    exact ⟨0, _, true, rfl, by decide⟩) 1 exc 0
  have hadm := @i_admissible cs 1 exc 0
  simp only [hw] at hnp hsh hadm
  have hpts : ∀ o, pointsOf iE (iObj cs 1 exc) [0] 1 (iC o { numCheckAll := 0 } true none) = [1] := by
    intro o
    unfold pointsOf
    rw [hnp]
    rfl
  have ha : AdmissibleI iE (iObj cs 1 exc) [0] 1 [-1] := by
    rw [hadm]
    refine ⟨-1, rfl, by norm_num, by norm_num, ?_⟩
    intro kc hkc
    rw [hcs] at hkc; simp only [List.mem_cons, List.not_mem_nil, or_false] at hkc
    subst hkc
    simp only [hpts, List.mem_cons, List.not_mem_nil, or_false, forall_eq, i_point]
    intro _
    norm_num
  refine ⟨?_, by rw [i_point]; norm_num⟩
  obtain ⟨v, hv⟩ := (C36_returns hspec hmod rfl [0] 1 hsh (by
    intro kc hkc
    have hkc : kc ∈ cs := hkc
    rw [hcs] at hkc; simp only [List.mem_cons, List.not_mem_nil, or_false] at hkc
    subst hkc
    rw [hnp, hpts]; simp) [-1] rfl).1 ⟨_, ha⟩
  obtain ⟨h1, h2, -⟩ := C36_closest_admissible hspec hmod rfl [0] 1 [-1] v (Prod.ext hv rfl) ⟨_, ha⟩
  rw [hv]
  by_contra hne
  have := h2 [-1] ha (by rintro rfl; exact hne rfl)
  have h0 : sqDist ([-1] : List ℝ) [-1] = 0 := by
    simp [sqDist, vsub, sqNorm, dot_cons]
  rw [h0] at this
  exact absurd (sqNorm_nonneg (vsub v [-1])) (not_le.2 this)

/-! ### C09 -/

/-- **C09, admitted controls of implicit modules.** Let `t` be a module without the disabled constraints and direct inequalities
of `s` and otherwise the same. A control is admissible for `s` exactly when it is for `t`. -/
theorem C09_implicit_admitted_controls {E : ImplicitEnv K} {s t : ImplicitObj K P A}
    (hlo : t.controlBoundsLow = s.controlBoundsLow) (hhi : t.controlBoundsHigh = s.controlBoundsHigh)
    (hdim : t.ext.controlDim = s.ext.controlDim) (hwin : t.ext.extra.backupWindow = s.ext.extra.backupWindow)
    (hgen : t.ext.extra.ctrl.gen = s.ext.extra.ctrl.gen) (hst : t.ext.extra.ctrl.state = s.ext.extra.ctrl.state)
    (hcs : t.constraints = s.constraints.filter fun kc => kc.2.enabled)
    (hds : t.ext.direct = s.ext.direct.filter fun kc => kc.2.enabled) (x : List K) (dt : K) (u : List K) :
    AdmissibleI E t x dt u ↔ AdmissibleI E s x dt u := by
  have hsame : SamePath s t := ⟨hlo, hhi, hgen, hst⟩
  have hnp : numPoints t dt = numPoints s dt := by unfold numPoints; rw [hwin]
  have hpts : ∀ c, pointsOf E t x dt c = pointsOf E s x dt c := by
    intro c; unfold pointsOf; rw [hnp, pathValue_same hsame]
  have hok : ∀ c k, PointOK E t x dt c u k ↔ PointOK E s x dt c u k := by
    intro c k; unfold PointOK; rw [pointValue_same hsame]
  constructor
  · rintro ⟨h1, h2, h3, h4⟩
    refine ⟨hdim ▸ h1, by rw [← hlo, ← hhi]; exact h2, ?_, ?_⟩
    · intro kc hkc hen k hk
      rw [← hok]
      exact h3 kc (by rw [hcs]; exact List.mem_filter.2 ⟨hkc, hen⟩) hen k (by rw [hpts]; exact hk)
    · intro kc hkc hen
      exact h4 kc (by rw [hds]; exact List.mem_filter.2 ⟨hkc, hen⟩) hen
  · rintro ⟨h1, h2, h3, h4⟩
    refine ⟨hdim ▸ h1, by rw [hlo, hhi]; exact h2, ?_, ?_⟩
    · intro kc hkc hen k hk
      rw [hok]
      rw [hcs] at hkc
      exact h3 kc (List.mem_filter.1 hkc).1 hen k (by rw [← hpts]; exact hk)
    · intro kc hkc hen
      rw [hds] at hkc
      exact h4 kc (List.mem_filter.1 hkc).1 hen

/-- **C09, result of implicit modules, the part that holds.** With a correct solver, a module and the module without its
disabled constraints and direct inequalities answer every call alike, when no constraint contributes more rows than the
trajectory has points. What is missing: with more rows than points (`keep_first`/`keep_last`) a disabled constraint can make
calls raise (`C09_refuted_implicit`). -/
theorem C09_implicit_disabled_no_influence_partial [LawfulSqrt K] {solver : Solver K} (hspec : SolverSpec solver)
    {E : ImplicitEnv K} {s t : ImplicitObj K P A} (hs : ImplicitModule solver E s) (ht : ImplicitModule solver E t)
    (hens : s.enable = true) (hent : t.enable = true)
    (hlo : t.controlBoundsLow = s.controlBoundsLow) (hhi : t.controlBoundsHigh = s.controlBoundsHigh)
    (hdim : t.ext.controlDim = s.ext.controlDim) (hexc : t.ext.solverException = s.ext.solverException)
    (hwin : t.ext.extra.backupWindow = s.ext.extra.backupWindow)
    (hgen : t.ext.extra.ctrl.gen = s.ext.extra.ctrl.gen) (hst : t.ext.extra.ctrl.state = s.ext.extra.ctrl.state)
    (hcs : t.constraints = s.constraints.filter fun kc => kc.2.enabled)
    (hds : t.ext.direct = s.ext.direct.filter fun kc => kc.2.enabled) (x : List K) (dt : K) (hsh : ShapesI E s x dt)
    (hfit : ∀ kc ∈ s.constraints, (pointsOf E s x dt kc.2).length ≤ numPoints s dt) (u : List K)
    (hu : u.length = s.ext.controlDim) :
    (E.call solver t (.array x) dt u).1 = (E.call solver s (.array x) dt u).1 := by
  have hadm := C09_implicit_admitted_controls (E := E) hlo hhi hdim hwin hgen hst hcs hds x dt
  have hsame : SamePath s t := ⟨hlo, hhi, hgen, hst⟩
  have hnp : numPoints t dt = numPoints s dt := by unfold numPoints; rw [hwin]
  have hsht : ShapesI E t x dt := by
    have sub : ∀ kc ∈ t.constraints, kc ∈ s.constraints := fun kc hkc => by
      rw [hcs] at hkc; exact (List.mem_filter.1 hkc).1
    refine ⟨hsh.step, by rw [hwin]; exact hsh.window, fun kc hkc => hsh.alpha kc (sub kc hkc), fun kc hkc => hsh.noSlack kc (sub kc hkc),
      fun kc hkc => hsh.skip kc (sub kc hkc), hsh.f0, hsh.g0, by rw [hdim]; exact hsh.g0cols, by rw [hst]; exact hsh.ctrl, ?_, ?_⟩
    · intro k hk
      rw [hnp] at hk
      obtain ⟨y, z, h1, h2, h3⟩ := hsh.path k hk
      refine ⟨y, z, by rw [backupPath_same hsame]; exact h1, fun kc hkc => h2 kc (sub kc hkc), ?_⟩
      rw [hgen, closedLoopField_same hsame]
      exact h3
    · intro kc hkc
      rw [hds] at hkc
      rw [hdim]; exact hsh.direct kc (List.mem_filter.1 hkc).1
  have hfitt : ∀ kc ∈ t.constraints, (pointsOf E t x dt kc.2).length ≤ numPoints t dt := by
    intro kc hkc
    rw [hcs] at hkc
    have := hfit kc (List.mem_filter.1 hkc).1
    rw [hnp]; unfold pointsOf at this ⊢; rw [hnp, pathValue_same hsame]; exact this
  have S1 := C36_returns hspec hs hens x dt hsh hfit u hu
  have T1 := C36_returns hspec ht hent x dt hsht hfitt u (by rw [hdim]; exact hu)
  by_cases ha : ∃ w, AdmissibleI E s x dt w
  · have hat : ∃ w, AdmissibleI E t x dt w := by
      obtain ⟨w, hw⟩ := ha
      exact ⟨w, (hadm w).2 hw⟩
    obtain ⟨v, hv⟩ := S1.1 ha
    obtain ⟨v', hv'⟩ := T1.1 hat
    obtain ⟨a1, a2, -⟩ := C36_closest_admissible hspec hs hens x dt u v (Prod.ext hv rfl) ha
    obtain ⟨b1, b2, -⟩ := C36_closest_admissible hspec ht hent x dt u v' (Prod.ext hv' rfl) hat
    rw [hv, hv']
    congr 1
    by_contra hne
    have l1 := a2 v' ((hadm v').1 b1) hne
    have l2 := b2 v ((hadm v).2 a1) (fun h => hne h.symm)
    linarith
  · have hat : ¬ ∃ w, AdmissibleI E t x dt w := by
      rintro ⟨w, hw⟩
      exact ha ⟨w, (hadm w).1 hw⟩
    rw [S1.2 ha, T1.2 hat, hexc, clipControl_congr s.toBase hlo hhi]

/-- **C09 is violated** by implicit modules with `keep_first`: the disabled constraint `a` makes a call raise `IndexError`
that succeeds on the module without `a`. -/
theorem C09_refuted_implicit (solver : Solver ℝ) (hspec : SolverSpec solver) (exc : Bool) :
    (iE.call solver (iObj [("a", iC 0 { keepFirst := true } false none), ("b", iC 0 {} true none)] 0 exc) (.array [0]) 1 [-1]).1 =
      .error .indexError ∧
    (iE.call solver (iObj [("b", iC 0 {} true none)] 0 exc) (.array [0]) 1 [-1]).1 = .ok [0] := by
  have hw : ((0 : Nat) : ℝ) = 0 := by norm_num
  have pv : ∀ cs u o cfg en k, pointValue iE (iObj cs 0 exc) [0] 1 (iC o cfg en none) [u] k = some (u + (0 + 1 * (k : ℝ) + o)) := by
    intro cs u o cfg en k
    have e : vadd (iE.f [0]) (matVec (iE.g [0]) [u]) = [u] := by simp [iE, matVec, vadd]
    unfold pointValue
    rw [i_path, e, i_variation]
    simp [iC]
  have en1 : ∀ o cfg, ((iC o cfg true none).enabled = true) = True := fun _ _ => eq_true rfl
  have en0 : ∀ o cfg, ((iC o cfg false none).enabled = true) = False := fun _ _ => eq_false (by simp [iC])
  have hl0 : ([-1] : List ℝ).length = 1 := rfl
  have hd : ∀ a b : ℝ, sqDist [a] [b] = (a - b) * (a - b) := by
    intro a b
    simp only [sqDist, vsub, sqNorm, List.zipWith_cons_cons, List.zipWith_nil_right, dot_cons, dot_nil_left]
    ring
  constructor
  · obtain ⟨cs, hcs⟩ : ∃ cs, cs = [("a", iC 0 { keepFirst := true } false none), ("b", iC 0 {} true none)] := ⟨_, rfl⟩
    rw [← hcs]
    have hmod := i_module solver (cs := cs) (by rw [hcs]; simp [dictKeys]) 0 exc
    have hnp := i_numPoints cs 0 exc
    have hsh := i_shapes (cs := cs) (by
      intro kc hkc; rw [hcs] at hkc; simp only [List.mem_cons, List.not_mem_nil, or_false] at hkc
      rcases hkc with rfl | rfl
      · exact ⟨0, _, _, rfl, by decide⟩
      · exact ⟨0, _, _, rfl, by decide⟩) 0 exc 0
    have hadm := @i_admissible cs 0 exc 0
    simp only [hw] at hnp hsh hadm
    have hp1 : pointsOf iE (iObj cs 0 exc) [0] 1 (iC 0 { keepFirst := true } false none) = [0, 0] := by
      unfold pointsOf
      rw [hnp]; rfl
    have hp2 : pointsOf iE (iObj cs 0 exc) [0] 1 (iC 0 {} true none) = [0] := by
      unfold pointsOf
      rw [hnp]; rfl
    have hconds : ∀ u, implicitConds iE (iObj cs 0 exc) [0] 1 [u] =
        [⟨"u1_min", ∀ b, some (-2 : ℝ) = some b → b ≤ u, some (-2 : ℝ) = some u⟩,
         ⟨"u1_max", ∀ b, some (2 : ℝ) = some b → u ≤ b, some (2 : ℝ) = some u⟩,
         ⟨"a", True, False⟩, ⟨"a", True, False⟩,
         ⟨"b", PointOK iE (iObj cs 0 exc) [0] 1 (iC 0 {} true none) [u] 0, some (u + (0 + 1 * ((0 : Nat) : ℝ) + 0)) = some 0⟩] := by
      intro u
      rw [i_conds]
      conv_lhs => rw [hcs]
      simp only [List.flatMap_cons, List.flatMap_nil]
      rw [← hcs]
      simp only [hp1, hp2, en1, en0, pv, List.map_cons, List.map_nil, List.cons_append, List.nil_append, false_implies, false_and,
        true_implies, true_and, List.append_nil]
    have hadm : ∀ v, AdmissibleI iE (iObj cs 0 exc) [0] 1 v ↔ ∃ u, v = [u] ∧ 0 ≤ u ∧ u ≤ 2 := by
      intro v
      rw [hadm]
      refine exists_congr fun u => and_congr_right fun _ => ?_
      simp only [hcs, List.mem_cons, List.not_mem_nil, or_false, forall_eq_or_imp, forall_eq, true_implies, en1, en0, false_implies,
        true_and]
      rw [← hcs]
      simp only [hp2, List.mem_cons, List.not_mem_nil, or_false, forall_eq, i_point]
      constructor
      · rintro ⟨-, h2, h3⟩
        norm_num at h3
        exact ⟨by linarith, h2⟩
      · rintro ⟨h1, h2⟩
        refine ⟨by linarith, h2, by norm_num; linarith⟩
    obtain ⟨h1, -⟩ := implicit_active_single hspec hmod hsh (u := [-1]) (z0 := [0]) (w0 := [-1]) rfl rfl ((hadm _).2 ⟨0, rfl, by norm_num⟩) (by
        intro w hw
        obtain ⟨u, rfl, hu, -⟩ := (hadm w).1 hw
        rw [hd, hd]
        nlinarith) rfl (by
        rw [hd, hd]
        norm_num) 4 (by
        intro i c hc ht
        rw [hconds] at hc
        rcases i with _ | _ | _ | _ | _ | i
        · simp only [List.getElem?_cons_zero, Option.some.injEq] at hc; subst hc; norm_num at ht
        · simp only [zero_add, List.getElem?_cons_succ, List.getElem?_cons_zero, Option.some.injEq] at hc; subst hc; norm_num at ht
        · simp only [zero_add, Nat.reduceAdd, List.getElem?_cons_succ, List.getElem?_cons_zero, Option.some.injEq] at hc; subst hc
          exact ht.elim
        · simp only [zero_add, Nat.reduceAdd, List.getElem?_cons_succ, List.getElem?_cons_zero, Option.some.injEq] at hc; subst hc
          exact ht.elim
        · rfl
        · simp at hc)
    have hnames : implicitNames (iObj cs 0 exc) (numPoints (iObj cs 0 exc) 1) = ["u1_min", "u1_max", "a", "b"] := by
      rw [hnp, hcs]; rfl
    rw [hnames] at h1
    have hcl : causingLoop ["u1_min", "u1_max", "a", "b"] [((4 : Nat) : Int) + 1] [] = (.error .indexError, []) := by rfl
    rw [hcl] at h1
    exact h1
  · obtain ⟨cs, hcs⟩ : ∃ cs, cs = [("b", iC 0 {} true none)] := ⟨_, rfl⟩
    rw [← hcs]
    have hmod := i_module solver (cs := cs) (by rw [hcs]; simp [dictKeys]) 0 exc
    have hnp := i_numPoints cs 0 exc
    have hsh := i_shapes (cs := cs) (by
      intro kc hkc; rw [hcs] at hkc; simp only [List.mem_cons, List.not_mem_nil, or_false] at hkc
      subst hkc
      exact ⟨0, _, _, rfl, by decide⟩) 0 exc 0
    have hadm := @i_admissible cs 0 exc 0
    simp only [hw] at hnp hsh hadm
    have hp2 : pointsOf iE (iObj cs 0 exc) [0] 1 (iC 0 {} true none) = [0] := by
      unfold pointsOf
      rw [hnp]; rfl
    have hadm : ∀ v, AdmissibleI iE (iObj cs 0 exc) [0] 1 v ↔ ∃ u, v = [u] ∧ 0 ≤ u ∧ u ≤ 2 := by
      intro v
      rw [hadm]
      refine exists_congr fun u => and_congr_right fun _ => ?_
      simp only [hcs, List.mem_cons, List.not_mem_nil, or_false, forall_eq, true_implies, en1]
      rw [← hcs]
      simp only [hp2, List.mem_cons, List.not_mem_nil, or_false, forall_eq, i_point]
      constructor
      · rintro ⟨-, h2, h3⟩
        norm_num at h3
        exact ⟨by linarith, h2⟩
      · rintro ⟨h1, h2⟩
        refine ⟨by linarith, h2, by norm_num; linarith⟩
    have ha := (hadm [0]).2 ⟨0, rfl, by norm_num⟩
    obtain ⟨v, hv⟩ := (C36_returns hspec hmod rfl [0] 1 hsh (by
      intro kc hkc
      have hkc : kc ∈ cs := hkc
      rw [hcs] at hkc; simp only [List.mem_cons, List.not_mem_nil, or_false] at hkc
      subst hkc
      rw [hnp, hp2]; simp) [-1] rfl).1 ⟨_, ha⟩
    obtain ⟨h1, h2, -⟩ := C36_closest_admissible hspec hmod rfl [0] 1 [-1] v (Prod.ext hv rfl) ⟨_, ha⟩
    obtain ⟨u, rfl, hu, -⟩ := (hadm v).1 h1
    rw [hv]
    by_contra hne
    have := h2 [0] ha (by simpa using fun h => hne (by rw [h]))
    rw [hd, hd] at this
    nlinarith

/-- The partial theorem applies to the module with a disabled default constraint. -/
example (solver : Solver ℝ) (hspec : SolverSpec solver) (exc : Bool) :
    (iE.call solver (iObj [("b", iC 0 {} true none)] 0 exc) (.array [0]) 1 [-1]).1 =
    (iE.call solver (iObj [("a", iC (-5) {} false none), ("b", iC 0 {} true none)] 0 exc) (.array [0]) 1 [-1]).1 := by
  have hw : ((0 : Nat) : ℝ) = 0 := by norm_num
  have hsh := i_shapes (cs := [("a", iC (-5) {} false none), ("b", iC 0 {} true none)]) (by
    intro kc hkc; simp only [List.mem_cons, List.not_mem_nil, or_false] at hkc
    rcases hkc with rfl | rfl
    · exact ⟨-5, _, _, rfl, by decide⟩
    · exact ⟨0, _, _, rfl, by decide⟩) 0 exc 0
  simp only [hw] at hsh
  refine C09_implicit_disabled_no_influence_partial (s := iObj [("a", iC (-5) {} false none), ("b", iC 0 {} true none)] 0 exc)
    (t := iObj [("b", iC 0 {} true none)] 0 exc) hspec (i_module solver (by simp [dictKeys]) 0 exc)
    (i_module solver (by simp [dictKeys]) 0 exc) rfl rfl rfl rfl rfl rfl rfl rfl rfl ?_ rfl [0] 1 hsh ?_ [-1] rfl
  · show [("b", iC 0 {} true none)] = _
    simp [iObj, iC]
  · intro kc hkc
    refine (C29_default_fits iE _ [0] 1 ?_ kc hkc).le
    intro kc hkc
    simp only [iObj, List.mem_cons, List.not_mem_nil, or_false] at hkc
    rcases hkc with rfl | rfl <;> rfl

/-! ### C10 -/

/-- **C10 for implicit modules.** Whatever has happened to the module: after `reset()` it answers every future sequence of
operations exactly as a module newly constructed with its current constraints and direct inequalities, its window and a
new backup controller. -/
theorem C10_implicit_reset {solver : Solver K} {E : ImplicitEnv K} {s : ImplicitObj K P A} (hs : ImplicitModule solver E s) :
    ∃ c0 fresh, BackupController.init s.ext.extra.ctrl.gen s.ext.extra.ctrl.stateInitial = .ok c0 ∧
      asifInit s.controlBoundsHigh s.controlBoundsLow s.constraints none s.ext.epsilon s.ext.controlDim s.ext.solverException
        s.ext.direct ⟨s.ext.extra.backupWindow, c0⟩ = .ok fresh ∧
      (implicitReset s).1 = .ok () ∧
      ∀ ops, observeI solver E (implicitReset s).2 ops = observeI solver E fresh ops := by
  have hI := hs.inv
  obtain ⟨hinv, hnames, hini⟩ := hI
  obtain ⟨names, hact, hnm⟩ := hnames
  have hw : (slackWeights s.constraints).length = s.ext.numSlack := by
    rw [slackWeights_eq, List.length_map, hinv.slack]
  have hact' : actuationMats s.controlBoundsLow s.controlBoundsHigh s.ext.controlDim (slackWeights s.constraints).length =
      .ok (s.ext.actuation, names) := by rw [hw]; exact hact
  obtain ⟨c0, hc0⟩ : ∃ c0 : BackupController K (List K) A, c0 =
    ⟨s.ext.extra.ctrl.gen, s.ext.extra.ctrl.stateInitial, .none, s.ext.extra.ctrl.stateInitial⟩ := ⟨_, rfl⟩
  have hinit : BackupController.init s.ext.extra.ctrl.gen s.ext.extra.ctrl.stateInitial = .ok c0 := by
    unfold BackupController.init
    simp only [hini, hc0]
  obtain ⟨fresh, hf⟩ : ∃ fresh, asifInit s.controlBoundsHigh s.controlBoundsLow s.constraints none s.ext.epsilon s.ext.controlDim
      s.ext.solverException s.ext.direct (⟨s.ext.extra.backupWindow, c0⟩ : ImplicitExt K A) = .ok fresh := by
    unfold asifInit
    simp only [CBObj.init, selectConstraints, Base.init, updateParams]
    rw [hact']
    exact ⟨_, rfl⟩
  have er : implicitReset s =
      (.ok (), setBackup (Base.reset s) { s.ext.extra.ctrl with state := s.ext.extra.ctrl.stateInitial }) := by
    simp only [implicitReset, BackupController.reset]
    have : (Base.reset s).ext.extra.ctrl = s.ext.extra.ctrl := rfl
    rw [this, hini]
  refine ⟨c0, fresh, hinit, hf, by rw [er], fun ops => ?_⟩
  have hfi := invI_init hinv.wf.nodup hinv.dnodup hinit hf
  have hri := invI_step solver E hs.inv .reset
  have hfe : fresh.toBase = Base.init s.controlBoundsHigh s.controlBoundsLow ∧ fresh.constraints = s.constraints ∧
      fresh.ext.epsilon = s.ext.epsilon ∧ fresh.ext.controlDim = s.ext.controlDim ∧
      fresh.ext.solverException = s.ext.solverException ∧ fresh.ext.actuation = s.ext.actuation ∧
      fresh.ext.direct = s.ext.direct ∧ fresh.ext.extra = ⟨s.ext.extra.backupWindow, c0⟩ ∧
      fresh.ext.constraintNames = names ++ (dictKeys s.constraints ++ dictKeys s.ext.direct) ∧
      fresh.ext.numSlack = (slackWeights s.constraints).length ∧
      fresh.ext.objWeight = List.replicate s.ext.controlDim 1 ++ slackWeights s.constraints := by
    unfold asifInit at hf
    simp only [CBObj.init, selectConstraints, updateParams, Base.init] at hf
    rw [hact'] at hf
    obtain rfl := Except.ok.inj hf
    exact ⟨rfl, rfl, rfl, rfl, rfl, rfl, rfl, rfl, rfl, rfl, rfl⟩
  obtain ⟨e1, e2, e3, e4, e5, e6, e7, e8, e9, e10, e11⟩ := hfe
  have hidx : actIdx fresh = names.length := by
    rw [actuation_names_length hact]
    unfold actIdx
    rw [e1, e4]; rfl
  have hri' : InvI (implicitReset s).2 := hri
  rw [er] at hri' ⊢
  refine (observe_sameI ops hfi hri' hidx ?_).2 ?_
  · refine ⟨by rw [e1]; rfl, by rw [e1]; rfl, by rw [e1]; rfl, e2.symm, hfi.inv.wf, ⟨hinv.wf.nodup, hinv.wf.params, hinv.wf.enabled⟩,
      e3.symm, e4.symm, e5.symm, ?_, ?_, e6.symm, e7.symm, hfi.inv.dnodup, hfi.inv.dparams, hfi.inv.denabled, hinv.dparams, hinv.denabled, ?_⟩
    · rw [e10, hw]; rfl
    · rw [e11]; exact hinv.weight
    · rw [e9, e8, hc0]
      refine ⟨?_, s.ext.extra.ctrl.stateSaved, rfl⟩
      show s.ext.constraintNames.take names.length = _
      rw [hnm, List.take_left]
  · rw [e1]; rfl

/-- A reset module and a new one at work. -/
example (solver : Solver ℝ) (hspec : SolverSpec solver) (exc : Bool) (x dt : ℝ) (u : List ℝ) :
    (iE.call solver (implicitReset (iE.call solver (iObj [("c", iC 0 {} true none)] 2 exc) (.array [x]) dt u).2).2 (.array [1]) 1 [-2]).1 =
      .ok [-1] := by
  obtain ⟨c0, fresh, h1, h2, -, h4⟩ := C10_implicit_reset (solver := solver) (E := iE)
    (s := (iE.call solver (iObj [("c", iC 0 {} true none)] 2 exc) (.array [x]) dt u).2)
    ⟨_, _, _, _, _, _, _, _, _, _, .none, _, _, [.call (.array [x]) dt u], by simp [dictKeys], by simp [dictKeys], rfl, i_init _ 2 exc, rfl⟩
  have hb : SameAS (fun _ _ => True) (iObj [("c", iC 0 {} true none)] 2 exc)
      (iE.call solver (iObj [("c", iC 0 {} true none)] 2 exc) (.array [x]) dt u).2 :=
    sameAS_after_call (fun _ => trivial) (genFrame_implicit iE) solver
      (directWF_of_inv (i_module solver (by simp [dictKeys]) 2 exc).inv.inv) (.array [x]) dt u (fun _ _ _ => trivial)
  obtain ⟨z, sv, hex⟩ := (implicit_call_inv (solver := solver) (E := iE) (i_module solver (cs := [("c", iC 0 {} true none)])
    (by simp [dictKeys]) 2 exc).inv.inv (i_module solver (by simp [dictKeys]) 2 exc).inv.names (.array [x]) dt u).2.2
  have h4 := h4 [.call (.array [1]) 1 [-2]]
  simp only [observeI, stepI, List.cons.injEq, Prod.mk.injEq, and_true, Option.some.injEq] at h4
  rw [h4.1]
  rw [hb.high, hb.low, hb.constraints, hb.epsilon, hb.controlDim, hb.exc, hb.direct, hex] at h2
  rw [hex] at h1
  obtain rfl := Except.ok.inj h1
  have h2' : asifInit (some (.scalar 2)) (some (.scalar (-2))) [("c", iC 0 {} true none)] none (1 / 10000) 1 exc []
    (⟨2, iCtrl⟩ : ImplicitExt ℝ Unit) = .ok fresh := h2
  rw [i_init] at h2'
  obtain rfl := Except.ok.inj h2'
  obtain ⟨s', hs', -⟩ := i_result solver hspec exc
  rw [hs']

/-! ### C11 -/

/-- **C11 for implicit modules, the part that holds.** When the backup control law keeps no internal state, a call - in
particular one that raises - has no influence on the results of any operation after it. What is missing: a stateful
controller whose look-ahead raises in the middle is left in the advanced state (`C11_refuted_implicit`). -/
theorem C11_implicit_failure_harmless_partial {solver : Solver K} {E : ImplicitEnv K} {s : ImplicitObj K P A}
    (hs : ImplicitModule solver E s) (hst : Stateless s.ext.extra.ctrl.gen) (i : InputState (List K)) (dt : K) (u : List K)
    (ops : List (AOp K (List K) P)) :
    (observeI solver E (E.call solver s i dt u).2 ops).map Prod.fst = (observeI solver E s ops).map Prod.fst := by
  have h := implicit_after_call (solver := solver) (E := E) hs.inv.inv hs.inv.names i dt u (Or.inr hst)
  exact (observe_sameI ops hs.inv (invI_step solver E hs.inv (.call i dt u)) rfl h).1

/-- A call that returns a control has no influence on the results of later operations, whatever the controller. -/
theorem C11_implicit_success_harmless {solver : Solver K} {E : ImplicitEnv K} {s : ImplicitObj K P A}
    (hs : ImplicitModule solver E s) (i : InputState (List K)) (dt : K) (u v : List K)
    (hok : (E.call solver s i dt u).1 = .ok v) (ops : List (AOp K (List K) P)) :
    (observeI solver E (E.call solver s i dt u).2 ops).map Prod.fst = (observeI solver E s ops).map Prod.fst := by
  have h : SameAS (RelI (actIdx s)) s (E.call solver s i dt u).2 := by
    refine implicit_after_call hs.inv.inv hs.inv.names i dt u (Or.inl ?_)
    rintro x rfl hen
    obtain ⟨nm, ex, rows, drows, w0, cz, hgen, -⟩ := asif_ok (genFrame_implicit E) hen (Prod.ext hok rfl)
    exact ⟨rows, by rw [hgen]⟩
  exact (observe_sameI ops hs.inv (invI_step solver E hs.inv (.call i dt u)) rfl h).1

/-- A call that ends with the solver's "no admissible control" error has no influence on the results of later operations,
whatever the controller. -/
theorem C11_implicit_infeasible_harmless {solver : Solver K} {E : ImplicitEnv K} {s : ImplicitObj K P A}
    (hs : ImplicitModule solver E s) (i : InputState (List K)) (dt : K) (u : List K)
    (herr : (E.call solver s i dt u).1 = .error .solverError) (ops : List (AOp K (List K) P)) :
    (observeI solver E (E.call solver s i dt u).2 ops).map Prod.fst = (observeI solver E s ops).map Prod.fst := by
  have h : SameAS (RelI (actIdx s)) s (E.call solver s i dt u).2 := by
    refine implicit_after_call hs.inv.inv hs.inv.names i dt u (Or.inl ?_)
    rintro x rfl hen
    rcases hg : (implicitGenRows E.ad E.f E.g E.pred (aprep s x u) x dt).1 with e | rows
    · exfalso
      have hne := implicitGen_error hg
      have : (E.call solver s (.array x) dt u).1 = .error e := by
        unfold ImplicitEnv.call implicitASIF
        rw [call_eq _ hen]
        unfold asifFilter
        have e0 : updateDirectParams (prep s x u) = aprep s x u := rfl
        rw [e0]
        rcases hg2 : implicitGenRows E.ad E.f E.g E.pred (aprep s x u) x dt with ⟨r, s1⟩
        rw [hg2] at hg
        obtain rfl : r = .error e := hg
        simp only [hg2]
      rw [this] at herr
      exact hne (by simpa using herr)
    · exact ⟨rows, rfl⟩
  exact (observe_sameI ops hs.inv (invI_step solver E hs.inv (.call i dt u)) rfl h).1

/-- C11: a call with a state of a wrong type and a call with step size 0 raise and change nothing. -/
example (solver : Solver ℝ) (hspec : SolverSpec solver) (exc : Bool) :
    (iE.call solver (iObj [("c", iC 0 {} true none)] 2 exc) (.array [1]) 0 [-2]).1 = .error .zeroDivision ∧
    (iE.call solver (iE.call solver (iObj [("c", iC 0 {} true none)] 2 exc) (.array [1]) 0 [-2]).2 (.array [1]) 1 [-2]).1 = .ok [-1] := by
  constructor
  · unfold ImplicitEnv.call implicitASIF
    rw [call_eq _ rfl]
    simp [asifFilter, implicitGenRows, backupSteps]
  · have h := C11_implicit_failure_harmless_partial (i_module solver (cs := [("c", iC 0 {} true none)]) (by simp [dictKeys]) 2 exc)
      (by
        intro y dt z u z' h
        simp only [iObj, iCtrl, Option.some.injEq, Prod.mk.injEq] at h
        exact h.2.symm) (.array [1]) 0 [-2] [.call (.array [1]) 1 [-2]]
    simp only [observeI, stepI, List.map_cons, List.map_nil, List.cons.injEq, Option.some.injEq, and_true] at h
    rw [h]
    obtain ⟨s', hs', -⟩ := i_result solver hspec exc
    rw [hs']

/-! The refutation: a controller that counts its calls, asks for the counted number as control, and cannot cope with
states from 5 on. -/

/-- The control law. -/
noncomputable def jGen (y : List ℝ) (_ : ℝ) (z : CState ℝ) : Option (List ℝ × CState ℝ) :=
  match z with
  | .array a => if 5 ≤ y.headD 0 then none else some ([a], .array (a + 1))
  | _ => none

theorem jGen_ok (y dt a : ℝ) (h : y < 5) : jGen [y] dt (.array a) = some ([a], .array (a + 1)) := by
  have h' : ¬ (5 : ℝ) ≤ [y].headD 0 := not_le.2 h
  simp only [jGen, if_neg h']

theorem jGen_fail (y : List ℝ) (dt a : ℝ) (h : 5 ≤ y.headD 0) : jGen y dt (.array a) = none := by
  simp only [jGen, if_pos h]

/-- The module, with the controller in state `a`. The constraint is looked at in the second of the two trajectory points. -/
noncomputable def jObj (i a : ℝ) : ImplicitObj ℝ Unit ℝ :=
  { toBase := Base.init (some (.scalar 2)) (some (.scalar (-2)))
    constraints := [("c", iC 0 { numCheckAll := 0 } true none)], params := [("c", ())]
    constraintEnabled := [("c", true)], constraintValues := []
    isStaleConstraints := false
    ext := { epsilon := 1 / 10000, controlDim := 1, solverException := true, numSlack := 0
             objWeight := [1], constraintNames := ["u1_min", "u1_max", "c"]
             actuation := [⟨[1], -2⟩, ⟨[-1], -2⟩]
             direct := [], directParams := [], directEnabled := [], causing := none
             extra := ⟨1, ⟨jGen, .array i, .none, .array a⟩⟩ } }

theorem j_module (solver : Solver ℝ) (a : ℝ) : ImplicitModule solver iE (jObj a a) :=
  ⟨some (.scalar 2), some (.scalar (-2)), [("c", iC 0 { numCheckAll := 0 } true none)], none, 1 / 10000, 1, true, [], 1, jGen,
    .array a, _, jObj a a, [], by simp [dictKeys], by simp [dictKeys], rfl, rfl, rfl⟩

theorem j_inv (i a : ℝ) : InvI (jObj i a) := by
  have h := (j_module (fun _ _ _ => .valueError "") a).inv
  exact ⟨⟨⟨h.inv.wf.nodup, h.inv.wf.params, h.inv.wf.enabled⟩, h.inv.dnodup, h.inv.dparams, h.inv.denabled, h.inv.slack,
    h.inv.weight, h.inv.act⟩, h.names, rfl⟩

theorem j_clip (i a b : ℝ) (h : -2 ≤ b ∧ b ≤ 2) : (jObj i a).toBase.clipControl [b] = .ok [b] := by
  refine C05_clip_identity _ _ trivial trivial ?_
  exact (i_within [] 0 true b).2 h

/-- From `x = 0` the module with controller state `a` returns `-a` for desired control `-2`. -/
theorem j_result (solver : Solver ℝ) (hspec : SolverSpec solver) (i a : ℝ) (ha : 0 ≤ a ∧ a ≤ 2) :
    (iE.call solver (jObj i a) (.array [0]) 1 [-2]).1 = .ok [-a] := by
  have hnp : numPoints (jObj i a) 1 = 2 := by
    have : (jObj i a).ext.extra.backupWindow / 1 = (1 : ℝ) := by simp [jObj]
    unfold numPoints
    rw [this]
    simp [pyInt]
  have hp1 : backupPath iE (jObj i a) [0] 1 1 = some ([a], .array (a + 1)) := by
    have hg : (jObj i a).ext.extra.ctrl.gen [0] 1 (.array a) = some ([a], .array (a + 1)) := jGen_ok _ 1 _ (by norm_num)
    have h0 : backupPath iE (jObj i a) [0] 1 0 = some ([0], .array a) := rfl
    have := C36_trajectory iE (jObj i a) [0] [0] 1 0 _ h0 [a] _ hg [a] (j_clip i a a ⟨by linarith, ha.2⟩)
    rw [this]
    simp [iE, vadd, vscale]
  have hv : ∀ v, variation iE (jObj i a) [0] 1 [v] 1 = [v] := by
    intro v
    simp only [variation, hp1]
    simp [iE, matVec, vadd, vscale]
  have hpt : ∀ u, PointOK iE (jObj i a) [0] 1 (iC 0 { numCheckAll := 0 } true none) [u] 1 ↔ 0 ≤ u + a := by
    intro u
    have e : vadd (iE.f [0]) (matVec (iE.g [0]) [u]) = [u] := by simp [iE, matVec, vadd]
    unfold PointOK pointValue
    rw [hp1, e, hv]
    simp [iC]
  have hpts : pointsOf iE (jObj i a) [0] 1 (iC 0 { numCheckAll := 0 } true none) = [1] := by
    unfold pointsOf
    rw [hnp]
    rfl
  have hadm : ∀ v, AdmissibleI iE (jObj i a) [0] 1 v ↔ ∃ u, v = [u] ∧ -a ≤ u ∧ u ≤ 2 := by
    intro v
    constructor
    · intro h
      have hl : v.length = 1 := h.len
      obtain ⟨u, rfl⟩ := List.length_eq_one_iff.1 hl
      obtain ⟨-, b⟩ := (i_within [] 0 true u).1 h.bounds
      have := h.barrier ("c", iC 0 { numCheckAll := 0 } true none) List.mem_cons_self rfl 1 (by rw [hpts]; simp)
      rw [hpt] at this
      exact ⟨u, rfl, by linarith, b⟩
    · rintro ⟨u, rfl, h1, h2⟩
      refine ⟨rfl, (i_within [] 0 true u).2 ⟨by linarith, h2⟩, ?_, by simp [jObj]⟩
      intro kc hkc _ k hk
      simp only [jObj, List.mem_singleton] at hkc
      subst hkc
      rw [hpts] at hk
      simp only [List.mem_singleton] at hk
      subst hk
      rw [hpt]; linarith
  have hsh : ShapesI iE (jObj i a) [0] 1 := by
    refine ⟨by norm_num, ?_, ?_, ?_, ?_, rfl, rfl, ?_, ?_, ?_, by simp [jObj]⟩
    · have : (jObj i a).ext.extra.backupWindow / 1 = (1 : ℝ) := by simp [jObj]
      rw [this]
      simp [pyInt]
    · intro kc hkc; simp only [jObj, List.mem_singleton] at hkc; subst hkc; rfl
    · intro kc hkc; simp only [jObj, List.mem_singleton] at hkc; subst hkc; rfl
    · intro kc hkc; simp only [jObj, List.mem_singleton] at hkc; subst hkc; simp [iC]
    · simp [iE, jObj]
    · intro z; simp [jObj]
    · intro k hk
      rw [hnp] at hk
      have hk' : k = 0 ∨ k = 1 := by omega
      rcases hk' with rfl | rfl
      · refine ⟨_, _, rfl, ?_, by omega⟩
        intro kc hkc; simp only [jObj, List.mem_singleton] at hkc; subst hkc; rfl
      · refine ⟨_, _, hp1, ?_, fun _ => ⟨⟨[a + 1], .array (a + 1 + 1), ?_, by simp [iE]⟩, rfl, rfl, by simp [iE]⟩⟩
        · intro kc hkc; simp only [jObj, List.mem_singleton] at hkc; subst hkc; rfl
        · exact jGen_ok _ 1 _ (by linarith [ha.2])
  have hz := (hadm [-a]).2 ⟨-a, rfl, le_rfl, by linarith [ha.1]⟩
  obtain ⟨v, hv⟩ := (implicit_total hspec (j_inv i a).inv (j_inv i a).names hsh (by
    intro kc hkc
    simp only [jObj, List.mem_singleton] at hkc
    subst hkc
    rw [hnp, hpts]; simp) (u := [-2]) rfl rfl).1 ⟨_, hz⟩
  obtain ⟨-, -, h1, h2, -⟩ := implicit_solved hspec (j_inv i a).inv rfl (Prod.ext hv rfl) ⟨_, hz⟩
  obtain ⟨u, rfl, hu, -⟩ := (hadm v).1 h1
  rw [hv]
  by_contra hne
  have := h2 [-a] hz (by simpa using fun h => hne (by rw [h]))
  simp only [sqDist, vsub, sqNorm, List.zipWith_cons_cons, List.zipWith_nil_right, dot_cons, dot_nil_left] at this
  nlinarith [ha.2]

/-- **C11 is violated** by implicit modules with stateful backup controllers: the call at `x = 4` raises in the middle of the
look-ahead and leaves the controller advanced; the next call at `x = 0` returns `-2`, where it would have returned `-1` had
the failing call not been made. -/
theorem C11_refuted_implicit (solver : Solver ℝ) (hspec : SolverSpec solver) :
    (∃ e, (iE.call solver (jObj 1 1) (.array [4]) 1 [0]).1 = .error e) ∧
    (iE.call solver (iE.call solver (jObj 1 1) (.array [4]) 1 [0]).2 (.array [0]) 1 [-2]).1 = .ok [-2] ∧
    (iE.call solver (jObj 1 1) (.array [0]) 1 [-2]).1 = .ok [-1] := by
  have hen : (jObj 1 1).enable = true := rfl
  have hsteps : backupSteps (aprep (jObj 1 1) [4] [0]).ext.extra.backupWindow (1 : ℝ) = .ok 1 := by
    unfold backupSteps
    rw [if_neg one_ne_zero]
    have : (aprep (jObj 1 1) [4] [0]).ext.extra.backupWindow / 1 = ((1 : Int) : ℝ) := by
      have : (aprep (jObj 1 1) [4] [0]).ext.extra.backupWindow = 1 := rfl
      rw [this]; norm_num
    rw [this]
    simp [pyInt]
  obtain ⟨t, ht⟩ : ∃ t : ImplicitObj ℝ Unit ℝ, t = setBackup (aprep (jObj 1 1) [4] [0]) ⟨jGen, .array 1, .array 1, .array (1 + 1)⟩ := ⟨_, rfl⟩
  have hgen : implicitGenRows iE.ad iE.f iE.g iE.pred (aprep (jObj 1 1) [4] [0]) [4] 1 =
      (.error (.typeError "'NoneType' object is not subscriptable"), t) := by
    unfold implicitGenRows
    rw [hsteps]
    simp only
    rw [if_neg (by decide)]
    have hint : sensIntegrate iE.ad iE.f iE.g iE.pred (aprep (jObj 1 1) [4] [0]) [4] 1 (Int.toNat 1 + 1) =
        (.error (.typeError "'NoneType' object is not subscriptable"), t) := by
      have hsave : (aprep (jObj 1 1) [4] [0]).ext.extra.ctrl.save = (.ok (), ⟨jGen, .array 1, .array 1, .array 1⟩) := rfl
      unfold sensIntegrate
      rw [hsave]
      simp only
      have hbc : implicitBackupControl (setBackup (aprep (jObj 1 1) [4] [0]) ⟨jGen, .array 1, .array 1, .array 1⟩) [4] 1 = (.ok [1], t) := by
        unfold implicitBackupControl BackupController.generateControl
        have hg : (setBackup (aprep (jObj 1 1) [4] [0]) ⟨jGen, .array 1, .array 1, .array 1⟩).ext.extra.ctrl.gen [4] 1
            (setBackup (aprep (jObj 1 1) [4] [0]) ⟨jGen, .array 1, .array 1, .array 1⟩).ext.extra.ctrl.state =
            some ([1], .array (1 + 1)) := by
          exact jGen_ok _ 1 _ (by norm_num)
        rw [hg]
        simp only
        refine Prod.ext ?_ ht.symm
        exact j_clip 1 1 1 (by norm_num)
      have hjac : backupJacobian iE.ad iE.f iE.g t.ext.extra.ctrl.gen 1 1 t.ext.extra.ctrl.state (iE.pred [4] 1 [1]) =
          .error (.typeError "'NoneType' object is not subscriptable") := by
        unfold backupJacobian
        have hg : t.ext.extra.ctrl.gen (iE.pred [4] 1 [1]) 1 t.ext.extra.ctrl.state = none := by
          rw [ht]
          show jGen (iE.pred [4] 1 [1]) 1 (.array (1 + 1)) = none
          refine jGen_fail _ 1 _ ?_
          simp only [iE, vadd, vscale, List.map_cons, List.map_nil, List.zipWith_cons_cons, List.zipWith_nil_left, List.headD_cons]
          norm_num
        rw [hg]
      have hloop : sensLoop iE.ad iE.f iE.g iE.pred ([4] : List ℝ).length 1 (Int.toNat 1 + 1 - 1)
          (setBackup (aprep (jObj 1 1) [4] [0]) ⟨jGen, .array 1, .array 1, .array 1⟩) [4] (eyeMat ([4] : List ℝ).length)
          [([4], eyeMat ([4] : List ℝ).length)] = (.error (.typeError "'NoneType' object is not subscriptable"), t) := by
        show sensLoop iE.ad iE.f iE.g iE.pred 1 1 (0 + 1) _ [4] _ _ = _
        unfold sensLoop
        rw [hbc]
        simp only
        rw [hjac]
      rw [hloop]
    rw [hint]
  refine ⟨?_, ?_, ?_⟩
  · refine ⟨.typeError "'NoneType' object is not subscriptable", ?_⟩
    unfold ImplicitEnv.call implicitASIF
    rw [call_eq _ hen]
    unfold asifFilter
    have e0 : updateDirectParams (prep (jObj 1 1) [4] [0]) = aprep (jObj 1 1) [4] [0] := rfl
    rw [e0]
    simp only [hgen]
  · obtain ⟨iv, ca, cz, hfr⟩ := call_frame (genFrame_implicit iE) solver hen [4] 1 [0]
    rw [hgen] at hfr
    have hfr : (iE.call solver (jObj 1 1) (.array [4]) 1 [0]).2 = _ := hfr
    have hI := (j_module solver 1).inv
    have hT : SameAS (fun _ _ => True) (jObj 1 1) (blur (aprep (jObj 1 1) [4] [0]) iv ca cz t.ext.constraintNames t.ext.extra) :=
      sameAS_blur_aprep (directWF_of_inv hI.inv) [4] [0] iv ca cz _ _ trivial
    have hsame : SameAS (RelI 2) (jObj 1 (1 + 1)) (iE.call solver (jObj 1 1) (.array [4]) 1 [0]).2 := by
      rw [hfr]
      exact ⟨hT.low, hT.high, hT.enable, hT.constraints, (j_inv 1 (1 + 1)).inv.wf, hT.wft, hT.epsilon, hT.controlDim, hT.exc, hT.slack, hT.weight, hT.act,
        hT.direct, hT.dn, hT.dps, hT.des, hT.dpt, hT.det, ⟨by rw [ht]; rfl, .array 1, by rw [ht]; rfl⟩⟩
    obtain ⟨h1, -⟩ := sameAS_call_on (genCong_implicit iE 2) (genFrame_implicit iE) solver hsame (.array [0]) 1 [-2] (fun _ => rfl)
    have h1 : (iE.call solver (iE.call solver (jObj 1 1) (.array [4]) 1 [0]).2 (.array [0]) 1 [-2]).1 =
      (iE.call solver (jObj 1 (1 + 1)) (.array [0]) 1 [-2]).1 := h1
    rw [h1, j_result solver hspec 1 (1 + 1) (by norm_num)]
    norm_num
  · exact j_result solver hspec 1 1 (by norm_num)

/-! ### C12 -/

/-- **C12 for implicit modules.** Two arbitrary histories of one implicit module that end with the same constraint parameters
and flags and the same backup controller state: the next call has the same result in both, and when it returns, the same
`intervening`. -/
theorem C12_implicit_history_independent {solver : Solver K} {E : ImplicitEnv K} {s : ImplicitObj K P A}
    (hs : ImplicitModule solver E s) (ops1 ops2 : List (AOp K (List K) P))
    (hen1 : (runI solver E s ops1).enable = true) (hen2 : (runI solver E s ops2).enable = true)
    (hcs : (runI solver E s ops2).constraints = (runI solver E s ops1).constraints)
    (hds : (runI solver E s ops2).ext.direct = (runI solver E s ops1).ext.direct)
    (hz : (runI solver E s ops2).ext.extra.ctrl.state = (runI solver E s ops1).ext.extra.ctrl.state)
    (i : InputState (List K)) (dt : K) (u : List K) :
    (E.call solver (runI solver E s ops2) i dt u).1 = (E.call solver (runI solver E s ops1) i dt u).1 ∧
    ∀ v, (E.call solver (runI solver E s ops1) i dt u).1 = .ok v →
      (E.call solver (runI solver E s ops2) i dt u).2.intervening = (E.call solver (runI solver E s ops1) i dt u).2.intervening := by
  have i1 := invI_run solver E ops1 hs.inv
  have i2 := invI_run solver E ops2 hs.inv
  have s1 := staticI_run solver E ops1 hs.inv
  have s2 := staticI_run solver E ops2 hs.inv
  have hsame : SameAS (RelI (actIdx (runI solver E s ops1))) (runI solver E s ops1) (runI solver E s ops2) :=
    ⟨s2.low.trans s1.low.symm, s2.high.trans s1.high.symm, hen2.trans hen1.symm, hcs, i1.inv.wf, i2.inv.wf,
      s2.epsilon.trans s1.epsilon.symm, s2.controlDim.trans s1.controlDim.symm, s2.exc.trans s1.exc.symm,
      s2.slack.trans s1.slack.symm, s2.weight.trans s1.weight.symm, s2.act.trans s1.act.symm, hds, i1.inv.dnodup, i1.inv.dparams,
      i1.inv.denabled, i2.inv.dparams, i2.inv.denabled, by
        have e : actIdx (runI solver E s ops1) = actIdx s := by unfold actIdx; rw [s1.low, s1.high, s1.controlDim]
        refine ⟨by rw [e, static_names hs.inv.names i1.names s1, static_names hs.inv.names i2.names s2], (runI solver E s ops2).ext.extra.ctrl.stateSaved, ?_⟩
        obtain ⟨z1, v1, h1⟩ := s1.extra
        obtain ⟨z2, v2, h2⟩ := s2.extra
        rw [h1, h2] at hz ⊢
        simp only at hz ⊢
        rw [hz]⟩
  obtain ⟨h1, -, h3, -⟩ := sameAS_call_on (genCong_implicit E _) (genFrame_implicit E) solver hsame i dt u (fun _ => rfl)
  exact ⟨h1, fun v hv => h3 hen1 v hv⟩

/-- C12: the empty history against one with two calls, one of which raises. -/
example (solver : Solver ℝ) (hspec : SolverSpec solver) (exc : Bool) :
    (iE.call solver (runI solver iE (iObj [("c", iC 0 {} true none)] 2 exc) [.call (.array [7]) 0 [1], .call (.array [3]) 1 [0]])
      (.array [1]) 1 [-2]).1 = .ok [-1] := by
  have hm := i_module solver (cs := [("c", iC 0 {} true none)]) (by simp [dictKeys]) 2 exc
  have hst : ∀ z sv, Stateless ({ iCtrl with state := z, stateSaved := sv } : BackupController ℝ (List ℝ) Unit).gen := by
    intro z sv y dt z u z' h
    simp only [iCtrl, Option.some.injEq, Prod.mk.injEq] at h
    exact h.2.symm
  have a := implicit_after_call (solver := solver) (E := iE) hm.inv.inv hm.inv.names (.array [7]) 0 [1] (Or.inr (hst .none .none))
  have hi1 := invI_step solver iE hm.inv (.call (.array [7]) 0 [1])
  have b := implicit_after_call (solver := solver) (E := iE) hi1.inv hi1.names (.array [3]) 1 [0] (Or.inr (by
    obtain ⟨-, sv, h⟩ := a.rel
    show Stateless ((iE.call solver (iObj [("c", iC 0 {} true none)] 2 exc) (.array [7]) 0 [1]).2).ext.extra.ctrl.gen
    simp only at h
    rw [h]
    exact hst .none .none))
  refine ((C12_implicit_history_independent hm [] [.call (.array [7]) 0 [1], .call (.array [3]) 1 [0]] rfl (b.enable.trans a.enable)
    (b.constraints.trans a.constraints) (b.direct.trans a.direct) ?_ (.array [1]) 1 [-2]).1).trans ?_
  · obtain ⟨-, v1, h1⟩ := a.rel
    obtain ⟨-, v2, h2⟩ := b.rel
    have h2 : ((iE.call solver (iE.call solver (iObj [("c", iC 0 {} true none)] 2 exc) (.array [7]) 0 [1]).2 (.array [3]) 1 [0]).2).ext.extra =
      _ := h2
    show ((iE.call solver (iE.call solver (iObj [("c", iC 0 {} true none)] 2 exc) (.array [7]) 0 [1]).2 (.array [3]) 1 [0]).2).ext.extra.ctrl.state = _
    rw [h2]
    have h1 : ((iE.call solver (iObj [("c", iC 0 {} true none)] 2 exc) (.array [7]) 0 [1]).2).ext.extra = _ := h1
    show ((iE.call solver (iObj [("c", iC 0 {} true none)] 2 exc) (.array [7]) 0 [1]).2).ext.extra.ctrl.state = _
    rw [h1]
    rfl
  · obtain ⟨s', hs', -⟩ := i_result solver hspec exc
    show (iE.call solver (iObj [("c", iC 0 {} true none)] 2 exc) (.array [1]) 1 [-2]).1 = _
    rw [hs']

end RTA
