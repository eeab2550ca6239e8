import Verif.Lemmas.ImplicitHist
import Verif.Props.ASIF

/-!
C36, C37, C38 and the implicit parts of C09, C10, C11, C12, C29: optimisation based modules that look at a backup
trajectory.
-/
set_option linter.unusedSectionVars false
namespace RTA
variable {K P A : Type} [Field K] [LinearOrder K] [IsStrictOrderedRing K] [FloorRing K] [HasSqrt K]

/-! ### A concrete module

State and control are one number, `x' = u`; the backup law asks for control `1`, which lies within the bounds `±2`; the
constraints are `x + o ≥ 0`. With step 1 the backup trajectory from `x` is `x, x+1, x+2, ...`. -/

/-- The constraint `x + o ≥ 0`. -/
noncomputable def iC (o : ℝ) (cfg : SubsampleConfig) (en : Bool) (slack : Option ℝ) : Constraint ℝ (List ℝ) Unit :=
  { computeFn := fun y _ => y.headD 0 + o, phiFn := fun y _ => y.headD 0 + o, gradFn := fun _ _ => [1]
    params := (), alpha := some id, alphaNeg := none, bias := 0, biasNegative := 0, enabled := en
    slackPriorityScale := slack, subsample := cfg }

/-- The environment: `x' = u`, Euler prediction, and the Jacobian of the closed loop (a constant field). -/
noncomputable def iE : ImplicitEnv ℝ :=
  { ad := fun _ _ => [[0]], f := fun _ => [0], g := fun _ => [[1]], pred := fun y dt u => vadd y (vscale dt u) }

/-- The backup controller: always `[1]`. -/
noncomputable def iCtrl : BackupController ℝ (List ℝ) Unit :=
  { gen := fun _ _ z => some ([1], z), stateInitial := .none, stateSaved := .none, state := .none }

/-- The module with backup window `w`. -/
noncomputable def iObj (cs : Dict (Constraint ℝ (List ℝ) Unit)) (w : ℝ) (exc : Bool) : ImplicitObj ℝ Unit Unit :=
  { toBase := Base.init (some (.scalar 2)) (some (.scalar (-2)))
    constraints := cs, params := cs.foldl (fun d kc => dictSet d kc.1 kc.2.params) []
    constraintEnabled := cs.foldl (fun d kc => dictSet d kc.1 kc.2.enabled) [], constraintValues := []
    isStaleConstraints := false
    ext := { epsilon := 1 / 10000, controlDim := 1, solverException := exc, numSlack := (slackWeights cs).length
             objWeight := [1] ++ slackWeights cs, constraintNames := ["u1_min", "u1_max"] ++ (dictKeys cs ++ [])
             actuation := [⟨[1] ++ zeros (slackWeights cs).length, -2⟩, ⟨[-1] ++ zeros (slackWeights cs).length, -2⟩]
             direct := [], directParams := [], directEnabled := [], causing := none, extra := ⟨w, iCtrl⟩ } }

theorem i_init (cs : Dict (Constraint ℝ (List ℝ) Unit)) (w : ℝ) (exc : Bool) :
    asifInit (some (.scalar 2)) (some (.scalar (-2))) cs none (1 / 10000) 1 exc [] ⟨w, iCtrl⟩ = .ok (iObj cs w exc) := rfl

theorem i_module (solver : Solver ℝ) {cs : Dict (Constraint ℝ (List ℝ) Unit)} (hcs : (dictKeys cs).Nodup) (w : ℝ) (exc : Bool) :
    ImplicitModule solver iE (iObj cs w exc) :=
  ⟨_, _, _, _, _, _, _, _, _, _, .none, _, _, [], hcs, by simp [dictKeys], rfl, i_init cs w exc, rfl⟩

theorem i_within (cs : Dict (Constraint ℝ (List ℝ) Unit)) (w : ℝ) (exc : Bool) (u : ℝ) :
    Within (iObj cs w exc).controlBoundsLow (iObj cs w exc).controlBoundsHigh [u] ↔ -2 ≤ u ∧ u ≤ 2 :=
  toy_within none exc u

theorem i_path (cs : Dict (Constraint ℝ (List ℝ) Unit)) (w : ℝ) (exc : Bool) (x dt : ℝ) (k : Nat) :
    backupPath iE (iObj cs w exc) [x] dt k = some ([x + dt * k], .none) := by
  induction k with
  | zero => simp [backupPath, iObj, iCtrl]
  | succ k ih =>
    have hc : (iObj cs w exc).toBase.clipControl [1] = .ok [1] := by
      refine C05_clip_identity _ _ trivial trivial ?_
      exact (i_within cs w exc 1).2 (by norm_num)
    simp only [backupPath, ih, bind, Option.bind]
    have hg : (iObj cs w exc).ext.extra.ctrl.gen [x + dt * (k : ℝ)] dt .none = some ([1], .none) := rfl
    simp only [hg, hc, Except.toOption, pure, iE, vadd, vscale, List.map_cons, List.map_nil, List.zipWith_cons_cons,
      List.zipWith_nil_left, Option.some.injEq, Prod.mk.injEq, and_true, List.cons.injEq]
    push_cast
    ring

theorem i_variation (cs : Dict (Constraint ℝ (List ℝ) Unit)) (w : ℝ) (exc : Bool) (x dt v : ℝ) (k : Nat) :
    variation iE (iObj cs w exc) [x] dt [v] k = [v] := by
  induction k with
  | zero => rfl
  | succ k ih =>
    unfold variation
    rw [i_path, ih]
    simp [iE, matVec, vscale, vadd]

theorem i_point (cs : Dict (Constraint ℝ (List ℝ) Unit)) (w : ℝ) (exc : Bool) (x dt u o : ℝ) (cfg : SubsampleConfig) (en : Bool)
    (sl : Option ℝ) (k : Nat) :
    PointOK iE (iObj cs w exc) [x] dt (iC o cfg en sl) [u] k ↔ 0 ≤ u + (x + dt * k + o) := by
  have e : vadd (iE.f [x]) (matVec (iE.g [x]) [u]) = [u] := by simp [iE, matVec, vadd]
  have : pointValue iE (iObj cs w exc) [x] dt (iC o cfg en sl) [u] k = some (u + (x + dt * k + o)) := by
    unfold pointValue
    rw [i_path, e, i_variation]
    simp [iC]
  unfold PointOK
  rw [this]
  simp

theorem i_numPoints (cs : Dict (Constraint ℝ (List ℝ) Unit)) (w : Nat) (exc : Bool) : numPoints (iObj cs w exc) 1 = w + 1 := by
  have : (iObj cs w exc).ext.extra.backupWindow / 1 = (w : ℝ) := by simp [iObj]
  unfold numPoints
  rw [this]
  simp [pyInt]

theorem i_shapes {cs : Dict (Constraint ℝ (List ℝ) Unit)} (hcs : ∀ kc ∈ cs, ∃ o cfg en, kc.2 = iC o cfg en none ∧ cfg.skipLength ≠ 0)
    (w : Nat) (exc : Bool) (x : ℝ) : ShapesI iE (iObj cs w exc) [x] 1 := by
  refine ⟨by norm_num, ?_, ?_, ?_, ?_, rfl, rfl, ?_, ?_, ?_, by simp [iObj]⟩
  · have : (iObj cs w exc).ext.extra.backupWindow / 1 = (w : ℝ) := by simp [iObj]
    rw [this]
    simp [pyInt]
  · intro kc hkc
    obtain ⟨o, cfg, en, h, -⟩ := hcs kc hkc
    rw [h]; rfl
  · intro kc hkc
    obtain ⟨o, cfg, en, h, -⟩ := hcs kc hkc
    rw [h]; rfl
  · intro kc hkc
    obtain ⟨o, cfg, en, h, h'⟩ := hcs kc hkc
    rw [h]; exact h'
  · simp [iE, iObj]
  · intro z; simp [iObj, iCtrl]
  · intro k _
    refine ⟨_, _, i_path cs w exc x 1 k, ?_, fun _ => ⟨⟨[1], .none, rfl, by simp [iE]⟩, rfl, rfl, by simp [iE]⟩⟩
    intro kc hkc
    obtain ⟨o, cfg, en, h, -⟩ := hcs kc hkc
    rw [h]; rfl

theorem i_admissible {cs : Dict (Constraint ℝ (List ℝ) Unit)} (w : Nat) (exc : Bool) (x : ℝ) (v : List ℝ) :
    AdmissibleI iE (iObj cs w exc) [x] 1 v ↔ ∃ u, v = [u] ∧ -2 ≤ u ∧ u ≤ 2 ∧
      ∀ kc ∈ cs, kc.2.enabled = true → ∀ k ∈ pointsOf iE (iObj cs w exc) [x] 1 kc.2,
        PointOK iE (iObj cs w exc) [x] 1 kc.2 [u] k := by
  constructor
  · intro h
    have hl : v.length = 1 := h.len
    obtain ⟨u, rfl⟩ := List.length_eq_one_iff.1 hl
    obtain ⟨a, b⟩ := (i_within cs w exc u).1 h.bounds
    exact ⟨u, rfl, a, b, h.barrier⟩
  · rintro ⟨u, rfl, a, b, c⟩
    exact ⟨rfl, (i_within cs w exc u).2 ⟨a, b⟩, c, by simp [iObj]⟩

/-! ### C36 -/

section
variable [LawfulSqrt K]

/-- **C36, the generated inequalities.** In an enabled call at `x` on any implicit module, if inequalities are generated at
all they are the actuation rows followed by one block per constraint; the block has one row per trajectory point looked at;
the row of point `k` of an enabled constraint holds for a control exactly when
`grad h(x_k) . S_k (f(x) + g(x) u) + alpha(h(x_k)) ≥ 0`; rows of disabled constraints hold for every control. -/
theorem C36_rows {solver : Solver K} {E : ImplicitEnv K} {s : ImplicitObj K P A} (hs : ImplicitModule solver E s)
    (x : List K) (dt : K) (u0 : List K) {rows : List (Row K)} {s1 : ImplicitObj K P A}
    (h : implicitGenRows E.ad E.f E.g E.pred (updateDirectParams (updateConstraintValuesAt (updateParams (withDesired s u0)) x true))
      x dt = (.ok rows, s1)) :
    ∃ rss, rows = s.ext.actuation ++ rss.flatten ∧
      List.Forall₂ (fun rs (kc : String × Constraint K (List K) P) =>
        List.Forall₂ (fun r k => ∀ u, u.length = s.ext.controlDim →
          (kc.2.enabled = true → (RowHolds r u ↔ PointOK E s x dt kc.2 u k)) ∧ (kc.2.enabled = false → RowHolds r u))
          rs (pointsOf E s x dt kc.2)) rss s.constraints := by
  have hap : updateDirectParams (updateConstraintValuesAt (updateParams (withDesired s u0)) x true) = aprep s x u0 := rfl
  rw [hap] at h
  obtain ⟨-, ⟨rss, hrows, hrep⟩, -⟩ := implicitGen_ok (cachesFresh_aprep hs.inv.inv.wf x u0) h
  refine ⟨rss, hrows, ?_⟩
  refine hrep.imp ?_
  intro rs kc hkc
  have hkc' := repPoints_same (samePath_aprep s x u0) hkc
  refine List.Forall₂.imp ?_ hkc'
  rintro r k ⟨hlen, hz, hv⟩ u hu
  refine ⟨fun hen => ?_, fun hen => ?_⟩
  · have := hv hen u hu
    unfold PointOK
    rw [this]
    simp only [Option.some.injEq, exists_eq_left']
    exact rowHolds_margin r u
  · exact zeroRow_holds (hz hen) u

/-- **C36**. With a solver that does what it promises and a state in which some control is admissible: a returned control
satisfies the bounds, the direct inequalities and the condition at every trajectory point looked at of every enabled
constraint; every other such control is strictly farther from the desired one; and the module reports an intervention
exactly when the result is more than `epsilon` away from the desired control. -/
theorem C36_closest_admissible {solver : Solver K} (hspec : SolverSpec solver) {E : ImplicitEnv K} {s s' : ImplicitObj K P A}
    (hs : ImplicitModule solver E s) (hen : s.enable = true) (x : List K) (dt : K) (u v : List K)
    (hcall : E.call solver s (.array x) dt u = (.ok v, s')) (hadm : ∃ w, AdmissibleI E s x dt w) :
    AdmissibleI E s x dt v ∧ (∀ w, AdmissibleI E s x dt w → w ≠ v → sqDist v u < sqDist w u) ∧
      (0 ≤ s.ext.epsilon → (s'.intervening = true ↔ s.ext.epsilon * s.ext.epsilon < sqDist u v)) := by
  obtain ⟨-, -, h1, h2, h3, -⟩ := implicit_solved hspec hs.inv.inv hen hcall hadm
  refine ⟨h1, h2, fun heps => ?_⟩
  rw [h3]
  unfold asifMonitor
  rw [decide_eq_true_iff]
  exact lt_sqrt_iff heps (sqNorm_nonneg _)

/-- When shapes fit and no constraint yields more rows than the trajectory has points, calls answer: with a control if some
control is admissible, by the configured policy otherwise. -/
theorem C36_returns {solver : Solver K} (hspec : SolverSpec solver) {E : ImplicitEnv K} {s : ImplicitObj K P A}
    (hs : ImplicitModule solver E s) (hen : s.enable = true) (x : List K) (dt : K) (hsh : ShapesI E s x dt)
    (hfit : ∀ kc ∈ s.constraints, (pointsOf E s x dt kc.2).length ≤ numPoints s dt) (u : List K)
    (hu : u.length = s.ext.controlDim) :
    ((∃ w, AdmissibleI E s x dt w) → ∃ v, (E.call solver s (.array x) dt u).1 = .ok v) ∧
    ((¬ ∃ w, AdmissibleI E s x dt w) → (E.call solver s (.array x) dt u).1 =
      if s.ext.solverException then .error .solverError else s.toBase.clipControl u) :=
  implicit_total hspec hs.inv.inv hs.inv.names hsh hfit hu hen

end

/-- The condition at point 0 is the condition of the explicit module with the strengthener `alpha`. -/
theorem C36_point_zero (E : ImplicitEnv K) (s : ImplicitObj K P A) (x : List K) (dt : K) (c : Constraint K (List K) P)
    (al : K → K) (hal : c.alpha = some al) (u : List K) :
    PointOK E s x dt c u 0 ↔
      0 ≤ dot (c.gradFn x c.params) (vadd (E.f x) (matVec (E.g x) u)) + al (c.computeFn x c.params + c.bias) := by
  unfold PointOK pointValue
  simp only [backupPath, hal, variation, Option.some.injEq, exists_eq_left']

/-- Point `k + 1` of the trajectory is reached from point `k` by one prediction step with the clipped backup control. -/
theorem C36_trajectory (E : ImplicitEnv K) (s : ImplicitObj K P A) (x y : List K) (dt : K) (k : Nat) (z : CState A)
    (h : backupPath E s x dt k = some (y, z)) (ub : List K) (z' : CState A) (hg : s.ext.extra.ctrl.gen y dt z = some (ub, z'))
    (uc : List K) (hc : s.toBase.clipControl ub = .ok uc) :
    backupPath E s x dt (k + 1) = some (E.pred y dt uc, z') := by
  simp only [backupPath, h, hg, hc, bind, Option.bind, Except.toOption, pure]

/-- A call that returns leaves the internal state of the backup controller as it was. -/
theorem C36_controller_state_kept {solver : Solver K} {E : ImplicitEnv K} {s s' : ImplicitObj K P A}
    (hs : ImplicitModule solver E s) (i : InputState (List K)) (dt : K) (u v : List K)
    (hcall : E.call solver s i dt u = (.ok v, s')) : s'.ext.extra.ctrl.state = s.ext.extra.ctrl.state := by
  have h : SameAS (RelI (actIdx s)) s (E.call solver s i dt u).2 := by
    refine implicit_after_call hs.inv.inv hs.inv.names i dt u (Or.inl ?_)
    rintro x rfl hen
    obtain ⟨nm, ex, rows, drows, w0, cz, hgen, -⟩ := asif_ok (genFrame_implicit E) hen hcall
    exact ⟨rows, by rw [hgen]⟩
  rw [hcall] at h
  obtain ⟨-, sv, hsv⟩ := h.rel
  simp only at hsv
  rw [hsv]

/-- The concrete module with one default constraint, window 2 and step 1, at `x = 1`: for desired control `-2` the call
returns `-1`, the closest control that satisfies the condition at points 0, 1 and 2. -/
theorem i_result (solver : Solver ℝ) (hspec : SolverSpec solver) (exc : Bool) :
    ∃ s', iE.call solver (iObj [("c", iC 0 {} true none)] 2 exc) (.array [1]) 1 [-2] = (.ok [-1], s') ∧ s'.intervening = true := by
  have hmod := i_module solver (cs := [("c", iC 0 {} true none)]) (by simp [dictKeys]) 2 exc
  have hw : ((2 : Nat) : ℝ) = 2 := by norm_num
  have hnp := i_numPoints [("c", iC 0 {} true none)] 2 exc
  have hsh := i_shapes (cs := [("c", iC 0 {} true none)]) (by
    intro kc hkc; simp only [List.mem_singleton] at hkc; subst hkc; exact ⟨0, {}, true, rfl, by decide⟩) 2 exc 1
  have hadm := @i_admissible [("c", iC 0 {} true none)] 2 exc 1
  simp only [hw] at hnp hsh hadm
  have hpts : pointsOf iE (iObj [("c", iC 0 {} true none)] 2 exc) [1] 1 (iC 0 {} true none) = [0, 1, 2] := by
    unfold pointsOf
    rw [hnp]
    rfl
  have hadm : ∀ v, AdmissibleI iE (iObj [("c", iC 0 {} true none)] 2 exc) [1] 1 v ↔ ∃ u, v = [u] ∧ -1 ≤ u ∧ u ≤ 2 := by
    intro v
    rw [hadm]
    refine exists_congr fun u => and_congr_right fun _ => ?_
    simp only [List.mem_singleton, forall_eq, hpts]
    simp only [List.mem_cons, List.not_mem_nil, or_false, forall_eq_or_imp, forall_eq, i_point]
    have : (iC 0 {} true none).enabled = true := rfl
    simp only [this, true_implies]
    constructor
    · rintro ⟨-, h2, h3, -⟩
      norm_num at h3
      exact ⟨by linarith, h2⟩
    · rintro ⟨h1, h2⟩
      refine ⟨by linarith, h2, by norm_num; linarith, by norm_num; linarith, by norm_num; linarith⟩
  have ha : ∃ w, AdmissibleI iE (iObj [("c", iC 0 {} true none)] 2 exc) [1] 1 w := ⟨[-1], (hadm _).2 ⟨-1, rfl, by norm_num⟩⟩
  obtain ⟨v, hv⟩ := (C36_returns hspec hmod rfl [1] 1 hsh (by
    intro kc hkc
    simp only [iObj, List.mem_singleton] at hkc
    subst hkc
    rw [hnp, hpts]; simp) [-2] rfl).1 ha
  obtain ⟨s', hs'⟩ : ∃ s', iE.call solver (iObj [("c", iC 0 {} true none)] 2 exc) (.array [1]) 1 [-2] = (.ok v, s') :=
    ⟨_, Prod.ext hv rfl⟩
  obtain ⟨h1, h2, h3⟩ := C36_closest_admissible hspec hmod rfl [1] 1 [-2] v hs' ha
  obtain ⟨u, rfl, hu1, hu2⟩ := (hadm v).1 h1
  have : u = -1 := by
    by_contra hne
    have := h2 [-1] ((hadm _).2 ⟨-1, rfl, by norm_num⟩) (by simpa using fun h => hne h.symm)
    simp only [sqDist, vsub, sqNorm, List.zipWith_cons_cons, List.zipWith_nil_right, dot_cons, dot_nil_left] at this
    nlinarith
  subst this
  refine ⟨s', hs', ?_⟩
  have he : (iObj [("c", iC 0 {} true none)] 2 exc).ext.epsilon = 1 / 10000 := rfl
  rw [h3 (by rw [he]; norm_num), he]
  simp only [sqDist, vsub, sqNorm, List.zipWith_cons_cons, List.zipWith_nil_right, dot_cons, dot_nil_left]
  norm_num

/-! ### C37 -/

theorem mem_pyRange {a b s : Int} (hs : 0 < s) {i : Int} : i ∈ pyRange a b s ↔ ∃ k : Nat, i = a + s * k ∧ i < b := by
  unfold pyRange
  rw [if_pos hs]
  simp only [List.mem_map, List.mem_range]
  have key : ∀ k : Nat, k < ((b - a + s - 1) / s).toNat ↔ a + s * (k : Int) < b := by
    intro k
    have h1 : k < ((b - a + s - 1) / s).toNat ↔ (k : Int) + 1 ≤ (b - a + s - 1) / s := by omega
    rw [h1, Int.le_ediv_iff_mul_le hs]
    constructor
    · intro h
      have : ((k : Int) + 1) * s = s * k + s := by ring
      omega
    · intro h
      have : ((k : Int) + 1) * s = s * k + s := by ring
      omega
  constructor
  · rintro ⟨k, hk, rfl⟩
    exact ⟨k, rfl, (key k).1 hk⟩
  · rintro ⟨k, rfl, hk⟩
    exact ⟨k, (key k).2 hk, rfl⟩

theorem jaxIndex_inside {n : Nat} {i : Int} (h0 : 0 ≤ i) (h : i < n) : jaxIndex n i = i.toNat := by
  unfold jaxIndex
  dsimp only
  split_ifs <;> omega

theorem pyRange_zero (n : Nat) : pyRange 0 n 1 = (List.range n).map fun k : Nat => (k : Int) := by
  unfold pyRange
  rw [if_pos (by decide)]
  have : (((n : Int) - 0 + 1 - 1) / 1).toNat = n := by rw [Int.ediv_one]; omega
  rw [this]
  exact List.map_congr_left fun k _ => by omega

/-- **C37, default settings.** Every trajectory point is looked at, in order. -/
theorem C37_default_every_point (n : Nat) (h : Nat → K) : checkedPoints {} n h = List.range n := by
  have e1 : pyRange 0 (-1) 1 = [] := rfl
  have e2 : pyRange (-1 + 1) n 1 = (List.range n).map fun k : Nat => (k : Int) := pyRange_zero n
  unfold checkedPoints
  simp only [e1, e2, List.nil_append, List.map_map, Bool.false_eq_true, if_false, List.append_nil]
  conv_rhs => rw [← List.map_id (List.range n)]
  refine List.map_congr_left fun k hk => ?_
  rw [List.mem_range] at hk
  simp only [Function.comp_apply, id]
  rw [jaxIndex_inside (by omega) (by omega)]
  omega

/-- With default settings the controls an implicit module admits satisfy the condition at all `floor(window/dt) + 1` points of
the backup trajectory. -/
theorem C37_default_admissible {E : ImplicitEnv K} {s : ImplicitObj K P A} {x : List K} {dt : K} {u : List K}
    (hdef : ∀ kc ∈ s.constraints, kc.2.subsample = {}) (h : AdmissibleI E s x dt u) :
    ∀ kc ∈ s.constraints, kc.2.enabled = true → ∀ k, k < numPoints s dt → PointOK E s x dt kc.2 u k := by
  intro kc hkc hen k hk
  refine h.barrier kc hkc hen k ?_
  unfold pointsOf
  rw [hdef kc hkc, C37_default_every_point]
  exact List.mem_range.2 hk

/-- **C37, the points that are looked at** for `num_check_all = m ≥ 0`, `skip_length = s ≥ 1` and no further selection: the
first `m` points, then point `m + 1` and every `s`-th point after it. Point `m` itself is not among them. -/
theorem C37_check_all_and_skip (cfg : SubsampleConfig) (m s : Nat) (hm : cfg.numCheckAll = m) (hs : cfg.skipLength = s)
    (hpos : 0 < s) (hnl : cfg.numLeast = none) (hkf : cfg.keepFirst = false) (hkl : cfg.keepLast = false) {n : Nat} (hn : 0 < n)
    (h : Nat → K) (k : Nat) :
    k ∈ checkedPoints cfg n h ↔ k < n ∧ (k < m ∨ ∃ j : Nat, k = m + 1 + s * j) := by
  have hs' : (0 : Int) < (s : Int) := by omega
  unfold checkedPoints
  simp only [hnl, hkf, hkl, hm, hs, Bool.false_eq_true, if_false, List.append_nil, List.mem_map, List.mem_append,
    mem_pyRange hs', mem_pyRange (show (0 : Int) < 1 by decide)]
  constructor
  · rintro ⟨i, (⟨j, hi, hlt⟩ | ⟨j, hi, hlt⟩), rfl⟩
    · by_cases hin : i < n
      · rw [jaxIndex_inside (by omega) hin]
        exact ⟨by omega, Or.inl (by omega)⟩
      · have : jaxIndex n i = n - 1 := by
          unfold jaxIndex
          dsimp only
          split_ifs <;> omega
        rw [this]
        exact ⟨by omega, Or.inl (by omega)⟩
    · have h0 : 0 ≤ (s : Int) * j := by positivity
      rw [jaxIndex_inside (by omega) (by omega)]
      refine ⟨by omega, Or.inr ⟨j, ?_⟩⟩
      have : ((s * j : Nat) : Int) = (s : Int) * j := by push_cast; rfl
      omega
  · rintro ⟨hk, (hlt | ⟨j, hj⟩)⟩
    · exact ⟨k, Or.inl ⟨k, by omega, by omega⟩, by rw [jaxIndex_inside (by omega) (by omega)]; omega⟩
    · refine ⟨k, Or.inr ⟨j, ?_, by omega⟩, by rw [jaxIndex_inside (by omega) (by omega)]; omega⟩
      have : ((s * j : Nat) : Int) = (s : Int) * j := by push_cast; rfl
      omega

/-- **C37 is violated**: with `num_check_all = m` the point after the first `m` points is skipped whatever `skip_length` is,
in particular point 0 is skipped by `num_check_all = 0`, `skip_length = 1`. -/
theorem C37_refuted_gap (cfg : SubsampleConfig) (m s : Nat) (hm : cfg.numCheckAll = m) (hs : cfg.skipLength = s)
    (hpos : 0 < s) (hnl : cfg.numLeast = none) (hkf : cfg.keepFirst = false) (hkl : cfg.keepLast = false) {n : Nat} (hn : m < n)
    (h : Nat → K) : m ∉ checkedPoints cfg n h := by
  rw [C37_check_all_and_skip cfg m s hm hs hpos hnl hkf hkl (by omega) h]
  rintro ⟨-, (h1 | ⟨j, hj⟩)⟩
  · omega
  · omega

/-- **C37, `num_least`.** With `subsample_constraints_num_least = N ≥ 0` the candidates split into the points looked at, as many
as possible up to `N`, and dropped ones, and no point looked at has a larger constraint value than a dropped one. -/
theorem C37_num_least (cfg : SubsampleConfig) (N : Nat) (hN : cfg.numLeast = some (N : Int)) (hkf : cfg.keepFirst = false)
    (hkl : cfg.keepLast = false) (n : Nat) (h : Nat → K) :
    ∃ dropped, (checkedPoints cfg n h ++ dropped).Perm (checkedPoints { cfg with numLeast := none } n h) ∧
      (checkedPoints cfg n h).length = min N (checkedPoints { cfg with numLeast := none } n h).length ∧
      ∀ a ∈ checkedPoints cfg n h, ∀ b ∈ dropped, h a ≤ h b := by
  obtain ⟨cand, hcand⟩ : ∃ cand, cand = (pyRange 0 cfg.numCheckAll 1 ++ pyRange (cfg.numCheckAll + 1) n cfg.skipLength).map (jaxIndex n) :=
    ⟨_, rfl⟩
  have e1 : checkedPoints { cfg with numLeast := none } n h = cand := by
    unfold checkedPoints
    simp only [hkf, hkl, Bool.false_eq_true, if_false, List.append_nil, hcand]
  have e2 : checkedPoints cfg n h = (cand.mergeSort fun i j => decide (h i ≤ h j)).take N := by
    unfold checkedPoints
    simp only [hkf, hkl, hN, Bool.false_eq_true, if_false, List.append_nil, hcand, takeInt]
    rw [if_pos (by omega)]
    simp
  rw [e1, e2]
  refine ⟨(cand.mergeSort fun i j => decide (h i ≤ h j)).drop N, ?_, ?_, ?_⟩
  · rw [List.take_append_drop]
    exact List.mergeSort_perm _ _
  · rw [List.length_take, List.length_mergeSort]
  · intro a ha b hb
    have hsort : (cand.mergeSort fun i j => decide (h i ≤ h j)).Pairwise (fun i j => h i ≤ h j) := by
      have := List.pairwise_mergeSort (le := fun i j => decide (h i ≤ h j))
        (fun a b c hab hbc => by simp only [decide_eq_true_eq] at *; exact hab.trans hbc)
        (fun a b => by simp only [Bool.or_eq_true, decide_eq_true_eq]; exact le_total _ _) cand
      exact this.imp (fun h => by simpa using h)
    rw [← List.take_append_drop N (cand.mergeSort fun i j => decide (h i ≤ h j))] at hsort
    exact (List.pairwise_append.1 hsort).2.2 a ha b hb

/-- **C37, `keep_first`/`keep_last`.** The first, respectively last, point is always looked at. -/
theorem C37_keep (cfg : SubsampleConfig) (n : Nat) (h : Nat → K) :
    (cfg.keepFirst = true → 0 ∈ checkedPoints cfg n h) ∧ (cfg.keepLast = true → n - 1 ∈ checkedPoints cfg n h) := by
  unfold checkedPoints
  refine ⟨fun hk => ?_, fun hk => ?_⟩
  · simp [hk]
  · simp [hk]

/-- **C37 is violated** for slack variables: an enabled implicit module with a constraint that asks for slack never returns a
control. -/
theorem C37_refuted_slack {solver : Solver K} {E : ImplicitEnv K} {s : ImplicitObj K P A} (hs : ImplicitModule solver E s)
    (hen : s.enable = true) (hsl : ∃ kc ∈ s.constraints, kc.2.slackPriorityScale ≠ none) (i : InputState (List K)) (dt : K)
    (u v : List K) : (E.call solver s i dt u).1 ≠ .ok v := by
  intro h
  cases i with
  | notArray =>
    unfold ImplicitEnv.call implicitASIF at h
    rw [filterControlCB_enabled hen] at h
    simp [computeFilteredControl, getStateDefault] at h
  | array x =>
    obtain ⟨s', hcall⟩ : ∃ s', E.call solver s (.array x) dt u = (.ok v, s') := ⟨_, Prod.ext h rfl⟩
    obtain ⟨nm, ex, rows, drows, w0, cz, hgen, -⟩ := asif_ok (genFrame_implicit E) hen hcall
    obtain ⟨kc, hkc, hne⟩ := hsl
    have h0 := (implicitGen_ok (cachesFresh_aprep hs.inv.inv.wf x u) hgen).1 (List.ne_nil_of_mem hkc)
    have h0 : s.ext.numSlack = 0 := h0
    rw [hs.inv.inv.slack, List.length_eq_zero_iff] at h0
    unfold slackScales at h0
    rw [List.filterMap_eq_nil_iff] at h0
    exact hne (h0 kc hkc)

/-- Such a module exists. -/
example (solver : Solver ℝ) (i : InputState (List ℝ)) (dt : ℝ) (u v : List ℝ) :
    (iE.call solver (iObj [("c", iC 0 {} true (some 4))] 2 true) i dt u).1 ≠ .ok v :=
  C37_refuted_slack (i_module solver (by simp [dictKeys]) 2 true) rfl ⟨_, List.mem_cons_self, by simp [iC]⟩ i dt u v

end RTA
