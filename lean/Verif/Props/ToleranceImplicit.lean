import Verif.Lemmas.ToleranceImplicit
import Verif.Props.ImplicitFlow
import Verif.Props.Tolerance

/-!
C102, implicit modules: with a solver that meets the inequalities up to `ε` and minimises up to `δ`, the guarantees of implicit ASIF
modules hold up to correspondingly small errors. `bias_negative`, which makes up for such errors in explicit modules, has no effect in
implicit ones; `bias` has.
-/
set_option linter.unusedSectionVars false
namespace RTA
open Set
variable {K P A : Type}

section
variable [Field K] [LinearOrder K] [IsStrictOrderedRing K] [FloorRing K] [HasSqrt K] [LawfulSqrt K]

/-! ### One call -/

/-- **C102, implicit, conditions.** A returned control respects its bounds exactly, and at every point looked at of every enabled
constraint the condition holds up to `ε` for the solver and `ε` times the control's influence on it for the final clipping. The
hypothesis excludes the fallback: the module raises on failure, or some control meets all conditions with margin `ε`. -/
theorem C102_implicit_conditions {ε δ : K} (hε : 0 ≤ ε) {solver : Solver K} (hspec : SolverTol ε δ solver) {E : ImplicitEnv K}
    {s s' : ImplicitObj K P A} (hs : ImplicitModule solver E s) (hcons : BoundsConsistent s.controlBoundsLow s.controlBoundsHigh)
    (hen : s.enable = true) {x : List K} {dt : K} {u v : List K} (hcall : E.call solver s (.array x) dt u = (.ok v, s'))
    (hsol : s.ext.solverException = true ∨ ∃ w, AdmissibleIBy (-ε) E s x dt w) :
    Within s.controlBoundsLow s.controlBoundsHigh v ∧ v.length = s.ext.controlDim ∧
      (∀ kc ∈ s.constraints, kc.2.enabled = true → ∀ k ∈ pointsOf E s x dt kc.2,
        ∃ m, pointValue E s x dt kc.2 v k = some m ∧ -(ε * (1 + pointAuthority E s x dt kc.2 k)) ≤ m) ∧
      ∀ kc ∈ s.ext.direct, kc.2.enabled = true → kc.2.ineqConstant x kc.2.params -
        ε * (1 + oneNorm (kc.2.ineqWeight x kc.2.params)) ≤ dot (kc.2.ineqWeight x kc.2.params) v := by
  have hinv := hs.inv.inv
  obtain ⟨-, w, had, hclip, -⟩ := implicit_tol hspec hinv hen hcall hsol
  obtain ⟨names, hact⟩ := hinv.act
  obtain ⟨fl, fh⟩ := boundFits_of_act hact
  obtain ⟨nm, ex, rows, drows, w0, cz, hgen, -⟩ := asif_ok (genFrame_implicit E) hen hcall
  obtain ⟨hvl, hnear⟩ := clipControl_near hε (by rw [had.len]; exact fl) (by rw [had.len]; exact fh) had.bounds hclip
  refine ⟨clip_within s.toBase w v hcons hclip, hvl.trans had.len, fun kc hkc hke k hk => ?_, fun kc hkc hke => ?_⟩
  · obtain ⟨m, hm, hle⟩ := had.barrier kc hkc hke k hk
    obtain ⟨r, hrl, hr⟩ := implicit_point_row hinv hgen hkc hke hk
    obtain ⟨m', hm', hle'⟩ := pointValue_near hε hrl hr (hvl.trans had.len) had.len hnear hm
    exact ⟨m', hm', by linarith⟩
  · have h1 := had.direct kc hkc hke
    have h2 := dot_near_le hε (kc.2.ineqWeight x kc.2.params) hvl hnear
    linarith

/-- **C102, implicit, answers.** With fitting shapes a call returns a control whenever some control meets all conditions with margin
`ε`, or the module does not raise on failure. -/
theorem C102_implicit_returns {ε δ : K} {solver : Solver K} (hspec : SolverTol ε δ solver) {E : ImplicitEnv K}
    {s : ImplicitObj K P A} (hs : ImplicitModule solver E s) (hen : s.enable = true) {x : List K} {dt : K} (hsh : ShapesI E s x dt)
    (hfit : ∀ kc ∈ s.constraints, (pointsOf E s x dt kc.2).length ≤ numPoints s dt) {u : List K} (hu : u.length = s.ext.controlDim)
    (hsol : s.ext.solverException = false ∨ ∃ w, AdmissibleIBy (-ε) E s x dt w) :
    ∃ v, (E.call solver s (.array x) dt u).1 = .ok v :=
  implicit_tol_total hspec hs.inv.inv hs.inv.names hsh hfit hu hen hsol

/-- **C102, implicit, interference.** If the desired control is admissible, every returned control is within `√(2δ)` of it, and
`intervening` is `False` if `√(2δ)` does not exceed the module's threshold `epsilon`. -/
theorem C102_implicit_interference {ε δ : K} (hδ : 0 ≤ δ) {solver : Solver K} (hspec : SolverTol ε δ solver) {E : ImplicitEnv K}
    {s s' : ImplicitObj K P A} (hs : ImplicitModule solver E s) (hen : s.enable = true) {x : List K} {dt : K} {u v : List K}
    (hadm : AdmissibleI E s x dt u) (hcall : E.call solver s (.array x) dt u = (.ok v, s')) :
    sqDist v u ≤ 2 * δ ∧ (0 ≤ s.ext.epsilon → 2 * δ ≤ s.ext.epsilon * s.ext.epsilon → s'.intervening = false) := by
  have hinv := hs.inv.inv
  obtain ⟨names, hact⟩ := hinv.act
  obtain ⟨fl, fh⟩ := boundFits_of_act hact
  by_cases hsol : s.ext.solverException = true ∨ ∃ w, AdmissibleIBy (-ε) E s x dt w
  · obtain ⟨hul, w, had, hclip, hmin, hint⟩ := implicit_tol hspec hinv hen hcall hsol
    have h2 := hmin u hadm
    rw [sqDist_self, zero_add] at h2
    have h3 := clip_closer (by rw [had.len]; exact fl) (by rw [had.len]; exact fh) (hul.trans had.len.symm) hadm.bounds hclip
    refine ⟨h3.trans h2, fun he hd => ?_⟩
    rw [hint]
    exact monitor_close (had.len.trans hul.symm) h2 he hd
  · rw [not_or] at hsol
    obtain ⟨nm, ex, rows, drows, w0, cz, hgen, hdir, hout, hclip, hs'⟩ := asif_ok (genFrame_implicit E) hen hcall
    obtain ⟨hns, -, hwid, -⟩ := implicit_rep hinv hact hgen hdir
    cases hout with
    | infeasible hq hx =>
      rw [zeros_append_take hadm.len] at hclip hs'
      have hvu : v = u := by
        have := C05_clip_identity s.toBase u (by rw [hadm.len]; exact fl) (by rw [hadm.len]; exact fh) hadm.bounds
        rw [this] at hclip
        exact (Except.ok.inj hclip).symm
      subst hvu
      refine ⟨by rw [sqDist_self]; linarith, fun he hd => ?_⟩
      rw [hs']
      exact monitor_close rfl (by rw [sqDist_self]; linarith) he hd
    | @solved z iact l hq hcause =>
      have hG := objWeight_pos hinv (scalesPos_of_noSlack hinv hns)
      have hGl := objWeight_length hinv
      rw [hns, Nat.add_zero] at hGl
      obtain ⟨hqs, hal, hrw⟩ := quadprogSolve_dims (Or.inl ⟨_, _, hq⟩)
      obtain ⟨hzl', hrows, hmin, -⟩ := hspec.solved _ _ _ _ _ hG hal hrw (hqs.symm.trans hq)
      have hzl : z.length = s.ext.controlDim := hzl'.trans hGl
      have hzt : z.take s.ext.controlDim = z := List.take_of_length_le hzl.le
      rw [hzt] at hclip hs'
      have h2 := hmin _ ((implicit_feasible hinv hgen hdir hadm.len).2 hadm)
      rw [qpObj_eq_dist hinv hns hadm.len hzl, qpObj_eq_dist hinv hns hadm.len hadm.len, sqDist_self] at h2
      have h2' : sqDist z u ≤ 2 * δ := by linarith
      have h3 := clip_closer (by rw [hzl]; exact fl) (by rw [hzl]; exact fh) (hadm.len.trans hzl.symm) hadm.bounds hclip
      refine ⟨h3.trans h2', fun he hd => ?_⟩
      rw [hs']
      exact monitor_close (hzl.trans hadm.len.symm) h2' he hd

end

/-! ### Trajectories -/

/-- **C102, implicit, loop.** If at every time the control is what an implicit ASIF module with a tolerant solver returns, the current
state (point 0) is looked at, the control's influence on the condition there is at most `B`, and the strengthener is at most
`-ε (1 + B)` below `-η`, then the value of the constraint never falls below `-η`; where moreover `bias ≤ -η`, the quantity the
constraint is about never becomes negative. -/
theorem C102_implicit_loop {ε δ B η : ℝ} (hε : 0 ≤ ε) {solver : Solver ℝ} (hspec : SolverTol ε δ solver) {E : ImplicitEnv ℝ} {k : String}
    {c : Constraint ℝ (List ℝ) P} {D : Set (List ℝ)} {n : Nat} {x u : ℝ → List ℝ}
    (hgrad : IsGradientOn D n (fun x => c.computeFn x c.params) (fun x => c.gradFn x c.params))
    (htraj : Trajectory D n E.f E.g x u) {al : ℝ → ℝ} (ha : c.alpha = some al) (hneg : ∀ y < -η, al y ≤ -(ε * (1 + B)))
    (hen : c.enabled = true)
    (hloop : ∀ t, 0 ≤ t → ∃ (s s' : ImplicitObj ℝ P A) (dt : ℝ) (uDes : List ℝ), ImplicitModule solver E s ∧ s.enable = true ∧
      BoundsConsistent s.controlBoundsLow s.controlBoundsHigh ∧
      (k, c) ∈ s.constraints ∧ 0 ∈ pointsOf E s (x t) dt c ∧ pointAuthority E s (x t) dt c 0 ≤ B ∧
      (s.ext.solverException = true ∨ ∃ w, AdmissibleIBy (-ε) E s (x t) dt w) ∧
      E.call solver s (.array (x t)) dt uDes = (.ok (u t), s'))
    (h0 : -η ≤ c.value (x 0)) :
    (∀ t, 0 ≤ t → -η ≤ c.value (x t)) ∧ (η ≤ -c.bias → ∀ t, 0 ≤ t → 0 ≤ c.computeFn (x t) c.params) := by
  have key := stays_nonneg (h := fun t => c.value (x t) + η) (a := 0)
    (((along_cont htraj hgrad).add continuousOn_const).add continuousOn_const)
    (fun t ht => ((along_deriv htraj hgrad ht).add_const _).add_const _) ?_ (by linarith)
  · have hv : ∀ t, 0 ≤ t → -η ≤ c.value (x t) := fun t ht => by have := key t ht; linarith
    refine ⟨hv, fun hb t ht => ?_⟩
    have := hv t ht
    unfold Constraint.value at this
    linarith
  · intro t ht hlt
    obtain ⟨s, s', dt, uDes, hs, hens, hcons, hmem, hpt, hB, hsol, hcall⟩ := hloop t ht
    obtain ⟨-, -, hbar, -⟩ := C102_implicit_conditions hε hspec hs hcons hens hcall hsol
    obtain ⟨m, hm, hle⟩ := hbar (k, c) hmem hen 0 hpt
    simp only [pointValue, backupPath, ha, variation, Option.some.injEq] at hm
    have h1 := hneg (c.value (x t)) (by linarith)
    unfold Constraint.value at h1
    have h2 := mul_le_mul_of_nonneg_left hB hε
    simp only at hle
    linarith

/-- **C102, implicit, backup trajectories.** As `C67_backup_kept` with a tolerant solver: if the strengthener is below `-ε (1 + B)` below
`-η`, `B` bounding the control's influence on the conditions, and a point of the backup trajectory at which the constraint is least is
looked at, then from a state whose backup trajectory keeps the constraint at `-η` or above every later state has such a backup
trajectory. -/
theorem C102_implicit_backup {ε δ B η : ℝ} (hε : 0 ≤ ε) {solver : Solver ℝ} (hspec : SolverTol ε δ solver) {E : ImplicitEnv ℝ} {k : String}
    {c : Constraint ℝ (List ℝ) P} {x u : ℝ → List ℝ} {s0 : ImplicitObj ℝ P A} {dt : ℝ} {al : ℝ → ℝ} (ha : c.alpha = some al)
    (hneg : ∀ y < -η, al y < -(ε * (1 + B))) (hen : c.enabled = true)
    (hpath : ∀ t, 0 ≤ t → ∀ j < numPoints s0 dt, (backupPath E s0 (x t) dt j).isSome = true)
    (hcont : ∀ j < numPoints s0 dt, ContinuousOn (fun t => pathValue E s0 (x t) dt c j) (Ici 0))
    (hder : ∀ t, 0 ≤ t → ∀ j < numPoints s0 dt, ∀ y z, backupPath E s0 (x t) dt j = some (y, z) →
      HasDerivWithinAt (fun r => pathValue E s0 (x r) dt c j)
        (dot (c.gradFn y c.params) (variation E s0 (x t) dt (vadd (E.f (x t)) (matVec (E.g (x t)) (u t))) j)) (Ici t) t)
    (hloop : ∀ t, 0 ≤ t → ∃ (s s' : ImplicitObj ℝ P A) (uDes : List ℝ), ImplicitModule solver E s ∧ s.enable = true ∧
      BoundsConsistent s.controlBoundsLow s.controlBoundsHigh ∧ SameBackup s0 s ∧ (k, c) ∈ s.constraints ∧
      (∃ j ∈ pointsOf E s (x t) dt c, j < numPoints s0 dt ∧ pointAuthority E s (x t) dt c j ≤ B ∧
        ∀ i < numPoints s0 dt, pathValue E s0 (x t) dt c j ≤ pathValue E s0 (x t) dt c i) ∧
      (s.ext.solverException = true ∨ ∃ w, AdmissibleIBy (-ε) E s (x t) dt w) ∧
      E.call solver s (.array (x t)) dt uDes = (.ok (u t), s'))
    (h0 : ∀ j < numPoints s0 dt, -η ≤ pathValue E s0 (x 0) dt c j) :
    ∀ t, 0 ≤ t → ∀ j < numPoints s0 dt, -η ≤ pathValue E s0 (x t) dt c j := by
  have key := least_stays (Finset.range (numPoints s0 dt)) (h := fun j t => pathValue E s0 (x t) dt c j + η)
    (h' := fun j t => match backupPath E s0 (x t) dt j with
      | some (y, _) => dot (c.gradFn y c.params) (variation E s0 (x t) dt (vadd (E.f (x t)) (matVec (E.g (x t)) (u t))) j)
      | none => 0)
    (fun j hj => (hcont j (Finset.mem_range.1 hj)).add continuousOn_const) (fun j hj t ht => ?_) (fun t ht hex => ?_)
    (fun j hj => by have := h0 j (Finset.mem_range.1 hj); linarith)
  · intro t ht j hj
    have := key t ht j (Finset.mem_range.2 hj)
    linarith
  · rcases hb : backupPath E s0 (x t) dt j with _ | ⟨y, z⟩
    · have := hpath t ht j (Finset.mem_range.1 hj)
      rw [hb] at this
      simp at this
    · exact (hder t ht j (Finset.mem_range.1 hj) y z hb).add_const _
  · obtain ⟨s, s', uDes, hs, hens, hcons, hsame, hmem, ⟨j, hjp, hjn, hB, hjl⟩, hsol, hcall⟩ := hloop t ht
    obtain ⟨-, -, hbar, -⟩ := C102_implicit_conditions hε hspec hs hcons hens hcall hsol
    obtain ⟨m, hm, hm0⟩ := hbar (k, c) hmem hen j hjp
    simp only at hm hm0
    rw [hsame.pointValue] at hm
    obtain ⟨i, hi, hlt⟩ := hex
    have hle := hjl i (Finset.mem_range.1 hi)
    refine ⟨j, Finset.mem_range.2 hjn, fun i hi => by have := hjl i (Finset.mem_range.1 hi); linarith, ?_⟩
    rcases hb : backupPath E s0 (x t) dt j with _ | ⟨y, z⟩
    · have := hpath t ht j hjn
      rw [hb] at this
      simp at this
    · have hpv : pathValue E s0 (x t) dt c j = c.computeFn y c.params + c.bias := by
        unfold pathValue
        rw [hb]
      simp only [pointValue, hb, ha, Option.some.injEq] at hm
      have := hneg _ (show c.computeFn y c.params + c.bias < -η by rw [← hpv]; linarith)
      have h2 := mul_le_mul_of_nonneg_left hB hε
      simp only
      linarith

/-! ### `bias_negative` has no effect -/

/-- The constraint `x ≥ 0` with any `bias_negative`. -/
noncomputable def iCb (b : ℝ) : Constraint ℝ (List ℝ) Unit := { iC 0 {} true none with biasNegative := b }

theorem ib_point (cs : Dict (Constraint ℝ (List ℝ) Unit)) (w : ℝ) (exc : Bool) (x u b : ℝ) (k : Nat) :
    pointValue iE (iObj cs w exc) [x] 1 (iCb b) [u] k = some (u + (x + k)) := by
  have e : vadd (iE.f [x]) (matVec (iE.g [x]) [u]) = [u] := by simp [iE, matVec, vadd]
  unfold pointValue
  rw [i_path, e, i_variation]
  simp [iCb, iC]

theorem ib_points (b : ℝ) (exc : Bool) (x : ℝ) : pointsOf iE (iObj [("c", iCb b)] 2 exc) [x] 1 (iCb b) = [0, 1, 2] := by
  have hnp := i_numPoints [("c", iCb b)] 2 exc
  have hw : ((2 : Nat) : ℝ) = 2 := by norm_num
  rw [hw] at hnp
  unfold pointsOf
  rw [hnp]
  exact C37_default_every_point _ _

theorem ib_authority (b : ℝ) (exc : Bool) (x : ℝ) (k : Nat) : pointAuthority iE (iObj [("c", iCb b)] 2 exc) [x] 1 (iCb b) k = 1 := by
  have e : (iObj [("c", iCb b)] 2 exc).ext.controlDim = 1 := rfl
  have e1 : eyeRow (K := ℝ) 1 0 = [1] := by simp [eyeRow]
  have e2 : zeros (K := ℝ) 1 = [0] := rfl
  unfold pointAuthority
  rw [e]
  simp only [List.range_one, List.map_cons, List.map_nil, e1, e2, ib_point, Option.getD_some, List.sum_cons, List.sum_nil]
  norm_num

theorem ib_consistent (b : ℝ) (exc : Bool) :
    BoundsConsistent (iObj [("c", iCb b)] 2 exc).controlBoundsLow (iObj [("c", iCb b)] 2 exc).controlBoundsHigh := by
  intro i l h hl hh
  simp [iObj, Base.init, boundAt] at hl hh
  linarith

theorem ib_by {η b x : ℝ} (exc : Bool) {w : List ℝ} : AdmissibleIBy η iE (iObj [("c", iCb b)] 2 exc) [x] 1 w ↔
    ∃ u, w = [u] ∧ -2 - η ≤ u ∧ u ≤ 2 + η ∧ -x - η ≤ u := by
  constructor
  · intro h
    obtain ⟨u, rfl⟩ := List.length_eq_one_iff.1 (show w.length = 1 from h.len)
    obtain ⟨h1, h2⟩ := h.bounds 0 u rfl
    have h3 := h1 (-2) (by simp [iObj, Base.init, boundAt])
    have h4 := h2 2 (by simp [iObj, Base.init, boundAt])
    obtain ⟨m, hm, hle⟩ := h.barrier ("c", iCb b) (by simp [iObj]) rfl 0 (by rw [ib_points]; simp)
    simp only [ib_point, Option.some.injEq] at hm
    norm_num at hm
    exact ⟨u, rfl, h3, h4, by linarith⟩
  · rintro ⟨u, rfl, h1, h2, h3⟩
    refine ⟨rfl, fun i v hv => ?_, fun kc hkc hke k hk => ?_, by simp [iObj]⟩
    · rcases i with _ | i
      · simp at hv
        subst hv
        constructor <;> intro b hb <;> simp [iObj, Base.init, boundAt] at hb <;> subst hb <;> linarith
      · simp at hv
    · simp only [iObj, List.mem_singleton] at hkc
      subst hkc
      refine ⟨_, ib_point _ _ _ _ _ _ _, ?_⟩
      have : (0 : ℝ) ≤ k := by positivity
      linarith

theorem ib_shapes (b : ℝ) (exc : Bool) (x : ℝ) : ShapesI iE (iObj [("c", iCb b)] 2 exc) [x] 1 := by
  refine ⟨by norm_num, ?_, ?_, ?_, ?_, rfl, rfl, ?_, ?_, ?_, by simp [iObj]⟩
  · have : (iObj [("c", iCb b)] 2 exc).ext.extra.backupWindow / 1 = ((2 : Nat) : ℝ) := by simp [iObj]
    rw [this]
    simp [pyInt]
  · simp [iObj, iCb, iC]
  · simp [iObj, iCb, iC]
  · simp [iObj, iCb, iC]
  · simp [iE, iObj]
  · intro z; simp [iObj, iCtrl]
  · intro k _
    refine ⟨_, _, i_path _ _ exc x 1 k, ?_, fun _ => ⟨⟨[1], .none, rfl, by simp [iE]⟩, rfl, rfl, by simp [iE]⟩⟩
    simp [iObj, iCb, iC]

/-- With a solver that relaxes inequalities by `ε`, the desired control `-2` becomes `-x - ε`. -/
theorem ib_answer {b ε x : ℝ} (hε : 0 ≤ ε) (h0 : -2 ≤ -x - ε) (h1 : -x - ε ≤ 2) :
    ∃ s', iE.call (relaxedSolver ε refSolver) (iObj [("c", iCb b)] 2 false) (.array [x]) 1 [-2] = (.ok [-x - ε], s') := by
  have hm := i_module (relaxedSolver ε refSolver) (cs := [("c", iCb b)]) (by simp [dictKeys]) 2 false
  have hnp := i_numPoints [("c", iCb b)] 2 false
  have hw : ((2 : Nat) : ℝ) = 2 := by norm_num
  rw [hw] at hnp
  obtain ⟨v, hv⟩ := C102_implicit_returns (C98_relaxed refSolver_spec hε le_rfl) hm rfl (ib_shapes b false x) (by
    intro kc hkc
    simp only [iObj, List.mem_singleton] at hkc
    subst hkc
    rw [hnp, ib_points]; simp) (u := [-2]) rfl (Or.inl rfl)
  obtain ⟨s', hs'⟩ : ∃ s', iE.call (relaxedSolver ε refSolver) (iObj [("c", iCb b)] 2 false) (.array [x]) 1 [-2] = (.ok v, s') :=
    ⟨_, Prod.ext hv rfl⟩
  have hbest : AdmissibleIBy ε iE (iObj [("c", iCb b)] 2 false) [x] 1 [-x - ε] :=
    (ib_by false).2 ⟨_, rfl, by linarith, by linarith, le_rfl⟩
  obtain ⟨w, had, hclip, hmin⟩ := implicit_relaxed hε refSolver_spec hm.inv.inv rfl hs' ⟨_, hbest⟩
  obtain ⟨a, rfl, -, -, h4⟩ := (ib_by false).1 had
  have h5 := hmin _ hbest
  rw [sqDist_one, sqDist_one] at h5
  have ha : a = -x - ε := by nlinarith
  subst ha
  refine ⟨s', ?_⟩
  have := C05_clip_identity (iObj [("c", iCb b)] 2 false).toBase [-x - ε] trivial trivial ((i_within _ _ _ _).2 ⟨h0, h1⟩)
  rw [this] at hclip
  rw [hs', ← Except.ok.inj hclip]

/-- **C102, implicit, `bias_negative` does not help.** For every tolerance `ε` in `(0, 2]` there is a solver within it and a trajectory,
starting where the constraint just holds, along which the control is at every time what an implicit module returns and the constraint
is violated at every later time; the module's constraint may have any `bias_negative` (compare `C98_bias` for explicit modules). The
loss tends to `ε`, half of the bound of `C102_implicit_loop`. -/
theorem C102_implicit_bias_ignored {ε : ℝ} (hε : 0 < ε) (h2 : ε ≤ 2) : ∃ (solver : Solver ℝ) (x u : ℝ → List ℝ), SolverTol ε 0 solver ∧
    Trajectory univ 1 iE.f iE.g x u ∧ ∀ b : ℝ, (iCb b).biasNegative = b ∧ ImplicitModule solver iE (iObj [("c", iCb b)] 2 false) ∧
      (∀ t, 0 ≤ t → ∃ s' uDes, iE.call solver (iObj [("c", iCb b)] 2 false) (.array (x t)) 1 uDes = (.ok (u t), s')) ∧
      (iCb b).value (x 0) = 0 ∧ ∀ t, 0 < t → (iCb b).value (x t) = -(ε * (1 - Real.exp (-t))) ∧ (iCb b).value (x t) < 0 := by
  refine ⟨relaxedSolver ε refSolver, fun t => [-(ε * (1 - Real.exp (-t)))], fun t => [-(ε * Real.exp (-t))],
    C98_relaxed refSolver_spec hε.le le_rfl, single_trajectory fun t => ?_, fun b => ⟨rfl, i_module _ (by simp [dictKeys]) 2 false,
      fun t ht => ?_, ?_, fun t ht => ?_⟩⟩
  · have h2 := (((exp_neg_deriv t).const_sub 1).const_mul ε).neg
    exact h2.congr_deriv (by ring)
  · have he : Real.exp (-t) ≤ 1 := Real.exp_le_one_iff.2 (by linarith)
    have hp := Real.exp_pos (-t)
    have e : -(-(ε * (1 - Real.exp (-t)))) - ε = -(ε * Real.exp (-t)) := by ring
    obtain ⟨s', hs'⟩ := ib_answer (b := b) (x := -(ε * (1 - Real.exp (-t)))) hε.le (by rw [e]; nlinarith) (by rw [e]; nlinarith)
    rw [e] at hs'
    exact ⟨s', [-2], hs'⟩
  · simp [Constraint.value, iCb, iC]
  · have : Real.exp (-t) < 1 := Real.exp_lt_one_iff.2 (by linarith)
    have e : (iCb b).value [-(ε * (1 - Real.exp (-t)))] = -(ε * (1 - Real.exp (-t))) := by simp [Constraint.value, iCb, iC]
    refine ⟨e, ?_⟩
    rw [e]
    nlinarith

/-- `bias_negative` does not enter the conditions of implicit modules at all. -/
theorem C102_implicit_bias_negative [Field K] [LinearOrder K] (E : ImplicitEnv K) (s : ImplicitObj K P A) (x : List K) (dt : K)
    (c : Constraint K (List K) P) (b : K) (u : List K) (k : Nat) :
    pointValue E s x dt { c with biasNegative := b } u k = pointValue E s x dt c u k := rfl

/-! ### Concrete instances -/

/-- C102 (conditions): at `x = 1` with tolerance `1/10` the answer is `-11/10`, which misses the condition at point 0 by the tolerance
but not by more than the bound `2/10`. -/
example : ∃ s', iE.call (relaxedSolver (1 / 10) refSolver) (iObj [("c", iCb 0)] 2 false) (.array [1]) 1 [-2] = (.ok [-1 - 1 / 10], s') ∧
    ¬ PointOK iE (iObj [("c", iCb 0)] 2 false) [1] 1 (iCb 0) [-1 - 1 / 10] 0 ∧
    ∃ m, pointValue iE (iObj [("c", iCb 0)] 2 false) [1] 1 (iCb 0) [-1 - 1 / 10] 0 = some m ∧ -(2 / 10) ≤ m := by
  obtain ⟨s', hs'⟩ := ib_answer (b := 0) (ε := 1 / 10) (x := 1) (by norm_num) (by norm_num) (by norm_num)
  refine ⟨s', hs', ?_, ?_⟩
  · rintro ⟨m, hm, hle⟩
    rw [ib_point, Option.some.injEq] at hm
    norm_num at hm
    linarith
  · obtain ⟨-, -, hb, -⟩ := C102_implicit_conditions (by norm_num) (C98_relaxed refSolver_spec (ε := 1 / 10) (δ := 0) (by norm_num) le_rfl)
      (i_module _ (by simp [dictKeys]) 2 false) (ib_consistent 0 false) rfl hs'
      (Or.inr ⟨[0], (ib_by false).2 ⟨0, rfl, by norm_num, by norm_num, by norm_num⟩⟩)
    obtain ⟨m, hm, hle⟩ := hb ("c", iCb 0) (by simp [iObj]) rfl 0 (by rw [ib_points]; simp)
    refine ⟨m, hm, ?_⟩
    simp only [ib_authority] at hle
    linarith

/-- C102 (interference): the desired control `1` is admissible at `x = 1`. -/
example (v : List ℝ) (s' : ImplicitObj ℝ Unit Unit)
    (h : iE.call (relaxedSolver (1 / 10) refSolver) (iObj [("c", iC 0 {} true none)] 2 false) (.array [1]) 1 [1] = (.ok v, s')) :
    sqDist v [1] ≤ 2 * 0 := by
  refine (C102_implicit_interference le_rfl (C98_relaxed refSolver_spec (ε := 1 / 10) (δ := 0) (by norm_num) le_rfl)
    (i_module _ (by simp [dictKeys]) 2 false) rfl ?_ h).1
  have := @i_admissible [("c", iC 0 {} true none)] 2 false 1 [1]
  have hw : ((2 : Nat) : ℝ) = 2 := by norm_num
  rw [hw] at this
  refine this.2 ⟨1, rfl, by norm_num, by norm_num, fun kc hkc _ k _ => ?_⟩
  simp only [List.mem_singleton] at hkc
  subst hkc
  rw [i_point]
  positivity

/-- C102 (loop): along the trajectory of `C102_implicit_bias_ignored` with `ε = 1/10` the value stays above `-2/10`. -/
example : ∀ t, 0 ≤ t → -(2 / 10) ≤ (iCb 0).value [-(1 / 10 * (1 - Real.exp (-t)))] := by
  refine (C102_implicit_loop (A := Unit) (ε := 1 / 10) (B := 1) (by norm_num) (C98_relaxed refSolver_spec (ε := 1 / 10) (δ := 0) (by norm_num) le_rfl)
    (E := iE) (k := "c") (c := iCb 0) (D := univ) (n := 1) (x := fun t => [-(1 / 10 * (1 - Real.exp (-t)))])
    (u := fun t => [-(1 / 10 * Real.exp (-t))]) ?_ (single_trajectory fun t => ?_) (al := id) rfl (fun y hy => ?_) rfl (fun t ht => ?_) ?_).1
  · refine (grad_coord univ (n := 1) (i := 0) (by decide)).congr (fun x _ hx => ?_) ?_
    · obtain ⟨a, rfl⟩ := List.length_eq_one_iff.1 hx
      simp [iCb, iC, stateAt]
    · intro x _ hx v hv
      obtain ⟨a, rfl⟩ := List.length_eq_one_iff.1 hv
      simp [iCb, iC, gradAt, dot_cons]
  · have h2 := (((exp_neg_deriv t).const_sub 1).const_mul (1 / 10)).neg
    exact h2.congr_deriv (by ring)
  · simp only [id]; linarith
  · have he : Real.exp (-t) ≤ 1 := Real.exp_le_one_iff.2 (by linarith)
    have hp := Real.exp_pos (-t)
    have e : -(-(1 / 10 * (1 - Real.exp (-t)))) - 1 / 10 = -(1 / 10 * Real.exp (-t)) := by ring
    obtain ⟨s', hs'⟩ := ib_answer (b := 0) (ε := 1 / 10) (x := -(1 / 10 * (1 - Real.exp (-t)))) (by norm_num) (by rw [e]; nlinarith) (by rw [e]; nlinarith)
    rw [e] at hs'
    refine ⟨_, s', 1, [-2], i_module _ (by simp [dictKeys]) 2 false, rfl, ib_consistent 0 false, by simp [iObj], by rw [ib_points]; simp,
      (ib_authority _ _ _ _).le, Or.inr ⟨[1], (ib_by false).2 ⟨1, rfl, by norm_num, by norm_num, by nlinarith⟩⟩, hs'⟩
  · simp [Constraint.value, iCb, iC]
    norm_num

/-- C102 (backup trajectories): so does the whole backup trajectory. -/
example : ∀ t, 0 ≤ t → ∀ j < numPoints (iObj [("c", iCb 0)] 2 false) 1,
    -(2 / 10) ≤ pathValue iE (iObj [("c", iCb 0)] 2 false) [-(1 / 10 * (1 - Real.exp (-t)))] 1 (iCb 0) j := by
  have hv : ∀ (x : ℝ) (j : Nat), pathValue iE (iObj [("c", iCb 0)] 2 false) [x] 1 (iCb 0) j = x + j := by
    intro x j
    unfold pathValue
    rw [i_path]
    simp [iCb, iC]
  have hd : ∀ t : ℝ, HasDerivAt (fun t => -(1 / 10 * (1 - Real.exp (-t)))) (-(1 / 10 * Real.exp (-t))) t := fun t => by
    have h2 := (((exp_neg_deriv t).const_sub 1).const_mul (1 / 10)).neg
    exact h2.congr_deriv (by ring)
  refine C102_implicit_backup (ε := 1 / 10) (B := 1) (by norm_num) (C98_relaxed refSolver_spec (ε := 1 / 10) (δ := 0) (by norm_num) le_rfl)
    (E := iE) (k := "c") (c := iCb 0) (x := fun t => [-(1 / 10 * (1 - Real.exp (-t)))]) (u := fun t => [-(1 / 10 * Real.exp (-t))])
    (al := id) rfl (fun y hy => by simp only [id]; linarith) rfl (fun t _ j _ => by rw [i_path]; rfl) (fun j _ => ?_)
    (fun t ht j _ y z hy => ?_) (fun t ht => ?_) (fun j _ => ?_)
  · simp only [hv]
    exact fun t _ => ((hd t).add_const _).continuousAt.continuousWithinAt
  · have e : vadd (iE.f [-(1 / 10 * (1 - Real.exp (-t)))]) (matVec (iE.g [-(1 / 10 * (1 - Real.exp (-t)))]) [-(1 / 10 * Real.exp (-t))]) =
        [-(1 / 10 * Real.exp (-t))] := by simp [iE, matVec, vadd]
    simp only [hv, e, i_variation]
    have := ((hd t).add_const (j : ℝ)).hasDerivWithinAt (s := Ici t)
    refine this.congr_deriv ?_
    simp [iCb, iC]
  · have he : Real.exp (-t) ≤ 1 := Real.exp_le_one_iff.2 (by linarith)
    have hp := Real.exp_pos (-t)
    have e : -(-(1 / 10 * (1 - Real.exp (-t)))) - 1 / 10 = -(1 / 10 * Real.exp (-t)) := by ring
    obtain ⟨s', hs'⟩ := ib_answer (b := 0) (ε := 1 / 10) (x := -(1 / 10 * (1 - Real.exp (-t)))) (by norm_num) (by rw [e]; nlinarith) (by rw [e]; nlinarith)
    rw [e] at hs'
    refine ⟨_, s', [-2], i_module _ (by simp [dictKeys]) 2 false, rfl, ib_consistent 0 false, ⟨rfl, rfl, rfl, rfl, rfl⟩, by simp [iObj],
      ⟨0, by rw [ib_points]; simp, by unfold numPoints; omega, (ib_authority _ _ _ _).le, fun i _ => ?_⟩,
      Or.inr ⟨[1], (ib_by false).2 ⟨1, rfl, by norm_num, by norm_num, by nlinarith⟩⟩, hs'⟩
    rw [hv, hv]
    have : (0 : ℝ) ≤ i := by positivity
    norm_num
  · rw [hv]
    have : (0 : ℝ) ≤ j := by positivity
    simp
    linarith

end RTA
