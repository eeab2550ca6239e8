import Verif.Lemmas.FlowLeast
import Verif.Props.Flow
import Verif.Props.Implicit

/-!
C67: implicit optimisation based modules in continuous time.
-/
namespace RTA
open Set
variable {P A : Type}

/-- Two implicit modules work with the same backup trajectories: same backup controller and controller state, same window,
same control bounds. Calls on a module do not change any of these. -/
structure SameBackup (s t : ImplicitObj ℝ P A) : Prop where
  gen : t.ext.extra.ctrl.gen = s.ext.extra.ctrl.gen
  state : t.ext.extra.ctrl.state = s.ext.extra.ctrl.state
  window : t.ext.extra.backupWindow = s.ext.extra.backupWindow
  low : t.controlBoundsLow = s.controlBoundsLow
  high : t.controlBoundsHigh = s.controlBoundsHigh

theorem SameBackup.path {s t : ImplicitObj ℝ P A} (h : SameBackup s t) (E : ImplicitEnv ℝ) (x : List ℝ) (dt : ℝ) (k : Nat) :
    backupPath E t x dt k = backupPath E s x dt k := by
  induction k with
  | zero => simp only [backupPath, h.state]
  | succ k ih =>
    have hclip : ∀ u, t.toBase.clipControl u = s.toBase.clipControl u := by
      intro u
      unfold Base.clipControl
      rw [h.low, h.high]
    simp only [backupPath, ih, h.gen, hclip]

theorem SameBackup.variation {s t : ImplicitObj ℝ P A} (h : SameBackup s t) (E : ImplicitEnv ℝ) (x : List ℝ) (dt : ℝ) (v : List ℝ) (k : Nat) :
    variation E t x dt v k = variation E s x dt v k := by
  induction k with
  | zero => rfl
  | succ k ih =>
    have hf : ∀ z, closedLoopField E t dt z = closedLoopField E s dt z := by
      intro z
      funext y
      unfold closedLoopField
      rw [h.gen]
    unfold RTA.variation
    rw [h.path, ih]
    simp only [hf]

theorem SameBackup.pathValue {s t : ImplicitObj ℝ P A} (h : SameBackup s t) (E : ImplicitEnv ℝ) (x : List ℝ) (dt : ℝ)
    (c : Constraint ℝ (List ℝ) P) (k : Nat) : pathValue E t x dt c k = pathValue E s x dt c k := by
  unfold RTA.pathValue
  rw [h.path]

theorem SameBackup.pointValue {s t : ImplicitObj ℝ P A} (h : SameBackup s t) (E : ImplicitEnv ℝ) (x : List ℝ) (dt : ℝ)
    (c : Constraint ℝ (List ℝ) P) (u : List ℝ) (k : Nat) : pointValue E t x dt c u k = pointValue E s x dt c u k := by
  unfold RTA.pointValue
  rw [h.path, h.variation]

theorem SameBackup.numPoints {s t : ImplicitObj ℝ P A} (h : SameBackup s t) (dt : ℝ) : numPoints t dt = numPoints s dt := by
  unfold RTA.numPoints
  rw [h.window]

theorem SameBackup.pointsOf {s t : ImplicitObj ℝ P A} (h : SameBackup s t) (E : ImplicitEnv ℝ) (x : List ℝ) (dt : ℝ)
    (c : Constraint ℝ (List ℝ) P) : pointsOf E t x dt c = pointsOf E s x dt c := by
  unfold RTA.pointsOf
  rw [h.numPoints]
  exact congrArg _ (funext fun k => h.pathValue E x dt c k)

/-- A call that returns a control leaves the backup trajectories as they were. -/
theorem C67_same_backup {solver : Solver ℝ} {E : ImplicitEnv ℝ} {s s' : ImplicitObj ℝ P A} (hs : ImplicitModule solver E s)
    (i : InputState (List ℝ)) (dt : ℝ) (u v : List ℝ) (hcall : E.call solver s i dt u = (.ok v, s')) : SameBackup s s' := by
  have h : SameAS (RelI (actIdx s)) s (E.call solver s i dt u).2 := by
    refine implicit_after_call hs.inv.inv hs.inv.names i dt u (Or.inl ?_)
    rintro x rfl hen
    obtain ⟨nm, ex, rows, drows, w0, cz, hgen, -⟩ := asif_ok (genFrame_implicit E) hen hcall
    exact ⟨rows, by rw [hgen]⟩
  rw [hcall] at h
  obtain ⟨-, sv, hsv⟩ := h.rel
  simp only at hsv
  exact ⟨by rw [hsv], by rw [hsv], by rw [hsv], h.low, h.high⟩

/-- **C67, the constraint itself**. If at every time the control is what an implicit optimisation based module containing the
constraint returns for the current state (for whatever desired control and step, after whatever history of the module), the
constraint is looked at in the current state (point 0) and some control was admissible, then the constraint stays satisfied. -/
theorem C67_constraint_kept {solver : Solver ℝ} (hspec : SolverSpec solver) {E : ImplicitEnv ℝ} {k : String}
    {c : Constraint ℝ (List ℝ) P} {D : Set (List ℝ)} {n : Nat} {x u : ℝ → List ℝ}
    (hgrad : IsGradientOn D n (fun x => c.computeFn x c.params) (fun x => c.gradFn x c.params))
    (htraj : Trajectory D n E.f E.g x u) {al : ℝ → ℝ} (ha : c.alpha = some al) (hneg : ∀ y < 0, al y ≤ 0)
    (hen : c.enabled = true)
    (hloop : ∀ t, 0 ≤ t → ∃ (s s' : ImplicitObj ℝ P A) (dt : ℝ) (uDes : List ℝ), ImplicitModule solver E s ∧ s.enable = true ∧
      (k, c) ∈ s.constraints ∧ 0 ∈ pointsOf E s (x t) dt c ∧ (∃ w, AdmissibleI E s (x t) dt w) ∧
      E.call solver s (.array (x t)) dt uDes = (.ok (u t), s'))
    (h0 : 0 ≤ c.value (x 0)) : ∀ t, 0 ≤ t → 0 ≤ c.value (x t) := by
  refine stays_nonneg (h := fun t => c.value (x t)) ((along_cont htraj hgrad).add continuousOn_const)
    (fun t ht => (along_deriv htraj hgrad ht).add_const _) ?_ h0
  intro t ht hlt
  obtain ⟨s, s', dt, uDes, hs, hens, hmem, hpt, hadm, hcall⟩ := hloop t ht
  obtain ⟨h1, -⟩ := C36_closest_admissible hspec hs hens (x t) dt uDes (u t) hcall hadm
  have h2 := (C36_point_zero E s (x t) dt c al ha (u t)).1 (h1.barrier (k, c) hmem hen 0 hpt)
  have := hneg _ hlt
  unfold Constraint.value at this
  linarith

/-- **C67, when the current state is looked at**: with default subsampling, and with
`subsample_constraints_keep_first=True` whatever the other options. -/
theorem C67_current_state_checked (E : ImplicitEnv ℝ) (s : ImplicitObj ℝ P A) (x : List ℝ) (dt : ℝ) (c : Constraint ℝ (List ℝ) P)
    (h : c.subsample = {} ∨ c.subsample.keepFirst = true) : 0 ∈ pointsOf E s x dt c := by
  unfold pointsOf
  rcases h with h | h
  · rw [h, C37_default_every_point, List.mem_range]
    unfold numPoints
    omega
  · exact (C37_keep _ _ _).1 h

/-- **C67, the backup trajectory**. If at every time the control is what an implicit optimisation based module returns for the
current state (for whatever desired control, after whatever history), some control was admissible, one of the points of the
backup trajectory at which the constraint is least is looked at, and the sensitivities are the derivatives of the points of the
backup trajectory with respect to the state, then from a state whose backup trajectory satisfies the constraint at all points
every later state has a backup trajectory that satisfies it at all points. -/
theorem C67_backup_kept {solver : Solver ℝ} (hspec : SolverSpec solver) {E : ImplicitEnv ℝ} {k : String}
    {c : Constraint ℝ (List ℝ) P} {x u : ℝ → List ℝ} {s0 : ImplicitObj ℝ P A} {dt : ℝ} {al : ℝ → ℝ} (ha : c.alpha = some al)
    (hneg : ∀ y < 0, al y < 0) (hen : c.enabled = true)
    (hpath : ∀ t, 0 ≤ t → ∀ j < numPoints s0 dt, (backupPath E s0 (x t) dt j).isSome = true)
    (hcont : ∀ j < numPoints s0 dt, ContinuousOn (fun t => pathValue E s0 (x t) dt c j) (Ici 0))
    (hder : ∀ t, 0 ≤ t → ∀ j < numPoints s0 dt, ∀ y z, backupPath E s0 (x t) dt j = some (y, z) →
      HasDerivWithinAt (fun r => pathValue E s0 (x r) dt c j)
        (dot (c.gradFn y c.params) (variation E s0 (x t) dt (vadd (E.f (x t)) (matVec (E.g (x t)) (u t))) j)) (Ici t) t)
    (hloop : ∀ t, 0 ≤ t → ∃ (s s' : ImplicitObj ℝ P A) (uDes : List ℝ), ImplicitModule solver E s ∧ s.enable = true ∧
      SameBackup s0 s ∧ (k, c) ∈ s.constraints ∧
      (∃ j ∈ pointsOf E s (x t) dt c, j < numPoints s0 dt ∧
        ∀ i < numPoints s0 dt, pathValue E s0 (x t) dt c j ≤ pathValue E s0 (x t) dt c i) ∧
      (∃ w, AdmissibleI E s (x t) dt w) ∧ E.call solver s (.array (x t)) dt uDes = (.ok (u t), s'))
    (h0 : ∀ j < numPoints s0 dt, 0 ≤ pathValue E s0 (x 0) dt c j) :
    ∀ t, 0 ≤ t → ∀ j < numPoints s0 dt, 0 ≤ pathValue E s0 (x t) dt c j := by
  have key := least_stays (Finset.range (numPoints s0 dt)) (h := fun j t => pathValue E s0 (x t) dt c j)
    (h' := fun j t => match backupPath E s0 (x t) dt j with
      | some (y, _) => dot (c.gradFn y c.params) (variation E s0 (x t) dt (vadd (E.f (x t)) (matVec (E.g (x t)) (u t))) j)
      | none => 0)
    (fun j hj => hcont j (Finset.mem_range.1 hj)) (fun j hj t ht => ?_) (fun t ht hex => ?_)
    (fun j hj => h0 j (Finset.mem_range.1 hj))
  · exact fun t ht j hj => key t ht j (Finset.mem_range.2 hj)
  · rcases hb : backupPath E s0 (x t) dt j with _ | ⟨y, z⟩
    · have := hpath t ht j (Finset.mem_range.1 hj)
      rw [hb] at this
      simp at this
    · exact hder t ht j (Finset.mem_range.1 hj) y z hb
  · obtain ⟨s, s', uDes, hs, hens, hsame, hmem, ⟨j, hjp, hjn, hjl⟩, hadm, hcall⟩ := hloop t ht
    obtain ⟨h1, -⟩ := C36_closest_admissible hspec hs hens (x t) dt uDes (u t) hcall hadm
    obtain ⟨m, hm, hm0⟩ := h1.barrier (k, c) hmem hen j hjp
    rw [hsame.pointValue] at hm
    obtain ⟨i, hi, hlt⟩ := hex
    have hle := hjl i (Finset.mem_range.1 hi)
    refine ⟨j, Finset.mem_range.2 hjn, fun i hi => hjl i (Finset.mem_range.1 hi), ?_⟩
    rcases hb : backupPath E s0 (x t) dt j with _ | ⟨y, z⟩
    · have := hpath t ht j hjn
      rw [hb] at this
      simp at this
    · have hpv : pathValue E s0 (x t) dt c j = c.computeFn y c.params + c.bias := by
        unfold pathValue
        rw [hb]
      simp only [pointValue, hb, ha, Option.some.injEq] at hm
      have := hneg _ (show c.computeFn y c.params + c.bias < 0 by rw [← hpv]; linarith)
      simp only
      linarith

/-- **C67, the backup trajectory, when the program is only known to be solvable inside.** As `C67_backup_kept`, for strict
positivity and a class-K polynomial as strengthener; some control needs to be admissible only where the constraint is positive at all
points of the backup trajectory. -/
theorem C67_backup_kept_inside {solver : Solver ℝ} (hspec : SolverSpec solver) {E : ImplicitEnv ℝ} {k : String}
    {c : Constraint ℝ (List ℝ) P} {x u : ℝ → List ℝ} {s0 : ImplicitObj ℝ P A} {dt : ℝ} {coefs : List ℝ} (hk : ClassKCoefs coefs)
    (ha : c.alpha = some (polyAlpha coefs)) (hen : c.enabled = true)
    (hpath : ∀ t, 0 ≤ t → ∀ j < numPoints s0 dt, (backupPath E s0 (x t) dt j).isSome = true)
    (hcont : ∀ j < numPoints s0 dt, ContinuousOn (fun t => pathValue E s0 (x t) dt c j) (Ici 0))
    (hder : ∀ t, 0 ≤ t → ∀ j < numPoints s0 dt, ∀ y z, backupPath E s0 (x t) dt j = some (y, z) →
      HasDerivWithinAt (fun r => pathValue E s0 (x r) dt c j)
        (dot (c.gradFn y c.params) (variation E s0 (x t) dt (vadd (E.f (x t)) (matVec (E.g (x t)) (u t))) j)) (Ici t) t)
    (hloop : ∀ t, 0 ≤ t → ∃ (s s' : ImplicitObj ℝ P A) (uDes : List ℝ), ImplicitModule solver E s ∧ s.enable = true ∧
      SameBackup s0 s ∧ (k, c) ∈ s.constraints ∧
      (∃ j ∈ pointsOf E s (x t) dt c, j < numPoints s0 dt ∧
        ∀ i < numPoints s0 dt, pathValue E s0 (x t) dt c j ≤ pathValue E s0 (x t) dt c i) ∧
      ((∀ j < numPoints s0 dt, 0 < pathValue E s0 (x t) dt c j) → ∃ w, AdmissibleI E s (x t) dt w) ∧
      E.call solver s (.array (x t)) dt uDes = (.ok (u t), s'))
    (h0 : ∀ j < numPoints s0 dt, 0 < pathValue E s0 (x 0) dt c j) :
    ∀ t, 0 ≤ t → ∀ j < numPoints s0 dt, 0 < pathValue E s0 (x t) dt c j := by
  have key := least_stays_pos (Finset.range (numPoints s0 dt)) (h := fun j t => pathValue E s0 (x t) dt c j)
    (h' := fun j t => match backupPath E s0 (x t) dt j with
      | some (y, _) => dot (c.gradFn y c.params) (variation E s0 (x t) dt (vadd (E.f (x t)) (matVec (E.g (x t)) (u t))) j)
      | none => 0) (al := polyAlpha coefs)
    (fun j hj => hcont j (Finset.mem_range.1 hj)) (fun j hj t ht => ?_) (fun t ht hpos => ?_) (fun M => polyAlpha_linear _ hk M)
    (fun j hj => h0 j (Finset.mem_range.1 hj))
  · exact fun t ht j hj => key t ht j (Finset.mem_range.2 hj)
  · rcases hb : backupPath E s0 (x t) dt j with _ | ⟨y, z⟩
    · have := hpath t ht j (Finset.mem_range.1 hj)
      rw [hb] at this
      simp at this
    · exact hder t ht j (Finset.mem_range.1 hj) y z hb
  · obtain ⟨s, s', uDes, hs, hens, hsame, hmem, ⟨j, hjp, hjn, hjl⟩, hadm, hcall⟩ := hloop t ht
    obtain ⟨h1, -⟩ := C36_closest_admissible hspec hs hens (x t) dt uDes (u t) hcall (hadm fun j hj => hpos j (Finset.mem_range.2 hj))
    obtain ⟨m, hm, hm0⟩ := h1.barrier (k, c) hmem hen j hjp
    rw [hsame.pointValue] at hm
    refine ⟨j, Finset.mem_range.2 hjn, fun i hi => hjl i (Finset.mem_range.1 hi), ?_⟩
    rcases hb : backupPath E s0 (x t) dt j with _ | ⟨y, z⟩
    · have := hpath t ht j hjn
      rw [hb] at this
      simp at this
    · have hpv : pathValue E s0 (x t) dt c j = c.computeFn y c.params + c.bias := by
        unfold pathValue
        rw [hb]
      simp only [pointValue, hb, ha, Option.some.injEq] at hm
      rw [hpv]
      simp only
      linarith

/-- **C67, when a least point is looked at**: with default subsampling, and with `subsample_constraints_num_least` of at least one
and no further subsampling. -/
theorem C67_least_checked (E : ImplicitEnv ℝ) (s : ImplicitObj ℝ P A) (x : List ℝ) (dt : ℝ) (c : Constraint ℝ (List ℝ) P)
    (h : c.subsample = {} ∨ ∃ N : Nat, 1 ≤ N ∧ c.subsample = { numLeast := some (N : Int) }) :
    ∃ j ∈ pointsOf E s x dt c, j < numPoints s dt ∧ ∀ i < numPoints s dt, pathValue E s x dt c j ≤ pathValue E s x dt c i := by
  have hn : 0 < numPoints s dt := by unfold numPoints; omega
  unfold pointsOf
  rcases h with h | ⟨N, hN, h⟩
  · rw [h, C37_default_every_point]
    obtain ⟨j, hj, hl⟩ := Finset.exists_min_image (Finset.range (numPoints s dt)) (pathValue E s x dt c) ⟨0, Finset.mem_range.2 hn⟩
    exact ⟨j, List.mem_range.2 (Finset.mem_range.1 hj), Finset.mem_range.1 hj, fun i hi => hl i (Finset.mem_range.2 hi)⟩
  · obtain ⟨dropped, hperm, hlen, hle⟩ := C37_num_least c.subsample N (by rw [h]) (by rw [h]) (by rw [h]) (numPoints s dt) (pathValue E s x dt c)
    have e : checkedPoints { c.subsample with numLeast := none } (numPoints s dt) (pathValue E s x dt c) = List.range (numPoints s dt) := by
      rw [h]
      exact C37_default_every_point _ _
    rw [e] at hperm hlen
    have hne : checkedPoints c.subsample (numPoints s dt) (pathValue E s x dt c) ≠ [] := by
      intro hnil
      rw [hnil, List.length_range] at hlen
      simp only [List.length_nil] at hlen
      omega
    obtain ⟨a, ha⟩ := List.exists_mem_of_ne_nil _ hne
    obtain ⟨j, hj, hl⟩ := Finset.exists_min_image (checkedPoints c.subsample (numPoints s dt) (pathValue E s x dt c)).toFinset
      (pathValue E s x dt c) ⟨a, List.mem_toFinset.2 ha⟩
    rw [List.mem_toFinset] at hj
    refine ⟨j, hj, ?_, fun i hi => ?_⟩
    · have := hperm.subset (List.mem_append_left _ hj)
      exact List.mem_range.1 this
    · have := hperm.symm.subset (List.mem_range.2 hi)
      rcases List.mem_append.1 this with h1 | h1
      · exact hl i (List.mem_toFinset.2 h1)
      · exact hle j hj i h1

/-! ### A concrete loop

The module of `Props/Implicit.lean` (`x' = u`, bounds `±2`, backup control 1, window 2, step 1) asked for `-2` all the time: it lets the state
fall as `exp(-t)`. -/

theorem i_result_at (solver : Solver ℝ) (hspec : SolverSpec solver) (exc : Bool) {x : ℝ} (h0 : 0 ≤ x) (h2 : x ≤ 2) :
    (∃ w, AdmissibleI iE (iObj [("c", iC 0 {} true none)] 2 exc) [x] 1 w) ∧
    ∃ s', iE.call solver (iObj [("c", iC 0 {} true none)] 2 exc) (.array [x]) 1 [-2] = (.ok [-x], s') := by
  have hmod := i_module solver (cs := [("c", iC 0 {} true none)]) (by simp [dictKeys]) 2 exc
  have hw : ((2 : Nat) : ℝ) = 2 := by norm_num
  have hnp := i_numPoints [("c", iC 0 {} true none)] 2 exc
  have hsh := i_shapes (cs := [("c", iC 0 {} true none)]) (by
    intro kc hkc; simp only [List.mem_singleton] at hkc; subst hkc; exact ⟨0, {}, true, rfl, by decide⟩) 2 exc x
  have hadm := @i_admissible [("c", iC 0 {} true none)] 2 exc x
  simp only [hw] at hnp hsh hadm
  have hpts : pointsOf iE (iObj [("c", iC 0 {} true none)] 2 exc) [x] 1 (iC 0 {} true none) = [0, 1, 2] := by
    unfold pointsOf
    rw [hnp]
    exact C37_default_every_point _ _
  have hadm : ∀ v, AdmissibleI iE (iObj [("c", iC 0 {} true none)] 2 exc) [x] 1 v ↔ ∃ u, v = [u] ∧ -x ≤ u ∧ u ≤ 2 := by
    intro v
    rw [hadm]
    refine exists_congr fun u => and_congr_right fun _ => ?_
    simp only [List.mem_singleton, forall_eq, hpts]
    simp only [List.mem_cons, List.not_mem_nil, or_false, forall_eq_or_imp, forall_eq, i_point]
    have : (iC 0 {} true none).enabled = true := rfl
    simp only [this, true_implies]
    constructor
    · rintro ⟨-, h2, h3, -⟩
      norm_num at h3
      exact ⟨by linarith, h2⟩
    · rintro ⟨h1, h2⟩
      refine ⟨by linarith, h2, by norm_num; linarith, by norm_num; linarith, by norm_num; linarith⟩
  have hx : AdmissibleI iE (iObj [("c", iC 0 {} true none)] 2 exc) [x] 1 [-x] := (hadm _).2 ⟨-x, rfl, by linarith, by linarith⟩
  refine ⟨⟨_, hx⟩, ?_⟩
  obtain ⟨v, hv⟩ := (C36_returns hspec hmod rfl [x] 1 hsh (by
    intro kc hkc
    simp only [iObj, List.mem_singleton] at hkc
    subst hkc
    rw [hnp, hpts]; simp) [-2] rfl).1 ⟨_, hx⟩
  obtain ⟨s', hs'⟩ : ∃ s', iE.call solver (iObj [("c", iC 0 {} true none)] 2 exc) (.array [x]) 1 [-2] = (.ok v, s') :=
    ⟨_, Prod.ext hv rfl⟩
  obtain ⟨h1, h2, -⟩ := C36_closest_admissible hspec hmod rfl [x] 1 [-2] v hs' ⟨_, hx⟩
  obtain ⟨u, rfl, hu1, hu2⟩ := (hadm v).1 h1
  have : u = -x := by
    by_contra hne
    have := h2 [-x] hx (by simpa using fun h => hne h.symm)
    simp only [sqDist, vsub, sqNorm, List.zipWith_cons_cons, List.zipWith_nil_right, dot_cons, dot_nil_left] at this
    nlinarith
  subst this
  exact ⟨s', hs'⟩

theorem exp_neg_deriv (t : ℝ) : HasDerivAt (fun t => Real.exp (-t)) (-Real.exp (-t)) t := by simpa using (hasDerivAt_neg t).exp

theorem exp_neg_mem {t : ℝ} (ht : 0 ≤ t) : 0 ≤ Real.exp (-t) ∧ Real.exp (-t) ≤ 2 :=
  ⟨(Real.exp_pos _).le, (Real.exp_le_one_iff.2 (by linarith)).trans (by norm_num)⟩

/-- C67: the constraint is kept along this loop. -/
example (solver : Solver ℝ) (hspec : SolverSpec solver) : ∀ t, 0 ≤ t → 0 ≤ (iC 0 {} true none).value [Real.exp (-t)] := by
  refine C67_constraint_kept (A := Unit) hspec (E := iE) (k := "c") (c := iC 0 {} true none) (D := univ) (n := 1) (x := fun t => [Real.exp (-t)])
    (u := fun t => [-Real.exp (-t)]) ?_ (single_trajectory exp_neg_deriv) (al := id) rfl (fun y hy => hy.le) rfl (fun t ht => ?_) ?_
  · refine (grad_coord univ (n := 1) (i := 0) (by decide)).congr (fun x _ hx => ?_) ?_
    · obtain ⟨a, rfl⟩ := List.length_eq_one_iff.1 hx
      simp [iC, stateAt]
    · intro x _ hx v hv
      obtain ⟨a, rfl⟩ := List.length_eq_one_iff.1 hv
      simp [iC, gradAt, dot_cons]
  · obtain ⟨ha, s', hs'⟩ := i_result_at solver hspec true (exp_neg_mem ht).1 (exp_neg_mem ht).2
    exact ⟨_, s', 1, [-2], i_module solver (by simp [dictKeys]) 2 true, rfl, by simp [iObj], C67_current_state_checked _ _ _ _ _ (Or.inl rfl), ha, hs'⟩
  · simp [Constraint.value, iC]

/-- C67: so is its whole backup trajectory. -/
example (solver : Solver ℝ) (hspec : SolverSpec solver) : ∀ t, 0 ≤ t → ∀ j < numPoints (iObj [("c", iC 0 {} true none)] 2 true) 1,
    0 ≤ pathValue iE (iObj [("c", iC 0 {} true none)] 2 true) [Real.exp (-t)] 1 (iC 0 {} true none) j := by
  have hv : ∀ (x : ℝ) (j : Nat), pathValue iE (iObj [("c", iC 0 {} true none)] 2 true) [x] 1 (iC 0 {} true none) j = x + j := by
    intro x j
    unfold pathValue
    rw [i_path]
    simp [iC]
  refine C67_backup_kept hspec (E := iE) (k := "c") (c := iC 0 {} true none) (x := fun t => [Real.exp (-t)]) (u := fun t => [-Real.exp (-t)])
    (al := id) rfl (fun y hy => hy) rfl (fun t _ j _ => by rw [i_path]; rfl) (fun j _ => ?_) (fun t ht j _ y z hy => ?_) (fun t ht => ?_) (fun j _ => ?_)
  · simp only [hv]
    exact fun t _ => ((exp_neg_deriv t).add_const _).continuousAt.continuousWithinAt
  · have e : vadd (iE.f [Real.exp (-t)]) (matVec (iE.g [Real.exp (-t)]) [-Real.exp (-t)]) = [-Real.exp (-t)] := by simp [iE, matVec, vadd]
    simp only [hv, e, i_variation]
    have := ((exp_neg_deriv t).add_const (j : ℝ)).hasDerivWithinAt (s := Ici t)
    refine this.congr_deriv ?_
    simp [iC]
  · obtain ⟨ha, s', hs'⟩ := i_result_at solver hspec true (exp_neg_mem ht).1 (exp_neg_mem ht).2
    exact ⟨_, s', [-2], i_module solver (by simp [dictKeys]) 2 true, rfl, ⟨rfl, rfl, rfl, rfl, rfl⟩, by simp [iObj],
      C67_least_checked _ _ _ _ _ (Or.inl rfl), ha, hs'⟩
  · rw [hv]
    positivity

end RTA
