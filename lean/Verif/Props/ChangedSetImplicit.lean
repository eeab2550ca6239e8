import Verif.Lemmas.ChangedSetImplicit
import Verif.Props.ChangedSet
import Verif.Props.ImplicitHistory

/-!
Constraints added to, removed from or renamed in an implicit optimisation module in use (C116).
-/
set_option linter.unusedSectionVars false
namespace RTA
variable {K P A : Type} [Field K] [LinearOrder K] [IsStrictOrderedRing K] [FloorRing K] [HasSqrt K]

/-! ### What the conditions on a control depend on -/

/-- The two modules have the same bounds, control law, controller state, window, dimension and constraints. -/
structure AlikeI (s t : ImplicitObj K P A) : Prop where
  path : SamePath s t
  window : t.ext.extra.backupWindow = s.ext.extra.backupWindow
  dim : t.ext.controlDim = s.ext.controlDim
  constraints : t.constraints = s.constraints
  direct : t.ext.direct = s.ext.direct

theorem AlikeI.symm {s t : ImplicitObj K P A} (h : AlikeI s t) : AlikeI t s :=
  ⟨⟨h.path.low.symm, h.path.high.symm, h.path.gen.symm, h.path.state.symm⟩, h.window.symm, h.dim.symm, h.constraints.symm, h.direct.symm⟩

theorem AlikeI.numPoints {s t : ImplicitObj K P A} (h : AlikeI s t) (dt : K) : numPoints t dt = numPoints s dt := by
  unfold RTA.numPoints; rw [h.window]

theorem AlikeI.points {s t : ImplicitObj K P A} (h : AlikeI s t) (E : ImplicitEnv K) (x : List K) (dt : K)
    (c : Constraint K (List K) P) : pointsOf E t x dt c = pointsOf E s x dt c := by
  unfold pointsOf; rw [h.numPoints, pathValue_same h.path]

theorem AlikeI.pointOK {s t : ImplicitObj K P A} (h : AlikeI s t) (E : ImplicitEnv K) (x : List K) (dt : K)
    (c : Constraint K (List K) P) (u : List K) (k : Nat) : PointOK E t x dt c u k ↔ PointOK E s x dt c u k := by
  unfold PointOK; rw [pointValue_same h.path]

theorem AlikeI.admissible {s t : ImplicitObj K P A} (h : AlikeI s t) {E : ImplicitEnv K} {x : List K} {dt : K} {w : List K}
    (ha : AdmissibleI E t x dt w) : AdmissibleI E s x dt w := by
  refine ⟨ha.len.trans h.dim, by rw [← h.path.low, ← h.path.high]; exact ha.bounds, fun kc hkc hen k hk => ?_, fun kc hkc hen => ?_⟩
  · exact (h.pointOK E x dt kc.2 w k).1 (ha.barrier kc (h.constraints ▸ hkc) hen k (by rw [h.points]; exact hk))
  · exact ha.direct kc (h.direct ▸ hkc) hen

theorem AlikeI.admissible_iff {s t : ImplicitObj K P A} (h : AlikeI s t) (E : ImplicitEnv K) (x : List K) (dt : K) (w : List K) :
    AdmissibleI E t x dt w ↔ AdmissibleI E s x dt w := ⟨h.admissible, h.symm.admissible⟩

theorem AlikeI.shapes {s t : ImplicitObj K P A} (h : AlikeI s t) {E : ImplicitEnv K} {x : List K} {dt : K}
    (hs : ShapesI E t x dt) : ShapesI E s x dt := by
  have hc := h.constraints
  refine ⟨hs.step, h.window ▸ hs.window, hc ▸ hs.alpha, hc ▸ hs.noSlack, hc ▸ hs.skip, hs.f0, hs.g0, h.dim ▸ hs.g0cols,
    h.path.state ▸ hs.ctrl, ?_, ?_⟩
  · intro k hk
    obtain ⟨y, z, h1, h2, h3⟩ := hs.path k (by rw [h.numPoints]; exact hk)
    refine ⟨y, z, by rw [← backupPath_same h.path]; exact h1, hc ▸ h2, fun h0 => ?_⟩
    obtain ⟨h4, h5, h6, h7⟩ := h3 h0
    rw [h.path.gen] at h4
    rw [closedLoopField_same h.path] at h6 h7
    exact ⟨h4, h5, h6, h7⟩
  · rw [← h.dim, ← h.direct]; exact hs.direct

theorem AlikeI.conds {s t : ImplicitObj K P A} (h : AlikeI s t) (E : ImplicitEnv K) (x : List K) (dt : K) (u : List K) :
    implicitConds E t x dt u = implicitConds E s x dt u := by
  unfold implicitConds
  simp only [h.path.low, h.path.high, h.dim, h.constraints, h.direct, h.points, h.pointOK, pointValue_same h.path]

theorem alike_tidy (s : ImplicitObj K P A) : AlikeI s (tidyC s) := ⟨⟨rfl, rfl, rfl, rfl⟩, rfl, rfl, rfl, rfl⟩

theorem changedI_call {solver : Solver K} {E : ImplicitEnv K} {m s : ImplicitObj K P A} (hm : ImplicitModule solver E m)
    (h : ChangedUseI solver E m s) (i : InputState (List K)) (dt : K) (u : List K) :
    (E.call solver (tidyC s) i dt u).1 = (E.call solver s i dt u).1 ∧
      (E.call solver (tidyC s) i dt u).2.ext = (E.call solver s i dt u).2.ext ∧
      (E.call solver (tidyC s) i dt u).2.toBase = (E.call solver s i dt u).2.toBase := by
  obtain ⟨h1, -, h2, h3⟩ := tidy_call (solver := solver) (E := E) (s := s) (h.inv hm.inv).inv.wf.nodup i dt u
  exact ⟨h1, h2, h3⟩

/-! ### C116 -/

section
variable [LawfulSqrt K]

/-- **C116, implicit modules.** Constraints added, removed, replaced or renamed in the course of use, in any order and between
any calls, count from the next call on: a call that returns gives the closest control that is admissible for the constraints
the module has now, and reports an intervention exactly when that control is further than the tolerance from the desired one. -/
theorem C116_implicit_closest {solver : Solver K} (hspec : SolverSpec solver) {E : ImplicitEnv K} {m s s' : ImplicitObj K P A}
    (hm : ImplicitModule solver E m) (h : ChangedUseI solver E m s) (hen : s.enable = true) (x : List K) (dt : K) (u v : List K)
    (hcall : E.call solver s (.array x) dt u = (.ok v, s')) (hadm : ∃ w, AdmissibleI E s x dt w) :
    AdmissibleI E s x dt v ∧ (∀ w, AdmissibleI E s x dt w → w ≠ v → sqDist v u < sqDist w u) ∧
      (0 ≤ s.ext.epsilon → (s'.intervening = true ↔ s.ext.epsilon * s.ext.epsilon < sqDist u v)) := by
  obtain ⟨h1, h2, h3⟩ := changedI_call hm h (.array x) dt u
  rw [hcall] at h1 h2 h3
  have hc : E.call solver (tidyC s) (.array x) dt u = (.ok v, (E.call solver (tidyC s) (.array x) dt u).2) := Prod.ext h1 rfl
  obtain ⟨-, -, a1, a2, a3, -⟩ := implicit_solved hspec (h.inv hm.inv).inv hen hc (hadm.imp fun w hw => (alike_tidy s).symm.admissible hw)
  refine ⟨(alike_tidy s).admissible a1, fun w hw hne => a2 w ((alike_tidy s).symm.admissible hw) hne, fun heps => ?_⟩
  have e : s'.intervening = asifMonitor s.ext.epsilon u v := (congrArg Base.intervening h3).symm.trans a3
  rw [e]
  unfold asifMonitor
  rw [decide_eq_true_iff]
  exact lt_sqrt_iff heps (sqNorm_nonneg _)

/-- **C116, implicit modules: calls answer.** With fitting shapes for the present constraints, no more rows for a constraint
than points and slack as configured at construction, a call returns when some control is admissible for the present
constraints, and follows the configured policy otherwise. -/
theorem C116_implicit_returns {solver : Solver K} (hspec : SolverSpec solver) {E : ImplicitEnv K} {m s : ImplicitObj K P A}
    (hm : ImplicitModule solver E m) (h : ChangedUseI solver E m s) (hen : s.enable = true) (x : List K) (dt : K)
    (hsh : ShapesI E s x dt) (hfit : ∀ kc ∈ s.constraints, (pointsOf E s x dt kc.2).length ≤ numPoints s dt) (u : List K)
    (hu : u.length = s.ext.controlDim) :
    ((∃ w, AdmissibleI E s x dt w) → ∃ v, (E.call solver s (.array x) dt u).1 = .ok v) ∧
    ((¬ ∃ w, AdmissibleI E s x dt w) → (E.call solver s (.array x) dt u).1 =
      if s.ext.solverException then .error .solverError else s.toBase.clipControl u) := by
  have hinv := h.inv hm.inv
  obtain ⟨h1, -, -⟩ := changedI_call hm h (.array x) dt u
  have key := implicit_total hspec hinv.inv hinv.names ((alike_tidy s).symm.shapes hsh) (x := x) (dt := dt)
    (fun kc hkc => by rw [(alike_tidy s).points, (alike_tidy s).numPoints]; exact hfit kc hkc) hu hen
  simp only [(alike_tidy s).admissible_iff] at key
  rw [h1] at key
  exact key

/-- **C116, implicit modules: the reported constraints.** When every present constraint contributes a row per point, the reported
names are names of the present constraints (or of bounds and direct inequalities): each has a tight condition, and the
reported conditions account for the distance. Contrast `C116_refuted_names` for explicit modules. -/
theorem C116_implicit_names {solver : Solver K} (hspec : SolverSpec solver) {E : ImplicitEnv K} {m s s' : ImplicitObj K P A}
    (hm : ImplicitModule solver E m) (h : ChangedUseI solver E m s) (hen : s.enable = true) (x : List K) (dt : K) (u v : List K)
    (hfit : ∀ kc ∈ s.constraints, (pointsOf E s x dt kc.2).length = numPoints s dt)
    (hcall : E.call solver s (.array x) dt u = (.ok v, s')) (hadm : ∃ w, AdmissibleI E s x dt w) :
    ∃ l, s'.ext.causing = some l ∧ l.Nodup ∧ (∀ q ∈ l, ∃ c ∈ implicitConds E s x dt v, c.label = q ∧ c.tight) ∧
      (∀ w, w.length = s.ext.controlDim → (∀ c ∈ implicitConds E s x dt w, c.label ∈ l → c.holds) →
        sqDist v u ≤ sqDist w u) := by
  obtain ⟨h1, h2, h3⟩ := changedI_call hm h (.array x) dt u
  rw [hcall] at h1 h2
  have hinv := h.inv hm.inv
  have hc : E.call solver (tidyC s) (.array x) dt u = (.ok v, (E.call solver (tidyC s) (.array x) dt u).2) := Prod.ext h1 rfl
  obtain ⟨-, -, -, -, -, -, -, hn⟩ := implicit_solved hspec hinv.inv hen hc
    (hadm.imp fun w hw => (alike_tidy s).symm.admissible hw)
  obtain ⟨names, hact, ht⟩ := hinv.names
  rw [h2] at hn
  simp only [(alike_tidy s).conds] at hn
  refine hn names hact ?_
  have hl := actuation_names_length hact
  unfold implicitNames alignedNames
  simp only
  rw [← hl, ht]
  congr 2
  rw [List.flatMap_def, List.flatMap_def]
  congr 1
  refine List.map_congr_left fun kc hkc => ?_
  rw [(alike_tidy s).points, hfit kc hkc, (alike_tidy s).numPoints]

end

/-- A constraint added to the concrete module that was constructed without constraints: the next call keeps it (compare
`C116_refuted_added` for explicit modules), and reports it by its name. -/
example (solver : Solver ℝ) (hspec : SolverSpec solver) (exc : Bool) :
    ∃ s', iE.call solver (setConstraints [("c", iC 0 {} true none)] (iObj [] 2 exc)) (.array [1]) 1 [-2] = (.ok [-1], s') ∧
      s'.intervening = true ∧ s'.ext.causing = some ["c"] := by
  have hm : ImplicitModule solver iE (iObj [] 2 exc) := i_module solver (by simp [dictKeys]) 2 exc
  have hch : ChangedUseI solver iE (iObj [] 2 exc) (setConstraints [("c", iC 0 {} true none)] (iObj [] 2 exc)) :=
    .change _ .start (by simp [dictKeys]) rfl
  have hal : AlikeI (setConstraints [("c", iC 0 {} true none)] (iObj [] 2 exc)) (iObj [("c", iC 0 {} true none)] 2 exc) :=
    ⟨⟨rfl, rfl, rfl, rfl⟩, rfl, rfl, rfl, rfl⟩
  have hw : ((2 : Nat) : ℝ) = 2 := by norm_num
  have hnp := i_numPoints [("c", iC 0 {} true none)] 2 exc
  have hsh := i_shapes (cs := [("c", iC 0 {} true none)]) (by
    intro kc hkc; simp only [List.mem_singleton] at hkc; subst hkc; exact ⟨0, {}, true, rfl, by decide⟩) 2 exc 1
  have hadm := @i_admissible [("c", iC 0 {} true none)] 2 exc 1
  simp only [hw] at hnp hsh hadm
  have hpts : pointsOf iE (iObj [("c", iC 0 {} true none)] 2 exc) [1] 1 (iC 0 {} true none) = [0, 1, 2] := by
    unfold pointsOf
    rw [hnp]
    rfl
  have hadm : ∀ v, AdmissibleI iE (iObj [("c", iC 0 {} true none)] 2 exc) [1] 1 v ↔ ∃ u, v = [u] ∧ -1 ≤ u ∧ u ≤ 2 := by
    intro v
    rw [hadm]
    refine exists_congr fun u => and_congr_right fun _ => ?_
    simp only [List.mem_singleton, forall_eq, hpts]
    simp only [List.mem_cons, List.not_mem_nil, or_false, forall_eq_or_imp, forall_eq, i_point]
    have : (iC 0 {} true none).enabled = true := rfl
    simp only [this, true_implies]
    constructor
    · rintro ⟨-, h2, h3, -⟩
      norm_num at h3
      exact ⟨by linarith, h2⟩
    · rintro ⟨h1, h2⟩
      refine ⟨by linarith, h2, by norm_num; linarith, by norm_num; linarith, by norm_num; linarith⟩
  have hadm' : ∀ v, AdmissibleI iE (setConstraints [("c", iC 0 {} true none)] (iObj [] 2 exc)) [1] 1 v ↔
      ∃ u, v = [u] ∧ -1 ≤ u ∧ u ≤ 2 := fun v => (hal.admissible_iff iE [1] 1 v).symm.trans (hadm v)
  have ha : ∃ w, AdmissibleI iE (setConstraints [("c", iC 0 {} true none)] (iObj [] 2 exc)) [1] 1 w :=
    ⟨[-1], (hadm' _).2 ⟨-1, rfl, by norm_num⟩⟩
  have hfit : ∀ kc ∈ (setConstraints [("c", iC 0 {} true none)] (iObj [] 2 exc)).constraints,
      (pointsOf iE (setConstraints [("c", iC 0 {} true none)] (iObj [] 2 exc)) [1] 1 kc.2).length =
        numPoints (setConstraints [("c", iC 0 {} true none)] (iObj [] 2 exc)) 1 := by
    intro kc hkc
    simp only [setConstraints, List.mem_singleton] at hkc
    subst hkc
    rw [← hal.points, ← hal.numPoints, hnp, hpts]; rfl
  obtain ⟨v, hv⟩ := (C116_implicit_returns hspec hm hch rfl [1] 1 (hal.shapes hsh) (fun kc hkc => (hfit kc hkc).le) [-2] rfl).1 ha
  obtain ⟨s', hs'⟩ : ∃ s', iE.call solver (setConstraints [("c", iC 0 {} true none)] (iObj [] 2 exc)) (.array [1]) 1 [-2] =
    (.ok v, s') := ⟨_, Prod.ext hv rfl⟩
  obtain ⟨h1, h2, h3⟩ := C116_implicit_closest hspec hm hch rfl [1] 1 [-2] v hs' ha
  obtain ⟨u, rfl, hu1, hu2⟩ := (hadm' v).1 h1
  have : u = -1 := by
    by_contra hne
    have := h2 [-1] ((hadm' _).2 ⟨-1, rfl, by norm_num⟩) (by simpa using fun h => hne h.symm)
    simp only [sqDist, vsub, sqNorm, List.zipWith_cons_cons, List.zipWith_nil_right, dot_cons, dot_nil_left] at this
    nlinarith
  subst this
  have he : (setConstraints [("c", iC 0 {} true none)] (iObj [] 2 exc)).ext.epsilon = 1 / 10000 := rfl
  refine ⟨s', hs', ?_, ?_⟩
  · rw [h3 (by rw [he]; norm_num), he]
    simp only [sqDist, vsub, sqNorm, List.zipWith_cons_cons, List.zipWith_nil_right, dot_cons, dot_nil_left]
    norm_num
  · obtain ⟨l, hl, hnd, ht, hd⟩ := C116_implicit_names hspec hm hch rfl [1] 1 [-2] [-1] hfit hs' ha
    rw [hl]
    have hco := i_conds [("c", iC 0 {} true none)] 2 exc 1
    have hsub : ∀ q ∈ l, q = "c" := by
      intro q hq
      obtain ⟨c, hc, rfl, htc⟩ := ht q hq
      rw [← hal.conds, hco] at hc
      simp only [List.flatMap_cons, List.flatMap_nil, List.append_nil, List.mem_cons, List.mem_map] at hc
      rcases hc with rfl | rfl | ⟨k, -, rfl⟩
      · norm_num at htc
      · norm_num at htc
      · rfl
    have hmem : "c" ∈ l := by
      by_contra hno
      have hl0 : l = [] := by
        rcases l with _ | ⟨q, l⟩
        · rfl
        · exact absurd (hsub q List.mem_cons_self ▸ List.mem_cons_self) hno
      have := hd [-2] rfl (by intro c _ hc; rw [hl0] at hc; simp at hc)
      simp only [sqDist, vsub, sqNorm, List.zipWith_cons_cons, List.zipWith_nil_right, dot_cons, dot_nil_left] at this
      norm_num at this
    rcases l with _ | ⟨q, _ | ⟨r, l⟩⟩
    · simp at hmem
    · rw [hsub q List.mem_cons_self]
    · have e1 := hsub q (by simp)
      have e2 := hsub r (by simp)
      subst e1 e2
      simp at hnd

end RTA
