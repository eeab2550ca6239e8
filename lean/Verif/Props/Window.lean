import Verif.Props.Caution

/-!
More cautious settings (C109) and longer backup windows (C110) of modules that look along a backup trajectory.
-/
set_option linter.unusedSectionVars false
namespace RTA

section
variable {K P A : Type} [Field K] [LinearOrder K] [IsStrictOrderedRing K] [FloorRing K]

theorem pointOK_cautious {E : ImplicitEnv K} {s t : ImplicitObj K P A} (hsame : SamePath s t) {c d : Constraint K (List K) P}
    (hm : MoreCautious d c) {x : List K} {dt : K} {w : List K} {k : Nat} (h : PointOK E t x dt d w k) : PointOK E s x dt c w k := by
  unfold PointOK at h ⊢
  rw [pointValue_same hsame] at h
  obtain ⟨m, hv, h0⟩ := h
  unfold pointValue at hv ⊢
  rcases hp : backupPath E s x dt k with _ | ⟨y, z⟩
  · rw [hp] at hv
    simp at hv
  · rw [hp] at hv
    rcases ha : d.alpha with _ | al'
    · rw [ha] at hv
      simp at hv
    · rw [ha] at hv
      simp only [Option.some.injEq] at hv
      subst hv
      obtain ⟨al, hal, hle, hmono, -⟩ := hm.alpha al' ha
      refine ⟨_, by rw [hal], ?_⟩
      have hgr : d.gradFn y d.params = c.gradFn y c.params := by rw [hm.grad, hm.params]
      have hcv : d.computeFn y d.params = c.computeFn y c.params := by rw [hm.value, hm.params]
      rw [hgr, hcv] at h0
      have hb := hm.bias
      have h1 : al' (c.computeFn y c.params + d.bias) ≤ al (c.computeFn y c.params + c.bias) := (hle _).trans (hmono (by linarith))
      linarith

theorem mergeSort_congr_mem {l : List Nat} {r r' : Nat → Nat → Bool} (h : ∀ a ∈ l, ∀ b ∈ l, r a b = r' a b) : l.mergeSort r = l.mergeSort r' := by
  have := List.map_mergeSort (f := id) (l := l) (r := r) (s := r') h
  simpa using this

/-- Which points are looked at depends on the values only through their order. -/
theorem checkedPoints_congr {cfg : SubsampleConfig} {n : Nat} (hn : 0 < n) {h h' : Nat → K}
    (e : ∀ i < n, ∀ j < n, h i ≤ h j ↔ h' i ≤ h' j) : checkedPoints cfg n h = checkedPoints cfg n h' := by
  unfold checkedPoints
  rcases cfg.numLeast with _ | N
  · rfl
  · simp only
    congr 2
    refine mergeSort_congr_mem fun a ha b hb => ?_
    obtain ⟨i, -, rfl⟩ := List.mem_map.1 ha
    obtain ⟨j, -, rfl⟩ := List.mem_map.1 hb
    exact decide_eq_decide.2 (e _ (jaxIndex_lt hn i) _ (jaxIndex_lt hn j))

/-- Without selection of the least values a longer trajectory is looked at at all the points at which a shorter one is. -/
theorem checkedPoints_longer {cfg : SubsampleConfig} (hnl : cfg.numLeast = none) (hskip : 0 < cfg.skipLength) (hall : -1 ≤ cfg.numCheckAll)
    (hkl : cfg.keepLast = false) {n m : Nat} (hn : 0 < n) (hnm : n ≤ m) {h h' : Nat → K} {k : Nat} (hk : k ∈ checkedPoints cfg n h) :
    k ∈ checkedPoints cfg m h' := by
  unfold checkedPoints at hk ⊢
  simp only [hnl, hkl, Bool.false_eq_true, if_false, List.append_nil, List.mem_append, List.mem_map, mem_pyRange hskip,
    mem_pyRange (show (0 : Int) < 1 by decide)] at hk ⊢
  rcases hk with ⟨i, ⟨j, hi, hlt⟩ | ⟨j, hi, hlt⟩, rfl⟩ | hk
  · left
    by_cases hin : i < n
    · exact ⟨i, Or.inl ⟨j, hi, hlt⟩, by rw [jaxIndex_inside (by omega) (by omega), jaxIndex_inside (by omega) hin]⟩
    · have e : jaxIndex n i = n - 1 := by
        unfold jaxIndex
        dsimp only
        split_ifs <;> omega
      refine ⟨((n - 1 : Nat) : Int), Or.inl ⟨n - 1, by omega, by omega⟩, ?_⟩
      rw [e, jaxIndex_inside (by omega) (by omega)]
      omega
  · left
    have h0 : 0 ≤ cfg.skipLength * (j : Int) := by positivity
    exact ⟨i, Or.inr ⟨j, hi, by omega⟩, by rw [jaxIndex_inside (by omega) (by omega), jaxIndex_inside (by omega) (by omega)]⟩
  · exact Or.inr hk

theorem numPoints_longer {s t : ImplicitObj K P A} {dt : K} (hdt : 0 < dt) (hwin : 0 ≤ s.ext.extra.backupWindow)
    (h : s.ext.extra.backupWindow ≤ t.ext.extra.backupWindow) : numPoints s dt ≤ numPoints t dt := by
  unfold numPoints pyInt
  rw [if_pos (div_nonneg hwin hdt.le), if_pos (div_nonneg (hwin.trans h) hdt.le)]
  have := Int.floor_le_floor (div_le_div_of_nonneg_right h hdt.le)
  omega

section asif
variable [HasSqrt K] [LawfulSqrt K]

theorem implicit_less {solver : Solver K} (hspec : SolverSpec solver) {E : ImplicitEnv K} {s t : ImplicitObj K P A}
    (hs : ImplicitModule solver E s) (ht : ImplicitModule solver E t) (hens : s.enable = true) (hent : t.enable = true)
    (hdim : t.ext.controlDim = s.ext.controlDim) {x : List K} {dt : K} (hsh : ShapesI E s x dt)
    (hfit : ∀ kc ∈ s.constraints, (pointsOf E s x dt kc.2).length ≤ numPoints s dt)
    (hsub : ∀ w, AdmissibleI E t x dt w → AdmissibleI E s x dt w) {u w : List K}
    (hadm : ∃ w, AdmissibleI E t x dt w) (h : (E.call solver t (.array x) dt u).1 = .ok w) :
    ∃ v, (E.call solver s (.array x) dt u).1 = .ok v ∧ sqDist v u ≤ sqDist w u ∧ (w = u → v = u) := by
  obtain ⟨hu, -, hw, -⟩ := implicit_solved hspec ht.inv.inv hent
    (show E.call solver t (.array x) dt u = (.ok w, (E.call solver t (.array x) dt u).2) from Prod.ext h rfl) hadm
  have hws := hsub w hw
  obtain ⟨v, hv⟩ := (C36_returns hspec hs hens x dt hsh hfit u (hu.trans hdim)).1 ⟨w, hws⟩
  obtain ⟨-, -, hav, hmin, -⟩ := implicit_solved hspec hs.inv.inv hens
    (show E.call solver s (.array x) dt u = (.ok v, (E.call solver s (.array x) dt u).2) from Prod.ext hv rfl) ⟨w, hws⟩
  refine ⟨v, hv, ?_, ?_⟩
  · by_cases hvw : w = v
    · rw [hvw]
    · exact (hmin w hws hvw).le
  · rintro rfl
    by_contra hne
    have := hmin w hws (fun h => hne h.symm)
    rw [sqDist_self] at this
    exact absurd this (not_lt.2 (sqDist_nonneg _ _))

/-- **C109, implicit ASIF modules.** The same for modules that look along a backup trajectory, with the same bounds, control law, controller
state and window; counterparts of constraints have the same subsampling settings, whatever those are. -/
theorem C109_implicit {solver : Solver K} (hspec : SolverSpec solver) {E : ImplicitEnv K} {s t : ImplicitObj K P A}
    (hs : ImplicitModule solver E s) (ht : ImplicitModule solver E t) (hens : s.enable = true) (hent : t.enable = true)
    (hlo : t.controlBoundsLow = s.controlBoundsLow) (hhi : t.controlBoundsHigh = s.controlBoundsHigh)
    (hdim : t.ext.controlDim = s.ext.controlDim) (hwin : t.ext.extra.backupWindow = s.ext.extra.backupWindow)
    (hgen : t.ext.extra.ctrl.gen = s.ext.extra.ctrl.gen) (hst : t.ext.extra.ctrl.state = s.ext.extra.ctrl.state)
    (hcs : ∀ kc ∈ s.constraints, kc.2.enabled = true →
      ∃ kd ∈ t.constraints, MoreCautious kd.2 kc.2 ∧ kd.2.subsample = kc.2.subsample)
    (hds : CoversDirect t.ext.direct s.ext.direct) (x : List K) (dt : K) (hsh : ShapesI E s x dt)
    (hfit : ∀ kc ∈ s.constraints, (pointsOf E s x dt kc.2).length ≤ numPoints s dt) (u w : List K)
    (hadm : ∃ w, AdmissibleI E t x dt w) (h : (E.call solver t (.array x) dt u).1 = .ok w) :
    ∃ v, (E.call solver s (.array x) dt u).1 = .ok v ∧ sqDist v u ≤ sqDist w u ∧ (w = u → v = u) := by
  refine implicit_less hspec hs ht hens hent hdim hsh hfit (fun w hw => ?_) hadm h
  have hsame : SamePath s t := ⟨hlo, hhi, hgen, hst⟩
  have hnp : numPoints t dt = numPoints s dt := by unfold numPoints; rw [hwin]
  refine ⟨hw.len.trans hdim, by rw [← hlo, ← hhi]; exact hw.bounds, fun kc hkc hen k hk => ?_, fun kc hkc hen => ?_⟩
  · obtain ⟨kd, hkd, hm, hsu⟩ := hcs kc hkc hen
    refine pointOK_cautious hsame hm (hw.barrier kd hkd (hm.enabled hen) k ?_)
    unfold pointsOf at hk ⊢
    rw [hnp, hsu]
    rw [checkedPoints_congr (h' := pathValue E s x dt kc.2) (by unfold numPoints; omega)]
    · exact hk
    · intro i hi j hj
      rw [pathValue_same hsame]
      obtain ⟨y, z, h1, -⟩ := hsh.path i hi
      obtain ⟨y', z', h2, -⟩ := hsh.path j hj
      unfold pathValue
      rw [h1, h2]
      simp only [hm.value, hm.params]
      constructor <;> intro <;> linarith
  · obtain ⟨kd, hkd, e⟩ := hds kc hkc hen
    have := hw.direct kd hkd (by rw [e]; exact hen)
    rwa [e] at this

/-- **C110, implicit ASIF modules, the part that holds.** Two modules with the same bounds, control law and controller state, where `t` looks
at least as far ahead as `s`, has every enabled constraint of `s` and no constraint selects the least values or adds the last point. Whenever
`t` has an admissible control and answers `w`, so does `s`, with an answer at least as close to the desired control. What is missing: with
selection of the least values it is false (`C110_refuted_num_least`). -/
theorem C110_implicit_partial {solver : Solver K} (hspec : SolverSpec solver) {E : ImplicitEnv K} {s t : ImplicitObj K P A}
    (hs : ImplicitModule solver E s) (ht : ImplicitModule solver E t) (hens : s.enable = true) (hent : t.enable = true)
    (hlo : t.controlBoundsLow = s.controlBoundsLow) (hhi : t.controlBoundsHigh = s.controlBoundsHigh)
    (hdim : t.ext.controlDim = s.ext.controlDim) (hwin : s.ext.extra.backupWindow ≤ t.ext.extra.backupWindow)
    (hgen : t.ext.extra.ctrl.gen = s.ext.extra.ctrl.gen) (hst : t.ext.extra.ctrl.state = s.ext.extra.ctrl.state)
    (hcs : Covers t.constraints s.constraints)
    (hsub : ∀ kc ∈ s.constraints, kc.2.subsample.numLeast = none ∧ 0 < kc.2.subsample.skipLength ∧ -1 ≤ kc.2.subsample.numCheckAll ∧
      kc.2.subsample.keepLast = false)
    (hds : CoversDirect t.ext.direct s.ext.direct) (x : List K) (dt : K) (hdt : 0 < dt) (h0 : 0 ≤ s.ext.extra.backupWindow)
    (hsh : ShapesI E s x dt)
    (hfit : ∀ kc ∈ s.constraints, (pointsOf E s x dt kc.2).length ≤ numPoints s dt) (u w : List K)
    (hadm : ∃ w, AdmissibleI E t x dt w) (h : (E.call solver t (.array x) dt u).1 = .ok w) :
    ∃ v, (E.call solver s (.array x) dt u).1 = .ok v ∧ sqDist v u ≤ sqDist w u ∧ (w = u → v = u) := by
  refine implicit_less hspec hs ht hens hent hdim hsh hfit (fun w hw => ?_) hadm h
  have hsame : SamePath s t := ⟨hlo, hhi, hgen, hst⟩
  refine ⟨hw.len.trans hdim, by rw [← hlo, ← hhi]; exact hw.bounds, fun kc hkc hen k hk => ?_, fun kc hkc hen => ?_⟩
  · obtain ⟨kd, hkd, e⟩ := hcs kc hkc hen
    obtain ⟨a1, a2, a3, a4⟩ := hsub kc hkc
    have := hw.barrier kd hkd (by rw [e]; exact hen) k (by
      rw [e]
      exact checkedPoints_longer a1 a2 a3 a4 (by unfold numPoints; omega) (numPoints_longer hdt h0 hwin) hk)
    rw [e] at this
    unfold PointOK at this ⊢
    rwa [pointValue_same hsame] at this
  · obtain ⟨kd, hkd, e⟩ := hds kc hkc hen
    have := hw.direct kd hkd (by rw [e]; exact hen)
    rwa [e] at this

end asif
end

section
variable {K S P A : Type} [Field K] [LinearOrder K] [IsStrictOrderedRing K] [FloorRing K]

theorem implicit_simplex_less (pred : S → K → List K → S) {s t s' t' : SimplexObj K S P A} (hs : WF s) (ht : WF t) (hens : s.enable = true)
    (hent : t.enable = true) (hls : ¬ Latched s) (hlt : ¬ Latched t) (hlo : t.controlBoundsLow = s.controlBoundsLow)
    (hhi : t.controlBoundsHigh = s.controlBoundsHigh) (hgen : t.ext.ctrl.gen = s.ext.ctrl.gen) (hst : t.ext.ctrl.state = s.ext.ctrl.state)
    (hw : s.ext.backupWindow ≤ t.ext.backupWindow) (hcs : ∀ x, SafeAt t.constraints x → SafeAt s.constraints x) {x : S} {dt : K}
    (hdt : 0 < dt) (hwin : 0 ≤ s.ext.backupWindow) {u c d : List K} (claw : S → CState A → List K) (next : S → CState A → CState A)
    (hlaw : ∀ x z, ∃ ub, s.ext.ctrl.gen x dt z = some (ub, next x z) ∧ s.toBase.clipControl ub = .ok (claw x z))
    (h1 : implicitSimplex pred s (.array x) dt u = (.ok c, s')) (h2 : implicitSimplex pred t (.array x) dt u = (.ok d, t'))
    (hi : t'.intervening = false) : s'.intervening = false ∧ s.toBase.clipControl u = .ok c := by
  have hclip : ∀ w, t.toBase.clipControl w = s.toBase.clipControl w := by
    intro w; unfold Base.clipControl; rw [hlo, hhi]
  obtain ⟨a1, a2, -⟩ := C14_implicit_decision pred s s' hs hens x dt hdt hwin u c claw next hlaw hls h1
  obtain ⟨b1, -, -⟩ := C14_implicit_decision pred t t' ht hent x dt hdt (hwin.trans hw) u d claw next
    (by intro x z; rw [hgen]; simpa only [hclip] using hlaw x z) hlt h2
  simp only [hst] at b1
  have hb := b1.1 hi
  have := a1.2 fun k hk => hcs _ (hb k (hk.trans (Int.floor_le_floor (div_le_div_of_nonneg_right hw hdt.le))))
  exact ⟨this, a2 this⟩

/-- **C109, implicit simplex modules.** With the same bounds, control law, controller state and window, if the more cautious module accepts the
desired control, so does the other, provided no latch is engaged. -/
theorem C109_implicit_simplex (pred : S → K → List K → S) {s t s' t' : SimplexObj K S P A} (hs : WF s) (ht : WF t) (hens : s.enable = true)
    (hent : t.enable = true) (hls : ¬ Latched s) (hlt : ¬ Latched t) (hlo : t.controlBoundsLow = s.controlBoundsLow)
    (hhi : t.controlBoundsHigh = s.controlBoundsHigh) (hgen : t.ext.ctrl.gen = s.ext.ctrl.gen) (hst : t.ext.ctrl.state = s.ext.ctrl.state)
    (hw : t.ext.backupWindow = s.ext.backupWindow) (hcs : CoversCautiously t.constraints s.constraints) {x : S} {dt : K}
    (hdt : 0 < dt) (hwin : 0 ≤ s.ext.backupWindow) {u c d : List K} (claw : S → CState A → List K) (next : S → CState A → CState A)
    (hlaw : ∀ x z, ∃ ub, s.ext.ctrl.gen x dt z = some (ub, next x z) ∧ s.toBase.clipControl ub = .ok (claw x z))
    (h1 : implicitSimplex pred s (.array x) dt u = (.ok c, s')) (h2 : implicitSimplex pred t (.array x) dt u = (.ok d, t'))
    (hi : t'.intervening = false) : s'.intervening = false ∧ s.toBase.clipControl u = .ok c :=
  implicit_simplex_less pred hs ht hens hent hls hlt hlo hhi hgen hst hw.ge (fun _ => safeAt_cautious hcs) hdt hwin claw next hlaw h1 h2 hi

/-- **C110, implicit simplex modules.** With the same bounds, control law, controller state and at least the constraints, if the module that
looks further ahead accepts the desired control, so does the other, provided no latch is engaged. -/
theorem C110_simplex (pred : S → K → List K → S) {s t s' t' : SimplexObj K S P A} (hs : WF s) (ht : WF t) (hens : s.enable = true)
    (hent : t.enable = true) (hls : ¬ Latched s) (hlt : ¬ Latched t) (hlo : t.controlBoundsLow = s.controlBoundsLow)
    (hhi : t.controlBoundsHigh = s.controlBoundsHigh) (hgen : t.ext.ctrl.gen = s.ext.ctrl.gen) (hst : t.ext.ctrl.state = s.ext.ctrl.state)
    (hw : s.ext.backupWindow ≤ t.ext.backupWindow) (hcs : Covers t.constraints s.constraints) {x : S} {dt : K}
    (hdt : 0 < dt) (hwin : 0 ≤ s.ext.backupWindow) {u c d : List K} (claw : S → CState A → List K) (next : S → CState A → CState A)
    (hlaw : ∀ x z, ∃ ub, s.ext.ctrl.gen x dt z = some (ub, next x z) ∧ s.toBase.clipControl ub = .ok (claw x z))
    (h1 : implicitSimplex pred s (.array x) dt u = (.ok c, s')) (h2 : implicitSimplex pred t (.array x) dt u = (.ok d, t'))
    (hi : t'.intervening = false) : s'.intervening = false ∧ s.toBase.clipControl u = .ok c :=
  implicit_simplex_less pred hs ht hens hent hls hlt hlo hhi hgen hst hw (fun _ => safeAt_covers hcs) hdt hwin claw next hlaw h1 h2 hi

end

/-! ### Concrete modules -/

/-- The constraint `(4 y - 7)^2 + 15 ≥ 0`, looked at where it is least. -/
noncomputable def wC : Constraint ℝ (List ℝ) Unit :=
  { computeFn := fun y _ => (4 * y.headD 0 - 7) ^ 2 + 15, phiFn := fun y _ => (4 * y.headD 0 - 7) ^ 2 + 15
    gradFn := fun y _ => [8 * (4 * y.headD 0 - 7)]
    params := (), alpha := some id, alphaNeg := none, bias := 0, biasNegative := 0, enabled := true
    slackPriorityScale := none, subsample := { numLeast := some 1 } }

theorem w_value (w : ℝ) (k : Nat) : pathValue iE (iObj [("c", wC)] w true) [0] 1 wC k = (4 * (k : ℝ) - 7) ^ 2 + 15 := by
  unfold pathValue
  rw [i_path]
  simp [wC]

theorem w_point (w u : ℝ) (k : Nat) :
    PointOK iE (iObj [("c", wC)] w true) [0] 1 wC [u] k ↔ 0 ≤ 8 * (4 * (k : ℝ) - 7) * u + ((4 * (k : ℝ) - 7) ^ 2 + 15) := by
  have e : vadd (iE.f [0]) (matVec (iE.g [0]) [u]) = [u] := by simp [iE, matVec, vadd]
  have : pointValue iE (iObj [("c", wC)] w true) [0] 1 wC [u] k = some (8 * (4 * (k : ℝ) - 7) * u + ((4 * (k : ℝ) - 7) ^ 2 + 15)) := by
    unfold pointValue
    rw [i_path, e, i_variation]
    simp [wC]
  unfold PointOK
  rw [this]
  simp

/-- The point looked at is the one with the least value. -/
theorem w_points (w : Nat) (m : Nat) (hm : m < w + 1) (hleast : ∀ k < w + 1, k ≠ m → (4 * (m : ℝ) - 7) ^ 2 < (4 * (k : ℝ) - 7) ^ 2) :
    pointsOf iE (iObj [("c", wC)] w true) [0] 1 wC = [m] := by
  unfold pointsOf
  rw [i_numPoints]
  obtain ⟨dr, h1, h2, h3⟩ := C37_num_least wC.subsample 1 rfl rfl rfl (w + 1) (pathValue iE (iObj [("c", wC)] w true) [0] 1 wC)
  have e : ({ wC.subsample with numLeast := none } : SubsampleConfig) = {} := rfl
  rw [e, C37_default_every_point] at h1 h2
  have hl : (checkedPoints wC.subsample (w + 1) (pathValue iE (iObj [("c", wC)] w true) [0] 1 wC)).length = 1 := by
    rw [h2]; simp
  obtain ⟨k, hk⟩ := List.length_eq_one_iff.1 hl
  rw [hk] at h1 h3 ⊢
  by_cases hkm : k = m
  · rw [hkm]
  · exfalso
    have hkw : k < w + 1 := List.mem_range.1 (h1.mem_iff.1 (by simp))
    have hmd : m ∈ dr := by
      have := h1.mem_iff.2 (List.mem_range.2 hm)
      simpa [Ne.symm hkm] using this
    have := h3 k (by simp) m hmd
    rw [w_value, w_value] at this
    have := hleast k hkw hkm
    linarith

theorem w_shapes (w : Nat) : ShapesI iE (iObj [("c", wC)] w true) [0] 1 := by
  refine ⟨by norm_num, ?_, ?_, ?_, ?_, rfl, rfl, ?_, ?_, ?_, by simp [iObj]⟩
  · have : (iObj [("c", wC)] w true).ext.extra.backupWindow / 1 = (w : ℝ) := by simp [iObj]
    rw [this]
    simp [pyInt]
  · intro kc hkc; simp only [iObj, List.mem_singleton] at hkc; subst hkc; rfl
  · intro kc hkc; simp only [iObj, List.mem_singleton] at hkc; subst hkc; rfl
  · intro kc hkc; simp only [iObj, List.mem_singleton] at hkc; subst hkc; simp [wC]
  · simp [iE, iObj]
  · intro z; simp [iObj, iCtrl]
  · intro k hk
    refine ⟨_, _, i_path _ _ _ _ _ _, ?_, fun _ => ⟨⟨[1], .none, rfl, by simp [iE]⟩, rfl, rfl, by simp [iE]⟩⟩
    intro kc hkc; simp only [iObj, List.mem_singleton] at hkc; subst hkc; rfl

/-- The answer for desired control `2` when exactly the controls between `-2` and `b` are admissible. -/
theorem w_result (solver : Solver ℝ) (hspec : SolverSpec solver) (w m : Nat)
    (hp : pointsOf iE (iObj [("c", wC)] w true) [0] 1 wC = [m]) {b : ℝ} (hb : -2 ≤ b) (hb2 : b ≤ 2)
    (hiff : ∀ u : ℝ, -2 ≤ u → u ≤ 2 → (0 ≤ 8 * (4 * (m : ℝ) - 7) * u + ((4 * (m : ℝ) - 7) ^ 2 + 15) ↔ u ≤ b)) :
    (iE.call solver (iObj [("c", wC)] w true) (.array [0]) 1 [2]).1 = .ok [b] := by
  have hmod := i_module solver (cs := [("c", wC)]) (by simp [dictKeys]) w true
  have hadm : ∀ v, AdmissibleI iE (iObj [("c", wC)] w true) [0] 1 v ↔ ∃ u, v = [u] ∧ -2 ≤ u ∧ u ≤ b := by
    intro v
    rw [i_admissible]
    simp only [List.mem_singleton, forall_eq, hp, w_point]
    constructor
    · rintro ⟨u, rfl, h1, h2, h3⟩
      exact ⟨u, rfl, h1, (hiff u h1 h2).1 (h3 rfl)⟩
    · rintro ⟨u, rfl, h1, h2⟩
      exact ⟨u, rfl, h1, h2.trans hb2, fun _ => (hiff u h1 (h2.trans hb2)).2 h2⟩
  have hz := (hadm [b]).2 ⟨b, rfl, hb, le_rfl⟩
  obtain ⟨v, hv⟩ := (C36_returns hspec hmod rfl [0] 1 (w_shapes w) (by
    intro kc hkc
    simp only [iObj, List.mem_singleton] at hkc
    subst hkc
    rw [i_numPoints, hp]; simp) [2] rfl).1 ⟨_, hz⟩
  obtain ⟨h1, h2, -⟩ := C36_closest_admissible hspec hmod rfl [0] 1 [2] v (Prod.ext hv rfl) ⟨_, hz⟩
  obtain ⟨u, rfl, -, hu⟩ := (hadm v).1 h1
  rw [hv]
  by_contra hne
  have := h2 [b] hz (by simpa using fun h => hne (by rw [h]))
  simp only [sqDist, vsub, sqNorm, List.zipWith_cons_cons, List.zipWith_nil_right, dot_cons, dot_nil_left] at this
  nlinarith

/-- **C110 is violated** by implicit ASIF modules that look at the points with the least values: with window 1 the desired control `2` is
answered by `1`, with window 2 it is passed through. -/
theorem C110_refuted_num_least (solver : Solver ℝ) (hspec : SolverSpec solver) :
    (iE.call solver (iObj [("c", wC)] 1 true) (.array [0]) 1 [2]).1 = .ok [1] ∧
    (iE.call solver (iObj [("c", wC)] 2 true) (.array [0]) 1 [2]).1 = .ok [2] := by
  have e1 : ((1 : Nat) : ℝ) = 1 := by norm_num
  have e2 : ((2 : Nat) : ℝ) = 2 := by norm_num
  have r1 := w_result solver hspec 1 1 (w_points 1 1 (by omega) (by
    intro k hk hne
    have : k = 0 := by omega
    subst this
    norm_num)) (b := 1) (by norm_num) (by norm_num) (by
      intro u _ _
      constructor <;> intro h <;> push_cast at * <;> linarith)
  have r2 := w_result solver hspec 2 2 (w_points 2 2 (by omega) (by
    intro k hk hne
    have : k = 0 ∨ k = 1 := by omega
    rcases this with rfl | rfl <;> norm_num)) (b := 2) (by norm_num) (by norm_num) (by
      intro u _ _
      constructor <;> intro h <;> push_cast at * <;> linarith)
  rw [e1] at r1
  rw [e2] at r2
  exact ⟨r1, r2⟩

/-- C109: with the bias lowered from 0 to -1 the module that keeps `x + 1 ≥ 0` still answers, and the original stays at least as close. -/
example (solver : Solver ℝ) (hspec : SolverSpec solver) (dt u : ℝ) :
    ∃ w v, (explicitASIF solver toyF toyG (oObj [("a", (oC 1 1 none).lowerBias (-1))] true) (.array 0) dt [u]).1 = .ok w ∧
      (explicitASIF solver toyF toyG (oObj [("a", oC 1 1 none)] true) (.array 0) dt [u]).1 = .ok v ∧ sqDist v [u] ≤ sqDist w [u] := by
  have hs := o_module solver (cs := [("a", oC 1 1 none)]) (by simp [dictKeys]) true
  have ht := o_module solver (cs := [("a", (oC 1 1 none).lowerBias (-1))]) (by simp [dictKeys]) true
  have hc : MoreCautious ((oC 1 1 none).lowerBias (-1)) (oC 1 1 none) :=
    lowerBias_cautious (al := id) rfl monotone_id rfl (fun an h => by cases h; exact ⟨monotone_id, rfl⟩) le_rfl (by simp [oC])
  have hnt : ∀ kc ∈ (oObj [("a", (oC 1 1 none).lowerBias (-1))] true).constraints, kc.2.slackPriorityScale = none := by
    simp [oObj, oC, Constraint.lowerBias]
  have hadm : Admissible toyF toyG (oObj [("a", (oC 1 1 none).lowerBias (-1))] true) 0 [0] := by
    refine ⟨rfl, o_within _ _ _, fun kc hkc _ => ?_, by simp [oObj]⟩
    simp only [oObj, List.mem_singleton] at hkc
    subst hkc
    exact ⟨0, by simp [barrierValue, strengthening, Constraint.lowerBias, oC, toyF, toyG, matVec, vadd, dot], le_rfl⟩
  have hsh : ShapesOK toyF toyG (oObj [("a", (oC 1 1 none).lowerBias (-1))] true) 0 := by
    refine ⟨fun kc hkc => ?_, fun kc hkc => ?_, rfl, by simp [toyG, oObj], by simp [oObj]⟩ <;>
    · simp only [oObj, List.mem_singleton] at hkc
      subst hkc
      rfl
  obtain ⟨w, hw⟩ := (explicit_total hspec ht.inv.1 ht.inv.2 (scalesPos_of_noslack' hnt) hsh dt (u := [u]) rfl rfl).1
    ⟨_, _, admissible_iff_zeros.1 hadm⟩
  obtain ⟨v, hv, hle, -⟩ := C109_explicit hspec hs ht rfl rfl (by simp [oObj, oC]) hnt (fun _ h => h) rfl
    (by
      intro kc hkc _
      simp only [oObj, List.mem_singleton] at hkc
      subst hkc
      exact ⟨_, List.mem_cons_self, hc⟩)
    (by intro kc hkc; simp [oObj] at hkc) 0
    (o_shapes (by intro kc hkc; simp only [List.mem_singleton] at hkc; subst hkc; exact ⟨1, 1, none, rfl⟩) true 0) dt dt [u] w ⟨_, hadm⟩ hw
  exact ⟨w, v, hw, hv, hle⟩

/-- The constraint of the module with a stateful backup law, with limit 3 and another bias. -/
def toyLow (b : Rat) : SimplexObj Rat Rat Rat Nat :=
  { toyImplicit with constraints := toyImplicit.constraints.map fun kc => (kc.1, kc.2.lowerBias b) }

theorem toyLow_cautious {b : Rat} (hb : b ≤ 0) : CoversCautiously (toyLow b).constraints toyImplicit.constraints := by
  intro kc hkc _
  simp only [toyImplicit, List.mem_singleton] at hkc
  subst hkc
  refine ⟨_, List.mem_cons_self, ⟨rfl, rfl, rfl, id, hb, fun al' h => ?_, le_rfl, le_rfl⟩⟩
  simp [Constraint.lowerBias] at h

theorem wf_toyLow (b : Rat) : WF (toyLow b) :=
  ⟨by simp [dictKeys, toyLow, toyImplicit], by simp [dictKeys, toyLow, toyImplicit, Constraint.lowerBias],
    by simp [dictKeys, toyLow, toyImplicit, Constraint.lowerBias]⟩

theorem wf_toyImplicit : WF toyImplicit :=
  ⟨by simp [dictKeys, toyImplicit], by simp [dictKeys, toyImplicit], by simp [dictKeys, toyImplicit]⟩

/-- C109: what the implicit switching module with the lower bias accepts is accepted with bias 0. -/
example (pred : Rat → Rat → List Rat → Rat) (x : Rat) (u c d : List Rat) (s' t' : SimplexObj Rat Rat Rat Nat)
    (h1 : implicitSimplex pred toyImplicit (.array x) (1 / 2) u = (.ok c, s'))
    (h2 : implicitSimplex pred (toyLow (-1)) (.array x) (1 / 2) u = (.ok d, t')) (hi : t'.intervening = false) :
    s'.intervening = false :=
  (C109_implicit_simplex pred wf_toyImplicit (wf_toyLow (-1)) rfl rfl (by simp [Latched, toyImplicit, Base.init])
    (by simp [Latched, toyLow, toyImplicit, Base.init]) rfl rfl rfl rfl rfl (toyLow_cautious (by norm_num)) (by norm_num)
    (by norm_num [toyImplicit]) (fun _ _ => [-1]) (fun _ z => match z with | CState.array n => CState.array (n + 1) | z => z)
    (fun x z => by cases z <;> exact ⟨[-1], rfl, rfl⟩) h1 h2 hi).1

/-- The same for the module that looks one step ahead. -/
example (pred : Rat → Rat → List Rat → Rat) (x : Rat) (u c d : List Rat) (s' t' : SimplexObj Rat Rat Rat Nat)
    (h1 : explicitSimplex pred toyImplicit (.array x) (1 / 2) u = (.ok c, s'))
    (h2 : explicitSimplex pred (toyLow (-1)) (.array x) (1 / 2) u = (.ok d, t')) (hi : t'.intervening = false) :
    s'.intervening = false :=
  (C109_simplex pred wf_toyImplicit (wf_toyLow (-1)) rfl rfl (by simp [Latched, toyImplicit, Base.init])
    (by simp [Latched, toyLow, toyImplicit, Base.init]) (toyLow_cautious (by norm_num)) h1 h2 hi).1

/-- C110: what the implicit switching module with window 5 accepts is accepted with window 2. -/
example (pred : Rat → Rat → List Rat → Rat) (x : Rat) (u c d : List Rat) (s' t' : SimplexObj Rat Rat Rat Nat)
    (h1 : implicitSimplex pred toyImplicit (.array x) (1 / 2) u = (.ok c, s'))
    (h2 : implicitSimplex pred { toyImplicit with ext := { toyImplicit.ext with backupWindow := 5 } } (.array x) (1 / 2) u = (.ok d, t'))
    (hi : t'.intervening = false) : s'.intervening = false :=
  (C110_simplex pred wf_toyImplicit
    (show WF { toyImplicit with ext := { toyImplicit.ext with backupWindow := 5 } } from
      ⟨by simp [dictKeys, toyImplicit], by simp [dictKeys, toyImplicit], by simp [dictKeys, toyImplicit]⟩) rfl rfl
    (by simp [Latched, toyImplicit, Base.init]) (by simp [Latched, toyImplicit, Base.init]) rfl rfl rfl rfl (by norm_num [toyImplicit])
    (fun kc hkc _ => ⟨kc, hkc, rfl⟩) (by norm_num) (by norm_num [toyImplicit]) (fun _ _ => [-1])
    (fun _ z => match z with | CState.array n => CState.array (n + 1) | z => z)
    (fun x z => by cases z <;> exact ⟨[-1], rfl, rfl⟩) h1 h2 hi).1

/-- C110: where the implicit module with window 2 answers `-1` to `-2`, the one with window 1 answers at least as closely. -/
example (solver : Solver ℝ) (hspec : SolverSpec solver) (exc : Bool) :
    ∃ v, (iE.call solver (iObj [("c", iC 0 {} true none)] 1 exc) (.array [1]) 1 [-2]).1 = .ok v ∧ sqDist v [-2] ≤ 1 := by
  obtain ⟨s', h, -⟩ := i_result solver hspec exc
  have hsh := i_shapes (cs := [("c", iC 0 {} true none)]) (by
    intro kc hkc; simp only [List.mem_singleton] at hkc; subst hkc; exact ⟨0, {}, true, rfl, by decide⟩) 1 exc 1
  have hadm := @i_admissible [("c", iC 0 {} true none)] 2 exc 1
  have hw : ((2 : Nat) : ℝ) = 2 := by norm_num
  have hw1 : ((1 : Nat) : ℝ) = 1 := by norm_num
  simp only [hw, hw1] at hsh hadm
  have hex : ∃ w, AdmissibleI iE (iObj [("c", iC 0 {} true none)] 2 exc) [1] 1 w := by
    refine ⟨[0], (hadm [0]).2 ⟨0, rfl, by norm_num, by norm_num, ?_⟩⟩
    intro kc hkc _ k _
    simp only [List.mem_singleton] at hkc
    subst hkc
    refine (i_point _ 2 exc 1 1 0 0 {} true none k).2 ?_
    positivity
  obtain ⟨v, hv, hle, -⟩ := C110_implicit_partial hspec (i_module solver (cs := [("c", iC 0 {} true none)]) (by simp [dictKeys]) 1 exc)
    (i_module solver (cs := [("c", iC 0 {} true none)]) (by simp [dictKeys]) 2 exc) rfl rfl rfl rfl rfl (by simp [iObj]) rfl rfl
    (fun kc hkc _ => ⟨kc, hkc, rfl⟩) (by simp [iObj, iC]) (by intro kc hkc; simp [iObj] at hkc) [1] 1 one_pos (by simp [iObj]) hsh
    (fun kc hkc => le_of_eq (C29_default_fits iE _ [1] 1 (by simp [iObj, iC]) kc hkc)) [-2] [-1] hex (by rw [h])
  refine ⟨v, hv, hle.trans (le_of_eq ?_)⟩
  simp [sqDist, sqNorm, dot, vsub]
  norm_num

/-- C109: the implicit module with the bias lowered by 1, started where it still has an admissible control. -/
example (solver : Solver ℝ) (hspec : SolverSpec solver) (u : ℝ) (w : List ℝ)
    (h : (iE.call solver (iObj [("c", (iC 0 {} true none).lowerBias (-1))] 2 true) (.array [1]) 1 [u]).1 = .ok w) :
    ∃ v, (iE.call solver (iObj [("c", iC 0 {} true none)] 2 true) (.array [1]) 1 [u]).1 = .ok v ∧ sqDist v [u] ≤ sqDist w [u] := by
  have hsh := i_shapes (cs := [("c", iC 0 {} true none)]) (by
    intro kc hkc; simp only [List.mem_singleton] at hkc; subst hkc; exact ⟨0, {}, true, rfl, by decide⟩) 2 true 1
  have hadm := @i_admissible [("c", (iC 0 {} true none).lowerBias (-1))] 2 true 1
  have hw : ((2 : Nat) : ℝ) = 2 := by norm_num
  simp only [hw] at hsh hadm
  have hex : ∃ w, AdmissibleI iE (iObj [("c", (iC 0 {} true none).lowerBias (-1))] 2 true) [1] 1 w := by
    refine ⟨[0], (hadm [0]).2 ⟨0, rfl, by norm_num, by norm_num, ?_⟩⟩
    intro kc hkc _ k _
    simp only [List.mem_singleton] at hkc
    subst hkc
    have e : vadd (iE.f [1]) (matVec (iE.g [1]) [0]) = [0] := by simp [iE, matVec, vadd]
    refine ⟨(k : ℝ), ?_, by positivity⟩
    unfold pointValue
    rw [i_path, e, i_variation]
    simp [Constraint.lowerBias, iC]
  obtain ⟨v, hv, hle, -⟩ := C109_implicit hspec (i_module solver (cs := [("c", iC 0 {} true none)]) (by simp [dictKeys]) 2 true)
    (i_module solver (cs := [("c", (iC 0 {} true none).lowerBias (-1))]) (by simp [dictKeys]) 2 true) rfl rfl rfl rfl rfl rfl rfl rfl
    (by
      intro kc hkc _
      simp only [iObj, List.mem_singleton] at hkc
      subst hkc
      exact ⟨_, List.mem_cons_self, lowerBias_cautious (al := id) rfl monotone_id rfl (fun an h => by simp [iC] at h) le_rfl (by simp [iC]), rfl⟩)
    (by intro kc hkc; simp [iObj] at hkc) [1] 1 hsh
    (fun kc hkc => le_of_eq (C29_default_fits iE _ [1] 1 (by simp [iObj, iC]) kc hkc)) [u] w hex h
  exact ⟨v, hv, hle⟩

/-- C109: the discrete module whose enabled constraint has its bias lowered by 1. -/
example (x u : ℝ) (v w : List ℝ) (s' t' : DiscObj ℝ ℝ Unit)
    (h1 : discreteASIF refNLP stepNext (stepObj true) (.array x) (1 / 2) [u] = (.ok v, s'))
    (h2 : discreteASIF refNLP stepNext { stepObj true with constraints := [("a", (stepC true).lowerBias (-1)), ("b", stepC false)] }
      (.array x) (1 / 2) [u] = (.ok w, t')) : sqDist v [u] ≤ sqDist w [u] := by
  have hc : MoreCautious ((stepC true).lowerBias (-1)) (stepC true) :=
    lowerBias_cautious (al := id) rfl monotone_id rfl (fun an h => by simp [stepC] at h) le_rfl (by simp [stepC])
  refine C109_discrete refNLP_sound refNLP_global (step_inv true)
    (show DiscInv { stepObj true with constraints := [("a", (stepC true).lowerBias (-1)), ("b", stepC false)] } from
      ⟨⟨by simp [dictKeys], rfl, rfl⟩, rfl, rfl, rfl, rfl⟩) rfl rfl rfl rfl (by simp [stepObj, stepC])
    (by simp [stepC, Constraint.lowerBias]) (fun _ h => h) rfl ?_ (by norm_num) h1 h2
  intro kc hkc hen
  simp only [stepObj, List.mem_cons, List.not_mem_nil, or_false] at hkc
  rcases hkc with rfl | rfl
  · exact ⟨_, List.mem_cons_self, hc⟩
  · simp [stepC] at hen

end RTA
