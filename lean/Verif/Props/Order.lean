import Verif.Props.ImplicitHistory
import Verif.Props.Simplex
import Verif.Lemmas.ASIFPerm
import Verif.Spec.Order

/-!
Adding constraints, enabling constraints or narrowing bounds never makes a module interfere less, and the order in which
constraints are listed does not matter (C93).
-/
set_option linter.unusedSectionVars false
namespace RTA

section
variable {K S P X A : Type} [Field K] [LinearOrder K] [IsStrictOrderedRing K] [HasSqrt K] [LawfulSqrt K]

theorem scales_nil_of_noslack {cs : Dict (Constraint K S P)} (h : ∀ kc ∈ cs, kc.2.slackPriorityScale = none) :
    slackScales cs = [] := List.filterMap_eq_nil_iff.2 h

theorem scalesPos_of_noslack' {cs : Dict (Constraint K S P)} (h : ∀ kc ∈ cs, kc.2.slackPriorityScale = none) : ScalesPos cs := by
  intro w hw
  rw [scales_nil_of_noslack h] at hw
  simp at hw

/-- A module with more constraints or narrower bounds admits fewer controls. -/
theorem admissible_covers {f : S → List K} {g : S → List (List K)} {s t : ASIFObj K S P X}
    (hb : ∀ w, Within t.controlBoundsLow t.controlBoundsHigh w → Within s.controlBoundsLow s.controlBoundsHigh w)
    (hdim : t.ext.controlDim = s.ext.controlDim) (hcs : Covers t.constraints s.constraints)
    (hds : CoversDirect t.ext.direct s.ext.direct) {x : S} {w : List K} (h : Admissible f g t x w) : Admissible f g s x w := by
  refine ⟨h.len.trans hdim, hb w h.bounds, fun kc hkc hen => ?_, fun kc hkc hen => ?_⟩
  · obtain ⟨kd, hkd, e⟩ := hcs kc hkc hen
    have := h.barrier kd hkd (by rw [e]; exact hen)
    rwa [e] at this
  · obtain ⟨kd, hkd, e⟩ := hds kc hkc hen
    have := h.direct kd hkd (by rw [e]; exact hen)
    rwa [e] at this

/-- **C93, explicit modules, the part that holds.** Let `t` impose every enabled condition of `s` and bounds that are at least as narrow, neither
using slack. Whenever `t` has an admissible control and answers `w`, `s` answers as well, and its answer is at least as close
to the desired control; if `t` leaves the desired control as it is, so does `s`. What is missing: with slack it is false
(`C93_refuted_slack`). -/
theorem C93_more_constraints_partial {solver : Solver K} (hspec : SolverSpec solver) {f : S → List K} {g : S → List (List K)}
    {s t : ASIFObj K S P X} (hs : ExplicitModule solver f g s) (ht : ExplicitModule solver f g t) (hens : s.enable = true)
    (hent : t.enable = true) (hnss : ∀ kc ∈ s.constraints, kc.2.slackPriorityScale = none)
    (hnst : ∀ kc ∈ t.constraints, kc.2.slackPriorityScale = none)
    (hb : ∀ w, Within t.controlBoundsLow t.controlBoundsHigh w → Within s.controlBoundsLow s.controlBoundsHigh w)
    (hdim : t.ext.controlDim = s.ext.controlDim) (hcs : Covers t.constraints s.constraints)
    (hds : CoversDirect t.ext.direct s.ext.direct) (x : S) (hsh : ShapesOK f g s x) (dt dt' : K) (u w : List K)
    (hadm : ∃ w, Admissible f g t x w) (h : (explicitASIF solver f g t (.array x) dt' u).1 = .ok w) :
    ∃ v, (explicitASIF solver f g s (.array x) dt u).1 = .ok v ∧ sqDist v u ≤ sqDist w u ∧ (w = u → v = u) := by
  obtain ⟨w0, hw0⟩ := hadm
  have hpt := scalesPos_of_noslack' hnst
  have hps := scalesPos_of_noslack' hnss
  obtain ⟨hu, e, -, hw, -⟩ := explicit_solved hspec ht.inv.1 ht.inv.2 hpt hent
    (show explicitASIF solver f g t (.array x) dt' u = (.ok w, (explicitASIF solver f g t (.array x) dt' u).2) from Prod.ext h rfl)
    ⟨_, _, admissible_iff_zeros.1 hw0⟩
  have hws := admissible_covers hb hdim hcs hds ((admissibleS_noslack (scales_nil_of_noslack hnst)).1 hw).2
  have hex : ∃ w d, AdmissibleS f g s x w d := ⟨_, _, admissible_iff_zeros.1 hws⟩
  obtain ⟨v, hv⟩ := (explicit_total hspec hs.inv.1 hs.inv.2 hps hsh dt (hu.trans hdim) hens).1 hex
  obtain ⟨-, d, -, hav, hmin, -⟩ := explicit_solved hspec hs.inv.1 hs.inv.2 hps hens
    (show explicitASIF solver f g s (.array x) dt u = (.ok v, (explicitASIF solver f g s (.array x) dt u).2) from Prod.ext hv rfl) hex
  have hle : sqDist v u ≤ sqDist w u := by
    by_cases hvw : v = w
    · rw [hvw]
    · have := hmin w _ (admissible_iff_zeros.1 hws) (fun e => hvw (List.append_inj_left e (hav.len.trans hws.len.symm)))
      have hq : qpWeights s = [] := by unfold qpWeights; rw [scales_nil_of_noslack hnss]; rfl
      rw [hq, slackCost_nil, slackCost_nil] at this
      exact this.le
  refine ⟨v, hv, hle, ?_⟩
  rintro rfl
  by_contra hne
  have := hmin w _ (admissible_iff_zeros.1 hws) (fun e => hne (List.append_inj_left e (hav.len.trans hws.len.symm)))
  rw [slackCost_zeros, sqDist_self] at this
  exact absurd this (not_lt.2 (slackCost_nonneg (qpWeights_pos hps) _ _ _))

/-- **C93, order of the constraints of an explicit module.** Two modules that list the same constraints and direct
inequalities in different orders answer every call alike, also with slack. -/
theorem C93_order {solver : Solver K} (hspec : SolverSpec solver) {f : S → List K} {g : S → List (List K)}
    {s t : ASIFObj K S P X} (hs : ExplicitModule solver f g s) (ht : ExplicitModule solver f g t)
    (hpos : ScalesPos s.constraints) (hens : s.enable = true) (hent : t.enable = true)
    (hlo : t.controlBoundsLow = s.controlBoundsLow) (hhi : t.controlBoundsHigh = s.controlBoundsHigh)
    (hdim : t.ext.controlDim = s.ext.controlDim) (hexc : t.ext.solverException = s.ext.solverException)
    (hcs : s.constraints.Perm t.constraints) (hds : s.ext.direct.Perm t.ext.direct) (x : S) (hsh : ShapesOK f g s x) (dt : K)
    (u : List K) (hu : u.length = s.ext.controlDim) :
    (explicitASIF solver f g t (.array x) dt u).1 = (explicitASIF solver f g s (.array x) dt u).1 := by
  have hsht : ShapesOK f g t x :=
    ⟨fun kc hkc => hsh.alpha kc (hcs.mem_iff.2 hkc), fun kc hkc => hsh.grad kc (hcs.mem_iff.2 hkc), hsh.input,
      by rw [hdim]; exact hsh.cols, fun kc hkc => by rw [hdim]; exact hsh.direct kc (hds.mem_iff.2 hkc)⟩
  have hpost : ScalesPos t.constraints := fun w hw => hpos w (by
    unfold slackScales at hw ⊢
    exact (hcs.filterMap _).mem_iff.2 hw)
  have S1 := explicit_total hspec hs.inv.1 hs.inv.2 hpos hsh dt hu hens
  have T1 := explicit_total hspec ht.inv.1 ht.inv.2 hpost hsht dt (hu.trans hdim.symm) hent
  by_cases ha : ∃ w d, AdmissibleS f g s x w d
  · have hat : ∃ w d, AdmissibleS f g t x w d := by
      obtain ⟨w, d, hw⟩ := ha
      obtain ⟨e, he, -⟩ := admissibleS_perm hlo hhi hdim hcs hds u hw
      exact ⟨w, e, he⟩
    obtain ⟨v, hv⟩ := S1.1 ha
    obtain ⟨v', hv'⟩ := T1.1 hat
    rw [hv, hv']
    obtain ⟨-, d, -, had, hmin, -⟩ := explicit_solved hspec hs.inv.1 hs.inv.2 hpos hens (Prod.ext hv rfl) ha
    obtain ⟨-, d', -, had', hmin', -⟩ := explicit_solved hspec ht.inv.1 ht.inv.2 hpost hent (Prod.ext hv' rfl) hat
    obtain ⟨e, he, hec⟩ := admissibleS_perm hlo hhi hdim hcs hds u had
    obtain ⟨e', he', hec'⟩ := admissibleS_perm hlo.symm hhi.symm hdim.symm hcs.symm hds.symm u had'
    have hlen := had'.len.trans (hdim.trans had.len.symm)
    by_contra hne
    have hvv : v' ≠ v := fun h => hne (by rw [h])
    have l1 := hmin v' e' he' (fun h => hvv (List.append_inj_left h hlen.symm).symm)
    have l2 := hmin' v e he (fun h => hvv (List.append_inj_left h hlen))
    rw [hec] at l2
    rw [hec'] at l1
    exact absurd l1 (not_lt.2 l2.le)
  · have hat : ¬ ∃ w d, AdmissibleS f g t x w d := by
      rintro ⟨w, d, hw⟩
      obtain ⟨e, he, -⟩ := admissibleS_perm hlo.symm hhi.symm hdim.symm hcs.symm hds.symm u hw
      exact ha ⟨w, e, he⟩
    rw [S1.2 ha, T1.2 hat, hexc, clipControl_congr s.toBase hlo hhi]

variable [FloorRing K]

/-- The same bounds, control law and window: the trajectories and the points looked at are the same. -/
theorem admissibleI_covers {E : ImplicitEnv K} {s t : ImplicitObj K P A} (hsame : SamePath s t)
    (hwin : t.ext.extra.backupWindow = s.ext.extra.backupWindow) (hdim : t.ext.controlDim = s.ext.controlDim)
    (hcs : Covers t.constraints s.constraints) (hds : CoversDirect t.ext.direct s.ext.direct) {x : List K} {dt : K} {w : List K}
    (h : AdmissibleI E t x dt w) : AdmissibleI E s x dt w := by
  have hnp : numPoints t dt = numPoints s dt := by unfold numPoints; rw [hwin]
  have hpts : ∀ c, pointsOf E t x dt c = pointsOf E s x dt c := by
    intro c; unfold pointsOf; rw [hnp, pathValue_same hsame]
  have hok : ∀ c k, PointOK E t x dt c w k ↔ PointOK E s x dt c w k := by
    intro c k; unfold PointOK; rw [pointValue_same hsame]
  refine ⟨h.len.trans hdim, by rw [← hsame.low, ← hsame.high]; exact h.bounds, fun kc hkc hen k hk => ?_, fun kc hkc hen => ?_⟩
  · obtain ⟨kd, hkd, e⟩ := hcs kc hkc hen
    have := h.barrier kd hkd (by rw [e]; exact hen) k (by rw [e, hpts]; exact hk)
    rw [e, hok] at this
    exact this
  · obtain ⟨kd, hkd, e⟩ := hds kc hkc hen
    have := h.direct kd hkd (by rw [e]; exact hen)
    rwa [e] at this

/-- **C93, implicit modules.** The same for modules that look along a backup trajectory, with the same bounds, control law,
controller state and window. -/
theorem C93_implicit_more_constraints {solver : Solver K} (hspec : SolverSpec solver) {E : ImplicitEnv K}
    {s t : ImplicitObj K P A} (hs : ImplicitModule solver E s) (ht : ImplicitModule solver E t) (hens : s.enable = true)
    (hent : t.enable = true) (hlo : t.controlBoundsLow = s.controlBoundsLow) (hhi : t.controlBoundsHigh = s.controlBoundsHigh)
    (hdim : t.ext.controlDim = s.ext.controlDim) (hwin : t.ext.extra.backupWindow = s.ext.extra.backupWindow)
    (hgen : t.ext.extra.ctrl.gen = s.ext.extra.ctrl.gen) (hst : t.ext.extra.ctrl.state = s.ext.extra.ctrl.state)
    (hcs : Covers t.constraints s.constraints) (hds : CoversDirect t.ext.direct s.ext.direct) (x : List K) (dt : K)
    (hsh : ShapesI E s x dt) (hfit : ∀ kc ∈ s.constraints, (pointsOf E s x dt kc.2).length ≤ numPoints s dt) (u w : List K)
    (hadm : ∃ w, AdmissibleI E t x dt w) (h : (E.call solver t (.array x) dt u).1 = .ok w) :
    ∃ v, (E.call solver s (.array x) dt u).1 = .ok v ∧ sqDist v u ≤ sqDist w u ∧ (w = u → v = u) := by
  obtain ⟨hu, -, hw, -⟩ := implicit_solved hspec ht.inv.inv hent
    (show E.call solver t (.array x) dt u = (.ok w, (E.call solver t (.array x) dt u).2) from Prod.ext h rfl) hadm
  have hws := admissibleI_covers ⟨hlo, hhi, hgen, hst⟩ hwin hdim hcs hds hw
  obtain ⟨v, hv⟩ := (C36_returns hspec hs hens x dt hsh hfit u (hu.trans hdim)).1 ⟨w, hws⟩
  obtain ⟨-, -, hav, hmin, -⟩ := implicit_solved hspec hs.inv.inv hens
    (show E.call solver s (.array x) dt u = (.ok v, (E.call solver s (.array x) dt u).2) from Prod.ext hv rfl) ⟨w, hws⟩
  refine ⟨v, hv, ?_, ?_⟩
  · by_cases hvw : w = v
    · rw [hvw]
    · exact (hmin w hws hvw).le
  · rintro rfl
    by_contra hne
    have := hmin w hws (fun h => hne h.symm)
    rw [sqDist_self] at this
    exact absurd this (not_lt.2 (sqDist_nonneg _ _))

/-- **C93, order of the constraints of an implicit module.** -/
theorem C93_implicit_order {solver : Solver K} (hspec : SolverSpec solver) {E : ImplicitEnv K}
    {s t : ImplicitObj K P A} (hs : ImplicitModule solver E s) (ht : ImplicitModule solver E t) (hens : s.enable = true)
    (hent : t.enable = true) (hlo : t.controlBoundsLow = s.controlBoundsLow) (hhi : t.controlBoundsHigh = s.controlBoundsHigh)
    (hdim : t.ext.controlDim = s.ext.controlDim) (hexc : t.ext.solverException = s.ext.solverException)
    (hwin : t.ext.extra.backupWindow = s.ext.extra.backupWindow)
    (hgen : t.ext.extra.ctrl.gen = s.ext.extra.ctrl.gen) (hst : t.ext.extra.ctrl.state = s.ext.extra.ctrl.state)
    (hcs : s.constraints.Perm t.constraints) (hds : s.ext.direct.Perm t.ext.direct) (x : List K) (dt : K)
    (hsh : ShapesI E s x dt) (hfit : ∀ kc ∈ s.constraints, (pointsOf E s x dt kc.2).length ≤ numPoints s dt) (u : List K)
    (hu : u.length = s.ext.controlDim) :
    (E.call solver t (.array x) dt u).1 = (E.call solver s (.array x) dt u).1 := by
  have hsame : SamePath s t := ⟨hlo, hhi, hgen, hst⟩
  have hnp : numPoints t dt = numPoints s dt := by unfold numPoints; rw [hwin]
  have hsht : ShapesI E t x dt := by
    have sub : ∀ kc ∈ t.constraints, kc ∈ s.constraints := fun kc hkc => hcs.mem_iff.2 hkc
    refine ⟨hsh.step, by rw [hwin]; exact hsh.window, fun kc hkc => hsh.alpha kc (sub kc hkc), fun kc hkc => hsh.noSlack kc (sub kc hkc),
      fun kc hkc => hsh.skip kc (sub kc hkc), hsh.f0, hsh.g0, by rw [hdim]; exact hsh.g0cols, by rw [hst]; exact hsh.ctrl, ?_, ?_⟩
    · intro k hk
      rw [hnp] at hk
      obtain ⟨y, z, h1, h2, h3⟩ := hsh.path k hk
      refine ⟨y, z, by rw [backupPath_same hsame]; exact h1, fun kc hkc => h2 kc (sub kc hkc), ?_⟩
      rw [hgen, closedLoopField_same hsame]
      exact h3
    · intro kc hkc
      rw [hdim]; exact hsh.direct kc (hds.mem_iff.2 hkc)
  have hfitt : ∀ kc ∈ t.constraints, (pointsOf E t x dt kc.2).length ≤ numPoints t dt := by
    intro kc hkc
    have := hfit kc (hcs.mem_iff.2 hkc)
    rw [hnp]; unfold pointsOf at this ⊢; rw [hnp, pathValue_same hsame]; exact this
  have hsame' : SamePath t s := ⟨hlo.symm, hhi.symm, hgen.symm, hst.symm⟩
  have hadm : ∀ w, AdmissibleI E t x dt w ↔ AdmissibleI E s x dt w := fun w =>
    ⟨admissibleI_covers hsame hwin hdim (fun kc hkc _ => ⟨kc, hcs.mem_iff.1 hkc, rfl⟩) (fun kc hkc _ => ⟨kc, hds.mem_iff.1 hkc, rfl⟩),
      admissibleI_covers hsame' hwin.symm hdim.symm (fun kc hkc _ => ⟨kc, hcs.mem_iff.2 hkc, rfl⟩)
        (fun kc hkc _ => ⟨kc, hds.mem_iff.2 hkc, rfl⟩)⟩
  have S1 := C36_returns hspec hs hens x dt hsh hfit u hu
  have T1 := C36_returns hspec ht hent x dt hsht hfitt u (by rw [hdim]; exact hu)
  by_cases ha : ∃ w, AdmissibleI E s x dt w
  · have hat : ∃ w, AdmissibleI E t x dt w := by
      obtain ⟨w, hw⟩ := ha
      exact ⟨w, (hadm w).2 hw⟩
    obtain ⟨v, hv⟩ := S1.1 ha
    obtain ⟨v', hv'⟩ := T1.1 hat
    obtain ⟨a1, a2, -⟩ := C36_closest_admissible hspec hs hens x dt u v (Prod.ext hv rfl) ha
    obtain ⟨b1, b2, -⟩ := C36_closest_admissible hspec ht hent x dt u v' (Prod.ext hv' rfl) hat
    rw [hv, hv']
    congr 1
    by_contra hne
    have l1 := a2 v' ((hadm v').1 b1) hne
    have l2 := b2 v ((hadm v).2 a1) (fun h => hne h.symm)
    linarith
  · have hat : ¬ ∃ w, AdmissibleI E t x dt w := by
      rintro ⟨w, hw⟩
      exact ha ⟨w, (hadm w).1 hw⟩
    rw [S1.2 ha, T1.2 hat, hexc, clipControl_congr s.toBase hlo hhi]

end

section
variable {K S P A : Type}

theorem safeAt_covers [AddCommMonoid K] [LinearOrder K] {cs ds : Dict (Constraint K S P)} (h : Covers ds cs) {x : S} (hx : SafeAt ds x) : SafeAt cs x := by
  intro kc hkc hen
  obtain ⟨kd, hkd, e⟩ := h kc hkc hen
  have := hx kd hkd (by rw [e]; exact hen)
  rwa [e] at this

/-- **C93, explicit switching modules.** Let `t` impose every enabled constraint of `s`. Where `t` accepts the desired
control (neither being latched), so does `s`. -/
theorem C93_simplex [AddCommMonoid K] [LinearOrder K] (pred : S → K → List K → S) (s t s' t' : SimplexObj K S P A) (hs : WF s) (ht : WF t)
    (hens : s.enable = true) (hent : t.enable = true) (hls : ¬ Latched s) (hlt : ¬ Latched t)
    (hcs : Covers t.constraints s.constraints) (x : S) (dt : K) (u c d : List K)
    (h1 : explicitSimplex pred s (.array x) dt u = (.ok c, s')) (h2 : explicitSimplex pred t (.array x) dt u = (.ok d, t'))
    (hi : t'.intervening = false) : s'.intervening = false ∧ s.toBase.clipControl u = .ok c := by
  obtain ⟨a1, a2, -⟩ := C13_explicit_decision pred s s' hs hens x dt u c hls h1
  obtain ⟨b1, -, -⟩ := C13_explicit_decision pred t t' ht hent x dt u d hlt h2
  have := safeAt_covers hcs (b1.1 hi)
  exact ⟨a1.2 this, a2 this⟩

/-- **C93, implicit switching modules.** The same, for modules with the same control law, controller state, bounds and
window. -/
theorem C93_implicit_simplex [Field K] [LinearOrder K] [IsStrictOrderedRing K] [FloorRing K] (pred : S → K → List K → S) (s t s' t' : SimplexObj K S P A) (hs : WF s) (ht : WF t)
    (hens : s.enable = true) (hent : t.enable = true) (hls : ¬ Latched s) (hlt : ¬ Latched t)
    (hlo : t.controlBoundsLow = s.controlBoundsLow) (hhi : t.controlBoundsHigh = s.controlBoundsHigh)
    (hgen : t.ext.ctrl.gen = s.ext.ctrl.gen) (hst : t.ext.ctrl.state = s.ext.ctrl.state)
    (hw : t.ext.backupWindow = s.ext.backupWindow) (hcs : Covers t.constraints s.constraints) (x : S) (dt : K) (hdt : 0 < dt)
    (hwin : 0 ≤ s.ext.backupWindow) (u c d : List K) (claw : S → CState A → List K) (next : S → CState A → CState A)
    (hlaw : ∀ x z, ∃ ub, s.ext.ctrl.gen x dt z = some (ub, next x z) ∧ s.toBase.clipControl ub = .ok (claw x z))
    (h1 : implicitSimplex pred s (.array x) dt u = (.ok c, s')) (h2 : implicitSimplex pred t (.array x) dt u = (.ok d, t'))
    (hi : t'.intervening = false) : s'.intervening = false ∧ s.toBase.clipControl u = .ok c := by
  have hclip : ∀ w, t.toBase.clipControl w = s.toBase.clipControl w := by
    intro w; unfold Base.clipControl; rw [hlo, hhi]
  obtain ⟨a1, a2, -⟩ := C14_implicit_decision pred s s' hs hens x dt hdt hwin u c claw next hlaw hls h1
  obtain ⟨b1, -, -⟩ := C14_implicit_decision pred t t' ht hent x dt hdt (by rw [hw]; exact hwin) u d claw next
    (by intro x z; rw [hgen]; simpa only [hclip] using hlaw x z) hlt h2
  simp only [hst, hw] at b1
  have hb := b1.1 hi
  have := a1.2 fun k hk => safeAt_covers hcs (hb k hk)
  exact ⟨this, a2 this⟩

end

/-! ### Concrete modules

`dx/dt = u` without bounds; constraints `a x + b ≥ 0` with the identity as strengthener on both sides of zero. -/

noncomputable def oC (a b : ℝ) (slack : Option ℝ) : Constraint ℝ ℝ Unit :=
  { computeFn := fun x _ => a * x + b, phiFn := fun x _ => a * x + b, gradFn := fun _ _ => [a], alpha := some id
    alphaNeg := some id, bias := 0, biasNegative := 0, slackPriorityScale := slack, params := (), enabled := true, subsample := {} }

noncomputable def oObj (cs : Dict (Constraint ℝ ℝ Unit)) (exc : Bool) : ASIFObj ℝ ℝ Unit Unit :=
  { toBase := Base.init none none
    constraints := cs, params := cs.foldl (fun d kc => dictSet d kc.1 kc.2.params) []
    constraintEnabled := cs.foldl (fun d kc => dictSet d kc.1 kc.2.enabled) [], constraintValues := []
    isStaleConstraints := false
    ext := { epsilon := 1 / 10000, controlDim := 1, solverException := exc, numSlack := (slackWeights cs).length
             objWeight := [1] ++ slackWeights cs, constraintNames := [] ++ (dictKeys cs ++ [])
             actuation := [], direct := [], directParams := [], directEnabled := [], causing := none, extra := () } }

theorem o_init (cs : Dict (Constraint ℝ ℝ Unit)) (exc : Bool) :
    asifInit none none cs none (1 / 10000) 1 exc [] () = .ok (oObj cs exc) := rfl

theorem o_module (solver : Solver ℝ) {cs : Dict (Constraint ℝ ℝ Unit)} (hcs : (dictKeys cs).Nodup) (exc : Bool) :
    ExplicitModule solver toyF toyG (oObj cs exc) :=
  ⟨_, _, _, _, _, _, _, _, _, _, [], hcs, by simp [dictKeys], o_init cs exc, rfl⟩

theorem o_shapes {cs : Dict (Constraint ℝ ℝ Unit)} (hcs : ∀ kc ∈ cs, ∃ a b w, kc.2 = oC a b w) (exc : Bool) (x : ℝ) :
    ShapesOK toyF toyG (oObj cs exc) x := by
  refine ⟨fun kc hkc => ?_, fun kc hkc => ?_, rfl, by simp [toyG, oObj], by simp [oObj]⟩
  · obtain ⟨a, b, w, e⟩ := hcs kc hkc; rw [e]; rfl
  · obtain ⟨a, b, w, e⟩ := hcs kc hkc; rw [e]; rfl

theorem o_barrier (a b : ℝ) (w : Option ℝ) (x u d : ℝ) : BarrierOK toyF toyG (oC a b w) x [u] d ↔ d ≤ a * u + (a * x + b) := by
  have e : barrierValue toyF toyG (oC a b w) x [u] = some (a * u + (a * x + b)) := by
    simp [barrierValue, strengthening, oC, toyF, toyG, matVec, vadd, dot]
  unfold BarrierOK
  rw [e]
  simp

theorem o_within (cs : Dict (Constraint ℝ ℝ Unit)) (exc : Bool) (u : List ℝ) :
    Within (oObj cs exc).controlBoundsLow (oObj cs exc).controlBoundsHigh u :=
  fun _ _ _ => ⟨fun _ h => by simp [oObj, Base.init, boundAt] at h, fun _ h => by simp [oObj, Base.init, boundAt] at h⟩

/-- With one soft constraint `x ≥ 1` the desired control `0` at `x = 0` is answered by `1/2`. -/
theorem o_one (solver : Solver ℝ) (hspec : SolverSpec solver) (exc : Bool) (dt : ℝ) :
    (explicitASIF solver toyF toyG (oObj [("a", oC 1 (-1) (some 1))] exc) (.array 0) dt [0]).1 = .ok [1 / 2] := by
  have hm := o_module solver (cs := [("a", oC 1 (-1) (some 1))]) (by simp [dictKeys]) exc
  have hadm : ∀ u d : ℝ, AdmissibleS toyF toyG (oObj [("a", oC 1 (-1) (some 1))] exc) 0 [u] [d] ↔ d ≤ u - 1 := by
    intro u d
    constructor
    · intro h
      have := (o_barrier 1 (-1) (some 1) 0 u d).1 (h.barrier (oC 1 (-1) (some 1), d) (by simp [oObj, assignSlack, oC]) rfl)
      linarith
    · intro h
      refine ⟨rfl, by simp [oObj, slackScales, oC], o_within _ _ _, ?_, by simp [oObj]⟩
      intro cd hcd _
      simp only [oObj, assignSlack, oC, Option.isSome_some, if_true, List.headD_cons, List.mem_singleton] at hcd
      subst hcd
      exact (o_barrier 1 (-1) (some 1) 0 u d).2 (by linarith)
  have hone : ∀ w ∈ slackScales (oObj [("a", oC 1 (-1) (some 1))] exc).constraints, w = 1 := by
    intro w hw
    simpa [oObj, slackScales, oC] using hw
  have hsh := o_shapes (cs := [("a", oC 1 (-1) (some 1))]) (by
    intro kc hkc; simp only [List.mem_singleton] at hkc; subst hkc; exact ⟨1, -1, some 1, rfl⟩) exc 0
  have hex : ∃ w d, AdmissibleS toyF toyG (oObj [("a", oC 1 (-1) (some 1))] exc) 0 w d := ⟨[1], [0], (hadm 1 0).2 (by norm_num)⟩
  obtain ⟨v, hv⟩ := C24_returns hspec hm (fun w hw => by rw [hone w hw]; exact one_pos) rfl 0 hsh dt [0] rfl hex
  obtain ⟨d, hd, hmin⟩ := C26_slack_objective_unit_partial hspec hm hone rfl 0 dt [0] v (Prod.ext hv rfl) hex
  obtain ⟨q, rfl⟩ := List.length_eq_one_iff.1 (show v.length = 1 from hd.len)
  obtain ⟨p, rfl⟩ := List.length_eq_one_iff.1 (show d.length = 1 from by rw [hd.slen]; simp [oObj, slackScales, oC])
  rw [hv]
  have h1 := (hadm q p).1 hd
  by_cases hq : q = 1 / 2
  · rw [hq]
  · have := hmin [1 / 2] [-1 / 2] ((hadm _ _).2 (by norm_num)) (by
      intro e
      simp only [List.cons_append, List.nil_append, List.cons.injEq] at e
      exact hq e.1)
    simp [oObj, slackScales, oC, slackCost, sqDist, sqNorm, dot, vsub] at this
    nlinarith [sq_nonneg (q - 1 / 2), sq_nonneg (q + p), sq_nonneg (p + 1 / 2)]

/-- With a second soft constraint `-x ≥ 0` the answer is `1/3`. -/
theorem o_two (solver : Solver ℝ) (hspec : SolverSpec solver) (exc : Bool) (dt : ℝ) :
    (explicitASIF solver toyF toyG (oObj [("a", oC 1 (-1) (some 1)), ("b", oC (-1) 0 (some 1))] exc) (.array 0) dt [0]).1 =
      .ok [1 / 3] := by
  have hm := o_module solver (cs := [("a", oC 1 (-1) (some 1)), ("b", oC (-1) 0 (some 1))]) (by simp [dictKeys]) exc
  have hadm : ∀ u d e : ℝ, AdmissibleS toyF toyG (oObj [("a", oC 1 (-1) (some 1)), ("b", oC (-1) 0 (some 1))] exc) 0 [u] [d, e] ↔
      d ≤ u - 1 ∧ e ≤ -u := by
    intro u d e
    constructor
    · intro h
      have h1 := (o_barrier 1 (-1) (some 1) 0 u d).1 (h.barrier (oC 1 (-1) (some 1), d) (by simp [oObj, assignSlack, oC]) rfl)
      have h2 := (o_barrier (-1) 0 (some 1) 0 u e).1 (h.barrier (oC (-1) 0 (some 1), e) (by simp [oObj, assignSlack, oC]) rfl)
      exact ⟨by linarith, by linarith⟩
    · rintro ⟨h1, h2⟩
      refine ⟨rfl, by simp [oObj, slackScales, oC], o_within _ _ _, ?_, by simp [oObj]⟩
      intro cd hcd _
      simp only [oObj, assignSlack, oC, Option.isSome_some, if_true, List.headD_cons, List.tail_cons, List.mem_cons,
        List.not_mem_nil, or_false] at hcd
      rcases hcd with rfl | rfl
      · exact (o_barrier 1 (-1) (some 1) 0 u d).2 (by linarith)
      · exact (o_barrier (-1) 0 (some 1) 0 u e).2 (by linarith)
  have hone : ∀ w ∈ slackScales (oObj [("a", oC 1 (-1) (some 1)), ("b", oC (-1) 0 (some 1))] exc).constraints, w = 1 := by
    intro w hw
    simpa [oObj, slackScales, oC] using hw
  have hsh := o_shapes (cs := [("a", oC 1 (-1) (some 1)), ("b", oC (-1) 0 (some 1))]) (by
    intro kc hkc; simp only [List.mem_cons, List.not_mem_nil, or_false] at hkc
    rcases hkc with rfl | rfl
    · exact ⟨1, -1, some 1, rfl⟩
    · exact ⟨-1, 0, some 1, rfl⟩) exc 0
  have hex : ∃ w d, AdmissibleS toyF toyG (oObj [("a", oC 1 (-1) (some 1)), ("b", oC (-1) 0 (some 1))] exc) 0 w d :=
    ⟨[0], [-1, 0], (hadm 0 (-1) 0).2 (by norm_num)⟩
  obtain ⟨v, hv⟩ := C24_returns hspec hm (fun w hw => by rw [hone w hw]; exact one_pos) rfl 0 hsh dt [0] rfl hex
  obtain ⟨d, hd, hmin⟩ := C26_slack_objective_unit_partial hspec hm hone rfl 0 dt [0] v (Prod.ext hv rfl) hex
  obtain ⟨q, rfl⟩ := List.length_eq_one_iff.1 (show v.length = 1 from hd.len)
  obtain ⟨p, r, rfl⟩ := List.length_eq_two.1 (show d.length = 2 from by rw [hd.slen]; simp [oObj, slackScales, oC])
  rw [hv]
  obtain ⟨h1, h2⟩ := (hadm q p r).1 hd
  by_cases hq : q = 1 / 3
  · rw [hq]
  · have := hmin [1 / 3] [-2 / 3, -1 / 3] ((hadm _ _ _).2 (by norm_num)) (by
      intro e
      simp only [List.cons_append, List.nil_append, List.cons.injEq] at e
      exact hq e.1)
    simp [oObj, slackScales, oC, slackCost, sqDist, sqNorm, dot, vsub] at this
    nlinarith [sq_nonneg (q - 1 / 3), sq_nonneg (p + 2 / 3), sq_nonneg (r + 1 / 3)]

/-- **Not so with slack.** Adding a soft constraint can bring the answer closer to the desired control: `x ≥ 1` alone turns
the desired control `0` into `1/2`, together with the conflicting `-x ≥ 0` into `1/3`. -/
theorem C93_refuted_slack (solver : Solver ℝ) (hspec : SolverSpec solver) (exc : Bool) (dt : ℝ) :
    Covers (oObj [("a", oC 1 (-1) (some 1)), ("b", oC (-1) 0 (some 1))] exc).constraints
      (oObj [("a", oC 1 (-1) (some 1))] exc).constraints ∧
    (explicitASIF solver toyF toyG (oObj [("a", oC 1 (-1) (some 1))] exc) (.array 0) dt [0]).1 = .ok [1 / 2] ∧
    (explicitASIF solver toyF toyG (oObj [("a", oC 1 (-1) (some 1)), ("b", oC (-1) 0 (some 1))] exc) (.array 0) dt [0]).1 =
      .ok [1 / 3] := by
  refine ⟨fun kc hkc _ => ⟨kc, ?_, rfl⟩, o_one solver hspec exc dt, o_two solver hspec exc dt⟩
  simp only [oObj, List.mem_singleton] at hkc ⊢
  subst hkc
  exact List.mem_cons_self

/-- C93: the module of `o_two` lists its constraints the other way round and still answers `1/3`. -/
example (solver : Solver ℝ) (hspec : SolverSpec solver) (exc : Bool) (dt : ℝ) :
    (explicitASIF solver toyF toyG (oObj [("b", oC (-1) 0 (some 1)), ("a", oC 1 (-1) (some 1))] exc) (.array 0) dt [0]).1 =
      .ok [1 / 3] := by
  rw [← o_two solver hspec exc dt]
  refine C93_order hspec (o_module solver (cs := [("a", oC 1 (-1) (some 1)), ("b", oC (-1) 0 (some 1))]) (by simp [dictKeys]) exc)
    (o_module solver (cs := [("b", oC (-1) 0 (some 1)), ("a", oC 1 (-1) (some 1))]) (by simp [dictKeys]) exc) ?_ rfl rfl rfl rfl rfl
    rfl (List.Perm.swap _ _ _) (List.Perm.refl _) 0 (o_shapes ?_ exc 0) dt [0] rfl
  · intro w hw
    have : w = 1 := by simpa [oObj, slackScales, oC] using hw
    rw [this]; exact one_pos
  · intro kc hkc; simp only [List.mem_cons, List.not_mem_nil, or_false] at hkc
    rcases hkc with rfl | rfl
    · exact ⟨1, -1, some 1, rfl⟩
    · exact ⟨-1, 0, some 1, rfl⟩

/-- C93: the bounded module with `x ≥ 0` answers `-1` to `-2` at `x = 1`; without the constraint and with no bounds the answer
is at most as far from `-2`. -/
example (solver : Solver ℝ) (hspec : SolverSpec solver) (exc : Bool) (dt : ℝ) :
    ∃ v, (explicitASIF solver toyF toyG (oObj [] exc) (.array 1) dt [-2]).1 = .ok v ∧ sqDist v [-2] ≤ 1 := by
  have h1 : Admissible toyF toyG (toyObj none exc) (1 : ℝ) [-1] := (toy_admissible none exc 1 [-1]).2 ⟨-1, rfl, by norm_num⟩
  have hm := toy_module solver none exc
  obtain ⟨w, hw⟩ := C24_returns hspec hm (toy_pos_none exc) rfl 1 (toy_shapes _ _ _) dt [-2] rfl ⟨_, _, admissible_iff_zeros.1 h1⟩
  obtain rfl := toy_result solver hspec exc dt w _ (Prod.ext hw rfl)
  obtain ⟨v, hv, hle, -⟩ := C93_more_constraints_partial hspec (o_module solver (cs := []) (by simp [dictKeys]) exc) hm rfl rfl
    (by simp [oObj]) (by simp [toyObj, toyC]) (fun w _ => o_within _ _ w) rfl (by intro kc hkc; simp [oObj] at hkc)
    (by intro kc hkc; simp [oObj] at hkc) 1 (o_shapes (by simp) exc 1) dt dt [-2] [-1] ⟨_, h1⟩ hw
  refine ⟨v, hv, hle.trans (le_of_eq ?_)⟩
  simp [sqDist, sqNorm, dot, vsub]
  norm_num

/-- C93: implicit modules, the one with the constraint against the one without. -/
example (solver : Solver ℝ) (hspec : SolverSpec solver) (exc : Bool) :
    ∃ v, (iE.call solver (iObj [] 2 exc) (.array [1]) 1 [-2]).1 = .ok v ∧ sqDist v [-2] ≤ 1 := by
  obtain ⟨s', h, -⟩ := i_result solver hspec exc
  have hsh := i_shapes (cs := []) (by simp) 2 exc 1
  have hadm := @i_admissible [("c", iC 0 {} true none)] 2 exc 1
  have hw : ((2 : Nat) : ℝ) = 2 := by norm_num
  simp only [hw] at hsh hadm
  have hex : ∃ w, AdmissibleI iE (iObj [("c", iC 0 {} true none)] 2 exc) [1] 1 w := by
    refine ⟨[0], (hadm [0]).2 ⟨0, rfl, by norm_num, by norm_num, ?_⟩⟩
    intro kc hkc _ k _
    simp only [List.mem_singleton] at hkc
    subst hkc
    refine (i_point _ 2 exc 1 1 0 0 {} true none k).2 ?_
    positivity
  obtain ⟨v, hv, hle, -⟩ := C93_implicit_more_constraints hspec (i_module solver (cs := []) (by simp [dictKeys]) 2 exc)
    (i_module solver (cs := [("c", iC 0 {} true none)]) (by simp [dictKeys]) 2 exc) rfl rfl rfl rfl rfl rfl rfl rfl
    (by intro kc hkc; simp [iObj] at hkc) (by intro kc hkc; simp [iObj] at hkc) [1] 1 hsh (by intro kc hkc; simp [iObj] at hkc)
    [-2] [-1] hex (congrArg Prod.fst h)
  refine ⟨v, hv, hle.trans (le_of_eq ?_)⟩
  norm_num [sqDist, sqNorm, dot, vsub]

/-- The switching module without its constraint. -/
def toyFree : SimplexObj Int Int Int Unit :=
  { toySimplex (-9) 9 with constraints := [], params := [], constraintEnabled := [] }

/-- C93: at `0` the control `4` is accepted with the constraint `x ≥ 3`, hence also without constraints. -/
example : ∃ s', explicitSimplex toyPred toyFree (.array 0) 1 [4] = (.ok [4], s') ∧ s'.intervening = false := by
  refine ⟨_, rfl, ?_⟩
  exact (C93_simplex toyPred toyFree (toySimplex (-9) 9) _ _
    ⟨by simp [dictKeys, toyFree], by simp [dictKeys, toyFree], by simp [dictKeys, toyFree]⟩
    (wf_toySimplex _ _) rfl rfl (by simp [Latched, toyFree, toySimplex, Base.init]) (by simp [Latched, toySimplex, Base.init])
    (by intro kc hkc; simp [toyFree] at hkc) 0 1 [4] [4] [4] rfl rfl rfl).1

/-- The module with a stateful backup law without its constraint. -/
def toyImplicitFree : SimplexObj Rat Rat Rat Nat :=
  { toyImplicit with constraints := [], params := [], constraintEnabled := [] }

/-- C93: what the implicit switching module accepts is accepted without the constraint. -/
example (pred : Rat → Rat → List Rat → Rat) (x : Rat) (u c d : List Rat) (s' t' : SimplexObj Rat Rat Rat Nat)
    (h1 : implicitSimplex pred toyImplicitFree (.array x) (1 / 2) u = (.ok c, s'))
    (h2 : implicitSimplex pred toyImplicit (.array x) (1 / 2) u = (.ok d, t')) (hi : t'.intervening = false) :
    s'.intervening = false :=
  (C93_implicit_simplex pred toyImplicitFree toyImplicit s' t'
    ⟨by simp [dictKeys, toyImplicitFree], by simp [dictKeys, toyImplicitFree], by simp [dictKeys, toyImplicitFree]⟩
    ⟨by simp [dictKeys, toyImplicit], by simp [dictKeys, toyImplicit], by simp [dictKeys, toyImplicit]⟩ rfl rfl
    (by simp [Latched, toyImplicitFree, toyImplicit, Base.init]) (by simp [Latched, toyImplicit, Base.init]) rfl rfl rfl rfl rfl
    (by intro kc hkc; simp [toyImplicitFree] at hkc) x (1 / 2) (by norm_num) (by norm_num [toyImplicitFree, toyImplicit]) u c d
    (fun _ _ => [-1]) (fun _ z => match z with | CState.array n => CState.array (n + 1) | z => z)
    (fun x z => by cases z <;> exact ⟨[-1], rfl, rfl⟩) h1 h2 hi).1

/-- C93: an implicit module with two constraints, listed both ways. -/
example (solver : Solver ℝ) (hspec : SolverSpec solver) (exc : Bool) (x u : ℝ) :
    (iE.call solver (iObj [("b", iC 1 {} true none), ("a", iC 0 {} true none)] 2 exc) (.array [x]) 1 [u]).1 =
    (iE.call solver (iObj [("a", iC 0 {} true none), ("b", iC 1 {} true none)] 2 exc) (.array [x]) 1 [u]).1 := by
  have hsh := i_shapes (cs := [("a", iC 0 {} true none), ("b", iC 1 {} true none)]) (by
    intro kc hkc; simp only [List.mem_cons, List.not_mem_nil, or_false] at hkc
    rcases hkc with rfl | rfl
    · exact ⟨0, {}, true, rfl, by decide⟩
    · exact ⟨1, {}, true, rfl, by decide⟩) 2 exc x
  have hw : ((2 : Nat) : ℝ) = 2 := by norm_num
  rw [hw] at hsh
  refine C93_implicit_order hspec (i_module solver (cs := [("a", iC 0 {} true none), ("b", iC 1 {} true none)]) (by simp [dictKeys]) 2 exc)
    (i_module solver (cs := [("b", iC 1 {} true none), ("a", iC 0 {} true none)]) (by simp [dictKeys]) 2 exc) rfl rfl rfl rfl rfl rfl
    rfl rfl rfl (List.Perm.swap _ _ _) (List.Perm.refl _) [x] 1 hsh (fun kc hkc => le_of_eq (C29_default_fits iE _ [x] 1 ?_ kc hkc)) [u] rfl
  simp [iObj, iC]

end RTA
