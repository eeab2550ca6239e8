import Verif.Props.ASIF
import Verif.Props.Order
import Verif.Props.Simplex
import Verif.Lemmas.DiscreteDesired
import Verif.Lemmas.Zoo.CombinedCall

/-!
C99: a filter accepts its own answers. Handing a returned control back to the same module, in the same state and with the
same step size, returns that control.
-/
set_option linter.unusedSectionVars false
namespace RTA
variable {K S P X A : Type}

/-! ### Explicit modules -/

section
variable [Field K] [LinearOrder K] [IsStrictOrderedRing K] [HasSqrt K] [LawfulSqrt K]

/-- **C99, explicit modules.** Without slack, a control returned by an enabled module in any history is returned again when it
is handed back in the same state, with any step size; this also when no control is admissible and calls return the clipped
desired control. -/
theorem C99_explicit_partial {solver : Solver K} (hspec : SolverSpec solver) {f : S → List K} {g : S → List (List K)}
    {s s' : ASIFObj K S P X} (hs : ExplicitModule solver f g s) (hns : slackScales s.constraints = []) (hen : s.enable = true)
    (x : S) (hsh : ShapesOK f g s x) (dt dt' : K) (u v : List K) (hu : u.length = s.ext.controlDim)
    (hcall : explicitASIF solver f g s (.array x) dt u = (.ok v, s')) :
    (explicitASIF solver f g s' (.array x) dt' v).1 = .ok v := by
  have hk := explicit_after_call solver f g (directWF_of_inv hs.inv.1) (.array x) dt u
  have hs' := hs.call (.array x) dt u
  rw [hcall] at hk hs'
  simp only at hk hs'
  have hsh' : ShapesOK f g s' x :=
    ⟨by rw [hk.constraints]; exact hsh.alpha, by rw [hk.constraints]; exact hsh.grad, hsh.input,
      by rw [hk.controlDim]; exact hsh.cols, by rw [hk.direct, hk.controlDim]; exact hsh.direct⟩
  have hadmS : ∀ w d, AdmissibleS f g s' x w d ↔ AdmissibleS f g s x w d := by
    intro w d
    constructor <;> intro h
    · exact ⟨by rw [← hk.controlDim]; exact h.len, by rw [← hk.constraints]; exact h.slen,
        by rw [← hk.low, ← hk.high]; exact h.bounds, by rw [← hk.constraints]; exact h.barrier,
        by rw [← hk.direct]; exact h.direct⟩
    · exact ⟨by rw [hk.controlDim]; exact h.len, by rw [hk.constraints]; exact h.slen,
        by rw [hk.low, hk.high]; exact h.bounds, by rw [hk.constraints]; exact h.barrier,
        by rw [hk.direct]; exact h.direct⟩
  have hns' : slackScales s'.constraints = [] := by rw [hk.constraints]; exact hns
  have hen' : s'.enable = true := hk.enable.trans hen
  have hpos : ScalesPos s.constraints := by intro w hw; rw [hns] at hw; simp at hw
  have hpos' : ScalesPos s'.constraints := by intro w hw; rw [hns'] at hw; simp at hw
  by_cases ha : ∃ w d, AdmissibleS f g s x w d
  · obtain ⟨-, d, l, hv, -⟩ := explicit_solved hspec hs.inv.1 hs.inv.2 hpos hen hcall ha
    have hv' := (hadmS v d).2 hv
    obtain ⟨rfl, hv0⟩ := (admissibleS_noslack hns').1 hv'
    obtain ⟨w, hw⟩ := C24_returns hspec hs' hpos' hen' x hsh' dt' v hv0.len ⟨v, [], hv'⟩
    obtain ⟨-, hmin⟩ := C24_closest_admissible hspec hs' hns' hen' x dt' v w (Prod.ext hw rfl) ⟨v, hv0⟩
    rw [hw]
    by_contra hne
    have hlt := hmin v hv0 (fun h => hne (by rw [h]))
    rw [sqDist_self] at hlt
    exact absurd hlt (not_lt.2 (sqDist_nonneg _ _))
  · have h1 := (explicit_total hspec hs.inv.1 hs.inv.2 hpos hsh dt hu hen).2 ha
    rw [hcall] at h1
    simp only at h1
    cases hexc : s.ext.solverException with
    | true => rw [hexc] at h1; simp at h1
    | false =>
      rw [hexc, if_neg (by simp)] at h1
      have hvl : v.length = s'.ext.controlDim := by
        obtain ⟨names, hact⟩ := hs.inv.1.act
        obtain ⟨fl, fh⟩ := boundFits_of_act hact
        obtain ⟨c, hc, hcl⟩ := C05_clip_total s.toBase u (by rw [hu]; exact fl) (by rw [hu]; exact fh)
        rw [← h1] at hc
        simp only [Except.ok.injEq] at hc
        rw [hc, hcl, hk.controlDim]; exact hu
      have ha' : ¬ ∃ w d, AdmissibleS f g s' x w d := fun ⟨w, d, h⟩ => ha ⟨w, d, (hadmS w d).1 h⟩
      rw [(explicit_total hspec hs'.inv.1 hs'.inv.2 hpos' hsh' dt' hvl hen').2 ha', hk.exc, hexc, if_neg (by simp),
        clipControl_congr s.toBase hk.low hk.high]
      exact C05_clip_idempotent s.toBase u v h1.symm

/-- **C99, slack.** With slack variables, handing back a returned control need not return it, but it never makes things worse:
the slack values that go with the second answer cost no more than those of the first, and strictly less when the second answer
differs from the first. -/
theorem C99_slack_descends_partial {solver : Solver K} (hspec : SolverSpec solver) {f : S → List K} {g : S → List (List K)}
    {s s' s'' : ASIFObj K S P X} (hs : ExplicitModule solver f g s) (hpos : ScalesPos s.constraints) (hen : s.enable = true)
    (x : S) (dt dt' : K) (u v w : List K) (hcall : explicitASIF solver f g s (.array x) dt u = (.ok v, s'))
    (hcall' : explicitASIF solver f g s' (.array x) dt' v = (.ok w, s'')) (hadm : ∃ w d, AdmissibleS f g s x w d) :
    ∃ d e, AdmissibleS f g s x v d ∧ AdmissibleS f g s x w e ∧
      sqDist w v + dot ((slackScales s.constraints).map HasSqrt.sqrt) (List.zipWith (· * ·) e e) ≤
        dot ((slackScales s.constraints).map HasSqrt.sqrt) (List.zipWith (· * ·) d d) := by
  have hk := explicit_after_call solver f g (directWF_of_inv hs.inv.1) (.array x) dt u
  have hs' := hs.call (.array x) dt u
  rw [hcall] at hk hs'
  simp only at hk hs'
  have hadmS : ∀ w d, AdmissibleS f g s' x w d ↔ AdmissibleS f g s x w d := by
    intro w d
    constructor <;> intro h
    · exact ⟨by rw [← hk.controlDim]; exact h.len, by rw [← hk.constraints]; exact h.slen,
        by rw [← hk.low, ← hk.high]; exact h.bounds, by rw [← hk.constraints]; exact h.barrier,
        by rw [← hk.direct]; exact h.direct⟩
    · exact ⟨by rw [hk.controlDim]; exact h.len, by rw [hk.constraints]; exact h.slen,
        by rw [hk.low, hk.high]; exact h.bounds, by rw [hk.constraints]; exact h.barrier,
        by rw [hk.direct]; exact h.direct⟩
  obtain ⟨d, hd, -⟩ := C26_slack_objective_partial hspec hs hpos hen x dt u v hcall hadm
  have hd' := (hadmS v d).2 hd
  obtain ⟨e, he, hmin⟩ := C26_slack_objective_partial hspec hs' (by rw [hk.constraints]; exact hpos) (hk.enable.trans hen) x dt' v w
    hcall' ⟨v, d, hd'⟩
  rw [hk.constraints] at hmin
  refine ⟨d, e, hd, (hadmS w e).1 he, ?_⟩
  by_cases h : w ++ e = v ++ d
  · have hl : w.length = v.length := he.len.trans hd'.len.symm
    obtain ⟨rfl, rfl⟩ := List.append_inj h hl
    rw [sqDist_self, zero_add]
  · have := hmin v d hd' h
    unfold slackCost at this
    rw [sqDist_self, zero_add] at this
    exact this.le

end

/-- The toy module at `1`: the request `-2` is answered by `-1`, and the request `-1` by `-1` again. -/
example (solver : Solver ℝ) (hspec : SolverSpec solver) (dt : ℝ) : ∃ s',
    explicitASIF solver toyF toyG (toyObj none true) (.array 1) dt [-2] = (.ok [-1], s') ∧
    (explicitASIF solver toyF toyG s' (.array 1) dt [-1]).1 = .ok [-1] := by
  have h1 : Admissible toyF toyG (toyObj none true) (1 : ℝ) [-1] := (toy_admissible none true 1 [-1]).2 ⟨-1, rfl, by norm_num⟩
  obtain ⟨v, hv⟩ := C24_returns hspec (toy_module solver none true) (toy_pos_none true) rfl 1 (toy_shapes none true 1) dt
    [-2] rfl ⟨_, _, admissible_iff_zeros.1 h1⟩
  obtain rfl := toy_result solver hspec true dt v _ (Prod.ext hv rfl)
  exact ⟨_, Prod.ext hv rfl, C99_explicit_partial hspec (toy_module solver none true) (by simp [toyObj, slackScales, toyC]) rfl 1
    (toy_shapes none true 1) dt dt [-2] [-1] rfl (Prod.ext hv rfl)⟩

/-- A module like `toyObj (some 4) false` at `0` answers a request `r` in `[-2, 0]` by `r / 3`. -/
theorem toy_slack_third {solver : Solver ℝ} (hspec : SolverSpec solver) {s : ASIFObj ℝ ℝ Unit Unit}
    (hs : ExplicitModule solver toyF toyG s) (hk : SameAS Eq (toyObj (some 4) false) s) (dt r : ℝ) (h1 : -2 ≤ r) (h2 : r ≤ 0) :
    (explicitASIF solver toyF toyG s (.array 0) dt [r]).1 = .ok [r / 3] := by
  have hlo : s.controlBoundsLow = (toyObj (some 4) false).controlBoundsLow := hk.low
  have hhi : s.controlBoundsHigh = (toyObj (some 4) false).controlBoundsHigh := hk.high
  have hcs : s.constraints = (toyObj (some 4) false).constraints := hk.constraints
  have hdim : s.ext.controlDim = 1 := hk.controlDim
  have hdir : s.ext.direct = [] := hk.direct
  have adm : ∀ u d : ℝ, AdmissibleS toyF toyG s (0 : ℝ) [u] [d] ↔ (-2 ≤ u ∧ u ≤ 2) ∧ d ≤ u := by
    intro u d
    constructor
    · intro h
      refine ⟨(toy_within (some 4) false u).1 (by have := h.bounds; rwa [hlo, hhi] at this), ?_⟩
      have := (toy_barrier (some 4) 0 u d).1 (h.barrier (toyC (some 4), d) (by rw [hcs]; simp [toyObj, assignSlack, toyC]) rfl)
      simpa using this
    · rintro ⟨h1, h2⟩
      refine ⟨by rw [hdim]; rfl, by rw [hcs]; simp [toyObj, slackScales, toyC], ?_, ?_, by rw [hdir]; simp⟩
      · rw [hlo, hhi]; exact (toy_within _ _ u).2 h1
      · intro cd hcd _
        rw [hcs] at hcd
        simp only [toyObj, assignSlack, toyC, Option.isSome_some, if_true, List.headD_cons, List.mem_singleton] at hcd
        subst hcd
        exact (toy_barrier (some 4) 0 u d).2 (by simpa using h2)
  have cost : ∀ p u d : ℝ, slackCost [p] [r] [u] [d] = (u - r) * (u - r) + p * (d * d) := by
    intro p u d
    simp [slackCost, sqDist, sqNorm, vsub]
  have hscale : slackScales s.constraints = [4] := by rw [hcs]; simp [toyObj, slackScales, toyC]
  have hsq : (HasSqrt.sqrt (4 : ℝ)) = 2 := by
    have h1 := LawfulSqrt.mul_self (4 : ℝ) (by norm_num)
    have h2 := LawfulSqrt.nonneg (4 : ℝ) (by norm_num)
    nlinarith
  have h3 : AdmissibleS toyF toyG s (0 : ℝ) [r / 3] [r / 3] := (adm _ _).2 ⟨⟨by linarith, by linarith⟩, le_refl _⟩
  have hpos : ScalesPos s.constraints := by rw [hcs]; exact toy_pos 4 (by norm_num) false
  have hen : s.enable = true := hk.enable
  have hsh : ShapesOK toyF toyG s 0 := by
    have := toy_shapes (some 4) false 0
    exact ⟨by rw [hcs]; exact this.alpha, by rw [hcs]; exact this.grad, this.input, by rw [hdim]; exact this.cols, by rw [hdir]; simp⟩
  obtain ⟨v, hv⟩ := C24_returns hspec hs hpos hen 0 hsh dt [r] (by rw [hdim]; rfl) ⟨_, _, h3⟩
  obtain ⟨d, hd, hmin⟩ := C26_slack_objective_partial hspec hs hpos hen 0 dt [r] v (Prod.ext hv rfl) ⟨_, _, h3⟩
  rw [hscale] at hmin
  simp only [List.map_cons, List.map_nil, hsq] at hmin
  have hvl : v.length = 1 := hd.len.trans hdim
  have hdl : d.length = 1 := hd.slen.trans (by rw [hscale]; rfl)
  obtain ⟨v, rfl⟩ := List.length_eq_one_iff.1 hvl
  obtain ⟨d, rfl⟩ := List.length_eq_one_iff.1 hdl
  rw [hv]
  have hv3 : v = r / 3 := by
    by_contra hne
    have := hmin _ _ h3 (by simp [hne])
    rw [cost, cost] at this
    have hvd := ((adm v d).1 hd).2
    rcases le_or_gt 0 v with h0 | h0
    · nlinarith [mul_self_nonneg d, mul_self_nonneg v, mul_nonneg h0 (neg_nonneg.2 h2)]
    · have : v * v ≤ d * d := by nlinarith
      nlinarith [mul_self_nonneg (3 * v - r)]
  rw [hv3]

/-- **C99 is violated by slack**: for every correct solver the module with a slack variable answers the request `-1` at `0` by
`-1/3`, and when `-1/3` is handed back, by `-1/9`. -/
theorem C99_refuted_slack (solver : Solver ℝ) (hspec : SolverSpec solver) (dt : ℝ) :
    ∃ s', explicitASIF solver toyF toyG (toyObj (some 4) false) (.array 0) dt [-1] = (.ok [-1 / 3], s') ∧
      (explicitASIF solver toyF toyG s' (.array 0) dt [-1 / 3]).1 = .ok [-1 / 9] := by
  have hm := toy_module solver (some 4) false
  have hk := explicit_after_call solver toyF toyG (directWF_of_inv hm.inv.1) (.array 0) dt [-1]
  have hm' := hm.call (.array 0) dt [-1]
  have h0 : SameAS Eq (toyObj (some 4) false) (toyObj (some 4) false) := by
    obtain ⟨h1, h2⟩ := hm.inv
    have := directWF_of_inv h1
    exact ⟨rfl, rfl, rfl, rfl, hk.wfs, hk.wfs, rfl, rfl, rfl, rfl, rfl, rfl, rfl, hk.dn, hk.dps, hk.des, hk.dps, hk.des, rfl⟩
  have e1 := toy_slack_third hspec hm h0 dt (-1) (by norm_num) (by norm_num)
  have e2 := toy_slack_third hspec hm' hk dt (-1 / 3) (by norm_num) (by norm_num)
  refine ⟨_, Prod.ext e1 rfl, ?_⟩
  rw [e2]
  norm_num

/-- The first answer of `C99_refuted_slack` meets the hypotheses of `C99_slack_descends_partial`. -/
example (solver : Solver ℝ) (hspec : SolverSpec solver) (dt : ℝ) :
    ∃ d e, AdmissibleS toyF toyG (toyObj (some 4) false) (0 : ℝ) [-1 / 3] d ∧
      AdmissibleS toyF toyG (toyObj (some 4) false) (0 : ℝ) [-1 / 9] e ∧
      sqDist [-1 / 9] [-1 / 3] + dot ((slackScales (toyObj (some 4) false).constraints).map HasSqrt.sqrt) (List.zipWith (· * ·) e e) ≤
        dot ((slackScales (toyObj (some 4) false).constraints).map HasSqrt.sqrt) (List.zipWith (· * ·) d d) := by
  obtain ⟨s', h1, h2⟩ := C99_refuted_slack solver hspec dt
  have hadm : ∃ w d, AdmissibleS toyF toyG (toyObj (some 4) false) (0 : ℝ) w d :=
    ⟨[0], [0], rfl, by simp [toyObj, slackScales, toyC], (toy_within _ _ 0).2 (by norm_num), by
      intro cd hcd _
      simp only [toyObj, assignSlack, toyC, Option.isSome_some, if_true, List.headD_cons, List.mem_singleton] at hcd
      subst hcd
      exact (toy_barrier (some 4) 0 0 0).2 (by norm_num), by simp [toyObj]⟩
  exact C99_slack_descends_partial hspec (toy_module solver (some 4) false) (toy_pos 4 (by norm_num) false) rfl 0 dt dt [-1] [-1 / 3]
    [-1 / 9] h1 (Prod.ext h2 rfl) hadm

/-! ### Implicit and discrete modules -/

section
variable [Field K] [LinearOrder K] [IsStrictOrderedRing K] [HasSqrt K] [LawfulSqrt K] [FloorRing K]

/-- **C99, implicit modules.** The same for modules that look along a backup trajectory, with the same step size. -/
theorem C99_implicit {solver : Solver K} (hspec : SolverSpec solver) {E : ImplicitEnv K} {s s' : ImplicitObj K P A}
    (hs : ImplicitModule solver E s) (hen : s.enable = true) (x : List K) (dt : K) (hsh : ShapesI E s x dt)
    (hfit : ∀ kc ∈ s.constraints, (pointsOf E s x dt kc.2).length ≤ numPoints s dt) (u v : List K)
    (hu : u.length = s.ext.controlDim) (hcall : E.call solver s (.array x) dt u = (.ok v, s')) :
    (E.call solver s' (.array x) dt v).1 = .ok v := by
  have hk : SameAS (RelI (actIdx s)) s s' := by
    have := implicit_after_call (solver := solver) (E := E) hs.inv.inv hs.inv.names (.array x) dt u (Or.inl (by
      rintro y hy hen
      obtain ⟨nm, ex, rows, drows, w0, cz, hgen, -⟩ := asif_ok (genFrame_implicit E) hen hcall
      simp only [InputState.array.injEq] at hy
      subst hy
      exact ⟨rows, by rw [hgen]⟩))
    rw [hcall] at this
    exact this
  have hs' : ImplicitModule solver E s' := by
    obtain ⟨high, low, all, use, eps, n, exc, direct, w, gen, z, c, s0, ops, ha, hd, hc, hs0, rfl⟩ := hs
    refine ⟨high, low, all, use, eps, n, exc, direct, w, gen, z, c, s0, ops ++ [.call (.array x) dt u], ha, hd, hc, hs0, ?_⟩
    have : ∀ (ops' : List (AOp K (List K) P)) (t : ImplicitObj K P A) op, runI solver E t (ops' ++ [op]) =
        (stepI solver E (runI solver E t ops') op).2 := by
      intro ops'
      induction ops' with
      | nil => intro t op; rfl
      | cons o ops' ih => intro t op; exact ih _ op
    rw [this]
    exact (congrArg Prod.snd hcall).symm
  obtain ⟨-, sv, hex⟩ := hk.rel
  simp only at hex
  have hp : SamePath s s' := ⟨hk.low, hk.high, by rw [hex], by rw [hex]⟩
  have hwin : s'.ext.extra.backupWindow = s.ext.extra.backupWindow := by rw [hex]
  have hnp : numPoints s' dt = numPoints s dt := by unfold numPoints; rw [hwin]
  have hpts : ∀ c, pointsOf E s' x dt c = pointsOf E s x dt c := by
    intro c; unfold pointsOf; rw [hnp, pathValue_same hp]
  have hok : ∀ c w k, PointOK E s' x dt c w k ↔ PointOK E s x dt c w k := by
    intro c w k; unfold PointOK; rw [pointValue_same hp]
  have hadm : ∀ w, AdmissibleI E s' x dt w ↔ AdmissibleI E s x dt w := by
    intro w
    constructor <;> intro h
    · exact ⟨by rw [← hk.controlDim]; exact h.len, by rw [← hk.low, ← hk.high]; exact h.bounds,
        fun kc hkc he k hkp => (hok _ _ _).1 (h.barrier kc (by rw [hk.constraints]; exact hkc) he k (by rw [hpts]; exact hkp)),
        by rw [← hk.direct]; exact h.direct⟩
    · exact ⟨by rw [hk.controlDim]; exact h.len, by rw [hk.low, hk.high]; exact h.bounds,
        fun kc hkc he k hkp => (hok _ _ _).2 (h.barrier kc (by rw [← hk.constraints]; exact hkc) he k (by rw [← hpts]; exact hkp)),
        by rw [hk.direct]; exact h.direct⟩
  have hclf : ∀ z y, closedLoopField E s' dt z y = closedLoopField E s dt z y := by
    intro z y; unfold closedLoopField; rw [hp.gen]
  have hsh' : ShapesI E s' x dt := by
    refine ⟨hsh.step, by rw [hwin]; exact hsh.window, by rw [hk.constraints]; exact hsh.alpha,
      by rw [hk.constraints]; exact hsh.noSlack, by rw [hk.constraints]; exact hsh.skip, hsh.f0, hsh.g0,
      by rw [hk.controlDim]; exact hsh.g0cols, by rw [hp.state]; exact hsh.ctrl, ?_, by rw [hk.direct, hk.controlDim]; exact hsh.direct⟩
    intro k hk'
    obtain ⟨y, z, h1, h2, h3⟩ := hsh.path k (by rw [← hnp]; exact hk')
    refine ⟨y, z, by rw [backupPath_same hp]; exact h1, by rw [hk.constraints]; exact h2, fun h0 => ?_⟩
    have hfun : closedLoopField E s' dt z = closedLoopField E s dt z := funext (hclf z)
    rw [hp.gen, hfun]
    exact h3 h0
  have hfit' : ∀ kc ∈ s'.constraints, (pointsOf E s' x dt kc.2).length ≤ numPoints s' dt := by
    rw [hk.constraints, hnp]
    intro kc hkc
    rw [hpts]; exact hfit kc hkc
  have hen' : s'.enable = true := hk.enable.trans hen
  by_cases ha : ∃ w, AdmissibleI E s x dt w
  · obtain ⟨hv, -⟩ := C36_closest_admissible hspec hs hen x dt u v hcall ha
    have hv' := (hadm v).2 hv
    obtain ⟨w, hw⟩ := (C36_returns hspec hs' hen' x dt hsh' hfit' v hv'.len).1 ⟨v, hv'⟩
    obtain ⟨-, hmin, -⟩ := C36_closest_admissible hspec hs' hen' x dt v w (Prod.ext hw rfl) ⟨v, hv'⟩
    rw [hw]
    by_contra hne
    have hlt := hmin v hv' (fun h => hne (by rw [h]))
    rw [sqDist_self] at hlt
    exact absurd hlt (not_lt.2 (sqDist_nonneg _ _))
  · have h1 := (C36_returns hspec hs hen x dt hsh hfit u hu).2 ha
    rw [hcall] at h1
    simp only at h1
    cases hexc : s.ext.solverException with
    | true => rw [hexc] at h1; simp at h1
    | false =>
      rw [hexc, if_neg (by simp)] at h1
      have hvl : v.length = s'.ext.controlDim := by
        obtain ⟨names, hact⟩ := hs.inv.inv.act
        obtain ⟨fl, fh⟩ := boundFits_of_act hact
        obtain ⟨c, hc, hcl⟩ := C05_clip_total s.toBase u (by rw [hu]; exact fl) (by rw [hu]; exact fh)
        rw [← h1] at hc
        simp only [Except.ok.injEq] at hc
        rw [hc, hcl, hk.controlDim]; exact hu
      have ha' : ¬ ∃ w, AdmissibleI E s' x dt w := fun ⟨w, h⟩ => ha ⟨w, (hadm w).1 h⟩
      rw [(C36_returns hspec hs' hen' x dt hsh' hfit' v hvl).2 ha', hk.exc, hexc, if_neg (by simp),
        clipControl_congr s.toBase hk.low hk.high]
      exact C05_clip_idempotent s.toBase u v h1.symm

end

/-- The module of `i_result` returns its answer `-1` again. -/
example (solver : Solver ℝ) (hspec : SolverSpec solver) : ∃ s',
    iE.call solver (iObj [("c", iC 0 {} true none)] 2 true) (.array [1]) 1 [-2] = (.ok [-1], s') ∧
    (iE.call solver s' (.array [1]) 1 [-1]).1 = .ok [-1] := by
  obtain ⟨s', h, -⟩ := i_result solver hspec true
  have hmod := i_module solver (cs := [("c", iC 0 {} true none)]) (by simp [dictKeys]) 2 true
  have hw : ((2 : Nat) : ℝ) = 2 := by norm_num
  have hnp := i_numPoints [("c", iC 0 {} true none)] 2 true
  have hsh := i_shapes (cs := [("c", iC 0 {} true none)]) (by
    intro kc hkc; simp only [List.mem_singleton] at hkc; subst hkc; exact ⟨0, {}, true, rfl, by decide⟩) 2 true 1
  simp only [hw] at hnp hsh
  refine ⟨s', h, C99_implicit hspec hmod rfl [1] 1 hsh ?_ [-2] [-1] rfl h⟩
  intro kc hkc
  simp only [iObj, List.mem_singleton] at hkc
  subst hkc
  unfold pointsOf
  rw [hnp]
  simp [C37_default_every_point, iC]

section
variable [Field K] [LinearOrder K] [IsStrictOrderedRing K] [HasSqrt K] [LawfulSqrt K]

/-- **C99, discrete modules.** The same for discrete modules without slack that raise when the solver fails, for a solver that
finds the global minimum whenever there is one. -/
theorem C99_discrete {solver : NLPSolver K} (hsound : NLPSound solver) (hglob : NLPGlobal solver) (hcomp : NLPComplete solver)
    {next : S → K → List K → S} {s s' : DiscObj K S P} {x : S} {dt : K} {u v : List K} (hinv : DiscInv s)
    (hns : slackScales s.constraints = []) (hen : s.enable = true) (hdt : 0 < dt) (hexc : s.ext.solverException = true)
    (h : discreteASIF solver next s (.array x) dt u = (.ok v, s')) :
    (discreteASIF solver next s' (.array x) dt v).1 = .ok v := by
  obtain ⟨d, lo, hi, fs, had, hlo, hhi, -⟩ := disc_solved hsound hinv hen hdt h hexc
  obtain ⟨hinv', hen', hcs, hext, hl, hh⟩ := disc_keeps hinv hen h
  obtain rfl : d = [] := List.length_eq_zero_iff.1 (had.slen.trans (by rw [hns]; rfl))
  refine disc_desired hsound hglob hcomp hinv' (by rw [hcs]; exact hns) hen' (by rw [hl]; exact hlo) (by rw [hh]; exact hhi) ?_ hdt
    ⟨by rw [hext]; exact had.len, by rw [hcs]; exact had.slen, by rw [hl, hh]; exact had.bounds, by rw [hcs]; exact had.barrier⟩
  rw [hcs]
  intro kc hkc he
  have hnone : kc.2.slackPriorityScale = none := by
    rcases hsl : kc.2.slackPriorityScale with _ | w
    · rfl
    · have : w ∈ slackScales s.constraints := by
        unfold slackScales
        exact List.mem_filterMap.2 ⟨kc, hkc, hsl⟩
      rw [hns] at this
      simp at this
  obtain ⟨al, hal, -⟩ := had.barrier (kc.2, 0) (mem_assignSlack_none (k := kc.1) hkc hnone []) he
  rw [hal]; rfl

end

/-- The module of `step_call` returns its answer `-1` again. -/
example : (discreteASIF refNLP stepNext (discreteASIF refNLP stepNext (stepObj true) (.array 1) (1 / 2) [-2]).2 (.array 1) (1 / 2)
    [-1]).1 = .ok [-1] :=
  C99_discrete refNLP_sound refNLP_global refNLP_complete (step_inv true) (by simp [slackScales, stepObj, stepC]) rfl (by norm_num) rfl
    (Prod.ext step_call rfl)

/-! ### Simplex modules -/

section
variable [AddCommMonoid K] [LinearOrder K]

/-- Two calls of a simplex module in a row, the second on the answer of the first. -/
theorem simplex_twice {mon : SimplexObj K S P A → S → K → List K → Except PyErr Bool × SimplexObj K S P A}
    (hm : MonFrame mon) {s s' : SimplexObj K S P A} {x : S} {dt : K} {u c ub cb : List K} (hen : s.enable = true)
    (hgen : s.ext.ctrl.gen x dt s.ext.ctrl.state = some (ub, s.ext.ctrl.state)) (hcb : s.toBase.clipControl ub = .ok cb)
    (hcu : s.toBase.clipControl u = .ok u)
    (h : filterControlCB getStateDefault (simplexFilter mon) s (.array x) dt u = (.ok c, s'))
    (hmon : ¬ Latched s' → ∃ b sm, mon (unlatch (prep s' x c)) x dt c = (.ok b, sm))
    (hsame : ¬ Latched s → s'.intervening = false → c = u → ∀ b sm, mon (unlatch (prep s' x u)) x dt u = (.ok b, sm) → b = false) :
    (filterControlCB getStateDefault (simplexFilter mon) s' (.array x) dt c).1 = .ok c := by
  obtain ⟨⟨e1, e2, e3, e4⟩, hcase⟩ := simplex_ok hm hen h
  have hclip : ∀ w, s'.toBase.clipControl w = s.toBase.clipControl w := by
    intro w; unfold Base.clipControl; rw [e3, e4]
  have hback : ∀ c z, IsBackup s x dt c z → c = cb ∧ z = s.ext.ctrl.state := by
    rintro c z ⟨ub', g1, g2⟩
    rw [hgen] at g1
    simp only [Option.some.injEq, Prod.mk.injEq] at g1
    obtain ⟨rfl, rfl⟩ := g1
    rw [hcb] at g2
    exact ⟨by simpa using g2.symm, rfl⟩
  have hctrl : s'.ext.ctrl.gen = s.ext.ctrl.gen ∧ s'.ext.ctrl.state = s.ext.ctrl.state := by
    rcases hcase with ⟨-, -, z, hz, hx⟩ | ⟨-, b, sm, sv, -, -, ⟨-, z, hz, hx⟩ | ⟨-, -, hx⟩⟩ <;> rw [hx]
    · exact ⟨rfl, (hback c z hz).2⟩
    · exact ⟨rfl, (hback c z hz).2⟩
    · exact ⟨rfl, rfl⟩
  have hgen' : s'.ext.ctrl.gen x dt s'.ext.ctrl.state = some (ub, s.ext.ctrl.state) := by rw [hctrl.1, hctrl.2]; exact hgen
  have hcb' : s'.toBase.clipControl ub = .ok cb := by rw [hclip]; exact hcb
  have hcc : s.toBase.clipControl c = .ok c := by
    rcases hcase with ⟨-, -, z, hz, hx⟩ | ⟨-, b, sm, sv, -, -, ⟨-, z, hz, hx⟩ | ⟨-, hc, hx⟩⟩
    · rw [(hback c z hz).1]; exact C05_clip_idempotent s.toBase ub cb hcb
    · rw [(hback c z hz).1]; exact C05_clip_idempotent s.toBase ub cb hcb
    · exact C05_clip_idempotent s.toBase u c hc
  obtain ⟨c', s'', h2⟩ := simplex_total hm e1 hmon hgen' hcb' (by rw [hclip]; exact hcc)
  obtain ⟨-, hcase2⟩ := simplex_ok hm e1 h2
  rw [h2]
  have hback2 : ∀ c z, IsBackup s' x dt c z → c = cb := by
    rintro c z ⟨ub', g1, g2⟩
    rw [hgen'] at g1
    simp only [Option.some.injEq, Prod.mk.injEq] at g1
    obtain ⟨rfl, rfl⟩ := g1
    rw [hcb'] at g2
    simpa using g2.symm
  have hpass : s'.toBase.clipControl c = .ok c' → c' = c := by
    intro hp
    rw [hclip, hcc] at hp
    simpa using hp.symm
  have goal : c' = c := by
    rcases hcase with ⟨-, -, z, hz, -⟩ | ⟨hL, b, sm, sv, -, hi, ⟨-, z, hz, -⟩ | ⟨hb, hc, -⟩⟩
    · have := (hback c z hz).1
      rcases hcase2 with ⟨-, -, z2, hz2, -⟩ | ⟨-, b2, sm2, sv2, -, -, ⟨-, z2, hz2, -⟩ | ⟨-, hc2, -⟩⟩
      · rw [hback2 c' z2 hz2, this]
      · rw [hback2 c' z2 hz2, this]
      · exact hpass hc2
    · have := (hback c z hz).1
      rcases hcase2 with ⟨-, -, z2, hz2, -⟩ | ⟨-, b2, sm2, sv2, -, -, ⟨-, z2, hz2, -⟩ | ⟨-, hc2, -⟩⟩
      · rw [hback2 c' z2 hz2, this]
      · rw [hback2 c' z2 hz2, this]
      · exact hpass hc2
    · rw [hb] at hi
      have hcu' : c = u := by rw [hcu] at hc; simpa using hc.symm
      rcases hcase2 with ⟨hL2, -⟩ | ⟨-, b2, sm2, sv2, hm2, -, ⟨hb2, -⟩ | ⟨-, hc2, -⟩⟩
      · rw [Latched, hi] at hL2; simp at hL2
      · subst hcu'
        exact absurd (hsame hL hi rfl b2 sm2 hm2) (by rw [hb2]; simp)
      · exact hpass hc2
  rw [goal]

/-- A call keeps a simplex module well formed. -/
theorem simplex_keeps_wf {mon : SimplexObj K S P A → S → K → List K → Except PyErr Bool × SimplexObj K S P A} (hm : MonFrame mon)
    {s : SimplexObj K S P A} (hw : WF s) (x : S) (dt : K) (u : List K) :
    WF (filterControlCB getStateDefault (simplexFilter mon) s (.array x) dt u).2 :=
  (filterControlCB_frame frame_getStateDefault (frameFilter_simplex hm) s (.array x) dt u).2 hw

/-- **C99, explicit simplex.** Let the desired control be within the bounds and the backup control law leave the state of its
controller alone. Then the control an enabled module returns, latched or not, is returned again when it is handed back. -/
theorem C99_simplex_partial (pred : S → K → List K → S) (s s' : SimplexObj K S P A) (hwf : WF s) (hen : s.enable = true)
    (x : S) (dt : K) (u c ub cb : List K) (hgen : s.ext.ctrl.gen x dt s.ext.ctrl.state = some (ub, s.ext.ctrl.state))
    (hcb : s.toBase.clipControl ub = .ok cb) (hcu : s.toBase.clipControl u = .ok u)
    (h : explicitSimplex pred s (.array x) dt u = (.ok c, s')) :
    (explicitSimplex pred s' (.array x) dt c).1 = .ok c := by
  have hwf' : WF s' := by
    have := simplex_keeps_wf (monFrame_explicit pred) hwf x dt u
    change WF (explicitSimplex pred s (.array x) dt u).2 at this
    rw [h] at this
    exact this
  have hcs : s'.constraints = s.constraints := (simplex_ok (monFrame_explicit pred) hen h).1.2.1
  have hanswer : ∀ v, ∃ b, constraintViolation (unlatch (prep s' x v)) [pred x dt v] = .ok b ∧
      (b = true ↔ ¬ SafeAt s.constraints (pred x dt v)) := by
    intro v
    obtain ⟨b, hb, hiff⟩ := constraintViolation_fresh (cachesFresh_unlatch (cachesFresh_prep hwf' x v)) [pred x dt v]
    refine ⟨b, hb, ?_⟩
    rw [hiff, unlatch_constraints]
    have : (prep s' x v).constraints = s.constraints := hcs
    rw [this]
    simp
  refine simplex_twice (monFrame_explicit pred) hen hgen hcb hcu h (fun _ => ?_) (fun hL hi _ b sm hm => ?_)
  · obtain ⟨b, hb, -⟩ := hanswer c
    exact ⟨b, unlatch (prep s' x c), by simp only [explicitMonitor, hb]⟩
  · have hsafe := (C13_explicit_decision pred s s' hwf hen x dt u c hL h).1.1 hi
    obtain ⟨b', hb', hiff⟩ := hanswer u
    simp only [explicitMonitor, hb', Prod.mk.injEq, Except.ok.injEq] at hm
    rw [← hm.1]
    cases hbb : b' with
    | false => rfl
    | true => exact absurd hsafe (hiff.1 hbb)

end

section
variable [Field K] [LinearOrder K] [FloorRing K] [IsStrictOrderedRing K]

/-- **C99, implicit simplex.** The same for modules that look along the backup trajectory; the control law always answers and
never changes the state of its controller. -/
theorem C99_implicit_simplex_partial (pred : S → K → List K → S) (s s' : SimplexObj K S P A) (hwf : WF s) (hen : s.enable = true)
    (x : S) (dt : K) (hdt : 0 < dt) (hwin : 0 ≤ s.ext.backupWindow) (u c : List K) (claw : S → CState A → List K)
    (hlaw : ∀ x z, ∃ ub, s.ext.ctrl.gen x dt z = some (ub, z) ∧ s.toBase.clipControl ub = .ok (claw x z))
    (hcopy : ∀ a, s.ext.ctrl.state ≠ .unsupported a) (hcu : s.toBase.clipControl u = .ok u)
    (h : implicitSimplex pred s (.array x) dt u = (.ok c, s')) :
    (implicitSimplex pred s' (.array x) dt c).1 = .ok c := by
  have hwf' : WF s' := by
    have := simplex_keeps_wf (monFrame_implicit pred) hwf x dt u
    change WF (implicitSimplex pred s (.array x) dt u).2 at this
    rw [h] at this
    exact this
  obtain ⟨⟨e1, hcs, e3, e4⟩, hcase⟩ := simplex_ok (monFrame_implicit pred) hen h
  have hclip : ∀ w, s'.toBase.clipControl w = s.toBase.clipControl w := by
    intro w; unfold Base.clipControl; rw [e3, e4]
  have hext : s'.ext.ctrl.gen = s.ext.ctrl.gen ∧ s'.ext.ctrl.state = s.ext.ctrl.state ∧ s'.ext.backupWindow = s.ext.backupWindow := by
    have hz : ∀ z, IsBackup s x dt c z → z = s.ext.ctrl.state := by
      rintro z ⟨ub', g1, -⟩
      obtain ⟨ub, g3, -⟩ := hlaw x s.ext.ctrl.state
      rw [g3] at g1
      simp only [Option.some.injEq, Prod.mk.injEq] at g1
      exact g1.2.symm
    rcases hcase with ⟨-, -, z, hb, hx⟩ | ⟨-, b, sm, sv, -, -, ⟨-, z, hb, hx⟩ | ⟨-, -, hx⟩⟩ <;> rw [hx]
    · exact ⟨rfl, hz z hb, rfl⟩
    · exact ⟨rfl, hz z hb, rfl⟩
    · exact ⟨rfl, rfl, rfl⟩
  obtain ⟨hg, hst, hwin'⟩ := hext
  have hlaw' : ∀ x z, ∃ ub, s'.ext.ctrl.gen x dt z = some (ub, z) ∧ s'.toBase.clipControl ub = .ok (claw x z) := by
    intro y z
    rw [hg]
    obtain ⟨ub, k1, k2⟩ := hlaw y z
    exact ⟨ub, k1, by rw [hclip]; exact k2⟩
  obtain ⟨ub, k1, k2⟩ := hlaw x s.ext.ctrl.state
  have hmon : ∀ v, ∃ b sm, implicitMonitor pred (unlatch (prep s' x v)) x dt v = (.ok b, sm) := by
    intro v
    have hex : (unlatch (prep s' x v)).ext = { s'.ext with latchedElapsed := elapsedAfter s' } := unlatch_ext (prep s' x v)
    have hcl : ∀ w, (unlatch (prep s' x v)).toBase.clipControl w = s'.toBase.clipControl w := by
      intro w; rw [unlatch_toBase]; rfl
    obtain ⟨b', s1, hb', -⟩ := implicitMonitor_eq pred (s := unlatch (prep s' x v)) (dt := dt) (claw := claw) (next := fun _ z => z)
      (cachesFresh_unlatch (cachesFresh_prep hwf' x v)) hdt.ne'
      (fun y z => by
        obtain ⟨ub, h1, h2⟩ := hlaw' y z
        exact ⟨ub, by rw [hex]; exact h1, by rw [hcl]; exact h2⟩)
      (by
        rw [hex]
        simp only [hst]
        cases hz : s.ext.ctrl.state with
        | unsupported a => exact absurd hz (hcopy a)
        | _ => simp [CState.copy]) x v
    exact ⟨b', s1, hb'⟩
  refine simplex_twice (monFrame_implicit pred) hen k1 k2 hcu h (fun _ => hmon c) (fun hL hi hc b sm hm => ?_)
  have d1 := (C14_implicit_decision pred s s' hwf hen x dt hdt hwin u c claw (fun _ z => z) hlaw hL h).1.1 hi
  obtain ⟨c2, s2, h2⟩ := C14_implicit_returns pred s' hwf' e1 x dt hdt.ne' u u claw (fun _ z => z) hlaw' (by rw [hst]; exact hcopy)
    (by rw [hclip]; exact hcu)
  have hL' : ¬ Latched s' := by rw [Latched, hi]; simp
  have d2 := (C14_implicit_decision pred s' s2 hwf' e1 x dt hdt (by rw [hwin']; exact hwin) u c2 claw (fun _ z => z) hlaw' hL' h2).1.2
  rw [hwin', hcs, hst] at d2
  have hi2 := d2 d1
  obtain ⟨-, hcase2⟩ := simplex_ok (monFrame_implicit pred) e1 h2
  rcases hcase2 with ⟨hl, -⟩ | ⟨-, b2, sm2, sv2, hm2, hib, -⟩
  · exact absurd hl hL'
  · rw [hm] at hm2
    simp only [Prod.mk.injEq, Except.ok.injEq] at hm2
    rw [hm2.1, ← hib, hi2]

end

/-- At `0` the module replaces `2` by the backup control `0`, which it then accepts. -/
example : ∃ s', explicitSimplex toyPred (toySimplex (-9) 9) (.array 0) 1 [2] = (.ok [0], s') ∧
    (explicitSimplex toyPred s' (.array 0) 1 [0]).1 = .ok [0] :=
  ⟨_, rfl, C99_simplex_partial toyPred (toySimplex (-9) 9) _ (wf_toySimplex _ _) rfl 0 1 [2] [0] [0] [0] rfl rfl rfl rfl⟩

/-- A module with a constant backup control law and window 2: whatever it returns it returns again. -/
example (x u : Rat) : ∃ s' c,
    let t : SimplexObj Rat Rat Rat Nat := { toyImplicit with
      ext := { toyImplicit.ext with ctrl := { toyImplicit.ext.ctrl with gen := fun _ _ z => some ([-1], z) } } }
    let pred : Rat → Rat → List Rat → Rat := fun x dt u => x + dt * u.headD 0
    implicitSimplex pred t (.array x) 1 [u] = (.ok c, s') ∧ (implicitSimplex pred s' (.array x) 1 c).1 = .ok c := by
  have hwf : WF ({ toyImplicit with
      ext := { toyImplicit.ext with ctrl := { toyImplicit.ext.ctrl with gen := fun _ _ z => some ([-1], z) } } } :
      SimplexObj Rat Rat Rat Nat) := ⟨by simp [dictKeys, toyImplicit], by simp [dictKeys, toyImplicit], by simp [dictKeys, toyImplicit]⟩
  have hlaw : ∀ (x : Rat) (z : CState Nat), ∃ ub, (some (([-1] : List Rat), z)) = some (ub, z) ∧
      toyImplicit.toBase.clipControl ub = .ok ((fun _ _ => [-1] : Rat → CState Nat → List Rat) x z) := fun _ _ => ⟨_, rfl, rfl⟩
  obtain ⟨c, s', h⟩ := C14_implicit_returns (fun x dt u => x + dt * u.headD 0) _ hwf rfl x 1 one_ne_zero [u] [u] (fun _ _ => [-1])
    (fun _ z => z) hlaw (fun a h => by simp [toyImplicit] at h) rfl
  exact ⟨s', c, h, C99_implicit_simplex_partial _ _ s' hwf rfl x 1 one_pos (by simp [toyImplicit]) [u] c (fun _ _ => [-1]) hlaw
    (fun a h => by simp [toyImplicit] at h) rfl h⟩

/-- **C99 is violated outside the bounds**: with bounds ±1 the request 5 is predicted to be safe and answered by 1 (the clipped
request), which, when handed back, is predicted to be unsafe and answered by the backup control 0. -/
theorem C99_refuted_bounds : ∃ s', explicitSimplex toyPred (toySimplex (-1) 1) (.array 0) 1 [5] = (.ok [1], s') ∧
    (explicitSimplex toyPred s' (.array 0) 1 [1]).1 = .ok [0] := ⟨_, rfl, rfl⟩

/-- `toySimplex` with a backup controller that counts: its control is the number of times it was asked. -/
def countSimplex : SimplexObj Int Int Int Int :=
  let t := toySimplex (-9) 9
  { toBase := t.toBase, constraints := t.constraints, params := t.params, constraintEnabled := t.constraintEnabled
    constraintValues := [], isStaleConstraints := false
    ext := { latchTime := 0, latchedElapsed := 0, backupWindow := 0
             ctrl := { gen := fun _ _ z => match z with
                         | .array n => some ([n + 1], .array (n + 1))
                         | z => some ([0], z)
                       stateInitial := .array 0, stateSaved := .none, state := .array 0 } } }

/-- **C99 is violated by backup controllers with an internal state**: the request 2 is answered by the backup control 1, and 1,
when handed back, by the next backup control 2. -/
theorem C99_refuted_stateful : ∃ s', explicitSimplex toyPred countSimplex (.array 0) 1 [2] = (.ok [1], s') ∧
    (explicitSimplex toyPred s' (.array 0) 1 [1]).1 = .ok [2] := ⟨_, rfl, rfl⟩

end RTA
