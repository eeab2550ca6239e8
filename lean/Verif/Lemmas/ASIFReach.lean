import Verif.Spec.ASIFHistory
import Verif.Lemmas.ASIFHist

/-!
Every explicit module, however it was used, satisfies the invariants.
-/
set_option linter.unusedSectionVars false
namespace RTA
variable {K S P X : Type} [Add K] [Mul K] [Neg K] [Sub K] [Zero K] [One K] [OfNat K 10] [HasSqrt K] [LinearOrder K]

theorem slackScales_edit (h : String → P × Bool → P × Bool) (cs : Dict (Constraint K S P)) :
    slackScales (cs.map fun kc => (kc.1, { kc.2 with params := (h kc.1 (kc.2.params, kc.2.enabled)).1
                                                     enabled := (h kc.1 (kc.2.params, kc.2.enabled)).2 })) = slackScales cs := by
  unfold slackScales
  rw [List.filterMap_map]
  rfl

theorem explicit_after_call (solver : Solver K) (f : S → List K) (g : S → List (List K)) {s : ASIFObj K S P X}
    (h : DirectWF s) (i : InputState S) (dt : K) (u : List K) : SameAS Eq s (explicitASIF solver f g s i dt u).2 := by
  refine sameAS_after_call (fun _ => rfl) (genFrame_explicit f g) solver h i dt u ?_
  intro x _ _
  rw [explicitGen_same]
  rfl

theorem explicitNames_same {s t : ASIFObj K S P X} (h : SameAS Eq s t) (hn : ExplicitNames s) : ExplicitNames t := by
  obtain ⟨names, h1, h2⟩ := hn
  have hr := h.rel
  simp only [Prod.mk.injEq] at hr
  refine ⟨names, ?_, ?_⟩
  · rw [h.low, h.high, h.controlDim, h.slack, h.act]; exact h1
  · rw [← hr.1, h.constraints, h.direct]; exact h2

theorem inv_step (solver : Solver K) (f : S → List K) (g : S → List (List K)) {s : ASIFObj K S P X}
    (hi : ASIFInv s) (hn : ExplicitNames s) (op : AOp K S P) :
    ASIFInv (stepE solver f g s op).2 ∧ ExplicitNames (stepE solver f g s op).2 := by
  cases op with
  | call i dt u =>
    have h := explicit_after_call solver f g (directWF_of_inv hi) i dt u
    exact ⟨asifInv_same h hi, explicitNames_same h hn⟩
  | edit h =>
    have e : dictKeys (editConstraints h s).constraints = dictKeys s.constraints := by
      simp [editConstraints, dictKeys, List.map_map, Function.comp_def]
    have e2 : slackScales (editConstraints h s).constraints = slackScales s.constraints := slackScales_edit h _
    refine ⟨⟨wf_edit h hi.wf, hi.dnodup, hi.dparams, hi.denabled, ?_, ?_, hi.act⟩, ?_⟩
    · show _ = (slackScales (editConstraints h s).constraints).length
      rw [e2]; exact hi.slack
    · show _ = _ ++ slackWeights (editConstraints h s).constraints
      rw [slackWeights_eq, e2, ← slackWeights_eq]; exact hi.weight
    · obtain ⟨names, h1, h2⟩ := hn
      refine ⟨names, h1, ?_⟩
      show _ = _ ++ (dictKeys (editConstraints h s).constraints ++ _)
      rw [e]; exact h2
  | editDirect h =>
    have e : dictKeys (editDirect h s).ext.direct = dictKeys s.ext.direct := by
      simp [editDirect, CBObj.setExt, dictKeys, List.map_map, Function.comp_def]
    refine ⟨⟨⟨hi.wf.nodup, hi.wf.params, hi.wf.enabled⟩, ?_, ?_, ?_, hi.slack, hi.weight, hi.act⟩, ?_⟩
    · show (dictKeys (editDirect h s).ext.direct).Nodup
      rw [e]; exact hi.dnodup
    · show dictKeys s.ext.directParams = dictKeys (editDirect h s).ext.direct
      rw [e]; exact hi.dparams
    · show dictKeys s.ext.directEnabled = dictKeys (editDirect h s).ext.direct
      rw [e]; exact hi.denabled
    · obtain ⟨names, h1, h2⟩ := hn
      refine ⟨names, h1, ?_⟩
      show s.ext.constraintNames = _ ++ (_ ++ dictKeys (editDirect h s).ext.direct)
      rw [e]; exact h2
  | update i =>
    cases i with
    | notArray => exact ⟨hi, hn⟩
    | array x =>
      exact ⟨⟨⟨hi.wf.nodup, hi.wf.params, hi.wf.enabled⟩, hi.dnodup, hi.dparams, hi.denabled, hi.slack, hi.weight, hi.act⟩, hn⟩
  | setEnable b =>
    exact ⟨⟨⟨hi.wf.nodup, hi.wf.params, hi.wf.enabled⟩, hi.dnodup, hi.dparams, hi.denabled, hi.slack, hi.weight, hi.act⟩, hn⟩
  | reset =>
    exact ⟨⟨⟨hi.wf.nodup, hi.wf.params, hi.wf.enabled⟩, hi.dnodup, hi.dparams, hi.denabled, hi.slack, hi.weight, hi.act⟩, hn⟩

theorem inv_run (solver : Solver K) (f : S → List K) (g : S → List (List K)) (ops : List (AOp K S P)) {s : ASIFObj K S P X}
    (hi : ASIFInv s) (hn : ExplicitNames s) : ASIFInv (runE solver f g s ops) ∧ ExplicitNames (runE solver f g s ops) := by
  induction ops generalizing s with
  | nil => exact ⟨hi, hn⟩
  | cons op ops ih =>
    obtain ⟨h1, h2⟩ := inv_step solver f g hi hn op
    exact ih h1 h2

theorem ExplicitModule.inv {solver : Solver K} {f : S → List K} {g : S → List (List K)} {s : ASIFObj K S P X}
    (h : ExplicitModule solver f g s) : ASIFInv s ∧ ExplicitNames s := by
  obtain ⟨high, low, all, use, eps, n, exc, direct, extra, s0, ops, ha, hd, hs0, rfl⟩ := h
  obtain ⟨h1, h2⟩ := asifInv_init ha hd hs0
  exact inv_run solver f g ops h1 h2

/-- Operations keep agreement. -/
theorem same_step {solver : Solver K} {f : S → List K} {g : S → List (List K)} {s t : ASIFObj K S P X}
    (h : SameAS Eq s t) (op : AOp K S P) : (stepE solver f g t op).1 = (stepE solver f g s op).1 ∧
    SameAS Eq (stepE solver f g s op).2 (stepE solver f g t op).2 ∧
    (t.toBase = s.toBase → (stepE solver f g t op).2.toBase = (stepE solver f g s op).2.toBase) := by
  have ek : ∀ (hh : String → P × Bool → P × Bool) (r : ASIFObj K S P X), dictKeys (editDirect hh r).ext.direct = dictKeys r.ext.direct :=
    fun hh r => by simp [editDirect, CBObj.setExt, dictKeys, List.map_map, Function.comp_def]
  cases op with
  | call i dt u =>
    obtain ⟨h1, h2, -, h4⟩ := sameAS_call (genCong_explicit f g) (genFrame_explicit f g) solver h i dt u
    refine ⟨?_, h2, h4⟩
    simp only [stepE, explicitASIF]
    rw [h1]
  | edit hh =>
    refine ⟨rfl, ⟨h.low, h.high, h.enable, ?_, wf_edit hh h.wfs, wf_edit hh h.wft, h.epsilon, h.controlDim, h.exc, h.slack, h.weight,
      h.act, h.direct, h.dn, h.dps, h.des, h.dpt, h.det, h.rel⟩, fun hb => hb⟩
    simp only [stepE, editConstraints, h.constraints]
  | editDirect hh =>
    refine ⟨rfl, ⟨h.low, h.high, h.enable, h.constraints, ⟨h.wfs.nodup, h.wfs.params, h.wfs.enabled⟩,
      ⟨h.wft.nodup, h.wft.params, h.wft.enabled⟩, h.epsilon, h.controlDim, h.exc, h.slack, h.weight,
      h.act, ?_, ?_, ?_, ?_, ?_, ?_, h.rel⟩, fun hb => hb⟩
    · simp only [stepE, editDirect, CBObj.setExt, h.direct]
    · simp only [stepE]; rw [ek]; exact h.dn
    · simp only [stepE]; rw [ek]; exact h.dps
    · simp only [stepE]; rw [ek]; exact h.des
    · simp only [stepE]; rw [ek]; exact h.dpt
    · simp only [stepE]; rw [ek]; exact h.det
  | update i =>
    cases i with
    | notArray => exact ⟨rfl, h, fun hb => hb⟩
    | array x =>
      exact ⟨rfl, ⟨h.low, h.high, h.enable, h.constraints, ⟨h.wfs.nodup, h.wfs.params, h.wfs.enabled⟩,
        ⟨h.wft.nodup, h.wft.params, h.wft.enabled⟩, h.epsilon, h.controlDim, h.exc, h.slack, h.weight,
        h.act, h.direct, h.dn, h.dps, h.des, h.dpt, h.det, h.rel⟩, fun hb => hb⟩
  | setEnable b =>
    refine ⟨rfl, ⟨h.low, h.high, rfl, h.constraints, ⟨h.wfs.nodup, h.wfs.params, h.wfs.enabled⟩,
        ⟨h.wft.nodup, h.wft.params, h.wft.enabled⟩, h.epsilon, h.controlDim, h.exc, h.slack, h.weight,
        h.act, h.direct, h.dn, h.dps, h.des, h.dpt, h.det, h.rel⟩, fun hb => ?_⟩
    simp only [stepE, modifyBase, HasBase.get, HasBase.set, hb]
  | reset =>
    refine ⟨rfl, ⟨h.low, h.high, rfl, h.constraints, ⟨h.wfs.nodup, h.wfs.params, h.wfs.enabled⟩,
        ⟨h.wft.nodup, h.wft.params, h.wft.enabled⟩, h.epsilon, h.controlDim, h.exc, h.slack, h.weight,
        h.act, h.direct, h.dn, h.dps, h.des, h.dpt, h.det, h.rel⟩, fun hb => ?_⟩
    simp only [stepE, Base.reset, modifyBase, HasBase.get, HasBase.set, hb]

theorem observe_sameE {solver : Solver K} {f : S → List K} {g : S → List (List K)} (ops : List (AOp K S P))
    {s t : ASIFObj K S P X} (h : SameAS Eq s t) (hb : t.toBase = s.toBase) :
    observeE solver f g t ops = observeE solver f g s ops := by
  induction ops generalizing s t with
  | nil => rfl
  | cons op ops ih =>
    obtain ⟨h1, h2, h3⟩ := same_step (solver := solver) (f := f) (g := g) h op
    have hb' := h3 hb
    simp only [observeE]
    rw [h1, ih h2 hb']
    have hinfo : generateInfo (stepE solver f g t op).2 = generateInfo (stepE solver f g s op).2 := by
      simp only [generateInfo, HasBase.get, hb']
    rw [hinfo]

/-- What no operation changes. -/
structure SameStatic (s t : ASIFObj K S P X) : Prop where
  low : t.controlBoundsLow = s.controlBoundsLow
  high : t.controlBoundsHigh = s.controlBoundsHigh
  epsilon : t.ext.epsilon = s.ext.epsilon
  controlDim : t.ext.controlDim = s.ext.controlDim
  exc : t.ext.solverException = s.ext.solverException
  slack : t.ext.numSlack = s.ext.numSlack
  weight : t.ext.objWeight = s.ext.objWeight
  act : t.ext.actuation = s.ext.actuation
  names : t.ext.constraintNames = s.ext.constraintNames
  extra : t.ext.extra = s.ext.extra

theorem static_run (solver : Solver K) (f : S → List K) (g : S → List (List K)) (ops : List (AOp K S P)) {s : ASIFObj K S P X}
    (hi : ASIFInv s) (hn : ExplicitNames s) : SameStatic s (runE solver f g s ops) := by
  induction ops generalizing s with
  | nil => exact ⟨rfl, rfl, rfl, rfl, rfl, rfl, rfl, rfl, rfl, rfl⟩
  | cons op ops ih =>
    obtain ⟨h1, h2⟩ := inv_step solver f g hi hn op
    have key : SameStatic s (stepE solver f g s op).2 := by
      cases op with
      | call i dt u =>
        have h := explicit_after_call solver f g (directWF_of_inv hi) i dt u
        have hr := h.rel
        simp only [Prod.mk.injEq] at hr
        exact ⟨h.low, h.high, h.epsilon, h.controlDim, h.exc, h.slack, h.weight, h.act, hr.1.symm, hr.2.symm⟩
      | update i => cases i <;> exact ⟨rfl, rfl, rfl, rfl, rfl, rfl, rfl, rfl, rfl, rfl⟩
      | edit h => exact ⟨rfl, rfl, rfl, rfl, rfl, rfl, rfl, rfl, rfl, rfl⟩
      | editDirect h => exact ⟨rfl, rfl, rfl, rfl, rfl, rfl, rfl, rfl, rfl, rfl⟩
      | setEnable h => exact ⟨rfl, rfl, rfl, rfl, rfl, rfl, rfl, rfl, rfl, rfl⟩
      | reset => exact ⟨rfl, rfl, rfl, rfl, rfl, rfl, rfl, rfl, rfl, rfl⟩
    have := ih h1 h2
    simp only [runE]
    exact ⟨this.low.trans key.low, this.high.trans key.high, this.epsilon.trans key.epsilon, this.controlDim.trans key.controlDim,
      this.exc.trans key.exc, this.slack.trans key.slack, this.weight.trans key.weight, this.act.trans key.act,
      this.names.trans key.names, this.extra.trans key.extra⟩

end RTA
