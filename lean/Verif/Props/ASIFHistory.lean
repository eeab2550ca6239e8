import Verif.Props.ASIF

/-!
Explicit ASIF modules over their lifetime: disabled constraints (C09), reset (C10), failing calls (C11), independence of
the history (C12).
-/
set_option linter.unusedSectionVars false
namespace RTA
variable {K S P X : Type}

section
variable [Field K] [LinearOrder K] [IsStrictOrderedRing K] [HasSqrt K]

/-! ### C09 -/

/-- **C09, admitted controls of explicit ASIF.** Let `t` be a module without the disabled constraints and without the
disabled direct inequalities of `s`. A control is admissible (with suitable slack values) for `s` exactly when it is for `t`.
What the solver is confronted with is this set by `C23_problem_handed_to_solver`. -/
theorem C09_asif_admitted_controls {f : S → List K} {g : S → List (List K)} {s t : ASIFObj K S P X}
    (hlo : t.controlBoundsLow = s.controlBoundsLow) (hhi : t.controlBoundsHigh = s.controlBoundsHigh)
    (hdim : t.ext.controlDim = s.ext.controlDim)
    (hcs : t.constraints = s.constraints.filter fun kc => kc.2.enabled)
    (hds : t.ext.direct = s.ext.direct.filter fun kc => kc.2.enabled) (x : S) (u : List K) :
    (∃ d, AdmissibleS f g t x u d) ↔ ∃ d, AdmissibleS f g s x u d := by
  have hcs' : t.constraints = onlyEnabled s.constraints := hcs
  constructor
  · rintro ⟨d, h⟩
    refine ⟨embedSlack s.constraints d, by rw [← hdim]; exact h.len, embedSlack_length _ _, by rw [← hlo, ← hhi]; exact h.bounds, ?_, ?_⟩
    · intro cd hcd hen
      have : cd ∈ (assignSlack s.constraints (embedSlack s.constraints d)).filter fun cd => cd.1.enabled :=
        List.mem_filter.2 ⟨hcd, hen⟩
      rw [assignSlack_embed, ← hcs'] at this
      exact h.barrier cd this hen
    · intro kc hkc hen
      exact h.direct kc (by rw [hds]; exact List.mem_filter.2 ⟨hkc, hen⟩) hen
  · rintro ⟨d, h⟩
    refine ⟨projSlack s.constraints d, by rw [hdim]; exact h.len, by rw [hcs']; exact projSlack_length _ _,
      by rw [hlo, hhi]; exact h.bounds, ?_, ?_⟩
    · intro cd hcd hen
      rw [hcs', assignSlack_proj] at hcd
      exact h.barrier cd (List.mem_filter.1 hcd).1 hen
    · intro kc hkc hen
      rw [hds] at hkc
      exact h.direct kc (List.mem_filter.1 hkc).1 hen

/-- **C09, result of explicit ASIF.** With a correct solver, a module and the module without its disabled constraints and
direct inequalities answer every call alike. -/
theorem C09_asif_disabled_no_influence [LawfulSqrt K] {solver : Solver K} (hspec : SolverSpec solver) {f : S → List K}
    {g : S → List (List K)} {s t : ASIFObj K S P X} (hs : ExplicitModule solver f g s) (ht : ExplicitModule solver f g t)
    (hpos : ScalesPos s.constraints) (hens : s.enable = true) (hent : t.enable = true)
    (hlo : t.controlBoundsLow = s.controlBoundsLow) (hhi : t.controlBoundsHigh = s.controlBoundsHigh)
    (hdim : t.ext.controlDim = s.ext.controlDim) (hexc : t.ext.solverException = s.ext.solverException)
    (hcs : t.constraints = s.constraints.filter fun kc => kc.2.enabled)
    (hds : t.ext.direct = s.ext.direct.filter fun kc => kc.2.enabled) (x : S) (hsh : ShapesOK f g s x) (dt : K) (u : List K)
    (hu : u.length = s.ext.controlDim) :
    (explicitASIF solver f g t (.array x) dt u).1 = (explicitASIF solver f g s (.array x) dt u).1 := by
  have hadm := C09_asif_admitted_controls (f := f) (g := g) hlo hhi hdim hcs hds x
  have hsht : ShapesOK f g t x := by
    refine ⟨?_, ?_, hsh.input, by rw [hdim]; exact hsh.cols, ?_⟩
    · intro kc hkc; rw [hcs] at hkc; exact hsh.alpha kc (List.mem_filter.1 hkc).1
    · intro kc hkc; rw [hcs] at hkc; exact hsh.grad kc (List.mem_filter.1 hkc).1
    · intro kc hkc; rw [hds] at hkc; rw [hdim]; exact hsh.direct kc (List.mem_filter.1 hkc).1
  have hsub : ∀ w ∈ slackScales t.constraints, w ∈ slackScales s.constraints := by
    intro w hw
    unfold slackScales at hw ⊢
    rw [hcs] at hw
    obtain ⟨kc, hkc, he⟩ := List.mem_filterMap.1 hw
    exact List.mem_filterMap.2 ⟨kc, (List.mem_filter.1 hkc).1, he⟩
  have hpost : ScalesPos t.constraints := fun w hw => hpos w (hsub w hw)
  have hut : u.length = t.ext.controlDim := by rw [hdim]; exact hu
  have S1 := explicit_total hspec hs.inv.1 hs.inv.2 hpos hsh dt hu hens
  have T1 := explicit_total hspec ht.inv.1 ht.inv.2 hpost hsht dt hut hent
  by_cases ha : ∃ w d, AdmissibleS f g s x w d
  · have hat : ∃ w d, AdmissibleS f g t x w d := by
      obtain ⟨w, hw⟩ := ha
      exact ⟨w, (hadm w).2 hw⟩
    obtain ⟨v, hv⟩ := S1.1 ha
    obtain ⟨v', hv'⟩ := T1.1 hat
    rw [hv, hv']
    congr 1
    obtain ⟨-, d, -, had, hmin, -⟩ := explicit_solved hspec hs.inv.1 hs.inv.2 hpos hens (Prod.ext hv rfl) ha
    obtain ⟨-, d', -, had', hmin', -⟩ := explicit_solved hspec ht.inv.1 ht.inv.2 hpost hent (Prod.ext hv' rfl) hat
    have hcs' : t.constraints = onlyEnabled s.constraints := hcs
    have hproj : AdmissibleS f g t x v (projSlack s.constraints d) := by
      refine ⟨by rw [hdim]; exact had.len, by rw [hcs']; exact projSlack_length _ _, by rw [hlo, hhi]; exact had.bounds, ?_, ?_⟩
      · intro cd hcd hen
        rw [hcs', assignSlack_proj] at hcd
        exact had.barrier cd (List.mem_filter.1 hcd).1 hen
      · intro kc hkc hen
        rw [hds] at hkc
        exact had.direct kc (List.mem_filter.1 hkc).1 hen
    have hemb : AdmissibleS f g s x v' (embedSlack s.constraints d') := by
      refine ⟨by rw [← hdim]; exact had'.len, embedSlack_length _ _, by rw [← hlo, ← hhi]; exact had'.bounds, ?_, ?_⟩
      · intro cd hcd hen
        have : cd ∈ (assignSlack s.constraints (embedSlack s.constraints d')).filter fun cd => cd.1.enabled :=
          List.mem_filter.2 ⟨hcd, hen⟩
        rw [assignSlack_embed, ← hcs'] at this
        exact had'.barrier cd this hen
      · intro kc hkc hen
        exact had'.direct kc (by rw [hds]; exact List.mem_filter.2 ⟨hkc, hen⟩) hen
    by_contra hne
    have hlen : v'.length = v.length := had'.len.trans (hdim.trans had.len.symm)
    have l1 := hmin v' _ hemb (fun e => hne (List.append_inj e hlen.symm).1.symm)
    have l2 := hmin' v _ hproj (fun e => hne (List.append_inj e hlen).1)
    have hφ : ∀ w ∈ slackScales s.constraints, (0 : K) < HasSqrt.sqrt w := by
      intro w hw
      exact qpWeights_pos hpos _ (List.mem_map_of_mem hw)
    have c1 := cost_proj HasSqrt.sqrt s.constraints hφ d had.slen
    have c2 := cost_embed HasSqrt.sqrt s.constraints d' (had'.slen.trans (by rw [hcs']))
    unfold slackCost qpWeights at l1 l2
    rw [hcs'] at l2
    rw [c2] at l1
    linarith
  · have hat : ¬ ∃ w d, AdmissibleS f g t x w d := by
      rintro ⟨w, hw⟩
      exact ha ⟨w, (hadm w).1 hw⟩
    rw [S1.2 ha, T1.2 hat, hexc, clipControl_congr s.toBase hlo hhi]

/-! ### C10 -/

/-- **C10 for explicit ASIF modules.** Whatever has happened to the module: after `reset()` it answers every future sequence
of operations exactly as a module newly constructed with its current constraints and direct inequalities. -/
theorem C10_explicit_asif_reset {solver : Solver K} {f : S → List K} {g : S → List (List K)} {s : ASIFObj K S P X}
    (hs : ExplicitModule solver f g s) : ∃ fresh,
      asifInit s.controlBoundsHigh s.controlBoundsLow s.constraints none s.ext.epsilon s.ext.controlDim s.ext.solverException
        s.ext.direct s.ext.extra = .ok fresh ∧
      ∀ ops, observeE solver f g (Base.reset s) ops = observeE solver f g fresh ops := by
  obtain ⟨hinv, hnames⟩ := hs.inv
  obtain ⟨names, hact, hnm⟩ := hnames
  have hw : (slackWeights s.constraints).length = s.ext.numSlack := by
    rw [slackWeights_eq, List.length_map, hinv.slack]
  have hact' : actuationMats s.controlBoundsLow s.controlBoundsHigh s.ext.controlDim (slackWeights s.constraints).length =
      .ok (s.ext.actuation, names) := by rw [hw]; exact hact
  obtain ⟨fresh, hf⟩ : ∃ fresh, asifInit s.controlBoundsHigh s.controlBoundsLow s.constraints none s.ext.epsilon s.ext.controlDim
      s.ext.solverException s.ext.direct s.ext.extra = .ok fresh := by
    unfold asifInit
    simp only [CBObj.init, selectConstraints, Base.init, updateParams]
    rw [hact']
    exact ⟨_, rfl⟩
  refine ⟨fresh, hf, fun ops => ?_⟩
  have hfi := asifInv_init (X := X) hinv.wf.nodup hinv.dnodup hf
  have hfe : fresh.toBase = Base.init s.controlBoundsHigh s.controlBoundsLow ∧ fresh.constraints = s.constraints ∧
      fresh.ext.epsilon = s.ext.epsilon ∧ fresh.ext.controlDim = s.ext.controlDim ∧
      fresh.ext.solverException = s.ext.solverException ∧ fresh.ext.actuation = s.ext.actuation ∧
      fresh.ext.direct = s.ext.direct ∧ fresh.ext.extra = s.ext.extra ∧
      fresh.ext.constraintNames = names ++ (dictKeys s.constraints ++ dictKeys s.ext.direct) ∧
      fresh.ext.numSlack = (slackWeights s.constraints).length ∧
      fresh.ext.objWeight = List.replicate s.ext.controlDim 1 ++ slackWeights s.constraints := by
    unfold asifInit at hf
    simp only [CBObj.init, selectConstraints, updateParams, Base.init] at hf
    rw [hact'] at hf
    obtain rfl := Except.ok.inj hf
    exact ⟨rfl, rfl, rfl, rfl, rfl, rfl, rfl, rfl, rfl, rfl, rfl⟩
  obtain ⟨e1, e2, e3, e4, e5, e6, e7, e8, e9, e10, e11⟩ := hfe
  refine observe_sameE ops (s := fresh) (t := Base.reset s) ?_ ?_
  · refine ⟨by rw [e1]; rfl, by rw [e1]; rfl, by rw [e1]; rfl, e2.symm, hfi.1.wf, ⟨hinv.wf.nodup, hinv.wf.params, hinv.wf.enabled⟩,
      e3.symm, e4.symm, e5.symm, ?_, ?_, e6.symm, e7.symm, hfi.1.dnodup, hfi.1.dparams, hfi.1.denabled, hinv.dparams, hinv.denabled, ?_⟩
    · rw [e10, hw]; rfl
    · rw [e11]; exact hinv.weight
    · rw [e9, e8, ← hnm]; rfl
  · rw [e1]; rfl

/-! ### C11 -/

/-- **C11 for explicit ASIF modules.** A call - in particular one that raises, because of a bad input, a shape error or the
solver - has no influence on the results of any operation after it: they are those of the module on which that call was
never made. -/
theorem C11_explicit_failure_harmless {solver : Solver K} {f : S → List K} {g : S → List (List K)} {s : ASIFObj K S P X}
    (hs : ExplicitModule solver f g s) (i : InputState S) (dt : K) (u : List K) (ops : List (AOp K S P)) :
    (observeE solver f g (explicitASIF solver f g s i dt u).2 ops).map Prod.fst = (observeE solver f g s ops).map Prod.fst := by
  have h := explicit_after_call solver f g (directWF_of_inv hs.inv.1) i dt u
  revert h
  generalize (explicitASIF solver f g s i dt u).2 = t
  intro h
  clear hs
  induction ops generalizing s t with
  | nil => rfl
  | cons op ops ih =>
    obtain ⟨h1, h2, -⟩ := same_step (solver := solver) (f := f) (g := g) h op
    simp only [observeE, List.map_cons]
    rw [h1, ih _ h2]

/-! ### C12 -/

/-- **C12**. Two arbitrary histories of one explicit module - calls, failing calls, edits, resets - that end with the same
constraint parameters and flags: the next call has the same result in both, and when it returns, the same `intervening`. -/
theorem C12_history_independent {solver : Solver K} {f : S → List K} {g : S → List (List K)} {s : ASIFObj K S P X}
    (hs : ExplicitModule solver f g s) (ops1 ops2 : List (AOp K S P))
    (hen1 : (runE solver f g s ops1).enable = true) (hen2 : (runE solver f g s ops2).enable = true)
    (hcs : (runE solver f g s ops2).constraints = (runE solver f g s ops1).constraints)
    (hds : (runE solver f g s ops2).ext.direct = (runE solver f g s ops1).ext.direct)
    (i : InputState S) (dt : K) (u : List K) :
    (explicitASIF solver f g (runE solver f g s ops2) i dt u).1 = (explicitASIF solver f g (runE solver f g s ops1) i dt u).1 ∧
    ∀ v, (explicitASIF solver f g (runE solver f g s ops1) i dt u).1 = .ok v →
      (explicitASIF solver f g (runE solver f g s ops2) i dt u).2.intervening =
        (explicitASIF solver f g (runE solver f g s ops1) i dt u).2.intervening := by
  obtain ⟨hi, hn⟩ := hs.inv
  obtain ⟨i1, n1⟩ := inv_run solver f g ops1 hi hn
  obtain ⟨i2, n2⟩ := inv_run solver f g ops2 hi hn
  have s1 := static_run solver f g ops1 hi hn
  have s2 := static_run solver f g ops2 hi hn
  have hsame : SameAS Eq (runE solver f g s ops1) (runE solver f g s ops2) :=
    ⟨s2.low.trans s1.low.symm, s2.high.trans s1.high.symm, hen2.trans hen1.symm, hcs, i1.wf, i2.wf,
      s2.epsilon.trans s1.epsilon.symm, s2.controlDim.trans s1.controlDim.symm, s2.exc.trans s1.exc.symm,
      s2.slack.trans s1.slack.symm, s2.weight.trans s1.weight.symm, s2.act.trans s1.act.symm, hds, i1.dnodup, i1.dparams, i1.denabled,
      i2.dparams, i2.denabled, by rw [s1.names, s2.names, s1.extra, s2.extra]⟩
  obtain ⟨h1, -, h3, -⟩ := sameAS_call (genCong_explicit f g) (genFrame_explicit f g) solver hsame i dt u
  exact ⟨h1, fun v hv => h3 hen1 v hv⟩

end

/-! ### Concrete histories -/

/-- C09: disabling the only constraint of the module and constructing the module without it; any two correct calls agree. The
hypotheses hold, for instance, for the state `-3`, in which the constraint would make the problem infeasible. -/
noncomputable def toyOff : ASIFObj ℝ ℝ Unit Unit := editConstraints (fun _ pb => (pb.1, false)) (toyObj none true)

noncomputable def toyBare : ASIFObj ℝ ℝ Unit Unit :=
  { toBase := Base.init (some (.scalar 2)) (some (.scalar (-2)))
    constraints := [], params := [], constraintEnabled := [], constraintValues := [], isStaleConstraints := false
    ext := { epsilon := 1 / 10000, controlDim := 1, solverException := true, numSlack := 0, objWeight := [1]
             constraintNames := ["u1_min", "u1_max"], actuation := [⟨[1], -2⟩, ⟨[-1], -2⟩]
             direct := [], directParams := [], directEnabled := [], causing := none, extra := () } }

theorem toy_off_module (solver : Solver ℝ) : ExplicitModule solver toyF toyG toyOff :=
  ⟨_, _, _, _, _, _, _, _, _, _, [.edit (fun _ pb => (pb.1, false))], by simp [dictKeys], by simp [dictKeys], toy_init none true, rfl⟩

theorem toy_bare_module (solver : Solver ℝ) : ExplicitModule solver toyF toyG toyBare :=
  ⟨some (.scalar 2), some (.scalar (-2)), [], none, 1 / 10000, 1, true, [], (), toyBare, [], by simp [dictKeys], by simp [dictKeys], rfl, rfl⟩

example (dt : ℝ) : (explicitASIF refSolver toyF toyG toyBare (.array (-3)) dt [-2]).1 =
    (explicitASIF refSolver toyF toyG toyOff (.array (-3)) dt [-2]).1 := by
  refine C09_asif_disabled_no_influence refSolver_spec (toy_off_module _) (toy_bare_module _) ?_ rfl rfl rfl rfl rfl rfl ?_ ?_ (-3) ?_
    dt [-2] rfl
  · intro q hq
    simp [toyOff, editConstraints, toyObj, slackScales, toyC] at hq
  · simp [toyOff, editConstraints, toyObj, toyBare]
  · simp [toyOff, editConstraints, toyObj, toyBare]
  · exact ⟨by simp [toyOff, editConstraints, toyObj, toyC], by simp [toyOff, editConstraints, toyObj, toyC, toyF], rfl,
      by simp [toyG, toyOff, editConstraints, toyObj], by simp [toyOff, editConstraints, toyObj]⟩

/-- C11: a history with a call that raises (`x = -3` is infeasible and the exception policy is on), followed by one that does not. -/
example (solver : Solver ℝ) (hspec : SolverSpec solver) (dt : ℝ) :
    (explicitASIF solver toyF toyG (toyObj none true) (.array (-3)) dt [5]).1 = .error .solverError ∧
    (explicitASIF solver toyF toyG (explicitASIF solver toyF toyG (toyObj none true) (.array (-3)) dt [5]).2 (.array 1) dt [-2]).1 =
      .ok [-1] := by
  refine ⟨(toy_infeasible_call solver hspec dt).1, ?_⟩
  have h := C11_explicit_failure_harmless (toy_module solver none true) (.array (-3)) dt [5] [.call (.array 1) dt [-2]]
  simp only [observeE, stepE, List.map_cons, List.map_nil, List.cons.injEq, Option.some.injEq, and_true] at h
  rw [h]
  have h1 : Admissible toyF toyG (toyObj none true) (1 : ℝ) [-1] := (toy_admissible none true 1 [-1]).2 ⟨-1, rfl, by norm_num⟩
  obtain ⟨v, hv⟩ := C24_returns hspec (toy_module solver none true) (toy_pos_none true) rfl 1 (toy_shapes _ _ _) dt [-2] rfl
    ⟨_, _, admissible_iff_zeros.1 h1⟩
  rw [hv, toy_result solver hspec true dt v _ (Prod.ext hv rfl)]

/-- C12: the empty history against one that disables and re-enables the constraint and makes calls, one of them failing. -/
example (solver : Solver ℝ) (dt : ℝ) :
    (explicitASIF solver toyF toyG (runE solver toyF toyG (toyObj none true)
      [.edit (fun _ pb => (pb.1, false)), .call (.array (-3)) dt [5], .call .notArray dt [1, 2], .edit (fun _ pb => (pb.1, true))])
      (.array 1) dt [-2]).1 = (explicitASIF solver toyF toyG (toyObj none true) (.array 1) dt [-2]).1 := by
  have hm := toy_module solver none true
  have hoff := toy_off_module solver
  have a := explicit_after_call solver toyF toyG (directWF_of_inv hoff.inv.1) (.array (-3)) dt [5]
  have b := explicit_after_call solver toyF toyG a.right .notArray dt [1, 2]
  refine (C12_history_independent hm [] [.edit (fun _ pb => (pb.1, false)), .call (.array (-3)) dt [5], .call .notArray dt [1, 2],
    .edit (fun _ pb => (pb.1, true))] rfl ?_ ?_ ?_ (.array 1) dt [-2]).1
  · exact b.enable.trans a.enable
  · have e := b.constraints.trans a.constraints
    show List.map _ (explicitASIF solver toyF toyG (explicitASIF solver toyF toyG toyOff (.array (-3)) dt [5]).2 .notArray dt
      [1, 2]).2.constraints = _
    rw [e]
    rfl
  · exact b.direct.trans a.direct

end RTA
