import Verif.Props.ImplicitHistory
import Verif.Lemmas.ASIFConvex

/-!
Optimisation modules do not amplify changes of the desired control (C92).
-/
set_option linter.unusedSectionVars false
namespace RTA

section
variable {K S P X A : Type} [Field K] [LinearOrder K] [IsStrictOrderedRing K] [HasSqrt K] [LawfulSqrt K]

theorem clipControl_firm {b : Base K} {u u' v v' : List K} (hlo : BoundFits u.length b.controlBoundsLow)
    (hhi : BoundFits u.length b.controlBoundsHigh) (h3 : u'.length = u.length) (h1 : b.clipControl u = .ok v)
    (h2 : b.clipControl u' = .ok v') :
    v.length = u.length ∧ v'.length = u.length ∧ sqDist v v' ≤ dot (vsub u u') (vsub v v') := by
  unfold Base.clipControl at h1 h2
  by_cases hb : (b.controlBoundsLow.isSome || b.controlBoundsHigh.isSome) = true
  · rw [if_pos hb] at h1 h2
    exact npClip_firm hlo hhi h3 h1 h2
  · rw [if_neg hb] at h1 h2
    simp only [Except.ok.injEq] at h1 h2
    subst h1 h2
    exact ⟨rfl, h3, le_rfl⟩

/-- **C92, explicit modules.** For any module reached by any sequence of uses, two calls from the same state that return `v`
and `v'` for the desired controls `u` and `u'` satisfy `|v - v'|² ≤ (u - u') · (v - v')`, with or without slack, and also
when no control is admissible and the fallback answers. -/
theorem C92_firm {solver : Solver K} (hspec : SolverSpec solver) {f : S → List K} {g : S → List (List K)}
    {s : ASIFObj K S P X} (hs : ExplicitModule solver f g s) (hpos : ScalesPos s.constraints) (hen : s.enable = true)
    (x : S) (hsh : ShapesOK f g s x) (dt dt' : K) (u u' v v' : List K) (hu : u.length = s.ext.controlDim)
    (hu' : u'.length = s.ext.controlDim) (h : (explicitASIF solver f g s (.array x) dt u).1 = .ok v)
    (h' : (explicitASIF solver f g s (.array x) dt' u').1 = .ok v') :
    v.length = u.length ∧ v'.length = u.length ∧ sqDist v v' ≤ dot (vsub u u') (vsub v v') := by
  obtain ⟨hinv, hnames⟩ := hs.inv
  by_cases hadm : ∃ w d, AdmissibleS f g s x w d
  · obtain ⟨-, d, -, hv, hmin, -⟩ := explicit_solved hspec hinv hnames hpos hen
      (show explicitASIF solver f g s (.array x) dt u = (.ok v, (explicitASIF solver f g s (.array x) dt u).2) from Prod.ext h rfl) hadm
    obtain ⟨-, d', -, hv', hmin', -⟩ := explicit_solved hspec hinv hnames hpos hen
      (show explicitASIF solver f g s (.array x) dt' u' = (.ok v', (explicitASIF solver f g s (.array x) dt' u').2) from
        Prod.ext h' rfl) hadm
    have weak : ∀ {u v d : List K}, AdmissibleS f g s x v d →
        (∀ w e, AdmissibleS f g s x w e → v ++ d ≠ w ++ e → slackCost (qpWeights s) u v d < slackCost (qpWeights s) u w e) →
        ∀ w e, AdmissibleS f g s x w e → slackCost (qpWeights s) u v d ≤ slackCost (qpWeights s) u w e := by
      intro u v d hv hmin w e hw
      by_cases he : v ++ d = w ++ e
      · obtain ⟨rfl, rfl⟩ := List.append_inj he (hv.len.trans hw.len.symm)
        exact le_rfl
      · exact (hmin w e hw he).le
    refine ⟨hv.len.trans hu.symm, hv'.len.trans hu.symm, ?_⟩
    exact firm_of_min (qpWeights_pos hpos) (C := AdmissibleS f g s x) (n := s.ext.controlDim)
      (m := (slackScales s.constraints).length) (fun w e hw => ⟨hw.len, hw.slen⟩)
      (fun t h0 h1 a b d e ha hb => admissibleS_mix h0 h1 ha hb) hu hu' hv hv' (weak hv hmin) (weak hv' hmin')
  · have e := (explicit_total hspec hinv hnames hpos hsh dt hu hen).2 hadm
    have e' := (explicit_total hspec hinv hnames hpos hsh dt' hu' hen).2 hadm
    rw [h] at e
    rw [h'] at e'
    cases hx : s.ext.solverException with
    | true => rw [hx] at e; simp at e
    | false =>
      rw [hx] at e e'
      obtain ⟨names, hact⟩ := hinv.act
      obtain ⟨hlo, hhi⟩ := boundFits_of_act hact
      exact clipControl_firm (hu.symm ▸ hlo) (hu.symm ▸ hhi) (hu'.trans hu.symm) e.symm e'.symm

/-- **C92, explicit modules.** The answers are never further apart than the desired controls. -/
theorem C92_nonexpansive {solver : Solver K} (hspec : SolverSpec solver) {f : S → List K} {g : S → List (List K)}
    {s : ASIFObj K S P X} (hs : ExplicitModule solver f g s) (hpos : ScalesPos s.constraints) (hen : s.enable = true)
    (x : S) (hsh : ShapesOK f g s x) (dt dt' : K) (u u' v v' : List K) (hu : u.length = s.ext.controlDim)
    (hu' : u'.length = s.ext.controlDim) (h : (explicitASIF solver f g s (.array x) dt u).1 = .ok v)
    (h' : (explicitASIF solver f g s (.array x) dt' u').1 = .ok v') : sqDist v v' ≤ sqDist u u' := by
  obtain ⟨h1, h2, h3⟩ := C92_firm hspec hs hpos hen x hsh dt dt' u u' v v' hu hu' h h'
  exact nonexpansive_of_firm h1 h2 (hu'.trans hu.symm) h3

/-- **C92, idempotence.** A module without slack that is given its own answer as the desired control, in the same state,
returns it unchanged. -/
theorem C92_idempotent {solver : Solver K} (hspec : SolverSpec solver) {f : S → List K} {g : S → List (List K)}
    {s : ASIFObj K S P X} (hs : ExplicitModule solver f g s) (hns : ∀ kc ∈ s.constraints, kc.2.slackPriorityScale = none)
    (heps : 0 ≤ s.ext.epsilon) (hen : s.enable = true) (x : S) (hsh : ShapesOK f g s x) (dt dt' : K) (u v : List K)
    (hadm : ∃ w, Admissible f g s x w) (h : (explicitASIF solver f g s (.array x) dt u).1 = .ok v) :
    (explicitASIF solver f g s (.array x) dt' v).1 = .ok v ∧
      (explicitASIF solver f g s (.array x) dt' v).2.intervening = false := by
  have hs0 : slackScales s.constraints = [] := by
    unfold slackScales
    exact List.filterMap_eq_nil_iff.2 hns
  have hpos : ScalesPos s.constraints := by intro w hw; rw [hs0] at hw; simp at hw
  obtain ⟨w, hw⟩ := hadm
  obtain ⟨-, d, -, hv, -⟩ := explicit_solved hspec hs.inv.1 hs.inv.2 hpos hen
    (show explicitASIF solver f g s (.array x) dt u = (.ok v, (explicitASIF solver f g s (.array x) dt u).2) from Prod.ext h rfl)
    ⟨_, _, admissible_iff_zeros.1 hw⟩
  exact C25_no_interference hspec hs hpos heps hen x hsh dt' v ((admissibleS_noslack hs0).1 hv).2

variable [FloorRing K]

/-- **C92, implicit modules.** The same for modules that look along a backup trajectory. -/
theorem C92_implicit_firm {solver : Solver K} (hspec : SolverSpec solver) {E : ImplicitEnv K} {s : ImplicitObj K P A}
    (hs : ImplicitModule solver E s) (hen : s.enable = true) (x : List K) (dt : K) (hsh : ShapesI E s x dt)
    (hfit : ∀ kc ∈ s.constraints, (pointsOf E s x dt kc.2).length ≤ numPoints s dt) (u u' v v' : List K)
    (hu : u.length = s.ext.controlDim) (hu' : u'.length = s.ext.controlDim) (h : (E.call solver s (.array x) dt u).1 = .ok v)
    (h' : (E.call solver s (.array x) dt u').1 = .ok v') :
    v.length = u.length ∧ v'.length = u.length ∧ sqDist v v' ≤ dot (vsub u u') (vsub v v') := by
  have hinv := hs.inv.inv
  by_cases hadm : ∃ w, AdmissibleI E s x dt w
  · obtain ⟨-, -, hv, hmin, -⟩ := implicit_solved hspec hinv hen
      (show E.call solver s (.array x) dt u = (.ok v, (E.call solver s (.array x) dt u).2) from Prod.ext h rfl) hadm
    obtain ⟨-, -, hv', hmin', -⟩ := implicit_solved hspec hinv hen
      (show E.call solver s (.array x) dt u' = (.ok v', (E.call solver s (.array x) dt u').2) from Prod.ext h' rfl) hadm
    have weak : ∀ {u v : List K}, (∀ w, AdmissibleI E s x dt w → w ≠ v → sqDist v u < sqDist w u) →
        ∀ w e : List K, (AdmissibleI E s x dt w ∧ e = []) → slackCost [] u v [] ≤ slackCost [] u w e := by
      rintro u v hmin w e ⟨hw, rfl⟩
      have z : ∀ w, slackCost [] u w [] = sqDist w u := fun w => by simp [slackCost, dot]
      rw [z, z]
      by_cases he : w = v
      · rw [he]
      · exact (hmin w hw he).le
    refine ⟨hv.len.trans hu.symm, hv'.len.trans hu.symm, ?_⟩
    refine firm_of_min (W := []) (by simp) (C := fun w e => AdmissibleI E s x dt w ∧ e = []) (n := s.ext.controlDim) (m := 0)
      (fun w e hw => ⟨hw.1.len, by rw [hw.2]; rfl⟩) ?_ hu hu' ⟨hv, rfl⟩ ⟨hv', rfl⟩ (weak hmin) (weak hmin')
    rintro t h0 h1 a b d e ⟨ha, rfl⟩ ⟨hb, rfl⟩
    exact ⟨admissibleI_mix h0 h1 ha hb, rfl⟩
  · have e := (implicit_total hspec hinv hs.inv.names hsh hfit hu hen).2 hadm
    have e' := (implicit_total hspec hinv hs.inv.names hsh hfit hu' hen).2 hadm
    rw [h] at e
    rw [h'] at e'
    cases hx : s.ext.solverException with
    | true => rw [hx] at e; simp at e
    | false =>
      rw [hx] at e e'
      obtain ⟨names, hact⟩ := hinv.act
      obtain ⟨hlo, hhi⟩ := boundFits_of_act hact
      exact clipControl_firm (hu.symm ▸ hlo) (hu.symm ▸ hhi) (hu'.trans hu.symm) e.symm e'.symm

/-- **C92, implicit modules.** The answers are never further apart than the desired controls. -/
theorem C92_implicit_nonexpansive {solver : Solver K} (hspec : SolverSpec solver) {E : ImplicitEnv K} {s : ImplicitObj K P A}
    (hs : ImplicitModule solver E s) (hen : s.enable = true) (x : List K) (dt : K) (hsh : ShapesI E s x dt)
    (hfit : ∀ kc ∈ s.constraints, (pointsOf E s x dt kc.2).length ≤ numPoints s dt) (u u' v v' : List K)
    (hu : u.length = s.ext.controlDim) (hu' : u'.length = s.ext.controlDim) (h : (E.call solver s (.array x) dt u).1 = .ok v)
    (h' : (E.call solver s (.array x) dt u').1 = .ok v') : sqDist v v' ≤ sqDist u u' := by
  obtain ⟨h1, h2, h3⟩ := C92_implicit_firm hspec hs hen x dt hsh hfit u u' v v' hu hu' h h'
  exact nonexpansive_of_firm h1 h2 (hu'.trans hu.symm) h3

end

/-- C92: at `x = 1` the desired controls `-2` and `1` are answered `-1` and something no further than 3 away. -/
example (solver : Solver ℝ) (hspec : SolverSpec solver) (exc : Bool) (dt : ℝ) :
    ∃ v', (explicitASIF solver toyF toyG (toyObj none exc) (.array 1) dt [-2]).1 = .ok [-1] ∧
      (explicitASIF solver toyF toyG (toyObj none exc) (.array 1) dt [1]).1 = .ok v' ∧ sqDist [-1] v' ≤ 9 := by
  have h1 : Admissible toyF toyG (toyObj none exc) (1 : ℝ) [-1] := (toy_admissible none exc 1 [-1]).2 ⟨-1, rfl, by norm_num⟩
  have hm := toy_module solver none exc
  obtain ⟨v, hv⟩ := C24_returns hspec hm (toy_pos_none exc) rfl 1 (toy_shapes _ _ _) dt [-2] rfl ⟨_, _, admissible_iff_zeros.1 h1⟩
  obtain ⟨v', hv'⟩ := C24_returns hspec hm (toy_pos_none exc) rfl 1 (toy_shapes _ _ _) dt [1] rfl ⟨_, _, admissible_iff_zeros.1 h1⟩
  obtain rfl := toy_result solver hspec exc dt v _ (Prod.ext hv rfl)
  refine ⟨v', hv, hv', ?_⟩
  have := C92_nonexpansive hspec hm (toy_pos_none exc) rfl 1 (toy_shapes _ _ _) dt dt [-2] [1] [-1] v' rfl rfl hv hv'
  refine this.trans (le_of_eq ?_)
  simp [sqDist, sqNorm, dot, vsub]
  norm_num

/-- C92: in a state without admissible controls the fallback answers are compared. -/
example (solver : Solver ℝ) (hspec : SolverSpec solver) (dt : ℝ) (v v' : List ℝ)
    (h : (explicitASIF solver toyF toyG (toyObj none false) (.array (-3)) dt [5]).1 = .ok v)
    (h' : (explicitASIF solver toyF toyG (toyObj none false) (.array (-3)) dt [0]).1 = .ok v') : sqDist v v' ≤ 25 := by
  refine (C92_nonexpansive hspec (toy_module solver none false) (toy_pos_none false) rfl (-3) (toy_shapes _ _ _) dt dt [5] [0] v v'
    rfl rfl h h').trans (le_of_eq ?_)
  simp [sqDist, sqNorm, dot, vsub]
  norm_num

/-- C92: the answer `-1` to the desired control `-2` is itself answered by `-1`. -/
example (solver : Solver ℝ) (hspec : SolverSpec solver) (exc : Bool) (dt : ℝ) :
    (explicitASIF solver toyF toyG (toyObj none exc) (.array 1) dt [-1]).1 = .ok [-1] := by
  have h1 : Admissible toyF toyG (toyObj none exc) (1 : ℝ) [-1] := (toy_admissible none exc 1 [-1]).2 ⟨-1, rfl, by norm_num⟩
  have hm := toy_module solver none exc
  obtain ⟨v, hv⟩ := C24_returns hspec hm (toy_pos_none exc) rfl 1 (toy_shapes _ _ _) dt [-2] rfl ⟨_, _, admissible_iff_zeros.1 h1⟩
  obtain rfl := toy_result solver hspec exc dt v _ (Prod.ext hv rfl)
  exact (C92_idempotent hspec hm (by simp [toyObj, toyC]) (by norm_num [toyObj]) rfl 1 (toy_shapes _ _ _) dt dt [-2] [-1] ⟨_, h1⟩ hv).1

/-- C92: the implicit module started at `1` with window 2 answers `-1` to `-2`. -/
example (solver : Solver ℝ) (hspec : SolverSpec solver) (exc : Bool) (v' : List ℝ)
    (h' : (iE.call solver (iObj [("c", iC 0 {} true none)] 2 exc) (.array [1]) 1 [0]).1 = .ok v') : sqDist [-1] v' ≤ 4 := by
  have hsh := i_shapes (cs := [("c", iC 0 {} true none)]) (by
    intro kc hkc; simp only [List.mem_cons, List.not_mem_nil, or_false] at hkc
    subst hkc
    exact ⟨0, _, _, rfl, by decide⟩) 2 exc 1
  obtain ⟨s', h, -⟩ := i_result solver hspec exc
  refine (C92_implicit_nonexpansive hspec (i_module solver (by simp [dictKeys]) 2 exc) rfl [1] 1 (by simpa using hsh)
    (fun kc hkc => le_of_eq (C29_default_fits iE _ [1] 1 (by simp [iObj, iC]) kc hkc)) [-2] [0] [-1] v' rfl rfl ?_ h').trans
    (le_of_eq ?_)
  · simpa using congrArg Prod.fst h
  · simp [sqDist, sqNorm, dot, vsub]
    norm_num

end RTA
