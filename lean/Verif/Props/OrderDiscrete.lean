import Verif.Props.Order
import Verif.Lemmas.DiscreteTotal

/-!
C93 for modules that check the next state: more constraints or narrower bounds never make them interfere less, and listing the constraints in another
order changes neither whether they answer nor how far the answer is from the desired control. The problem need not be convex, so several controls may be
closest; which of them is returned is up to the solver.
-/
set_option linter.unusedSectionVars false
namespace RTA

section
variable {K S P : Type} [Field K] [LinearOrder K] [IsStrictOrderedRing K] [HasSqrt K] [LawfulSqrt K]

theorem assignSlack_plain {cs : Dict (Constraint K S P)} (h : ∀ kc ∈ cs, kc.2.slackPriorityScale = none) (d : List K) :
    assignSlack cs d = cs.map fun kc => (kc.2, 0) := by
  induction cs with
  | nil => rfl
  | cons kc cs ih =>
    obtain ⟨k, c⟩ := kc
    have hk : c.slackPriorityScale = none := h (k, c) (List.mem_cons_self ..)
    simp only [assignSlack, hk, List.map_cons, ih fun kc hkc => h kc (List.mem_cons_of_mem _ hkc)]
    rfl

/-- A module with more constraints or narrower bounds admits fewer controls. -/
theorem admissibleDS_covers {next : S → K → List K → S} {s t : DiscObj K S P} (hnss : ∀ kc ∈ s.constraints, kc.2.slackPriorityScale = none)
    (hnst : ∀ kc ∈ t.constraints, kc.2.slackPriorityScale = none)
    (hb : ∀ w, Within t.controlBoundsLow t.controlBoundsHigh w → Within s.controlBoundsLow s.controlBoundsHigh w)
    (hdim : t.ext.controlDim = s.ext.controlDim) (hcs : Covers t.constraints s.constraints) {x : S} {dt : K} {w e : List K}
    (h : AdmissibleDS next t x dt w e) : AdmissibleDS next s x dt w [] := by
  refine ⟨h.len.trans hdim, by simp [scales_nil_of_noslack hnss], hb w h.bounds, fun cd hcd hen => ?_⟩
  rw [assignSlack_plain hnss] at hcd
  obtain ⟨kc, hkc, rfl⟩ := List.mem_map.1 hcd
  obtain ⟨kd, hkd, e⟩ := hcs kc hkc hen
  have := h.barrier (kd.2, 0) (by rw [assignSlack_plain hnst]; exact List.mem_map.2 ⟨kd, hkd, rfl⟩) (by rw [e]; exact hen)
  rwa [e] at this

/-- **C93, discrete modules.** Let `t` impose every enabled condition of `s` and bounds that are at least as narrow, neither using slack, both raising
when the solver fails. If both answer, the answer of `s` is at least as close to the desired control; and if `t` leaves the desired control as it is, so
does `s`. What is missing: slack (see `C93_refuted_slack`). -/
theorem C93_discrete_more_constraints_partial {solver : NLPSolver K} (hsound : NLPSound solver) (hglob : NLPGlobal solver) (hcomp : NLPComplete solver)
    {next : S → K → List K → S} {s t : DiscObj K S P} (hs : DiscInv s) (ht : DiscInv t) (hens : s.enable = true) (hent : t.enable = true)
    (hexs : s.ext.solverException = true) (hext : t.ext.solverException = true)
    (hnss : ∀ kc ∈ s.constraints, kc.2.slackPriorityScale = none) (hnst : ∀ kc ∈ t.constraints, kc.2.slackPriorityScale = none)
    (hb : ∀ w, Within t.controlBoundsLow t.controlBoundsHigh w → Within s.controlBoundsLow s.controlBoundsHigh w)
    (hdim : t.ext.controlDim = s.ext.controlDim) (hcs : Covers t.constraints s.constraints)
    (ha : ∀ kc ∈ s.constraints, kc.2.enabled = true → kc.2.alpha.isSome = true) {lo hi : Option K}
    (hlo : scalarBound s.controlBoundsLow = .ok lo) (hhi : scalarBound s.controlBoundsHigh = .ok hi) {x : S} {dt : K} (hdt : 0 < dt)
    {u w : List K} (h : (discreteASIF solver next t (.array x) dt u).1 = .ok w) :
    (∀ v, (discreteASIF solver next s (.array x) dt u).1 = .ok v → sqDist v u ≤ sqDist w u) ∧
      (w = u → (discreteASIF solver next s (.array x) dt u).1 = .ok u) := by
  obtain ⟨e, hat, -⟩ := C40_closest_admissible hsound hglob ht (scalesPos_of_noslack' hnst) hent hdt hext
    (show discreteASIF solver next t (.array x) dt u = (.ok w, _) from Prod.ext h rfl)
  have hw := admissibleDS_covers hnss hnst hb hdim hcs hat
  constructor
  · intro v hv
    obtain ⟨d, -, hmin⟩ := C40_closest_admissible hsound hglob hs (scalesPos_of_noslack' hnss) hens hdt hexs
      (show discreteASIF solver next s (.array x) dt u = (.ok v, _) from Prod.ext hv rfl)
    have := hmin w [] hw
    rwa [scales_nil_of_noslack hnss, slackCost_nil, slackCost_nil] at this
  · rintro rfl
    exact disc_desired hsound hglob hcomp hs (scales_nil_of_noslack hnss) hens hlo hhi ha hdt hw

/-- Slack values for a module that lists its constraints in another order, at the same cost. -/
theorem admissibleDS_perm {next : S → K → List K → S} {s t : DiscObj K S P} (hlo : t.controlBoundsLow = s.controlBoundsLow)
    (hhi : t.controlBoundsHigh = s.controlBoundsHigh) (hdim : t.ext.controlDim = s.ext.controlDim) (hcs : s.constraints.Perm t.constraints)
    {x : S} {dt : K} (u0 : List K) {u d : List K} (h : AdmissibleDS next s x dt u d) :
    ∃ e, AdmissibleDS next t x dt u e ∧ slackCost (slackScales t.constraints) u0 u e = slackCost (slackScales s.constraints) u0 u d := by
  obtain ⟨e, h1, h2, h3⟩ := perm_slack id hcs d h.slen
  refine ⟨e, ⟨h.len.trans hdim.symm, h1, by rw [hlo, hhi]; exact h.bounds, fun cd hcd => h.barrier cd (h2.mem_iff.1 hcd)⟩, ?_⟩
  unfold slackSum at h3
  rw [List.map_id, List.map_id] at h3
  unfold slackCost
  rw [h3]

/-- **C93, order of the constraints of a discrete module.** Two modules that list the same constraints in different orders reach the same cost (distance
and slack) whenever both answer, with some slack values that make their answers admissible. -/
theorem C93_discrete_order {solver : NLPSolver K} (hsound : NLPSound solver) (hglob : NLPGlobal solver) {next : S → K → List K → S}
    {s t : DiscObj K S P} (hs : DiscInv s) (ht : DiscInv t) (hpos : ScalesPos s.constraints) (hens : s.enable = true) (hent : t.enable = true)
    (hexs : s.ext.solverException = true) (hext : t.ext.solverException = true) (hlo : t.controlBoundsLow = s.controlBoundsLow)
    (hhi : t.controlBoundsHigh = s.controlBoundsHigh) (hdim : t.ext.controlDim = s.ext.controlDim) (hcs : s.constraints.Perm t.constraints)
    {x : S} {dt : K} (hdt : 0 < dt) {u v w : List K} (h1 : (discreteASIF solver next s (.array x) dt u).1 = .ok v)
    (h2 : (discreteASIF solver next t (.array x) dt u).1 = .ok w) :
    ∃ d e, AdmissibleDS next s x dt v d ∧ AdmissibleDS next t x dt w e ∧
      slackCost (slackScales s.constraints) u v d = slackCost (slackScales t.constraints) u w e := by
  have hpost : ScalesPos t.constraints := fun w hw => hpos w (by
    unfold slackScales at hw ⊢
    exact (hcs.filterMap _).mem_iff.2 hw)
  obtain ⟨d, hd, hmin⟩ := C40_closest_admissible hsound hglob hs hpos hens hdt hexs
    (show discreteASIF solver next s (.array x) dt u = (.ok v, _) from Prod.ext h1 rfl)
  obtain ⟨e, he, hmin'⟩ := C40_closest_admissible hsound hglob ht hpost hent hdt hext
    (show discreteASIF solver next t (.array x) dt u = (.ok w, _) from Prod.ext h2 rfl)
  refine ⟨d, e, hd, he, le_antisymm ?_ ?_⟩
  · obtain ⟨e', he', hc⟩ := admissibleDS_perm hlo.symm hhi.symm hdim.symm hcs.symm u he
    rw [← hc]
    exact hmin w e' he'
  · obtain ⟨d', hd', hc⟩ := admissibleDS_perm hlo hhi hdim hcs u hd
    rw [← hc]
    exact hmin' v d' hd'

/-- **C93, order, discrete modules without slack.** If one of the two answers, so does the other, equally far from the desired control; and with the same
control if only one admissible control is closest to the desired one. -/
theorem C93_discrete_order_answers {solver : NLPSolver K} (hsound : NLPSound solver) (hglob : NLPGlobal solver) (hcomp : NLPComplete solver)
    {next : S → K → List K → S} {s t : DiscObj K S P} (hs : DiscInv s) (ht : DiscInv t) (hens : s.enable = true) (hent : t.enable = true)
    (hexs : s.ext.solverException = true) (hnss : ∀ kc ∈ s.constraints, kc.2.slackPriorityScale = none) (hlo : t.controlBoundsLow = s.controlBoundsLow)
    (hhi : t.controlBoundsHigh = s.controlBoundsHigh) (hdim : t.ext.controlDim = s.ext.controlDim) (hcs : s.constraints.Perm t.constraints)
    (ha : ∀ kc ∈ s.constraints, kc.2.enabled = true → kc.2.alpha.isSome = true) {lo hi : Option K}
    (hl : scalarBound s.controlBoundsLow = .ok lo) (hh : scalarBound s.controlBoundsHigh = .ok hi) {x : S} {dt : K} (hdt : 0 < dt)
    {u v : List K} (h : (discreteASIF solver next s (.array x) dt u).1 = .ok v) :
    ∃ w, (discreteASIF solver next t (.array x) dt u).1 = .ok w ∧ sqDist w u = sqDist v u ∧
      ((∀ a b, AdmissibleDS next s x dt a [] → AdmissibleDS next s x dt b [] → (∀ c, AdmissibleDS next s x dt c [] → sqDist a u ≤ sqDist c u) →
        sqDist b u = sqDist a u → a = b) → w = v) := by
  have hnst : ∀ kc ∈ t.constraints, kc.2.slackPriorityScale = none := fun kc hkc => hnss kc (hcs.mem_iff.2 hkc)
  have hcall : discreteASIF solver next s (.array x) dt u = (.ok v, (discreteASIF solver next s (.array x) dt u).2) := Prod.ext h rfl
  obtain ⟨d, hd, hmin⟩ := C40_closest_admissible hsound hglob hs (scalesPos_of_noslack' hnss) hens hdt hexs hcall
  obtain ⟨-, -, -, -, -, -, -, hu, -⟩ := disc_solved hsound hs hens hdt hcall hexs
  have hmin0 : ∀ c e, AdmissibleDS next s x dt c e → sqDist v u ≤ sqDist c u := by
    intro c e hc
    have := hmin c e hc
    rwa [scales_nil_of_noslack hnss, slackCost_nil, slackCost_nil] at this
  have hst : ∀ c e, AdmissibleDS next s x dt c e → AdmissibleDS next t x dt c [] := fun c e hc =>
    admissibleDS_covers hnst hnss (by rw [hlo, hhi]; exact fun _ h => h) hdim.symm (fun kc hkc _ => ⟨kc, hcs.mem_iff.2 hkc, rfl⟩) hc
  have hts : ∀ c e, AdmissibleDS next t x dt c e → AdmissibleDS next s x dt c [] := fun c e hc =>
    admissibleDS_covers hnss hnst (by rw [hlo, hhi]; exact fun _ h => h) hdim (fun kc hkc _ => ⟨kc, hcs.mem_iff.1 hkc, rfl⟩) hc
  obtain ⟨w, hw, haw, hle⟩ := disc_total hsound hglob hcomp ht (scales_nil_of_noslack hnst) hent (by rw [hlo]; exact hl) (by rw [hhi]; exact hh)
    (fun kc hkc => ha kc (hcs.mem_iff.2 hkc)) hdt (hu.trans hdim.symm) (hst v d hd) (fun c hc => hmin0 c [] (hts c [] hc))
  have he : sqDist w u = sqDist v u := le_antisymm hle (hmin0 w [] (hts w [] haw))
  exact ⟨w, hw, he, fun huniq => (huniq v w (hts v [] (hst v d hd)) (hts w [] haw) (fun c hc => hmin0 c [] hc) he).symm⟩

end

/-- The module of `step_call` with its constraints in the other order. -/
noncomputable def stepSwapped : DiscObj ℝ ℝ Unit :=
  { stepObj true with
    constraints := [("b", stepC false), ("a", stepC true)]
    params := [("b", ()), ("a", ())]
    constraintEnabled := [("b", false), ("a", true)] }

/-- It answers as well, and as far from the desired control `-2` as `-1` is. -/
example : ∃ w, (discreteASIF refNLP stepNext stepSwapped (.array 1) (1 / 2) [-2]).1 = .ok w ∧ sqDist w [-2] = sqDist [-1] [-2] := by
  have hinv : DiscInv stepSwapped := by
    refine ⟨⟨by simp [stepSwapped, dictKeys], rfl, rfl⟩, ?_, ?_, rfl, rfl⟩
    · simp [stepSwapped, stepObj, slackScales, stepC]
    · simp [stepSwapped, stepObj, slackWeights, stepC]
  obtain ⟨w, h1, h2, -⟩ := C93_discrete_order_answers refNLP_sound refNLP_global refNLP_complete (step_inv true) hinv rfl rfl rfl
    (by simp [stepObj, stepC]) rfl rfl rfl (List.Perm.swap ..) (by simp [stepObj, stepC]) (lo := some (-2)) (hi := some 2) rfl rfl
    (by norm_num) step_call
  exact ⟨w, h1, h2⟩

/-! ### Which control is returned may depend on the order -/

open Classical in
/-- An exact solver that, when the opposite of its solution is a solution too, chooses by looking at the first inequality. -/
noncomputable def tieNLP : NLPSolver ℝ := fun obj x0 fs bounds =>
  let r := refNLP obj x0 fs bounds
  if r.success = true ∧ NLPFeasible fs bounds (r.x.map (- ·)) ∧ obj (r.x.map (- ·)) ≤ obj r.x ∧
      (0 ≤ fs.headD (fun _ => 0) [0] ↔ 0 < r.x.getD 0 0) then ⟨true, r.x.map (- ·)⟩ else r

theorem tieNLP_sound : NLPSound tieNLP := by
  intro obj x0 fs bounds hx hs
  unfold tieNLP at hs ⊢
  simp only at hs ⊢
  split
  · rename_i h
    exact h.2.1
  · rename_i h
    rw [if_neg h] at hs
    exact refNLP_sound obj x0 fs bounds hx hs

theorem tieNLP_global : NLPGlobal tieNLP := by
  intro obj x0 fs bounds hx hs z hz
  unfold tieNLP at hs ⊢
  simp only at hs ⊢
  split
  · rename_i h
    exact h.2.2.1.trans (refNLP_global obj x0 fs bounds hx h.1 z hz)
  · rename_i h
    rw [if_neg h] at hs
    exact refNLP_global obj x0 fs bounds hx hs z hz

theorem tieNLP_complete : NLPComplete tieNLP := by
  intro obj x0 fs bounds hx hex
  unfold tieNLP
  simp only
  split
  · rfl
  · exact refNLP_complete obj x0 fs bounds hx hex

/-- Stay at least one away from the origin. -/
noncomputable def tieAway : Constraint ℝ ℝ Unit := Constraint.mk' (fun x _ => x ^ 2 - 1) (fun x _ => [2 * x]) (some id) ()

/-- A constraint that always holds. -/
noncomputable def tieTrivial : Constraint ℝ ℝ Unit := Constraint.mk' (fun _ _ => 1) (fun _ _ => [0]) (some id) ()

/-- A module with these constraints, in one order or the other, and control bounds ±2. -/
noncomputable def tieObj (swap : Bool) : DiscObj ℝ ℝ Unit :=
  { toBase := Base.init (some (.scalar 2)) (some (.scalar (-2)))
    constraints := if swap then [("b", tieTrivial), ("a", tieAway)] else [("a", tieAway), ("b", tieTrivial)]
    params := if swap then [("b", ()), ("a", ())] else [("a", ()), ("b", ())]
    constraintEnabled := if swap then [("b", true), ("a", true)] else [("a", true), ("b", true)]
    constraintValues := [], isStaleConstraints := false
    ext := { epsilon := 1 / 10000, controlDim := 1, solverException := true, numSlack := 0, objWeight := [1]
             optLow := some (.scalar (-2)), optHigh := some (.scalar 2) } }

theorem tie_init (swap : Bool) : discInit (some (.scalar 2)) (some (.scalar (-2)))
    (if swap then [("b", tieTrivial), ("a", tieAway)] else [("a", tieAway), ("b", tieTrivial)]) none (1 / 10000) 1 true = .ok (tieObj swap) := by
  cases swap <;> rfl

theorem tie_inv (swap : Bool) : DiscInv (tieObj swap) := by
  cases swap <;>
    exact ⟨⟨by simp [tieObj, dictKeys], rfl, rfl⟩, by simp [tieObj, slackScales, tieAway, tieTrivial, Constraint.mk'],
      by simp [tieObj, slackWeights, tieAway, tieTrivial, Constraint.mk'], rfl, rfl⟩

/-- What the solver answers to either problem: the sign depends on the first inequality. -/
theorem tie_solved {obj : List ℝ → ℝ} {fs : List (List ℝ → ℝ)} (hobj : ∀ a, obj [a] = a * a / 2)
    (hf : ∀ a : ℝ, (∀ f ∈ fs, 0 ≤ f [a]) ↔ 1 ≤ a * a) :
    tieNLP obj [0] fs [(some (-2), some 2)] = ⟨true, if 0 ≤ fs.headD (fun _ => 0) [0] then [-1] else [1]⟩ := by
  have hfeas : ∀ z : List ℝ, NLPFeasible fs [(some (-2), some 2)] z ↔ ∃ a, z = [a] ∧ 1 ≤ a * a ∧ -2 ≤ a ∧ a ≤ 2 := by
    intro z
    constructor
    · intro h
      obtain ⟨a, rfl⟩ := List.length_eq_one_iff.1 h.len
      exact ⟨a, rfl, (hf a).1 h.ineq, h.low 0 _ _ rfl a rfl, h.high 0 _ _ rfl a rfl⟩
    · rintro ⟨a, rfl, h1, h2, h3⟩
      refine ⟨rfl, ?_, ?_, (hf a).2 h1⟩
      · intro i l h hi v hv
        rcases i with _ | i
        · simp at hi hv; rw [← hi.1, ← hv]; linarith
        · simp at hi
      · intro i l h hi v hv
        rcases i with _ | i
        · simp at hi hv; rw [← hi.2, ← hv]; linarith
        · simp at hi
  have hone : NLPFeasible fs [(some (-2), some 2)] [1] := (hfeas _).2 ⟨1, rfl, by norm_num, by norm_num, by norm_num⟩
  have hsucc := refNLP_complete obj [0] fs [(some (-2), some 2)] rfl ⟨[1], hone, fun y hy => by
    obtain ⟨a, rfl, h1, -⟩ := (hfeas y).1 hy
    rw [hobj, hobj]; linarith⟩
  have hs := refNLP_sound obj [0] fs [(some (-2), some 2)] rfl hsucc
  have hg := refNLP_global obj [0] fs [(some (-2), some 2)] rfl hsucc [1] hone
  unfold tieNLP
  simp only
  generalize refNLP obj [0] fs [(some (-2), some 2)] = r at hsucc hs hg ⊢
  obtain ⟨ok, z⟩ := r
  simp only at hsucc hs hg ⊢
  subst hsucc
  obtain ⟨a, rfl, h1, h2, h3⟩ := (hfeas z).1 hs
  rw [hobj, hobj] at hg
  have ha : a = 1 ∨ a = -1 := by
    have : (a - 1) * (a + 1) = 0 := by nlinarith
    rcases mul_eq_zero.1 this with h | h
    · exact Or.inl (by linarith)
    · exact Or.inr (by linarith)
  have hneg : NLPFeasible fs [(some (-2), some 2)] [-a] := (hfeas _).2 ⟨-a, rfl, by nlinarith, by linarith, by linarith⟩
  simp only [List.map_cons, List.map_nil, hneg, hobj, neg_mul_neg, le_refl, true_and, List.getD_cons_zero]
  generalize fs.headD (fun _ => 0) [0] = q
  by_cases hh : 0 ≤ q <;> rcases ha with rfl | rfl <;> norm_num [hh]

theorem tie_call (swap : Bool) : (discreteASIF tieNLP stepNext (tieObj swap) (.array 0) 1 [0]).1 = .ok (if swap then [-1] else [1]) := by
  rw [C40_problem tieNLP stepNext (tie_inv swap) rfl (lo := some (-2)) (hi := some 2) rfl rfl
    (by cases swap <;> simp [tieObj, tieAway, tieTrivial, Constraint.mk']) 0 1 [0] rfl]
  have e := tie_solved (obj := discObj (tieObj swap).ext.objWeight ([0] ++ zeros (tieObj swap).ext.numSlack))
    (fs := discreteIneqs stepNext (tieObj swap) 0 1) (by intro a; simp [discObj, tieObj, dot])
    (by
      intro a
      cases swap <;> simp [discreteIneqs, numberSlack, tieObj, tieAway, tieTrivial, Constraint.mk', hval, stepNext, pow_two])
  have eb : List.replicate (tieObj swap).ext.controlDim (some (-2 : ℝ), some (2 : ℝ)) ++
      List.replicate (tieObj swap).ext.numSlack (none, none) = [(some (-2), some 2)] := rfl
  have ez : ([0] ++ zeros (tieObj swap).ext.numSlack : List ℝ) = [0] := rfl
  rw [ez] at e ⊢
  rw [eb]
  simp only [e, Bool.true_eq_false, false_and, if_false]
  have hh : (0 ≤ (discreteIneqs stepNext (tieObj swap) 0 1).headD (fun _ => 0) [0]) ↔ swap = true := by
    cases swap <;> simp [discreteIneqs, numberSlack, tieObj, tieAway, tieTrivial, Constraint.mk', hval, stepNext]
  have hclip : ∀ a : ℝ, -2 ≤ a → a ≤ 2 → (tieObj swap).toBase.clipControl [a] = .ok [a] := by
    intro a h1 h2
    refine C05_clip_identity (tieObj swap).toBase _ trivial trivial ?_
    intro i v hv
    rcases i with _ | i
    · simp at hv
      subst hv
      constructor <;> intro b hb <;> simp [tieObj, Base.init, boundAt] at hb <;> subst hb <;> assumption
    · simp at hv
  have et : (tieObj swap).ext.controlDim = 1 := rfl
  simp only [hh, et]
  cases swap
  · exact hclip 1 (by norm_num) (by norm_num)
  · exact hclip (-1) (by norm_num) (by norm_num)

/-- **C93, order, is false for the control itself of a discrete module**: with an exact solver, two modules that list the same two constraints in different
orders return opposite controls in the same state for the same desired control. -/
theorem C93_refuted_discrete_order : NLPSound tieNLP ∧ NLPGlobal tieNLP ∧ NLPComplete tieNLP ∧ (tieObj true).constraints.Perm (tieObj false).constraints ∧
    (discreteASIF tieNLP stepNext (tieObj false) (.array 0) 1 [0]).1 = .ok [1] ∧
    (discreteASIF tieNLP stepNext (tieObj true) (.array 0) 1 [0]).1 = .ok [-1] :=
  ⟨tieNLP_sound, tieNLP_global, tieNLP_complete, List.Perm.swap .., tie_call false, tie_call true⟩

end RTA
