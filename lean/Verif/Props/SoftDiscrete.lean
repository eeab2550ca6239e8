import Verif.Props.Soft
import Verif.Props.Discrete

/-!
C117 for discrete time modules: here a soft constraint costs `scale · violation²`, with the scale itself and not its square root.
-/
set_option linter.unusedSectionVars false
namespace RTA
variable {K S P X : Type}
section
variable [Field K] [LinearOrder K] [IsStrictOrderedRing K]

theorem firmD_admissible {next : S → K → List K → S} {s : DiscObj K S P} {x : S} {dt : K} (hdt : 0 < dt)
    (hal : HasAlpha s.constraints) {w : List K} (h : FirmOKD next s x dt w) :
    AdmissibleDS next s x dt w (bestSlack (fun c => violationD next c x dt w) s.constraints) := by
  refine ⟨h.len, bestSlack_length _ _, h.bounds, fun cd hcd hen => ?_⟩
  obtain ⟨⟨q, hq⟩, h1, h2⟩ := bestSlack_assign (fun c => violationD next c x dt w) s.constraints cd hcd
  rcases hs : cd.1.slackPriorityScale with _ | v
  · rw [h2 hs]; exact h.barrier _ hq hen hs
  · rw [h1 hen (by rw [hs]; rfl)]; exact discrete_violation (hal _ hq hen) x hdt w

theorem admissible_firmD {next : S → K → List K → S} {s : DiscObj K S P} {x : S} {dt : K} {w d : List K}
    (h : AdmissibleDS next s x dt w d) : FirmOKD next s x dt w :=
  ⟨h.len, h.bounds, fun kc hkc hen hs => h.barrier _ (firm_assigned hs hkc) hen⟩

variable [HasSqrt K] [LawfulSqrt K]

/-- **C117, discrete, penalty**: the returned control satisfies everything that has no slack, and no such control has a smaller
squared distance from the desired control plus `scale · violation²` for each enabled soft constraint. -/
theorem C117_discrete_penalty {solver : NLPSolver K} (hsound : NLPSound solver) (hglob : NLPGlobal solver)
    {next : S → K → List K → S} {s s' : DiscObj K S P} {x : S} {dt : K} {u v : List K}
    (hinv : DiscInv s) (hpos : ScalesPos s.constraints) (hen : s.enable = true) (hdt : 0 < dt)
    (hexc : s.ext.solverException = true) (hal : HasAlpha s.constraints)
    (h : discreteASIF solver next s (.array x) dt u = (.ok v, s')) :
    FirmOKD next s x dt v ∧ ∀ w, FirmOKD next s x dt w →
      softCost id (fun c y => violationD next c x dt y) s.constraints u v ≤
        softCost id (fun c y => violationD next c x dt y) s.constraints u w := by
  obtain ⟨d, had, hmin⟩ := C40_closest_admissible hsound hglob hinv hpos hen hdt hexc h
  refine ⟨admissible_firmD had, fun w hw => ?_⟩
  have h1 := slack_cost_ge (φ := id) (fun c => violationD next c x dt v) (fun w hw => (hpos w hw).le) had.slen
    (fun cd hcd he => discrete_le hdt (had.barrier cd hcd he))
  have h2 := hmin w _ (firmD_admissible hdt hal hw)
  have h3 := bestSlack_cost id (fun c => violationD next c x dt w) s.constraints
  rw [List.map_id] at h1 h3
  unfold slackCost at h2
  rw [h3] at h2
  unfold softCost
  linarith

/-- **C117, discrete, bound**: if control `a` satisfies every condition without slack, each enabled soft constraint is missed by at
most `√((|a - u|² - |v - u|²) / scale)`. -/
theorem C117_discrete_bound {solver : NLPSolver K} (hsound : NLPSound solver) (hglob : NLPGlobal solver)
    {next : S → K → List K → S} {s s' : DiscObj K S P} {x : S} {dt : K} {u v : List K}
    (hinv : DiscInv s) (hpos : ScalesPos s.constraints) (hen : s.enable = true) (hdt : 0 < dt)
    (hexc : s.ext.solverException = true) (hal : HasAlpha s.constraints)
    (h : discreteASIF solver next s (.array x) dt u = (.ok v, s')) (a : List K) (ha : FirmOKD next s x dt a)
    (has : ∀ kc ∈ s.constraints, kc.2.enabled = true → DiscreteOK next kc.2 x dt a 0) :
    sqDist v u ≤ sqDist a u ∧ ∀ q c w, (q, c) ∈ s.constraints → c.enabled = true → c.slackPriorityScale = some w →
      w * (violationD next c x dt v * violationD next c x dt v) ≤ sqDist a u - sqDist v u := by
  obtain ⟨-, hmin⟩ := C117_discrete_penalty hsound hglob hinv hpos hen hdt hexc hal h
  have hle := hmin a ha
  have hz : (s.constraints.map fun kc => penalty id kc.2 (violationD next kc.2 x dt a)).sum = 0 := by
    refine List.sum_eq_zero fun p hp => ?_
    obtain ⟨kc, hkc, rfl⟩ := List.mem_map.1 hp
    unfold penalty
    rcases kc.2.slackPriorityScale with _ | w
    · rfl
    · simp only
      split
      · rename_i he
        have h1 := discrete_le hdt (has kc hkc he)
        have h2 := violationD_nonneg next kc.2 x dt a
        have : violationD next kc.2 x dt a = 0 := by nlinarith
        rw [this]; simp
      · rfl
  have hnn : ∀ l : Dict (Constraint K S P), (∀ kc ∈ l, kc ∈ s.constraints) →
      0 ≤ (l.map fun kc => penalty id kc.2 (violationD next kc.2 x dt v)).sum := by
    intro l hl
    refine List.sum_nonneg fun p hp => ?_
    obtain ⟨kc, hkc, rfl⟩ := List.mem_map.1 hp
    exact penalty_nonneg (fun w hw => (hpos w (List.mem_filterMap.2 ⟨kc, hl kc hkc, hw⟩)).le) _
  unfold softCost at hle
  simp only [hz, add_zero] at hle
  refine ⟨?_, fun q c w hqc he hw => ?_⟩
  · have := hnn s.constraints (fun _ h => h)
    linarith
  · obtain ⟨l, r, hlr⟩ := List.append_of_mem hqc
    have h1 := hnn l (fun _ h => by rw [hlr]; simp [h])
    have h2 := hnn r (fun _ h => by rw [hlr]; simp [h])
    rw [hlr, List.map_append, List.sum_append, List.map_cons, List.sum_cons] at hle
    have e : penalty id c (violationD next c x dt v) = w * (violationD next c x dt v * violationD next c x dt v) := by
      simp [penalty, hw, he]
    simp only [e] at hle
    linarith

/-- **C117, discrete, priority**: raising the scale of one constraint never makes its violation larger. -/
theorem C117_discrete_priority {solver : NLPSolver K} (hsound : NLPSound solver) (hglob : NLPGlobal solver)
    {next : S → K → List K → S} {s s' t t' : DiscObj K S P} {x : S} {dt : K} {u v v' : List K}
    (hinvs : DiscInv s) (hinvt : DiscInv t) (hposs : ScalesPos s.constraints) (hpost : ScalesPos t.constraints)
    (hens : s.enable = true) (hent : t.enable = true) (hdt : 0 < dt) (hexcs : s.ext.solverException = true)
    (hexct : t.ext.solverException = true) (hals : HasAlpha s.constraints) (halt : HasAlpha t.constraints)
    (hlow : t.controlBoundsLow = s.controlBoundsLow) (hhigh : t.controlBoundsHigh = s.controlBoundsHigh)
    (hdim : t.ext.controlDim = s.ext.controlDim) {a b : Dict (Constraint K S P)} {q : String} {c : Constraint K S P} {w w' : K}
    (es : s.constraints = a ++ (q, c) :: b)
    (et : t.constraints = a ++ (q, { c with slackPriorityScale := some w' }) :: b) (hw : c.slackPriorityScale = some w)
    (hec : c.enabled = true) (hww : w < w') (hs : discreteASIF solver next s (.array x) dt u = (.ok v, s'))
    (ht : discreteASIF solver next t (.array x) dt u = (.ok v', t')) :
    violationD next c x dt v' ≤ violationD next c x dt v := by
  obtain ⟨hv, hmin⟩ := C117_discrete_penalty hsound hglob hinvs hposs hens hdt hexcs hals hs
  obtain ⟨hv', hmin'⟩ := C117_discrete_penalty hsound hglob hinvt hpost hent hdt hexct halt ht
  have f1 : FirmOKD next s x dt v' := by
    refine ⟨hv'.len.trans hdim, by rw [← hlow, ← hhigh]; exact hv'.bounds, fun kc hkc he hn => ?_⟩
    rw [es] at hkc
    rcases List.mem_append.1 hkc with hk | hk
    · exact hv'.barrier kc (by rw [et]; simp [hk]) he hn
    · rcases List.mem_cons.1 hk with rfl | hk
      · rw [hw] at hn; cases hn
      · exact hv'.barrier kc (by rw [et]; simp [hk]) he hn
  have f2 : FirmOKD next t x dt v := by
    refine ⟨hv.len.trans hdim.symm, by rw [hlow, hhigh]; exact hv.bounds, fun kc hkc he hn => ?_⟩
    rw [et] at hkc
    rcases List.mem_append.1 hkc with hk | hk
    · exact hv.barrier kc (by rw [es]; simp [hk]) he hn
    · rcases List.mem_cons.1 hk with rfl | hk
      · cases hn
      · exact hv.barrier kc (by rw [es]; simp [hk]) he hn
  have h1 := hmin v' f1
  have h2 := hmin' v f2
  unfold softCost at h1 h2
  rw [es] at h1
  rw [et] at h2
  simp only [List.map_append, List.sum_append, List.map_cons, List.sum_cons] at h1 h2
  have ev : ∀ y, violationD next { c with slackPriorityScale := some w' } x dt y = violationD next c x dt y := fun _ => rfl
  simp only [ev] at h2
  simp only [penalty, hw, hec, if_true, id] at h1 h2
  by_contra hge
  have hsq := mul_self_lt_mul_self (violationD_nonneg next c x dt v) (not_le.1 hge)
  nlinarith
end

/-! ### Example

`x⁺ = x + dt·u`, `h(x) = x` with scale `w`, at `x = 0`: desired control `-1` leads to `-1/(1 + w)`. -/

noncomputable def softC (w : ℝ) : Constraint ℝ ℝ Unit :=
  { computeFn := fun x _ => x, phiFn := fun x _ => x, gradFn := fun _ _ => [1], alpha := some id, alphaNeg := none
    bias := 0, biasNegative := 0, slackPriorityScale := some w, params := (), enabled := true, subsample := {} }

noncomputable def softObj (w : ℝ) : DiscObj ℝ ℝ Unit :=
  { toBase := Base.init (some (.scalar 2)) (some (.scalar (-2)))
    constraints := [("a", softC w)], params := [("a", ())]
    constraintEnabled := [("a", true)], constraintValues := [], isStaleConstraints := false
    ext := { epsilon := 1 / 10000, controlDim := 1, solverException := true, numSlack := 1, objWeight := [1] ++ slackWeights [("a", softC w)]
             optLow := some (.scalar (-2)), optHigh := some (.scalar 2) } }

theorem soft_inv (w : ℝ) : DiscInv (softObj w) :=
  discInv_init (all := [("a", softC w)]) (by simp [dictKeys]) (rfl : discInit (some (.scalar 2)) (some (.scalar (-2))) [("a", softC w)] none
    (1 / 10000) 1 true = .ok (softObj w))

theorem soft_pos {w : ℝ} (hw : 0 < w) : ScalesPos (softObj w).constraints := by
  intro q hq
  simp only [softObj, slackScales, softC, List.filterMap_cons, List.filterMap_nil, List.mem_singleton] at hq
  subst hq; exact hw

theorem soft_alpha (w : ℝ) : HasAlpha (softObj w).constraints := by
  intro kc hkc _
  simp only [softObj, List.mem_singleton] at hkc
  subst hkc; rfl

theorem soft_call {w : ℝ} (hw : 0 < w) : ∃ s', discreteASIF refNLP stepNext (softObj w) (.array 0) (1 / 2) [-1] =
    (.ok [-(1 / (1 + w))], s') := by
  suffices e : (discreteASIF refNLP stepNext (softObj w) (.array 0) (1 / 2) [-1]).1 = .ok [-(1 / (1 + w))] from
    ⟨_, Prod.ext e rfl⟩
  have hp := C40_problem refNLP stepNext (soft_inv w) rfl (lo := some (-2)) (hi := some 2) rfl rfl
    (by simp [softObj, softC]) 0 (1 / 2) [-1] rfl
  rw [hp]
  simp only
  have hden : (1 + w) * (1 / (1 + w)) = 1 := by field_simp
  have hp0 : 0 < 1 / (1 + w) := by positivity
  have hp1 : 1 / (1 + w) ≤ 1 := by rw [div_le_one (by linarith)]; linarith
  set p : ℝ := 1 / (1 + w) with hpdef
  have hfeas : ∀ z : List ℝ, NLPFeasible (discreteIneqs stepNext (softObj w) 0 (1 / 2))
      (List.replicate (softObj w).ext.controlDim (some (-2 : ℝ), some (2 : ℝ)) ++
        List.replicate (softObj w).ext.numSlack (none, none)) z ↔ ∃ a d, z = [a, d] ∧ -2 ≤ a ∧ a ≤ 2 ∧ d ≤ a := by
    intro z
    have ef : discreteIneqs stepNext (softObj w) 0 (1 / 2) = [fun z => (1 / 2 * (z.take 1).getD 0 0) / (1 / 2) - z.getD 1 0] := by
      simp [discreteIneqs, numberSlack, softObj, softC, hval, stepNext]
    have eb : List.replicate (softObj w).ext.controlDim (some (-2 : ℝ), some (2 : ℝ)) ++
        List.replicate (softObj w).ext.numSlack (none, none) = [(some (-2), some 2), (none, none)] := rfl
    rw [ef, eb]
    constructor
    · intro h
      obtain ⟨a, d, rfl⟩ := List.length_eq_two.1 h.len
      have h1 := h.ineq _ List.mem_cons_self
      have h2 := h.high 0 _ _ rfl a rfl
      have h3 := h.low 0 _ _ rfl a rfl
      simp only [List.take_succ_cons, List.take_zero, List.getD_cons_zero, List.getD_cons_succ] at h1
      exact ⟨a, d, rfl, h3, h2, by linarith⟩
    · rintro ⟨a, d, rfl, h1, h2, h3⟩
      refine ⟨rfl, ?_, ?_, ?_⟩
      · intro i l h hi v hv
        rcases i with _ | i
        · simp at hi hv; rw [← hi.1, ← hv]; linarith
        · rcases i with _ | i <;> simp at hi
      · intro i l h hi v hv
        rcases i with _ | i
        · simp at hi hv; rw [← hi.2, ← hv]; linarith
        · rcases i with _ | i <;> simp at hi
      · intro f hf
        simp only [List.mem_singleton] at hf
        subst hf
        simp only [List.take_succ_cons, List.take_zero, List.getD_cons_zero, List.getD_cons_succ]
        linarith
  have hobj : ∀ a d : ℝ, discObj (softObj w).ext.objWeight ([-1] ++ zeros (softObj w).ext.numSlack) [a, d] =
      ((a + 1) * (a + 1) + w * (d * d)) / 2 - 1 / 2 := by
    intro a d
    have := C40_objective (soft_inv w) (soft_pos hw) [-1] [a] [d] rfl rfl rfl
    have e : [a] ++ [d] = [a, d] := rfl
    rw [e] at this
    rw [this]
    simp [slackCost, sqDist, sqNorm, vsub, dot, softObj, slackScales, softC]
  have hkey : ∀ a d : ℝ, d ≤ a → (1 - p) * (1 - p) + w * (p * p) + (a + p) * (a + p) ≤ (a + 1) * (a + 1) + w * (d * d) := by
    intro a d hd
    have hwp : w * p = 1 - p := by linarith
    have e1 : w * p * a = (1 - p) * a := by rw [hwp]
    have e2 : w * p * p = (1 - p) * p := by rw [hwp]
    nlinarith [mul_nonneg hw.le (mul_self_nonneg (d + p)), mul_nonneg (mul_nonneg hw.le hp0.le) (sub_nonneg.2 hd)]
  have hin : ∀ q : ℝ, q = -p → -2 ≤ q ∧ q ≤ 2 ∧ q ≤ q := by rintro q rfl; exact ⟨by linarith, by linarith, le_rfl⟩
  have hex : ∃ z, NLPFeasible (discreteIneqs stepNext (softObj w) 0 (1 / 2))
      (List.replicate (softObj w).ext.controlDim (some (-2 : ℝ), some (2 : ℝ)) ++
        List.replicate (softObj w).ext.numSlack (none, none)) z ∧
      ∀ y, NLPFeasible (discreteIneqs stepNext (softObj w) 0 (1 / 2))
        (List.replicate (softObj w).ext.controlDim (some (-2 : ℝ), some (2 : ℝ)) ++
        List.replicate (softObj w).ext.numSlack (none, none)) y →
        discObj (softObj w).ext.objWeight ([-1] ++ zeros (softObj w).ext.numSlack) z ≤
          discObj (softObj w).ext.objWeight ([-1] ++ zeros (softObj w).ext.numSlack) y := by
    refine ⟨[-p, -p], (hfeas _).2 ⟨-p, -p, rfl, hin _ rfl⟩, fun y hy => ?_⟩
    obtain ⟨a, d, rfl, -, -, h3⟩ := (hfeas y).1 hy
    rw [hobj, hobj]
    nlinarith [hkey a d h3, mul_self_nonneg (a + p)]
  unfold refNLP
  rw [dif_pos hex]
  obtain ⟨z, hz⟩ : ∃ z, z = hex.choose := ⟨_, rfl⟩
  have hspec := hex.choose_spec
  rw [← hz] at hspec ⊢
  obtain ⟨a, d, rfl, h1, h2, h4⟩ := (hfeas z).1 hspec.1
  have h3 := hspec.2 [-p, -p] ((hfeas _).2 ⟨-p, -p, rfl, hin _ rfl⟩)
  rw [hobj, hobj] at h3
  have h5 := hkey a d h4
  have h6 : (a + p) * (a + p) ≤ 0 := by nlinarith
  have : a = -p := by
    have : (a + p) * (a + p) = 0 := le_antisymm h6 (mul_self_nonneg _)
    have := mul_self_eq_zero.1 this
    linarith
  subst this
  simp only [Bool.true_eq_false, false_and, if_false]
  exact C05_clip_identity (softObj w).toBase _ trivial trivial (by
    intro i v hv
    rcases i with _ | i
    · simp [softObj] at hv
      subst hv
      constructor <;> intro b hb <;> simp [softObj, Base.init, boundAt] at hb <;> subst hb <;> linarith
    · simp [softObj] at hv)

/-- The hypotheses of the theorems, with scales 4 and 9: the answers are `-1/5` and `-1/10`. -/
example : ∃ v v' s' t', discreteASIF refNLP stepNext (softObj 4) (.array 0) (1 / 2) [-1] = (.ok v, s') ∧
    discreteASIF refNLP stepNext (softObj 9) (.array 0) (1 / 2) [-1] = (.ok v', t') ∧
    FirmOKD stepNext (softObj 4) 0 (1 / 2) v ∧
    violationD stepNext (softC 4) 0 (1 / 2) v' ≤ violationD stepNext (softC 4) 0 (1 / 2) v ∧
    4 * (violationD stepNext (softC 4) 0 (1 / 2) v * violationD stepNext (softC 4) 0 (1 / 2) v) ≤ sqDist [0] [-1] - sqDist v [-1] := by
  obtain ⟨s', h⟩ := soft_call (w := 4) (by norm_num)
  obtain ⟨t', h'⟩ := soft_call (w := 9) (by norm_num)
  have hz : DiscreteOK stepNext (softC 4) 0 (1 / 2) [0] 0 := ⟨id, rfl, by simp [hval, softC, stepNext]⟩
  refine ⟨_, _, _, _, h, h', (C117_discrete_penalty refNLP_sound refNLP_global (soft_inv 4) (soft_pos (by norm_num)) rfl (by norm_num)
    rfl (soft_alpha 4) h).1, C117_discrete_priority (a := []) (b := []) (q := "a") (w := 4) (w' := 9) refNLP_sound refNLP_global
    (soft_inv 4) (soft_inv 9) (soft_pos (by norm_num)) (soft_pos (by norm_num)) rfl rfl (by norm_num) rfl rfl (soft_alpha 4)
    (soft_alpha 9) rfl rfl rfl rfl rfl rfl rfl (by norm_num) h h', ?_⟩
  refine (C117_discrete_bound refNLP_sound refNLP_global (soft_inv 4) (soft_pos (by norm_num)) rfl (by norm_num) rfl (soft_alpha 4) h
    [0] ⟨rfl, ?_, fun kc hkc _ hn => ?_⟩ fun kc hkc _ => ?_).2 "a" (softC 4) 4 (by simp [softObj]) rfl rfl
  · intro i v hv
    rcases i with _ | i
    · simp at hv
      subst hv
      constructor <;> intro b hb <;> simp [softObj, Base.init, boundAt] at hb <;> subst hb <;> norm_num
    · simp at hv
  · simp only [softObj, List.mem_singleton] at hkc
    subst hkc; simp [softC] at hn
  · simp only [softObj, List.mem_singleton] at hkc
    subst hkc; exact hz

end RTA
