import Verif.Lemmas.SmallSteps
import Verif.Lemmas.DiscreteTotal
import Verif.Props.Continuity
import Verif.Props.Discrete

/-!
C112: for small steps a discrete-time module answers like the explicit module with the same constraints.

In states where every enabled constraint holds the answers converge (`C112_small_steps_partial`). In states where a constraint is
violated they do not: the explicit module switches to the strengthener for negative values, the discrete one keeps the ordinary one
(`C112_refuted_violated`).
-/
namespace RTA
open Filter
variable {ι S P X : Type}

/-- **C112, where the constraints hold.** Let an explicit and a discrete-time module have the same constraints (none with slack, no
enabled direct inequalities) and the same control bounds, and let the prediction of the discrete one agree to first order with the
dynamics of the explicit one. In a state where every enabled constraint holds and some control satisfies all conditions strictly, the
explicit call answers, and the answers of the discrete calls tend to its answer as the step size tends to zero. (What is missing:
violated constraints, for which it is false, see `C112_refuted_violated`, and slack variables, which the two modules weigh
differently.) -/
theorem C112_small_steps_partial {solver : Solver ℝ} (hspec : SolverSpec solver) {nlp : NLPSolver ℝ} (hsound : NLPSound nlp)
    (hglob : NLPGlobal nlp) {f : S → List ℝ} {g : S → List (List ℝ)} {next : S → ℝ → List ℝ → S} {s : ASIFObj ℝ S P X}
    {t : DiscObj ℝ S P} (hs : ExplicitModule solver f g s) (ht : DiscInv t) (hen : s.enable = true) (hent : t.enable = true)
    (hexc : t.ext.solverException = true) (hcs : t.constraints = s.constraints) (hlo : t.controlBoundsLow = s.controlBoundsLow)
    (hhi : t.controlBoundsHigh = s.controlBoundsHigh) (hdim : t.ext.controlDim = s.ext.controlDim)
    (hslack : slackScales s.constraints = []) (hdir : ∀ kc ∈ s.ext.direct, kc.2.enabled = false) {x : S} (hx : ShapesOK f g s x)
    (hsafe : ∀ kc ∈ s.constraints, kc.2.enabled = true → 0 ≤ hval kc.2 x)
    (hc : ConsistentStep f g next s.constraints s.ext.controlDim x) (hstrict : ∃ z, StrictS f g s x z []) {l : Filter ι}
    {dta : ι → ℝ} (hdt : Tendsto dta l (nhds 0)) (hpos : ∀ᶠ a in l, 0 < dta a) (dt : ℝ) {u : List ℝ}
    (hu : u.length = s.ext.controlDim) {va : ι → List ℝ}
    (hva : ∀ᶠ a in l, (discreteASIF nlp next t (.array x) (dta a) u).1 = .ok (va a)) :
    ∃ v, (explicitASIF solver f g s (.array x) dt u).1 = .ok v ∧
      ∀ ε > 0, ∀ᶠ a in l, (va a).length = v.length ∧ ∀ i, |(va a).getD i 0 - v.getD i 0| ≤ ε := by
  obtain ⟨z, hz⟩ := hstrict
  have hsp : ScalesPos s.constraints := by rw [ScalesPos, hslack]; simp
  have hq : qpWeights s = [] := by rw [qpWeights, hslack]; rfl
  obtain ⟨v, hv⟩ := (explicit_total hspec hs.inv.1 hs.inv.2 hsp hx dt hu hen).1 ⟨z, [], hz.admissible⟩
  obtain ⟨-, d, -, h1, h2, -⟩ := explicit_solved hspec hs.inv.1 hs.inv.2 hsp hen
    (show explicitASIF solver f g s (.array x) dt u = (.ok v, (explicitASIF solver f g s (.array x) dt u).2) from
      Prod.ext hv rfl) ⟨z, [], hz.admissible⟩
  rw [hq] at h2
  have hvmin : ∀ w e, AdmissibleS f g s x w e → slackCost [] u v d ≤ slackCost [] u w e := by
    intro w e hw
    by_cases he : v ++ d = w ++ e
    · obtain ⟨rfl, rfl⟩ := List.append_inj he (h1.len.trans hw.len.symm)
      exact le_rfl
    · exact (h2 w e hw he).le
  have hdisc : ∀ᶠ a in l, AdmissibleDS next t x (dta a) (va a) [] ∧
      ∀ w e, AdmissibleDS next t x (dta a) w e → slackCost [] u (va a) [] ≤ slackCost [] u w e := by
    filter_upwards [hva, hpos] with a ha hp
    obtain ⟨e, he, hm⟩ := C40_closest_admissible hsound hglob ht (by rw [hcs]; exact hsp) hent hp hexc
      (show discreteASIF nlp next t (.array x) (dta a) u = (.ok (va a), (discreteASIF nlp next t (.array x) (dta a) u).2) from
        Prod.ext ha rfl)
    have e0 : e = [] := List.length_eq_zero_iff.1 (by rw [he.slen, hcs, hslack]; rfl)
    subst e0
    rw [hcs, hslack] at hm
    exact ⟨he, hm⟩
  have hcont := min_continuous (W := []) (by simp) (l := l) (Ca := fun a => AdmissibleDS next t x (dta a)) (C := AdmissibleS f g s x)
    (Str := StrictS f g s x) (n := s.ext.controlDim) (m := (slackScales s.constraints).length) (fun w e h => ⟨h.len, h.slen⟩)
    (fun a w e h => ⟨h.len.trans hdim, by rw [← hcs]; exact h.slen⟩) (fun t h0 h1 a b d e ha hb => admissibleS_mix h0 h1 ha hb)
    hz.admissible (fun t t0 t1 w e hw => strict_mix hx hz t0 t1 hw)
    (fun w e hw => step_inner hcs hlo hhi hdim hx hsafe hc hdt hpos hw)
    (fun wa ea hb hwa r t0 t1 => step_outer hcs hlo hhi hdim hdir hx hsafe hc hdt hpos hz hb hwa t0 t1) hu h1 hvmin
    (hdisc.mono fun a h => h.1) (hdisc.mono fun a h => h.2)
  refine ⟨v, hv, fun ε hε => ?_⟩
  filter_upwards [hcont (ε ^ 2) (by positivity), hdisc] with a ha hd
  have hl : (va a).length = v.length := (hd.1.len.trans hdim).trans h1.len.symm
  exact ⟨hl, fun i => abs_le_of_sq_le_sq ((getD_sq_le hl i).trans ha) hε.le⟩

/-- The discrete-time module with the constraint `x ≥ 0` and the bounds of `toyObj none`. -/
noncomputable def smallObj : DiscObj ℝ ℝ Unit :=
  { toBase := Base.init (some (.scalar 2)) (some (.scalar (-2)))
    constraints := [("c", toyC none)], params := [("c", ())], constraintEnabled := [("c", true)], constraintValues := []
    isStaleConstraints := false
    ext := { epsilon := 1 / 10000, controlDim := 1, solverException := true, numSlack := 0, objWeight := [1]
             optLow := some (.scalar (-2)), optHigh := some (.scalar 2) } }

theorem small_init : discInit (some (.scalar 2)) (some (.scalar (-2))) [("c", toyC none)] none (1 / 10000) 1 true = .ok smallObj := rfl

theorem small_inv : DiscInv smallObj := discInv_init (by simp [dictKeys]) small_init

/-- `x⁺ = x + dt·u - dt²·k`. -/
noncomputable def quadNext (k : ℝ) : ℝ → ℝ → List ℝ → ℝ := fun x dt u => x + dt * u.getD 0 0 - dt ^ 2 * k

theorem small_admissible (k x dt : ℝ) (hdt : 0 < dt) (w : List ℝ) :
    AdmissibleDS (quadNext k) smallObj x dt w [] ↔ ∃ q, w = [q] ∧ (-2 ≤ q ∧ q ≤ 2) ∧ dt * k - x ≤ q := by
  have hin : ∀ q, Within smallObj.controlBoundsLow smallObj.controlBoundsHigh [q] ↔ -2 ≤ q ∧ q ≤ 2 := toy_within none true
  have hok : ∀ q, DiscreteOK (quadNext k) (toyC none) x dt [q] 0 ↔ dt * k - x ≤ q := by
    intro q
    rw [discreteOK_iff (al := id) rfl hdt]
    have e : (hval (toyC none) (quadNext k x dt [q]) - hval (toyC none) x) / dt = q - dt * k := by
      rw [div_eq_iff hdt.ne']
      simp [hval, toyC, quadNext]
      ring
    have e2 : hval (toyC none) x = x := by simp [hval, toyC]
    rw [e, e2]
    constructor <;> intro h <;> simp only [id] at * <;> linarith
  constructor
  · intro h
    obtain ⟨q, rfl⟩ := List.length_eq_one_iff.1 h.len
    exact ⟨q, rfl, (hin q).1 h.bounds, (hok q).1 (h.barrier (toyC none, 0) (by simp [smallObj, assignSlack, toyC]) rfl)⟩
  · rintro ⟨q, rfl, hb, h⟩
    refine ⟨rfl, by simp [smallObj, slackScales, toyC], (hin q).2 hb, ?_⟩
    intro cd hcd _
    have : cd = (toyC none, 0) := by simpa [smallObj, assignSlack, toyC] using hcd
    subst this
    exact (hok q).2 h

theorem small_answer {nlp : NLPSolver ℝ} (hsound : NLPSound nlp) (hglob : NLPGlobal nlp) (hcomp : NLPComplete nlp) (k x dt r p : ℝ)
    (hdt : 0 < dt) (hp : p = dt * k - x) (hp2 : p ≤ 2) (hp1 : -2 ≤ p) (hr : r ≤ p) :
    (discreteASIF nlp (quadNext k) smallObj (.array x) dt [r]).1 = .ok [p] := by
  have hsq : ∀ a b : ℝ, sqDist [a] [b] = (a - b) ^ 2 := fun a b => by simp [sqDist, sqNorm, vsub, dot]; ring
  obtain ⟨v, hv, hadm, hle⟩ := disc_total hsound hglob hcomp small_inv (by simp [smallObj, slackScales, toyC]) rfl
    (lo := some (-2)) (hi := some 2) rfl rfl (by simp [smallObj, toyC]) hdt (u := [r]) (w := [p]) rfl
    ((small_admissible k x dt hdt _).2 ⟨p, rfl, ⟨hp1, hp2⟩, hp.ge⟩) (by
      intro v hv
      obtain ⟨q, rfl, -, hq⟩ := (small_admissible k x dt hdt v).1 hv
      rw [hsq, hsq]
      nlinarith)
  obtain ⟨q, rfl, -, hq⟩ := (small_admissible k x dt hdt v).1 hadm
  rw [hsq, hsq] at hle
  rw [hv]
  have : q = p := by
    have h1 : p ≤ q := by rw [hp]; exact hq
    by_contra hne
    have h2 : p < q := lt_of_le_of_ne h1 (Ne.symm hne)
    nlinarith
  rw [this]

/-- The hypotheses of `C112_small_steps_partial` are met at `x = 1` with `x⁺ = x + dt·u - dt²` and desired control `-2`: the explicit
module answers `-1`, the discrete-time one `dt - 1`. -/
example (solver : Solver ℝ) (hspec : SolverSpec solver) (dt : ℝ) :
    ∃ v, (explicitASIF solver toyF toyG (toyObj none true) (.array 1) dt [-2]).1 = .ok v ∧
      ∀ ε > 0, ∀ᶠ a in nhdsWithin (0 : ℝ) (Set.Ioi 0), [a - 1].length = v.length ∧ ∀ i, |[a - 1].getD i 0 - v.getD i 0| ≤ ε := by
  have hp : ∀ᶠ a in nhdsWithin (0 : ℝ) (Set.Ioi 0), 0 < a := eventually_mem_nhdsWithin
  refine C112_small_steps_partial hspec refNLP_sound refNLP_global (next := quadNext 1) (t := smallObj) (toy_module solver none true)
    small_inv rfl rfl rfl rfl rfl rfl rfl (by simp [toyObj, slackScales, toyC]) (by simp [toyObj]) (toy_shapes none true 1)
    (by simp [toyObj, toyC, hval]) ?_ ⟨[1], rfl, by simp [toyObj, slackScales, toyC], (toy_within none true 1).2 (by norm_num), ?_,
      by simp [toyObj]⟩ (dta := id) (tendsto_id.mono_left nhdsWithin_le_nhds) hp dt rfl (va := fun a => [a - 1]) ?_
  · intro kc hkc _ M ε hε
    obtain rfl : kc = ("c", toyC none) := by simpa [toyObj] using hkc
    refine ⟨ε, hε, fun dt h0 h1 u hu _ => ?_⟩
    obtain ⟨q, rfl⟩ := List.length_eq_one_iff.1 hu
    have e : (hval (toyC none) (quadNext 1 1 dt [q]) - hval (toyC none) 1) / dt -
        dot ((toyC none).gradFn 1 (toyC none).params) (vadd (toyF 1) (matVec (toyG 1) [q])) = -dt := by
      have : (hval (toyC none) (quadNext 1 1 dt [q]) - hval (toyC none) 1) / dt = q - dt := by
        rw [div_eq_iff h0.ne']
        simp [hval, toyC, quadNext]
        ring
      rw [this]
      simp [toyC, toyF, toyG, matVec, vadd, dot]
    simp only
    rw [e, abs_neg, abs_of_pos h0]
    exact h1.le
  · intro cd hcd _
    simp only [toyObj, assignSlack, toyC, Option.isSome_none, Bool.false_eq_true, if_false, List.mem_singleton] at hcd
    subst hcd
    refine ⟨2, ?_, by norm_num⟩
    simp [barrierValue, strengthening, toyF, toyG, matVec, vadd, dot]
    norm_num
  · filter_upwards [hp, mem_nhdsWithin_of_mem_nhds (gt_mem_nhds (show (0 : ℝ) < 1 by norm_num))] with a h0 h1
    exact small_answer refNLP_sound refNLP_global refNLP_complete 1 1 a (-2) (a - 1) h0 (by ring) (by linarith) (by linarith) (by linarith)

/-- **C112 fails where a constraint is violated.** With the same constraint `x ≥ 0`, bounds and exact prediction `x⁺ = x + dt·u`, at
`x = -1/10` the explicit module answers the desired control `0` with `101/100` and the discrete-time module, for every step size, with
`1/10`: the former multiplies the strengthening by ten and adds `bias_negative` where the constraint is violated, the latter does not. -/
theorem C112_refuted_violated (solver : Solver ℝ) (hspec : SolverSpec solver) {nlp : NLPSolver ℝ} (hsound : NLPSound nlp)
    (hglob : NLPGlobal nlp) (hcomp : NLPComplete nlp) (dt : ℝ) :
    (∀ n x, ConsistentStep toyF toyG (quadNext 0) (toyObj none true).constraints n x) ∧
    (explicitASIF solver toyF toyG (toyObj none true) (.array (-(1 / 10))) dt [0]).1 = .ok [101 / 100] ∧
    ∀ h : ℝ, 0 < h → (discreteASIF nlp (quadNext 0) smallObj (.array (-(1 / 10))) h [0]).1 = .ok [1 / 10] := by
  refine ⟨?_, ?_, fun h hh => small_answer hsound hglob hcomp 0 _ h 0 _ hh (by ring) (by norm_num) (by norm_num) (by norm_num)⟩
  · intro n x kc hkc _ M ε hε
    obtain rfl : kc = ("c", toyC none) := by simpa [toyObj] using hkc
    refine ⟨1, one_pos, fun dt h0 _ u hu _ => ?_⟩
    have : (hval (toyC none) (quadNext 0 x dt u) - hval (toyC none) x) / dt = u.getD 0 0 := by
      rw [div_eq_iff h0.ne']
      simp [hval, toyC, quadNext]
      ring
    simp only
    rw [this]
    have e : dot ((toyC none).gradFn x (toyC none).params) (vadd (toyF x) (matVec (toyG x) u)) = u.getD 0 0 := by
      cases u <;> simp [toyC, toyF, toyG, matVec, vadd, dot]
    rw [e]
    simp [hε.le]
  · rw [(C95_refuted_bias solver hspec true dt).2.2.2 _ le_rfl (by norm_num)]
    norm_num

/-- The solvers assumed in `C112_refuted_violated` exist. -/
example : (∃ solver : Solver ℝ, SolverSpec solver) ∧ ∃ nlp : NLPSolver ℝ, NLPSound nlp ∧ NLPGlobal nlp ∧ NLPComplete nlp :=
  ⟨⟨_, refSolver_spec⟩, _, refNLP_sound, refNLP_global, refNLP_complete⟩

end RTA
