import Verif.Lemmas.ASIFContinuity
import Verif.Props.ASIFLipschitz
import Verif.Props.Order

/-!
C95: the control returned by an explicit ASIF module depends continuously on the state and the desired control.

As stated this is false, for two reasons proved below: the strengthening term jumps by `bias_negative` where a constraint
value changes sign (`C95_refuted_bias`), and the set of admissible controls can collapse in states where no control satisfies
the conditions strictly (`C95_refuted_slater`). Where neither happens the answers are continuous (`C95_continuous_partial`).
-/
namespace RTA
open Filter
variable {ι S P X : Type}

theorem sqDist_tends {l : Filter ι} {ua : ι → List ℝ} {u : List ℝ} (h : ListTends l ua u) :
    Tendsto (fun a => sqDist (ua a) u) l (nhds 0) := by
  have hl : ∀ a, (vsub (ua a) u).length = u.length := fun a => by simp [vsub, h.1 a]
  have hz : ∀ n i : Nat, (zeros n : List ℝ).getD i 0 = 0 := by
    intro n i
    by_cases hi : i < n
    · simp [zeros, List.getD_eq_getElem?_getD, hi]
    · simp [zeros, List.getD_eq_getElem?_getD, hi]
  have hn : Near l (fun a => vsub (ua a) u) fun _ => zeros u.length := by
    intro i
    have h1 := (h.2 i).sub_const (u.getD i 0)
    rw [sub_self] at h1
    refine h1.congr fun a => ?_
    rw [hz, sub_zero]
    have : ∀ {v w : List ℝ}, v.length = w.length → ∀ i, v.getD i 0 - w.getD i 0 = (vsub v w).getD i 0 := by
      intro v
      induction v with
      | nil => intro w hw i; cases w with
        | nil => simp [vsub]
        | cons q w => simp at hw
      | cons p v ih => intro w hw i; cases w with
        | nil => simp at hw
        | cons q w =>
          cases i with
          | zero => rfl
          | succ i => exact ih (by simpa using hw) i
    exact this (h.1 a) i
  have := dot_near (n := u.length) hn hn (bdd_const _) (bdd_const _) (Eventually.of_forall hl)
    (Eventually.of_forall fun _ => by simp [zeros]) (Eventually.of_forall hl) (Eventually.of_forall fun _ => by simp [zeros])
  refine this.congr fun a => ?_
  have e : dot (zeros u.length : List ℝ) (zeros u.length) = 0 := by
    rw [dot_sum (n := u.length) (by simp [zeros]) (by simp [zeros])]
    exact Finset.sum_eq_zero fun i _ => by rw [hz, zero_mul]
  rw [e, sub_zero]
  rfl

/-- **C95, for states with room to spare.** Let the states `γ a` approach `x` in the sense that everything the module
evaluates there (dynamics, gradients, strengthening terms, direct inequalities) tends to what it is in `x`, let the desired
controls `ua a` approach `u`, and let some control satisfy the bounds and, strictly, every other condition in `x`. Then the
call in `x` returns a control, the calls in `γ a` eventually return controls, and these approach it in every component. (What
is missing: states without a strictly admissible control, and states on the boundary of a constraint whose strengthening term
jumps; both are counterexamples below.) -/
theorem C95_continuous_partial {solver : Solver ℝ} (hspec : SolverSpec solver) {f : S → List ℝ} {g : S → List (List ℝ)}
    {s : ASIFObj ℝ S P X} (hs : ExplicitModule solver f g s) (hpos : ScalesPos s.constraints) (hen : s.enable = true)
    {l : Filter ι} {γ : ι → S} {x : S} (hx : ShapesOK f g s x) (hsh : ∀ a, ShapesOK f g s (γ a)) (hd : DataTends l f g s γ x)
    (hstrict : ∃ z ez, StrictS f g s x z ez) (dt : ℝ) (dta : ι → ℝ) (u : List ℝ) (ua : ι → List ℝ)
    (hu : u.length = s.ext.controlDim) (hua : ListTends l ua u) :
    ∃ v, (explicitASIF solver f g s (.array x) dt u).1 = .ok v ∧
      ∀ ε > 0, ∀ᶠ a in l, ∃ v', (explicitASIF solver f g s (.array (γ a)) (dta a) (ua a)).1 = .ok v' ∧
        v'.length = v.length ∧ ∀ i, |v'.getD i 0 - v.getD i 0| ≤ ε := by
  obtain ⟨z, ez, hz⟩ := hstrict
  have weak : ∀ {y : S} {u v d : List ℝ}, AdmissibleS f g s y v d →
      (∀ w e, AdmissibleS f g s y w e → v ++ d ≠ w ++ e → slackCost (qpWeights s) u v d < slackCost (qpWeights s) u w e) →
      ∀ w e, AdmissibleS f g s y w e → slackCost (qpWeights s) u v d ≤ slackCost (qpWeights s) u w e := by
    intro y u v d hv hmin w e hw
    by_cases he : v ++ d = w ++ e
    · obtain ⟨rfl, rfl⟩ := List.append_inj he (hv.len.trans hw.len.symm)
      exact le_rfl
    · exact (hmin w e hw he).le
  have sol : ∀ y, ShapesOK f g s y → (∃ w d, AdmissibleS f g s y w d) → ∀ (dt : ℝ) (u : List ℝ), u.length = s.ext.controlDim →
      ∃ v d, (explicitASIF solver f g s (.array y) dt u).1 = .ok v ∧ AdmissibleS f g s y v d ∧
        ∀ w e, AdmissibleS f g s y w e → slackCost (qpWeights s) u v d ≤ slackCost (qpWeights s) u w e := by
    intro y hy hadm dt u hu
    obtain ⟨v, hv⟩ := (explicit_total hspec hs.inv.1 hs.inv.2 hpos hy dt hu hen).1 hadm
    obtain ⟨-, d, -, h1, h2, -⟩ := explicit_solved hspec hs.inv.1 hs.inv.2 hpos hen
      (show explicitASIF solver f g s (.array y) dt u = (.ok v, (explicitASIF solver f g s (.array y) dt u).2) from
        Prod.ext hv rfl) hadm
    exact ⟨v, d, hv, h1, weak h1 h2⟩
  obtain ⟨v, d, hv, hvadm, hvmin⟩ := sol x hx ⟨z, ez, hz.admissible⟩ dt u hu
  refine ⟨v, hv, fun ε hε => ?_⟩
  have hinner := strict_inner hd hsh hx hz
  -- the answers to `u` itself
  have hex : ∀ a, ∃ v' d', AdmissibleS f g s (γ a) z ez → (explicitASIF solver f g s (.array (γ a)) (dta a) u).1 = .ok v' ∧
      AdmissibleS f g s (γ a) v' d' ∧
        ∀ w e, AdmissibleS f g s (γ a) w e → slackCost (qpWeights s) u v' d' ≤ slackCost (qpWeights s) u w e := by
    intro a
    by_cases h : AdmissibleS f g s (γ a) z ez
    · obtain ⟨v', d', h'⟩ := sol _ (hsh a) ⟨_, _, h⟩ (dta a) u hu
      exact ⟨v', d', fun _ => h'⟩
    · exact ⟨[], [], fun h' => absurd h' h⟩
  choose va da hva using hex
  have hcont := min_continuous (qpWeights_pos hpos) (l := l) (Ca := fun a => AdmissibleS f g s (γ a)) (C := AdmissibleS f g s x)
    (Str := StrictS f g s x) (n := s.ext.controlDim) (m := (slackScales s.constraints).length) (fun w e h => ⟨h.len, h.slen⟩)
    (fun a w e h => ⟨h.len, h.slen⟩) (fun t h0 h1 a b d e ha hb => admissibleS_mix h0 h1 ha hb) hz.admissible
    (fun t t0 t1 w e hw => strict_mix hx hz t0 t1 hw) (fun w e hw => strict_inner hd hsh hx hw)
    (fun wa ea hb hwa t t0 t1 => strict_outer hd hsh hx hz hb hwa t0 t1) hu hvadm hvmin
    (hinner.mono fun a h => (hva a h).2.1) (hinner.mono fun a h => (hva a h).2.2)
  have hε2 : 0 < (ε / 2) ^ 2 := by positivity
  have hnear := (sqDist_tends hua).eventually (gt_mem_nhds hε2)
  filter_upwards [hinner, hcont _ hε2, hnear] with a h1 h2 h3
  have hual : (ua a).length = s.ext.controlDim := (hua.1 a).trans hu
  obtain ⟨w', d', hw', hwadm, -⟩ := sol _ (hsh a) ⟨_, _, h1⟩ (dta a) (ua a) hual
  obtain ⟨e1, hvadm', -⟩ := hva a h1
  have h4 := C92_nonexpansive hspec hs hpos hen (γ a) (hsh a) (dta a) (dta a) (ua a) u w' (va a) hual hu hw' e1
  refine ⟨w', hw', hwadm.len.trans hvadm.len.symm, fun i => ?_⟩
  have k1 := (getD_sq_le (hwadm.len.trans hvadm'.len.symm) i).trans (h4.trans h3.le)
  have k2 := (getD_sq_le (hvadm'.len.trans hvadm.len.symm) i).trans h2
  have b1 := abs_le.1 (abs_le_of_sq_le_sq k1 (by positivity))
  have b2 := abs_le.1 (abs_le_of_sq_le_sq k2 (by positivity))
  rw [abs_le]
  constructor <;> linarith [b1.1, b1.2, b2.1, b2.2]

/-- **C95, strengthening terms.** The strengthening terms of a constraint with continuous strengtheners tend to the one in the
limit unless the constraint value is exactly zero there and the branches for positive and negative values differ. -/
theorem C95_strengthening {l : Filter ι} (c : Constraint ℝ S P) (al an : ℝ → ℝ) (hal : Continuous al) (han : Continuous an)
    (hn : c.alphaNeg = some an ∨ c.alphaNeg = none ∧ an = fun h => 10 * al h) {h : ι → ℝ} {h0 : ℝ} (hh : Tendsto h l (nhds h0))
    (hok : h0 ≠ 0 ∨ al 0 = an 0 + c.biasNegative) :
    Tendsto (fun a => strengthening c al (h a)) l (nhds (strengthening c al h0)) := by
  have hst : ∀ y, strengthening c al y = if 0 ≤ y then al y else an y + c.biasNegative := by
    intro y
    unfold strengthening
    rcases hn with e | ⟨e, rfl⟩ <;> rw [e]
  have h1 := (hal.tendsto h0).comp hh
  have h2 := ((han.tendsto h0).comp hh).add_const c.biasNegative
  simp only [hst]
  rcases lt_trichotomy h0 0 with hneg | rfl | hpos
  · rw [if_neg (not_le.2 hneg)]
    refine h2.congr' ?_
    filter_upwards [hh.eventually (gt_mem_nhds hneg)] with a ha
    rw [if_neg (not_le.2 ha)]
    rfl
  · have he := hok.resolve_left (by simp)
    rw [if_pos le_rfl]
    rw [← he] at h2
    rw [tendsto_order] at h1 h2 ⊢
    constructor
    · intro b hb
      filter_upwards [h1.1 b hb, h2.1 b hb] with a a1 a2
      by_cases hp : 0 ≤ h a
      · rw [if_pos hp]; exact a1
      · rw [if_neg hp]; exact a2
    · intro b hb
      filter_upwards [h1.2 b hb, h2.2 b hb] with a a1 a2
      by_cases hp : 0 ≤ h a
      · rw [if_pos hp]; exact a1
      · rw [if_neg hp]; exact a2
  · rw [if_pos hpos.le]
    refine h1.congr' ?_
    filter_upwards [hh.eventually (lt_mem_nhds hpos)] with a ha
    rw [if_pos (le_of_lt ha)]
    rfl

/-! ### Counterexamples -/

/-- A module without slack answers with the closest admissible control. -/
theorem answer_of_closest {solver : Solver ℝ} (hspec : SolverSpec solver) {f : S → List ℝ} {g : S → List (List ℝ)}
    {s : ASIFObj ℝ S P X} (hs : ExplicitModule solver f g s) (hns : slackScales s.constraints = []) (hen : s.enable = true)
    {x : S} (hx : ShapesOK f g s x) (dt : ℝ) {u w : List ℝ} (hu : u.length = s.ext.controlDim) (hw : Admissible f g s x w)
    (hmin : ∀ v, Admissible f g s x v → sqDist w u ≤ sqDist v u) :
    (explicitASIF solver f g s (.array x) dt u).1 = .ok w := by
  have hpos : ScalesPos s.constraints := by intro w hw; rw [hns] at hw; simp at hw
  obtain ⟨v, hv⟩ := C24_returns hspec hs hpos hen x hx dt u hu ⟨_, _, admissible_iff_zeros.1 hw⟩
  obtain ⟨h1, h2⟩ := C24_closest_admissible hspec hs hns hen x dt u v (Prod.ext hv rfl) ⟨w, hw⟩
  by_cases he : w = v
  · rw [he]; exact hv
  · exact absurd (h2 w hw he) (not_lt.2 (hmin v h1))

/-- **C95 is false at the boundary of a constraint with the default `bias_negative`.** The module for `x' = u` with the
constraint `x ≥ 0`, strengthener `h`, the default `bias_negative = -0.01` and bounds `±2`: at `x = 0` the desired control `0` is
returned, but in the states `x < 0`, however close, the answer is `0.01 - 10 x`, more than `0.01` away. All functions involved
are continuous, and in `x = 0` the control `1` satisfies every condition strictly. -/
theorem C95_refuted_bias (solver : Solver ℝ) (hspec : SolverSpec solver) (exc : Bool) (dt : ℝ) :
    ExplicitModule solver toyF toyG (toyObj none exc) ∧ StrictS toyF toyG (toyObj none exc) (0 : ℝ) [1] [] ∧
    (explicitASIF solver toyF toyG (toyObj none exc) (.array 0) dt [0]).1 = .ok [0] ∧
    ∀ x : ℝ, -(1 / 10) ≤ x → x < 0 →
      (explicitASIF solver toyF toyG (toyObj none exc) (.array x) dt [0]).1 = .ok [1 / 100 - 10 * x] := by
  have hm := toy_module solver none exc
  have hns : slackScales (toyObj none exc).constraints = [] := by simp [toyObj, slackScales, toyC]
  refine ⟨hm, ⟨rfl, by rw [hns], (toy_within none exc 1).2 (by norm_num), ?_, by simp [toyObj]⟩, ?_, ?_⟩
  · intro cd hcd _
    simp only [toyObj, assignSlack, toyC, Option.isSome_none, Bool.false_eq_true, if_false, List.mem_singleton] at hcd
    subst hcd
    refine ⟨1, ?_, by norm_num⟩
    simp [barrierValue, strengthening, toyF, toyG, matVec, vadd, dot]
  · exact (C25_no_interference hspec hm (toy_pos_none exc) (by norm_num [toyObj]) rfl 0 (toy_shapes _ _ _) dt [0]
      ((toy_admissible none exc 0 [0]).2 ⟨0, rfl, by norm_num⟩)).1
  · intro x hx0 hx1
    have hn : ¬ (0 : ℝ) ≤ x := not_le.2 hx1
    refine answer_of_closest hspec hm hns rfl (toy_shapes _ _ _) dt rfl
      ((toy_admissible none exc x _).2 ⟨_, rfl, ⟨by linarith, by linarith⟩, by rw [if_neg hn]; linarith⟩) ?_
    intro v hv
    obtain ⟨q, rfl, -, hq⟩ := (toy_admissible none exc x v).1 hv
    rw [if_neg hn] at hq
    simp only [sqDist, vsub, sqNorm, List.zipWith_cons_cons, List.zipWith_nil_right, dot_cons, dot_nil_left]
    nlinarith

/-- The constraint `x²/2 ≥ 0`. -/
noncomputable def sqC : Constraint ℝ ℝ Unit :=
  { computeFn := fun x _ => x ^ 2 / 2, phiFn := fun x _ => x ^ 2 / 2, gradFn := fun x _ => [x], alpha := some id
    alphaNeg := some id, bias := 0, biasNegative := 0, slackPriorityScale := none, params := (), enabled := true, subsample := {} }

noncomputable def sqF : ℝ → List ℝ := fun _ => [-1]

theorem sq_module (solver : Solver ℝ) (exc : Bool) : ExplicitModule solver sqF toyG (oObj [("a", sqC)] exc) :=
  ⟨_, _, _, _, _, _, _, _, _, _, [], by simp [dictKeys], by simp [dictKeys], o_init [("a", sqC)] exc, rfl⟩

theorem sq_shapes (exc : Bool) (x : ℝ) : ShapesOK sqF toyG (oObj [("a", sqC)] exc) x :=
  ⟨by simp [oObj, sqC], by simp [oObj, sqC, sqF], rfl, by simp [toyG, oObj], by simp [oObj]⟩

theorem sq_barrier (x u d : ℝ) : BarrierOK sqF toyG sqC x [u] d ↔ d ≤ x * (u - 1) + x ^ 2 / 2 := by
  have e : barrierValue sqF toyG sqC x [u] = some (x * (u - 1) + x ^ 2 / 2) := by
    simp [barrierValue, strengthening, sqC, sqF, toyG, matVec, vadd, dot]
    exact Or.inl (by ring)
  unfold BarrierOK
  rw [e]
  simp

theorem sq_admissible (exc : Bool) (x : ℝ) (w : List ℝ) :
    Admissible sqF toyG (oObj [("a", sqC)] exc) x w ↔ ∃ u, w = [u] ∧ 0 ≤ x * (u - 1) + x ^ 2 / 2 := by
  constructor
  · intro h
    obtain ⟨u, rfl⟩ := List.length_eq_one_iff.1 (show w.length = 1 from h.len)
    exact ⟨u, rfl, (sq_barrier x u 0).1 (h.barrier ("a", sqC) (by simp [oObj]) rfl)⟩
  · rintro ⟨u, rfl, h⟩
    refine ⟨rfl, o_within _ _ _, ?_, by simp [oObj]⟩
    intro kc hkc _
    simp only [oObj, List.mem_singleton] at hkc
    subst hkc
    exact (sq_barrier x u 0).2 h

theorem sq_tends (exc : Bool) (x : ℝ) : DataTends (nhds x) sqF toyG (oObj [("a", sqC)] exc) id x := by
  refine ⟨⟨fun _ => rfl, fun _ => tendsto_const_nhds⟩, fun i => ⟨fun _ => rfl, fun _ => tendsto_const_nhds⟩, ?_, ?_,
    by simp [oObj], by simp [oObj]⟩
  · intro kc hkc _
    simp only [oObj, List.mem_singleton] at hkc
    subst hkc
    refine ⟨fun _ => rfl, fun i => ?_⟩
    cases i with
    | zero => exact tendsto_id
    | succ i => exact tendsto_const_nhds
  · intro kc hkc _ al hal
    simp only [oObj, List.mem_singleton] at hkc
    subst hkc
    obtain rfl : id = al := by simpa [sqC] using hal
    refine C95_strengthening sqC id id continuous_id continuous_id (Or.inl rfl) ?_ (Or.inr (by simp [sqC]))
    have : Continuous fun y : ℝ => y ^ 2 / 2 + 0 := by fun_prop
    exact this.tendsto x

/-- **C95 is false in states without a strictly admissible control.** The module for `x' = -1 + u` with the constraint
`x²/2 ≥ 0` (never violated) and strengthener `h`: everything the module evaluates is continuous, at `x = 0` every control is
admissible and the desired control `0` is returned, but in the states `0 < x ≤ 1` the answer is `1 - x/2`, at least `1/2` away. -/
theorem C95_refuted_slater (solver : Solver ℝ) (hspec : SolverSpec solver) (exc : Bool) (dt : ℝ) :
    ExplicitModule solver sqF toyG (oObj [("a", sqC)] exc) ∧ DataTends (nhds 0) sqF toyG (oObj [("a", sqC)] exc) id 0 ∧
    (∀ u : ℝ, Admissible sqF toyG (oObj [("a", sqC)] exc) 0 [u]) ∧
    (explicitASIF solver sqF toyG (oObj [("a", sqC)] exc) (.array 0) dt [0]).1 = .ok [0] ∧
    ∀ x : ℝ, 0 < x → x ≤ 1 → (explicitASIF solver sqF toyG (oObj [("a", sqC)] exc) (.array x) dt [0]).1 = .ok [1 - x / 2] := by
  have hm := sq_module solver exc
  have hns : slackScales (oObj [("a", sqC)] exc).constraints = [] := by simp [oObj, slackScales, sqC]
  have hall : ∀ u : ℝ, Admissible sqF toyG (oObj [("a", sqC)] exc) 0 [u] := fun u =>
    (sq_admissible exc 0 [u]).2 ⟨u, rfl, by norm_num⟩
  refine ⟨hm, sq_tends exc 0, hall, ?_, ?_⟩
  · exact (C25_no_interference hspec hm (by intro w hw; rw [hns] at hw; simp at hw) (by norm_num [oObj]) rfl 0 (sq_shapes _ _) dt
      [0] (hall 0)).1
  · intro x hx0 hx1
    refine answer_of_closest hspec hm hns rfl (sq_shapes _ _) dt rfl ((sq_admissible exc x _).2 ⟨_, rfl, by nlinarith⟩) ?_
    intro v hv
    obtain ⟨q, rfl, hq⟩ := (sq_admissible exc x v).1 hv
    have : 1 - x / 2 ≤ q := by
      by_contra h
      nlinarith [mul_pos hx0 (sub_pos.2 (not_le.1 h))]
    simp only [sqDist, vsub, sqNorm, List.zipWith_cons_cons, List.zipWith_nil_right, dot_cons, dot_nil_left]
    nlinarith

/-- C95: in the second counterexample the answers are continuous in `x = 1`, with desired controls that approach `0`. -/
example (solver : Solver ℝ) (hspec : SolverSpec solver) (exc : Bool) (dt : ℝ) :
    ∀ ε > 0, ∀ᶠ x in nhds (1 : ℝ), ∃ v', (explicitASIF solver sqF toyG (oObj [("a", sqC)] exc) (.array x) dt [x - 1]).1 = .ok v' ∧
      |v'.getD 0 0 - 1 / 2| ≤ ε := by
  have hm := sq_module solver exc
  have hns : slackScales (oObj [("a", sqC)] exc).constraints = [] := by simp [oObj, slackScales, sqC]
  have hs : StrictS sqF toyG (oObj [("a", sqC)] exc) 1 [1] [] := by
    refine ⟨rfl, by rw [hns], o_within _ _ _, ?_, by simp [oObj]⟩
    intro cd hcd _
    simp only [oObj, assignSlack, sqC, Option.isSome_none, Bool.false_eq_true, if_false, List.mem_singleton] at hcd
    subst hcd
    refine ⟨1 / 2, ?_, by norm_num⟩
    simp [barrierValue, strengthening, sqF, toyG, matVec, vadd, dot]
  obtain ⟨v, hv, h⟩ := C95_continuous_partial hspec hm (by intro w hw; rw [hns] at hw; simp at hw) rfl (sq_shapes exc 1)
    (sq_shapes exc) (sq_tends exc 1) ⟨_, _, hs⟩ dt (fun _ => dt) [0] (fun x => [x - 1]) rfl ⟨fun _ => rfl, fun i => by
      cases i with
      | zero =>
        have : Continuous fun y : ℝ => y - 1 := by fun_prop
        have := this.tendsto 1
        simpa using this
      | succ i => exact tendsto_const_nhds⟩
  have e := (C95_refuted_slater solver hspec exc dt).2.2.2.2 1 one_pos le_rfl
  rw [e] at hv
  cases hv
  intro ε hε
  filter_upwards [h ε hε] with x hx
  obtain ⟨v', h1, -, h2⟩ := hx
  refine ⟨v', h1, ?_⟩
  have := h2 0
  norm_num at this ⊢
  exact this

end RTA
