import Verif.Spec.SmallSteps
import Verif.Lemmas.ASIFContinuity

/-!
For small steps the admissible controls of a discrete-time module approach those of the explicit module with the same constraints.
-/
namespace RTA
open Filter
variable {ι S P X : Type}

theorem bdd_uniform {l : Filter ι} {w : ι → List ℝ} {n : Nat} (hb : BddList l w) (lw : ∀ᶠ a in l, (w a).length = n) :
    ∃ M, ∀ᶠ a in l, ∀ i, |(w a).getD i 0| ≤ M := by
  have key : ∀ m, ∃ M, ∀ᶠ a in l, ∀ i < m, |(w a).getD i 0| ≤ M := by
    intro m
    induction m with
    | zero => exact ⟨0, Eventually.of_forall fun _ i hi => absurd hi (by omega)⟩
    | succ m ih =>
      obtain ⟨M, hM⟩ := ih
      obtain ⟨N, hN⟩ := hb m
      refine ⟨max M N, ?_⟩
      filter_upwards [hM, hN] with a h1 h2 i hi
      rcases Nat.lt_succ_iff_lt_or_eq.1 hi with h | rfl
      · exact (h1 i h).trans (le_max_left _ _)
      · exact h2.trans (le_max_right _ _)
  obtain ⟨M, hM⟩ := key n
  refine ⟨max M 0, ?_⟩
  filter_upwards [hM, lw] with a h1 h2 i
  by_cases hi : i < n
  · exact (h1 i hi).trans (le_max_left _ _)
  · rw [List.getD_eq_default _ _ (by omega)]
    simp

section
variable {f : S → List ℝ} {g : S → List (List ℝ)} {next : S → ℝ → List ℝ → S} {s : ASIFObj ℝ S P X} {t : DiscObj ℝ S P} {x : S}
  {l : Filter ι} {dta : ι → ℝ}

/-- The discrete condition of bounded controls comes close to the continuous one. -/
theorem step_near (hc : ConsistentStep f g next s.constraints s.ext.controlDim x) (hdt : Tendsto dta l (nhds 0))
    (hpos : ∀ᶠ a in l, 0 < dta a) {w : ι → List ℝ} (hb : BddList l w) (lw : ∀ᶠ a in l, (w a).length = s.ext.controlDim)
    {kc : String × Constraint ℝ S P} (hkc : kc ∈ s.constraints) (hen : kc.2.enabled = true) {ε : ℝ} (hε : 0 < ε) :
    ∀ᶠ a in l, |(hval kc.2 (next x (dta a) (w a)) - hval kc.2 x) / dta a -
      dot (kc.2.gradFn x kc.2.params) (vadd (f x) (matVec (g x) (w a)))| ≤ ε := by
  obtain ⟨M, hM⟩ := bdd_uniform hb lw
  obtain ⟨δ, hδ, h⟩ := hc kc hkc hen M ε hε
  filter_upwards [hM, lw, hpos, hdt.eventually (gt_mem_nhds hδ)] with a h1 h2 h3 h4
  exact h _ h3 h4 _ h2 h1

theorem discreteOK_iff {c : Constraint ℝ S P} {al : ℝ → ℝ} (hal : c.alpha = some al) {dt : ℝ} (hdt : 0 < dt) {u : List ℝ} {d : ℝ} :
    DiscreteOK next c x dt u d ↔ d ≤ (hval c (next x dt u) - hval c x) / dt + al (hval c x) := by
  have e : (hval c (next x dt u) - hval c x) / dt * dt = hval c (next x dt u) - hval c x := div_mul_cancel₀ _ hdt.ne'
  generalize (hval c (next x dt u) - hval c x) / dt = q at *
  constructor
  · rintro ⟨al', h', h⟩
    rw [hal] at h'
    cases h'
    by_contra hn
    nlinarith [mul_pos hdt (sub_pos.2 (not_le.1 hn))]
  · intro h
    exact ⟨al, hal, by nlinarith [mul_nonneg hdt.le (sub_nonneg.2 h)]⟩

theorem barrierValue_safe {c : Constraint ℝ S P} {al : ℝ → ℝ} (hal : c.alpha = some al) (h0 : 0 ≤ hval c x) {u : List ℝ} :
    barrierValue f g c x u = some (dot (c.gradFn x c.params) (vadd (f x) (matVec (g x) u)) + al (hval c x)) := by
  unfold barrierValue
  rw [hal]
  simp only [Option.map_some, strengthening]
  unfold hval at h0 ⊢
  rw [if_pos h0]

theorem step_inner (hcs : t.constraints = s.constraints) (hlo : t.controlBoundsLow = s.controlBoundsLow)
    (hhi : t.controlBoundsHigh = s.controlBoundsHigh) (hdim : t.ext.controlDim = s.ext.controlDim)
    (hx : ShapesOK f g s x) (hsafe : ∀ kc ∈ s.constraints, kc.2.enabled = true → 0 ≤ hval kc.2 x)
    (hc : ConsistentStep f g next s.constraints s.ext.controlDim x) (hdt : Tendsto dta l (nhds 0)) (hpos : ∀ᶠ a in l, 0 < dta a)
    {w e : List ℝ} (hw : StrictS f g s x w e) : ∀ᶠ a in l, AdmissibleDS next t x (dta a) w e := by
  have h1 : ∀ᶠ a in l, ∀ cd ∈ assignSlack s.constraints e, cd.1.enabled = true → DiscreteOK next cd.1 x (dta a) w cd.2 := by
    refine eventually_all_list _ fun cd hcd => ?_
    by_cases hen : cd.1.enabled = true
    · obtain ⟨k, hk⟩ := assignSlack_mem hcd
      obtain ⟨al, hal⟩ := Option.isSome_iff_exists.1 (hx.alpha _ hk)
      obtain ⟨m, hm, hlt⟩ := hw.barrier cd hcd hen
      rw [barrierValue_safe hal (hsafe _ hk hen)] at hm
      cases hm
      have h := step_near hc hdt hpos (bdd_const w) (Eventually.of_forall fun _ => hw.len) hk hen (sub_pos.2 hlt)
      filter_upwards [h, hpos] with a ha hp _
      rw [discreteOK_iff hal hp]
      have := (abs_le.1 ha).1
      linarith
    · exact Eventually.of_forall fun _ h => absurd h hen
  filter_upwards [h1] with a b1
  exact ⟨hw.len.trans hdim.symm, by rw [hcs]; exact hw.slen, by rw [hlo, hhi]; exact hw.bounds, by rw [hcs]; exact b1⟩

theorem step_outer (hcs : t.constraints = s.constraints) (hlo : t.controlBoundsLow = s.controlBoundsLow)
    (hhi : t.controlBoundsHigh = s.controlBoundsHigh) (hdim : t.ext.controlDim = s.ext.controlDim)
    (hdir : ∀ kc ∈ s.ext.direct, kc.2.enabled = false)
    (hx : ShapesOK f g s x) (hsafe : ∀ kc ∈ s.constraints, kc.2.enabled = true → 0 ≤ hval kc.2 x)
    (hc : ConsistentStep f g next s.constraints s.ext.controlDim x) (hdt : Tendsto dta l (nhds 0)) (hpos : ∀ᶠ a in l, 0 < dta a)
    {z ez : List ℝ} (hz : StrictS f g s x z ez) {wa ea : ι → List ℝ} (hb : BddList l wa)
    (hwa : ∀ᶠ a in l, AdmissibleDS next t x (dta a) (wa a) (ea a)) {r : ℝ} (t0 : 0 < r) (t1 : r ≤ 1) :
    ∀ᶠ a in l, AdmissibleS f g s x (mix r (wa a) z) (mix r (ea a) ez) := by
  have lw : ∀ᶠ a in l, (wa a).length = s.ext.controlDim := hwa.mono fun a h => h.len.trans hdim
  have h1 : ∀ᶠ a in l, ∀ cd ∈ assignSlack s.constraints ez, cd.1.enabled = true →
      |(hval cd.1 (next x (dta a) (wa a)) - hval cd.1 x) / dta a -
        dot (cd.1.gradFn x cd.1.params) (vadd (f x) (matVec (g x) (wa a)))| ≤ r * ((barrierValue f g cd.1 x z).getD 0 - cd.2) := by
    refine eventually_all_list _ fun cd hcd => ?_
    by_cases hen : cd.1.enabled = true
    · obtain ⟨k, hk⟩ := assignSlack_mem hcd
      obtain ⟨m, hm, hlt⟩ := hz.barrier cd hcd hen
      rw [hm]
      filter_upwards [step_near hc hdt hpos hb lw hk hen (mul_pos t0 (sub_pos.2 hlt))] with a ha _
      exact ha
    · exact Eventually.of_forall fun _ h => absurd h hen
  filter_upwards [h1, hwa, hpos] with a b1 hw hp
  have hwl : (wa a).length = s.ext.controlDim := hw.len.trans hdim
  have hws : (ea a).length = (slackScales s.constraints).length := by rw [← hcs]; exact hw.slen
  have hwb : Within s.controlBoundsLow s.controlBoundsHigh (wa a) := by rw [← hlo, ← hhi]; exact hw.bounds
  have hwc := hw.barrier
  rw [hcs] at hwc
  have hl := hwl.trans hz.len.symm
  refine ⟨by simp [hwl, hz.len], by simp [hws, hz.slen], within_mix t0.le t1 hwb hz.bounds, ?_,
    fun kc hkc hen => by rw [hdir kc hkc] at hen; cases hen⟩
  intro cd hcd hen
  obtain ⟨p, q, hpm, hq, hpq⟩ := assignSlack_mix r s.constraints (hws.trans hz.slen.symm) cd hcd
  obtain ⟨k, hk⟩ := assignSlack_mem hpm
  obtain ⟨al, hal⟩ := Option.isSome_iff_exists.1 (hx.alpha _ hk)
  have l1 := (discreteOK_iff hal hp).1 (hwc (cd.1, p) hpm hen)
  obtain ⟨m2, e2, l2⟩ := hz.barrier _ hq hen
  have hlt := abs_le.1 (b1 _ hq hen)
  refine ⟨_, barrierValue_getD (hx.alpha _ hk), ?_⟩
  rw [barrierValue_mix r (hx.alpha _ hk) hl, hpq]
  simp only at e2 l1 l2 hlt
  rw [barrierValue_safe (u := wa a) hal (hsafe _ hk hen)]
  rw [e2] at hlt ⊢
  simp only [Option.getD_some] at hlt ⊢
  have hlt := hlt.2
  generalize (hval cd.1 (next x (dta a) (wa a)) - hval cd.1 x) / dta a = y at *
  generalize dot (cd.1.gradFn x cd.1.params) (vadd (f x) (matVec (g x) (wa a))) = b at *
  generalize al (hval cd.1 x) = c at *
  by_cases hy : p ≤ b + c
  · nlinarith [mul_pos t0 (sub_pos.2 l2), mul_nonneg (sub_nonneg.2 t1) (sub_nonneg.2 hy)]
  · have hy := not_le.1 hy
    nlinarith [mul_pos t0 (sub_pos.2 hy)]

end

end RTA
