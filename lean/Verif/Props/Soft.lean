import Verif.Props.ASIF
import Verif.Lemmas.Soft

/-!
C117: what slack priority scales do, said without slack variables.

A constraint with a `slack_priority_scale` is a soft constraint: the module pays `√scale · violation²` for missing it. The
theorems say which control is returned, that a higher scale never increases the violation, how large the violation can be, that
a soft constraint that matters is never kept exactly, and how fast the answers approach those of the module without slack.
-/
set_option linter.unusedSectionVars false
namespace RTA
variable {K S P X : Type}
section
variable [Field K] [LinearOrder K] [IsStrictOrderedRing K] [HasSqrt K] [LawfulSqrt K]

theorem hasSqrt_pos {w : K} (h : 0 < w) : 0 < (HasSqrt.sqrt w : K) := by
  have h1 := LawfulSqrt.nonneg w h.le
  have h2 := LawfulSqrt.mul_self w h.le
  rcases h1.lt_or_eq with h3 | h3
  · exact h3
  · rw [← h3] at h2; simp at h2; linarith

theorem hasSqrt_lt {w w' : K} (h : 0 ≤ w) (h' : w < w') : (HasSqrt.sqrt w : K) < HasSqrt.sqrt w' := by
  have h1 := LawfulSqrt.nonneg w h
  have h2 := LawfulSqrt.mul_self w h
  have h3 := LawfulSqrt.nonneg w' (h.trans h'.le)
  have h4 := LawfulSqrt.mul_self w' (h.trans h'.le)
  by_contra hn
  have := mul_self_le_mul_self h3 (not_lt.1 hn)
  linarith

theorem scales_nonneg {cs : Dict (Constraint K S P)} (hpos : ScalesPos cs) :
    ∀ kc ∈ cs, ∀ w, kc.2.slackPriorityScale = some w → 0 ≤ (HasSqrt.sqrt w : K) := by
  intro kc hkc w hw
  exact (hasSqrt_pos (hpos w (List.mem_filterMap.2 ⟨kc, hkc, hw⟩))).le

/-- **C117, returns**: a call succeeds as soon as some control satisfies everything that has no slack; soft constraints never
make it fail. -/
theorem C117_returns {solver : Solver K} (hspec : SolverSpec solver) {f : S → List K} {g : S → List (List K)}
    {s : ASIFObj K S P X} (hs : ExplicitModule solver f g s) (hpos : ScalesPos s.constraints) (hen : s.enable = true)
    (x : S) (hsh : ShapesOK f g s x) (dt : K) (u : List K) (hu : u.length = s.ext.controlDim)
    (hfirm : ∃ w, FirmOK f g s x w) : ∃ v, (explicitASIF solver f g s (.array x) dt u).1 = .ok v := by
  obtain ⟨w, hw⟩ := hfirm
  exact C24_returns hspec hs hpos hen x hsh dt u hu ⟨w, _, firm_admissible (fun kc h _ => hsh.alpha kc h) hw⟩

theorem soft_solved {solver : Solver K} (hspec : SolverSpec solver) {f : S → List K} {g : S → List (List K)}
    {s s' : ASIFObj K S P X} (hs : ExplicitModule solver f g s) (hpos : ScalesPos s.constraints) (hen : s.enable = true)
    (hal : HasAlpha s.constraints) {x : S} {dt : K} {u v : List K}
    (hcall : explicitASIF solver f g s (.array x) dt u = (.ok v, s')) (hfirm : ∃ w, FirmOK f g s x w) :
    u.length = s.ext.controlDim ∧ FirmOK f g s x v ∧ ∀ w, FirmOK f g s x w → w ≠ v →
      softCost HasSqrt.sqrt (fun c y => violation f g c x y) s.constraints u v <
        softCost HasSqrt.sqrt (fun c y => violation f g c x y) s.constraints u w := by
  obtain ⟨w0, hw0⟩ := hfirm
  obtain ⟨hu, d, l, hav, hmin, -⟩ := explicit_solved hspec hs.inv.1 hs.inv.2 hpos hen hcall ⟨w0, _, firm_admissible hal hw0⟩
  refine ⟨hu, admissible_firm hav, fun w hw hne => ?_⟩
  have h1 := slack_cost_ge (φ := HasSqrt.sqrt) (fun c => violation f g c x v) (fun w hw => (hasSqrt_pos (hpos w hw)).le) hav.slen
    (fun cd hcd he => violation_le (hav.barrier cd hcd he))
  have h2 := hmin w _ (firm_admissible hal hw) (fun e =>
    hne ((List.append_inj e (hav.len.trans hw.len.symm)).1).symm)
  have h3 := bestSlack_cost HasSqrt.sqrt (fun c => violation f g c x w) s.constraints
  unfold slackCost qpWeights at h2
  rw [h3] at h2
  unfold softCost
  linarith

/-- **C117, penalty**: the returned control satisfies everything that has no slack, and among all such controls it is the only
one that minimises the squared distance from the desired control plus `√scale · violation²` for each enabled soft constraint. -/
theorem C117_penalty {solver : Solver K} (hspec : SolverSpec solver) {f : S → List K} {g : S → List (List K)}
    {s s' : ASIFObj K S P X} (hs : ExplicitModule solver f g s) (hpos : ScalesPos s.constraints) (hen : s.enable = true)
    (hal : HasAlpha s.constraints) (x : S) (dt : K) (u v : List K)
    (hcall : explicitASIF solver f g s (.array x) dt u = (.ok v, s')) (hfirm : ∃ w, FirmOK f g s x w) :
    FirmOK f g s x v ∧ ∀ w, FirmOK f g s x w → w ≠ v →
      softCost HasSqrt.sqrt (fun c y => violation f g c x y) s.constraints u v <
        softCost HasSqrt.sqrt (fun c y => violation f g c x y) s.constraints u w :=
  (soft_solved hspec hs hpos hen hal hcall hfirm).2

theorem penalties_nonneg {f : S → List K} {g : S → List (List K)} {x : S} {w : List K} {cs : Dict (Constraint K S P)}
    (hpos : ScalesPos cs) {l : Dict (Constraint K S P)} (hl : ∀ kc ∈ l, kc ∈ cs) :
    0 ≤ (l.map fun kc => penalty HasSqrt.sqrt kc.2 (violation f g kc.2 x w)).sum := by
  refine List.sum_nonneg fun p hp => ?_
  obtain ⟨kc, hkc, rfl⟩ := List.mem_map.1 hp
  exact penalty_nonneg (scales_nonneg hpos kc (hl kc hkc)) _

theorem softCost_admissible {f : S → List K} {g : S → List (List K)} {s : ASIFObj K S P X} {x : S} {u a : List K}
    (ha : Admissible f g s x a) : softCost HasSqrt.sqrt (fun c y => violation f g c x y) s.constraints u a = sqDist a u := by
  have h0 : (s.constraints.map fun kc => penalty HasSqrt.sqrt kc.2 (violation f g kc.2 x a)).sum = 0 := by
    refine List.sum_eq_zero fun p hp => ?_
    obtain ⟨kc, hkc, rfl⟩ := List.mem_map.1 hp
    unfold penalty
    rcases kc.2.slackPriorityScale with _ | w
    · rfl
    · simp only
      split
      · rename_i he
        have := violation_le (ha.barrier kc hkc he)
        have h1 := violation_nonneg f g kc.2 x a
        have : violation f g kc.2 x a = 0 := by nlinarith
        rw [this]; ring
      · rfl
  unfold softCost
  rw [h0, add_zero]

theorem admissible_firmOK {f : S → List K} {g : S → List (List K)} {s : ASIFObj K S P X} {x : S} {a : List K}
    (ha : Admissible f g s x a) : FirmOK f g s x a :=
  ⟨ha.len, ha.bounds, fun kc h he _ => ha.barrier kc h he, ha.direct⟩

/-- **C117, bound**: if control `a` satisfies every condition without any slack, then the returned control is at most as far from
the desired one as `a`, and each enabled soft constraint is missed by at most `√((|a - u|² - |v - u|²) / √scale)`. -/
theorem C117_bound {solver : Solver K} (hspec : SolverSpec solver) {f : S → List K} {g : S → List (List K)}
    {s s' : ASIFObj K S P X} (hs : ExplicitModule solver f g s) (hpos : ScalesPos s.constraints) (hen : s.enable = true)
    (hal : HasAlpha s.constraints) (x : S) (dt : K) (u v : List K)
    (hcall : explicitASIF solver f g s (.array x) dt u = (.ok v, s')) (a : List K) (ha : Admissible f g s x a) :
    sqDist v u ≤ sqDist a u ∧ ∀ q c w, (q, c) ∈ s.constraints → c.enabled = true → c.slackPriorityScale = some w →
      HasSqrt.sqrt w * (violation f g c x v * violation f g c x v) ≤ sqDist a u - sqDist v u := by
  obtain ⟨-, hv, hmin⟩ := soft_solved hspec hs hpos hen hal hcall ⟨a, admissible_firmOK ha⟩
  have hle : softCost HasSqrt.sqrt (fun c y => violation f g c x y) s.constraints u v ≤ sqDist a u := by
    rw [← softCost_admissible (u := u) ha]
    by_cases e : a = v
    · rw [e]
    · exact (hmin a (admissible_firmOK ha) e).le
  unfold softCost at hle
  refine ⟨?_, fun q c w hqc he hw => ?_⟩
  · have := penalties_nonneg (f := f) (g := g) (x := x) (w := v) hpos (l := s.constraints) (fun _ h => h)
    linarith
  · obtain ⟨l, r, hlr⟩ := List.append_of_mem hqc
    have h1 := penalties_nonneg (f := f) (g := g) (x := x) (w := v) hpos (l := l) (fun _ h => by rw [hlr]; simp [h])
    have h2 := penalties_nonneg (f := f) (g := g) (x := x) (w := v) hpos (l := r) (fun _ h => by rw [hlr]; simp [h])
    rw [hlr, List.map_append, List.sum_append, List.map_cons, List.sum_cons] at hle
    have e : penalty HasSqrt.sqrt c (violation f g c x v) = HasSqrt.sqrt w * (violation f g c x v * violation f g c x v) := by
      simp [penalty, hw, he]
    simp only [e] at hle
    linarith

theorem rescaled_firm {f : S → List K} {g : S → List (List K)} {s t : ASIFObj K S P X} {q : String} {c : Constraint K S P} {w w' : K}
    (h : Rescaled s t q c w') (hw : c.slackPriorityScale = some w) (x : S) (y : List K) : FirmOK f g s x y ↔ FirmOK f g t x y := by
  obtain ⟨a, b, e1, e2⟩ := h.constraints
  constructor
  · intro hy
    refine ⟨hy.len.trans h.dim.symm, by rw [h.low, h.high]; exact hy.bounds, fun kc hkc he hn => ?_,
      by rw [h.direct]; exact hy.direct⟩
    rw [e2] at hkc
    rcases List.mem_append.1 hkc with hk | hk
    · exact hy.barrier kc (by rw [e1]; simp [hk]) he hn
    · rcases List.mem_cons.1 hk with rfl | hk
      · cases hn
      · exact hy.barrier kc (by rw [e1]; simp [hk]) he hn
  · intro hy
    refine ⟨hy.len.trans h.dim, by rw [← h.low, ← h.high]; exact hy.bounds, fun kc hkc he hn => ?_,
      by rw [← h.direct]; exact hy.direct⟩
    rw [e1] at hkc
    rcases List.mem_append.1 hkc with hk | hk
    · exact hy.barrier kc (by rw [e2]; simp [hk]) he hn
    · rcases List.mem_cons.1 hk with rfl | hk
      · rw [hw] at hn; cases hn
      · exact hy.barrier kc (by rw [e2]; simp [hk]) he hn

/-- **C117, priority**: raising the `slack_priority_scale` of one constraint either leaves the returned control as it is or
makes the violation of that constraint strictly smaller. -/
theorem C117_priority {solver : Solver K} (hspec : SolverSpec solver) {f : S → List K} {g : S → List (List K)}
    {s s' t t' : ASIFObj K S P X} (hs : ExplicitModule solver f g s) (ht : ExplicitModule solver f g t)
    (hpos : ScalesPos s.constraints) (hpost : ScalesPos t.constraints) (hens : s.enable = true) (hent : t.enable = true)
    {q : String} {c : Constraint K S P} {w w' : K} (hst : Rescaled s t q c w') (hw : c.slackPriorityScale = some w)
    (hww : w < w') (hals : HasAlpha s.constraints) (halt : HasAlpha t.constraints) (x : S) (dt : K) (u v v' : List K)
    (hcalls : explicitASIF solver f g s (.array x) dt u = (.ok v, s'))
    (hcallt : explicitASIF solver f g t (.array x) dt u = (.ok v', t')) (hfirm : ∃ y, FirmOK f g s x y) :
    v' = v ∨ c.enabled = true ∧ violation f g c x v' < violation f g c x v := by
  have hiff := fun y => rescaled_firm (f := f) (g := g) hst hw x y
  obtain ⟨-, hv, hmin⟩ := soft_solved hspec hs hpos hens hals hcalls hfirm
  obtain ⟨-, hv', hmin'⟩ := soft_solved hspec ht hpost hent halt hcallt ⟨v, (hiff v).1 hv⟩
  by_cases e : v' = v
  · exact Or.inl e
  right
  have h1 := hmin v' ((hiff v').2 hv') e
  have h2 := hmin' v ((hiff v).1 hv) (fun h => e h.symm)
  obtain ⟨a, b, e1, e2⟩ := hst.constraints
  have hwpos : 0 < w := hpos w (List.mem_filterMap.2 ⟨(q, c), by rw [e1]; simp, hw⟩)
  have hlt := hasSqrt_lt hwpos.le hww
  unfold softCost at h1 h2
  rw [e1] at h1
  rw [e2] at h2
  simp only [List.map_append, List.sum_append, List.map_cons, List.sum_cons] at h1 h2
  have ev : ∀ y, violation f g { c with slackPriorityScale := some w' } x y = violation f g c x y := fun _ => rfl
  simp only [ev] at h2
  have hn := violation_nonneg f g c x v
  have hn' := violation_nonneg f g c x v'
  cases he : c.enabled with
  | false =>
    simp only [penalty, hw, he, Bool.false_eq_true, if_false] at h1 h2
    linarith
  | true =>
    refine ⟨rfl, ?_⟩
    simp only [penalty, hw, he, if_true] at h1 h2
    by_contra hge
    have hsq := mul_self_le_mul_self hn (not_lt.1 hge)
    nlinarith

theorem without_firm {f : S → List K} {g : S → List (List K)} {s t : ASIFObj K S P X} {q : String} {c : Constraint K S P} {w : K}
    (h : Without s t q c) (hw : c.slackPriorityScale = some w) (x : S) (y : List K) : FirmOK f g s x y ↔ FirmOK f g t x y := by
  obtain ⟨a, b, e1, e2⟩ := h.constraints
  constructor
  · intro hy
    refine ⟨hy.len.trans h.dim.symm, by rw [h.low, h.high]; exact hy.bounds, fun kc hkc he hn => ?_,
      by rw [h.direct]; exact hy.direct⟩
    rw [e2] at hkc
    refine hy.barrier kc ?_ he hn
    rw [e1]
    rcases List.mem_append.1 hkc with hk | hk <;> simp [hk]
  · intro hy
    refine ⟨hy.len.trans h.dim, by rw [← h.low, ← h.high]; exact hy.bounds, fun kc hkc he hn => ?_,
      by rw [← h.direct]; exact hy.direct⟩
    rw [e1] at hkc
    rcases List.mem_append.1 hkc with hk | hk
    · exact hy.barrier kc (by rw [e2]; simp [hk]) he hn
    · rcases List.mem_cons.1 hk with rfl | hk
      · rw [hw] at hn; cases hn
      · exact hy.barrier kc (by rw [e2]; simp [hk]) he hn

/-- **C117, kept exactly when it does not matter**: compare a module with the same module without the soft constraint `q`. If
the answer without `q` satisfies the condition of `q`, both modules give the same answer. Otherwise the answer with `q` still
misses the condition of `q`, whatever the scale, although by less unless the answers are equal: a soft constraint that matters is
never kept. -/
theorem C117_kept_iff {solver : Solver K} (hspec : SolverSpec solver) {f : S → List K} {g : S → List (List K)}
    {s s' t t' : ASIFObj K S P X} (hs : ExplicitModule solver f g s) (ht : ExplicitModule solver f g t)
    (hpos : ScalesPos s.constraints) (hens : s.enable = true) (hent : t.enable = true)
    {q : String} {c : Constraint K S P} {w : K} (hst : Without s t q c) (hw : c.slackPriorityScale = some w)
    (hec : c.enabled = true) (hals : HasAlpha s.constraints) (x : S) (dt : K) (u v v' : List K)
    (hcalls : explicitASIF solver f g s (.array x) dt u = (.ok v, s'))
    (hcallt : explicitASIF solver f g t (.array x) dt u = (.ok v', t')) (hfirm : ∃ y, FirmOK f g s x y) :
    (BarrierOK f g c x v' 0 → v = v') ∧
      (¬ BarrierOK f g c x v' 0 → 0 < violation f g c x v ∧ (v = v' ∨ violation f g c x v < violation f g c x v')) := by
  have hiff := fun y => without_firm (f := f) (g := g) hst hw x y
  obtain ⟨a, b, e1, e2⟩ := hst.constraints
  have hmemc : (q, c) ∈ s.constraints := by rw [e1]; simp
  have hpost : ScalesPos t.constraints := by
    intro r hr
    obtain ⟨kc, hkc, hr⟩ := List.mem_filterMap.1 hr
    refine hpos r (List.mem_filterMap.2 ⟨kc, ?_, hr⟩)
    rw [e2] at hkc; rw [e1]
    rcases List.mem_append.1 hkc with hk | hk <;> simp [hk]
  have halt : HasAlpha t.constraints := by
    intro kc hkc he
    refine hals kc ?_ he
    rw [e2] at hkc; rw [e1]
    rcases List.mem_append.1 hkc with hk | hk <;> simp [hk]
  obtain ⟨hu, hv, hmin⟩ := soft_solved hspec hs hpos hens hals hcalls hfirm
  obtain ⟨-, hv', hmin'⟩ := soft_solved hspec ht hpost hent halt hcallt ⟨v, (hiff v).1 hv⟩
  have hwpos : 0 < w := hpos w (List.mem_filterMap.2 ⟨(q, c), hmemc, hw⟩)
  have hr := hasSqrt_pos hwpos
  have hac := hals _ hmemc hec
  have hcost : ∀ y, softCost HasSqrt.sqrt (fun c y => violation f g c x y) s.constraints u y =
      softCost HasSqrt.sqrt (fun c y => violation f g c x y) t.constraints u y +
        HasSqrt.sqrt w * (violation f g c x y * violation f g c x y) := by
    intro y
    unfold softCost
    rw [e1, e2]
    simp only [List.map_append, List.sum_append, List.map_cons, List.sum_cons]
    simp only [penalty, hw, hec, if_true]
    ring
  have hn := violation_nonneg f g c x v
  have hn' := violation_nonneg f g c x v'
  constructor
  · intro hb
    by_contra hne
    have h1 := hmin v' ((hiff v').2 hv') (fun h => hne h.symm)
    have h2 := hmin' v ((hiff v).1 hv) hne
    rw [hcost, hcost, (violation_zero_iff hac x v').2 hb] at h1
    nlinarith [mul_nonneg hr.le (mul_self_nonneg (violation f g c x v))]
  · intro hb
    have h0' : 0 < violation f g c x v' := hn'.lt_of_ne fun h => hb ((violation_zero_iff hac x v').1 h.symm)
    have main : 0 < violation f g c x v := by
      refine hn.lt_of_ne fun h => ?_
      have hz := h.symm
      have hne : v ≠ v' := by rintro rfl; linarith
      have h2 := hmin' v ((hiff v).1 hv) hne
      set D := softCost HasSqrt.sqrt (fun c y => violation f g c x y) t.constraints u v -
        softCost HasSqrt.sqrt (fun c y => violation f g c x y) t.constraints u v' with hD
      have hDpos : 0 < D := by linarith
      set B := HasSqrt.sqrt w * (violation f g c x v' * violation f g c x v') with hB
      have hBpos : 0 < B := mul_pos hr (mul_pos h0' h0')
      set τ := D / (D + B) with hτ
      have hτ0 : 0 < τ := div_pos hDpos (by linarith)
      have hτ1 : τ < 1 := by rw [hτ, div_lt_one (by linarith)]; linarith
      have hτB : τ * B < D := by
        rw [hτ, div_mul_eq_mul_div, div_lt_iff₀ (by linarith)]
        nlinarith
      have hvl : v.length = u.length := hv.len.trans hu.symm
      have hvl' : v'.length = u.length := (((hiff v').2 hv').len).trans hu.symm
      have hc := softCost_mix (f := f) (g := g) (x := x) (scales_nonneg hpost) hτ0.le hτ1.le hvl hvl'
      have hvio := violation_mix f g c x hτ0.le hτ1.le (hvl.trans hvl'.symm)
      rw [hz, sub_zero, zero_add] at hvio
      have hnm := violation_nonneg f g c x (mix τ v v')
      have hsq := mul_self_le_mul_self hnm hvio
      have hle : softCost HasSqrt.sqrt (fun c y => violation f g c x y) s.constraints u v ≤
          softCost HasSqrt.sqrt (fun c y => violation f g c x y) s.constraints u (mix τ v v') := by
        by_cases e : mix τ v v' = v
        · rw [e]
        · exact (hmin _ (firmOK_mix hτ0.le hτ1.le hv ((hiff v').2 hv')) e).le
      rw [hcost, hcost, hz, mul_zero, mul_zero, add_zero] at hle
      have hm : HasSqrt.sqrt w * (violation f g c x (mix τ v v') * violation f g c x (mix τ v v')) ≤ τ * (τ * B) := by
        have := mul_le_mul_of_nonneg_left hsq hr.le
        calc _ ≤ _ := this
          _ = _ := by rw [hB]; ring
      nlinarith
    refine ⟨main, ?_⟩
    by_cases e : v = v'
    · exact Or.inl e
    · have h1 := hmin v' ((hiff v').2 hv') (fun h => e h.symm)
      have h2 := hmin' v ((hiff v).1 hv) e
      rw [hcost, hcost] at h1
      right
      by_contra hge
      have hsq := mul_self_le_mul_self hn' (not_lt.1 hge)
      nlinarith

theorem admissible_mix {f : S → List K} {g : S → List (List K)} {s : ASIFObj K S P X} {x : S} {t : K} (h0 : 0 ≤ t) (h1 : t ≤ 1)
    {a b : List K} (ha : Admissible f g s x a) (hb : Admissible f g s x b) : Admissible f g s x (mix t a b) := by
  have hl := ha.len.trans hb.len.symm
  refine ⟨by simp [ha.len, hb.len], within_mix h0 h1 ha.bounds hb.bounds, fun kc hkc hen => ?_,
    fun kc hkc hen => directOK_mix h0 h1 hl (ha.direct kc hkc hen) (hb.direct kc hkc hen)⟩
  have := barrierOK_mix h0 h1 hl (ha.barrier kc hkc hen) (hb.barrier kc hkc hen)
  simpa using this

/-- **C117, large scales**: let `a` be the closest control that satisfies every condition without slack (the answer of the module
without slack), and let control `z` satisfy everything and the soft conditions with margin `δ > 0`. If the square roots of the
scales are at least `r`, then the returned control is within squared distance `10·ν/(ν + δ)·|z - u|²` of `a`, for every `ν ≥ 0` with
`|a - u|² ≤ r·ν²`; so it tends to `a` as the scales grow. -/
theorem C117_large_scales {solver : Solver K} (hspec : SolverSpec solver) {f : S → List K} {g : S → List (List K)}
    {s s' : ASIFObj K S P X} (hs : ExplicitModule solver f g s) (hpos : ScalesPos s.constraints) (hen : s.enable = true)
    (hal : HasAlpha s.constraints) (x : S) (dt : K) (u v : List K)
    (hcall : explicitASIF solver f g s (.array x) dt u = (.ok v, s')) (a z : List K) (ha : Admissible f g s x a)
    (hmina : ∀ b, Admissible f g s x b → sqDist a u ≤ sqDist b u) (hz : FirmOK f g s x z) (δ r ν : K) (hδ : 0 < δ)
    (hzs : ∀ kc ∈ s.constraints, kc.2.enabled = true → kc.2.slackPriorityScale.isSome = true → BarrierOK f g kc.2 x z δ)
    (hr : 0 < r) (hrs : ∀ w ∈ slackScales s.constraints, r ≤ HasSqrt.sqrt w) (hν : 0 ≤ ν) (hν2 : sqDist a u ≤ r * (ν * ν)) :
    sqDist v a ≤ 10 * (ν / (ν + δ)) * sqDist z u := by
  obtain ⟨hu, hv, -⟩ := soft_solved hspec hs hpos hen hal hcall ⟨a, admissible_firmOK ha⟩
  obtain ⟨hvle, hvio⟩ := C117_bound hspec hs hpos hen hal x dt u v hcall a ha
  have lv : v.length = u.length := hv.len.trans hu.symm
  have la : a.length = u.length := ha.len.trans hu.symm
  have lz : z.length = u.length := hz.len.trans hu.symm
  have hza : Admissible f g s x z := by
    refine ⟨hz.len, hz.bounds, fun kc hkc he => ?_, hz.direct⟩
    rcases hsc : kc.2.slackPriorityScale with _ | w
    · exact hz.barrier kc hkc he hsc
    · obtain ⟨m, hm, hd⟩ := hzs kc hkc he (by rw [hsc]; rfl)
      exact ⟨m, hm, hδ.le.trans hd⟩
  set τ := ν / (ν + δ) with hτ
  have hτ0 : 0 ≤ τ := div_nonneg hν (by linarith)
  have hτ1 : τ ≤ 1 := by rw [hτ, div_le_one (by linarith)]; linarith
  have hτe : τ * (ν + δ) = ν := by rw [hτ]; field_simp
  have hv0 := sqDist_nonneg v u
  have hy : Admissible f g s x (mix τ v z) := by
    have hfy := firmOK_mix hτ0 hτ1 hv hz
    refine ⟨hfy.len, hfy.bounds, fun kc hkc he => ?_, hfy.direct⟩
    rcases hsc : kc.2.slackPriorityScale with _ | w
    · exact hfy.barrier kc hkc he hsc
    · have hb := hvio kc.1 kc.2 w hkc he hsc
      have hw := hrs w (List.mem_filterMap.2 ⟨kc, hkc, hsc⟩)
      have hn := violation_nonneg f g kc.2 x v
      have hle : violation f g kc.2 x v ≤ ν := by
        by_contra hlt
        have hlt := not_le.1 hlt
        have h1 : ν * ν < violation f g kc.2 x v * violation f g kc.2 x v := mul_self_lt_mul_self hν hlt
        have h2 := mul_lt_mul_of_pos_left h1 hr
        have h3 := mul_le_mul_of_nonneg_right hw (mul_self_nonneg (violation f g kc.2 x v))
        linarith
      obtain ⟨m, hm, hd⟩ := barrierOK_mix hτ0 hτ1 (lv.trans lz.symm) (violation_barrier (hal kc hkc he) x v)
        (hzs kc hkc he (by rw [hsc]; rfl))
      refine ⟨m, hm, le_trans ?_ hd⟩
      nlinarith [mul_nonneg (sub_nonneg.2 hτ1) (sub_nonneg.2 hle)]
  have ly : (mix τ v z).length = u.length := by simp [lv, lz]
  have h1 := closest_gap (C := Admissible f g s x) (fun t h0 h1 _ _ => admissible_mix h0 h1) ha hy la ly hmina
  have h2 := sqDist_convex hτ0 hτ1 lv lz
  have h3 := sqDist_mix_self τ (a := v) (b := z) (lz.trans lv.symm)
  have h4 := sqDist_twice (a := z) (b := u) (c := v) lz lv.symm
  have h5 := sqDist_twice (a := v) (b := mix τ v z) (c := a) (lv.trans ly.symm) (ly.trans la.symm)
  have h6 := hmina z hza
  rw [sqDist_comm u v] at h4
  rw [sqDist_comm v (mix τ v z), h3] at h5
  have h7 : sqDist z v ≤ 4 * sqDist z u := by linarith
  have h8 : τ ^ 2 * sqDist z v ≤ τ * (4 * sqDist z u) := by
    have hz0 := sqDist_nonneg z v
    nlinarith [mul_le_mul_of_nonneg_left h7 hτ0, mul_nonneg (mul_nonneg hτ0 (sub_nonneg.2 hτ1)) hz0]
  nlinarith [mul_nonneg hτ0 hv0]
end

/-! ### Example

The module of `Props/ASIF` with scale `w` in state `0`: the condition is `u ≥ 0`, and desired control `-1` leads to the answer
`-1/(1 + √w)`, which misses the condition by just as much. -/

theorem toy_firm (w : ℝ) (exc : Bool) (x : ℝ) (y : List ℝ) :
    FirmOK toyF toyG (toyObj (some w) exc) x y ↔ ∃ a, y = [a] ∧ -2 ≤ a ∧ a ≤ 2 := by
  constructor
  · intro h
    obtain ⟨a, rfl⟩ := List.length_eq_one_iff.1 h.len
    exact ⟨a, rfl, (toy_within (some w) exc a).1 h.bounds⟩
  · rintro ⟨a, rfl, h⟩
    refine ⟨rfl, (toy_within (some w) exc a).2 h, fun kc hkc _ hn => ?_, by simp [toyObj]⟩
    simp only [toyObj, List.mem_singleton] at hkc
    subst hkc
    simp [toyC] at hn

theorem toy_violation (w : Option ℝ) (a : ℝ) : violation toyF toyG (toyC w) 0 [a] = max 0 (-a) := by
  have e : barrierValue toyF toyG (toyC w) 0 [a] = some a := by
    simp [barrierValue, toyC, toyF, toyG, matVec, vadd, strengthening]
  unfold violation
  rw [e, Option.getD_some]

theorem toy_alpha (w : Option ℝ) (exc : Bool) : HasAlpha (toyObj w exc).constraints := by
  intro kc hkc _
  simp only [toyObj, List.mem_singleton] at hkc
  subst hkc; rfl

theorem toy_soft_call (w : ℝ) (hw : 0 < w) (dt : ℝ) : ∃ s', explicitASIF refSolver toyF toyG (toyObj (some w) true) (.array 0) dt [-1] =
    (.ok [-(1 / (1 + HasSqrt.sqrt w))], s') := by
  obtain ⟨v, hv⟩ := C117_returns refSolver_spec (toy_module refSolver (some w) true) (toy_pos w hw true) rfl 0 (toy_shapes _ _ _)
    dt [-1] rfl ⟨[0], (toy_firm w true 0 [0]).2 ⟨0, rfl, by norm_num, by norm_num⟩⟩
  have hcall : explicitASIF refSolver toyF toyG (toyObj (some w) true) (.array 0) dt [-1] =
    (.ok v, (explicitASIF refSolver toyF toyG (toyObj (some w) true) (.array 0) dt [-1]).2) := Prod.ext hv rfl
  suffices e : v = [-(1 / (1 + HasSqrt.sqrt w))] by rw [← e]; exact ⟨_, hcall⟩
  obtain ⟨hf, hmin⟩ := C117_penalty refSolver_spec (toy_module refSolver (some w) true) (toy_pos w hw true) rfl (toy_alpha _ _) 0 dt
    [-1] v hcall ⟨[0], (toy_firm w true 0 [0]).2 ⟨0, rfl, by norm_num, by norm_num⟩⟩
  have hr : 0 < (HasSqrt.sqrt w : ℝ) := hasSqrt_pos hw
  set r : ℝ := HasSqrt.sqrt w with hrdef
  have hden : (1 + r) * (1 / (1 + r)) = 1 := by field_simp
  have hp : 0 < 1 / (1 + r) := by positivity
  have h1 : 1 / (1 + r) ≤ 1 := by rw [div_le_one (by linarith)]; linarith
  set p : ℝ := 1 / (1 + r) with hpdef
  have hcost : ∀ a : ℝ, softCost HasSqrt.sqrt (fun c y => violation toyF toyG c 0 y) (toyObj (some w) true).constraints [-1] [a] =
      (a + 1) * (a + 1) + r * (max 0 (-a) * max 0 (-a)) := by
    intro a
    have e1 : (toyObj (some w) true).constraints = [("c", toyC (some w))] := rfl
    unfold softCost
    rw [e1, List.map_cons, List.map_nil, List.sum_cons, List.sum_nil, add_zero]
    simp only [toy_violation, penalty]
    simp [toyC, sqDist, sqNorm, vsub, dot, hrdef]
  obtain ⟨a, rfl, -, -⟩ := (toy_firm w true 0 v).1 hf
  by_contra hne
  have := hmin [-p] ((toy_firm w true 0 [-p]).2 ⟨-p, rfl, by linarith, by linarith⟩) (fun e => hne (by rw [e]))
  rw [hcost, hcost, neg_neg, max_eq_right hp.le] at this
  have hmx : -a ≤ max 0 (-a) := le_max_right _ _
  have hm0 : 0 ≤ max 0 (-a) := le_max_left _ _
  nlinarith [mul_self_nonneg (a + p), mul_self_nonneg (max 0 (-a) - p), mul_nonneg hr.le (mul_self_nonneg (max 0 (-a) - p)),
    mul_nonneg hr.le (sub_nonneg.2 hmx), mul_nonneg (mul_nonneg hr.le hp.le) (sub_nonneg.2 hmx)]

theorem toy_rescaled (w w' : ℝ) : Rescaled (toyObj (some w) true) (toyObj (some w') true) "c" (toyC (some w)) w' :=
  ⟨rfl, rfl, rfl, rfl, [], [], rfl, rfl⟩

/-- The hypotheses of `C117_priority` with scales 4 and 9. -/
example (dt : ℝ) : ∃ v v' s' t',
    explicitASIF refSolver toyF toyG (toyObj (some 4) true) (.array 0) dt [-1] = (.ok v, s') ∧
      explicitASIF refSolver toyF toyG (toyObj (some 9) true) (.array 0) dt [-1] = (.ok v', t') ∧
      (v' = v ∨ (toyC (some 4)).enabled = true ∧ violation toyF toyG (toyC (some 4)) 0 v' < violation toyF toyG (toyC (some 4)) 0 v) := by
  obtain ⟨s', h⟩ := toy_soft_call 4 (by norm_num) dt
  obtain ⟨t', h'⟩ := toy_soft_call 9 (by norm_num) dt
  exact ⟨_, _, _, _, h, h', C117_priority refSolver_spec (toy_module _ _ _) (toy_module _ _ _) (toy_pos 4 (by norm_num) true)
    (toy_pos 9 (by norm_num) true) rfl rfl (toy_rescaled 4 9) rfl (by norm_num) (toy_alpha _ _) (toy_alpha _ _) 0 dt [-1] _ _ h h'
    ⟨[0], (toy_firm 4 true 0 [0]).2 ⟨0, rfl, by norm_num, by norm_num⟩⟩⟩

theorem toy_hard (w : ℝ) : Admissible toyF toyG (toyObj (some w) true) 0 [0] :=
  (toy_admissible (some w) true 0 [0]).2 ⟨0, rfl, by norm_num⟩

/-- The hypotheses of `C117_bound` and `C117_large_scales`: the answers tend to `0` as the scale grows. -/
example (w : ℝ) (hw : 0 < w) (dt ν : ℝ) (hν : 0 ≤ ν) (h : 1 ≤ HasSqrt.sqrt w * (ν * ν)) : ∃ v s',
    explicitASIF refSolver toyF toyG (toyObj (some w) true) (.array 0) dt [-1] = (.ok v, s') ∧
      sqDist v [-1] ≤ 1 ∧ sqDist v [0] ≤ 10 * (ν / (ν + 1)) * 4 := by
  obtain ⟨s', hc⟩ := toy_soft_call w hw dt
  refine ⟨_, s', hc, ?_, ?_⟩
  · have := (C117_bound refSolver_spec (toy_module _ _ _) (toy_pos w hw true) rfl (toy_alpha _ _) 0 dt [-1] _ hc [0] (toy_hard w)).1
    simpa [sqDist, sqNorm, vsub, dot] using this
  · have := C117_large_scales refSolver_spec (toy_module _ _ _) (toy_pos w hw true) rfl (toy_alpha _ _) 0 dt [-1] _ hc [0] [1]
      (toy_hard w) (fun b hb => by
        obtain ⟨a, rfl, -, h2⟩ := (toy_admissible (some w) true 0 b).1 hb
        simp only [le_refl, if_true, add_zero] at h2
        simp [sqDist, sqNorm, vsub, dot]
        nlinarith) ((toy_firm w true 0 [1]).2 ⟨1, rfl, by norm_num, by norm_num⟩) 1 (HasSqrt.sqrt w) ν one_pos
      (fun kc hkc _ _ => by
        simp only [toyObj, List.mem_singleton] at hkc
        subst hkc
        exact (toy_barrier (some w) 0 1 1).2 (by norm_num)) (hasSqrt_pos hw)
      (fun q hq => by
        simp only [toyObj, slackScales, toyC, List.filterMap_cons, List.filterMap_nil, List.mem_singleton] at hq
        subst hq; exact le_rfl) hν (by simpa [sqDist, sqNorm, vsub, dot] using h)
    refine this.trans (le_of_eq ?_)
    congr 1
    simp [sqDist, sqNorm, vsub, dot]
    norm_num

/-- The toy module without its constraint. -/
noncomputable def bareObj : ASIFObj ℝ ℝ Unit Unit :=
  { toBase := Base.init (some (.scalar 2)) (some (.scalar (-2)))
    constraints := [], params := [], constraintEnabled := [], constraintValues := []
    isStaleConstraints := false
    ext := { epsilon := 1 / 10000, controlDim := 1, solverException := true, numSlack := 0
             objWeight := [1], constraintNames := ["u1_min", "u1_max"]
             actuation := [⟨[1], -2⟩, ⟨[-1], -2⟩]
             direct := [], directParams := [], directEnabled := [], causing := none, extra := () } }

theorem bare_module (solver : Solver ℝ) : ExplicitModule solver toyF toyG bareObj := by
  refine ⟨some (.scalar 2), some (.scalar (-2)), [], none, 1 / 10000, 1, true, [], (), bareObj, [], by simp [dictKeys],
    by simp [dictKeys], rfl, rfl⟩

/-- The hypotheses of `C117_kept_iff`: without the constraint the answer to `-1` is a control that misses it, and so is the answer
with it, for every scale. -/
example (w : ℝ) (hw : 0 < w) (dt : ℝ) : ∃ v v' s' t',
    explicitASIF refSolver toyF toyG (toyObj (some w) true) (.array 0) dt [-1] = (.ok v, s') ∧
      explicitASIF refSolver toyF toyG bareObj (.array 0) dt [-1] = (.ok v', t') ∧
      (BarrierOK toyF toyG (toyC (some w)) 0 v' 0 → v = v') ∧
        (¬ BarrierOK toyF toyG (toyC (some w)) 0 v' 0 → 0 < violation toyF toyG (toyC (some w)) 0 v ∧
          (v = v' ∨ violation toyF toyG (toyC (some w)) 0 v < violation toyF toyG (toyC (some w)) 0 v')) := by
  obtain ⟨s', h⟩ := toy_soft_call w hw dt
  have hw0 : Without (toyObj (some w) true) bareObj "c" (toyC (some w)) := ⟨rfl, rfl, rfl, rfl, [], [], rfl, rfl⟩
  have hf : FirmOK toyF toyG (toyObj (some w) true) 0 [0] := (toy_firm w true 0 [0]).2 ⟨0, rfl, by norm_num, by norm_num⟩
  obtain ⟨v', hv'⟩ := C117_returns refSolver_spec (bare_module refSolver) (by simp [ScalesPos, slackScales, bareObj]) rfl 0
    ⟨by simp [bareObj], by simp [bareObj], rfl, by simp [toyG, bareObj], by simp [bareObj]⟩ dt [-1] rfl
    ⟨[0], (without_firm hw0 rfl 0 [0]).1 hf⟩
  have h' : explicitASIF refSolver toyF toyG bareObj (.array 0) dt [-1] =
    (.ok v', (explicitASIF refSolver toyF toyG bareObj (.array 0) dt [-1]).2) := Prod.ext hv' rfl
  exact ⟨_, _, _, _, h, h', C117_kept_iff refSolver_spec (toy_module _ _ _) (bare_module _) (toy_pos w hw true) rfl rfl hw0 rfl rfl
    (toy_alpha _ _) 0 dt [-1] _ _ h h' ⟨[0], hf⟩⟩

end RTA
