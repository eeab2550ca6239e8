import Verif.Spec.Soft
import Verif.Lemmas.ASIFConvex
import Verif.Lemmas.ASIFPerm
import Verif.Lemmas.ASIFCost

/-!
Eliminating the slack variables (for C117).
-/
set_option linter.unusedSectionVars false
namespace RTA
variable {K S P X : Type} [Field K] [LinearOrder K] [IsStrictOrderedRing K]

/-- The slack values that just make up for the violations. -/
def bestSlack (V : Constraint K S P → K) (cs : Dict (Constraint K S P)) : List K :=
  cs.filterMap fun kc => kc.2.slackPriorityScale.map fun _ => if kc.2.enabled then -V kc.2 else 0

theorem bestSlack_length (V : Constraint K S P → K) (cs : Dict (Constraint K S P)) :
    (bestSlack V cs).length = (slackScales cs).length := by
  induction cs with
  | nil => rfl
  | cons kc cs ih =>
    obtain ⟨q, c⟩ := kc
    unfold bestSlack slackScales at *
    rcases h : c.slackPriorityScale with _ | w <;> simp [h, ih]

theorem bestSlack_assign (V : Constraint K S P → K) (cs : Dict (Constraint K S P)) :
    ∀ cd ∈ assignSlack cs (bestSlack V cs), (∃ q, (q, cd.1) ∈ cs) ∧
      (cd.1.enabled = true → cd.1.slackPriorityScale.isSome = true → cd.2 = -V cd.1) ∧
      (cd.1.slackPriorityScale = none → cd.2 = 0) := by
  induction cs with
  | nil => intro cd hcd; simp [assignSlack] at hcd
  | cons kc cs ih =>
    obtain ⟨q, c⟩ := kc
    intro cd hcd
    rcases h : c.slackPriorityScale with _ | w
    · have e : bestSlack V ((q, c) :: cs) = bestSlack V cs := by simp [bestSlack, h]
      rw [e, assignSlack_cons_none q h] at hcd
      rcases List.mem_cons.1 hcd with rfl | hcd
      · exact ⟨⟨q, by simp⟩, fun _ hs => by rw [h] at hs; simp at hs, fun _ => rfl⟩
      · obtain ⟨⟨p, hp⟩, h2⟩ := ih cd hcd
        exact ⟨⟨p, by simp [hp]⟩, h2⟩
    · have e : bestSlack V ((q, c) :: cs) = (if c.enabled then -V c else 0) :: bestSlack V cs := by
        simp [bestSlack, h]
      rw [e, assignSlack_cons_some q h] at hcd
      rcases List.mem_cons.1 hcd with rfl | hcd
      · exact ⟨⟨q, by simp⟩, fun he _ => if_pos he, fun hn => by rw [h] at hn; cases hn⟩
      · obtain ⟨⟨p, hp⟩, h2⟩ := ih cd hcd
        exact ⟨⟨p, by simp [hp]⟩, h2⟩

/-- What the best slack values cost. -/
theorem bestSlack_cost (φ : K → K) (V : Constraint K S P → K) (cs : Dict (Constraint K S P)) :
    dot ((slackScales cs).map φ) (List.zipWith (· * ·) (bestSlack V cs) (bestSlack V cs)) =
      (cs.map fun kc => penalty φ kc.2 (V kc.2)).sum := by
  induction cs with
  | nil => simp [slackScales, dot]
  | cons kc cs ih =>
    obtain ⟨q, c⟩ := kc
    rcases h : c.slackPriorityScale with _ | w
    · have e : bestSlack V ((q, c) :: cs) = bestSlack V cs := by simp [bestSlack, h]
      rw [e, slackScales_cons_none q h, ih, List.map_cons, List.sum_cons]
      simp [penalty, h]
    · have e : bestSlack V ((q, c) :: cs) = (if c.enabled then -V c else 0) :: bestSlack V cs := by
        simp [bestSlack, h]
      rw [e, slackScales_cons_some q h, List.map_cons, List.zipWith_cons_cons, dot_cons', ih, List.map_cons, List.sum_cons]
      simp only [penalty, h]
      cases c.enabled <;> simp

/-- Slack values that do not fall short of the violations cost at least as much. -/
theorem slack_cost_ge {φ : K → K} (V : Constraint K S P → K) {cs : Dict (Constraint K S P)} {d : List K}
    (hφ : ∀ w ∈ slackScales cs, 0 ≤ φ w) (hd : d.length = (slackScales cs).length)
    (h : ∀ cd ∈ assignSlack cs d, cd.1.enabled = true → V cd.1 * V cd.1 ≤ cd.2 * cd.2) :
    (cs.map fun kc => penalty φ kc.2 (V kc.2)).sum ≤ dot ((slackScales cs).map φ) (List.zipWith (· * ·) d d) := by
  induction cs generalizing d with
  | nil => simp [slackScales, dot]
  | cons kc cs ih =>
    obtain ⟨q, c⟩ := kc
    rcases hs : c.slackPriorityScale with _ | w
    · rw [slackScales_cons_none q hs] at hφ hd ⊢
      rw [assignSlack_cons_none q hs] at h
      rw [List.map_cons, List.sum_cons]
      have := ih hφ hd (fun cd hcd => h cd (by simp [hcd]))
      simp only [penalty, hs, zero_add]
      exact this
    · rw [slackScales_cons_some q hs] at hφ hd ⊢
      rcases d with _ | ⟨a, d⟩
      · simp at hd
      rw [assignSlack_cons_some q hs] at h
      rw [List.map_cons, List.sum_cons, List.map_cons, List.zipWith_cons_cons, dot_cons']
      have := ih (fun v hv => hφ v (by simp [hv])) (by simpa using hd) (fun cd hcd => h cd (by simp [hcd]))
      refine add_le_add ?_ this
      have hw := hφ w (by simp)
      simp only [penalty, hs]
      cases he : c.enabled with
      | true => simp only [if_true]; exact mul_le_mul_of_nonneg_left (h (c, a) (by simp) he) hw
      | false => simp only [Bool.false_eq_true, if_false]; exact mul_nonneg hw (mul_self_nonneg a)

theorem violation_nonneg (f : S → List K) (g : S → List (List K)) (c : Constraint K S P) (x : S) (u : List K) :
    0 ≤ violation f g c x u := le_max_left _ _

theorem violationD_nonneg (next : S → K → List K → S) (c : Constraint K S P) (x : S) (dt : K) (u : List K) :
    0 ≤ violationD next c x dt u := le_max_left _ _

theorem sq_max_le {m d : K} (h : d ≤ m) : max 0 (-m) * max 0 (-m) ≤ d * d := by
  rcases le_total 0 (-m) with h0 | h0
  · rw [max_eq_right h0]; nlinarith
  · rw [max_eq_left h0]; nlinarith [mul_self_nonneg d]

theorem violation_le {f : S → List K} {g : S → List (List K)} {c : Constraint K S P} {x : S} {u : List K} {d : K}
    (h : BarrierOK f g c x u d) : violation f g c x u * violation f g c x u ≤ d * d := by
  obtain ⟨m, hm, hd⟩ := h
  unfold violation
  rw [hm, Option.getD_some]
  exact sq_max_le hd

theorem violation_barrier {f : S → List K} {g : S → List (List K)} {c : Constraint K S P} (ha : c.alpha.isSome = true) (x : S)
    (u : List K) : BarrierOK f g c x u (-violation f g c x u) := by
  obtain ⟨al, hal⟩ := Option.isSome_iff_exists.1 ha
  refine ⟨_, by unfold barrierValue; rw [hal]; rfl, ?_⟩
  unfold violation barrierValue
  rw [hal, Option.map_some, Option.getD_some]
  linarith [le_max_right 0 (-(dot (c.gradFn x c.params) (vadd (f x) (matVec (g x) u)) +
    strengthening c al (c.computeFn x c.params + c.bias)))]

/-- No violation means that the condition holds. -/
theorem violation_zero_iff {f : S → List K} {g : S → List (List K)} {c : Constraint K S P} (ha : c.alpha.isSome = true) (x : S)
    (u : List K) : violation f g c x u = 0 ↔ BarrierOK f g c x u 0 := by
  constructor
  · intro h
    have := violation_barrier (f := f) (g := g) ha x u
    rwa [h, neg_zero] at this
  · intro h
    have := violation_le h
    have h0 := violation_nonneg f g c x u
    nlinarith

theorem discrete_le {next : S → K → List K → S} {c : Constraint K S P} {x : S} {dt : K} (hdt : 0 < dt) {u : List K} {d : K}
    (h : DiscreteOK next c x dt u d) : violationD next c x dt u * violationD next c x dt u ≤ d * d := by
  obtain ⟨al, hal, hd⟩ := h
  unfold violationD
  rw [hal, Option.getD_some]
  refine sq_max_le ?_
  rw [← sub_le_iff_le_add, le_div_iff₀ hdt]
  nlinarith

theorem discrete_violation {next : S → K → List K → S} {c : Constraint K S P} (ha : c.alpha.isSome = true) (x : S) {dt : K}
    (hdt : 0 < dt) (u : List K) : DiscreteOK next c x dt u (-violationD next c x dt u) := by
  obtain ⟨al, hal⟩ := Option.isSome_iff_exists.1 ha
  refine ⟨al, hal, ?_⟩
  have h := le_max_right 0 (-((hval c (next x dt u) - hval c x) / dt + (c.alpha.getD id) (hval c x)))
  unfold violationD
  rw [hal, Option.getD_some] at h ⊢
  have h2 := mul_le_mul_of_nonneg_left h hdt.le
  have e : dt * -((hval c (next x dt u) - hval c x) / dt + al (hval c x)) =
      -(hval c (next x dt u) - hval c x) - dt * al (hval c x) := by
    field_simp
    ring
  rw [e] at h2
  linarith

/-- The violation of a mixture of two controls. -/
theorem violation_mix (f : S → List K) (g : S → List (List K)) (c : Constraint K S P) (x : S) {t : K} (h0 : 0 ≤ t) (h1 : t ≤ 1)
    {a b : List K} (hl : a.length = b.length) :
    violation f g c x (mix t a b) ≤ violation f g c x a + t * (violation f g c x b - violation f g c x a) := by
  by_cases ha : c.alpha.isSome = true
  · have hm := barrierOK_mix h0 h1 hl (violation_barrier (f := f) (g := g) ha x a) (violation_barrier ha x b)
    obtain ⟨m, hm, hd⟩ := hm
    unfold violation at hd ⊢
    rw [hm, Option.getD_some]
    refine max_le ?_ (by linarith)
    exact mix_le h0 h1 (le_max_left _ _) (le_max_left _ _)
  · have hn : c.alpha = none := by simpa using ha
    have e : ∀ u, violation f g c x u = 0 := by intro u; unfold violation barrierValue; rw [hn]; simp
    rw [e, e, e]; simp

theorem penalty_nonneg {φ : K → K} {c : Constraint K S P} (h : ∀ w, c.slackPriorityScale = some w → 0 ≤ φ w) (m : K) :
    0 ≤ penalty φ c m := by
  unfold penalty
  rcases hs : c.slackPriorityScale with _ | w
  · exact le_rfl
  · simp only
    split
    · exact mul_nonneg (h w hs) (mul_self_nonneg m)
    · exact le_rfl

theorem penalty_mix {φ : K → K} {c : Constraint K S P} (h : ∀ w, c.slackPriorityScale = some w → 0 ≤ φ w) {t p q m : K}
    (h0 : 0 ≤ t) (h1 : t ≤ 1) (hm0 : 0 ≤ m) (hm : m ≤ p + t * (q - p)) :
    penalty φ c m ≤ penalty φ c p + t * (penalty φ c q - penalty φ c p) := by
  have hsq : m * m ≤ p * p + t * (q * q - p * p) := by
    have h2 : m * m ≤ (p + t * (q - p)) * (p + t * (q - p)) := mul_self_le_mul_self hm0 hm
    nlinarith [mul_nonneg (mul_nonneg h0 (sub_nonneg.2 h1)) (mul_self_nonneg (q - p))]
  unfold penalty
  rcases hs : c.slackPriorityScale with _ | w
  · simp
  · simp only
    split
    · have := mul_le_mul_of_nonneg_left hsq (h w hs)
      linarith
    · simp

theorem sqDist_convex {t : K} (h0 : 0 ≤ t) (h1 : t ≤ 1) {u v w : List K} (hv : v.length = u.length) (hw : w.length = u.length) :
    sqDist (mix t v w) u ≤ sqDist v u + t * (sqDist w u - sqDist v u) := by
  induction u generalizing v w with
  | nil =>
    cases v with
    | nil => cases w with
      | nil => simp [sqDist, sqNorm, dot, vsub, mix]
      | cons q w => simp at hw
    | cons p v => simp at hv
  | cons r u ih =>
    cases v with
    | nil => simp at hv
    | cons p v => cases w with
      | nil => simp at hw
      | cons q w =>
        rw [mix_cons, sqDist_cons, sqDist_cons, sqDist_cons]
        have := ih (v := v) (w := w) (by simpa using hv) (by simpa using hw)
        nlinarith [mul_nonneg (mul_nonneg h0 (sub_nonneg.2 h1)) (mul_self_nonneg (q - p))]

theorem softCost_mix {φ : K → K} {f : S → List K} {g : S → List (List K)} {x : S} {cs : Dict (Constraint K S P)}
    (hφ : ∀ kc ∈ cs, ∀ w, kc.2.slackPriorityScale = some w → 0 ≤ φ w) {t : K} (h0 : 0 ≤ t) (h1 : t ≤ 1) {u v w : List K}
    (hv : v.length = u.length) (hw : w.length = u.length) :
    softCost φ (fun c u => violation f g c x u) cs u (mix t v w) ≤ softCost φ (fun c u => violation f g c x u) cs u v +
      t * (softCost φ (fun c u => violation f g c x u) cs u w - softCost φ (fun c u => violation f g c x u) cs u v) := by
  have hs : (cs.map fun kc => penalty φ kc.2 (violation f g kc.2 x (mix t v w))).sum ≤
      (cs.map fun kc => penalty φ kc.2 (violation f g kc.2 x v)).sum +
        t * ((cs.map fun kc => penalty φ kc.2 (violation f g kc.2 x w)).sum -
          (cs.map fun kc => penalty φ kc.2 (violation f g kc.2 x v)).sum) := by
    induction cs with
    | nil => simp
    | cons kc cs ih =>
      simp only [List.map_cons, List.sum_cons]
      have h2 := ih (fun kc h => hφ kc (by simp [h]))
      have h3 := penalty_mix (hφ kc (by simp)) h0 h1 (violation_nonneg f g kc.2 x _)
        (violation_mix f g kc.2 x h0 h1 (hv.trans hw.symm))
      linarith
  have hq := sqDist_convex h0 h1 hv hw
  unfold softCost
  linarith

theorem firmOK_mix {f : S → List K} {g : S → List (List K)} {s : ASIFObj K S P X} {x : S} {t : K} (h0 : 0 ≤ t) (h1 : t ≤ 1)
    {a b : List K} (ha : FirmOK f g s x a) (hb : FirmOK f g s x b) : FirmOK f g s x (mix t a b) := by
  have hl := ha.len.trans hb.len.symm
  refine ⟨by simp [ha.len, hb.len], within_mix h0 h1 ha.bounds hb.bounds, fun kc hkc hen hs => ?_,
    fun kc hkc hen => directOK_mix h0 h1 hl (ha.direct kc hkc hen) (hb.direct kc hkc hen)⟩
  have := barrierOK_mix h0 h1 hl (ha.barrier kc hkc hen hs) (hb.barrier kc hkc hen hs)
  simpa using this

theorem firm_admissible {f : S → List K} {g : S → List (List K)} {s : ASIFObj K S P X} {x : S} (hal : HasAlpha s.constraints)
    {w : List K} (h : FirmOK f g s x w) :
    AdmissibleS f g s x w (bestSlack (fun c => violation f g c x w) s.constraints) := by
  refine ⟨h.len, bestSlack_length _ _, h.bounds, fun cd hcd hen => ?_, h.direct⟩
  obtain ⟨⟨q, hq⟩, h1, h2⟩ := bestSlack_assign (fun c => violation f g c x w) s.constraints cd hcd
  rcases hs : cd.1.slackPriorityScale with _ | v
  · rw [h2 hs]; exact h.barrier _ hq hen hs
  · rw [h1 hen (by rw [hs]; rfl)]; exact violation_barrier (hal _ hq hen) x w

theorem firm_assigned {kc : String × Constraint K S P} (hs : kc.2.slackPriorityScale = none) {cs : Dict (Constraint K S P)}
    {d : List K} (hk : kc ∈ cs) : (kc.2, (0 : K)) ∈ assignSlack cs d := by
  induction cs generalizing d with
  | nil => simp at hk
  | cons a cs ih =>
    obtain ⟨q, c⟩ := a
    unfold assignSlack
    rcases List.mem_cons.1 hk with rfl | hk
    · simp only at hs
      simp [hs]
    · split
      · exact List.mem_cons_of_mem _ (ih hk)
      · exact List.mem_cons_of_mem _ (ih hk)

theorem admissible_firm {f : S → List K} {g : S → List (List K)} {s : ASIFObj K S P X} {x : S} {w d : List K}
    (h : AdmissibleS f g s x w d) : FirmOK f g s x w :=
  ⟨h.len, h.bounds, fun _ hkc hen hs => h.barrier _ (firm_assigned hs hkc) hen, h.direct⟩

theorem mix_full {a b : List K} (h : a.length = b.length) : mix 1 a b = b := by
  induction a generalizing b with
  | nil =>
    cases b with
    | nil => rfl
    | cons q b => simp at h
  | cons p a ih =>
    cases b with
    | nil => simp at h
    | cons q b => rw [mix_cons, ih (by simpa using h)]; simp

theorem sqDist_twice {a b c : List K} (h1 : a.length = b.length) (h2 : b.length = c.length) :
    sqDist a c ≤ 2 * sqDist a b + 2 * sqDist b c := by
  induction a generalizing b c with
  | nil =>
    cases b with
    | nil => cases c with
      | nil => simp [sqDist, sqNorm, dot, vsub]
      | cons r c => simp at h2
    | cons q b => simp at h1
  | cons p a ih =>
    cases b with
    | nil => simp at h1
    | cons q b => cases c with
      | nil => simp at h2
      | cons r c =>
        rw [sqDist_cons, sqDist_cons, sqDist_cons]
        have := ih (b := b) (c := c) (by simpa using h1) (by simpa using h2)
        nlinarith [mul_self_nonneg ((p - q) - (q - r))]

theorem sqDist_mix_self (t : K) {a b : List K} (h : b.length = a.length) : sqDist (mix t a b) a = t ^ 2 * sqDist b a := by
  rw [sqDist_mix t rfl h, sqDist_self]
  have : ∀ (v w : List K), dot (vsub v v) w = 0 := by
    intro v
    induction v with
    | nil => intro w; simp [vsub, dot]
    | cons p v ih =>
      intro w
      cases w with
      | nil => simp [dot]
      | cons q w =>
        have e : dot (vsub (p :: v) (p :: v)) (q :: w) = (p - p) * q + dot (vsub v v) w := rfl
        rw [e, ih]; ring
  rw [this]; ring

/-- The closest point of a convex set: every other point is farther from the target by at least the squared distance. -/
theorem closest_gap {C : List K → Prop} (hC : ∀ t : K, 0 ≤ t → t ≤ 1 → ∀ a b, C a → C b → C (mix t a b)) {u a w : List K}
    (ha : C a) (hw : C w) (hal : a.length = u.length) (hwl : w.length = u.length) (hmin : ∀ b, C b → sqDist a u ≤ sqDist b u) :
    sqDist w a ≤ sqDist w u - sqDist a u := by
  have hp : 0 ≤ dot (vsub a u) (vsub w a) := by
    refine first_order (q := sqDist w a) fun t h0 h1 => ?_
    have := hmin _ (hC t h0 h1 a w ha hw)
    rw [sqDist_mix t hal hwl] at this
    linarith
  have h1 := sqDist_mix (1 : K) hal hwl
  rw [mix_full (hal.trans hwl.symm)] at h1
  linarith

end RTA
