import Verif.Spec.ClosedForm
import Verif.Lemmas.ASIFConvex
import Verif.Props.ASIF
import Verif.Props.Zoo.Integrator
import Mathlib.Algebra.Order.BigOperators.Group.Finset
import Mathlib.Tactic.LinearCombination

/-!
C106: when the problem of an explicit ASIF module has a solution, and what the solution is.
-/
set_option linter.unusedSectionVars false
namespace RTA
variable {K S P X : Type}

section helpers
variable [Field K] [LinearOrder K] [IsStrictOrderedRing K]

theorem dot_eq_sum {n : Nat} {a u : List K} (ha : a.length = n) (hu : u.length = n) :
    dot a u = ∑ i ∈ Finset.range n, a.getD i 0 * u.getD i 0 := by
  induction n generalizing a u with
  | zero => rw [List.length_eq_zero_iff.1 ha]; simp
  | succ n ih =>
    rcases a with _ | ⟨p, a⟩
    · simp at ha
    rcases u with _ | ⟨q, u⟩
    · simp at hu
    rw [dot_cons, Finset.sum_range_succ', ih (by simpa using ha) (by simpa using hu)]
    simp [add_comm]

theorem dot_sq_le (a b : List K) : dot a b ^ 2 ≤ sqNorm a * sqNorm b := by
  induction a generalizing b with
  | nil => simp [sqNorm]
  | cons p a ih =>
    rcases b with _ | ⟨q, b⟩
    · simp [sqNorm]
    have h := ih b
    have ha : 0 ≤ sqNorm a := sqNorm_nonneg a
    have hb : 0 ≤ sqNorm b := sqNorm_nonneg b
    have e1 : sqNorm (p :: a) = p * p + sqNorm a := rfl
    have e2 : sqNorm (q :: b) = q * q + sqNorm b := rfl
    rw [dot_cons, e1, e2]
    generalize dot a b = d at *
    generalize sqNorm a = A at *
    generalize sqNorm b = B at *
    -- `2 p q d ≤ p² B + q² A` because `(p q d)² ≤ (p² B)(q² A)`
    have key : 2 * (p * q * d) ≤ p * p * B + q * q * A := by
      have hX : 0 ≤ p * p * B := mul_nonneg (mul_self_nonneg p) hb
      have hY : 0 ≤ q * q * A := mul_nonneg (mul_self_nonneg q) ha
      have hsq : (p * q * d) ^ 2 ≤ (p * p * B) * (q * q * A) := by
        have := mul_le_mul_of_nonneg_left h (sq_nonneg (p * q))
        nlinarith [this]
      refine le_of_abs_le (abs_le_of_sq_le_sq ?_ (add_nonneg hX hY))
      nlinarith [sq_nonneg (p * p * B - q * q * A)]
    nlinarith [key, h]

/-- The barrier condition is an inequality between numbers. -/
theorem barrierOK_iff {f : S → List K} {g : S → List (List K)} {s : ASIFObj K S P X} {x : S} (hsh : ShapesOK f g s x) {k : String}
    {c : Constraint K S P} (hc : (k, c) ∈ s.constraints) {al : K → K} (hal : c.alpha = some al) {u : List K}
    (hu : u.length = s.ext.controlDim) :
    BarrierOK f g c x u 0 ↔ 0 ≤ drift f c al x + dot (influence g c x s.ext.controlDim) u := by
  have h1 : (c.gradFn x c.params).length = (f x).length := hsh.grad _ hc
  have e1 : dot (influence g c x s.ext.controlDim) u = dot (c.gradFn x c.params) (matVec (g x) u) :=
    dot_vecMat _ _ _ _ hsh.cols (h1.trans hsh.input.symm) hu
  have e2 := dot_vadd_right (v := c.gradFn x c.params) (w := f x) (w' := matVec (g x) u) (by rw [matVec_length, hsh.input])
  unfold BarrierOK barrierValue drift
  rw [hal, e1]
  simp only [Option.map_some, Option.some.injEq, exists_eq_left', e2]
  constructor <;> intro h <;> linarith

@[simp] theorem influence_length (g : S → List (List K)) (c : Constraint K S P) (x : S) (n : Nat) : (influence g c x n).length = n := by
  simp [influence]

theorem OneCondition.admissible {f : S → List K} {g : S → List (List K)} {s : ASIFObj K S P X} {x : S} (hsh : ShapesOK f g s x)
    {c : Constraint K S P} {al : K → K} (h : OneCondition s c al) (u : List K) :
    Admissible f g s x u ↔ u.length = s.ext.controlDim ∧ Within s.controlBoundsLow s.controlBoundsHigh u ∧
      0 ≤ drift f c al x + dot (influence g c x s.ext.controlDim) u := by
  obtain ⟨k, hk⟩ := h.mem
  constructor
  · exact fun ha => ⟨ha.len, ha.bounds, (barrierOK_iff hsh hk h.alpha ha.len).1 (ha.barrier _ hk h.enabled)⟩
  · rintro ⟨h1, h2, h3⟩
    refine ⟨h1, h2, fun kc hkc hen => ?_, fun kc hkc hen => by rw [h.direct kc hkc] at hen; simp at hen⟩
    rw [h.only kc hkc hen]
    exact (barrierOK_iff hsh hk h.alpha h1).2 h3

theorem mul_le_max {a l h v : K} (h1 : l ≤ v) (h2 : v ≤ h) : a * v ≤ max (a * l) (a * h) := by
  rcases le_total 0 a with ha | ha
  · exact le_max_of_le_right (mul_le_mul_of_nonneg_left h2 ha)
  · exact le_max_of_le_left (mul_le_mul_of_nonpos_left h1 ha)

theorem dot_vsub_right (v : List K) {w w' : List K} (h : w.length = w'.length) : dot v (vsub w w') = dot v w - dot v w' := by
  induction v generalizing w w' with
  | nil => simp
  | cons a v ih =>
    rcases w with _ | ⟨b, w⟩
    · rcases w' with _ | ⟨b', w'⟩
      · simp [vsub]
      · simp at h
    · rcases w' with _ | ⟨b', w'⟩
      · simp at h
      · have e : vsub (b :: w) (b' :: w') = (b - b') :: vsub w w' := rfl
        rw [e, dot_cons, dot_cons, dot_cons, ih (by simpa using h)]
        ring

theorem sqDist_shift (t : K) {w a : List K} (h : w.length = a.length) : sqDist w (vsub w (vscale t a)) = t ^ 2 * sqNorm a := by
  induction a generalizing w with
  | nil => rw [List.length_eq_zero_iff.1 h]; simp [sqDist, vsub, vscale, sqNorm]
  | cons p a ih =>
    rcases w with _ | ⟨q, w⟩
    · simp at h
    have e1 : vsub (q :: w) (vscale t (p :: a)) = (q - t * p) :: vsub w (vscale t a) := rfl
    have e2 : sqNorm (p :: a) = p * p + sqNorm a := rfl
    rw [e1, sqDist_cons, ih (by simpa using h), e2]
    ring

end helpers

section forms

variable [Field K] [LinearOrder K] [IsStrictOrderedRing K]

/-- **C106, one condition within bounds.** With bounds `l i` and `u i` on every control component and one condition, some control is
admissible exactly when the most the controls can do makes up for the drift. -/
theorem C106_authority {f : S → List K} {g : S → List (List K)} {s : ASIFObj K S P X} {x : S} (hsh : ShapesOK f g s x)
    {c : Constraint K S P} {al : K → K} (h : OneCondition s c al) {l u : Nat → K}
    (hl : ∀ i < s.ext.controlDim, boundAt s.controlBoundsLow i = some (l i))
    (hu : ∀ i < s.ext.controlDim, boundAt s.controlBoundsHigh i = some (u i)) (hlu : ∀ i < s.ext.controlDim, l i ≤ u i) :
    (∃ w, Admissible f g s x w) ↔
      0 ≤ drift f c al x + boxAuthority (influence g c x s.ext.controlDim) l u s.ext.controlDim := by
  set a := influence g c x s.ext.controlDim with ha
  have hal : a.length = s.ext.controlDim := by rw [ha, influence_length]
  constructor
  · rintro ⟨w, hw⟩
    obtain ⟨h1, h2, h3⟩ := (h.admissible hsh w).1 hw
    rw [dot_eq_sum hal h1] at h3
    refine h3.trans (add_le_add_right ?_ _)
    unfold boxAuthority
    refine Finset.sum_le_sum fun i hi => ?_
    have hi := Finset.mem_range.1 hi
    have hget : w[i]? = some (w.getD i 0) := by
      rw [List.getD_eq_getElem?_getD, List.getElem?_eq_getElem (by omega)]; rfl
    obtain ⟨b1, b2⟩ := h2 i _ hget
    exact mul_le_max (b1 _ (hl i hi)) (b2 _ (hu i hi))
  · intro h0
    let w : List K := (List.range s.ext.controlDim).map fun i => if 0 ≤ a.getD i 0 then u i else l i
    have hwl : w.length = s.ext.controlDim := by simp [w]
    refine ⟨w, (h.admissible hsh w).2 ⟨hwl, fun i v hv => ?_, ?_⟩⟩
    · have hi : i < s.ext.controlDim := by
        have := (List.getElem?_eq_some_iff.1 hv).1
        omega
      have hv' : v = if 0 ≤ a.getD i 0 then u i else l i := by
        simp only [w, List.getElem?_map, List.getElem?_range hi, Option.map_some, Option.some.injEq] at hv
        exact hv.symm
      refine ⟨fun b hb => ?_, fun b hb => ?_⟩
      · rw [hl i hi] at hb
        obtain rfl := Option.some.inj hb
        rw [hv']; split
        · exact hlu i hi
        · exact le_rfl
      · rw [hu i hi] at hb
        obtain rfl := Option.some.inj hb
        rw [hv']; split
        · exact le_rfl
        · exact hlu i hi
    · rw [← ha, dot_eq_sum hal hwl]
      refine h0.trans (add_le_add_right ?_ _)
      unfold boxAuthority
      refine Finset.sum_le_sum fun i hi => ?_
      have hi := Finset.mem_range.1 hi
      have hget : w.getD i 0 = if 0 ≤ a.getD i 0 then u i else l i := by
        simp [w, List.getD_eq_getElem?_getD, hi]
      rw [hget]
      split
      · rename_i h0
        exact max_le (mul_le_mul_of_nonneg_left (hlu i hi) h0) le_rfl
      · rename_i h0
        exact max_le le_rfl (mul_le_mul_of_nonpos_left (hlu i hi) (not_le.1 h0).le)

/-! ### Scalar controls -/

/-- Raise `u` to the lower limits, then lower it to the upper limits. -/
def clampTo (lows ups : List K) (u : K) : K := ups.foldr min (lows.foldr max u)

theorem foldr_max_spec (l : List K) (u : K) : u ≤ l.foldr max u ∧ (∀ a ∈ l, a ≤ l.foldr max u) ∧ (l.foldr max u = u ∨ l.foldr max u ∈ l) := by
  induction l with
  | nil => simp
  | cons a l ih =>
    obtain ⟨h1, h2, h3⟩ := ih
    simp only [List.foldr_cons]
    refine ⟨h1.trans (le_max_right _ _), fun b hb => ?_, ?_⟩
    · rcases List.mem_cons.1 hb with rfl | hb
      · exact le_max_left _ _
      · exact (h2 b hb).trans (le_max_right _ _)
    · rcases max_choice a (l.foldr max u) with e | e
      · rw [e]; simp
      · rw [e]; rcases h3 with h3 | h3
        · exact .inl h3
        · exact .inr (by simp [h3])

theorem foldr_min_spec (l : List K) (u : K) : l.foldr min u ≤ u ∧ (∀ a ∈ l, l.foldr min u ≤ a) ∧ (l.foldr min u = u ∨ l.foldr min u ∈ l) := by
  induction l with
  | nil => simp
  | cons a l ih =>
    obtain ⟨h1, h2, h3⟩ := ih
    simp only [List.foldr_cons]
    refine ⟨(min_le_right _ _).trans h1, fun b hb => ?_, ?_⟩
    · rcases List.mem_cons.1 hb with rfl | hb
      · exact min_le_left _ _
      · exact (min_le_right _ _).trans (h2 b hb)
    · rcases min_choice a (l.foldr min u) with e | e
      · rw [e]; simp
      · rw [e]; rcases h3 with h3 | h3
        · exact .inl h3
        · exact .inr (by simp [h3])

theorem clampTo_low {lows ups : List K} (hc : ∀ l ∈ lows, ∀ h ∈ ups, l ≤ h) (u : K) : ∀ l ∈ lows, l ≤ clampTo lows ups u := by
  intro l hl
  unfold clampTo
  rcases (foldr_min_spec ups (lows.foldr max u)).2.2 with e | e
  · rw [e]; exact (foldr_max_spec lows u).2.1 l hl
  · exact hc l hl _ e

theorem clampTo_high (lows ups : List K) (u : K) : ∀ h ∈ ups, clampTo lows ups u ≤ h := (foldr_min_spec _ _).2.1

theorem clampTo_closest {lows ups : List K} (u r : K) (h1 : ∀ l ∈ lows, l ≤ r) (h2 : ∀ h ∈ ups, r ≤ h) :
    |clampTo lows ups u - u| ≤ |r - u| := by
  have hmin := foldr_min_spec ups (lows.foldr max u)
  have hmax := foldr_max_spec lows u
  have hq : clampTo lows ups u = ups.foldr min (lows.foldr max u) := rfl
  rw [← hq] at hmin
  rcases lt_trichotomy (clampTo lows ups u) u with h | h | h
  · have hm : clampTo lows ups u ∈ ups := by
      rcases hmin.2.2 with e | e
      · linarith [hmax.1]
      · exact e
    have := h2 _ hm
    rw [abs_of_neg (by linarith), abs_of_neg (by linarith)]; linarith
  · rw [h, sub_self, abs_zero]; exact abs_nonneg _
  · have hm : clampTo lows ups u ≤ r := by
      rcases hmax.2.2 with e | e
      · linarith [hmin.1]
      · exact hmin.1.trans (h1 _ e)
    rw [abs_of_pos (by linarith), abs_of_pos (by linarith)]; linarith

theorem scalar_within {lo hi : Option (Bound K)} {r : K} : Within lo hi [r] ↔ WithinAt lo hi 0 r := by
  refine ⟨fun h => h 0 r rfl, fun h i v hv => ?_⟩
  rcases i with _ | i
  · obtain rfl : r = v := by simpa using hv
    exact h
  · simp at hv

theorem scalar_admissible {f : S → List K} {g : S → List (List K)} {s : ASIFObj K S P X} {x : S} (hsh : ShapesOK f g s x)
    (hdim : s.ext.controlDim = 1) (r : K) :
    Admissible f g s x [r] ↔ WithinAt s.controlBoundsLow s.controlBoundsHigh 0 r ∧ ∀ q ∈ scalarConds f g s x, 0 ≤ q.2 + q.1 * r := by
  have hinf : ∀ c : Constraint K S P, dot (influence g c x s.ext.controlDim) [r] = (influence g c x 1).getD 0 0 * r := by
    intro c; rw [hdim]; simp [influence]
  have halpha : ∀ kc ∈ s.constraints, kc.2.alpha = some (kc.2.alpha.getD fun _ => 0) := by
    intro kc hkc
    obtain ⟨al, hal⟩ := Option.isSome_iff_exists.1 (hsh.alpha kc hkc)
    rw [hal]; rfl
  have hbar : ∀ kc ∈ s.constraints, BarrierOK f g kc.2 x [r] 0 ↔
      0 ≤ drift f kc.2 (kc.2.alpha.getD fun _ => 0) x + (influence g kc.2 x 1).getD 0 0 * r := by
    intro kc hkc
    rw [← hinf]
    exact barrierOK_iff hsh (k := kc.1) (by simpa using hkc) (halpha kc hkc) (by rw [hdim]; rfl)
  have hdir : ∀ kc ∈ s.ext.direct, DirectOK kc.2 x [r] ↔
      0 ≤ -kc.2.ineqConstant x kc.2.params + (kc.2.ineqWeight x kc.2.params).getD 0 0 * r := by
    intro kc hkc
    have hl := hsh.direct kc hkc
    rw [hdim] at hl
    obtain ⟨b, hb⟩ := List.length_eq_one_iff.1 hl
    unfold DirectOK
    rw [hb, dot_cons]
    simp only [dot_nil_right, add_zero, List.getD_cons_zero]
    constructor <;> intro h <;> linarith
  constructor
  · intro h
    refine ⟨scalar_within.1 h.bounds, fun q hq => ?_⟩
    rcases List.mem_append.1 hq with hq | hq <;> obtain ⟨kc, hkc, rfl⟩ := List.mem_map.1 hq <;> obtain ⟨hm, he⟩ := List.mem_filter.1 hkc
    · exact (hbar kc hm).1 (h.barrier kc hm he)
    · exact (hdir kc hm).1 (h.direct kc hm he)
  · rintro ⟨h1, h2⟩
    refine ⟨by rw [hdim]; rfl, scalar_within.2 h1, fun kc hkc he => ?_, fun kc hkc he => ?_⟩
    · exact (hbar kc hkc).2 (h2 _ (List.mem_append_left _ (List.mem_map.2 ⟨kc, List.mem_filter.2 ⟨hkc, he⟩, rfl⟩)))
    · exact (hdir kc hkc).2 (h2 _ (List.mem_append_right _ (List.mem_map.2 ⟨kc, List.mem_filter.2 ⟨hkc, he⟩, rfl⟩)))

/-- The admissible scalar controls are those between the limits, unless a condition cannot be influenced and is not met. -/
theorem scalar_limits {f : S → List K} {g : S → List (List K)} {s : ASIFObj K S P X} {x : S} (hsh : ShapesOK f g s x)
    (hdim : s.ext.controlDim = 1) (r : K) :
    Admissible f g s x [r] ↔ (∀ l ∈ lowLimits f g s x, l ≤ r) ∧ (∀ h ∈ highLimits f g s x, r ≤ h) ∧
      ∀ q ∈ scalarConds f g s x, q.1 = 0 → 0 ≤ q.2 := by
  rw [scalar_admissible hsh hdim]
  have key : ∀ a d : K, 0 ≤ d + a * r ↔ (0 < a → -d / a ≤ r) ∧ (a < 0 → r ≤ -d / a) ∧ (a = 0 → 0 ≤ d) := by
    intro a d
    rcases lt_trichotomy a 0 with h | h | h
    · have : ¬ 0 < a := not_lt.2 h.le
      simp only [this, h, h.ne, false_imp_iff, true_and, and_true, true_imp_iff]
      rw [le_div_iff_of_neg h]
      constructor <;> intro h' <;> linarith
    · subst h; simp
    · have : ¬ a < 0 := not_lt.2 h.le
      simp only [this, h, h.ne', false_imp_iff, and_true, true_imp_iff]
      rw [div_le_iff₀ h]
      constructor <;> intro h' <;> linarith
  constructor
  · rintro ⟨⟨b1, b2⟩, h⟩
    refine ⟨fun l hl => ?_, fun u hu => ?_, fun q hq hz => ((key _ _).1 (h q hq)).2.2 hz⟩
    · rcases List.mem_append.1 hl with hl | hl
      · exact b1 l (by simpa using hl)
      · obtain ⟨q, hq, rfl⟩ := List.mem_map.1 hl
        obtain ⟨hm, hp⟩ := List.mem_filter.1 hq
        exact ((key _ _).1 (h q hm)).1 (by simpa using hp)
    · rcases List.mem_append.1 hu with hu | hu
      · exact b2 u (by simpa using hu)
      · obtain ⟨q, hq, rfl⟩ := List.mem_map.1 hu
        obtain ⟨hm, hp⟩ := List.mem_filter.1 hq
        exact ((key _ _).1 (h q hm)).2.1 (by simpa using hp)
  · rintro ⟨h1, h2, h3⟩
    refine ⟨⟨fun b hb => h1 b (List.mem_append_left _ (by simpa using hb)), fun b hb => h2 b (List.mem_append_left _ (by simpa using hb))⟩,
      fun q hq => (key _ _).2 ⟨fun hp => h1 _ (List.mem_append_right _ (List.mem_map.2 ⟨q, List.mem_filter.2 ⟨hq, by simpa using hp⟩, rfl⟩)),
        fun hp => h2 _ (List.mem_append_right _ (List.mem_map.2 ⟨q, List.mem_filter.2 ⟨hq, by simpa using hp⟩, rfl⟩)), h3 q hq⟩⟩

/-- **C106, scalar controls, solvability.** Some scalar control is admissible exactly when no lower limit exceeds an upper limit and every
condition that the control cannot influence is met: checking conditions in pairs suffices, however many there are. -/
theorem C106_pairs {f : S → List K} {g : S → List (List K)} {s : ASIFObj K S P X} {x : S} (hsh : ShapesOK f g s x)
    (hdim : s.ext.controlDim = 1) :
    (∃ w, Admissible f g s x w) ↔ (∀ l ∈ lowLimits f g s x, ∀ h ∈ highLimits f g s x, l ≤ h) ∧
      ∀ q ∈ scalarConds f g s x, q.1 = 0 → 0 ≤ q.2 := by
  constructor
  · rintro ⟨w, hw⟩
    have hl := hw.len
    rw [hdim] at hl
    obtain ⟨r, rfl⟩ := List.length_eq_one_iff.1 hl
    obtain ⟨h1, h2, h3⟩ := (scalar_limits hsh hdim r).1 hw
    exact ⟨fun l hl h hh => (h1 l hl).trans (h2 h hh), h3⟩
  · rintro ⟨h1, h2⟩
    exact ⟨[clampTo (lowLimits f g s x) (highLimits f g s x) 0], (scalar_limits hsh hdim _).2
      ⟨clampTo_low h1 0, clampTo_high _ _ 0, h2⟩⟩

variable [HasSqrt K] [LawfulSqrt K]

/-- **C106, scalar controls, closed form.** A module with a scalar control and no slack returns the desired control clamped to the limits
if these are compatible, and otherwise does what it is configured to do when there is no solution. -/
theorem C106_scalar {solver : Solver K} (hspec : SolverSpec solver) {f : S → List K} {g : S → List (List K)} {s : ASIFObj K S P X}
    (hs : ExplicitModule solver f g s) (hen : s.enable = true) {x : S} (hsh : ShapesOK f g s x) (hns : slackScales s.constraints = [])
    (hdim : s.ext.controlDim = 1) (dt u : K) :
    ((∀ l ∈ lowLimits f g s x, ∀ h ∈ highLimits f g s x, l ≤ h) ∧ (∀ q ∈ scalarConds f g s x, q.1 = 0 → 0 ≤ q.2) →
      (explicitASIF solver f g s (.array x) dt [u]).1 = .ok [clampTo (lowLimits f g s x) (highLimits f g s x) u]) ∧
    (¬ ((∀ l ∈ lowLimits f g s x, ∀ h ∈ highLimits f g s x, l ≤ h) ∧ ∀ q ∈ scalarConds f g s x, q.1 = 0 → 0 ≤ q.2) →
      (explicitASIF solver f g s (.array x) dt [u]).1 = if s.ext.solverException then .error .solverError else s.toBase.clipControl [u]) := by
  have hpos : ScalesPos s.constraints := by intro w hw; rw [hns] at hw; simp at hw
  have hu : [u].length = s.ext.controlDim := by rw [hdim]; rfl
  constructor
  · rintro ⟨h1, h2⟩
    have hq := (scalar_limits hsh hdim (clampTo (lowLimits f g s x) (highLimits f g s x) u)).2 ⟨clampTo_low h1 u, clampTo_high _ _ u, h2⟩
    obtain ⟨v, hv⟩ := C24_returns hspec hs hpos hen x hsh dt [u] hu ⟨_, _, admissible_iff_zeros.1 hq⟩
    have hcall : explicitASIF solver f g s (.array x) dt [u] = (.ok v, (explicitASIF solver f g s (.array x) dt [u]).2) := Prod.ext hv rfl
    obtain ⟨hva, hmin⟩ := C24_closest_admissible hspec hs hns hen x dt [u] v hcall ⟨_, hq⟩
    have hl := hva.len
    rw [hdim] at hl
    obtain ⟨r, rfl⟩ := List.length_eq_one_iff.1 hl
    by_cases e : [clampTo (lowLimits f g s x) (highLimits f g s x) u] = [r]
    · rw [hv, e]
    · exfalso
      have h3 := hmin _ hq e
      obtain ⟨b1, b2, -⟩ := (scalar_limits hsh hdim r).1 hva
      have h4 := clampTo_closest u r b1 b2
      rw [sqDist_cons, sqDist_cons] at h3
      have h5 := sq_le_sq.2 h4
      simp only [pow_two] at h5
      linarith
  · intro hno
    refine C27_infeasible_policy hspec hs hpos hen x hsh dt [u] hu ?_
    rintro ⟨q, d, hq⟩
    exact hno ((C106_pairs hsh hdim).1 ⟨q, ((admissibleS_noslack hns).1 hq).2⟩)

/-- **C106, running out of control.** Such a module returns a control that meets the condition when the control authority makes up for the
drift, and otherwise does what it is configured to do when there is no solution. -/
theorem C106_outcome {solver : Solver K} (hspec : SolverSpec solver) {f : S → List K} {g : S → List (List K)} {s : ASIFObj K S P X}
    (hs : ExplicitModule solver f g s) (hen : s.enable = true) {x : S} (hsh : ShapesOK f g s x) {c : Constraint K S P} {al : K → K}
    (h : OneCondition s c al) {l u : Nat → K} (hl : ∀ i < s.ext.controlDim, boundAt s.controlBoundsLow i = some (l i))
    (hu : ∀ i < s.ext.controlDim, boundAt s.controlBoundsHigh i = some (u i)) (hlu : ∀ i < s.ext.controlDim, l i ≤ u i) (dt : K)
    {w : List K} (hw : w.length = s.ext.controlDim) :
    (0 ≤ drift f c al x + boxAuthority (influence g c x s.ext.controlDim) l u s.ext.controlDim →
      ∃ v, (explicitASIF solver f g s (.array x) dt w).1 = .ok v ∧ Within s.controlBoundsLow s.controlBoundsHigh v ∧
        0 ≤ drift f c al x + dot (influence g c x s.ext.controlDim) v) ∧
    (drift f c al x + boxAuthority (influence g c x s.ext.controlDim) l u s.ext.controlDim < 0 →
      (explicitASIF solver f g s (.array x) dt w).1 = if s.ext.solverException then .error .solverError else s.toBase.clipControl w) := by
  have hpos : ScalesPos s.constraints := by intro w hw; rw [h.noSlack] at hw; simp at hw
  have hiff := C106_authority hsh h hl hu hlu
  constructor
  · intro h0
    obtain ⟨q, hq⟩ := hiff.2 h0
    obtain ⟨v, hv⟩ := C24_returns hspec hs hpos hen x hsh dt w hw ⟨q, _, admissible_iff_zeros.1 hq⟩
    have hcall : explicitASIF solver f g s (.array x) dt w = (.ok v, (explicitASIF solver f g s (.array x) dt w).2) := Prod.ext hv rfl
    have := (C24_closest_admissible hspec hs h.noSlack hen x dt w v hcall ⟨q, hq⟩).1
    obtain ⟨-, h2, h3⟩ := (h.admissible hsh v).1 this
    exact ⟨v, hv, h2, h3⟩
  · intro h0
    refine C27_infeasible_policy hspec hs hpos hen x hsh dt w hw ?_
    rintro ⟨q, d, hq⟩
    exact absurd (hiff.1 ⟨q, ((admissibleS_noslack h.noSlack).1 hq).2⟩) (not_le.2 h0)

/-- The projection of `w` onto the controls with `0 ≤ d + a u`. -/
def project (a : List K) (d : K) (w : List K) : List K :=
  if 0 ≤ d + dot a w then w else vsub w (vscale ((d + dot a w) / sqNorm a) a)

/-- **C106, closed form without bounds.** A module without bounds whose only condition can be influenced returns the desired control if it
meets the condition, and otherwise its projection onto the condition's boundary. If the condition cannot be influenced and is not met,
there is no solution. -/
theorem C106_projection {solver : Solver K} (hspec : SolverSpec solver) {f : S → List K} {g : S → List (List K)} {s : ASIFObj K S P X}
    (hs : ExplicitModule solver f g s) (hen : s.enable = true) {x : S} (hsh : ShapesOK f g s x) {c : Constraint K S P} {al : K → K}
    (h : OneCondition s c al) (hlo : s.controlBoundsLow = none) (hhi : s.controlBoundsHigh = none) (dt : K) {w : List K}
    (hw : w.length = s.ext.controlDim) :
    (sqNorm (influence g c x s.ext.controlDim) ≠ 0 →
      (explicitASIF solver f g s (.array x) dt w).1 = .ok (project (influence g c x s.ext.controlDim) (drift f c al x) w)) ∧
    (sqNorm (influence g c x s.ext.controlDim) = 0 → (explicitASIF solver f g s (.array x) dt w).1 =
      if 0 ≤ drift f c al x then .ok w else if s.ext.solverException then .error .solverError else s.toBase.clipControl w) := by
  have hpos : ScalesPos s.constraints := by intro w hw; rw [h.noSlack] at hw; simp at hw
  set a := influence g c x s.ext.controlDim with ha
  have hal : a.length = s.ext.controlDim := by rw [ha, influence_length]
  have hin : ∀ u : List K, Within s.controlBoundsLow s.controlBoundsHigh u := fun u i v _ => by
    rw [hlo, hhi]; exact ⟨fun b hb => by simp [boundAt] at hb, fun b hb => by simp [boundAt] at hb⟩
  have hadm : ∀ u, Admissible f g s x u ↔ u.length = s.ext.controlDim ∧ 0 ≤ drift f c al x + dot a u := fun u => by
    rw [h.admissible hsh u]; exact ⟨fun ⟨p, _, q⟩ => ⟨p, q⟩, fun ⟨p, q⟩ => ⟨p, hin u, q⟩⟩
  have hret : ∀ q, Admissible f g s x q → ∃ v, (explicitASIF solver f g s (.array x) dt w).1 = .ok v ∧ Admissible f g s x v ∧
      ∀ q, Admissible f g s x q → q ≠ v → sqDist v w < sqDist q w := by
    intro q hq
    obtain ⟨v, hv⟩ := C24_returns hspec hs hpos hen x hsh dt w hw ⟨q, _, admissible_iff_zeros.1 hq⟩
    have hcall : explicitASIF solver f g s (.array x) dt w = (.ok v, (explicitASIF solver f g s (.array x) dt w).2) := Prod.ext hv rfl
    exact ⟨v, hv, C24_closest_admissible hspec hs h.noSlack hen x dt w v hcall ⟨q, hq⟩⟩
  have hself : 0 ≤ drift f c al x + dot a w → (explicitASIF solver f g s (.array x) dt w).1 = .ok w := by
    intro h0
    have hq := (hadm w).2 ⟨hw, h0⟩
    obtain ⟨v, hv, -, hmin⟩ := hret w hq
    by_cases e : w = v
    · rw [hv, ← e]
    · have := hmin w hq e
      rw [sqDist_self] at this
      exact absurd this (not_lt.2 (sqDist_nonneg _ _))
  constructor
  · intro hne
    have hsq : 0 < sqNorm a := lt_of_le_of_ne (sqNorm_nonneg a) (Ne.symm hne)
    unfold project
    split
    · rename_i h0; exact hself h0
    · rename_i h0
      set q := drift f c al x + dot a w with hq
      have hlen : (vsub w (vscale (q / sqNorm a) a)).length = s.ext.controlDim := by simp [vsub, vscale, hw, hal]
      have hdv : ∀ u : List K, u.length = s.ext.controlDim → dot a (vsub u w) = dot a u - dot a w := fun u hu => dot_vsub_right _ (hu.trans hw.symm)
      have hdot : dot a (vsub w (vscale (q / sqNorm a) a)) = dot a w - q := by
        rw [dot_vsub_right _ (by simp [hw, hal]), dot_vscale_right]
        have : dot a a = sqNorm a := rfl
        rw [this, div_mul_cancel₀ _ hne]
      have hadmv : Admissible f g s x (vsub w (vscale (q / sqNorm a) a)) := (hadm _).2 ⟨hlen, by rw [hdot, hq]; linarith⟩
      obtain ⟨v, hv, hva, hmin⟩ := hret _ hadmv
      by_cases e : vsub w (vscale (q / sqNorm a) a) = v
      · rw [hv, e]
      · exfalso
        have h1 := hmin _ hadmv e
        have h2 : sqDist (vsub w (vscale (q / sqNorm a) a)) w * sqNorm a = q ^ 2 := by
          have e1 : sqDist (vsub w (vscale (q / sqNorm a) a)) w = (q / sqNorm a) ^ 2 * sqNorm a := by
            rw [sqDist_comm]; exact sqDist_shift _ (hw.trans hal.symm)
          rw [e1]; field_simp
        obtain ⟨hvl, hvq⟩ := (hadm v).1 hva
        have h3 := dot_sq_le a (vsub v w)
        rw [hdv v hvl] at h3
        have h4 : -q ≤ dot a v - dot a w := by rw [hq]; linarith
        have h5 : q ^ 2 ≤ (dot a v - dot a w) ^ 2 := by
          have : 0 ≤ -q := by linarith [not_le.1 h0]
          nlinarith
        have h6 : sqNorm a * sqDist v w < sqNorm a * sqDist (vsub w (vscale (q / sqNorm a) a)) w := mul_lt_mul_of_pos_left h1 hsq
        have h7 : sqNorm (vsub v w) = sqDist v w := rfl
        rw [h7] at h3
        linarith [mul_comm (sqNorm a) (sqDist (vsub w (vscale (q / sqNorm a) a)) w)]
  · intro hz
    have hz0 : ∀ u, dot a u = 0 := fun u => by
      have := dot_sq_le a u
      rw [hz, zero_mul] at this
      exact pow_eq_zero_iff (two_ne_zero) |>.1 (le_antisymm this (sq_nonneg _))
    split
    · rename_i h0; exact hself (by rw [hz0]; linarith)
    · rename_i h0
      refine C27_infeasible_policy hspec hs hpos hen x hsh dt w hw ?_
      rintro ⟨q, d, hq⟩
      have := ((hadm q).1 ((admissibleS_noslack h.noSlack).1 hq).2).2
      rw [hz0, add_zero] at this
      exact h0 this

end forms

/-! ### Instances -/

theorem toy_one (exc : Bool) : OneCondition (toyObj none exc) (toyC none) id where
  mem := ⟨"c", by simp [toyObj]⟩
  enabled := rfl
  alpha := rfl
  only := by intro kc hkc _; simp only [toyObj, List.mem_singleton] at hkc; rw [hkc]
  direct := by simp [toyObj]
  noSlack := by simp [toyObj, slackScales, toyC]

theorem toy_drift (x : ℝ) : drift toyF (toyC none) id x = if 0 ≤ x then x else 10 * x - 1 / 100 := by
  rw [← toy_strength none]
  simp [drift, toyC, toyF]

theorem toy_influence (x : ℝ) : influence toyG (toyC none) x 1 = [1] := by simp [influence, toyG, toyC]

/-- The toy module has a solution exactly at the states from -0.199 upwards. -/
example (exc : Bool) (x : ℝ) : (∃ w, Admissible toyF toyG (toyObj none exc) x w) ↔ -199 / 1000 ≤ x := by
  rw [C106_authority (toy_shapes none exc x) (toy_one exc) (l := fun _ => -2) (u := fun _ => 2) (fun i _ => rfl) (fun i _ => rfl)
    (fun i _ => by norm_num)]
  have e : (toyObj none exc).ext.controlDim = 1 := rfl
  rw [e, toy_influence, toy_drift]
  have : boxAuthority [(1 : ℝ)] (fun _ => -2) (fun _ => 2) 1 = 2 := by
    rw [boxAuthority, Finset.sum_range_one, List.getD_cons_zero, max_eq_right (by norm_num)]; norm_num
  rw [this]
  split
  · constructor <;> intro <;> linarith
  · constructor <;> intro <;> linarith

/-- Below -0.199 the toy module raises the solver error, or clips if it is configured not to raise. -/
example {solver : Solver ℝ} (hspec : SolverSpec solver) (exc : Bool) (u : ℝ) :
    (explicitASIF solver toyF toyG (toyObj none exc) (.array (-1)) 1 [u]).1 =
      if exc then .error .solverError else (toyObj none exc).toBase.clipControl [u] := by
  refine (C106_outcome hspec (toy_module solver none exc) rfl (toy_shapes none exc (-1)) (toy_one exc) (l := fun _ => -2) (u := fun _ => 2)
    (fun i _ => rfl) (fun i _ => rfl) (fun i _ => by norm_num) 1 rfl).2 ?_
  have e : (toyObj none exc).ext.controlDim = 1 := rfl
  rw [e, toy_influence, toy_drift]
  have : boxAuthority [(1 : ℝ)] (fun _ => -2) (fun _ => 2) 1 = 2 := by
    rw [boxAuthority, Finset.sum_range_one, List.getD_cons_zero, max_eq_right (by norm_num)]; norm_num
  rw [this, if_neg (by norm_num)]
  norm_num

/-- The toy module's answers in closed form. -/
example {solver : Solver ℝ} (hspec : SolverSpec solver) (exc : Bool) {x : ℝ} (hx : 0 ≤ x) (dt u : ℝ) :
    (explicitASIF solver toyF toyG (toyObj none exc) (.array x) dt [u]).1 = .ok [min 2 (max (-2) (max (-x) u))] := by
  have e : scalarConds toyF toyG (toyObj none exc) x = [(1, x)] := by
    have h1 := toy_influence x
    have h2 := toy_drift x
    rw [if_pos hx] at h2
    simp only [scalarConds, toyObj, List.filter_cons, List.filter_nil, List.map_nil, List.append_nil]
    rw [if_pos (show (toyC none).enabled = true from rfl), List.map_cons, List.map_nil, h1]
    simp only [List.getD_cons_zero, List.cons.injEq, Prod.mk.injEq, true_and, and_true]
    exact h2
  have el : lowLimits toyF toyG (toyObj none exc) x = [-2, -x] := by
    rw [lowLimits, e]; simp [toyObj, Base.init, boundAt]
  have eh : highLimits toyF toyG (toyObj none exc) x = [2] := by
    rw [highLimits, e]; simp [toyObj, Base.init, boundAt]
  have := (C106_scalar hspec (toy_module solver none exc) rfl (toy_shapes none exc x) (toy_one exc).noSlack rfl dt u).1
    (by rw [el, eh, e]; refine ⟨?_, by simp⟩; simp only [List.mem_cons, List.not_mem_nil, or_false]; rintro l (rfl | rfl) h rfl <;> linarith)
  rw [this, el, eh]
  rfl

/-- The toy module without bounds, constructed the same way. -/
noncomputable def freeObj (exc : Bool) : ASIFObj ℝ ℝ Unit Unit :=
  { toyObj none exc with
    toBase := Base.init none none
    ext := { (toyObj none exc).ext with constraintNames := ["c"], actuation := [] } }

theorem free_init (exc : Bool) : asifInit none none [("c", toyC none)] none (1 / 10000) 1 exc [] () = .ok (freeObj exc) := rfl

theorem free_module (solver : Solver ℝ) (exc : Bool) : ExplicitModule solver toyF toyG (freeObj exc) :=
  ⟨_, _, _, _, _, _, _, _, _, _, [], by simp [dictKeys], by simp [dictKeys], free_init exc, rfl⟩

/-- Without bounds the toy module pulls a desired control that is too low up to `-x`. -/
example {solver : Solver ℝ} (hspec : SolverSpec solver) (exc : Bool) {x u : ℝ} (hx : 0 ≤ x) (hu : u < -x) (dt : ℝ) :
    (explicitASIF solver toyF toyG (freeObj exc) (.array x) dt [u]).1 = .ok [-x] := by
  have hsh : ShapesOK toyF toyG (freeObj exc) x :=
    ⟨by simp [freeObj, toyObj, toyC], by simp [freeObj, toyObj, toyC, toyF], rfl, by simp [toyG, freeObj, toyObj], by simp [freeObj, toyObj]⟩
  have hone : OneCondition (freeObj exc) (toyC none) id :=
    ⟨⟨"c", by simp [freeObj, toyObj]⟩, rfl, rfl, (toy_one exc).only, (toy_one exc).direct, (toy_one exc).noSlack⟩
  have e : (freeObj exc).ext.controlDim = 1 := rfl
  have h := (C106_projection hspec (free_module solver exc) rfl hsh hone rfl rfl dt (w := [u]) rfl).1
  rw [e, toy_influence, toy_drift, if_pos hx] at h
  rw [h (by simp [sqNorm])]
  have hn : ¬ 0 ≤ x + dot [1] [u] := by simp; linarith
  rw [project, if_neg hn]
  simp [vsub, vscale, sqNorm]

/-- **C106, the 1-D docking integrator.** With the default bounds and a mass of at most 1, at every safe state the explicit optimisation
filter answers: moving towards the chief, the desired control cut off at `1` and at a braking limit; moving away, cut off at `-1` and below
at a limit; at rest, clipped to the bounds. -/
theorem C106_integrator {solver : Solver ℝ} (hspec : SolverSpec solver) {m : ℝ} (hm0 : 0 < m) (hm : m ≤ 1) (epsilon : ℝ) (exc : Bool)
    {p v : ℝ} (h : 0 ≤ -2 * p - v ^ 2) (dt u : ℝ) :
    (explicitASIF solver pointF (pointG m) (dockEOObj epsilon exc) (.array [p, v]) dt [u]).1 =
      if 0 < v then .ok [min 1 (min (m * (((-2 * p - v ^ 2) + 30 * (-2 * p - v ^ 2) ^ 3) / (2 * v) - 1)) (max (-1) u))]
      else if v < 0 then .ok [min 1 (max (-1) (max (m * (((-2 * p - v ^ 2) + 30 * (-2 * p - v ^ 2) ^ 3) / (2 * v) - 1)) u))]
      else .ok [min 1 (max (-1) u)] := by
  have hsh := dockEO_shapes m epsilon exc [p, v]
  have e : scalarConds pointF (pointG m) (dockEOObj epsilon exc) [p, v] =
      [(-2 * v * (1 / m), -2 * v + ((-2 * p - v ^ 2) + 30 * (-2 * p - v ^ 2) ^ 3))] := by
    have h1 : influence (pointG m) dockExplicitC [p, v] 1 = [-2 * v * (1 / m)] := by
      simp [influence, pointG, pointB, dockExplicitC, Constraint.mk']
    have h2 : drift pointF dockExplicitC (dockExplicitC.alpha.getD fun _ => 0) [p, v] = -2 * v + ((-2 * p - v ^ 2) + 30 * (-2 * p - v ^ 2) ^ 3) := by
      simp only [drift, dockExplicitC, Constraint.mk', strengthening, List.getD_cons_zero, List.getD_cons_succ, Option.getD_some,
        add_zero, if_pos h, pointF, pointA, matVec, List.map_cons, List.map_nil, dot_cons, dot_nil_left, polyAlpha, polyLoop]
      ring
    simp only [scalarConds, dockEOObj, List.filter_cons, List.filter_nil, List.map_nil, List.append_nil]
    rw [if_pos (show dockExplicitC.enabled = true from rfl), List.map_cons, List.map_nil, h1]
    simp only [List.getD_cons_zero, List.cons.injEq, Prod.mk.injEq, true_and, and_true]
    exact h2
  have hsol := (C106_pairs hsh rfl).1 (dockEO_feasible hm0 hm epsilon exc h)
  have hc := (C106_scalar hspec (dockEO_module solver m epsilon exc) rfl hsh (dockEO_noslack epsilon exc) rfl dt u).1 hsol
  rw [hc]
  have hi : (0 : ℝ) < 1 / m := by positivity
  have hb1 : (boundAt (dockEOObj epsilon exc).controlBoundsLow 0).toList = [-1] := rfl
  have hb2 : (boundAt (dockEOObj epsilon exc).controlBoundsHigh 0).toList = [1] := rfl
  rw [lowLimits, highLimits, e, hb1, hb2]
  rcases lt_trichotomy v 0 with hv | hv | hv
  · have h3 : 0 < -2 * v * (1 / m) := mul_pos (by linarith) hi
    rw [if_neg (not_lt.2 hv.le), if_pos hv, List.filter_cons_of_pos (by simpa only [decide_eq_true_eq] using h3),
      List.filter_cons_of_neg (by simpa only [decide_eq_true_eq] using not_lt.2 h3.le)]
    simp only [List.filter_nil, List.map_cons, List.map_nil, List.cons_append, List.nil_append, clampTo, List.foldr_cons, List.foldr_nil]
    have : -(-2 * v + ((-2 * p - v ^ 2) + 30 * (-2 * p - v ^ 2) ^ 3)) / (-2 * v * (1 / m)) =
        m * (((-2 * p - v ^ 2) + 30 * (-2 * p - v ^ 2) ^ 3) / (2 * v) - 1) := by
      have := hv.ne
      field_simp; ring
    rw [this]
  · subst hv
    simp [clampTo]
  · have h3 : -2 * v * (1 / m) < 0 := mul_neg_of_neg_of_pos (by linarith) hi
    rw [if_pos hv, List.filter_cons_of_neg (by simpa only [decide_eq_true_eq] using not_lt.2 h3.le),
      List.filter_cons_of_pos (by simpa only [decide_eq_true_eq] using h3)]
    simp only [List.filter_nil, List.map_cons, List.map_nil, List.cons_append, List.nil_append, clampTo, List.foldr_cons, List.foldr_nil]
    have : -(-2 * v + ((-2 * p - v ^ 2) + 30 * (-2 * p - v ^ 2) ^ 3)) / (-2 * v * (1 / m)) =
        m * (((-2 * p - v ^ 2) + 30 * (-2 * p - v ^ 2) ^ 3) / (2 * v) - 1) := by
      have := hv.ne'
      field_simp; ring
    rw [this]

/-- On the boundary of the safe set the filter brakes fully, whatever is desired. -/
example {solver : Solver ℝ} (hspec : SolverSpec solver) (exc : Bool) {u : ℝ} (hu : -1 ≤ u) :
    (explicitASIF solver pointF (pointG 1) (dockEOObj (1 / 10000) exc) (.array [-1 / 2, 1]) 1 [u]).1 = .ok [-1] := by
  rw [C106_integrator hspec one_pos le_rfl (1 / 10000) exc (by norm_num) 1 u, if_pos one_pos, max_eq_right hu]
  norm_num
  exact hu

end RTA
