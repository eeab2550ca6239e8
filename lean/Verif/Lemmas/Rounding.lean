import Verif.Spec.Rounding
import Verif.Lemmas.Tolerance
import Verif.Lemmas.ASIFReach

/-!
Rounding errors of dot products and of the inequality rows.
-/
set_option linter.unusedSectionVars false
namespace RTA
variable {S P X : Type} {rd : ℝ → ℝ}

/-! ### Arithmetic -/

theorem val_add (a b : Fl rd) : (a + b).val = rd (a.val + b.val) := rfl
theorem val_sub (a b : Fl rd) : (a - b).val = rd (a.val - b.val) := rfl
theorem val_mul (a b : Fl rd) : (a * b).val = rd (a.val * b.val) := rfl
theorem val_neg (a : Fl rd) : (-a).val = -a.val := rfl
theorem val_zero : (0 : Fl rd).val = 0 := rfl
theorem val_one : (1 : Fl rd).val = 1 := rfl
theorem val_lt (a b : Fl rd) : a < b ↔ a.val < b.val := Iff.rfl
theorem val_le (a b : Fl rd) : a ≤ b ↔ a.val ≤ b.val := Iff.rfl

theorem val_max (a b : Fl rd) : (max a b).val = max a.val b.val := by
  rcases le_total a b with h | h
  · rw [max_eq_right h, max_eq_right ((val_le _ _).1 h)]
  · rw [max_eq_left h, max_eq_left ((val_le _ _).1 h)]

theorem val_min (a b : Fl rd) : (min a b).val = min a.val b.val := by
  rcases le_total a b with h | h
  · rw [min_eq_left h, min_eq_left ((val_le _ _).1 h)]
  · rw [min_eq_right h, min_eq_right ((val_le _ _).1 h)]

theorem gam_nonneg {υ : ℝ} (hυ : 0 ≤ υ) (n : Nat) : 0 ≤ gam υ n := by
  unfold gam
  have := one_le_pow₀ (a := 1 + υ) (n := n) (by linarith)
  linarith

theorem gam_succ (υ : ℝ) (n : Nat) : gam υ (n + 1) = (1 + υ) * gam υ n + υ := by
  unfold gam
  rw [pow_succ]
  ring

theorem gam_ge {υ : ℝ} (hυ : 0 ≤ υ) (n : Nat) : υ ≤ gam υ (n + 1) := by
  rw [gam_succ]
  have := mul_nonneg (by linarith : (0 : ℝ) ≤ 1 + υ) (gam_nonneg hυ n)
  linarith

theorem absDot_cons (a b : ℝ) (v w : List ℝ) : absDot (a :: v) (b :: w) = |a * b| + absDot v w := by
  unfold absDot
  rw [List.map_cons, List.map_cons, dot_cons, abs_mul]

theorem absDot_nonneg (v w : List ℝ) : 0 ≤ absDot v w := by
  induction v generalizing w with
  | nil => simp [absDot, dot]
  | cons a v ih =>
    cases w with
    | nil => simp [absDot, dot]
    | cons b w => rw [absDot_cons]; exact add_nonneg (abs_nonneg _) (ih w)

theorem dot_le_absDot (v w : List ℝ) : |dot v w| ≤ absDot v w := by
  induction v generalizing w with
  | nil => simp [absDot, dot]
  | cons a v ih =>
    cases w with
    | nil => simp [absDot, dot]
    | cons b w =>
      rw [absDot_cons, dot_cons]
      exact (abs_add_le _ _).trans (add_le_add le_rfl (ih w))

theorem dot_nonneg_of {v w : List ℝ} (hv : ∀ a ∈ v, 0 ≤ a) (hw : ∀ a ∈ w, 0 ≤ a) : 0 ≤ dot v w := by
  induction v generalizing w with
  | nil => simp [dot]
  | cons a v ih =>
    cases w with
    | nil => simp [dot]
    | cons b w =>
      rw [dot_cons]
      exact add_nonneg (mul_nonneg (hv a (by simp)) (hw b (by simp)))
        (ih (fun c hc => hv c (by simp [hc])) fun c hc => hw c (by simp [hc]))

/-- One step of a rounded sum of products. -/
theorem dot_step {υ μ p p' s s' t S q m : ℝ} (hυ : 0 ≤ υ) (hμ : 0 ≤ μ) (hq : 1 + υ ≤ q) (h1 : |p' - p| ≤ υ * |p| + μ)
    (h2 : |s' - s| ≤ (q - 1) * S + 2 * m * μ * q) (h3 : |t - (p' + s')| ≤ υ * |p' + s'| + μ) (h4 : |s| ≤ S) :
    |t - (p + s)| ≤ (q * (1 + υ) - 1) * (|p| + S) + 2 * (m + 1) * μ * (q * (1 + υ)) := by
  have hS : 0 ≤ S := (abs_nonneg s).trans h4
  have e1 : |p' + s'| ≤ (|p| + S) + (υ * |p| + μ) + ((q - 1) * S + 2 * m * μ * q) := by
    have : p' + s' = (p + s) + (p' - p) + (s' - s) := by ring
    rw [this]
    refine (abs_add_le _ _).trans (add_le_add ((abs_add_le _ _).trans (add_le_add ((abs_add_le _ _).trans (add_le_add le_rfl h4)) h1)) h2)
  have e2 : |t - (p + s)| ≤ (υ * |p' + s'| + μ) + (υ * |p| + μ) + ((q - 1) * S + 2 * m * μ * q) := by
    have : t - (p + s) = (t - (p' + s')) + (p' - p) + (s' - s) := by ring
    rw [this]
    exact (abs_add_le _ _).trans (add_le_add ((abs_add_le _ _).trans (add_le_add h3 h1)) h2)
  have e3 := mul_le_mul_of_nonneg_left e1 hυ
  have e4 : 0 ≤ |p| := abs_nonneg p
  have e5 : 0 ≤ (q - 1 - υ) * |p| * (1 + υ) := mul_nonneg (mul_nonneg (by linarith) e4) (by linarith)
  have e6 : 0 ≤ μ * (q * (1 + υ) - 1 - υ) := mul_nonneg hμ (by nlinarith)
  nlinarith

/-- **Dot products.** The computed dot product of arrays of length `n` differs from the exact one by at most `(1 + υ)ⁿ⁺¹ - 1` times the
sum of the absolute values of the products, and `2n` underflows. -/
theorem fl_dot {υ μ : ℝ} (hυ : 0 ≤ υ) (hμ : 0 ≤ μ) (hrd : RoundsBy υ μ rd) (v w : List (Fl rd)) :
    |(dot v w).val - dot (vals v) (vals w)| ≤ gam υ (v.length + 1) * absDot (vals v) (vals w) +
      2 * v.length * μ * (1 + υ) ^ (v.length + 1) := by
  induction v generalizing w with
  | nil => simp [vals, dot, absDot, val_zero]
  | cons a v ih =>
    cases w with
    | nil =>
      have : 0 ≤ 2 * ((a :: v).length : ℝ) * μ * (1 + υ) ^ ((a :: v).length + 1) := by positivity
      simpa [vals, dot, absDot, val_zero] using this
    | cons b w =>
      have e1 : (dot (a :: v) (b :: w)).val = rd (rd (a.val * b.val) + (dot v w).val) := rfl
      have e2 : dot (vals (a :: v)) (vals (b :: w)) = a.val * b.val + dot (vals v) (vals w) := by
        unfold vals; rw [List.map_cons, List.map_cons, dot_cons]
      have e3 : absDot (vals (a :: v)) (vals (b :: w)) = |a.val * b.val| + absDot (vals v) (vals w) := by
        unfold vals; rw [List.map_cons, List.map_cons, absDot_cons]
      have hq : 1 + υ ≤ (1 + υ) ^ (v.length + 1) := by
        have := one_le_pow₀ (a := 1 + υ) (n := v.length) (by linarith)
        rw [pow_succ]
        nlinarith
      have key := dot_step (m := (v.length : ℝ)) hυ hμ hq (hrd (a.val * b.val)) (by simpa [gam] using ih w)
        (hrd (rd (a.val * b.val) + (dot v w).val)) (dot_le_absDot (vals v) (vals w))
      rw [e1, e2, e3]
      unfold gam
      rw [List.length_cons, pow_succ (1 + υ) (v.length + 1)]
      push_cast
      exact key

theorem dot_map_near {γ κ : ℝ} (hκ : 0 ≤ κ) (a b c : Nat → ℝ) (h : ∀ j, |a j - b j| ≤ γ * c j + κ)
    (l : List Nat) (z : List ℝ) :
    |dot (l.map a) z - dot (l.map b) z| ≤ γ * dot (l.map c) (z.map fun t => |t|) + κ * oneNorm z := by
  induction l generalizing z with
  | nil =>
    have := mul_nonneg hκ (oneNorm_nonneg z)
    simpa [dot] using this
  | cons j l ih =>
    cases z with
    | nil => simp [dot, oneNorm]
    | cons t z =>
      rw [List.map_cons, List.map_cons, List.map_cons, List.map_cons, dot_cons, dot_cons, dot_cons]
      have e : oneNorm (t :: z) = |t| + oneNorm z := by simp [oneNorm]
      rw [e]
      have h1 : |(a j - b j) * t| ≤ (γ * c j + κ) * |t| := by
        rw [abs_mul]; exact mul_le_mul_of_nonneg_right (h j) (abs_nonneg t)
      have h2 : a j * t + dot (l.map a) z - (b j * t + dot (l.map b) z) = (a j - b j) * t + (dot (l.map a) z - dot (l.map b) z) := by ring
      rw [h2]
      refine (abs_add_le _ _).trans ((add_le_add h1 (ih z)).trans (le_of_eq ?_))
      ring

theorem vals_col (M : List (List (Fl rd))) (j : Nat) :
    vals (M.map fun r => r.getD j 0) = (M.map vals).map fun r => r.getD j 0 := by
  unfold vals
  rw [List.map_map, List.map_map]
  refine List.map_congr_left fun r _ => ?_
  simp only [Function.comp_apply, List.getD_eq_getElem?_getD, List.getElem?_map]
  rcases r[j]? with _ | t
  · rfl
  · rfl

/-- **Weights.** -/
theorem fl_weights {υ μ : ℝ} (hυ : 0 ≤ υ) (hμ : 0 ≤ μ) (hrd : RoundsBy υ μ rd) (v : List (Fl rd)) (M : List (List (Fl rd))) (m : Nat)
    (z : List ℝ) :
    |dot (vals (vecMat v M m)) z - dot (vecMat (vals v) (M.map vals) m) z| ≤ gam υ (v.length + 1) *
      dot ((List.range m).map fun j => absDot (vals v) ((M.map vals).map fun r => r.getD j 0)) (z.map fun t => |t|) +
      2 * v.length * μ * (1 + υ) ^ (v.length + 1) * oneNorm z := by
  have e : vals (vecMat v M m) = (List.range m).map fun j => (dot v (M.map fun r => r.getD j 0)).val := by
    unfold vals vecMat
    rw [List.map_map]
    rfl
  rw [e]
  unfold vecMat
  refine dot_map_near (by positivity) _ _ _ (fun j => ?_) _ z
  have := fl_dot hυ hμ hrd v (M.map fun r => r.getD j 0)
  rwa [vals_col] at this

/-- **Constants.** -/
theorem fl_const {υ μ : ℝ} (hυ : 0 ≤ υ) (hμ : 0 ≤ μ) (hrd : RoundsBy υ μ rd) (v w : List (Fl rd)) (a : Fl rd) :
    |(-(dot v w) - a).val - (-(dot (vals v) (vals w)) - a.val)| ≤ gam υ (v.length + 2) * (absDot (vals v) (vals w) + |a.val|) +
      (2 * v.length + 1) * μ * (1 + υ) ^ (v.length + 2) := by
  rw [val_sub, val_neg]
  have h1 := fl_dot hυ hμ hrd v w
  have h2 := hrd (-(dot v w).val - a.val)
  have h3 := dot_le_absDot (vals v) (vals w)
  have hg := gam_nonneg hυ (v.length + 1)
  rw [show v.length + 2 = v.length + 1 + 1 from rfl, gam_succ υ (v.length + 1), pow_succ (1 + υ) (v.length + 1)]
  have hq : 1 ≤ (1 + υ) ^ (v.length + 1) := one_le_pow₀ (by linarith)
  generalize (1 + υ) ^ (v.length + 1) = q at *
  generalize gam υ (v.length + 1) = γ at *
  generalize (dot v w).val = D' at *
  generalize dot (vals v) (vals w) = D at *
  have hA := absDot_nonneg (vals v) (vals w)
  generalize absDot (vals v) (vals w) = A at *
  have hn : (0 : ℝ) ≤ v.length := Nat.cast_nonneg _
  generalize (v.length : ℝ) = n at *
  generalize a.val = al at *
  have e1 : |-D' - al| ≤ (A + (γ * A + 2 * n * μ * q)) + |al| := by
    have : -D' - al = -(D + (D' - D)) + -al := by ring
    rw [this]
    refine (abs_add_le _ _).trans ?_
    rw [abs_neg, abs_neg]
    exact add_le_add ((abs_add_le _ _).trans (add_le_add h3 h1)) le_rfl
  have e2 : |rd (-D' - al) - (-D - al)| ≤ (υ * |-D' - al| + μ) + (γ * A + 2 * n * μ * q) := by
    have : rd (-D' - al) - (-D - al) = (rd (-D' - al) - (-D' - al)) + -(D' - D) := by ring
    rw [this]
    refine (abs_add_le _ _).trans ?_
    rw [abs_neg]
    exact add_le_add h2 h1
  have e3 := mul_le_mul_of_nonneg_left e1 hυ
  have e4 : 0 ≤ γ * (1 + υ) * |al| := by positivity
  have e5 : 0 ≤ μ * (q * (1 + υ) - 1) := mul_nonneg hμ (by nlinarith)
  have e6 : 0 ≤ n * μ * υ * q := by positivity
  nlinarith

/-! ### Rows -/

/-- The row of an enabled constraint without slack is among the rows handed to the solver. -/
theorem explicitRows_mem {f : S → List (Fl rd)} {g : S → List (List (Fl rd))} {params : Dict P} {en : Dict Bool} {n k : Nat} {x : S}
    (cs : Dict (Constraint (Fl rd) S P)) (hp : ∀ kc ∈ cs, dictGet params kc.1 = some kc.2.params)
    (he : ∀ kc ∈ cs, dictGet en kc.1 = some kc.2.enabled) (sc : Nat) {rows : List (Row (Fl rd))}
    (h : explicitRows f g params en n k x sc cs = .ok rows) {q : String} {c : Constraint (Fl rd) S P} (hc : (q, c) ∈ cs)
    (hen : c.enabled = true) (hs : c.slackPriorityScale = none) :
    (c.gradFn x c.params).length = (g x).length ∧ (c.gradFn x c.params).length = (f x).length ∧ (∀ r ∈ g x, r.length = n) ∧
    ∃ a, alphaTerm c (c.compute x c.params) = .ok a ∧
      (⟨vecMat (c.gradFn x c.params) (g x) n ++ zeros k, -(dot (c.gradFn x c.params) (f x)) - a⟩ : Row (Fl rd)) ∈ rows := by
  induction cs generalizing sc rows with
  | nil => simp at hc
  | cons kc cs ih =>
    obtain ⟨q', c'⟩ := kc
    have hpq := hp (q', c') (by simp)
    have heq := he (q', c') (by simp)
    simp only at hpq heq
    unfold explicitRows at h
    simp only [hpq, heq] at h
    split at h
    · simp at h
    · rename_i hg
      rcases ha : alphaTerm c' (c'.compute x c'.params) with e | a
      · simp [ha] at h
      · simp only [ha] at h
        rcases hr : explicitRows f g params en n k x (if c'.slackPriorityScale.isSome then sc + 1 else sc) cs with e | rs
        · simp [hr] at h
        · simp only [hr, Except.ok.injEq] at h
          subst h
          rcases List.mem_cons.1 hc with hc | hc
          · simp only [Prod.mk.injEq] at hc
            obtain ⟨rfl, rfl⟩ := hc
            push Not at hg
            refine ⟨hg.1, hg.2.1, hg.2.2, a, ha, ?_⟩
            simp [hen, hs]
          · obtain ⟨h1, h2, h3, a', h4, h5⟩ := ih (fun kc hkc => hp kc (by simp [hkc])) (fun kc hkc => he kc (by simp [hkc])) _ hr hc
            exact ⟨h1, h2, h3, a', h4, List.mem_cons_of_mem _ h5⟩

/-- Every row of the barrier loop is without content or belongs to an enabled constraint. -/
theorem explicitRows_all {f : S → List (Fl rd)} {g : S → List (List (Fl rd))} {params : Dict P} {en : Dict Bool} {n k : Nat} {x : S}
    (cs : Dict (Constraint (Fl rd) S P)) (hp : ∀ kc ∈ cs, dictGet params kc.1 = some kc.2.params)
    (he : ∀ kc ∈ cs, dictGet en kc.1 = some kc.2.enabled) (sc : Nat) {rows : List (Row (Fl rd))}
    (h : explicitRows f g params en n k x sc cs = .ok rows) : ∀ r ∈ rows, (r.b.val = 0 ∧ ∀ w ∈ r.w, w.val = 0) ∨
      ∃ q c, (q, c) ∈ cs ∧ c.enabled = true ∧ (c.gradFn x c.params).length = (g x).length ∧
        (c.gradFn x c.params).length = (f x).length ∧ (∀ r ∈ g x, r.length = n) ∧
        ∃ a t, alphaTerm c (c.compute x c.params) = .ok a ∧
          r = ⟨vecMat (c.gradFn x c.params) (g x) n ++ t, -(dot (c.gradFn x c.params) (f x)) - a⟩ := by
  induction cs generalizing sc rows with
  | nil =>
    simp only [explicitRows, Except.ok.injEq] at h
    subst h
    simp
  | cons kc cs ih =>
    obtain ⟨q', c'⟩ := kc
    have hpq := hp (q', c') (by simp)
    have heq := he (q', c') (by simp)
    simp only at hpq heq
    unfold explicitRows at h
    simp only [hpq, heq] at h
    split at h
    · simp at h
    · rename_i hg
      rcases ha : alphaTerm c' (c'.compute x c'.params) with e | a
      · simp [ha] at h
      · simp only [ha] at h
        rcases hr : explicitRows f g params en n k x (if c'.slackPriorityScale.isSome then sc + 1 else sc) cs with e | rs
        · simp [hr] at h
        · simp only [hr, Except.ok.injEq] at h
          subst h
          intro r hr'
          rcases List.mem_cons.1 hr' with rfl | hr'
          · by_cases hen : c'.enabled = true
            · right
              push Not at hg
              refine ⟨q', c', by simp, hen, hg.1, hg.2.1, hg.2.2, a,
                if c'.slackPriorityScale.isSome = true then (zeros k).set sc (-1) else zeros k, ha, ?_⟩
              rw [if_pos hen]
            · left
              simp only [hen]
              refine ⟨rfl, fun w hw => ?_⟩
              rw [List.eq_of_mem_replicate hw]
              rfl
          · rcases ih (fun kc hkc => hp kc (by simp [hkc])) (fun kc hkc => he kc (by simp [hkc])) _ hr r hr' with h0 | ⟨q, c, hq, h1⟩
            · exact .inl h0
            · exact .inr ⟨q, c, by simp [hq], h1⟩

theorem directRows_all {params : Dict P} {en : Dict Bool} {n k : Nat} {x : S} (ds : Dict (DirectConstraint (Fl rd) S P))
    (hp : ∀ kc ∈ ds, dictGet params kc.1 = some kc.2.params) (he : ∀ kc ∈ ds, dictGet en kc.1 = some kc.2.enabled)
    {rows : List (Row (Fl rd))} (h : directRows params en n k x ds = .ok rows) : ∀ r ∈ rows, (r.b.val = 0 ∧ ∀ w ∈ r.w, w.val = 0) ∨
      ∃ kc ∈ ds, kc.2.enabled = true ∧ (kc.2.ineqWeight x kc.2.params).length = n ∧
        r = ⟨kc.2.ineqWeight x kc.2.params ++ zeros k, kc.2.ineqConstant x kc.2.params⟩ := by
  induction ds generalizing rows with
  | nil =>
    simp only [directRows, Except.ok.injEq] at h
    subst h
    simp
  | cons kc ds ih =>
    obtain ⟨q', c'⟩ := kc
    have hpq := hp (q', c') (by simp)
    have heq := he (q', c') (by simp)
    simp only at hpq heq
    unfold directRows at h
    simp only [hpq, heq] at h
    split at h
    · simp at h
    · rename_i hg
      rcases hr : directRows params en n k x ds with e | rs
      · simp [hr] at h
      · simp only [hr, Except.ok.injEq] at h
        subst h
        intro r hr'
        rcases List.mem_cons.1 hr' with rfl | hr'
        · by_cases hen : c'.enabled = true
          · right
            push Not at hg
            refine ⟨(q', c'), by simp, hen, hg, ?_⟩
            rw [if_pos hen]
          · left
            simp only [hen]
            refine ⟨rfl, fun w hw => ?_⟩
            rw [List.eq_of_mem_replicate hw]
            rfl
        · rcases ih (fun kc hkc => hp kc (by simp [hkc])) (fun kc hkc => he kc (by simp [hkc])) hr r hr' with h0 | ⟨kc, hq, h1⟩
          · exact .inl h0
          · exact .inr ⟨kc, by simp [hq], h1⟩

theorem dot_vals_append_zeros (w t : List (Fl rd)) {z : List ℝ} (hz : z.length = w.length) (k : Nat) :
    dot (vals (w ++ t)) (z ++ zeros k) = dot (vals w) z := by
  have : vals (w ++ t) = vals w ++ vals t := by simp [vals]
  rw [this, dot_append (by simp [vals, hz]), dot_comm (vals t), dot_zeros_left, add_zero]

theorem alphaTerm_computed {c : Constraint (Fl rd) S P} {al : Fl rd → Fl rd} (ha : c.alpha = some al) {h a : Fl rd}
    (e : alphaTerm c h = .ok a) : a.val = computedTerm c al h := by
  unfold alphaTerm Constraint.alphaAt Constraint.alphaNegAt at e
  unfold computedTerm
  rw [ha] at e
  cases hn : c.alphaNeg with
  | none =>
    rw [hn] at e
    simp only [Except.ok.injEq] at e
    subst e
    by_cases hh : h < 0
    · rw [if_pos hh, if_pos hh]
    · rw [if_neg hh, if_neg hh]
  | some an =>
    rw [hn] at e
    simp only [Except.ok.injEq] at e
    subst e
    by_cases hh : h < 0
    · rw [if_pos hh, if_pos hh]
    · rw [if_neg hh, if_neg hh]

/-- The computed inequality of a constraint without slack and the exact one differ by at most `rowError` at any control. -/
theorem row_near {υ μ : ℝ} (hυ : 0 ≤ υ) (hμ : 0 ≤ μ) (hrd : RoundsBy υ μ rd) {f : S → List (Fl rd)} {g : S → List (List (Fl rd))}
    {n : Nat} {c : Constraint (Fl rd) S P} {al : Fl rd → Fl rd} {x : S} {a : Fl rd} (haa : a.val = computedTerm c al (c.compute x c.params))
    (h1 : (c.gradFn x c.params).length = (g x).length) (h2 : (c.gradFn x c.params).length = (f x).length)
    (h3 : ∀ r ∈ g x, r.length = n) {z : List ℝ} (hz : z.length = n) :
    |(dot (vals (vecMat (c.gradFn x c.params) (g x) n)) z - (-(dot (c.gradFn x c.params) (f x)) - a).val) -
      (computedRate f g c x z + computedTerm c al (c.compute x c.params))| ≤ rowError υ μ f g n c al x z := by
  have hw := fl_weights hυ hμ hrd (c.gradFn x c.params) (g x) n z
  have hb := fl_const hυ hμ hrd (c.gradFn x c.params) (f x) a
  unfold rowError rowSize computedRate
  rw [← haa]
  have e1 : dot (vecMat (vals (c.gradFn x c.params)) ((g x).map vals) n) z = dot (vals (c.gradFn x c.params)) (matVec ((g x).map vals) z) := by
    refine dot_vecMat _ _ _ _ (fun r hr => ?_) (by simp [vals, h1]) hz
    obtain ⟨r', hr', rfl⟩ := List.mem_map.1 hr
    simp [vals, h3 r' hr']
  have e2 := dot_vadd_right (v := vals (c.gradFn x c.params)) (w := vals (f x)) (w' := matVec ((g x).map vals) z)
    (by rw [matVec_length]; simp [vals, ← h1, h2])
  rw [e2, ← e1]
  rw [h2] at hw hb
  have hgs := gam_succ υ ((f x).length + 1)
  have hgn := gam_nonneg hυ ((f x).length + 1)
  have hps : (1 + υ) ^ ((f x).length + 2) = (1 + υ) ^ ((f x).length + 1) * (1 + υ) := pow_succ _ _
  have hp1 : 0 ≤ (1 + υ) ^ ((f x).length + 1) := by positivity
  rw [show (f x).length + 2 = (f x).length + 1 + 1 from rfl] at hb ⊢
  rw [hgs] at hb ⊢
  rw [show (f x).length + 1 + 1 = (f x).length + 2 from rfl, hps] at hb ⊢
  have hdn : 0 ≤ dot ((List.range n).map fun j => absDot (vals (c.gradFn x c.params)) (((g x).map vals).map fun r => r.getD j 0))
      (z.map fun t => |t|) := by
    refine dot_nonneg_of ?_ ?_
    · intro t ht
      obtain ⟨j, -, rfl⟩ := List.mem_map.1 ht
      exact absDot_nonneg _ _
    · intro t ht
      obtain ⟨j, -, rfl⟩ := List.mem_map.1 ht
      exact abs_nonneg _
  have hon := oneNorm_nonneg z
  have hn : (0 : ℝ) ≤ ((f x).length : ℝ) := Nat.cast_nonneg _
  generalize (1 + υ) ^ ((f x).length + 1) = q at *
  generalize gam υ ((f x).length + 1) = γ at *
  generalize dot ((List.range n).map fun j => absDot (vals (c.gradFn x c.params)) (((g x).map vals).map fun r => r.getD j 0))
      (z.map fun t => |t|) = T at *
  generalize oneNorm z = N at *
  generalize ((f x).length : ℝ) = m at *
  generalize (-(dot (c.gradFn x c.params) (f x)) - a).val = B' at *
  generalize dot (vals (vecMat (c.gradFn x c.params) (g x) n)) z = W' at *
  generalize dot (vecMat (vals (c.gradFn x c.params)) ((g x).map vals) n) z = W at *
  generalize dot (vals (c.gradFn x c.params)) (vals (f x)) = D at *
  generalize absDot (vals (c.gradFn x c.params)) (vals (f x)) = A at *
  generalize a.val = t at *
  have e3 : W' - B' - (D + W + t) = (W' - W) + -(B' - (-D - t)) := by ring
  rw [e3]
  refine (abs_add_le _ _).trans ?_
  rw [abs_neg]
  have e4 : 0 ≤ (γ * υ + υ) * T := by positivity
  have e5 : 0 ≤ m * μ * q * υ * N := by positivity
  have e6 : 0 ≤ μ * q * (1 + υ) * N := by positivity
  nlinarith

/-! ### Bounds -/

/-- A row as a row of real numbers. -/
def realRow (r : Row (Fl rd)) : Row ℝ := ⟨vals r.w, r.b.val⟩

theorem vals_length (l : List (Fl rd)) : (vals l).length = l.length := by simp [vals]

theorem vals_getD (l : List (Fl rd)) (i : Nat) : (vals l).getD i 0 = (l.getD i 0).val := by
  simp only [vals, List.getD_eq_getElem?_getD, List.getElem?_map]
  rcases l[i]? with _ | t <;> rfl

theorem bcastTo_map {α β : Type} (f : α → β) (n : Nat) (l : List α) : bcastTo n (l.map f) = (bcastTo n l).map f := by
  match l with
  | [] => rfl
  | [a] => simp [bcastTo]
  | a :: b :: l => rfl

theorem lowerBoundVec_real (b : Bound (Fl rd)) (n : Nat) : lowerBoundVec (realBound b) n = (lowerBoundVec b n).map vals := by
  unfold lowerBoundVec realBound
  rcases b with b | ⟨_ | _, l⟩
  · simp [Except.map, vals]
  · simp only [vals_length]
    split
    · rfl
    · split
      · simp only [Except.map, vals, bcastTo_map]
      · rfl
  · simp only [vals_length]
    split <;> rfl

theorem lowRows_real (l : List (Fl rd)) (n k : Nat) : lowRows (vals l) n k = (lowRows l n k).map realRow := by
  unfold lowRows
  rw [List.map_map]
  refine List.map_congr_left fun i _ => ?_
  simp only [Function.comp_apply, realRow, vals_getD, Row.mk.injEq, and_true]
  unfold vals eyeRow zeros
  rw [List.map_append, List.map_map, List.map_replicate]
  congr 1
  refine List.map_congr_left fun j _ => ?_
  simp only [Function.comp_apply]
  split <;> rfl

theorem highRows_real (l : List (Fl rd)) (n k : Nat) : highRows (vals l) n k = (highRows l n k).map realRow := by
  unfold highRows
  rw [List.map_map]
  refine List.map_congr_left fun i _ => ?_
  simp only [Function.comp_apply, realRow, vals_getD, val_neg, Row.mk.injEq, and_true]
  unfold vals eyeRow zeros
  rw [List.map_append, List.map_map, List.map_map, List.map_map, List.map_replicate]
  congr 1
  refine List.map_congr_left fun j _ => ?_
  simp only [Function.comp_apply]
  split <;> rfl

theorem actuation_real {lo hi : Option (Bound (Fl rd))} {n k : Nat} {rows : List (Row (Fl rd))} {names : List String}
    (h : actuationMats lo hi n k = .ok (rows, names)) :
    actuationMats (lo.map realBound) (hi.map realBound) n k = .ok (rows.map realRow, names) := by
  unfold actuationMats at h ⊢
  cases lo with
  | none =>
    cases hi with
    | none =>
      simp only [Except.ok.injEq, Prod.mk.injEq] at h
      obtain ⟨rfl, rfl⟩ := h
      rfl
    | some b =>
      simp only [Option.map_none, Option.map_some, lowerBoundVec_real] at h ⊢
      rcases hl : lowerBoundVec b n with e | l
      · rw [hl] at h; simp at h
      · rw [hl] at h
        simp only [Except.ok.injEq, Prod.mk.injEq] at h
        obtain ⟨rfl, rfl⟩ := h
        simp only [Except.map, highRows_real, List.nil_append]
  | some b' =>
    cases hi with
    | none =>
      simp only [Option.map_none, Option.map_some, lowerBoundVec_real] at h ⊢
      rcases hl : lowerBoundVec b' n with e | l
      · rw [hl] at h; simp at h
      · rw [hl] at h
        simp only [Except.ok.injEq, Prod.mk.injEq] at h
        obtain ⟨rfl, rfl⟩ := h
        simp only [Except.map, lowRows_real]
    | some b =>
      simp only [Option.map_some, lowerBoundVec_real] at h ⊢
      rcases hl' : lowerBoundVec b' n with e | l'
      · rw [hl'] at h; simp at h
      · rw [hl'] at h
        rcases hl : lowerBoundVec b n with e | l
        · rw [hl] at h; simp at h
        · rw [hl] at h
          simp only [Except.ok.injEq, Prod.mk.injEq] at h
          obtain ⟨rfl, rfl⟩ := h
          simp only [Except.map, lowRows_real, highRows_real, List.map_append]

theorem boundFits_real {n : Nat} {b : Option (Bound (Fl rd))} (h : BoundFits n (b.map realBound)) : BoundFits n b := by
  rcases b with _ | b | ⟨j, l⟩
  · trivial
  · trivial
  · simpa [BoundFits, realBound, vals_length] using h

theorem boundAt_real (b : Option (Bound (Fl rd))) (i : Nat) : boundAt (b.map realBound) i = (boundAt b i).map Fl.val := by
  rcases b with _ | b | ⟨j, l⟩
  · rfl
  · rfl
  · match l with
    | [] => simp [boundAt, realBound, vals]
    | [a] => rfl
    | a :: c :: l => exact List.getElem?_map (f := Fl.val) (l := a :: c :: l)

theorem clip1_real (lo hi : Option (Fl rd)) (a : Fl rd) : clip1 (lo.map Fl.val) (hi.map Fl.val) a.val = (clip1 lo hi a).val := by
  unfold clip1
  rcases lo with _ | l <;> rcases hi with _ | h <;> simp [val_max, val_min]

/-- Clipping moves a control that respects the bounds up to `η` by at most `η`. -/
theorem clipControl_real {η : ℝ} (hη : 0 ≤ η) {b : Base (Fl rd)} {w v : List (Fl rd)} (hlo : BoundFits w.length b.controlBoundsLow)
    (hhi : BoundFits w.length b.controlBoundsHigh)
    (hw : WithinBy η (b.controlBoundsLow.map realBound) (b.controlBoundsHigh.map realBound) (vals w)) (h : b.clipControl w = .ok v) :
    (vals v).length = (vals w).length ∧ ∀ i, |(vals v).getD i 0 - (vals w).getD i 0| ≤ η := by
  unfold Base.clipControl at h
  by_cases hb : (b.controlBoundsLow.isSome || b.controlBoundsHigh.isSome) = true
  · rw [if_pos hb] at h
    obtain ⟨y, hy, hl, hyi⟩ := npClip_fits hlo hhi
    rw [h] at hy
    simp only [Except.ok.injEq] at hy
    subst hy
    refine ⟨by rw [vals_length, vals_length, hl], fun i => ?_⟩
    rw [vals_getD, vals_getD]
    by_cases hi' : i < w.length
    · have hw' : w[i]? = some (w.getD i 0) := by simp [List.getD_eq_getElem?_getD, hi']
      have hv : v.getD i 0 = clip1 (boundAt b.controlBoundsLow i) (boundAt b.controlBoundsHigh i) (w.getD i 0) := by
        have := hyi i
        rw [hw', Option.map_some] at this
        rw [List.getD_eq_getElem?_getD, this]
        rfl
      rw [hv, ← clip1_real, ← boundAt_real, ← boundAt_real]
      have hw2 : (vals w)[i]? = some (w.getD i 0).val := by
        unfold vals
        rw [List.getElem?_map, hw']
        rfl
      obtain ⟨p, q⟩ := hw i _ hw2
      exact clip1_near hη p q
    · have e1 : w.getD i 0 = 0 := by simp [List.getD_eq_getElem?_getD, hi']
      have e2 : v.getD i 0 = 0 := by simp [List.getD_eq_getElem?_getD, hl, hi']
      rw [e1, e2]
      simpa using hη
  · rw [if_neg hb] at h
    simp only [Except.ok.injEq] at h
    subst h
    exact ⟨rfl, fun i => by simpa using hη⟩

end RTA
