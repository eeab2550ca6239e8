import Verif.Props.SmallSteps
import Mathlib.Analysis.SpecificLimits.Basic

/-!
C113: the discrete-time module brings violated constraints back.

The violation shrinks geometrically (`C113_shrinks`), so it falls below every tolerance (`C113_tolerance_partial`), and a constraint with a
negative bias holds again after finitely many steps (`C113_bias_partial`). Without bias it need never hold again
(`C113_refuted_finite`).
-/
namespace RTA
variable {K S P : Type}

/-- **C113, rate.** Let `alpha(y) ≤ r·y` for violations `y < 0`, and `dt·alpha(y) ≤ y` for `y ≥ 0`, and let no step be longer than `1/r`.
Then along the loop formed by the module and the plant it predicts, whatever is desired, the violation of an enabled constraint without
slack is multiplied by at most `1 - r·dt` in every step; once the constraint holds it keeps holding. -/
theorem C113_shrinks [Field K] [LinearOrder K] [IsStrictOrderedRing K] [HasSqrt K] {solver : NLPSolver K} (hsound : NLPSound solver)
    (next : S → K → List K → S) (dts : Nat → K) (us : Nat → List K) (x0 : S) (s0 : DiscObj K S P) (hinv : DiscInv s0)
    (hen : s0.enable = true) (hexc : s0.ext.solverException = true) (hdt : ∀ n, 0 < dts n) {k : String} {c : Constraint K S P}
    {al : K → K} (hc : (k, c) ∈ s0.constraints) (hce : c.enabled = true) (hcs : c.slackPriorityScale = none)
    (hal : c.alpha = some al) (hk : ∀ n y, 0 ≤ y → dts n * al y ≤ y) {r : K} (hr : ∀ y, y < 0 → al y ≤ r * y)
    (hrd : ∀ n, r * dts n ≤ 1) (n : Nat) (x : S) (s : DiscObj K S P)
    (h : closedLoop (discreteASIF solver next) next dts us x0 s0 n = some (x, s)) :
    min 0 (c.computeFn x0 c.params + c.bias) * ((List.range n).map fun i => 1 - r * dts i).prod ≤
      c.computeFn x c.params + c.bias := by
  have key : ∀ n x s, closedLoop (discreteASIF solver next) next dts us x0 s0 n = some (x, s) →
      (0 ≤ ((List.range n).map fun i => 1 - r * dts i).prod ∧
        min 0 (hval c x0) * ((List.range n).map fun i => 1 - r * dts i).prod ≤ hval c x) ∧ DiscInv s ∧ s.enable = true ∧
        s.constraints = s0.constraints ∧ s.ext = s0.ext := by
    intro n
    induction n with
    | zero =>
      intro x s h
      simp only [closedLoop, Option.some.injEq, Prod.mk.injEq] at h
      obtain ⟨rfl, rfl⟩ := h
      exact ⟨by simp, hinv, hen, rfl, rfl⟩
    | succ n ih =>
      intro x s h
      rw [closedLoop] at h
      rcases hl : closedLoop (discreteASIF solver next) next dts us x0 s0 n with _ | ⟨y, t⟩
      · rw [hl] at h; simp at h
      rw [hl] at h
      simp only at h
      obtain ⟨⟨hp, hle⟩, hi, he, hcons, hext⟩ := ih y t hl
      rcases hcall : discreteASIF solver next t (.array y) (dts n) (us n) with ⟨e | v, t'⟩
      · rw [hcall] at h; simp at h
      rw [hcall] at h
      simp only [Option.some.injEq, Prod.mk.injEq] at h
      obtain ⟨rfl, rfl⟩ := h
      obtain ⟨hi', he', hcons', hext', -, -⟩ := disc_keeps hi he hcall
      refine ⟨?_, hi', he', hcons'.trans hcons, hext'.trans hext⟩
      obtain ⟨d, -, -, -, had, -⟩ := disc_solved hsound hi he (hdt n) hcall (by rw [hext]; exact hexc)
      obtain ⟨al', hal', hb⟩ := had.barrier (c, 0) (mem_assignSlack_none (by rw [hcons]; exact hc) hcs d) hce
      rw [hal] at hal'
      simp only [Option.some.injEq] at hal'
      subst hal'
      simp only [mul_zero, add_zero] at hb
      rw [List.range_succ, List.map_append, List.prod_append]
      simp only [List.map_cons, List.map_nil, List.prod_cons, List.prod_nil, mul_one]
      have hf : 0 ≤ 1 - r * dts n := sub_nonneg.2 (hrd n)
      refine ⟨mul_nonneg hp hf, ?_⟩
      have hm : min 0 (hval c x0) * ((List.range n).map fun i => 1 - r * dts i).prod ≤ 0 :=
        mul_nonpos_of_nonpos_of_nonneg (min_le_left _ _) hp
      rw [← mul_assoc]
      by_cases hy : 0 ≤ hval c y
      · have := hk n _ hy
        have h0 := mul_nonpos_of_nonpos_of_nonneg hm hf
        linarith
      · have h1 := mul_le_mul_of_nonneg_left (hr _ (not_le.1 hy)) (hdt n).le
        have h2 := mul_le_mul_of_nonneg_right hle hf
        refine h2.trans (le_trans (le_of_eq ?_) ((sub_le_sub_left h1 _).trans hb))
        ring
  exact (key n x s h).1.2

/-- **C113, up to a tolerance.** With steps of at least `d > 0` the violation is below any given tolerance from some step on, however the
desired controls are chosen. (What is missing: that the constraint holds again, which is false, see `C113_refuted_finite`.) -/
theorem C113_tolerance_partial [HasSqrt ℝ] {solver : NLPSolver ℝ} (hsound : NLPSound solver)
    (next : S → ℝ → List ℝ → S) (dts : Nat → ℝ) (us : Nat → List ℝ) (x0 : S) (s0 : DiscObj ℝ S P) (hinv : DiscInv s0)
    (hen : s0.enable = true) (hexc : s0.ext.solverException = true) {d : ℝ} (hd : 0 < d) (hdt : ∀ n, d ≤ dts n) {k : String}
    {c : Constraint ℝ S P} {al : ℝ → ℝ} (hc : (k, c) ∈ s0.constraints) (hce : c.enabled = true) (hcs : c.slackPriorityScale = none)
    (hal : c.alpha = some al) (hk : ∀ n y, 0 ≤ y → dts n * al y ≤ y) {r : ℝ} (hr0 : 0 < r) (hr : ∀ y, y < 0 → al y ≤ r * y)
    (hrd : ∀ n, r * dts n ≤ 1) {ε : ℝ} (hε : 0 < ε) :
    ∃ N, ∀ n, N ≤ n → ∀ x s, closedLoop (discreteASIF solver next) next dts us x0 s0 n = some (x, s) →
      -ε ≤ c.computeFn x c.params + c.bias := by
  have hq0 : 0 ≤ 1 - r * d := by
    have := mul_le_mul_of_nonneg_left (hdt 0) hr0.le
    linarith [hrd 0]
  have hq1 : 1 - r * d < 1 := by nlinarith
  have hm : 0 ≤ -min 0 (c.computeFn x0 c.params + c.bias) := neg_nonneg.2 (min_le_left _ _)
  obtain ⟨N, hN⟩ := exists_pow_lt_of_lt_one (show 0 < ε / (-min 0 (c.computeFn x0 c.params + c.bias) + 1) by positivity) hq1
  refine ⟨N, fun n hn x s h => ?_⟩
  have h1 := C113_shrinks hsound next dts us x0 s0 hinv hen hexc (fun n => hd.trans_le (hdt n)) hc hce hcs hal hk hr hrd n x s h
  have hprod : ∀ n, 0 ≤ ((List.range n).map fun i => 1 - r * dts i).prod ∧
      ((List.range n).map fun i => 1 - r * dts i).prod ≤ (1 - r * d) ^ n := by
    intro n
    induction n with
    | zero => simp
    | succ n ih =>
      rw [List.range_succ, List.map_append, List.prod_append]
      simp only [List.map_cons, List.map_nil, List.prod_cons, List.prod_nil, mul_one]
      have hf : 0 ≤ 1 - r * dts n := sub_nonneg.2 (hrd n)
      refine ⟨mul_nonneg ih.1 hf, ?_⟩
      rw [pow_succ]
      exact mul_le_mul ih.2 (by nlinarith [hdt n]) hf (pow_nonneg hq0 n)
  have h2 : ((List.range n).map fun i => 1 - r * dts i).prod ≤ ε / (-min 0 (c.computeFn x0 c.params + c.bias) + 1) :=
    ((hprod n).2.trans (pow_le_pow_of_le_one hq0 hq1.le hn)).trans hN.le
  rw [le_div_iff₀ (by linarith)] at h2
  nlinarith [(hprod n).1]

/-- **C113, with a negative bias.** A constraint with `bias < 0`, however violated, holds (without its bias) from some step on. -/
theorem C113_bias_partial [HasSqrt ℝ] {solver : NLPSolver ℝ} (hsound : NLPSound solver)
    (next : S → ℝ → List ℝ → S) (dts : Nat → ℝ) (us : Nat → List ℝ) (x0 : S) (s0 : DiscObj ℝ S P) (hinv : DiscInv s0)
    (hen : s0.enable = true) (hexc : s0.ext.solverException = true) {d : ℝ} (hd : 0 < d) (hdt : ∀ n, d ≤ dts n) {k : String}
    {c : Constraint ℝ S P} {al : ℝ → ℝ} (hc : (k, c) ∈ s0.constraints) (hce : c.enabled = true) (hcs : c.slackPriorityScale = none)
    (hal : c.alpha = some al) (hk : ∀ n y, 0 ≤ y → dts n * al y ≤ y) {r : ℝ} (hr0 : 0 < r) (hr : ∀ y, y < 0 → al y ≤ r * y)
    (hrd : ∀ n, r * dts n ≤ 1) (hb : c.bias < 0) :
    ∃ N, ∀ n, N ≤ n → ∀ x s, closedLoop (discreteASIF solver next) next dts us x0 s0 n = some (x, s) →
      0 < c.computeFn x c.params := by
  obtain ⟨N, hN⟩ := C113_tolerance_partial hsound next dts us x0 s0 hinv hen hexc hd hdt hc hce hcs hal hk hr0 hr hrd
    (ε := -c.bias / 2) (by linarith)
  exact ⟨N, fun n hn x s h => by linarith [hN n hn x s h]⟩

/-- Objects that only differ from `smallObj` in what they report. -/
def LikeSmall (s : DiscObj ℝ ℝ Unit) : Prop :=
  DiscInv s ∧ s.enable = true ∧ s.constraints = smallObj.constraints ∧ s.ext = smallObj.ext ∧
    s.controlBoundsLow = smallObj.controlBoundsLow ∧ s.controlBoundsHigh = smallObj.controlBoundsHigh

theorem like_answer {nlp : NLPSolver ℝ} (hsound : NLPSound nlp) (hglob : NLPGlobal nlp) (hcomp : NLPComplete nlp)
    {s : DiscObj ℝ ℝ Unit} (hs : LikeSmall s) {x dt : ℝ} (hdt : 0 < dt) (hx : x ≤ 0) (hx2 : -2 ≤ x) :
    (discreteASIF nlp (quadNext 0) s (.array x) dt [0]).1 = .ok [-x] := by
  obtain ⟨hinv, hen, hc, he, hl, hh⟩ := hs
  have hsq : ∀ a b : ℝ, sqDist [a] [b] = (a - b) ^ 2 := fun a b => by simp [sqDist, sqNorm, vsub, dot]; ring
  have hadm : ∀ w, AdmissibleDS (quadNext 0) s x dt w [] ↔ ∃ q, w = [q] ∧ (-2 ≤ q ∧ q ≤ 2) ∧ -x ≤ q := by
    intro w
    have := small_admissible 0 x dt hdt w
    rw [mul_zero, zero_sub] at this
    rw [← this]
    constructor
    · intro h
      exact ⟨by rw [← he]; exact h.len, by rw [← hc]; exact h.slen, by rw [← hl, ← hh]; exact h.bounds, by rw [← hc]; exact h.barrier⟩
    · intro h
      exact ⟨by rw [he]; exact h.len, by rw [hc]; exact h.slen, by rw [hl, hh]; exact h.bounds, by rw [hc]; exact h.barrier⟩
  obtain ⟨v, hv, ha, hle⟩ := disc_total hsound hglob hcomp hinv (by rw [hc]; simp [smallObj, slackScales, toyC]) hen
    (lo := some (-2)) (hi := some 2) (by rw [hl]; rfl) (by rw [hh]; rfl) (by rw [hc]; simp [smallObj, toyC]) hdt (u := [0]) (w := [-x])
    (by rw [he]; rfl) ((hadm _).2 ⟨-x, rfl, ⟨by linarith, by linarith⟩, le_rfl⟩) (by
      intro v hv
      obtain ⟨q, rfl, -, hq⟩ := (hadm v).1 hv
      rw [hsq, hsq]
      nlinarith)
  obtain ⟨q, rfl, -, hq⟩ := (hadm v).1 ha
  rw [hsq, hsq] at hle
  rw [hv]
  have : q = -x := by
    by_contra hne
    have h2 : -x < q := lt_of_le_of_ne hq (Ne.symm hne)
    nlinarith
  rw [this]

/-- **C113 fails in finite time.** The module with the constraint `x ≥ 0`, bounds ±2 and exact prediction `x⁺ = x + dt·u`, desired control
`0`, from `x = -1` with half second steps: every call answers, and the state after `n` steps is `-(1/2)^n`, so the constraint is violated
for ever. (The explicit module with the same settings brings it back in finite time, C32.) -/
theorem C113_refuted_finite {nlp : NLPSolver ℝ} (hsound : NLPSound nlp) (hglob : NLPGlobal nlp) (hcomp : NLPComplete nlp) (n : Nat) :
    ∃ s, closedLoop (discreteASIF nlp (quadNext 0)) (quadNext 0) (fun _ => 1 / 2) (fun _ => [0]) (-1) smallObj n =
      some (-(1 / 2) ^ n, s) ∧ (toyC none).computeFn (-(1 / 2) ^ n) (toyC none).params < 0 := by
  suffices h : ∃ s, closedLoop (discreteASIF nlp (quadNext 0)) (quadNext 0) (fun _ => 1 / 2) (fun _ => [0]) (-1) smallObj n =
      some (-(1 / 2) ^ n, s) ∧ LikeSmall s by
    obtain ⟨s, h, -⟩ := h
    refine ⟨s, h, ?_⟩
    simp only [toyC]
    have : (0 : ℝ) < (1 / 2) ^ n := by positivity
    linarith
  induction n with
  | zero => exact ⟨smallObj, by simp [closedLoop], small_inv, rfl, rfl, rfl, rfl, rfl⟩
  | succ n ih =>
    obtain ⟨s, h, hs⟩ := ih
    have h0 : (0 : ℝ) < (1 / 2) ^ n := by positivity
    have h1 : ((1 : ℝ) / 2) ^ n ≤ 1 := pow_le_one₀ (by norm_num) (by norm_num)
    have ha := like_answer hsound hglob hcomp hs (x := -(1 / 2) ^ n) (dt := 1 / 2) (by norm_num) (by linarith) (by linarith)
    rcases hcall : discreteASIF nlp (quadNext 0) s (.array (-(1 / 2) ^ n)) (1 / 2) [0] with ⟨r, t⟩
    rw [hcall] at ha
    simp only at ha
    subst ha
    obtain ⟨hi', he', hc', hx', hl', hh'⟩ := disc_keeps hs.1 hs.2.1 hcall
    refine ⟨t, ?_, hi', he', hc'.trans hs.2.2.1, hx'.trans hs.2.2.2.1, hl'.trans hs.2.2.2.2.1, hh'.trans hs.2.2.2.2.2⟩
    rw [closedLoop, h]
    simp only
    rw [hcall]
    simp only [Option.some.injEq, Prod.mk.injEq, and_true]
    simp [quadNext]
    ring

/-- The hypotheses of `C113_shrinks` are met there: with `alpha(y) = y` and half second steps the violation is at most halved at every
step, for every sequence of desired controls. -/
example (us : Nat → List ℝ) (n : Nat) (x : ℝ) (s : DiscObj ℝ ℝ Unit)
    (h : closedLoop (discreteASIF refNLP (quadNext 0)) (quadNext 0) (fun _ => 1 / 2) us (-1) smallObj n = some (x, s)) :
    -(1 / 2) ^ n ≤ x := by
  have := C113_shrinks refNLP_sound (quadNext 0) (fun _ => 1 / 2) us (-1) smallObj small_inv rfl rfl (fun _ => by norm_num)
    (k := "c") (c := toyC none) (al := id) (by simp [smallObj]) rfl rfl rfl (fun _ y hy => by simp only [id]; linarith) (r := 1)
    (fun y _ => by simp) (fun _ => by norm_num) n x s h
  simp only [toyC, add_zero, List.map_const', List.length_range, List.prod_replicate] at this
  rw [min_eq_right (by norm_num)] at this
  norm_num at this ⊢
  exact this

/-- The hypotheses of `C113_tolerance_partial` are met there. -/
example (us : Nat → List ℝ) : ∃ N, ∀ n, N ≤ n → ∀ x s,
    closedLoop (discreteASIF refNLP (quadNext 0)) (quadNext 0) (fun _ => 1 / 2) us (-1) smallObj n = some (x, s) → -(1 / 1000) ≤ x + 0 :=
  C113_tolerance_partial refNLP_sound (quadNext 0) (fun _ => 1 / 2) us (-1) smallObj small_inv rfl rfl (d := 1 / 2) (by norm_num)
    (fun _ => le_rfl) (k := "c") (c := toyC none) (al := id) (by simp [smallObj]) rfl rfl rfl
    (fun _ y hy => by simp only [id]; linarith) (r := 1) one_pos (fun y _ => by simp) (fun _ => by norm_num) (by norm_num)

/-- `x ≥ 0` with a bias of `-1/10`. -/
noncomputable def biasedC : Constraint ℝ ℝ Unit := { toyC none with bias := -(1 / 10) }

noncomputable def biasedObj : DiscObj ℝ ℝ Unit := { smallObj with constraints := [("c", biasedC)] }

theorem biased_init : discInit (some (.scalar 2)) (some (.scalar (-2))) [("c", biasedC)] none (1 / 10000) 1 true = .ok biasedObj := rfl

/-- The hypotheses of `C113_bias_partial` are met by that constraint. -/
example (us : Nat → List ℝ) : ∃ N, ∀ n, N ≤ n → ∀ x s,
    closedLoop (discreteASIF refNLP (quadNext 0)) (quadNext 0) (fun _ => 1 / 2) us (-1) biasedObj n = some (x, s) → 0 < x :=
  C113_bias_partial refNLP_sound (quadNext 0) (fun _ => 1 / 2) us (-1) biasedObj (discInv_init (by simp [dictKeys]) biased_init) rfl rfl
    (d := 1 / 2) (by norm_num)
    (fun _ => le_rfl) (k := "c") (c := biasedC) (al := id) (by simp [biasedObj]) rfl rfl rfl
    (fun _ y hy => by simp only [id]; linarith) (r := 1) one_pos (fun y _ => by simp) (fun _ => by norm_num) (by norm_num [biasedC])

end RTA
