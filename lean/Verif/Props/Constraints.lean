import Verif.Model.Constraint
import Mathlib.Algebra.BigOperators.Fin
import Mathlib.Algebra.Order.BigOperators.Ring.Finset
import Mathlib.Algebra.Order.BigOperators.Group.Finset
import Mathlib.Algebra.Order.Ring.Pow
import Mathlib.Tactic.Linarith
import Mathlib.Tactic.Ring
import Mathlib.Tactic.NormNum
import Mathlib.Data.Rat.Defs

/-!
C33 and C34: polynomial strengtheners and state limits.
-/
set_option linter.unusedSectionVars false
namespace RTA
variable {K : Type}

section
variable [Field K]

theorem polyLoop_eq (x : K) (cs : List K) (n : Nat) (out : K) :
    polyLoop x cs n out = out + ∑ i ∈ Finset.range cs.length, cs.getD i 0 * x ^ (n + i) := by
  induction cs generalizing n out with
  | nil => simp [polyLoop]
  | cons c cs ih =>
    rw [polyLoop, ih, List.length_cons, Finset.sum_range_succ']
    simp only [List.getD_cons_zero, List.getD_cons_succ, add_zero]
    have : ∀ i, n + 1 + i = n + (i + 1) := fun i => by omega
    simp only [this]
    ring

/-- **C33, value**: `sum(coefs[i] * x**i)`. -/
theorem C33_value (coefs : List K) (x : K) :
    polyAlpha coefs x = ∑ i ∈ Finset.range coefs.length, coefs.getD i 0 * x ^ i := by
  unfold polyAlpha
  rw [polyLoop_eq]
  simp

/-- **C33, default**: the identity. -/
theorem C33_default_identity (x : K) : polyAlphaDefault x = x := by
  unfold polyAlphaDefault
  rw [C33_value]
  simp [Finset.sum_range_succ]

end

section
variable [Field K] [LinearOrder K] [IsStrictOrderedRing K]

/-- Non-negative odd coefficients, at least one positive, and zero even coefficients. -/
def ClassKCoefs (coefs : List K) : Prop :=
  (∀ (i : Nat) c, coefs[i]? = some c → (Even i → c = 0) ∧ 0 ≤ c) ∧ ∃ (i : Nat) (c : K), coefs[i]? = some c ∧ 0 < c

theorem classK_term {coefs : List K} (h : ClassKCoefs coefs) (i : Nat) : (Even i → coefs.getD i 0 = 0) ∧ 0 ≤ coefs.getD i 0 := by
  rw [List.getD_eq_getElem?_getD]
  rcases hc : coefs[i]? with _ | c
  · simp
  · simpa using h.1 i c hc

/-- **C33, class-K**: zero at zero, odd, strictly increasing on the whole line. -/
theorem C33_class_k (coefs : List K) (h : ClassKCoefs coefs) :
    polyAlpha coefs 0 = 0 ∧ (∀ x, polyAlpha coefs (-x) = -polyAlpha coefs x) ∧ ∀ x y, x < y → polyAlpha coefs x < polyAlpha coefs y := by
  refine ⟨?_, ?_, ?_⟩
  · rw [C33_value]
    refine Finset.sum_eq_zero fun i _ => ?_
    cases i with
    | zero => rw [(classK_term h 0).1 ⟨0, rfl⟩, zero_mul]
    | succ i => simp
  · intro x
    rw [C33_value, C33_value, ← Finset.sum_neg_distrib]
    refine Finset.sum_congr rfl fun i _ => ?_
    rcases Nat.even_or_odd i with he | ho
    · rw [(classK_term h i).1 he]; ring
    · rw [ho.neg_pow]; ring
  · intro x y hxy
    rw [C33_value, C33_value]
    obtain ⟨j, c, hj, hc⟩ := h.2
    have hjl : j < coefs.length := (List.getElem?_eq_some_iff.1 hj).1
    have hodd : Odd j := by
      rcases Nat.even_or_odd j with he | ho
      · exact absurd ((h.1 j c hj).1 he) hc.ne'
      · exact ho
    refine Finset.sum_lt_sum (fun i _ => ?_) ⟨j, Finset.mem_range.2 hjl, ?_⟩
    · rcases Nat.even_or_odd i with he | ho
      · rw [(classK_term h i).1 he, zero_mul, zero_mul]
      · exact mul_le_mul_of_nonneg_left (ho.strictMono_pow hxy).le (classK_term h i).2
    · rw [List.getD_eq_getElem?_getD, hj]
      exact mul_lt_mul_of_pos_left (hodd.strictMono_pow hxy) hc

/-- Consequence used by `C30`-`C32`: a class-K strengthener has the sign of its argument. -/
theorem C33_sign (coefs : List K) (h : ClassKCoefs coefs) (y : K) :
    (y < 0 → polyAlpha coefs y < 0) ∧ (0 < y → 0 < polyAlpha coefs y) := by
  obtain ⟨h0, -, hm⟩ := C33_class_k coefs h
  exact ⟨fun hy => by have := hm _ _ hy; rwa [h0] at this, fun hy => by have := hm _ _ hy; rwa [h0] at this⟩

/-- The default strengthener of the state limits is class-K. -/
theorem limitAlpha_class_k : ClassKCoefs ([0, 5 / 10000, 0, 1 / 1000] : List K) := by
  refine ⟨?_, 1, 5 / 10000, rfl, by norm_num⟩
  intro i c hc
  match i with
  | 0 => simp only [List.getElem?_cons_zero, Option.some.injEq] at hc; subst hc; exact ⟨fun _ => rfl, le_rfl⟩
  | 1 => simp at hc; subst hc; exact ⟨fun h => absurd h (by decide), by norm_num⟩
  | 2 => simp at hc; subst hc; exact ⟨fun _ => rfl, le_rfl⟩
  | 3 => simp at hc; subst hc; exact ⟨fun h => absurd h (by decide), by norm_num⟩
  | n + 4 => simp at hc

example : ClassKCoefs ([0, 1, 0, 30] : List ℚ) := by
  refine ⟨?_, 1, 1, rfl, by norm_num⟩
  intro i c hc
  match i with
  | 0 => simp only [List.getElem?_cons_zero, Option.some.injEq] at hc; subst hc; exact ⟨fun _ => rfl, le_rfl⟩
  | 1 => simp at hc; subst hc; exact ⟨fun h => absurd h (by decide), by norm_num⟩
  | 2 => simp at hc; subst hc; exact ⟨fun _ => rfl, le_rfl⟩
  | 3 => simp at hc; subst hc; exact ⟨fun h => absurd h (by decide), by norm_num⟩
  | n + 4 => simp at hc

/-! ### C34 -/

/-- **C34, magnitude limit**. -/
theorem C34_magnitude (limit : K) (hl : 0 ≤ limit) (i : Nat) (alpha : Option (K → K)) (x : List K) (v : K) (hv : x[i]? = some v) :
    0 ≤ (magnitudeLimit limit i alpha).compute x (magnitudeLimit limit i alpha).params ↔ |v| ≤ limit := by
  have e : stateAt x i = v := by simp [stateAt, List.getD_eq_getElem?_getD, hv]
  simp only [magnitudeLimit, Constraint.mk', Constraint.compute, e, add_zero, sub_nonneg]
  exact sq_le_sq₀' hl
where
  sq_le_sq₀' {limit v : K} (hl : 0 ≤ limit) : v ^ 2 ≤ limit ^ 2 ↔ |v| ≤ limit := by
    rw [← sq_abs v]
    exact pow_le_pow_iff_left₀ (abs_nonneg v) hl (by decide)

/-- **C34, maximum limit**. -/
theorem C34_max (limit : K) (i : Nat) (alpha : Option (K → K)) (x : List K) (v : K) (hv : x[i]? = some v) :
    0 ≤ (maxLimit limit i alpha).compute x (maxLimit limit i alpha).params ↔ v ≤ limit := by
  have e : stateAt x i = v := by simp [stateAt, List.getD_eq_getElem?_getD, hv]
  simp only [maxLimit, Constraint.mk', Constraint.compute, e, add_zero, sub_nonneg]

/-- **C34, minimum limit**. -/
theorem C34_min (limit : K) (i : Nat) (alpha : Option (K → K)) (x : List K) (v : K) (hv : x[i]? = some v) :
    0 ≤ (minLimit limit i alpha).compute x (minLimit limit i alpha).params ↔ limit ≤ v := by
  have e : stateAt x i = v := by simp [stateAt, List.getD_eq_getElem?_getD, hv]
  simp only [minLimit, Constraint.mk', Constraint.compute, e, add_zero, sub_nonneg]

/-- **C34, bias**: for all three limits with any bias, the enforced value is the logged value plus the bias, and the logged
value does not depend on the bias. -/
theorem C34_bias (limit b : K) (i : Nat) (alpha : Option (K → K)) (x : List K) :
    ∀ c ∈ [magnitudeLimit limit i alpha, maxLimit limit i alpha, minLimit limit i alpha],
      ({ c with bias := b } : Constraint K (List K) K).compute x c.params = c.phiFn x c.params + b ∧
      ({ c with bias := b } : Constraint K (List K) K).phiFn x c.params = c.phiFn x c.params := by
  intro c hc
  simp only [List.mem_cons, List.not_mem_nil, or_false] at hc
  rcases hc with rfl | rfl | rfl <;> exact ⟨rfl, rfl⟩

/-- The default strengthener applies when none is given. -/
theorem C34_default_alpha (limit : K) (i : Nat) (y : K) (hy : y < 0) :
    ∀ c ∈ [magnitudeLimit limit i none, maxLimit limit i none, minLimit limit i none], ∃ a, c.alpha = some a ∧ a y < 0 := by
  intro c hc
  simp only [List.mem_cons, List.not_mem_nil, or_false] at hc
  have := (C33_sign (K := K) _ limitAlpha_class_k y).1 hy
  rcases hc with rfl | rfl | rfl <;> exact ⟨_, rfl, this⟩

end

example : 0 ≤ (magnitudeLimit (5 : ℚ) 1 none).compute [7, -4, 9] 5 ∧ ¬ 0 ≤ (magnitudeLimit (5 : ℚ) 2 none).compute [7, -4, 9] 5 := by
  decide +kernel

end RTA
