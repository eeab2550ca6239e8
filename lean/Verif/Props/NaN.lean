import Verif.Lemmas.Simplex
import Verif.Model.Simplex

/-!
C20: undefined (NaN) constraint values. The code compares constraint values with `< 0`; every comparison with NaN is false,
so NaN passes as satisfied. The model is instantiated with a scalar type that has a NaN.
-/
namespace RTA
variable {K S P A : Type}

/-- Scalars with an undefined value, with IEEE comparison semantics (a comparison involving NaN is false) and absorbing
arithmetic. -/
inductive NF where
  | num (q : Rat)
  | nan
deriving DecidableEq

namespace NF
def lt : NF → NF → Prop
  | num a, num b => a < b
  | _, _ => False
def le : NF → NF → Prop
  | num a, num b => a ≤ b
  | _, _ => False
def add : NF → NF → NF
  | num a, num b => num (a + b)
  | _, _ => nan
/-- `np.maximum` propagates NaN. -/
def max' : NF → NF → NF
  | num a, num b => num (max a b)
  | _, _ => nan
def min' : NF → NF → NF
  | num a, num b => num (min a b)
  | _, _ => nan
instance : LT NF := ⟨lt⟩
instance : LE NF := ⟨le⟩
instance : Add NF := ⟨add⟩
instance : Zero NF := ⟨num 0⟩
instance : Max NF := ⟨max'⟩
instance : Min NF := ⟨min'⟩
instance : DecidableLT NF := fun a b => match a, b with
  | num a, num b => inferInstanceAs (Decidable (a < b))
  | nan, _ => isFalse id
  | num _, nan => isFalse id
instance : DecidableLE NF := fun a b => match a, b with
  | num a, num b => inferInstanceAs (Decidable (a ≤ b))
  | nan, _ => isFalse id
  | num _, nan => isFalse id
theorem not_zero_lt_zero : ¬ (0 : NF) < 0 := fun h => lt_irrefl (0 : Rat) h
theorem not_nan_lt (x : NF) : ¬ NF.nan < x := fun h => by cases x <;> exact h
end NF

section generic
variable [Add K] [Zero K] [LT K] [DecidableLT K]

theorem constraintViolated_gen (h0 : ¬ (0 : K) < 0) (c : Constraint K S P) (p : P) (en : Bool) (states : List S) :
    constraintViolated c p en states = true ↔ en = true ∧ ∃ x ∈ states, c.computeFn x p + c.bias < 0 := by
  unfold constraintViolated
  rw [constraintVals_eq]
  cases en with
  | true => simp [Constraint.compute]
  | false => simp [h0]

theorem constraintViolationLoop_gen (h0 : ¬ (0 : K) < 0) (params : Dict P) (en : Dict Bool) (states : List S)
    (cs : Dict (Constraint K S P))
    (hp : ∀ kc ∈ cs, dictGet params kc.1 = some kc.2.params)
    (he : ∀ kc ∈ cs, dictGet en kc.1 = some kc.2.enabled) :
    ∃ l, constraintViolationLoop params en states cs = .ok l ∧
      (l.any id = true ↔ ∃ kc ∈ cs, kc.2.enabled = true ∧ ∃ x ∈ states, kc.2.computeFn x kc.2.params + kc.2.bias < 0) := by
  induction cs with
  | nil => exact ⟨[], rfl, by simp⟩
  | cons kc cs ih =>
    obtain ⟨k, c⟩ := kc
    obtain ⟨l, hl, hiff⟩ := ih (fun kc h => hp kc (List.mem_cons_of_mem _ h)) (fun kc h => he kc (List.mem_cons_of_mem _ h))
    have h1 := hp (k, c) (List.mem_cons_self ..)
    have h2 := he (k, c) (List.mem_cons_self ..)
    refine ⟨constraintViolated c c.params c.enabled states :: l, ?_, ?_⟩
    · simp only [constraintViolationLoop, h1, h2, hl]
    · rw [List.any_cons, Bool.or_eq_true, hiff, id_eq, constraintViolated_gen h0]
      simp only [List.mem_cons, exists_eq_or_imp]

end generic

/-- **C20, exact behaviour.** With scalars that include NaN: a successful call of an enabled explicit simplex module that
was not intervening ends up intervening if and only if some enabled constraint is *negative* at the predicted state. In
particular a NaN in one constraint does not hide the violation of another one — that part of C20 holds — but NaN alone
never causes intervention. -/
theorem C20_nan_exact_partial (pred : S → NF → List NF → S) (s s' : SimplexObj NF S P A) (hwf : WF s)
    (hen : s.enable = true) (hi : s.intervening = false) (x : S) (dt : NF) (u c : List NF)
    (h : explicitSimplex pred s (.array x) dt u = (.ok c, s')) :
    s'.intervening = true ↔ ∃ kc ∈ s.constraints, kc.2.enabled = true ∧
      kc.2.computeFn (pred x dt u) kc.2.params + kc.2.bias < 0 := by
  obtain ⟨l, hl, hiff⟩ := constraintViolationLoop_gen NF.not_zero_lt_zero (prep s x u).params
    (prep s x u).constraintEnabled [pred x dt u] s.constraints (cachesFresh_prep hwf x u).params (cachesFresh_prep hwf x u).enabled
  have hmon : explicitMonitor pred (prep s x u) x dt u = (.ok (l.any id), prep s x u) := by
    unfold explicitMonitor constraintViolation
    rw [show (prep s x u).constraints = s.constraints from rfl, hl]
  have hlat : (prep s x u).intervening = false := hi
  have hcomp : computeFilteredControl getStateDefault (simplexFilter (explicitMonitor pred)) (withDesired s u) (.array x) dt u =
      match simplexFilter (explicitMonitor pred) (prep s x u) x dt u with
      | (.error e, s1) => (.error e, s1)
      | (.ok c, s1) => (.ok c, withActual s1 c) := by
    unfold computeFilteredControl getStateDefault prep
    simp only
    rcases simplexFilter (explicitMonitor pred) (updateConstraintValuesAt (updateParams (withDesired s u)) x true) x dt u
      with ⟨_ | c, s1⟩ <;> rfl
  have hres : ∀ c' s1, simplexFilter (explicitMonitor pred) (prep s x u) x dt u = (.ok c', s1) →
      s1.intervening = l.any id := by
    intro c' s1 hf
    unfold simplexFilter at hf
    simp only [hlat, Bool.false_eq_true, if_false, hmon] at hf
    cases hb : l.any id with
    | true =>
      simp only [hb, if_true] at hf
      obtain ⟨st, hst⟩ := backupControl_frame { prep s x u with intervening := true } x dt
      rw [hf] at hst
      rw [show s1 = _ from hst]; rfl
    | false =>
      simp only [hb, Bool.false_eq_true, if_false, Prod.mk.injEq] at hf
      rw [← hf.2]
  unfold explicitSimplex at h
  rw [filterControlCB_enabled hen, hcomp] at h
  rcases hf : simplexFilter (explicitMonitor pred) (prep s x u) x dt u with ⟨_ | c', s1⟩
  · rw [hf] at h; simp at h
  · rw [hf] at h
    simp only at h
    rcases hc : (withActual s1 c').toBase.clipControl c' with _ | c''
    · rw [hc] at h; simp at h
    · rw [hc] at h
      simp only [Prod.mk.injEq] at h
      rw [← h.2]
      have e : (withActual (withActual s1 c') c'').intervening = s1.intervening := rfl
      rw [e, hres c' s1 hf, hiff]
      simp

/-- A module with one enabled constraint that is NaN at every state. -/
def nanSimplex : SimplexObj NF NF NF Unit :=
  let c : Constraint NF NF NF :=
    { computeFn := fun _ _ => .nan, phiFn := fun _ _ => .nan, gradFn := fun _ _ => [.nan], alpha := none
      alphaNeg := none, bias := 0, biasNegative := 0, slackPriorityScale := none, params := 0, enabled := true
      subsample := {} }
  { toBase := Base.init (some (.scalar (.num 1))) (some (.scalar (.num (-1)))), constraints := [("c", c)]
    params := [("c", 0)], constraintEnabled := [("c", true)], constraintValues := [], isStaleConstraints := false
    ext := { latchTime := 0, latchedElapsed := 0, backupWindow := 0
             ctrl := { gen := fun _ _ z => some ([.num 0], z), stateInitial := .none, stateSaved := .none, state := .none } } }

/-- **C20 is false.** There is a module with an enabled constraint whose value at the predicted state is NaN, and a desired
control that it accepts unchanged and without intervening. -/
theorem C20_refuted_nan_accepted :
    ∃ (s : SimplexObj NF NF NF Unit) (pred : NF → NF → List NF → NF), WF s ∧ s.enable = true ∧
      (∃ kc ∈ s.constraints, kc.2.enabled = true ∧ kc.2.computeFn (pred (.num 0) (.num 1) [.num 1]) kc.2.params = .nan) ∧
      (explicitSimplex pred s (.array (.num 0)) (.num 1) [.num 1]).1 = .ok [.num 1] ∧
      (explicitSimplex pred s (.array (.num 0)) (.num 1) [.num 1]).2.intervening = false := by
  refine ⟨nanSimplex, fun x _ _ => x, ?_, rfl, ?_, by decide +kernel, by decide +kernel⟩
  · exact ⟨by simp [dictKeys, nanSimplex], by simp [dictKeys, nanSimplex], by simp [dictKeys, nanSimplex]⟩
  · exact ⟨("c", _), List.mem_singleton.2 rfl, rfl, rfl⟩

/-- `C20_nan_exact_partial` with a negative constraint next to a NaN one: the call intervenes. -/
example :
    let bad : Constraint NF NF NF := { (nanSimplex.constraints.head (by simp [nanSimplex])).2 with computeFn := fun _ _ => .num (-1) }
    let s := updateParams { nanSimplex with constraints := nanSimplex.constraints ++ [("d", bad)] }
    (explicitSimplex (fun x _ _ => x) s (.array (.num 0)) (.num 1) [.num 1]).1 = .ok [.num 0] ∧
    (explicitSimplex (fun x _ _ => x) s (.array (.num 0)) (.num 1) [.num 1]).2.intervening = true := by
  decide +kernel

end RTA
