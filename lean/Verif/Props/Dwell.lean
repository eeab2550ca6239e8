import Verif.Props.Latch
import Mathlib.Tactic.Linarith

/-!
How often a simplex module with a latch switches (C111).
-/
set_option linter.unusedSectionVars false
namespace RTA
variable {K S P A : Type}

/-- How long the backup controller was in control: the sum of the step lengths of the calls that reported intervention. -/
def backupTime [Zero K] [Add K] : List (SEvent K S) → K
  | [] => 0
  | .called _ dt _ true :: es => dt + backupTime es
  | _ :: es => backupTime es

/-- How long the whole run took. -/
def runTime [Zero K] [Add K] : List (SEvent K S) → K
  | [] => 0
  | .called _ dt _ _ :: es => dt + runTime es
  | _ :: es => runTime es

/-- How often control went back from the backup controller, when `prev` is the flag before the run. -/
def releases : Bool → List (SEvent K S) → Nat
  | _, [] => 0
  | prev, .called _ _ _ i :: es => (if prev && !i then 1 else 0) + releases i es
  | _, .reset :: es => releases false es

/-- How often the backup controller took over, when `prev` is the flag before the run. -/
def handOvers : Bool → List (SEvent K S) → Nat
  | _, [] => 0
  | prev, .called _ _ _ i :: es => (if !prev && i then 1 else 0) + handOvers i es
  | _, .reset :: es => handOvers false es

/-- Every call of the run has a step of at least `δ`. -/
def StepsAtLeast [LE K] (δ : K) (es : List (SEvent K S)) : Prop :=
  ∀ e ∈ es, ∀ x dt c i, e = .called x dt c i → δ ≤ dt

theorem handOvers_le (es : List (SEvent K S)) (hc : SEvent.reset ∉ es) (prev : Bool) :
    handOvers prev es ≤ releases prev es + (if prev then 0 else 1) := by
  induction es generalizing prev with
  | nil => simp [handOvers]
  | cons e es ih =>
    cases e with
    | reset => simp at hc
    | called x dt c i =>
      have := ih (fun h => hc (List.mem_cons_of_mem _ h)) i
      simp only [handOvers, releases]
      cases prev <;> cases i <;> simp at this ⊢ <;> omega

section
variable [CommRing K] [LinearOrder K] [IsStrictOrderedRing K]

theorem backupTime_le_runTime {δ : K} (h0 : 0 ≤ δ) {es : List (SEvent K S)} (h : StepsAtLeast δ es) : backupTime es ≤ runTime es := by
  induction es with
  | nil => exact le_refl _
  | cons e es ih =>
    have ih := ih fun e' he' => h e' (List.mem_cons_of_mem _ he')
    cases e with
    | reset => exact ih
    | called x dt c i =>
      have hd := h _ List.mem_cons_self x dt c i rfl
      cases i <;> simp only [backupTime, runTime] <;> linarith

theorem runSimplex_noreset {mon : SimplexObj K S P A → S → K → List K → Except PyErr Bool × SimplexObj K S P A} {ops : List (SOp K S)}
    (hcalls : onlyCalls ops) {s s' : SimplexObj K S P A} {es : List (SEvent K S)} (h : runSimplex mon s ops = some (es, s')) :
    SEvent.reset ∉ es := by
  induction ops generalizing s es with
  | nil =>
    simp only [runSimplex, Option.some.injEq, Prod.mk.injEq] at h
    rw [← h.1]; simp
  | cons op ops ih =>
    cases op with
    | reset => exact absurd hcalls (by simp [onlyCalls])
    | call x dt u =>
      simp only [runSimplex] at h
      rcases hcall : filterControlCB getStateDefault (simplexFilter mon) s (.array x) dt u with ⟨_ | c, s1⟩
      · rw [hcall] at h; simp at h
      rw [hcall] at h
      simp only at h
      rcases hrun : runSimplex mon s1 ops with _ | ⟨es', s2⟩
      · rw [hrun] at h; simp at h
      rw [hrun] at h
      simp only [Option.some.injEq, Prod.mk.injEq] at h
      obtain ⟨rfl, rfl⟩ := h
      have := ih (by simpa [onlyCalls] using hcalls) hrun
      simpa using this

/-- **C111, runs without resets** (with resets it is false, `C111_refuted_reset`). In every run of calls of an enabled, not intervening simplex module, explicit or implicit, each time control goes back from the
backup controller to the desired control the backup controller was in control for at least the latch time and one step: the number of returns
times `latch_time + δ` is at most the time under backup control, for steps of at least `δ`. The number of hand overs exceeds it by at most
one, so that is bounded in terms of the duration of the run. -/
theorem C111_dwell_partial {mon : SimplexObj K S P A → S → K → List K → Except PyErr Bool × SimplexObj K S P A}
    (hm : MonFrame mon) (ops : List (SOp K S)) (hcalls : onlyCalls ops) (s s' : SimplexObj K S P A)
    (hen : s.enable = true) (hfresh : s.intervening = false) (h0 : s.ext.latchedElapsed = 0) (δ : K) (hd : 0 ≤ δ)
    (es : List (SEvent K S)) (h : runSimplex mon s ops = some (es, s')) (hδ : StepsAtLeast δ es) :
    (releases false es : K) * (s.ext.latchTime + δ) ≤ backupTime es ∧
    (0 ≤ s.ext.latchTime → (handOvers false es : K) * (s.ext.latchTime + δ) ≤ runTime es + s.ext.latchTime + δ) := by
  have key : (releases false es : K) * (s.ext.latchTime + δ) ≤ backupTime es := by
    suffices H : ∀ s : SimplexObj K S P A, s.enable = true → 0 ≤ s.ext.latchedElapsed → (s.intervening = false → s.ext.latchedElapsed = 0) →
        ∀ es s', runSimplex mon s ops = some (es, s') → StepsAtLeast δ es →
        (releases s.intervening es : K) * (s.ext.latchTime + δ) ≤
          backupTime es + if s.intervening then s.ext.latchedElapsed + δ else 0 by
      have := H s hen h0.ge (fun _ => h0) es s' h hδ
      simpa [hfresh] using this
    clear h h0 hfresh hen hδ es s' s
    induction ops with
    | nil =>
      intro s _ hpos hinv es s' h _
      simp only [runSimplex, Option.some.injEq, Prod.mk.injEq] at h
      obtain ⟨rfl, rfl⟩ := h
      simp only [releases, backupTime, Nat.cast_zero, zero_mul, zero_add]
      split_ifs
      · linarith
      · exact le_refl _
    | cons op ops ih =>
      intro s hen hpos hinv es s' h hδ
      cases op with
      | reset => exact absurd hcalls (by simp [onlyCalls])
      | call x dt u =>
        simp only [runSimplex] at h
        rcases hcall : filterControlCB getStateDefault (simplexFilter mon) s (.array x) dt u with ⟨_ | c, s1⟩
        · rw [hcall] at h; simp at h
        rw [hcall] at h
        simp only at h
        rcases hrun : runSimplex mon s1 ops with _ | ⟨es', s2⟩
        · rw [hrun] at h; simp at h
        rw [hrun] at h
        simp only [Option.some.injEq, Prod.mk.injEq] at h
        obtain ⟨rfl, rfl⟩ := h
        have hdt : δ ≤ dt := hδ _ List.mem_cons_self x dt c _ rfl
        obtain ⟨⟨hen1, _⟩, hdesc⟩ := simplex_ok hm hen hcall
        have IH := fun h1 h2 => ih (by simpa [onlyCalls] using hcalls) s1 hen1 h1 h2 es' s2 hrun
          fun e he => hδ e (List.mem_cons_of_mem _ he)
        rcases hdesc with ⟨hl, hi1, z, _, hext⟩ | ⟨hn, b, sm, sv, _, hib, hcase⟩
        · -- latched
          have e1 : s1.ext.latchTime = s.ext.latchTime := by rw [hext]
          have e2 : s1.ext.latchedElapsed = s.ext.latchedElapsed + dt := by rw [hext]
          have := IH (by rw [e2]; linarith) (by rw [hi1]; simp)
          rw [e1, e2, hi1] at this
          rw [hi1, hl.1]
          simp only [releases, backupTime, Bool.not_true, Bool.and_false, Bool.false_eq_true, if_false, if_true, zero_add] at this ⊢
          linarith
        · -- decided by the monitor
          have e1 : s1.ext.latchTime = s.ext.latchTime := by
            rcases hcase with ⟨_, z, _, hext⟩ | ⟨_, _, hext⟩ <;> rw [hext]
          have e2 : s1.ext.latchedElapsed = 0 := by
            have : elapsedAfter s = 0 := by
              cases hi : s.intervening with
              | true => simp [elapsedAfter, hi]
              | false => simp [elapsedAfter, hi, hinv hi]
            rcases hcase with ⟨_, z, _, hext⟩ | ⟨_, _, hext⟩ <;> rw [hext] <;> simpa using this
          have := IH e2.ge (fun _ => e2)
          rw [e1, e2] at this
          cases hi : s.intervening with
          | false =>
            cases hi1 : s1.intervening <;> rw [hi1] at this <;>
              simp [releases, backupTime] at this ⊢ <;> linarith
          | true =>
            have hexp : s.ext.latchTime ≤ s.ext.latchedElapsed := by
              by_contra hlt
              exact hn ⟨hi, not_le.1 hlt⟩
            cases hi1 : s1.intervening <;> rw [hi1] at this <;>
              simp [releases, backupTime, add_mul] at this ⊢ <;> linarith
  refine ⟨key, fun ht => ?_⟩
  have h1 : (handOvers false es : K) ≤ releases false es + 1 := by
    have := handOvers_le es (runSimplex_noreset hcalls h) false
    simp only [Bool.false_eq_true, if_false] at this
    exact_mod_cast this
  have h2 := backupTime_le_runTime hd hδ
  have h3 := mul_le_mul_of_nonneg_right h1 (add_nonneg ht hd)
  linarith

end
/-- `toySimplex` with latch time 2 and unit steps: two hand overs, one return, after three steps under backup control. -/
theorem dwell_run : (runSimplex (explicitMonitor toyPred)
      { toySimplex (-9) 9 with ext := { (toySimplex (-9) 9).ext with latchTime := 2 } }
      [.call 0 1 [2], .call 0 1 [9], .call 0 1 [9], .call 0 1 [9], .call 0 1 [2]]).map Prod.fst
    = some [.called 0 1 [0] true, .called 0 1 [0] true, .called 0 1 [0] true, .called 0 1 [9] false, .called 0 1 [0] true] := rfl

example : handOvers (K := Int) (S := Int) false
      [.called 0 1 [0] true, .called 0 1 [0] true, .called 0 1 [0] true, .called 0 1 [9] false, .called 0 1 [0] true] = 2 ∧
    releases (K := Int) (S := Int) false
      [.called 0 1 [0] true, .called 0 1 [0] true, .called 0 1 [0] true, .called 0 1 [9] false, .called 0 1 [0] true] = 1 ∧
    backupTime (K := Int) (S := Int)
      [.called 0 1 [0] true, .called 0 1 [0] true, .called 0 1 [0] true, .called 0 1 [9] false, .called 0 1 [0] true] = 4 := by
  refine ⟨rfl, rfl, ?_⟩
  norm_num [backupTime]

/-- C111 for that module and any calls with steps of at least 1, explicit. -/
example (ops : List (SOp Int Int)) (hc : onlyCalls ops) (es : List (SEvent Int Int)) (s' : SimplexObj Int Int Int Unit)
    (h : runSimplex (explicitMonitor toyPred)
      { toySimplex (-9) 9 with ext := { (toySimplex (-9) 9).ext with latchTime := 2 } } ops = some (es, s'))
    (hs : StepsAtLeast 1 es) : (releases false es : Int) * 3 ≤ backupTime es ∧ (handOvers false es : Int) * 3 ≤ runTime es + 3 := by
  obtain ⟨h1, h2⟩ := C111_dwell_partial (monFrame_explicit toyPred) ops hc _ s' rfl rfl rfl 1 (by norm_num) es h hs
  have e : (2 : Int) + 1 = 3 := by norm_num
  refine ⟨by rw [← e]; exact h1, ?_⟩
  have h2 : (handOvers false es : Int) * (2 + 1) ≤ runTime es + 2 + 1 := h2 (by norm_num)
  rw [← e]
  linarith

/-- C111 for the implicit module with a stateful backup law and latch time 4. -/
example (pred : Rat → Rat → List Rat → Rat) (ops : List (SOp Rat Rat)) (hc : onlyCalls ops) (es : List (SEvent Rat Rat))
    (s' : SimplexObj Rat Rat Rat Nat)
    (h : runSimplex (implicitMonitor pred) { toyImplicit with ext := { toyImplicit.ext with latchTime := 4 } } ops = some (es, s'))
    (hs : StepsAtLeast (1 / 2) es) : (releases false es : Rat) * (4 + 1 / 2) ≤ backupTime es :=
  (C111_dwell_partial (monFrame_implicit pred) ops hc _ s' rfl rfl rfl (1 / 2) (by norm_num) es h hs).1

/-- Without a latch (the default) the same module switches at every call. -/
example : (runSimplex (explicitMonitor toyPred) (toySimplex (-9) 9) [.call 0 1 [2], .call 0 1 [9], .call 0 1 [2], .call 0 1 [9]]).map Prod.fst
    = some [.called 0 1 [0] true, .called 0 1 [9] false, .called 0 1 [0] true, .called 0 1 [9] false] := rfl

/-- **C111 is violated** after a reset, because a reset keeps the elapsed latch time: reset one step into the latch, the module with latch time
2 and unit steps gives control back after two steps under backup control, where `latch_time + δ = 3`. -/
theorem C111_refuted_reset : ∃ before after : List (SEvent Int Int),
    (runSimplex (explicitMonitor toyPred) { toySimplex (-9) 9 with ext := { (toySimplex (-9) 9).ext with latchTime := 2 } }
      [.call 0 1 [2], .call 0 1 [9], .reset, .call 0 1 [2], .call 0 1 [9], .call 0 1 [9]]).map Prod.fst =
      some (before ++ .reset :: after) ∧
    StepsAtLeast 1 after ∧ backupTime after < (releases false after : Int) * (2 + 1) := by
  refine ⟨[.called 0 1 [0] true, .called 0 1 [0] true], [.called 0 1 [0] true, .called 0 1 [0] true, .called 0 1 [9] false], rfl, ?_, ?_⟩
  · intro e he x dt c i h
    subst h
    simp only [List.mem_cons, SEvent.called.injEq, List.not_mem_nil, or_false] at he
    rcases he with h | h | h <;> rw [h.2.1]
  · decide

end RTA
