import Verif.Spec.SampleTesting
import Mathlib.Algebra.Order.Field.Basic
import Mathlib.Tactic.Ring

/-! Lemmas on the loops of the sample testing modules. -/
namespace RTA

variable {K S P E R : Type}

/-- A sequence with a new first element. -/
def shift {α : Type} (a : α) (f : Nat → α) : Nat → α
  | 0 => a
  | n + 1 => f n

theorem Steps.cons {sim : Sim K S P E R} {r r1 : R} {x : S} {u : List K} {n : Nat} {xs : Nat → S} {us : Nat → List K} {rs : Nat → R}
    (hf : sim.filter r x sim.stepSize (sim.desired x) = (.ok u, r1)) (h : Steps sim r1 (sim.pred x sim.stepSize u) n xs us rs)
    (hus : us 0 = u) : Steps sim r x (n + 1) (shift x xs) (shift u us) (shift r rs) := by
  refine ⟨rfl, rfl, ?_, ?_⟩
  · intro i hi
    cases i with
    | zero => simpa [shift, h.module0, hus] using hf
    | succ i => exact h.filtered i (by omega)
  · intro i hi
    cases i with
    | zero => simp [shift, h.state0, hus]
    | succ i => exact h.moved i (by omega)

theorem Steps.congr_zero {sim : Sim K S P E R} {r : R} {x : S} {n : Nat} {xs : Nat → S} {us : Nat → List K} {rs : Nat → R}
    (h : Steps sim r x n xs us rs) (u : List K) : Steps sim r x n xs (shift u fun i => us (i + 1)) rs :=
  ⟨h.state0, h.module0, fun i hi => h.filtered i hi, fun i hi => h.moved i hi⟩

section loop
variable [Field K]

theorem episodeLoop_ok (sim : Sim K S P E R) : ∀ (fuel : Nat) (r : R) (x : S) (k : Nat) (t t' : Record K S) (r' : R),
    episodeLoop sim fuel r x (k * sim.stepSize) t = some (.ok t', r') →
    ∃ n xs us rs, 0 < n ∧ n ≤ fuel ∧ Steps sim r x n xs us rs ∧ rs n = r' ∧
      t'.states = t.states ++ (List.range n).map (fun i => xs (i + 1)) ∧
      t'.controls = t.controls ++ (List.range n).map (fun i => us (i + 1)) ∧
      t'.interventions = t.interventions ++ (List.range n).map (fun i => sim.intervening (rs (i + 1))) ∧
      (∀ i, 0 < i → i < n → sim.done (xs i) ((k + i : Nat) * sim.stepSize) = false) ∧
      sim.done (xs n) ((k + n : Nat) * sim.stepSize) = true := by
  intro fuel
  induction fuel with
  | zero => intro r x k t t' r' h; simp [episodeLoop] at h
  | succ fuel ih =>
    intro r x k t t' r' h
    rw [episodeLoop] at h
    rcases hf : sim.filter r x sim.stepSize (sim.desired x) with ⟨res, r1⟩
    rw [hf] at h
    cases res with
    | error e => simp at h
    | ok u =>
      have ht : (k : K) * sim.stepSize + sim.stepSize = ((k + 1 : Nat) : K) * sim.stepSize := by push_cast; ring
      simp only [ht] at h
      cases hd : sim.done (sim.pred x sim.stepSize u) (((k + 1 : Nat) : K) * sim.stepSize) with
      | true =>
        rw [if_pos hd] at h
        simp only [Option.some.injEq, Prod.mk.injEq, Except.ok.injEq] at h
        obtain ⟨rfl, rfl⟩ := h
        refine ⟨1, shift x fun _ => sim.pred x sim.stepSize u, fun _ => u, shift r fun _ => r1, by omega, by omega,
          ⟨rfl, rfl, ?_, ?_⟩, rfl, by simp [shift], by simp, by simp [shift], by omega, ?_⟩
        · intro i hi; obtain rfl : i = 0 := by omega
          exact hf
        · intro i hi; obtain rfl : i = 0 := by omega
          rfl
        · simpa [shift] using hd
      | false =>
        rw [if_neg (by rw [hd]; exact Bool.false_ne_true)] at h
        obtain ⟨n, xs, us, rs, hn, hle, hst, hr, h1, h2, h3, h4, h5⟩ := ih _ _ _ _ _ _ h
        refine ⟨n + 1, shift x xs, shift u (shift u fun i => us (i + 1)), shift r rs, by omega, by omega,
          Steps.cons hf (hst.congr_zero u) rfl, hr, ?_, ?_, ?_, ?_, ?_⟩
        · rw [h1, List.range_succ_eq_map]; simp [shift, hst.state0, Function.comp_def]
        · rw [h2, List.range_succ_eq_map]; simp [shift, Function.comp_def]
        · rw [h3, List.range_succ_eq_map]; simp [shift, hst.module0, Function.comp_def]
        · intro i h0 hi
          cases i with
          | zero => omega
          | succ i =>
            cases i with
            | zero => simpa [shift, hst.state0] using hd
            | succ i =>
              have := h4 (i + 1) (by omega) (by omega)
              rw [show k + 1 + (i + 1) = k + (i + 1 + 1) by omega] at this
              exact this
        · rw [show k + 1 + n = k + (n + 1) by omega] at h5
          exact h5

theorem episodeLoop_error (sim : Sim K S P E R) : ∀ (fuel : Nat) (r : R) (x : S) (k : Nat) (t : Record K S) (er : PyErr) (r' : R),
    episodeLoop sim fuel r x (k * sim.stepSize) t = some (.error er, r') →
    ∃ n xs us rs, Steps sim r x n xs us rs ∧ sim.filter (rs n) (xs n) sim.stepSize (sim.desired (xs n)) = (.error er, r') ∧
      ∀ i, 0 < i → i ≤ n → sim.done (xs i) ((k + i : Nat) * sim.stepSize) = false := by
  intro fuel
  induction fuel with
  | zero => intro r x k t er r' h; simp [episodeLoop] at h
  | succ fuel ih =>
    intro r x k t er r' h
    rw [episodeLoop] at h
    rcases hf : sim.filter r x sim.stepSize (sim.desired x) with ⟨res, r1⟩
    rw [hf] at h
    cases res with
    | error e =>
      simp only [Option.some.injEq, Prod.mk.injEq, Except.error.injEq] at h
      obtain ⟨rfl, rfl⟩ := h
      exact ⟨0, fun _ => x, fun _ => [], fun _ => r, ⟨rfl, rfl, by omega, by omega⟩, hf, by omega⟩
    | ok u =>
      have ht : (k : K) * sim.stepSize + sim.stepSize = ((k + 1 : Nat) : K) * sim.stepSize := by push_cast; ring
      simp only [ht] at h
      cases hd : sim.done (sim.pred x sim.stepSize u) (((k + 1 : Nat) : K) * sim.stepSize) with
      | true => rw [if_pos hd] at h; simp at h
      | false =>
        rw [if_neg (by rw [hd]; exact Bool.false_ne_true)] at h
        obtain ⟨n, xs, us, rs, hst, hr, h4⟩ := ih _ _ _ _ _ _ h
        refine ⟨n + 1, shift x xs, shift u (shift u fun i => us (i + 1)), shift r rs,
          Steps.cons hf (hst.congr_zero u) rfl, hr, ?_⟩
        intro i h0 hi
        cases i with
        | zero => omega
        | succ i =>
          cases i with
          | zero => simpa [shift, hst.state0] using hd
          | succ i =>
            have := h4 (i + 1) (by omega) (by omega)
            rw [show k + 1 + (i + 1) = k + (i + 1 + 1) by omega] at this
            exact this

/-- More iterations than needed change nothing. -/
theorem episodeLoop_mono (sim : Sim K S P E R) : ∀ (fuel m : Nat) (r : R) (x : S) (time : K) (t : Record K S) v,
    episodeLoop sim fuel r x time t = some v → episodeLoop sim (fuel + m) r x time t = some v := by
  intro fuel
  induction fuel with
  | zero => intro m r x time t v h; simp [episodeLoop] at h
  | succ fuel ih =>
    intro m r x time t v h
    rw [show fuel + 1 + m = (fuel + m) + 1 by omega, episodeLoop]
    rw [episodeLoop] at h
    rcases hf : sim.filter r x sim.stepSize (sim.desired x) with ⟨res, r1⟩
    rw [hf] at h
    cases res with
    | error e => exact h
    | ok u =>
      simp only at h ⊢
      split_ifs at h ⊢ with hd
      · exact h
      · exact ih m _ _ _ _ _ h

/-- If the done condition holds from step `k + fuel` on, `fuel` iterations from step `k` are enough. -/
theorem episodeLoop_terminates (sim : Sim K S P E R) : ∀ (fuel : Nat) (r : R) (x : S) (k : Nat) (t : Record K S),
    0 < fuel → (∀ x, sim.done x ((k + fuel : Nat) * sim.stepSize) = true) →
    ∃ v, episodeLoop sim fuel r x (k * sim.stepSize) t = some v := by
  intro fuel
  induction fuel with
  | zero => intro r x k t h0; omega
  | succ fuel ih =>
    intro r x k t _ hdone
    rw [episodeLoop]
    rcases hf : sim.filter r x sim.stepSize (sim.desired x) with ⟨res, r1⟩
    cases res with
    | error e => exact ⟨_, rfl⟩
    | ok u =>
      have ht : (k : K) * sim.stepSize + sim.stepSize = ((k + 1 : Nat) : K) * sim.stepSize := by push_cast; ring
      simp only [ht]
      split_ifs with hd
      · exact ⟨_, rfl⟩
      · have h0 : 0 < fuel := by
          rcases Nat.eq_zero_or_pos fuel with rfl | h
          · exact absurd (hdone _) hd
          · exact h
        exact ih _ _ (k + 1) _ h0 (fun x => by rw [show k + 1 + fuel = k + (fuel + 1) by omega]; exact hdone x)

end loop

section order
variable [Field K] [LinearOrder K]

theorem checkIfSafeState_iff (x : S) (cs : Dict (Constraint K S P)) :
    checkIfSafeState x cs = true ↔ ∀ p ∈ cs, 0 ≤ p.2.phiFn x p.2.params ∧ 0 ≤ p.2.compute x p.2.params := by
  induction cs with
  | nil => simp [checkIfSafeState]
  | cons p cs ih =>
    obtain ⟨nm, c⟩ := p
    rw [checkIfSafeState]
    split_ifs with h
    · simp only [List.mem_cons, forall_eq_or_imp, false_iff, not_and]
      intro h'
      rcases h with h | h
      · exact absurd h'.1 (not_le.2 h)
      · exact absurd h'.2 (not_le.2 h)
    · push Not at h
      simp only [List.mem_cons, forall_eq_or_imp]
      rw [ih]
      exact ⟨fun h' => ⟨h, h'⟩, fun h' => h'.2⟩

omit [Field K] [LinearOrder K] in
theorem Draws.cons {sim : Sim K S P E R} {e e1 : E} {x : S} {n : Nat} {xs : Nat → S} {es : Nat → E}
    (h0 : sim.getInitial e = (.ok x, e1)) (h : Draws sim e1 n xs es) : Draws sim e (n + 1) (shift x xs) (shift e es) := by
  refine ⟨rfl, ?_⟩
  intro i hi
  cases i with
  | zero => simpa [shift, h.source0] using h0
  | succ i => exact h.drawn i (by omega)

theorem sampleSafe_ok (sim : Sim K S P E R) (r : R) : ∀ (n : Nat) (e e' : E) (x : S), sampleSafe sim r n e = (.ok x, e') →
    ∃ j xs es, j < n ∧ Draws sim e (j + 1) xs es ∧ (∀ i < j, ¬ SafeState sim r (xs i)) ∧ SafeState sim r (xs j) ∧ x = xs j ∧
      e' = es (j + 1) := by
  intro n
  induction n with
  | zero => intro e e' x h; simp [sampleSafe] at h
  | succ n ih =>
    intro e e' x h
    rw [sampleSafe] at h
    rcases hg : sim.getInitial e with ⟨res, e1⟩
    rw [hg] at h
    cases res with
    | error er => simp at h
    | ok y =>
      simp only at h
      split_ifs at h with hs
      · simp only [Prod.mk.injEq, Except.ok.injEq] at h
        obtain ⟨rfl, rfl⟩ := h
        refine ⟨0, fun _ => y, shift e fun _ => e1, by omega, ⟨rfl, ?_⟩, by omega, (checkIfSafeState_iff _ _).1 hs, rfl, rfl⟩
        intro i hi; obtain rfl : i = 0 := by omega
        exact hg
      · obtain ⟨j, xs, es, hj, hd, hu, hsafe, rfl, rfl⟩ := ih _ _ _ h
        refine ⟨j + 1, shift y xs, shift e es, by omega, Draws.cons hg hd, ?_, hsafe, rfl, rfl⟩
        intro i hi
        cases i with
        | zero => exact fun h' => hs ((checkIfSafeState_iff _ _).2 h')
        | succ i => exact hu i (by omega)

theorem sampleSafe_error [Inhabited S] (sim : Sim K S P E R) (r : R) : ∀ (n : Nat) (e e' : E) (er : PyErr), sampleSafe sim r n e = (.error er, e') →
    (∃ msg xs es, er = .valueError msg ∧ Draws sim e n xs es ∧ (∀ i < n, ¬ SafeState sim r (xs i)) ∧ e' = es n) ∨
    (∃ j xs es, j < n ∧ Draws sim e j xs es ∧ (∀ i < j, ¬ SafeState sim r (xs i)) ∧ sim.getInitial (es j) = (.error er, e')) := by
  intro n
  induction n with
  | zero =>
    intro e e' er h
    simp only [sampleSafe, Prod.mk.injEq, Except.error.injEq] at h
    obtain ⟨rfl, rfl⟩ := h
    exact Or.inl ⟨_, fun _ => default, fun _ => e, rfl, ⟨rfl, by omega⟩, by omega, rfl⟩
  | succ n ih =>
    intro e e' er h
    rw [sampleSafe] at h
    rcases hg : sim.getInitial e with ⟨res, e1⟩
    rw [hg] at h
    cases res with
    | error er =>
      simp only [Prod.mk.injEq, Except.error.injEq] at h
      obtain ⟨rfl, rfl⟩ := h
      exact Or.inr ⟨0, fun _ => default, fun _ => e, by omega, ⟨rfl, by omega⟩, by omega, hg⟩
    | ok y =>
      simp only at h
      split_ifs at h with hs
      · cases h
      rcases ih _ _ _ h with ⟨msg, xs, es, he, hd, hu, rfl⟩ | ⟨j, xs, es, hj, hd, hu, hg'⟩
      · refine Or.inl ⟨msg, shift y xs, shift e es, he, Draws.cons hg hd, ?_, rfl⟩
        intro i hi
        cases i with
        | zero => exact fun h' => hs ((checkIfSafeState_iff _ _).2 h')
        | succ i => exact hu i (by omega)
      · refine Or.inr ⟨j + 1, shift y xs, shift e es, by omega, Draws.cons hg hd, ?_, hg'⟩
        intro i hi
        cases i with
        | zero => exact fun h' => hs ((checkIfSafeState_iff _ _).2 h')
        | succ i => exact hu i (by omega)

/-- If one of the first `n` draws is safe, the first safe one is returned. -/
theorem sampleSafe_complete (sim : Sim K S P E R) (r : R) : ∀ (n j : Nat) (e : E) (xs : Nat → S) (es : Nat → E), j < n →
    Draws sim e (j + 1) xs es → (∀ i < j, ¬ SafeState sim r (xs i)) → SafeState sim r (xs j) →
    sampleSafe sim r n e = (.ok (xs j), es (j + 1)) := by
  intro n
  induction n with
  | zero => intro j e xs es hj; omega
  | succ n ih =>
    intro j e xs es hj hd hu hs
    have h0 := hd.drawn 0 (by omega)
    rw [hd.source0] at h0
    rw [sampleSafe, h0]
    cases j with
    | zero => exact if_pos ((checkIfSafeState_iff _ _).2 hs)
    | succ j =>
      refine (if_neg fun h => hu 0 (by omega) ((checkIfSafeState_iff _ _).1 h)).trans ?_
      exact ih j (es 1) (fun i => xs (i + 1)) (fun i => es (i + 1)) (by omega)
        ⟨rfl, fun i hi => hd.drawn (i + 1) (by omega)⟩ (fun i hi => hu (i + 1) (by omega)) hs

theorem sampleSafe_giveUp (sim : Sim K S P E R) (r : R) : ∀ (n : Nat) (e : E) (xs : Nat → S) (es : Nat → E),
    Draws sim e n xs es → (∀ i < n, ¬ SafeState sim r (xs i)) →
    ∃ msg, sampleSafe sim r n e = (.error (.valueError msg), es n) := by
  intro n
  induction n with
  | zero => intro e xs es hd _; rw [hd.source0]; exact ⟨_, rfl⟩
  | succ n ih =>
    intro e xs es hd hu
    have h0 := hd.drawn 0 (by omega)
    rw [hd.source0] at h0
    rw [sampleSafe, h0]
    obtain ⟨msg, hm⟩ := ih (es 1) (fun i => xs (i + 1)) (fun i => es (i + 1)) ⟨rfl, fun i hi => hd.drawn (i + 1) (by omega)⟩
      (fun i hi => hu (i + 1) (by omega))
    exact ⟨msg, (if_neg fun h => hu 0 (by omega) ((checkIfSafeState_iff _ _).1 h)).trans hm⟩

/-! ### Safety assurance -/

theorem initialUnsafe_eq {sim : Sim K S P E R} {phi val : Constraint K S P → S → K} (h1 : OneArgument sim phi val) (x : S)
    (cs : Dict (Constraint K S P)) :
    ∃ b, initialUnsafe sim x cs = .ok b ∧ (b = false ↔ ∀ p ∈ cs, 0 ≤ phi p.2 x ∧ 0 ≤ val p.2 x) := by
  induction cs with
  | nil => exact ⟨false, rfl, by simp⟩
  | cons p cs ih =>
    obtain ⟨nm, c⟩ := p
    rw [initialUnsafe, h1.phi]
    simp only
    split_ifs with h
    · refine ⟨true, rfl, ?_⟩
      simp only [List.mem_cons, forall_eq_or_imp]
      exact ⟨fun h' => by simp at h', fun h' => absurd h'.1.1 (not_le.2 h)⟩
    · rw [h1.val]
      simp only
      split_ifs with h'
      · refine ⟨true, rfl, ?_⟩
        simp only [List.mem_cons, forall_eq_or_imp]
        exact ⟨fun h' => by simp at h', fun h'' => absurd h''.1.2 (not_le.2 h')⟩
      · obtain ⟨b, hb, hiff⟩ := ih
        refine ⟨b, hb, hiff.trans ?_⟩
        simp only [List.mem_cons, forall_eq_or_imp]
        exact ⟨fun h'' => ⟨⟨not_lt.1 h, not_lt.1 h'⟩, h''⟩, fun h'' => h''.2⟩

theorem stepUnsafe_eq {sim : Sim K S P E R} {phi val : Constraint K S P → S → K} (h1 : OneArgument sim phi val) (x : S)
    (cs : Dict (Constraint K S P)) :
    ∃ b, stepUnsafe sim x cs = .ok b ∧ (b = true ↔ ∃ p ∈ cs, phi p.2 x < 0) := by
  induction cs with
  | nil => exact ⟨false, rfl, by simp⟩
  | cons p cs ih =>
    obtain ⟨nm, c⟩ := p
    rw [stepUnsafe, h1.phi]
    simp only
    split_ifs with h
    · exact ⟨true, rfl, by simp [h]⟩
    · obtain ⟨b, hb, hiff⟩ := ih
      refine ⟨b, hb, hiff.trans ?_⟩
      simp [h]

theorem assureLoop_ok {sim : Sim K S P E R} {phi val : Constraint K S P → S → K} (h1 : OneArgument sim phi val) :
    ∀ (fuel : Nat) (r : R) (x : S) (k : Nat) (b : Bool) (r' : R),
    assureLoop sim fuel r x (k * sim.stepSize) = some (.ok b, r') →
    (b = true ∧ ∃ n xs us rs, 0 < n ∧ Steps sim r x n xs us rs ∧ rs n = r' ∧
      (∀ i, 0 < i → i < n → sim.done (xs i) ((k + i : Nat) * sim.stepSize) = false) ∧
      sim.done (xs n) ((k + n : Nat) * sim.stepSize) = true ∧
      ∀ i, 0 < i → i ≤ n → ∀ p ∈ sim.constraints (rs i), 0 ≤ phi p.2 (xs i)) ∨
    (b = false ∧ ∃ n xs us rs, Steps sim r x n xs us rs ∧
      (∀ i, 0 < i → i ≤ n → sim.done (xs i) ((k + i : Nat) * sim.stepSize) = false) ∧
      (∀ i, 0 < i → i ≤ n → ∀ p ∈ sim.constraints (rs i), 0 ≤ phi p.2 (xs i)) ∧
      (sim.filter (rs n) (xs n) sim.stepSize (sim.desired (xs n)) = (.error .solverError, r') ∨
        ∃ u, sim.filter (rs n) (xs n) sim.stepSize (sim.desired (xs n)) = (.ok u, r') ∧
          ∃ p ∈ sim.constraints r', phi p.2 (sim.pred (xs n) sim.stepSize u) < 0)) := by
  intro fuel
  induction fuel with
  | zero => intro r x k b r' h; simp [assureLoop] at h
  | succ fuel ih =>
    intro r x k b r' h
    rw [assureLoop] at h
    rcases hf : sim.filter r x sim.stepSize (sim.desired x) with ⟨res, r1⟩
    rw [hf] at h
    cases res with
    | error e =>
      simp only at h
      split_ifs at h with he
      · simp only [Option.some.injEq, Prod.mk.injEq, Except.ok.injEq] at h
        obtain ⟨rfl, rfl⟩ := h
        subst he
        exact Or.inr ⟨rfl, 0, fun _ => x, fun _ => [], fun _ => r, ⟨rfl, rfl, by omega, by omega⟩, by omega, by omega, Or.inl hf⟩
      · simp at h
    | ok u =>
      have ht : (k : K) * sim.stepSize + sim.stepSize = ((k + 1 : Nat) : K) * sim.stepSize := by push_cast; ring
      simp only [ht] at h
      obtain ⟨ub, hub, hiff⟩ := stepUnsafe_eq h1 (sim.pred x sim.stepSize u) (sim.constraints r1)
      rw [hub] at h
      cases ub with
      | true =>
        simp only [Option.some.injEq, Prod.mk.injEq, Except.ok.injEq] at h
        obtain ⟨rfl, rfl⟩ := h
        exact Or.inr ⟨rfl, 0, fun _ => x, fun _ => [], fun _ => r, ⟨rfl, rfl, by omega, by omega⟩, by omega, by omega,
          Or.inr ⟨u, hf, hiff.1 rfl⟩⟩
      | false =>
        have hsafe : ∀ p ∈ sim.constraints r1, 0 ≤ phi p.2 (sim.pred x sim.stepSize u) := fun p hp =>
          not_lt.1 fun hlt => Bool.false_ne_true (hiff.2 ⟨p, hp, hlt⟩)
        simp only at h
        cases hd : sim.done (sim.pred x sim.stepSize u) (((k + 1 : Nat) : K) * sim.stepSize) with
        | true =>
          rw [if_pos hd] at h
          simp only [Option.some.injEq, Prod.mk.injEq, Except.ok.injEq] at h
          obtain ⟨rfl, rfl⟩ := h
          refine Or.inl ⟨rfl, 1, shift x fun _ => sim.pred x sim.stepSize u, fun _ => u, shift r fun _ => r1, by omega,
            ⟨rfl, rfl, ?_, ?_⟩, rfl, by omega, hd, ?_⟩
          · intro i hi; obtain rfl : i = 0 := by omega
            exact hf
          · intro i hi; obtain rfl : i = 0 := by omega
            rfl
          · intro i h0 hi; obtain rfl : i = 1 := by omega
            exact hsafe
        | false =>
          rw [if_neg (by rw [hd]; exact Bool.false_ne_true)] at h
          rcases ih _ _ _ _ _ h with ⟨rfl, n, xs, us, rs, hn, hst, hr, h4, h5, h6⟩ | ⟨rfl, n, xs, us, rs, hst, h4, h6, h7⟩
          · refine Or.inl ⟨rfl, n + 1, shift x xs, shift u (shift u fun i => us (i + 1)), shift r rs, by omega,
              Steps.cons hf (hst.congr_zero u) rfl, hr, ?_, ?_, ?_⟩
            · intro i h0 hi
              cases i with
              | zero => omega
              | succ i =>
                cases i with
                | zero => simpa [shift, hst.state0] using hd
                | succ i =>
                  have := h4 (i + 1) (by omega) (by omega)
                  rw [show k + 1 + (i + 1) = k + (i + 1 + 1) by omega] at this
                  exact this
            · rw [show k + 1 + n = k + (n + 1) by omega] at h5
              exact h5
            · intro i h0 hi
              cases i with
              | zero => omega
              | succ i =>
                cases i with
                | zero => simpa [shift, hst.state0, hst.module0] using hsafe
                | succ i => exact h6 (i + 1) (by omega) (by omega)
          · refine Or.inr ⟨rfl, n + 1, shift x xs, shift u (shift u fun i => us (i + 1)), shift r rs,
              Steps.cons hf (hst.congr_zero u) rfl, ?_, ?_, h7⟩
            · intro i h0 hi
              cases i with
              | zero => omega
              | succ i =>
                cases i with
                | zero => simpa [shift, hst.state0] using hd
                | succ i =>
                  have := h4 (i + 1) (by omega) (by omega)
                  rw [show k + 1 + (i + 1) = k + (i + 1 + 1) by omega] at this
                  exact this
            · intro i h0 hi
              cases i with
              | zero => omega
              | succ i =>
                cases i with
                | zero => simpa [shift, hst.state0, hst.module0] using hsafe
                | succ i => exact h6 (i + 1) (by omega) (by omega)

end order

end RTA
