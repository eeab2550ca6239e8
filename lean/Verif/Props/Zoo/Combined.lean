import Verif.Model.Zoo.Combined
import Mathlib.Data.List.Perm.Basic
import Mathlib.Algebra.Order.Ring.Rat

/-!
C50: the combined module treats every agent as the deputy of interest. C51: completion of short states. C59: independence of
separately constructed combined modules.
-/
namespace RTA
variable {K M : Type}

/-! ### The reordered state -/

theorem flatten_take (blocks : List (List K)) (h : ∀ b ∈ blocks, b.length = 6) (tail : List K) (i : Nat) (hi : i ≤ blocks.length) :
    (blocks.flatten ++ tail).take (6 * i) = (blocks.take i).flatten ∧
    (blocks.flatten ++ tail).drop (6 * i) = (blocks.drop i).flatten ++ tail := by
  induction blocks generalizing i with
  | nil =>
    obtain rfl : i = 0 := by simpa using hi
    simp
  | cons b bs ih =>
    cases i with
    | zero => simp
    | succ i =>
      have hb := h b List.mem_cons_self
      obtain ⟨h1, h2⟩ := ih (fun c hc => h c (List.mem_cons_of_mem _ hc)) i (by simpa using hi)
      have e : 6 * (i + 1) = b.length + 6 * i := by omega
      rw [List.flatten_cons, List.append_assoc, e, List.take_append, List.drop_append]
      rw [List.take_of_length_le (show b.length ≤ b.length + 6 * i by omega)]
      simp [h1, h2]

/-- **C50.** The state handed to the filter of agent `i`: its own six components first, then those of all other agents in their order,
then whatever follows them in the state (the sun angle). -/
theorem C50_agent_state {blocks : List (List K)} (h : ∀ b ∈ blocks, b.length = 6) (tail : List K) {i : Nat} (hi : i < blocks.length) :
    agentState (blocks.flatten ++ tail) i = blocks[i] ++ (blocks.eraseIdx i).flatten ++ tail := by
  unfold agentState pySlice
  obtain ⟨h1, h2⟩ := flatten_take blocks h tail i hi.le
  obtain ⟨-, h4⟩ := flatten_take blocks h tail (i + 1) hi
  have e : 6 * i + 6 = 6 * (i + 1) := by omega
  rw [e, h4, h2, h1, show 6 * (i + 1) - 6 * i = 6 by omega, List.eraseIdx_eq_take_drop_succ]
  have hd : blocks.drop i = blocks[i] :: blocks.drop (i + 1) := List.drop_eq_getElem_cons hi
  have hb : blocks[i].length = 6 := h _ (List.getElem_mem hi)
  rw [hd, List.flatten_cons, List.append_assoc, ← hb, List.take_left]
  simp [List.flatten_append]

/-- **C50.** Every agent appears exactly once in it: the sequence of agents is a rearrangement of the original one. -/
theorem C50_each_agent_once {blocks : List (List K)} {i : Nat} (hi : i < blocks.length) :
    (blocks[i] :: blocks.eraseIdx i).Perm blocks := by
  rw [List.eraseIdx_eq_take_drop_succ]
  have : blocks = blocks.take i ++ blocks[i] :: blocks.drop (i + 1) := by
    rw [← List.drop_eq_getElem_cons hi, List.take_append_drop]
  conv_rhs => rw [this]
  exact List.perm_middle.symm

/-! ### The loop -/

theorem assignBlock_spec {uAct r v : List K} {i k : Nat} (hi : i < k) (hl : uAct.length = 3 * k) (h : assignBlock uAct i r = .ok v) :
    v.length = 3 * k ∧ (∀ j, j ≠ i → pySlice v (3 * j) (3 * j + 3) = pySlice uAct (3 * j) (3 * j + 3)) ∧
    (r.length = 3 → pySlice v (3 * i) (3 * i + 3) = r) ∧ (∀ a, r = [a] → pySlice v (3 * i) (3 * i + 3) = [a, a, a]) ∧
    (r.length = 3 ∨ r.length = 1) := by
  have key : ∀ a b c : K, v = uAct.take (3 * i) ++ [a, b, c] ++ uAct.drop (3 * i + 3) →
      v.length = 3 * k ∧ (∀ j, j ≠ i → pySlice v (3 * j) (3 * j + 3) = pySlice uAct (3 * j) (3 * j + 3)) ∧
      pySlice v (3 * i) (3 * i + 3) = [a, b, c] := by
    intro a b c hv
    have ht : (uAct.take (3 * i)).length = 3 * i := by rw [List.length_take]; omega
    refine ⟨?_, fun j hj => ?_, ?_⟩
    · rw [hv]; simp; omega
    · apply List.ext_getElem?
      intro q
      simp only [pySlice, hv]
      by_cases hq : q < 3
      · rw [List.getElem?_take_of_lt (by omega), List.getElem?_take_of_lt (by omega), List.getElem?_drop, List.getElem?_drop]
        rcases Nat.lt_or_gt_of_ne hj with hlt | hgt
        · rw [List.append_assoc, List.getElem?_append_left (by rw [ht]; omega), List.getElem?_take_of_lt (by omega)]
        · rw [List.getElem?_append_right (by simp [ht]; omega), List.getElem?_drop]
          congr 1
          simp [ht]; omega
      · rw [List.getElem?_eq_none (by simp; omega), List.getElem?_eq_none (by simp; omega)]
    · rw [hv]
      unfold pySlice
      have h1 : List.drop (3 * i) (uAct.take (3 * i) ++ [a, b, c] ++ uAct.drop (3 * i + 3)) =
          [a, b, c] ++ uAct.drop (3 * i + 3) := by
        rw [List.append_assoc]
        conv_lhs => rw [← ht]
        rw [ht, List.drop_append, ht]
        simp
      rw [h1, show 3 * i + 3 - 3 * i = 3 by omega]
      rfl
  unfold assignBlock at h
  split at h
  · obtain ⟨h1, h2, h3⟩ := key _ _ _ (Except.ok.inj h).symm
    exact ⟨h1, h2, fun _ => h3, fun a ha => by simp at ha, Or.inl rfl⟩
  · obtain ⟨h1, h2, h3⟩ := key _ _ _ (Except.ok.inj h).symm
    exact ⟨h1, h2, fun hr => by simp at hr, fun a ha => by simp only [List.cons.injEq, and_true] at ha; rw [← ha]; exact h3, Or.inr rfl⟩
  · cases h

/-- What the first `k` iterations did. -/
theorem combinedLoop_spec {filter : M → List K → K → List K → Except PyErr (List K) × M} {state : List K} {dt : K} {u : List K}
    {rta : M} {uAct : List K} {N : Nat} (hl : uAct.length = 3 * N) {k : Nat} (hk : k ≤ N) {v : List K} {rta' : M}
    (h : combinedLoop filter state dt u rta uAct k = (.ok v, rta')) :
    v.length = 3 * N ∧ ∃ ms : List M, ms.length = k + 1 ∧ ms[0]? = some rta ∧ ms[k]? = some rta' ∧
      ∀ i, i < k → ∃ m m' r, ms[i]? = some m ∧ ms[i + 1]? = some m' ∧
        filter m (agentState state i) dt (pySlice u (3 * i) (3 * i + 3)) = (.ok r, m') ∧
        (r.length = 3 ∧ pySlice v (3 * i) (3 * i + 3) = r ∨ ∃ a, r = [a] ∧ pySlice v (3 * i) (3 * i + 3) = [a, a, a]) := by
  induction k generalizing v rta' with
  | zero =>
    simp only [combinedLoop, Prod.mk.injEq, Except.ok.injEq] at h
    obtain ⟨rfl, rfl⟩ := h
    exact ⟨hl, [rta], rfl, rfl, rfl, fun i hi => absurd hi (Nat.not_lt_zero _)⟩
  | succ k ih =>
    rw [combinedLoop] at h
    rcases hp : combinedLoop filter state dt u rta uAct k with ⟨e | w, m1⟩
    · rw [hp] at h; simp at h
    rw [hp] at h
    simp only at h
    rcases hf : filter m1 (agentState state k) dt (pySlice u (3 * k) (3 * k + 3)) with ⟨e | r, m2⟩
    · rw [hf] at h; simp at h
    rw [hf] at h
    simp only [Prod.mk.injEq] at h
    obtain ⟨ha, rfl⟩ := h
    obtain ⟨hwl, ms, hml, hm0, hmk, hms⟩ := ih (by omega) hp
    obtain ⟨h1, h2, h3, h4, h5⟩ := assignBlock_spec (show k < N by omega) hwl ha
    refine ⟨h1, ms ++ [m2], by simp [hml], ?_, ?_, ?_⟩
    · rw [List.getElem?_append_left (by omega)]; exact hm0
    · rw [List.getElem?_append_right (by omega), hml]; simp
    · intro i hi
      rcases Nat.lt_or_ge i k with hlt | hge
      · obtain ⟨m, m', r', e1, e2, e3, e4⟩ := hms i hlt
        refine ⟨m, m', r', ?_, ?_, e3, ?_⟩
        · rw [List.getElem?_append_left (by omega)]; exact e1
        · rw [List.getElem?_append_left (by omega)]; exact e2
        · rw [h2 i (by omega)]; exact e4
      · obtain rfl : i = k := by omega
        refine ⟨m1, m2, r, ?_, ?_, hf, ?_⟩
        · rw [List.getElem?_append_left (by omega)]; exact hmk
        · rw [List.getElem?_append_right (by omega), hml]; simp
        · rcases h5 with h5 | h5
          · exact Or.inl ⟨h5, h3 h5⟩
          · obtain ⟨a, rfl⟩ := List.length_eq_one_iff.1 h5
            exact Or.inr ⟨a, rfl, h4 a rfl⟩

/-- **C50.** A successful computation of the combined module returns one block of three components per agent. Block `i` is the answer of
the deputy filter for the state reordered for agent `i` and block `i` of the desired control. The deputy module is called for
the agents in order, each call starting from the object the previous one left. -/
theorem C50_blocks [Zero K] {filter : M → List K → K → List K → Except PyErr (List K) × M} {s s' : CombinedObj K M} {state : List K}
    {dt : K} {u v : List K} (h : combinedCompute filter s state dt u = (.ok v, s'))
    (h3 : ∀ m x d r m', filter m x dt d = (.ok r, m') → r.length = 3) :
    v.length = 3 * s.numDeputies ∧ s'.numDeputies = s.numDeputies ∧
    ∃ ms : List M, ms.length = s.numDeputies + 1 ∧ ms[0]? = some s.deputyRta ∧ ms[s.numDeputies]? = some s'.deputyRta ∧
      ∀ i, i < s.numDeputies → ∃ m m', ms[i]? = some m ∧ ms[i + 1]? = some m' ∧
        filter m (agentState state i) dt (pySlice u (3 * i) (3 * i + 3)) = (.ok (pySlice v (3 * i) (3 * i + 3)), m') := by
  unfold combinedCompute at h
  simp only [Prod.mk.injEq] at h
  obtain ⟨hv, rfl⟩ := h
  rcases hr : combinedLoop filter state dt u s.deputyRta (zeros (s.numDeputies * 3)) s.numDeputies with ⟨res, m⟩
  rw [hr] at hv
  simp only at hv
  subst hv
  obtain ⟨h1, ms, h2, h4, h5, h6⟩ := combinedLoop_spec (N := s.numDeputies) (by simp [zeros]; omega) (Nat.le_refl _) hr
  refine ⟨h1, rfl, ms, h2, h4, by simpa using h5, fun i hi => ?_⟩
  obtain ⟨m, m', r, e1, e2, e3, e4⟩ := h6 i hi
  have hl := h3 _ _ _ _ _ e3
  refine ⟨m, m', e1, e2, ?_⟩
  rcases e4 with ⟨-, e⟩ | ⟨a, rfl, -⟩
  · rw [e]; exact e3
  · simp at hl

/-- **C50.** The computation fails only when a call of the deputy module fails or returns something that does not fit in the block. -/
theorem C50_error_source [Zero K] {filter : M → List K → K → List K → Except PyErr (List K) × M} {s s' : CombinedObj K M} {state : List K}
    {dt : K} {u : List K} {e : PyErr} (h : combinedCompute filter s state dt u = (.error e, s'))
    (h3 : ∀ m x d r m', filter m x dt d = (.ok r, m') → r.length = 3) :
    ∃ i m m', i < s.numDeputies ∧ filter m (agentState state i) dt (pySlice u (3 * i) (3 * i + 3)) = (.error e, m') := by
  have key : ∀ k (rta : M) (uAct : List K) e rta', combinedLoop filter state dt u rta uAct k = (.error e, rta') →
      ∃ i m m', i < k ∧ filter m (agentState state i) dt (pySlice u (3 * i) (3 * i + 3)) = (.error e, m') := by
    intro k rta uAct
    induction k with
    | zero => intro e rta' h; simp [combinedLoop] at h
    | succ k ih =>
      intro e rta' h
      rw [combinedLoop] at h
      rcases hp : combinedLoop filter state dt u rta uAct k with ⟨e1 | w, m1⟩
      · rw [hp] at h
        simp only [Prod.mk.injEq, Except.error.injEq] at h
        obtain ⟨rfl, rfl⟩ := h
        obtain ⟨i, m, m', hi, hf⟩ := ih _ _ hp
        exact ⟨i, m, m', by omega, hf⟩
      rw [hp] at h
      simp only at h
      rcases hf : filter m1 (agentState state k) dt (pySlice u (3 * k) (3 * k + 3)) with ⟨e2 | r, m2⟩
      · rw [hf] at h
        simp only [Prod.mk.injEq, Except.error.injEq] at h
        obtain ⟨rfl, rfl⟩ := h
        exact ⟨k, m1, m2, by omega, hf⟩
      · rw [hf] at h
        simp only [Prod.mk.injEq] at h
        have hl := h3 _ _ _ _ _ hf
        obtain ⟨a, b, c, rfl⟩ := List.length_eq_three.1 hl
        simp [assignBlock] at h
  unfold combinedCompute at h
  simp only [Prod.mk.injEq] at h
  obtain ⟨hv, -⟩ := h
  exact key _ _ _ e _ (Prod.ext hv rfl)

/-- **C50.** Calls never change the combined module's own `intervening` flag, whatever the deputies' filters do. -/
theorem C50_intervening_unchanged [Zero K] [Max K] [Min K] {filter : M → List K → K → List K → Except PyErr (List K) × M}
    (s : CombinedObj K M) (state : List K) (dt : K) (u : List K) :
    (combinedFilter filter s state dt u).2.intervening = s.intervening := by
  obtain ⟨⟨hi, lo, en, iv, cd, ca⟩, N, m⟩ := s
  unfold combinedFilter filterControl
  cases en
  · simp [modifyBase, HasBase.get, HasBase.set]
  · simp only [modifyBase, HasBase.get, HasBase.set, if_true, combinedCompute]
    rcases combinedLoop filter state dt u m (zeros (N * 3)) N with ⟨e | v, m'⟩
    · rfl
    · simp only
      split <;> rfl

/-- A deputy filter that brings every component to zero and sets its flag. -/
def zeroFilter (m : Base ℚ) (_ : List ℚ) (_ : ℚ) (u : List ℚ) : Except PyErr (List ℚ) × Base ℚ :=
  (.ok (u.map fun _ => 0), { m with intervening := true })

/-- **C50, the last part is false**: a new combined module of two agents whose deputy filter changes the control of every agent (and
whose deputy module reports intervening) applies the changed controls and reports that it is not intervening. -/
theorem C50_refuted_intervening :
    let s : CombinedObj ℚ (Base ℚ) := combinedInit none none 2 (Base.init none none)
    let r := combinedFilter zeroFilter s (List.replicate 12 1) 1 [1, 1, 1, 1, 1, 1]
    r.1 = .ok [0, 0, 0, 0, 0, 0] ∧ r.2.deputyRta.intervening = true ∧ r.2.intervening = false := by decide +kernel

/-- Example of C50 with two agents and a sun angle. -/
example : agentState [1, 2, 3, 4, 5, 6, 11, 12, 13, 14, 15, 16, (99 : ℚ)] 1 = [11, 12, 13, 14, 15, 16, 1, 2, 3, 4, 5, 6, 99] := by
  decide +kernel

/-! ### C59 -/

/-- A deputy filter that counts its calls in the first component of its (single-number) state and passes controls on until it has been
called twice; then it returns zeros. -/
def countingFilter (m : Nat) (_ : List ℚ) (_ : ℚ) (u : List ℚ) : Except PyErr (List ℚ) × Nat :=
  (.ok (if m < 1 then u else u.map fun _ => 0), m + 1)

/-- **C59 holds when each module is given its own deputy module**: a call of one combined module leaves alone what another one, with a
different deputy module, sees. -/
theorem C59_explicit_independent [Zero K] [Max K] [Min K] {filter : M → List K → K → List K → Except PyErr (List K) × M}
    {a b : CombinedRef K} (h : a.deputyRef ≠ b.deputyRef) (store : List M) (x y : List K) (dt dt' : K) (u w : List K) :
    (combinedRefFilter filter b (combinedRefFilter filter a store x dt u).2.2 y dt' w).1 = (combinedRefFilter filter b store y dt' w).1 := by
  have hst : ((combinedRefFilter filter a store x dt u).2.2)[b.deputyRef]? = store[b.deputyRef]? := by
    unfold combinedRefFilter
    cases store[a.deputyRef]? with
    | none => rfl
    | some m => simp only [List.getElem?_set_ne h]
  generalize (combinedRefFilter filter a store x dt u).2.2 = st at hst
  unfold combinedRefFilter
  rw [hst]
  cases store[b.deputyRef]? <;> rfl

/-- **C59 is false with the default deputy module**: two combined modules created without the argument `deputy_rta` share one deputy
object, so using the first changes what the second does. -/
theorem C59_refuted_shared_default :
    let a : CombinedRef ℚ := combinedRefInit none none 1 none
    let b : CombinedRef ℚ := combinedRefInit none none 1 none
    let store : List Nat := [0]
    let x : List ℚ := [1, 2, 3, 4, 5, 6]
    (combinedRefFilter countingFilter b store x 1 [1, 1, 1]).1 = .ok [1, 1, 1] ∧
    (combinedRefFilter countingFilter b (combinedRefFilter countingFilter a store x 1 [1, 1, 1]).2.2 x 1 [1, 1, 1]).1 =
      .ok [0, 0, 0] := by decide +kernel

/-! ### C51 -/

/-- **C51, the parts that hold (single-deputy module)**: a state of the six positions and velocities is completed to the full
eight components, and a full-length state is taken as it is without changing the module. -/
theorem C51_complete_partial [Zero K] (sunVel : K) (inp : List K) :
    (inp.length = 6 → (getState1v1 sunVel inp).1.length = 8 ∧ (getState1v1 sunVel inp).1.take 6 = inp) ∧
    (8 ≤ inp.length → getState1v1 sunVel inp = (inp, sunVel)) := by
  unfold getState1v1
  constructor
  · intro h
    rw [if_pos (by omega)]
    refine ⟨by simp [h], ?_⟩
    simp [← h]
  · intro h
    rw [if_neg (by omega)]

/-- **C51, the parts that hold (multi-deputy module)**. -/
theorem C51_complete_multi_partial [Zero K] (N : Nat) (sunVel : K) (inp : List K) :
    (inp.length = 6 * N → (getState3d N sunVel inp).1.length = 6 * N + 1 ∧ (getState3d N sunVel inp).1.take (6 * N) = inp) ∧
    (6 * N + 1 ≤ inp.length → getState3d N sunVel inp = (inp, sunVel)) := by
  unfold getState3d
  constructor
  · intro h
    rw [if_pos (by omega)]
    refine ⟨by simp [h], ?_⟩
    simp [← h]
  · intro h
    rw [if_neg (by omega)]

/-- **C51**: sequences without short states do not change the module, and every state is seen as given. -/
theorem C51_no_short_states_partial [Zero K] (sunVel : K) (inps : List (List K)) (h : ∀ x ∈ inps, 8 ≤ x.length) :
    statesSeen getState1v1 sunVel inps = inps.map fun x => (x, sunVel) := by
  induction inps with
  | nil => rfl
  | cons x rest ih =>
    have hx := (C51_complete_partial sunVel x).2 (h x List.mem_cons_self)
    simp only [statesSeen, List.map_cons, hx]
    rw [ih fun y hy => h y (List.mem_cons_of_mem _ hy)]

/-- **C51 is false, lasting effect**: after one short state every later state, also of full length, is treated with a sun that does not
move, whatever sun velocity the module was created with. -/
theorem C51_refuted_lasting_effect [Zero K] (sunVel : K) (short : List K) (hs : short.length < 8) (rest : List (List K)) :
    ∀ r ∈ statesSeen getState1v1 sunVel (short :: rest), r.2 = 0 := by
  have key : ∀ (l : List (List K)) (v : K), v = 0 → ∀ r ∈ statesSeen getState1v1 v l, r.2 = 0 := by
    intro l
    induction l with
    | nil => intro v _ r hr; simp [statesSeen] at hr
    | cons x l ih =>
      intro v hv r hr
      have h0 : (getState1v1 v x).2 = 0 := by unfold getState1v1; split_ifs <;> simp [hv]
      rcases List.mem_cons.1 hr with rfl | hr
      · exact h0
      · exact ih _ h0 r hr
  intro r hr
  have h0 : (getState1v1 sunVel short).2 = 0 := by unfold getState1v1; rw [if_pos hs]
  rcases List.mem_cons.1 hr with rfl | hr
  · exact h0
  · exact key _ _ h0 r hr

/-- **C51 is false, lasting effect**, on the second, full-length, state of a sequence: with and without a preceding short state. -/
theorem C51_refuted_sequence :
    statesSeen getState1v1 (1 : ℚ) [[1, 2, 3, 4, 5, 6], [1, 2, 3, 4, 5, 6, 7, 8]] ≠
      [((getState1v1 (1 : ℚ) [1, 2, 3, 4, 5, 6]).1, (getState1v1 (1 : ℚ) [1, 2, 3, 4, 5, 6]).2),
       getState1v1 (1 : ℚ) [1, 2, 3, 4, 5, 6, 7, 8]] := by decide +kernel

/-- **C51 is false, length**: a state with a sun angle but without fuel (seven components) becomes nine components long, and the states of
any other short length are not completed to eight either. -/
theorem C51_refuted_length [Zero K] (sunVel : K) (inp : List K) (h : inp.length < 8) :
    (getState1v1 sunVel inp).1.length = 8 ↔ inp.length = 6 := by
  unfold getState1v1
  rw [if_pos h]
  simp

example : (getState1v1 (1 : ℚ) [1, 2, 3, 4, 5, 6, 7]).1.length = 9 := by decide +kernel

end RTA
