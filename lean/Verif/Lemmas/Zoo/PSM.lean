import Verif.Lemmas.Zoo.CWH
import Verif.Model.Zoo.InspectionConstraints
import Mathlib.Tactic.Linarith

/-!
Lemmas about the passively-safe-maneuver constraint.
-/
namespace RTA
open Real

theorem linspace_length (a b : ℝ) (k : Nat) : (linspace a b k).length = k := by simp [linspace]

theorem linspace_dt (dt : ℝ) (steps : Nat) : linspace dt (steps * dt) steps = (List.range steps).map fun i : Nat => ((i : ℝ) + 1) * dt := by
  unfold linspace
  refine List.map_congr_left fun i hi => ?_
  rw [List.mem_range] at hi
  rcases Nat.lt_or_ge 1 steps with h | h
  · have : (steps : ℝ) - 1 ≠ 0 := by
      have : (1 : ℝ) < steps := by exact_mod_cast h
      linarith
    have e : ((steps : ℝ) * dt - dt) / (steps - 1) = dt := by
      rw [div_eq_iff this]; ring
    rw [e]; ring
  · have hi0 : i = 0 := by omega
    subst hi0
    simp

theorem linspace_zero_dt (dt : ℝ) (steps : Nat) : linspace 0 (steps * dt) (steps + 1) = (List.range (steps + 1)).map fun i : Nat => (i : ℝ) * dt := by
  unfold linspace
  refine List.map_congr_left fun i hi => ?_
  rw [List.mem_range] at hi
  rcases Nat.eq_zero_or_pos steps with h | h
  · have hi0 : i = 0 := by omega
    subst hi0
    simp
  · have : (steps : ℝ) ≠ 0 := by
      have : (0 : ℝ) < steps := by exact_mod_cast h
      linarith
    have e : ((steps : ℝ) * dt - 0) / (((steps + 1 : ℕ) : ℝ) - 1) = dt := by
      push_cast
      rw [div_eq_iff (by simpa using this)]; ring
    rw [e]; ring

theorem foldl_min_spec (l : List ℝ) (a : ℝ) :
    (∀ x ∈ a :: l, l.foldl min a ≤ x) ∧ l.foldl min a ∈ a :: l := by
  induction l generalizing a with
  | nil => simp
  | cons b l ih =>
    obtain ⟨h1, h2⟩ := ih (min a b)
    simp only [List.foldl_cons]
    have h0 := h1 (min a b) List.mem_cons_self
    refine ⟨fun x hx => ?_, ?_⟩
    · rcases List.mem_cons.mp hx with rfl | hx
      · exact h0.trans (min_le_left _ _)
      rcases List.mem_cons.mp hx with rfl | hx
      · exact h0.trans (min_le_right _ _)
      · exact h1 x (List.mem_cons_of_mem _ hx)
    · rcases List.mem_cons.mp h2 with h | h
      · rw [h]
        rcases min_choice a b with e | e
        · rw [e]; exact List.mem_cons_self
        · rw [e]; exact List.mem_cons_of_mem _ List.mem_cons_self
      · exact List.mem_cons_of_mem _ (List.mem_cons_of_mem _ h)

theorem jnpMin_spec {l : List ℝ} {h : ℝ} (e : jnpMin l = .ok h) : (∀ x ∈ l, h ≤ x) ∧ h ∈ l := by
  match l, e with
  | a :: l, e =>
    simp only [jnpMin, Except.ok.injEq] at e
    subst e
    exact foldl_min_spec l a

/-- The sampled distance is the one of the closed-form coast. -/
theorem psmFutureState_eq {n m : ℝ} {state : List ℝ} (hs : 6 ≤ state.length) (t radius : ℝ) :
    psmFutureState n state t radius =
      norm2 (pySlice (discreteStep n m t (pySlice state 0 6) [0, 0, 0]) 0 3) - radius := by
  match state, hs with
  | x :: y :: z :: a :: b :: w :: rest, _ =>
    have e : pySlice (x :: y :: z :: a :: b :: w :: rest) 0 6 = [x, y, z, a, b, w] := rfl
    rw [e, discreteStep_eq]
    unfold psmFutureState
    simp only [comp, List.getD_cons_zero, List.getD_cons_succ, pySlice, List.drop_zero, Nat.sub_zero, List.take_succ_cons,
      List.take_zero, mul_zero, add_zero]
    congr 3
    · ring
    · congr 1
      · ring
      · congr 1
        ring

/-- The coasting position of six components of the state is the closed-form one. -/
theorem psmCoast_eq {n m : ℝ} {state : List ℝ} {o : Nat} (hs : o + 6 ≤ state.length) (t : ℝ) :
    psmCoast n state o t = pySlice (discreteStep n m t (pySlice state o (o + 6)) [0, 0, 0]) 0 3 := by
  have e : pySlice state o (o + 6) =
      [comp state (o + 0), comp state (o + 1), comp state (o + 2), comp state (o + 3), comp state (o + 4), comp state (o + 5)] := by
    refine List.ext_getElem ?_ ?_
    · simp [pySlice]; omega
    · intro i h1 h2
      simp only [List.length_cons, List.length_nil] at h2
      have hh : ∀ j, j < 6 → comp state (o + j) = state[o + j]! := by
        intro j hj
        simp only [comp, List.getD_eq_getElem?_getD]
        rw [List.getElem?_eq_getElem (by omega)]
        rw [getElem!_pos state (o + j) (by omega)]
        rfl
      simp only [pySlice, List.getElem_take, List.getElem_drop]
      have hi : state[o + i]'(by simp [pySlice] at h1; omega) = comp state (o + i) := by
        rw [hh i (by omega), getElem!_pos state (o + i) (by omega)]
      rw [hi]
      match i, h2 with
      | 0, _ => rfl
      | 1, _ => rfl
      | 2, _ => rfl
      | 3, _ => rfl
      | 4, _ => rfl
      | 5, _ => rfl
  rw [e, discreteStep_eq]
  unfold psmCoast
  simp only [pySlice, List.drop_zero, Nat.sub_zero, List.take_succ_cons, List.take_zero, mul_zero, add_zero, List.cons.injEq, and_true]
  refine ⟨?_, ?_, ?_⟩ <;> ring

end RTA
