import Verif.Spec.Zoo.Inspection
import Verif.Lemmas.LinAlg
import Mathlib.Data.List.Basic
import Mathlib.Tactic.IntervalCases

/-!
The block matrices of the multi-deputy inspection module.
-/
namespace RTA
open Real Set

theorem comp_append_left {a b : List ℝ} {i : Nat} (h : i < a.length) : comp (a ++ b) i = comp a i := by
  simp [comp, List.getD_eq_getElem?_getD, List.getElem?_append_left h]

theorem comp_append_right {a b : List ℝ} {i : Nat} : comp (a ++ b) (a.length + i) = comp b i := by
  simp [comp, List.getD_eq_getElem?_getD, List.getElem?_append_right]

theorem comp_vadd {a b : List ℝ} (h : a.length = b.length) (i : Nat) : comp (vadd a b) i = comp a i + comp b i := by
  unfold comp vadd
  rw [List.getD_eq_getElem?_getD, List.getD_eq_getElem?_getD, List.getD_eq_getElem?_getD, List.getElem?_zipWith]
  rcases lt_or_ge i a.length with hi | hi
  · rw [List.getElem?_eq_getElem hi, List.getElem?_eq_getElem (h ▸ hi)]
    simp
  · rw [List.getElem?_eq_none hi, List.getElem?_eq_none (h ▸ hi)]
    simp

theorem comp_drop {a : List ℝ} (k i : Nat) : comp (a.drop k) i = comp a (k + i) := by
  simp [comp, List.getD_eq_getElem?_getD]

theorem comp_take {a : List ℝ} {k i : Nat} (h : i < k) : comp (a.take k) i = comp a i := by
  simp [comp, List.getD_eq_getElem?_getD, h]

theorem comp_pySlice {a : List ℝ} {o e i : Nat} (h : i < e - o) : comp (pySlice a o e) i = comp a (o + i) := by
  unfold pySlice
  rw [comp_take h, comp_drop]

theorem list_eq3 {x : List ℝ} (h : x.length = 3) : x = [comp x 0, comp x 1, comp x 2] := by
  match x, h with
  | [_, _, _], _ => rfl

theorem list_eq6 {x : List ℝ} (h : x.length = 6) : x = [comp x 0, comp x 1, comp x 2, comp x 3, comp x 4, comp x 5] := by
  match x, h with
  | [_, _, _, _, _, _], _ => rfl

theorem pySlice_length {a : List ℝ} {o e : Nat} (h : e ≤ a.length) : (pySlice a o e).length = e - o := by
  simp [pySlice]; omega

/-- Three consecutive components. -/
theorem slice3 {x : List ℝ} (o : Nat) (h : o + 3 ≤ x.length) : pySlice x o (o + 3) = [comp x o, comp x (o + 1), comp x (o + 2)] := by
  rw [list_eq3 (x := pySlice x o (o + 3)) (by rw [pySlice_length h]; omega)]
  simp only [comp_pySlice (show 0 < o + 3 - o by omega), comp_pySlice (show 1 < o + 3 - o by omega),
    comp_pySlice (show 2 < o + 3 - o by omega), add_zero]

/-- Six consecutive components. -/
theorem slice6 {x : List ℝ} (o : Nat) (h : o + 6 ≤ x.length) :
    pySlice x o (o + 6) = [comp x o, comp x (o + 1), comp x (o + 2), comp x (o + 3), comp x (o + 4), comp x (o + 5)] := by
  rw [list_eq6 (x := pySlice x o (o + 6)) (by rw [pySlice_length h]; omega)]
  simp only [comp_pySlice (show 0 < o + 6 - o by omega), comp_pySlice (show 1 < o + 6 - o by omega),
    comp_pySlice (show 2 < o + 6 - o by omega), comp_pySlice (show 3 < o + 6 - o by omega), comp_pySlice (show 4 < o + 6 - o by omega),
    comp_pySlice (show 5 < o + 6 - o by omega), add_zero]

theorem multiA_shape (n : ℝ) (k : Nat) : (multiA n k).length = 6 * (k + 1) ∧ ∀ r ∈ multiA n k, r.length = 6 * (k + 1) := by
  induction k with
  | zero => simp [multiA, cwhA3]
  | succ k ih =>
    refine ⟨by simp [multiA, blockDiag, ih.1, cwhA3]; omega, fun r hr => ?_⟩
    simp only [multiA, blockDiag, List.mem_append, List.mem_map] at hr
    rcases hr with ⟨s, hs, rfl⟩ | ⟨s, hs, rfl⟩
    · simp [ih.2 s hs, zeros]; omega
    · have : s.length = 6 := by simp [cwhA3] at hs; rcases hs with rfl | rfl | rfl | rfl | rfl | rfl <;> rfl
      simp [this, zeros]; omega

/-- Each block of `A_n y` is `A` times the block of `y`. -/
theorem multiA_block (n : ℝ) : ∀ (k : Nat) {y : List ℝ}, y.length = 6 * (k + 1) → ∀ q ≤ k, ∀ i < 6,
    comp (matVec (multiA n k) y) (6 * q + i) = comp (matVec (cwhA3 n) (pySlice y (6 * q) (6 * q + 6))) i := by
  intro k
  induction k with
  | zero =>
    intro y hy q hq i hi
    obtain rfl : q = 0 := by omega
    have e : pySlice y (6 * 0) (6 * 0 + 6) = y := by simp [pySlice, hy]
    rw [e, Nat.mul_zero, zero_add]
    rfl
  | succ k ih =>
    intro y hy q hq i hi
    have hsh := multiA_shape n k
    have hy' : y = y.take (6 * (k + 1)) ++ y.drop (6 * (k + 1)) := (List.take_append_drop _ _).symm
    have ht : (y.take (6 * (k + 1))).length = 6 * (k + 1) := by simp [hy]
    have e : matVec (multiA n (k + 1)) y = matVec (multiA n k) (y.take (6 * (k + 1))) ++ matVec (cwhA3 n) (y.drop (6 * (k + 1))) := by
      unfold matVec
      rw [multiA, blockDiag, List.map_append, List.map_map, List.map_map]
      congr 1
      · refine List.map_congr_left fun r hr => ?_
        simp only [Function.comp]
        conv_lhs => rw [hy']
        rw [dot_append ((hsh.2 r hr).trans ht.symm), dot_zeros_left, add_zero]
      · refine List.map_congr_left fun r hr => ?_
        simp only [Function.comp]
        conv_lhs => rw [hy']
        rw [dot_append (by simp [ht, zeros]), dot_zeros_left, zero_add]
    rw [e]
    rcases Nat.lt_or_ge q (k + 1) with hq' | hq'
    · rw [comp_append_left (by rw [matVec_length, hsh.1]; omega), ih ht q (by omega) i hi]
      congr 2
      unfold pySlice
      rw [List.drop_take, List.take_take]
      congr 1
      omega
    · obtain rfl : q = k + 1 := by omega
      have : 6 * (k + 1) + i = (matVec (multiA n k) (y.take (6 * (k + 1)))).length + i := by rw [matVec_length, hsh.1]
      rw [this, comp_append_right]
      congr 2
      unfold pySlice
      rw [List.take_of_length_le (by simp [hy]; omega)]

theorem multiB_length (m : ℝ) (k : Nat) : (multiB m k).length = 6 * (k + 1) := by
  induction k with
  | zero => simp [multiB, cwhB3]
  | succ k ih => simp [multiB, ih]; omega

/-- Only the first block has thrust. -/
theorem multiB_block (m : ℝ) (k : Nat) {u : List ℝ} : ∀ q ≤ k, ∀ i < 6,
    comp (matVec (multiB m k) u) (6 * q + i) = if q = 0 then comp (matVec (cwhB3 m) u) i else 0 := by
  induction k with
  | zero =>
    intro q hq i hi
    obtain rfl : q = 0 := by omega
    rw [if_pos rfl, Nat.mul_zero, zero_add]
    rfl
  | succ k ih =>
    intro q hq i hi
    have e : matVec (multiB m (k + 1)) u = matVec (multiB m k) u ++ matVec (List.replicate 6 [0, 0, 0]) u := by
      simp [matVec, multiB]
    rw [e]
    rcases Nat.lt_or_ge q (k + 1) with hq' | hq'
    · rw [comp_append_left (by rw [matVec_length, multiB_length]; omega), ih q (by omega) i hi]
    · obtain rfl : q = k + 1 := by omega
      have : 6 * (k + 1) + i = (matVec (multiB m k) u).length + i := by rw [matVec_length, multiB_length]
      rw [this, comp_append_right, if_neg (by omega)]
      have h0 : dot [0, 0, 0] u = 0 := dot_zeros_left 3 u
      interval_cases i <;> simp [matVec, comp, h0, List.replicate]

section
variable {c : MultiConfig} (hN : 0 < c.numDeputies) {x : List ℝ} (hx : x.length = 6 * c.numDeputies + 1)
include hN hx

omit hx in
theorem multiF_length : (multiF c x).length = 6 * c.numDeputies + 1 := by
  simp [multiF, matVec_length, (multiA_shape c.n (c.numDeputies - 1)).1]; omega

omit hx in
theorem multiG_length : (multiG c).length = 6 * c.numDeputies + 1 := by
  simp [multiG, multiB_length]; omega

omit hx in
theorem multi_length (u : List ℝ) : (vadd (multiF c x) (matVec (multiG c) u)).length = 6 * c.numDeputies + 1 := by
  rw [vadd_length _ _ (by rw [multiF_length hN, matVec_length, multiG_length hN]), matVec_length, multiG_length hN]

/-- The module's dynamics of deputy `q`. -/
theorem multi_block {q : Nat} (hq : q < c.numDeputies) {i : Nat} (hi : i < 6) (u : List ℝ) :
    comp (vadd (multiF c x) (matVec (multiG c) u)) (6 * q + i) =
      comp (vadd (matVec (cwhA3 c.n) (pySlice x (6 * q) (6 * q + 6))) (matVec (cwhB3 c.m) (if q = 0 then u else [0, 0, 0]))) i := by
  have hk : 6 * (c.numDeputies - 1 + 1) = 6 * c.numDeputies := by omega
  have hsl : (pySlice x 0 (c.numDeputies * 6)).length = 6 * (c.numDeputies - 1 + 1) := by rw [pySlice_length (by omega)]; omega
  rw [comp_vadd (by rw [multiF_length hN, matVec_length, multiG_length hN]), comp_vadd (by rw [matVec_length, matVec_length]; rfl)]
  congr 1
  · unfold multiF
    rw [comp_append_left (by rw [matVec_length, (multiA_shape c.n _).1]; omega), multiA_block c.n _ hsl q (by omega) i hi]
    congr 2
    unfold pySlice
    rw [List.drop_zero, List.drop_take, List.take_take]
    congr 1
    omega
  · have e : matVec (multiG c) u = matVec (multiB c.m (c.numDeputies - 1)) u ++ matVec [[0, 0, 0]] u := by simp [matVec, multiG]
    rw [e, comp_append_left (by rw [matVec_length, multiB_length]; omega), multiB_block c.m _ q (by omega) i hi]
    split_ifs with h0
    · rfl
    · interval_cases i <;> simp [matVec, cwhB3, comp]

omit hx in
/-- The module's dynamics of the sun angle. -/
theorem multi_last (u : List ℝ) : comp (vadd (multiF c x) (matVec (multiG c) u)) (6 * c.numDeputies) = c.sunVel := by
  have h1 : (matVec (multiA c.n (c.numDeputies - 1)) (pySlice x 0 (c.numDeputies * 6))).length = 6 * c.numDeputies := by
    rw [matVec_length, (multiA_shape c.n _).1]; omega
  have h2 : (matVec (multiB c.m (c.numDeputies - 1)) u).length = 6 * c.numDeputies := by rw [matVec_length, multiB_length]; omega
  have e : matVec (multiG c) u = matVec (multiB c.m (c.numDeputies - 1)) u ++ matVec [[0, 0, 0]] u := by simp [matVec, multiG]
  have h0 : dot [0, 0, 0] u = 0 := dot_zeros_left 3 u
  rw [comp_vadd (by rw [multiF_length hN, matVec_length, multiG_length hN]), e]
  unfold multiF
  have e1 := comp_append_right (a := matVec (multiA c.n (c.numDeputies - 1)) (pySlice x 0 (c.numDeputies * 6))) (b := [c.sunVel]) (i := 0)
  have e2 := comp_append_right (a := matVec (multiB c.m (c.numDeputies - 1)) u) (b := matVec [[0, 0, 0]] u) (i := 0)
  rw [h1, add_zero] at e1
  rw [h2, add_zero] at e2
  rw [e1, e2]
  simp [comp, matVec, h0]

end

/-- A motion in which the others coast is a motion of the module's dynamics. -/
theorem FleetMotion.module {c : MultiConfig} (hN : 0 < c.numDeputies) {x u : ℝ → List ℝ}
    (h : FleetMotion c.n c.m c.sunVel c.numDeputies x (onlyFirst u)) {t : ℝ} (ht : 0 ≤ t) :
    ∀ i < 6 * c.numDeputies + 1, HasDerivWithinAt (fun s => comp (x s) i) (comp (vadd (multiF c (x t)) (matVec (multiG c) (u t))) i) (Ici t) t := by
  intro i hi
  rcases Nat.lt_or_ge i (6 * c.numDeputies) with hlt | hge
  · have e : i = 6 * (i / 6) + i % 6 := (Nat.div_add_mod i 6).symm
    have hd := h.deriv t ht (i / 6) (by omega) (i % 6) (Nat.mod_lt _ (by omega))
    rw [← e] at hd
    refine hd.congr_deriv ?_
    have hb := multi_block hN (h.len t ht) (q := i / 6) (by omega) (i := i % 6) (Nat.mod_lt _ (by omega)) (u t)
    rw [← e] at hb
    rw [hb]
    congr 3
    rcases Nat.eq_zero_or_pos (i / 6) with h0 | h0
    · rw [h0]; rfl
    · rw [if_neg (by omega)]
      obtain ⟨q, hq⟩ : ∃ q, i / 6 = q + 1 := ⟨i / 6 - 1, by omega⟩
      rw [hq]; rfl
  · obtain rfl : i = 6 * c.numDeputies := by omega
    rw [multi_last hN]
    exact h.angle t ht

end RTA
