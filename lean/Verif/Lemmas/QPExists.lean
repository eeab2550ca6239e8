import Verif.Lemmas.ASIFCall
import Mathlib.Analysis.Real.Sqrt
import Mathlib.Topology.Order.Compact
import Mathlib.Topology.Instances.Real.Lemmas
import Mathlib.Topology.Algebra.Ring.Basic
import Mathlib.Algebra.BigOperators.Fin
import Mathlib.Algebra.BigOperators.Field
import Mathlib.Algebra.Order.BigOperators.Group.Finset

/-!
The assumptions on the quadratic programming solver can be met: over the real numbers there is a solver with all the
required properties.
-/
namespace RTA

noncomputable instance : HasSqrt ℝ := ⟨Real.sqrt⟩

instance : LawfulSqrt ℝ := ⟨fun x _ => Real.sqrt_nonneg x, fun _ h => Real.mul_self_sqrt h⟩

theorem dot_ofFn (n : Nat) (w : List ℝ) (x : Fin n → ℝ) : dot w (List.ofFn x) = ∑ i : Fin n, w.getD i 0 * x i := by
  induction n generalizing w with
  | zero => simp
  | succ n ih =>
    rw [List.ofFn_succ, Fin.sum_univ_succ]
    cases w with
    | nil => simp
    | cons a w =>
      rw [dot_cons, ih]
      simp

theorem qpObj_ofFn (n : Nat) (G a : List ℝ) (x : Fin n → ℝ) :
    qpObj G a (List.ofFn x) = ∑ i : Fin n, (G.getD i 0 * (x i * x i) / 2 - a.getD i 0 * x i) := by
  unfold qpObj
  have e : List.zipWith (· * ·) (List.ofFn x) (List.ofFn x) = List.ofFn fun i => x i * x i := by
    apply List.ext_getElem
    · simp
    · intro i h1 h2; simp
  rw [e, dot_ofFn, dot_ofFn, Finset.sum_sub_distrib, Finset.sum_div]

theorem exists_ofFn {n : Nat} {z : List ℝ} (h : z.length = n) : ∃ x : Fin n → ℝ, List.ofFn x = z := by
  subst h
  exact ⟨fun i => z[i], by simp⟩

/-- A feasible strictly convex quadratic program has a minimiser. -/
theorem qp_exists_min {G a : List ℝ} {rows : List (Row ℝ)} (hG : ∀ w ∈ G, 0 < w) {z0 : List ℝ}
    (h0 : Feasible G.length rows z0) :
    ∃ z, Feasible G.length rows z ∧ ∀ y, Feasible G.length rows y → qpObj G a z ≤ qpObj G a y := by
  obtain ⟨n, hn⟩ : ∃ n, n = G.length := ⟨_, rfl⟩
  rw [← hn] at h0 ⊢
  obtain ⟨x0, hx0⟩ := exists_ofFn h0.1
  let obj : (Fin n → ℝ) → ℝ := fun x => qpObj G a (List.ofFn x)
  have hobj : Continuous obj := by
    have : obj = fun x : Fin n → ℝ => ∑ i : Fin n, (G.getD i 0 * (x i * x i) / 2 - a.getD i 0 * x i) := by
      funext x; exact qpObj_ofFn n G a x
    rw [this]
    fun_prop
  have hrow : ∀ w : List ℝ, Continuous fun x : Fin n → ℝ => dot w (List.ofFn x) := by
    intro w
    have : (fun x : Fin n → ℝ => dot w (List.ofFn x)) = fun x => ∑ i : Fin n, w.getD i 0 * x i := by
      funext x; exact dot_ofFn n w x
    rw [this]
    fun_prop
  let F : Set (Fin n → ℝ) := {x | (∀ r ∈ rows, r.b ≤ dot r.w (List.ofFn x)) ∧ obj x ≤ obj x0}
  have hF : IsClosed F := by
    have e : F = (⋂ r ∈ rows, {x | r.b ≤ dot r.w (List.ofFn x)}) ∩ {x | obj x ≤ obj x0} := by
      ext x; simp [F]
    rw [e]
    refine IsClosed.inter ?_ (isClosed_le hobj continuous_const)
    refine isClosed_biInter fun r _ => isClosed_le continuous_const (hrow r.w)
  have gpos : ∀ i : Fin n, 0 < G.getD i 0 := by
    intro i
    have hi : (i : Nat) < G.length := by rw [← hn]; exact i.2
    rw [List.getD_eq_getElem?_getD, List.getElem?_eq_getElem hi]
    exact hG _ (List.getElem_mem _)
  let C : ℝ := obj x0 + ∑ i : Fin n, a.getD i 0 * a.getD i 0 / (2 * G.getD i 0)
  let M : Fin n → ℝ := fun i => 2 * G.getD i 0 * C + a.getD i 0 * a.getD i 0
  have hsub : F ⊆ Set.pi Set.univ fun i : Fin n => Set.Icc ((a.getD i 0 - M i - 1) / G.getD i 0) ((a.getD i 0 + M i + 1) / G.getD i 0) := by
    intro x hx i _
    have hterm : ∀ j : Fin n, 0 ≤ (G.getD j 0 * (x j * x j) / 2 - a.getD j 0 * x j) + a.getD j 0 * a.getD j 0 / (2 * G.getD j 0) := by
      intro j
      have hg := gpos j
      have : (G.getD j 0 * (x j * x j) / 2 - a.getD j 0 * x j) + a.getD j 0 * a.getD j 0 / (2 * G.getD j 0) =
          (G.getD j 0 * x j - a.getD j 0) * (G.getD j 0 * x j - a.getD j 0) / (2 * G.getD j 0) := by
        field_simp
        ring
      rw [this]
      exact div_nonneg (mul_self_nonneg _) (by linarith)
    have hsum : ∑ j : Fin n, ((G.getD j 0 * (x j * x j) / 2 - a.getD j 0 * x j) + a.getD j 0 * a.getD j 0 / (2 * G.getD j 0)) ≤ C := by
      rw [Finset.sum_add_distrib, ← qpObj_ofFn]
      have := hx.2
      show obj x + _ ≤ C
      simp only [C]
      linarith
    have h1 := Finset.single_le_sum (fun j _ => hterm j) (Finset.mem_univ i)
    have hg := gpos i
    have h2 : (G.getD i 0 * (x i * x i) / 2 - a.getD i 0 * x i) + a.getD i 0 * a.getD i 0 / (2 * G.getD i 0) ≤ C := h1.trans hsum
    have h3 : (G.getD i 0 * (x i * x i) / 2 - a.getD i 0 * x i) + a.getD i 0 * a.getD i 0 / (2 * G.getD i 0) =
          (G.getD i 0 * x i - a.getD i 0) * (G.getD i 0 * x i - a.getD i 0) / (2 * G.getD i 0) := by
        field_simp
        ring
    rw [h3, div_le_iff₀ (by linarith)] at h2
    set t := G.getD (↑i) 0 * x i - a.getD (↑i) 0 with ht
    have h4 : t * t ≤ M i := by
      have : 0 ≤ a.getD i 0 * a.getD i 0 := mul_self_nonneg _
      simp only [M]
      linarith
    have h5 : t ≤ M i + 1 := by nlinarith
    have h6 : - (M i + 1) ≤ t := by nlinarith
    constructor
    · rw [div_le_iff₀ hg]
      rw [ht] at h6
      linarith
    · rw [le_div_iff₀ hg]
      rw [ht] at h5
      linarith
  have hcomp : IsCompact F := IsCompact.of_isClosed_subset (isCompact_univ_pi fun _ => isCompact_Icc) hF hsub
  have hx0F : x0 ∈ F := by
    refine ⟨fun r hr => ?_, le_refl _⟩
    rw [hx0]; exact h0.2 r hr
  obtain ⟨x, hxF, hmin⟩ := hcomp.exists_isMinOn ⟨x0, hx0F⟩ hobj.continuousOn
  refine ⟨List.ofFn x, ⟨by simp, hxF.1⟩, ?_⟩
  intro y hy
  obtain ⟨y', rfl⟩ := exists_ofFn hy.1
  by_cases hle : obj y' ≤ obj x0
  · exact hmin (show y' ∈ F from ⟨hy.2, hle⟩)
  · exact hxF.2.trans (not_le.1 hle).le

/-- 1-based indices of the tight rows that are not identically zero. -/
noncomputable def tightRows (rows : List (Row ℝ)) (z : List ℝ) : List Int :=
  open Classical in
  ((List.range rows.length).filter fun i => decide (∃ r, rows[i]? = some r ∧ dot r.w z = r.b ∧ ∃ w ∈ r.w, w ≠ 0)).map
    fun i : Nat => (i : Int) + 1

theorem mem_tightRows {rows : List (Row ℝ)} {z : List ℝ} {i : Int} :
    i ∈ tightRows rows z ↔ ∃ r, rowAt rows i = some r ∧ dot r.w z = r.b ∧ ∃ w ∈ r.w, w ≠ 0 := by
  unfold tightRows rowAt
  simp only [List.mem_map, List.mem_filter, List.mem_range, decide_eq_true_eq]
  constructor
  · rintro ⟨j, ⟨_, r, hr, ht⟩, rfl⟩
    refine ⟨r, ?_, ht⟩
    rw [if_pos (by omega)]
    simpa using hr
  · rintro ⟨r, hr, ht⟩
    split at hr
    · rename_i h1
      refine ⟨(i - 1).toNat, ⟨?_, r, hr, ht⟩, by omega⟩
      by_contra hc
      rw [List.getElem?_eq_none (by omega)] at hr
      simp at hr
    · simp at hr

/-- Points that satisfy the tight rows can be approached without leaving the feasible set. -/
theorem exists_step {rows : List (Row ℝ)} {x y : List ℝ} (hl : x.length = y.length) (hx : ∀ r ∈ rows, RowHolds r x)
    (hy : ∀ r ∈ rows, dot r.w x = r.b → (∃ w ∈ r.w, w ≠ 0) → RowHolds r y) :
    ∃ t : ℝ, 0 < t ∧ t ≤ 1 ∧ ∀ r ∈ rows, RowHolds r (lerp t x y) := by
  induction rows with
  | nil => exact ⟨1, one_pos, le_refl _, by simp⟩
  | cons r rows ih =>
    obtain ⟨t, h0, h1, ht⟩ := ih (fun r hr => hx r (by simp [hr])) (fun r hr => hy r (by simp [hr]))
    have hxr := hx r (by simp)
    have mono : ∀ t', 0 < t' → t' ≤ t → ∀ r ∈ rows, RowHolds r (lerp t' x y) := by
      intro t' h0' hle r' hr'
      have h2 := ht r' hr'
      have h3 := hx r' (by simp [hr'])
      unfold RowHolds at *
      rw [dot_lerp _ _ _ _ hl] at h2 ⊢
      -- the row value is affine in the step, so it holds between the two end points
      have : (1 - t') * dot r'.w x + t' * dot r'.w y - r'.b =
          (1 - t' / t) * (dot r'.w x - r'.b) + t' / t * ((1 - t) * dot r'.w x + t * dot r'.w y - r'.b) := by
        field_simp
        ring
      have h4 : 0 ≤ 1 - t' / t := by
        have := (div_le_one h0).2 hle
        linarith
      have h5 : 0 ≤ t' / t := (div_pos h0' h0).le
      have h6 := mul_nonneg h4 (sub_nonneg.2 h3)
      have h7 := mul_nonneg h5 (sub_nonneg.2 h2)
      linarith
    by_cases hz : ∃ w ∈ r.w, w ≠ 0
    · by_cases htr : dot r.w x = r.b
      · have hyr := hy r (by simp) htr hz
        refine ⟨t, h0, h1, ?_⟩
        intro r' hr'
        rcases List.mem_cons.1 hr' with rfl | hr'
        · exact rowHolds_lerp h0.le h1 hl hxr hyr
        · exact ht r' hr'
      · have hlt : r.b < dot r.w x := lt_of_le_of_ne hxr (Ne.symm htr)
        -- a small enough step keeps the strict row
        set m := dot r.w x - r.b with hm
        have hmp : 0 < m := by rw [hm]; linarith
        set q := |dot r.w x - dot r.w y| + 1 with hq
        have hqp : 0 < q := by rw [hq]; positivity
        refine ⟨min t (m / q), lt_min h0 (div_pos hmp hqp), (min_le_left _ _).trans h1, ?_⟩
        intro r' hr'
        rcases List.mem_cons.1 hr' with rfl | hr'
        · unfold RowHolds
          rw [dot_lerp _ _ _ _ hl]
          have hs : 0 < min t (m / q) := lt_min h0 (div_pos hmp hqp)
          have hs2 : min t (m / q) * q ≤ m := by
            have := min_le_right t (m / q)
            rwa [le_div_iff₀ hqp] at this
          have habs : dot r'.w x - dot r'.w y ≤ q := by
            rw [hq]
            have := le_abs_self (dot r'.w x - dot r'.w y)
            linarith
          have h8 := mul_le_mul_of_nonneg_left habs hs.le
          nlinarith
        · exact mono _ (lt_min h0 (div_pos hmp hqp)) (min_le_left _ _) r' hr'
    · refine ⟨t, h0, h1, ?_⟩
      intro r' hr'
      rcases List.mem_cons.1 hr' with rfl | hr'
      · have hzero : ∀ w ∈ r'.w, w = 0 := by
          intro w hw
          by_contra hc
          exact hz ⟨w, hw, hc⟩
        unfold RowHolds at hxr ⊢
        rw [dot_allzero hzero] at hxr ⊢
        exact hxr
      · exact ht r' hr'

open Classical in
/-- A reference solver over the reals: the minimiser with its tight rows, or the inconsistency message. -/
noncomputable def refSolver : Solver ℝ := fun G a rows =>
  if h : ∃ z, Feasible G.length rows z ∧ ∀ y, Feasible G.length rows y → qpObj G a z ≤ qpObj G a y then
    .solved h.choose (tightRows rows h.choose)
  else .valueError inconsistentMsg

/-- The solver assumptions are satisfiable. -/
theorem refSolver_spec : SolverSpec refSolver := by
  constructor
  · intro G a rows x iact hG ha hr hs
    unfold refSolver at hs
    split at hs
    · rename_i h
      simp only [QPResult.solved.injEq] at hs
      obtain ⟨h1, h2⟩ := hs
      obtain ⟨hf, hmin⟩ := h.choose_spec
      rw [h1] at hf hmin h2
      subst h2
      refine ⟨hf, hmin, ?_, fun i hi => mem_tightRows.1 hi, ?_⟩
      · unfold tightRows
        refine List.Nodup.map ?_ (List.nodup_range.filter _)
        intro i j hij
        simpa using hij
      · intro y hy hact
        have hl : x.length = y.length := hf.1.trans hy.symm
        obtain ⟨t, h0, h1', ht⟩ := exists_step hl hf.2 (by
          intro r hr' htr hnz
          obtain ⟨i, hi⟩ := List.getElem?_of_mem hr'
          have hrow : rowAt rows ((i : Int) + 1) = some r := by
            unfold rowAt
            rw [if_pos (by omega)]
            simpa using hi
          exact hact _ (mem_tightRows.2 ⟨r, hrow, htr, hnz⟩) r hrow)
        have hfl : Feasible G.length rows (lerp t x y) := ⟨(lerp_length hl).trans hf.1, ht⟩
        have h3 := hmin _ hfl
        rw [qpObj_lerp t G a x y hl] at h3
        have h4 := gDist_nonneg hG x y
        have h5 : 0 ≤ t * (1 - t) / 2 * gDist G x y := by
          refine mul_nonneg (div_nonneg (mul_nonneg h0.le (by linarith)) (by norm_num)) h4
        have h6 : t * (qpObj G a x) ≤ t * qpObj G a y := by linarith
        exact le_of_mul_le_mul_left h6 h0
    · simp at hs
  · intro G a rows msg hG ha hr hs
    unfold refSolver at hs
    split at hs
    · simp at hs
    · rename_i h
      simp only [QPResult.valueError.injEq] at hs
      refine ⟨hs.symm, ?_⟩
      rintro ⟨z, hz⟩
      exact h (qp_exists_min hG hz)

end RTA
