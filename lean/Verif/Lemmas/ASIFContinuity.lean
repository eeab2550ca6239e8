import Verif.Lemmas.ASIFConvex
import Verif.Spec.Continuity
import Mathlib.Topology.Algebra.Ring.Real
import Mathlib.Topology.Algebra.Order.LiminfLimsup
import Mathlib.Data.List.GetD

/-!
Minimisers over sets that change continuously around a point with room to spare are continuous (lemmas for C95).
-/
set_option linter.unusedSectionVars false
namespace RTA
open Filter
variable {ι S P X : Type}

theorem eventually_all_list {β : Type} {l : Filter ι} {p : ι → β → Prop} (L : List β) (h : ∀ b ∈ L, ∀ᶠ a in l, p a b) :
    ∀ᶠ a in l, ∀ b ∈ L, p a b := by
  induction L with
  | nil => exact Eventually.of_forall fun _ _ hb => by simp at hb
  | cons b L ih =>
    filter_upwards [h b (by simp), ih fun b' hb' => h b' (by simp [hb'])] with a h1 h2 b' hb'
    rcases List.mem_cons.1 hb' with rfl | hb'
    · exact h1
    · exact h2 b' hb'

/-! ### Costs -/

theorem mix_one {v w : List ℝ} (h : v.length = w.length) : mix 1 v w = w := by
  induction v generalizing w with
  | nil => cases w with
    | nil => rfl
    | cons q w => simp at h
  | cons p v ih => cases w with
    | nil => simp at h
    | cons q w => rw [mix_cons, ih (by simpa using h)]; simp

theorem sqDist_triangle {a b c : List ℝ} (h1 : a.length = b.length) (h2 : b.length = c.length) :
    sqDist a c ≤ 2 * sqDist a b + 2 * sqDist b c := by
  induction a generalizing b c with
  | nil => cases b with
    | nil => cases c with
      | nil => simp [sqDist, sqNorm, dot, vsub]
      | cons r c => simp at h2
    | cons q b => simp at h1
  | cons p a ih => cases b with
    | nil => simp at h1
    | cons q b => cases c with
      | nil => simp at h2
      | cons r c =>
        have := ih (b := b) (c := c) (by simpa using h1) (by simpa using h2)
        rw [sqDist_cons, sqDist_cons, sqDist_cons]
        nlinarith [mul_self_nonneg (p - q - (q - r))]

theorem sqDist_mix_left (t : ℝ) {v w : List ℝ} (h : v.length = w.length) : sqDist v (mix t v w) = t ^ 2 * sqDist w v := by
  induction v generalizing w with
  | nil => cases w with
    | nil => simp [sqDist, sqNorm, dot, vsub, mix]
    | cons q w => simp at h
  | cons p v ih => cases w with
    | nil => simp at h
    | cons q w =>
      rw [mix_cons, sqDist_cons, sqDist_cons, ih (by simpa using h)]
      ring

theorem slackCost_mix (W u : List ℝ) (t : ℝ) {v w d e : List ℝ} (h1 : v.length = u.length) (h2 : w.length = u.length)
    (h3 : d.length = e.length) : ∃ p q, slackCost W u (mix t v w) (mix t d e) = slackCost W u v d + 2 * t * p + t ^ 2 * q ∧
      slackCost W u w e = slackCost W u v d + 2 * p + q ∧
      q = sqDist w v + dot W (List.zipWith (· * ·) (vsub e d) (vsub e d)) := by
  refine ⟨dot (vsub v u) (vsub w v) + dot W (List.zipWith (· * ·) d (vsub e d)), _, ?_, ?_, rfl⟩
  · unfold slackCost
    rw [sqDist_mix t h1 h2, sqSlack_mix t W h3]
    ring
  · have a := sqDist_mix 1 h1 h2
    have b := sqSlack_mix 1 W h3
    rw [mix_one (h1.trans h2.symm)] at a
    rw [mix_one h3] at b
    unfold slackCost
    rw [a, b]
    ring

theorem slackCost_convex {W : List ℝ} (hW : ∀ w ∈ W, 0 < w) (u : List ℝ) {t : ℝ} (h0 : 0 ≤ t) (h1 : t ≤ 1) {v w d e : List ℝ}
    (l1 : v.length = u.length) (l2 : w.length = u.length) (l3 : d.length = e.length) :
    slackCost W u (mix t v w) (mix t d e) ≤ slackCost W u v d + t * (slackCost W u w e - slackCost W u v d) := by
  obtain ⟨p, q, e1, e2, hq⟩ := slackCost_mix W u t l1 l2 l3
  have q0 : 0 ≤ q := by rw [hq]; exact add_nonneg (sqDist_nonneg _ _) (slackSq_nonneg hW _)
  rw [e1, e2]
  nlinarith [mul_nonneg (mul_nonneg h0 (sub_nonneg.2 h1)) q0]

theorem slackCost_strong {W : List ℝ} (hW : ∀ w ∈ W, 0 < w) {C : List ℝ → List ℝ → Prop} {n m : Nat}
    (hlen : ∀ w e, C w e → w.length = n ∧ e.length = m)
    (hmix : ∀ t : ℝ, 0 ≤ t → t ≤ 1 → ∀ a b d e, C a d → C b e → C (mix t a b) (mix t d e)) {u v d w e : List ℝ}
    (hu : u.length = n) (hv : C v d) (hmin : ∀ w e, C w e → slackCost W u v d ≤ slackCost W u w e) (hw : C w e) :
    slackCost W u v d + sqDist w v ≤ slackCost W u w e := by
  obtain ⟨l1, m1⟩ := hlen _ _ hv
  obtain ⟨l2, m2⟩ := hlen _ _ hw
  have key : 0 ≤ dot (vsub v u) (vsub w v) + dot W (List.zipWith (· * ·) d (vsub e d)) := by
    refine first_order (q := sqDist w v + dot W (List.zipWith (· * ·) (vsub e d) (vsub e d))) fun t h0 h1 => ?_
    have := hmin _ _ (hmix t h0 h1 v w d e hv hw)
    unfold slackCost at this
    rw [sqDist_mix t (l1.trans hu.symm) (l2.trans hu.symm), sqSlack_mix t W (m1.trans m2.symm)] at this
    linarith
  have a := sqDist_mix 1 (l1.trans hu.symm) (l2.trans hu.symm)
  have b := sqSlack_mix 1 W (m1.trans m2.symm)
  rw [mix_one (l1.trans l2.symm)] at a
  rw [mix_one (m1.trans m2.symm)] at b
  have s0 := slackSq_nonneg hW (vsub e d)
  unfold slackCost
  rw [a, b]
  nlinarith

/-- Components are bounded by the cost. -/
theorem abs_le_of_sqDist {v u : List ℝ} (h : v.length = u.length) {B : ℝ} (hB : sqDist v u ≤ B) (i : Nat) :
    |v.getD i 0| ≤ |u.getD i 0| + (B + 1) := by
  induction v generalizing u i B with
  | nil => cases u with
    | nil =>
      have : 0 ≤ B := by simpa [sqDist, sqNorm, dot, vsub] using hB
      simp; linarith
    | cons q u => simp at h
  | cons p v ih => cases u with
    | nil => simp at h
    | cons q u =>
      rw [sqDist_cons] at hB
      cases i with
      | zero =>
        simp only [List.getD_cons_zero]
        have h2 := sqDist_nonneg v u
        have h3 : |p - q| ≤ B + 1 := abs_le.2 ⟨by nlinarith [mul_self_nonneg (p - q + 1), mul_self_nonneg (p - q)],
          by nlinarith [mul_self_nonneg (p - q - 1), mul_self_nonneg (p - q)]⟩
        have h4 : |p| ≤ |q| + |p - q| := by
          have := abs_add_le q (p - q)
          rwa [add_sub_cancel] at this
        linarith
      | succ i =>
        simp only [List.getD_cons_succ]
        exact ih (by simpa using h) (by nlinarith [mul_self_nonneg (p - q)]) i

theorem getD_sq_le {v u : List ℝ} (h : v.length = u.length) (i : Nat) : (v.getD i 0 - u.getD i 0) ^ 2 ≤ sqDist v u := by
  induction v generalizing u i with
  | nil => cases u with
    | nil => simp [sqDist, sqNorm, dot, vsub]
    | cons q u => simp at h
  | cons p v ih => cases u with
    | nil => simp at h
    | cons q u =>
      rw [sqDist_cons]
      cases i with
      | zero =>
        simp only [List.getD_cons_zero]
        nlinarith [sqDist_nonneg v u]
      | succ i =>
        simp only [List.getD_cons_succ]
        have := ih (u := u) (by simpa using h) i
        nlinarith [mul_self_nonneg (p - q)]

/-- A family of arrays whose components stay bounded. -/
def BddList (l : Filter ι) (w : ι → List ℝ) : Prop := ∀ i, ∃ M, ∀ᶠ a in l, |(w a).getD i 0| ≤ M

/-- Continuity of minimisers: `C` is the limit of the sets `Ca a` in the sense of `inner` and `outer`, `z` lies in it with room
to spare. -/
theorem min_continuous {W : List ℝ} (hW : ∀ w ∈ W, 0 < w) {l : Filter ι} {Ca : ι → List ℝ → List ℝ → Prop}
    {C Str : List ℝ → List ℝ → Prop} {n m : Nat} (hlen : ∀ w e, C w e → w.length = n ∧ e.length = m)
    (hlena : ∀ a w e, Ca a w e → w.length = n ∧ e.length = m)
    (hmix : ∀ t : ℝ, 0 ≤ t → t ≤ 1 → ∀ a b d e, C a d → C b e → C (mix t a b) (mix t d e))
    {z ez : List ℝ} (hz : C z ez)
    (hstr : ∀ t : ℝ, 0 < t → t ≤ 1 → ∀ w e, C w e → Str (mix t w z) (mix t e ez))
    (inner : ∀ w e, Str w e → ∀ᶠ a in l, Ca a w e)
    (outer : ∀ wa ea : ι → List ℝ, BddList l wa → (∀ᶠ a in l, Ca a (wa a) (ea a)) → ∀ t : ℝ, 0 < t → t ≤ 1 →
      ∀ᶠ a in l, C (mix t (wa a) z) (mix t (ea a) ez))
    {u v d : List ℝ} (hu : u.length = n) (hv : C v d) (hmin : ∀ w e, C w e → slackCost W u v d ≤ slackCost W u w e)
    {va da : ι → List ℝ} (hva : ∀ᶠ a in l, Ca a (va a) (da a))
    (hmina : ∀ᶠ a in l, ∀ w e, Ca a w e → slackCost W u (va a) (da a) ≤ slackCost W u w e) :
    ∀ ε > 0, ∀ᶠ a in l, sqDist (va a) v ≤ ε := by
  intro ε hε
  have c0 : 0 ≤ slackCost W u v d := slackCost_nonneg hW _ _ _
  have c1 : 0 ≤ slackCost W u z ez := slackCost_nonneg hW _ _ _
  obtain ⟨lz, mz⟩ := hlen _ _ hz
  obtain ⟨lv, mv⟩ := hlen _ _ hv
  -- the optimal costs are eventually not much larger
  have costs : ∀ η > 0, ∀ᶠ a in l, slackCost W u (va a) (da a) ≤ slackCost W u v d + η := by
    intro η hη
    obtain ⟨t, t0, t1, ht⟩ : ∃ t : ℝ, 0 < t ∧ t ≤ 1 ∧ t * slackCost W u z ez ≤ η := by
      refine ⟨min 1 (η / (slackCost W u z ez + 1)), lt_min one_pos (by positivity), min_le_left _ _, ?_⟩
      have h1 : min 1 (η / (slackCost W u z ez + 1)) * slackCost W u z ez ≤ η / (slackCost W u z ez + 1) * slackCost W u z ez :=
        mul_le_mul_of_nonneg_right (min_le_right _ _) c1
      have h2 : η / (slackCost W u z ez + 1) * slackCost W u z ez ≤ η := by
        rw [div_mul_eq_mul_div, div_le_iff₀ (by linarith)]
        nlinarith
      linarith
    filter_upwards [inner _ _ (hstr t t0 t1 v d hv), hmina] with a h1 h2
    have h3 := h2 _ _ h1
    have h4 := slackCost_convex hW u t0.le t1 (v := v) (w := z) (d := d) (e := ez) (lv.trans hu.symm) (lz.trans hu.symm)
      (mv.trans mz.symm)
    nlinarith [mul_nonneg t0.le c0]
  have hbdd : BddList l va := by
    intro i
    refine ⟨|u.getD i 0| + (slackCost W u v d + 1 + 1), ?_⟩
    filter_upwards [costs 1 one_pos, hva] with a h1 h2
    have h3 : sqDist (va a) u ≤ slackCost W u (va a) (da a) := by
      unfold slackCost
      linarith [slackSq_nonneg hW (da a)]
    exact abs_le_of_sqDist ((hlena _ _ _ h2).1.trans hu.symm) (h3.trans h1) i
  have K0 : 0 < 3 * slackCost W u z ez + 2 * slackCost W u v d + 2 := by linarith
  obtain ⟨t, t0, t1, ht⟩ : ∃ t : ℝ, 0 < t ∧ t ≤ 1 ∧ t * (3 * slackCost W u z ez + 2 * slackCost W u v d + 2) ≤ ε / 4 := by
    refine ⟨min 1 (ε / 4 / (3 * slackCost W u z ez + 2 * slackCost W u v d + 2)), lt_min one_pos (by positivity),
      min_le_left _ _, ?_⟩
    refine (mul_le_mul_of_nonneg_right (min_le_right _ _) K0.le).trans (le_of_eq ?_)
    exact div_mul_cancel₀ _ K0.ne'
  filter_upwards [costs (min 1 (ε / 4)) (lt_min one_pos (by linarith)), outer va da hbdd hva t t0 t1, hva] with a h1 h2 h3
  obtain ⟨la, ma⟩ := hlena _ _ _ h3
  have h1a : slackCost W u (va a) (da a) ≤ slackCost W u v d + 1 := h1.trans (by linarith [min_le_left (1 : ℝ) (ε / 4)])
  have h1b : slackCost W u (va a) (da a) ≤ slackCost W u v d + ε / 4 := h1.trans (by linarith [min_le_right (1 : ℝ) (ε / 4)])
  have ca : 0 ≤ slackCost W u (va a) (da a) := slackCost_nonneg hW _ _ _
  have s1 := slackCost_strong hW hlen hmix hu hv hmin h2
  have s2 := slackCost_convex hW u t0.le t1 (v := va a) (w := z) (d := da a) (e := ez) (la.trans hu.symm) (lz.trans hu.symm)
      (ma.trans mz.symm)
  have s3 : sqDist (mix t (va a) z) v ≤ ε / 4 + t * slackCost W u z ez := by nlinarith [mul_nonneg t0.le ca]
  have s4 := sqDist_mix_left t (la.trans lz.symm)
  have s5 : sqDist z (va a) ≤ 2 * slackCost W u z ez + 2 * (slackCost W u v d + 1) := by
    have e1 : sqDist z u ≤ slackCost W u z ez := by unfold slackCost; linarith [slackSq_nonneg hW ez]
    have e2 : sqDist u (va a) ≤ slackCost W u (va a) (da a) := by
      rw [sqDist_comm]; unfold slackCost; linarith [slackSq_nonneg hW (da a)]
    have := sqDist_triangle (lz.trans hu.symm) (hu.trans la.symm)
    linarith
  have s6 := sqDist_triangle (a := va a) (b := mix t (va a) z) (c := v) (by simp [la, lz]) (by simp [la, lz, lv])
  have s7 : t ^ 2 * sqDist z (va a) ≤ t * (2 * slackCost W u z ez + 2 * (slackCost W u v d + 1)) := by
    have e1 : t ^ 2 ≤ t := by nlinarith
    exact (mul_le_mul_of_nonneg_right e1 (sqDist_nonneg _ _)).trans (mul_le_mul_of_nonneg_left s5 t0.le)
  rw [s4] at s6
  nlinarith

/-! ### Asymptotics of the conditions -/

theorem dot_sum {n : Nat} {v w : List ℝ} (hv : v.length = n) (hw : w.length = n) :
    dot v w = ∑ i ∈ Finset.range n, v.getD i 0 * w.getD i 0 := by
  induction n generalizing v w with
  | zero =>
    obtain rfl := List.length_eq_zero_iff.1 hv
    simp [dot]
  | succ n ih =>
    cases v with
    | nil => simp at hv
    | cons p v => cases w with
      | nil => simp at hw
      | cons q w =>
        rw [Finset.sum_range_succ', dot_cons', ih (by simpa using hv) (by simpa using hw)]
        simp only [List.getD_cons_zero, List.getD_cons_succ]
        ring

/-- The difference of the components tends to zero. -/
def Near (l : Filter ι) (A B : ι → List ℝ) : Prop := ∀ i, Tendsto (fun a => (A a).getD i 0 - (B a).getD i 0) l (nhds 0)

theorem Near.bdd {l : Filter ι} {A B : ι → List ℝ} (h : Near l A B) (hB : BddList l B) : BddList l A := by
  intro i
  obtain ⟨M, hM⟩ := hB i
  have h1 : ∀ᶠ a in l, |(A a).getD i 0 - (B a).getD i 0| < 1 := by
    have := (h i).abs
    rw [abs_zero] at this
    exact this.eventually (gt_mem_nhds one_pos)
  refine ⟨M + 1, ?_⟩
  filter_upwards [hM, h1] with a h2 h3
  have := abs_add_le ((B a).getD i 0) ((A a).getD i 0 - (B a).getD i 0)
  rw [add_sub_cancel] at this
  linarith

theorem ListTends.near {l : Filter ι} {F : ι → List ℝ} {y : List ℝ} (h : ListTends l F y) : Near l F fun _ => y := by
  intro i
  have := (h.2 i).sub_const (y.getD i 0)
  simpa using this

theorem near_refl {l : Filter ι} (w : ι → List ℝ) : Near l w w := fun _ =>
  tendsto_const_nhds.congr fun _ => (sub_self _).symm

theorem bdd_const {l : Filter ι} (y : List ℝ) : BddList l fun _ : ι => y :=
  fun i => ⟨|y.getD i 0|, Eventually.of_forall fun _ => le_rfl⟩

theorem tendsto_mul_bdd {l : Filter ι} {p q : ι → ℝ} {M : ℝ} (hp : Tendsto p l (nhds 0)) (hq : ∀ᶠ a in l, |q a| ≤ M) :
    Tendsto (fun a => p a * q a) l (nhds 0) := by
  have h0 : Tendsto (fun a => |p a| * M) l (nhds 0) := by
    have := hp.abs.mul_const M
    rwa [abs_zero, zero_mul] at this
  have h1 : Tendsto (fun a => -(|p a| * M)) l (nhds 0) := by
    have := h0.neg
    rwa [neg_zero] at this
  have hb : ∀ᶠ a in l, |p a * q a| ≤ |p a| * M := by
    filter_upwards [hq] with a h
    rw [abs_mul]
    exact mul_le_mul_of_nonneg_left h (abs_nonneg _)
  exact tendsto_of_tendsto_of_tendsto_of_le_of_le' h1 h0 (hb.mono fun a h => (abs_le.1 h).1) (hb.mono fun a h => (abs_le.1 h).2)

theorem dot_near {l : Filter ι} {n : Nat} {A A' Y Y' : ι → List ℝ} (hA : Near l A A') (hY : Near l Y Y') (bA : BddList l A')
    (bY : BddList l Y') (lA : ∀ᶠ a in l, (A a).length = n) (lA' : ∀ᶠ a in l, (A' a).length = n)
    (lY : ∀ᶠ a in l, (Y a).length = n) (lY' : ∀ᶠ a in l, (Y' a).length = n) :
    Tendsto (fun a => dot (A a) (Y a) - dot (A' a) (Y' a)) l (nhds 0) := by
  have key : Tendsto (fun a => ∑ i ∈ Finset.range n, (((A a).getD i 0 - (A' a).getD i 0) * (Y a).getD i 0 +
      ((Y a).getD i 0 - (Y' a).getD i 0) * (A' a).getD i 0)) l (nhds (∑ i ∈ Finset.range n, (0 : ℝ))) := by
    refine tendsto_finsetSum _ fun i _ => ?_
    obtain ⟨M, hM⟩ := hY.bdd bY i
    obtain ⟨M', hM'⟩ := bA i
    have := (tendsto_mul_bdd (hA i) hM).add (tendsto_mul_bdd (hY i) hM')
    simpa using this
  rw [Finset.sum_const_zero] at key
  refine key.congr' ?_
  filter_upwards [lA, lA', lY, lY'] with a h1 h2 h3 h4
  rw [dot_sum h1 h3, dot_sum h2 h4, ← Finset.sum_sub_distrib]
  exact Finset.sum_congr rfl fun i _ => by ring

theorem getD_matVec (M : List (List ℝ)) (u : List ℝ) (i : Nat) : (matVec M u).getD i 0 = dot (M.getD i []) u := by
  induction M generalizing i with
  | nil => simp [matVec, dot]
  | cons r M ih =>
    cases i with
    | zero => rfl
    | succ i => exact ih i

theorem getD_vadd' {v w : List ℝ} (h : v.length = w.length) (i : Nat) : (vadd v w).getD i 0 = v.getD i 0 + w.getD i 0 := by
  induction v generalizing w i with
  | nil => cases w with
    | nil => simp [vadd]
    | cons q w => simp at h
  | cons p v ih => cases w with
    | nil => simp at h
    | cons q w =>
      cases i with
      | zero => rfl
      | succ i => exact ih (w := w) (by simpa using h) i

theorem dot_bdd {l : Filter ι} {n : Nat} {A Y : ι → List ℝ} (bA : BddList l A) (bY : BddList l Y)
    (lA : ∀ᶠ a in l, (A a).length = n) (lY : ∀ᶠ a in l, (Y a).length = n) : ∃ M, ∀ᶠ a in l, |dot (A a) (Y a)| ≤ M := by
  choose MA hA using bA
  choose MY hY using bY
  have hall : ∀ᶠ a in l, ∀ i ∈ List.range n, |(A a).getD i 0| ≤ MA i ∧ |(Y a).getD i 0| ≤ MY i :=
    eventually_all_list _ fun i _ => (hA i).and (hY i)
  refine ⟨∑ i ∈ Finset.range n, MA i * MY i, ?_⟩
  filter_upwards [hall, lA, lY] with a h h1 h2
  rw [dot_sum h1 h2]
  refine (Finset.abs_sum_le_sum_abs _ _).trans (Finset.sum_le_sum fun i hi => ?_)
  obtain ⟨a1, a2⟩ := h i (List.mem_range.2 (Finset.mem_range.1 hi))
  rw [abs_mul]
  exact mul_le_mul a1 a2 (abs_nonneg _) ((abs_nonneg _).trans a1)

section
variable {l : Filter ι} {f : S → List ℝ} {g : S → List (List ℝ)} {s : ASIFObj ℝ S P X} {γ : ι → S} {x : S}

/-- The state derivatives in `γ a` and in `x` under the same bounded controls come together. -/
theorem data_flow_near (hd : DataTends l f g s γ x) (hsh : ∀ a, ShapesOK f g s (γ a)) (hx : ShapesOK f g s x) {w : ι → List ℝ}
    (hw : BddList l w) (lw : ∀ᶠ a in l, (w a).length = s.ext.controlDim) :
    Near l (fun a => vadd (f (γ a)) (matVec (g (γ a)) (w a))) (fun a => vadd (f x) (matVec (g x) (w a))) ∧
    BddList l (fun a => vadd (f x) (matVec (g x) (w a))) := by
  have ln : ∀ y, ShapesOK f g s y → ∀ u : List ℝ, (f y).length = (matVec (g y) u).length := fun y hy u => by
    rw [matVec_length, hy.input]
  have lrow : ∀ i, (i < (g x).length ∧ (∀ a, ((g (γ a)).getD i []).length = s.ext.controlDim) ∧
      ((g x).getD i []).length = s.ext.controlDim) ∨ ((∀ a, (g (γ a)).getD i [] = []) ∧ (g x).getD i [] = []) := by
    intro i
    have hla : ∀ a, (g (γ a)).length = (g x).length := fun a => by
      rw [(hsh a).input, hx.input]; exact hd.drift.1 a
    by_cases hi : i < (g x).length
    · refine Or.inl ⟨hi, fun a => ?_, ?_⟩
      · have hi' : i < (g (γ a)).length := by rw [hla]; exact hi
        rw [List.getD_eq_getElem _ _ hi']
        exact (hsh a).cols _ (List.getElem_mem hi')
      · rw [List.getD_eq_getElem _ _ hi]
        exact hx.cols _ (List.getElem_mem hi)
    · refine Or.inr ⟨fun a => ?_, ?_⟩
      · exact List.getD_eq_default _ _ (by rw [hla]; omega)
      · exact List.getD_eq_default _ _ (by omega)
  constructor
  · intro i
    have h1 := hd.drift.near i
    have h2 : Tendsto (fun a => dot ((g (γ a)).getD i []) (w a) - dot ((g x).getD i []) (w a)) l (nhds 0) := by
      rcases lrow i with ⟨-, r1, r2⟩ | ⟨r1, r2⟩
      · exact dot_near (hd.input i).near (near_refl w) (bdd_const _) hw (Eventually.of_forall r1)
          (Eventually.of_forall fun _ => r2) lw lw
      · refine tendsto_const_nhds.congr fun a => ?_
        rw [r1, r2, sub_self]
    have := h1.add h2
    rw [add_zero] at this
    refine this.congr fun a => ?_
    rw [getD_vadd' (ln _ (hsh a) _), getD_vadd' (ln _ hx _), getD_matVec, getD_matVec]
    ring
  · intro i
    obtain ⟨M, hM⟩ : ∃ M, ∀ᶠ a in l, |dot ((g x).getD i []) (w a)| ≤ M := by
      rcases lrow i with ⟨-, r1, r2⟩ | ⟨r1, r2⟩
      · exact dot_bdd (bdd_const _) hw (Eventually.of_forall fun _ => r2) lw
      · exact ⟨0, Eventually.of_forall fun a => by rw [r2]; simp [dot]⟩
    refine ⟨|(f x).getD i 0| + M, ?_⟩
    filter_upwards [hM] with a h
    rw [getD_vadd' (ln _ hx _), getD_matVec]
    exact (abs_add_le _ _).trans (add_le_add le_rfl h)

/-- The barrier values in `γ a` and in `x` of the same bounded controls come together. -/
theorem barrier_near (hd : DataTends l f g s γ x) (hsh : ∀ a, ShapesOK f g s (γ a)) (hx : ShapesOK f g s x) {w : ι → List ℝ}
    (hw : BddList l w) (lw : ∀ᶠ a in l, (w a).length = s.ext.controlDim) {kc : String × Constraint ℝ S P}
    (hkc : kc ∈ s.constraints) (hen : kc.2.enabled = true) :
    Tendsto (fun a => (barrierValue f g kc.2 (γ a) (w a)).getD 0 - (barrierValue f g kc.2 x (w a)).getD 0) l (nhds 0) := by
  obtain ⟨al, hal⟩ := Option.isSome_iff_exists.1 (hx.alpha kc hkc)
  obtain ⟨h1, h2⟩ := data_flow_near hd hsh hx hw lw
  have hg := hd.grad kc hkc hen
  have ll : ∀ y, ShapesOK f g s y → ∀ u : List ℝ, (vadd (f y) (matVec (g y) u)).length = (f y).length := fun y hy u => by
    simp [vadd, matVec_length, hy.input]
  have h3 := dot_near (n := (f x).length) hg.near h1 (bdd_const _) h2
    (Eventually.of_forall fun a => by rw [hg.1 a]; exact hx.grad kc hkc) (Eventually.of_forall fun _ => hx.grad kc hkc)
    (Eventually.of_forall fun a => by rw [ll _ (hsh a)]; exact hd.drift.1 a) (Eventually.of_forall fun a => ll _ hx _)
  have h4 := (hd.strength kc hkc hen al hal).sub_const (strengthening kc.2 al (kc.2.computeFn x kc.2.params + kc.2.bias))
  rw [sub_self] at h4
  have := h3.add h4
  rw [add_zero] at this
  refine this.congr fun a => ?_
  unfold barrierValue
  rw [hal]
  simp only [Option.map_some, Option.getD_some]
  ring

theorem direct_near (hd : DataTends l f g s γ x) (hx : ShapesOK f g s x) {w : ι → List ℝ}
    (hw : BddList l w) (lw : ∀ᶠ a in l, (w a).length = s.ext.controlDim) {kc : String × DirectConstraint ℝ S P}
    (hkc : kc ∈ s.ext.direct) (hen : kc.2.enabled = true) :
    Tendsto (fun a => (dot (kc.2.ineqWeight (γ a) kc.2.params) (w a) - kc.2.ineqConstant (γ a) kc.2.params) -
      (dot (kc.2.ineqWeight x kc.2.params) (w a) - kc.2.ineqConstant x kc.2.params)) l (nhds 0) := by
  have hg := hd.weight kc hkc hen
  have h3 := dot_near (n := s.ext.controlDim) hg.near (near_refl w) (bdd_const _) hw
    (Eventually.of_forall fun a => by rw [hg.1 a]; exact hx.direct kc hkc) (Eventually.of_forall fun _ => hx.direct kc hkc) lw lw
  have h4 := (hd.const kc hkc hen).sub_const (kc.2.ineqConstant x kc.2.params)
  rw [sub_self] at h4
  have := h3.sub h4
  rw [sub_zero] at this
  exact this.congr fun a => by ring

theorem assignSlack_mem {cs : Dict (Constraint ℝ S P)} {d : List ℝ} {cd : Constraint ℝ S P × ℝ} (h : cd ∈ assignSlack cs d) :
    ∃ k, (k, cd.1) ∈ cs := by
  induction cs generalizing d with
  | nil => simp [assignSlack] at h
  | cons kc cs ih =>
    obtain ⟨k, c⟩ := kc
    unfold assignSlack at h
    split_ifs at h
    · rcases List.mem_cons.1 h with rfl | h
      · exact ⟨k, by simp⟩
      · obtain ⟨q, hq⟩ := ih h
        exact ⟨q, by simp [hq]⟩
    · rcases List.mem_cons.1 h with rfl | h
      · exact ⟨k, by simp⟩
      · obtain ⟨q, hq⟩ := ih h
        exact ⟨q, by simp [hq]⟩

theorem barrierValue_getD {c : Constraint ℝ S P} {y : S} {u : List ℝ} (h : c.alpha.isSome = true) :
    barrierValue f g c y u = some ((barrierValue f g c y u).getD 0) := by
  obtain ⟨al, hal⟩ := Option.isSome_iff_exists.1 h
  unfold barrierValue
  rw [hal]
  rfl

theorem barrierValue_mix {c : Constraint ℝ S P} {y : S} (t : ℝ) {u v : List ℝ} (h : c.alpha.isSome = true)
    (hl : u.length = v.length) :
    (barrierValue f g c y (mix t u v)).getD 0 =
      (barrierValue f g c y u).getD 0 + t * ((barrierValue f g c y v).getD 0 - (barrierValue f g c y u).getD 0) := by
  obtain ⟨al, hal⟩ := Option.isSome_iff_exists.1 h
  unfold barrierValue
  rw [hal]
  simp only [Option.map_some, Option.getD_some]
  rw [flow_mix f g y t hl, dot_mix t _ (flow_length f g y u v)]
  ring

theorem StrictS.admissible {u d : List ℝ} (h : StrictS f g s x u d) : AdmissibleS f g s x u d :=
  ⟨h.len, h.slen, h.bounds, fun cd hcd hen => by
    obtain ⟨m, hm, hlt⟩ := h.barrier cd hcd hen
    exact ⟨m, hm, hlt.le⟩, fun kc hkc hen => (h.direct kc hkc hen).le⟩

theorem strict_mix (hx : ShapesOK f g s x) {z ez : List ℝ} (hz : StrictS f g s x z ez) {t : ℝ} (t0 : 0 < t) (t1 : t ≤ 1)
    {w e : List ℝ} (hw : AdmissibleS f g s x w e) : StrictS f g s x (mix t w z) (mix t e ez) := by
  have hl := hw.len.trans hz.len.symm
  refine ⟨by simp [hw.len, hz.len], by simp [hw.slen, hz.slen], within_mix t0.le t1 hw.bounds hz.bounds, ?_, ?_⟩
  · intro cd hcd hen
    obtain ⟨p, q, hp, hq, hpq⟩ := assignSlack_mix t s.constraints (hw.slen.trans hz.slen.symm) cd hcd
    obtain ⟨k, hk⟩ := assignSlack_mem hp
    have hal : cd.1.alpha.isSome = true := hx.alpha _ hk
    obtain ⟨m1, e1, l1⟩ := hw.barrier _ hp hen
    obtain ⟨m2, e2, l2⟩ := hz.barrier _ hq hen
    refine ⟨_, barrierValue_getD hal, ?_⟩
    rw [barrierValue_mix t hal hl, hpq]
    simp only at e1 e2 l1 l2
    rw [e1, e2]
    simp only [Option.getD_some]
    nlinarith [mul_pos t0 (sub_pos.2 l2), mul_nonneg (sub_nonneg.2 t1) (sub_nonneg.2 l1)]
  · intro kc hkc hen
    have a1 := hw.direct kc hkc hen
    have a2 := hz.direct kc hkc hen
    unfold DirectOK at a1
    rw [dot_mix t _ hl]
    nlinarith [mul_pos t0 (sub_pos.2 a2), mul_nonneg (sub_nonneg.2 t1) (sub_nonneg.2 a1)]

theorem strict_inner (hd : DataTends l f g s γ x) (hsh : ∀ a, ShapesOK f g s (γ a)) (hx : ShapesOK f g s x) {w e : List ℝ}
    (hw : StrictS f g s x w e) : ∀ᶠ a in l, AdmissibleS f g s (γ a) w e := by
  have h1 : ∀ᶠ a in l, ∀ cd ∈ assignSlack s.constraints e, cd.1.enabled = true → BarrierOK f g cd.1 (γ a) w cd.2 := by
    refine eventually_all_list _ fun cd hcd => ?_
    by_cases hen : cd.1.enabled = true
    · obtain ⟨k, hk⟩ := assignSlack_mem hcd
      obtain ⟨m, hm, hlt⟩ := hw.barrier cd hcd hen
      have := barrier_near hd hsh hx (bdd_const w) (Eventually.of_forall fun _ => hw.len) hk hen
      have h2 := this.eventually (lt_mem_nhds (show cd.2 - m < 0 by linarith))
      filter_upwards [h2] with a ha _
      refine ⟨_, barrierValue_getD (hx.alpha _ hk), ?_⟩
      rw [hm] at ha
      simp only [Option.getD_some] at ha
      linarith
    · exact Eventually.of_forall fun _ h => absurd h hen
  have h2 : ∀ᶠ a in l, ∀ kc ∈ s.ext.direct, kc.2.enabled = true → DirectOK kc.2 (γ a) w := by
    refine eventually_all_list _ fun kc hkc => ?_
    by_cases hen : kc.2.enabled = true
    · have := direct_near hd hx (bdd_const w) (Eventually.of_forall fun _ => hw.len) hkc hen
      have hlt := hw.direct kc hkc hen
      have h2 := this.eventually (lt_mem_nhds
        (show kc.2.ineqConstant x kc.2.params - dot (kc.2.ineqWeight x kc.2.params) w < 0 by linarith))
      filter_upwards [h2] with a ha _
      unfold DirectOK
      linarith
    · exact Eventually.of_forall fun _ h => absurd h hen
  filter_upwards [h1, h2] with a b1 b2
  exact ⟨hw.len, hw.slen, hw.bounds, b1, b2⟩

theorem strict_outer (hd : DataTends l f g s γ x) (hsh : ∀ a, ShapesOK f g s (γ a)) (hx : ShapesOK f g s x) {z ez : List ℝ}
    (hz : StrictS f g s x z ez) {wa ea : ι → List ℝ} (hb : BddList l wa) (hwa : ∀ᶠ a in l, AdmissibleS f g s (γ a) (wa a) (ea a))
    {t : ℝ} (t0 : 0 < t) (t1 : t ≤ 1) : ∀ᶠ a in l, AdmissibleS f g s x (mix t (wa a) z) (mix t (ea a) ez) := by
  have lw : ∀ᶠ a in l, (wa a).length = s.ext.controlDim := hwa.mono fun a h => h.len
  have h1 : ∀ᶠ a in l, ∀ cd ∈ assignSlack s.constraints ez, cd.1.enabled = true →
      (barrierValue f g cd.1 (γ a) (wa a)).getD 0 - (barrierValue f g cd.1 x (wa a)).getD 0 <
        t * ((barrierValue f g cd.1 x z).getD 0 - cd.2) := by
    refine eventually_all_list _ fun cd hcd => ?_
    by_cases hen : cd.1.enabled = true
    · obtain ⟨k, hk⟩ := assignSlack_mem hcd
      obtain ⟨m, hm, hlt⟩ := hz.barrier cd hcd hen
      have := barrier_near hd hsh hx hb lw hk hen
      rw [hm]
      filter_upwards [this.eventually (gt_mem_nhds (mul_pos t0 (sub_pos.2 hlt)))] with a ha _
      exact ha
    · exact Eventually.of_forall fun _ h => absurd h hen
  have h2 : ∀ᶠ a in l, ∀ kc ∈ s.ext.direct, kc.2.enabled = true →
      (dot (kc.2.ineqWeight (γ a) kc.2.params) (wa a) - kc.2.ineqConstant (γ a) kc.2.params) -
      (dot (kc.2.ineqWeight x kc.2.params) (wa a) - kc.2.ineqConstant x kc.2.params) <
        t * (dot (kc.2.ineqWeight x kc.2.params) z - kc.2.ineqConstant x kc.2.params) := by
    refine eventually_all_list _ fun kc hkc => ?_
    by_cases hen : kc.2.enabled = true
    · have hlt := hz.direct kc hkc hen
      filter_upwards [(direct_near hd hx hb lw hkc hen).eventually (gt_mem_nhds (mul_pos t0 (sub_pos.2 hlt)))] with a ha _
      exact ha
    · exact Eventually.of_forall fun _ h => absurd h hen
  filter_upwards [h1, h2, hwa] with a b1 b2 hw
  have hl := hw.len.trans hz.len.symm
  refine ⟨by simp [hw.len, hz.len], by simp [hw.slen, hz.slen], within_mix t0.le t1 hw.bounds hz.bounds, ?_, ?_⟩
  · intro cd hcd hen
    obtain ⟨p, q, hp, hq, hpq⟩ := assignSlack_mix t s.constraints (hw.slen.trans hz.slen.symm) cd hcd
    obtain ⟨k, hk⟩ := assignSlack_mem hp
    have hal : cd.1.alpha.isSome = true := hx.alpha _ hk
    obtain ⟨m1, e1, l1⟩ := hw.barrier _ hp hen
    obtain ⟨m2, e2, l2⟩ := hz.barrier _ hq hen
    have hlt := b1 _ hq hen
    refine ⟨_, barrierValue_getD hal, ?_⟩
    rw [barrierValue_mix t hal hl, hpq]
    simp only at e1 e2 l1 l2 hlt
    rw [e1, e2] at hlt
    rw [e2]
    simp only [Option.getD_some] at hlt ⊢
    generalize (barrierValue f g cd.1 x (wa a)).getD 0 = y at *
    by_cases hy : m1 ≤ y
    · nlinarith [mul_pos t0 (sub_pos.2 l2), mul_nonneg (sub_nonneg.2 t1) (sub_nonneg.2 (l1.trans hy))]
    · have hy := (not_le.1 hy).le
      nlinarith [mul_nonneg (sub_nonneg.2 t1) (sub_nonneg.2 l1), mul_nonneg t0.le (sub_nonneg.2 hy)]
  · intro kc hkc hen
    have a1 := hw.direct kc hkc hen
    have a2 := hz.direct kc hkc hen
    have hlt := b2 kc hkc hen
    unfold DirectOK at a1 ⊢
    rw [dot_mix t _ hl]
    generalize dot (kc.2.ineqWeight x kc.2.params) (wa a) = y at *
    generalize dot (kc.2.ineqWeight (γ a) kc.2.params) (wa a) = y' at *
    generalize dot (kc.2.ineqWeight x kc.2.params) z = y2 at *
    generalize kc.2.ineqConstant x kc.2.params = k1 at *
    generalize kc.2.ineqConstant (γ a) kc.2.params = k2 at *
    by_cases hy : k1 ≤ y
    · nlinarith [mul_pos t0 (sub_pos.2 a2), mul_nonneg (sub_nonneg.2 t1) (sub_nonneg.2 hy)]
    · have hy := not_le.1 hy
      nlinarith [mul_pos t0 (sub_pos.2 hy)]

end

end RTA
