import Verif.Model.LinAlg
import Mathlib.Tactic.Ring
import Mathlib.Tactic.Linarith

set_option linter.unusedSectionVars false
set_option linter.unusedVariables false
namespace RTA
variable {K : Type}

section comm
variable [CommRing K]

@[simp] theorem dot_nil_left (w : List K) : dot [] w = 0 := rfl
@[simp] theorem dot_nil_right (w : List K) : dot w [] = 0 := by cases w <;> rfl
@[simp] theorem dot_cons (a b : K) (v w : List K) : dot (a :: v) (b :: w) = a * b + dot v w := rfl

theorem dot_comm (v w : List K) : dot v w = dot w v := by
  induction v generalizing w with
  | nil => simp
  | cons a v ih => cases w with
    | nil => simp
    | cons b w => simp [ih w, mul_comm]

theorem dot_append {v v' w w' : List K} (h : v.length = w.length) : dot (v ++ v') (w ++ w') = dot v w + dot v' w' := by
  induction v generalizing w with
  | nil => obtain rfl := List.length_eq_zero_iff.1 h.symm; simp
  | cons a v ih => cases w with
    | nil => simp at h
    | cons b w =>
      simp only [List.length_cons, Nat.add_right_cancel_iff] at h
      simp [ih h, add_assoc]

theorem vadd_length (v w : List K) (h : v.length = w.length) : (vadd v w).length = w.length := by simp [vadd, h]
theorem vsub_length (v w : List K) (h : v.length = w.length) : (vsub v w).length = w.length := by simp [vsub, h]
@[simp] theorem vscale_length (c : K) (v : List K) : (vscale c v).length = v.length := by simp [vscale]
@[simp] theorem zeros_length (n : Nat) : (zeros n : List K).length = n := by simp [zeros]
@[simp] theorem eyeRow_length (n i : Nat) : (eyeRow n i : List K).length = n := by simp [eyeRow]
@[simp] theorem vecMat_length (v : List K) (M : List (List K)) (m : Nat) : (vecMat v M m).length = m := by simp [vecMat]
@[simp] theorem matVec_length (M : List (List K)) (v : List K) : (matVec M v).length = M.length := by simp [matVec]

theorem dot_vadd_right {v w w' : List K} (h : w.length = w'.length) : dot v (vadd w w') = dot v w + dot v w' := by
  induction v generalizing w w' with
  | nil => simp
  | cons a v ih => cases w with
    | nil => obtain rfl := List.length_eq_zero_iff.1 h.symm; simp [vadd]
    | cons b w => cases w' with
      | nil => simp at h
      | cons b' w' =>
        simp only [List.length_cons, Nat.add_right_cancel_iff] at h
        have := ih h
        simp only [vadd, List.zipWith_cons_cons, dot_cons] at this ⊢
        rw [this]; ring

theorem dot_vscale_right (c : K) (v w : List K) : dot v (vscale c w) = c * dot v w := by
  induction v generalizing w with
  | nil => simp
  | cons a v ih => cases w with
    | nil => simp [vscale]
    | cons b w =>
      have := ih w
      simp only [vscale, List.map_cons, dot_cons] at this ⊢
      rw [this]; ring

theorem dot_vscale_left (c : K) (v w : List K) : dot (vscale c v) w = c * dot v w := by
  rw [dot_comm, dot_vscale_right, dot_comm]

theorem dot_vadd_left {v w w' : List K} (h : w.length = w'.length) : dot (vadd w w') v = dot w v + dot w' v := by
  rw [dot_comm, dot_vadd_right h, dot_comm v w, dot_comm v w']

theorem dot_neg_left (v w : List K) : dot (v.map (- ·)) w = - dot v w := by
  induction v generalizing w with
  | nil => simp
  | cons a v ih => cases w with
    | nil => simp
    | cons b w => simp only [List.map_cons, dot_cons, ih]; ring

@[simp] theorem dot_zeros_left (n : Nat) (w : List K) : dot (zeros n) w = 0 := by
  induction n generalizing w with
  | zero => simp [zeros]
  | succ n ih => cases w with
    | nil => simp
    | cons b w =>
      have := ih w
      simp only [zeros, List.replicate_succ, dot_cons] at this ⊢
      rw [this]; ring

@[simp] theorem dot_zeros_right (n : Nat) (w : List K) : dot w (zeros n) = 0 := by rw [dot_comm]; simp

theorem eyeRow_succ_zero (n : Nat) : (eyeRow (n + 1) 0 : List K) = 1 :: zeros n := by
  unfold eyeRow zeros
  rw [List.range_succ_eq_map]
  simp only [List.map_cons, if_true, List.map_map, List.cons.injEq, true_and]
  apply List.ext_getElem <;> simp

theorem eyeRow_succ_succ (n i : Nat) : (eyeRow (n + 1) (i + 1) : List K) = 0 :: eyeRow n i := by
  unfold eyeRow
  rw [List.range_succ_eq_map]
  simp [Function.comp_def]

theorem dot_eyeRow (n i : Nat) (v : List K) (hi : i < n) (hv : v.length = n) : dot (eyeRow n i) v = v.getD i 0 := by
  induction n generalizing i v with
  | zero => omega
  | succ n ih => cases v with
    | nil => simp at hv
    | cons b v =>
      simp only [List.length_cons, Nat.add_right_cancel_iff] at hv
      cases i with
      | zero => rw [eyeRow_succ_zero]; simp
      | succ i => rw [eyeRow_succ_succ]; simp [ih i v (by omega) hv]

theorem dot_map_add {α : Type} (v : α → K) (a b : α → K) (l : List α) :
    dot (l.map v) (l.map fun j => a j + b j) = dot (l.map v) (l.map a) + dot (l.map v) (l.map b) := by
  induction l with
  | nil => simp
  | cons x l ih => simp only [List.map_cons, dot_cons, ih]; ring

theorem vecMat_cons (a : K) (v : List K) (r : List K) (M : List (List K)) (m : Nat) (hr : r.length = m) :
    vecMat (a :: v) (r :: M) m = vadd (vscale a r) (vecMat v M m) := by
  apply List.ext_getElem
  · simp [vadd, hr]
  · intro i h1 h2
    simp only [vecMat_length] at h1
    simp [vecMat, vadd, vscale, hr, h1]

/-- `(v @ M) @ u = v @ (M @ u)`. -/
theorem dot_vecMat (v : List K) (M : List (List K)) (m : Nat) (u : List K) (hM : ∀ r ∈ M, r.length = m)
    (hv : v.length = M.length) (hu : u.length = m) : dot (vecMat v M m) u = dot v (matVec M u) := by
  induction v generalizing M with
  | nil =>
    have : vecMat ([] : List K) M m = zeros m := by
      apply List.ext_getElem <;> simp [vecMat, zeros]
    rw [this]; simp
  | cons a v ih => cases M with
    | nil => simp at hv
    | cons r M =>
      have hr : r.length = m := hM r (List.mem_cons_self ..)
      rw [vecMat_cons a v r M m hr, dot_vadd_left (by simp [hr]), dot_vscale_left,
        ih M (fun r' h => hM r' (List.mem_cons_of_mem _ h)) (by simpa using hv)]
      simp [matVec]

theorem dot_set_neg_one (n i : Nat) (d : List K) (hi : i < n) (hd : d.length = n) :
    dot ((zeros n).set i (-1)) d = - d.getD i 0 := by
  induction n generalizing i d with
  | zero => omega
  | succ n ih => cases d with
    | nil => simp at hd
    | cons b d =>
      simp only [List.length_cons, Nat.add_right_cancel_iff] at hd
      cases i with
      | zero =>
        simp only [zeros, List.replicate_succ, List.set_cons_zero, dot_cons]
        have := dot_zeros_left (K := K) n d
        simp only [zeros] at this
        rw [this]; simp
      | succ i =>
        have := ih i d (by omega) hd
        simp only [zeros, List.replicate_succ, List.set_cons_succ, dot_cons] at this ⊢
        rw [this]; simp

end comm

section ordered
variable [Field K] [LinearOrder K] [IsStrictOrderedRing K]

theorem sqNorm_nonneg (v : List K) : 0 ≤ sqNorm v := by
  unfold sqNorm
  induction v with
  | nil => simp
  | cons a v ih => simp only [dot_cons]; nlinarith [mul_self_nonneg a]

theorem sqNorm_eq_zero (v : List K) : sqNorm v = 0 ↔ ∀ a ∈ v, a = 0 := by
  induction v with
  | nil => simp [sqNorm]
  | cons a v ih =>
    have h1 := sqNorm_nonneg v
    have h2 := mul_self_nonneg a
    simp only [sqNorm, dot_cons, List.mem_cons, forall_eq_or_imp] at ih h1 ⊢
    constructor
    · intro h
      have ha : a * a = 0 := by linarith
      exact ⟨mul_self_eq_zero.1 ha, ih.1 (by linarith)⟩
    · rintro ⟨rfl, h⟩
      rw [ih.2 h]; simp

theorem vsub_eq_zero {v w : List K} (h : v.length = w.length) : (∀ a ∈ vsub v w, a = 0) ↔ v = w := by
  induction v generalizing w with
  | nil => obtain rfl := List.length_eq_zero_iff.1 h.symm; simp [vsub]
  | cons a v ih => cases w with
    | nil => simp at h
    | cons b w =>
      simp only [List.length_cons, Nat.add_right_cancel_iff] at h
      have := ih h
      simp only [vsub] at this
      simp only [vsub, List.zipWith_cons_cons, List.mem_cons, forall_eq_or_imp, this, List.cons.injEq, sub_eq_zero]

theorem sqNorm_vsub_pos {v w : List K} (h : v.length = w.length) (hne : v ≠ w) : 0 < sqNorm (vsub v w) := by
  rcases (sqNorm_nonneg (vsub v w)).lt_or_eq with h1 | h1
  · exact h1
  · exact absurd ((vsub_eq_zero h).1 ((sqNorm_eq_zero _).1 h1.symm)) hne

theorem sqNorm_vsub_self (v : List K) : sqNorm (vsub v v) = 0 :=
  (sqNorm_eq_zero _).2 ((vsub_eq_zero rfl).2 rfl)

theorem vsub_comm_sq (v w : List K) : sqNorm (vsub v w) = sqNorm (vsub w v) := by
  induction v generalizing w with
  | nil => simp [vsub]
  | cons a v ih => cases w with
    | nil => simp [vsub]
    | cons b w =>
      have := ih w
      simp only [sqNorm, vsub, List.zipWith_cons_cons, dot_cons] at this ⊢
      rw [this]; ring

end ordered

end RTA
