import Verif.Lemmas.ASIFCall

/-!
Costs, slack assignments and the effect of leaving out disabled constraints.
-/
set_option linter.unusedSectionVars false
namespace RTA
variable {K S P X : Type} [Field K] [LinearOrder K] [IsStrictOrderedRing K]

theorem dot_sq_nonneg {W : List K} (hW : ∀ w ∈ W, 0 < w) (d : List K) : 0 ≤ dot W (List.zipWith (· * ·) d d) := by
  induction W generalizing d with
  | nil => simp
  | cons w W ih =>
    cases d with
    | nil => simp
    | cons a d =>
      simp only [List.zipWith_cons_cons, dot_cons]
      have h1 := hW w (by simp)
      have h2 := ih (fun w hw => hW w (by simp [hw])) d
      have h3 := mul_self_nonneg a
      have := mul_nonneg h1.le h3
      linarith

theorem sqDist_nonneg (u v : List K) : 0 ≤ sqDist u v := sqNorm_nonneg _

theorem sqDist_comm (u v : List K) : sqDist u v = sqDist v u := vsub_comm_sq u v

theorem sqDist_self (u : List K) : sqDist u u = 0 := sqNorm_vsub_self u

theorem slackCost_nonneg {W : List K} (hW : ∀ w ∈ W, 0 < w) (u v d : List K) : 0 ≤ slackCost W u v d :=
  add_nonneg (sqDist_nonneg _ _) (dot_sq_nonneg hW d)

theorem zeros_sq (k : Nat) : List.zipWith (· * ·) (zeros k : List K) (zeros k) = zeros k := by
  induction k with
  | zero => rfl
  | succ k ih =>
    have : (zeros (k + 1) : List K) = 0 :: zeros k := rfl
    rw [this, List.zipWith_cons_cons, ih, mul_zero]

theorem slackCost_zeros (W : List K) (u v : List K) (k : Nat) : slackCost W u v (zeros k) = sqDist v u := by
  unfold slackCost
  rw [zeros_sq, dot_zeros_right, add_zero]

theorem slackCost_nil (u v d : List K) : slackCost [] u v d = sqDist v u := by
  unfold slackCost; simp

theorem qpWeights_pos [HasSqrt K] [LawfulSqrt K] {s : ASIFObj K S P X} (hpos : ScalesPos s.constraints) :
    ∀ w ∈ qpWeights s, 0 < w := by
  intro w hw
  obtain ⟨q, hq, rfl⟩ := List.mem_map.1 hw
  have h0 := hpos q hq
  rcases (LawfulSqrt.nonneg q h0.le).lt_or_eq with h | h
  · exact h
  · have := LawfulSqrt.mul_self q h0.le
    rw [← h, mul_zero] at this
    exact absurd this.symm h0.ne'

/-- Without slack every constraint gets slack zero. -/
theorem assignSlack_zeros (cs : Dict (Constraint K S P)) (k : Nat) :
    assignSlack cs (zeros k : List K) = cs.map fun kc => (kc.2, 0) := by
  induction cs generalizing k with
  | nil => rfl
  | cons kc cs ih =>
    obtain ⟨q, c⟩ := kc
    unfold assignSlack
    split
    · cases k with
      | zero => simp [zeros, show assignSlack cs ([] : List K) = _ from ih 0]
      | succ k =>
        have : (zeros (k + 1) : List K) = 0 :: zeros k := rfl
        rw [this]
        simp [ih k]
    · simp [ih k]

theorem admissible_iff_zeros {f : S → List K} {g : S → List (List K)} {s : ASIFObj K S P X} {x : S} {u : List K} :
    Admissible f g s x u ↔ AdmissibleS f g s x u (zeros (slackScales s.constraints).length) := by
  constructor
  · intro h
    refine ⟨h.len, by simp, h.bounds, ?_, h.direct⟩
    rw [assignSlack_zeros]
    intro cd hcd hen
    obtain ⟨kc, hkc, rfl⟩ := List.mem_map.1 hcd
    exact h.barrier kc hkc hen
  · intro h
    refine ⟨h.len, h.bounds, ?_, h.direct⟩
    have hb := h.barrier
    rw [assignSlack_zeros] at hb
    intro kc hkc hen
    exact hb (kc.2, 0) (List.mem_map.2 ⟨kc, hkc, rfl⟩) hen

theorem admissibleS_noslack {f : S → List K} {g : S → List (List K)} {s : ASIFObj K S P X} {x : S} {u d : List K}
    (hns : slackScales s.constraints = []) : AdmissibleS f g s x u d ↔ d = [] ∧ Admissible f g s x u := by
  rw [admissible_iff_zeros, hns]
  constructor
  · intro h
    have := h.slen
    rw [hns, List.length_nil, List.length_eq_zero_iff] at this
    subst this
    exact ⟨rfl, h⟩
  · rintro ⟨rfl, h⟩
    exact h

/-! ### Disabled constraints -/

/-- The enabled part of a constraint dictionary. -/
def onlyEnabled (cs : Dict (Constraint K S P)) : Dict (Constraint K S P) := cs.filter fun kc => kc.2.enabled

/-- The slack values of the enabled constraints. -/
def projSlack : Dict (Constraint K S P) → List K → List K
  | [], _ => []
  | (_, c) :: cs, d =>
    if c.slackPriorityScale.isSome then
      if c.enabled then d.headD 0 :: projSlack cs d.tail else projSlack cs d.tail
    else projSlack cs d

/-- Zero slack added for the disabled constraints. -/
def embedSlack : Dict (Constraint K S P) → List K → List K
  | [], _ => []
  | (_, c) :: cs, d =>
    if c.slackPriorityScale.isSome then
      if c.enabled then d.headD 0 :: embedSlack cs d.tail else 0 :: embedSlack cs d
    else embedSlack cs d

theorem slackScales_cons (q : String) (c : Constraint K S P) (cs : Dict (Constraint K S P)) :
    slackScales ((q, c) :: cs) = match c.slackPriorityScale with
      | none => slackScales cs
      | some w => w :: slackScales cs := by
  unfold slackScales
  rw [List.filterMap_cons]
  rcases c.slackPriorityScale with _ | w <;> rfl

theorem projSlack_length (cs : Dict (Constraint K S P)) (d : List K) :
    (projSlack cs d).length = (slackScales (onlyEnabled cs)).length := by
  induction cs generalizing d with
  | nil => rfl
  | cons kc cs ih =>
    obtain ⟨q, c⟩ := kc
    unfold projSlack onlyEnabled
    rcases hs : c.slackPriorityScale with _ | w <;> cases he : c.enabled <;>
      simp [he, slackScales_cons, hs, ih, onlyEnabled]

theorem embedSlack_length (cs : Dict (Constraint K S P)) (d : List K) :
    (embedSlack cs d).length = (slackScales cs).length := by
  induction cs generalizing d with
  | nil => rfl
  | cons kc cs ih =>
    obtain ⟨q, c⟩ := kc
    unfold embedSlack
    rcases hs : c.slackPriorityScale with _ | w <;> cases he : c.enabled <;>
      simp [slackScales_cons, hs, ih]

theorem assignSlack_proj (cs : Dict (Constraint K S P)) (d : List K) :
    assignSlack (onlyEnabled cs) (projSlack cs d) = (assignSlack cs d).filter fun cd => cd.1.enabled := by
  induction cs generalizing d with
  | nil => rfl
  | cons kc cs ih =>
    obtain ⟨q, c⟩ := kc
    rcases hs : c.slackPriorityScale with _ | w <;> cases he : c.enabled <;>
      simp [onlyEnabled, projSlack, assignSlack, hs, he] <;> exact ih _

theorem assignSlack_embed (cs : Dict (Constraint K S P)) (d : List K) :
    (assignSlack cs (embedSlack cs d)).filter (fun cd => cd.1.enabled) = assignSlack (onlyEnabled cs) d := by
  induction cs generalizing d with
  | nil => rfl
  | cons kc cs ih =>
    obtain ⟨q, c⟩ := kc
    rcases hs : c.slackPriorityScale with _ | w <;> cases he : c.enabled <;>
      simp [onlyEnabled, embedSlack, assignSlack, hs, he] <;> exact ih _

theorem cost_proj (φ : K → K) (cs : Dict (Constraint K S P)) (hpos : ∀ w ∈ slackScales cs, 0 < φ w) (d : List K)
    (hd : d.length = (slackScales cs).length) :
    dot ((slackScales (onlyEnabled cs)).map φ) (List.zipWith (· * ·) (projSlack cs d) (projSlack cs d)) ≤
      dot ((slackScales cs).map φ) (List.zipWith (· * ·) d d) := by
  induction cs generalizing d with
  | nil => simp [slackScales, onlyEnabled]
  | cons kc cs ih =>
    obtain ⟨q, c⟩ := kc
    rcases hs : c.slackPriorityScale with _ | w
    · have e : slackScales ((q, c) :: cs) = slackScales cs := by rw [slackScales_cons, hs]
      rw [e] at hpos hd ⊢
      have := ih hpos d hd
      cases he : c.enabled
      · simpa [onlyEnabled, projSlack, hs, he] using this
      · simpa [onlyEnabled, projSlack, hs, he, slackScales_cons] using this
    · have e : slackScales ((q, c) :: cs) = w :: slackScales cs := by rw [slackScales_cons, hs]
      rw [e] at hpos hd ⊢
      cases d with
      | nil => simp at hd
      | cons a d =>
        have := ih (fun w hw => hpos w (by simp [hw])) d (by simpa using hd)
        have hw := hpos w (by simp)
        have ha := mul_nonneg hw.le (mul_self_nonneg a)
        cases he : c.enabled
        · simp only [onlyEnabled, projSlack, hs, he, Option.isSome_some, if_true, List.tail_cons, List.map_cons,
            List.zipWith_cons_cons, dot_cons, List.filter_cons, Bool.false_eq_true, if_false] at this ⊢
          linarith
        · simp only [onlyEnabled, projSlack, hs, he, Option.isSome_some, if_true, List.tail_cons, List.headD_cons, List.map_cons,
            List.zipWith_cons_cons, dot_cons, List.filter_cons, slackScales_cons] at this ⊢
          linarith

theorem cost_embed (φ : K → K) (cs : Dict (Constraint K S P)) (d : List K)
    (hd : d.length = (slackScales (onlyEnabled cs)).length) :
    dot ((slackScales cs).map φ) (List.zipWith (· * ·) (embedSlack cs d) (embedSlack cs d)) =
      dot ((slackScales (onlyEnabled cs)).map φ) (List.zipWith (· * ·) d d) := by
  induction cs generalizing d with
  | nil => simp [slackScales, onlyEnabled]
  | cons kc cs ih =>
    obtain ⟨q, c⟩ := kc
    rcases hs : c.slackPriorityScale with _ | w
    · have e : slackScales ((q, c) :: cs) = slackScales cs := by rw [slackScales_cons, hs]
      have e2 : slackScales (onlyEnabled ((q, c) :: cs)) = slackScales (onlyEnabled cs) := by
        cases he : c.enabled <;> simp [onlyEnabled, he, slackScales_cons, hs]
      rw [e2] at hd ⊢
      rw [e]
      have := ih d hd
      simpa [embedSlack, hs] using this
    · have e : slackScales ((q, c) :: cs) = w :: slackScales cs := by rw [slackScales_cons, hs]
      cases he : c.enabled
      · have e2 : onlyEnabled ((q, c) :: cs) = onlyEnabled cs := by simp [onlyEnabled, he]
        rw [e2] at hd ⊢
        rw [e]
        have := ih d hd
        simp only [embedSlack, hs, he, Option.isSome_some, if_true, Bool.false_eq_true, if_false, List.map_cons,
          List.zipWith_cons_cons, dot_cons, mul_zero, zero_add]
        exact this
      · have e2 : onlyEnabled ((q, c) :: cs) = (q, c) :: onlyEnabled cs := by simp [onlyEnabled, he]
        have e3 : slackScales ((q, c) :: onlyEnabled cs) = w :: slackScales (onlyEnabled cs) := by rw [slackScales_cons, hs]
        rw [e2, e3] at hd ⊢
        rw [e]
        cases d with
        | nil => simp at hd
        | cons a d =>
          have := ih d (by simpa using hd)
          simp only [embedSlack, hs, he, Option.isSome_some, if_true, List.map_cons, List.headD_cons, List.tail_cons,
            List.zipWith_cons_cons, dot_cons]
          rw [this]

end RTA
