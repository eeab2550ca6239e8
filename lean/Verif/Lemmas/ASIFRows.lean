import Verif.Lemmas.QP
import Verif.Lemmas.Modules

/-!
What the inequality rows of the optimisation modules say.
-/
set_option linter.unusedSectionVars false
namespace RTA
variable {K S P X : Type} [Field K] [LinearOrder K] [IsStrictOrderedRing K]

/-! ### Bounds -/

theorem lowerBoundVec_spec {b : Bound K} {n : Nat} {l : List K} (h : lowerBoundVec b n = .ok l) :
    l.length = n ∧ ∀ i, i < n → boundAt (some b) i = some (l.getD i 0) := by
  unfold lowerBoundVec at h
  have harr : ∀ (j : Bool) (l : List K), l.length = n → ∀ i, i < n → boundAt (some (.arr j l)) i = some (l.getD i 0) := by
    intro j l hl i hi
    match l, hl with
    | [], hl => simp at hl; omega
    | [a], hl =>
      simp only [List.length_singleton] at hl
      obtain rfl : i = 0 := by omega
      rfl
    | a :: b :: l, hl =>
      have : i < (a :: b :: l).length := by omega
      simp only [boundAt]
      rw [List.getD_eq_getElem?_getD, List.getElem?_eq_getElem this]
      rfl
  cases b with
  | scalar b =>
    simp only [Except.ok.injEq] at h
    subst h
    refine ⟨by simp, fun i hi => ?_⟩
    simp [boundAt, List.getD_eq_getElem?_getD, hi]
  | arr j l' =>
    cases j with
    | true =>
      simp only at h
      split at h
      · rename_i hl
        simp only [Except.ok.injEq] at h
        subst h
        exact ⟨hl, harr true l' hl⟩
      · simp at h
    | false =>
      simp only at h
      split at h
      · rename_i hl
        simp only [Except.ok.injEq] at h
        subst h
        exact ⟨hl, harr false l' hl⟩
      · split at h
        · rename_i hl
          simp only [Except.ok.injEq] at h
          match l', hl with
          | [a], _ =>
            simp only [bcastTo] at h
            subst h
            refine ⟨by simp, fun i hi => ?_⟩
            simp [boundAt, List.getD_eq_getElem?_getD, hi]
        · simp at h

theorem lowRows_iff {b : List K} {n k : Nat} {u d : List K} (hu : u.length = n) :
    (∀ r ∈ lowRows b n k, RowHolds r (u ++ d)) ↔ ∀ i, i < n → b.getD i 0 ≤ u.getD i 0 := by
  unfold lowRows RowHolds
  simp only [List.mem_map, List.mem_range, forall_exists_index, and_imp, forall_apply_eq_imp_iff₂]
  refine forall₂_congr fun i hi => ?_
  rw [dot_append (by simp [hu]), dot_zeros_left, dot_eyeRow n i u hi hu, add_zero]

theorem highRows_iff {b : List K} {n k : Nat} {u d : List K} (hu : u.length = n) :
    (∀ r ∈ highRows b n k, RowHolds r (u ++ d)) ↔ ∀ i, i < n → u.getD i 0 ≤ b.getD i 0 := by
  unfold highRows RowHolds
  simp only [List.mem_map, List.mem_range, forall_exists_index, and_imp, forall_apply_eq_imp_iff₂]
  refine forall₂_congr fun i hi => ?_
  rw [dot_append (by simp [hu]), dot_zeros_left, dot_neg_left, dot_eyeRow n i u hi hu, add_zero, neg_le_neg_iff]

theorem within_iff {lo hi : Option (Bound K)} {u : List K} :
    Within lo hi u ↔ (∀ i, i < u.length → ∀ b, boundAt lo i = some b → b ≤ u.getD i 0) ∧
      (∀ i, i < u.length → ∀ b, boundAt hi i = some b → u.getD i 0 ≤ b) := by
  unfold Within WithinAt
  have key : ∀ i, i < u.length → u[i]? = some (u.getD i 0) := by
    intro i hi; simp [List.getD_eq_getElem?_getD, hi]
  constructor
  · intro h
    exact ⟨fun i hi => (h i _ (key i hi)).1, fun i hi => (h i _ (key i hi)).2⟩
  · rintro ⟨h1, h2⟩ i v hv
    have hi : i < u.length := by
      by_contra hc
      rw [List.getElem?_eq_none (by omega)] at hv
      simp at hv
    rw [key i hi] at hv
    simp only [Option.some.injEq] at hv
    subst hv
    exact ⟨h1 i hi, h2 i hi⟩

theorem actuation_iff {lo hi : Option (Bound K)} {n k : Nat} {rows : List (Row K)} {names : List String}
    (h : actuationMats lo hi n k = .ok (rows, names)) {u d : List K} (hu : u.length = n) :
    (∀ r ∈ rows, RowHolds r (u ++ d)) ↔ Within lo hi u := by
  rw [within_iff, hu]
  have low : ∀ {b : Bound K} {l : List K}, lowerBoundVec b n = .ok l →
      ((∀ r ∈ lowRows l n k, RowHolds r (u ++ d)) ↔ ∀ i, i < n → ∀ c, boundAt (some b) i = some c → c ≤ u.getD i 0) := by
    intro b l hl
    rw [lowRows_iff hu]
    refine forall₂_congr fun i hi => ?_
    rw [(lowerBoundVec_spec hl).2 i hi]
    simp
  have high : ∀ {b : Bound K} {l : List K}, lowerBoundVec b n = .ok l →
      ((∀ r ∈ highRows l n k, RowHolds r (u ++ d)) ↔ ∀ i, i < n → ∀ c, boundAt (some b) i = some c → u.getD i 0 ≤ c) := by
    intro b l hl
    rw [highRows_iff hu]
    refine forall₂_congr fun i hi => ?_
    rw [(lowerBoundVec_spec hl).2 i hi]
    simp
  unfold actuationMats at h
  cases lo with
  | none =>
    cases hi with
    | none =>
      simp only [Except.ok.injEq, Prod.mk.injEq] at h
      obtain ⟨rfl, rfl⟩ := h
      simp [boundAt]
    | some b =>
      simp only at h
      rcases hl : lowerBoundVec b n with e | l
      · simp [hl] at h
      · simp only [hl, Except.ok.injEq, Prod.mk.injEq, List.nil_append] at h
        obtain ⟨rfl, rfl⟩ := h
        rw [high hl]
        simp [boundAt]
  | some b =>
    rcases hl : lowerBoundVec b n with e | l
    · simp [hl] at h
    · cases hi with
      | none =>
        simp only [hl, Except.ok.injEq, Prod.mk.injEq] at h
        obtain ⟨rfl, rfl⟩ := h
        rw [low hl]
        simp [boundAt]
      | some b' =>
        rcases hl' : lowerBoundVec b' n with e | l'
        · simp [hl, hl'] at h
        · simp only [hl, hl', Except.ok.injEq, Prod.mk.injEq] at h
          obtain ⟨rfl, rfl⟩ := h
          simp only [List.mem_append, or_imp, forall_and]
          rw [low hl, high hl']

theorem actuation_width {lo hi : Option (Bound K)} {n k : Nat} {rows : List (Row K)} {names : List String}
    (h : actuationMats lo hi n k = .ok (rows, names)) :
    (∀ r ∈ rows, r.w.length = n + k) ∧ rows.length = names.length := by
  have low : ∀ l : List K, ∀ r ∈ lowRows l n k, r.w.length = n + k := by
    intro l r hr
    simp only [lowRows, List.mem_map] at hr
    obtain ⟨i, _, rfl⟩ := hr
    simp
  have high : ∀ l : List K, ∀ r ∈ highRows l n k, r.w.length = n + k := by
    intro l r hr
    simp only [highRows, List.mem_map] at hr
    obtain ⟨i, _, rfl⟩ := hr
    simp
  have ln : ∀ (l : List K) (s : String), (lowRows l n k).length = (actuationNames s n).length := by
    intro l s; simp [lowRows, actuationNames]
  have hn : ∀ (l : List K) (s : String), (highRows l n k).length = (actuationNames s n).length := by
    intro l s; simp [highRows, actuationNames]
  unfold actuationMats at h
  cases lo with
  | none =>
    cases hi with
    | none =>
      simp only [Except.ok.injEq, Prod.mk.injEq] at h
      obtain ⟨rfl, rfl⟩ := h
      simp
    | some b =>
      simp only at h
      rcases hl : lowerBoundVec b n with e | l
      · simp [hl] at h
      · simp only [hl, Except.ok.injEq, Prod.mk.injEq, List.nil_append] at h
        obtain ⟨rfl, rfl⟩ := h
        exact ⟨high l, hn l _⟩
  | some b =>
    rcases hl : lowerBoundVec b n with e | l
    · simp [hl] at h
    · cases hi with
      | none =>
        simp only [hl, Except.ok.injEq, Prod.mk.injEq] at h
        obtain ⟨rfl, rfl⟩ := h
        exact ⟨low l, ln l _⟩
      | some b' =>
        rcases hl' : lowerBoundVec b' n with e | l'
        · simp [hl, hl'] at h
        · simp only [hl, hl', Except.ok.injEq, Prod.mk.injEq] at h
          obtain ⟨rfl, rfl⟩ := h
          refine ⟨?_, by rw [List.length_append, List.length_append, ln l "_min", hn l' "_max"]⟩
          intro r hr
          rcases List.mem_append.1 hr with h | h
          · exact low l r h
          · exact high l' r h

/-! ### Barrier rows -/

theorem alphaTerm_spec {c : Constraint K S P} {h a : K} (ha : alphaTerm c h = .ok a) :
    ∃ al, c.alpha = some al ∧ a = strengthening c al h := by
  unfold strengthening
  unfold alphaTerm Constraint.alphaAt Constraint.alphaNegAt at ha
  rcases hal : c.alpha with _ | al
  · simp [hal] at ha
  · refine ⟨al, rfl, ?_⟩
    simp only [hal] at ha
    rcases han : c.alphaNeg with _ | an
    · simp only [han, Except.ok.injEq] at ha
      rw [← ha]
      by_cases hh : h < 0
      · simp [hh, not_le.2 hh, mul_comm]
      · simp [hh, not_lt.1 hh]
    · simp only [han, Except.ok.injEq] at ha
      rw [← ha]
      by_cases hh : h < 0
      · simp [hh, not_le.2 hh]
      · simp [hh, not_lt.1 hh]

/-- Margin of a row at a point. -/
def margin (r : Row K) (z : List K) : K := dot r.w z - r.b

theorem rowHolds_margin (r : Row K) (z : List K) : RowHolds r z ↔ 0 ≤ margin r z := by
  unfold RowHolds margin; exact sub_nonneg.symm

/-- A row that does not restrict anything. -/
def ZeroRow (r : Row K) : Prop := r.b = 0 ∧ ∀ w ∈ r.w, w = 0

theorem dot_allzero {w : List K} (h : ∀ a ∈ w, a = 0) (z : List K) : dot w z = 0 := by
  induction w generalizing z with
  | nil => simp
  | cons a w ih => cases z with
    | nil => simp
    | cons b z =>
      have h0 : a = 0 := h a (by simp)
      rw [dot_cons, h0, ih (fun a ha => h a (by simp [ha]))]
      ring

theorem zeroRow_holds {r : Row K} (h : ZeroRow r) (z : List K) : RowHolds r z := by
  unfold RowHolds
  rw [h.1, dot_allzero h.2]

theorem zeroRow_zeros (m : Nat) : ZeroRow (⟨zeros m, 0⟩ : Row K) := ⟨rfl, by simp [zeros]⟩

/-- A generated barrier row measures the barrier condition. -/
theorem barrierRow_margin {f : S → List K} {g : S → List (List K)} {c : Constraint K S P} {x : S} {n k sc : Nat}
    (hg : ¬ ((c.gradFn x c.params).length ≠ (g x).length ∨ (c.gradFn x c.params).length ≠ (f x).length ∨
      ∃ r ∈ g x, r.length ≠ n)) {a : K} (ha : alphaTerm c (c.compute x c.params) = .ok a)
    {u d : List K} (hu : u.length = n) (hd : d.length = k) (hsc : c.slackPriorityScale.isSome = true → sc < k) :
    barrierValue f g c x u = some (margin ⟨vecMat (c.gradFn x c.params) (g x) n ++
        (if c.slackPriorityScale.isSome then (zeros k).set sc (-1) else zeros k),
      -(dot (c.gradFn x c.params) (f x)) - a⟩ (u ++ d) + (if c.slackPriorityScale.isSome then d.getD sc 0 else 0)) := by
  simp only [not_or, ne_eq, not_not, not_exists, not_and] at hg
  obtain ⟨h1, h2, h3⟩ := hg
  obtain ⟨al, hal, hae⟩ := alphaTerm_spec ha
  have hlen : (f x).length = (matVec (g x) u).length := by rw [matVec_length, ← h1, h2]
  have e1 : dot (vecMat (c.gradFn x c.params) (g x) n) u = dot (c.gradFn x c.params) (matVec (g x) u) :=
    dot_vecMat _ _ _ _ h3 h1 hu
  have e2 := dot_vadd_right (v := c.gradFn x c.params) hlen
  unfold barrierValue margin
  rw [hal, Option.map_some, dot_append (by simp [hu]), e1, e2]
  unfold Constraint.compute at hae
  rw [← hae]
  congr 1
  by_cases hs : c.slackPriorityScale.isSome = true
  · simp only [hs, if_true]
    rw [dot_set_neg_one k sc d (hsc hs) hd]
    ring
  · simp only [hs]
    rw [if_neg (by simp), if_neg (by simp), dot_zeros_left]
    ring

/-- What a row must satisfy to represent constraint `cd.1` with slack value `cd.2`. -/
def RepBarrier (f : S → List K) (g : S → List (List K)) (x : S) (u d : List K) (r : Row K) (cd : Constraint K S P × K) : Prop :=
  if cd.1.enabled then barrierValue f g cd.1 x u = some (margin r (u ++ d) + cd.2) else ZeroRow r

theorem rep_holds {f : S → List K} {g : S → List (List K)} {x : S} {u d : List K} {r : Row K} {cd : Constraint K S P × K}
    (h : RepBarrier f g x u d r cd) : RowHolds r (u ++ d) ↔ (cd.1.enabled = true → BarrierOK f g cd.1 x u cd.2) := by
  unfold RepBarrier at h
  by_cases hen : cd.1.enabled = true
  · simp only [hen, if_true, forall_const] at h ⊢
    rw [rowHolds_margin]
    unfold BarrierOK
    rw [h]
    simp
  · simp only [hen] at h
    exact ⟨fun _ h' => absurd h' hen, fun _ => zeroRow_holds h _⟩

theorem rep_tight {f : S → List K} {g : S → List (List K)} {x : S} {u d : List K} {r : Row K} {cd : Constraint K S P × K}
    (h : RepBarrier f g x u d r cd) (hnz : ∃ w ∈ r.w, w ≠ 0) (ht : dot r.w (u ++ d) = r.b) :
    cd.1.enabled = true ∧ barrierValue f g cd.1 x u = some cd.2 := by
  unfold RepBarrier at h
  by_cases hen : cd.1.enabled = true
  · simp only [hen, if_true] at h
    refine ⟨hen, ?_⟩
    rw [h]
    simp [margin, ht]
  · simp only [hen] at h
    obtain ⟨w, hw, hw0⟩ := hnz
    exact absurd (h.2 w hw) hw0

/-- The rows of the barrier loop, one per constraint, in order. -/
theorem explicitRows_spec {f : S → List K} {g : S → List (List K)} {params : Dict P} {en : Dict Bool} {n k : Nat} {x : S}
    (cs : Dict (Constraint K S P)) (hp : ∀ kc ∈ cs, dictGet params kc.1 = some kc.2.params)
    (he : ∀ kc ∈ cs, dictGet en kc.1 = some kc.2.enabled) (sc : Nat)
    (hk : sc + (slackScales cs).length ≤ k) {rows : List (Row K)}
    (h : explicitRows f g params en n k x sc cs = .ok rows) :
    (∀ r ∈ rows, r.w.length = n + k) ∧
    ∀ u d : List K, u.length = n → d.length = k →
      List.Forall₂ (RepBarrier f g x u d) rows (assignSlack cs (d.drop sc)) := by
  induction cs generalizing sc rows with
  | nil =>
    simp only [explicitRows, Except.ok.injEq] at h
    subst h
    exact ⟨by simp, fun u d _ _ => List.Forall₂.nil⟩
  | cons kc cs ih =>
    obtain ⟨q, c⟩ := kc
    have hpq := hp (q, c) (by simp)
    have heq := he (q, c) (by simp)
    simp only at hpq heq
    unfold explicitRows at h
    simp only [hpq, heq] at h
    split at h
    · simp at h
    · rename_i hg
      rcases ha : alphaTerm c (c.compute x c.params) with e | a
      · simp [ha] at h
      · simp only [ha] at h
        have hsl : (slackScales ((q, c) :: cs)).length =
            (if c.slackPriorityScale.isSome then 1 else 0) + (slackScales cs).length := by
          unfold slackScales
          rcases hs : c.slackPriorityScale with _ | w <;> simp [hs, Nat.add_comm]
        rcases hr : explicitRows f g params en n k x (if c.slackPriorityScale.isSome then sc + 1 else sc) cs with e | rs
        · simp [hr] at h
        · simp only [hr, Except.ok.injEq] at h
          have hk' : (if c.slackPriorityScale.isSome then sc + 1 else sc) + (slackScales cs).length ≤ k := by
            rw [hsl] at hk
            split <;> simp_all
            omega
          obtain ⟨iw, ih'⟩ := ih (fun kc hkc => hp kc (by simp [hkc])) (fun kc hkc => he kc (by simp [hkc])) _ hk' hr
          have hsc : c.slackPriorityScale.isSome = true → sc < k := by
            intro hs; rw [hsl] at hk; simp [hs] at hk; omega
          subst h
          refine ⟨?_, ?_⟩
          · intro r hr'
            rcases List.mem_cons.1 hr' with rfl | hr'
            · by_cases hen : c.enabled = true
              · simp only [hen, if_true]
                split <;> simp
              · simp [hen]
            · exact iw r hr'
          · intro u d hu hd
            have tl := ih' u d hu hd
            have hd0 : d.getD sc 0 = (d.drop sc).headD 0 := by
              rw [List.headD_eq_head?_getD, List.head?_drop, List.getD_eq_getElem?_getD]
            have main : RepBarrier f g x u d (if c.enabled then
                (⟨vecMat (c.gradFn x c.params) (g x) n ++
                  (if c.slackPriorityScale.isSome then (zeros k).set sc (-1) else zeros k),
                  -(dot (c.gradFn x c.params) (f x)) - a⟩ : Row K) else ⟨zeros (n + k), 0⟩)
                (c, if c.slackPriorityScale.isSome then d.getD sc 0 else 0) := by
              unfold RepBarrier
              by_cases hen : c.enabled = true
              · simp only [hen, if_true]
                exact barrierRow_margin hg ha hu hd hsc
              · simp only [hen]
                exact zeroRow_zeros _
            by_cases hs : c.slackPriorityScale.isSome = true
            · simp only [assignSlack, hs, if_true] at tl main ⊢
              rw [hd0] at main
              refine List.Forall₂.cons main ?_
              rw [List.tail_drop]
              exact tl
            · simp only [assignSlack, hs] at tl main ⊢
              exact List.Forall₂.cons main tl

theorem forall₂_all {α β : Type} {R : α → Prop} {Q : β → Prop} {l : List α} {m : List β}
    (h : List.Forall₂ (fun a b => R a ↔ Q b) l m) : (∀ a ∈ l, R a) ↔ ∀ b ∈ m, Q b := by
  induction h with
  | nil => simp
  | cons hab _ ih => simp [hab, ih]

/-- What a row must satisfy to represent a direct inequality. -/
def RepDirect (x : S) (u d : List K) (r : Row K) (kc : String × DirectConstraint K S P) : Prop :=
  if kc.2.enabled then margin r (u ++ d) = dot (kc.2.ineqWeight x kc.2.params) u - kc.2.ineqConstant x kc.2.params
  else ZeroRow r

theorem repD_holds {x : S} {u d : List K} {r : Row K} {kc : String × DirectConstraint K S P}
    (h : RepDirect x u d r kc) : RowHolds r (u ++ d) ↔ (kc.2.enabled = true → DirectOK kc.2 x u) := by
  unfold RepDirect at h
  by_cases hen : kc.2.enabled = true
  · simp only [hen, if_true, forall_const] at h ⊢
    rw [rowHolds_margin, h]
    unfold DirectOK
    exact sub_nonneg
  · simp only [hen] at h
    exact ⟨fun _ h' => absurd h' hen, fun _ => zeroRow_holds h _⟩

theorem repD_tight {x : S} {u d : List K} {r : Row K} {kc : String × DirectConstraint K S P}
    (h : RepDirect x u d r kc) (hnz : ∃ w ∈ r.w, w ≠ 0) (ht : dot r.w (u ++ d) = r.b) :
    kc.2.enabled = true ∧ dot (kc.2.ineqWeight x kc.2.params) u = kc.2.ineqConstant x kc.2.params := by
  unfold RepDirect at h
  by_cases hen : kc.2.enabled = true
  · simp only [hen, if_true] at h
    refine ⟨hen, ?_⟩
    have : margin r (u ++ d) = 0 := by simp [margin, ht]
    rw [this] at h
    linarith
  · simp only [hen] at h
    obtain ⟨w, hw, hw0⟩ := hnz
    exact absurd (h.2 w hw) hw0

/-- The rows of the direct inequalities. -/
theorem directRows_spec {params : Dict P} {en : Dict Bool} {n k : Nat} {x : S} (ds : Dict (DirectConstraint K S P))
    (hp : ∀ kc ∈ ds, dictGet params kc.1 = some kc.2.params) (he : ∀ kc ∈ ds, dictGet en kc.1 = some kc.2.enabled)
    {rows : List (Row K)} (h : directRows params en n k x ds = .ok rows) :
    (∀ r ∈ rows, r.w.length = n + k) ∧
    ∀ u d : List K, u.length = n → d.length = k → List.Forall₂ (RepDirect x u d) rows ds := by
  induction ds generalizing rows with
  | nil =>
    simp only [directRows, Except.ok.injEq] at h
    subst h
    exact ⟨by simp, fun u d _ _ => List.Forall₂.nil⟩
  | cons kc ds ih =>
    obtain ⟨q, c⟩ := kc
    have hpq := hp (q, c) (by simp)
    have heq := he (q, c) (by simp)
    simp only at hpq heq
    unfold directRows at h
    simp only [hpq, heq] at h
    split at h
    · simp at h
    · rename_i hg
      simp only [not_not] at hg
      rcases hr : directRows params en n k x ds with e | rs
      · simp [hr] at h
      · simp only [hr, Except.ok.injEq] at h
        obtain ⟨iw, ih'⟩ := ih (fun kc hkc => hp kc (by simp [hkc])) (fun kc hkc => he kc (by simp [hkc])) hr
        subst h
        refine ⟨?_, ?_⟩
        · intro r hr'
          rcases List.mem_cons.1 hr' with rfl | hr'
          · by_cases hen : c.enabled = true
            · simp [hen, hg]
            · simp [hen]
          · exact iw r hr'
        · intro u d hu hd
          refine List.Forall₂.cons ?_ (ih' u d hu hd)
          unfold RepDirect
          by_cases hen : c.enabled = true
          · simp only [hen, if_true]
            unfold margin
            rw [dot_append (hg.trans hu.symm), dot_zeros_left, add_zero]
          · simp only [hen]
            exact zeroRow_zeros _

/-! ### Rows under their names -/

/-- A named row represents a condition at the point `(u, d)`. -/
def RepCond (u d : List K) (nr : String × Row K) (c : Cond) : Prop :=
  nr.1 = c.label ∧ (RowHolds nr.2 (u ++ d) ↔ c.holds) ∧
    ((∃ w ∈ nr.2.w, w ≠ 0) → dot nr.2.w (u ++ d) = nr.2.b → c.tight)

theorem forall₂_zip_range {α β γ : Type} {R : α × β → γ → Prop} {n : Nat} {fa : Nat → α} {fb : Nat → β} {fc : Nat → γ}
    (h : ∀ i, i < n → R (fa i, fb i) (fc i)) :
    List.Forall₂ R (((List.range n).map fa).zip ((List.range n).map fb)) ((List.range n).map fc) := by
  rw [List.zip_map', List.forall₂_map_left_iff, List.forall₂_map_right_iff]
  exact List.forall₂_same.2 fun i hi => h i (List.mem_range.1 hi)

theorem lowRows_rep {b : Bound K} {n k : Nat} {l : List K} (hl : lowerBoundVec b n = .ok l) {u d : List K} (hu : u.length = n) :
    List.Forall₂ (RepCond u d) ((actuationNames "_min" n).zip (lowRows l n k)) (lowConds (some b) n u) := by
  unfold actuationNames lowRows lowConds
  simp only [Option.isSome_some, if_true]
  refine forall₂_zip_range fun i hi => ⟨rfl, ?_, ?_⟩
  · unfold RowHolds
    simp only
    rw [dot_append (by simp [hu]), dot_zeros_left, dot_eyeRow n i u hi hu, add_zero, (lowerBoundVec_spec hl).2 i hi]
    simp
  · intro _ ht
    simp only at ht ⊢
    rw [dot_append (by simp [hu]), dot_zeros_left, dot_eyeRow n i u hi hu, add_zero] at ht
    rw [(lowerBoundVec_spec hl).2 i hi, ht]

theorem highRows_rep {b : Bound K} {n k : Nat} {l : List K} (hl : lowerBoundVec b n = .ok l) {u d : List K} (hu : u.length = n) :
    List.Forall₂ (RepCond u d) ((actuationNames "_max" n).zip (highRows l n k)) (highConds (some b) n u) := by
  unfold actuationNames highRows highConds
  simp only [Option.isSome_some, if_true]
  refine forall₂_zip_range fun i hi => ⟨rfl, ?_, ?_⟩
  · unfold RowHolds
    simp only
    rw [dot_append (by simp [hu]), dot_zeros_left, dot_neg_left, dot_eyeRow n i u hi hu, add_zero, (lowerBoundVec_spec hl).2 i hi]
    simp
  · intro _ ht
    simp only at ht ⊢
    rw [dot_append (by simp [hu]), dot_zeros_left, dot_neg_left, dot_eyeRow n i u hi hu, add_zero, neg_inj] at ht
    rw [(lowerBoundVec_spec hl).2 i hi, ht]

theorem forall₂_zip_append {α β γ : Type} {R : α × β → γ → Prop} {a a' : List α} {b b' : List β} {c c' : List γ}
    (hl : a.length = b.length) (h : List.Forall₂ R (a.zip b) c) (h' : List.Forall₂ R (a'.zip b') c') :
    List.Forall₂ R ((a ++ a').zip (b ++ b')) (c ++ c') := by
  rw [List.zip_append hl]
  exact List.rel_append h h'

theorem actuation_rep {lo hi : Option (Bound K)} {n k : Nat} {rows : List (Row K)} {names : List String}
    (h : actuationMats lo hi n k = .ok (rows, names)) {u d : List K} (hu : u.length = n) :
    List.Forall₂ (RepCond u d) (names.zip rows) (lowConds lo n u ++ highConds hi n u) := by
  unfold actuationMats at h
  cases lo with
  | none =>
    have el : lowConds (none : Option (Bound K)) n u = [] := rfl
    rw [el, List.nil_append]
    cases hi with
    | none =>
      simp only [Except.ok.injEq, Prod.mk.injEq] at h
      obtain ⟨rfl, rfl⟩ := h
      exact List.Forall₂.nil
    | some b =>
      simp only at h
      rcases hl : lowerBoundVec b n with e | l
      · simp [hl] at h
      · simp only [hl, Except.ok.injEq, Prod.mk.injEq, List.nil_append] at h
        obtain ⟨rfl, rfl⟩ := h
        exact highRows_rep hl hu
  | some b =>
    rcases hl : lowerBoundVec b n with e | l
    · simp [hl] at h
    · cases hi with
      | none =>
        simp only [hl, Except.ok.injEq, Prod.mk.injEq] at h
        obtain ⟨rfl, rfl⟩ := h
        have el : highConds (none : Option (Bound K)) n u = [] := rfl
        rw [el, List.append_nil]
        exact lowRows_rep hl hu
      | some b' =>
        rcases hl' : lowerBoundVec b' n with e | l'
        · simp [hl, hl'] at h
        · simp only [hl, hl', Except.ok.injEq, Prod.mk.injEq] at h
          obtain ⟨rfl, rfl⟩ := h
          exact forall₂_zip_append (by simp [actuationNames, lowRows]) (lowRows_rep hl hu) (highRows_rep hl' hu)

theorem assignSlack_length (cs : Dict (Constraint K S P)) (d : List K) : (assignSlack cs d).length = cs.length := by
  induction cs generalizing d with
  | nil => rfl
  | cons kc cs ih =>
    unfold assignSlack
    split <;> simp [ih]

theorem barrier_rep {f : S → List K} {g : S → List (List K)} {x : S} {u d : List K} {rows : List (Row K)}
    {as : List (Constraint K S P × K)} (keys : List String) (hk : keys.length = as.length)
    (h : List.Forall₂ (RepBarrier f g x u d) rows as) :
    List.Forall₂ (RepCond u d) (keys.zip rows)
      (List.zipWith (fun k cd => (⟨k, cd.1.enabled = true → BarrierOK f g cd.1 x u cd.2,
        cd.1.enabled = true ∧ barrierValue f g cd.1 x u = some cd.2⟩ : Cond)) keys as) := by
  induction h generalizing keys with
  | nil => simp
  | cons hr _ ih =>
    cases keys with
    | nil => simp at hk
    | cons q keys =>
      simp only [List.zip_cons_cons, List.zipWith_cons_cons]
      exact List.Forall₂.cons ⟨rfl, rep_holds hr, rep_tight hr⟩ (ih keys (by simpa using hk))

theorem direct_rep {x : S} {u d : List K} {rows : List (Row K)} {ds : Dict (DirectConstraint K S P)}
    (h : List.Forall₂ (RepDirect x u d) rows ds) :
    List.Forall₂ (RepCond u d) ((dictKeys ds).zip rows) (directConds ds x u) := by
  unfold dictKeys directConds
  induction h with
  | nil => exact List.Forall₂.nil
  | cons hr _ ih =>
    simp only [List.map_cons, List.zip_cons_cons]
    exact List.Forall₂.cons ⟨rfl, repD_holds hr, repD_tight hr⟩ ih

/-- All conditions of an explicit module hold exactly when the control is admissible. -/
theorem explicitConds_all {f : S → List K} {g : S → List (List K)} {s : ASIFObj K S P X} {x : S} {u d : List K}
    (hu : u.length = s.ext.controlDim) (hd : d.length = (slackScales s.constraints).length) :
    (∀ c ∈ explicitConds f g s x u d, c.holds) ↔ AdmissibleS f g s x u d := by
  have h1 : (∀ c ∈ lowConds s.controlBoundsLow s.ext.controlDim u, c.holds) ↔
      ∀ i, i < u.length → ∀ b, boundAt s.controlBoundsLow i = some b → b ≤ u.getD i 0 := by
    unfold lowConds
    rcases s.controlBoundsLow with _ | b
    · simp [boundAt]
    · simp [hu]
  have h2 : (∀ c ∈ highConds s.controlBoundsHigh s.ext.controlDim u, c.holds) ↔
      ∀ i, i < u.length → ∀ b, boundAt s.controlBoundsHigh i = some b → u.getD i 0 ≤ b := by
    unfold highConds
    rcases s.controlBoundsHigh with _ | b
    · simp [boundAt]
    · simp [hu]
  have h3 : (∀ c ∈ barrierConds f g s.constraints x u d, c.holds) ↔
      ∀ cd ∈ assignSlack s.constraints d, cd.1.enabled = true → BarrierOK f g cd.1 x u cd.2 := by
    unfold barrierConds
    have hl : (dictKeys s.constraints).length = (assignSlack s.constraints d).length := by
      rw [assignSlack_length]; simp [dictKeys]
    generalize dictKeys s.constraints = keys at hl
    generalize assignSlack s.constraints d = as at hl
    induction as generalizing keys with
    | nil => simp
    | cons a as ih => cases keys with
      | nil => simp at hl
      | cons q keys => simp [ih keys (by simpa using hl)]
  have h4 : (∀ c ∈ directConds s.ext.direct x u, c.holds) ↔
      ∀ kc ∈ s.ext.direct, kc.2.enabled = true → DirectOK kc.2 x u := by
    unfold directConds
    rw [List.forall_mem_map]
  unfold explicitConds
  simp only [List.mem_append, or_imp, forall_and]
  rw [h1, h2, h3, h4, ← within_iff]
  exact ⟨fun ⟨a, b, c⟩ => ⟨hu, hd, a, b, c⟩, fun h => ⟨h.bounds, h.barrier, h.direct⟩⟩

theorem forall₂_zip_holds {u d : List K} {nm : List String} {rows : List (Row K)} {cs : List Cond} (hl : nm.length = rows.length)
    (h : List.Forall₂ (RepCond u d) (nm.zip rows) cs) : (∀ r ∈ rows, RowHolds r (u ++ d)) ↔ ∀ c ∈ cs, c.holds := by
  induction rows generalizing nm cs with
  | nil =>
    have : nm.zip ([] : List (Row K)) = [] := by simp
    rw [this] at h
    cases h
    simp
  | cons r rows ih => cases nm with
    | nil => simp at hl
    | cons q nm =>
      rw [List.zip_cons_cons] at h
      cases h with
      | cons h1 h2 =>
        have := ih (by simpa using hl) h2
        simp only [List.mem_cons, forall_eq_or_imp, this, h1.2.1]

end RTA
