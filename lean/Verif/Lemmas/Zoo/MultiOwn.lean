import Verif.Lemmas.Zoo.MultiStays

/-!
The constraints that concern the first deputy alone: conditions on them in a fleet are conditions on a fleet of one.
-/
namespace RTA
open Set Real Filter Topology

/-- The first deputy and the sun. -/
def alone (x : List ℝ) : List ℝ := [comp x 0, comp x 1, comp x 2, comp x 3, comp x 4, comp x 5, comp x (x.length - 1)]

/-- A fleet of one. -/
def single (c : MultiConfig) : MultiConfig := { c with numDeputies := 1 }

theorem ownView_alone (x : List ℝ) : ownView (alone x) = ownView x := rfl

theorem alone_eq {x : List ℝ} (h : x.length = 7) : alone x = x := by
  match x, h with
  | [_, _, _, _, _, _, _], _ => rfl

theorem comp_set_self {x : List ℝ} {i : Nat} (h : i < x.length) (s : ℝ) : comp (x.set i s) i = s := by
  simp [comp, List.getD_eq_getElem?_getD, h]

theorem comp_set_ne {x : List ℝ} {i j : Nat} (h : i ≠ j) (s : ℝ) : comp (x.set i s) j = comp x j := by
  simp [comp, List.getD_eq_getElem?_getD, List.getElem?_set_ne h]

theorem alone_set {x : List ℝ} (hx : 7 ≤ x.length) {i : Nat} (hi : i < 6) (s : ℝ) : alone (x.set i s) = (alone x).set i s := by
  unfold alone
  rw [List.length_set, comp_set_ne (show i ≠ x.length - 1 by omega)]
  have h1 : ∀ j, comp (x.set i s) j = if i = j then s else comp x j := fun j => by
    split_ifs with h
    · subst h; exact comp_set_self (by omega) s
    · exact comp_set_ne h s
  simp only [h1]
  interval_cases i <;> simp

theorem alone_set_last {x : List ℝ} (hx : 7 ≤ x.length) (s : ℝ) : alone (x.set (x.length - 1) s) = (alone x).set 6 s := by
  unfold alone
  rw [List.length_set, comp_set_self (by omega)]
  rw [comp_set_ne (show x.length - 1 ≠ 0 by omega), comp_set_ne (show x.length - 1 ≠ 1 by omega), comp_set_ne (show x.length - 1 ≠ 2 by omega),
    comp_set_ne (show x.length - 1 ≠ 3 by omega), comp_set_ne (show x.length - 1 ≠ 4 by omega), comp_set_ne (show x.length - 1 ≠ 5 by omega)]
  rfl

theorem alone_set_mid {x : List ℝ} {i : Nat} (hi : 6 ≤ i) (hi' : i < x.length - 1) (s : ℝ) : alone (x.set i s) = alone x := by
  unfold alone
  rw [List.length_set]
  rw [comp_set_ne (show i ≠ 0 by omega), comp_set_ne (show i ≠ 1 by omega), comp_set_ne (show i ≠ 2 by omega),
    comp_set_ne (show i ≠ 3 by omega), comp_set_ne (show i ≠ 4 by omega), comp_set_ne (show i ≠ 5 by omega), comp_set_ne (show i ≠ x.length - 1 by omega)]

/-- Put zeros between the deputy and the sun. -/
noncomputable def spread (M : Nat) (g : List ℝ) : List ℝ := [comp g 0, comp g 1, comp g 2, comp g 3, comp g 4, comp g 5] ++ zeros M ++ [comp g 6]

theorem spread_length (M : Nat) (g : List ℝ) : (spread M g).length = M + 7 := by simp [spread, zeros]

theorem dot_spread {M : Nat} {g v : List ℝ} (hg : g.length = 7) (hv : v.length = M + 7) : dot (spread M g) v = dot g (alone v) := by
  have hs : v = [comp v 0, comp v 1, comp v 2, comp v 3, comp v 4, comp v 5] ++ pySlice v 6 (6 + M) ++ [comp v (v.length - 1)] := by
    have h1 : v.take 6 = [comp v 0, comp v 1, comp v 2, comp v 3, comp v 4, comp v 5] := by
      have := slice6 (x := v) 0 (by omega)
      simpa [pySlice] using this
    have h2 : v.drop (6 + M) = [comp v (v.length - 1)] := by
      apply List.ext_getElem
      · simp; omega
      · intro i h1 h2
        simp only [List.length_cons, List.length_nil] at h2
        obtain rfl : i = 0 := by omega
        simp only [List.getElem_drop, List.getElem_cons_zero, comp, List.getD_eq_getElem?_getD]
        rw [List.getElem?_eq_getElem (by omega)]
        simp only [Option.getD_some]
        congr 1
        omega
    have h3 : v = v.take 6 ++ (v.drop 6).take M ++ (v.drop 6).drop M := by
      rw [List.append_assoc, List.take_append_drop, List.take_append_drop]
    have h4 : (v.drop 6).drop M = v.drop (6 + M) := by rw [List.drop_drop]
    rw [h4] at h3
    have h5 : pySlice v 6 (6 + M) = (v.drop 6).take M := by unfold pySlice; congr 1; omega
    rw [← h1, ← h2, h5]
    exact h3
  have hm : (pySlice v 6 (6 + M)).length = M := by rw [pySlice_length (by omega)]; omega
  conv_lhs => rw [hs]
  unfold spread
  rw [dot_append (by simp [zeros, hm]), dot_append (by simp), dot_zeros_left]
  match g, hg with
  | [_, _, _, _, _, _, _], _ =>
    simp only [alone, dot_cons, comp, List.getD_cons_zero, List.getD_cons_succ]
    ring_nf
    simp [dot]
    try ring

theorem partials_spread {P : Type} {f : List ℝ → P → ℝ} {x : List ℝ} {p : P} {M : Nat} (hx : x.length = M + 7)
    (hf : ∀ y : List ℝ, y.length = M + 7 → f y p = f (alone y) p) : partials f x p = spread M (partials f (alone x) p) := by
  have h1 : ∀ i, i < M + 7 → comp (partials f x p) i = deriv (fun s => f (alone (x.set i s)) p) (comp x i) := fun i hi => by
    have : comp (partials f x p) i = deriv (fun s => f (x.set i s) p) (comp x i) := by
      simp [partials, comp, List.getD_eq_getElem?_getD, List.getElem?_range (show i < x.length by omega)]
    rw [this]
    congr 1
    funext s
    exact hf _ (by rw [List.length_set, hx])
  have h2 : ∀ i, i < 7 → comp (partials f (alone x) p) i = deriv (fun s => f ((alone x).set i s) p) (comp (alone x) i) := fun i hi => by
    have hl : i < (alone x).length := by simpa [alone] using hi
    simp [partials, comp, List.getD_eq_getElem?_getD, List.getElem?_range hl]
  have h3 : ∀ i, i < 6 → comp (partials f x p) i = comp (partials f (alone x) p) i := fun i hi => by
    rw [h1 i (by omega), h2 i (by omega)]
    have e : comp (alone x) i = comp x i := by interval_cases i <;> rfl
    rw [e]
    simp only [alone_set (show 7 ≤ x.length by omega) hi]
  have h4 : comp (partials f x p) (M + 6) = comp (partials f (alone x) p) 6 := by
    have e : M + 6 = x.length - 1 := by omega
    rw [h1 _ (by omega), h2 6 (by omega), e]
    simp only [alone_set_last (show 7 ≤ x.length by omega)]
    rfl
  have h5 : ∀ i, 6 ≤ i → i < M + 6 → comp (partials f x p) i = 0 := fun i hi hi' => by
    rw [h1 i (by omega)]
    simp only [alone_set_mid hi (show i < x.length - 1 by omega), deriv_const]
  apply List.ext_getElem
  · rw [partials_length, spread_length, hx]
  · intro i hi hi'
    have hi7 : i < M + 7 := by rw [spread_length] at hi'; exact hi'
    have e1 : (partials f x p)[i] = comp (partials f x p) i := by simp [comp, List.getD_eq_getElem?_getD, List.getElem?_eq_getElem hi]
    rw [e1]
    rcases Nat.lt_or_ge i 6 with h | h
    · rw [h3 i h]
      simp only [spread, List.append_assoc]
      rw [List.getElem_append_left (by simpa using h)]
      interval_cases i <;> rfl
    · rcases Nat.lt_or_ge i (M + 6) with h' | h'
      · rw [h5 i h h']
        simp only [spread, List.append_assoc]
        rw [List.getElem_append_right (by simpa using h), List.getElem_append_left (by simp [zeros]; omega)]
        simp [zeros]
      · obtain rfl : i = M + 6 := by omega
        rw [h4]
        simp only [spread]
        rw [List.getElem_append_right (by simp [zeros])]
        simp

theorem spread_vadd {M : Nat} {a b : List ℝ} (ha : a.length = 7) (hb : b.length = 7) : spread M (vadd a b) = vadd (spread M a) (spread M b) := by
  match a, b, ha, hb with
  | [_, _, _, _, _, _, _], [_, _, _, _, _, _, _], _, _ =>
    unfold spread vadd
    rw [List.zipWith_append (by simp [zeros]), List.zipWith_append (by simp)]
    simp [comp, zeros]

theorem spread_vscale {M : Nat} (k : ℝ) {a : List ℝ} (ha : a.length = 7) : spread M (vscale k a) = vscale k (spread M a) := by
  match a, ha with
  | [_, _, _, _, _, _, _], _ => simp [spread, vscale, comp, zeros]

theorem spread_zeros (M : Nat) : spread M (zeros 7) = zeros (M + 7) := by
  have : spread M (zeros 7) = zeros 6 ++ zeros M ++ zeros 1 := rfl
  rw [this]
  simp only [zeros, List.replicate_append_replicate]
  congr 1
  omega

theorem minGrad_spread {F : ℝ → List ℝ → ℝ} {ts : List ℝ} {x : List ℝ} {M : Nat} (hx : x.length = M + 7)
    (hF : ∀ t, ∀ y : List ℝ, y.length = M + 7 → F t y = F t (alone y)) : minGrad F ts x = spread M (minGrad F ts (alone x)) := by
  have e1 : leastTimes F ts x = leastTimes F ts (alone x) := by
    unfold leastTimes
    simp only [hF _ x hx]
  unfold minGrad
  rw [e1]
  have key : ∀ l : List ℝ, (l.foldr (fun t acc => vadd (partials (fun y _ => F t y) (alone x) ()) acc) (zeros (alone x).length)).length = 7 ∧
      l.foldr (fun t acc => vadd (partials (fun y _ => F t y) x ()) acc) (zeros x.length) =
        spread M (l.foldr (fun t acc => vadd (partials (fun y _ => F t y) (alone x) ()) acc) (zeros (alone x).length)) := by
    intro l
    induction l with
    | nil => exact ⟨by simp [zeros, alone], by rw [List.foldr_nil, List.foldr_nil, hx]; exact (spread_zeros M).symm⟩
    | cons t l ih =>
      have hp : (partials (fun y _ => F t y) (alone x) ()).length = 7 := by rw [partials_length]; rfl
      simp only [List.foldr_cons]
      refine ⟨by rw [vadd, List.length_zipWith, hp, ih.1]; rfl, ?_⟩
      rw [ih.2, spread_vadd hp ih.1, partials_spread (f := fun y _ => F t y) (p := ()) hx (hF t)]
  rw [(key _).2, spread_vscale _ (key _).1]

section
variable {c : MultiConfig}

theorem single_fn {x : List ℝ} (hx : 6 ≤ x.length) (k : InspIx) :
    (multiC c (.own k)).2.computeFn x (multiC c (.own k)).2.params =
      (multiC (single c) (.own k)).2.computeFn (alone x) (multiC (single c) (.own k)).2.params := by
  by_cases hk : k = .psm
  · subst hk; rfl
  · rw [own_fn hx hk, own_fn (by simp [alone]) hk]
    rfl

theorem single_value {x : List ℝ} (hx : 6 ≤ x.length) (k : InspIx) :
    (multiC c (.own k)).2.value x = (multiC (single c) (.own k)).2.value (alone x) := by
  show _ + _ = _ + _
  rw [single_fn hx k]
  congr 1

theorem single_grad {M : Nat} {x : List ℝ} (hx : x.length = M + 7) (k : InspIx) :
    (multiC c (.own k)).2.gradFn x (multiC c (.own k)).2.params =
      spread M ((multiC (single c) (.own k)).2.gradFn (alone x) (multiC (single c) (.own k)).2.params) := by
  have hlim : ∀ i < 6, gradAt x.length i (-(2 * stateAt x i)) = spread M (gradAt (alone x).length i (-(2 * stateAt (alone x) i))) := by
    intro i hi
    have e : stateAt (alone x) i = stateAt x i := by interval_cases i <;> rfl
    have e' : (alone x).length = 7 := rfl
    rw [e, e', hx]
    generalize -(2 * stateAt x i) = a
    apply List.ext_getElem
    · rw [spread_length]; simp [gradAt]
    · intro j hj hj'
      have hj7 : j < M + 7 := by rw [spread_length] at hj'; exact hj'
      have e1 : (gradAt (M + 7) i a)[j] = if j = i then a else 0 := by simp [gradAt]
      rw [e1]
      rcases Nat.lt_or_ge j 6 with h | h
      · simp only [spread, List.append_assoc]
        rw [List.getElem_append_left (by simpa using h)]
        interval_cases j <;> simp [gradAt, comp, List.range_succ]
      · rw [if_neg (by omega)]
        rcases Nat.lt_or_ge j (M + 6) with h' | h'
        · simp only [spread, List.append_assoc]
          rw [List.getElem_append_right (by simpa using h), List.getElem_append_left (by simp [zeros]; omega)]
          simp [zeros]
        · obtain rfl : j = M + 6 := by omega
          simp only [spread]
          rw [List.getElem_append_right (by simp [zeros])]
          have : (6 : Nat) ≠ i := by omega
          simp [gradAt, comp, List.range_succ, this]
  have hfn : ∀ y : List ℝ, y.length = M + 7 → (multiC c (.own k)).2.computeFn y (multiC c (.own k)).2.params =
      (multiC c (.own k)).2.computeFn (alone y) (multiC c (.own k)).2.params := fun y hy => by
    rw [single_fn (by omega) k, single_fn (x := alone y) (by simp [alone]) k]
    rfl
  have hp := partials_spread (x := x) (M := M) hx hfn
  cases k
  case psm => exact minGrad_spread hx (fun t y _ => rfl)
  case vx => exact hlim 3 (by omega)
  case vy => exact hlim 4 (by omega)
  case vz => exact hlim 5 (by omega)
  case rel => exact hp
  case sun => exact hp
  case rmax => exact hp
  case coll => exact hp

/-- The module's dynamics of the first deputy are those of a fleet of one. -/
theorem single_rate (hN : 0 < c.numDeputies) {x u : List ℝ} (hx : x.length = 6 * c.numDeputies + 1) :
    alone (vadd (multiF c x) (matVec (multiG c) u)) = vadd (multiF (single c) (alone x)) (matVec (multiG (single c)) u) := by
  have hl := multi_length (x := x) hN u
  have hb : ∀ i < 6, comp (vadd (multiF c x) (matVec (multiG c) u)) i = comp (vadd (multiF (single c) (alone x)) (matVec (multiG (single c)) u)) i :=
    fun i hi => by
      have h1 := multi_block hN hx (q := 0) hN hi u
      have h2 := multi_block (c := single c) (x := alone x) Nat.one_pos rfl (q := 0) Nat.one_pos hi u
      rw [Nat.mul_zero, Nat.zero_add] at h1 h2
      rw [h1, h2]
      have e : pySlice x 0 (0 + 6) = pySlice (alone x) 0 (0 + 6) := by rw [slice6 0 (by omega), slice6 0 (by simp [alone])]; rfl
      rw [← Nat.zero_add 6, e]
      rfl
  rw [← alone_eq (multi_length (c := single c) (x := alone x) Nat.one_pos u)]
  have h6 : comp (vadd (multiF c x) (matVec (multiG c) u)) ((vadd (multiF c x) (matVec (multiG c) u)).length - 1) =
      comp (vadd (multiF (single c) (alone x)) (matVec (multiG (single c)) u))
        ((vadd (multiF (single c) (alone x)) (matVec (multiG (single c)) u)).length - 1) := by
    rw [hl, multi_length (c := single c) (x := alone x) Nat.one_pos u]
    exact (multi_last hN u).trans (multi_last (c := single c) (x := alone x) Nat.one_pos u).symm
  unfold alone at *
  rw [hb 0 (by omega), hb 1 (by omega), hb 2 (by omega), hb 3 (by omega), hb 4 (by omega), hb 5 (by omega), h6]

theorem single_barrier (hN : 0 < c.numDeputies) {x u : List ℝ} (hx : x.length = 6 * c.numDeputies + 1) {k : InspIx} {d : ℝ}
    (h : BarrierOK (multiF c) (fun _ => multiG c) (multiC c (.own k)).2 x u d) :
    BarrierOK (multiF (single c)) (fun _ => multiG (single c)) (multiC (single c) (.own k)).2 (alone x) u d := by
  obtain ⟨v, hv, hd⟩ := h
  refine ⟨v, ?_, hd⟩
  rw [← hv]
  have hx' : x.length = 6 * (c.numDeputies - 1) + 7 := by omega
  unfold barrierValue
  rw [multiC_alpha, multiC_alpha]
  simp only [Option.map_some, Option.some.injEq]
  have hg : ((multiC (single c) (.own k)).2.gradFn (alone x) (multiC (single c) (.own k)).2.params).length = 7 :=
    multi_gradFn_length _ _ _
  have hval := single_value (c := c) (x := x) (by omega) k
  simp only [Constraint.value] at hval
  rw [single_grad hx', dot_spread hg (by rw [multi_length hN]; omega), single_rate hN hx, hval]
  congr 1

end
end RTA
