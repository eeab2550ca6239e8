import Verif.Spec.LatinHypercube
import Verif.Lemmas.SampleTesting
import Mathlib.Tactic.Linarith
import Mathlib.Tactic.FieldSimp

/-! Helper lemmas about Latin hypercube tests. -/
namespace RTA
variable {K S P E R : Type}

section
variable [Add K] [Zero K] [LT K] [DecidableLT K]

/-- A point that returns starts at the transform of a row of the table at or after the counter; the counter moves behind it. -/
theorem latin_point {sim : Sim K S P Nat R} {table : List S} (hs : sim.getInitial = latinInitial table) (fuel : Nat) :
    ∀ (tries : Nat) (r r' : R) (e e' : Nat) (row : Bool × S), onePoint sim fuel tries r e = some (.ok row, r', e') →
    ∃ j x, e ≤ j ∧ e' = j + 1 ∧ table[j]? = some x ∧ row.2 = sim.transform x := by
  intro tries
  induction tries with
  | zero => intro r r' e e' row h; simp [onePoint] at h
  | succ tries ih =>
    intro r r' e e' row h
    rw [onePoint, hs] at h
    unfold latinInitial at h
    rcases hx : table[e]? with _ | x
    · rw [hx] at h; simp at h
    · rw [hx] at h
      simp only at h
      rcases ha : assureEpisode sim fuel r (sim.transform x) with _ | ⟨er | ob, r1⟩
      · rw [ha] at h; simp at h
      · rw [ha] at h; simp at h
      · rw [ha] at h
        cases ob with
        | none =>
          obtain ⟨j, y, h1, h2, h3, h4⟩ := ih _ _ _ _ _ h
          exact ⟨j, y, by omega, h2, h3, h4⟩
        | some b =>
          simp only [Option.some.injEq, Prod.mk.injEq, Except.ok.injEq] at h
          obtain ⟨rfl, -, rfl⟩ := h
          exact ⟨e, x, le_refl _, rfl, hx, rfl⟩

/-- A run that returns starts its episodes from transformed rows of the table, in order and each at most once. -/
theorem latin_run {sim : Sim K S P Nat R} {table : List S} (hs : sim.getInitial = latinInitial table) (fuel tries : Nat) :
    ∀ (n : Nat) (r r' : R) (e e' : Nat) (acc rows : List (Bool × S)),
    runSampleTest sim fuel tries n r e acc = some (.ok rows, r', e') →
    ∃ new, rows = acc ++ new ∧ new.length = n ∧ List.Sublist (new.map Prod.snd) ((table.drop e).map sim.transform) := by
  intro n
  induction n with
  | zero =>
    intro r r' e e' acc rows h
    simp only [runSampleTest, Option.some.injEq, Prod.mk.injEq, Except.ok.injEq] at h
    exact ⟨[], by simp [h.1], rfl, by simp⟩
  | succ n ih =>
    intro r r' e e' acc rows h
    rw [runSampleTest] at h
    rcases ho : onePoint sim fuel tries r e with _ | ⟨er | row, r1, e1⟩
    · rw [ho] at h; simp at h
    · rw [ho] at h; simp at h
    · rw [ho] at h
      obtain ⟨new, rfl, hlen, hsub⟩ := ih _ _ _ _ _ _ h
      obtain ⟨j, x, h1, rfl, h3, h4⟩ := latin_point hs fuel _ _ _ _ _ _ ho
      refine ⟨row :: new, by simp, by simp [hlen], ?_⟩
      have hd : table.drop j = x :: table.drop (j + 1) := by
        obtain ⟨hj, hx⟩ := List.getElem?_eq_some_iff.1 h3
        rw [← hx]; exact List.drop_eq_getElem_cons hj
      have hsub2 : List.Sublist (table.drop j) (table.drop e) := by
        obtain ⟨k, rfl⟩ := Nat.exists_eq_add_of_le h1
        rw [← List.drop_drop]
        exact List.drop_sublist _ _
      refine List.Sublist.trans ?_ (hsub2.map sim.transform)
      rw [hd, List.map_cons, List.map_cons, h4]
      exact hsub.cons_cons _

end

section
variable [Field K] [LinearOrder K]

open Classical in
/-- What one point does when all episodes return: it starts at the first safe row at or after the counter, or runs out of rows. -/
theorem latin_point_total {sim : Sim K S P Nat R} {phi val : Constraint K S P → S → K} (h1 : OneArgument sim phi val) {table : List S}
    (hs : sim.getInitial = latinInitial table) {fuel : Nat} {Inv : R → Prop} {cs : Dict (Constraint K S P)}
    (hcs : ∀ r, Inv r → sim.constraints r = cs)
    (hret : ∀ r x, Inv r → ∃ b r', assureLoop sim fuel r x 0 = some (.ok b, r') ∧ Inv r') :
    ∀ (l : List S) (e tries : Nat) (r : R), table.drop e = l → l.length < tries → Inv r →
    let safe := fun x => decide (∀ p ∈ cs, 0 ≤ phi p.2 (sim.transform x) ∧ 0 ≤ val p.2 (sim.transform x))
    (l.filter safe = [] → ∃ e', onePoint sim fuel tries r e = some (.error .indexError, r, e')) ∧
    (∀ y ys, l.filter safe = y :: ys → ∃ b r' e', onePoint sim fuel tries r e = some (.ok (b, sim.transform y), r', e') ∧
      Inv r' ∧ (table.drop e').filter safe = ys) := by
  intro l
  induction l with
  | nil =>
    intro e tries r hd ht hr safe
    obtain ⟨tries, rfl⟩ := Nat.exists_eq_add_of_lt ht
    have hx : table[e]? = none := by
      rw [List.getElem?_eq_none_iff]; exact List.drop_eq_nil_iff.1 hd
    refine ⟨fun _ => ⟨e, ?_⟩, fun y ys h => by simp at h⟩
    rw [onePoint, hs]
    simp [latinInitial, hx]
  | cons x l ih =>
    intro e tries r hd ht hr safe
    obtain ⟨tries, rfl⟩ : ∃ t, tries = t + 1 := ⟨tries - 1, by omega⟩
    have hx : table[e]? = some x := by
      have := congrArg (·[0]?) hd
      simpa using this
    have hd' : table.drop (e + 1) = l := by
      rw [← List.drop_drop, hd]; rfl
    have hgi : sim.getInitial e = (.ok x, e + 1) := by rw [hs]; simp [latinInitial, hx]
    obtain ⟨b, hb, hiff⟩ := initialUnsafe_eq h1 (sim.transform x) (sim.constraints r)
    rw [hcs r hr] at hb hiff
    obtain ⟨ih1, ih2⟩ := ih (e + 1) tries r hd' (by simpa using ht) hr
    cases b with
    | true =>
      have hns : safe x = false := by
        rw [decide_eq_false_iff_not]
        exact fun h => Bool.false_ne_true (hiff.2 h).symm
      have ha : assureEpisode sim fuel r (sim.transform x) = some (.ok none, r) := by simp only [assureEpisode, hcs r hr, hb]
      have ho : onePoint sim fuel (tries + 1) r e = onePoint sim fuel tries r (e + 1) := by
        rw [onePoint, hgi]; simp only [ha]
      have hf : (x :: l).filter safe = l.filter safe := List.filter_cons_of_neg (by simp [hns])
      rw [hf, ho]
      exact ⟨ih1, ih2⟩
    | false =>
      have hsafe : safe x = true := decide_eq_true (hiff.1 rfl)
      obtain ⟨v, r', hl, hr'⟩ := hret r (sim.transform x) hr
      have ha : assureEpisode sim fuel r (sim.transform x) = some (.ok (some v), r') := by
        simp only [assureEpisode, hcs r hr, hb, hl, Option.map_some, Except.map]
      have ho : onePoint sim fuel (tries + 1) r e = some (.ok (v, sim.transform x), r', e + 1) := by
        rw [onePoint, hgi]; simp only [ha]
      have hf : (x :: l).filter safe = x :: l.filter safe := List.filter_cons_of_pos hsafe
      rw [hf, ho]
      refine ⟨fun h => by simp at h, fun y ys h => ?_⟩
      obtain ⟨rfl, rfl⟩ := List.cons.inj h
      exact ⟨v, r', e + 1, rfl, hr', by rw [hd']⟩

end

/-! ### Scaling -/

section
variable [Field K]

theorem scaleRow_length : ∀ (r l u : List K), r.length = l.length → u.length = l.length → (scaleRow r l u).length = l.length
  | [], [], [], _, _ => rfl
  | _ :: r, _ :: l, _ :: u, h1, h2 => by
    simp only [List.length_cons, Nat.add_right_cancel_iff] at h1 h2
    simp [scaleRow, scaleRow_length r l u h1 h2]
  | [], _ :: _, _, h, _ => by simp at h
  | _ :: _, [], _, h, _ => by simp at h
  | _ :: _, _ :: _, [], _, h => by simp at h
  | [], [], _ :: _, _, h => by simp at h

theorem scaleRow_get : ∀ (r l u : List K) (i : Nat) (v a b : K), r[i]? = some v → l[i]? = some a → u[i]? = some b →
    (scaleRow r l u)[i]? = some (v * (b - a) + a)
  | v :: r, a :: l, b :: u, 0, v', a', b', h1, h2, h3 => by
    simp only [List.getElem?_cons_zero, Option.some.injEq] at h1 h2 h3
    simp [scaleRow, h1, h2, h3]
  | _ :: r, _ :: l, _ :: u, i + 1, v', a', b', h1, h2, h3 => by
    simp only [List.getElem?_cons_succ] at h1 h2 h3
    simpa [scaleRow] using scaleRow_get r l u i v' a' b' h1 h2 h3
  | [], _, _, _, _, _, _, h, _, _ => by simp at h
  | _ :: _, [], _, _, _, _, _, _, h, _ => by simp at h
  | _ :: _, _ :: _, [], _, _, _, _, _, _, h => by simp at h

end

end RTA
