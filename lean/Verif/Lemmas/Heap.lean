import Verif.Spec.Heap
import Mathlib.Data.List.Basic

/-!
Lemmas about arrays as references.
-/
namespace RTA
variable {K ρ : Type}

theorem deref_append {h l : Heap K} {r : Nat} (hr : r < h.length) : deref (h ++ l) r = deref h r := by
  unfold deref
  rw [List.getD_eq_getElem?_getD, List.getD_eq_getElem?_getD, List.getElem?_append_left hr]

theorem deref_last (h : Heap K) (v : List K) : deref (h ++ [v]) h.length = v := by
  unfold deref
  simp

theorem deref_write_self {h : Heap K} {r i : Nat} {x : K} (hr : r < h.length) :
    deref (writeAt h r i x) r = (deref h r).set i x := by
  unfold writeAt deref
  simp [hr]

theorem deref_write_ne {h : Heap K} {r q i : Nat} {x : K} (hne : q ≠ r) :
    deref (writeAt h r i x) q = deref h q := by
  unfold writeAt deref
  simp [hne.symm]

/-- The view of a module object. -/
def viewObj (h : Heap K) (o : HObj K ρ) : VObj K ρ := ⟨o.core, o.desired.map (deref h), o.actual.map (deref h)⟩

/-- What a call does to references and contents. -/
structure CallSpec (h : Heap K) (o : HObj K ρ) (v : Except PyErr (List K) × VObj K ρ)
    (q : Except PyErr Nat × HObj K ρ × Heap K) : Prop where
  ext : ∃ l, q.2.2 = h ++ l
  obj : viewObj q.2.2 q.2.1 = v.2
  res : (∃ e, q.1 = .error e ∧ v.1 = .error e) ∨
    (∃ r c, q.1 = .ok r ∧ v.1 = .ok c ∧ deref q.2.2 r = c ∧ h.length ≤ r ∧ r < q.2.2.length ∧
      q.2.1.desired ≠ some r ∧ q.2.1.actual ≠ some r)
  des : ∃ r, q.2.1.desired = some r ∧ h.length ≤ r ∧ r < q.2.2.length
  act : q.2.1.actual = o.actual ∨ ∃ r, q.2.1.actual = some r ∧ h.length ≤ r ∧ r < q.2.2.length
  two : ∀ r, q.2.1.desired = some r → q.2.1.actual ≠ some r

theorem spec_ok (h : Heap K) (o : HObj K ρ) (u c : List K) (l : Heap K) (core : Core K ρ) :
    CallSpec h o (.ok c, ⟨core, some u, some c⟩)
      (.ok (h.length + l.length + 2), ⟨core, some h.length, some (h.length + l.length + 1)⟩, h ++ u :: (l ++ [c, c])) := by
  have d0 : deref (h ++ u :: (l ++ [c, c])) h.length = u := by unfold deref; simp
  have d1 : deref (h ++ u :: (l ++ [c, c])) (h.length + l.length + 1) = c := by
    unfold deref
    rw [List.getD_eq_getElem?_getD, List.getElem?_append_right (by omega),
      show h.length + l.length + 1 - h.length = l.length + 1 by omega, List.getElem?_cons_succ,
      List.getElem?_append_right (Nat.le_refl _)]
    simp
  have d2 : deref (h ++ u :: (l ++ [c, c])) (h.length + l.length + 2) = c := by
    unfold deref
    rw [List.getD_eq_getElem?_getD, List.getElem?_append_right (by omega),
      show h.length + l.length + 2 - h.length = l.length + 1 + 1 by omega, List.getElem?_cons_succ,
      List.getElem?_append_right (by omega), show l.length + 1 - l.length = 1 by omega]
    simp
  refine ⟨⟨_, rfl⟩, ?_, .inr ⟨_, c, rfl, rfl, d2, by omega, ?_, ?_, ?_⟩, ⟨_, rfl, Nat.le_refl _, ?_⟩, .inr ⟨_, rfl, by omega, ?_⟩, ?_⟩
  · simp only [viewObj, Option.map_some, d0, d1]
  · simp only [List.length_append, List.length_cons, List.length_nil]; omega
  · simp only [ne_eq, Option.some.injEq]; omega
  · simp only [ne_eq, Option.some.injEq]; omega
  · simp only [List.length_append, List.length_cons, List.length_nil]; omega
  · simp only [List.length_append, List.length_cons, List.length_nil]; omega
  · intro r hr
    simp only [Option.some.injEq, ne_eq] at hr ⊢
    omega

theorem spec_err_keep (h : Heap K) (o : HObj K ρ) (u : List K) (l : Heap K) (core : Core K ρ) (e : PyErr)
    (ha : ∀ r, o.actual = some r → r < h.length) :
    CallSpec h o (.error e, ⟨core, some u, o.actual.map (deref h)⟩)
      (.error e, ⟨core, some h.length, o.actual⟩, h ++ u :: l) := by
  have d0 : deref (h ++ u :: l) h.length = u := by unfold deref; simp
  refine ⟨⟨_, rfl⟩, ?_, .inl ⟨e, rfl, rfl⟩, ⟨_, rfl, Nat.le_refl _, ?_⟩, .inl rfl, ?_⟩
  · simp only [viewObj, Option.map_some, d0]
    cases hx : o.actual with
    | none => rfl
    | some r => simp only [Option.map_some, deref_append (ha r hx)]
  · simp
  · intro r hr h2
    simp only [Option.some.injEq] at hr h2
    have := ha _ h2
    omega

theorem spec_err_new (h : Heap K) (o : HObj K ρ) (u v : List K) (l : Heap K) (core : Core K ρ) (e : PyErr) :
    CallSpec h o (.error e, ⟨core, some u, some v⟩)
      (.error e, ⟨core, some h.length, some (h.length + 1)⟩, h ++ u :: v :: l) := by
  have d0 : deref (h ++ u :: v :: l) h.length = u := by unfold deref; simp
  have d1 : deref (h ++ u :: v :: l) (h.length + 1) = v := by unfold deref; simp
  refine ⟨⟨_, rfl⟩, ?_, .inl ⟨e, rfl, rfl⟩, ⟨_, rfl, Nat.le_refl _, ?_⟩, .inr ⟨_, rfl, by omega, ?_⟩, ?_⟩
  · simp only [viewObj, Option.map_some, d0, d1]
  · simp
  · simp
  · intro r hr
    simp only [Option.some.injEq, ne_eq] at hr ⊢
    omega

variable [Max K] [Min K]

/-- Clipping an array that holds `w`. -/
theorem hClip_spec (c : Core K ρ) (h : Heap K) (r : Nat) (w : List K) (hr : deref h r = w) (d a : Option (List K)) :
    (∃ e, hClip c h r = .error e ∧
      Base.clipControl ⟨c.controlBoundsHigh, c.controlBoundsLow, c.enable, c.intervening, d, a⟩ w = .error e) ∨
    (∃ l q v, hClip c h r = .ok (h ++ l, q) ∧ deref (h ++ l) q = v ∧
      Base.clipControl ⟨c.controlBoundsHigh, c.controlBoundsLow, c.enable, c.intervening, d, a⟩ w = .ok v) := by
  unfold hClip Base.clipControl
  simp only [hr]
  by_cases hb : (c.controlBoundsLow.isSome || c.controlBoundsHigh.isSome) = true
  · simp only [if_pos hb]
    rcases npClip c.controlBoundsLow c.controlBoundsHigh w with e | v
    · exact .inl ⟨e, rfl, rfl⟩
    · exact .inr ⟨[v], h.length, v, rfl, deref_last _ _, rfl⟩
  · simp only [if_neg hb]
    exact .inr ⟨[], r, w, by simp, by simpa using hr, rfl⟩

theorem hFilter_spec (compute : ComputeFn K ρ) (o : HObj K ρ) (h : Heap K) (rs ru : Nat) (dt : K)
    (hs : rs < h.length) (hu : ru < h.length) (ha : ∀ r, o.actual = some r → r < h.length) :
    CallSpec h o (filterControl (valCompute compute) (viewObj h o) (deref h rs) dt (deref h ru))
      (hFilter compute o h rs ru dt) := by
  generalize hud : deref h ru = u
  by_cases hen : o.core.enable = true
  · have hen' : (HasBase.get (modifyBase (fun b => { b with controlDesired := some u }) (viewObj h o))).enable = true := hen
    unfold hFilter filterControl
    simp only [if_pos hen', if_pos hen]
    unfold valCompute
    simp only [modifyBase, HasBase.get, HasBase.set, viewObj, alloc, hud]
    rw [deref_append hs, deref_append hu, hud]
    rcases compute o.core (deref h rs) dt u with ⟨res, rec, core'⟩
    simp only
    have main : ∀ (l : Heap K) (oh : HObj K ρ) (d : Option (List K)) (out : ComputeOut K) (w : List K),
        oh.core = core' → oh.desired = some h.length →
        (∀ (e : PyErr) l', CallSpec h o (.error e, ⟨core', some u, d⟩) (.error e, oh, h ++ u :: (l ++ l'))) →
        (w = match out with | .sameArray => u | .newArray v => v) →
        CallSpec h o
          (match Base.clipControl ⟨core'.controlBoundsHigh, core'.controlBoundsLow, core'.enable, core'.intervening, some u, d⟩ w with
            | .error e => (.error e, ⟨core', some u, d⟩)
            | .ok c => (.ok c, ⟨core', some u, some c⟩))
          (match hClip core' (hOut (h ++ u :: l) ru out).1 (hOut (h ++ u :: l) ru out).2 with
            | .error e => (.error e, oh, (hOut (h ++ u :: l) ru out).1)
            | .ok hc => (.ok (hc.1 ++ [deref hc.1 hc.2]).length, { oh with actual := some hc.1.length },
                hc.1 ++ [deref hc.1 hc.2] ++ [deref (hc.1 ++ [deref hc.1 hc.2]) hc.1.length])) := by
      intro l oh d out w h1 h2 h3 h4
      obtain ⟨l', q, e1, e2⟩ : ∃ l' q, hOut (h ++ u :: l) ru out = (h ++ u :: (l ++ l'), q) ∧
          deref (h ++ u :: (l ++ l')) q = w := by
        cases out with
        | sameArray =>
          simp only at h4
          refine ⟨[], ru, by simp [hOut], ?_⟩
          rw [deref_append hu, hud, h4]
        | newArray v =>
          simp only at h4
          subst h4
          refine ⟨[w], (h ++ u :: l).length, by simp [hOut, alloc], ?_⟩
          have := deref_last (h ++ u :: l) w
          simpa using this
      rw [e1]
      simp only
      rcases hClip_spec core' (h ++ u :: (l ++ l')) q w e2 (some u) d with ⟨e, k1, k2⟩ | ⟨m, q', v, k1, k2, k3⟩
      · rw [k1, k2]
        exact h3 e l'
      · rw [k1, k3]
        simp only
        rw [k2, deref_last]
        have := spec_ok h o u v (l ++ l' ++ m) core'
        obtain ⟨oc, od, oa⟩ := oh
        simp only at h1 h2
        subst h1 h2
        simp only [List.length_append, List.length_cons, List.length_nil] at this ⊢
        have ea : h.length + (l.length + l'.length + 1) + m.length = h.length + (l.length + l'.length + m.length) + 1 := by omega
        have eb : h.length + (l.length + l'.length + m.length) + 2 = h.length + (l.length + l'.length + m.length) + 1 + (0 + 1) := by omega
        rw [eb] at this
        rw [ea]
        simpa [List.append_assoc] using this
    cases rec with
    | none =>
      have herr : ∀ (e : PyErr) l', CallSpec h o (.error e, ⟨core', some u, o.actual.map (deref h)⟩)
          (.error e, ⟨core', some h.length, o.actual⟩, h ++ u :: ([] ++ l')) := fun e l' => spec_err_keep h o u _ core' e ha
      cases res with
      | error e => simpa [hRecord] using herr e []
      | ok out =>
        cases out with
        | sameArray => exact main [] ⟨core', some h.length, o.actual⟩ (o.actual.map (deref h)) .sameArray u rfl rfl herr rfl
        | newArray v => exact main [] ⟨core', some h.length, o.actual⟩ (o.actual.map (deref h)) (.newArray v) v rfl rfl herr rfl
    | some x =>
      have herr : ∀ (e : PyErr) l', CallSpec h o (.error e, ⟨core', some u, some x⟩)
          (.error e, ⟨core', some h.length, some (h.length + 1)⟩, h ++ u :: ([x] ++ l')) := fun e l' => spec_err_new h o u x _ core' e
      cases res with
      | error e => simpa [hRecord, alloc] using herr e []
      | ok out =>
        have m := main [x] ⟨core', some h.length, some (h.length + 1)⟩ (some x) out
        simp only [hRecord, alloc, List.length_append, List.length_cons, List.length_nil, Nat.zero_add, List.append_assoc, List.cons_append, List.nil_append] at m ⊢
        cases out with
        | sameArray => exact m u trivial trivial herr rfl
        | newArray v => exact m v trivial trivial herr rfl
  · have hen' : ¬ (HasBase.get (modifyBase (fun b => { b with controlDesired := some u }) (viewObj h o))).enable = true := hen
    unfold hFilter filterControl
    simp only [if_neg hen', if_neg hen]
    simp only [modifyBase, HasBase.get, HasBase.set, viewObj, alloc, hud]
    have := spec_ok h o u u [] o.core
    rw [deref_append hu, hud, deref_last]
    simpa [List.append_assoc] using this

end RTA
