import Verif.Lemmas.Heap
import Mathlib.Data.List.Nodup

/-!
C04: no aliasing between the caller's arrays and the module.
-/
namespace RTA
variable {K ρ : Type}

theorem map_deref_append {h l : Heap K} {rs : List Nat} (hr : ∀ r ∈ rs, r < h.length) :
    rs.map (deref (h ++ l)) = rs.map (deref h) := by
  apply List.map_congr_left
  intro r h1
  exact deref_append (hr r h1)

theorem optMap_deref_append {h l : Heap K} {o : Option Nat} (hr : ∀ r, o = some r → r < h.length) :
    o.map (deref (h ++ l)) = o.map (deref h) := by
  cases o with
  | none => rfl
  | some r => simp only [Option.map_some, deref_append (hr r rfl)]

theorem optMap_deref_write {h : Heap K} {o : Option Nat} {r i : Nat} {x : K} (hne : o ≠ some r) :
    o.map (deref (writeAt h r i x)) = o.map (deref h) := by
  cases o with
  | none => rfl
  | some q =>
    have : q ≠ r := fun e => hne (by rw [e])
    simp only [Option.map_some, deref_write_ne this]

theorem map_deref_write {h : Heap K} {rs : List Nat} {r i : Nat} {x : K} (hne : r ∉ rs) :
    rs.map (deref (writeAt h r i x)) = rs.map (deref h) := by
  apply List.map_congr_left
  intro q h1
  exact deref_write_ne fun e => hne (e ▸ h1)

theorem modify_map_write {h : Heap K} {rs : List Nat} {j r i : Nat} {x : K} (hr : rs[j]? = some r) (hin : r < h.length)
    (hnd : rs.Nodup) : rs.map (deref (writeAt h r i x)) = (rs.map (deref h)).modify j fun a => a.set i x := by
  apply List.ext_getElem?
  intro k
  rw [List.getElem?_map, List.getElem?_modify, List.getElem?_map]
  by_cases hk : j = k
  · subst hk
    rw [hr]
    simp [deref_write_self hin]
  · simp only [if_neg hk]
    cases hq : rs[k]? with
    | none => rfl
    | some q =>
      have : q ≠ r := by
        intro e
        subst e
        obtain ⟨h1, h2⟩ := List.getElem?_eq_some_iff.1 hr
        obtain ⟨h3, h4⟩ := List.getElem?_eq_some_iff.1 hq
        exact hk ((List.Nodup.getElem_inj_iff hnd).1 (h2.trans h4.symm))
      simp [deref_write_ne this]

variable [Max K] [Min K]

omit [Max K] [Min K] in
theorem resolve_view {w : World K ρ} (a : Arg) : w.view.resolve a = (w.resolve a).map (deref w.heap) := by
  cases a with
  | mine i => simp [VWorld.resolve, World.resolve, World.view]
  | infoDesired => rfl
  | infoActual => rfl

omit [Max K] [Min K] in
theorem resolve_in {w : World K ρ} (hs : Separate w) {a : Arg} {r : Nat} (h : w.resolve a = some r) : r < w.heap.length := by
  cases a with
  | mine i =>
    obtain ⟨h1, h2⟩ := List.getElem?_eq_some_iff.1 h
    exact hs.envIn r (h2 ▸ List.getElem_mem h1)
  | infoDesired => exact hs.desIn r h
  | infoActual => exact hs.actIn r h

/-- One operation: the shared memory behaves as the separated one, and stays separated. -/
theorem heap_step (compute : ComputeFn K ρ) (w : World K ρ) (hs : Separate w) (op : HOp K) :
    (w.step compute op).view = w.view.step compute op ∧ Separate (w.step compute op) := by
  obtain ⟨h1, h2, h3, h4, h5, h6, h7⟩ := hs
  cases op with
  | newArray v =>
    refine ⟨?_, ?_⟩
    · simp only [World.step, World.view, VWorld.step, alloc, List.map_append, List.map_cons, List.map_nil, deref_last,
        map_deref_append h1, optMap_deref_append h2, optMap_deref_append h3]
    · refine ⟨?_, ?_, ?_, ?_, ?_, ?_, h7⟩ <;> simp only [World.step, alloc, List.length_append, List.length_cons, List.length_nil]
      · intro r hr
        rcases List.mem_append.1 hr with hr | hr
        · have := h1 r hr; omega
        · simp only [List.mem_cons, List.not_mem_nil, or_false] at hr; omega
      · intro r hr
        have := h2 r hr
        omega
      · intro r hr
        have := h3 r hr
        omega
      · refine List.nodup_append.2 ⟨h4, by simp, ?_⟩
        intro a ha b hb hab
        simp only [List.mem_cons, List.not_mem_nil, or_false] at hb
        have := h1 a ha
        omega
      · intro r hr hm
        rcases List.mem_append.1 hm with hm | hm
        · exact h5 r hr hm
        · simp only [List.mem_cons, List.not_mem_nil, or_false] at hm
          have := h2 r hr
          omega
      · intro r hr hm
        rcases List.mem_append.1 hm with hm | hm
        · exact h6 r hr hm
        · simp only [List.mem_cons, List.not_mem_nil, or_false] at hm
          have := h3 r hr
          omega
  | write a i x =>
    have hlen : ∀ r, (writeAt w.heap r i x).length = w.heap.length := by intro r; simp [writeAt]
    cases hr : w.resolve a with
    | none =>
      simp only [World.step, hr]
      refine ⟨?_, h1, h2, h3, h4, h5, h6, h7⟩
      cases a with
      | mine j =>
        have : w.env[j]? = none := hr
        have e : (w.env.map (deref w.heap)).modify j (fun a => a.set i x) = w.env.map (deref w.heap) := by
          apply List.ext_getElem?
          intro k
          rw [List.getElem?_modify, List.getElem?_map]
          by_cases hk : j = k
          · subst hk; rw [this]; rfl
          · simp [hk]
        simp only [VWorld.step, World.view, e]
      | infoDesired =>
        have : w.obj.desired = none := hr
        simp only [VWorld.step, World.view, this, Option.map_none]
      | infoActual =>
        have : w.obj.actual = none := hr
        simp only [VWorld.step, World.view, this, Option.map_none]
    | some r =>
      simp only [World.step, hr]
      refine ⟨?_, ?_, ?_, ?_, h4, h5, h6, h7⟩
      · cases a with
        | mine j =>
          have hr' : w.env[j]? = some r := hr
          have hmem : r ∈ w.env := by
            obtain ⟨k1, k2⟩ := List.getElem?_eq_some_iff.1 hr'
            exact k2 ▸ List.getElem_mem k1
          simp only [VWorld.step, World.view]
          rw [modify_map_write hr' (h1 r hmem) h4, optMap_deref_write (fun e => h5 r e hmem),
            optMap_deref_write (fun e => h6 r e hmem)]
        | infoDesired =>
          have hr' : w.obj.desired = some r := hr
          simp only [VWorld.step, World.view]
          rw [map_deref_write (h5 r hr'), optMap_deref_write (h7 r hr'), hr']
          simp only [Option.map_some, deref_write_self (h2 r hr')]
        | infoActual =>
          have hr' : w.obj.actual = some r := hr
          simp only [VWorld.step, World.view]
          rw [map_deref_write (h6 r hr'), optMap_deref_write (o := w.obj.desired) (fun e => h7 r e hr'), hr']
          simp only [Option.map_some, deref_write_self (h3 r hr')]
      · intro q hq; simp only [hlen]; exact h1 q hq
      · intro q hq; simp only [hlen]; exact h2 q hq
      · intro q hq; simp only [hlen]; exact h3 q hq
  | setEnable b => exact ⟨rfl, h1, h2, h3, h4, h5, h6, h7⟩
  | reset =>
    refine ⟨rfl, h1, ?_, ?_, h4, ?_, ?_, ?_⟩ <;> simp [World.step]
  | call s u dt =>
    have hsep : Separate w := ⟨h1, h2, h3, h4, h5, h6, h7⟩
    simp only [World.step, VWorld.step, resolve_view]
    cases hrs : w.resolve s with
    | none => exact ⟨rfl, hsep⟩
    | some rs =>
      cases hru : w.resolve u with
      | none => exact ⟨rfl, hsep⟩
      | some ru =>
        simp only [Option.map_some]
        have hspec := hFilter_spec compute w.obj w.heap rs ru dt (resolve_in hsep hrs) (resolve_in hsep hru) h3
        have hv : filterControl (valCompute compute) w.view.obj (deref w.heap rs) dt (deref w.heap ru) =
          filterControl (valCompute compute) (viewObj w.heap w.obj) (deref w.heap rs) dt (deref w.heap ru) := rfl
        rw [hv]
        rcases hq : hFilter compute w.obj w.heap rs ru dt with ⟨res, o, h⟩
        rcases hf : filterControl (valCompute compute) (viewObj w.heap w.obj) (deref w.heap rs) dt (deref w.heap ru) with ⟨vr, vo⟩
        rw [hq, hf] at hspec
        obtain ⟨⟨l, rfl⟩, ho, hres, ⟨d, hd1, hd2, hd3⟩, hact, htwo⟩ := hspec
        simp only at ho hres hd1 hd2 hd3 hact htwo
        have hactIn : ∀ r, o.actual = some r → r < (w.heap ++ l).length := by
          intro r hr
          rcases hact with e | ⟨r', e1, e2, e3⟩
          · rw [e] at hr
            have := h3 r hr
            rw [List.length_append]
            omega
          · rw [hr, Option.some.injEq] at e1
            subst e1
            exact e3
        have hactEnv : ∀ r, o.actual = some r → r ∉ w.env := by
          intro r hr hm
          rcases hact with e | ⟨r', e1, e2, e3⟩
          · rw [e] at hr
            exact h6 r hr hm
          · rw [hr, Option.some.injEq] at e1
            have := h1 r hm
            omega
        have hdesEnv : ∀ r, o.desired = some r → r ∉ w.env := by
          intro r hr hm
          rw [hd1, Option.some.injEq] at hr
          have := h1 r hm
          omega
        have hdesIn : ∀ r, o.desired = some r → r < (w.heap ++ l).length := by
          intro r hr
          rw [hd1, Option.some.injEq] at hr
          omega
        have henvIn : ∀ r ∈ w.env, r < (w.heap ++ l).length := by
          intro r hr
          have := h1 r hr
          rw [List.length_append]
          omega
        rcases hres with ⟨e, rfl, rfl⟩ | ⟨r, c, rfl, rfl, hc, hr1, hr2, hr3, hr4⟩
        · refine ⟨?_, henvIn, hdesIn, hactIn, h4, hdesEnv, hactEnv, htwo⟩
          simp only [World.view, map_deref_append h1]
          rw [← ho]
          rfl
        · refine ⟨?_, ?_, hdesIn, hactIn, ?_, ?_, ?_, htwo⟩
          · simp only [World.view, List.map_append, List.map_cons, List.map_nil, map_deref_append h1, hc]
            rw [← ho]
            rfl
          · intro q hq
            rcases List.mem_append.1 hq with hq | hq
            · exact henvIn q hq
            · simp only [List.mem_cons, List.not_mem_nil, or_false] at hq
              rw [hq]; exact hr2
          · refine List.nodup_append.2 ⟨h4, by simp, ?_⟩
            intro a ha b hb hab
            simp only [List.mem_cons, List.not_mem_nil, or_false] at hb
            have := h1 a ha
            omega
          · intro q hq hm
            rcases List.mem_append.1 hm with hm | hm
            · exact hdesEnv q hq hm
            · simp only [List.mem_cons, List.not_mem_nil, or_false] at hm
              exact hr3 (by rw [← hm]; exact hq)
          · intro q hq hm
            rcases List.mem_append.1 hm with hm | hm
            · exact hactEnv q hq hm
            · simp only [List.mem_cons, List.not_mem_nil, or_false] at hm
              exact hr4 (by rw [← hm]; exact hq)

/-- **C04.** Any interleaving of creating arrays, writing in place to arrays (the caller's own, those returned by
`filter_control`, and those currently in the info dictionary), calling `filter_control` with such arrays, enabling, disabling
and resetting has exactly the effects it would have if module and caller shared no memory at all: calls see and return
contents only, writes to the caller's arrays change nothing else, and only writes through the info dictionary reach the
module's records. -/
theorem C04_no_aliasing (compute : ComputeFn K ρ) (w : World K ρ) (hs : Separate w) (ops : List (HOp K)) :
    (w.run compute ops).view = w.view.run compute ops := by
  have key : ∀ (ops : List (HOp K)) (w : World K ρ), Separate w →
      (w.run compute ops).view = w.view.run compute ops := by
    intro ops
    induction ops with
    | nil => intro w _; rfl
    | cons op ops ih =>
      intro w hw
      obtain ⟨e, hw'⟩ := heap_step compute w hw op
      have e1 : w.run compute (op :: ops) = (w.step compute op).run compute ops := rfl
      have e2 : w.view.run compute (op :: ops) = (w.view.step compute op).run compute ops := rfl
      rw [e1, e2, ← e]
      exact ih _ hw'
  exact key ops w hs

omit [Max K] [Min K] in
/-- A new module with no arrays around shares nothing. -/
theorem C04_initially_separate (core : Core K ρ) : Separate (⟨[], ⟨core, none, none⟩, []⟩ : World K ρ) := by
  refine ⟨?_, ?_, ?_, ?_, ?_, ?_, ?_⟩ <;> simp

/-- **C04, writes to own arrays.** After any history, writing in place to any array the caller passed in or got back changes
neither what the module reports nor what it returns for the next call on other arrays. -/
theorem C04_write_own_harmless (compute : ComputeFn K ρ) (core : Core K ρ) (ops : List (HOp K)) (j i : Nat) (x : K) :
    let w := (⟨[], ⟨core, none, none⟩, []⟩ : World K ρ).run compute ops
    let w' := w.step compute (.write (.mine j) i x)
    w'.view.obj = w.view.obj ∧ ∀ vs vu dt, filterControl (valCompute compute) w'.view.obj vs dt vu =
      filterControl (valCompute compute) w.view.obj vs dt vu := by
  intro w w'
  have hsep : ∀ (ops : List (HOp K)) (w : World K ρ), Separate w → Separate (w.run compute ops) := by
    intro ops
    induction ops with
    | nil => intro w hw; exact hw
    | cons op ops ih => intro w hw; exact ih _ (heap_step compute w hw op).2
  have hw : Separate w := hsep ops _ (C04_initially_separate core)
  have e : w'.view = w.view.step compute (.write (.mine j) i x) := (heap_step compute w hw _).1
  have e' : w'.view.obj = w.view.obj := by rw [e]; rfl
  exact ⟨e', fun vs vu dt => by rw [e']⟩

/-- **C04, the info dictionary is the record.** After any history, writing through `generate_info()['control_actual']` changes
what the module reports accordingly, but not what it returns for later calls. -/
theorem C04_info_is_record (compute : ComputeFn K ρ) (core : Core K ρ) (ops : List (HOp K)) (i : Nat) (x : K) :
    let w := (⟨[], ⟨core, none, none⟩, []⟩ : World K ρ).run compute ops
    let w' := w.step compute (.write .infoActual i x)
    (generateInfo w'.view.obj).controlActual = (generateInfo w.view.obj).controlActual.map (fun a => a.set i x) ∧
    (generateInfo w'.view.obj).controlDesired = (generateInfo w.view.obj).controlDesired ∧
    ∀ vs vu dt, (filterControl (valCompute compute) w'.view.obj vs dt vu).1 =
      (filterControl (valCompute compute) w.view.obj vs dt vu).1 := by
  intro w w'
  have hsep : ∀ (ops : List (HOp K)) (w : World K ρ), Separate w → Separate (w.run compute ops) := by
    intro ops
    induction ops with
    | nil => intro w hw; exact hw
    | cons op ops ih => intro w hw; exact ih _ (heap_step compute w hw op).2
  have hw : Separate w := hsep ops _ (C04_initially_separate core)
  have e : w'.view = w.view.step compute (.write .infoActual i x) := (heap_step compute w hw _).1
  rw [e]
  refine ⟨rfl, rfl, ?_⟩
  intro vs vu dt
  have gen : ∀ (c : Core K ρ) (d a a' : Option (List K)),
      (filterControl (valCompute compute) (⟨c, d, a⟩ : VObj K ρ) vs dt vu).1 =
      (filterControl (valCompute compute) (⟨c, d, a'⟩ : VObj K ρ) vs dt vu).1 := by
    intro c d a a'
    obtain ⟨hi, lo, en, iv, ex⟩ := c
    unfold filterControl valCompute
    simp only [modifyBase, HasBase.get, HasBase.set]
    cases en with
    | false => rfl
    | true =>
      simp only [if_true]
      rcases compute ⟨hi, lo, true, iv, ex⟩ vs dt vu with ⟨res, rec, core'⟩
      have hcl : ∀ (z z' : Option (List K)) (v : List K),
          Base.clipControl ⟨core'.controlBoundsHigh, core'.controlBoundsLow, core'.enable, core'.intervening, some vu, z⟩ v =
          Base.clipControl ⟨core'.controlBoundsHigh, core'.controlBoundsLow, core'.enable, core'.intervening, some vu, z'⟩ v :=
        fun _ _ _ => rfl
      have fin : ∀ (z z' : Option (List K)) (v : List K),
          (match Base.clipControl ⟨core'.controlBoundsHigh, core'.controlBoundsLow, core'.enable, core'.intervening, some vu, z⟩ v with
            | .error e => ((.error e : Except PyErr (List K)), (⟨core', some vu, z⟩ : VObj K ρ))
            | .ok c => (.ok c, ⟨core', some vu, some c⟩)).1 =
          (match Base.clipControl ⟨core'.controlBoundsHigh, core'.controlBoundsLow, core'.enable, core'.intervening, some vu, z'⟩ v with
            | .error e => ((.error e : Except PyErr (List K)), (⟨core', some vu, z'⟩ : VObj K ρ))
            | .ok c => (.ok c, ⟨core', some vu, some c⟩)).1 := by
        intro z z' v
        rw [hcl z z' v]
        rcases Base.clipControl ⟨core'.controlBoundsHigh, core'.controlBoundsLow, core'.enable, core'.intervening, some vu, z'⟩ v with e | c <;> rfl
      cases res with
      | error e => rfl
      | ok out =>
        cases out with
        | sameArray => exact fin _ _ vu
        | newArray v => exact fin _ _ v
  exact gen _ _ _ _

/-! ### A concrete interleaving -/

/-- A module without bounds that hands back the very array it was given. -/
def passCompute : ComputeFn Int Unit := fun c _ _ _ => (.ok .sameArray, none, c)

/-- The caller creates a state and a control, calls, overwrites both the control they passed and the control they got back, and
overwrites the record through the info dictionary: the report shows the original desired control and the changed record. -/
example :
    let w := (⟨[], ⟨⟨none, none, true, false, ()⟩, none, none⟩, []⟩ : World Int Unit).run passCompute
      [.newArray [0, 0], .newArray [1, 2], .call (.mine 0) (.mine 1) 1, .write (.mine 1) 0 7, .write (.mine 2) 0 8,
        .write .infoActual 1 9]
    w.view.mine = [[0, 0], [7, 2], [8, 2]] ∧ w.view.obj.desired = some [1, 2] ∧ w.view.obj.actual = some [1, 9] := by
  decide

end RTA
