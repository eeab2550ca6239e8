import Verif.Props.Window
import Verif.Props.State

/-!
Arguments at the edge of what the functions are meant for: negative subsampling settings (C37), index 0 among the active constraints (C29)
and wrappers of empty arrays (C78).
-/
namespace RTA

/-- **C37, which point an index means**, without the model's indexing function: a negative index counts from the end; what is then outside the trajectory
is moved to its nearest end. -/
theorem C37_index {n : Nat} (hn : 0 < n) (i : Int) : (jaxIndex n i : Int) = max 0 (min ((n : Int) - 1) (if i < 0 then i + n else i)) := by
  unfold jaxIndex
  dsimp only
  split_ifs <;> omega

/-- In a trajectory of three points. -/
example : (jaxIndex 3 (-1) : Int) = 2 ∧ (jaxIndex 3 (-4) : Int) = 0 ∧ (jaxIndex 3 7 : Int) = 2 :=
  ⟨C37_index (by decide) _, C37_index (by decide) _, C37_index (by decide) _⟩

section
variable {K : Type} [LinearOrder K]

/-- **C37, negative `num_check_all`.** With `num_check_all = -(a + 1)`, `a ≥ 1`, and a `skip_length` beyond the end, the only point looked at is
the `a`-th from the end, the initial one if there are fewer: negative numbers count from the end of the trajectory. -/
theorem C37_negative {cfg : SubsampleConfig} {a n : Nat} (ha : 1 ≤ a) (hn : 0 < n) (hall : cfg.numCheckAll = -((a : Int) + 1))
    (hskip : (n : Int) + a ≤ cfg.skipLength) (hnl : cfg.numLeast = none) (hkf : cfg.keepFirst = false) (hkl : cfg.keepLast = false)
    (h : Nat → K) : checkedPoints cfg n h = [n - a] := by
  have h1 : pyRange 0 cfg.numCheckAll 1 = [] := by
    unfold pyRange
    rw [if_pos (by decide), hall]
    have : ((-((a : Int) + 1) - 0 + 1 - 1) / 1).toNat = 0 := by omega
    rw [this]
    rfl
  have h2 : pyRange (cfg.numCheckAll + 1) n cfg.skipLength = [-(a : Int)] := by
    unfold pyRange
    have hs : 0 < cfg.skipLength := by omega
    rw [if_pos hs, hall]
    have e : ((n : Int) - (-((a : Int) + 1) + 1) + cfg.skipLength - 1) / cfg.skipLength = 1 := by
      rw [Int.ediv_eq_iff_of_pos hs]
      constructor <;> omega
    rw [e]
    simp [List.range_succ]
  have h3 : jaxIndex n (-(a : Int)) = n - a := by
    unfold jaxIndex
    dsimp only
    split_ifs <;> omega
  unfold checkedPoints
  simp only [h1, h2, hnl, hkf, hkl, List.nil_append, List.map_cons, List.map_nil, h3]
  rfl

/-- The hypotheses can be met, with the point inside the trajectory and with the point before its beginning. -/
example : checkedPoints (K := Rat) { numCheckAll := -3, skipLength := 20, numLeast := none, keepFirst := false, keepLast := false } 5 (fun _ => 0) = [3] ∧
    checkedPoints (K := Rat) { numCheckAll := -9, skipLength := 20, numLeast := none, keepFirst := false, keepLast := false } 5 (fun _ => 0) = [0] :=
  ⟨C37_negative (a := 2) (by decide) (by decide) rfl (by decide) rfl rfl rfl _, C37_negative (a := 8) (by decide) (by decide) rfl (by decide) rfl rfl rfl _⟩

end

/-- **C29, index 0.** Were the solver to report index 0 among the active constraints (the contract excludes it), the last name would be listed
and nothing raised. -/
theorem C29_index_zero (names : List String) (hne : names ≠ []) : causingLoop names [0] [] = (.ok (), [names.getLast hne]) := by
  have hlen : 0 < names.length := List.length_pos_of_ne_nil hne
  have h1 : pyGet names (0 - 1) = some (names.getLast hne) := by
    unfold pyGet
    rw [if_neg (by decide), if_pos (by omega)]
    have : ((0 : Int) - 1 + names.length).toNat = names.length - 1 := by omega
    rw [this, List.getElem?_eq_getElem (by omega), List.getLast_eq_getElem]
  unfold causingLoop
  rw [h1]
  simp [causingLoop]

/-- The same with two names. -/
example : causingLoop ["a", "b"] [0] [] = (.ok (), ["b"]) := C29_index_zero ["a", "b"] (by simp)

/-- **C78, empty arrays**: every property of a wrapper of an empty array raises `IndexError`. -/
theorem C78_empty {K : Type} (w : StateWrapper K) (hv : w.vector = []) (name : String) (hname : (w.cls.fields.lookup name).isSome = true) :
    w.get name = .error .indexError := by
  obtain ⟨i, hi⟩ := Option.isSome_iff_exists.1 hname
  unfold StateWrapper.get
  rw [hi]
  simp only [hv]
  rfl

/-- The hypotheses can be met. -/
example : (StateWrapper.init (K := Rat) .docking2d []).get "x_dot" = .error .indexError := C78_empty _ rfl "x_dot" rfl

end RTA
