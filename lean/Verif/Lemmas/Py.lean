import Verif.Spec.Bounds
import Mathlib.Order.Lattice
import Mathlib.Order.Defs.LinearOrder

namespace RTA

section dict
variable {V : Type}

theorem dictGet_dictSet (d : Dict V) (k q : String) (v : V) :
    dictGet (dictSet d k v) q = if k = q then some v else dictGet d q := by
  induction d with
  | nil => simp [dictSet, dictGet]
  | cons a d ih =>
    obtain ⟨k', w⟩ := a
    by_cases h : k' = k
    · subst h
      by_cases h2 : k' = q <;> simp [dictSet, dictGet, h2]
    · by_cases h2 : k' = q
      · subst h2
        simp [dictSet, dictGet, h, Ne.symm h]
      · simp [dictSet, dictGet, h, h2, ih]

theorem dictKeys_dictSet (d : Dict V) (k : String) (v : V) :
    dictKeys (dictSet d k v) = if k ∈ dictKeys d then dictKeys d else dictKeys d ++ [k] := by
  induction d with
  | nil => simp [dictSet, dictKeys]
  | cons a d ih =>
    obtain ⟨k', w⟩ := a
    by_cases h : k' = k
    · subst h; simp [dictSet, dictKeys]
    · have h' : ¬ k = k' := fun e => h e.symm
      have e1 : dictKeys (dictSet ((k', w) :: d) k v) = k' :: dictKeys (dictSet d k v) := by
        simp [dictSet, dictKeys, h]
      rw [e1, ih]
      by_cases h2 : k ∈ dictKeys d
      · have : k ∈ dictKeys ((k', w) :: d) := by simp only [dictKeys, List.map_cons, List.mem_cons]; exact Or.inr h2
        rw [if_pos h2, if_pos this]; rfl
      · have : k ∉ dictKeys ((k', w) :: d) := by
          simp only [dictKeys, List.map_cons, List.mem_cons, not_or]; exact ⟨h', h2⟩
        rw [if_neg h2, if_neg this]; rfl

theorem dictGet_isSome_iff (d : Dict V) (k : String) : (dictGet d k).isSome ↔ k ∈ dictKeys d := by
  induction d with
  | nil => simp [dictGet, dictKeys]
  | cons a d ih =>
    obtain ⟨k', w⟩ := a
    by_cases h : k' = k
    · subst h; simp [dictGet, dictKeys]
    · have h' : ¬ k = k' := fun e => h e.symm
      simp only [dictGet, h, if_false, ih, dictKeys, List.map_cons, List.mem_cons, h', false_or]

/-- Appending is what `dictSet` does for a new key. -/
theorem dictSet_of_not_mem (d : Dict V) (k : String) (v : V) (h : k ∉ dictKeys d) :
    dictSet d k v = d ++ [(k, v)] := by
  induction d with
  | nil => rfl
  | cons a d ih =>
    obtain ⟨k', w⟩ := a
    simp only [dictKeys, List.map_cons, List.mem_cons, not_or] at h
    have h' : ¬ k' = k := fun e => h.1 e.symm
    simp [dictSet, h', ih h.2]

theorem dictGet_of_mem_nodup (d : Dict V) (hd : (dictKeys d).Nodup) {k : String} {v : V} (h : (k, v) ∈ d) :
    dictGet d k = some v := by
  induction d with
  | nil => cases h
  | cons a d ih =>
    obtain ⟨k', w⟩ := a
    simp only [dictKeys, List.map_cons, List.nodup_cons] at hd
    rcases List.mem_cons.1 h with h | h
    · cases h; simp [dictGet]
    · have : k' ≠ k := by
        rintro rfl
        exact hd.1 (List.mem_map.2 ⟨_, h, rfl⟩)
      simp [dictGet, this, ih hd.2 h]

/-- Folding `dictSet` over the entries of a dictionary `l` makes every key of `l` map to the value computed from it. -/
theorem dictGet_foldl_dictSet {W : Type} (f : W → V) (l : Dict W) (d : Dict V) (hl : (dictKeys l).Nodup)
    (q : String) :
    dictGet (l.foldl (fun d kc => dictSet d kc.1 (f kc.2)) d) q
      = match dictGet l q with
        | some w => some (f w)
        | none => dictGet d q := by
  induction l generalizing d with
  | nil => simp [dictGet]
  | cons a l ih =>
    obtain ⟨k, w⟩ := a
    simp only [dictKeys, List.map_cons, List.nodup_cons] at hl
    simp only [List.foldl_cons]
    rw [ih _ hl.2, dictGet_dictSet]
    by_cases h : k = q
    · subst h
      have : dictGet l k = none := by
        cases hh : dictGet l k with
        | none => rfl
        | some v =>
          have : (dictGet l k).isSome := by simp [hh]
          exact absurd ((dictGet_isSome_iff l k).1 this) hl.1
      simp [dictGet, this]
    · simp [dictGet, h]

theorem foldl_dictSet_cons {W : Type} (f : W → V) (l : Dict W) (k : String) (v : V) (d : Dict V)
    (hk : k ∉ dictKeys l) :
    l.foldl (fun d kc => dictSet d kc.1 (f kc.2)) ((k, v) :: d)
      = (k, v) :: l.foldl (fun d kc => dictSet d kc.1 (f kc.2)) d := by
  induction l generalizing d with
  | nil => rfl
  | cons a l ih =>
    obtain ⟨q, w⟩ := a
    simp only [dictKeys, List.map_cons, List.mem_cons, not_or] at hk
    simp only [List.foldl_cons, dictSet, if_neg hk.1]
    exact ih _ hk.2

/-- Overwriting every entry of a dictionary with the same keys. -/
theorem foldl_dictSet_same {W : Type} (f : W → V) (l : Dict W) (d : Dict V) (hl : (dictKeys l).Nodup)
    (hd : dictKeys d = dictKeys l) :
    l.foldl (fun d kc => dictSet d kc.1 (f kc.2)) d = l.map fun kc => (kc.1, f kc.2) := by
  induction l generalizing d with
  | nil =>
    simp only [dictKeys, List.map_nil, List.map_eq_nil_iff] at hd
    simp [hd]
  | cons a l ih =>
    obtain ⟨k, w⟩ := a
    cases d with
    | nil => simp [dictKeys] at hd
    | cons b d =>
      obtain ⟨q, v⟩ := b
      simp only [dictKeys, List.map_cons, List.cons.injEq] at hd
      simp only [dictKeys, List.map_cons, List.nodup_cons] at hl
      obtain ⟨rfl, hd⟩ := hd
      simp only [List.foldl_cons, dictSet, if_true, List.map_cons]
      rw [foldl_dictSet_cons f l q _ d hl.1, ih d hl.2 hd]

/-- Filling a dictionary from scratch. -/
theorem foldl_dictSet_nil {W : Type} (f : W → V) (l : Dict W) (hl : (dictKeys l).Nodup) :
    l.foldl (fun d kc => dictSet d kc.1 (f kc.2)) [] = l.map fun kc => (kc.1, f kc.2) := by
  induction l with
  | nil => rfl
  | cons a l ih =>
    obtain ⟨k, w⟩ := a
    simp only [dictKeys, List.map_cons, List.nodup_cons] at hl
    simp only [List.foldl_cons, dictSet, List.map_cons]
    rw [foldl_dictSet_cons f l k _ [] hl.1, ih hl.2]

/-- Selecting entries by key with a loop of insertions. -/
theorem foldl_dictSet_filter (p : String → Bool) (l : Dict V) (d : Dict V)
    (hl : (dictKeys l).Nodup) (hdl : ∀ k ∈ dictKeys l, k ∉ dictKeys d) :
    l.foldl (fun acc kc => if p kc.1 = true then dictSet acc kc.1 kc.2 else acc) d
      = d ++ l.filter fun kc => p kc.1 := by
  induction l generalizing d with
  | nil => simp
  | cons a l ih =>
    obtain ⟨k, w⟩ := a
    simp only [dictKeys, List.map_cons, List.nodup_cons, List.mem_cons] at hl hdl
    simp only [List.foldl_cons]
    by_cases h : p k = true
    · rw [if_pos h, dictSet_of_not_mem d k w (hdl k (Or.inl rfl)), ih _ hl.2]
      · simp [h]
      · intro q hq
        simp only [dictKeys, List.map_append, List.map_cons, List.map_nil, List.mem_append, List.mem_singleton, not_or]
        refine ⟨hdl q (Or.inr hq), ?_⟩
        rintro rfl
        exact hl.1 hq
    · rw [if_neg h, ih _ hl.2 (fun q hq => hdl q (Or.inr hq))]
      simp [h]

end dict

section clip
variable {K : Type}

theorem bcastLen_cases {a b n : Nat} (h : bcastLen a b = some n) :
    (a = b ∧ n = a) ∨ (a = 1 ∧ n = b) ∨ (b = 1 ∧ n = a) := by
  unfold bcastLen at h
  split at h
  · left; exact ⟨by assumption, by simpa using h.symm⟩
  · split at h
    · right; left; exact ⟨by assumption, by simpa using h.symm⟩
    · split at h
      · right; right; exact ⟨by assumption, by simpa using h.symm⟩
      · cases h

theorem bcastTo_length_one {l : List K} (h : l.length = 1) (n : Nat) : ∃ a, l = [a] ∧ bcastTo n l = List.replicate n a := by
  obtain ⟨a, rfl⟩ := List.length_eq_one_iff.1 h
  exact ⟨a, rfl, rfl⟩

theorem bcastTo_of_ne_one {l : List K} (h : l.length ≠ 1) (n : Nat) : bcastTo n l = l := by
  match l, h with
  | [], _ => rfl
  | [a], h => simp at h
  | a :: b :: l, _ => rfl

theorem boundAt_arr_of_ne_one {l : List K} (j : Bool) (h : l.length ≠ 1) (i : Nat) :
    boundAt (some (.arr j l)) i = l[i]? := by
  match l, h with
  | [], _ => rfl
  | [a], h => simp at h
  | a :: b :: l, _ => rfl

/-- The broadcast list of a bound: its `i`-th entry is the bound that applies to component `i`. -/
theorem toList_getElem? (b : Bound K) {n i : Nat} (hi : i < n) : (b.toList n)[i]? = boundAt (some b) i := by
  cases b with
  | scalar b => simp [Bound.toList, boundAt, hi]
  | arr j l =>
    by_cases h1 : l.length = 1
    · obtain ⟨a, rfl, _⟩ := bcastTo_length_one h1 n
      simp [Bound.toList, bcastTo, boundAt, hi]
    · rw [boundAt_arr_of_ne_one j h1, Bound.toList, bcastTo_of_ne_one h1]

/-- Clipping one number. -/
def clip1 [Max K] [Min K] (lo hi : Option K) (a : K) : K :=
  let a := match lo with | none => a | some b => max a b
  match hi with | none => a | some b => min a b

theorem bcast_ne_one {b : Option (Bound K)} {m n : Nat} (h : Bound.bcast b m = some n) (hm : m ≠ 1) : n = m := by
  cases b with
  | none => simpa [Bound.bcast] using h.symm
  | some b =>
    cases b with
    | scalar b => simpa [Bound.bcast] using h.symm
    | arr j l =>
      rcases bcastLen_cases h with ⟨_, h'⟩ | ⟨h, _⟩ | ⟨_, h'⟩
      · exact h'
      · exact absurd h hm
      · exact h'

theorem bcastTo_length {x : List K} {n : Nat} (h : x.length ≠ 1 → n = x.length) : (bcastTo n x).length = n := by
  by_cases h1 : x.length = 1
  · obtain ⟨a, rfl, h2⟩ := bcastTo_length_one h1 n; simp [h2]
  · rw [bcastTo_of_ne_one h1, h h1]

theorem toList_length (b : Bound K) {m n' n : Nat} (hm : Bound.bcast (some b) m = some n')
    (hn : n' ≠ 1 → n = n') : (b.toList n).length = n := by
  cases b with
  | scalar b => simp [Bound.toList]
  | arr j l =>
    simp only [Bound.toList]
    apply bcastTo_length
    intro h1
    rcases bcastLen_cases hm with ⟨h, h'⟩ | ⟨h, h'⟩ | ⟨h, h'⟩
    · have : n' ≠ 1 := by omega
      rw [hn this]; omega
    · have : n' ≠ 1 := by omega
      rw [hn this]; omega
    · exact absurd h h1

/-- Elementwise description of a successful clip. -/
theorem npClip_ok [Max K] [Min K] {lo hi : Option (Bound K)} {x y : List K} (h : npClip lo hi x = .ok y) :
    ∃ n, (bcastTo n x).length = n ∧ (x.length ≠ 1 → n = x.length) ∧ y.length = n ∧
      (∀ i, y[i]? = (bcastTo n x)[i]?.map (clip1 (boundAt lo i) (boundAt hi i))) := by
  unfold npClip at h
  split at h
  · cases h
  · rename_i n hn
    obtain ⟨n1, h1, h2⟩ := Option.bind_eq_some_iff.1 hn
    have hx : x.length ≠ 1 → n = x.length := by
      intro hx
      have e1 := bcast_ne_one h1 hx
      rw [bcast_ne_one h2 (by omega), e1]
    have hn1 : n1 ≠ 1 → n = n1 := fun hne => bcast_ne_one h2 hne
    have hlen := bcastTo_length hx
    refine ⟨n, hlen, hx, ?_⟩
    cases lo with
    | none =>
      cases hi with
      | none =>
        simp only [Except.ok.injEq] at h
        subst h
        refine ⟨hlen, fun i => ?_⟩
        simp only [boundAt]
        cases (bcastTo n x)[i]? <;> rfl
      | some b =>
        simp only [Except.ok.injEq] at h
        subst h
        have hb := toList_length b h2 (n := n) (fun _ => rfl)
        refine ⟨by simp [hlen, hb], fun i => ?_⟩
        by_cases hi : i < n
        · have e1 : (bcastTo n x)[i]? = some ((bcastTo n x)[i]'(by omega)) := List.getElem?_eq_getElem (by omega)
          have e2 : (b.toList n)[i]? = some ((b.toList n)[i]'(by omega)) := List.getElem?_eq_getElem (by omega)
          have e3 := toList_getElem? b hi
          rw [e2] at e3
          rw [List.getElem?_zipWith, e1, e2, ← e3]
          simp [boundAt, clip1]
        · have e1 : (bcastTo n x)[i]? = none := List.getElem?_eq_none (by omega)
          rw [List.getElem?_zipWith, e1]; rfl
    | some a =>
      have ha := toList_length a h1 hn1
      cases hi with
      | none =>
        simp only [Except.ok.injEq] at h
        subst h
        refine ⟨by simp [hlen, ha], fun i => ?_⟩
        by_cases hi : i < n
        · have e1 : (bcastTo n x)[i]? = some ((bcastTo n x)[i]'(by omega)) := List.getElem?_eq_getElem (by omega)
          have e2 : (a.toList n)[i]? = some ((a.toList n)[i]'(by omega)) := List.getElem?_eq_getElem (by omega)
          have e3 := toList_getElem? a hi
          rw [e2] at e3
          rw [List.getElem?_zipWith, e1, e2, ← e3]
          simp [boundAt, clip1]
        · have e1 : (bcastTo n x)[i]? = none := List.getElem?_eq_none (by omega)
          rw [List.getElem?_zipWith, e1]; rfl
      | some b =>
        simp only [Except.ok.injEq] at h
        subst h
        have hb := toList_length b h2 (n := n) (fun _ => rfl)
        refine ⟨by simp [hlen, hb, ha], fun i => ?_⟩
        by_cases hi : i < n
        · have e1 : (bcastTo n x)[i]? = some ((bcastTo n x)[i]'(by omega)) := List.getElem?_eq_getElem (by omega)
          have e2 : (a.toList n)[i]? = some ((a.toList n)[i]'(by omega)) := List.getElem?_eq_getElem (by omega)
          have e3 : (b.toList n)[i]? = some ((b.toList n)[i]'(by omega)) := List.getElem?_eq_getElem (by omega)
          have f2 := toList_getElem? a hi
          have f3 := toList_getElem? b hi
          rw [e2] at f2
          rw [e3] at f3
          rw [List.getElem?_zipWith, List.getElem?_zipWith, e1, e2, e3, ← f2, ← f3]
          simp [clip1]
        · have e1 : (bcastTo n x)[i]? = none := List.getElem?_eq_none (by omega)
          rw [List.getElem?_zipWith, List.getElem?_zipWith, e1]; rfl

/-- When the array bounds fit the control, clipping succeeds. -/
theorem npClip_fits [Max K] [Min K] {lo hi : Option (Bound K)} {x : List K} (hlo : BoundFits x.length lo)
    (hhi : BoundFits x.length hi) : ∃ y, npClip lo hi x = .ok y ∧ y.length = x.length ∧
      ∀ i, y[i]? = x[i]?.map (clip1 (boundAt lo i) (boundAt hi i)) := by
  have key : ∀ b : Option (Bound K), BoundFits x.length b → Bound.bcast b x.length = some x.length := by
    intro b hb
    cases b with
    | none => rfl
    | some b =>
      cases b with
      | scalar b => rfl
      | arr j l =>
        simp only [BoundFits] at hb
        simp only [Bound.bcast, bcastLen]
        rcases hb with hb | hb
        · by_cases hx : x.length = l.length
          · simp [hx]
          · by_cases hx1 : x.length = 1
            · omega
            · simp [hx1, hb]
        · simp [hb]
  have hx : bcastTo x.length x = x := by
    match x with
    | [] => rfl
    | [a] => rfl
    | a :: b :: l => rfl
  have hok : ∃ y, npClip lo hi x = .ok y := by
    unfold npClip
    rw [key lo hlo]
    simp only [Option.bind_some]
    rw [key hi hhi]
    exact ⟨_, rfl⟩
  obtain ⟨y, hy⟩ := hok
  obtain ⟨n, h1, h2, h3, h4⟩ := npClip_ok hy
  have hn : n = x.length := by
    unfold npClip at hy
    rw [key lo hlo] at hy
    simp only [Option.bind_some] at hy
    rw [key hi hhi] at hy
    simp only [hx, Except.ok.injEq] at hy
    have hl := fun a : Bound K => fun ha : BoundFits x.length (some a) =>
      toList_length a (key _ ha) (n := x.length) (fun _ => rfl)
    rw [← h3, ← hy]
    cases lo with
    | none =>
      cases hi with
      | none => rfl
      | some b => simp [hl b hhi]
    | some a =>
      cases hi with
      | none => simp [hl a hlo]
      | some b => simp [hl b hhi, hl a hlo]
  subst hn
  refine ⟨y, hy, h3, fun i => ?_⟩
  rw [h4 i, hx]

/-- Bounds that let a clip succeed fit its result. -/
theorem npClip_fits_of_ok [Max K] [Min K] {lo hi : Option (Bound K)} {x y : List K} (h : npClip lo hi x = .ok y) :
    BoundFits y.length lo ∧ BoundFits y.length hi := by
  obtain ⟨n, h1, h2, h3, h4⟩ := npClip_ok h
  unfold npClip at h
  split at h
  · cases h
  · rename_i m hm
    obtain ⟨n1, e1, e2⟩ := Option.bind_eq_some_iff.1 hm
    have hmn : m = y.length := by
      have hx : x.length ≠ 1 → m = x.length := by
        intro hx
        have e1 := bcast_ne_one e1 hx
        rw [bcast_ne_one e2 (by omega), e1]
      have hn1 : n1 ≠ 1 → m = n1 := fun hne => bcast_ne_one e2 hne
      have hlen := bcastTo_length hx
      cases lo with
      | none =>
        cases hi with
        | none => simp only [Except.ok.injEq] at h; rw [← h, hlen]
        | some b =>
          have hb := toList_length b e2 (n := m) (fun _ => rfl)
          simp only [Except.ok.injEq] at h; rw [← h]; simp [hlen, hb]
      | some a =>
        have ha := toList_length a e1 hn1
        cases hi with
        | none => simp only [Except.ok.injEq] at h; rw [← h]; simp [hlen, ha]
        | some b =>
          have hb := toList_length b e2 (n := m) (fun _ => rfl)
          simp only [Except.ok.injEq] at h; rw [← h]; simp [hlen, hb, ha]
    rw [← hmn]
    constructor
    · cases lo with
      | none => trivial
      | some a =>
        cases a with
        | scalar _ => trivial
        | arr j l =>
          simp only [BoundFits]
          by_cases hn1 : n1 = 1
          · left
            rcases bcastLen_cases e1 with ⟨h, h'⟩ | ⟨h, h'⟩ | ⟨h, h'⟩ <;> omega
          · have := bcast_ne_one e2 hn1
            rcases bcastLen_cases e1 with ⟨h, h'⟩ | ⟨h, h'⟩ | ⟨h, h'⟩ <;> omega
    · cases hi with
      | none => trivial
      | some a =>
        cases a with
        | scalar _ => trivial
        | arr j l =>
          simp only [BoundFits]
          rcases bcastLen_cases e2 with ⟨h, h'⟩ | ⟨h, h'⟩ | ⟨h, h'⟩ <;> omega

end clip

end RTA
