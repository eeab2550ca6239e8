import Verif.Model.CascadeShared
import Verif.Spec.Cascade

/-!
The loop of a cascade that may name a module several times.
-/
namespace RTA
variable {K M I : Type} [HasBase M K] {filter : M → I → K → List K → Except PyErr (List K) × M} {inp : I} {dt : K}

theorem sharedLoop_append (a b : List Nat) (store : List M) (flag : Bool) (u : List K) :
    sharedLoop filter inp dt (a ++ b) store flag u =
      match sharedLoop filter inp dt a store flag u with
      | (.error e, fl, st) => (.error e, fl, st)
      | (.ok c, fl, st) => sharedLoop filter inp dt b st fl c := by
  induction a generalizing store flag u with
  | nil => rfl
  | cons i a ih =>
    rw [List.cons_append, sharedLoop, sharedLoop]
    cases store[i]? with
    | none => exact ih store flag u
    | some m =>
      simp only
      rcases filter m inp dt u with ⟨e | c, m'⟩
      · rfl
      · exact ih _ _ _

theorem sharedLoop_length (a : List Nat) (store : List M) (flag : Bool) (u : List K) :
    (sharedLoop filter inp dt a store flag u).2.2.length = store.length := by
  induction a generalizing store flag u with
  | nil => rfl
  | cons i a ih =>
    rw [sharedLoop]
    cases store[i]? with
    | none => exact ih store flag u
    | some m =>
      simp only
      rcases filter m inp dt u with ⟨e | c, m'⟩
      · simp
      · rw [ih]; simp

/-- Objects that are not named do not matter and are not touched. -/
theorem sharedLoop_unnamed (a : List Nat) (i : Nat) (hi : i ∉ a) (m : M) (store : List M) (flag : Bool) (u : List K) :
    sharedLoop filter inp dt a (store.set i m) flag u =
      ((sharedLoop filter inp dt a store flag u).1, (sharedLoop filter inp dt a store flag u).2.1,
        (sharedLoop filter inp dt a store flag u).2.2.set i m) := by
  induction a generalizing store flag u with
  | nil => rfl
  | cons j a ih =>
    rw [List.mem_cons, not_or] at hi
    rw [sharedLoop, sharedLoop, List.getElem?_set_ne hi.1]
    cases store[j]? with
    | none => exact ih hi.2 store flag u
    | some q =>
      simp only
      rcases filter q inp dt u with ⟨e | c, q'⟩
      · simp only [List.set_comm _ _ hi.1]
      · simp only
        rw [List.set_comm _ _ hi.1]
        exact ih hi.2 _ _ _

theorem sharedLoop_keeps (a : List Nat) (i : Nat) (hi : i ∉ a) (store : List M) (flag : Bool) (u : List K) :
    (sharedLoop filter inp dt a store flag u).2.2[i]? = store[i]? := by
  induction a generalizing store flag u with
  | nil => rfl
  | cons j a ih =>
    rw [List.mem_cons, not_or] at hi
    rw [sharedLoop]
    cases store[j]? with
    | none => exact ih hi.2 store flag u
    | some q =>
      simp only
      rcases filter q inp dt u with ⟨e | c, q'⟩
      · simp only [List.getElem?_set_ne (Ne.symm hi.1)]
      · simp only
        rw [ih hi.2, List.getElem?_set_ne (Ne.symm hi.1)]

/-- Without repetitions the loop is that of a list of distinct objects. -/
theorem sharedLoop_nodup (a : List Nat) (hn : a.Nodup) (store : List M) (hr : ∀ i ∈ a, i < store.length) (ms : List M)
    (hms : a.map (store[·]?) = ms.map some) (flag : Bool) (u : List K) :
    (sharedLoop filter inp dt a store flag u).1 = (cascadeLoop filter inp dt ms flag u).1 ∧
    (sharedLoop filter inp dt a store flag u).2.1 = (cascadeLoop filter inp dt ms flag u).2.1 ∧
    a.map ((sharedLoop filter inp dt a store flag u).2.2[·]?) = (cascadeLoop filter inp dt ms flag u).2.2.map some := by
  induction a generalizing store flag u ms with
  | nil =>
    have : ms = [] := by simpa using hms.symm
    subst this
    exact ⟨rfl, rfl, rfl⟩
  | cons i a ih =>
    rcases ms with _ | ⟨m, ms⟩
    · simp at hms
    simp only [List.map_cons, List.cons.injEq] at hms
    obtain ⟨h1, h2⟩ := hms
    obtain ⟨hia, hna⟩ := List.nodup_cons.1 hn
    have hil : i < store.length := hr i (by simp)
    rw [sharedLoop, cascadeLoop, h1]
    simp only
    have hset : ∀ m', a.map ((store.set i m')[·]?) = a.map (store[·]?) := by
      intro m'
      refine List.map_congr_left fun j hj => ?_
      exact List.getElem?_set_ne (fun e : i = j => hia (by rw [e]; exact hj))
    rcases filter m inp dt u with ⟨e | c, m'⟩
    · refine ⟨rfl, rfl, ?_⟩
      rw [List.map_cons, List.map_cons, hset, h2, List.getElem?_set_self hil]
    · simp only
      obtain ⟨k1, k2, k3⟩ := ih hna (store.set i m') (fun j hj => by rw [List.length_set]; exact hr j (by simp [hj])) ms
        (by rw [hset, h2]) (if (HasBase.get m').intervening then true else flag) c
      refine ⟨k1, k2, ?_⟩
      rw [List.map_cons, List.map_cons, k3, sharedLoop_keeps a i hia, List.getElem?_set_self hil]

/-- The objects and controls of a loop stay inside a set of objects and controls closed under calls. -/
theorem sharedLoop_inside {Q : M → Prop} {L : List K → Prop}
    (hQ : ∀ m w c m', Q m → L w → filter m inp dt w = (.ok c, m') → Q m' ∧ L c) (a : List Nat) (store st : List M)
    (flag fl : Bool) (u c : List K) (hs : ∀ m ∈ store, Q m) (hu : L u) (h : sharedLoop filter inp dt a store flag u = (.ok c, fl, st)) :
    (∀ m ∈ st, Q m) ∧ L c := by
  induction a generalizing store flag u with
  | nil =>
    simp only [sharedLoop, Prod.mk.injEq, Except.ok.injEq] at h
    obtain ⟨rfl, rfl, rfl⟩ := h
    exact ⟨hs, hu⟩
  | cons i a ih =>
    rw [sharedLoop] at h
    cases hi : store[i]? with
    | none => rw [hi] at h; exact ih store flag u hs hu h
    | some m =>
      rw [hi] at h
      simp only at h
      rcases hf : filter m inp dt u with ⟨e | c', m'⟩
      · rw [hf] at h; simp at h
      · rw [hf] at h
        simp only at h
        obtain ⟨q1, q2⟩ := hQ m u c' m' (hs m (List.mem_of_getElem? hi)) hu hf
        refine ih _ _ _ (fun q hq => ?_) q2 h
        rcases List.mem_or_eq_of_mem_set hq with hq | rfl
        · exact hs q hq
        · exact q1

/-- Naming an object twice in a row does what naming it once does, when the object accepts its own answers. -/
theorem sharedLoop_repeat {Q : M → Prop} {L : List K → Prop}
    (hQ : ∀ m w c m', Q m → L w → filter m inp dt w = (.ok c, m') → Q m' ∧ L c ∧
      ∃ m'', filter m' inp dt c = (.ok c, m'') ∧ ((HasBase.get m'').intervening = true → (HasBase.get m').intervening = true))
    (pre post : List Nat) (i : Nat) (hi : i ∉ post) (store : List M) (flag : Bool) (u : List K) (hs : ∀ m ∈ store, Q m) (hu : L u) :
    (sharedLoop filter inp dt (pre ++ i :: i :: post) store flag u).1 = (sharedLoop filter inp dt (pre ++ i :: post) store flag u).1 ∧
    (sharedLoop filter inp dt (pre ++ i :: i :: post) store flag u).2.1 =
      (sharedLoop filter inp dt (pre ++ i :: post) store flag u).2.1 := by
  rw [sharedLoop_append, sharedLoop_append]
  rcases hp : sharedLoop filter inp dt pre store flag u with ⟨e | c, fl, st⟩
  · exact ⟨rfl, rfl⟩
  simp only
  obtain ⟨hst, hc⟩ := sharedLoop_inside (fun m w c m' h1 h2 h3 => ⟨(hQ m w c m' h1 h2 h3).1, (hQ m w c m' h1 h2 h3).2.1⟩)
    pre store st flag fl u c hs hu hp
  conv => enter [1, 1, 1]; rw [sharedLoop]
  conv => enter [1, 2, 1]; rw [sharedLoop]
  conv => enter [2, 1, 1]; rw [sharedLoop]
  conv => enter [2, 2, 1]; rw [sharedLoop]
  cases hg : st[i]? with
  | none =>
    simp only
    rw [sharedLoop, hg]
    exact ⟨rfl, rfl⟩
  | some m =>
    simp only
    rcases hf : filter m inp dt c with ⟨e | d, m'⟩
    · exact ⟨rfl, rfl⟩
    simp only
    obtain ⟨-, -, m'', hm'', hint⟩ := hQ m c d m' (hst m (List.mem_of_getElem? hg)) hc hf
    have hil : i < st.length := (List.getElem?_eq_some_iff.1 hg).1
    rw [sharedLoop, List.getElem?_set_self hil]
    simp only [hm'', List.set_set]
    have hfl : (if (HasBase.get m'').intervening = true then true else if (HasBase.get m').intervening = true then true else fl) =
        if (HasBase.get m').intervening = true then true else fl := by
      by_cases h : (HasBase.get m'').intervening = true
      · rw [if_pos h, if_pos (hint h)]
      · rw [if_neg h]
    rw [hfl]
    have e : st.set i m'' = (st.set i m').set i m'' := by rw [List.set_set]
    rw [e, sharedLoop_unnamed post i hi]
    exact ⟨rfl, rfl⟩

end RTA
