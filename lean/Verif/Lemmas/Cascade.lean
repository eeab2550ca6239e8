import Verif.Spec.Cascade

/-!
The loop of a cascade against `Fed`.
-/
namespace RTA
variable {K M I : Type} {filter : M → I → K → List K → Except PyErr (List K) × M} {inp : I} {dt : K}

theorem fed_nil (u : List K) : Fed filter inp dt [] [] [u] :=
  ⟨rfl, rfl, fun i m m' c c' h => by simp at h⟩

theorem fed_cons {m m' : M} {ms ms' : List M} {u c : List K} {cs : List (List K)} (h : filter m inp dt u = (.ok c, m'))
    (hf : Fed filter inp dt ms ms' cs) (h0 : cs[0]? = some c) : Fed filter inp dt (m :: ms) (m' :: ms') (u :: cs) := by
  refine ⟨by simp [hf.controls], by simp [hf.stagesLen], ?_⟩
  intro i a a' d d' h1 h2 h3 h4
  cases i with
  | zero =>
    simp only [List.getElem?_cons_zero, Option.some.injEq] at h1 h2 h3
    subst h1 h2 h3
    simp only [Nat.zero_add, List.getElem?_cons_succ, h0, Option.some.injEq] at h4
    rw [← h4]; exact h
  | succ i =>
    simp only [List.getElem?_cons_succ] at h1 h2 h3 h4
    exact hf.step i a a' d d' h1 h2 h3 h4

theorem fed_cons_inv {m : M} {ms ms' : List M} {u : List K} {cs : List (List K)}
    (hf : Fed filter inp dt (m :: ms) ms' cs) (h0 : cs[0]? = some u) :
    ∃ m' c ms'' cs', ms' = m' :: ms'' ∧ cs = u :: cs' ∧ filter m inp dt u = (.ok c, m') ∧ cs'[0]? = some c ∧
      Fed filter inp dt ms ms'' cs' := by
  obtain ⟨h1, h2, h3⟩ := hf
  cases ms' with
  | nil => simp at h2
  | cons m' ms'' =>
    cases cs with
    | nil => simp at h1
    | cons d cs' =>
      simp only [List.getElem?_cons_zero, Option.some.injEq] at h0
      subst h0
      cases cs' with
      | nil => simp at h1
      | cons c cs'' =>
        refine ⟨m', c, ms'', c :: cs'', rfl, rfl, h3 0 m m' _ c rfl rfl rfl rfl, rfl, ?_, ?_, ?_⟩
        · simpa using h1
        · simpa using h2
        · intro i a a' e e' k1 k2 k3 k4
          exact h3 (i + 1) a a' e e' k1 k2 k3 k4

variable [HasBase M K]

/-- Some stage reports that it intervened. -/
def anyIntervening (ms : List M) : Bool := ms.any fun m => (HasBase.get m).intervening

theorem loop_ok {ms ms' : List M} {flag fl : Bool} {u c : List K}
    (h : cascadeLoop filter inp dt ms flag u = (.ok c, fl, ms')) :
    ∃ cs, Fed filter inp dt ms ms' cs ∧ cs[0]? = some u ∧ cs[ms.length]? = some c ∧
      fl = (flag || anyIntervening ms') := by
  induction ms generalizing flag fl u ms' with
  | nil =>
    simp only [cascadeLoop, Prod.mk.injEq, Except.ok.injEq] at h
    obtain ⟨rfl, rfl, rfl⟩ := h
    exact ⟨[u], fed_nil u, rfl, rfl, by simp [anyIntervening]⟩
  | cons m ms ih =>
    rw [cascadeLoop] at h
    rcases hm : filter m inp dt u with ⟨r, m'⟩
    rw [hm] at h
    cases r with
    | error e => simp at h
    | ok c1 =>
      simp only at h
      rcases hl : cascadeLoop filter inp dt ms (if (HasBase.get m').intervening then true else flag) c1 with ⟨r, fl', ms''⟩
      rw [hl] at h
      simp only [Prod.mk.injEq] at h
      obtain ⟨h1, h2, h3⟩ := h
      subst h1 h2 h3
      obtain ⟨cs, hf, h0, hn, hfl⟩ := ih hl
      refine ⟨u :: cs, fed_cons hm hf h0, rfl, by simpa using hn, ?_⟩
      rw [hfl]
      cases h : (HasBase.get m').intervening <;> cases flag <;> simp [anyIntervening, h]

theorem loop_of_fed {ms ms' : List M} {cs : List (List K)} {u c : List K} (hf : Fed filter inp dt ms ms' cs)
    (h0 : cs[0]? = some u) (hn : cs[ms.length]? = some c) (flag : Bool) :
    cascadeLoop filter inp dt ms flag u = (.ok c, (flag || anyIntervening ms'), ms') := by
  induction ms generalizing flag u ms' cs with
  | nil =>
    have : ms' = [] := List.eq_nil_of_length_eq_zero hf.stagesLen
    subst this
    simp only [List.length_nil, h0, Option.some.injEq] at hn
    subst hn
    simp [cascadeLoop, anyIntervening]
  | cons m ms ih =>
    obtain ⟨m', c1, ms'', cs', rfl, rfl, hm, h0', hf'⟩ := fed_cons_inv hf h0
    rw [cascadeLoop, hm]
    simp only
    rw [ih hf' h0' (by simpa using hn)]
    cases h : (HasBase.get m').intervening <;> cases flag <;> simp [anyIntervening, h]

theorem loop_error {ms ms' : List M} {flag fl : Bool} {u : List K} {e : PyErr}
    (h : cascadeLoop filter inp dt ms flag u = (.error e, fl, ms')) :
    ∃ pre pre' m m' post cs c, ms = pre ++ m :: post ∧ ms' = pre' ++ m' :: post ∧ Fed filter inp dt pre pre' cs ∧
      cs[0]? = some u ∧ cs[pre.length]? = some c ∧ filter m inp dt c = (.error e, m') ∧
      fl = (flag || anyIntervening pre') := by
  induction ms generalizing flag fl u ms' with
  | nil => simp [cascadeLoop] at h
  | cons m ms ih =>
    rw [cascadeLoop] at h
    rcases hm : filter m inp dt u with ⟨r, m'⟩
    rw [hm] at h
    cases r with
    | error e' =>
      simp only [Prod.mk.injEq, Except.error.injEq] at h
      obtain ⟨rfl, rfl, rfl⟩ := h
      exact ⟨[], [], m, m', ms, [u], u, rfl, rfl, fed_nil u, rfl, rfl, hm, by simp [anyIntervening]⟩
    | ok c1 =>
      simp only at h
      rcases hl : cascadeLoop filter inp dt ms (if (HasBase.get m').intervening then true else flag) c1 with ⟨r, fl', ms''⟩
      rw [hl] at h
      simp only [Prod.mk.injEq] at h
      obtain ⟨h1, h2, h3⟩ := h
      subst h1 h2 h3
      obtain ⟨pre, pre', q, q', post, cs, c, e1, e2, hf, h0, hn, hq, hfl⟩ := ih hl
      refine ⟨m :: pre, m' :: pre', q, q', post, u :: cs, c, by simp [e1], by simp [e2], fed_cons hm hf h0, rfl,
        by simpa using hn, hq, ?_⟩
      rw [hfl]
      cases h : (HasBase.get m').intervening <;> cases flag <;> simp [anyIntervening, h]

theorem loop_of_error {pre pre' post : List M} {m m' : M} {cs : List (List K)} {u c : List K} {e : PyErr}
    (hf : Fed filter inp dt pre pre' cs) (h0 : cs[0]? = some u) (hn : cs[pre.length]? = some c)
    (hm : filter m inp dt c = (.error e, m')) (flag : Bool) :
    cascadeLoop filter inp dt (pre ++ m :: post) flag u = (.error e, (flag || anyIntervening pre'), pre' ++ m' :: post) := by
  induction pre generalizing flag u pre' cs with
  | nil =>
    have : pre' = [] := List.eq_nil_of_length_eq_zero hf.stagesLen
    subst this
    simp only [List.length_nil, h0, Option.some.injEq] at hn
    subst hn
    simp [cascadeLoop, hm, anyIntervening]
  | cons q pre ih =>
    obtain ⟨q', c1, pre'', cs', rfl, rfl, hq, h0', hf'⟩ := fed_cons_inv hf h0
    rw [List.cons_append, cascadeLoop, hq]
    simp only
    rw [ih hf' h0' (by simpa using hn)]
    cases h : (HasBase.get q').intervening <;> cases flag <;> simp [anyIntervening, h]

omit [HasBase M K] in
/-- A `Fed` is determined by its stages and first control. -/
theorem fed_unique {ms ms1 ms2 : List M} {cs1 cs2 : List (List K)} {u : List K} (h1 : Fed filter inp dt ms ms1 cs1)
    (h2 : Fed filter inp dt ms ms2 cs2) (a1 : cs1[0]? = some u) (a2 : cs2[0]? = some u) : ms1 = ms2 ∧ cs1 = cs2 := by
  induction ms generalizing u ms1 ms2 cs1 cs2 with
  | nil =>
    obtain ⟨l1, k1, _⟩ := h1
    obtain ⟨l2, k2, _⟩ := h2
    obtain ⟨x, rfl⟩ := List.length_eq_one_iff.1 l1
    obtain ⟨y, rfl⟩ := List.length_eq_one_iff.1 l2
    simp only [List.length_nil] at k1 k2
    rw [List.eq_nil_of_length_eq_zero k1, List.eq_nil_of_length_eq_zero k2]
    simp only [List.getElem?_cons_zero, Option.some.injEq] at a1 a2
    subst a1 a2
    exact ⟨rfl, rfl⟩
  | cons m ms ih =>
    obtain ⟨p, c, ps, cs, rfl, rfl, e1, b1, f1⟩ := fed_cons_inv h1 a1
    obtain ⟨q, d, qs, ds, rfl, rfl, e2, b2, f2⟩ := fed_cons_inv h2 a2
    rw [e1] at e2
    simp only [Prod.mk.injEq, Except.ok.injEq] at e2
    obtain ⟨rfl, rfl⟩ := e2
    obtain ⟨rfl, rfl⟩ := ih f1 f2 b1 b2
    exact ⟨rfl, rfl⟩

end RTA
