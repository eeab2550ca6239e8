import Verif.Spec.Options
import Verif.Lemmas.Py
import Verif.Props.Jit

/-!
C96: compile options. A dictionary of options given to several modules means the same for each of them, and options that are
not given have their documented defaults.

False as stated: the constructor of an implicit ASIF module writes into the caller's dictionary (`C96_shared_iff` says exactly
when this is noticed, `C96_refuted_shared` what the effect is), and two defaults differ from the documentation
(`C96_refuted_defaults`).
-/
namespace RTA
variable {K S P X Sig : Type}

theorem dictGet_setDefault (d : Dict Bool) (k q : String) (v : Bool) :
    dictGet (dictSetDefault d k v) q = if q = k then some ((dictGet d k).getD v) else dictGet d q := by
  unfold dictSetDefault
  cases h : dictGet d k with
  | some w =>
    by_cases hq : q = k
    · subst hq; rw [if_pos rfl, h]; rfl
    · rw [if_neg hq]
  | none =>
    dsimp only
    rw [dictGet_dictSet]
    by_cases hq : q = k
    · subst hq; rw [if_pos rfl, if_pos rfl]; rfl
    · rw [if_neg hq, if_neg (Ne.symm hq)]

theorem setDefault_idem (d : Dict Bool) (k : String) (v : Bool) : dictSetDefault (dictSetDefault d k v) k v = dictSetDefault d k v := by
  have h := dictGet_setDefault d k k v
  rw [if_pos rfl] at h
  generalize dictSetDefault d k v = e at h ⊢
  unfold dictSetDefault
  rw [h]

theorem optDeref_append {h : OptHeap} {r : Nat} (hr : r < h.length) (d : Dict Bool) : optDeref (h ++ [d]) r = optDeref h r := by
  simp [optDeref, List.getD_eq_getElem?_getD, List.getElem?_append_left hr]

theorem optDeref_new (h : OptHeap) (d : Dict Bool) : optDeref (h ++ [d]) h.length = d := by
  simp [optDeref]

theorem optDeref_set {h : OptHeap} {r q : Nat} (hr : r < h.length) (d : Dict Bool) :
    optDeref (h.set q d) r = if q = r then d else optDeref h r := by
  by_cases he : q = r
  · subst he; simp [optDeref, hr]
  · simp [optDeref, List.getElem?_set_ne he, he]

/-- What one construction does to the dictionaries that exist before it. -/
theorem construct_heap (k : ModuleKind) (je : Bool) (a : Option Nat) (h : OptHeap) (ha : ∀ q, a = some q → q < h.length) :
    h.length ≤ (constructOptions k je a h).2.length ∧
    ∀ r, r < h.length → optDeref (constructOptions k je a h).2 r =
      if k = .implicitASIF ∧ je = true ∧ a = some r then dictSetDefault (optDeref h r) barrierKey false else optDeref h r := by
  unfold constructOptions optionsObject optAlloc composeWrite barrierKey
  cases a with
  | none =>
    cases je <;> cases k <;> refine ⟨by simp, fun r hr => ?_⟩ <;>
      simp [optDeref, List.getElem?_append_left, hr, show r < h.length + 1 by omega]
  | some q =>
    have hq := ha q rfl
    cases je <;> cases k <;> refine ⟨by simp, fun r hr => ?_⟩
    all_goals try simp [optDeref, List.getElem?_append_left, hr]
    by_cases he : q = r
    · subst he; simp [hq]
    · simp [he, List.getElem_set_ne he]

/-- What a sequence of constructions does to the dictionaries that exist before it. -/
theorem constructAll_heap (l : List (ModuleKind × Bool × Option Nat)) (h : OptHeap)
    (hl : ∀ c ∈ l, ∀ q, c.2.2 = some q → q < h.length) :
    h.length ≤ (constructAll l h).2.length ∧
    ∀ r, r < h.length → optDeref (constructAll l h).2 r =
      if WritesTo l r then dictSetDefault (optDeref h r) barrierKey false else optDeref h r := by
  induction l generalizing h with
  | nil => exact ⟨le_rfl, fun r _ => by simp [constructAll, WritesTo]⟩
  | cons c l ih =>
    obtain ⟨k, je, a⟩ := c
    obtain ⟨h1, h2⟩ := construct_heap k je a h (fun q hq => hl (k, je, a) (by simp) q hq)
    obtain ⟨h3, h4⟩ := ih (constructOptions k je a h).2 (fun c hc q hq => lt_of_lt_of_le (hl c (by simp [hc]) q hq) h1)
    refine ⟨h1.trans h3, fun r hr => ?_⟩
    show optDeref (constructAll l (constructOptions k je a h).2).2 r = _
    rw [h4 r (lt_of_lt_of_le hr h1), h2 r hr]
    by_cases hw : WritesTo l r
    · have hw' : WritesTo ((k, je, a) :: l) r := List.mem_cons_of_mem _ hw
      rw [if_pos hw, if_pos hw']
      by_cases hc : k = .implicitASIF ∧ je = true ∧ a = some r
      · rw [if_pos hc, setDefault_idem]
      · rw [if_neg hc]
    · rw [if_neg hw]
      by_cases hc : k = .implicitASIF ∧ je = true ∧ a = some r
      · obtain ⟨rfl, rfl, rfl⟩ := hc
        rw [if_pos ⟨rfl, rfl, rfl⟩, if_pos (show WritesTo _ _ from List.mem_cons_self ..)]
      · rw [if_neg hc, if_neg]
        intro h'
        rcases List.mem_cons.1 h' with e | e
        · simp only [Prod.mk.injEq] at e
          exact hc ⟨e.1.symm, e.2.1.symm, e.2.2.symm⟩
        · exact hw e

/-- The methods compiled by a module that is given the dictionary `r`. -/
theorem construct_methods (k : ModuleKind) (je : Bool) (r : Nat) (h : OptHeap) (hr : r < h.length) :
    (constructOptions k je (some r) h).1 = compiledMethods k je
      (if k = .implicitASIF then dictSetDefault (optDeref h r) barrierKey false else optDeref h r) := by
  cases je with
  | true =>
    unfold constructOptions optionsObject composeWrite barrierKey
    cases k <;> simp [optDeref, hr]
  | false =>
    unfold constructOptions optionsObject composeWrite barrierKey
    cases k <;> simp [compiledMethods, jitOption]

/-- **C96, shared dictionaries: exactly when sharing is noticed.** A module that is given the dictionary `r` after other modules
were constructed compiles other methods than it would have compiled before if and only if it is an explicit ASIF module with
`jit_enable=True`, the caller's dictionary did not have the option `generate_barrier_constraint_mats`, and one of the earlier
modules is an implicit ASIF module with `jit_enable=True` that was given the same dictionary. -/
theorem C96_shared_iff (l : List (ModuleKind × Bool × Option Nat)) (h : OptHeap)
    (hl : ∀ c ∈ l, ∀ q, c.2.2 = some q → q < h.length) (k : ModuleKind) (je : Bool) (r : Nat) (hr : r < h.length) :
    (constructOptions k je (some r) (constructAll l h).2).1 ≠ (constructOptions k je (some r) h).1 ↔
      k = .explicitASIF ∧ je = true ∧ dictGet (optDeref h r) barrierKey = none ∧ WritesTo l r := by
  obtain ⟨h1, h2⟩ := constructAll_heap l h hl
  rw [construct_methods k je r _ (lt_of_lt_of_le hr h1), construct_methods k je r h hr, h2 r hr]
  by_cases hw : WritesTo l r
  · rw [if_pos hw]
    have e : ∀ (q : String) (b : Bool), q ≠ barrierKey →
        jitOption je (dictSetDefault (optDeref h r) barrierKey false) q b = jitOption je (optDeref h r) q b := by
      intro q b hq
      unfold jitOption
      rw [dictGet_setDefault, if_neg hq]
    have e' : ∀ b : Bool, jitOption je (dictSetDefault (optDeref h r) barrierKey false) barrierKey b =
        (je && (dictGet (optDeref h r) barrierKey).getD false) := by
      intro b
      unfold jitOption
      rw [dictGet_setDefault, if_pos rfl]
      rfl
    cases k with
    | explicitSimplex =>
      simp [compiledMethods, e "constraint_violation" true (by decide), e "pred_state" false (by decide)]
    | implicitSimplex =>
      simp [compiledMethods, e "constraint_violation" true (by decide), e "pred_state" false (by decide),
        e "integrate" false (by decide)]
    | implicitASIF => simp [setDefault_idem]
    | explicitASIF =>
      rw [if_neg (by decide), if_neg (by decide)]
      have e1 := e' true
      have e2 := e "update_ineq_mats" true (by decide)
      have hu : ∀ d, compiledMethods .explicitASIF je d =
          [(barrierKey, jitOption je d barrierKey true), ("update_ineq_mats", jitOption je d "update_ineq_mats" true)] := fun _ => rfl
      rw [hu, hu, e1, e2]
      unfold jitOption
      cases hg : dictGet (optDeref h r) barrierKey with
      | none => cases je <;> simp [hw]
      | some b => cases je <;> simp
  · rw [if_neg hw]
    simp [hw]

/-- **C96, other dictionaries.** The caller's dictionary is unchanged unless an implicit ASIF module with `jit_enable=True` was
given it; then it has at most the one option more. -/
theorem C96_dictionary (l : List (ModuleKind × Bool × Option Nat)) (h : OptHeap)
    (hl : ∀ c ∈ l, ∀ q, c.2.2 = some q → q < h.length) (r : Nat) (hr : r < h.length) (q : String) :
    dictGet (optDeref (constructAll l h).2 r) q =
      if q = barrierKey ∧ WritesTo l r ∧ dictGet (optDeref h r) q = none then some false else dictGet (optDeref h r) q := by
  rw [(constructAll_heap l h hl).2 r hr]
  by_cases hw : WritesTo l r
  · rw [if_pos hw, dictGet_setDefault]
    by_cases hq : q = barrierKey
    · subst hq
      rw [if_pos rfl]
      cases hg : dictGet (optDeref h r) barrierKey with
      | none => rw [if_pos ⟨rfl, hw, rfl⟩]; rfl
      | some b => rw [if_neg (by simp)]; rfl
    · rw [if_neg hq, if_neg (fun h => hq h.1)]
  · rw [if_neg hw, if_neg (fun h => hw h.2.1)]

/-- **C96, `jit_enable=False`.** No method is compiled, whatever the options, and the caller's dictionary is unchanged. -/
theorem C96_disabled (k : ModuleKind) (a : Option Nat) (h : OptHeap) (ha : ∀ q, a = some q → q < h.length) :
    (∀ m ∈ (constructOptions k false a h).1, m.2 = false) ∧
    ∀ r, r < h.length → optDeref (constructOptions k false a h).2 r = optDeref h r := by
  refine ⟨fun m hm => ?_, fun r hr => ?_⟩
  · unfold constructOptions at hm
    generalize optionsObject false a h = hr at hm
    cases k <;> simp [compiledMethods, jitOption] at hm <;> (rcases hm with rfl | rfl | rfl | rfl | rfl | rfl) <;> rfl
  · rw [(construct_heap k false a h ha).2 r hr, if_neg (by simp)]

theorem dictSet_values {d : Dict Bool} {k : String} (hd : ∀ kv ∈ d, kv.2 = false) : ∀ kv ∈ dictSet d k false, kv.2 = false := by
  induction d with
  | nil => intro kv hkv; simp only [dictSet, List.mem_singleton] at hkv; rw [hkv]
  | cons p d ih =>
    obtain ⟨q, w⟩ := p
    intro kv hkv
    simp only [dictSet] at hkv
    split at hkv
    · rcases List.mem_cons.1 hkv with rfl | h
      · rfl
      · exact hd kv (by simp [h])
    · rcases List.mem_cons.1 hkv with rfl | h
      · exact hd _ (by simp)
      · exact ih (fun kv h => hd kv (by simp [h])) kv h

/-- **C96, `jit_enable=False`, the module's options.** Every value in the dictionary that the module holds afterwards is `False`, and every
option that the caller's dictionary names is in it. -/
theorem C96_disabled_values (k : ModuleKind) (a : Option Nat) (h : OptHeap) :
    let hr := optionsObject false a h
    (∀ kv ∈ optDeref (composeWrite k hr.1 hr.2) hr.2, kv.2 = false) ∧
    ∀ r, a = some r → ∀ q, dictGet (optDeref h r) q ≠ none → dictGet (optDeref (composeWrite k hr.1 hr.2) hr.2) q = some false := by
  intro hr
  have hlen : hr.2 < hr.1.length := by simp [hr, optionsObject, optAlloc]
  have hval : ∀ kv ∈ optDeref hr.1 hr.2, kv.2 = false := by
    intro kv hkv
    have e : optDeref hr.1 hr.2 = (optDeref (match a with | none => optAlloc h [] | some r => (h, r)).1
        (match a with | none => optAlloc h [] | some r => (h, r)).2).map fun kv => (kv.1, false) := by
      simp only [hr, optionsObject, optAlloc, Bool.false_eq_true, if_false]
      exact optDeref_new _ _
    rw [e] at hkv
    obtain ⟨p, -, rfl⟩ := List.mem_map.1 hkv
    rfl
  have hkeys : ∀ r, a = some r → ∀ q, dictGet (optDeref h r) q ≠ none → dictGet (optDeref hr.1 hr.2) q = some false := by
    rintro r rfl q hq
    have e : optDeref hr.1 hr.2 = (optDeref h r).map fun kv => (kv.1, false) := by
      simp only [hr, optionsObject, optAlloc, Bool.false_eq_true, if_false]
      exact optDeref_new _ _
    rw [e]
    generalize optDeref h r = d at hq
    induction d with
    | nil => simp [dictGet] at hq
    | cons p d ih =>
      obtain ⟨n, w⟩ := p
      simp only [List.map_cons, dictGet] at hq ⊢
      split
      · rfl
      · rename_i hn; rw [if_neg hn] at hq; exact ih hq
  by_cases hk : k = .implicitASIF
  · subst hk
    have e : optDeref (composeWrite .implicitASIF hr.1 hr.2) hr.2 = dictSetDefault (optDeref hr.1 hr.2) "generate_barrier_constraint_mats" false := by
      simp only [composeWrite]; rw [optDeref_set hlen, if_pos rfl]
    rw [e]
    refine ⟨?_, fun r hr' q hq => ?_⟩
    · unfold dictSetDefault
      split
      · exact hval
      · exact dictSet_values hval
    · rw [dictGet_setDefault]
      have := hkeys r hr' q hq
      split
      · rename_i he; rw [← he, this]; rfl
      · exact this
  · have e : composeWrite k hr.1 hr.2 = hr.1 := by cases k <;> first | rfl | exact absurd rfl hk
    rw [e]
    exact ⟨hval, hkeys⟩

/-- **C96, no dictionary.** Without a dictionary the same methods are compiled whatever was constructed before, and no
dictionary changes. The zoo's docking and integrator modules, which supply a dictionary of their own, compile the same methods. -/
theorem C96_default (k : ModuleKind) (je : Bool) (h h' : OptHeap) :
    (constructOptions k je none h).1 = (constructOptions k je none h').1 ∧
    (constructOptionsZoo k je none h).1 = (constructOptions k je none h').1 ∧
    ∀ r, r < h.length → optDeref (constructOptions k je none h).2 r = optDeref h r := by
  refine ⟨?_, ?_, fun r hr => by rw [(construct_heap k je none h (by simp)).2 r hr, if_neg (by simp)]⟩
  · unfold constructOptions optionsObject composeWrite optAlloc
    cases je <;> cases k <;> simp [compiledMethods, jitOption, optDeref]
  · unfold constructOptionsZoo constructOptions optionsObject composeWrite optAlloc
    cases je <;> cases k <;> simp [compiledMethods, jitOption, optDeref, dictGet, dictSetDefault, dictSet]

/-- **C96, documented defaults** (simplex modules and explicit ASIF modules). Without a dictionary the options have the values
given in the documentation. Missing: implicit ASIF modules, see `C96_refuted_defaults`. -/
theorem C96_defaults_partial (k : ModuleKind) (hk : k ≠ .implicitASIF) (h : OptHeap) (m : String × Bool)
    (hm : m ∈ documentedDefaults k) : m ∈ (constructOptions k true none h).1 := by
  rw [(C96_default k true h []).1]
  revert m
  cases k
  · decide
  · decide
  · decide
  · exact absurd rfl hk

/-- **C96 is false for implicit ASIF modules.** `pred_state` and `integrate` are documented as off by default; both are on. -/
theorem C96_refuted_defaults (h : OptHeap) :
    ("pred_state", false) ∈ documentedDefaults .implicitASIF ∧ ("integrate", false) ∈ documentedDefaults .implicitASIF ∧
    ("pred_state", true) ∈ (constructOptions .implicitASIF true none h).1 ∧
    ("integrate", true) ∈ (constructOptions .implicitASIF true none h).1 := by
  rw [(C96_default .implicitASIF true h []).1]
  decide

/-- **C96, answers.** Whatever dictionary an explicit ASIF module shares, its answers to every history of calls, with changes of
the constraints' `params` and `enabled` flags in between, are those of the module with a dictionary of its own. Missing: other
changes of attributes, see `C96_refuted_shared`. -/
theorem C96_answers_partial [DecidableEq Sig] [Add K] [Mul K] [Neg K] [Sub K] [Zero K] [One K] [OfNat K 10] [Max K] [Min K] [HasSqrt K] [LT K]
    [DecidableLT K] (solver : Solver K) (sig : S → K → Dict P → Dict Bool → Sig)
    (sigD : List (Row K) → S → Dict P → Dict Bool → Sig) (f : X → S → List K) (g : X → S → List (List K)) (je : Bool)
    (made : List (ModuleKind × Bool × Option Nat)) (h : OptHeap) (r : Nat) (s : ASIFObj K S P X)
    (l : List (Use (ASIFObj K S P X) K S)) (hl : ∀ m, Use.modify m ∈ l → ∀ s, SameASIF s (m s)) :
    (useAll (explicitASIFJ solver sig sigD f g) (fun m j => { j with obj := m j.obj }) l
        (ASIFJ.compose je (optDeref (constructAll made h).2 r) s)).1 =
      (useAll (explicitASIFJ solver sig sigD f g) (fun m j => { j with obj := m j.obj }) l (ASIFJ.compose je (optDeref h r) s)).1 := by
  rw [(C85_explicit_asif solver sig sigD f g je _ s l hl).1, (C85_explicit_asif solver sig sigD f g je _ s l hl).1]

/-- **C96 is false for shared dictionaries.** Two users each construct an explicit ASIF module with an empty dictionary of options,
the second after constructing an implicit ASIF module with the same dictionary. Both modules are then used alike: a call, a change
of the mass from 1 to 2, another call. The first module is compiled and ignores the change, the second one is not and follows it:
different controls. -/
theorem C96_refuted_shared :
    letI : HasSqrt Rat := ⟨fun x => x⟩
    let f : Rat → Rat → List Rat := fun _ _ => [0]
    let g : Rat → Rat → List (List Rat) := fun m _ => [[1 / m]]
    let l : List (Use (ASIFObj Rat Rat Unit Rat) Rat Rat) := [.call (.array 0) 1 [1],
      .modify (fun o => { o with ext := { o.ext with extra := 2 } }), .call (.array 1) 1 [10]]
    let made : List (ModuleKind × Bool × Option Nat) := [(.implicitASIF, true, some 0)]
    (constructOptions .explicitASIF true (some 0) [[]]).1 = [(barrierKey, true), ("update_ineq_mats", true)] ∧
    (constructOptions .explicitASIF true (some 0) (constructAll made [[]]).2).1 =
      [(barrierKey, false), ("update_ineq_mats", true)] ∧
    (useAll (explicitASIFJ jitSolver (fun _ _ _ _ => 0) (fun _ _ _ _ => 0) f g) (fun m j => { j with obj := m j.obj }) l
        (ASIFJ.compose (Sig := Nat) true (optDeref [[]] 0) (jitASIF 1))).1 = [.ok [1], .ok [4]] ∧
    (useAll (explicitASIFJ jitSolver (fun _ _ _ _ => 0) (fun _ _ _ _ => 0) f g) (fun m j => { j with obj := m j.obj }) l
        (ASIFJ.compose (Sig := Nat) true (optDeref (constructAll made [[]]).2 0) (jitASIF 1))).1 = [.ok [1], .ok [8]] := by
  decide +kernel

/-- C96: an explicit simplex module does not notice that its dictionary was given to an implicit ASIF module before; an explicit
ASIF module does not either if the caller chose the option. -/
example :
    (constructOptions .explicitSimplex true (some 0)
      (constructAll [(.implicitASIF, true, some 0)] [[("pred_state", true)]]).2).1 = [("constraint_violation", true), ("pred_state", true)] ∧
    (constructOptions .explicitASIF true (some 0)
      (constructAll [(.implicitASIF, true, some 0)] [[(barrierKey, true)]]).2).1 = [(barrierKey, true), ("update_ineq_mats", true)] := by
  decide

/-- The hypotheses of `C96_answers_partial`: a history that switches the constraint off. -/
example : ∀ m, Use.modify m ∈ ([.call (.array 0) 1 [1], .modify (fun o => { o with constraints := o.constraints.map fun kc =>
      (kc.1, { kc.2 with params := kc.2.params, enabled := false }) })] : List (Use (ASIFObj Rat Rat Unit Rat) Rat Rat)) →
    ∀ s, SameASIF s (m s) := by
  intro m hm s
  simp only [List.mem_cons, reduceCtorEq, Use.modify.injEq, List.not_mem_nil, or_false, false_or] at hm
  subst hm
  exact ⟨C85_params_enabled _ (fun _ p => p) (fun _ _ => false), by
    unfold SameDirect
    exact List.forall₂_same.2 fun a _ => ⟨rfl, rfl⟩, rfl, rfl, rfl, rfl⟩

end RTA
