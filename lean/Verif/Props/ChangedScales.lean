import Verif.Spec.ChangedScales
import Verif.Props.ChangedSet
import Verif.Props.Soft

/-!
C116, changes of `slack_priority_scale` in explicit ASIF modules without compiled methods. The number of slack variables and their
weights are fixed at construction (`rta/asif.py:49-57`), and slack variables are handed out to the constraints that have a scale in
the order of the dictionary (`rta/asif.py:389-403`).
-/
set_option linter.unusedSectionVars false
namespace RTA
variable {K S P X : Type}

theorem reslack_keys (W : List K) (cs : Dict (Constraint K S P)) : dictKeys (reslack W cs) = dictKeys cs := by
  induction cs generalizing W with
  | nil => rfl
  | cons kc cs ih =>
    obtain ⟨q, c⟩ := kc
    unfold reslack
    rcases c.slackPriorityScale with _ | w
    · simp only [dictKeys, List.map_cons] at ih ⊢
      rw [ih]
    · simp only [dictKeys, List.map_cons] at ih ⊢
      rw [ih]

theorem reslack_caches (W : List K) (cs : Dict (Constraint K S P)) :
    cacheParams (reslack W cs) = cacheParams cs ∧ cacheEnabled (reslack W cs) = cacheEnabled cs := by
  induction cs generalizing W with
  | nil => exact ⟨rfl, rfl⟩
  | cons kc cs ih =>
    obtain ⟨q, c⟩ := kc
    unfold reslack
    rcases c.slackPriorityScale with _ | w
    · simp only [cacheParams, cacheEnabled, List.map_cons] at ih ⊢
      exact ⟨by rw [(ih W).1], by rw [(ih W).2]⟩
    · simp only [cacheParams, cacheEnabled, List.map_cons] at ih ⊢
      exact ⟨by rw [(ih W.tail).1], by rw [(ih W.tail).2]⟩

theorem scales_none (q : String) {c : Constraint K S P} (h : c.slackPriorityScale = none) (cs : Dict (Constraint K S P)) :
    slackScales ((q, c) :: cs) = slackScales cs := by simp [slackScales, h]

theorem scales_some (q : String) {c : Constraint K S P} {w : K} (h : c.slackPriorityScale = some w) (cs : Dict (Constraint K S P)) :
    slackScales ((q, c) :: cs) = w :: slackScales cs := by simp [slackScales, h]

/-- With enough constraints that have a scale, all of the list is handed out. -/
theorem reslack_scales (W : List K) (cs : Dict (Constraint K S P)) (h : W.length ≤ (slackScales cs).length) :
    slackScales (reslack W cs) = W := by
  induction cs generalizing W with
  | nil =>
    have : W = [] := by simpa [slackScales] using h
    subst this; rfl
  | cons kc cs ih =>
    obtain ⟨q, c⟩ := kc
    unfold reslack
    rcases hs : c.slackPriorityScale with _ | w
    · rw [scales_none q hs] at h
      simp only
      rw [scales_none q hs]
      exact ih W h
    · rw [scales_some q hs] at h
      cases W with
      | nil =>
        simp only [List.head?_nil, List.tail_nil]
        rw [scales_none q rfl]
        exact ih [] (by simp)
      | cons a W =>
        simp only [List.head?_cons, List.tail_cons]
        rw [scales_some q rfl, ih W (by simpa using h)]

section
variable [Add K] [Mul K] [Neg K] [Sub K] [Zero K] [One K] [OfNat K 10] [HasSqrt K] [LinearOrder K]

theorem reslack_rows {f : S → List K} {g : S → List (List K)} {p : Dict P} {e : Dict Bool} {n k : Nat} {x : S} (W : List K)
    (cs : Dict (Constraint K S P)) (sc sc' : Nat) (h : sc + W.length = k ∧ sc' = sc ∨ W = [] ∧ k ≤ sc) :
    explicitRows f g p e n k x sc cs = explicitRows f g p e n k x sc' (reslack W cs) := by
  induction cs generalizing W sc sc' with
  | nil => rfl
  | cons kc cs ih =>
    obtain ⟨q, c⟩ := kc
    unfold reslack
    rcases hs : c.slackPriorityScale with _ | w
    · simp only [explicitRows, hs, Option.isSome_none, Bool.false_eq_true, if_false]
      rw [ih W sc sc' h]
    · simp only
      cases W with
      | nil =>
        have hk : k ≤ sc := by rcases h with ⟨h, -⟩ | ⟨-, h⟩ <;> simp_all
        have hset : (zeros k : List K).set sc (-1) = zeros k := List.set_eq_of_length_le (by simpa [zeros] using hk)
        have hrec := ih [] (sc + 1) sc' (Or.inr ⟨rfl, by omega⟩)
        simp only [List.head?_nil, List.tail_nil, explicitRows, hs, Option.isSome_none, Option.isSome_some, Bool.false_eq_true,
          if_false, if_true, hset]
        rw [hrec]
        rfl
      | cons a W =>
        obtain ⟨h, rfl⟩ : sc + (a :: W).length = k ∧ sc' = sc := by rcases h with h | ⟨h, -⟩ <;> simp_all
        have hrec := ih W (sc' + 1) (sc' + 1) (Or.inl ⟨by simp at h; omega, rfl⟩)
        simp only [List.head?_cons, List.tail_cons, explicitRows, hs, Option.isSome_some, if_true]
        rw [hrec]
        rfl

/-- **C116, scales**. The scales constraints have at the time of a call do not matter, only which constraints have one: the answer is
that of the module in which the scales of any list as long as the number of slack variables are handed out in order. So the answer
is computed with the weights of construction, and constraints that get no slack variable are enforced without slack. -/
theorem C116_scales_ignored (solver : Solver K) {f : S → List K} {g : S → List (List K)} {s : ASIFObj K S P X} (hk : Keys s)
    (hen : s.enable = true) (W : List K) (hW : W.length = s.ext.numSlack) (x : S) (dt : K) (u : List K) :
    (explicitASIF solver f g s (.array x) dt u).1 =
      (explicitASIF solver f g (setConstraints (reslack W s.constraints) s) (.array x) dt u).1 := by
  have hk' : Keys (setConstraints (reslack W s.constraints) s) :=
    ⟨by show (dictKeys (reslack W s.constraints)).Nodup; rw [reslack_keys]; exact hk.nodup, hk.dnodup, hk.dparams, hk.denabled⟩
  rw [explicit_answer solver f g hk hen x dt u, explicit_answer solver f g hk' hen x dt u]
  have key : explicitRows f g (cacheParams (reslack W s.constraints)) (cacheEnabled (reslack W s.constraints)) s.ext.controlDim
      s.ext.numSlack x 0 (reslack W s.constraints) = explicitRows f g (cacheParams s.constraints) (cacheEnabled s.constraints)
        s.ext.controlDim s.ext.numSlack x 0 s.constraints := by
    rw [(reslack_caches W s.constraints).1, (reslack_caches W s.constraints).2]
    exact (reslack_rows W s.constraints 0 0 (Or.inl ⟨by omega, rfl⟩)).symm
  unfold answerOf
  have e : (setConstraints (reslack W s.constraints) s).constraints = reslack W s.constraints := rfl
  rw [e]
  have e2 : (setConstraints (reslack W s.constraints) s).ext = s.ext := rfl
  rw [e2, key]
  rfl

/-- What any use keeps: keys, and the slack variables and weights of construction. -/
structure Frozen (W : List K) (s : ASIFObj K S P X) : Prop extends Keys s where
  slack : s.ext.numSlack = W.length
  weight : s.ext.objWeight = List.replicate s.ext.controlDim 1 ++ W.map HasSqrt.sqrt
  act : ∃ names, actuationMats s.controlBoundsLow s.controlBoundsHigh s.ext.controlDim s.ext.numSlack =
    .ok (s.ext.actuation, names)

theorem frozen_step (solver : Solver K) (f : S → List K) (g : S → List (List K)) {W : List K} {s : ASIFObj K S P X} (h : Frozen W s)
    (op : AOp K S P) : Frozen W (stepE solver f g s op).2 := by
  cases op with
  | call i dt u =>
    show Frozen W (explicitASIF solver f g s i dt u).2
    by_cases hen : s.enable = true
    · cases i with
      | notArray =>
        unfold explicitASIF
        rw [filterControlCB_enabled hen]
        simp only [computeFilteredControl, getStateDefault]
        exact ⟨⟨h.nodup, h.dnodup, h.dparams, h.denabled⟩, h.slack, h.weight, h.act⟩
      | array x =>
        obtain ⟨iv, ca, cz, hc⟩ := call_frame (genFrame_explicit f g) solver hen x dt u
        unfold explicitASIF
        rw [hc, explicitGen_same]
        obtain ⟨d1, d2⟩ := aprep_direct h.toKeys x u
        refine ⟨⟨h.nodup, h.dnodup, ?_, ?_⟩, h.slack, h.weight, h.act⟩
        · show dictKeys (aprep s x u).ext.directParams = _
          rw [d1]; exact dictKeys_map _ _
        · show dictKeys (aprep s x u).ext.directEnabled = _
          rw [d2]; exact dictKeys_map _ _
    · have hen : s.enable = false := by simpa using hen
      unfold explicitASIF
      rw [filterControlCB_disabled hen]
      exact ⟨⟨h.nodup, h.dnodup, h.dparams, h.denabled⟩, h.slack, h.weight, h.act⟩
  | edit hh =>
    have e : dictKeys (editConstraints hh s).constraints = dictKeys s.constraints := by
      simp [editConstraints, dictKeys, List.map_map, Function.comp_def]
    refine ⟨⟨?_, h.dnodup, h.dparams, h.denabled⟩, h.slack, h.weight, h.act⟩
    show (dictKeys (editConstraints hh s).constraints).Nodup
    rw [e]; exact h.nodup
  | editDirect hh =>
    have e : dictKeys (editDirect hh s).ext.direct = dictKeys s.ext.direct := by
      simp [editDirect, CBObj.setExt, dictKeys, List.map_map, Function.comp_def]
    refine ⟨⟨h.nodup, ?_, ?_, ?_⟩, h.slack, h.weight, h.act⟩
    · show (dictKeys (editDirect hh s).ext.direct).Nodup
      rw [e]; exact h.dnodup
    · show dictKeys s.ext.directParams = dictKeys (editDirect hh s).ext.direct
      rw [e]; exact h.dparams
    · show dictKeys s.ext.directEnabled = dictKeys (editDirect hh s).ext.direct
      rw [e]; exact h.denabled
  | update i =>
    cases i with
    | notArray => exact h
    | array x => exact ⟨⟨h.nodup, h.dnodup, h.dparams, h.denabled⟩, h.slack, h.weight, h.act⟩
  | setEnable b => exact ⟨⟨h.nodup, h.dnodup, h.dparams, h.denabled⟩, h.slack, h.weight, h.act⟩
  | reset => exact ⟨⟨h.nodup, h.dnodup, h.dparams, h.denabled⟩, h.slack, h.weight, h.act⟩

theorem RescaledUse.frozen {solver : Solver K} {f : S → List K} {g : S → List (List K)} {m s : ASIFObj K S P X}
    (hm : ASIFInv m) (h : RescaledUse solver f g m s) : Frozen (slackScales m.constraints) s := by
  induction h with
  | start => exact ⟨⟨hm.wf.nodup, hm.dnodup, hm.dparams, hm.denabled⟩, hm.slack, by rw [← slackWeights_eq]; exact hm.weight, hm.act⟩
  | change cs _ hn ih => exact ⟨⟨hn, ih.dnodup, ih.dparams, ih.denabled⟩, ih.slack, ih.weight, ih.act⟩
  | use op _ ih => exact frozen_step solver f g ih op

theorem frozen_loose {W : List K} {s : ASIFObj K S P X} (h : Frozen W s) (hl : W.length ≤ (slackScales s.constraints).length) :
    Loose (setConstraints (reslack W s.constraints) s) := by
  have e : slackScales (setConstraints (reslack W s.constraints) s).constraints = W := reslack_scales W s.constraints hl
  refine ⟨⟨by show (dictKeys (reslack W s.constraints)).Nodup; rw [reslack_keys]; exact h.nodup, h.dnodup, h.dparams, h.denabled⟩,
    ?_, ?_, h.act⟩
  · rw [e]; exact h.slack
  · rw [slackWeights_eq, e]; exact h.weight
end

section
variable [Field K] [LinearOrder K] [IsStrictOrderedRing K] [HasSqrt K] [LawfulSqrt K]

/-- **C116, scales, what is optimised**. After any use of an explicit module with any changes of its dictionary, also of the scales,
that left at least as many constraints with a scale as at construction: a control that is returned when admissible ones exist is the
best admissible one for the constraints of the moment with the scales of construction handed out in order. -/
theorem C116_scales_closest {solver : Solver K} (hspec : SolverSpec solver) {f : S → List K} {g : S → List (List K)}
    {m s s' : ASIFObj K S P X} (hm : ExplicitModule solver f g m) (hs : RescaledUse solver f g m s)
    (hpos : ScalesPos m.constraints) (hcount : (slackScales m.constraints).length ≤ (slackScales s.constraints).length)
    (hen : s.enable = true) (x : S) (dt : K) (u v : List K)
    (hcall : explicitASIF solver f g s (.array x) dt u = (.ok v, s')) (t : ASIFObj K S P X)
    (ht : t = setConstraints (reslack (slackScales m.constraints) s.constraints) s) (hadm : ∃ w d, AdmissibleS f g t x w d) :
    ∃ d, AdmissibleS f g t x v d ∧ ∀ w e, AdmissibleS f g t x w e → v ++ d ≠ w ++ e →
      slackCost ((slackScales m.constraints).map HasSqrt.sqrt) u v d < slackCost ((slackScales m.constraints).map HasSqrt.sqrt) u w e := by
  have hf := hs.frozen hm.inv.1
  have hl : Loose t := by rw [ht]; exact frozen_loose hf hcount
  have hsc : slackScales t.constraints = slackScales m.constraints := by rw [ht]; exact reslack_scales _ _ hcount
  have hent : t.enable = true := by rw [ht]; exact hen
  have hpost : ScalesPos t.constraints := by intro w hw; rw [hsc] at hw; exact hpos w hw
  have hcallt : (explicitASIF solver f g t (.array x) dt u).1 = .ok v := by
    rw [ht, ← C116_scales_ignored solver hf.toKeys hen _ hf.slack.symm x dt u, hcall]
  obtain ⟨nm, hn⟩ := hl.names
  have htidy : (explicitASIF solver f g (tidy nm t) (.array x) dt u).1 = .ok v := by
    rcases loose_call hspec f g hl hpost hent hn x dt u with h | ⟨-, h, -⟩
    · rw [← h, hcallt]
    · rw [hcallt] at h; cases h
  have conv : ∀ w d, AdmissibleS f g t x w d ↔ AdmissibleS f g (tidy nm t) x w d := fun w d =>
    ⟨fun a => ⟨a.len, a.slen, a.bounds, a.barrier, a.direct⟩, fun a => ⟨a.len, a.slen, a.bounds, a.barrier, a.direct⟩⟩
  obtain ⟨w0, d0, hw0⟩ := hadm
  obtain ⟨-, d, l, had, hmin, -⟩ := explicit_solved hspec (hl.inv nm) hn hpost hent (Prod.ext htidy rfl) ⟨w0, d0, (conv _ _).1 hw0⟩
  have hw : qpWeights (tidy nm t) = (slackScales m.constraints).map HasSqrt.sqrt := by
    unfold qpWeights
    have e : (tidy nm t).constraints = t.constraints := rfl
    rw [e, hsc]
  rw [hw] at hmin
  exact ⟨d, (conv _ _).2 had, fun w e hw hne => hmin w e ((conv _ _).1 hw) hne⟩
end

/-! ### Example -/

/-- **C116, refuted for scales**: raising the scale of the constraint of a module in use has no effect. A module constructed with the new
scale would return another control. -/
theorem C116_refuted_scale (dt : ℝ) :
    (explicitASIF refSolver toyF toyG (setConstraints [("c", toyC (some 9))] (toyObj (some 4) true)) (.array 0) dt [-1]).1 =
        .ok [-(1 / (1 + HasSqrt.sqrt 4))] ∧
      (explicitASIF refSolver toyF toyG (toyObj (some 9) true) (.array 0) dt [-1]).1 = .ok [-(1 / (1 + HasSqrt.sqrt 9))] ∧
      (-(1 / (1 + HasSqrt.sqrt 4)) : ℝ) ≠ -(1 / (1 + HasSqrt.sqrt 9)) := by
  obtain ⟨s4, h4⟩ := toy_soft_call 4 (by norm_num) dt
  obtain ⟨s9, h9⟩ := toy_soft_call 9 (by norm_num) dt
  refine ⟨?_, by rw [h9], ?_⟩
  · have hk : Keys (setConstraints [("c", toyC (some 9))] (toyObj (some 4) true)) :=
      ⟨by simp [setConstraints, dictKeys], by simp [setConstraints, toyObj, dictKeys], rfl, rfl⟩
    rw [C116_scales_ignored refSolver hk rfl [4] rfl 0 dt [-1]]
    have e : setConstraints (reslack [4] (setConstraints [("c", toyC (some 9))] (toyObj (some 4) true)).constraints)
      (setConstraints [("c", toyC (some 9))] (toyObj (some 4) true)) = toyObj (some 4) true := rfl
    rw [e, h4]
  · have h := hasSqrt_lt (K := ℝ) (w := 4) (w' := 9) (by norm_num) (by norm_num)
    have h4 : 0 < (HasSqrt.sqrt 4 : ℝ) := hasSqrt_pos (by norm_num)
    have : 1 / (1 + HasSqrt.sqrt (9 : ℝ)) < 1 / (1 + HasSqrt.sqrt (4 : ℝ)) :=
      one_div_lt_one_div_of_lt (by linarith) (by linarith)
    intro e
    linarith

/-- The hypotheses of `C116_scales_closest`. -/
example (dt : ℝ) : ∃ v s', explicitASIF refSolver toyF toyG (setConstraints [("c", toyC (some 9))] (toyObj (some 4) true)) (.array 0) dt
      [-1] = (.ok v, s') ∧ ∃ d, AdmissibleS toyF toyG (toyObj (some 4) true) 0 v d ∧
      ∀ w e, AdmissibleS toyF toyG (toyObj (some 4) true) 0 w e → v ++ d ≠ w ++ e →
        slackCost ((slackScales (toyObj (some 4) true).constraints).map HasSqrt.sqrt) [-1] v d <
          slackCost ((slackScales (toyObj (some 4) true).constraints).map HasSqrt.sqrt) [-1] w e := by
  refine ⟨_, _, Prod.ext (C116_refuted_scale dt).1 rfl, ?_⟩
  exact C116_scales_closest refSolver_spec (toy_module refSolver (some 4) true) (.change _ .start (by simp [dictKeys]))
    (toy_pos 4 (by norm_num) true) (by simp [setConstraints, toyObj, slackScales, toyC]) rfl 0 dt [-1] _ (Prod.ext (C116_refuted_scale dt).1 rfl)
    (toyObj (some 4) true) rfl ⟨[0], _, firm_admissible (toy_alpha _ _) ((toy_firm 4 true 0 [0]).2 ⟨0, rfl, by norm_num, by norm_num⟩)⟩

end RTA
