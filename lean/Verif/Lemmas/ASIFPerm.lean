import Verif.Lemmas.ASIFCost

/-!
Reordering constraints reorders the slack values and changes nothing else (lemmas for C93).
-/
set_option linter.unusedSectionVars false
namespace RTA
variable {K S P X : Type} [Field K] [LinearOrder K] [IsStrictOrderedRing K]

theorem slackScales_cons_some (k : String) {c : Constraint K S P} {w : K} (h : c.slackPriorityScale = some w)
    (cs : Dict (Constraint K S P)) : slackScales ((k, c) :: cs) = w :: slackScales cs := by
  simp [slackScales, h]

theorem slackScales_cons_none (k : String) {c : Constraint K S P} (h : c.slackPriorityScale = none)
    (cs : Dict (Constraint K S P)) : slackScales ((k, c) :: cs) = slackScales cs := by
  simp [slackScales, h]

theorem assignSlack_cons_some (k : String) {c : Constraint K S P} {w : K} (h : c.slackPriorityScale = some w)
    (cs : Dict (Constraint K S P)) (a : K) (d : List K) : assignSlack ((k, c) :: cs) (a :: d) = (c, a) :: assignSlack cs d := by
  simp [assignSlack, h]

theorem assignSlack_cons_none (k : String) {c : Constraint K S P} (h : c.slackPriorityScale = none)
    (cs : Dict (Constraint K S P)) (d : List K) : assignSlack ((k, c) :: cs) d = (c, 0) :: assignSlack cs d := by
  simp [assignSlack, h]

/-- The weighted sum of squares of slack values. -/
def slackSum (φ : K → K) (cs : Dict (Constraint K S P)) (d : List K) : K :=
  dot ((slackScales cs).map φ) (List.zipWith (· * ·) d d)

theorem slackSum_cons_some (φ : K → K) (k : String) {c : Constraint K S P} {w : K} (h : c.slackPriorityScale = some w)
    (cs : Dict (Constraint K S P)) (a : K) (d : List K) :
    slackSum φ ((k, c) :: cs) (a :: d) = φ w * (a * a) + slackSum φ cs d := by
  unfold slackSum
  rw [slackScales_cons_some k h]
  rfl

theorem slackSum_cons_none (φ : K → K) (k : String) {c : Constraint K S P} (h : c.slackPriorityScale = none)
    (cs : Dict (Constraint K S P)) (d : List K) : slackSum φ ((k, c) :: cs) d = slackSum φ cs d := by
  unfold slackSum
  rw [slackScales_cons_none k h]

/-- Slack values for a reordered dictionary. -/
theorem perm_slack (φ : K → K) {cs ds : Dict (Constraint K S P)} (hp : cs.Perm ds) :
    ∀ d : List K, d.length = (slackScales cs).length → ∃ e : List K, e.length = (slackScales ds).length ∧
      (assignSlack ds e).Perm (assignSlack cs d) ∧ slackSum φ ds e = slackSum φ cs d := by
  induction hp with
  | nil => exact fun d hd => ⟨d, hd, List.Perm.refl _, rfl⟩
  | @cons a cs ds hp ih =>
    obtain ⟨k, c⟩ := a
    intro d hd
    cases hc : c.slackPriorityScale with
    | none =>
      rw [slackScales_cons_none k hc] at hd
      obtain ⟨e, h1, h2, h3⟩ := ih d hd
      refine ⟨e, by rw [slackScales_cons_none k hc]; exact h1, ?_, ?_⟩
      · rw [assignSlack_cons_none k hc, assignSlack_cons_none k hc]; exact h2.cons _
      · rw [slackSum_cons_none φ k hc, slackSum_cons_none φ k hc]; exact h3
    | some w =>
      rw [slackScales_cons_some k hc] at hd
      cases d with
      | nil => simp at hd
      | cons p d =>
        obtain ⟨e, h1, h2, h3⟩ := ih d (by simpa using hd)
        refine ⟨p :: e, by rw [slackScales_cons_some k hc]; simp [h1], ?_, ?_⟩
        · rw [assignSlack_cons_some k hc, assignSlack_cons_some k hc]; exact h2.cons _
        · rw [slackSum_cons_some φ k hc, slackSum_cons_some φ k hc, h3]
  | @swap a b cs =>
    obtain ⟨k, c⟩ := a
    obtain ⟨l, c'⟩ := b
    intro d hd
    cases hc : c.slackPriorityScale with
    | none =>
      cases hc' : c'.slackPriorityScale with
      | none =>
        refine ⟨d, ?_, ?_, ?_⟩
        · rw [hd]
          simp [slackScales, hc, hc']
        · rw [assignSlack_cons_none k hc, assignSlack_cons_none l hc', assignSlack_cons_none l hc', assignSlack_cons_none k hc]
          exact List.Perm.swap _ _ _
        · rw [slackSum_cons_none φ k hc, slackSum_cons_none φ l hc', slackSum_cons_none φ l hc', slackSum_cons_none φ k hc]
      | some w =>
        rw [slackScales_cons_some l hc', slackScales_cons_none k hc] at hd
        cases d with
        | nil => simp at hd
        | cons p d =>
          refine ⟨p :: d, ?_, ?_, ?_⟩
          · rw [slackScales_cons_none k hc, slackScales_cons_some l hc']; exact hd
          · rw [assignSlack_cons_none k hc, assignSlack_cons_some l hc', assignSlack_cons_some l hc', assignSlack_cons_none k hc]
            exact List.Perm.swap _ _ _
          · rw [slackSum_cons_none φ k hc, slackSum_cons_some φ l hc', slackSum_cons_some φ l hc', slackSum_cons_none φ k hc]
    | some w =>
      cases hc' : c'.slackPriorityScale with
      | none =>
        rw [slackScales_cons_none l hc', slackScales_cons_some k hc] at hd
        cases d with
        | nil => simp at hd
        | cons p d =>
          refine ⟨p :: d, ?_, ?_, ?_⟩
          · rw [slackScales_cons_some k hc, slackScales_cons_none l hc']; exact hd
          · rw [assignSlack_cons_some k hc, assignSlack_cons_none l hc', assignSlack_cons_none l hc', assignSlack_cons_some k hc]
            exact List.Perm.swap _ _ _
          · rw [slackSum_cons_some φ k hc, slackSum_cons_none φ l hc', slackSum_cons_none φ l hc', slackSum_cons_some φ k hc]
      | some w' =>
        rw [slackScales_cons_some l hc', slackScales_cons_some k hc] at hd
        match d, hd with
        | [], hd => simp at hd
        | [p], hd => simp at hd
        | p :: q :: d, hd =>
          refine ⟨q :: p :: d, ?_, ?_, ?_⟩
          · rw [slackScales_cons_some k hc, slackScales_cons_some l hc']; exact hd
          · rw [assignSlack_cons_some k hc, assignSlack_cons_some l hc', assignSlack_cons_some l hc', assignSlack_cons_some k hc]
            exact List.Perm.swap _ _ _
          · rw [slackSum_cons_some φ k hc, slackSum_cons_some φ l hc', slackSum_cons_some φ l hc', slackSum_cons_some φ k hc]
            ring
  | trans _ _ ih1 ih2 =>
    intro d hd
    obtain ⟨e, h1, h2, h3⟩ := ih1 d hd
    obtain ⟨e', h1', h2', h3'⟩ := ih2 e h1
    exact ⟨e', h1', h2'.trans h2, h3'.trans h3⟩

/-- Reordering constraints and direct inequalities keeps the admissible controls and what their slack costs. -/
theorem admissibleS_perm [HasSqrt K] {f : S → List K} {g : S → List (List K)} {s t : ASIFObj K S P X}
    (hlo : t.controlBoundsLow = s.controlBoundsLow) (hhi : t.controlBoundsHigh = s.controlBoundsHigh)
    (hdim : t.ext.controlDim = s.ext.controlDim) (hcs : s.constraints.Perm t.constraints)
    (hds : s.ext.direct.Perm t.ext.direct) {x : S} (u0 : List K) {u d : List K} (h : AdmissibleS f g s x u d) :
    ∃ e, AdmissibleS f g t x u e ∧ slackCost (qpWeights t) u0 u e = slackCost (qpWeights s) u0 u d := by
  obtain ⟨e, h1, h2, h3⟩ := perm_slack HasSqrt.sqrt hcs d h.slen
  refine ⟨e, ⟨h.len.trans hdim.symm, h1, by rw [hlo, hhi]; exact h.bounds, fun cd hcd => h.barrier cd (h2.mem_iff.1 hcd),
    fun kc hkc => h.direct kc (hds.mem_iff.2 hkc)⟩, ?_⟩
  unfold slackSum at h3
  unfold slackCost qpWeights
  rw [h3]

end RTA
