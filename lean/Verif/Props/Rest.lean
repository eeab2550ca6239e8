import Verif.Props.Flow

/-!
Explicit optimisation filters at states where the desired control holds the system still.
-/
namespace RTA
open Set

section
variable {K S P X : Type} [Field K] [LinearOrder K] [IsStrictOrderedRing K] [HasSqrt K] [LawfulSqrt K]

/-- **C71.** If the desired control holds the state still and respects bounds and direct inequalities, and all enabled constraints are
satisfied, with strengtheners that are not negative on satisfied constraints, then the module returns it unchanged and
does not report an intervention. -/
theorem C71_rest {solver : Solver K} (hspec : SolverSpec solver) {f : S → List K} {g : S → List (List K)}
    {s : ASIFObj K S P X} (hs : ExplicitModule solver f g s) (hpos : ScalesPos s.constraints) (heps : 0 ≤ s.ext.epsilon)
    (hen : s.enable = true) (x : S) (hsh : ShapesOK f g s x) (dt : K) (u : List K) (hlen : u.length = s.ext.controlDim)
    (hb : Within s.controlBoundsLow s.controlBoundsHigh u) (hdir : ∀ kc ∈ s.ext.direct, kc.2.enabled = true → DirectOK kc.2 x u)
    (hstill : ∀ d ∈ vadd (f x) (matVec (g x) u), d = 0)
    (hval : ∀ kc ∈ s.constraints, kc.2.enabled = true → 0 ≤ kc.2.computeFn x kc.2.params + kc.2.bias)
    (hal : ∀ kc ∈ s.constraints, kc.2.enabled = true → ∀ al, kc.2.alpha = some al → ∀ h, 0 ≤ h → 0 ≤ al h) :
    (explicitASIF solver f g s (.array x) dt u).1 = .ok u ∧
      (explicitASIF solver f g s (.array x) dt u).2.intervening = false := by
  refine C25_no_interference hspec hs hpos heps hen x hsh dt u ⟨hlen, hb, fun kc hkc hek => ?_, hdir⟩
  obtain ⟨al, ha⟩ := Option.isSome_iff_exists.1 (hsh.alpha kc hkc)
  have h0 : vadd (f x) (matVec (g x) u) = zeros (vadd (f x) (matVec (g x) u)).length := List.eq_replicate_iff.2 ⟨rfl, hstill⟩
  have hv := hval kc hkc hek
  refine ⟨al (kc.2.computeFn x kc.2.params + kc.2.bias), ?_, hal kc hkc hek al ha _ hv⟩
  rw [barrierValue, ha, h0, dot_zeros_right]
  simp only [Option.map_some, zero_add]
  rw [strengthening, if_pos hv]

/-- **C71, the other direction.** Where an enabled constraint without slack is violated, with the default treatment of violated constraints,
the module never returns a control that holds the state still, provided its program is solvable. -/
theorem C71_moves {solver : Solver K} (hspec : SolverSpec solver) {f : S → List K} {g : S → List (List K)}
    {s s' : ASIFObj K S P X} (hs : ExplicitModule solver f g s) (hpos : ScalesPos s.constraints) (hen : s.enable = true)
    (x : S) (dt : K) (u v : List K) (hcall : explicitASIF solver f g s (.array x) dt u = (.ok v, s'))
    (hadm : ∃ w d, AdmissibleS f g s x w d) {k : String} {c : Constraint K S P} (hc : (k, c) ∈ s.constraints) (hce : c.enabled = true)
    (hns : c.slackPriorityScale = none) {al : K → K} (ha : c.alpha = some al) (han : c.alphaNeg = none) (hbn : c.biasNegative < 0)
    (hal : ∀ h, h < 0 → al h ≤ 0) (hviol : c.computeFn x c.params + c.bias < 0) : ∃ d ∈ vadd (f x) (matVec (g x) v), d ≠ 0 := by
  obtain ⟨-, d, -, had, -⟩ := explicit_solved hspec hs.inv.1 hs.inv.2 hpos hen hcall hadm
  obtain ⟨m, hm, hm0⟩ := barrier_of_admissible had hc hce hns
  by_contra hno
  push Not at hno
  have h0 : vadd (f x) (matVec (g x) v) = zeros (vadd (f x) (matVec (g x) v)).length := List.eq_replicate_iff.2 ⟨rfl, hno⟩
  have hv : ¬ 0 ≤ c.computeFn x c.params + c.bias := not_le.2 hviol
  rw [barrierValue, ha, h0, dot_zeros_right] at hm
  simp only [Option.map_some, Option.some.injEq, zero_add] at hm
  rw [strengthening, if_neg hv, han] at hm
  have := hal _ hviol
  simp only at hm
  linarith

end

/-- The toy module at rest at `x = 1`: the zero control is returned. -/
example (solver : Solver ℝ) (hspec : SolverSpec solver) (exc : Bool) (dt : ℝ) :
    (explicitASIF solver toyF toyG (toyObj none exc) (.array 1) dt [0]).1 = .ok [0] := by
  have hval : ∀ kc ∈ (toyObj none exc).constraints, kc.2.enabled = true → 0 ≤ kc.2.computeFn (1 : ℝ) kc.2.params + kc.2.bias := by
    simp [toyObj, toyC]
  refine (C71_rest hspec (toy_module solver none exc) (toy_pos_none exc) (by simp only [toyObj]; norm_num) rfl 1 (toy_shapes none exc 1) dt [0] rfl
    ((toy_admissible none exc 1 [0]).2 ⟨0, rfl, by norm_num⟩).bounds (by simp [toyObj]) (by simp [toyF, toyG, vadd, matVec]) hval ?_).1
  intro kc hkc _ al ha h hh
  simp only [toyObj, List.mem_singleton] at hkc
  subst hkc
  simp only [toyC, Option.some.injEq] at ha
  subst ha
  exact hh

/-- And at `x = -1/10`, where its constraint is violated, it never returns the zero control, whatever is desired. -/
example (solver : Solver ℝ) (hspec : SolverSpec solver) (exc : Bool) (dt : ℝ) (u v : List ℝ) (s' : ASIFObj ℝ ℝ Unit Unit)
    (hcall : explicitASIF solver toyF toyG (toyObj none exc) (.array (-(1 / 10))) dt u = (.ok v, s')) : v ≠ [0] := by
  have hadm : Admissible toyF toyG (toyObj none exc) (-(1 / 10)) [2] := (toy_admissible none exc _ [2]).2 ⟨2, rfl, by norm_num⟩
  obtain ⟨d, hd, hd0⟩ := C71_moves hspec (toy_module solver none exc) (toy_pos_none exc) rfl _ dt u v hcall
    ⟨[2], _, admissible_iff_zeros.1 hadm⟩ (k := "c") (c := toyC none) (by simp [toyObj]) rfl rfl (al := id) rfl rfl
    (by simp only [toyC]; norm_num) (fun h hh => hh.le) (by simp only [toyC]; norm_num)
  rintro rfl
  simp [toyF, toyG, vadd, matVec] at hd
  exact hd0 hd

end RTA
