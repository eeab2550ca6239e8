import Verif.Lemmas.ASIFCall
import Verif.Lemmas.ImplicitCall

/-!
Calls of modules with `solver_exception=True`: if a control comes back, the program was solved.
-/
namespace RTA
variable {K S P X A : Type} [Field K] [LinearOrder K] [IsStrictOrderedRing K] [HasSqrt K] [LawfulSqrt K]

theorem explicit_strict {solver : Solver K} (hspec : SolverSpec solver) {f : S → List K}
    {g : S → List (List K)} {s s' : ASIFObj K S P X} (hinv : ASIFInv s) (hnames : ExplicitNames s)
    (hpos : ScalesPos s.constraints) {x : S} {dt : K} {u v : List K} (hen : s.enable = true) (hexc : s.ext.solverException = true)
    (h : explicitASIF solver f g s (.array x) dt u = (.ok v, s')) : ∃ w d, AdmissibleS f g s x w d := by
  obtain ⟨nm, ex, rows, drows, w0, cz, hgen, hdir, hout, hclip, hs'⟩ := asif_ok (genFrame_explicit f g) hen h
  have hG := objWeight_pos hinv hpos
  have hGl := objWeight_length hinv
  cases hout with
  | infeasible hq hx => rw [hexc] at hx; cases hx
  | @solved z iact l hq hcause =>
    obtain ⟨hqs, hal, hrw⟩ := quadprogSolve_dims (Or.inl ⟨_, _, hq⟩)
    obtain ⟨hfz, -⟩ := hspec.solved _ _ _ _ _ hG hal hrw (hqs.symm.trans hq)
    have hzl : z.length = s.ext.controlDim + s.ext.numSlack := hfz.1.trans hGl
    have hvl : (z.take s.ext.controlDim).length = s.ext.controlDim := by rw [List.length_take]; omega
    have hdl : (z.drop s.ext.controlDim).length = s.ext.numSlack := by rw [List.length_drop]; omega
    refine ⟨_, _, (explicit_feasible hinv hnames hgen hdir hvl hdl).1 ?_⟩
    rw [List.take_append_drop]; exact hfz

theorem implicit_strict [FloorRing K] {solver : Solver K} (hspec : SolverSpec solver) {E : ImplicitEnv K}
    {s s' : ImplicitObj K P A} (hinv : ASIFInv s) {x : List K} {dt : K} {u v : List K} (hen : s.enable = true)
    (hexc : s.ext.solverException = true) (h : E.call solver s (.array x) dt u = (.ok v, s')) : ∃ w, AdmissibleI E s x dt w := by
  obtain ⟨nm, ex, rows, drows, w0, cz, hgen, hdir, hout, hclip, hs'⟩ := asif_ok (genFrame_implicit E) hen h
  obtain ⟨names, hact⟩ := hinv.act
  obtain ⟨hns, -⟩ := implicit_rep hinv hact hgen hdir
  have hpos := scalesPos_of_noSlack hinv hns
  have hG := objWeight_pos hinv hpos
  have hGl := objWeight_length hinv
  rw [hns, Nat.add_zero] at hGl
  cases hout with
  | infeasible hq hx => rw [hexc] at hx; cases hx
  | @solved z iact l hq hcause =>
    obtain ⟨hqs, hal, hrw⟩ := quadprogSolve_dims (Or.inl ⟨_, _, hq⟩)
    obtain ⟨hfz, -⟩ := hspec.solved _ _ _ _ _ hG hal hrw (hqs.symm.trans hq)
    exact ⟨z, (implicit_feasible hinv hgen hdir (hfz.1.trans hGl)).1 hfz⟩

end RTA
