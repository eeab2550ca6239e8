{
 "claims": [
  {
   "property": "C01",
   "status": "proved",
   "theorems": [
    "RTA.C01_filtered_control_in_bounds",
    "RTA.C01_filtered_control_within"
   ],
   "note": "Arbitrary subclass hook; numbers are any linear order (no NaN)."
  },
  {
   "property": "C02",
   "status": "proved",
   "theorems": [
    "RTA.C02_disabled_passthrough"
   ],
   "note": ""
  },
  {
   "property": "C03",
   "status": "proved",
   "theorems": [
    "RTA.C03_actual_is_returned",
    "RTA.C03_history"
   ],
   "note": "History theorem for scalar/None bounds (array bounds can make the final clip itself raise) and hooks that do not overwrite the records."
  },
  {
   "property": "C04",
   "status": "proved",
   "theorems": [
    "RTA.C04_no_aliasing",
    "RTA.C04_initially_separate",
    "RTA.C04_write_own_harmless",
    "RTA.C04_info_is_record"
   ],
   "note": "Subclasses are modelled as not keeping references to caller arrays (see Model/Heap.lean)."
  },
  {
   "property": "C05",
   "status": "proved",
   "theorems": [
    "RTA.C05_clip_identity",
    "RTA.C05_clip_total",
    "RTA.C05_clip_idempotent",
    "RTA.C05_clip_minimal"
   ],
   "note": ""
  },
  {
   "property": "C06",
   "status": "proved",
   "theorems": [
    "RTA.C06_select_none",
    "RTA.C06_select"
   ],
   "note": ""
  },
  {
   "property": "C07",
   "status": "proved",
   "theorems": [
    "RTA.C07_edits_take_effect",
    "RTA.C07_hook_sees_current",
    "RTA.C07_explicit_asif",
    "RTA.C07_implicit_asif",
    "RTA.C07_discrete_asif",
    "RTA.C07_simplex"
   ],
   "note": ""
  },
  {
   "property": "C08",
   "status": "proved",
   "theorems": [
    "RTA.C08_labels",
    "RTA.C08_explicit_asif",
    "RTA.C08_implicit_asif",
    "RTA.C08_discrete_asif",
    "RTA.C08_simplex"
   ],
   "note": ""
  },
  {
   "property": "C09",
   "status": "partial",
   "theorems": [
    "RTA.C09_simplex_disabled_no_influence",
    "RTA.C09_implicit_simplex_disabled_no_influence",
    "RTA.C09_asif_admitted_controls",
    "RTA.C09_asif_disabled_no_influence",
    "RTA.C09_discrete_admitted_controls",
    "RTA.C09_discrete_disabled_no_influence",
    "RTA.C09_implicit_admitted_controls",
    "RTA.C09_implicit_disabled_no_influence_partial",
    "RTA.C09_refuted_implicit"
   ],
   "note": "Simplex modules, explicit ASIF with direct inequalities, discrete ASIF: proved. Implicit ASIF: proved unless a constraint yields more rows than the trajectory has points (keep_first/keep_last); false then (IndexError, witness proved)."
  },
  {
   "property": "C10",
   "status": "partial",
   "theorems": [
    "RTA.C10_simplex_reset_partial",
    "RTA.C10_simplex_no_latch_partial",
    "RTA.C10_instances",
    "RTA.C10_refuted_simplex_reset",
    "RTA.C10_explicit_asif_reset",
    "RTA.C10_implicit_reset",
    "RTA.C10_cascade_reset_partial",
    "RTA.C10_refuted_cascade_reset"
   ],
   "note": "False as stated: reset keeps the latch counter of a simplex module (witness proved), and reset of a cascade does not reset its stages (witness proved). Holds for simplex modules without latching and for explicit and implicit ASIF."
  },
  {
   "property": "C100",
   "status": "proved",
   "theorems": [
    "RTA.C100_inspection",
    "RTA.C100_hocbf",
    "RTA.C100_fleet",
    "RTA.C100_positive",
    "RTA.C100_fleet_positive",
    "RTA.C100_closed_loop",
    "RTA.C100_fleet_closed_loop"
   ],
   "note": "Reals for floats; closed-loop parts under the hypotheses of C70 and C72 (solver contract, position never on the sun axis)."
  },
  {
   "property": "C101",
   "status": "proved",
   "theorems": [
    "RTA.C101_loop",
    "RTA.C101_recovery",
    "RTA.C101_bias",
    "RTA.C101_linear",
    "RTA.C101_discrete",
    "RTA.C101_discrete_linear",
    "RTA.C101_simplex",
    "RTA.C101_bias_needed",
    "RTA.C101_docking_2d",
    "RTA.C101_implicit",
    "RTA.C101_implicit_linear",
    "RTA.C101_refuted_implicit"
   ],
   "note": ""
  },
  {
   "property": "C102",
   "status": "proved",
   "theorems": [
    "RTA.C102_implicit_conditions",
    "RTA.C102_implicit_returns",
    "RTA.C102_implicit_interference",
    "RTA.C102_implicit_loop",
    "RTA.C102_implicit_backup",
    "RTA.C102_implicit_bias_ignored",
    "RTA.C102_implicit_bias_negative",
    "RTA.C102_discrete_exact",
    "RTA.C102_discrete_zero",
    "RTA.C102_discrete_relaxed",
    "RTA.C102_discrete_conditions",
    "RTA.C102_discrete_interference",
    "RTA.C102_discrete_loop",
    "RTA.C102_discrete_linear",
    "RTA.C102_discrete_loss"
   ],
   "note": "Solvers enter through contracts with tolerances; reals for floats in the trajectory parts."
  },
  {
   "property": "C103",
   "status": "proved",
   "theorems": [
    "RTA.C103_conditions",
    "RTA.C103_loop",
    "RTA.C103_recovery",
    "RTA.C103_bias",
    "RTA.C103_single",
    "RTA.C103_bias_needed"
   ],
   "note": "One call, closed loop trajectories and recovery under rounding with explicit errors, and necessity of bias."
  },
  {
   "property": "C104",
   "status": "proved",
   "theorems": [
    "RTA.C104_loop",
    "RTA.C104_bias",
    "RTA.C104_linear",
    "RTA.C104_recovery",
    "RTA.C104_age",
    "RTA.C104_sampled",
    "RTA.C104_bias_needed"
   ],
   "note": "Trajectories under delayed and held controls with explicit margins, and necessity of bias."
  },
  {
   "property": "C105",
   "status": "proved",
   "theorems": [
    "RTA.C105_step",
    "RTA.C105_explicit_simplex",
    "RTA.C105_implicit_simplex",
    "RTA.C105_discrete",
    "RTA.C105_attained",
    "RTA.gap_loop",
    "RTA.gap_passes"
   ],
   "note": "Bound between the steps for the three kinds of modules and a loop that attains it."
  },
  {
   "property": "C106",
   "status": "proved",
   "theorems": [
    "RTA.C106_authority",
    "RTA.C106_outcome",
    "RTA.C106_projection",
    "RTA.C106_pairs",
    "RTA.C106_scalar",
    "RTA.C106_integrator"
   ],
   "note": "solvability and closed forms of explicit ASIF answers: one condition with or without bounds, scalar controls with any number of conditions, and the 1-D docking integrator"
  },
  {
   "property": "C107",
   "status": "proved",
   "theorems": [
    "RTA.C107_corresponding",
    "RTA.C107_step_length",
    "RTA.C107_coordinates",
    "RTA.C107_mirror",
    "RTA.C107_docking_2d",
    "RTA.C107_docking_3d",
    "RTA.C107_simplex",
    "RTA.C107_simplex_run",
    "RTA.C107_implicit_simplex",
    "RTA.C107_implicit_simplex_run",
    "RTA.C107_docking_2d_simplex",
    "RTA.C107_docking_3d_simplex",
    "RTA.C107_discrete",
    "RTA.C107_refuted_discrete",
    "RTA.C107_inspection_discrete",
    "RTA.C107_inspection",
    "RTA.C107_inspection_hocbf",
    "RTA.C107_implicit",
    "RTA.C107_docking_2d_implicit",
    "RTA.C107_docking_3d_implicit"
   ],
   "note": "Explicit ASIF answers depend only on the situation, not on coordinates, step length, solver or history; mirror image situations get mirror image answers; shipped docking and inspection modules (also with use_hocbf) as instances. Simplex modules with a symmetry answer mirror image call sequences with mirror image answers; shipped docking simplex modules as instances. Discrete-time modules answer in the mirror image exactly if they answer in the original, equally far from the desired control; with the mirror image control if the closest admissible control is unique, which is proved to be needed; the shipped discrete inspection module and the reflection in the orbital plane as instance. Implicit ASIF modules give mirror image answers when prediction, backup law and closed-loop Jacobians are symmetric too; instances: the docking modules, with linear prediction and derivatives exact on linear maps."
  },
  {
   "property": "C108",
   "status": "partial",
   "theorems": [
    "RTA.C108_linear_partial",
    "RTA.C108_refuted"
   ],
   "note": "False as stated: the default strengthener of the state limits is a cubic polynomial, so answers depend on units. Holds for linear strengtheners with bias_negative converted."
  },
  {
   "property": "C109",
   "status": "proved",
   "theorems": [
    "RTA.C109_explicit",
    "RTA.C109_implicit",
    "RTA.C109_discrete",
    "RTA.C109_simplex",
    "RTA.C109_implicit_simplex"
   ],
   "note": "For every pair of modules of which one is set up at least as cautiously, without slack, whenever the more cautious explicit or implicit ASIF module has an admissible control and answers, the other answers at least as closely; for discrete modules when both calls succeed and the solver finds global minima; simplex modules when no latch is engaged."
  },
  {
   "property": "C11",
   "status": "partial",
   "theorems": [
    "RTA.C11_explicit_failure_harmless",
    "RTA.C11_implicit_failure_harmless_partial",
    "RTA.C11_implicit_success_harmless",
    "RTA.C11_implicit_infeasible_harmless",
    "RTA.C11_refuted_implicit"
   ],
   "note": "Explicit ASIF modules: proved for every call. Implicit ASIF modules: proved for stateless controllers, and for any controller after returns and solver failures; false for stateful controllers when the look-ahead raises (witness proved)."
  },
  {
   "property": "C110",
   "status": "partial",
   "theorems": [
    "RTA.C110_simplex",
    "RTA.C110_implicit_partial",
    "RTA.C110_refuted_num_least"
   ],
   "note": "Proved for implicit simplex modules, and for implicit ASIF modules whose constraints do not select least values or add the last point. False with subsample_constraints_num_least: a concrete module changes the control with window 1 and not with window 2."
  },
  {
   "property": "C111",
   "status": "partial",
   "theorems": [
    "RTA.C111_dwell_partial",
    "RTA.C111_refuted_reset"
   ],
   "note": "Proved for explicit and implicit simplex modules and every run of calls without resets. False after a reset in the middle of a latch, which keeps the elapsed latch time (witness proved)."
  },
  {
   "property": "C112",
   "status": "partial",
   "theorems": [
    "RTA.C112_small_steps_partial",
    "RTA.C112_refuted_violated"
   ],
   "note": "As the step size tends to zero the answers of a discrete-time module tend to the answer of the explicit module with the same constraints, bounds and (to first order) dynamics, in states where every enabled constraint holds and a strictly admissible control exists; without slack variables. False where a constraint is violated: the discrete-time module ignores alpha_negative and bias_negative."
  },
  {
   "property": "C113",
   "status": "partial",
   "theorems": [
    "RTA.C113_shrinks",
    "RTA.C113_tolerance_partial",
    "RTA.C113_bias_partial",
    "RTA.C113_refuted_finite"
   ],
   "note": "The violation shrinks by the factor 1 - r dt per step and falls below every tolerance; with a negative bias the constraint holds again after finitely many steps. False without bias: a concrete module stays in violation for ever."
  },
  {
   "property": "C114",
   "status": "partial",
   "theorems": [
    "RTA.C114_single_input_partial",
    "RTA.C114_untouched_partial",
    "RTA.C114_refuted"
   ],
   "note": "Proved for explicit modules with one control input (any number of stages, any order), and for any number of inputs when the answer of the first stage satisfies the conditions of the others. False with two inputs: a concrete cascade undoes in either order what its first stage ensured."
  },
  {
   "property": "C115",
   "status": "proved",
   "theorems": [
    "RTA.C115_others",
    "RTA.C115_renumbering",
    "RTA.C115_raises"
   ],
   "note": "Permuting the deputies in state and desired control permutes the returned controls of the combined inspection module, and failures do not depend on the numbering; assumes the deputy module has all its constraints (the default), the QP solver contract, exact real arithmetic and gradients equal to the partial derivatives."
  },
  {
   "property": "C116",
   "status": "partial",
   "theorems": [
    "RTA.C116_closest",
    "RTA.C116_returns_partial",
    "RTA.C116_infeasible",
    "RTA.C116_added_raises",
    "RTA.C116_added_fine",
    "RTA.C116_added_slack",
    "RTA.C116_renamed",
    "RTA.C116_explicit_simplex",
    "RTA.C116_implicit_simplex",
    "RTA.C116_compiled_removed",
    "RTA.C116_refuted_added",
    "RTA.C116_refuted_names",
    "RTA.C116_implicit_closest",
    "RTA.C116_implicit_returns",
    "RTA.C116_implicit_names",
    "RTA.C116_discrete_ignored",
    "RTA.C116_discrete_unchanged",
    "RTA.C116_refuted_discrete_removed",
    "RTA.C116_refuted_discrete_added",
    "RTA.C116_scales_ignored",
    "RTA.C116_scales_closest",
    "RTA.C116_refuted_scale"
   ],
   "note": "holds for Simplex and implicit ASIF modules without compiled methods; for explicit ASIF modules without compiled methods every control returned is the best for the constraints of the moment, but an added constraint that becomes active raises IndexError, its slack is dropped, reported names are those of construction; compiled ASIF modules go on enforcing removed constraints. Discrete time modules ignore every change of the dictionary. Changed slack scales are ignored: the scales of construction are handed out in order. Missing: what is optimised after the number of constraints with slack was reduced, changed scales in compiled modules"
  },
  {
   "property": "C117",
   "status": "proved",
   "theorems": [
    "RTA.C117_returns",
    "RTA.C117_penalty",
    "RTA.C117_bound",
    "RTA.C117_priority",
    "RTA.C117_large_scales",
    "RTA.C117_kept_iff",
    "RTA.C117_discrete_penalty",
    "RTA.C117_discrete_bound",
    "RTA.C117_discrete_priority"
   ],
   "note": "slack variables eliminated: the returned control minimises distance plus weighted squared violations; monotone in the scale, bounded violation, explicit rate of convergence to the answer without slack, and soft constraints that matter are never kept exactly; discrete time modules with the scale itself as weight"
  },
  {
   "property": "C118",
   "status": "proved",
   "theorems": [
    "RTA.C118_margin",
    "RTA.C118_loop",
    "RTA.C118_recovery",
    "RTA.C118_bias",
    "RTA.C118_linear",
    "RTA.C118_bias_needed",
    "RTA.C118_discrete",
    "RTA.C118_discrete_linear"
   ],
   "note": "the violation of one call is bounded linearly in 1/\u221ascale; closed loop bounds, recovery, exact invariance with bias_negative, and a trajectory that violates a soft constraint with every scale when bias_negative is zero; discrete time modules"
  },
  {
   "property": "C119",
   "status": "partial",
   "theorems": [
    "RTA.C119_arrives",
    "RTA.C119_refuted_obstacle"
   ],
   "note": "liveness of the 1-D explicit optimisation docking module in closed loop for every desired control that pushes on; false in general: in the plane the filtered vehicle can come to rest in front of an obstacle although the target is safe and the desired control alone arrives"
  },
  {
   "property": "C12",
   "status": "proved",
   "theorems": [
    "RTA.C12_history_independent",
    "RTA.C12_implicit_history_independent"
   ],
   "note": ""
  },
  {
   "property": "C120",
   "status": "proved",
   "theorems": [
    "RTA.C120_passes",
    "RTA.C120_steep",
    "RTA.C120_refuted_slope",
    "RTA.C120_refuted_forever"
   ],
   "note": "one slope for a strictly safe motion of bounded duration, for all modules with at least this slope; assumes values and rates continuous in time and the QP solver contract; the slope must depend on the motion and the duration must be bounded (counterexamples)"
  },
  {
   "property": "C121",
   "status": "partial",
   "theorems": [
    "RTA.C121_exists",
    "RTA.C121_unique",
    "RTA.C121_affine_partial",
    "RTA.C121_strengthening",
    "RTA.C121_sampled_exists",
    "RTA.C121_sampled_unique",
    "RTA.C121_sampled_asif",
    "RTA.C121_sampled_docking",
    "RTA.C121_sampled_simplex",
    "RTA.C121_sampled_implicit",
    "RTA.C121_scalar_partial",
    "RTA.C121_safe"
   ],
   "note": "sampled closed loops with held controls: existence for all times and uniqueness for every filter whose calls return, instantiated for explicit ASIF modules (any constraints and bounds), explicit and implicit switching filters and the 1-D docking module; continuous calls: existence, uniqueness and exponential dependence on the initial state whenever the resulting velocity is Lipschitz, derived from the data for one affine constraint without bounds and for scalar controls with any number of constraints, user supplied inequalities and bounds; C121_safe adds that such motions stay safe; missing for continuous calls: several constraints or bounds on several control components, nonzero bias_negative, data without a global Lipschitz constant"
  },
  {
   "property": "C122",
   "status": "proved",
   "theorems": [
    "RTA.C122_converges",
    "RTA.C122_violation"
   ],
   "note": "the distance of sampled and ideal motion and the violation of constraints are at most proportional to the interval, for modules whose answers have a Lipschitz constant"
  },
  {
   "property": "C123",
   "status": "proved",
   "theorems": [
    "RTA.C123_accepted",
    "RTA.C123_passes",
    "RTA.C123_loop",
    "RTA.C123_implicit_accepted",
    "RTA.C123_implicit_loop",
    "RTA.C123_refuted_without_bias"
   ],
   "note": "switching modules whose predictions, estimates or values are inexact: accepted controls are truly safe up to bias and error, closed loops of explicit and implicit modules stay truly safe when the bias makes up for the error, and a loop without bias that leaves by five times the error"
  },
  {
   "property": "C124",
   "status": "proved",
   "theorems": [
    "RTA.C124_net",
    "RTA.C124_net_implicit",
    "RTA.C124_discrete",
    "RTA.C124_explicit",
    "RTA.C124_refuted_curved"
   ],
   "note": "a cascade that ends in an explicit or implicit switching module is safe whatever its first stage answers within the bounds; behind a discrete-time or explicit optimisation module with the same constraints the switching module stays silent, and a curved constraint for which it does not because the condition on the predicted change fails"
  },
  {
   "property": "C125",
   "status": "proved",
   "theorems": [
    "RTA.C125_dock",
    "RTA.C125_motion",
    "RTA.C125_runs",
    "RTA.C125_refuted_without_bias"
   ],
   "note": "the 1-D explicit switching module with Euler prediction and a bias of -(17/16 dt^2 + eta) keeps the true point mass at or below zero at and between all calls; runs exist; a collision of the module as constructed, without bias"
  },
  {
   "property": "C126",
   "status": "proved",
   "theorems": [
    "RTA.C126_dock",
    "RTA.C126_motion",
    "RTA.C126_runs",
    "RTA.C126_refuted_between"
   ],
   "note": "Implicit 1-D switching module with Euler prediction on the true point mass: safe at the calls, and with bias -dt^2/8 at all times; refuted between calls without bias"
  },
  {
   "property": "C127",
   "status": "partial",
   "theorems": [
    "RTA.C127_coasting_partial",
    "RTA.C127_refuted",
    "RTA.C127_raises",
    "RTA.C127_net",
    "RTA.C127_net_dock",
    "RTA.C127_net_runs"
   ],
   "note": "refuted for every bias and step size: asked to accelerate from rest the module lets the vehicle pass the target (or raises with solver_exception); proved for desired controls that do not accelerate towards the target, and for every desired control when the biased explicit switching module follows it in a cascade"
  },
  {
   "property": "C13",
   "status": "proved",
   "theorems": [
    "RTA.C13_explicit_decision",
    "RTA.C13_explicit_returns"
   ],
   "note": ""
  },
  {
   "property": "C14",
   "status": "proved",
   "theorems": [
    "RTA.C14_implicit_decision",
    "RTA.C14_implicit_returns"
   ],
   "note": ""
  },
  {
   "property": "C15",
   "status": "partial",
   "theorems": [
    "RTA.C15_accepted_is_safe_partial",
    "RTA.C15_refuted_out_of_bounds"
   ],
   "note": "False for out-of-bounds desired controls (monitor sees the unclipped control; witness proved); proved for in-bounds ones."
  },
  {
   "property": "C16",
   "status": "proved",
   "theorems": [
    "RTA.C16_latched_call",
    "RTA.C16_latch_history",
    "RTA.C16_no_latch"
   ],
   "note": "Histories of calls without a reset in between; a reset leaves the counter (see C10)."
  },
  {
   "property": "C17",
   "status": "proved",
   "theorems": [
    "RTA.C17_monitor_leaves_controller",
    "RTA.C17_instances",
    "RTA.C17_not_exception_safe"
   ],
   "note": "For histories of calls that do not raise; a raise inside the look-ahead leaves the controller state modified (witness proved)."
  },
  {
   "property": "C18",
   "status": "proved",
   "theorems": [
    "RTA.C18_explicit_closed_loop_safe",
    "RTA.C18_explicit_closed_loop_runs"
   ],
   "note": ""
  },
  {
   "property": "C19",
   "status": "proved",
   "theorems": [
    "RTA.C19_implicit_closed_loop_safe",
    "RTA.C19_implicit_closed_loop_safe_on"
   ],
   "note": "Constant step size."
  },
  {
   "property": "C20",
   "status": "partial",
   "theorems": [
    "RTA.C20_nan_exact_partial",
    "RTA.C20_refuted_nan_accepted"
   ],
   "note": "False: NaN < 0 is false, so NaN constraints pass (witness proved). Exact behaviour proved."
  },
  {
   "property": "C21",
   "status": "proved",
   "theorems": [
    "RTA.C21_reset",
    "RTA.C21_save_restore",
    "RTA.C21_generate",
    "RTA.C21_generate_with_state",
    "RTA.C21_unsupported"
   ],
   "note": ""
  },
  {
   "property": "C22",
   "status": "proved",
   "theorems": [
    "RTA.C22_actuation_rows"
   ],
   "note": ""
  },
  {
   "property": "C23",
   "status": "proved",
   "theorems": [
    "RTA.C23_barrier_rows",
    "RTA.C23_problem_handed_to_solver"
   ],
   "note": ""
  },
  {
   "property": "C24",
   "status": "proved",
   "theorems": [
    "RTA.C24_closest_admissible",
    "RTA.C24_returns"
   ],
   "note": "Solver contract SolverSpec is a hypothesis (exact arithmetic)."
  },
  {
   "property": "C25",
   "status": "proved",
   "theorems": [
    "RTA.C25_no_interference"
   ],
   "note": ""
  },
  {
   "property": "C26",
   "status": "partial",
   "theorems": [
    "RTA.C26_slack_always_feasible",
    "RTA.C26_slack_objective_partial",
    "RTA.C26_slack_objective_unit_partial",
    "RTA.C26_refuted_slack_weight"
   ],
   "note": "False as stated: the QP uses sqrt(scale) as weight (witness proved). Feasibility proved, objective proved with the actual weights; equals the documented one when all scales are 1."
  },
  {
   "property": "C27",
   "status": "proved",
   "theorems": [
    "RTA.C27_infeasible_policy",
    "RTA.C23_problem_handed_to_solver"
   ],
   "note": ""
  },
  {
   "property": "C28",
   "status": "partial",
   "theorems": [
    "RTA.C28_simplex_intervening_truthful",
    "RTA.C28_asif_intervening_partial",
    "RTA.C28_refuted_infeasible_clip",
    "RTA.C28_refuted_disabled_stale"
   ],
   "note": "False after infeasible calls with out-of-bounds desired controls and for disabled ASIF modules (witnesses proved)."
  },
  {
   "property": "C29",
   "status": "partial",
   "theorems": [
    "RTA.C29_active_constraints_partial",
    "RTA.C29_refuted_stale_list",
    "RTA.C29_implicit_partial",
    "RTA.C29_default_fits",
    "RTA.C29_refuted_implicit_names",
    "RTA.C29_index_zero"
   ],
   "note": "False after infeasible calls (stale list, witness proved). Explicit ASIF calls that solve a problem: proved."
  },
  {
   "property": "C30",
   "status": "proved",
   "theorems": [
    "RTA.C30_driven_back"
   ],
   "note": ""
  },
  {
   "property": "C31",
   "status": "proved",
   "theorems": [
    "RTA.C31_forward_invariance",
    "RTA.C31_class_k",
    "RTA.C31_asif_loop",
    "RTA.C31_asif_loop_inside",
    "RTA.C31_asif_loop_until"
   ],
   "note": "Continuous time over the reals; gradients are the IsGradientOn hypothesis (automatic differentiation is not modelled)."
  },
  {
   "property": "C32",
   "status": "proved",
   "theorems": [
    "RTA.C32_finite_time_recovery"
   ],
   "note": "Continuous time over the reals."
  },
  {
   "property": "C33",
   "status": "proved",
   "theorems": [
    "RTA.C33_value",
    "RTA.C33_default_identity",
    "RTA.C33_class_k",
    "RTA.C33_sign"
   ],
   "note": ""
  },
  {
   "property": "C34",
   "status": "proved",
   "theorems": [
    "RTA.C34_magnitude",
    "RTA.C34_max",
    "RTA.C34_min",
    "RTA.C34_bias",
    "RTA.C34_default_alpha"
   ],
   "note": ""
  },
  {
   "property": "C35",
   "status": "partial",
   "theorems": [
    "RTA.C35_chain",
    "RTA.C35_protects_partial",
    "RTA.C35_refuted_degree_one"
   ],
   "note": "Relative degree 1 raises UnboundLocalError (witness proved); degrees two and up: recursion and protection proved."
  },
  {
   "property": "C36",
   "status": "proved",
   "theorems": [
    "RTA.C36_rows",
    "RTA.C36_closest_admissible",
    "RTA.C36_returns",
    "RTA.C36_point_zero",
    "RTA.C36_trajectory",
    "RTA.C36_controller_state_kept"
   ],
   "note": "The Jacobian is a parameter (automatic differentiation is not modelled)."
  },
  {
   "property": "C37",
   "status": "partial",
   "theorems": [
    "RTA.C37_default_every_point",
    "RTA.C37_default_admissible",
    "RTA.C37_check_all_and_skip",
    "RTA.C37_refuted_gap",
    "RTA.C37_num_least",
    "RTA.C37_keep",
    "RTA.C37_refuted_slack",
    "RTA.C37_refuted_gap_observable",
    "RTA.C37_negative",
    "RTA.C37_index"
   ],
   "note": "False: the point after the first num_check_all points is skipped, and slack constraints make every call raise (both proved). Default settings and the selection rules are proved."
  },
  {
   "property": "C38",
   "status": "proved",
   "theorems": [
    "RTA.C38_exact_increment",
    "RTA.C38_derivative",
    "RTA.C38_saturated_counterexample"
   ],
   "note": "Automatic differentiation of the (linear) closed loop is a hypothesis."
  },
  {
   "property": "C39",
   "status": "proved",
   "theorems": [
    "RTA.C39_condition",
    "RTA.C39_closed_loop",
    "RTA.C39_failed_solve_unsafe"
   ],
   "note": "Closed loop needs solver_exception=True; with the default a failed solve's output is applied (witness proved)."
  },
  {
   "property": "C40",
   "status": "proved",
   "theorems": [
    "RTA.C40_objective",
    "RTA.C40_closest_admissible",
    "RTA.C40_problem"
   ],
   "note": "Nonlinear solver contract is a hypothesis."
  },
  {
   "property": "C41",
   "status": "proved",
   "theorems": [
    "RTA.C41_success",
    "RTA.C41_complete",
    "RTA.C41_error_aborts",
    "RTA.C41_error_source",
    "RTA.C41_empty",
    "RTA.C41_last_stage_guarantee",
    "RTA.C12_cascade_simulation",
    "RTA.C41_refuted_stale_flag",
    "RTA.C41_refuted_earlier_stage_guarantee"
   ],
   "note": "The stage flag itself may be stale for a disabled stage (witness proved)."
  },
  {
   "property": "C42",
   "status": "partial",
   "theorems": [
    "RTA.C42_latches_iff_predicted_exceeds",
    "RTA.C42_latched_returns_backup_partial",
    "RTA.C42_latched_ignores_desired",
    "RTA.C42_latching_integral",
    "RTA.C42_untriggered_within_budget",
    "RTA.C42_reset_unlatched_partial",
    "RTA.C42_refuted_latching_call_returns_desired",
    "RTA.C42_refuted_budget",
    "RTA.C42_refuted_reset_keeps_latch",
    "RTA.C42_refuted_reset"
   ],
   "note": "False: the latching call still returns the desired control and reset does not unlatch (proved). Later calls, the latching condition and the budget of untriggered calls are proved."
  },
  {
   "property": "C43",
   "status": "proved",
   "theorems": [
    "RTA.C43_identity",
    "RTA.C43_solution",
    "RTA.C43_exact",
    "RTA.C43_compose",
    "RTA.C43_next_state"
   ],
   "note": "Mean motion nonzero (the code divides by it)."
  },
  {
   "property": "C44",
   "status": "proved",
   "theorems": [
    "RTA.C44_value",
    "RTA.C44_nonneg_iff",
    "RTA.C44_defined_iff",
    "RTA.C44_array"
   ],
   "note": "Exact arithmetic; zero steps raise."
  },
  {
   "property": "C45",
   "status": "proved",
   "theorems": [
    "RTA.C45_chief",
    "RTA.C45_deputy",
    "RTA.C45_max_distance",
    "RTA.C45_defined",
    "RTA.C45_defined_iff",
    "RTA.C45_trajectory",
    "RTA.C45_max_distance_value"
   ],
   "note": "Exact arithmetic; trajectories with right derivatives."
  },
  {
   "property": "C46",
   "status": "partial",
   "theorems": [
    "RTA.C46_available",
    "RTA.C46_refuted_custom_bounds"
   ],
   "note": "True for the default control bounds; false when the user gives tighter bounds, because a_max is computed from a hard-coded thrust (proved)."
  },
  {
   "property": "C47",
   "status": "proved",
   "theorems": [
    "RTA.C47_sign",
    "RTA.C47_distance",
    "RTA.C47_phi"
   ],
   "note": "Exact arithmetic; the code divides 0 by 0 on the cone surface and axis."
  },
  {
   "property": "C48",
   "status": "proved",
   "theorems": [
    "RTA.C48_speed",
    "RTA.C48_complete",
    "RTA.C48_differentiable"
   ],
   "note": "Exact arithmetic."
  },
  {
   "property": "C49",
   "status": "partial",
   "theorems": [
    "RTA.C49_agrees_iff_partial",
    "RTA.C49_refuted"
   ],
   "note": "False: the discrete module turns the sun the opposite way (proved); they agree exactly when the sun does not move (modulo full turns)."
  },
  {
   "property": "C50",
   "status": "partial",
   "theorems": [
    "RTA.C50_agent_state",
    "RTA.C50_each_agent_once",
    "RTA.C50_blocks",
    "RTA.C50_error_source",
    "RTA.C50_intervening_unchanged",
    "RTA.C50_refuted_intervening"
   ],
   "note": "The reordering and the blocks are proved; false: the combined module never reports intervening (proved)."
  },
  {
   "property": "C51",
   "status": "partial",
   "theorems": [
    "RTA.C51_complete_partial",
    "RTA.C51_complete_multi_partial",
    "RTA.C51_no_short_states_partial",
    "RTA.C51_refuted_lasting_effect",
    "RTA.C51_refuted_sequence",
    "RTA.C51_refuted_length"
   ],
   "note": "False: one short state freezes the sun for all later ones, and only six-component short states are completed to the right length (proved)."
  },
  {
   "property": "C52",
   "status": "partial",
   "theorems": [
    "RTA.C52_solvable",
    "RTA.C52_refuted_heavy"
   ],
   "note": "True for every mass up to 1 (the default is 1); false for heavier vehicles, because the constraint ignores the mass (proved)."
  },
  {
   "property": "C53",
   "status": "partial",
   "theorems": [
    "RTA.C53_explicit_exact_partial",
    "RTA.C53_refuted_euler",
    "RTA.C53_refuted_between_samples",
    "RTA.C53_implicit_partial",
    "RTA.C53_refuted_implicit_window"
   ],
   "note": "Explicit filter: true at the sampled times with the exact prediction, false with the Euler prediction and between samples. Implicit filter: true within the window, false for vehicles too fast to stop within it (all proved)."
  },
  {
   "property": "C54",
   "status": "proved",
   "theorems": [
    "RTA.C54_one_step",
    "RTA.C54_record",
    "RTA.C54_lengths",
    "RTA.C54_error_source",
    "RTA.C54_terminates",
    "RTA.C54_duration"
   ],
   "note": "Simulated time in exact arithmetic; hooks that do not raise."
  },
  {
   "property": "C55",
   "status": "proved",
   "theorems": [
    "RTA.C55_initial_safe",
    "RTA.C55_gives_up",
    "RTA.C55_finds"
   ],
   "note": "At most 99 draws; numbers without NaN (see C20)."
  },
  {
   "property": "C56",
   "status": "partial",
   "theorems": [
    "RTA.C56_refuted_docking_latin",
    "RTA.C56_refuted_docking_parametric",
    "RTA.C56_refuted",
    "RTA.C56_rows_partial",
    "RTA.C56_latin_hypercube"
   ],
   "note": "False for every module with constraints of the repository: the constraints are called without params and TypeError is raised (proved). The rows and flags are proved for constraints that accept the call."
  },
  {
   "property": "C57",
   "status": "proved",
   "theorems": [
    "RTA.C57_chief",
    "RTA.C57_deputy"
   ],
   "note": "Exact arithmetic; trajectories with right derivatives."
  },
  {
   "property": "C58",
   "status": "proved",
   "theorems": [
    "RTA.C58_protects",
    "RTA.C58_sun_turns",
    "RTA.C58_inspection"
   ],
   "note": "Positions different from the chief's centre."
  },
  {
   "property": "C59",
   "status": "partial",
   "theorems": [
    "RTA.C59_explicit_independent",
    "RTA.C59_refuted_shared_default"
   ],
   "note": "False for the default deputy module, which all combined modules share (proved); true when the deputy modules are distinct."
  },
  {
   "property": "C60",
   "status": "partial",
   "theorems": [
    "RTA.C60_interior_partial",
    "RTA.C60_refuted_boundary"
   ],
   "note": "True from the interior of the safe set; false from its boundary (proved)."
  },
  {
   "property": "C61",
   "status": "partial",
   "theorems": [
    "RTA.C61_refuted",
    "RTA.C61_indistinct_partial",
    "RTA.C61_asif_partial"
   ],
   "note": "False: modules are not reset between episodes, so a latch carries over (proved). True for modules without memory, among them explicit ASIF modules."
  },
  {
   "property": "C62",
   "status": "proved",
   "theorems": [
    "RTA.C62_parametric",
    "RTA.C62_unknown"
   ],
   "note": ""
  },
  {
   "property": "C63",
   "status": "proved",
   "theorems": [
    "RTA.C63_solvable_2d",
    "RTA.C63_solvable_3d",
    "RTA.C63_default_2d",
    "RTA.C63_default_3d"
   ],
   "note": ""
  },
  {
   "property": "C64",
   "status": "proved",
   "theorems": [
    "RTA.C64_closed_loop_2d",
    "RTA.C64_closed_loop_3d",
    "RTA.C64_documented_limit"
   ],
   "note": ""
  },
  {
   "property": "C65",
   "status": "partial",
   "theorems": [
    "RTA.C65_refuted_2d",
    "RTA.C65_refuted_3d",
    "RTA.C65_settles_2d_partial",
    "RTA.C65_settles_3d_partial"
   ],
   "note": "False: only the velocity is fed back, so for every gain some motions speed up exponentially (proved). What holds: the speed falls to within 3 n^2 m R / kappa while the radial distance stays within R."
  },
  {
   "property": "C66",
   "status": "partial",
   "theorems": [
    "RTA.C66_value",
    "RTA.C66_nonneg_iff",
    "RTA.C66_defined_iff",
    "RTA.C66_refuted_array",
    "RTA.C66_between_samples"
   ],
   "note": "The constraint: proved. False for the trajectory report, which always raises ValueError (proved)."
  },
  {
   "property": "C67",
   "status": "proved",
   "theorems": [
    "RTA.C67_same_backup",
    "RTA.C67_constraint_kept",
    "RTA.C67_current_state_checked",
    "RTA.C67_backup_kept",
    "RTA.C67_backup_kept_inside",
    "RTA.C67_least_checked"
   ],
   "note": "For all dynamics, modules and histories; solvability and exact sensitivities are hypotheses (C38 gives the latter for linear unsaturated closed loops)."
  },
  {
   "property": "C68",
   "status": "partial",
   "theorems": [
    "RTA.C68_solvable_partial",
    "RTA.C68_refuted_sampled",
    "RTA.C68_continuous_partial",
    "RTA.dockIE_jacobian"
   ],
   "note": "Solvability: proved for Euler prediction. The loop is safe in continuous time (proved); false when the control is held over the step (counterexample)."
  },
  {
   "property": "C69",
   "status": "partial",
   "theorems": [
    "RTA.C69_max_distance_partial",
    "RTA.C69_refuted_sideways"
   ],
   "note": "False with sideways motion (counterexample: an ellipse). What holds: as long as the distance itself is accelerated inward by a_max and the centre is not met, the maximum distance is kept."
  },
  {
   "property": "C70",
   "status": "proved",
   "theorems": [
    "RTA.C70_closed_loop",
    "RTA.C70_documented_limits",
    "RTA.C70_default",
    "RTA.insp_init",
    "RTA.insp_init_ok",
    "RTA.insp_module",
    "RTA.insp_inside_iff"
   ],
   "note": "For every configuration with positive radius and a_max; solvability of the program is a hypothesis unless the module raises; the line through chief and sun is excluded (the code is NaN there)."
  },
  {
   "property": "C71",
   "status": "proved",
   "theorems": [
    "RTA.C71_rest",
    "RTA.C71_moves",
    "RTA.C71_inspection",
    "RTA.C71_inspection_hocbf"
   ],
   "note": "For all dynamics, modules and histories."
  },
  {
   "property": "C72",
   "status": "partial",
   "theorems": [
    "RTA.C72_closed_loop",
    "RTA.C72_documented_limits",
    "RTA.C72_default",
    "RTA.C72_passive_partial",
    "RTA.C72_passive_refuted",
    "RTA.multi_init",
    "RTA.multi_init_ok",
    "RTA.multi_module",
    "RTA.fleet_inside_iff"
   ],
   "note": "Closed loop proved for every fleet and configuration away from the chief-sun line and from the planes perpendicular to the sun direction (there the code is NaN or jumps, see C73); solvability is a hypothesis unless the module raises. False for the documented collision distance when the chief is smaller than the deputies (counterexample)."
  },
  {
   "property": "C73",
   "status": "partial",
   "theorems": [
    "RTA.C73_side_partial",
    "RTA.C73_jump_refuted"
   ],
   "note": "Differentiable on either side of the plane perpendicular to the sun; jumps on it (counterexample)."
  },
  {
   "property": "C74",
   "status": "partial",
   "theorems": [
    "RTA.C74_own_partial",
    "RTA.C74_pairs_refuted",
    "RTA.combined_agents",
    "RTA.combined_unchanged",
    "RTA.deputy_inside_iff"
   ],
   "note": "Constraints that concern one deputy are kept for every fleet although all thrust. False for constraints between two deputies: both thrust at each other, each allowed because the other is assumed to coast (counterexample with the default configuration)."
  },
  {
   "property": "C75",
   "status": "proved",
   "theorems": [
    "RTA.C75_closed_loop",
    "RTA.C75_value",
    "RTA.C75_wrapped_strengthener_unused"
   ],
   "note": "With use_hocbf=True the 1v1 inspection module keeps all limits along trajectories."
  },
  {
   "property": "C76",
   "status": "proved",
   "theorems": [
    "RTA.C76_explicit_returned",
    "RTA.C76_explicit_returned_noslack",
    "RTA.C76_implicit_returned",
    "RTA.C76_explicit_closed_loop",
    "RTA.C76_implicit_closed_loop",
    "RTA.C76_default_returns_inadmissible"
   ],
   "note": "With solver_exception=True whatever comes back is admissible and closest; closed loops need no solvability."
  },
  {
   "property": "C77",
   "status": "proved",
   "theorems": [
    "RTA.C77_closed_loop_2d",
    "RTA.C77_closed_loop_3d",
    "RTA.C77_rest",
    "RTA.dock2I_module",
    "RTA.dock3I_module"
   ],
   "note": "For any backup controller, window, Jacobian and integrator."
  },
  {
   "property": "C78",
   "status": "partial",
   "theorems": [
    "RTA.C78_read_1d",
    "RTA.C78_read_2d",
    "RTA.C78_read_3d",
    "RTA.C78_read_inspection",
    "RTA.C78_names_2d",
    "RTA.C78_names_3d",
    "RTA.C78_names_inspection",
    "RTA.C78_refuted_write",
    "RTA.C78_refuted_short",
    "RTA.C78_refuted_input",
    "RTA.C78_empty"
   ],
   "note": "Reading complete vectors is right and fits the dynamics. False for writing (always TypeError), for short vectors (last component returned) and for wrappers as input (AssertionError)."
  },
  {
   "property": "C79",
   "status": "partial",
   "theorems": [
    "RTA.C79_samples_partial",
    "RTA.C79_axis_limits",
    "RTA.C79_one_step",
    "RTA.C79_sun",
    "RTA.C79_coast",
    "RTA.C79_distance",
    "RTA.C79_collision",
    "RTA.C79_refuted_crossing",
    "RTA.C79_refuted_inside",
    "RTA.C79_refuted_psm",
    "RTA.C79_six",
    "RTA.C79_refuted_six"
   ],
   "note": "Velocity, speed, distance and collision constraints hold at every sample for step sizes small enough for the strengtheners (StepOK; up to 4 s for the defaults), the sun constraint for such steps as long as it has a value (C79_sun), passive safety for steps of about a millisecond (C79_coast), any single constraint by C79_one_step. False between samples and for long steps, and for states without sun angle."
  },
  {
   "property": "C80",
   "status": "partial",
   "theorems": [
    "RTA.C80_total",
    "RTA.C80_unlatched",
    "RTA.C80_closed_loop_partial",
    "RTA.C80_nmt_coast",
    "RTA.C80_refuted_latched_ignores_constraints",
    "RTA.C80_refuted_latched_for_ever",
    "RTA.C80_refuted_collision",
    "RTA.C80_refuted_six",
    "RTA.C80_sun_rate"
   ],
   "note": "Holds until the limiter switches. False afterwards (collision with all constraints positive at the start of the episode) and for six-component states."
  },
  {
   "property": "C81",
   "status": "proved",
   "theorems": [
    "RTA.C81_no_solution",
    "RTA.C81_other_weights",
    "RTA.C81_no_gains"
   ],
   "note": ""
  },
  {
   "property": "C82",
   "status": "proved",
   "theorems": [
    "RTA.C82_unique_2d",
    "RTA.C82_unique_3d",
    "RTA.C82_work_2d",
    "RTA.C82_work_3d",
    "RTA.C82_settles_2d",
    "RTA.C82_settles_3d",
    "RTA.C82_grows_2d",
    "RTA.C82_grows_3d"
   ],
   "note": "The grows theorems record the limit of the settling theorems: the speed does not go to zero."
  },
  {
   "property": "C83",
   "status": "proved",
   "theorems": [
    "RTA.C83_explicit_2d",
    "RTA.C83_explicit_3d",
    "RTA.C83_implicit_2d",
    "RTA.C83_implicit_3d",
    "RTA.C83_exact_2d",
    "RTA.C83_exact_3d",
    "RTA.C83_horizon_explicit_2d",
    "RTA.C83_horizon_explicit_3d",
    "RTA.C83_horizon_implicit_2d",
    "RTA.C83_horizon_implicit_3d",
    "RTA.C83_refuted_far",
    "RTA.C83_latch_2d",
    "RTA.C83_latch_3d",
    "RTA.C83_window_2d",
    "RTA.C83_window_3d",
    "RTA.C18_explicit_closed_loop_safe_upto",
    "RTA.C18_explicit_closed_loop_safe_on",
    "RTA.C18_implicit_closed_loop_safe_upto",
    "RTA.C18_implicit_closed_loop_safe_on"
   ],
   "note": "The property names its region; outside of it C83_refuted_far shows a failure."
  },
  {
   "property": "C84",
   "status": "proved",
   "theorems": [
    "RTA.C84_one_hold",
    "RTA.C84_sampled_barrier",
    "RTA.C84_docking_2d",
    "RTA.C84_docking_3d",
    "RTA.C84_refuted_one_second"
   ],
   "note": "The property includes the failure with one-second steps."
  },
  {
   "property": "C85",
   "status": "proved",
   "theorems": [
    "RTA.C85_explicit_simplex",
    "RTA.C85_implicit_simplex",
    "RTA.C85_explicit_asif",
    "RTA.C85_implicit_asif",
    "RTA.C85_discrete_asif",
    "RTA.C85_params_enabled"
   ],
   "note": "Every kind of module."
  },
  {
   "property": "C86",
   "status": "partial",
   "theorems": [
    "RTA.C86_uncompiled_simplex_partial",
    "RTA.C86_uncompiled_implicit_simplex_partial",
    "RTA.C86_uncompiled_asif_partial",
    "RTA.C86_uncompiled_implicit_asif_partial",
    "RTA.C86_reset_controller_partial",
    "RTA.C86_refuted_controller",
    "RTA.C86_refuted_hocbf",
    "RTA.C86_frozen_controller",
    "RTA.C86_frozen_hocbf",
    "RTA.C86_refuted_bias",
    "RTA.C86_refuted_discrete",
    "RTA.C86_frozen_simplex",
    "RTA.C86_frozen_asif",
    "RTA.C86_frozen_discrete"
   ],
   "note": "False as stated for compiled modules and compiled backup controllers, and for discrete ASIF modules and the constraints inside a HOCBFConstraint also with jit_enable=False; the frozen theorems say what happens instead."
  },
  {
   "property": "C87",
   "status": "partial",
   "theorems": [
    "RTA.C87_uncompiled_controller_partial",
    "RTA.C87_refuted_explicit",
    "RTA.C87_refuted_implicit"
   ],
   "note": "False as stated with the default compilation; holds for controllers that are not compiled."
  },
  {
   "property": "C88",
   "status": "partial",
   "theorems": [
    "RTA.C88_respected_asif",
    "RTA.C88_respected_discrete",
    "RTA.C88_simplex",
    "RTA.C88_asif_clips",
    "RTA.C88_asif_tightened_partial",
    "RTA.C88_discrete_clips",
    "RTA.C88_refuted_loosened",
    "RTA.C88_refuted_tightened",
    "RTA.C88_refuted_discrete"
   ],
   "note": "False as stated for optimisation based modules: their problem keeps the bounds of construction and the answer is only clipped. Bounds are respected, simplex modules adapt, and the exact answer is characterised."
  },
  {
   "property": "C89",
   "status": "partial",
   "theorems": [
    "RTA.C89_table",
    "RTA.C89_bad_bounds",
    "RTA.C89_starts",
    "RTA.C89_covers_partial",
    "RTA.C89_runs_out",
    "RTA.C89_refuted"
   ],
   "note": "False as stated for multiplier > 1: the first n_points safe rows of a larger stratified table are used. Proved: the table is in the box and stratified, the starts are rows of it, coverage for multiplier 1, and exactly when the rows run out."
  },
  {
   "property": "C90",
   "status": "partial",
   "theorems": [
    "RTA.C90_dock3",
    "RTA.C90_explicit_agrees",
    "RTA.C90_implicit_agrees",
    "RTA.C90_dock2_partial",
    "RTA.C90_default_options",
    "RTA.C90_refuted_explicit",
    "RTA.C90_refuted_implicit"
   ],
   "note": "False for the 2-D docking modules, whose prediction cannot be traced. Proved for the 3-D ones and for every prediction that can be traced, and for the 2-D ones while neither option is on."
  },
  {
   "property": "C91",
   "status": "partial",
   "theorems": [
    "RTA.C91_first_state",
    "RTA.C91_uncompiled",
    "RTA.C91_inspection",
    "RTA.C91_multi",
    "RTA.C91_same_kind_partial",
    "RTA.C91_multi_same_kind_partial",
    "RTA.C91_refuted"
   ],
   "note": "False as stated: with compiled methods the kind of the first state fixes the sun rate for all later calls. Proved: exactly what compiled and uncompiled modules compute, and agreement if the first state is short or none is."
  },
  {
   "property": "C92",
   "status": "proved",
   "theorems": [
    "RTA.C92_firm",
    "RTA.C92_nonexpansive",
    "RTA.C92_idempotent",
    "RTA.C92_implicit_firm",
    "RTA.C92_implicit_nonexpansive"
   ],
   "note": "Firm non-expansiveness of the answer in the desired control, for every module after every history, with slack and in the fallback; idempotence without slack."
  },
  {
   "property": "C93",
   "status": "partial",
   "theorems": [
    "RTA.C93_more_constraints_partial",
    "RTA.C93_order",
    "RTA.C93_implicit_more_constraints",
    "RTA.C93_implicit_order",
    "RTA.C93_simplex",
    "RTA.C93_implicit_simplex",
    "RTA.C93_discrete_more_constraints_partial",
    "RTA.C93_discrete_order",
    "RTA.C93_discrete_order_answers",
    "RTA.C93_refuted_slack",
    "RTA.C93_refuted_discrete_order"
   ],
   "note": "False as stated when slack is used: an additional soft constraint can bring the answer closer to the desired control. Proved without slack, for implicit, discrete-time and switching modules, and for reordering (also with slack; for discrete-time modules the answers reach the same cost, but where two controls are equally close the order may decide, refuted with an exact solver)."
  },
  {
   "property": "C94",
   "status": "partial",
   "theorems": [
    "RTA.C94_error_bound_partial",
    "RTA.C94_first_order_partial",
    "RTA.C94_refuted"
   ],
   "note": "False as stated: the module takes the Jacobian where each step ends. Proved: the derivative exists and the sensitivity is within an explicit first-order distance of it."
  },
  {
   "property": "C95",
   "status": "partial",
   "theorems": [
    "RTA.C95_continuous_partial",
    "RTA.C95_strengthening",
    "RTA.C95_refuted_bias",
    "RTA.C95_refuted_slater"
   ],
   "note": "False as stated: the default bias_negative makes the strengthening term jump, and admissible sets without strictly admissible controls can collapse. Proved: continuity everywhere else."
  },
  {
   "property": "C96",
   "status": "partial",
   "theorems": [
    "RTA.C96_shared_iff",
    "RTA.C96_dictionary",
    "RTA.C96_disabled",
    "RTA.C96_disabled_values",
    "RTA.C96_default",
    "RTA.C96_defaults_partial",
    "RTA.C96_refuted_defaults",
    "RTA.C96_answers_partial",
    "RTA.C96_refuted_shared"
   ],
   "note": "False as stated: implicit ASIF modules write an option into the caller's dictionary and their documented defaults are wrong. Proved: exactly when sharing changes what is compiled, and that answers are unaffected while only params and enabled flags change."
  },
  {
   "property": "C97",
   "status": "partial",
   "theorems": [
    "RTA.C97_stateless_partial",
    "RTA.C97_silent_partial",
    "RTA.C97_refuted_call",
    "RTA.C97_refuted_reset"
   ],
   "note": "False for controllers with internal state. Proved for controllers without, and for companions that do not intervene."
  },
  {
   "property": "C98",
   "status": "proved",
   "theorems": [
    "RTA.C98_exact",
    "RTA.C98_relaxed",
    "RTA.C98_conditions",
    "RTA.C98_returns",
    "RTA.C98_interference",
    "RTA.C98_distance",
    "RTA.C98_loop",
    "RTA.C98_bias",
    "RTA.C98_bias_needed"
   ],
   "note": "explicit ASIF modules with a solver that meets inequalities up to e and minimises up to d: bounds exact, barrier conditions up to e(1+influence), admissible desired controls changed by at most sqrt(2d), explicit bound on the distance from the exact answer, and exact invariance when bias_negative makes up for e; without bias_negative invariance fails for every e > 0"
  },
  {
   "property": "C99",
   "status": "partial",
   "theorems": [
    "RTA.C99_explicit_partial",
    "RTA.C99_slack_descends_partial",
    "RTA.C99_refuted_slack",
    "RTA.C99_implicit",
    "RTA.C99_discrete",
    "RTA.C99_simplex_partial",
    "RTA.C99_implicit_simplex_partial",
    "RTA.C99_refuted_bounds",
    "RTA.C99_refuted_stateful",
    "RTA.C99_cascade_distinct",
    "RTA.C99_cascade_repeat",
    "RTA.C99_cascade_explicit",
    "RTA.C99_refuted_latch"
   ],
   "note": "false as stated: slack variables, requests beyond the bounds, backup controllers with an internal state and latch times (refuted). Proved for explicit ASIF without slack, implicit ASIF, discrete ASIF without slack, simplex modules with requests within bounds and stateless controllers, and single calls of cascades of modules that accept their own answers"
  }
 ]
}