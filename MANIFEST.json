{
 "claims": [
  {
   "property": "C01",
   "status": "proved",
   "theorems": [
    "Ormatex.Props.C01_history_window",
    "Ormatex.Props.C01_order_zero_refused"
   ],
   "note": "Base class history window, for every operation sequence."
  },
  {
   "property": "C02",
   "status": "proved",
   "theorems": [
    "Ormatex.Props.C02_reset_fresh_rb",
    "Ormatex.Props.C02_reset_fresh_rk",
    "Ormatex.Props.C02_reset_fresh_split"
   ],
   "note": "Observational equivalence with a fresh integrator over every later call sequence."
  },
  {
   "property": "C03",
   "status": "partial",
   "theorems": [
    "Ormatex.Props.C03_trial_pure_rb",
    "Ormatex.Props.C03_trial_pure_rk",
    "Ormatex.Props.C03_trial_history_split",
    "Ormatex.Props.C03_trial_pure_split",
    "Ormatex.Props.C03_trial_pure_split_matrix_free",
    "Ormatex.Props.C03_negation_dense"
   ],
   "note": "FALSE in the code for the dense split integrators with a state-dependent L (negation proved with a concrete system); proved for every other case (dense methods: phi routine that returns, as the package's does; steps that raise or are interrupted: C114)."
  },
  {
   "property": "C04",
   "status": "proved",
   "theorems": [
    "Ormatex.Props.C04_leja_state",
    "Ormatex.Props.C04_reset_keeps_heuristics"
   ],
   "note": ""
  },
  {
   "property": "C05",
   "status": "partial",
   "theorems": [
    "Ormatex.Props.C05_state_accessor_returns_none",
    "Ormatex.Props.C05_negation",
    "Ormatex.Props.C05_newest_state_partial"
   ],
   "note": "FALSE in the code: the `state` accessor never returns the state. Negation proved; the true part is about the deque itself."
  },
  {
   "property": "C06",
   "status": "proved",
   "theorems": [
    "Ormatex.Props.C06_trajectory",
    "Ormatex.Props.C06_families",
    "Ormatex.Props.C06_error"
   ],
   "note": ""
  },
  {
   "property": "C07",
   "status": "proved",
   "theorems": [
    "Ormatex.Props.C07_callbacks"
   ],
   "note": ""
  },
  {
   "property": "C40",
   "status": "proved",
   "theorems": [
    "Ormatex.Props.C40_epi3_startup",
    "Ormatex.Props.C40_epi3_history"
   ],
   "note": ""
  },
  {
   "property": "C41",
   "status": "proved",
   "theorems": [
    "Ormatex.Props.C41_history",
    "Ormatex.Props.C41_cache_transparent",
    "Ormatex.Props.C41_stale_operator"
   ],
   "note": "C41_history: every history, every (also state-dependent) operator; the phi routine is assumed to return for orders <= 3, as the package's does (realKernels_phiTotal), and dense() of the operator to return; steps that raise: C114."
  },
  {
   "property": "C48",
   "status": "proved",
   "theorems": [
    "Ormatex.Props.C48_substeps",
    "Ormatex.Props.C48_error",
    "Ormatex.Props.C48_exact"
   ],
   "note": ""
  },
  {
   "property": "C08",
   "status": "proved",
   "theorems": [
    "Ormatex.Props.C08_dispatch"
   ],
   "note": ""
  },
  {
   "property": "C09",
   "status": "proved",
   "theorems": [
    "Ormatex.Props.C09_construct_rb",
    "Ormatex.Props.C09_construct_others",
    "Ormatex.Props.C09_step_implemented"
   ],
   "note": ""
  },
  {
   "property": "C10",
   "status": "partial",
   "theorems": [
    "Ormatex.Props.C10_negation",
    "Ormatex.Props.C10_callbacks_partial",
    "Ormatex.Props.C10_real_kernels",
    "Ormatex.Props.C10_leja_no_type_error"
   ],
   "note": "FALSE in the code for rk4 (TypeError, proved for every system); proved for the Rosenbrock and splitting families, and no TypeError for Leja."
  },
  {
   "property": "C11",
   "status": "partial",
   "theorems": [
    "Ormatex.Props.C11_negation",
    "Ormatex.Props.C11_one_stage_partial",
    "Ormatex.Props.C11_leja_partial",
    "Ormatex.Props.C11_scope"
   ],
   "note": "FALSE in the code for exprb3, pexprb4, epi3, dense and splitting methods (witness and exact extent proved); proved for the one-stage methods."
  },
  {
   "property": "C12",
   "status": "partial",
   "theorems": [
    "Ormatex.Props.C12_negation",
    "Ormatex.Props.C12_window_partial"
   ],
   "note": "FALSE in the code for t0 != 0 (tf = dt*nsteps); proved for t0 = 0 and only then."
  },
  {
   "property": "C13",
   "status": "proved",
   "theorems": [
    "Ormatex.Props.C13_matvec_dense",
    "Ormatex.Props.C13_values",
    "Ormatex.Props.C13_square_only"
   ],
   "note": ""
  },
  {
   "property": "C14",
   "status": "proved",
   "theorems": [
    "Ormatex.Props.C14_block",
    "Ormatex.Props.C14_refused"
   ],
   "note": "p >= 1 in the code (v[-0:] is the whole vector); sizes enforced by types."
  },
  {
   "property": "C15",
   "status": "proved",
   "theorems": [
    "Ormatex.Props.C15_affine",
    "Ormatex.Props.C15_quadratic",
    "Ormatex.Props.C15_tendsto",
    "Ormatex.Props.C15_zero_base",
    "Ormatex.Props.C15_fdt"
   ],
   "note": ""
  },
  {
   "property": "C16",
   "status": "proved",
   "theorems": [
    "Ormatex.Props.C16_custom",
    "Ormatex.Props.C16_tendsto"
   ],
   "note": ""
  },
  {
   "property": "C17",
   "status": "proved",
   "theorems": [
    "Ormatex.Props.C17_autodiff",
    "Ormatex.Props.C17_affine"
   ],
   "note": "jax.linearize modelled by the Frechet derivative."
  },
  {
   "property": "C42",
   "status": "proved",
   "theorems": [
    "Ormatex.Props.C42_schedule_independent",
    "Ormatex.Props.C42_terminates"
   ],
   "note": ""
  },
  {
   "property": "C18",
   "status": "proved",
   "theorems": [
    "Ormatex.Props.C18_phi_inverse",
    "Ormatex.Props.C18_hyps_met",
    "Ormatex.Props.C18_error_estimate"
   ],
   "note": "Exact real arithmetic; expm and the QR solve are parameters assumed exact."
  },
  {
   "property": "C19",
   "status": "proved",
   "theorems": [
    "Ormatex.Props.C19_ext_all",
    "Ormatex.Props.C19_ext"
   ],
   "note": ""
  },
  {
   "property": "C20",
   "status": "proved",
   "theorems": [
    "Ormatex.Props.C20_poly_all"
   ],
   "note": ""
  },
  {
   "property": "C21",
   "status": "proved",
   "theorems": [
    "Ormatex.Props.C21_pass",
    "Ormatex.Props.C21_double",
    "Ormatex.Props.C21_squarings"
   ],
   "note": ""
  },
  {
   "property": "C22",
   "status": "proved",
   "theorems": [
    "Ormatex.Props.C22_scaling",
    "Ormatex.Props.C22_accuracy",
    "Ormatex.Props.C22_accuracy_all"
   ],
   "note": "Exact real arithmetic: truncation error only, no rounding. Bound also for the orders 1..3."
  },
  {
   "property": "C23",
   "status": "proved",
   "theorems": [
    "Ormatex.Props.C23_appl",
    "Ormatex.Props.C23_appl_code"
   ],
   "note": "Exact for an exact exponential; with the code's own approximate kernel the stated error bound."
  },
  {
   "property": "C24",
   "status": "proved",
   "theorems": [
    "Ormatex.Props.C24_value",
    "Ormatex.Props.C24_recurrence",
    "Ormatex.Props.C24_implicit_euler",
    "Ormatex.Props.C24_crank_nicolson"
   ],
   "note": ""
  },
  {
   "property": "C25",
   "status": "proved",
   "theorems": [
    "Ormatex.Props.C25_validate",
    "Ormatex.Props.C25_validate_appl",
    "Ormatex.Props.C25_sq_orders"
   ],
   "note": ""
  },
  {
   "property": "C26",
   "status": "proved",
   "theorems": [
    "Ormatex.Props.C26_arnoldi_relation"
   ],
   "note": ""
  },
  {
   "property": "C27",
   "status": "proved",
   "theorems": [
    "Ormatex.Props.C27_incomplete",
    "Ormatex.Props.C27_full"
   ],
   "note": "Incomplete depth iom orthogonalises against iom+1 previous vectors."
  },
  {
   "property": "C28",
   "status": "proved",
   "theorems": [
    "Ormatex.Props.C28_termination"
   ],
   "note": ""
  },
  {
   "property": "C29",
   "status": "proved",
   "theorems": [
    "Ormatex.Props.C29_happy_breakdown",
    "Ormatex.Props.C29_matexp",
    "Ormatex.Props.C29_full_space"
   ],
   "note": "Given an exact dense kernel."
  },
  {
   "property": "C30",
   "status": "proved",
   "theorems": [
    "Ormatex.Props.C30_degenerate",
    "Ormatex.Props.C30_scaling",
    "Ormatex.Props.C30_sign"
   ],
   "note": ""
  },
  {
   "property": "C31",
   "status": "proved",
   "theorems": [
    "Ormatex.Props.C31_kiops",
    "Ormatex.Props.C31_kiops_krylov",
    "Ormatex.Props.C31_degenerate",
    "Ormatex.Props.C31_code"
   ],
   "note": "C31_code bounds the error of kiops run with the package's own dense kernel."
  },
  {
   "property": "C65",
   "status": "proved",
   "theorems": [
    "Ormatex.Props.C65_polynomial",
    "Ormatex.Props.C65_error_bound",
    "Ormatex.Props.C65_residual_bound",
    "Ormatex.Props.C65_full_dimension",
    "Ormatex.Props.C65_code",
    "Ormatex.Props.C65_code_full",
    "Ormatex.Props.C65_apriori"
   ],
   "note": "The dense kernel's error is the parameter epsilon; C65_code, C65_code_full and C65_apriori discharge it for the package's own Pade kernel."
  },
  {
   "property": "C33",
   "status": "proved",
   "theorems": [
    "Ormatex.Props.C33_affine",
    "Ormatex.Props.C33_homogeneous"
   ],
   "note": "Exact phi kernels are a hypothesis (Spec.ExactKernels, met by exactKernels_exact). exp_pfd/exp_pfd_rs are linear propagators, exact for y'=Ay only."
  },
  {
   "property": "C34",
   "status": "proved",
   "theorems": [
    "Ormatex.Props.C34_step",
    "Ormatex.Props.C34_dropped"
   ],
   "note": ""
  },
  {
   "property": "C35",
   "status": "proved",
   "theorems": [
    "Ormatex.Props.C35_split"
   ],
   "note": "exp2/exp3 also with linear-in-time forcing."
  },
  {
   "property": "C36",
   "status": "proved",
   "theorems": [
    "Ormatex.Props.C36_run",
    "Ormatex.Props.C36_run_split"
   ],
   "note": "With or without callbacks."
  },
  {
   "property": "C32",
   "status": "proved",
   "theorems": [
    "Ormatex.Props.C32_rb_step",
    "Ormatex.Props.C32_split_step",
    "Ormatex.Props.C32_rk_step",
    "Ormatex.Props.C32_leja_step",
    "Ormatex.Props.C32_run",
    "Ormatex.Props.C32_propagator_excluded"
   ],
   "note": "Package kernels, no accuracy assumption. exp_pfd and exp_pfd_rs are excluded (shown necessary)."
  },
  {
   "property": "C39",
   "status": "proved",
   "theorems": [
    "Ormatex.Props.C39_stability",
    "Ormatex.Props.C39_quadrature"
   ],
   "note": ""
  },
  {
   "property": "C37",
   "status": "proved",
   "theorems": [
    "Ormatex.Props.C37_order2",
    "Ormatex.Props.C37_order34",
    "Ormatex.Props.C37_epi3",
    "Ormatex.Props.C37_epi3_unequal",
    "Ormatex.Props.C37_epi3_unequal_sharp",
    "Ormatex.Props.C37_exp_pfd_inconsistent"
   ],
   "note": "Exact phi kernels and exact Jacobian (autodiff one qualifies) as hypotheses. epi3 keeps order 3 only for equal consecutive steps (order 2 otherwise, shown sharp); exp_pfd is not a consistent method for inhomogeneous systems."
  },
  {
   "property": "C38",
   "status": "proved",
   "theorems": [
    "Ormatex.Props.C38_order"
   ],
   "note": "Any linear part; dense and non-dense variants."
  },
  {
   "property": "C66",
   "status": "proved",
   "theorems": [
    "Ormatex.Props.C66_rk4_order4"
   ],
   "note": ""
  },
  {
   "property": "C43",
   "status": "proved",
   "theorems": [
    "Ormatex.Props.C43_interpolates",
    "Ormatex.Props.C43_prefix"
   ],
   "note": ""
  },
  {
   "property": "C44",
   "status": "proved",
   "theorems": [
    "Ormatex.Props.C44_annihilated",
    "Ormatex.Props.C44_interpolates",
    "Ormatex.Props.C44_eq_recursive",
    "Ormatex.Props.C44_prefix"
   ],
   "note": "jax.scipy.linalg.expm is the exact matrix exponential in the model."
  },
  {
   "property": "C45",
   "status": "proved",
   "theorems": [
    "Ormatex.Props.C45_bookkeeping",
    "Ormatex.Props.C45_scaled_small",
    "Ormatex.Props.C45_expm_taylor",
    "Ormatex.Props.C45_expm_taylor_scale_counterexample",
    "Ormatex.Props.C45_computed",
    "Ormatex.Props.C45_accuracy"
   ],
   "note": ""
  },
  {
   "property": "C46",
   "status": "proved",
   "theorems": [
    "Ormatex.Props.C46_newton",
    "Ormatex.Props.C46_estimate",
    "Ormatex.Props.C46_converged",
    "Ormatex.Props.C46_not_converged",
    "Ormatex.Props.C46_exact"
   ],
   "note": ""
  },
  {
   "property": "C47",
   "status": "proved",
   "theorems": [
    "Ormatex.Props.C47_newton",
    "Ormatex.Props.C47_estimate",
    "Ormatex.Props.C47_coeffs_real",
    "Ormatex.Props.C47_exact"
   ],
   "note": ""
  },
  {
   "property": "C54",
   "status": "proved",
   "theorems": [
    "Ormatex.Props.C54_pad"
   ],
   "note": ""
  },
  {
   "property": "C49",
   "status": "proved",
   "theorems": [
    "Ormatex.Props.C49_circle",
    "Ormatex.Props.C49_leja"
   ],
   "note": "numpy's complex square root is the principal one."
  },
  {
   "property": "C50",
   "status": "proved",
   "theorems": [
    "Ormatex.Props.C50_ellipse",
    "Ormatex.Props.C50_accepts",
    "Ormatex.Props.C50_rejects",
    "Ormatex.Props.C50_empty_box_accepted"
   ],
   "note": ""
  },
  {
   "property": "C51",
   "status": "proved",
   "theorems": [
    "Ormatex.Props.C51_fast",
    "Ormatex.Props.C51_greedy",
    "Ormatex.Props.C51_blind_interval"
   ],
   "note": ""
  },
  {
   "property": "C52",
   "status": "proved",
   "theorems": [
    "Ormatex.Props.C52_reorder",
    "Ormatex.Props.C52_second"
   ],
   "note": ""
  },
  {
   "property": "C53",
   "status": "proved",
   "theorems": [
    "Ormatex.Props.C53_interval",
    "Ormatex.Props.C53_power",
    "Ormatex.Props.C53_eigenvector",
    "Ormatex.Props.C53_zero_iter"
   ],
   "note": ""
  },
  {
   "property": "C55",
   "status": "proved",
   "theorems": [
    "Ormatex.Props.C55_entries",
    "Ormatex.Props.C55_column_sum",
    "Ormatex.Props.C55_refusal",
    "Ormatex.Props.C55_transmute"
   ],
   "note": ""
  },
  {
   "property": "C56",
   "status": "proved",
   "theorems": [
    "Ormatex.Props.C56_positive",
    "Ormatex.Props.C56_total",
    "Ormatex.Props.C56_bateman",
    "Ormatex.Props.C56_run",
    "Ormatex.Props.C56_total_real"
   ],
   "note": "Positivity with exact phi kernels; conservation of the total also with the package's approximate kernels."
  },
  {
   "property": "C57",
   "status": "proved",
   "theorems": [
    "Ormatex.Props.C57",
    "Ormatex.Props.C57_exp",
    "Ormatex.Props.C57_offchain_ignored"
   ],
   "note": "The code checks only the subdiagonal against the diagonal; off-chain entries are not checked (C57_offchain_ignored)."
  },
  {
   "property": "C67",
   "status": "proved",
   "theorems": [
    "Ormatex.Props.C67_rb_step",
    "Ormatex.Props.C67_split_step",
    "Ormatex.Props.C67_rk_step",
    "Ormatex.Props.C67_leja_step",
    "Ormatex.Props.C67_run",
    "Ormatex.Props.C67_conservation",
    "Ormatex.Props.C67_frozen"
   ],
   "note": "Package kernels, no accuracy assumption; exp_pfd(_rs) excluded; the compiled Rust kernel is a hypothesis."
  },
  {
   "property": "C58",
   "status": "proved",
   "theorems": [
    "Ormatex.Props.C58_nonlin_direction",
    "Ormatex.Props.C58_bubble_direction",
    "Ormatex.Props.C58_other_terms",
    "Ormatex.Props.C58_xe",
    "Ormatex.Props.C58_same_index",
    "Ormatex.Props.C58_two_species",
    "Ormatex.Props.C58_nine_species",
    "Ormatex.Props.C58_quasipositive",
    "Ormatex.Props.C58_tank",
    "Ormatex.Props.C58_neutron"
   ],
   "note": "srcf_xe_av with i_a = i_g is not conservative (C58_same_index); bubble rates for nonnegative gas content only."
  },
  {
   "property": "C59",
   "status": "proved",
   "theorems": [
    "Ormatex.Props.C59_position",
    "Ormatex.Props.C59_round_trip",
    "Ormatex.Props.C59_refusal",
    "Ormatex.Props.C59_kron",
    "Ormatex.Props.C59_radL"
   ],
   "note": ""
  },
  {
   "property": "C60",
   "status": "proved",
   "theorems": [
    "Ormatex.Props.C60_rhs",
    "Ormatex.Props.C60_sem_frozen",
    "Ormatex.Props.C60_rad_frozen",
    "Ormatex.Props.C60_affine",
    "Ormatex.Props.C60_operator",
    "Ormatex.Props.C60_rb_exact",
    "Ormatex.Props.C60_split_exact"
   ],
   "note": "Finite-element assembly is third-party: that enforce leaves diagonal rows at the Dirichlet points is the hypothesis Enforced. exp_pfd(_rs) excluded; the compiled Rust kernel is a hypothesis."
  },
  {
   "property": "C61",
   "status": "proved",
   "theorems": [
    "Ormatex.Props.C61_nearest",
    "Ormatex.Props.C61_metric",
    "Ormatex.Props.C61_translate",
    "Ormatex.Props.C61_local"
   ],
   "note": ""
  },
  {
   "property": "C62",
   "status": "proved",
   "theorems": [
    "Ormatex.Props.C62_sizes",
    "Ormatex.Props.C62_exact",
    "Ormatex.Props.C62_sharp"
   ],
   "note": ""
  },
  {
   "property": "C63",
   "status": "proved",
   "theorems": [
    "Ormatex.Props.C63_hunt",
    "Ormatex.Props.C63_autonomous",
    "Ormatex.Props.C63_nonautonomous"
   ],
   "note": ""
  },
  {
   "property": "C64",
   "status": "partial",
   "theorems": [
    "Ormatex.Props.C64_partial",
    "Ormatex.Props.C64_false",
    "Ormatex.Props.C64_empty"
   ],
   "note": "False as stated (C64_false): the cache is keyed by the number of points only. C64_partial gives the exact condition under which the call is right."
  },
  {
   "property": "C68",
   "status": "proved",
   "theorems": [
    "Ormatex.Props.C68_newest_bdf",
    "Ormatex.Props.C68_newest_rk",
    "Ormatex.Props.C68_newest_epirk",
    "Ormatex.Props.C68_reset_bdf",
    "Ormatex.Props.C68_reset_rk",
    "Ormatex.Props.C68_reset_epirk"
   ],
   "note": ""
  },
  {
   "property": "C69",
   "status": "proved",
   "theorems": [
    "Ormatex.Props.C69_output",
    "Ormatex.Props.C69_count",
    "Ormatex.Props.C69_osteps_zero",
    "Ormatex.Props.C69_failed_step",
    "Ormatex.Props.C69_integrate_wrapper"
   ],
   "note": ""
  },
  {
   "property": "C74",
   "status": "partial",
   "theorems": [
    "Ormatex.Props.C74_tol_partial",
    "Ormatex.Props.C74_tol_fdt_ignored"
   ],
   "note": "False as stated (C74_tol_fdt_ignored): the wrapper reads the keyword tol instead."
  },
  {
   "property": "C70",
   "status": "partial",
   "theorems": [
    "Ormatex.Props.C70_run_partial",
    "Ormatex.Props.C70_bdf2_formula",
    "Ormatex.Props.C70_false"
   ],
   "note": "False as stated (C70_false): the two-step formula is used for the second step only, every later step is backward Euler. C70_run_partial gives the exact sequence on affine systems."
  },
  {
   "property": "C71",
   "status": "partial",
   "theorems": [
    "Ormatex.Props.C71_times_partial",
    "Ormatex.Props.C71_false"
   ],
   "note": "False as stated (C71_false): the steps evaluate the right-hand side at t+2dt. C71_times_partial gives the exact dependence."
  },
  {
   "property": "C72",
   "status": "partial",
   "theorems": [
    "Ormatex.Props.C72_newton_result_partial",
    "Ormatex.Props.C72_newton_gives_up_partial",
    "Ormatex.Props.C72_false"
   ],
   "note": "False as stated (C72_false): the stopping test compares norms of iterates without an absolute value, so any norm increase counts as convergence."
  },
  {
   "property": "C73",
   "status": "proved",
   "theorems": [
    "Ormatex.Props.C73_backward_euler",
    "Ormatex.Props.C73_crank_nicolson",
    "Ormatex.Props.C73_invariant",
    "Ormatex.Props.C73_run"
   ],
   "note": "Inner GMRES assumed exact (ExactGmres, satisfied by exactGmres_exact)."
  },
  {
   "property": "C77",
   "status": "partial",
   "theorems": [
    "Ormatex.Props.C77_autonomous_partial",
    "Ormatex.Props.C77_consistent_partial",
    "Ormatex.Props.C77_false"
   ],
   "note": "False as stated for non-autonomous systems (C77_false)."
  },
  {
   "property": "C78",
   "status": "proved",
   "theorems": [
    "Ormatex.Props.C78_agree",
    "Ormatex.Props.C78_zero"
   ],
   "note": ""
  },
  {
   "property": "C79",
   "status": "proved",
   "theorems": [
    "Ormatex.Props.C79_phi",
    "Ormatex.Props.C79_exp",
    "Ormatex.Props.C79_kiops",
    "Ormatex.Props.C79_full",
    "Ormatex.Props.C79_scalar"
   ],
   "note": ""
  },
  {
   "property": "C81",
   "status": "proved",
   "theorems": [
    "Ormatex.Props.C81_phi_ext",
    "Ormatex.Props.C81_phi"
   ],
   "note": ""
  },
  {
   "property": "C84",
   "status": "partial",
   "theorems": [
    "Ormatex.Props.C84_triple_partial",
    "Ormatex.Props.C84_order_one",
    "Ormatex.Props.C84_false"
   ],
   "note": "True for k=1 (C84_order_one), false for every other order (C84_false); C84_triple_partial gives the exact value for every k."
  },
  {
   "property": "C80",
   "status": "proved",
   "theorems": [
    "Ormatex.Props.C80_tables",
    "Ormatex.Props.C80_pade_order",
    "Ormatex.Props.C80_perturbation",
    "Ormatex.Props.C80_perturbation_comm",
    "Ormatex.Props.C80_power",
    "Ormatex.Props.C80_accuracy",
    "Ormatex.Props.C80_accuracy_sharp",
    "Ormatex.Props.C80_nilpotent",
    "Ormatex.Props.C80_inverse",
    "Ormatex.Props.C80_phi_ext"
   ],
   "note": "Exact arithmetic; the QR solve is multiplication by the inverse. The denominators are proved nonsingular for every matrix."
  },
  {
   "property": "C75",
   "status": "proved",
   "theorems": [
    "Ormatex.Props.C75_order2",
    "Ormatex.Props.C75_exprb3",
    "Ormatex.Props.C75_epi3",
    "Ormatex.Props.C75_forced_step",
    "Ormatex.Props.C75_run"
   ],
   "note": "With exact products (equal to those of Python). At a state where a product is taken of the zero vector the crate returns NaN: see C76."
  },
  {
   "property": "C76",
   "status": "partial",
   "theorems": [
    "Ormatex.Props.C76_epi3_partial",
    "Ormatex.Props.C76_false",
    "Ormatex.Props.C76_exprb3_affine_fails"
   ],
   "note": "False as stated: the Krylov start vector is divided by its zero norm, so at an equilibrium the step has no finite result (C76_false), and exprb3_rs fails on every affine system. C76_epi3_partial: with a kernel exact at zero it holds."
  },
  {
   "property": "C82",
   "status": "proved",
   "theorems": [
    "Ormatex.Props.C82_schedule",
    "Ormatex.Props.C82_value",
    "Ormatex.Props.C82_exp"
   ],
   "note": ""
  },
  {
   "property": "C83",
   "status": "partial",
   "theorems": [
    "Ormatex.Props.C83_partial",
    "Ormatex.Props.C83_false"
   ],
   "note": "False for order 1 whenever dt != 1 (the result is dt*phi_1(dt a)): C83_false. C83_partial gives the exact value of every order."
  },
  {
   "property": "C85",
   "status": "partial",
   "theorems": [
    "Ormatex.Props.C85_partial",
    "Ormatex.Props.C85_false"
   ],
   "note": "False: the cache is keyed by the 1-norm of the point and ignores the time (C85_false); C85_partial is the class of histories on which it holds."
  },
  {
   "property": "C86",
   "status": "proved",
   "theorems": [
    "Ormatex.Props.C86_shifted",
    "Ormatex.Props.C86_fd_history",
    "Ormatex.Props.C86_fd_error",
    "Ormatex.Props.C86_fd_affine",
    "Ormatex.Props.C86_extended",
    "Ormatex.Props.C86_extended_refused"
   ],
   "note": ""
  },
  {
   "property": "C87",
   "status": "proved",
   "theorems": [
    "Ormatex.Props.C87_available",
    "Ormatex.Props.C87_solvable",
    "Ormatex.Props.realSpectrum_symm",
    "Ormatex.Props.realSpectrum_lower"
   ],
   "note": ""
  },
  {
   "property": "C88",
   "status": "proved",
   "theorems": [
    "Ormatex.Props.C88_nodes"
   ],
   "note": ""
  },
  {
   "property": "C89",
   "status": "proved",
   "theorems": [
    "Ormatex.Props.C89_newton",
    "Ormatex.Props.C89_exact"
   ],
   "note": ""
  },
  {
   "property": "C90",
   "status": "partial",
   "theorems": [
    "Ormatex.Props.C90_partial",
    "Ormatex.Props.C90_false",
    "Ormatex.Props.C90_small",
    "Ormatex.Props.C90_large"
   ],
   "note": "False: the estimate uses a signed coefficient, C90_false (generator's own nodes, exact coefficients, a rotation; error above 1 flagged as converged at every tolerance below 100). C90_partial holds for nonnegative odd coefficients and tol*|u| < 100; C90_small and C90_large are the two ranges of |u| in which no term is ever added."
  },
  {
   "property": "C91",
   "status": "proved",
   "theorems": [
    "Ormatex.Props.C91_rosenbrock",
    "Ormatex.Props.C91_epi3",
    "Ormatex.Props.C91_split",
    "Ormatex.Props.C91_rk4"
   ],
   "note": "With exact phi kernels, exact derivatives, exact arithmetic. exp_pfd(_rs) are excluded: C37_exp_pfd_inconsistent shows they do not converge for inhomogeneous systems."
  },
  {
   "property": "C92",
   "status": "partial",
   "theorems": [
    "Ormatex.Props.C92_ts_phi_partial",
    "Ormatex.Props.C92_table",
    "Ormatex.Props.C92_first_entry",
    "Ormatex.Props.C92_false"
   ],
   "note": "False as stated: entry 0 is exp(h z_0) whatever k (C92_first_entry, C92_false). C92_ts_phi_partial: every other entry, and entry 0 for k = 0, has the stated accuracy; C92_table gives every entry of the table in closed form."
  },
  {
   "property": "C93",
   "status": "partial",
   "theorems": [
    "Ormatex.Props.C93_substep_partial",
    "Ormatex.Props.C93_first_entry",
    "Ormatex.Props.C93_false"
   ],
   "note": "False as stated for non-integer scale (C93_false). C93_substep_partial: integer scales."
  },
  {
   "property": "C94",
   "status": "partial",
   "theorems": [
    "Ormatex.Props.C94_ts_ss_partial",
    "Ormatex.Props.C94_first_entry",
    "Ormatex.Props.C94_false"
   ],
   "note": "False as stated: the step argument is ignored and entry 0 is the exponential for every order (C94_false). C94_ts_ss_partial: order 0, h = 1."
  },
  {
   "property": "C95",
   "status": "proved",
   "theorems": [
    "Ormatex.Props.C95_dd_phi"
   ],
   "note": "Exact arithmetic; the divided differences are those of phi_l at the points h(shift + scale x_i)."
  },
  {
   "property": "C96",
   "status": "proved",
   "theorems": [
    "Ormatex.Props.C96_real",
    "Ormatex.Props.C96_complex"
   ],
   "note": "Exact divided differences, exact arithmetic."
  },
  {
   "property": "C97",
   "status": "proved",
   "theorems": [
    "Ormatex.Props.C97_re",
    "Ormatex.Props.C97_im2",
    "Ormatex.Props.C97_im3"
   ],
   "note": "The accuracy of each substep evaluation is a hypothesis (GoodEval), supplied by C96, C98 or C46/C89."
  },
  {
   "property": "C98",
   "status": "partial",
   "theorems": [
    "Ormatex.Props.C98_symmetric_partial",
    "Ormatex.Props.C98_tolerance_false",
    "Ormatex.Props.C98_complex_false"
   ],
   "note": "False in general: for every tolerance there is an operator with nodes on the prescribed interval for which convergence is reported with an arbitrarily large error (C98_tolerance_false). For conjugate pairs the flag can be set at the first check whatever tol is, even for a 1x1 operator inside the node box: the estimate is a geometric mean and the first half of a pair may vanish (C98_complex_false). C98_symmetric_partial: symmetric operators with spectrum in the node interval."
  },
  {
   "property": "C99",
   "status": "proved",
   "theorems": [
    "Ormatex.Props.C99_accuracy",
    "Ormatex.Props.C99_symmetric"
   ],
   "note": "The table literals are taken as exact decimals. The scalar bounds are certified by a checker proved correct in Props/PfdPoly.lean, evaluated by the kernel on the literal tables (Props/PfdCertA-C)."
  },
  {
   "property": "C100",
   "status": "proved",
   "theorems": [
    "Ormatex.Props.C100_exp_pfd",
    "Ormatex.Props.C100_exp_pfd_symmetric",
    "Ormatex.Props.C100_exprb2_pfd",
    "Ormatex.Props.C100_exprb2_pfd_symmetric"
   ],
   "note": ""
  },
  {
   "property": "C101",
   "status": "partial",
   "theorems": [
    "Ormatex.Props.C101_covers",
    "Ormatex.Props.C101_zero_operator_partial",
    "Ormatex.Props.C101_inconsistent",
    "Ormatex.Props.C101_inconsistent_phi1",
    "Ormatex.Props.C101_pade_16_16_run",
    "Ormatex.Props.C24_dict"
   ],
   "note": "False for nine tables (C101_inconsistent); the exact deviation of every table is bounded by C101_zero_operator_partial."
  },
  {
   "property": "C102",
   "status": "proved",
   "theorems": [
    "Ormatex.Props.C102_same_table",
    "Ormatex.Props.C102_accuracy",
    "Ormatex.Props.C102_symmetric"
   ],
   "note": ""
  },
  {
   "property": "C103",
   "status": "proved",
   "theorems": [
    "Ormatex.Props.C103_rosenbrock",
    "Ormatex.Props.C103_split",
    "Ormatex.Props.C103_epi3"
   ],
   "note": "Exact arithmetic outside the kernels; the Jacobian is exact. approxFor_exact and shiftKernels_approx show that exact and genuinely inexact kernels meet the hypothesis; C104 shows it for the package's own dense kernel."
  },
  {
   "property": "C104",
   "status": "proved",
   "theorems": [
    "Ormatex.Props.C104_exprb2_dense",
    "Ormatex.Props.C104_split_dense"
   ],
   "note": "Exact arithmetic."
  },
  {
   "property": "C105",
   "status": "proved",
   "theorems": [
    "Ormatex.Props.C105_rosenbrock",
    "Ormatex.Props.C105_split",
    "Ormatex.Props.C105_kiops",
    "Ormatex.Props.C105_epi3",
    "Ormatex.Props.C105_rosenbrock_iom",
    "Ormatex.Props.C105_split_iom"
   ],
   "note": "Exact arithmetic. For exprb2, exprb3, exp1-3 expm is arbitrary: these methods only call orders k >= 1, which do not use it. The methods that call kiops_fixedsteps (epi2, epi3, pexprb4) apply the library's expm to the projected augmented matrix; it is assumed exact there. The _iom theorems cover incomplete orthogonalisation of any depth for exprb2, exprb3 and exp1-3 (constants depend on the depth; at least p unknowns); for the kiops methods orthogonalisation is full."
  },
  {
   "property": "C106",
   "status": "proved",
   "theorems": [
    "Ormatex.Props.C106_rk",
    "Ormatex.Props.C106_implicit",
    "Ormatex.Props.C106_exp2",
    "Ormatex.Props.C106_epi3"
   ],
   "note": "Exact arithmetic; the linear solver solves nonsingular systems (implicit methods) and the phi products are exact on nonzero vectors (exponential methods). exprb3 is left out: its step fails whenever its remainder vanishes (C76)."
  },
  {
   "property": "C107",
   "status": "proved",
   "theorems": [
    "Ormatex.Props.C107_arnoldi",
    "Ormatex.Props.C107_phi",
    "Ormatex.Props.C107_exp",
    "Ormatex.Props.C107_kiops",
    "Ormatex.Props.C107_python"
   ],
   "note": "Exact arithmetic. The breakdown tolerance of the crate enters the bound as an explicit term."
  },
  {
   "property": "C108",
   "status": "proved",
   "theorems": [
    "Ormatex.Props.C108_dense_to_sprs",
    "Ormatex.Props.C108_sparse_ident",
    "Ormatex.Props.C108_arnoldi_lo",
    "Ormatex.Props.C108_arnoldi_lo_refuses",
    "Ormatex.Props.C108_arnoldi",
    "Ormatex.Props.C108_arnoldi_too_long"
   ],
   "note": "Exact arithmetic; a sparse matrix is modelled by the matrix it stands for."
  },
  {
   "property": "C109",
   "status": "proved",
   "theorems": [
    "Ormatex.Props.C109_kern",
    "Ormatex.Props.C109_bdf_step",
    "Ormatex.Props.C109_rk_step",
    "Ormatex.Props.C109_epirk_step",
    "Ormatex.Props.C109_run",
    "Ormatex.Props.C109_rk_run",
    "Ormatex.Props.C109_conservation",
    "Ormatex.Props.C109_fd_jac"
   ],
   "note": "The linear solver of the implicit methods is any solver that stays in the subspace (as Krylov solvers with a zero guess do); richardson_keeps and exact_keeps give two."
  },
  {
   "property": "C110",
   "status": "proved",
   "theorems": [
    "Ormatex.Props.C110_lv_jac",
    "Ormatex.Props.C110_fd_affine",
    "Ormatex.Props.C110_fd_lv",
    "Ormatex.Props.C110_fd_quad",
    "Ormatex.Props.C110_bateman",
    "Ormatex.Props.C110_bateman_run",
    "Ormatex.Props.C110_robertson",
    "Ormatex.Props.C110_robertson_run"
   ],
   "note": "C110_bateman_run assumes exact phi-vector products."
  },
  {
   "property": "C111",
   "status": "proved",
   "theorems": [
    "Ormatex.Props.C111_dense",
    "Ormatex.Props.C111_phi",
    "Ormatex.Props.C111_approx",
    "Ormatex.Props.C111_converge",
    "Ormatex.Props.C111_epi3_approx",
    "Ormatex.Props.C111_epi3"
   ],
   "note": "Exact arithmetic. The breakdown tolerance 1e-12 of the crate enters the bound as an explicit term. C80_accuracy_sharp supplies the dense kernel bound, which is small with the sixth power of the matrix."
  },
  {
   "property": "C112",
   "status": "partial",
   "theorems": [
    "Ormatex.Props.C112_result_partial",
    "Ormatex.Props.C112_one_component",
    "Ormatex.Props.C112_no_step_false",
    "Ormatex.Props.C112_no_step_scalar",
    "Ormatex.Props.C112_ignored_options",
    "Ormatex.Props.C112_no_module",
    "Ormatex.Props.C112_converge"
   ],
   "note": "False for nsteps = 0 (C112_no_step_false, C112_no_step_scalar) and for one-component systems (C112_one_component); callbacks and tol_fdt are ignored (C112_ignored_options). C112_result_partial covers n >= 2 components and at least one step."
  },
  {
   "property": "C113",
   "status": "partial",
   "theorems": [
    "Ormatex.Props.C113_exp_cram",
    "Ormatex.Props.C113_exprb2_cram_partial",
    "Ormatex.Props.C113_stiff_false",
    "Ormatex.Props.C113_exp_pade"
   ],
   "note": "False for exprb2_pfd_rs on components with dt d_i <= -2e16, which double every step (C113_stiff_false); C113_exprb2_cram_partial shows the growth factor per step is 1 + 1e-15 + 2.2e-16 dt |d_i|."
  },
  {
   "property": "C114",
   "status": "partial",
   "theorems": [
    "Ormatex.Props.C114_complete",
    "Ormatex.Props.C114_step_frame",
    "Ormatex.Props.C114_reset_recovers",
    "Ormatex.Props.C114_reset_retry",
    "Ormatex.Props.C114_step_retry",
    "Ormatex.Props.C114_new_size",
    "Ormatex.Props.C114_one_size",
    "Ormatex.Props.C114_leja_sane",
    "Ormatex.Props.C114_accept_retry",
    "Ormatex.Props.C114_dense_false",
    "Ormatex.Props.C114_accept_false"
   ],
   "note": "Every clause but the last is proved for every crash point. The last is FALSE in the code: C114_dense_false (dense splitting, an interrupted step of another size silently corrupts the next step or makes it raise KeyError; true if the size is new, C114_new_size, or always the same, C114_one_size) and C114_accept_false (accept_step is not atomic and cannot be repeated after its second write)."
  },
  {
   "property": "C115",
   "status": "partial",
   "theorems": [
    "Ormatex.Props.C115_in_range_partial",
    "Ormatex.Props.C115_reversed",
    "Ormatex.Props.C115_false"
   ],
   "note": "FALSE in the code from norm 2^27 (32-bit integers, JAX's default) or 2^59 (64-bit): C115_reversed (the phi functions of -z are returned), C115_false (a step of exprb2_dense makes a decaying solution explode). C115_in_range_partial: below those norms the model with exact powers, on which C20-C22 and C104 rest, is the code. Exponents of w and more are reported as errors in the model."
  },
  {
   "property": "C116",
   "status": "proved",
   "theorems": [
    "Ormatex.Props.converged_error",
    "Ormatex.Props.C116_step_re",
    "Ormatex.Props.C116_converge_re",
    "Ormatex.Props.eval_converges",
    "Ormatex.Props.C116_returns_re",
    "Ormatex.Props.C116_complete_re",
    "Ormatex.Props.C116_step_im2",
    "Ormatex.Props.C116_step_im3",
    "Ormatex.Props.C116_converge_im2",
    "Ormatex.Props.C116_complete_im2",
    "Ormatex.Props.C116_converge_im3",
    "Ormatex.Props.C116_complete_im3",
    "Ormatex.Props.C116_returns_im"
   ],
   "note": "Exact arithmetic; accuracy of the divided-difference coefficients is a hypothesis (LejaAccurate), proved for the routines in C41-C43 and C95."
  },
  {
   "property": "C117",
   "status": "proved",
   "theorems": [
    "Ormatex.Props.C117_rk4",
    "Ormatex.Props.rk4_fl_error",
    "Ormatex.Props.clock_drift",
    "Ormatex.Props.rkStepperFl_exact",
    "Ormatex.Props.binFl_accurate",
    "Ormatex.Props.C117_demo",
    "Ormatex.Props.C117_stalled"
   ],
   "note": "The model of rk4 with every operation rounded (Model/Rounded.lean), which is the real-number model when the operations are exact (rkStepperFl_exact). Rounding is the standard model with underflow and a range; binary floating point with any precision is an instance. The other integrators are modelled over the reals only."
  },
  {
   "property": "C118",
   "status": "proved",
   "theorems": [
    "Ormatex.Props.semQuad_iff",
    "Ormatex.Props.C118_weak",
    "Ormatex.Props.C118_constant",
    "Ormatex.Props.C118_conserve",
    "Ormatex.Props.C118_energy",
    "Ormatex.Props.C118_couplings",
    "Ormatex.Props.C118_maximum",
    "Ormatex.Props.C118_runs",
    "Ormatex.Props.C118_mass_pos",
    "Ormatex.Props.C118_negative_mass",
    "Ormatex.Props.C118_demo"
   ],
   "note": "skfem's assembly loop, shape functions, enforce and dof numbering are modelled from their documentation (any numbering). C118_runs assumes exact kernels, C118_conserve does not. C118_negative_mass: the condition on tau cannot be dropped. A zero velocity anywhere gives nan in the code (tau/(2 vel) is evaluated even for tau = 0): the model returns no system."
  },
  {
   "property": "C119",
   "status": "proved",
   "theorems": [
    "Ormatex.Props.C119_positive",
    "Ormatex.Props.C119_exists",
    "Ormatex.Props.C119_two",
    "Ormatex.Props.C119_three",
    "Ormatex.Props.C119_nine",
    "Ormatex.Props.C119_tank",
    "Ormatex.Props.C119_tank_exists",
    "Ormatex.Props.C119_well_posed",
    "Ormatex.Props.C119_shipped",
    "Ormatex.Props.C119_conserve",
    "Ormatex.Props.C119_total",
    "Ormatex.Props.C119_separable",
    "Ormatex.Props.C119_benchmark",
    "Ormatex.Props.C119_negative",
    "Ormatex.Props.C119_shipped_negative"
   ],
   "note": "C119_shipped and C118_demo show the hypotheses are met. C119_shipped_negative: with the parameters rad_1d_2s ships the bound fails and concentrations do become negative. A negative gas volume (nan in the code) is never reached by a solution. C119_benchmark assumes exact kernels; C119_conserve does not."
  },
  {
   "property": "C120",
   "status": "proved",
   "theorems": [
    "Ormatex.Props.C120_rosenbrock",
    "Ormatex.Props.C120_epi3",
    "Ormatex.Props.C120_split",
    "Ormatex.Props.C120_rk4",
    "Ormatex.Props.C120_rad",
    "Ormatex.Props.C120_shipped",
    "Ormatex.Props.C120_tank",
    "Ormatex.Props.kink_ivp",
    "Ormatex.Props.kink_tame"
   ],
   "note": "First order only, and that is all that can hold for such data. The examples: a right-hand side whose kink the solution crosses with a constant wrong Jacobian (kinkSys), and the shipped two-species system on a periodic mesh. ApproxFor is met by exact kernels and by the package's own (C104, C105)."
  },
  {
   "property": "C121",
   "status": "proved",
   "theorems": [
    "Ormatex.Props.C121_newton",
    "Ormatex.Props.C121_robust",
    "Ormatex.Props.C121_cn",
    "Ormatex.Props.C121_cn_first_order",
    "Ormatex.Props.kinkRs_tame"
   ],
   "note": "The linear solver (faer_gmres) is a parameter with the specification GmresTo; exact solvers meet it with eta = 0 and gmresTo_scaled shows an inexact one. The Jacobian operator must act as a matrix: the finite-difference operator of the crate is one only for affine right-hand sides (C86). Crank-Nicolson is not of order two for time-dependent systems because it evaluates at t + dt and t + 2 dt (C71)."
  },
  {
   "property": "C122",
   "status": "proved",
   "theorems": [
    "Ormatex.Props.rs_robust",
    "Ormatex.Props.C122_rk",
    "Ormatex.Props.C122_exp",
    "Ormatex.Props.padeKrylov_phis",
    "Ormatex.Props.kiops_small",
    "Ormatex.Props.padeKrylov_kiops",
    "Ormatex.Props.kiops_dim1",
    "Ormatex.Props.C122_binding",
    "Ormatex.Props.kinkRs_fdt",
    "Ormatex.Props.kinkRs_ne"
   ],
   "note": "exprb3 is covered for the runs that return: it divides by zero when the remainder vanishes (C76). The difference quotient in time must stay bounded (or the tolerance be negative); autonomous systems meet that (tameFdt_auto). epi3 needs at least two Krylov vectors: with krylov_dim = 1 its kiops product is the zero vector (kiops_dim1)."
  },
  {
   "property": "C123",
   "status": "proved",
   "theorems": [
    "Ormatex.Props.lanczos_full",
    "Ormatex.Props.C123_lanczos",
    "Ormatex.Props.C123_python",
    "Ormatex.Props.C123_python_exp",
    "Ormatex.Props.C123_option",
    "Ormatex.Props.C123_cram",
    "Ormatex.Props.phi_residual"
   ],
   "note": "Exact arithmetic: with rounding the Lanczos vectors lose orthogonality. For the Python phi products with l >= 1 the bound of C107 stands. depth 0 is excluded: nothing is orthogonalised against the column before."
  },
  {
   "property": "C124",
   "status": "proved",
   "theorems": [
    "Ormatex.Props.C124_run",
    "Ormatex.Props.C124_binding",
    "Ormatex.Props.cram_seq",
    "Ormatex.Props.exp_lower"
   ],
   "note": "Runs at or passing exactly through an equilibrium panic in the crate (C76); hence 'every call that returns', plus a sufficient condition for returning."
  },
  {
   "property": "C125",
   "status": "proved",
   "theorems": [
    "Ormatex.Props.C125_accuracy",
    "Ormatex.Props.C125_symmetric",
    "Ormatex.Props.C125_products",
    "Ormatex.Props.C125_binding",
    "Ormatex.Props.genParabolic_24",
    "Ormatex.Props.par_scalar"
   ],
   "note": "Order 24, the only one the binding selects; other orders of gen_parabolic_expm are not bounded."
  },
  {
   "property": "C126",
   "status": "proved",
   "theorems": [
    "Ormatex.Props.C126_backward_euler",
    "Ormatex.Props.C126_crank_nicolson",
    "Ormatex.Props.C126_negative",
    "Ormatex.Props.kinetics_solve",
    "Ormatex.Props.bateman_kinetics",
    "Ormatex.Props.chain3_kinetics"
   ],
   "note": "Exact linear solver; C126_negative shows that cn with a large step and bdf2 leave the nonnegative states on y' = -y."
  },
  {
   "property": "C127",
   "status": "proved",
   "theorems": [
    "Ormatex.Props.C127_accuracy",
    "Ormatex.Props.C127_symmetric",
    "Ormatex.Props.C127_exp_pfd",
    "Ormatex.Props.C127_exprb2_pfd",
    "Ormatex.Props.pade_rows",
    "Ormatex.Props.damp_rows"
   ],
   "note": "The bounds on [-1, 0] are stated per table (padeBounds); the tables with equal degrees do not damp (they tend to 1 in modulus) and are covered on [-1, 0] only. Tables IE, CN and the numbered ones: C101."
  },
  {
   "property": "C128",
   "status": "partial",
   "theorems": [
    "Ormatex.Props.C128_inside",
    "Ormatex.Props.C128_covers_partial",
    "Ormatex.Props.C128_default",
    "Ormatex.Props.C128_false"
   ],
   "note": "Unconditional covering is FALSE in the code: C128_false (for every safety factor and iteration limit an operator diag(-L,-1) and a start vector without zero component on which the iteration stops after two passes at the wrong eigenvalue); with the default factor 1 the extremal eigenvalue is reached only from an exact eigenvector (C128_default). C128_covers_partial: the a-posteriori condition on the reported iteration count. The augmented operators of phi products are not symmetric and not covered."
  },
  {
   "property": "C129",
   "status": "partial",
   "theorems": [
    "Ormatex.Props.C129_rosenbrock_partial",
    "Ormatex.Props.C129_rk",
    "Ormatex.Props.C129_split_partial",
    "Ormatex.Props.C129_rust_partial",
    "Ormatex.Props.C129_epi3_false",
    "Ormatex.Props.C129_split_dense_false",
    "Ormatex.Props.C129_bdf2_false"
   ],
   "note": "FALSE in the code for epi3 (C129_epi3_false), bdf2 (C129_bdf2_false) and the dense splitting methods with a state-dependent linear part (C129_split_dense_false, the stale cache of C41). Exact real arithmetic; ExpLeja (adaptive state) is not covered; the Rust statement is for osteps = 1."
  },
  {
   "property": "C130",
   "status": "proved",
   "theorems": [
    "Ormatex.Props.C130_inexact",
    "Ormatex.Props.C130_contractive",
    "Ormatex.Props.newton_inexact",
    "Ormatex.Props.newton_returns",
    "Ormatex.Props.sloppy_residual"
   ],
   "note": "Assumes the residual contract of the external crate faer_gmres (Spec/RsInexact.lean), at most 1000 unknowns (its iteration limit in the code) and dt |A y0 + b| (1+2e-8)^N <= 1e300 (range of a double); otherwise exact real arithmetic. bdf2 is covered by C138."
  },
  {
   "property": "C131",
   "status": "proved",
   "theorems": [
    "Ormatex.Props.C131_error",
    "Ormatex.Props.imp_defect",
    "Ormatex.Props.imp_global",
    "Ormatex.Props.dissipative_flow"
   ],
   "note": "Assumptions as in C130 (residual contract of faer_gmres, at most 1000 unknowns, range of a double); exact real arithmetic otherwise."
  },
  {
   "property": "C132",
   "status": "proved",
   "theorems": [
    "Ormatex.Props.C132_order1",
    "Ormatex.Props.C132_order2",
    "Ormatex.Props.stage1_err",
    "Ormatex.Props.exp2_err",
    "Ormatex.Props.exp3_err",
    "Ormatex.Props.exp3_stab"
   ],
   "note": "Exact phi evaluators (ExactKernels) and exact real arithmetic; a constant linear part. Order three of exp3 is not claimed here: with constants that do not depend on L the method has stiff order two; its classical order is C91."
  },
  {
   "property": "C133",
   "status": "proved",
   "theorems": [
    "Ormatex.Props.C133_error",
    "Ormatex.Props.C133_rust",
    "Ormatex.Props.rosEuler_err"
   ],
   "note": "Exact phi evaluators and exact derivatives, exact real arithmetic. The Lipschitz-type constants are required for all states (a global statement)."
  },
  {
   "property": "C134",
   "status": "proved",
   "theorems": [
    "Ormatex.Props.C134_error",
    "Ormatex.Props.rb3_err",
    "Ormatex.Props.phiCurve3_deriv"
   ],
   "note": "Exact phi evaluators and exact derivatives, exact real arithmetic; the constants are required for all states."
  },
  {
   "property": "C135",
   "status": "proved",
   "theorems": [
    "Ormatex.Props.C135_rosenbrock",
    "Ormatex.Props.C135_split",
    "Ormatex.Props.C135_rk4",
    "Ormatex.Props.rbMap_intertwine",
    "Ormatex.Props.split_intertwine",
    "Ormatex.Props.phi_pull"
   ],
   "note": "Exact phi evaluators and exact derivatives, exact real arithmetic; differentiable systems for the Rosenbrock methods."
  },
  {
   "property": "C136",
   "status": "proved",
   "theorems": [
    "Ormatex.Props.C136_error",
    "Ormatex.Props.rb4_err",
    "Ormatex.Props.stage_err",
    "Ormatex.Props.linRem_err"
   ],
   "note": "Exact phi evaluators and exact derivatives, exact real arithmetic; the constants are required for all states."
  },
  {
   "property": "C137",
   "status": "proved",
   "theorems": [
    "Ormatex.Props.C137_error",
    "Ormatex.Props.C137_contractive",
    "Ormatex.Props.monotone_run",
    "Ormatex.Props.newton_monotone",
    "Ormatex.Props.implicit_stable",
    "Ormatex.Props.implicit_speed",
    "Ormatex.Props.tanh_solution"
   ],
   "note": "Assumes the residual contract of the external crate faer_gmres, at most 1000 unknowns (its iteration limit in the code) and dt (1+2q)^N |f(y0)| <= 1e20 (the iteration limit of Newton is 100); otherwise exact real arithmetic. Autonomous systems (see C71)."
  },
  {
   "property": "C138",
   "status": "proved",
   "theorems": [
    "Ormatex.Props.C138_error",
    "Ormatex.Props.C138_stable",
    "Ormatex.Props.bdf2_run",
    "Ormatex.Props.bdf2_step",
    "Ormatex.Props.bdf2_speed"
   ],
   "note": "Assumptions as in C137, with dt (1+2q)^(N+2) |f(y0)| <= 1e20. The order is one: only the second step uses the two-step formula (C70)."
  },
  {
   "property": "C139",
   "status": "proved",
   "theorems": [
    "Ormatex.Props.C139_error",
    "Ormatex.Props.C139_stable",
    "Ormatex.Props.cn_run",
    "Ormatex.Props.newton_quad",
    "Ormatex.Props.cayley_monotone",
    "Ormatex.Props.trapezoid_speed",
    "Ormatex.Props.trapezoid_defect",
    "Ormatex.Props.tanh_quad",
    "Ormatex.Props.tanh_acceleration"
   ],
   "note": "Assumptions as in C137, autonomous systems (for others cn evaluates the right side at the wrong time, C71); the bound on the separation of two runs starts from |(y0 - z0) - dt/2 (f(y0) - f(z0))|, which is not bounded by |y0 - z0| for stiff systems."
  },
  {
   "property": "C140",
   "status": "proved",
   "theorems": [
    "Ormatex.Props.C140_turned",
    "Ormatex.Props.outLoop_turn",
    "Ormatex.Props.epirk_turn",
    "Ormatex.Props.bdf_turn",
    "Ormatex.Props.newton_turn"
   ],
   "note": "Exact real arithmetic (in floating point only signed permutations commute with the rounded operations up to the order of the sums). TurnedGmres is the assumption that the external linear solver commutes with the coordinate change; it is not used for the exponential methods."
  },
  {
   "property": "C141",
   "status": "proved",
   "theorems": [
    "Ormatex.Props.C141_units",
    "Ormatex.Props.arnoldi_scale",
    "Ormatex.Props.phi_scale"
   ],
   "note": "Exact real arithmetic (in floating point a power of two without overflow). The relation of the two systems is required of the vector field and of the Jacobians as matrices. The implicit methods are excluded because the Newton tolerance is absolute, epi3 because its augmented operator mixes the state with auxiliary components of fixed size, so both do depend on the units in the code. Example: a second-order reaction with its rate constant converted."
  },
  {
   "property": "C142",
   "status": "proved",
   "theorems": [
    "Ormatex.Props.C142_rosenbrock",
    "Ormatex.Props.C142_split",
    "Ormatex.Props.kiops_units",
    "Ormatex.Props.Turn.phiLinop_turn",
    "Ormatex.Props.phiLinop_scale",
    "Ormatex.Props.phiLinop_units"
   ],
   "note": "Exact real arithmetic. The dense exponential of the small Hessenberg matrices is a parameter (any function). The Jacobians and linear operators are required to act as matrices. In the Rosenbrock theorem the tolerance for small time derivatives is disabled or the time derivative vanishes, because it is an absolute bound in the code.  kiops_fixedsteps divides its vectors by the largest norm, so epi2, epi3 and pexprb4 are covered too. Example: a second-order reaction with its rate constant converted."
  },
  {
   "property": "C143",
   "status": "proved",
   "theorems": [
    "Ormatex.Props.C143_affine",
    "Ormatex.Props.rkRun_aff",
    "Ormatex.Props.rkStep_aff"
   ],
   "note": "Exact real arithmetic. No assumption on the systems besides the relation of the vector fields; it also holds with the wrong stage times of the code (C77) and for orders the constructor rejects (both panic). Examples: Celsius and Fahrenheit with a shifted clock; a lumping."
  }
 ]
}