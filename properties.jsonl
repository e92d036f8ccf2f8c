{"id": "C01", "title": "History window of an integrator", "statement": "After any sequence of accept_step / reset_ic calls on an integrator of order p, the state and time histories hold exactly the most recent min(p, 1 + accepts since the last reset) accepted (t, y) pairs, newest first and in lockstep, and the reported current time is the newest accepted time.", "quantifier": "every order p >= 1, every initial condition, every finite sequence of accept_step and reset_ic calls with arbitrary step results", "why_tests_cant": "the claim is about every call history; tests run a handful of fixed-length integrations and never interleave resets", "anchors": ["ormatex_py/ode_sys.py:IntegrateSys.__init__", "ormatex_py/ode_sys.py:IntegrateSys.accept_step", "ormatex_py/ode_sys.py:IntegrateSys.reset_ic"]}
{"id": "C02", "title": "reset_ic equals a fresh integrator", "statement": "After reset_ic(t0, y0) an integrator behaves, for every later sequence of step/accept calls, exactly like a newly constructed one with that initial condition, whatever happened before (exponential Rosenbrock, splitting incl. the dense phi cache, RK).", "quantifier": "every prior history, every later sequence of step sizes and accepted results", "why_tests_cant": "requires quantifying over all prior histories and all continuations", "anchors": ["ormatex_py/ode_sys.py:IntegrateSys.reset_ic", "ormatex_py/ode_exp.py:ExpRBIntegrator.reset_ic", "ormatex_py/ode_exp.py:ExpSplitIntegrator.reset_ic"]}
{"id": "C03", "title": "Trial steps have no observable effect", "statement": "Calling step(dt) without accept_step leaves time and history unchanged, and calling it again (any number of times, interleaved with other trial step sizes) returns the same StepResult, so a rejected step can be retried.", "quantifier": "every integrator state, every finite list of trial step sizes", "why_tests_cant": "unbounded interleavings of trial steps; the dense cache makes this history-dependent", "anchors": ["ormatex_py/ode_exp.py:ExpRBIntegrator.step", "ormatex_py/ode_exp.py:ExpSplitIntegrator._update_dense_phiLs", "ormatex_py/ode_explicit.py:RKIntegrator.step"]}
{"id": "C04", "title": "Leja integrator heuristic state stays sane", "statement": "Over any history of Leja steps the remembered substep size stays in (0, 1], step never changes time or history, and the step counter counts completed steps; unlike the other families, reset_ic does not restore the heuristic state.", "quantifier": "every sequence of Leja steps and resets with arbitrary convergence outcomes", "why_tests_cant": "depends on the whole history of convergence outcomes", "anchors": ["ormatex_py/ode_exp.py:ExpLejaIntegrator._step_epi_re", "ormatex_py/ode_exp.py:ExpLejaIntegrator._step_epi_im"]}
{"id": "C05", "title": "state accessor returns the current state", "statement": "The `state` property of an integrator returns the newest accepted state.", "quantifier": "every integrator state", "why_tests_cant": "a property over all states; nobody tests the accessor (and it is false of the code: the return statement is missing)", "anchors": ["ormatex_py/ode_sys.py:IntegrateSys.state"]}
{"id": "C06", "title": "Trajectory contract of integrate", "statement": "integrate(..., nsteps) with an ORMATEX method returns nsteps+1 times and states, starting with (t0, y0), with times t0 + i*dt, where entry i+1 is the step result computed from the history of the previous entries.", "quantifier": "every system, step function, t0, y0, dt, nsteps and method", "why_tests_cant": "all lengths and all step functions", "anchors": ["ormatex_py/integrate_wrapper.py:integrate_ormatex"]}
{"id": "C07", "title": "Callback contract of integrate", "statement": "callback_before_step is called exactly once before each step with the latest (t, y) and its value is logged and handed to the step; callback_after_step_accept is called exactly once after each accepted step with the new (t, y) and logged; logs have length nsteps (or 0 when no callback is given).", "quantifier": "every pair of callbacks, every number of steps", "why_tests_cant": "ordering/count contract over all run lengths", "anchors": ["ormatex_py/integrate_wrapper.py:integrate_ormatex"]}
{"id": "C08", "title": "Method dispatch", "statement": "Every method name is routed to exactly one integrator family; names outside the published tables raise AttributeError; Rust methods without bindings raise ImportError; the Rust name is the method without its _rs suffix.", "quantifier": "every string", "why_tests_cant": "infinitely many strings; tables may overlap", "anchors": ["ormatex_py/integrate_wrapper.py:integrate", "ormatex_py/integrate_wrapper.py:integrate_diffrax", "ormatex_py/ode_exp.py:ExpRBIntegrator._valid_methods", "ormatex_py/ode_exp.py:ExpLejaIntegrator._valid_methods", "ormatex_py/ode_exp.py:ExpSplitIntegrator._valid_methods", "ormatex_py/ode_explicit.py:RKIntegrator._valid_methods"]}
{"id": "C09", "title": "A constructed integrator can always step", "statement": "Construction succeeds exactly for the advertised method names (plus Rust availability), fixes the history depth to the advertised order, and step on a constructed integrator never raises NotImplementedError.", "quantifier": "every method string, with and without Rust bindings", "why_tests_cant": "all strings and both build configurations", "anchors": ["ormatex_py/ode_exp.py:ExpRBIntegrator.__init__", "ormatex_py/ode_exp.py:ExpRBIntegrator.step", "ormatex_py/ode_exp.py:ExpLejaIntegrator.step", "ormatex_py/ode_exp.py:ExpSplitIntegrator.step", "ormatex_py/ode_explicit.py:RKIntegrator.step"]}
{"id": "C10", "title": "Callbacks work with every ORMATEX method", "statement": "Supplying callback_before_step never makes integrate fail for a supported method.", "quantifier": "every supported method, every nsteps", "why_tests_cant": "needs the cross product of methods and callbacks (and it is false: rk4's step takes no frhs_kwargs)", "anchors": ["ormatex_py/integrate_wrapper.py:integrate_ormatex", "ormatex_py/ode_explicit.py:RKIntegrator.step"]}
{"id": "C11", "title": "Callback parameters reach every RHS evaluation", "statement": "The parameters returned by callback_before_step are used consistently in all RHS evaluations of a step; in particular the nonlinear remainder vanishes at the linearisation point.", "quantifier": "every system whose RHS depends on the callback parameters", "why_tests_cant": "depends on arbitrary user RHS (and it is false: the remainder evaluates the RHS without the parameters)", "anchors": ["ormatex_py/ode_sys.py:IntegrateSys._remf", "ormatex_py/ode_exp.py:ExpRBIntegrator._step_exprb3", "ormatex_py/ode_exp.py:ExpSplitIntegrator.step"]}
{"id": "C12", "title": "diffrax time window", "statement": "integrate with a diffrax method integrates from t0 to t0 + nsteps*dt.", "quantifier": "every t0, dt, nsteps", "why_tests_cant": "tests only use t0 = 0 (and it is false for t0 != 0)", "anchors": ["ormatex_py/integrate_wrapper.py:integrate_diffrax"]}
{"id": "C13", "title": "LinOp matvec and dense agree", "statement": "For the identity, diagonal, matrix, custom-Jacobian and autodiff-Jacobian operators, matvec(v) equals dense() @ v for every v; calling the operator is matvec.", "quantifier": "every dimension, operator and vector", "why_tests_cant": "all dimensions and vectors", "anchors": ["ormatex_py/ode_sys.py:EyeLinOp", "ormatex_py/ode_sys.py:DiagLinOp", "ormatex_py/ode_sys.py:MatrixLinOp", "ormatex_py/ode_sys.py:CustomJacLinOp", "ormatex_py/ode_sys.py:AdJacLinOp"]}
{"id": "C14", "title": "Augmented operator is the block matrix", "statement": "The augmented operator's matvec on a stacked vector equals multiplication with [[dt*A, B],[0, K]]; mismatched B/K widths are refused.", "quantifier": "every n, p >= 1, dt, A, B, K and vector", "why_tests_cant": "all block sizes", "anchors": ["ormatex_py/ode_sys.py:AugMatrixLinOp"]}
{"id": "C15", "title": "Finite-difference Jacobian", "statement": "The finite-difference Jacobian operator returns scale*J v + gamma*v exactly for an affine right-hand side for every nonzero base state and every eps != 0; at a zero base state its increment is zero and it divides by zero.", "quantifier": "every affine RHS, base state, direction, eps, scale, gamma", "why_tests_cant": "all base states incl. the zero state", "anchors": ["ormatex_py/ode_sys.py:FdJacLinOp"]}
{"id": "C16", "title": "Custom Jacobian time derivative and cache", "statement": "CustomJacLinOp returns the supplied time derivative verbatim, falls back to a difference quotient that is exact for RHS affine in t, and its cached RHS equals frhs(t, u) in both modes.", "quantifier": "every RHS, time, state, eps != 0", "why_tests_cant": "all RHS functions", "anchors": ["ormatex_py/ode_sys.py:CustomJacLinOp"]}
{"id": "C17", "title": "Autodiff Jacobian operator", "statement": "The default Jacobian operator applied to v is the directional derivative of the RHS at (t,u), its time derivative is the partial derivative in t, its cached RHS is frhs(t,u), and dense() has the operator's columns.", "quantifier": "every differentiable RHS, t, u, v", "why_tests_cant": "all RHS functions", "anchors": ["ormatex_py/ode_sys.py:AdJacLinOp", "ormatex_py/ode_sys.py:OdeSys._fjac"]}
{"id": "C18", "title": "phi_k by the inverse recurrence", "statement": "For every invertible square z and every k >= 0, f_phi_k returns phi_k(z).", "quantifier": "every size, every invertible matrix, every k", "why_tests_cant": "all sizes and orders", "anchors": ["ormatex_py/matexp_phi.py:f_phi_k_inv", "ormatex_py/matexp_phi.py:f_phi_k"]}
{"id": "C19", "title": "phi_k by block extension", "statement": "f_phi_k_ext(z, k) returns phi_k(z), and with return_all the array phi_0(z), ..., phi_k(z), for every z including singular ones.", "quantifier": "every size N, every z, every k >= 0", "why_tests_cant": "all sizes and orders, incl. singular z", "anchors": ["ormatex_py/matexp_phi.py:f_phi_k_ext"]}
{"id": "C20", "title": "phi Taylor polynomials", "statement": "f_phi_k_poly_all(z, k, deg) returns for each j <= k the truncation of the phi_j series with all terms z^(i-j)/i!, j <= i <= deg.", "quantifier": "every z, k, deg >= k+1", "why_tests_cant": "all orders and degrees", "anchors": ["ormatex_py/matexp_phi.py:f_phi_k_poly_all"]}
{"id": "C21", "title": "Modified squaring doubles the argument", "statement": "One squaring pass maps exact phi_0(z)..phi_k(z) to exact phi_0(2z)..phi_k(2z) although it updates the list in place; s passes give phi_j(2^s z).", "quantifier": "every z, k and number of squarings", "why_tests_cant": "all orders and pass counts, in-place update order", "anchors": ["ormatex_py/matexp_phi.py:f_phi_k_sq_all"]}
{"id": "C22", "title": "Scaling and accuracy of f_phi_k_sq", "statement": "The number of squarings brings the inf-norm of the scaled matrix below 1/8, and the result for k = 0 differs from exp(z) by an explicit bound proportional to ||z|| exp(||z||)/8^4.", "quantifier": "every square z", "why_tests_cant": "all matrices; tests sample a few random matrices with a tolerance", "anchors": ["ormatex_py/matexp_phi.py:f_phi_k_sq_all", "ormatex_py/matexp_phi.py:f_phi_k_sq"]}
{"id": "C23", "title": "phi_k(z)B by block extension", "statement": "f_phi_k_appl(z, B, k) returns phi_k(z) B for every k >= 0, given an exact matrix exponential, for matrix and vector B.", "quantifier": "every N, M, k, z, B", "why_tests_cant": "all shapes", "anchors": ["ormatex_py/matexp_phi.py:f_phi_k_appl"]}
{"id": "C24", "title": "Partial fraction phi", "statement": "f_phi_k_pfd equals the real rational function with the tabulated conjugate pole pairs, its rational approximants satisfy the phi recurrence z r_{k+1}(z) = r_k(z) - r_k(0), and methods IE and CN are exactly implicit Euler and Crank-Nicolson for k = 0.", "quantifier": "every z without eigenvalue at a pole, every b, every k, every pole table", "why_tests_cant": "all matrices and orders", "anchors": ["ormatex_py/matexp_phi.py:f_phi_k_pfd", "ormatex_py/matexp_phi_pfd_dict.py:pfd_dict"]}
{"id": "C25", "title": "Argument validation of the phi routines", "statement": "Non-square input or negative order is refused by every dense phi routine; f_phi_k_sq is available exactly for orders k <= 3.", "quantifier": "every shape and order", "why_tests_cant": "all shapes/orders", "anchors": ["ormatex_py/matexp_phi.py:_validate_args", "ormatex_py/matexp_phi.py:_validate_args_appl", "ormatex_py/matexp_phi.py:f_phi_k_poly_all"]}
{"id": "C26", "title": "Arnoldi relation and shape", "statement": "For any linear operator, start vector, dimension and orthogonalisation depth, arnoldi_lop returns an upper Hessenberg H and unit-norm columns Q with scale*A Q = Q H + (residual in the last column only), with k <= min(n, m) columns.", "quantifier": "every n, m, iom, operator, b != 0", "why_tests_cant": "all sizes and depths; the test covers one full orthogonalisation", "anchors": ["ormatex_py/arnoldi_jax.py:arnoldi_mgs_lop", "ormatex_py/arnoldi_jax.py:arnoldi_lop_jit", "ormatex_py/arnoldi_jax.py:arnoldi_lop"]}
{"id": "C27", "title": "Arnoldi orthonormality", "statement": "With full orthogonalisation the columns are orthonormal, span the start vector, and Q^T (scale A) Q = H; with incomplete depth iom any two columns at distance at most iom+1 are orthogonal.", "quantifier": "every n, m, iom, operator, b != 0", "why_tests_cant": "all sizes", "anchors": ["ormatex_py/arnoldi_jax.py:arnoldi_mgs_lop", "ormatex_py/arnoldi_jax.py:arnoldi_lop"]}
{"id": "C28", "title": "Arnoldi termination size", "statement": "arnoldi_lop performs between 1 and min(n,m) iterations for b != 0 and m >= 1, none for b = 0, and stops early exactly when a residual norm is at most 1e-12.", "quantifier": "every n, m, operator, b", "why_tests_cant": "all breakdown positions", "anchors": ["ormatex_py/arnoldi_jax.py:arnoldi_lop_jit"]}
{"id": "C29", "title": "Krylov products are exact on happy breakdown", "statement": "If the Arnoldi residual vanishes at termination (in particular when the Krylov space is the full space) phi_linop returns phi_k(dt*A) v0 for every k, given exact dense kernels; matexp_linop is the case k = 0.", "quantifier": "every n, dt, A, v0, k, iom >= max_krylov_dim", "why_tests_cant": "all dimensions; tests use random 10x10 matrices", "anchors": ["ormatex_py/matexp_krylov.py:phi_linop", "ormatex_py/matexp_krylov.py:matexp_linop"]}
{"id": "C30", "title": "phi_linop degenerate input", "statement": "phi_linop returns zero for the zero vector without touching the operator, scales with its argument, and refuses max_krylov_dim < 1 for nonzero input.", "quantifier": "every operator, vector, dt, k", "why_tests_cant": "all inputs", "anchors": ["ormatex_py/matexp_krylov.py:phi_linop"]}
{"id": "C31", "title": "KIOPS linear combination", "statement": "kiops_fixedsteps(A, dt, [b0..bp]) returns sum_j phi_j(dt*A) b_j (given an exact exponential-vector product), independent of the internal normalisation and of n_steps; all-zero input gives zero; a single nonzero vector (p = 0) is refused.", "quantifier": "every n, p, A, dt, vectors", "why_tests_cant": "all p and magnitudes", "anchors": ["ormatex_py/matexp_krylov.py:kiops_fixedsteps", "ormatex_py/matexp_leja.py:build_a_tilde"]}
{"id": "C32", "title": "Equilibria are fixed points", "statement": "At an equilibrium of an autonomous system every exponential and RK method returns the state unchanged, step by step and over whole runs, with the actual Krylov, Leja and rational kernels (no exactness assumption). The linear propagators exp_pfd and exp_pfd_rs, which apply exp(dt J) to the state, are excluded.", "quantifier": "every system, equilibrium, dt, method", "why_tests_cant": "all systems", "anchors": ["ormatex_py/ode_exp.py:ExpRBIntegrator.step", "ormatex_py/ode_exp.py:ExpSplitIntegrator.step", "ormatex_py/ode_explicit.py:RKIntegrator._step_rk4"]}
{"id": "C33", "title": "Rosenbrock methods are exact on affine systems", "statement": "For y' = A y + b every Rosenbrock/EPI method with exact phi kernels returns the exact solution at t+dt, for every dt, also when A is singular.", "quantifier": "every n, A, b, t, y, dt", "why_tests_cant": "all systems and step sizes", "anchors": ["ormatex_py/ode_exp.py:ExpRBIntegrator._step_exprb2", "ormatex_py/ode_exp.py:ExpRBIntegrator._step_epi2", "ormatex_py/ode_exp.py:ExpRBIntegrator._step_epi3", "ormatex_py/ode_exp.py:ExpRBIntegrator._step_exprb3", "ormatex_py/ode_exp.py:ExpRBIntegrator._step_pexprb4", "ormatex_py/ode_exp.py:ExpRBIntegrator._step_exprb2_jit"]}
{"id": "C34", "title": "Linear-in-time forcing", "statement": "For y' = A y + b + t c the Rosenbrock methods with exact kernels are exact whenever the time-derivative correction is active (tol_fdt >= 0 and the max norm of c above tol_fdt, or c = 0); disabling the check drops the correction.", "quantifier": "every n, A, b, c, t, y, dt, tol_fdt", "why_tests_cant": "all systems and tolerances", "anchors": ["ormatex_py/ode_exp.py:ExpRBIntegrator._phi2v_nonauto", "ormatex_py/ode_exp.py:ExpRBIntegrator._step_exprb2"]}
{"id": "C35", "title": "Splitting methods are exact when L is the system matrix", "statement": "For y' = A y + b with L = A, exp1, exp2, exp3 and their dense variants with exact kernels return the exact solution.", "quantifier": "every n, A, b, t, y, dt", "why_tests_cant": "all systems", "anchors": ["ormatex_py/ode_exp.py:ExpSplitIntegrator"]}
{"id": "C36", "title": "Whole-run exactness on linear systems", "statement": "integrate with any exact-kernel exponential method on y' = A y + b returns exactly the solution values at every output time t0 + i dt.", "quantifier": "every system, dt, nsteps", "why_tests_cant": "all run lengths", "anchors": ["ormatex_py/integrate_wrapper.py:integrate_ormatex", "ormatex_py/ode_exp.py:ExpRBIntegrator.step"]}
{"id": "C37", "title": "Order of consistency, Rosenbrock family", "statement": "For smooth right-hand sides the one-step error is O(dt^(p+1)) with p the advertised order: exprb2 2, exprb3 3, pexprb4 4, epi2 2, epi3 3 (given an accurate previous value).", "quantifier": "every smooth RHS and state, dt -> 0", "why_tests_cant": "an asymptotic statement over all smooth systems; tests fit slopes on one system", "anchors": ["ormatex_py/ode_exp.py:ExpRBIntegrator._step_exprb2", "ormatex_py/ode_exp.py:ExpRBIntegrator._step_exprb3", "ormatex_py/ode_exp.py:ExpRBIntegrator._step_pexprb4", "ormatex_py/ode_exp.py:ExpRBIntegrator._step_epi3"]}
{"id": "C38", "title": "Order of consistency, splitting family", "statement": "For smooth right-hand sides and any fixed matrix L the one-step error of exp1, exp2, exp3 is O(dt^2), O(dt^3), O(dt^4).", "quantifier": "every smooth RHS, every L, dt -> 0", "why_tests_cant": "asymptotic statement over all systems and splittings", "anchors": ["ormatex_py/ode_exp.py:ExpSplitIntegrator._step_exp1", "ormatex_py/ode_exp.py:ExpSplitIntegrator._step_exp2", "ormatex_py/ode_exp.py:ExpSplitIntegrator._step_exp3"]}
{"id": "C39", "title": "RK4 stability polynomial and quadrature", "statement": "One rk4 step on y' = A y multiplies by sum_{i<=4} (dt A)^i/i!, and on y' = f(t) with f cubic is exact.", "quantifier": "every A, y, dt; every cubic f", "why_tests_cant": "all systems", "anchors": ["ormatex_py/ode_explicit.py:RKIntegrator._step_rk4_jit"]}
{"id": "C40", "title": "epi3 start-up and history use", "statement": "epi3 uses exprb3 exactly when fewer than two states are available (after construction or reset), and otherwise the two newest accepted states and times.", "quantifier": "every history", "why_tests_cant": "all histories", "anchors": ["ormatex_py/ode_exp.py:ExpRBIntegrator.step", "ormatex_py/ode_exp.py:ExpRBIntegrator._step_epi3"]}
{"id": "C41", "title": "Dense phi cache coherence", "statement": "For a constant splitting operator the dense methods use, at every step of every history, the phi functions of dt*c*L for the current dt; for a state-dependent L the cached operator is the one seen when dt last changed.", "quantifier": "every sequence of steps with arbitrary dt, accepts and resets", "why_tests_cant": "all histories of dt changes", "anchors": ["ormatex_py/ode_exp.py:ExpSplitIntegrator._update_dense_phiLs"]}
{"id": "C42", "title": "pexprb4 stages are schedule independent", "statement": "The result of a pexprb4 step does not depend on how the two stage tasks are scheduled on the worker threads.", "quantifier": "every interleaving of the two tasks", "why_tests_cant": "all interleavings", "anchors": ["ormatex_py/ode_exp.py:ExpRBIntegrator._step_pexprb4"]}
{"id": "C43", "title": "Newton divided differences interpolate", "statement": "newton_poly_div_diff(x, y) returns the Newton coefficients of the unique interpolating polynomial for pairwise distinct x.", "quantifier": "every number of nodes, every distinct x, every y", "why_tests_cant": "all node counts", "anchors": ["ormatex_py/matexp_poly.py:newton_poly_div_diff", "ormatex_py/matexp_poly.py:leja_coeffs_exp_dd"]}
{"id": "C44", "title": "Divided differences by matrix exponential", "statement": "leja_coeffs_exp(x, shift, scale, h) returns Newton coefficients interpolating exp(h(shift+scale x)) at the nodes, and equals the recursive divided differences for distinct nodes.", "quantifier": "every node list, shift, scale, h", "why_tests_cant": "all node sets incl. confluent ones", "anchors": ["ormatex_py/matexp_poly.py:leja_coeffs_exp"]}
{"id": "C45", "title": "Taylor divided differences", "statement": "dd_exp_taylor's shift/scale/square bookkeeping is exact: with an exact exponential kernel it equals leja_coeffs_exp for every centring and number of squarings; the scaled matrix has entries of modulus at most |h|; expm_taylor with p terms equals exp(shift) times the degree-p Taylor polynomial of exp(A) when scale = 1, and exp(shift)(I + scale*sum_{1<=j<=p} A^j/j!) in general (so it is not the Taylor polynomial of exp(scale*A) for other scales); the computed coefficients are within |e^(h mu)| 2^s (2|h|)^(p+1)/(p+1)! e^(2^s 2|h|) of the exact ones.", "quantifier": "every node list, shift, scale, h, mu_scale", "why_tests_cant": "all node lists, sizes, scalings", "anchors": ["ormatex_py/matexp_poly.py:dd_exp_taylor", "ormatex_py/matexp_poly.py:expm_taylor"]}
{"id": "C46", "title": "Leja evaluation is the Newton polynomial", "statement": "real_leja_expmv returns after i iterations the partial Newton sum with i coefficients evaluated at dt*A applied to u, with 1 <= i <= max(1, n-1); a true converged flag means the smoothed error estimate is below tol*|u| or u = 0.", "quantifier": "every operator, node list, coefficients, tolerances", "why_tests_cant": "all lengths and convergence patterns", "anchors": ["ormatex_py/matexp_leja.py:real_leja_expmv"]}
{"id": "C47", "title": "Conjugate-pair evaluation stays real and exact", "statement": "complex_conj_leja_expmv, using only real arithmetic, returns the real part of the complex Newton partial sum when the nodes are real then conjugate pairs.", "quantifier": "every node list with that structure, operator, u, tolerances", "why_tests_cant": "all lengths", "anchors": ["ormatex_py/matexp_leja.py:complex_conj_leja_expmv"]}
{"id": "C48", "title": "Substepping composes to the full step", "statement": "In the substepped Leja routines the accepted substeps sum to exactly 1 on return, the returned flag is true, at most 1001 inner calls are made, and if each accepted inner call is exact the result is exp(A) v; otherwise RuntimeError.", "quantifier": "every convergence pattern, every initial substep", "why_tests_cant": "all convergence patterns", "anchors": ["ormatex_py/matexp_leja.py:real_leja_expmv_substep", "ormatex_py/matexp_leja.py:complex_conj_leja_expmv_substep"]}
{"id": "C49", "title": "Circle Leja points", "statement": "gen_leja_circle(n, conjugate=True) returns n distinct points on the unit circle beginning with 1, -1, followed by conjugate pairs; without reordering each point maximises the product of distances to its predecessors over the unit disc.", "quantifier": "every n", "why_tests_cant": "all n; tests use n up to 80", "anchors": ["ormatex_py/matexp_leja.py:gen_leja_circle"]}
{"id": "C50", "title": "Ellipse Leja points", "statement": "gen_leja_conjugate returns n points on the ellipse inscribed in [a,b]x[-c,c] (after shift and scale) with the announced number of leading real points followed by conjugate pairs, accepts every nonempty box for n >= 3 and rejects boxes with one negative and one positive extent (boxes with both extents negative slip through).", "quantifier": "every n, a, b, c", "why_tests_cant": "all boxes and n", "anchors": ["ormatex_py/matexp_leja.py:gen_leja_conjugate"]}
{"id": "C51", "title": "Fast Leja points", "statement": "gen_leja_fast(a, b, n) returns n pairwise distinct points of [a,b] containing the end points, each new point being the midpoint of two neighbouring earlier points; on [-2,2] it maximises the product of distances among all such midpoints (on other intervals it need not: [-3,1] never gets a point in (-1,1)).", "quantifier": "every a < b and n >= 3", "why_tests_cant": "all n", "anchors": ["ormatex_py/matexp_leja.py:gen_leja_fast"]}
{"id": "C52", "title": "Leja reordering", "statement": "leja_seq_reordering returns a permutation of its input in which every element maximises the product of distances to its predecessors among the remaining points.", "quantifier": "every finite point list", "why_tests_cant": "all lists", "anchors": ["ormatex_py/matexp_poly.py:leja_seq_reordering"]}
{"id": "C53", "title": "Leja interval and power iteration", "statement": "leja_shift_scale maps the reference interval [-2,2] onto the interval between 0 and the scaled dominant eigenvalue estimate; power_iter performs at most iter iterations and its estimate is a Rayleigh quotient of the operator.", "quantifier": "every operator, start vector, iteration limit", "why_tests_cant": "all operators", "anchors": ["ormatex_py/matexp_leja.py:leja_shift_scale", "ormatex_py/matexp_leja.py:power_iter"]}
{"id": "C54", "title": "Zero padding", "statement": "leja_seq_pad_zeros(x, p) prepends p distinct near-zero nodes and keeps x.", "quantifier": "every x and every p", "why_tests_cant": "all p", "anchors": ["ormatex_py/matexp_poly.py:leja_seq_pad_zeros"]}
{"id": "C55", "title": "Bateman matrix structure", "statement": "gen_bateman_matrix has off-diagonal entry (i,j) equal to the sum of decay constants of branches j -> i, diagonal minus the total decay constant of the species plus self-branches, hence column sums equal minus the loss to 'none'; unknown species are refused.", "quantifier": "every species list and decay library", "why_tests_cant": "all libraries and branchings", "anchors": ["ormatex_py/progression/bateman_sys.py:gen_bateman_matrix", "ormatex_py/progression/bateman_sys.py:gen_transmute_matrix"]}
{"id": "C56", "title": "Bateman dynamics conserve mass and positivity", "statement": "With nonnegative decay constants the exact (and hence exact-kernel numerical) solution stays nonnegative and its total never increases; it is conserved when no branch goes to 'none'.", "quantifier": "every library, initial state, time", "why_tests_cant": "all libraries and times", "anchors": ["ormatex_py/progression/bateman_sys.py:gen_bateman_matrix", "ormatex_py/progression/bateman_sys.py:TestBatemanSysJac"]}
{"id": "C57", "title": "Analytic Bateman solution", "statement": "analytic_bateman_single_parent solves N' = T N, N(0) = (n0, 0, ..., 0) for every linear chain with pairwise distinct decay constants.", "quantifier": "every chain length, distinct constants, t", "why_tests_cant": "all chain lengths", "anchors": ["ormatex_py/progression/bateman_sys.py:analytic_bateman_single_parent"]}
{"id": "C58", "title": "Inter-phase transfer terms are conservative", "statement": "The transfer source terms add to one species exactly what they remove from the other, and vanish elsewhere.", "quantifier": "every state", "why_tests_cant": "all states", "anchors": ["ormatex_py/progression/bateman_nonlin_sys.py:srcf_xe_av", "ormatex_py/progression/rad_1d_2s.py:RAD_SEM._source_nonlin_evap", "ormatex_py/progression/species_source_sink.py"]}
{"id": "C59", "title": "Species stacking layout", "statement": "flatten_u and stack_u are mutually inverse, stack_u refuses lengths not divisible by n, and per-species application of a matrix is kron(I, M) on the flat vector.", "quantifier": "every species count and grid size", "why_tests_cant": "all shapes", "anchors": ["ormatex_py/ode_utils.py:stack_u", "ormatex_py/ode_utils.py:flatten_u", "ormatex_py/progression/rad_1d_3s.py:RAD_SEM._fl"]}
{"id": "C60", "title": "Dirichlet data are preserved", "statement": "For the advection-diffusion and reaction systems the Dirichlet entries of the RHS are zero, so every method leaves them unchanged, and the splitting operator agrees with the Jacobian on increments that vanish there.", "quantifier": "every matrix, state, boundary set", "why_tests_cant": "all meshes and states", "anchors": ["ormatex_py/progression/advection_diffusion_1d.py:AffineLinearSEM", "ormatex_py/progression/rad_1d_3s.py:RAD_SEM._frhs"]}
{"id": "C61", "title": "Torus distance", "statement": "torus_distance is the metric of the circle R/Z: symmetric, translation invariant, at most 1/2, zero iff the points agree mod 1, triangle inequality.", "quantifier": "all reals", "why_tests_cant": "all reals", "anchors": ["ormatex_py/progression/advection_diffusion_1d.py:torus_distance"]}
{"id": "C62", "title": "GLL quadrature tables", "statement": "Each Gauss-Lobatto rule (2..5 points) on [0,1] has nodes in [0,1] with the end points in the first two slots and integrates every polynomial of degree <= 2n-3 exactly; other sizes are refused.", "quantifier": "every polynomial up to that degree, every table entry", "why_tests_cant": "all polynomials", "anchors": ["ormatex_py/progression/element_line_pp_nodal.py:GLL_quad"]}
{"id": "C63", "title": "Lotka-Volterra Jacobians", "statement": "The hand-written Jacobians (and time derivative) of the Lotka-Volterra systems are the derivatives of their right-hand sides.", "quantifier": "every parameter, state and time", "why_tests_cant": "all states", "anchors": ["ormatex_py/progression/lotka_volterra.py:LotkaVolterra", "ormatex_py/progression/lotka_volterra.py:LotkaVolterraNonauto"]}
{"id": "C64", "title": "Basis evaluation cache", "statement": "lbasis returns the basis evaluated at the points it is given, for every sequence of calls.", "quantifier": "every sequence of evaluation point sets", "why_tests_cant": "all call histories (and it is false: the cache key is only the number of points)", "anchors": ["ormatex_py/progression/element_line_pp_nodal.py:ElementLinePp_nodal.lbasis"]}
{"id": "C65", "title": "Krylov approximation error", "statement": "phi_linop with k Arnoldi iterations reproduces every power (dt A)^j v0 with j < k; with full orthogonalisation its error against phi_l(dt A) v0 is at most |v0| 2 rho^k e^rho/(k+l)! plus the dense kernel's error, and when max_krylov_dim >= n it is at most |v0| 1e-12 e^rho plus the dense kernel's error, rho a bound of dt A.", "quantifier": "every n, A, dt, v0, order l, Krylov dimension", "why_tests_cant": "all matrices, vectors, dimensions; tests compare one random matrix with a tolerance", "anchors": ["ormatex_py/matexp_krylov.py:phi_linop", "ormatex_py/arnoldi_jax.py:arnoldi_lop"]}
{"id": "C66", "title": "RK4 is of order four", "statement": "One rk4 step from the exact value of a smooth solution has error O(dt^5).", "quantifier": "every C^4 right-hand side, autonomous or not, every state and time, dt -> 0", "why_tests_cant": "asymptotic statement over all smooth systems; tests fit a slope on one system", "anchors": ["ormatex_py/ode_explicit.py:RKIntegrator._step_rk4_jit", "ormatex_py/ode_explicit.py:RKIntegrator.step"]}
{"id": "C67", "title": "Linear conservation laws and frozen components survive discretisation", "statement": "If the right-hand side always lies in a linear subspace V (for example w.f = 0, or a component with zero rate), every state returned by integrate differs from y0 by an element of V: w.y is exactly conserved and frozen components never move, whatever the Krylov dimension, tolerance, pole table, Leja points or number of rejected substeps.", "quantifier": "every right-hand side (smooth or not), subspace, method other than the linear propagators exp_pfd(_rs), step size, option and callback", "why_tests_cant": "all systems, all subspaces, all truncation and convergence patterns; tests use one system and a tolerance", "anchors": ["ormatex_py/ode_exp.py:ExpRBIntegrator.step", "ormatex_py/ode_exp.py:ExpSplitIntegrator.step", "ormatex_py/ode_exp.py:ExpLejaIntegrator.step", "ormatex_py/matexp_krylov.py:phi_linop", "ormatex_py/matexp_leja.py:real_leja_expmv_substep"]}
{"id": "C68", "title": "Rust integrator history and reset", "statement": "For the compiled integrators (bdf1/bdf2/cn, RK, epi/exprb) state and time always report the newest accepted step, a trial step changes nothing, and after reset_ic the object behaves, for every later sequence of calls, like a newly constructed one.", "quantifier": "every sequence of step, accept_step and reset_ic calls", "why_tests_cant": "all call histories; the time history of the exponential integrator is not cleared by reset_ic, so this is not evident", "anchors": ["src/ode_bdf.rs:BdfIntegrator", "src/ode_rk.rs:RkIntegrator", "src/ode_epirk.rs:EpirkIntegrator"]}
{"id": "C69", "title": "Rust run output contract", "statement": "integrate_wrapper_rs(..., nsteps, osteps) returns the states after 0, osteps, 2*osteps, ... steps (those below nsteps) followed by the final state, with times t0 + i*dt, ceil(nsteps/osteps)+1 entries in all; osteps = 0 aborts as soon as there is a step.", "quantifier": "every integrator, t0, dt, nsteps, osteps", "why_tests_cant": "all step and output counts", "anchors": ["src/ormatex_rspy.rs:integrate_wrapper_rs"]}
{"id": "C70", "title": "bdf2_rs uses the two-step formula after the start-up step", "statement": "From the second step on bdf2_rs solves the BDF2 equation with the two newest states.", "quantifier": "every run length", "why_tests_cant": "needs long runs compared step by step (and it is false: the length test is == 2 while the history grows without bound, so the two-step formula is used in exactly one step)", "anchors": ["src/ode_bdf.rs:BdfIntegrator.step", "src/ode_bdf.rs:BdfIntegrator.accept_step"]}
{"id": "C71", "title": "Implicit steps evaluate the right-hand side inside the step", "statement": "The backward Euler, BDF2 and Crank-Nicolson steps from t to t+dt evaluate the right-hand side at t and t+dt only.", "quantifier": "every system, t, dt", "why_tests_cant": "tests use autonomous systems (and it is false: the end time is added twice, so f is evaluated at t+2dt, and Crank-Nicolson uses t+dt and t+2dt)", "anchors": ["src/ode_bdf.rs:BdfIntegrator.step_order_1", "src/ode_bdf.rs:BdfIntegrator.step_cn", "src/newton.rs:jac_newton"]}
{"id": "C72", "title": "A successful Newton solve solves the equation", "statement": "When jac_newton returns a value its last correction is below the tolerance, in particular an implicit step that succeeds solves its implicit equation to the tolerance.", "quantifier": "every residual function, Jacobian, start, tolerances", "why_tests_cant": "all nonlinear systems (and it is false: the test compares norms without absolute value, so one iteration is accepted whenever the norm does not shrink)", "anchors": ["src/newton.rs:jac_newton"]}
{"id": "C73", "title": "Implicit steps on affine autonomous systems", "statement": "For y' = A y + b with exact linear solves, bdf1_rs/backeuler_rs return the solution of (I - dt A) y1 = y + dt b and cn_rs that of (I - dt A/2) y1 = (I + dt A/2) y + dt b (despite the defective stopping test); hence linear invariants are conserved, backward Euler never increases the norm of the homogeneous solution of a dissipative A, and Crank-Nicolson preserves it for skew A.", "quantifier": "every n, A, b, t, y, dt with invertible system matrix", "why_tests_cant": "all systems and step sizes", "anchors": ["src/ode_bdf.rs:BdfIntegrator.step_order_1", "src/ode_bdf.rs:BdfIntegrator.step_cn", "src/newton.rs:jac_newton"]}
{"id": "C74", "title": "tol_fdt option of the Rust methods", "statement": "The keyword tol_fdt controls the time-derivative correction of the compiled exponential methods.", "quantifier": "every keyword dictionary", "why_tests_cant": "all dictionaries (and it is false: the entry point looks up \"tol\" twice and never tol_fdt)", "anchors": ["src/ormatex_rspy.rs:integrate_wrapper_rs", "src/ormatex_rspy.rs:select_solver"]}
{"id": "C75", "title": "Rust exponential steps agree with the Python ones", "statement": "On autonomous systems, with the same phi-vector products, a step of epi2_rs/exprb2_rs, exprb3_rs and epi3_rs returns the state of the Python exprb2, exprb3 and epi3 step (epi3_rs starts with exprb2 instead of exprb3); on affine systems with exact products they are exact.", "quantifier": "every autonomous system, history, dt", "why_tests_cant": "all systems and histories", "anchors": ["src/ode_epirk.rs:EpirkIntegrator.step_order_2"]}
{"id": "C76", "title": "Rust exponential methods keep equilibria", "statement": "At an equilibrium the compiled exponential methods return the state unchanged.", "quantifier": "every equilibrium of every autonomous system", "why_tests_cant": "all systems (and it is false: the Krylov start vector is divided by its zero norm, every entry becomes NaN)", "anchors": ["src/ode_epirk.rs:EpirkIntegrator.step_order_2", "src/arnoldi.rs:arnoldi_lop"]}
{"id": "C77", "title": "Rust Runge-Kutta tableaux", "statement": "The compiled RK methods of order 1 to 4 have that order; order 4 is the classical method.", "quantifier": "every smooth system", "why_tests_cant": "asymptotic over all systems (and it is false for nonautonomous ones: stage i+1 uses the time coefficient of stage i)", "anchors": ["src/ode_rk.rs:bt_factory", "src/ode_rk.rs:RkIntegrator.step_rk"]}
{"id": "C78", "title": "Rust and JAX Arnoldi agree", "statement": "For b != 0 arnoldi_rs returns the same Q, H and number of columns as arnoldi_lop in Python (unless a residual norm equals the breakdown tolerance exactly); for b = 0 Python returns no columns while the compiled routine divides by zero.", "quantifier": "every operator, scale, b, m, iom", "why_tests_cant": "the tests compare one random matrix", "anchors": ["src/arnoldi.rs:arnoldi_lop", "ormatex_py/arnoldi_jax.py:arnoldi_lop"]}
{"id": "C79", "title": "Rust Krylov products", "statement": "apply_phi_linop and kiops_fixedsteps return phi_k(dt A) v and sum_j phi_j(dt A) v_j when the Krylov space is exhausted, given an exact dense kernel.", "quantifier": "every operator, dt, v, k", "why_tests_cant": "all sizes and orders", "anchors": ["src/matexp_krylov.rs:KrylovExpm", "src/ode_sys.rs:ExtendedLinOp"]}
{"id": "C80", "title": "Compiled matrix exponential is accurate for every matrix", "statement": "The tables of orders 3, 5, 7, 9, 13 are the diagonal Pade approximants: N(x) - D(x) e^x vanishes to order 2m; for every matrix the linear systems solved are nonsingular, matexp(A, dt) equals e^(dt A) times at most max(1, 2|dt A|_1/5.37) factors within 1e-15 of the identity (so its relative error is at most 2e-15 max(1, |dt A|_1/2.68) up to norm 1e15), it is exact on nilpotent matrices with A^7 = 0 and matexp(A, dt) matexp(A, -dt) = I.", "quantifier": "every square matrix, dt", "why_tests_cant": "all matrices; tests sample random ones", "anchors": ["src/matexp_pade.rs:matexp_pade", "src/matexp_pade.rs:matexp"]}
{"id": "C81", "title": "Rust dense phi by extension", "statement": "phi_ext(z, k) = phi_k(z) for every square z, singular or not, and phi(z, k) for invertible z, given an exact exponential.", "quantifier": "every size, z, k", "why_tests_cant": "all sizes", "anchors": ["src/matexp_pade.rs:phi_ext", "src/matexp_pade.rs:phi"]}
{"id": "C82", "title": "Contour phi products are schedule independent", "statement": "The parallel reduction over the poles gives the same result for every work-stealing split, equal to the sequential partial-fraction sum; for k >= 1 it differs from the Python routine with the same table exactly by the constant term alpha_0 v.", "quantifier": "every split of the index range, every table, A, dt, v, k", "why_tests_cant": "all schedules", "anchors": ["src/matexp_cauchy.rs:CauchyExpm.phik_dense_apply_cauchy"]}
{"id": "C83", "title": "phik_dense_cauchy returns phi_k(A dt)", "statement": "phik_dense_cauchy(A, dt, k) returns phi_k(A dt) for k <= 1, given an exact exponential, and refuses larger k.", "quantifier": "every A, dt", "why_tests_cant": "tests only use dt = 1 (and it is false for k = 1: the result is dt*phi_1(A dt))", "anchors": ["src/matexp_cauchy.rs:CauchyExpm.phik_dense_cauchy"]}
{"id": "C84", "title": "apply_phi_linop_3 triple", "statement": "apply_phi_linop_3(A, dt, v, k) returns phi_k(dt A)v, phi_k(2 dt A)v, phi_k(3 dt A)v on an exhausted Krylov space.", "quantifier": "every A, dt, v, k", "why_tests_cant": "no test exists (and it is false for k != 1: the doubling formulas are those of phi_1)", "anchors": ["src/matexp_krylov.rs:KrylovExpm.apply_phi_linop_3"]}
{"id": "C85", "title": "Cached right-hand side of the difference operator", "statement": "JacobianRhsLinOp computes the difference quotient at the point it is given, for every sequence of calls.", "quantifier": "every sequence of points", "why_tests_cant": "all call histories (and it is false: the cache is keyed by the norm of the point)", "anchors": ["src/mat_utils.rs:JacobianRhsLinOp"]}
{"id": "C86", "title": "Shifted and difference operators of the Rust crate", "statement": "ShiftedLinOp applies gamma*v + scale*J v; FdJacLinOp does so exactly for affine right-hand sides at a nonzero point, also after set_op_x and set_scale; ExtendedLinOp is the block matrix [[t A, B],[0, K]].", "quantifier": "every operator, point, vector, scale, shift", "why_tests_cant": "all operators", "anchors": ["src/ode_sys.rs:ShiftedLinOp", "src/ode_sys.rs:FdJacLinOp", "src/ode_sys.rs:ExtendedLinOp"]}
{"id": "C87", "title": "Contour solves are nonsingular", "statement": "With either table the crate can build (CRAM of order 16, parabolic contours of every even order) every linear solve of the contour products is uniquely solvable for matrices with real eigenvalues, in particular symmetric matrices and decay chains.", "quantifier": "every such matrix, step, phi order, table and pole", "why_tests_cant": "all matrices and contour orders", "anchors": ["src/matexp_cauchy.rs:gen_cram_expm", "src/matexp_cauchy.rs:gen_parabolic_expm", "src/matexp_cauchy.rs:CauchyExpm.phik_dense_apply_cauchy"]}
{"id": "C88", "title": "Leja points on the imaginary axis", "statement": "gen_complex_conj_leja_fast(beta, n) with beta > 0 returns 0, i*beta, -i*beta and then conjugate pairs of purely imaginary points of i[-beta, beta], as complex_conj_imag_leja_expmv needs; n < 2 is refused.", "quantifier": "every beta > 0 and n", "why_tests_cant": "all interval sizes and point counts; a test uses one", "anchors": ["ormatex_py/matexp_leja.py:gen_complex_conj_leja_fast"]}
{"id": "C89", "title": "Imaginary-axis Newton evaluation", "statement": "complex_conj_imag_leja_expmv, which only does real arithmetic, returns the real part of the complex Newton interpolation polynomial with the coefficients it reports having used, and exactly exp(dt A) u once the nodes used annihilate u.", "quantifier": "every operator, vector, dt, shift, scale, node and coefficient list of the stated structure, tolerance", "why_tests_cant": "all operators, nodes and stopping points", "anchors": ["ormatex_py/matexp_leja.py:complex_conj_imag_leja_expmv"]}
{"id": "C90", "title": "Convergence flag of the imaginary-axis evaluation", "statement": "A result of complex_conj_imag_leja_expmv flagged as converged has a last contribution of norm at most tol*|u|.", "quantifier": "every operator, vector, node list, tolerance", "why_tests_cant": "all inputs (and it is false: a coefficient enters the estimate without its absolute value, so the estimate can be negative; for tol*|u| >= 100 nothing is computed but convergence is reported; for |u| <= 0.1 nothing is ever computed)", "anchors": ["ormatex_py/matexp_leja.py:complex_conj_imag_leja_expmv"]}
{"id": "C91", "title": "Global convergence of whole runs", "statement": "On every compact time interval on which the exact solution exists there are C and delta > 0 such that integrate with any step size dt <= delta and any number of steps inside the interval returns, at every output time, a state within C dt^p of the exact solution: p is the advertised order of the method, for the one-step Rosenbrock and EPI methods (p = 2, 3, 4), epi3 with its exprb3 start (p = 3), the splitting methods with any constant linear part (p = 1, 2, 3) and rk4 (p = 4). The threshold tol_fdt below which a time derivative is ignored adds at most C tol_fdt.", "quantifier": "every smooth right-hand side (autonomous or not), solution, interval, small enough dt, number of steps, callbacks", "why_tests_cant": "limit statement over all systems and all step sizes; tests fit a slope on one or two systems", "anchors": ["ormatex_py/integrate_wrapper.py:integrate_ormatex", "ormatex_py/ode_exp.py:ExpRBIntegrator.step", "ormatex_py/ode_exp.py:ExpSplitIntegrator.step", "ormatex_py/ode_explicit.py:RKIntegrator.step"]}
{"id": "C92", "title": "Taylor divided differences of phi_k", "statement": "leja_coeffs_ts_phi(nodes, shift, scale, h, k) returns the Newton interpolation coefficients of x -> phi_k(h(shift + scale x)) at the nodes, up to the remainder of a sixteen-term Taylor series.", "quantifier": "every node count, node list (confluent or not), shift, scale, h, order k", "why_tests_cant": "all node sets and orders; tests use one (and it is false for k >= 1: entry 0 is always exp, never phi_k)", "anchors": ["ormatex_py/matexp_poly.py:leja_coeffs_ts_phi"]}
{"id": "C93", "title": "Substepped Taylor divided differences", "statement": "leja_coeffs_ts_phi_substep returns the Newton coefficients of exp(shift + scale x) with a truncation error independent of the size of scale per substep.", "quantifier": "every scale > 0, shift, node list", "why_tests_cant": "all scales (and it is false for non-integer scales: ceil(scale) substeps of length 1/scale are multiplied, which is exp of a longer step)", "anchors": ["ormatex_py/matexp_poly.py:leja_coeffs_ts_phi_substep"]}
{"id": "C94", "title": "Scaling-and-squaring divided differences", "statement": "leja_coeffs_ts_ss(nodes, shift, scale, h, l) returns the divided differences of phi_l(h z) at the nodes z = shift + scale x up to the remainder of a twenty-term Taylor series after scaling.", "quantifier": "every node list, shift, scale, h, order l", "why_tests_cant": "all inputs (and it is false for h != 1, since h is ignored, and for l >= 1, since entry 0 is the exponential)", "anchors": ["ormatex_py/matexp_poly.py:leja_coeffs_ts_ss"]}
{"id": "C95", "title": "dd_phi divided differences", "statement": "leja_coeffs_dd_phi returns the divided differences of phi_l at the points h(shift + scale x_i) with relative error about 1e-17 per scaling step, for every order l, confluent points included.", "quantifier": "every m, nodes, shift, scale, h, order l", "why_tests_cant": "all node sets, spreads and orders", "anchors": ["ormatex_py/matexp_poly.py:leja_coeffs_dd_phi"]}
{"id": "C96", "title": "Interpolation error of the Leja evaluations", "statement": "The vector returned by real_leja_expmv (and complex_conj_leja_expmv) differs from exp(dt A) u by at most an explicit bound in the number i of terms used: the product of the node differences' norm, e^rho and 1/i!, for exact divided differences.", "quantifier": "every operator, vector, step, node list, tolerance, number of terms reached", "why_tests_cant": "all operators, node sets and stopping indices", "anchors": ["ormatex_py/matexp_leja.py:real_leja_expmv", "ormatex_py/matexp_leja.py:complex_conj_leja_expmv"]}
{"id": "C97", "title": "Leja steps compute the exponential Rosenbrock update", "statement": "A step of ExpLejaIntegrator (epi2_leja_re, epi2_leja, epi3_leja) that returns gives the exponential Rosenbrock (or third order two-step) value for the step taken, up to the accumulated error of the substep evaluations, whatever substeps the adaptive controller chose; otherwise it reports failure.", "quantifier": "every system, state, step size, option set, substep history", "why_tests_cant": "all systems and all substep sequences the controller can choose", "anchors": ["ormatex_py/ode_exp.py:ExpLejaIntegrator.step"]}
{"id": "C98", "title": "Tolerance of real_leja_expmv", "statement": "When real_leja_expmv reports convergence for tolerance tol, the error of the returned vector against exp(dt A) u is below a constant depending only on the spectral interval times tol ||u||.", "quantifier": "every operator, vector, step, node list, tolerance", "why_tests_cant": "all operators (and it is false for non-normal operators: the flag bounds the last term only)", "anchors": ["ormatex_py/matexp_leja.py:real_leja_expmv"]}
{"id": "C99", "title": "CRAM phi products are accurate on dissipative operators", "statement": "f_phi_k_pfd with the tables cram_2 ... cram_16 returns phi_k(z) b, k <= 2, with the best-approximation error of the table (for cram_16: 4.01e-16, 4.01e-14, 8.01e-13) times |b| for every symmetric negative semidefinite z, however stiff and of any size, and componentwise in eigenvector coordinates for every diagonalisable z with real nonpositive eigenvalues.", "quantifier": "every size, such operator z, vector b, order k <= 2, CRAM table", "why_tests_cant": "all operators of all norms; an entry with one wrong digit passes tests on mild operators", "anchors": ["ormatex_py/matexp_phi.py:f_phi_k_pfd", "ormatex_py/matexp_phi_pfd_dict.py:pfd_dict"]}
{"id": "C100", "title": "Runs with CRAM tables stay within the table error", "statement": "On y' = A y (exp_pfd) and y' = A y + b (exprb2_pfd) with A diagonalisable with nonpositive eigenvalues, the state after m steps of any size dt >= 0 is within m*tol*(1+...)^m of the exact solution: no step-size restriction and no dependence on the stiffness.", "quantifier": "every system of this class, dt >= 0, number of steps, callbacks", "why_tests_cant": "all operators, step sizes and numbers of steps", "anchors": ["ormatex_py/ode_exp.py:ExpRBIntegrator._step_exp_pfd", "ormatex_py/ode_exp.py:ExpRBIntegrator._step_exprb2_pfd", "ormatex_py/matexp_phi_pfd_dict.py:pfd_dict"]}
{"id": "C101", "title": "Partial-fraction tables are consistent", "statement": "For every method name in pfd_dict the exponential and phi_1 of the zero operator applied to b return b up to a small relative error, so that exp_pfd keeps the state of y' = 0.", "quantifier": "every table, size, vector", "why_tests_cant": "all tables (and it is false: pade_16_16 returns -15.38 b, pade_15_16 7.4 b, pade_14_16 0.03 b, because the printed coefficients carry too few digits; the tables 2 to 12 are tables of phi_1, not of exp)", "anchors": ["ormatex_py/matexp_phi_pfd_dict.py:pfd_dict", "ormatex_py/matexp_phi.py:f_phi_k_pfd"]}
{"id": "C102", "title": "CRAM evaluator of the crate", "statement": "gen_cram_expm(16) holds the same table as the Python package and its phik_dense_apply_cauchy / matexp_dense_apply_cauchy return phi_l(dt a) v, l <= 2, to within 4.01e-16, 4.1e-14, 8.1e-13 times |v| for every symmetric negative semidefinite a, every dt >= 0 and every parallel schedule.", "quantifier": "every size, operator, dt, vector, order, work-stealing split", "why_tests_cant": "all operators and schedules", "anchors": ["src/matexp_cauchy.rs:gen_cram_expm", "src/matexp_cauchy.rs:CauchyExpm.phik_dense_apply_cauchy", "src/matexp_cauchy.rs:CauchyExpm.matexp_dense_apply_cauchy"]}
{"id": "C103", "title": "Convergence with inexact kernels", "statement": "If the phi-function kernels an integrator calls return phi_k(c dt A) v only up to a relative error kappa (errors of phi_2, phi_3 may be larger by 1/dt), the values returned by integrate at every output time are within C (dt^p + eps + kappa) of the solution, with C independent of dt, of the number of steps and of the kernels: kernel errors are not amplified by the number of steps.", "quantifier": "every smooth system and solution, every kernel implementation, step size below a threshold, number of steps, callbacks", "why_tests_cant": "all systems, kernels and numbers of steps", "anchors": ["ormatex_py/integrate_wrapper.py:integrate", "ormatex_py/ode_exp.py:ExpRBIntegrator.step", "ormatex_py/ode_exp.py:ExpSplitIntegrator.step"]}
{"id": "C104", "title": "Convergence of the dense methods with the package's own kernel", "statement": "integrate with exprb2_dense, exp1_dense, exp2_dense or exp3_dense, running the package's own scaling-and-squaring f_phi_k_sq_all, is within C dt^p of the solution at every output time (p = 2, 1, 2, 3) for every smooth system and all small steps, with no error floor.", "quantifier": "every smooth system and solution, step size below a threshold, number of steps, callbacks", "why_tests_cant": "all systems, step sizes and numbers of steps; the kernel's degree-4 Taylor polynomial could limit the order", "anchors": ["ormatex_py/integrate_wrapper.py:integrate", "ormatex_py/ode_exp.py:ExpRBIntegrator._step_exprb2_dense", "ormatex_py/ode_exp.py:ExpSplitIntegrator.step", "ormatex_py/matexp_phi.py:f_phi_k_sq_all"]}
{"id": "C105", "title": "Convergence of the Krylov methods with the package's own kernels", "statement": "integrate with exprb2, exprb3, exp1, exp2, exp3 (max_krylov_dim >= p) or epi2, epi3, pexprb4 (max_krylov_dim >= p + 4), running the package's own Arnoldi process, augmented systems and dense kernels with full orthogonalisation (exprb2, exprb3, exp1-3: any orthogonalisation depth iom, with constants depending on it), is within C (dt^p + min(1e-12, dt)) of the solution at every output time for every smooth system and all small steps; C does not depend on dt, the number of steps or the Krylov dimension.", "quantifier": "every smooth system and solution, Krylov dimension at least the order, step size below a threshold, number of steps, callbacks", "why_tests_cant": "all systems, step sizes and Krylov dimensions; the dense kernel works on matrices of norm about one however small dt is, so its error could limit the order", "anchors": ["ormatex_py/integrate_wrapper.py:integrate", "ormatex_py/ode_exp.py:ExpRBIntegrator._step_exprb2", "ormatex_py/ode_exp.py:ExpRBIntegrator._step_exprb3", "ormatex_py/ode_exp.py:ExpSplitIntegrator.step", "ormatex_py/matexp_krylov.py:phi_linop", "ormatex_py/matexp_phi.py:f_phi_k_appl", "ormatex_py/arnoldi_jax.py:arnoldi_lop"]}
{"id": "C106", "title": "Convergence of the integrators of the Rust crate", "statement": "Whole runs of the Rust integrators converge: on every compact interval on which the exact solution exists there are C and delta > 0 such that every run with dt <= delta succeeds and returns at every output time a state within C dt^q of the solution. Explicit Runge-Kutta of order p: q = p on autonomous systems and q = 1 on all smooth systems; integrate_wrapper_rs with bdf1, backeuler, bdf2 (q = 1) and cn (q = 2) on affine systems; epi2, exprb2 (q = 2) and epi3 (q = 3, despite its second order first step) on autonomous systems away from equilibria.", "quantifier": "every smooth system and solution of the class, small enough dt, number of steps, output interval", "why_tests_cant": "limit statement over all systems and all step sizes; the crate's tests compare one run with one solution", "anchors": ["src/ode_rk.rs:RkIntegrator", "src/ode_bdf.rs:BdfIntegrator", "src/ode_epirk.rs:EpirkIntegrator", "src/ormatex_rspy.rs:integrate_wrapper_rs"]}
{"id": "C107", "title": "Krylov error for every orthogonalisation depth", "statement": "For every linear operator, nonzero vector, Krylov dimension m >= 1 and orthogonalisation depth (iom), the Arnoldi process of the crate keeps A Q = Q H + residual with unit columns and an H banded by the depth, and apply_phi_linop, apply_linop and kiops_fixedsteps with the crate's own Pade kernel (and phi_linop of the Python package) return a vector within an explicit bound of phi_k(dt A) v: a truncation term that decays like a factorial in the dimension reached, plus the breakdown tolerance, plus the dense kernel's error.", "quantifier": "every operator, step, vector, dimension, depth, order", "why_tests_cant": "all operators, dimensions and depths; with incomplete orthogonalisation the basis is not orthogonal, so the usual exactness arguments do not apply", "anchors": ["src/matexp_krylov.rs:KrylovExpm", "src/arnoldi.rs:arnoldi_lop", "src/ode_sys.rs:ExtendedLinOp", "ormatex_py/matexp_krylov.py:phi_linop"]}
{"id": "C108", "title": "Arnoldi iterations and sparse helpers of mat_utils", "statement": "arnoldi_lo(A, t, scale, b, m) returns, for every operator acting as a matrix M, an orthonormal Q starting at b/|b| and an upper Hessenberg H with scale M Q = Q H + r e_K^T, K <= min(n, m), and reports a breakdown exactly when the last residual is below 1e-14; arnoldi(A, b, m) does so when the first m Krylov vectors are independent and returns NaN otherwise (always when m > n); dense_to_sprs and sparse_ident return the matrix they are given and the identity.", "quantifier": "every size, matrix, vector, dimension, scale", "why_tests_cant": "all operators and dimensions, including breakdowns", "anchors": ["src/mat_utils.rs:arnoldi", "src/mat_utils.rs:arnoldi_lo", "src/mat_utils.rs:dense_to_sprs", "src/mat_utils.rs:sparse_ident", "src/mat_utils.rs:MatrixLinOp"]}
{"id": "C109", "title": "Linear conservation laws survive the Rust integrators", "statement": "If w . f(t, y) = 0 for all t, y and the Jacobian operator keeps w . v = 0, then w . y has the same value at every output of integrate_wrapper_rs and of the explicit Runge-Kutta integrator, for every method, phi evaluator, Krylov dimension (however small), orthogonalisation depth, tolerance, step size and parallel schedule; more generally y - y0 never leaves a subspace that contains the right-hand sides and is mapped into itself by the Jacobians. Difference Jacobians satisfy the condition by themselves.", "quantifier": "every system with such a law, method, keyword values, dt, number of steps, schedule", "why_tests_cant": "all systems, kernels and step counts; no accuracy is assumed", "anchors": ["src/ormatex_rspy.rs:integrate_wrapper_rs", "src/ode_epirk.rs:EpirkIntegrator.step_order_2", "src/ode_bdf.rs:BdfIntegrator.step", "src/ode_rk.rs:RkIntegrator.step"]}
{"id": "C110", "title": "Example systems of the Rust crate", "statement": "lv_sys_jac succeeds at every state and is the derivative of lv_sys_rhs; the difference operator of get_fd_jac is exact on affine systems at nonzero states, off by exactly eps v0 v1 (-1, 1) on Lotka-Volterra and by eps v^2 on x^2 - 1; solutions of bateman_sys_rhs stay nonnegative and lose mass only by 0.001 n0, and the exponential integrators follow them exactly with difference Jacobians; rob_sys_rhs conserves x + y + z, and so does every run on it.", "quantifier": "every state, vector, step size, number of steps, method", "why_tests_cant": "all states and runs", "anchors": ["src/ode_utils.rs:lv_sys_jac", "src/ode_utils.rs:bateman_sys_rhs", "src/ode_utils.rs:rob_sys_rhs", "src/ode_test_common.rs:TestLvFdSys", "src/ode_test_common.rs:TestBatemanFdSys", "src/ode_test_common.rs:TestQuadSys"]}
{"id": "C111", "title": "The Rust exponential integrators converge with the crate's own kernels", "statement": "Runs of epi2 and exprb2 of the crate with its own Krylov projection and Pade kernel, for every orthogonalisation depth and every Krylov dimension m >= 2 (or a full space), succeed for all small dt and return at every output time a state within C (dt^2 + 1e-12 dt) of the solution of an autonomous system away from equilibria; C and the threshold do not depend on m, dt or the number of steps. With any other phi evaluator of relative error kappa the bound is C (dt^2 + kappa). Runs of epi3 with the crate's own kiops product, two or more unknowns and four or more Krylov vectors (or the whole augmented space), succeed and are within C (dt^3 + min(1e-12/dt, dt)), and within C (dt^3 + dt kappa1 + kappa) with any products of relative errors kappa1 (phi_1) and kappa (kiops).", "quantifier": "every smooth autonomous system and solution without equilibrium, Krylov dimension, depth, step size below a threshold, number of steps, output interval", "why_tests_cant": "limit statement over all systems, dimensions and step sizes; the Pade table is selected from a norm that stays of size one as dt goes to zero, so the kernel error could put a floor under the error", "anchors": ["src/ode_epirk.rs:EpirkIntegrator.step_order_2", "src/matexp_krylov.rs:KrylovExpm.apply_phi_linop", "src/matexp_krylov.rs:KrylovExpm.kiops_fixedsteps", "src/matexp_pade.rs:matexp", "src/arnoldi.rs:arnoldi_lop"]}
{"id": "C112", "title": "integrate with a Rust method returns the trajectory", "statement": "For every Rust method name, integrate returns a result whose len(res.y) equals len(res.t), whose res.y[j] is the state vector recorded at res.t[j] (res.t the output times, res.y[0] the initial state), and which honours the options given to it; for epi2_rs and exprb2_rs the returned vectors converge to the solution with order two.", "quantifier": "every system, initial state, dt, number of steps, Rust method, options", "why_tests_cant": "all dimensions and step counts (and it is false: the squeeze of the stacked columns drops the time axis for nsteps = 0 and the component axis for one-component systems; callbacks and tol_fdt are silently ignored)", "anchors": ["ormatex_py/integrate_wrapper.py:integrate", "src/ormatex_rspy.rs:integrate_wrapper_rs"]}
{"id": "C113", "title": "Runs of exp_pfd_rs and exprb2_pfd_rs stay within the table error", "statement": "On y' = A y and y' = A y + b with A diagonalisable with nonpositive eigenvalues, the state after m steps of any size dt >= 0 with the crate's CRAM evaluator is within the table error, grown by the number of steps, of the exact solution, whatever the stiffness and the parallel schedule; with the Pade evaluator exp_pfd_rs is within ((1 + 1e-15)^(k m) - 1) |exp(m dt A)| |y0| of the solution of every linear system.", "quantifier": "every system of this class, dt, number of steps, callbacks, schedule, evaluator", "why_tests_cant": "all operators, step sizes and numbers of steps (and it is false for exprb2_pfd_rs: the evaluator adds c0 v to phi_1, so very stiff components double every step)", "anchors": ["ormatex_py/ode_exp.py:ExpRBIntegrator._step_exp_pfd_rs", "ormatex_py/ode_exp.py:ExpRBIntegrator._step_exprb2_pfd_rs", "src/matexp_cauchy.rs:CauchyExpm.phik_dense_apply_cauchy", "src/matexp_pade.rs:matexp"]}
{"id": "C114", "title": "Interrupted and failed calls", "statement": "Whatever a call of an integrator raises, or wherever it is interrupted between two attribute writes: a step never changes time or history; repeating an interrupted step with the same size gives exactly the result of an uninterrupted one (Rosenbrock, Runge-Kutta, splitting incl. the dense phi cache); repeating an interrupted reset_ic, or calling reset_ic after any history of completed, failed and interrupted calls, gives an object indistinguishable from a new one; a later step of any size and a repeated accept_step behave as if the interruption had not happened.", "quantifier": "every class, system, kernel, history of completed, raising and interrupted calls, interruption point", "why_tests_cant": "all crash points of all histories (and the last clause is false: a dense splitting step of another size interrupted before its last write leaves phi matrices of the wrong size behind the old key, and accept_step is not atomic)", "anchors": ["ormatex_py/ode_exp.py:ExpSplitIntegrator._update_dense_phiLs", "ormatex_py/ode_exp.py:ExpSplitIntegrator.reset_ic", "ormatex_py/ode_sys.py:IntegrateSys.accept_step", "ormatex_py/ode_sys.py:IntegrateSys.reset_ic", "ormatex_py/ode_exp.py:ExpLejaIntegrator.step", "ormatex_py/ode_exp.py:ExpRBIntegrator.step", "ormatex_py/ode_explicit.py:RKIntegrator.step"]}
{"id": "C115", "title": "The scaling of the dense phi functions never overflows", "statement": "f_phi_k_sq_all(z, k) scales z by the power of two that brings its norm below 1/8, for every z whose entries are representable, whatever integer width JAX is configured for (32 bits by default), so that its accuracy does not depend on that setting.", "quantifier": "every size, matrix, order, integer width", "why_tests_cant": "all matrices and both JAX configurations; the tests enable 64-bit mode and use mild matrices (and it is false: 2**Nscale is an integer power that wraps to -2^(w-1) for 16|z| >= 2^(w-1), and the routine then returns the phi functions of -z)", "anchors": ["ormatex_py/matexp_phi.py:f_phi_k_sq_all", "ormatex_py/matexp_phi.py:f_phi_k_sq", "ormatex_py/ode_exp.py:ExpRBIntegrator._step_exprb2_dense"]}
{"id": "C116", "title": "Convergence of the Leja integrators", "statement": "integrate with epi2_leja_re, epi2_leja_im (p = 2) or epi3_leja_im (p = 3), for a tolerance tol, coefficients of relative error theta and any substep history the controller chooses, is within C (dt^p + (tol + theta)/dt) of the solution at every output time if it returns; it does return for every small dt when the interval is given and there are enough nodes (2000 < tol 2^(n_leja - 2)). C does not depend on dt, the number of steps, the options or the random start of the power iteration.", "quantifier": "every smooth system and solution, option set, interval, step size below a threshold, number of steps, callbacks, start vector of the power iteration", "why_tests_cant": "limit statement over all systems, tolerances and substep histories", "anchors": ["ormatex_py/integrate_wrapper.py:integrate", "ormatex_py/ode_exp.py:ExpLejaIntegrator.step", "ormatex_py/matexp_leja.py:real_leja_expmv", "ormatex_py/matexp_leja.py:leja_shift_scale"]}
{"id": "C117", "title": "rk4 runs in floating-point arithmetic", "statement": "integrate with rk4, in any machine arithmetic whose operations have relative error u and underflow eta on results of bounded size (binary64 does), with a right-hand side computed to accuracy kappa and a starting value accurate to eps0, returns for every small dt with (u + eta)/dt small: recorded times within C (u + eta)/dt of t0 + i dt and states within C (dt^4 + (u + eta)/dt + kappa + eps0) of the solution; C does not depend on dt, the number of steps or the arithmetic. If dt is below half a unit in the last place of t0 the recorded time never advances.", "quantifier": "every smooth system and solution, arithmetic (also a different one per operation, as with contraction), computed right-hand side, starting value, step size and number of steps", "why_tests_cant": "statement about all arithmetics and all step sizes; tests run in one format and compare with tolerances that hide the rounding floor", "anchors": ["ormatex_py/ode_explicit.py:RKIntegrator._step_rk4", "ormatex_py/ode_explicit.py:RKIntegrator.step", "ormatex_py/integrate_wrapper.py:integrate_ormatex"]}
{"id": "C118", "title": "The assembled advection-diffusion systems", "statement": "AdDiffSEM(mesh, p, params).assemble() gives, for every order p = 1..4, mesh and element-wise constant nu, vel != 0, tau: the exactly integrated weak form of u_t + (vel u - (nu + tau h vel/2) u_x)_x = 0 with natural outflow on the right and identity rows at the left vertex, zero load, and the lumped masses; the masses are positive for |tau| below twice the end weight (always for tau = 0). On periodic meshes every run of every method conserves sum Ml_i u_i, for variable fields too. With constant velocity constants are steady states and the energy sum Ml_i u_i^2 never grows (zero inflow if there are ends); with p = 1 and element Peclet numbers at most 2 solutions and runs of the exponential methods stay between the bounds of the initial state, for every step size.", "quantifier": "every mesh (lengths, numbering, number of elements), order, parameters, state, method, step size, number of steps", "why_tests_cant": "all meshes, parameters and runs; tests assemble one mesh", "anchors": ["ormatex_py/progression/advection_diffusion_1d.py:AdDiffSEM.assemble", "ormatex_py/progression/advection_diffusion_1d.py:AffineLinearSEM", "ormatex_py/progression/element_line_pp_nodal.py:GLL_quad"]}
{"id": "C119", "title": "Reaction-advection-diffusion systems keep concentrations nonnegative", "statement": "The systems RAD_SEM of rad_1d_2s, rad_1d_3s and rad_1d_9s and the NonlinearBateman tank, with the species lists and libraries they ship: every solution that starts nonnegative exists for all times, is unique and stays nonnegative (meshes with linear elements, element Peclet numbers at most 2; beyond that bound - which the shipped nu = 1e-8 exceeds - a concentration becomes negative at once). On periodic meshes, whatever the fields, every run of every method keeps every weighted total that decay and sources leave unchanged pointwise, and along nonnegative solutions the total amount of two and three species never grows. For a decay chain the transported profile times analytic_bateman_single_parent is the solution, and the Rosenbrock and EPI methods with exact kernels return it at every output time for every step size.", "quantifier": "every mesh, parameters within the bound, flux, initial state, time interval, method, step size, number of steps", "why_tests_cant": "all states, meshes and times; the examples plot one run", "anchors": ["ormatex_py/progression/rad_1d_2s.py:RAD_SEM", "ormatex_py/progression/rad_1d_3s.py:RAD_SEM", "ormatex_py/progression/rad_1d_9s.py:RAD_SEM", "ormatex_py/progression/bateman_nonlin_sys.py:NonlinearBateman", "ormatex_py/progression/species_source_sink.py:mxf_liq_vapor_nonlin"]}
{"id": "C120", "title": "Convergence without smoothness and with a wrong Jacobian", "statement": "Whatever (bounded) Jacobian the user or autodiff supplies, correct or not, whatever constant operator a splitting uses, and whatever tolerance, the runs of every Rosenbrock/EPI method, every splitting method and rk4 on a right-hand side that is only locally Lipschitz (kinks allowed) succeed for all small dt and are, at every output time, within C (dt + kappa) of the solution (kappa the relative accuracy of the phi kernels). In particular the shipped two-, three- and nine-species systems with their clipped evaporation term and the tank: every method's reported concentrations are within C (dt + kappa) of the unique nonnegative solution, hence never below -C (dt + kappa).", "quantifier": "every locally Lipschitz system and solution, bounded Jacobian, linear part, kernel, tolerance, step size below a threshold, number of steps, callbacks, method", "why_tests_cant": "all systems with kinks and all wrong Jacobians; a wrong Jacobian passes a test on one step size", "anchors": ["ormatex_py/integrate_wrapper.py:integrate", "ormatex_py/ode_exp.py:ExpRBIntegrator.step", "ormatex_py/ode_exp.py:ExpSplitIntegrator.step", "ormatex_py/ode_explicit.py:RKIntegrator.step", "ormatex_py/ode_sys.py:CustomJacLinOp", "ormatex_py/progression/rad_1d_2s.py:RAD_SEM", "ormatex_py/progression/species_source_sink.py:mxf_liq_vapor_nonlin"]}
{"id": "C121", "title": "The implicit methods of the Rust crate on nonlinear systems", "statement": "integrate_wrapper_rs with bdf1, backeuler, bdf2 or cn, on any right-hand side that is Lipschitz near the solution (time-dependent, kinks allowed), with any bounded matrices handed out by fjac and any linear solver of relative residual eta: for all small dt and eta every call succeeds and every returned state is within C (dt + eta) of the solution at its time, although Newton's stopping test compares norms without an absolute value and may stop after one correction. On smooth autonomous systems with their exact Jacobian, cn is within C (dt^2 + eta); on time-dependent systems it is of order one only (for y' = 2t the error is exactly 2 T dt).", "quantifier": "every system, solution, Jacobian operator, linear solver, method, step size, number of steps, output interval, options", "why_tests_cant": "all nonlinear systems, solver errors and step counts at once; the tests integrate one system with one step size and a loose tolerance", "anchors": ["src/newton.rs:jac_newton", "src/ode_bdf.rs:step_order_1", "src/ode_bdf.rs:step_order_2", "src/ode_bdf.rs:step_cn", "src/ormatex_rspy.rs:integrate_wrapper_rs"]}
{"id": "C122", "title": "The explicit and exponential methods of the Rust crate without smoothness and with a wrong Jacobian", "statement": "On any right-hand side that is only Lipschitz near the solution (time-dependent, kinks allowed): every run of the crate's Runge-Kutta integrators of order 1 to 4 with small dt succeeds and is within C dt of the solution at every output time. With any bounded matrices handed out by fjac and phi products of relative error kappa, every run of epi2, exprb2, exprb3 and epi3 that returns is within C (dt + kappa); epi2 and exprb2 return if the solution stays away from equilibria, epi3 if it does not start at one. Through integrate_wrapper_rs with the crate's own Krylov-Pade products the bound is C dt for every Krylov dimension (at least two for epi3, whose increment is silently dropped with one) and orthogonalisation depth.", "quantifier": "every system, solution, Jacobian operator, phi evaluator, Krylov dimension, depth, tolerance, step size below a threshold, number of steps, output interval", "why_tests_cant": "all systems with kinks, all wrong Jacobians and all step counts; a wrong stage time or weight passes a test with one step size", "anchors": ["src/ode_rk.rs:RkIntegrator.step", "src/ode_epirk.rs:EpirkIntegrator.step_order_2", "src/ode_epirk.rs:step_exprb32", "src/ode_epirk.rs:step_order_3", "src/matexp_krylov.rs:KrylovExpm.apply_phi_linop", "src/matexp_krylov.rs:KrylovExpm.kiops_fixedsteps", "src/ormatex_rspy.rs:integrate_wrapper_rs"]}
{"id": "C123", "title": "Incomplete orthogonalisation is complete for symmetric operators", "statement": "For every symmetric operator, nonzero start vector, Krylov dimension and orthogonalisation depth iom >= 1, arnoldi_lop of the crate and of the Python package return a fully orthonormal basis Q and H = Q^T (scale A) Q, symmetric, tridiagonal, and negative semidefinite if the operator is; the residual is orthogonal to Q, below 1e-12 after an early stop and zero when Q fills the space. Hence, with a Krylov dimension of at least the system size, the product exp(dt A) v of the Python package is within 1e-12 |v| and phi_l(dt A) v (l <= 2) of the binding with expmv_method cram within (tol_l + dt 1e-12) |v| of the exact one for every symmetric negative semidefinite A, whatever its stiffness. expmv_method cram and cram_16 select the rational approximation, parabolic the contour, and any other name silently Pade.", "quantifier": "every size, symmetric operator, vector, dt >= 0, depth >= 1, dimension, schedule, option value", "why_tests_cant": "all operators and depths; with a depth of 1 or 2 a test on a general matrix sees loss of orthogonality, and one on a mild matrix sees no stiffness", "anchors": ["src/arnoldi.rs:arnoldi_lop", "ormatex_py/arnoldi_jax.py:arnoldi_lop", "src/matexp_krylov.rs:KrylovExpm.apply_phi_linop", "src/ormatex_rspy.rs:select_solver"]}
{"id": "C124", "title": "Stiff linear systems through the binding with CRAM", "statement": "integrate_wrapper_rs with method epi2 or exprb2 and expmv_method cram on y' = M y + b, M symmetric negative semidefinite with norm rho, Krylov dimension at least the size and iom >= 1: every call that returns has output states within N dt eps (1 + rho dt eps)^N |M y0 + b| of the solution, eps = 4.1e-14 + 1e-12 dt, for every step size, number of steps, tolerance, output stride and parallel schedule; no step-size restriction. The call returns if the initial state is not an equilibrium and rho dt eps < exp(-rho dt).", "quantifier": "every system of this class, dt >= 0, number of steps, keyword values, schedule", "why_tests_cant": "all stiffnesses, step sizes and numbers of steps", "anchors": ["src/ormatex_rspy.rs:integrate_wrapper_rs", "src/ormatex_rspy.rs:select_solver", "src/ode_epirk.rs:EpirkIntegrator.step_order_2", "src/matexp_cauchy.rs:gen_cram_expm"]}
{"id": "C125", "title": "The parabolic contour is accurate to its stated digits, also for stiff operators", "statement": "The evaluator built by gen_parabolic_expm(24) (expmv_method = 'parabolic') returns exp(dt A) v, phi_1(dt A) v and phi_2(dt A) v with relative error at most 2.9e-11, 2.7e-9 and 4.7e-8 in eigenvector coordinates whenever dt times every eigenvalue of the diagonalisable matrix A is real and nonpositive, for every schedule of the parallel sum. Through the Krylov products and integrate_wrapper_rs with 'epi2' or 'exprb2', a linear dissipative system of any stiffness is integrated to that accuracy times the elapsed time.", "quantifier": "all sizes, matrices with real nonpositive spectrum (any norm), step sizes, vectors, parallel schedules, step counts", "why_tests_cant": "the error of a fixed quadrature rule must be bounded over the whole negative half line and for every matrix; a test samples a few eigenvalues, and the contour's digits are not written anywhere in the code", "anchors": ["src/matexp_cauchy.rs:gen_parabolic_expm", "src/matexp_cauchy.rs:phik_dense_apply_cauchy", "src/matexp_krylov.rs:apply_phi_linop", "src/ormatex_rspy.rs:integrate_wrapper_rs"]}
{"id": "C126", "title": "Implicit methods on linear kinetics: nonnegative concentrations and no created mass", "statement": "integrate_wrapper_rs with bdf1 or backeuler on linear kinetics y' = A y + b (nonnegative transfer rates, no species creates mass, nonnegative source b, e.g. every decay chain) and an exact linear solver returns for every step size, and every state of the run is nonnegative; the (weighted) mass grows at most as fast as the source feeds it and exactly so when the system is closed. cn does so for every dt with dt/2 |A_ii| <= 1. (For larger dt cn, and for any number of steps >= 2 bdf2, can return negative concentrations.)", "quantifier": "every size, kinetics matrix, weights, source, nonnegative initial state, dt >= 0, number of steps, output stride", "why_tests_cant": "all rates, however stiff, and all step sizes and step counts", "anchors": ["src/ode_bdf.rs:BdfIntegrator.step_order_1", "src/ode_bdf.rs:BdfIntegrator.step_cn", "src/ode_bdf.rs:BdfIntegrator.step", "src/ormatex_rspy.rs:integrate_wrapper_rs"]}
{"id": "C127", "title": "The Pade tables of the partial-fraction evaluator: accuracy and damping", "statement": "f_phi_k_pfd(z, b, k) with each of the 31 Pade tables of pfd_dict returns phi_k(z) b, k <= 2, up to a stated tolerance (1e-12 for pade_5_6, pade_0_14, pade_0_16; 19 for pade_16_16, whose decimals do not suffice) in eigenvector coordinates whenever the eigenvalues of z lie in [-1, 0]; the 21 usable tables with denominator of higher degree halve, at least, every component with eigenvalue below -1. Hence runs of exp_pfd on y' = A y with any of these 21 tables keep a relative error of (1 + tol)^m - 1 in slow components and forget fast ones like 2^-m, for every step size and number of steps; exprb2_pfd accordingly on slow components.", "quantifier": "every table, size, diagonalisable matrix with real nonpositive spectrum, vector, dt >= 0, number of steps, callbacks", "why_tests_cant": "a continuum of eigenvalues for 31 tables of decimals; a test samples a few matrices and the default table only", "anchors": ["ormatex_py/matexp_phi.py:f_phi_k_pfd", "ormatex_py/matexp_phi_pfd_dict.py:pfd_dict", "ormatex_py/ode_exp.py:ExpRBIntegrator._step_exp_pfd", "ormatex_py/ode_exp.py:ExpRBIntegrator._step_exprb2_pfd"]}
{"id": "C128", "title": "The Leja interval covers the spectrum", "statement": "leja_shift_scale(A, dim, max_power_iter, b0, scale_factor) is documented to place the Leja points on an interval encompassing the spectrum. On a symmetric negative semidefinite operator with extremal eigenvalue -rho the interval lies in [-scale_factor rho, 0]; it contains [-rho, 0] whenever the reported iteration count k satisfies scale_factor theta (1 - theta^(2(k-1)) |b0|^2/(v.b0)^2) >= 1 for some theta, v the extremal unit eigenvector, with no assumption on spectral gaps. Unconditionally it must cover the spectrum for every start vector with a component along v.", "quantifier": "every size, symmetric negative semidefinite operator, start vector, iteration limit, safety factor", "why_tests_cant": "the stopping test is absolute (0.05) and two successive estimates may agree near the wrong eigenvalue; no finite sample of operators or start vectors shows it does not", "anchors": ["ormatex_py/matexp_leja.py:power_iter", "ormatex_py/matexp_leja.py:leja_shift_scale"]}
{"id": "C129", "title": "Checkpoint and restart", "statement": "A run of a + b steps gives the same times, states, callback calls and errors as a run of a steps followed by a run of b steps of a newly constructed integrator from the last recorded time and state: for the Rosenbrock methods other than epi3, the Runge-Kutta methods, the splitting methods with a constant linear part, and through the Rust binding for bdf1, backeuler, cn, epi2, exprb2, exprb3. epi3 and bdf2 (multistep) and the dense splitting methods with a state-dependent linear part (stale cache) are not restartable.", "quantifier": "every system, kernel, method, start, step size, numbers of steps a and b, callbacks and world, including runs that raise", "why_tests_cant": "equality of two whole executions for every split point, system and callback behaviour, including failing ones", "anchors": ["ormatex_py/integrate_wrapper.py:integrate_ormatex", "ormatex_py/ode_exp.py:ExpRBIntegrator", "ormatex_py/ode_exp.py:ExpSplitIntegrator", "src/ormatex_rspy.rs:integrate_wrapper_rs"]}
{"id": "C130", "title": "Implicit runs with an inexact linear solver on stiff systems", "statement": "For an affine system y' = A y + b with a dissipative A of any stiffness, and a linear solver that only promises the relative residual it is asked for, a call of the Rust binding with bdf1, backeuler or cn and any step size dt >= 0 returns, and every state of the run is within 1e-8 * k*dt * (1+2e-8)^k * |A y0 + b| of the exact implicit formula; two such runs from different starts never separate beyond their initial distance by more than these residual terms.", "quantifier": "every dimension up to the iteration limit of the solver, dissipative matrix, source, initial state, step size, number of steps, output interval and linear solver that meets its residual contract", "why_tests_cant": "the solver is a black box with a residual contract and stiffness is unbounded: tests see one solver on a few matrices", "anchors": ["src/newton.rs:jac_newton", "src/ode_bdf.rs:BdfIntegrator", "src/ormatex_rspy.rs:integrate_wrapper_rs"]}
{"id": "C131", "title": "A priori error of the implicit methods on stiff linear systems", "statement": "For y' = A y + b with a dissipative A of any stiffness, and a linear solver known only by its residual contract, runs of bdf1/backeuler through the Rust binding differ from the solution at t0 + k dt by at most k dt (dt/2 |A(A y0+b)| + 1e-8 (1+2e-8)^k |A y0+b|), and runs of cn by at most k dt (dt^2/12 |A A (A y0+b)| + 1e-8 (1+2e-8)^k |A y0+b|): explicit constants, no step size restriction.", "quantifier": "every dissipative matrix, source, initial state, step size dt >= 0, number of steps, output interval, linear solver meeting its contract", "why_tests_cant": "an error bound with explicit constants, uniform in the stiffness and the step size, against the exact solution", "anchors": ["src/ode_bdf.rs:BdfIntegrator", "src/newton.rs:jac_newton", "src/ormatex_rspy.rs:integrate_wrapper_rs"]}
{"id": "C132", "title": "Stiffness-uniform error of the splitting methods", "statement": "For a semilinear problem y' = L y + g(t, y) whose constant linear part L is dissipative (however large its norm), with g Lipschitz in y with constant l and changing at most at the rate M along the solution, integrate with exp1 or exp1_dense, exact phi evaluators and any step size dt > 0 returns at every output time t0 + k dt a state within exp(l k dt) * k dt * M dt / 2 of the solution; if g along the solution is twice differentiable with second derivative bounded by M2, exp2, exp3 and their dense variants are within exp(5/2 l k dt) * k dt * dt^2 (M2/2 + l M/4)(1 + l dt/4). No norm of L and no step size restriction enters.", "quantifier": "every dimension, dissipative linear part, nonlinearity, initial state, step size, number of steps, number of output times and callbacks", "why_tests_cant": "the reason to choose an exponential method is that the error does not grow with the stiffness; a test sees one stiffness and no explicit constant", "anchors": ["ormatex_py/ode_exp.py:ExpSplitIntegrator.step", "ormatex_py/integrate_wrapper.py:integrate_ormatex"]}
{"id": "C133", "title": "Stiffness-uniform error of the exponential Rosenbrock-Euler methods", "statement": "For a nonlinear problem y' = f(t, y) whose Jacobian is dissipative (however large its norm), integrate with exprb2, epi2, exprb2_dense, exprb2_pfd or exprb2_pfd_rs, exact derivatives, exact phi evaluators and any step size dt > 0 returns at every output time T after t0 a state within exp(T (l + (kappa B + mu) dt)) * T * (M2/2 dt^2 + tau dt) of the solution, where the constants bound the speed of the solution, the variation of the Jacobian and of the time derivative with the state, the second-order remainder along the solution and the time derivative the method may ignore, but not the Jacobian; the same bound holds for epi2 and exprb2 of the Rust crate on autonomous problems as long as no equilibrium lies within the bound of the solution.", "quantifier": "every dimension, problem with these constants, initial state, step size, number of steps, output interval and callbacks", "why_tests_cant": "an explicit error bound that is uniform in the stiffness and the step size, for all problems of a class", "anchors": ["ormatex_py/ode_exp.py:ExpRBIntegrator._step_exprb2", "ormatex_py/ode_exp.py:ExpRBIntegrator._step_epi2", "src/ode_epirk.rs:EpirkIntegrator.step_order_2"]}
{"id": "C134", "title": "Third order of exprb3, uniformly in the stiffness", "statement": "On a problem as in C133 whose linearization remainder along the solution is quadratic up to third-order terms (constant M3), integrate with exprb3 and any step size dt > 0 returns at every output time T after t0 a state within exp(T (2g + l(1 + dt g))) * T * ((2 M3 + l M2/2) dt^3 + (2 + l dt) tau dt) of the solution, g = l + (kappa B + mu) dt: the full order three, with constants that do not involve the size of the Jacobian and without step size restriction.", "quantifier": "every dimension, problem with these constants, initial state, step size, number of steps and callbacks", "why_tests_cant": "order reduction on stiff problems is exactly what tests at one stiffness miss; the bound is explicit and uniform", "anchors": ["ormatex_py/ode_exp.py:ExpRBIntegrator._step_exprb3", "ormatex_py/integrate_wrapper.py:integrate_ormatex"]}
{"id": "C135", "title": "Linearly related systems have linearly related runs", "statement": "If a matrix S (a change of units or coordinates, a permutation of the components, a lumping or projection; not necessarily square or invertible) maps the vector field of one system to that of another, with the time axis shifted by c, then integrating the second from S y0 at t0 + c gives exactly the image of the run of the first from y0 at t0: every output time shifted by c, every output state mapped by S. This holds for all one-step Rosenbrock methods, epi3, the splitting methods (with linear parts that S intertwines) and rk4, whatever the step size, the number of steps and the callbacks; for methods that ignore small time derivatives, as long as the tolerance is disabled, the system is autonomous or S preserves the maximum norm (so always for pure time shifts and permutations).", "quantifier": "every pair of related systems of any dimensions, every S and c, initial state, step size, number of steps, callbacks", "why_tests_cant": "a relation between two runs, for all pairs of systems; tests compare single trajectories with references", "anchors": ["ormatex_py/ode_exp.py:ExpRBIntegrator.step", "ormatex_py/ode_exp.py:ExpSplitIntegrator.step", "ormatex_py/ode_explicit.py:RKIntegrator.step", "ormatex_py/integrate_wrapper.py:integrate_ormatex"]}
{"id": "C136", "title": "Fourth order of pexprb4, uniformly in the stiffness", "statement": "On a problem as in C133 whose linearization remainder along the solution is cubic up to fourth-order terms (constant M4), and for which the part of f that a nearby Jacobian misses is Lipschitz (constant l, and l2 times the distance to the point of linearization), integrate with pexprb4 and any step size dt > 0 returns at every output time t0 + k dt a state within exp(k dt (20 g + 38 l (1 + dt g))) * k dt * (20 M4 dt^4 + 38 l2 D (dt + 3 D) + 20 tau dt) of the solution, g = l + (kappa B + mu) dt, D = M2/2 dt^3 + tau dt^2: the full order four, with constants that do not involve the size of the Jacobian and without step size restriction.", "quantifier": "every dimension, problem with these constants, initial state, step size, number of steps and callbacks", "why_tests_cant": "order reduction on stiff problems is exactly what tests at one stiffness miss; the bound is explicit and uniform", "anchors": ["ormatex_py/ode_exp.py:ExpRBIntegrator._step_pexprb4", "ormatex_py/integrate_wrapper.py:integrate_ormatex"]}
{"id": "C137", "title": "Implicit runs on nonlinear dissipative systems of any stiffness", "statement": "For a nonlinear autonomous system whose solutions never move apart, with Newton matrices J(y) that are dissipative (however large) and miss at most a Lipschitz part of f with constant l, and a linear solver known only by its residual contract: bdf1 and backeuler through the Rust binding return for every step size with q <= 1/2, two runs never separate by more than their starts plus k dt q (1+2q)^k (|f(y0)| + |f(z0)|), and a run differs from a solution whose speed changes at most at the rate M by at most k dt (M/2 dt + q (1+2q)^k |f(y0)|), q = 1e-8 + dt l (1+1e-8). No norm of the Jacobian and no Lipschitz constant of f enters.", "quantifier": "every dimension up to the iteration limit of the solver, system with these constants, initial states, step size, number of steps, output interval, linear solver meeting its contract", "why_tests_cant": "nonlinear stability (B-stability) of the implemented iteration, with its premature stopping test and inexact solves, for all systems and stiffnesses of a class", "anchors": ["src/newton.rs:jac_newton", "src/ode_bdf.rs:BdfIntegrator", "src/ormatex_rspy.rs:integrate_wrapper_rs"]}
{"id": "C138", "title": "bdf2 runs on nonlinear dissipative systems of any stiffness", "statement": "On a system as in C137, bdf2 through the Rust binding returns for every step size with q <= 1/2, two runs never separate by more than 5/3 times the distance of their starts plus k dt 2q (1+2q)^(k+2) (|f(y0)| + |f(z0)|), and a run differs from a solution whose speed changes at most at the rate M by at most k dt (M dt + 2q (1+2q)^(k+2) |f(y0)|), q = 1e-8 + dt l (1+1e-8), although only its second step uses the two-step formula. No norm of the Jacobian and no Lipschitz constant of f enters.", "quantifier": "every dimension up to the iteration limit of the solver, system with these constants, initial states, step size, number of steps, output interval, linear solver meeting its contract", "why_tests_cant": "nonlinear stability of the implemented sequence of formulas and of the implemented iteration, for all systems and stiffnesses of a class", "anchors": ["src/newton.rs:jac_newton", "src/ode_bdf.rs:BdfIntegrator", "src/ormatex_rspy.rs:integrate_wrapper_rs"]}
{"id": "C139", "title": "Second order of cn on nonlinear dissipative systems of any stiffness", "statement": "On a system as in C137 whose Newton matrices miss f only to second order (constant l2), cn (Crank-Nicolson) through the Rust binding returns for every step size with q = 1e-8 + dt/2 l (1+1e-8) <= 1/2, and a run differs from a solution whose acceleration changes at most at the rate M by at most k dt (M/12 dt^2 + 1e-8 S + l2 dt^2 S^2), S = (1+2q)^k |f(y0)|: second order up to the fixed tolerance of Newton's method; two runs never separate by more than |y0 - z0 - dt/2 (f(y0) - f(z0))| plus the residuals k dt q (1+2q)^k (|f(y0)| + |f(z0)|). No norm of the Jacobian and no Lipschitz constant of f enters the error bound.", "quantifier": "every dimension up to the iteration limit of the solver, system with these constants, initial states, step size, number of steps, output interval, linear solver meeting its contract", "why_tests_cant": "stiff order of the implemented iteration (one Newton correction may end it), for all systems and stiffnesses of a class", "anchors": ["src/newton.rs:jac_newton", "src/ode_bdf.rs:BdfIntegrator", "src/ormatex_rspy.rs:integrate_wrapper_rs"]}
{"id": "C140", "title": "Runs of the Rust integrators turn with orthogonal coordinates", "statement": "If an orthogonal matrix S (rotation, reflection, permutation, change of signs) maps the vector field and the Jacobian operator of one system to those of another whose clock starts c later, then integrating the second from S y0 at t0 + c through the Rust binding gives exactly the turned result of integrating the first from y0 at t0: every output time shifted by c, every output state multiplied by S, or the same failure. For every method, every option (Krylov dimension, orthogonalization depth, dense evaluator, output interval), so also when the Krylov approximations are poor; for the implicit methods as far as the linear solver turns with the coordinates; for the exponential methods with a tolerance for small time derivatives (the default) on non-autonomous systems only if S keeps the largest entry (permutations, signs).", "quantifier": "every dimension, pair of related systems, orthogonal S, shift, initial state, step size, number of steps, options", "why_tests_cant": "a relation between two runs, including all truncation errors and failures, for all systems and coordinate changes", "anchors": ["src/ormatex_rspy.rs:integrate_wrapper_rs", "src/ode_epirk.rs:EpirkIntegrator", "src/ode_bdf.rs:BdfIntegrator", "src/matexp_krylov.rs:KrylovExpm", "src/arnoldi.rs:arnoldi_lop"]}
{"id": "C141", "title": "Exponential runs of the Rust integrators do not depend on the units", "statement": "Expressing all components of the state in a unit that is smaller by a positive factor a (and in orthogonal coordinates, with a shifted clock) does not change what the exponential methods epi2, exprb2 and exprb3 of the Rust binding compute: integrating the converted system from the converted state returns exactly the converted states at the shifted times, or the same failure. For every factor, every option (Krylov dimension, orthogonalization depth, dense evaluator, output interval), so also when the Krylov approximations are poor, on autonomous systems or with the tolerance for small time derivatives disabled.", "quantifier": "every dimension, positive factor, pair of systems related by the units, initial state, step size, number of steps, options", "why_tests_cant": "a relation between two runs, including all truncation errors and failures, for all systems and all factors", "anchors": ["src/ormatex_rspy.rs:integrate_wrapper_rs", "src/ode_epirk.rs:EpirkIntegrator", "src/matexp_krylov.rs:KrylovExpm", "src/arnoldi.rs:arnoldi_lop"]}
{"id": "C142", "title": "Krylov runs of the Python integrators do not depend on units and orthogonal coordinates", "statement": "Expressing all components of the state in a unit that is smaller by a positive factor a, in orthogonal coordinates (rotation, reflection, permutation) and with a shifted clock does not change what the Krylov-based integrators of the Python package compute: constructing exprb2, exprb3, pexprb4, epi2 or epi3 (with small time derivatives not neglected by an absolute tolerance, or autonomous systems with the default tolerance), or exp1, exp2 or exp3, from the converted state and taking any number of steps gives exactly the converted times, states and histories, or the same exception. For every Krylov dimension and orthogonalization depth and any dense evaluator, so also when the Krylov approximations are poor or break down.", "quantifier": "every dimension, positive factor, orthogonal matrix, shift, pair of related systems, parameters, initial state, step size, number of steps, Krylov dimension, depth", "why_tests_cant": "a relation between two runs, including all truncation errors and failures, for all systems, factors and coordinates", "anchors": ["ormatex_py/ode_exp.py:ExpRBIntegrator", "ormatex_py/ode_exp.py:ExpSplitIntegrator", "ormatex_py/matexp_krylov.py:phi_linop", "ormatex_py/matexp_krylov.py:kiops_fixedsteps", "ormatex_py/arnoldi_jax.py:arnoldi_lop"]}
{"id": "C143", "title": "The explicit Rust integrator on affinely related systems", "statement": "If an affine map of the state y -> S y + b (a change of units with an offset, a permutation, a lumping of components; S of any shape) and a shift c of the clock turn the vector field of one system into that of another, then constructing the explicit Runge-Kutta integrator of the Rust crate with any order and taking any number of steps on the second system from S y0 + b at t0 + c gives exactly the converted clock and history of the first from y0 at t0, or the same panic.", "quantifier": "every pair of dimensions, matrix S, offset, shift, pair of related systems, initial state, order, step size, number of steps", "why_tests_cant": "a relation between two runs for all systems and all affine maps", "anchors": ["src/ode_rk.rs:RkIntegrator"]}
