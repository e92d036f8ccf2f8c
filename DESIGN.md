# Formal model of ORNL/ORMATEX in Lean 4 — design

## 1. What is modelled, and how

Model of the Python package `ormatex_py` (the library in `/repo/ormatex_py`, incl. the example systems in
`progression/`) and of the Rust crate in `/repo/src` that the `_rs` methods call.  Conventions, valid for every module
under `lean/Verif/Model`:

* floats are exact reals (`ℝ`) or complex numbers (`ℂ`); rounding, overflow, NaN and inf are **not** modelled, except
  for `RKIntegrator`, which has a second model with every operation rounded (`Model/Rounded.lean`, C117).
  Where the code relies on an IEEE special value (`log 0 = -inf`, `1/0 = inf`, `nan` comparisons) the comment on the
  definition says what the model does instead; divisions by zero are covered by an explicit guard in the theorem or an
  explicit failure value in the model (Rust: `RsErr.nan`).
* vectors are `Fin n → ℝ`, matrices are Mathlib `Matrix`; `A @ v` is `A *ᵥ v`; `jnp.linalg.norm(v,2)` is
  `√(v ⬝ᵥ v)`; `.at[i].set` is `Function.update`; a `fori_loop` is a fold over the index list, a `while` /
  `lax.while_loop` is a fuel-recursion whose fuel is proved sufficient, or structural recursion.
* Python exceptions are values: `Except PyErr α`; Rust panics and `StepError`s likewise (`Except RsErr α`).
* `deque(maxlen=p).appendleft` is `(x :: q).take p`; a Rust `VecDeque::with_capacity` is an unbounded list.
* keyword dictionaries are modelled at the granularity the code uses them: an RHS call gets either no keyword
  arguments or `frhs_kwargs=d` (`Option P`).
* integrator objects are structures, methods return the updated structure; the intermediate states (attribute writes in program
  order) are listed separately (`Model/Writes.lean`) for calls that raise or are interrupted.
* external code is a parameter: `jax.scipy.linalg.expm` (assumption where used: it is the matrix exponential),
  `jax.linearize` (value and Fréchet derivative), QR / LU / GMRES solves (solve the system), `numpy` sqrt on the unit
  circle (principal root), diffrax (only the arguments it is called with), the thread pool and rayon (any interleaving,
  any split), the user's system (any function), the callbacks, finite-element assembly (any matrix; modelled for C118).
  These are hypotheses of the theorems or fields of a parameter structure, never axioms.

## 2. Trusted base

* Lean 4.33 kernel; Mathlib's definitions; axioms `propext`, `Classical.choice`, `Quot.sound` only
  (section 6; no compiled evaluation, no axioms of our own).
* The faithfulness of the hand-written model: each definition cites the file and lines it models.
* Real arithmetic in place of floating point (everywhere except in C117).
* Not modelled: jit compilation and its caches, printing, timing, plotting (`_example_*`, `plot_*`, `main*`), diffrax
  internals, skfem (its assembly loop, `enforce` and line elements are modelled from the documentation in `Model/Sem.lean`; elsewhere mass and stiffness matrices are arbitrary matrices), random start vectors (arbitrary
  vectors), GIL and numpy conversion of the Rust bindings (`PySysWrapped` is the system itself), rounding.

### Modelled functions, file by file

| file | modelled | not modelled |
|------|----------|--------------|
| ode_sys.py | all LinOp classes, `OdeSys`/`OdeSplitSys` interface, `IntegrateSys` | sparse storage, mass matrix hook `fm` (never called) |
| ode_exp.py | all three integrator classes, every step function, caches, order of attribute writes | `_executor` life time |
| ode_explicit.py | all | – |
| integrate_wrapper.py | `integrate` dispatch, `integrate_ormatex`, arguments of diffrax | diffrax itself, `IntegrateResult` (a record) |
| matexp_phi.py, matexp_phi_pfd_dict.py | all routines; all 47 tables of `pfd_dict` digit for digit (literals as exact decimals) | rounding of the literals to doubles |
| arnoldi_jax.py, matexp_krylov.py | all | – |
| matexp_poly.py | lines 32–415 | `leja_coeffs_ts_phi_jax` (308–341): it assigns in place to an immutable JAX array and always raises |
| matexp_leja.py | points (real, conjugate, circle, ellipse, imaginary axis), power iteration, real/complex evaluation, substepping, `build_a_tilde` | `_example_*`, `plot_*` |
| progression/* | Bateman matrices and analytic solution, the species lists and libraries of the four reaction systems, transfer terms, layout helpers, RHS and splitting of the 1-D systems, torus distance, quadrature, basis cache, Lotka–Volterra, assembly of the advection-diffusion system | mesh construction and dof numbering (any), interpolation of nodal fields (any values), `main`, plotting |
| src/*.rs | ode_bdf, newton, ode_rk, ode_epirk, ode_sys operators, arnoldi, matexp_krylov, matexp_pade, matexp_cauchy, integrate_wrapper_rs, mat_utils, ode_utils, the systems of ode_test_common, the Python bridge of `integrate` | GMRES (external crate), unit tests |

## 3. Layout

`Verif/Py.lean` errors, deques, vectors; `Verif/Spec/*` the independent specifications (phi functions as power series,
call histories of a client, exactness of kernels); `Verif/Model/*` the code; `Verif/Props/*` one file per group of
properties, containing lemmas, the property theorems (named `Cxx_...`) and their non-vacuity examples.

## 4. Property by property plan

| id | modelled | proof |
|----|----------|-------|
| C01 | IntegrateSys ctor, accept_step, reset_ic over a deque | induction over the operation list, spec = abstract log, `take p` |
| C02 | all four integrator classes with state | state after reset equals fresh state (modulo dead cache fields), then bisimulation over op lists; Leja excluded: counterexample |
| C03 | step functions | purity by construction for RB/RK (step returns the new object: shown equal), cache invariant for split; counterexample for state-dependent L |
| C04 | Leja heuristics (istep, substep size) | invariant by induction over step outcomes; substep routine's max_tau_dt in (0,1] |
| C05 | `state` accessor returns None | negation; partial: y_hist[0] is the newest state |
| C06,C07 | integrate_ormatex loop | induction over steps, spec = recursion equation + call log |
| C08,C09 | dispatch tables, constructors, step dispatch | case analysis over all strings (string equality), no enumeration of a sample |
| C10,C11,C12 | kwargs passing, diffrax window | counterexamples + partial theorems |
| C13–C17 | LinOp classes | algebra, `fderiv` |
| C18–C25 | matexp_phi.py | power series of exp of block matrices, induction; norm estimates for C22 |
| C26–C28 | arnoldi_jax.py | loop invariants of MGS and the outer loop |
| C29–C31, C65 | matexp_krylov.py | exp(V H) intertwining, block exponential; polynomial reproduction and tail bounds; `C65_code*`, `C65_apriori`, `C31_code` use the package's own dense Padé kernel instead of an assumed one |
| C32–C42, C66 | ode_exp.py, ode_explicit.py | exactness against arbitrary ODE solutions, Taylor estimates for the orders, exhaustive interleavings by invariant |
| C43–C48, C52, C54 | matexp_poly.py, matexp_leja.py | Newton interpolation, Opitz, loop invariants |
| C49–C51, C53 | Leja point generators, power iteration | explicit formula for bit-reversal points, midpoint invariant |
| C55–C58 | bateman_sys.py, bateman_nonlin_sys.py, species_source_sink.py | sums over branches, Metzler-matrix positivity, Lagrange identity |
| C59–C64 | ode_utils.py, rad_*, advection_diffusion_1d.py, element_line_pp_nodal.py, lotka_volterra.py | index algebra, field arithmetic, derivatives |
| C67 | all step functions with the package's own kernels | every kernel maps an invariant subspace into itself; induction over runs |
| C68 | Rust integrator objects | bisimulation (unbounded histories, uncleared time history) |
| C69 | integrate_wrapper_rs loop | induction over the steps with the output counter |
| C70–C73 | BdfIntegrator, jac_newton with a GMRES parameter | witnesses for the false claims; for affine residuals one exact Newton step is the root and the loop returns it |
| C74 | option lookup | the constructed integrator is a function of the other keys |
| C75, C76 | EpirkIntegrator | equality of step values with the Python model; NaN outcome at equilibria |
| C77 | RkIntegrator, tableaux | equality with rk4; order conditions; witness x' = t |
| C78, C79 | Rust Arnoldi / Krylov | equality of loops with the Python model, then transfer |
| C80, C81 | matexp_pade | finite coefficient identities for the five tables, then power series; norm estimate of frexp scaling |
| C82, C83 | matexp_cauchy | any reduction tree; block exponential |
| C84–C86 | apply_phi_linop_3, JacobianRhsLinOp, operators | phi_1 doubling; witnesses; algebra |
| C87 | contour nodes of matexp_cauchy | every pole has nonzero imaginary part, so `A - z` is invertible for a real spectrum |
| C88–C90 | imaginary-axis Leja generator and evaluation | generator invariant; rotation `exp(iB) = cos B + i sin B` applied to Newton interpolation; witness for the flag |
| C92–C95 | experimental divided-difference routines, matexp_poly.py:212–415 | closed form of every Taylor pass by induction over passes, rows and columns; `exactDd` is an independent specification (first column of phi_k of the Opitz matrix, shown to interpolate and to satisfy the recursive definition); series remainder by entrywise domination; powers of perturbed lower-triangular matrices |
| C96–C98 | error of the Leja evaluations, the Leja steps, the meaning of `tol` | Hermite–Genocchi style bound of exact divided differences (Opitz series); composition of substeps by `exp((a+b)Z) = exp(aZ)exp(bZ)` and induction over the substep list; orthogonal diagonalisation for the symmetric case, nilpotent witness for the general one |
| C99, C100, C102 | all tables (`Model/PfdTables.lean`); `f_phi_k_pfd`, `_step_exp_pfd`, `_step_exprb2_pfd`, the crate's `gen_cram_expm` | integer interval checker for `abs(r(x) - e^x)` on `(-∞,0]` (Taylor remainder on pieces, polynomial positivity by shifted coefficients), proved sound in `Props/PfdPoly.lean`, run by the kernel (`decide +kernel`) on the literal tables; then diagonalisation and induction over the steps |
| C101 | all 47 tables | exact rational evaluation at 0 (`norm_num`), induction over the steps |
| C91 | whole runs of every smooth step function | stability (uniform Lipschitz constant of the increment on a compact tube), uniform local defect by Taylor on a compact interval, discrete Gronwall; induction over the steps of `integrate_ormatex` |
| C103 | whole runs with kernels specified only up to an error `κ` (`Spec/Approx.lean`) | every step is the smooth map of C91 applied to an extra error argument bounded by `κ`; stability and defect estimates on a compact tube that includes the error arguments; induction keeps the numerical solution inside the tube |
| C104 | runs with `realKernels` (the package's own kernels) | C22's accuracy with the weight `ε = dt` gives `κ = O(dt^4)`; then C103 |
| C105 | runs with `realKernels` (Arnoldi, `f_phi_k_appl`, `f_phi_k_sq`) | diagonal change of basis of the extended matrix, so that the entry read by `f_phi_k_appl` is accurate to `O(dt^(5-l))`; truncation by C65 (exact on polynomials of degree `< k`) or the breakdown tolerance, whichever is smaller; for `kiops_fixedsteps` the augmented operator is not small, but its powers on the start vector are (error ≤ 2e^ρ·|Z^k v|), and the shift block keeps the process from breaking down before `p` vectors; then C103 (whose hypothesis on `kiops` only asks for lists whose last vector is smaller by `dt`, as the methods pass) |
| C106 | runs of `Rk`, `Epirk` and `integrate_wrapper_rs` with the implicit methods | closed form of the steps, smoothness of the step maps (matrix inverse near the identity for the implicit ones), local order on the exact solution, then the stability theorem of C91; a nonvanishing tube for the exponential methods |
| C107 | the Arnoldi loops of both languages with any `iom`, then the phi products with the languages' own dense kernels | loop invariant "unit columns, banded Hessenberg matrix, `A Q = Q H + r e_k^T`"; norm bound `‖H‖ ≤ sqrt(iom+2) ‖A‖` from the band; polynomial exactness below the dimension reached and the series tail; dense error from C80 / C22 |
| C108 | `arnoldi`, `arnoldi_lo`, triplet assembly, `MatrixLinOp` of mat_utils.rs | loop invariant shared with C107 plus orthonormality; rank argument for the dimension; finiteness of `arnoldi` by the leading entries of `H^j e_1` |
| C109 | all Rust steps and both run loops with arbitrary products | "returns imply" calculus (`RRets`) through every function: each intermediate value lies in the subspace or its coset |
| C110 | ode_utils.rs and ode_test_common.rs | closed forms of the difference quotients; C56 for the decay chain; C75 along the solution; C109 for Robertson |
| C111 | C106 runs with `KrylovExpm` over the compiled Padé kernel | sixth powers of the extended matrix are small with `dt` (block rows), so the backward error of the Padé table is; Krylov truncation from C107; stability theorem of C91 with the kernel error as a parameter; `epi3`: the two-step map with the second order first step treated as a start error of size `dt^3`, the augmented operator nilpotent up to `O(dt)` so that each Krylov vector gains a power of `dt` |
| C112 | `integrate` for the `*_rs` methods: keyword rewriting, wrapped system, `np.asarray(...).squeeze()`, indexing of the result | shapes of NumPy arrays; refuted for no step and for one component; otherwise C111 for convergence |
| C113 | runs of `exp_pfd_rs`, `exprb2_pfd_rs` over the crate's evaluators | scalar error of the CRAM table per eigencomponent and induction over the steps; refuted for very stiff components because of the added `c0 v`; Padé: power of a commuting perturbation |
| C114 | `Model/Writes`: the attribute writes of every call in program order (crash points); a `step` that raises leaves the last state reached | last write = returned state; invariants over histories of completed, failed and cut calls; retry: the cache update is a function of what it does not write; two refutations |
| C115 | `Model/PhiInt`: the divisor `2 ** Nscale` as a `w`-bit two's complement integer | floor of the logarithm; `Int.bmod`; below `w-1` the power is exact, at `w-1` it is `-2^(w-1)`: the coded list is that of `-z`; decay equation: `phi_1 >= 1` is kept by the squarings |
| C116 | runs of `ExpLeja` with `epi2_leja_re`, `epi2_leja_im`, `epi3_leja_im` (power iteration with an arbitrary start vector, substep controller, `real_leja_expmv`, `complex_conj_leja_expmv` on conjugate pairs) | the stopping rule controls the error when the node radius is bounded (ratio of consecutive coefficients from below by Hermite–Genocchi); growth of the Newton basis `k! ξ`-type bound gives termination; at most finitely many substeps since the first one succeeds; stability theorem of C91 |
| C117 | `RKIntegrator` with each `+ * /` of the source an arbitrary machine operation (`Model/Rounded.lean`) | standard model of rounding as specification, met by binary floating point of any precision; error of one rounded step by running error analysis, drift of the recorded time by induction, perturbed stability theorem of C91 |
| C118 | `AdDiffSEM.assemble`: forms, quadrature, assembly loop, `enforce`, boundary term (`Model/Sem.lean`); `skfem` from its documentation | polarisation of the assembled form over finite element functions; GLL exactness (C62) turns sums into integrals; telescoping along the chain of elements; Gronwall-free energy monotonicity; off-diagonal signs plus C56 for the maximum principle; C60 and C67 carry the results to runs |
| C119 | `RAD_SEM._frhs` of the three files, `NonlinearBateman`, the shipped species lists and libraries (`Model/RadData.lean`, `Model/Progression.lean`, `Model/Bateman.lean`) | linear differential inequality with nonnegative off-diagonal coefficients along a solution (`Props/Metzler.lean`); global existence from a clamped Lipschitz field and a growth bound (`Props/PosExist.lean`); conservation from the column sums of the assembled form; sharpness by computing the coupling of neighbouring nodes |
| C120 | the runs of all Python methods on locally Lipschitz right-hand sides with arbitrary bounded Jacobians or split operators; the shipped reaction systems | every method's step is `y + dt f(t,y) + O(dt (dt + κ))` for any bounded matrix, because phi_1 is within `O(dt)` of the identity and the stages enter through differences of the right-hand side (`Props/RobustStep.lean`); discrete Gronwall in a tube, with the defect of the solution from the Lipschitz constant alone (`Props/RobustRun.lean`); local Lipschitz continuity of the shipped sources around the orthant (`Props/RobustRad.lean`) |
| C121 | Newton's loop of newton.rs on nonlinear residuals with inexact Jacobians and linear solves; the steps `bdf1`, `bdf2`, `cn` and the loop of the binding | each correction contracts the residual by `η + 4 dt q` (`C121_newton`, induction over the iteration limit), so one correction suffices and the stopping test cannot do harm; the step is then an Euler step up to `O(dt (dt + η))` and `robust_bound` applies; for `cn` with exact Jacobians the quadratic remainder along the compact graph of the solution gives Heun's step up to `O(dt (dt² + η))`; sharpness by solving `y' = 2 t` in closed form (`Props/RobustNewton.lean`, `RsRobust.lean`, `RsCnOrder.lean`) |
| C122 | the explicit Runge-Kutta and exponential steps of ode_rk.rs, ode_epirk.rs with approximate phi products, and the loop of the binding | every step is an Euler step up to `O(dt (dt + κ))` (`rkClosed_rob`, `rs_step2_rob`, `rs_exprb3_rob`, `rs_epi3_rob`); `rs_robust` turns that into a bound for every run that returns, by induction with a tube around the solution; a run that returns is not changed when failing steps are replaced (`outLoop_mono`). `padeKrylov_phis` supplies the crate's own products from C111, `padeKrylov_kiops` the one of `epi3`: the augmented operator of the list `[0, a, b]` has norm about one, but it maps into the vectors without last component, where it is as small as `dt A`, and both the incomplete Arnoldi process and the Padé kernel inherit that (`nil_krylov`, `nil_error`, `nil_dense`) |
| C123 | both Arnoldi iterations (as in C26, C107) on symmetric operators; `apply_phi_linop` with the CRAM evaluator; `match expmv_method` of `select_solver` | strong induction over the columns: by symmetry the component along a column outside the band is a combination of inner products already known to vanish (`lanczos_coeff`, `lanczos_full`); error of the products by the mean value inequality for `e^{(1-s)Z} Q e^{sH} x` and `s^l φ_l(sZ)`, using only that exponentials of symmetric negative semidefinite matrices contract (`phi_residual`) |
| C124 | `integrate_wrapper_rs` → `select_solver` → `epi2`/`exprb2` steps on `y' = M y + b` with the CRAM evaluator | the right-hand sides obey `f' = e^{dt M} f + M e`, the errors `d' = e^{dt M} d + e`, with `|e| ≤ dt ε |f|` from C123 (`cram_seq`); failed steps are replaced by exact ones (`outLoop_mono`) to speak about every run that returns; `exp_lower` keeps the right-hand side nonzero |
| C125 | `gen_parabolic_expm(24)`, `phik_dense_apply_cauchy`, `expmv_method = "parabolic"` through `integrate_wrapper_rs` | the nodes and weights are enclosed to 2e-16 from 20 digits of `π`, Taylor bounds of two exponentials and the values of cosine at odd multiples of `π/4`; the rounded table is certified over the whole half line by the checker of `PfdPoly` (kernel computation on integers, not sampling), and the perturbation is bounded with `|Im p| ≥ 3/4`; matrices, Lanczos and runs as C102, C123, C124 |
| C126 | `BdfIntegrator` steps through `integrate_wrapper_rs` on affine systems `y' = A y + b` with `Kinetics A w` | `I - h A` is inverse-nonnegative: the weighted sum of the negative entries of a solution is nonnegative, entry by entry of the columns; hence invertible, positive, and the mass balance follows; induction over the run with `bdf_follow` (`Props/RsPositive.lean`) |
| C127 | the 31 Pade tables of `pfd_dict`, `f_phi_k_pfd`, `exp_pfd`, `exprb2_pfd` | integer certificates on `[-1, 0]` (error of `exp`, `phi_1`, `phi_2`) and on `(-∞, -1]` (modulus at most 1/2), checked in the kernel by the checker of `PfdPoly` (`Props/PfdCertQ.lean`, `Props/PfdCertR.lean`, generated); diagonalisation, induction over the run (`Props/PfdPade.lean`) |
| C128 | `power_iter`, `leja_shift_scale` | Rayleigh quotients of the iterates in eigenvector coordinates, gap-free lower bound, Cauchy-Schwarz; equality case of a semidefinite form; two unrolled passes for the counterexample (`Props/PowerIter.lean`) |
| C129 | `integrate_ormatex` with the steppers of the Python integrators; `integrate_wrapper_rs` | the interrupted and the restarted loop stay related by an invariant that fixes the point and the method (`Props/Restart.lean`, `Props/RsRestart.lean`; specification `Spec/Restart.lean`); explicit two-step runs for the counterexamples |
| C130 | `jac_newton`, `step_order_1`, `step_cn`, `integrate_wrapper_rs` with a solver known only by its residual contract (`Spec/RsInexact.lean`) | induction over the Newton passes (the affine residual shrinks by the tolerance), resolvent bounds for dissipative matrices, contraction of the implicit maps and of the right-hand side along them, error recursion (`Props/RsInexact.lean`) |
| C131 | the same code as C130, against the solution of the differential equation | defects of the implicit formulas by integrating the derivative bound (`norm2_growth`), a dissipative flow does not increase the norm of the derivatives, resolvent bound, sum over the steps (`Props/RsStiff.lean`) |
| C132 | `integrate_ormatex` with the splitting stepper (`exp1`, `exp2`, `exp3` and dense variants) against the solution of a stiff semilinear problem (`Spec/Stiff.lean`) | the stages are curves `φ0 a + s φ1 v + s² φ2 w`, which solve linear equations; a perturbed dissipative flow is bounded by the integral of the perturbation (`duhamel_norm`), so defects and stability constants involve only the remainder; stable recursion (`Props/StiffSplit.lean`) |
| C133 | `integrate_ormatex` with the Rosenbrock stepper (the Rosenbrock-Euler methods), output loop of the Rust driver with `EpirkIntegrator`, against the solution of a stiff nonlinear problem (`Spec/Stiff.lean`) | the update is the curve of the equation linearized at the computed state; the exact solution is a perturbation of that curve, bounded with `duhamel_norm`; stable recursion (`Props/StiffRB.lean`) |
| C134 | `integrate_ormatex` with the Rosenbrock stepper and `exprb3`, against the solution of a stiff nonlinear problem (`StiffNonlinear`, `StiffCubic` in `Spec/Stiff.lean`) | as C133 with the curve with a quadratic source (`phiCurve3`); the second stage contributes its error times the Lipschitz constant of the part the frozen Jacobian misses (`Props/StiffRB3.lean`) |
| C135 | `integrate_ormatex` with the Rosenbrock, splitting and rk4 steppers on two systems related by `Maps2` (`Spec/Covariant.lean`) | the relation passes to the Jacobians and time derivatives (chain rule) and to the phi functions (term by term in the series), hence to every stage, the step maps and the iterates; the runs are the iterates (`Props/Covariant.lean`) |
| C136 | `integrate_ormatex` with the Rosenbrock stepper and `pexprb4`, against the solution of a stiff nonlinear problem (`StiffNonlinear`, `StiffQuartic` in `Spec/Stiff.lean`) | the update is the endpoint of a curve with a cubic source (`phiCurve4`); the source interpolates the remainder at the two stages, whose errors enter through the part the frozen Jacobian misses (`Props/StiffRB4.lean`) |
| C137 | `jac_newton`, `step_order_1`, `integrate_wrapper_rs` on nonlinear systems with a monotone right-hand side and dissipative Newton matrices (`Spec/RsMonotone.lean`), with a solver known only by its residual contract | a Newton pass shrinks the residual by `q` because only the missed part of `f` and the tolerance remain (resolvent bound); induction over the passes whatever the stopping test does; monotonicity gives stability of the implicit formula and bounds the speed along the run by itself (`Props/RsMonotone.lean`) |
| C138 | `step_order_2` and the history of `BdfIntegrator` under `integrate_wrapper_rs`, on the systems of C137 | the run is one backward Euler step, one two-step formula and backward Euler steps again (C70); the two-step formula bounds the speed by monotonicity (`bdf2_speed`), Newton as in C137 (`Props/RsMonotone2.lean`) |
| C139 | `step_cn` of `BdfIntegrator` under `integrate_wrapper_rs`, on the systems of C137 | with `P u = u - h/2 f u` the step maps `P`-distances without growth (`cayley_monotone`, `trapezoid_stable`), the quadratic miss of Newton's matrices makes one correction second order (`newton_quad`), third-order defect of the trapezoidal rule (`trapezoid_defect`) (`Props/RsMonotoneCn.lean`) |
| C140 | all of `integrate_wrapper_rs` with the Krylov kernels, Arnoldi, `ExtendedLinOp`, Newton and the integrators; the external GMRES is a parameter | every quantity of the Krylov process that is not a vector is a dot product, hence unchanged; induction over the orthogonalization, the Arnoldi steps, the Newton passes and the output loop, failures included (`Spec/RsTurn.lean`, `Props/RsTurn.lean`) |
| C141 | `integrate_wrapper_rs` with `epi2`, `exprb2`, `exprb3`, `apply_phi_linop`, `arnoldi_lop` | the Krylov basis and the Hessenberg matrix only depend on the direction of the start vector, the result is linear in its norm; the loop is the one of C140 (`Spec/RsUnits.lean`, `Props/RsUnits.lean`) |
| C142 | `arnoldi_mgs_lop`, `arnoldi_lop`, `phi_linop`, `kiops_fixedsteps`, the steps of `exprb2`, `exprb3`, `pexprb4`, `epi2`, `epi3`, `exp1`, `exp2`, `exp3`, constructors and `accept_step` of the Python package | the breakdown test is relative, and everything else that is not a vector is a dot product of normalised vectors; induction over orthogonalization, Arnoldi passes and steps, failures included (`Spec/KrylovUnits.lean`, `Props/KrylovTurn.lean`) |
| C143 | `RkIntegrator` of the crate (constructor, stages, final sum, `accept_step`) | the stages are converted by the linear part, the states by the affine map; induction over the entries of the tableau and the steps, panics included (`Spec/RsAffine.lean`, `Props/RsAffine.lean`) |

Accuracy of the compiled Padé exponential (C80) is a backward-error proof: for each of the five tables the coefficient
identity `p(x) = q(x) e^x + O(x^{2m+1})` is checked exactly (over ℚ), the remainder series is bounded on the ball the
code's thresholds allow, and the perturbation is carried through the squarings.

All properties are expressible in the model; floating-point aspects of C22, C27, C44–C47, C80 are out of scope and named so.

## 5. Findings (disagreements between the property or documentation and the code)

Each false property has a negation theorem with a concrete witness and `_partial` theorems giving the exact extent in
which it holds (status `partial` in the manifest).

Python:
* `IntegrateSys.state` never returns the state (missing `return`; C05).
* `rk4` cannot be used with `callback_before_step` (its `step` takes no `frhs_kwargs`; C10).  The callback's parameters
  do not reach the nonlinear remainder, the dense, splitting and `_rs` steps (C11).
* `integrate_diffrax` integrates to `dt*nsteps` instead of `t0 + dt*nsteps` (C12).
* The dense splitting cache is keyed by `dt` only: stale operators when L depends on the state (C03, C41); `dt = 0`
  always recomputes.
* Leja `reset_ic` keeps `_leja_bk`, `istep` and the substep size (C02/C04); the default method name of
  `ExpLejaIntegrator` is not a valid one.
* README's `rk1_rs`, `rk4_rs` raise AttributeError.
* `f_phi_k_sq` is limited to k ≤ 3 (C25); `f_phi_k_appl` with `M = 0` reads `[:, -0:]`.
* `exp_pfd`/`exp_pfd_rs` ignore the inhomogeneity: not consistent for `y' = Ay + b` (C32, C37).
* epi3's coefficient 2/3 assumes equal steps: order drops to 2 (sharp) otherwise (C37).
* `expm_taylor` is wrong for `scale ≠ 1` (C45).
* `FdJacLinOp` at `u = 0` divides by zero (C15).
* `gen_leja_conjugate` accepts some empty boxes (C50); `gen_leja_fast` on `[-3,1]` never puts a point into `(-1,1)`
  (C51); `power_iter` with 0 iterations returns 1e20 (C53).
* `kiops_fixedsteps` ignores `n_steps` and raises for a single nonzero vector (C31); Arnoldi with depth `iom`
  orthogonalises against `iom+1` vectors (C27); `max_krylov_dim = 0` is an AssertionError (C30).
* `tol_fdt` drops the correction when `0 < ‖f_t‖∞ ≤ tol` (C34).
* `gen_bateman_matrix`: KeyError for an unknown child, a self-branch cancels (C55); `analytic_bateman_single_parent`
  ignores off-chain entries (C57); `srcf_xe_av` with equal indices is not conservative (C58).
* AffineLinearSEM's L differs from the Jacobian on Dirichlet rows, harmlessly (C60).
* Experimental divided differences: entry 0 is always the exponential (C92, C94), `leja_coeffs_ts_phi_substep` is wrong for
  non-integer `scale` (C93), `leja_coeffs_ts_ss` ignores `h` and is wrong for `l > 0` (C94), `leja_coeffs_ts_phi_jax`
  always raises.
* `pfd_dict`: `pade_16_16`, `pade_15_16`, `pade_14_16` are wrong at `z = 0` (−15.38, 7.40, 0.032 instead of 1) since large coefficients carry 15 digits; `2`…`12` are `phi_1` tables although `exp_pfd` uses them as exponentials (C101).
* `real_leja_expmv`'s docstring promises `||p - exp(dt A)u|| < tol`: the flag bounds the last term only (C98). For `complex_conj_leja_expmv` the
  flag can be set at the first check whatever `tol` is (nodes `iπ, -iπ, π`, zero 1x1 operator: error > 5), because the estimate is a
  geometric mean and the first half of a pair may vanish (`C98_complex_false`); the flag of
  the imaginary evaluation uses a signed coefficient (C90).
* `lbasis` caches by the number of points only (C64).

Rust:
* `bdf2_rs` uses the two-step formula only in its second step (C70).
* the implicit steps evaluate the right-hand side one step too late, at `t+2dt` (C71).
* Newton's stopping test has no absolute value (C72).
* the option `tol_fdt` is never read, `tol` is used instead (C74).
* a zero right-hand side makes the Krylov start vector NaN (C76).
* RK stage times are shifted by one stage (C77).
* `phik_dense_cauchy` is off by a factor `dt` (C83), `apply_phi_linop_3` is only right for k = 1 (C84), the
  `JacobianRhsLinOp` cache is keyed by a norm (C85); `alpha_0` is added for every k (C82).
* `integrate` with a Rust method squeezes the result: `nsteps = 0` loses the time axis, one-component systems lose the component axis; callbacks and `tol_fdt` are silently ignored (C112).
* `exprb2_pfd_rs`: the added `c0 v` (C82) makes components with `dt d ≤ -2e16` double every step (C113).
* Integer overflow (C115): `f_phi_k_sq_all` divides by the *integer* power `2 ** Nscale`.  JAX integers have 32 bits unless the
  caller enables 64-bit mode (the package never does, only its tests and example scripts), so from `|z| >= 2^27` the divisor is
  `-2^31` and the routine returns the phi functions of `-z`: stiff decay becomes growth, silently.
* Crash points (C114): `_update_dense_phiLs` replaces the phi dictionary before the key `_cached_dt`; after an exception or
  interruption in between, the next step with the old size uses phi matrices of the new one (or raises `KeyError`).
  `accept_step` writes time, time history and state history one after the other and cannot be repeated after a failure.
* **C118**: `tau_upwind_f` divides by the velocity even when `tau = 0`, so a velocity that vanishes at a quadrature point (pure
  diffusion, or a velocity field with a sign change at a node) makes all assembled arrays `nan`. Custom field functions only have
  an effect under the names `nu`, `vel`, `tau`; a source registered as `src_f`, as the comment in `main` suggests, is ignored and
  the load is always zero. With stabilization, lumped masses can be negative or zero on graded meshes for `p >= 2`
  (`C118_negative_mass`).
* **C119**: the parameters the example scripts ship (`nu = 1e-8`, `vel = 0.5`, no stabilization) exceed the Péclet bound on every mesh a
  user would build, so the semidiscrete solution itself takes negative concentrations (`C119_shipped_negative`); the guard
  `max(u, 1e-16)` in `mxf_liq_vapor_nonlin` hides this from the power but not from the state.
* **C122**: `krylov_dim = 1` with the crate's `epi3`: the Krylov space of `kiops_fixedsteps` starts at the last unit vector of the augmented system, so one vector spans nothing of the state; the product is the zero vector and the step silently drops its increment (`kiops_dim1`). Two vectors suffice for first order (`padeKrylov_kiops`).
* **C126**: `cn` with `dt/2 |A_ii| > 1` and `bdf2` (its one two-step formula, at the second step) return negative concentrations on plain decay: `1, -1/3` and `1, 1/5, -1/55` for `y' = -y`, `dt = 4` (`C126_negative`); only `bdf1`/`backeuler` are safe for stiff decay chains.
* **C128**: `power_iter` compares successive estimates with an absolute tolerance of 0.05, so a start vector with a small (nonzero) component along the extremal eigenvector stops it after two passes at the wrong eigenvalue, and the Leja interval misses the spectrum by any factor, whatever the safety factor (`C128_false`); with the default safety factor 1 the Rayleigh quotient underestimates always (`C128_default`).
* **C129**: `epi3` (Python) and `bdf2` (Rust) keep the previous point in the object, which a restart loses; the dense splitting methods keep the phi functions of the first linear part, so a restart changes the result when `fl` depends on the state (`C129_epi3_false`, `C129_bdf2_false`, `C129_split_dense_false`).

## 6. Axioms

`#print axioms` on every theorem named in MANIFEST.json lists a subset of `propext`, `Classical.choice`, `Quot.sound`.

## 7. Testing the theorems against wrong programs

`seeded/LOG.jsonl`: one line per edited definition (done in a scratch copy outside `/verif`), with the edit, the claim it
breaks, the theorems whose proofs broke and the theorems that were tightened because an edit survived.  An edit is
followed by a rebuild of the whole dependency cone of the edited file.
