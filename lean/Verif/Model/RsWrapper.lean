import Verif.Model.RsKernels

/-!
The Python binding of the Rust integrators, from `/repo/src/ormatex_rspy.rs`.
-/

namespace Ormatex.Rs
open Matrix
open scoped Classical

variable {n : ℕ}

/-- A Python value found in the keyword dictionary. -/
inductive PyVal where
  | str (s : String)
  | int (z : ℤ)
  | float (x : ℝ)

/-- The keyword dictionary. -/
abbrev Kwds := String → Option PyVal

/-- `extract::<String>().unwrap()` -/
def PyVal.asString : PyVal → RsM String
  | .str s => .ok s
  | _ => .error .panic

/-- `extract::<usize>().unwrap()` -/
def PyVal.asUsize : PyVal → RsM ℕ
  | .int z => if 0 ≤ z then .ok z.toNat else .error .panic
  | _ => .error .panic

/-- `extract::<f64>().unwrap()` -/
noncomputable def PyVal.asF64 : PyVal → RsM ℝ
  | .int z => .ok z
  | .float x => .ok x
  | _ => .error .panic

/-- `get_val_or_default`, ormatex_rspy.rs:242-252 -/
def getValOrDefault {T : Type} (ext : PyVal → RsM T) (kd : Kwds) (key : String) (dflt : T) : RsM T :=
  match kd key with
  | some v => ext v
  | none => .ok dflt

/-- The solver object chosen by `select_solver`. -/
inductive Solver (n : ℕ) where
  | bdf (s : Bdf n)
  | epirk (K : KrylovExpm) (s : Epirk n)

/-- The dense evaluators used by `select_solver` and `DensePhikvEvalRs::new`, with the splits rayon uses for a table of
`s` poles. -/
noncomputable def denseOf (split : ℕ → Option (Split ℕ)) (c : Cauchy) : DenseRs := fun _ a dt v k =>
  c.phikApply a dt v k (split c.theta.length)

/-- `match expmv_method` of `select_solver`, ormatex_rspy.rs:230-235 -/
noncomputable def selectExpmv (split : ℕ → Option (Split ℕ)) (expmvMethod : String) : RsM DenseRs :=
  if expmvMethod = "cram" ∨ expmvMethod = "cram_16" then do
    let c ← genCram 16
    pure (denseOf split c)
  else if expmvMethod = "parabolic" then do
    let c ← genParabolic 24
    pure (denseOf split c)
  else .ok (padeApply fun _ a => matexpRs a 1)

/-- `select_solver`, ormatex_rspy.rs:208-239 -/
noncomputable def selectSolver (split : ℕ → Option (Split ℕ)) (t0 : ℝ) (y0 : Vec n) (method expmvMethod : String)
    (krylovDim iom : ℕ) (tolFdt : ℝ) : RsM (Solver n) :=
  if method = "bdf1" ∨ method = "backeuler" then .ok (.bdf (Bdf.new t0 y0 1))
  else if method = "bdf2" then .ok (.bdf (Bdf.new t0 y0 2))
  else if method = "cn" then .ok (.bdf (Bdf.new t0 y0 3))
  else do
    let expmv ← selectExpmv split expmvMethod
    let K ← KrylovExpm.new expmv krylovDim (some iom)
    let s ← Epirk.new t0 y0 method
    let s ← s.withOpt "tol_fdt" tolFdt
    pure (.epirk K s)

/-- the trait object behind `Rc<RefCell<dyn IntegrateSys>>` -/
noncomputable def solverIntegrator (gmres : Gmres n) (sys : Sys n) : Integrator (Solver n) n where
  step s dt := match s with
    | .bdf b => (Bdf.integrator gmres sys).step b dt
    | .epirk K e => (Epirk.integrator (K.kern n) sys).step e dt
  time s := match s with
    | .bdf b => b.t
    | .epirk _ e => e.t
  state s := match s with
    | .bdf b => (Bdf.integrator gmres sys).state b
    | .epirk K e => (Epirk.integrator (K.kern n) sys).state e
  accept s r := match s with
    | .bdf b => .bdf ((Bdf.integrator gmres sys).accept b r)
    | .epirk K e => .epirk K ((Epirk.integrator (K.kern n) sys).accept e r)
  reset s t0 y0 := match s with
    | .bdf b => .bdf ((Bdf.integrator gmres sys).reset b t0 y0)
    | .epirk K e => .epirk K ((Epirk.integrator (K.kern n) sys).reset e t0 y0)

/-- loop of `integrate_wrapper_rs`, ormatex_rspy.rs:290-305: remaining passes, counter `i`, solver and the outputs so
far; `i % osteps` panics for `osteps = 0`; a failed step panics at the `unwrap`. -/
noncomputable def outLoop {σ : Type} (I : Integrator σ n) (dt : ℝ) (osteps : ℕ) :
    ℕ → ℕ → σ → List (Vec n) → List ℝ → RsM (List (Vec n) × List ℝ)
  | 0, _, s, ys, ts => do
    let y ← I.state s
    pure (ys ++ [y], ts ++ [I.time s])
  | r + 1, i, s, ys, ts =>
    if osteps = 0 then .error .panic
    else do
      let out ← if i % osteps = 0 then do
          let y ← I.state s
          pure (ys ++ [y], ts ++ [I.time s])
        else pure (ys, ts)
      match I.step s dt with
      | .ok res => outLoop I dt osteps r (i + 1) (I.accept s res) out.1 out.2
      | .error .nan => .error .nan
      | .error _ => .error .panic

/-- options read by `integrate_wrapper_rs`, ormatex_rspy.rs:267-277; `tol_fdt` is read from the key "tol" -/
structure RunOpts where
  method : String
  expmvMethod : String
  krylovDim : ℕ
  iom : ℕ
  tol : ℝ
  tolFdt : ℝ
  osteps : ℕ

/-- the option parsing of `integrate_wrapper_rs`, ormatex_rspy.rs:267-277 -/
noncomputable def parseOpts (kd : Kwds) : RsM RunOpts := do
  let method ← getValOrDefault PyVal.asString kd "method" "epi2"
  let expmvMethod ← getValOrDefault PyVal.asString kd "expmv_method" "pade"
  let krylovDim ← getValOrDefault PyVal.asUsize kd "max_krylov_dim" 100
  let iom ← getValOrDefault PyVal.asUsize kd "iom" 2
  let tol ← getValOrDefault PyVal.asF64 kd "tol" 1e-8
  let tolFdt ← getValOrDefault PyVal.asF64 kd "tol" 1e-8
  let osteps ← getValOrDefault PyVal.asUsize kd "osteps" 1
  pure { method := method, expmvMethod := expmvMethod, krylovDim := krylovDim, iom := iom, tol := tol,
         tolFdt := tolFdt, osteps := osteps }

/-- `integrate_wrapper_rs(sys, y0, t0, dt, nsteps, **kwds)`, ormatex_rspy.rs:255-309 -/
noncomputable def integrateWrapperRs (gmres : Gmres n) (split : ℕ → Option (Split ℕ)) (sys : Sys n) (y0 : Vec n)
    (t0 dt : ℝ) (nsteps : ℕ) (kd : Kwds) : RsM (List (Vec n) × List ℝ) := do
  let o ← parseOpts kd
  let s ← selectSolver split t0 y0 o.method o.expmvMethod o.krylovDim o.iom o.tolFdt
  outLoop (solverIntegrator gmres sys) dt o.osteps nsteps 0 s [] []

/-- `DensePhikvEvalRs::new` and `eval`, ormatex_rspy.rs:388-416 -/
noncomputable def densePhikvEvalRs (split : ℕ → Option (Split ℕ)) (method : String) (order : ℕ) : RsM DenseRs :=
  if method = "cram" ∨ method = "cram_16" then do
    let c ← genCram order
    pure (denseOf split c)
  else if method = "parabolic" then do
    let c ← genParabolic order
    pure (denseOf split c)
  else .ok (padeApply fun _ a => matexpRs a 1)

end Ormatex.Rs
