import Verif.Model.Leja

/-!
The Rust crate (`/repo/src`): system interface, linear operators, Newton's method, and the `bdf`, `rk` and `epirk`
integrators.

Matrices with one column are vectors.  Three things can replace a value: a panic (`unwrap`, `panic!`, an index out of
range, a failed `assert!`), the `Err(StepError)` of a step, and a result all of whose entries are NaN (a division by
zero of the code; reals have no NaN, so it ends the computation here, while the code carries the NaN on).
-/

namespace Ormatex.Rs
open Matrix
open scoped Classical

/-- Ways in which a call of the crate does not produce a usable value. -/
inductive RsErr where
  | panic | stepError | nan
  deriving DecidableEq, Repr

abbrev RsM := Except RsErr

/-- `v[i]` on a `Vec` or `VecDeque`: panics when out of range. -/
def rsGet {α : Type*} (l : List α) (i : ℕ) : RsM α :=
  match l[i]? with
  | some x => .ok x
  | none => .error .panic

/-- trait `OdeSys`, ode_sys.rs:476-495: right-hand side and Jacobian operator. -/
structure Sys (n : ℕ) where
  frhs : ℝ → Vec n → Vec n
  fjac : ℝ → Vec n → LinOp n

variable {n : ℕ}

/-- `OdeSys::frhs_aug`, ode_sys.rs:479-481 -/
def Sys.frhsAug (sys : Sys n) (t : ℝ) (x aug : Vec n) (augScale : ℝ) : Vec n := augScale • sys.frhs t x + aug

/-! ### Linear operators -/

/-- `ShiftedLinOp` with its `apply`, ode_sys.rs:249-325 (the field `t` is only printed).  `conj_apply` panics and is not
modelled. -/
def shiftedLinOp (inner : LinOp n) (scale : ℝ) (gamma : Option ℝ) : LinOp n where
  matvec rhs :=
    let out := scale • inner.call rhs
    match gamma with
    | some g => out + g • rhs
    | none => out
  dense := .error .notImplemented

/-- `OdeSys::fjac_shifted`, ode_sys.rs:496-509, and `get_fd_jac_shifted`, :520-524 -/
def Sys.fjacShifted (sys : Sys n) (t : ℝ) (x : Vec n) (scale : ℝ) (gamma : Option ℝ) : LinOp n :=
  shiftedLinOp (sys.fjac t x) scale gamma

/-- `FdJacLinOp`, ode_sys.rs:343-350 -/
structure FdJac (n : ℕ) where
  t : ℝ
  x : Vec n
  frhs : ℝ → Vec n → Vec n
  frhsX : Vec n
  scale : ℝ
  gamma : Option ℝ

/-- `FdJacLinOp::new`, ode_sys.rs:360-371 -/
def FdJac.new (t : ℝ) (x : Vec n) (frhs : ℝ → Vec n → Vec n) (scale : ℝ) (gamma : Option ℝ) : FdJac n :=
  { t := t, x := x, frhs := frhs, frhsX := frhs t x, scale := scale, gamma := gamma }

/-- `FdJacLinOp::set_op_x`, ode_sys.rs:377-382 -/
def FdJac.setOpX (j : FdJac n) (t : ℝ) (x : Vec n) : FdJac n :=
  { j with t := t, x := x, frhsX := j.frhs t x }

/-- `FdJacLinOp::set_scale`, ode_sys.rs:385-389 -/
def FdJac.setScale (j : FdJac n) (scale : ℝ) (gamma : Option ℝ) : FdJac n :=
  { j with scale := scale, gamma := gamma }

/-- `FdJacLinOp::apply`, ode_sys.rs:428-455.  `norm_max` is the norm of `Fin n → ℝ`; for `x = 0` the step size is zero
and the code multiplies a zero difference by infinity. -/
noncomputable def FdJac.apply (j : FdJac n) (rhs : Vec n) : RsM (Vec n) :=
  let eps := 0.5e-8 * ‖j.x‖
  if eps = 0 then .error .nan
  else
    let ieps := j.scale * 1 / eps
    let xPert := j.x + eps • rhs
    let jv := ieps • (j.frhs j.t xPert - j.frhsX)
    .ok (match j.gamma with
      | some g => jv + g • rhs
      | none => jv)

/-- `get_fd_jac`, ode_sys.rs:513-517 -/
def getFdJac (frhs : ℝ → Vec n → Vec n) (t : ℝ) (x : Vec n) : FdJac n := FdJac.new t x frhs 1 none

/-- Block `bmat` of `ExtendedLinOp::new`, ode_sys.rs:150-157: the loop puts `vb[1]` into the last column, `vb[2]` into
the one before, and so on. -/
def extB (vb : List (Vec n)) : Matrix (Fin n) (Fin (vb.length - 1)) ℝ :=
  Matrix.of fun i k => vb.getD (vb.length - 1 - k) 0 i

/-- Block `kmat`, ode_sys.rs:158-160: ones above the diagonal. -/
def extK (p : ℕ) : Matrix (Fin p) (Fin p) ℝ := Matrix.of fun i j => if (j : ℕ) = i + 1 then 1 else 0

/-- `ExtendedLinOp::new` and `apply`, ode_sys.rs:146-168, 210-232.  An empty `vb` panics at `vb[0]`, a single vector at
the range `0..p-1`. -/
def extendedLinOp (t : ℝ) (inner : LinOp n) (vb : List (Vec n)) : RsM (LinOp (n + (vb.length - 1))) :=
  if vb.length ≤ 1 then .error .panic
  else .ok
    { matvec := fun rhs =>
        let av := inner.call (headN rhs)
        let abV := t • av + extB vb *ᵥ tailP rhs
        let kV := extK (vb.length - 1) *ᵥ tailP rhs
        concat abV kV
      dense := .error .notImplemented }

/-- `ExtendedLinOp::get_v`, ode_sys.rs:170-179 (for `p ≥ 1`): zeros, a one in the last entry, `vb[0]` in front. -/
def extV (vb : List (Vec n)) : Vec (n + (vb.length - 1)) := fun i =>
  if h : (i : ℕ) < n then vb.getD 0 0 ⟨i, h⟩
  else if (i : ℕ) = n + (vb.length - 1) - 1 then 1 else 0

/-! ### Newton -/

/-- `faer_gmres::gmres(op, rhs, x, iters, tol, None)`: the solution written to `x` (which holds the guess on entry), or
its error, which the callers `unwrap`. -/
abbrev Gmres (n : ℕ) := LinOp n → Vec n → Vec n → ℕ → ℝ → RsM (Vec n)

/-- The loop of `jac_newton` (and of `jac_newton_sys`), newton.rs:82-99 (39-55): `x_old_norm - x_new_norm < tol`, without
absolute value, ends it; `a` is the guess of the next linear solve. -/
noncomputable def newtonLoop (gmres : Gmres n) (t : ℝ) (frhs : ℝ → Vec n → Vec n) (jac : ℝ → Vec n → LinOp n)
    (tol tolLin : ℝ) (itersLin : ℕ) : ℕ → Vec n → Vec n → RsM (Vec n)
  | 0, _, _ => .error .stepError
  | it + 1, x, a => do
    let g := frhs t x
    let J := jac t x
    let xOldNorm := norm2 x
    let a' ← gmres J g a itersLin tolLin
    let x' := x - a'
    let xNewNorm := norm2 x'
    if xOldNorm - xNewNorm < tol then pure x'
    else newtonLoop gmres t frhs jac tol tolLin itersLin it x' a'

/-- `jac_newton`, newton.rs:68-101 -/
noncomputable def jacNewton (gmres : Gmres n) (t : ℝ) (x0 : Vec n) (frhs : ℝ → Vec n → Vec n)
    (jac : ℝ → Vec n → LinOp n) (tol tolLin : ℝ) (iters itersLin : ℕ) : RsM (Vec n) :=
  newtonLoop gmres t frhs jac tol tolLin itersLin iters x0 0

/-- `jac_newton_sys`, newton.rs:25-57 -/
noncomputable def jacNewtonSys (gmres : Gmres n) (t scale gamma : ℝ) (x0 : Vec n) (sys : Sys n)
    (tol tolLin : ℝ) (iters itersLin : ℕ) : RsM (Vec n) :=
  newtonLoop gmres t sys.frhs (fun t x => sys.fjacShifted t x scale (some gamma)) tol tolLin itersLin iters x0 0

/-! ### Integrators -/

/-- `StepResult`, ode_sys.rs:48-56 -/
structure StepRes (n : ℕ) where
  t : ℝ
  dt : ℝ
  y : Vec n
  err : Option ℝ

/-- trait `IntegrateSys`, ode_sys.rs:70-90.  `step` takes `&self`: it cannot change the object.  `state` indexes the
history, which could panic. -/
structure Integrator (σ : Type) (n : ℕ) where
  step : σ → ℝ → RsM (StepRes n)
  time : σ → ℝ
  state : σ → RsM (Vec n)
  accept : σ → StepRes n → σ
  reset : σ → ℝ → Vec n → σ

/-- `BdfIntegrator`, ode_bdf.rs:24-48 (the system is a parameter of the steps). `VecDeque::with_capacity` does not bound
the history. -/
structure Bdf (n : ℕ) where
  order : ℕ
  t : ℝ
  yHist : List (Vec n)

namespace Bdf

/-- `BdfIntegrator::new`, ode_bdf.rs:55-65 -/
def new (t0 : ℝ) (y0 : Vec n) (order : ℕ) : Bdf n := { order := order, t := t0, yHist := [y0] }

/-- `_nonlin_gfn`, ode_bdf.rs:67-77 -/
noncomputable def nonlinGfn (sys : Sys n) (s : Bdf n) (t : ℝ) (y : Vec n) (dt : ℝ) (order : ℕ) : RsM (Vec n) := do
  let y0 ← rsGet s.yHist 0
  match order with
  | 1 => pure (y - y0 - dt • sys.frhs (t + dt) y)
  | 2 => do
    let y1 ← rsGet s.yHist 1
    pure (y - (4 / 3 : ℝ) • y0 + (1 / 3 : ℝ) • y1 - (2 * dt / 3) • sys.frhs (t + dt) y)
  | _ => .error .panic

/-- scale used by `_nonlin_gfn_jac`, ode_bdf.rs:79-89 -/
noncomputable def nonlinScale (dt : ℝ) (order : ℕ) : RsM ℝ :=
  match order with
  | 1 => .ok (-dt)
  | 2 => .ok (-2 * dt / 3)
  | _ => .error .panic

/-- `step_order_1`, ode_bdf.rs:92-121.  The closures add `dt` to the time they are given, and Newton hands them
`t + dt`. -/
noncomputable def stepOrder1 (gmres : Gmres n) (sys : Sys n) (s : Bdf n) (dt : ℝ) : RsM (StepRes n) := do
  let t := s.t
  let y0 ← rsGet s.yHist 0
  let gfn := fun (t : ℝ) (y : Vec n) => -(dt • sys.frhs (t + dt) y) - y0 + y
  let gfnJac := fun (t : ℝ) (y : Vec n) => sys.fjacShifted (t + dt) y (-dt) (some 1)
  let yNew ← jacNewton gmres (t + dt) y0 gfn gfnJac 1e-6 1e-8 100 1000
  pure { t := t + dt, dt := dt, y := yNew, err := none }

/-- `step_order_2`, ode_bdf.rs:124-142, calling `_nonlin_gfn` and `_nonlin_gfn_jac` with `self.order`.  A panic inside
the closure would be raised at its first call; it is raised before the iteration here. -/
noncomputable def stepOrder2 (gmres : Gmres n) (sys : Sys n) (s : Bdf n) (dt : ℝ) : RsM (StepRes n) := do
  let t := s.t
  let y0 ← rsGet s.yHist 0
  let _ ← nonlinGfn sys s (t + dt) y0 dt s.order
  let scale ← nonlinScale dt s.order
  let gfn := fun (t : ℝ) (y : Vec n) => match nonlinGfn sys s t y dt s.order with
    | .ok g => g
    | .error _ => 0
  let gfnJac := fun (t : ℝ) (y : Vec n) => sys.fjacShifted (t + dt) y scale (some 1)
  let yNew ← jacNewton gmres (t + dt) y0 gfn gfnJac 1e-6 1e-8 100 1000
  pure { t := t + dt, dt := dt, y := yNew, err := none }

/-- `step_cn`, ode_bdf.rs:145-171 -/
noncomputable def stepCn (gmres : Gmres n) (sys : Sys n) (s : Bdf n) (dt : ℝ) : RsM (StepRes n) := do
  let t := s.t
  let y0 ← rsGet s.yHist 0
  let gfn := fun (t : ℝ) (y : Vec n) =>
    -((dt * 0.5) • sys.frhs (t + dt) y) - (dt * 0.5) • sys.frhs t y0 - y0 + y
  let gfnJac := fun (t : ℝ) (y : Vec n) => sys.fjacShifted (t + dt) y (-0.5 * dt) (some 1)
  let yNew ← jacNewton gmres (t + dt) y0 gfn gfnJac 1e-6 1e-8 100 1000
  pure { t := t + dt, dt := dt, y := yNew, err := none }

/-- `step`, ode_bdf.rs:181-195 -/
noncomputable def step (gmres : Gmres n) (sys : Sys n) (s : Bdf n) (dt : ℝ) : RsM (StepRes n) :=
  match s.order with
  | 1 => stepOrder1 gmres sys s dt
  | 2 => if s.yHist.length = 2 then stepOrder2 gmres sys s dt else stepOrder1 gmres sys s dt
  | 3 => stepCn gmres sys s dt
  | _ => .error .panic

/-- the trait implementation, ode_bdf.rs:174-215 -/
noncomputable def integrator (gmres : Gmres n) (sys : Sys n) : Integrator (Bdf n) n where
  step := step gmres sys
  time s := s.t
  state s := rsGet s.yHist 0
  accept s r := { s with t := r.t, yHist := r.y :: s.yHist }
  reset s t0 y0 := { s with t := t0, yHist := [y0] }

end Bdf

/-- `BT`, ode_rk.rs:23-27 -/
structure BT where
  c : List ℝ
  b : List ℝ
  a : List (List ℝ)

/-- `bt_factory`, ode_rk.rs:30-68 -/
noncomputable def btFactory (order : ℕ) : BT :=
  match order with
  | 4 => { c := [0, 0.5, 0.5, 1], b := [1 / 6, 1 / 3, 1 / 3, 1 / 6],
           a := [[0.5, 0, 0], [0, 0.5, 0], [0, 0, 1]] }
  | 3 => { c := [0, 0.5, 1], b := [1 / 6, 2 / 3, 1 / 6], a := [[0.5, 0], [-1, 2]] }
  | 2 => { c := [0, 0.5], b := [0, 1], a := [[0.5]] }
  | _ => { c := [0], b := [1], a := [[]] }

/-- `RkIntegrator`, ode_rk.rs:71-89 -/
structure Rk (n : ℕ) where
  order : ℕ
  bt : BT
  t : ℝ
  yHist : List (Vec n)

namespace Rk

/-- `RkIntegrator::new`, ode_rk.rs:95-113 -/
noncomputable def new (t0 : ℝ) (y0 : Vec n) (order : ℕ) : RsM (Rk n) :=
  match order with
  | 4 | 3 | 2 | 1 => .ok { order := order, bt := btFactory order, t := t0, yHist := [y0] }
  | _ => .error .panic

/-- inner loop over `j`, ode_rk.rs:124-126: `y_delta` after the passes in `js` -/
noncomputable def stageArg (bt : BT) (dt : ℝ) (k : List (Vec n)) (i : ℕ) : List ℕ → Vec n → RsM (Vec n)
  | [], y => .ok y
  | j :: js, y => do
    let row ← rsGet bt.a i
    let aij ← rsGet row j
    let kj ← rsGet k j
    stageArg bt dt k i js (y + (dt * aij) • kj)

/-- loop over the stages, ode_rk.rs:122-129; note that stage `i + 1` is evaluated at time `t + dt * c[i]` -/
noncomputable def stages (sys : Sys n) (bt : BT) (t dt : ℝ) (y0 : Vec n) : List ℕ → List (Vec n) → RsM (List (Vec n))
  | [], k => .ok k
  | i :: is, k => do
    let yDelta ← stageArg bt dt k i (List.range (i + 1)) y0
    let ci ← rsGet bt.c i
    stages sys bt t dt y0 is (k ++ [sys.frhs (t + dt * ci) yDelta])

/-- final sum, ode_rk.rs:130-133 -/
noncomputable def combine (bt : BT) (dt : ℝ) (k : List (Vec n)) : List ℕ → Vec n → RsM (Vec n)
  | [], acc => .ok acc
  | i :: is, acc => do
    let bi ← rsGet bt.b i
    let ki ← rsGet k i
    combine bt dt k is (acc + (dt * bi) • ki)

/-- `step_rk`, ode_rk.rs:115-135 -/
noncomputable def step (sys : Sys n) (s : Rk n) (dt : ℝ) : RsM (StepRes n) := do
  let t := s.t
  let y0 ← rsGet s.yHist 0
  let k ← stages sys s.bt t dt y0 (List.range (s.order - 1)) [sys.frhs t y0]
  let acc ← combine s.bt dt k (List.range s.order) y0
  pure { t := t + dt, dt := dt, y := acc, err := none }

/-- the trait implementation, ode_rk.rs:138-167 -/
noncomputable def integrator (sys : Sys n) : Integrator (Rk n) n where
  step := step sys
  time s := s.t
  state s := rsGet s.yHist 0
  accept s r := { s with t := r.t, yHist := r.y :: s.yHist }
  reset s t0 y0 := { s with t := t0, yHist := [y0] }

end Rk

/-- The two routines of `KrylovExpm` used by the exponential integrators. `Verif/Model/RsKernels.lean` models the ones of
the crate. -/
structure Kern (n : ℕ) where
  /-- `apply_phi_linop(a_lo, dt, v0, k)` -/
  phi : LinOp n → ℝ → Vec n → ℕ → RsM (Vec n)
  /-- `kiops_fixedsteps(&ExtendedLinOp::new(t, a_lo, vb), dt, vb)` -/
  kiops : ℝ → LinOp n → List (Vec n) → ℝ → RsM (Vec n)

/-- `EpirkIntegrator`, ode_epirk.rs:30-58 -/
structure Epirk (n : ℕ) where
  order : ℕ
  method : String
  t : ℝ
  tolFdt : ℝ
  yHist : List (Vec n)
  tHist : List ℝ

namespace Epirk

/-- `EpirkIntegrator::new`, ode_epirk.rs:65-86 -/
noncomputable def new (t0 : ℝ) (y0 : Vec n) (method : String) : RsM (Epirk n) := do
  let order ← if method = "epi2" ∨ method = "exprb2" then (pure 2 : RsM ℕ)
    else if method = "epi3" ∨ method = "exprb3" then pure 3
    else .error .panic
  pure { order := order, method := method, t := t0, tolFdt := -1, yHist := [y0], tHist := [t0] }

/-- `with_opt`, ode_epirk.rs:89-96 -/
noncomputable def withOpt (s : Epirk n) (option : String) (val : ℝ) : RsM (Epirk n) :=
  if option = "tol_fdt" then .ok { s with tolFdt := val } else .error .panic

/-- `remf`, ode_epirk.rs:100-118 -/
noncomputable def remf (sys : Sys n) (s : Epirk n) (tr : ℝ) (yr frhsY0 : Vec n) (jac : LinOp n) (v : Option (Vec n)) :
    RsM (Vec n) := do
  let t ← rsGet s.tHist 0
  let y0 ← rsGet s.yHist 0
  let frhsYr := sys.frhs tr yr
  let jacYd := jac.call (yr - y0)
  let dt := tr - t
  let vnT := dt • v.getD 0
  pure (frhsYr - frhsY0 - jacYd - vnT)

/-- `frhs_fdt`, ode_epirk.rs:121-126 -/
noncomputable def frhsFdt (sys : Sys n) (s : Epirk n) (fy0 : Vec n) (delT : ℝ) : RsM (Vec n) := do
  let t := s.t
  let y0 ← rsGet s.yHist 0
  let fy1 := sys.frhs (t + delT) y0
  pure (fun i => (fy1 i - fy0 i) / delT)

/-- `fphi2_v`, ode_epirk.rs:129-139 -/
noncomputable def fphi2V (K : Kern n) (sys : Sys n) (s : Epirk n) (fy0 : Vec n) (jac : LinOp n) (dt : ℝ) :
    RsM (Vec n × Vec n) :=
  if s.tolFdt < 0 then .ok (0, 0)
  else do
    let v ← frhsFdt sys s fy0 1e-8
    if ‖v‖ > s.tolFdt then do
      let p ← K.phi jac dt v 2
      pure (dt ^ 2 • p, v)
    else pure (0, v)

/-- `step_order_2`, ode_epirk.rs:142-163 -/
noncomputable def stepOrder2 (K : Kern n) (sys : Sys n) (s : Epirk n) (dt : ℝ) : RsM (StepRes n) := do
  let t := s.t
  let y0 ← rsGet s.yHist 0
  let jac := sys.fjac t y0
  let fy0 := sys.frhs t y0
  let fy0Dt := dt • fy0
  let (phi2V, _) ← fphi2V K sys s fy0 jac dt
  let p ← K.phi jac dt fy0Dt 1
  pure { t := t + dt, dt := dt, y := y0 + phi2V + p, err := none }

/-- `step_exprb32`, ode_epirk.rs:167-200; the error estimate is the sum of absolute differences -/
noncomputable def stepExprb32 (K : Kern n) (sys : Sys n) (s : Epirk n) (dt : ℝ) : RsM (StepRes n) := do
  let t := s.t
  let y0 ← rsGet s.yHist 0
  let jac := sys.fjac t y0
  let fy0 := sys.frhs t y0
  let fy0Dt := dt • fy0
  let (phi2V, v) ← fphi2V K sys s fy0 jac dt
  let t2 := t + dt
  let p1 ← K.phi jac dt fy0Dt 1
  let y2 := y0 + phi2V + p1
  let r2 ← remf sys s t2 y2 fy0 jac (some v)
  let p3 ← K.phi jac dt r2 3
  let yNew := y2 + (2 * dt) • p3
  let yErr := abs (∑ i, abs (yNew i - y2 i))
  pure { t := t + dt, dt := dt, y := yNew, err := some yErr }

/-- `step_order_3`, ode_epirk.rs:206-236 -/
noncomputable def stepOrder3 (K : Kern n) (sys : Sys n) (s : Epirk n) (dt : ℝ) : RsM (StepRes n) := do
  let t := s.t
  let y0 ← rsGet s.yHist 0
  let yp ← rsGet s.yHist 1
  let tp ← rsGet s.tHist 1
  let jac := sys.fjac t y0
  let fy0 := sys.frhs t y0
  let fy0Dt := dt • fy0
  let (phi2V, v) ← fphi2V K sys s fy0 jac dt
  let rn ← remf sys s tp yp fy0 jac (some v)
  let rnDt := (dt * 2 / 3) • rn
  let w ← K.kiops dt jac [0, fy0Dt, rnDt] 1
  pure { t := t + dt, dt := dt, y := y0 + w + phi2V, err := none }

/-- `step`, ode_epirk.rs:246-263 -/
noncomputable def step (K : Kern n) (sys : Sys n) (s : Epirk n) (dt : ℝ) : RsM (StepRes n) :=
  if s.method = "epi2" ∨ s.method = "exprb2" then stepOrder2 K sys s dt
  else if s.method = "epi3" then
    if s.yHist.length ≥ 2 then stepOrder3 K sys s dt else stepOrder2 K sys s dt
  else if s.method = "exprb3" then stepExprb32 K sys s dt
  else .error .panic

/-- the trait implementation, ode_epirk.rs:239-286; `reset_ic` clears the states but only pushes onto the times -/
noncomputable def integrator (K : Kern n) (sys : Sys n) : Integrator (Epirk n) n where
  step := step K sys
  time s := s.t
  state s := rsGet s.yHist 0
  accept s r := { s with t := r.t, yHist := r.y :: s.yHist, tHist := r.t :: s.tHist }
  reset s t0 y0 := { s with t := t0, yHist := [y0], tHist := t0 :: s.tHist }

end Epirk

end Ormatex.Rs
