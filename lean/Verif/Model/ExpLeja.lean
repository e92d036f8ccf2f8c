import Verif.Model.OdeExp
import Verif.Model.Leja
import Verif.Model.Wrapper

/-!
`ExpLejaIntegrator` from `/repo/ormatex_py/ode_exp.py:435-624`.
-/

namespace Ormatex
open Matrix
open scoped Classical

/-- Constant options of an `ExpLejaIntegrator`, ode_exp.py:445-466.  `dd n x shift scale` is the divided-difference
routine selected by `dd_method` (with `h = 1`), real and complex version; `bRand` the random start vector of the power
iteration for a system of dimension `m`. -/
structure LejaOpts where
  tol : ℝ
  lejaA : Option ℝ
  lejaC : Option ℝ
  substep : Bool
  nZeros : ℕ
  maxPowerIter : ℕ
  maxReEigScale : ℝ
  nLeja : ℕ
  lejaX : ℕ → ℝ
  ddRe : ℕ → (ℕ → ℝ) → ℝ → ℝ → ℕ → ℝ
  ddIm : ℕ → (ℕ → ℂ) → ℝ → ℝ → ℕ → ℂ
  bRand : ∀ m : ℕ, Vec m

/-- Mutable attributes, ode_exp.py:454-461. -/
structure ExpLeja (n : ℕ) where
  base : Base (Vec n)
  substepSize : ℝ
  bk : Option (Vec (n + 2))
  istep : ℕ

/-- `ExpLejaIntegrator.__init__`, ode_exp.py:439-467. -/
noncomputable def ExpLeja.new {n : ℕ} (t0 : ℝ) (y0 : Vec n) (method : String) : Py (ExpLeja n) :=
  match ExpLeja.validMethods.lookup method with
  | none => .error .attribute
  | some order => do
    let b ← Base.init t0 y0 order method
    pure { base := b, substepSize := 1, bk := none, istep := 0 }

/-- `reset_ic` is inherited unchanged from `IntegrateSys` (ode_sys.py:538-543): only time and history are reset. -/
def ExpLeja.resetIc {n : ℕ} (s : ExpLeja n) (t0 : ℝ) (y0 : Vec n) : ExpLeja n :=
  { s with base := s.base.resetIc t0 y0 }

/-- `ExpLejaIntegrator.accept_step`, ode_exp.py:621-624. -/
def ExpLeja.acceptStep {n : ℕ} (s : ExpLeja n) (r : StepResult (Vec n)) : ExpLeja n :=
  { s with base := s.base.acceptStep r }

/-- Tail of both step functions, ode_exp.py:520-531, 595-606: convergence check, counters, moving average of the substep
size with weight `1/min(istep, 10)`. -/
noncomputable def lejaFinish {n : ℕ} (s : ExpLeja n) (bk : Option (Vec (n + 2))) (yt yUpdate : Vec n) (dt : ℝ)
    (converged : Prop) (maxTau : ℝ) : Py (StepResult (Vec n) × ExpLeja n) :=
  if ¬ converged then .error .runtime
  else
    let istep := s.istep + 1
    let wgt : ℝ := ((min istep 10 : ℕ) : ℝ)
    .ok ({ t := s.base.t + dt, dt := dt, y := yt + yUpdate, err := -1 },
         { s with bk := bk, istep := istep,
                  substepSize := (1 / wgt) * maxTau + ((wgt - 1) / wgt) * s.substepSize })

/-- The augmented system of three vectors has dimension `n+2`. -/
def buildATilde3 {n : ℕ} (A : LinOp n) (dt : ℝ) (b0 b1 b2 : Vec n) : Py (LinOp (n + 2) × Vec (n + 2)) :=
  buildATilde A dt [b0, b1, b2]

/-- Inner evaluation handed to the substep routine by `real_leja_expmv_substep`, matexp_leja.py:528-540. -/
noncomputable def realInner {m : ℕ} (A : LinOp m) (o : LejaOpts) (shift scale : ℝ) :
    ℝ → Vec m → Vec m × ℕ × Prop :=
  let coeffs := o.ddRe o.nLeja o.lejaX shift scale
  fun dts w =>
    let r := realLejaExpmv A dts w shift scale o.nLeja o.lejaX coeffs o.tol 1e10
    (r.pm, r.i, r.conv)

/-- Inner evaluation of `complex_conj_leja_expmv_substep`, matexp_leja.py:605-621 (zero padding, coefficients). -/
noncomputable def complexInner {m : ℕ} (A : LinOp m) (o : LejaOpts) (q : LejaSeq) :
    ℝ → Vec m → Vec m × ℕ × Prop :=
  let x : ℕ → ℂ := if o.nZeros > 0 then lejaSeqPadZeros o.nZeros q.zt else q.zt
  let len := o.nZeros + o.nLeja
  let coeffs := o.ddIm len x q.shift q.scale
  fun dts w =>
    let r := complexConjLejaExpmv A dts w q.shift q.scale len x (o.nZeros + q.nReal) coeffs o.tol 1e10
    (r.pm, r.i, r.conv)

/-- `_step_epi_re`, ode_exp.py:469-531. -/
noncomputable def stepEpiRe {n : ℕ} {P : Type} (o : LejaOpts) (sys : OdeSys n P) (s : ExpLeja n) (dt : ℝ) (kw : P) :
    Py (StepResult (Vec n) × ExpLeja n) := do
  let t := s.base.t
  let yt ← s.base.yHist.get 0
  let jac := sys.fjac (some kw) t yt
  let fyt := jac.frhsCached
  let fytt := jac.fdt
  let (aT, v) ← buildATilde3 jac.toLinOp dt 0 (dt • fyt) (dt ^ 2 • fytt)
  let (shift, scale, bk) := match o.lejaA with
    | none =>
      let r := lejaShiftScale aT o.maxPowerIter s.bk (o.bRand (n + 2)) o.maxReEigScale
      (r.1, r.2.1, some r.2.2.2.1)
    | some a => (dt * a / 2, |dt * a / 4|, s.bk)
  let (w, _iters, conv, maxTau) ← expmvSubstep (realInner aT o shift scale) (1.1 * s.substepSize) v o.substep
  lejaFinish s bk yt (headN w) dt conv maxTau

/-- `_step_epi_im`, ode_exp.py:533-606; `third` is `order == 3`. -/
noncomputable def stepEpiIm {n : ℕ} {P : Type} (o : LejaOpts) (sys : OdeSys n P) (s : ExpLeja n) (dt : ℝ) (kw : P)
    (third : Bool) : Py (StepResult (Vec n) × ExpLeja n) := do
  let t := s.base.t
  let yt ← s.base.yHist.get 0
  let jac := sys.fjac (some kw) t yt
  let fyt := jac.frhsCached
  let fytt := jac.fdt
  let b2 ←
    if third then do
      let yp ← s.base.yHist.get 1
      let tp ← s.base.tHist.get 1
      let rn ← remf sys s.base tp yp fyt jac.toLinOp fytt
      pure ((dt * (2 / 3)) • rn + dt ^ 2 • fytt)
    else pure (dt ^ 2 • fytt)
  let (aT, v) ← buildATilde3 jac.toLinOp dt 0 (dt • fyt) b2
  let (lejaA, bk) := match o.lejaA with
    | none =>
      let r := lejaShiftScale aT o.maxPowerIter s.bk (o.bRand (n + 2)) o.maxReEigScale
      (-|r.2.2.1|, some r.2.2.2.1)
    | some a => (a * dt, s.bk)
  let lejaC := match o.lejaC with
    | none => 0
    | some c => c * dt
  let q ← genLejaConjugate o.nLeja lejaA 0 lejaC
  let (w, _iters, conv, maxTau) ← expmvSubstep (complexInner aT o q) (1.1 * s.substepSize) v o.substep
  lejaFinish s bk yt (headN w) dt conv maxTau

/-- `ExpLejaIntegrator.step`, ode_exp.py:608-619. -/
noncomputable def ExpLeja.step {n : ℕ} {P : Type} [EmptyCollection P] (o : LejaOpts) (sys : OdeSys n P)
    (s : ExpLeja n) (dt : ℝ) (kw : Option P) : Py (StepResult (Vec n) × ExpLeja n) :=
  let d : P := kw.getD ∅
  let m := s.base.method
  if m = "epi2_leja_re" then stepEpiRe o sys s dt d
  else if m = "epi2_leja_im" then stepEpiIm o sys s dt d false
  else if m = "epi3_leja_im" then
    if s.base.yHist.len ≥ 2 then stepEpiIm o sys s dt d true else stepEpiIm o sys s dt d false
  else .error .notImplemented

/-! ### All families as steppers for `integrate_ormatex` -/

variable {n : ℕ} {P : Type} [EmptyCollection P]

noncomputable section

/-- `ExpRBIntegrator` as used by the wrapper -/
def rbStepper (hasRust : Bool) (K : Kernels n) (sys : OdeSys n P) : Stepper (ExpRB n) P (Vec n) where
  step s dt kw := keep s (ExpRB.step hasRust K sys s dt kw)
  accept := ExpRB.acceptStep

/-- `ExpSplitIntegrator` as used by the wrapper -/
def splitStepper (K : Kernels n) (sys : OdeSys n P) : Stepper (ExpSplit n) P (Vec n) where
  step := ExpSplit.step K sys
  accept := ExpSplit.acceptStep

/-- `RKIntegrator` as used by the wrapper -/
def rkStepper (sys : OdeSys n P) : Stepper (Base (Vec n)) P (Vec n) where
  step s dt kw := keep s (RK.step sys s dt kw)
  accept := Base.acceptStep

/-- `ExpLejaIntegrator` as used by the wrapper -/
def lejaStepper (o : LejaOpts) (sys : OdeSys n P) : Stepper (ExpLeja n) P (Vec n) where
  step := ExpLeja.step o sys
  accept := ExpLeja.acceptStep

end

end Ormatex
