import Verif.Model.Wrapper

/-!
`RKIntegrator` (`/repo/ormatex_py/ode_explicit.py`) in floating-point arithmetic: every arithmetic operation of the code is
an operation of a machine arithmetic, in the order of the source.  `Verif/Model/OdeExp.lean` is the same code over exact
reals (`RK.stepFl_exact`).
-/

namespace Ormatex
open Matrix
open scoped Classical

variable {n : ℕ} {P : Type}

/-- The machine operations `a + b`, `a * b`, `a / b`. -/
structure FlOps where
  add : ℝ → ℝ → ℝ
  mul : ℝ → ℝ → ℝ
  div : ℝ → ℝ → ℝ

namespace FlOps

/-- exact arithmetic -/
noncomputable def exact : FlOps := ⟨(· + ·), (· * ·), (· / ·)⟩

/-- `v + w` of arrays -/
def addV (F : FlOps) (v w : Vec n) : Vec n := fun i => F.add (v i) (w i)

/-- `c * v` of a scalar and an array -/
def mulV (F : FlOps) (c : ℝ) (v : Vec n) : Vec n := fun i => F.mul c (v i)

/-- `v * c` of an array and a scalar -/
def mulVr (F : FlOps) (v : Vec n) (c : ℝ) : Vec n := fun i => F.mul (v i) c

/-- `v / c` of an array and a scalar -/
def divV (F : FlOps) (v : Vec n) (c : ℝ) : Vec n := fun i => F.div (v i) c

end FlOps

/-- `_step_rk4_jit`, ode_explicit.py:33-47, operation by operation.  `F i` is the arithmetic of the `i`-th operation: with the
same machine arithmetic everywhere this is the source; different ones describe what the compiler may make of it (a product
contracted into a fused multiply-add is exact, intermediate results may be kept in a wider format). -/
noncomputable def rk4KernelFl (F : ℕ → FlOps) (f : ℝ → Vec n → Vec n) (t : ℝ) (yt : Vec n) (dt : ℝ) : Vec n :=
  let f1 := f t yt
  let f2 := f ((F 0).add t ((F 1).div dt 2)) ((F 2).addV yt ((F 3).divV ((F 4).mulVr f1 dt) 2))
  let f3 := f ((F 5).add t ((F 6).div dt 2)) ((F 7).addV yt ((F 8).divV ((F 9).mulVr f2 dt) 2))
  let f4 := f ((F 10).add t dt) ((F 11).addV yt ((F 12).mulVr f3 dt))
  (F 13).addV yt ((F 14).divV ((F 15).mulV dt
    ((F 16).addV ((F 17).addV ((F 18).addV f1 ((F 19).mulV 2 f2)) ((F 20).mulV 2 f3)) f4)) 6)

/-- `_step_rk4`, ode_explicit.py:49-58; operation 21 is `t+dt` -/
noncomputable def stepRk4Fl (F : ℕ → FlOps) (sys : OdeSys n P) (s : Base (Vec n)) (dt : ℝ) : Py (StepResult (Vec n)) := do
  let t := s.t
  let yt ← s.yHist.get 0
  pure { t := (F 21).add t dt, dt := dt, y := rk4KernelFl F (sys.frhs none) t yt dt, err := -1 }

/-- `RKIntegrator.step`, ode_explicit.py:60-64 (see `RK.step` for the keyword) -/
noncomputable def RK.stepFl (F : ℕ → FlOps) (sys : OdeSys n P) (s : Base (Vec n)) (dt : ℝ) (kw : Option P) :
    Py (StepResult (Vec n)) :=
  match kw with
  | some _ => .error .type
  | none => if s.method = "rk4" then stepRk4Fl F sys s dt else .error .notImplemented

/-- `RKIntegrator` as used by the wrapper -/
noncomputable def rkStepperFl (F : ℕ → FlOps) (sys : OdeSys n P) : Stepper (Base (Vec n)) P (Vec n) where
  step s dt kw := keep s (RK.stepFl F sys s dt kw)
  accept := Base.acceptStep

end Ormatex
