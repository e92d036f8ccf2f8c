import Verif.Py

/-!
`IntegrateSys` (history bookkeeping), from `/repo/ormatex_py/ode_sys.py`.
The state type `Y` is arbitrary: nothing here looks at it.
-/

namespace Ormatex
variable {Y : Type}

/-- `StepResult`, ode_sys.py:497-506. -/
structure StepResult (Y : Type) where
  t : ℝ
  dt : ℝ
  y : Y
  err : ℝ

/-- Attributes of `IntegrateSys`, ode_sys.py:509-525 (the `sys` attribute is kept by the integrators). -/
structure Base (Y : Type) where
  t : ℝ
  order : ℕ
  method : String
  tHist : Deque ℝ
  yHist : Deque Y

namespace Base

/-- `IntegrateSys.__init__`, ode_sys.py:527-536. -/
def init (t0 : ℝ) (y0 : Y) (order : ℕ) (method : String) : Py (Base Y) :=
  if 0 < order then
    .ok { t := t0, order := order, method := method,
          tHist := (Deque.empty order).appendleft t0,
          yHist := (Deque.empty order).appendleft y0 }
  else .error .assertion

/-- `IntegrateSys.reset_ic`, ode_sys.py:538-543. -/
def resetIc (b : Base Y) (t0 : ℝ) (y0 : Y) : Base Y :=
  { b with t := t0, tHist := b.tHist.clear.appendleft t0, yHist := b.yHist.clear.appendleft y0 }

/-- `IntegrateSys.accept_step`, ode_sys.py:555-564; the overrides in ode_exp.py:429-432, 621-624, 887-890 and
ode_explicit.py:66-69 have the same body. -/
def acceptStep (b : Base Y) (s : StepResult Y) : Base Y :=
  { b with t := s.t, tHist := b.tHist.appendleft s.t, yHist := b.yHist.appendleft s.y }

/-- property `time`, ode_sys.py:579-584 -/
def time (b : Base Y) : ℝ := b.t

/-- property `state`, ode_sys.py:586-591: the body is the bare expression `self.y_hist[0]` without `return`, so the
property evaluates the element (raising `IndexError` on an empty deque) and returns `None`. -/
def state (b : Base Y) : Py (Option Y) := do
  let _ ← b.yHist.get 0
  pure none

end Base

/-- The two mutating operations of the base interface. -/
inductive Op (Y : Type) where
  | accept (s : StepResult Y)
  | reset (t0 : ℝ) (y0 : Y)

/-- Effect of one operation on the integrator. -/
def Base.apply (b : Base Y) : Op Y → Base Y
  | .accept s => b.acceptStep s
  | .reset t0 y0 => b.resetIc t0 y0

/-- A history of operations. -/
def Base.run (b : Base Y) (ops : List (Op Y)) : Base Y := ops.foldl Base.apply b

end Ormatex
