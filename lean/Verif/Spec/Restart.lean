import Verif.Model.Wrapper

/-!
Checkpoint and restart of `integrate_ormatex`: what a user sees of a run, and what it means that a run may be cut in two.
-/

namespace Ormatex.Spec

/-- what the caller of `integrate_ormatex` gets (times, states, the two callback logs) together with the world the callbacks acted on -/
structure Seen (P Q W Y : Type) where
  times : List ℝ
  states : List Y
  before : List P
  after : List Q
  world : W

variable {σ P Q W Y : Type}

/-- the visible part of the loop state -/
def seen (l : LoopState σ P Q W Y) : Seen P Q W Y := ⟨l.tRes, l.yRes, l.cbBefore, l.cbAfter, l.world⟩

/-- a first run continued by a second one, whose first recorded point repeats the last one of the first run -/
def Seen.append (a b : Seen P Q W Y) : Seen P Q W Y :=
  ⟨a.times ++ b.times.tail, a.states ++ b.states.tail, a.before ++ b.before, a.after ++ b.after, b.world⟩

/-- a run of `nsteps` steps of a newly constructed integrator -/
def freshRun (I : Stepper σ P Y) (new : ℝ → Y → Py σ) (dt : ℝ) (before : Option (W → ℝ → Y → P × W)) (after : Option (W → ℝ → Y → Q × W))
    (t0 : ℝ) (y0 : Y) (nsteps : ℕ) (w : W) : Py (Seen P Q W Y) := do
  let s ← new t0 y0
  let l ← integrateOrmatex I s y0 t0 dt nsteps before after w
  pure (seen l)

/-- Checkpoint/restart: a run of `a + b` steps is the run of `a` steps followed by a run of `b` steps of a newly constructed integrator from the
last recorded time and state, also when one of them raises; the callbacks are called with the same arguments in the same order. -/
def Restartable (I : Stepper σ P Y) (new : ℝ → Y → Py σ) (dt : ℝ) : Prop :=
  ∀ (Q W : Type) (before : Option (W → ℝ → Y → P × W)) (after : Option (W → ℝ → Y → Q × W)) (t0 : ℝ) (y0 : Y) (a b : ℕ) (w : W),
    freshRun I new dt before after t0 y0 (a + b) w = (do
      let r1 ← freshRun I new dt before after t0 y0 a w
      let r2 ← freshRun I new dt before after (r1.times.getLastD t0) (r1.states.getLastD y0) b r1.world
      pure (r1.append r2))

end Ormatex.Spec
