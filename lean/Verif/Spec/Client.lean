import Verif.Model.Writes

/-!
A client of an integrator object: the calls it can make and what it observes.  Used to state properties about every
history of calls.
-/

namespace Ormatex
variable {σ P Y : Type}

/-- The public calls that can change an integrator object. -/
inductive Call (P Y : Type) where
  | step (dt : ℝ) (kw : Option P)
  | accept (r : StepResult Y)
  | reset (t0 : ℝ) (y0 : Y)

/-- An integrator class as seen by a client.  `writes s c` lists the states the object goes through during the call `c`. -/
structure Machine (σ P Y : Type) extends Stepper σ P Y where
  reset : σ → ℝ → Y → σ
  base : σ → Base Y
  writes : σ → Call P Y → List σ

namespace Machine

/-- Object after one call.  A `step` that raises leaves the object in the last state reached. -/
def after (M : Machine σ P Y) (s : σ) : Call P Y → σ
  | .step dt kw => match M.step s dt kw with
    | .ok (_, s') => s'
    | .error _ => (M.writes s (.step dt kw)).getLastD s
  | .accept r => M.accept s r
  | .reset t0 y0 => M.reset s t0 y0

/-- What a client sees of one call: the value or exception of a `step`, and time and histories afterwards. -/
def observe (M : Machine σ P Y) (s : σ) (c : Call P Y) : Option (Py (StepResult Y)) × Base Y :=
  (match c with
    | .step dt kw => some ((M.step s dt kw).map Prod.fst)
    | _ => none,
   M.base (M.after s c))

/-- Object after a sequence of calls. -/
def run (M : Machine σ P Y) (s : σ) (cs : List (Call P Y)) : σ := cs.foldl M.after s

/-- Everything a client sees during a sequence of calls. -/
def trace (M : Machine σ P Y) : σ → List (Call P Y) → List (Option (Py (StepResult Y)) × Base Y)
  | _, [] => []
  | s, c :: cs => M.observe s c :: M.trace (M.after s c) cs

end Machine

section classes
variable {n : ℕ} [EmptyCollection P]

/-- `ExpRBIntegrator` -/
noncomputable def rbMachine (hasRust : Bool) (K : Kernels n) (sys : OdeSys n P) : Machine (ExpRB n) P (Vec n) :=
  { rbStepper hasRust K sys with
    reset := ExpRB.resetIc
    base := ExpRB.base
    writes := fun s c => match c with
      | .step _ _ => [s]
      | .accept r => (s.base.acceptWrites r).map fun b => { s with base := b }
      | .reset t0 y0 => (s.base.resetWrites t0 y0).map fun b => { s with base := b } }

/-- `ExpSplitIntegrator` -/
noncomputable def splitMachine (K : Kernels n) (sys : OdeSys n P) : Machine (ExpSplit n) P (Vec n) :=
  { splitStepper K sys with
    reset := ExpSplit.resetIc
    base := ExpSplit.base
    writes := fun s c => match c with
      | .step dt _ => s.stepWrites K sys dt
      | .accept r => (s.base.acceptWrites r).map fun b => { s with base := b }
      | .reset t0 y0 => s.resetWrites t0 y0 }

/-- `RKIntegrator` -/
noncomputable def rkMachine (sys : OdeSys n P) : Machine (Base (Vec n)) P (Vec n) :=
  { rkStepper sys with
    reset := Base.resetIc
    base := id
    writes := fun s c => match c with
      | .step _ _ => [s]
      | .accept r => s.acceptWrites r
      | .reset t0 y0 => s.resetWrites t0 y0 }

/-- `ExpLejaIntegrator` -/
noncomputable def lejaMachine (o : LejaOpts) (sys : OdeSys n P) : Machine (ExpLeja n) P (Vec n) :=
  { lejaStepper o sys with
    reset := ExpLeja.resetIc
    base := ExpLeja.base
    writes := fun s c => match c with
      | .step dt kw => s.stepWrites o sys dt kw
      | .accept r => (s.base.acceptWrites r).map fun b => { s with base := b }
      | .reset t0 y0 => (s.base.resetWrites t0 y0).map fun b => { s with base := b } }

end classes

end Ormatex
