import Verif.Model.RsSys

/-!
A client of a Rust integrator object: the calls it can make and what it observes.
-/

namespace Ormatex.Rs
variable {σ : Type} {n : ℕ}

/-- Calls on an integrator object. -/
inductive RsCall (n : ℕ) where
  | step (dt : ℝ)
  | accept (r : StepRes n)
  | reset (t0 : ℝ) (y0 : Vec n)

namespace Integrator

/-- Object after one call. `step` takes the object by shared reference and leaves it as it is. -/
def after (I : Integrator σ n) (s : σ) : RsCall n → σ
  | .step _ => s
  | .accept r => I.accept s r
  | .reset t0 y0 => I.reset s t0 y0

/-- What the client sees of one call: the outcome of a `step`, and `time()` and `state()` afterwards. -/
def observe (I : Integrator σ n) (s : σ) (c : RsCall n) : Option (RsM (StepRes n)) × ℝ × RsM (Vec n) :=
  (match c with
    | .step dt => some (I.step s dt)
    | _ => none,
   I.time (I.after s c), I.state (I.after s c))

/-- Object after a sequence of calls. -/
def run (I : Integrator σ n) (s : σ) (cs : List (RsCall n)) : σ := cs.foldl I.after s

/-- Everything the client sees during a sequence of calls. -/
def trace (I : Integrator σ n) : σ → List (RsCall n) → List (Option (RsM (StepRes n)) × ℝ × RsM (Vec n))
  | _, [] => []
  | s, c :: cs => I.observe s c :: I.trace (I.after s c) cs

/-- The objects `S 0, S 1, ..., S N` of a run that takes and accepts `N` steps of size `dt`. -/
def Stepping (I : Integrator σ n) (dt : ℝ) (N : ℕ) (S : ℕ → σ) : Prop :=
  ∀ i < N, ∃ r, I.step (S i) dt = .ok r ∧ S (i + 1) = I.accept (S i) r

end Integrator

/-- Time and state the client last accepted or reset to. -/
def newest (ic : ℝ × Vec n) : List (RsCall n) → ℝ × Vec n
  | [] => ic
  | .step _ :: cs => newest ic cs
  | .accept r :: cs => newest (r.t, r.y) cs
  | .reset t0 y0 :: cs => newest (t0, y0) cs

/-- Number of steps accepted since the last reset. -/
def acceptedSinceReset (cs : List (RsCall n)) : ℕ :=
  cs.foldl (fun k c => match c with
    | .step _ => k
    | .accept _ => k + 1
    | .reset _ _ => 0) 0

end Ormatex.Rs
