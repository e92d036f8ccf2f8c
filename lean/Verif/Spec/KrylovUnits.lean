import Verif.Model.OdeExp

/-!
Specification: two systems of the Python package that are related by a change of coordinates and units.
-/

namespace Ormatex.Spec
open Matrix
variable {n : ℕ} {P : Type}

/-- `sys'` is `sys` with all components in a unit that is smaller by the factor `a`, in orthogonal coordinates, and with the time axis shifted by `c`, for
every set of parameters; the Jacobians and the linear operators of the splitting methods are matrices -/
structure ScaledOde (S : Mat n) (a c : ℝ) (sys sys' : OdeSys n P) : Prop where
  orth : Sᵀ * S = 1
  pos : 0 < a
  rhs : ∀ kw t y, sys'.frhs kw (t + c) ((a • S) *ᵥ y) = (a • S) *ᵥ sys.frhs kw t y
  cached : ∀ kw t y, (sys'.fjac kw (t + c) ((a • S) *ᵥ y)).frhsCached = (a • S) *ᵥ (sys.fjac kw t y).frhsCached
  fdt : ∀ kw t y, (sys'.fjac kw (t + c) ((a • S) *ᵥ y)).fdt = (a • S) *ᵥ (sys.fjac kw t y).fdt
  jac : ∀ kw t y, ∃ A A' : Mat n, (∀ v, (sys.fjac kw t y).toLinOp.call v = A *ᵥ v) ∧
    (∀ v, (sys'.fjac kw (t + c) ((a • S) *ᵥ y)).toLinOp.call v = A' *ᵥ v) ∧ A' * S = S * A
  lin : ∀ t y, ∃ A A' : Mat n, (∀ v, (sys.fl t y).call v = A *ᵥ v) ∧ (∀ v, (sys'.fl (t + c) ((a • S) *ᵥ y)).call v = A' *ᵥ v) ∧ A' * S = S * A

/-- a history, with every element converted -/
def mapDeque {α β : Type*} (g : α → β) (d : Deque α) : Deque β := Deque.mk d.maxlen (d.items.map g)

/-- the base of an integrator in the other coordinates and units -/
def scaleBase (S : Mat n) (a c : ℝ) (b : Base (Vec n)) : Base (Vec n) :=
  Base.mk (b.t + c) b.order b.method (mapDeque (· + c) b.tHist) (mapDeque ((a • S) *ᵥ ·) b.yHist)

/-- a trial step in the other coordinates and units -/
def scaleStep (S : Mat n) (a c : ℝ) (x : StepResult (Vec n)) : StepResult (Vec n) := StepResult.mk (x.t + c) x.dt ((a • S) *ᵥ x.y) x.err

/-- an exponential Rosenbrock integrator in the other coordinates and units -/
def scaleRB (S : Mat n) (a c : ℝ) (s : ExpRB n) : ExpRB n := ExpRB.mk (scaleBase S a c s.base) s.tolFdt

/-- a splitting integrator in the other coordinates and units; the caches belong to the dense methods -/
def scaleSplit (S : Mat n) (a c : ℝ) (s : ExpSplit n) : ExpSplit n := ExpSplit.mk (scaleBase S a c s.base) s.cachedDt s.cachedSysLop s.cachedPhiLs

/-- `N` accepted steps -/
noncomputable def rbSteps [EmptyCollection P] (hasRust : Bool) (K : Kernels n) (sys : OdeSys n P) (dt : ℝ) (kw : Option P) : ℕ → ExpRB n → Py (ExpRB n)
  | 0, s => .ok s
  | N + 1, s => match s.step hasRust K sys dt kw with
    | .error e => .error e
    | .ok r => rbSteps hasRust K sys dt kw N (s.acceptStep r)

/-- `N` accepted steps -/
noncomputable def splitSteps (K : Kernels n) (sys : OdeSys n P) (dt : ℝ) (kw : Option P) : ℕ → ExpSplit n → Py (ExpSplit n)
  | 0, s => .ok s
  | N + 1, s => match s.step K sys dt kw with
    | .error e => .error e
    | .ok r => splitSteps K sys dt kw N (r.2.acceptStep r.1)

end Ormatex.Spec
