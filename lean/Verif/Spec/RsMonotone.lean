import Verif.Spec.RsInexact
import Mathlib.Analysis.Calculus.Deriv.Basic

/-!
Specification of nonlinear stiff dissipative problems for the implicit methods.
-/

namespace Ormatex.Rs
open Matrix Ormatex.Spec
variable {n : ℕ}

/-- An autonomous system `y' = f y` with Jacobian operators that act as the matrices `J y`. -/
structure AutSys (sys : Sys n) (f : Vec n → Vec n) (J : Vec n → Mat n) : Prop where
  frhs : ∀ t y, sys.frhs t y = f y
  fjac : ∀ t y, IsMatrix (sys.fjac t y) (J y)

/-- A system of this form. -/
def autSys (f : Vec n → Vec n) (J : Vec n → Mat n) : Sys n where
  frhs _ y := f y
  fjac _ y := { matvec := fun v => J y *ᵥ v, dense := .ok (J y) }

theorem autSys_aut (f : Vec n → Vec n) (J : Vec n → Mat n) : AutSys (autSys f J) f J := ⟨fun _ _ => rfl, fun _ _ _ => rfl⟩

/-- No two solutions of `y' = f y` move apart, the matrices `J y` used by Newton's method do not increase the Euclidean norm along `v' = J v`, and what
they miss of `f` is Lipschitz with the constant `l`.  No constant bounds `J` or the Lipschitz constant of `f`, and `J` need not be the derivative. -/
structure Monotone (f : Vec n → Vec n) (J : Vec n → Mat n) (l : ℝ) : Prop where
  nonneg : 0 ≤ l
  mono : ∀ x y, (x - y) ⬝ᵥ (f x - f y) ≤ 0
  diss : ∀ y v : Vec n, v ⬝ᵥ (J y *ᵥ v) ≤ 0
  missed : ∀ x y, norm2 (f x - f y - J y *ᵥ (x - y)) ≤ l * norm2 (x - y)

/-- `Y` solves `y' = f y`, and its speed changes at most at the rate `M`. -/
structure SlowSolution (f : Vec n → Vec n) (Y : ℝ → Vec n) (t0 M : ℝ) : Prop where
  sol : ∀ s, HasDerivAt Y (f (Y s)) s
  rate : ∀ t s, t0 ≤ t → 0 ≤ s → norm2 (f (Y (t + s)) - f (Y t)) ≤ M * s

/-- What the matrices of Newton's method miss of `f` is of second order, with the constant `l2`. -/
structure MissedQuad (f : Vec n → Vec n) (J : Vec n → Mat n) (l2 : ℝ) : Prop where
  nonneg : 0 ≤ l2
  missed : ∀ x y, norm2 (f x - f y - J y *ᵥ (x - y)) ≤ l2 * norm2 (x - y) ^ 2

/-- `Y` solves `y' = f y`, and its acceleration `A` changes at most at the rate `M`. -/
structure SlowAcceleration (f : Vec n → Vec n) (Y A : ℝ → Vec n) (t0 M : ℝ) : Prop where
  sol : ∀ s, HasDerivAt Y (f (Y s)) s
  acc : ∀ s, HasDerivAt (fun s => f (Y s)) (A s) s
  rate : ∀ t s, t0 ≤ t → 0 ≤ s → norm2 (A (t + s) - A t) ≤ M * s

end Ormatex.Rs
