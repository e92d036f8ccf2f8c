import Verif.Model.Leja

/-!
Specification of a linear relation between two systems: a change of coordinates, a permutation, a lumping of components or a shift of the time axis.
-/

namespace Ormatex.Spec
open Matrix

/-- `S` maps the vector field of `f` to the vector field of `g` at a time shifted by `c`: if `y` solves `y' = f(t, y)` then `S y`, delayed by `c`, solves
`z' = g(t, z)`.  `S` need not be square or invertible. -/
def Maps2 {n m : ℕ} (S : Matrix (Fin m) (Fin n) ℝ) (c : ℝ) (f : ℝ → Vec n → Vec n) (g : ℝ → Vec m → Vec m) : Prop :=
  ∀ t y, g (t + c) (S *ᵥ y) = S *ᵥ f t y

/-- the right-hand side is differentiable in time and state everywhere -/
def Smooth1 {n : ℕ} (f : ℝ → Vec n → Vec n) : Prop := ∀ q : ℝ × Vec n, DifferentiableAt ℝ (fun p : ℝ × Vec n => f p.1 p.2) q

end Ormatex.Spec
