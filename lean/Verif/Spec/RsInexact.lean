import Verif.Spec.RsExact
import Verif.Model.Leja

/-!
Specification of an iterative linear solver: what a caller of `gmres` may rely on when it returns.
-/

namespace Ormatex.Rs
open Matrix Ormatex.Spec
open scoped Classical
variable {n : ℕ}

/-- The contract of `faer_gmres::gmres`: it returns for nonsingular systems when it may take as many iterations as there are unknowns, and then the
residual is at most `tol` times the right-hand side, in the Euclidean norm.  Nothing is said about the guess or the error. -/
structure ResidualGmres (gmres : Gmres n) : Prop where
  returns : ∀ (op : LinOp n) (M : Mat n), IsMatrix op M → IsUnit M.det → ∀ b g it tol, 0 < tol → n ≤ it → ∃ x, gmres op b g it tol = .ok x
  residual : ∀ (op : LinOp n) (M : Mat n), IsMatrix op M → ∀ b g it tol x, 0 < tol → gmres op b g it tol = .ok x →
    norm2 (M *ᵥ x - b) ≤ tol * norm2 b

/-- A solver that meets the contract and uses all of the tolerance. -/
noncomputable def sloppyGmres (n : ℕ) : Gmres n := fun op b _ _ tol =>
  if IsUnit (opMatrix op).det then .ok ((opMatrix op)⁻¹ *ᵥ ((1 + tol) • b)) else .error .panic

end Ormatex.Rs
