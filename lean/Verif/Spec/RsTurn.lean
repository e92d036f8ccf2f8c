import Verif.Spec.RsMonotone
import Verif.Model.RsWrapper

/-!
Specification: two systems that are related by a rotation or reflection of the coordinates and a shift of the time axis.
-/

namespace Ormatex.Rs
open Matrix
variable {n : ℕ}

/-- `S` is orthogonal and maps the vector field and the Jacobian operators of `sys` to those of `sys'`, with the time axis shifted by `c`. -/
structure TurnedSys (S : Mat n) (c : ℝ) (sys sys' : Sys n) : Prop where
  orth : Sᵀ * S = 1
  rhs : ∀ t y, sys'.frhs (t + c) (S *ᵥ y) = S *ᵥ sys.frhs t y
  jac : ∀ t y v, (sys'.fjac (t + c) (S *ᵥ y)).call (S *ᵥ v) = S *ᵥ (sys.fjac t y).call v

/-- the result of a run in the coordinates of the other system: the same error, or the output states mapped by `S` and the output times shifted -/
noncomputable def turnRun (S : Mat n) (c : ℝ) : RsM (List (Vec n) × List ℝ) → RsM (List (Vec n) × List ℝ)
  | .ok (ys, ts) => .ok (ys.map (S *ᵥ ·), ts.map (· + c))
  | .error e => .error e

/-- `gmres'` does in the turned coordinates what `gmres` does -/
def TurnedGmres (S : Mat n) (gmres gmres' : Gmres n) : Prop :=
  ∀ A B : LinOp n, (∀ v, B.call (S *ᵥ v) = S *ᵥ A.call v) → ∀ b x iters tol,
    gmres' B (S *ᵥ b) (S *ᵥ x) iters tol = (gmres A b x iters tol).map (S *ᵥ ·)

end Ormatex.Rs
