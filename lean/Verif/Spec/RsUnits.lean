import Verif.Spec.RsTurn

/-!
Specification: two systems that are related by a change of units.
-/

namespace Ormatex.Rs
open Matrix
variable {n : ℕ}

/-- `sys'` is `sys` with all components in a unit that is smaller by the factor `a`, in orthogonal coordinates, and with the time axis shifted by `c` -/
structure ScaledSys (S : Mat n) (a c : ℝ) (sys sys' : Sys n) : Prop where
  orth : Sᵀ * S = 1
  pos : 0 < a
  rhs : ∀ t y, sys'.frhs (t + c) ((a • S) *ᵥ y) = (a • S) *ᵥ sys.frhs t y
  jac : ∀ t y, ∃ A A' : Mat n, (∀ v, (sys.fjac t y).call v = A *ᵥ v) ∧
    (∀ v, (sys'.fjac (t + c) ((a • S) *ᵥ y)).call v = A' *ᵥ v) ∧ A' * S = S * A

end Ormatex.Rs
