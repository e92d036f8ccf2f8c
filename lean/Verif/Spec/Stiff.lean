import Verif.Model.Leja
import Mathlib.Analysis.Calculus.Deriv.Basic

/-!
Specification of stiff semilinear problems `y' = L y + g(t, y)`: the linear part is only required to be dissipative, all constants concern `g`.
-/

namespace Ormatex.Spec
open Matrix
variable {n : ℕ}

/-- the remainder `g(t, y) = f(t, y) - L y` -/
def nonl (f : ℝ → Vec n → Vec n) (L : Mat n) (t : ℝ) (y : Vec n) : Vec n := f t y - L *ᵥ y

/-- `Y` solves `y' = f(t, y)`, the linear part `L` does not increase the Euclidean norm along `y' = L y`, the remainder is Lipschitz in the state with
constant `l`, and it changes at most at the rate `M` along the solution.  No constant bounds `L`. -/
structure StiffProblem (f : ℝ → Vec n → Vec n) (L : Mat n) (Y : ℝ → Vec n) (t0 l M : ℝ) : Prop where
  diss : ∀ v : Vec n, v ⬝ᵥ (L *ᵥ v) ≤ 0
  lip_nonneg : 0 ≤ l
  rate_nonneg : 0 ≤ M
  lip : ∀ t x y, norm2 (nonl f L t x - nonl f L t y) ≤ l * norm2 (x - y)
  sol : ∀ s, HasDerivAt Y (f s (Y s)) s
  rate : ∀ t s, t0 ≤ t → 0 ≤ s → norm2 (nonl f L (t + s) (Y (t + s)) - nonl f L t (Y t)) ≤ M * s

/-- the remainder along the solution has the derivative `D` with a second-order remainder bounded by `M2` -/
structure StiffSmooth (f : ℝ → Vec n → Vec n) (L : Mat n) (Y D : ℝ → Vec n) (t0 M2 : ℝ) : Prop where
  curv_nonneg : 0 ≤ M2
  curv : ∀ t s, t0 ≤ t → 0 ≤ s → norm2 (nonl f L (t + s) (Y (t + s)) - nonl f L t (Y t) - s • D t) ≤ M2 / 2 * s ^ 2

/-- `Y` solves a stiff nonlinear problem `y' = f(t, y)` with the Jacobian `J(t, y)` and the time derivative `d(t, y)`: the Jacobian is only required to be
dissipative.  The constants concern the solution (`B`: speed), the part of `f` that the Jacobian at a neighbouring state misses (`l`), the variation of the
Jacobian and of the time derivative with the state (`κ`, `μ`) and the remainder of the linearization along the solution (`M2`); no constant bounds the
Jacobian itself. -/
structure StiffNonlinear (f : ℝ → Vec n → Vec n) (J : ℝ → Vec n → Mat n) (d : ℝ → Vec n → Vec n) (Y : ℝ → Vec n) (t0 B l κ μ M2 : ℝ) : Prop where
  diss : ∀ t y v, v ⬝ᵥ (J t y *ᵥ v) ≤ 0
  nonneg : 0 ≤ B ∧ 0 ≤ l ∧ 0 ≤ κ ∧ 0 ≤ μ ∧ 0 ≤ M2
  sol : ∀ s, HasDerivAt Y (f s (Y s)) s
  speed : ∀ t s, t0 ≤ t → 0 ≤ s → norm2 (Y (t + s) - Y t) ≤ B * s
  curv : ∀ t s, t0 ≤ t → 0 ≤ s →
    norm2 (f (t + s) (Y (t + s)) - f t (Y t) - J t (Y t) *ᵥ (Y (t + s) - Y t) - s • d t (Y t)) ≤ M2 / 2 * s ^ 2
  lip : ∀ t x, t0 ≤ t → norm2 (f t x - f t (Y t) - J t x *ᵥ (x - Y t)) ≤ l * norm2 (x - Y t)
  jac : ∀ t x v, t0 ≤ t → norm2 ((J t x - J t (Y t)) *ᵥ v) ≤ κ * norm2 (x - Y t) * norm2 v
  time : ∀ t x, t0 ≤ t → norm2 (d t x - d t (Y t)) ≤ μ * norm2 (x - Y t)

/-- the additional regularity for third order: the remainder of the linearization along the solution is quadratic up to third order terms (`M3`), and the part
of `f` that a Jacobian from an earlier time and any state misses is Lipschitz with the constant `l` -/
structure StiffCubic (f : ℝ → Vec n → Vec n) (J : ℝ → Vec n → Mat n) (d : ℝ → Vec n → Vec n) (Y C : ℝ → Vec n) (t0 l M3 : ℝ) : Prop where
  nonneg : 0 ≤ l ∧ 0 ≤ M3
  cubic : ∀ t s, t0 ≤ t → 0 ≤ s →
    norm2 (f (t + s) (Y (t + s)) - f t (Y t) - J t (Y t) *ᵥ (Y (t + s) - Y t) - s • d t (Y t) - s ^ 2 • C t) ≤ M3 * s ^ 3
  frozen : ∀ t s x z, t0 ≤ t → 0 ≤ s →
    norm2 (f (t + s) x - f (t + s) (Y (t + s)) - J t z *ᵥ (x - Y (t + s))) ≤ l * norm2 (x - Y (t + s))

/-- the additional regularity for fourth order: the remainder of the linearization along the solution is cubic up to fourth order terms (`M4`); the part of
`f` that a Jacobian from an earlier time and another state misses is Lipschitz with the constant `l`, and with a constant proportional to the distance
(`l2`) -/
structure StiffQuartic (f : ℝ → Vec n → Vec n) (J : ℝ → Vec n → Mat n) (d : ℝ → Vec n → Vec n) (Y C E : ℝ → Vec n) (t0 l l2 M4 : ℝ) : Prop where
  nonneg : 0 ≤ l ∧ 0 ≤ l2 ∧ 0 ≤ M4
  quartic : ∀ t s, t0 ≤ t → 0 ≤ s →
    norm2 (f (t + s) (Y (t + s)) - f t (Y t) - J t (Y t) *ᵥ (Y (t + s) - Y t) - s • d t (Y t) - s ^ 2 • C t - s ^ 3 • E t) ≤ M4 * s ^ 4
  frozen : ∀ t s x z, t0 ≤ t → 0 ≤ s →
    norm2 (f (t + s) x - f (t + s) (Y (t + s)) - J t z *ᵥ (x - Y (t + s))) ≤ l * norm2 (x - Y (t + s))
  near : ∀ t s x z, t0 ≤ t → 0 ≤ s →
    norm2 (f (t + s) x - f (t + s) (Y (t + s)) - J t z *ᵥ (x - Y (t + s))) ≤ l2 * (s + norm2 (z - Y t) + norm2 (x - Y (t + s))) * norm2 (x - Y (t + s))

end Ormatex.Spec
