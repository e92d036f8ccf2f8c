import Verif.Model.RsSys

/-!
Specification: systems of the Rust crate that are related by an affine map of the states and a shift of the time axis, and runs of its explicit integrator.
-/

namespace Ormatex.Rs
open Matrix
variable {n m : ℕ}

/-- `y ↦ S y + b` maps the solutions of `sys` to solutions of `sys'`, delayed by `c`; `S` need not be square or invertible -/
def AffinelyRelated (S : Matrix (Fin m) (Fin n) ℝ) (b : Vec m) (c : ℝ) (sys : Sys n) (sys' : Sys m) : Prop :=
  ∀ t y, sys'.frhs (t + c) (S *ᵥ y + b) = S *ᵥ sys.frhs t y

/-- `N` accepted steps -/
noncomputable def rkRun (sys : Sys n) (dt : ℝ) : ℕ → Rk n → RsM (Rk n)
  | 0, s => .ok s
  | N + 1, s => match (Rk.integrator sys).step s dt with
    | .error e => .error e
    | .ok r => rkRun sys dt N ((Rk.integrator sys).accept s r)

/-- an integrator with its clock and its whole history converted -/
def affRk (S : Matrix (Fin m) (Fin n) ℝ) (b : Vec m) (c : ℝ) (s : Rk n) : Rk m :=
  Rk.mk s.order s.bt (s.t + c) (s.yHist.map fun y => S *ᵥ y + b)

end Ormatex.Rs
