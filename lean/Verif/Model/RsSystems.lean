import Verif.Model.RsMatUtils
import Mathlib.Analysis.SpecialFunctions.Pow.Real

/-!
The example systems of the Rust crate: `/repo/src/ode_utils.rs` and `/repo/src/ode_test_common.rs`.
-/

namespace Ormatex.Rs
open Matrix
open scoped Classical

/-- `lv_sys_rhs`, ode_utils.rs:22-32 (all four parameters are 1) -/
noncomputable def lvSysRhs (_t : ℝ) (x : Vec 2) : Vec 2 :=
  let alpha : ℝ := 1
  let beta : ℝ := 1
  let delta : ℝ := 1
  let gamma : ℝ := 1
  ![alpha * x 0 - beta * x 0 * x 1, delta * x 0 * x 1 - gamma * x 1]

/-- `lv_sys_jac`, ode_utils.rs:35-56: the dense matrix, pushed entry by entry into triplets -/
noncomputable def lvSysJac (_t : ℝ) (x : Vec 2) : RsM (Mat 2) :=
  let alpha : ℝ := 1
  let beta : ℝ := 1
  let delta : ℝ := 1
  let gamma : ℝ := 1
  let jac : Mat 2 := !![alpha - beta * x 1, -beta * x 0; delta * x 1, delta * x 0 - gamma]
  fromTriplets 2 2 ((List.finRange 2).flatMap fun i : Fin 2 => (List.finRange 2).map fun j : Fin 2 => ⟨i, j, jac i j⟩)

/-- `bateman_sys_rhs`, ode_utils.rs:60-84 -/
noncomputable def batemanSysRhs (_t : ℝ) (x : Vec 3) : Vec 3 :=
  let l0 : ℝ := 1.0e-3
  let l1 : ℝ := 1.0e1
  let l2 : ℝ := 1.0e-1
  let batMat : Mat 3 := !![-l0, l1, 0; 0, -l1, l2; 0, 0, -l2]
  batMat *ᵥ x

/-- `rob_sys_rhs`, ode_utils.rs:88-99 -/
noncomputable def robSysRhs (_t : ℝ) (x : Vec 3) : Vec 3 :=
  let xdot := -0.04 * x 0 + 1.0e4 * x 1 * x 2
  let ydot := 0.04 * x 0 - 1.0e4 * x 1 * x 2 - 3.0e7 * (x 1) ^ (2.0 : ℝ)
  let zdot := 3.0e7 * (x 1) ^ (2.0 : ℝ)
  ![xdot, ydot, zdot]

/-- `TestQuadSys::frhs`, ode_test_common.rs:38-41, on the 1 by 1 matrices of its tests (`x * x` is a matrix product, which does
not exist for a longer column). -/
noncomputable def quadRhs (_t : ℝ) (x : Vec 1) : Vec 1 := fun i => x i * x i - 1

/-- `fjac` of `TestQuadSys`, `TestLvFdSys` and `TestBatemanFdSys`, ode_test_common.rs:44-52, 69-74, 115-120: the difference
operator.  Simplified: where the operator returns NaN (at the zero state) the operator here returns zero; the statements about
it carry the condition that this does not happen, or hold for both. -/
noncomputable def fdSys {n : ℕ} (f : ℝ → Vec n → Vec n) : Sys n where
  frhs := f
  fjac t x :=
    { matvec := fun v => match (getFdJac f t x).apply v with
        | .ok r => r
        | .error _ => 0
      dense := .error .notImplemented }

/-- `TestLvSys`, ode_test_common.rs:78-98.  `lv_sys_jac` never panics (`C110_lv_jac`), so the default is not used. -/
noncomputable def lvSys : Sys 2 where
  frhs := lvSysRhs
  fjac t x :=
    let J : Mat 2 := match lvSysJac t x with
      | .ok J => J
      | .error _ => 0
    { matvec := fun v => J *ᵥ v, dense := .ok J }

/-- `TestLvFdSys`, ode_test_common.rs:56-75 -/
noncomputable def lvFdSys : Sys 2 := fdSys lvSysRhs

/-- `TestBatemanFdSys`, ode_test_common.rs:101-122 -/
noncomputable def batemanFdSys : Sys 3 := fdSys batemanSysRhs

/-- `rob_sys_rhs` with the difference operator, as a user would wrap it (the crate does not wrap it) -/
noncomputable def robFdSys : Sys 3 := fdSys robSysRhs

end Ormatex.Rs
