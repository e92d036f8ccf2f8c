import Verif.Spec.Phi
import Verif.Model.OdeExp

/-!
Specification of exact phi-function kernels: what the kernels called by the steps are meant to compute.
-/

namespace Ormatex.Spec
open Matrix
variable {n : ℕ}

/-- `A` is the linear operator with matrix `M`. -/
def IsMatrix (A : LinOp n) (M : Mat n) : Prop := ∀ v, A.matvec v = M *ᵥ v

/-- The kernels return the exact phi-function products for every operator given by a matrix. -/
structure ExactKernels (K : Kernels n) : Prop where
  /-- `phi_linop(A, dt, v, k) = phi_k(dt A) v` -/
  phiLinop : ∀ (A : LinOp n) (M : Mat n), IsMatrix A M → ∀ dt v k, K.phiLinop A dt v k = .ok (phiM k (dt • M) *ᵥ v)
  /-- `kiops_fixedsteps(A, dt, [b_0, ..., b_p]) = sum_j phi_j(dt A) b_j` for `p ≥ 1` -/
  kiops : ∀ (A : LinOp n) (M : Mat n), IsMatrix A M → ∀ dt (bs : List (Vec n)), 2 ≤ bs.length →
    K.kiops A dt bs = .ok (∑ j ∈ Finset.range bs.length, phiM j (dt • M) *ᵥ bs.getD j 0)
  /-- `f_phi_k_sq_all(z, k) = [phi_0(z), ..., phi_k(z)]` (orders up to 3) -/
  phiSqAll : ∀ z k, k ≤ 3 → K.phiSqAll z k = .ok ((List.range (k + 1)).map fun j => phiM j z)
  /-- `f_phi_k_pfd(z, b, k) = phi_k(z) b` -/
  phiPfd : ∀ z b k, K.phiPfd z b k = .ok (phiM k z *ᵥ b)
  /-- `DensePhikvEvalRs.eval(J, dt, v, k) = phi_k(dt J) v` -/
  phikvRs : ∀ J dt v k, K.phikvRs J dt v k = phiM k (dt • J) *ᵥ v

/-- The matrix of an operator, column by column. -/
def opMatrix (A : LinOp n) : Mat n := Matrix.of fun i j => A.matvec (Pi.single j 1) i

theorem opMatrix_eq {A : LinOp n} {M : Mat n} (h : IsMatrix A M) : opMatrix A = M := by
  ext i j
  simp [opMatrix, h (Pi.single j 1)]

/-- Kernels that compute the phi functions by their power series. -/
noncomputable def exactKernels (n : ℕ) : Kernels n where
  phiLinop A dt v k := .ok (phiM k (dt • opMatrix A) *ᵥ v)
  kiops A dt bs := .ok (∑ j ∈ Finset.range bs.length, phiM j (dt • opMatrix A) *ᵥ bs.getD j 0)
  phiSqAll z k := .ok ((List.range (k + 1)).map fun j => phiM j z)
  phiPfd z b k := .ok (phiM k z *ᵥ b)
  phikvRs J dt v k := phiM k (dt • J) *ᵥ v

/-- The specification can be met. -/
theorem exactKernels_exact (n : ℕ) : ExactKernels (exactKernels n) where
  phiLinop A M h dt v k := by simp [exactKernels, opMatrix_eq h]
  kiops A M h dt bs _ := by simp [exactKernels, opMatrix_eq h]
  phiSqAll _ _ _ := rfl
  phiPfd _ _ _ := rfl
  phikvRs _ _ _ _ := rfl

end Ormatex.Spec
