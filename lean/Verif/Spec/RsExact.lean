import Verif.Spec.Exact
import Verif.Model.RsKernels

/-!
Specification of exact inner solvers for the Rust integrators: the linear solver and the phi-vector products.
-/

namespace Ormatex.Rs
open Matrix Ormatex.Spec
open scoped Classical
variable {n : ℕ}

/-- The linear solver returns the solution of every nonsingular system given by a matrix. -/
def ExactGmres (gmres : Gmres n) : Prop :=
  ∀ (op : LinOp n) (M : Mat n), IsMatrix op M → IsUnit M.det → ∀ b g it tol, gmres op b g it tol = .ok (M⁻¹ *ᵥ b)

/-- A linear solver that meets the specification. -/
noncomputable def exactGmres (n : ℕ) : Gmres n := fun op b _ _ _ => .ok ((opMatrix op)⁻¹ *ᵥ b)

theorem exactGmres_exact (n : ℕ) : ExactGmres (exactGmres n) := by
  intro op M h _ b g it tol
  simp [exactGmres, opMatrix_eq h]

/-- The dense kernel returns `phi_k(dt a) v`. -/
def ExactDense (expmv : DenseRs) : Prop := ∀ m (a : Mat m) dt v k, expmv m a dt v k = .ok (phiM k (dt • a) *ᵥ v)

/-- The phi-vector products of the exponential integrators are exact on nonzero vectors (`kiops` never sees a zero
vector: it appends a unit entry). -/
structure ExactKern (K : Kern n) : Prop where
  phi : ∀ (A : LinOp n) (M : Mat n), IsMatrix A M → ∀ dt v k, v ≠ 0 → K.phi A dt v k = .ok (phiM k (dt • M) *ᵥ v)
  kiops : ∀ (A : LinOp n) (M : Mat n), IsMatrix A M → ∀ t (vb : List (Vec n)), 2 ≤ vb.length →
    K.kiops t A vb 1 = .ok (∑ j ∈ Finset.range vb.length, phiM j (t • M) *ᵥ vb.getD j 0)

/-- Products that meet the specification and fail, as the ones of the crate do, on the zero vector. -/
noncomputable def exactKern (n : ℕ) : Kern n where
  phi A dt v k := if v = 0 then .error .nan else .ok (phiM k (dt • opMatrix A) *ᵥ v)
  kiops t A vb _ := .ok (∑ j ∈ Finset.range vb.length, phiM j (t • opMatrix A) *ᵥ vb.getD j 0)

theorem exactKern_exact (n : ℕ) : ExactKern (exactKern n) where
  phi A M h dt v k hv := by simp [exactKern, opMatrix_eq h, hv]
  kiops A M h t vb _ := by simp [exactKern, opMatrix_eq h]

/-- The autonomous affine system `y' = A y + b`, with a Jacobian operator that applies `A`. -/
structure AffineSys (sys : Sys n) (A : Mat n) (b : Vec n) : Prop where
  frhs : ∀ t y, sys.frhs t y = A *ᵥ y + b
  fjac : ∀ t y, IsMatrix (sys.fjac t y) A

/-- A system of this form. -/
def affineSys (A : Mat n) (b : Vec n) : Sys n where
  frhs _ y := A *ᵥ y + b
  fjac _ _ := { matvec := fun v => A *ᵥ v, dense := .ok A }

theorem affineSys_affine (A : Mat n) (b : Vec n) : AffineSys (affineSys A b) A b := ⟨fun _ _ => rfl, fun _ _ _ => rfl⟩

end Ormatex.Rs
