import Verif.Model.Arnoldi
import Verif.Model.Phi
import Verif.Model.OdeExp

/-!
Krylov phi-vector products, from `/repo/ormatex_py/matexp_krylov.py`.
-/

namespace Ormatex
open Matrix
open scoped Classical

/-- first unit vector of length `k`, matexp_krylov.py:48-49 -/
def firstUnit (k : ℕ) : Vec k := fun i => if (i : ℕ) = 0 then 1 else 0

/-- Signature of the small dense kernel `f_phi_k_appl(h, unit_vec, k)`. -/
abbrev DenseAppl := ∀ m : ℕ, Mat m → Vec m → ℕ → Py (Vec m)

/-- `phi_linop(a_lo, dt, v0, k, max_krylov_dim, iom)`, matexp_krylov.py:37-63, over the dense kernel `appl`. -/
noncomputable def phiLinop {n : ℕ} (appl : DenseAppl) (A : LinOp n) (dt : ℝ) (v0 : Vec n) (k maxDim iom : ℕ) :
    Py (Vec n) :=
  let normV0 := norm2 v0
  if normV0 > 0 then
    let v : Vec n := fun i => v0 i / normV0
    let r := arnoldiLop A dt v maxDim iom
    if 0 < r.k then do
      let e ← appl r.k r.H (firstUnit r.k) k
      pure (normV0 • (r.Q *ᵥ e))
    else .error .assertion
  else .ok 0

/-- `matexp_linop`, matexp_krylov.py:30-34. -/
noncomputable def matexpLinop {n : ℕ} (appl : DenseAppl) (A : LinOp n) (dt : ℝ) (v0 : Vec n) (maxDim iom : ℕ) :
    Py (Vec n) :=
  phiLinop appl A dt v0 0 maxDim iom

/-- `max(norms_vb)` -/
noncomputable def maxNorm {n : ℕ} (vb : List (Vec n)) : ℝ := (vb.map norm2).foldl max 0

/-- `kiops_fixedsteps(a_lo, dt, vb, max_krylov_dim, iom, n_steps)`, matexp_krylov.py:65-120, over the product
`expmv a_tilde tau v` (`matexp_linop` in the code).  `n_steps` is not read by the code.  For `p = 0` and a nonzero
vector `jnp.vstack([])` raises; `max` of an empty list raises too. -/
noncomputable def kiopsWith {n : ℕ} (expmv : ∀ m : ℕ, LinOp m → ℝ → Vec m → Py (Vec m))
    (A : LinOp n) (dt : ℝ) (vb : List (Vec n)) : Py (Vec n) :=
  let p := vb.length - 1
  let normVb := maxNorm vb
  if vb = [] then .error .index
  else if normVb > 0 then
    if p = 0 then .error .value
    else do
      let b : Matrix (Fin n) (Fin p) ℝ := Matrix.of fun i j => augB vb i j / normVb
      let aTilde ← augMatrixLinOp A dt b (augK p)
      let v := concat (fun i => (vb.getD 0 0) i / normVb) (lastUnit p)
      let w ← expmv (n + p) aTilde 1 v
      pure (normVb • headN w)
  else .ok 0

/-- `kiops_fixedsteps` with the package's `matexp_linop`. -/
noncomputable def kiopsFixedsteps {n : ℕ} (appl : DenseAppl) (A : LinOp n) (dt : ℝ) (vb : List (Vec n))
    (maxDim iom _nSteps : ℕ) : Py (Vec n) :=
  kiopsWith (fun _ a tau v => matexpLinop appl a tau v maxDim iom) A dt vb

/-- `f_phi_k_appl(h, unit_vec, k)` on a vector, matexp_phi.py:197-214: the vector is a one-column matrix. -/
noncomputable def applCode (expm : ∀ m, Mat m → Mat m) : DenseAppl := fun _ z b k => do
  let R ← fPhiKApplCode expm z (Matrix.of fun i (_ : Fin 1) => b i) k
  pure fun i => R i 0

/-- The kernels of the package, with the constants of an integrator: external `expm`, the pole table selected by
`pfd_method`, and the Rust routine. -/
noncomputable def realKernels (n : ℕ) (expm : ∀ m, Mat m → Mat m) (tab : Pfd)
    (rs : Mat n → ℝ → Vec n → ℕ → Vec n) (maxDim iom : ℕ) : Kernels n where
  phiLinop A dt v k := phiLinop (applCode expm) A dt v k maxDim iom
  kiops A dt vb := kiopsFixedsteps (applCode expm) A dt vb maxDim iom 1
  phiSqAll z k := fPhiKSqAll z k
  phiPfd z b k := .ok (fPhiKPfd tab z b k)
  phikvRs := rs

end Ormatex
