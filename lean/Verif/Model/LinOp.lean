import Verif.Py
import Mathlib.Analysis.Calculus.FDeriv.Basic
import Mathlib.Analysis.Normed.Module.FiniteDimension
import Mathlib.Data.Matrix.Block
import Mathlib.Algebra.BigOperators.Fin

/-!
Linear operators and system interfaces, from `/repo/ormatex_py/ode_sys.py`.
-/

namespace Ormatex
open Matrix

/-- `LinOp`, ode_sys.py:39-59: an object with a matrix-vector product and a dense form (which some classes do not
implement).  `__call__` and `matvec` are both `_matvec`. -/
structure LinOp (n : ℕ) where
  matvec : Vec n → Vec n
  dense : Py (Mat n)

/-- `LinOp.__call__`, ode_sys.py:45-46. -/
def LinOp.call {n : ℕ} (A : LinOp n) (v : Vec n) : Vec n := A.matvec v

/-- `EyeLinOp`, ode_sys.py:62-77. -/
def eyeLinOp (n : ℕ) : LinOp n where
  matvec v := v
  dense := .ok 1

/-- `DiagLinOp`, ode_sys.py:80-95. -/
def diagLinOp {n : ℕ} (d : Vec n) : LinOp n where
  matvec v := fun i => d i * v i
  dense := .ok (Matrix.diagonal d)

/-- `MatrixLinOp`, ode_sys.py:98-120 (the square shape check is by type; sparse storage is not modelled). -/
def matrixLinOp {n : ℕ} (a : Mat n) : LinOp n where
  matvec b := a *ᵥ b
  dense := .ok a

/-- The shape assertion of the constructor `MatrixLinOp.__init__`, ode_sys.py:105-108. -/
def matrixLinOpCtor {r c : ℕ} (a : Matrix (Fin r) (Fin c) ℝ) : Py (LinOp r) :=
  if h : r = c then .ok (matrixLinOp (h ▸ a)) else .error .assertion

/-- first `n` entries `v[0:n]` of a vector of length `n+p` -/
def headN {n p : ℕ} (v : Vec (n + p)) : Vec n := fun i => v (Fin.castAdd p i)
/-- last `p` entries `v[-p:]` of a vector of length `n+p` (`p ≥ 1`; for `p = 0` Python's `v[-0:]` is all of `v`) -/
def tailP {n p : ℕ} (v : Vec (n + p)) : Vec p := fun j => v (Fin.natAdd n j)
/-- `jnp.concat((a, b))` -/
def concat {n p : ℕ} (a : Vec n) (b : Vec p) : Vec (n + p) := Fin.append a b

/-- `AugMatrixLinOp._matvec` and `_dense`, ode_sys.py:152-167. -/
def augMatvec {n p : ℕ} (aLo : LinOp n) (dt : ℝ) (B : Matrix (Fin n) (Fin p) ℝ)
    (K : Matrix (Fin p) (Fin p) ℝ) : LinOp (n + p) where
  matvec v :=
    let abV := dt • aLo.call (headN v) + B *ᵥ tailP v
    let kV := K *ᵥ tailP v
    concat abV kV
  dense := .error .notImplemented

/-- `AugMatrixLinOp.__init__`, ode_sys.py:144-150: asserts `B.shape[1] == K.shape[0] == K.shape[1]`. -/
def augMatrixLinOp {n p r c : ℕ} (aLo : LinOp n) (dt : ℝ) (B : Matrix (Fin n) (Fin p) ℝ)
    (K : Matrix (Fin r) (Fin c) ℝ) : Py (LinOp (n + p)) :=
  if h : p = r ∧ p = c then
    .ok (augMatvec aLo dt B (K.submatrix (Fin.cast h.1) (Fin.cast h.2)))
  else .error .assertion

/-- `SysJacLinOp`, ode_sys.py:170-200: a `LinOp` with the RHS time derivative `_fdt()` and the (possibly cached) RHS
value `_frhs_cached()`. -/
structure SysJac (n : ℕ) extends LinOp n where
  fdt : Vec n
  frhsCached : Vec n

/-- `CustomJacLinOp`, ode_sys.py:203-252.  `f` is the RHS with the keyword arguments applied, `fDt` the optional time
derivative (`None`: finite difference with step `eps`), `f_du` the Jacobian matrix. -/
noncomputable def customJac {n : ℕ} (f : ℝ → Vec n → Vec n) (t : ℝ) (u : Vec n) (fDu : Mat n)
    (fDt : Option (Vec n)) (eps : ℝ) : SysJac n :=
  let frhsU : Option (Vec n) := match fDt with
    | none => some (f t u)      -- __init__, :216-218
    | some _ => none            -- __init__, :219-221
  { toLinOp := matrixLinOp fDu
    fdt := match fDt with
      | none => fun i => (f (t + eps) u i - f t u i) / eps
      | some d => d
    frhsCached := match frhsU with
      | none => f t u
      | some r => r }

/-- `AdJacLinOp`, ode_sys.py:255-295.  `jax.linearize(f, t, u)` is modelled by the value and the Fréchet derivative of
`f` in `(t, u)`; `dense` is the `vmap` of the product over the columns of the identity. -/
noncomputable def adJac {n : ℕ} (f : ℝ → Vec n → Vec n) (t : ℝ) (u : Vec n) : SysJac n :=
  let fjacU : ℝ → Vec n → Vec n :=
    fun dt dv => fderiv ℝ (fun p : ℝ × Vec n => f p.1 p.2) (t, u) (dt, dv)
  let mv : Vec n → Vec n := fun v => fjacU 0 v
  { matvec := mv
    dense := .ok (Matrix.of fun i j => mv (Pi.single j 1) i)
    fdt := fjacU 1 0
    frhsCached := f t u }

/-- `FdJacLinOp`, ode_sys.py:298-357.  (`norm(u, 1)` is the sum of absolute values.) -/
noncomputable def fdJac {n : ℕ} (f : ℝ → Vec n → Vec n) (t : ℝ) (u : Vec n)
    (scale gamma eps : ℝ) : SysJac n where
  matvec v :=
    let uNorm1 := ∑ i, |u i|
    let scaledEps := eps * uNorm1
    let ieps := scale / scaledEps
    let uPert := u + scaledEps • v
    let diff := f t uPert - f t u
    let jV := fun i => diff i * ieps
    jV + gamma • v
  dense := .error .notImplemented
  fdt := fun i => (f (t + eps) u i - f t u i) / eps
  frhsCached := f t u

/-- `OdeSys` / `OdeSplitSys`, ode_sys.py:362-475.  `P` is the type of user parameter dictionaries.  A call without
keywords is `none`; a call `(…, frhs_kwargs=d)` is `some d`.  `fl` is only present on split systems. -/
structure OdeSys (n : ℕ) (P : Type) where
  frhs : Option P → ℝ → Vec n → Vec n
  fjac : Option P → ℝ → Vec n → SysJac n
  fl : ℝ → Vec n → LinOp n

/-- The default `_fjac` (autodiff), ode_sys.py:416-420: the keyword arguments of `fjac` are handed on unchanged to every
RHS evaluation made by the Jacobian operator. -/
noncomputable def defaultFjac {n : ℕ} {P : Type} (frhs : Option P → ℝ → Vec n → Vec n) :
    Option P → ℝ → Vec n → SysJac n :=
  fun kw t u => adJac (frhs kw) t u

/-- A system that only overrides `_frhs` (and, for splitting, `_fl`). -/
noncomputable def OdeSys.ofFrhs {n : ℕ} {P : Type} (frhs : Option P → ℝ → Vec n → Vec n)
    (fl : ℝ → Vec n → LinOp n := fun _ _ => eyeLinOp n) : OdeSys n P :=
  { frhs := frhs, fjac := defaultFjac frhs, fl := fl }

end Ormatex
