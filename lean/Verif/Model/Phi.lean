import Verif.Py
import Mathlib.Analysis.Normed.Algebra.MatrixExponential
import Mathlib.Analysis.SpecialFunctions.Log.Base
import Mathlib.LinearAlgebra.Matrix.NonsingularInverse
import Mathlib.Analysis.Complex.Basic

/-!
Dense phi-function routines, from `/repo/ormatex_py/matexp_phi.py`.
`expm` stands for `jax.scipy.linalg.expm`.
-/

namespace Ormatex
open Matrix

/-- `_validate_args(z, k)`, matexp_phi.py:41-45, on an `r × c` array; returns the size. -/
def validateArgs (r c : ℕ) (k : ℤ) : Py ℕ := do
  pyAssert (0 ≤ k)
  pyAssert (r = c)
  pure r

/-- `_validate_args_appl(z, b, k)`, matexp_phi.py:178-194: `z` has shape `r × c`; `b` has shape `[n2]` or `[n2, m]`
(any other number of axes fails the assertion).  Returns `(N, M)`. -/
def validateArgsAppl (r c : ℕ) (bshape : List ℕ) (k : ℤ) : Py (ℕ × ℕ) := do
  pyAssert (0 ≤ k)
  pyAssert (r = c)
  match bshape with
  | [n2] => do pyAssert (n2 = r); pure (r, 1)
  | [n2, m] => do pyAssert (n2 = r); pure (r, m)
  | _ => .error .assertion

section inv
variable {N : ℕ}

/-- `f_phi_k_inv(z, k, eps)`, matexp_phi.py:48-75 (the returned phi matrix).  `solve z X` stands for the QR solve
`solve_triangular(Rz, Qz.T @ X)`, i.e. a solution `Y` of `z Y = X`. -/
noncomputable def fPhiKInv (expm : Mat N → Mat N) (solve : Mat N → Mat N → Mat N) (z : Mat N) : ℕ → Mat N
  | 0 => expm z
  | ki + 1 => solve z (fPhiKInv expm solve z ki - ((1 : ℝ) / (Nat.factorial ki)) • (1 : Mat N))

/-- error estimate returned next to it, `eps / r_min^k`, matexp_phi.py:58-72 -/
noncomputable def fPhiKInvErr (eps rMin : ℝ) : ℕ → ℝ
  | 0 => eps
  | ki + 1 => fPhiKInvErr eps rMin ki / rMin

/-- `f_phi_k(z, k)`, matexp_phi.py:27-38 (the warning has no effect on the value). -/
noncomputable def fPhiK (expm : Mat N → Mat N) (solve : Mat N → Mat N → Mat N) (z : Mat N) (k : ℕ) : Mat N :=
  fPhiKInv expm solve z k

end inv

/-! ### Block extension -/

/-- The matrix `z_ext` of `f_phi_k_ext`, matexp_phi.py:85-89, of size `(k+1)N` for `k > 0`:
`z_ext_k = [[z],[0]]` is `kN × N`; `z_ext = [[z_ext_k, I_{kN}],[0]]`. -/
def phiExtMat {N : ℕ} (z : Mat N) (k : ℕ) : Mat ((k + 1) * N) :=
  if k = 0 then Matrix.of fun i j => if h : (i : ℕ) < N ∧ (j : ℕ) < N then z ⟨i, h.1⟩ ⟨j, h.2⟩ else 0
  else Matrix.of fun i j =>
    if (i : ℕ) < k * N then          -- upper block row: [z_ext_k, I]
      if hj : (j : ℕ) < N then       -- columns of z_ext_k
        if hi : (i : ℕ) < N then z ⟨i, hi⟩ ⟨j, hj⟩ else 0
      else if (j : ℕ) = i + N then 1 else 0
    else 0                           -- last block row is zero

/-- `f_phi_k_ext(z, k, return_all=False)`, matexp_phi.py:78-99: rows `:N`, columns `-N:` of the exponential. -/
def fPhiKExt {N : ℕ} (expm : ∀ m, Mat m → Mat m) (z : Mat N) (k : ℕ) : Mat N :=
  let E := expm ((k + 1) * N) (phiExtMat z k)
  Matrix.of fun i j => E ⟨i, by nlinarith [i.2, Nat.zero_le (k * N)]⟩
    ⟨k * N + j, by nlinarith [j.2]⟩

/-- `f_phi_k_ext(z, k, return_all=True)`, matexp_phi.py:93-96: entry `[l, i, j]` of the reshaped and transposed array is
`phi_ks[i, l*N + j]`. -/
def fPhiKExtAll {N : ℕ} (expm : ∀ m, Mat m → Mat m) (z : Mat N) (k : ℕ) (l : Fin (k + 1)) : Mat N :=
  let E := expm ((k + 1) * N) (phiExtMat z k)
  Matrix.of fun i j => E ⟨i, by nlinarith [i.2, Nat.zero_le (k * N)]⟩
    ⟨l * N + j, by
      have h1 := l.2
      have h2 := j.2
      have : (l : ℕ) * N ≤ k * N := Nat.mul_le_mul_right _ (by omega)
      nlinarith⟩

/-! ### Taylor polynomials and scaling and squaring -/

/-- First loop of `f_phi_k_poly_all`, matexp_phi.py:110-116: state `(zpow_kfac, poly_approx)` after the passes
`j = k+2, ..., k+1+r`. -/
noncomputable def polyLoop {N : ℕ} (z : Mat N) (k : ℕ) : ℕ → Mat N × Mat N
  | 0 =>
    let zp := ((1 : ℝ) / (Nat.factorial k) / (k + 1)) • z
    (zp, ((1 : ℝ) / (Nat.factorial k)) • (1 : Mat N) + zp)
  | r + 1 =>
    let (zp, pa) := polyLoop z k r
    let zp' := ((1 : ℝ) / ((k + 2 + r : ℕ) : ℝ)) • (z * zp)
    (zp', pa + zp')

/-- Downward recursion of `f_phi_k_poly_all`, matexp_phi.py:118-124: entry `k - d` from the entry above,
`phi_j = I/j! + z @ phi_{j+1}`.  (`fact_j` is `k!` divided successively by `k, k-1, ...`; the division by `j = 0`
after the last use is never read.) -/
noncomputable def polyDown {N : ℕ} (z : Mat N) (k : ℕ) (top : Mat N) : ℕ → ℝ × Mat N
  | 0 => ((Nat.factorial k : ℝ) / k, top)
  | d + 1 =>
    let (factJ, up) := polyDown z k top d
    let j := k - (d + 1)
    (factJ / j, ((1 : ℝ) / factJ) • (1 : Mat N) + z * up)

/-- `f_phi_k_poly_all(z, k, poly_deg)`, matexp_phi.py:102-126: the list `phi_0, ..., phi_k`. -/
noncomputable def fPhiKPolyAll {N : ℕ} (z : Mat N) (k deg : ℕ) : Py (List (Mat N)) :=
  if k + 1 ≤ deg then
    let top := (polyLoop z k (deg - (k + 1))).2
    .ok ((List.range (k + 1)).map fun j => (polyDown z k top (k - j)).2)
  else .error .assertion

/-- `theta = norm(z, ord=inf)`: maximal absolute row sum, matexp_phi.py:137 (0 for the empty matrix). -/
noncomputable def infNorm {N : ℕ} (z : Mat N) : ℝ := ⨆ i, ∑ j, |z i j|

/-- `Nscale = floor(maximum(0, log2(theta*16)))`, matexp_phi.py:139-141.  For `theta = 0` the code's `log2 0 = -inf`
gives 0, as does `Real.logb 2 0 = 0`. -/
noncomputable def nScale (theta : ℝ) : ℕ := ⌊max 0 (Real.logb 2 (theta * 16))⌋₊

/-- `scalings[j, jj] = 1/((j-jj)! * 2^j)` for `jj ≤ j`, matexp_phi.py:148-149 -/
noncomputable def scaling (j jj : ℕ) : ℝ := 1 / ((Nat.factorial (j - jj) : ℝ) * 2 ^ j)

/-- inner loop over `jj = j-1, ..., 1` of `sq_step`, matexp_phi.py:157-159 (the list is updated in place) -/
noncomputable def sqInner {N : ℕ} (j : ℕ) (l : List (Mat N)) : ℕ → List (Mat N)
  | 0 => l
  | jj + 1 =>   -- visits jj+1, then jj, ..., 1
    let l' := l.set j (l.getD j 0 + scaling j (jj + 1) • l.getD (jj + 1) 0)
    sqInner j l' jj

/-- outer loop over `j = k, ..., 1` of `sq_step`, matexp_phi.py:154-159 -/
noncomputable def sqOuter {N : ℕ} (l : List (Mat N)) : ℕ → List (Mat N)
  | 0 => l
  | j + 1 =>
    let l1 := l.set (j + 1) (scaling (j + 1) (j + 1) • (l.getD 0 0 * l.getD (j + 1) 0 + l.getD (j + 1) 0))
    sqOuter (sqInner (j + 1) l1 j) j

/-- `sq_step`, matexp_phi.py:153-162 -/
noncomputable def sqStep {N : ℕ} (k : ℕ) (l : List (Mat N)) : List (Mat N) :=
  let l' := sqOuter l k
  l'.set 0 (l'.getD 0 0 * l'.getD 0 0)

/-- `f_phi_k_sq_all(z, k)`, matexp_phi.py:129-166: initial Taylor polynomials of degree 4 in `z / 2^Nscale`, then
`Nscale` squaring steps. -/
noncomputable def fPhiKSqAll {N : ℕ} (z : Mat N) (k : ℕ) : Py (List (Mat N)) := do
  let ns := nScale (infNorm z)
  let l0 ← fPhiKPolyAll (((1 : ℝ) / 2 ^ ns) • z) k 4
  pure ((sqStep k)^[ns] l0)

/-- `f_phi_k_sq(z, k)`, matexp_phi.py:168-174 (with `return_all=True` the whole list is returned). -/
noncomputable def fPhiKSq {N : ℕ} (z : Mat N) (k : ℕ) : Py (Mat N) := do
  let l ← fPhiKSqAll z k
  match l[k]? with
  | some x => .ok x
  | none => .error .index

/-! ### Action on a block of vectors -/

/-- The matrix `z_ext` of `f_phi_k_appl`, matexp_phi.py:205-207, of size `N + k*M`:
`[[z, B, 0], [0_{(k-1)M × (N+M)}, I_{(k-1)M}], [0]]`. -/
def applExtMat {N M : ℕ} (z : Mat N) (B : Matrix (Fin N) (Fin M) ℝ) (k : ℕ) : Mat (N + k * M) :=
  Matrix.of fun i j =>
    if hi : (i : ℕ) < N then
      if hj : (j : ℕ) < N then z ⟨i, hi⟩ ⟨j, hj⟩
      else if hj' : (j : ℕ) - N < M then B ⟨i, hi⟩ ⟨j - N, hj'⟩
      else 0
    else if (i : ℕ) - N < (k - 1) * M then
      if (j : ℕ) = i + M then 1 else 0
    else 0

/-- `f_phi_k_appl(z, b, k)`, matexp_phi.py:197-214, for a matrix `B` (a vector is the case `M = 1`).  `expm` is used for
`k = 0`, `phi0` for the extended matrix (`f_phi_k_sq(., k=0)` in the code). -/
def fPhiKAppl {N M : ℕ} (expm : ∀ m, Mat m → Mat m) (phi0 : ∀ m, Mat m → Py (Mat m)) (z : Mat N)
    (B : Matrix (Fin N) (Fin M) ℝ) (k : ℕ) : Py (Matrix (Fin N) (Fin M) ℝ) :=
  match k with
  | 0 => .ok (expm N z * B)
  | k + 1 => do
    let E ← phi0 (N + (k + 1) * M) (applExtMat z B (k + 1))
    pure (Matrix.of fun i j => E ⟨i, by omega⟩
      ⟨N + (k + 1) * M - M + j, by
        have h := j.2
        have : (k + 1) * M = k * M + M := by ring
        omega⟩)

/-- The kernel as called in the code: `f_phi_k_sq(z_ext, k=0)`. -/
noncomputable def fPhiKApplCode {N M : ℕ} (expm : ∀ m, Mat m → Mat m) (z : Mat N)
    (B : Matrix (Fin N) (Fin M) ℝ) (k : ℕ) : Py (Matrix (Fin N) (Fin M) ℝ) :=
  fPhiKAppl expm (fun _ A => fPhiKSq A 0) z B k

/-! ### Partial fractions -/

/-- Pole table entry `ps, cs, c0`, matexp_phi.py:226 and matexp_phi_pfd_dict.py. -/
structure Pfd where
  poles : List ℂ
  coeffs : List ℂ
  c0 : ℝ

/-- One summand `real((2c/p^k) * solve(z - p I, B))`, matexp_phi.py:234-235; `jnp.linalg.solve` is multiplication by the
inverse. -/
noncomputable def pfdTerm {N : ℕ} (z : Mat N) (b : Vec N) (k : ℕ) (p c : ℂ) : Vec N :=
  fun i => ((2 * c / p ^ k) *
    (((z.map (algebraMap ℝ ℂ) - p • (1 : Matrix (Fin N) (Fin N) ℂ))⁻¹ *ᵥ fun j => (b j : ℂ)) i)).re

/-- `f_phi_k_pfd(z, b, k, method)` on a table entry, matexp_phi.py:217-237 (for a vector `b`). -/
noncomputable def fPhiKPfd {N : ℕ} (tab : Pfd) (z : Mat N) (b : Vec N) (k : ℕ) : Vec N :=
  let init : Vec N := if k = 0 then tab.c0 • b else 0
  (tab.poles.zip tab.coeffs).foldl (fun acc pc => acc + pfdTerm z b k pc.1 pc.2) init

end Ormatex
