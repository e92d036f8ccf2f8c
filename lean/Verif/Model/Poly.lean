import Verif.Py
import Mathlib.Analysis.Normed.Algebra.MatrixExponential
import Mathlib.Analysis.RCLike.Basic
import Mathlib.Analysis.SpecialFunctions.Log.Basic
import Mathlib.Algebra.Order.Floor.Ring
import Mathlib.Algebra.Order.Archimedean.Real.Basic

/-!
Divided differences and related tools, from `/repo/ormatex_py/matexp_poly.py`.

A one-dimensional array of length `m` is a function `ℕ → K` of which only the entries `0 .. m-1` are meaningful.
`K` is `ℝ` or `ℂ` (`RCLike`) where the exponential is needed and any field otherwise.
-/

namespace Ormatex
open Matrix

section field
variable {K : Type*} [Field K]

/-- One pass of the loop in `newton_poly_div_diff`, matexp_poly.py:45:
`a[k:m] = (a[k:m] - a[k-1]) / (x[k:m] - x[k-1])`. -/
def ddPass (m : ℕ) (x : ℕ → K) (k : ℕ) (a : ℕ → K) : ℕ → K :=
  fun i => if k ≤ i ∧ i < m then (a i - a (k - 1)) / (x i - x (k - 1)) else a i

/-- `newton_poly_div_diff(x, y)`, matexp_poly.py:32-46: passes `k = 1, ..., m-1`. -/
def newtonPolyDivDiff (m : ℕ) (x y : ℕ → K) : ℕ → K :=
  (List.range' 1 (m - 1)).foldl (fun a k => ddPass m x k a) y

/-- `Xi = diag(leja_x) + diag(ones(n-1), -1)`, matexp_poly.py:82, 136. -/
def bidiag (m : ℕ) (x : ℕ → K) : Matrix (Fin m) (Fin m) K :=
  Matrix.of fun i j => if i = j then x i else if (i : ℕ) = j + 1 then 1 else 0

/-- `Xi_shift = identity(n)*shift + scale*Xi`, matexp_poly.py:83, 137. -/
def xiShift (m : ℕ) (x : ℕ → K) (shift scale : K) : Matrix (Fin m) (Fin m) K :=
  shift • (1 : Matrix (Fin m) (Fin m) K) + scale • bidiag m x

/-- first column `F[:, 0]` of an `m × m` array, as an array of length `m` -/
def firstCol {m : ℕ} (F : Matrix (Fin m) (Fin m) K) : ℕ → K :=
  fun i => if h : i < m then F ⟨i, h⟩ ⟨0, by omega⟩ else 0

end field

section rclike
variable {K : Type*} [RCLike K]

/-- `leja_coeffs_exp_dd`, matexp_poly.py:49-61. -/
noncomputable def lejaCoeffsExpDd (m : ℕ) (x : ℕ → K) (shift scale h : K) : ℕ → K :=
  newtonPolyDivDiff m x (fun i => NormedSpace.exp (h * (shift + scale * x i)))

/-- `leja_coeffs_exp`, matexp_poly.py:64-86; `expm` is `jax.scipy.linalg.expm`. -/
def lejaCoeffsExp (expm : ∀ m, Matrix (Fin m) (Fin m) K → Matrix (Fin m) (Fin m) K)
    (m : ℕ) (x : ℕ → K) (shift scale h : K) : ℕ → K :=
  firstCol (expm m (h • xiShift m x shift scale))

/-- Loop of `expm_taylor`, matexp_poly.py:112-117: state `(ts_expm, M)` after `p` passes.  Note that `M` starts as
`scale*A` and is multiplied by `A` (not `scale*A`) in each pass. -/
noncomputable def expmTaylorLoop {m : ℕ} (A : Matrix (Fin m) (Fin m) K) (scale : K) :
    ℕ → Matrix (Fin m) (Fin m) K × Matrix (Fin m) (Fin m) K
  | 0 => (1, scale • A)
  | i + 1 =>
    let (ts, M) := expmTaylorLoop A scale i
    (ts + ((Nat.factorial (i + 1) : K)⁻¹) • M, A * M)

/-- `expm_taylor(A, shift, scale, p)`, matexp_poly.py:89-118. -/
noncomputable def expmTaylor {m : ℕ} (A : Matrix (Fin m) (Fin m) K) (shift scale : K) (p : ℕ) :
    Matrix (Fin m) (Fin m) K :=
  NormedSpace.exp shift • (expmTaylorLoop A scale p).1

/-- `jnp.max(jnp.abs(z))`, matexp_poly.py:144. -/
noncomputable def maxAbs {m : ℕ} (z : Matrix (Fin m) (Fin m) K) : ℝ :=
  ⨆ p : Fin m × Fin m, ‖z p.1 p.2‖

/-- number of squarings `s = max(ceil(log(s_scale)/log(2)), 1)`, matexp_poly.py:146.  For `s_scale = 0` the code's
`log 0 = -inf` gives `s = 1`; so does `Real.log 0 = 0`. -/
noncomputable def numSquarings (sScale : ℝ) : ℕ :=
  (max ⌈Real.log sScale / Real.log 2⌉ 1).toNat

/-- the centring `mu = mean(h*(shift + leja_x*scale)) * mu_scale`, matexp_poly.py:140 -/
noncomputable def ddMu (m : ℕ) (x : ℕ → K) (shift scale h muScale : K) : K :=
  ((∑ i ∈ Finset.range m, h * (shift + x i * scale)) / m) * muScale

/-- The matrix `hs*h*z` whose exponential is taken, matexp_poly.py:136-151. -/
noncomputable def ddScaled (m : ℕ) (x : ℕ → K) (shift scale h muScale : K) : Matrix (Fin m) (Fin m) K × ℕ :=
  let mu := ddMu m x shift scale h muScale
  let z := xiShift m x shift scale - mu • (1 : Matrix (Fin m) (Fin m) K)
  let s := numSquarings (maxAbs z)
  let hs : K := 1 / 2 ^ s
  ((hs * h) • z, s)

/-- repeated squaring `fori_loop(0, s, F @ F)`, matexp_poly.py:153-159 -/
def sqIter {m : ℕ} (F : Matrix (Fin m) (Fin m) K) : ℕ → Matrix (Fin m) (Fin m) K
  | 0 => F
  | s + 1 => let G := sqIter F s; G * G

/-- `dd_exp_taylor`, matexp_poly.py:121-162, over the kernel `ts` used for the exponential of the scaled matrix
(`expm_taylor(., 0.0, 1.0, p)` in the code, see `ddExpTaylor`). -/
noncomputable def ddExpWith (ts : ∀ m, Matrix (Fin m) (Fin m) K → Matrix (Fin m) (Fin m) K)
    (m : ℕ) (x : ℕ → K) (shift scale h muScale : K) : ℕ → K :=
  let mu := ddMu m x shift scale h muScale
  let Zs := ddScaled m x shift scale h muScale
  let F := sqIter (ts m Zs.1) Zs.2
  fun i => NormedSpace.exp (h * mu) * firstCol F i

/-- `dd_exp_taylor(leja_x, shift, scale, h, p, mu_scale)`, matexp_poly.py:121-162. -/
noncomputable def ddExpTaylor (m : ℕ) (x : ℕ → K) (shift scale h : K) (p : ℕ) (muScale : K) : ℕ → K :=
  ddExpWith (fun _ A => expmTaylor A 0 1 p) m x shift scale h muScale

/-- `leja_seq_pad_zeros(x, p)`, matexp_poly.py:165-179: `concat(linspace(1e-12, 1e-12*p, p), x)`.
(`linspace(a, b, p)` has entries `a + i*(b-a)/(p-1)`; for `p = 1` just `a`.) -/
noncomputable def lejaSeqPadZeros (p : ℕ) (x : ℕ → K) : ℕ → K :=
  fun i =>
    if i < p then
      if p = 1 then 1e-12 else 1e-12 + (i : K) * (1e-12 * (p : K) - 1e-12) / ((p : K) - 1)
    else x (i - p)

end rclike

/-! ### Reordering -/

section reorder
variable {α : Type*}

/-- `np.argmax(l)`: index of the first maximal entry (0 for an empty list, where numpy raises; never reached). -/
noncomputable def argmax (l : List ℝ) : ℕ :=
  match l with
  | [] => 0
  | a :: t => (go a 0 1 t)
where
  /-- scan with current best value, its index, and the next index -/
  go (best : ℝ) (bi i : ℕ) : List ℝ → ℕ
    | [] => bi
    | b :: t => if best < b then go b i (i + 1) t else go best bi (i + 1) t

/-- One round of `leja_seq_reordering`, matexp_poly.py:195-208: the product of the distances to the points chosen so
far, for each remaining candidate. -/
noncomputable def distProds (dist : α → α → ℝ) (z xi : List α) : List ℝ :=
  xi.map fun p => (z.map fun q => dist q p).prod

/-- `while len(xi) > 0` loop, matexp_poly.py:195-208; `z` in order of selection. -/
noncomputable def reorderLoop (dist : α → α → ℝ) : ℕ → List α → List α → List α
  | 0, z, _ => z
  | _ + 1, z, [] => z
  | f + 1, z, a :: xi' =>
    let xi := a :: xi'
    let ni := argmax (distProds dist z xi)
    reorderLoop dist f (z ++ [xi.getD ni a]) (xi.eraseIdx ni)

/-- `leja_seq_reordering(x)`, matexp_poly.py:182-209.  `key` is the order used by `np.argmax(x)` on the input (the value
itself for real points; numpy orders complex numbers lexicographically), `dist p q = |p - q|`.  An empty input makes
`np.argmax` raise. -/
noncomputable def lejaSeqReordering (key : α → ℝ) (dist : α → α → ℝ) (x : List α) : Py (List α) :=
  match x with
  | [] => .error .value
  | a :: _ =>
    let i0 := argmax (x.map key)
    .ok (reorderLoop dist x.length [x.getD i0 a] (x.eraseIdx i0))

end reorder

end Ormatex
