import Verif.Model.Poly

/-!
The section "EXPERIMENTAL DIVIDED DIFFERENCE METHODS" of `/repo/ormatex_py/matexp_poly.py` (lines 212-415), which
`matexp_leja.py:37` re-exports.

A two-dimensional array of shape `m × m` is a function `ℕ → ℕ → K` of which only the entries with both indices below `m`
are meaningful.  Not modelled: the rounding to `complex64` of the work array of `leja_coeffs_dd_phi`, and
`leja_coeffs_ts_phi_jax` (line 337 calls `jnp.fill_diagonal` in place, which JAX refuses with `NotImplementedError`).
-/

namespace Ormatex

/-- a two-dimensional work array -/
abbrev TArr (K : Type*) := ℕ → ℕ → K

/-- `F[a, b] = v` -/
def TArr.put {K : Type*} (F : TArr K) (a b : ℕ) (v : K) : TArr K :=
  Function.update F a (Function.update (F a) b v)

section rclike
variable {K : Type*} [RCLike K]

/-! ### `leja_coeffs_ts_phi` -/

/-- The double loop that initialises `F`, matexp_poly.py:285-288: `F[i, j] = F[j, i] = (h*scale)**i / (i+k-j)!` for
`j ≤ i` (each unordered pair of indices is written once, so the loop is given by its closed form). -/
noncomputable def tsInit (scale h : K) (k : ℕ) : TArr K :=
  fun a b => (h * scale) ^ max a b / (Nat.factorial (max a b + k - min a b) : K)

/-- Body of the innermost loop, matexp_poly.py:293-294. -/
noncomputable def tsCell (z : ℕ → K) (scale h : K) (k l j : ℕ) (F : TArr K) (i : ℕ) : TArr K :=
  let F := F.put j i (h * (z i * F j i + scale * F j (i - 1)) / ((l + i - j + k - 1 : ℕ) : K))
  F.put i j (F i j + F j i)

/-- Body of the loop over `j`, matexp_poly.py:290-294: the diagonal entry, then `i = j+1, ..., m-1`. -/
noncomputable def tsRow (m : ℕ) (z : ℕ → K) (scale h : K) (k l : ℕ) (F : TArr K) (j : ℕ) : TArr K :=
  let F := F.put j j (h * z j * (F j j / ((l + k - 1 : ℕ) : K)))
  (List.range' (j + 1) (m - (j + 1))).foldl (tsCell z scale h k l j) F

/-- Body of the loop over `l`, matexp_poly.py:289-294: `j = 0, ..., m-2`. -/
noncomputable def tsPass (m : ℕ) (z : ℕ → K) (scale h : K) (k : ℕ) (F : TArr K) (l : ℕ) : TArr K :=
  (List.range (m - 1)).foldl (tsRow m z scale h k l) F

/-- `leja_coeffs_ts_phi(leja_x, shift, scale, h, k, full=True)`, matexp_poly.py:281-301: `l = 2, ..., 16`, then the diagonal
is overwritten by `exp(h*z)` and the upper triangle is set to zero. -/
noncomputable def lejaCoeffsTsPhiFull (m : ℕ) (x : ℕ → K) (shift scale h : K) (k : ℕ) : TArr K :=
  let z := fun i => shift + scale * x i
  let F := (List.range' 2 15).foldl (tsPass m z scale h k) (tsInit scale h k)
  fun a b => if a = b then NormedSpace.exp (h * z a) else if b < a then F a b else 0

/-- `leja_coeffs_ts_phi(leja_x, shift, scale, h, k)`, matexp_poly.py:262-304: the first column. -/
noncomputable def lejaCoeffsTsPhi (m : ℕ) (x : ℕ → K) (shift scale h : K) (k : ℕ) : ℕ → K :=
  fun i => lejaCoeffsTsPhiFull m x shift scale h k i 0

/-- `F @ y` for an `m × m` array -/
def TArr.mulVec (m : ℕ) (F : TArr K) (y : ℕ → K) : ℕ → K := fun a => ∑ b ∈ Finset.range m, F a b * y b

/-- `leja_coeffs_ts_phi_substep(leja_x, shift, scale, k)`, matexp_poly.py:343-360, for a real `scale`: one product with
`e_1`, then `ceil(scale) - 1` more. -/
noncomputable def lejaCoeffsTsPhiSubstep (m : ℕ) (x : ℕ → K) (shift : K) (scale : ℝ) (k : ℕ) : ℕ → K :=
  let steps : ℕ := ⌈scale⌉.toNat
  let tau : K := ((1 / scale : ℝ) : K)
  let F := lejaCoeffsTsPhiFull m x shift (scale : K) tau k
  let y0 := TArr.mulVec m F (fun i => if i = 0 then 1 else 0)
  (fun y => TArr.mulVec m F y)^[steps - 1] y0

/-! ### `leja_coeffs_ts_ss` -/

/-- The initial table of `leja_coeffs_ts_ss`, matexp_poly.py:230-234 (closed form, as in `tsInit`). -/
noncomputable def ssInit (l : ℕ) : TArr K :=
  fun a b => 1 / (Nat.factorial (max a b + l - min a b) : K)

/-- Body of the innermost loop, matexp_poly.py:240-242. -/
noncomputable def ssCell (z : ℕ → K) (l k j : ℕ) (F : TArr K) (i : ℕ) : TArr K :=
  let F := F.put i j ((z i * F i j + F (i - 1) j) / ((k + i - j + l : ℕ) : K))
  F.put j i (F i j + F j i)

/-- Body of the loop over `j`, matexp_poly.py:237-242. -/
noncomputable def ssRow (m : ℕ) (z : ℕ → K) (l k : ℕ) (F : TArr K) (j : ℕ) : TArr K :=
  let F := F.put j j (z j * (F j j / ((k + l : ℕ) : K)))
  (List.range' (j + 1) (m - (j + 1))).foldl (ssCell z l k j) F

/-- Body of the loop over `k`, matexp_poly.py:236-242. -/
noncomputable def ssPass (m : ℕ) (z : ℕ → K) (l : ℕ) (F : TArr K) (k : ℕ) : TArr K :=
  (List.range (m - 1)).foldl (ssRow m z l k) F

/-- One squaring, matexp_poly.py:249-254: `F = R @ (F @ F) @ inv(R)` with `R = diag(2**i)`, `z = 2*z`, and the diagonal is
overwritten by `exp(z)`; state `(F, z)`. -/
noncomputable def ssSquare (m : ℕ) (s : Matrix (Fin m) (Fin m) K × (ℕ → K)) : Matrix (Fin m) (Fin m) K × (ℕ → K) :=
  let R : Matrix (Fin m) (Fin m) K := Matrix.diagonal fun i => 2 ^ (i : ℕ)
  let G := R * (s.1 * s.1) * R⁻¹
  let z := fun i => 2 * s.2 i
  (Matrix.of fun a b => if a = b then NormedSpace.exp (z a) else G a b, z)

/-- `leja_coeffs_ts_ss(leja_x, shift, scale, h_in, l)`, matexp_poly.py:215-259, for a real `scale`.  The argument `h_in` is
never read. -/
noncomputable def lejaCoeffsTsSs (m : ℕ) (x : ℕ → K) (shift : K) (scale : ℝ) (_hIn : K) (l : ℕ) : ℕ → K :=
  let s := numSquarings scale
  let h : K := 1 / 2 ^ s
  let nu : K := (∑ i ∈ Finset.range m, (shift + scale * x i)) / m
  let z := fun i => h * (shift + scale * x i - nu)
  let F := (List.range' 1 19).foldl (ssPass m z l) (ssInit l)
  let F0 : Matrix (Fin m) (Fin m) K :=
    Matrix.of fun a b => if a = b then NormedSpace.exp (z a) else if (a : ℕ) < b then F a b else 0
  let r := (ssSquare m)^[s] (F0, z)
  fun i => if hi : i < m then NormedSpace.exp nu * r.1 ⟨0, by omega⟩ ⟨i, hi⟩ else 0

/-! ### `leja_coeffs_dd_phi` -/

/-- `z = concat(zeros(l), h*(shift + scale*leja_x))`, matexp_poly.py:381-383 -/
def ddPhiNodes (l : ℕ) (x : ℕ → K) (shift scale h : K) : ℕ → K :=
  fun i => if i < l then 0 else h * (shift + scale * x (i - l))

/-- `mu = mean(z)` over the `l + m` nodes, matexp_poly.py:385 -/
noncomputable def ddPhiMu (m l : ℕ) (x : ℕ → K) (shift scale h : K) : K :=
  (∑ i ∈ Finset.range (l + m), ddPhiNodes l x shift scale h i) / ((l + m : ℕ) : K)

/-- `max(abs(F))` over the array of differences `F[i, j] = z[j] - z[i]`, `j < i ≤ n`, matexp_poly.py:390-395
(the other entries of `F` are still zero there). -/
noncomputable def ddPhiSpread (n : ℕ) (z : ℕ → K) : ℝ :=
  ⨆ p : Fin (n + 1) × Fin (n + 1), if (p.2 : ℕ) < p.1 then ‖z p.2 - z p.1‖ else 0

/-- the scaling factor `s = max(ceil(max(abs(F)) / 3.5), 1)`, matexp_poly.py:395 -/
noncomputable def ddPhiScaling (n : ℕ) (z : ℕ → K) : ℕ := (max ⌈ddPhiSpread n z / 3.5⌉ 1).toNat

/-- One assignment `dd[k] = dd[k] + c*dd[k+1]`, matexp_poly.py:402, 404 -/
def ddPhiCell (c : ℕ → K) (dd : ℕ → K) (k : ℕ) : ℕ → K := Function.update dd k (dd k + c k * dd (k + 1))

/-- Body of the loop over `j`, matexp_poly.py:400-404: first `k = N-1, ..., n-j` with the factor `z[j]`, then
`k = n-j-1, ..., 0` with the factor `F[k+j+1, j] = z[j] - z[k+j+1]` (lower triangle, not yet overwritten). -/
def ddPhiStep (n N : ℕ) (z : ℕ → K) (j : ℕ) (dd : ℕ → K) : ℕ → K :=
  let dd := (List.range' (n - j) (N - (n - j))).reverse.foldl (ddPhiCell fun _ => z j) dd
  (List.range (n - j)).reverse.foldl (ddPhiCell fun k => z j - z (k + j + 1)) dd

/-- The initial coefficients `concat([1], 1/cumprod(arange(1, N+1)*s))`, matexp_poly.py:398-399: `1/(k! s^k)`. -/
noncomputable def ddPhiInit (s : ℕ) : ℕ → K := fun k => 1 / ((Nat.factorial k : K) * (s : K) ^ k)

/-- `dd` after the iterations `j = n, n-1, ..., n+1-r`. -/
noncomputable def ddPhiAfter (n N s : ℕ) (z : ℕ → K) : ℕ → (ℕ → K)
  | 0 => ddPhiInit s
  | r + 1 => ddPhiStep n N z (n - r) (ddPhiAfter n N s z r)

/-- The table `F` after the loop, `fill_diagonal` and `triu`, matexp_poly.py:400-407: row `j` is `dd[:n-j+1]` as it was
after iteration `j`, with the diagonal replaced by `exp(z/s)`. -/
noncomputable def ddPhiTable (n s : ℕ) (z : ℕ → K) : Matrix (Fin (n + 1)) (Fin (n + 1)) K :=
  Matrix.of fun j i =>
    if i = j then NormedSpace.exp (z j / s)
    else if (j : ℕ) < i then ddPhiAfter n (n + 30) s z (n + 1 - j) ((i : ℕ) - j) else 0

/-- `leja_coeffs_dd_phi(leja_x, shift, scale, h, l)` for `m ≥ 1` points, matexp_poly.py:363-415: the first row of `F`,
`s-1` further products `dd @ F`, the factor `exp(mu)`, the entries from `l` on. -/
noncomputable def lejaCoeffsDdPhi (m : ℕ) (x : ℕ → K) (shift scale h : K) (l : ℕ) : ℕ → K :=
  let n := l + m - 1
  let mu := ddPhiMu m l x shift scale h
  let z := fun i => ddPhiNodes l x shift scale h i - mu
  let s := ddPhiScaling n z
  let F := ddPhiTable n s z
  let dd := (fun v => Matrix.vecMul v F)^[s - 1] (F 0)
  fun i => if hi : l + i < n + 1 then NormedSpace.exp mu * dd ⟨l + i, hi⟩ else 0

end rclike
end Ormatex
