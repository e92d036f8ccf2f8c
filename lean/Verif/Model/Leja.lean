import Verif.Model.LinOp
import Verif.Model.Poly
import Mathlib.Analysis.SpecialFunctions.Pow.Complex
import Mathlib.Analysis.SpecialFunctions.Pow.Real

/-!
Leja interpolation, from `/repo/ormatex_py/matexp_leja.py`.
Arrays of length `n` are functions `ℕ → K` of which only the entries below `n` are meaningful.
-/

namespace Ormatex
open Matrix
open scoped Classical

/-- `jnp.linalg.norm(v)` / `jnp.linalg.norm(v, 2)` of a real vector. -/
noncomputable def norm2 {n : ℕ} (v : Vec n) : ℝ := Real.sqrt (v ⬝ᵥ v)

/-! ### Point generators -/

/-- one doubling pass of `gen_leja_circle`, matexp_leja.py:114-116; `np.sqrt` is the principal complex root. -/
noncomputable def circleDouble (zt : ℕ → ℂ) (k : ℕ) : ℕ → ℂ :=
  fun i => if 2 ^ k ≤ i ∧ i < 2 ^ (k + 1) then (zt (2 ^ (k - 1))) ^ (1 / 2 : ℂ) * zt (i - 2 ^ k) else zt i

/-- `zt` before the conjugate reordering, matexp_leja.py:111-116: `[1, -1, 0, 0, ...]` then passes `k = 1 .. log2n-1` -/
noncomputable def circleRaw (log2n : ℕ) : ℕ → ℂ :=
  (List.range' 1 (log2n - 1)).foldl circleDouble
    (fun i => if i = 0 then 1 else if i = 1 then -1 else 0)

/-- one pass of the conjugate reordering, matexp_leja.py:119-122: the first half of the block `[2^k, 2^(k+1))` is
interleaved with the reversed second half. -/
def conjReorder (zt : ℕ → ℂ) (k : ℕ) : ℕ → ℂ :=
  fun i => if 2 ^ k ≤ i ∧ i < 2 ^ (k + 1) then
      if (i - 2 ^ k) % 2 = 0 then zt (2 ^ k + (i - 2 ^ k) / 2)
      else zt (2 ^ (k + 1) - 1 - (i - 2 ^ k) / 2)
    else zt i

/-- `log2n = max(2, int(n-1).bit_length())`, matexp_leja.py:108 -/
def circleLog (n : ℕ) : ℕ := max 2 (Nat.size (n - 1))

/-- `gen_leja_circle(n, conjugate)`, matexp_leja.py:97-124 (first `n` entries). -/
noncomputable def genLejaCircle (n : ℕ) (conjugate : Bool) : ℕ → ℂ :=
  let zt := circleRaw (circleLog n)
  if conjugate then (List.range' 1 (circleLog n - 1)).foldl conjReorder zt else zt

/-- Result of `gen_leja_conjugate`: points, number of leading real points, scale, shift. -/
structure LejaSeq where
  zt : ℕ → ℂ
  nReal : ℕ
  scale : ℝ
  shift : ℝ

/-- `gen_leja_conjugate(n, a, b, c)`, matexp_leja.py:45-94.  `scale = 0` (`a = b - ... ` degenerate box) divides by
zero in the code; it is reported as an error here.  The array assignments need `n ≥ 2` (real branch) resp. `n ≥ 3`
(imaginary branch), otherwise numpy raises. -/
noncomputable def genLejaConjugate (n : ℕ) (a b c : ℝ) : Py LejaSeq :=
  let shift := (a + b) / 2
  let hax1 := (b - a) / 2
  let hax2 := c
  let scale := (hax1 + hax2) / 2
  if scale = 0 then .error .value else
  let h1 := hax1 / scale
  let h2 := hax2 / scale
  let tol : ℝ := 1e-4
  if h1 < 0 ∨ h2 < 0 then .error .value
  else if h2 ≤ tol then
    if n < 2 then .error .value else
    let ztc := genLejaCircle (2 * (n - 1)) true
    let zt : ℕ → ℝ := fun i => if i < 2 then (ztc i).re else (ztc (2 + 2 * (i - 2))).re
    .ok { zt := fun i => ((h1 * zt i : ℝ) : ℂ), nReal := n, scale := scale, shift := shift }
  else if h1 ≤ tol then
    if n < 3 then .error .index else
    let ztc := genLejaCircle (2 * (n - 1)) true
    let zt : ℕ → ℝ := fun i =>
      if i = 0 then (ztc 0).im else if i = 1 then (ztc 2).im else if i = 2 then (ztc 3).im
      else (ztc (4 + 2 * (i - 3))).im
    .ok { zt := fun i => Complex.I * h2 * (zt i : ℂ), nReal := 1, scale := scale, shift := shift }
  else
    let z := genLejaCircle n true
    .ok { zt := fun i => (h1 : ℂ) * ((z i).re : ℂ) + Complex.I * (h2 : ℂ) * ((z i).im : ℂ),
          nReal := 2, scale := scale, shift := shift }

/-- Local arrays of `gen_leja_fast`: points `zt`, candidates `zs`, products `zprod`, neighbour indices `index`. -/
structure FastState where
  zt : ℕ → ℝ
  zs : ℕ → ℝ
  zprod : ℕ → ℝ
  idx0 : ℕ → ℕ
  idx1 : ℕ → ℕ

/-- initial arrays, matexp_leja.py:140-154: note that the first two products run over all `n` entries of `zt`, the
unset ones being zero. -/
noncomputable def fastInit (a b : ℝ) (n : ℕ) : FastState :=
  let zt : ℕ → ℝ := fun i =>
    if |a| > |b| then (if i = 0 then a else if i = 1 then b else if i = 2 then (a + b) / 2 else 0)
    else (if i = 0 then b else if i = 1 then a else if i = 2 then (a + b) / 2 else 0)
  let zs : ℕ → ℝ := fun i => if i = 0 then (zt 1 + zt 2) / 2 else if i = 1 then (zt 2 + zt 0) / 2 else 0
  { zt := zt, zs := zs
    zprod := fun i => if i = 0 then ∏ j ∈ Finset.range n, (zs 0 - zt j)
      else if i = 1 then ∏ j ∈ Finset.range n, (zs 1 - zt j) else 0
    idx0 := fun i => if i = 0 then 1 else if i = 1 then 2 else 0
    idx1 := fun i => if i = 0 then 2 else 0 }

/-- body of the loop, matexp_leja.py:155-168 -/
noncomputable def fastStep (n : ℕ) (s : FastState) (i : ℕ) : FastState :=
  let maxi := argmax ((List.range n).map fun j => |s.zprod j|)
  let zt := Function.update s.zt i (s.zs maxi)
  let idx0 := Function.update s.idx0 (i - 1) i
  let idx1 := Function.update (Function.update s.idx1 (i - 1) (s.idx1 maxi)) maxi i
  let zs1 := Function.update s.zs maxi ((zt (idx0 maxi) + zt (idx1 maxi)) / 2)
  let zs := Function.update zs1 (i - 1) ((zt (idx0 (i - 1)) + zt (idx1 (i - 1))) / 2)
  let zp1 := Function.update s.zprod maxi (∏ j ∈ Finset.range i, (zs maxi - zt j))
  let zp2 := Function.update zp1 (i - 1) (∏ j ∈ Finset.range i, (zs (i - 1) - zt j))
  { zt := zt, zs := zs, zprod := fun j => zp2 j * (zs j - zt i), idx0 := idx0, idx1 := idx1 }

/-- `gen_leja_fast(a, b, n)`, matexp_leja.py:127-169; `n ≥ 3` (otherwise the first assignment raises). -/
noncomputable def genLejaFast (a b : ℝ) (n : ℕ) : Py (ℕ → ℝ) :=
  if n < 3 then .error .value
  else .ok ((List.range' 3 (n - 3)).foldl (fastStep n) (fastInit a b n)).zt

/-! ### Power iteration -/

/-- state of the `while_loop` in `power_iter`: `(i, b_k, eig_new, eig_old)` -/
structure PowerState (n : ℕ) where
  i : ℕ
  b : Vec n
  eigNew : ℝ
  eigOld : ℝ

/-- `body_power_iter`, matexp_leja.py:213-223 -/
noncomputable def powerBody {n : ℕ} (A : LinOp n) (s : PowerState n) : PowerState n :=
  let b1 := A.matvec s.b
  let eig := (s.b ⬝ᵥ b1) / (s.b ⬝ᵥ s.b)
  { i := s.i + 1, b := fun j => b1 j / norm2 b1, eigNew := eig, eigOld := s.eigNew }

/-- `cond_power_iter`, matexp_leja.py:224-227 -/
def powerCond {n : ℕ} (iter : ℕ) (tol : ℝ) (s : PowerState n) : Prop :=
  |s.eigNew - s.eigOld| > tol ∧ s.i < iter

/-- the `while_loop`; the fuel bounds the number of passes (`iter` suffices, theorem `power_iter_fuel`). -/
noncomputable def powerLoop {n : ℕ} (A : LinOp n) (iter : ℕ) (tol : ℝ) : ℕ → PowerState n → PowerState n
  | 0, s => s
  | f + 1, s => if powerCond iter tol s then powerLoop A iter tol f (powerBody A s) else s

/-- `power_iter(a_lop, b0, iter, tol)`, matexp_leja.py:200-232: returns `(eig, b, iters)`. -/
noncomputable def powerIter {n : ℕ} (A : LinOp n) (b0 : Vec n) (iter : ℕ) (tol : ℝ) : ℝ × Vec n × ℕ :=
  let s := powerLoop A iter tol iter { i := 0, b := b0, eigNew := 1e20, eigOld := 1 }
  (s.eigNew, s.b, s.i)

/-- default tolerance of `power_iter`, matexp_leja.py:201 -/
noncomputable def powerTol : ℝ := 5e-2

/-- `leja_shift_scale`, matexp_leja.py:459-485: `(shift, scale, max_eig, b, iters)`.  `bRand` is the random start vector
used when no `b0` is given; a given `b0` has the right length by type. -/
noncomputable def lejaShiftScale {n : ℕ} (A : LinOp n) (maxIter : ℕ) (b0 : Option (Vec n)) (bRand : Vec n)
    (scaleFactor : ℝ) : ℝ × ℝ × ℝ × Vec n × ℕ :=
  let (eig, b, iters) := powerIter A (b0.getD bRand) maxIter powerTol
  let maxEig := eig * scaleFactor
  let alpha := maxEig
  let beta : ℝ := 0
  ((alpha - beta) / 2, |beta - alpha| / 4, maxEig, b, iters)

/-! ### Newton evaluation -/

/-- `decay_fun(e_new, e_old, gamma) = exp(gamma*log e_new + (1-gamma)*log e_old)`, matexp_leja.py:301-303.  With the IEEE
conventions `log 0 = -inf`, `exp(-inf) = 0` this is `e_new^gamma * e_old^(1-gamma)` on nonnegative arguments. -/
noncomputable def decayFun (eNew eOld gamma : ℝ) : ℝ := eNew ^ gamma * eOld ^ (1 - gamma)

/-- loop state of the Leja evaluations: `(i, vm, pm, err_est, converged)` -/
structure LejaState (n : ℕ) where
  i : ℕ
  vm : Vec n
  pm : Vec n
  err : ℝ
  conv : Prop

/-- `body_leja_poly` of `real_leja_expmv`, matexp_leja.py:435-448.  With `scale = 0` the division gives `nan` or `inf` entries, the
error estimate is `nan` or `inf` and the comparison `err_est < tol * norm(u)` is false: hence the conjunct `scale ≠ 0` (real division
by zero would give 0). -/
noncomputable def realLejaBody {n : ℕ} (A : LinOp n) (dt : ℝ) (normU scale tol : ℝ) (xsc coeffs : ℕ → ℝ)
    (s : LejaState n) : LejaState n :=
  let vm : Vec n := fun j => (dt * A.matvec s.vm j - xsc (s.i - 1) * s.vm j) / scale
  let pm := s.pm + coeffs s.i • vm
  let err := decayFun (|coeffs s.i| * norm2 vm) s.err (1 / 2)
  { i := s.i + 1, vm := vm, pm := pm, err := err, conv := scale ≠ 0 ∧ err < tol * normU }

/-- `cond_leja_poly`, matexp_leja.py:384-387, 449-452 -/
def lejaCond {n : ℕ} (nLeja : ℕ) (abortTol normU : ℝ) (s : LejaState n) : Prop :=
  s.i + 1 < nLeja ∧ s.err ≤ abortTol * normU ∧ ¬ s.conv

/-- the `while_loop` (the counter `i` increases in every pass and stays below `n_leja`, so fuel `n_leja` suffices) -/
noncomputable def lejaLoop {n : ℕ} (cond : LejaState n → Prop) (body : LejaState n → LejaState n) :
    ℕ → LejaState n → LejaState n
  | 0, s => s
  | f + 1, s => if cond s then lejaLoop cond body f (body s) else s

/-- `real_leja_expmv`, matexp_leja.py:394-456: final loop state (`pm`, `i`, `converged` are returned). -/
noncomputable def realLejaExpmv {n : ℕ} (A : LinOp n) (dt : ℝ) (u : Vec n) (shift scale : ℝ) (nLeja : ℕ)
    (x coeffs : ℕ → ℝ) (tol abortTol : ℝ) : LejaState n :=
  let xsc : ℕ → ℝ := fun i => shift + scale * x i
  let normU := norm2 u
  lejaLoop (lejaCond nLeja abortTol normU) (realLejaBody A dt normU scale tol xsc coeffs) nLeja
    { i := 1, vm := u, pm := coeffs 0 • u, err := 2 * normU, conv := normU = 0 }

/-- one pass of the static loop over the leading real points, matexp_leja.py:352-359 -/
noncomputable def complexHeadBody {n : ℕ} (A : LinOp n) (dt scale : ℝ) (xsc coeffs : ℕ → ℂ)
    (s : LejaState n) : LejaState n :=
  let vm : Vec n := fun j => (dt * A.matvec s.vm j - (xsc (s.i - 1)).re * s.vm j) / scale
  { s with
    i := s.i + 1, vm := vm, pm := s.pm + (coeffs s.i).re • vm
    err := decayFun (|(coeffs s.i).re| * norm2 vm) s.err (1 / 2) }

/-- `body_leja_poly` of `complex_conj_leja_expmv`, matexp_leja.py:362-383: one conjugate pair (`scale ≠ 0`: see `realLejaBody`). -/
noncomputable def complexPairBody {n : ℕ} (A : LinOp n) (dt normU scale tol : ℝ) (xsc coeffs : ℕ → ℂ)
    (s : LejaState n) : LejaState n :=
  let qm : Vec n := fun j => (dt * A.matvec s.vm j - (xsc (s.i - 1)).re * s.vm j) / scale
  let pm1 := s.pm + (coeffs s.i).re • qm
  let err1 := decayFun (|(coeffs s.i).re| * norm2 qm) s.err (1 / 2)
  let vm : Vec n := fun j => (dt * A.matvec qm j - (xsc (s.i - 1)).re * qm j) / scale
    + ((xsc (s.i - 1)).im / scale) ^ 2 * s.vm j
  let pm2 := pm1 + (coeffs (s.i + 1)).re • vm
  let err2 := decayFun (|(coeffs (s.i + 1)).re| * norm2 vm) err1 (1 / 2)
  { i := s.i + 2, vm := vm, pm := pm2, err := err2, conv := scale ≠ 0 ∧ err2 < tol * normU }

/-- `complex_conj_leja_expmv`, matexp_leja.py:306-391.  In the all-real case the call of `real_leja_expmv` (line 332) does
not hand on `abort_tol`, so its default `1e10` is used. -/
noncomputable def complexConjLejaExpmv {n : ℕ} (A : LinOp n) (dt : ℝ) (u : Vec n) (shift scale : ℝ) (nLeja : ℕ)
    (x : ℕ → ℂ) (nReal : ℕ) (coeffs : ℕ → ℂ) (tol abortTol : ℝ) : LejaState n :=
  if nReal = nLeja then
    realLejaExpmv A dt u shift scale nLeja (fun i => (x i).re) (fun i => (coeffs i).re) tol 1e10
  else
    let xsc : ℕ → ℂ := fun i => (shift : ℂ) + (scale : ℂ) * x i
    let normU := norm2 u
    let s0 : LejaState n :=
      { i := 1, vm := u, pm := (coeffs 0).re • u, err := 2 * normU, conv := normU = 0 }
    let s1 := (complexHeadBody A dt scale xsc coeffs)^[nReal] s0
    lejaLoop (lejaCond nLeja abortTol normU) (complexPairBody A dt normU scale tol xsc coeffs) nLeja s1

/-! ### Substepping -/

/-- loop state of the substep routines, matexp_leja.py:516-526 -/
structure SubState (n : ℕ) where
  dts : ℝ
  tau : ℝ
  w : Vec n
  tot : ℕ
  maxTau : ℝ
  conv : Prop

/-- one pass of the `while True` loop up to the test `tau >= 1`, matexp_leja.py:538-556, 619-636.  `inner dts w` is the
Leja evaluation with substep `dts` returning `(w', iterations, converged)`. -/
noncomputable def subBody {n : ℕ} (inner : ℝ → Vec n → Vec n × ℕ × Prop) (s : SubState n) : SubState n :=
  let r := inner s.dts s.w
  if ¬ r.2.2 then
    { s with dts := s.dts / 1.2, tot := s.tot + r.2.1, conv := r.2.2 }
  else
    { dts := min s.dts (1 - (s.tau + s.dts)), tau := s.tau + s.dts, w := r.1, tot := s.tot + r.2.1,
      maxTau := max s.maxTau s.dts, conv := r.2.2 }

/-- the `while True` loop, matexp_leja.py:538-562, 619-642.  The argument counts the passes left before
`i > max_substeps` raises. -/
noncomputable def subLoop {n : ℕ} (inner : ℝ → Vec n → Vec n × ℕ × Prop) : ℕ → SubState n → Py (SubState n)
  | 0, _ => .error .runtime
  | f + 1, s =>
    let s' := subBody inner s
    if s'.tau ≥ 1 then .ok s' else subLoop inner f s'

/-- `real_leja_expmv_substep` / `complex_conj_leja_expmv_substep` around their inner evaluation, matexp_leja.py:516-562
and 593-642: `max_substeps = 1000`, so the pass with `i = 1000` is the 1001st and last.  Returns
`(w, tot_iter, converged, max_tau_dt)`; the final slice `w[0:n]` is left to the caller. -/
noncomputable def expmvSubstep {n : ℕ} (inner : ℝ → Vec n → Vec n × ℕ × Prop) (tauDt : ℝ) (v : Vec n)
    (substep : Bool) : Py (Vec n × ℕ × Prop × ℝ) :=
  if ¬ substep then
    let r := inner 1 v
    .ok (r.1, r.2.1, r.2.2, 1)
  else do
    let s ← subLoop inner 1001
      { dts := min tauDt 1, tau := 0, w := v, tot := 0, maxTau := 0, conv := False }
    pure (s.w, s.tot, s.conv, s.maxTau)

/-! ### Augmented system -/

/-- `B = vstack(vb[:0:-1]).T`: columns `b_p, ..., b_1`, matexp_leja.py:669 (matexp_krylov.py:90 before scaling). -/
def augB {n : ℕ} (vb : List (Vec n)) : Matrix (Fin n) (Fin (vb.length - 1)) ℝ :=
  Matrix.of fun i j => (vb.getD (vb.length - 1 - j) 0) i

/-- `k[0:p-1, 1:] = eye(p-1)`: ones on the superdiagonal, matexp_leja.py:672-674, matexp_krylov.py:93-95. -/
def augK (p : ℕ) : Matrix (Fin p) (Fin p) ℝ :=
  Matrix.of fun i j => if (j : ℕ) = i + 1 then 1 else 0

/-- `unit_vec[-1] = 1`, matexp_leja.py:677-678, matexp_krylov.py:98-99. -/
def lastUnit (p : ℕ) : Vec p := fun j => if (j : ℕ) + 1 = p then 1 else 0

/-- `build_a_tilde(a_lo, dt, vb)`, matexp_leja.py:645-680: `(a_tilde_lo, v)`.  With fewer than two vectors
`jnp.vstack([])` raises. -/
def buildATilde {n : ℕ} (A : LinOp n) (dt : ℝ) (vb : List (Vec n)) :
    Py (LinOp (n + (vb.length - 1)) × Vec (n + (vb.length - 1))) :=
  if vb.length < 2 then .error .value
  else do
    let a ← augMatrixLinOp A dt (augB vb) (augK (vb.length - 1))
    pure (a, concat (vb.getD 0 0) (lastUnit (vb.length - 1)))

end Ormatex
