import Verif.Model.Leja

/-!
Leja points and Newton evaluation on the imaginary axis, from `/repo/ormatex_py/matexp_leja.py`.
-/

namespace Ormatex
open Matrix
open scoped Classical

/-- the interleaved array of `gen_complex_conj_leja_fast`, matexp_leja.py:183-190: `leja_x[2k] = i x_{2k}`,
`leja_x[2k+1] = -i x_{2k}`, from every other point of the real sequence.  (The rounding to `complex64` is not modelled.) -/
noncomputable def conjInterleave (z : ℕ → ℝ) : ℕ → ℂ :=
  fun i => if i % 2 = 0 then (z i : ℂ) * Complex.I else (z (i - 1) : ℂ) * -Complex.I

/-- `gen_complex_conj_leja_fast(beta, n)`, matexp_leja.py:172-197: `gen_leja_fast(-beta, beta, 2n)`, interleaved, cut to `n`
entries, then `concat(leja_tmp[2:3], leja_tmp[0:2], leja_tmp[4:])`. -/
noncomputable def genComplexConjLejaFast (beta : ℝ) (n : ℕ) : Py (List ℂ) := do
  let z ← genLejaFast (-beta) beta (n * 2)
  let tmp := (List.range n).map (conjInterleave z)
  pure ((tmp.drop 2).take 1 ++ tmp.take 2 ++ tmp.drop 4)

/-- loop state of `complex_conj_imag_leja_expmv`: `(i, rm, pm, qm, poly_err)` -/
structure ImagState (n : ℕ) where
  i : ℕ
  rm : Vec n
  pm : Vec n
  qm : Vec n
  err : ℝ

/-- `(dt*a_lo.matvec(w) - shift*w)/scale`, matexp_leja.py:267, 279, 284 -/
noncomputable def imagApply {n : ℕ} (A : LinOp n) (dt shift scale : ℝ) (w : Vec n) : Vec n :=
  fun j => (dt * A.matvec w j - shift * w j) / scale

/-- `body_leja_poly`, matexp_leja.py:273-288.  Note the sign: `err_r` uses the coefficient without its absolute value. -/
noncomputable def imagBody {n : ℕ} (A : LinOp n) (dt shift scale : ℝ) (x coeffs : ℕ → ℂ) (s : ImagState n) :
    ImagState n :=
  let errR := (coeffs (s.i - 1)).re * norm2 s.rm
  let qm := imagApply A dt shift scale s.rm
  let pm := s.pm + (coeffs (s.i - 1)).re • s.rm + (coeffs s.i).re • qm
  let rm := imagApply A dt shift scale qm + (x (s.i - 1)).im ^ 2 • s.rm
  { i := s.i + 2, rm := rm, pm := pm, qm := qm, err := norm2 qm * ‖coeffs s.i‖ + errR }

/-- `cond_leja_poly`, matexp_leja.py:289-293 -/
def imagCond {n : ℕ} (nLeja : ℕ) (tol beta : ℝ) (s : ImagState n) : Prop :=
  (s.err > tol * beta ∧ s.err < beta * 1000) ∧ s.i < nLeja

/-- the `while_loop` (the counter grows by two in each pass and stays below `n_leja + 2`, so fuel `n_leja` suffices) -/
noncomputable def imagLoop {n : ℕ} (cond : ImagState n → Prop) (body : ImagState n → ImagState n) :
    ℕ → ImagState n → ImagState n
  | 0, s => s
  | f + 1, s => if cond s then imagLoop cond body f (body s) else s

/-- state before the loop, matexp_leja.py:263-270, 294-295 -/
noncomputable def imagInit {n : ℕ} (A : LinOp n) (dt : ℝ) (u : Vec n) (shift scale : ℝ) (coeffs : ℕ → ℂ) : ImagState n :=
  { i := 2, rm := imagApply A dt shift scale u, pm := (coeffs 0).re • u, qm := 0, err := 100 }

/-- `complex_conj_imag_leja_expmv`, matexp_leja.py:235-298: final loop state and the flag
`converged = (i < n_leja) & (err < beta*1.0e3)`. -/
noncomputable def complexConjImagLejaExpmv {n : ℕ} (A : LinOp n) (dt : ℝ) (u : Vec n) (shift scale : ℝ) (nLeja : ℕ)
    (x coeffs : ℕ → ℂ) (tol : ℝ) : ImagState n × Prop :=
  let beta := norm2 u
  let s := imagLoop (imagCond nLeja tol beta) (imagBody A dt shift scale x coeffs) nLeja (imagInit A dt u shift scale coeffs)
  (s, s.i < nLeja ∧ s.err < beta * 1000)

end Ormatex
