import Verif.Model.Phi

/-!
The machine integer in the scaling of `/repo/ormatex_py/matexp_phi.py:129-166`.

`Nscale` is cast to the integer type of JAX (line 141: `astype(int)`) and the divisor is the *integer* power
`tt_N = 2 ** Nscale` (line 142).  JAX integers have 32 bits unless the caller enables 64-bit mode before using the library, which
nothing in the imported modules does; integer arithmetic wraps around.  `Model/Phi.lean` uses the exact power; this file has the
version with `w`-bit integers.  (Exponents of `w` and more, for which the power vanishes or depends on how JAX computes it, are
reported as an error.)
-/

namespace Ormatex
open Matrix

/-- the value of `2 ** ns` in `w`-bit two's complement arithmetic, matexp_phi.py:142 -/
def ttN (w ns : ℕ) : ℤ := Int.bmod (2 ^ ns) (2 ^ w)

/-- `f_phi_k_sq_all(z, k)`, matexp_phi.py:129-166, with `w`-bit integers: `z / tt_N` (line 145) divides by the wrapped power. -/
noncomputable def fPhiKSqAllW (w : ℕ) {N : ℕ} (z : Mat N) (k : ℕ) : Py (List (Mat N)) :=
  let ns := nScale (infNorm z)
  if w ≤ ns then .error .value
  else do
    let l0 ← fPhiKPolyAll (((1 : ℝ) / (ttN w ns : ℝ)) • z) k 4
    pure ((sqStep k)^[ns] l0)

/-- `f_phi_k_sq(z, k)`, matexp_phi.py:168-174, with `w`-bit integers -/
noncomputable def fPhiKSqW (w : ℕ) {N : ℕ} (z : Mat N) (k : ℕ) : Py (Mat N) := do
  let l ← fPhiKSqAllW w z k
  match l[k]? with
  | some x => .ok x
  | none => .error .index

end Ormatex
