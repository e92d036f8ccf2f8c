import Verif.Model.Leja

/-!
Arnoldi iteration, from `/repo/ormatex_py/arnoldi_jax.py`.

The arrays `hs` (`m × m`) and `qs` (`n × m`) are functions on natural column/row numbers, of which only the indices below
`m` are meaningful: `hs i j` and `qs j : Vec n` (column `j`).
-/

namespace Ormatex
open Matrix
open scoped Classical

/-- `breakdown_tol = 1e-12`, arnoldi_jax.py:45 -/
noncomputable def breakdownTol : ℝ := 1e-12

/-- Loop state `(hs, qv)` of `body_ortho` (`qs` is unchanged there), arnoldi_jax.py:58-65. -/
structure OrthoState (n : ℕ) where
  hs : ℕ → ℕ → ℝ
  qv : Vec n

/-- `body_ortho(i, args)`, arnoldi_jax.py:58-65 -/
def orthoBody {n : ℕ} (qs : ℕ → Vec n) (k : ℕ) (s : OrthoState n) (i : ℕ) : OrthoState n :=
  let qci := qs i
  let ht := s.qv ⬝ᵥ qci
  { hs := Function.update s.hs i (Function.update (s.hs i) k ht), qv := s.qv - ht • qci }

/-- Arrays after one Arnoldi step, with the flag `not_breakdown`. -/
structure ArnState (n : ℕ) where
  hs : ℕ → ℕ → ℝ
  qs : ℕ → Vec n
  k : ℕ
  notBreakdown : Prop

/-- `arnoldi_mgs_lop(a_lo, a_scale, hs, qs, k, iom)`, arnoldi_jax.py:28-92.  `max(k - iom, 0)` is truncated subtraction;
the `fori_loop(iom_depth, k+1, ...)` visits `iom_depth, ..., k`. -/
noncomputable def arnoldiMgs {n : ℕ} (A : LinOp n) (scale : ℝ) (m iom : ℕ) (s : ArnState n) : ArnState n :=
  let k := s.k
  let iomDepth := k - iom
  let qk := s.qs k
  let qv0 := scale • A.call qk
  let o := (List.range' iomDepth (k + 1 - iomDepth)).foldl (orthoBody s.qs k) { hs := s.hs, qv := qv0 }
  let normV := norm2 o.qv
  let hs := if k + 1 < m then Function.update o.hs (k + 1) (Function.update (o.hs (k + 1)) k normV) else o.hs
  let notBreakdown := normV > breakdownTol
  let qs := if k + 1 < m ∧ notBreakdown then
      Function.update s.qs (k + 1) (fun i => o.qv i / normV)
    else s.qs
  { hs := hs, qs := qs, k := k + 1, notBreakdown := notBreakdown }

/-- the `while_loop` of `arnoldi_lop_jit`, arnoldi_jax.py:128-138; `k` increases in every pass, so fuel `m` suffices -/
noncomputable def arnoldiLoop {n : ℕ} (A : LinOp n) (scale : ℝ) (m iom : ℕ) : ℕ → ArnState n → ArnState n
  | 0, s => s
  | f + 1, s =>
    if s.k < m ∧ s.notBreakdown then arnoldiLoop A scale m iom f (arnoldiMgs A scale m iom s) else s

/-- Arrays before the first pass, arnoldi_jax.py:111-126. -/
noncomputable def arnoldiInit {n : ℕ} (b : Vec n) : ArnState n :=
  let normB := norm2 b
  let q0 : Vec n := if normB > 0 then fun i => b i / normB else b
  { hs := fun _ _ => 0, qs := Function.update (fun _ => 0) 0 q0, k := 0, notBreakdown := normB > 0 }

/-- `arnoldi_lop_jit(a_lo, a_scale, b, m, iom)`, arnoldi_jax.py:94-139; the final `k` is `breakdown_k`. -/
noncomputable def arnoldiJit {n : ℕ} (A : LinOp n) (scale : ℝ) (b : Vec n) (m iom : ℕ) : ArnState n :=
  arnoldiLoop A scale (min n m) iom (min n m) (arnoldiInit b)

/-- Result of `arnoldi_lop`: number of columns, `Q = qs[:, :k]`, `H = hs[:k, :k]`. -/
structure ArnResult (n : ℕ) where
  k : ℕ
  Q : Matrix (Fin n) (Fin k) ℝ
  H : Mat k

/-- `arnoldi_lop(a_lo, a_scale, b, m, iom)`, arnoldi_jax.py:141-160. -/
noncomputable def arnoldiLop {n : ℕ} (A : LinOp n) (scale : ℝ) (b : Vec n) (m iom : ℕ) : ArnResult n :=
  let s := arnoldiJit A scale b m iom
  { k := s.k, Q := Matrix.of fun i j => s.qs j i, H := Matrix.of fun i j => s.hs i j }

end Ormatex
