import Verif.Model.RsKernels

/-!
`/repo/src/mat_utils.rs`: sparse matrices from triplets, the operator wrappers and the two Arnoldi iterations of this file
(`arnoldi_lop` of `arnoldi.rs`, used by the integrators, is in `Model/RsKernels.lean`).
-/

namespace Ormatex.Rs
open Matrix
open scoped Classical

variable {n : ℕ}

/-! ### Sparse matrices -/

/-- a `faer::sparse::Triplet` -/
structure Triplet where
  row : ℕ
  col : ℕ
  val : ℝ

/-- `SparseColMat::try_new_from_triplets(r, c, ts).unwrap()` of `faer`: an index out of range is an error, repeated positions
are summed.  A sparse matrix is modelled by the matrix it stands for. -/
noncomputable def fromTriplets (r c : ℕ) (ts : List Triplet) : RsM (Matrix (Fin r) (Fin c) ℝ) :=
  if ∀ t ∈ ts, t.row < r ∧ t.col < c then
    .ok (Matrix.of fun i j => ((ts.filter fun t => t.row = (i : ℕ) ∧ t.col = (j : ℕ)).map Triplet.val).sum)
  else .error .panic

/-- `dense_to_sprs`, mat_utils.rs:107-124 -/
noncomputable def denseToSprs {r c : ℕ} (a : Matrix (Fin r) (Fin c) ℝ) : RsM (Matrix (Fin r) (Fin c) ℝ) :=
  fromTriplets r c ((List.finRange r).flatMap fun i => (List.finRange c).filterMap fun j =>
    if |a i j| ≠ 0 then some ⟨i, j, a i j⟩ else none)

/-- `sparse_ident`, mat_utils.rs:438-448 -/
noncomputable def sparseIdent (dim : ℕ) : RsM (Mat dim) :=
  fromTriplets dim dim ((List.range dim).map fun i => ⟨i, i, 1⟩)

/-! ### Operators -/

/-- `enum MatrixLinOp`, mat_utils.rs:217-226.  `lop` is a dynamic `LinOp` object (`apply_linop_to_vec(t, x, w, s)`), such as
`JacobianMatLinOp` (`jacobianMatLinOp` below). -/
inductive MatrixLinOp (n : ℕ) where
  | lop (f : ℝ → Vec n → Vec n → Option ℝ → Vec n)
  | matLop (a : Mat n)
  | fMatLop (f : ℝ → Vec n → Mat n)

/-- `MatrixLinOp::apply_linop_to_vec`, mat_utils.rs:228-239 -/
noncomputable def MatrixLinOp.apply (A : MatrixLinOp n) (t : ℝ) (x w : Vec n) (s : Option ℝ) : Vec n :=
  match A with
  | .lop f => f t x w s
  | .matLop a => s.getD 1 • (a *ᵥ w)
  | .fMatLop f => s.getD 1 • (f t x *ᵥ w)

/-- `JacobianMatLinOp::apply_linop_to_vec`, mat_utils.rs:190-215 -/
noncomputable def jacobianMatLinOp (a : Mat n) : MatrixLinOp n := .lop fun _ _ w s => s.getD 1 • (a *ᵥ w)

/-! ### The two Arnoldi iterations -/

/-- loop `for i in 0..=k`, mat_utils.rs:311-316 and 416-421, over the remaining indices: the column `h` grown so far and the
vector being orthogonalised.  `q[i]` is in range whenever the callers reach it, so the default value is never used. -/
def gsLoop (q : List (Vec n)) : List ℕ → List ℝ → Vec n → List ℝ × Vec n
  | [], h, qv => (h, qv)
  | i :: is, h, qv =>
    let qci := q.getD i 0
    let ht := qv ⬝ᵥ qci
    gsLoop q is (h ++ [ht]) (qv - ht • qci)

/-- `arnoldi_inner`, mat_utils.rs:293-323.  `m` is the argument `n` of the code.  With a zero norm the new vector is
`0 * (1/0)`: NaN. -/
noncomputable def arnoldiInnerMat (a : Mat n) (q : List (Vec n)) (k m : ℕ) : RsM (List ℝ × Vec n) :=
  let (h, qv) := gsLoop q (List.range (k + 1)) [] (a *ᵥ q.getD k 0)
  if k + 1 < m then
    let normV := norm2 qv
    if normV = 0 then .error .nan else .ok (h ++ [normV], (1 / normV) • qv)
  else .ok (h, qv)

/-- the loop of `arnoldi`, mat_utils.rs:260-266: remaining passes, next `k`, `hs` and `vs` -/
noncomputable def arnoldiMatLoop (a : Mat n) (m : ℕ) : ℕ → ℕ → List (List ℝ) → List (Vec n) → RsM (List (List ℝ) × List (Vec n))
  | 0, _, hs, vs => .ok (hs, vs)
  | r + 1, k, hs, vs => do
    let (hk, qk) ← arnoldiInnerMat a vs k m
    arnoldiMatLoop a m r (k + 1) (hs ++ [hk]) (if k + 1 < m then vs ++ [qk] else vs)

/-- the pair `(q_out, h_sprs)`: `Q` has as many columns as there are vectors, `H` has as many columns as `hs` and as many rows
as its last column -/
structure QH (n : ℕ) where
  q : ℕ
  Q : Matrix (Fin n) (Fin q) ℝ
  r : ℕ
  c : ℕ
  H : Matrix (Fin r) (Fin c) ℝ

/-- mat_utils.rs:270-290 and 363-391: assembly of the sparse `H` and the dense `Q`; `square` adds the assertions 377-383 -/
noncomputable def assembleQH (square : Bool) (hs : List (List ℝ)) (vs : List (Vec n)) : RsM (QH n) := do
  let hLen := ((hs.map List.length).getLast?).getD 0
  let ts : List Triplet := hs.zipIdx.flatMap fun p => p.1.zipIdx.map fun e => ⟨e.2, p.2, e.1⟩
  let H ← fromTriplets hLen hs.length ts
  if square ∧ ¬ (0 < hLen ∧ 0 < hs.length ∧ hLen = hs.length) then .error .panic
  else .ok { q := vs.length, Q := Matrix.of fun i j => vs.getD j 0 i, r := hLen, c := hs.length, H := H }

/-- `arnoldi`, mat_utils.rs:251-291.  A zero vector `b` is divided by its norm: every entry is NaN. -/
noncomputable def arnoldiMat (a : Mat n) (b : Vec n) (m : ℕ) : RsM (QH n) := do
  if norm2 b = 0 then .error .nan
  else
    let (hs, vs) ← arnoldiMatLoop a m m 0 [] [(1 / norm2 b) • b]
    assembleQH false hs vs

/-- breakdown tolerance `eps`, mat_utils.rs:408 -/
noncomputable def loBreakdownTol : ℝ := 1e-14

/-- `arnoldi_inner_lo`, mat_utils.rs:395-434: `.inr h` is the `Err` of the code (breakdown) -/
noncomputable def arnoldiInnerLo (A : MatrixLinOp n) (t scale : ℝ) (v0 : Vec n) (q : List (Vec n)) (k m : ℕ) :
    (List ℝ × Vec n) ⊕ List ℝ :=
  let (h, qv) := gsLoop q (List.range (k + 1)) [] (A.apply t v0 (q.getD k 0) (some scale))
  let normV := norm2 qv
  let go : Prop := k + 1 < m ∧ loBreakdownTol ≤ normV
  let h' := if go then h ++ [normV] else h
  let qv' := if go then (1 / normV) • qv else qv
  if normV < loBreakdownTol then .inr h' else .inl (h', qv')

/-- the loop of `arnoldi_lo`, mat_utils.rs:338-361 -/
noncomputable def arnoldiLoLoop (A : MatrixLinOp n) (t scale : ℝ) (v0 : Vec n) (m : ℕ) :
    ℕ → ℕ → List (List ℝ) → List (Vec n) → List (List ℝ) × List (Vec n) × ℤ
  | 0, _, hs, vs => (hs, vs, -1)
  | r + 1, k, hs, vs =>
    match arnoldiInnerLo A t scale v0 vs k m with
    | .inl (hk, qk) => arnoldiLoLoop A t scale v0 m r (k + 1) (hs ++ [hk]) (if k + 1 < m then vs ++ [qk] else vs)
    | .inr hk => (hs ++ [hk], vs, (k : ℤ))

/-- `arnoldi_lo`, mat_utils.rs:327-392: `(Q, H, breakdown_n)`; the operator is evaluated at `(t, b)` -/
noncomputable def arnoldiLo (A : MatrixLinOp n) (t scale : ℝ) (b : Vec n) (m : ℕ) : RsM (QH n × ℤ) := do
  if norm2 b = 0 then .error .nan
  else
    let (hs, vs, bn) := arnoldiLoLoop A t scale b m m 0 [] [(1 / norm2 b) • b]
    let R ← assembleQH true hs vs
    .ok (R, bn)

end Ormatex.Rs
