import Verif.Model.RsSys
import Verif.Model.Arnoldi
import Mathlib.LinearAlgebra.Matrix.NonsingularInverse
import Mathlib.Analysis.Complex.Basic
import Mathlib.Analysis.SpecialFunctions.Exp
import Mathlib.Data.Int.Log
import Mathlib.Analysis.SpecialFunctions.Trigonometric.Basic

/-!
The Rust crate (`/repo/src`): Arnoldi iteration, Krylov products, Padé exponential, contour (partial fraction)
evaluation, and the cached difference operator of `mat_utils.rs`.
-/

namespace Ormatex.Rs
open Matrix
open scoped Classical

variable {n : ℕ}

/-! ### Arnoldi -/

/-- Arrays `hs`, `qs` of `arnoldi_lop`, on natural row and column numbers. -/
structure Arn (n : ℕ) where
  hs : ℕ → ℕ → ℝ
  qs : ℕ → Vec n

/-- `h[i] = v` on column `k`: write one entry of `hs` -/
def setH (hs : ℕ → ℕ → ℝ) (i k : ℕ) (v : ℝ) : ℕ → ℕ → ℝ := fun a b => if a = i ∧ b = k then v else hs a b

/-- loop `for i in iom_depth..=k`, arnoldi.rs:76-81, over the remaining indices -/
def orthLoop (qs : ℕ → Vec n) (k : ℕ) : List ℕ → (ℕ → ℕ → ℝ) → Vec n → (ℕ → ℕ → ℝ) × Vec n
  | [], hs, qv => (hs, qv)
  | i :: is, hs, qv =>
    let ht := qv ⬝ᵥ qs i
    orthLoop qs k is (setH hs i k ht) (qv - ht • qs i)

/-- `breakdown_tol`, arnoldi.rs:60 -/
noncomputable def rsBreakdownTol : ℝ := 1e-12

/-- `arnoldi_inner_lop`, arnoldi.rs:38-98; the flag is true on breakdown.  `m` is the argument `n` of the code. -/
noncomputable def arnoldiInner (A : LinOp n) (scale : ℝ) (k m iom : ℕ) (s : Arn n) : Arn n × Bool :=
  let notFinalIt : Bool := k + 1 < m
  let iomDepth := (max ((k : ℤ) - iom) 0).toNat
  let qv := scale • A.call (s.qs k)
  let (hs, qv) := orthLoop s.qs k (List.range' iomDepth (k + 1 - iomDepth)) s.hs qv
  let normV := norm2 qv
  let hs := if k + 1 < m then setH hs (k + 1) k normV else hs
  let breakdownFlag : Bool := normV < rsBreakdownTol
  let qs := if notFinalIt && !breakdownFlag then
      fun c => if c = k + 1 then (1 / normV) • qv else s.qs c
    else s.qs
  ({ hs := hs, qs := qs }, breakdownFlag)

/-- loop of `arnoldi_lop`, arnoldi.rs:128-135: remaining passes, next `k`, arrays and `breakdown_n` -/
noncomputable def arnoldiLoopRs (A : LinOp n) (scale : ℝ) (m iom : ℕ) : ℕ → ℕ → Arn n → ℕ → Arn n × ℕ
  | 0, _, s, bn => (s, bn)
  | r + 1, k, s, bn =>
    let (s', flag) := arnoldiInner A scale k m iom s
    if flag then (s', bn + 1) else arnoldiLoopRs A scale m iom r (k + 1) s' (bn + 1)

/-- `arnoldi_lop`, arnoldi.rs:109-142 (and the binding `arnoldi_rs`, ormatex_rspy.rs:347-377).  With no column the write
of column 0 panics; a zero vector is divided by its norm: every entry computed from it is NaN. -/
noncomputable def arnoldiRs (A : LinOp n) (scale : ℝ) (b : Vec n) (nMax iom : ℕ) : RsM (ArnResult n) :=
  let m := min nMax n
  if m = 0 then .error .panic
  else
    let normB := norm2 b
    if normB = 0 then .error .nan
    else
      let q0 := (1 / normB) • b
      let r := arnoldiLoopRs A scale m iom m 0 { hs := fun _ _ => 0, qs := fun c => if c = 0 then q0 else 0 } 0
      .ok { k := r.2, Q := Matrix.of fun i j => r.1.qs j i, H := Matrix.of fun i j => r.1.hs i j }

/-! ### Dense exponential and phi functions -/

/-- `norm_l1` of a matrix in `faer`: the sum of the absolute values of all entries -/
noncomputable def normL1 {N : ℕ} (a : Mat N) : ℝ := ∑ i, ∑ j, |a i j|

/-- exponent of `frexp(x)` for `x ≥ 0`: `x = m 2^e` with `1/2 ≤ m < 1` (0 for `x = 0`) -/
noncomputable def frexpExp (x : ℝ) : ℤ := if x = 0 then 0 else Int.log 2 x + 1

section pade
variable {N : ℕ}

/-- `pade3`, matexp_pade.rs:184-192 -/
noncomputable def pade3 (a a2 : Mat N) : Mat N × Mat N :=
  let temp := (1 : ℝ) • a2 + (60 : ℝ) • (1 : Mat N)
  (a * temp, (12 : ℝ) • a2 + (120 : ℝ) • (1 : Mat N))

/-- `pade5`, matexp_pade.rs:193-201 -/
noncomputable def pade5 (a a2 a4 : Mat N) : Mat N × Mat N :=
  let temp := (1 : ℝ) • a4 + (420 : ℝ) • a2 + (15120 : ℝ) • (1 : Mat N)
  (a * temp, (30 : ℝ) • a4 + (3360 : ℝ) • a2 + (30240 : ℝ) • (1 : Mat N))

/-- `pade7`, matexp_pade.rs:202-212 -/
noncomputable def pade7 (a a2 a4 a6 : Mat N) : Mat N × Mat N :=
  let temp := (1 : ℝ) • a6 + (1512 : ℝ) • a4 + (277200 : ℝ) • a2 + (8648640 : ℝ) • (1 : Mat N)
  (a * temp, (56 : ℝ) • a6 + (25200 : ℝ) • a4 + (1995840 : ℝ) • a2 + (17297280 : ℝ) • (1 : Mat N))

/-- `pade9`, matexp_pade.rs:213-226 -/
noncomputable def pade9 (a a2 a4 a6 a8 : Mat N) : Mat N × Mat N :=
  let temp := (1 : ℝ) • a8 + (3960 : ℝ) • a6 + (2162160 : ℝ) • a4 + (302702400 : ℝ) • a2 +
    (8821612800 : ℝ) • (1 : Mat N)
  (a * temp, (90 : ℝ) • a8 + (110880 : ℝ) • a6 + (30270240 : ℝ) • a4 + (2075673600 : ℝ) • a2 +
    (17643225600 : ℝ) • (1 : Mat N))

/-- `pade13`, matexp_pade.rs:227-246 -/
noncomputable def pade13 (a a2 a4 a6 : Mat N) : Mat N × Mat N :=
  let v1 := (1 : ℝ) • a6 + (16380 : ℝ) • a4 + (40840800 : ℝ) • a2
  let temp := a6 * v1 + (33522128640 : ℝ) • a6 + (10559470521600 : ℝ) • a4 + (1187353796428800 : ℝ) • a2 +
    (32382376266240000 : ℝ) • (1 : Mat N)
  let u := a * temp
  let temp2 := (182 : ℝ) • a6 + (960960 : ℝ) • a4 + (1323241920 : ℝ) • a2
  let v2 := a6 * temp2 + (670442572800 : ℝ) • a6 + (129060195264000 : ℝ) • a4 + (7771770303897600 : ℝ) • a2 +
    (64764752532480000 : ℝ) • (1 : Mat N)
  (u, v2)

/-- `matexp_pade`, matexp_pade.rs:130-174: `(U, V, alpha)` -/
noncomputable def matexpPade (a : Mat N) : Mat N × Mat N × ℕ :=
  let norm := normL1 a
  let a2 := a * a
  if norm < 1.495585217958292e-2 then
    let (u, v) := pade3 a a2
    (u, v, 0)
  else if norm < 2.539398330063230e-1 then
    let a4 := a2 * a2
    let (u, v) := pade5 a a2 a4
    (u, v, 0)
  else if norm < 9.504178996162932e-1 then
    let a4 := a2 * a2
    let a6 := a4 * a2
    let (u, v) := pade7 a a2 a4 a6
    (u, v, 0)
  else if norm < 2.097847961257068 then
    let a4 := a2 * a2
    let a6 := a4 * a2
    let a8 := a6 * a2
    let (u, v) := pade9 a a2 a4 a6 a8
    (u, v, 0)
  else
    let maxnorm : ℝ := 5.371920351148152
    let alpha := (frexpExp (norm / maxnorm)).toNat   -- negative values are replaced by 0
    let scale : ℝ := 2 ^ alpha
    let as := (1 / scale) • a
    let a2s := as * as
    let a4s := a2s * a2s
    let a6s := a4s * a2s
    let (u, v) := pade13 as a2s a4s a6s
    (u, v, alpha)

/-- `matexp(a, dt)`, matexp_pade.rs:48-64; the QR solve is multiplication by the inverse -/
noncomputable def matexpRs (a : Mat N) (dt : ℝ) : Mat N :=
  let (u, v, alpha) := matexpPade (dt • a)
  let denom := v - u
  let numer := u + v
  let r := denom⁻¹ * numer
  (fun r => r * r)^[alpha] r

/-- `phi(z, k)`, matexp_pade.rs:72-92, over an exponential `mexp`; `(1..i).product()` is `(i-1)!` (exact integers here) -/
noncomputable def phiRs (mexp : Mat N → Mat N) (z : Mat N) : ℕ → Mat N
  | 0 => mexp z
  | i + 1 => z⁻¹ * (phiRs mexp z i - ((1 : ℝ) / (Nat.factorial i)) • (1 : Mat N))

/-- The matrix `z_ext` of `phi_ext` for `k ≥ 1`, matexp_pade.rs:104-116: `z` in the corner, an identity of size `k n`
in the rows above `k n` and the columns from `n`. -/
def phiExtMatRs (z : Mat N) (k : ℕ) : Mat ((k + 1) * N) := Matrix.of fun i j =>
  if (i : ℕ) < k * N ∧ N ≤ (j : ℕ) then (if (i : ℕ) = j - N then 1 else 0)
  else if h : (i : ℕ) < N ∧ (j : ℕ) < N then z ⟨i, h.1⟩ ⟨j, h.2⟩
  else 0

/-- `phi_ext(z, k)`, matexp_pade.rs:96-122 (and `phi_k_rs`, ormatex_rspy.rs:315-331), over an exponential: the first `n`
rows and last `n` columns of the exponential of `z_ext` (of `z` itself for `k = 0`). -/
noncomputable def phiExtRs (mexp : ∀ m, Mat m → Mat m) (z : Mat N) (k : ℕ) : Mat N :=
  match k with
  | 0 => mexp N z
  | k + 1 =>
    let E := mexp ((k + 1 + 1) * N) (phiExtMatRs z (k + 1))
    Matrix.of fun i j => E ⟨i, by nlinarith [i.2, Nat.zero_le (k * N)]⟩
      ⟨(k + 1 + 1) * N - N + j, by
        have h := j.2
        have : (k + 1 + 1) * N = (k + 1) * N + N := by ring
        omega⟩

end pade

/-- trait `DensePhikvEvaluator`, matexp_pade.rs:23-25: `phik_apply(a, dt, v0, k)` -/
abbrev DenseRs := ∀ m : ℕ, Mat m → ℝ → Vec m → ℕ → RsM (Vec m)

/-- `PadeExpm::phik_apply`, matexp_pade.rs:41-45, over the exponential used by `phi_ext` -/
noncomputable def padeApply (mexp : ∀ m, Mat m → Mat m) : DenseRs := fun _ a dt v k =>
  .ok (phiExtRs mexp (dt • a) k *ᵥ v)

/-! ### Contour evaluation -/

/-- `CauchyExpm`, matexp_cauchy.rs:25-35 -/
structure Cauchy where
  theta : List ℂ
  alpha : List ℂ
  alpha0 : ℂ

/-- `CauchyExpm::new`, matexp_cauchy.rs:38-47 -/
def Cauchy.new (theta alpha : List ℂ) (alpha0 : ℂ) : RsM Cauchy :=
  if theta.length ≠ alpha.length then .error .panic else .ok ⟨theta, alpha, alpha0⟩

/-- A way in which rayon's `reduce_with` may split an index range and combine the partial results: the leaves are the
mapped items in order, every inner node is one call of the closure. -/
inductive Split (α : Type*) where
  | leaf (x : α)
  | node (l r : Split α)

/-- items of a split, left to right -/
def Split.items {α : Type*} : Split α → List α
  | .leaf x => [x]
  | .node l r => l.items ++ r.items

/-- the mapped split -/
def Split.map {α β : Type*} (f : α → β) : Split α → Split β
  | .leaf x => .leaf (f x)
  | .node l r => .node (l.map f) (r.map f)

/-- value of a reduction with the given splits -/
def Split.reduce {α : Type*} (op : α → α → α) : Split α → α
  | .leaf x => x
  | .node l r => op (l.reduce op) (r.reduce op)

section cauchy
variable {N : ℕ}

/-- `complex_mat_scale(a, dt)`, mat_utils.rs:86-93 -/
noncomputable def complexMatScale (a : Mat N) (dt : ℝ) : Matrix (Fin N) (Fin N) ℂ :=
  Matrix.of fun i j => (a i j : ℂ) * (dt : ℂ)

/-- `real_mat`, mat_utils.rs:77-83 -/
def realMat (a : Matrix (Fin N) (Fin N) ℂ) : Mat N := Matrix.of fun i j => (a i j).re

/-- `mat_pow(a, p)`, mat_utils.rs:96-105 -/
def matPow (a : Mat N) : ℕ → Mat N
  | 0 => 1
  | p + 1 => a * matPow a p

/-- summand `k` of `matexp_dense_cauchy`, matexp_cauchy.rs:73-77 -/
noncomputable def Cauchy.expTerm (c : Cauchy) (a : Mat N) (dt : ℝ) (k : ℕ) : Matrix (Fin N) (Fin N) ℂ :=
  let tmp := complexMatScale a dt - c.theta.getD k 0 • (1 : Matrix (Fin N) (Fin N) ℂ)
  c.alpha.getD k 0 • tmp⁻¹

/-- `matexp_dense_cauchy(a, dt)`, matexp_cauchy.rs:54-84, with the splits of the parallel reduction (`none`: the range
is empty and the `unwrap` panics) -/
noncomputable def Cauchy.matexpDense (c : Cauchy) (a : Mat N) (dt : ℝ) (sp : Option (Split ℕ)) : RsM (Mat N) :=
  match sp with
  | none => .error .panic
  | some sp =>
    let mapped := sp.map (c.expTerm a dt)
    let expA := mapped.reduce (· + ·)
    .ok ((2 : ℝ) • realMat expA + c.alpha0.re • realMat (1 : Matrix (Fin N) (Fin N) ℂ))

/-- block matrix of `_phi_ext`, matexp_cauchy.rs:88-96 -/
def cauchyExt (a bu : Mat N) : Mat (N * 2) := Matrix.of fun i j =>
  if hi : (i : ℕ) < N then
    if hj : (j : ℕ) < N then a ⟨i, hi⟩ ⟨j, hj⟩
    else bu ⟨i, hi⟩ ⟨j - N, by omega⟩
  else 0

/-- `_phi_ext(a, bu, dt)`, matexp_cauchy.rs:86-102, over an exponential -/
noncomputable def cauchyPhiExt (mexp : ∀ m, Mat m → ℝ → RsM (Mat m)) (a bu : Mat N) (dt : ℝ) : RsM (Mat N) := do
  let E ← mexp (N * 2) (cauchyExt a bu) dt
  pure (Matrix.of fun i j => E ⟨i, by omega⟩ ⟨N + j, by omega⟩)

/-- `phik_dense_cauchy(a, dt, k)`, matexp_cauchy.rs:108-121, over the exponential (`matexp_dense_cauchy` in the code) -/
noncomputable def phikDenseCauchy (mexp : ∀ m, Mat m → ℝ → RsM (Mat m)) (a : Mat N) (dt : ℝ) (k : ℕ) : RsM (Mat N) :=
  if k ≤ 1 then
    match k with
    | 0 => mexp N a dt
    | 1 => cauchyPhiExt mexp (matPow a k) (matPow a (k - 1)) dt
    | _ => .error .panic
  else .error .panic

/-- summand `k` of `phik_dense_apply_cauchy`, matexp_cauchy.rs:190-197 -/
noncomputable def Cauchy.applyTerm (c : Cauchy) (a : Mat N) (dt : ℝ) (v : Vec N) (l k : ℕ) : Fin N → ℂ :=
  let zk := c.theta.getD k 0 ^ l
  let tmpA := zk • (complexMatScale a dt - c.theta.getD k 0 • (1 : Matrix (Fin N) (Fin N) ℂ))
  let tmpB := fun i => c.alpha.getD k 0 * (v i : ℂ)
  tmpA⁻¹ *ᵥ tmpB

/-- `phik_dense_apply_cauchy(a, dt, v0, l)`, matexp_cauchy.rs:165-203: the shift `alpha_0` is added for every `l` -/
noncomputable def Cauchy.phikApply (c : Cauchy) (a : Mat N) (dt : ℝ) (v : Vec N) (l : ℕ) (sp : Option (Split ℕ)) :
    RsM (Vec N) :=
  match sp with
  | none => .error .panic
  | some sp =>
    let mapped := sp.map (c.applyTerm a dt v l)
    let out := mapped.reduce (· + ·)
    .ok (fun i => 2 * (out i).re + c.alpha0.re * v i)

/-- summand of `matexp_dense_apply_cauchy`, matexp_cauchy.rs:146-152 -/
noncomputable def Cauchy.expApplyTerm (c : Cauchy) (a : Mat N) (dt : ℝ) (v : Vec N) (k : ℕ) : Fin N → ℂ :=
  let tmpA := complexMatScale a dt - c.theta.getD k 0 • (1 : Matrix (Fin N) (Fin N) ℂ)
  let tmpB := fun i => c.alpha.getD k 0 * (v i : ℂ)
  tmpA⁻¹ *ᵥ tmpB

/-- `matexp_dense_apply_cauchy(a, dt, v0)`, matexp_cauchy.rs:124-159 -/
noncomputable def Cauchy.expApply (c : Cauchy) (a : Mat N) (dt : ℝ) (v : Vec N) (sp : Option (Split ℕ)) :
    RsM (Vec N) :=
  match sp with
  | none => .error .panic
  | some sp =>
    let mapped := sp.map (c.expApplyTerm a dt v)
    let out := mapped.reduce (· + ·)
    .ok (fun i => 2 * (out i).re + c.alpha0.re * v i)

end cauchy

/-- Reductions rayon may perform on `(0..s)`: none when the range is empty, otherwise any split with these items (rayon
keeps their order; any order is allowed here). -/
def ValidSplit (s : ℕ) (sp : Option (Split ℕ)) : Prop :=
  match sp with
  | none => s = 0
  | some t => t.items.Perm (List.range s)

/-- `gen_parabolic_expm(order)`, matexp_cauchy.rs:248-281: entry `i` of the loops uses the odd number `2 i + 1`. -/
noncomputable def genParabolic (order : ℕ) : RsM Cauchy :=
  if order % 2 = 0 then
    let ang : ℕ → ℂ := fun i => ((Real.pi * ((2 * i + 1 : ℕ) : ℝ) / (order : ℝ) : ℝ) : ℂ)
    let pole : ℕ → ℂ := fun i => (order : ℂ) * (0.1309 - 0.1194 * ang i ^ 2 + 0.25 * ang i * Complex.I)
    let der : ℕ → ℂ := fun i => (order : ℂ) * (-2.0 * 0.1194 * ang i + 0.25 * Complex.I)
    let wt : ℕ → ℂ := fun i => (Complex.I / (order : ℂ)) * (Complex.exp (pole i) * der i)
    Cauchy.new ((List.range (order / 2)).map pole) ((List.range (order / 2)).map wt) 0
  else .error .panic

/-- complex literal `c64::new(re, im)` -/
noncomputable def c64 (re im : ℝ) : ℂ := ⟨re, im⟩

/-- `gen_cram_expm(order)`, matexp_cauchy.rs:215-244 -/
noncomputable def genCram (order : ℕ) : RsM Cauchy :=
  match order with
  | 16 => Cauchy.new
    [c64 (-10.843917078696988026) 19.277446167181652284,
     c64 (-5.2649713434426468895) 16.220221473167927305,
     c64 5.9481522689511774808 3.5874573620183222829,
     c64 3.5091036084149180974 8.4361989858843750826,
     c64 6.4161776990994341923 1.1941223933701386874,
     c64 1.4193758971856659786 10.925363484496722585,
     c64 4.9931747377179963991 5.9968817136039422260,
     c64 (-1.4139284624888862114) 13.497725698892745389]
    [c64 (-0.0000005090152186522491565) (-0.00002422001765285228797),
     c64 0.00021151742182466030907 0.0043892969647380673918,
     c64 113.39775178483930527 101.9472170421585645,
     c64 15.059585270023467528 (-5.7514052776421819979),
     c64 (-64.500878025539646595) (-224.59440762652096056),
     c64 (-1.4793007113557999718) 1.7686588323782937906,
     c64 (-62.518392463207918892) (-11.19039109428322848),
     c64 0.041023136835410021273 (-0.15743466173455468191)]
    (c64 2.1248537104952237488e-16 0)
  | _ => .error .panic

/-! ### Krylov products -/

/-- `KrylovExpm`, matexp_krylov.rs:28-35 -/
structure KrylovExpm where
  expmv : DenseRs
  krylovDim : ℕ
  iom : ℕ

/-- `KrylovExpm::new`, matexp_krylov.rs:38-45 -/
def KrylovExpm.new (expmv : DenseRs) (krylovDim : ℕ) (iom : Option ℕ) : RsM KrylovExpm :=
  if 0 < krylovDim then .ok ⟨expmv, krylovDim, iom.getD 2⟩ else .error .panic

/-- `unit_vec`, matexp_krylov.rs:53-54 -/
def unitVec (k : ℕ) : Vec k := fun i => if (i : ℕ) = 0 then 1 else 0

/-- `apply_linop`, matexp_krylov.rs:48-58 -/
noncomputable def KrylovExpm.applyLinop (K : KrylovExpm) {n : ℕ} (A : LinOp n) (dt : ℝ) (v0 : Vec n) : RsM (Vec n) := do
  let r ← arnoldiRs A dt v0 K.krylovDim K.iom
  let beta := norm2 v0
  let e ← K.expmv r.k r.H 1 (unitVec r.k) 0
  pure (beta • (r.Q *ᵥ e))

/-- `apply_phi_linop`, matexp_krylov.rs:61-73 -/
noncomputable def KrylovExpm.applyPhiLinop (K : KrylovExpm) {n : ℕ} (A : LinOp n) (dt : ℝ) (v0 : Vec n) (k : ℕ) :
    RsM (Vec n) := do
  let r ← arnoldiRs A 1 v0 K.krylovDim K.iom
  let beta := norm2 v0
  let e ← K.expmv r.k r.H dt (unitVec r.k) k
  pure (beta • (r.Q *ᵥ e))

/-- `apply_phi_linop_3`, matexp_krylov.rs:81-106, over the exponential used by `phi_ext` -/
noncomputable def KrylovExpm.applyPhiLinop3 (K : KrylovExpm) (mexp : ∀ m, Mat m → Mat m) {n : ℕ} (A : LinOp n) (dt : ℝ)
    (v0 : Vec n) (k : ℕ) : RsM (Vec n × Vec n × Vec n) := do
  let r ← arnoldiRs A 1 v0 K.krylovDim K.iom
  let phiK := phiExtRs mexp (dt • r.H) k
  let beta := norm2 v0
  let phiK1 := beta • ((r.Q * phiK) *ᵥ unitVec r.k)
  let phi2 := ((dt * 1 / 2) • (r.H * phiK) + 1) * phiK
  let phiK2 := beta • ((r.Q * phi2) *ᵥ unitVec r.k)
  let phi3 := (2 / 3 : ℝ) • ((dt • (r.H * phiK) + 1) * phi2) + (1 / 3 : ℝ) • phiK
  let phiK3 := beta • ((r.Q * phi3) *ᵥ unitVec r.k)
  pure (phiK1, phiK2, phiK3)

/-- `kiops_fixedsteps`, matexp_krylov.rs:120-137, on the operator `ExtendedLinOp::new(t, a_lo, vb)` -/
noncomputable def KrylovExpm.kiops (K : KrylovExpm) {n : ℕ} (t : ℝ) (A : LinOp n) (vb : List (Vec n)) (dt : ℝ) :
    RsM (Vec n) := do
  let ext ← extendedLinOp t A vb
  let w ← K.applyLinop ext dt (extV vb)
  pure (headN w)

/-- The kernels of the crate, as used by `EpirkIntegrator`. -/
noncomputable def KrylovExpm.kern (K : KrylovExpm) (n : ℕ) : Kern n where
  phi := K.applyPhiLinop
  kiops := K.kiops

/-! ### `mat_utils.rs` -/

/-- Cache of `JacobianRhsLinOp`, mat_utils.rs:138-149: the last point and the right-hand side stored with it.  The
constructor (:182-188) stores zero matrices of a wrong shape; using that right-hand side panics, except in dimension 1,
and happens only for a point of norm zero, whose difference quotient is not a number anyway. -/
structure RhsCache (n : ℕ) where
  xTmp : Vec n
  fxTmp : Vec n

/-- `norm_l1` of a vector -/
noncomputable def vecL1 (x : Vec n) : ℝ := ∑ i, |x i|

/-- `JacobianRhsLinOp::new`, mat_utils.rs:182-188 -/
def RhsCache.new (n : ℕ) : RhsCache n := ⟨0, 0⟩

/-- `JacobianRhsLinOp::apply_linop_to_vec`, mat_utils.rs:156-176 -/
noncomputable def RhsCache.apply (frhs : ℝ → Vec n → Vec n) (c : RhsCache n) (t : ℝ) (x w : Vec n) (s : Option ℝ) :
    RsM (Vec n) × RhsCache n :=
  let xNorm := vecL1 x
  let c' : RhsCache n := if xNorm = vecL1 c.xTmp then c else ⟨x, frhs t x⟩
  let eps := 0.5e-8 * xNorm
  if eps = 0 then (.error .nan, c')
  else
    let ieps := 1 / eps
    let xPert := x + eps • w
    (.ok ((s.getD 1 * ieps) • (frhs t xPert - c'.fxTmp)), c')

end Ormatex.Rs
