import Verif.Props.Krylov
import Mathlib.Analysis.InnerProductSpace.PiL2

/-!
Krylov phi products: exactness on polynomials, error bounds (C65), and totality of the package's kernels (C10).
-/

namespace Ormatex.Props
open Matrix Ormatex.Spec
open scoped Classical

section
variable {n : ℕ}

/-! ### the Euclidean norm -/

theorem norm2_eq (v : Vec n) : norm2 v = ‖WithLp.toLp 2 v‖ := by
  rw [EuclideanSpace.norm_eq]
  unfold norm2 dotProduct
  congr 1
  refine Finset.sum_congr rfl fun i _ => ?_
  rw [Real.norm_eq_abs, sq_abs, sq]

theorem norm2_add_le (u v : Vec n) : norm2 (u + v) ≤ norm2 u + norm2 v := by
  rw [norm2_eq, norm2_eq, norm2_eq, WithLp.toLp_add]
  exact norm_add_le _ _

theorem norm2_sub_le (u v : Vec n) : norm2 (u - v) ≤ norm2 u + norm2 v := by
  rw [norm2_eq, norm2_eq, norm2_eq, WithLp.toLp_sub]
  exact norm_sub_le _ _

theorem norm2_hasSum_le {f : ℕ → Vec n} {v : Vec n} {g : ℕ → ℝ} {a : ℝ} (hf : ∀ i, HasSum (fun j => f j i) (v i))
    (hg : HasSum g a) (h : ∀ j, norm2 (f j) ≤ g j) : norm2 v ≤ a := by
  have h1 : HasSum f v := Pi.hasSum.mpr hf
  have h2 : HasSum (fun j => WithLp.toLp 2 (f j)) (WithLp.toLp 2 v) :=
    h1.mapL (PiLp.continuousLinearEquiv 2 ℝ (fun _ : Fin n => ℝ)).symm.toContinuousLinearMap
  rw [norm2_eq]
  exact h2.norm_le_of_bounded hg fun j => by rw [← norm2_eq]; exact h j

theorem dot_le_norm2 (u v : Vec n) : u ⬝ᵥ v ≤ norm2 u * norm2 v := by
  have h := real_inner_le_norm (WithLp.toLp 2 u) (WithLp.toLp 2 v)
  rw [← norm2_eq, ← norm2_eq] at h
  refine le_trans (le_of_eq ?_) h
  rw [EuclideanSpace.inner_eq_star_dotProduct]
  simp [dotProduct_comm]

theorem abs_le_norm2 (v : Vec n) (i : Fin n) : |v i| ≤ norm2 v := by
  rw [norm2_eq, ← Real.norm_eq_abs]
  exact PiLp.norm_apply_le (WithLp.toLp 2 v) i

theorem norm2_isometry {k : ℕ} {Q : Matrix (Fin n) (Fin k) ℝ} (hQ : Qᵀ * Q = 1) (x : Vec k) : norm2 (Q *ᵥ x) = norm2 x := by
  unfold norm2
  congr 1
  rw [Matrix.dotProduct_mulVec, Matrix.vecMul_mulVec, hQ, Matrix.vecMul_one]

theorem norm2_transpose {k : ℕ} {Q : Matrix (Fin n) (Fin k) ℝ} (hQ : Qᵀ * Q = 1) (x : Vec n) : norm2 (Qᵀ *ᵥ x) ≤ norm2 x := by
  rcases (norm2_nonneg (Qᵀ *ᵥ x)).lt_or_eq with hp | h0
  · have h1 : norm2 (Qᵀ *ᵥ x) * norm2 (Qᵀ *ᵥ x) ≤ norm2 (Qᵀ *ᵥ x) * norm2 x := by
      rw [norm2_sq]
      calc (Qᵀ *ᵥ x) ⬝ᵥ (Qᵀ *ᵥ x) = (Q *ᵥ (Qᵀ *ᵥ x)) ⬝ᵥ x := by
            rw [Matrix.dotProduct_mulVec, Matrix.vecMul_transpose]
        _ ≤ norm2 (Q *ᵥ (Qᵀ *ᵥ x)) * norm2 x := dot_le_norm2 _ _
        _ = _ := by rw [norm2_isometry hQ]
    exact le_of_mul_le_mul_left h1 hp
  · rw [← h0]; exact norm2_nonneg x

/-! ### the Krylov recurrences -/

/-- `Z (Q x) = Q (H x) + x_last r`, from the relation for the columns -/
theorem krylov_step_abs {k : ℕ} (hk : 0 < k) (Z : Mat n) (Q : Matrix (Fin n) (Fin k) ℝ) (H : Mat k) (r : Vec n)
    (hrel : ∀ j : Fin k, Z *ᵥ (fun i => Q i j) = Q *ᵥ (fun i => H i j) + if (j : ℕ) + 1 = k then r else 0) (x : Vec k) :
    Z *ᵥ (Q *ᵥ x) = Q *ᵥ (H *ᵥ x) + x ⟨k - 1, by omega⟩ • r := by
  have hx : ∀ (q : ℕ) (W : Matrix (Fin q) (Fin k) ℝ), W *ᵥ x = ∑ j, x j • fun i => W i j := by
    intro q W
    funext i
    rw [Finset.sum_apply]
    simp only [Matrix.mulVec, dotProduct, Pi.smul_apply, smul_eq_mul]
    exact Finset.sum_congr rfl fun j _ => mul_comm _ _
  rw [hx n Q, hx k H, Matrix.mulVec_sum, Matrix.mulVec_sum]
  have hlast : x ⟨k - 1, by omega⟩ • r = ∑ j : Fin k, x j • (if (j : ℕ) + 1 = k then r else 0) := by
    rw [Finset.sum_eq_single (⟨k - 1, by omega⟩ : Fin k)]
    · rw [if_pos (by simp; omega)]
    · intro j _ hj
      rw [if_neg, smul_zero]
      intro h
      exact hj (Fin.ext (by simp; omega))
    · simp
  rw [hlast, ← Finset.sum_add_distrib]
  refine Finset.sum_congr rfl fun j _ => ?_
  rw [Matrix.mulVec_smul, Matrix.mulVec_smul, hrel j, smul_add]

/-- the relation for `arnoldi_lop` applied to a matrix -/
theorem krylov_step (A : LinOp n) (M : Mat n) (hA : IsMatrix A M) (dt : ℝ) (b : Vec n) (m iom : ℕ)
    (hk : 0 < (arnoldiLop A dt b m iom).k) (x : Vec (arnoldiLop A dt b m iom).k) :
    (dt • M) *ᵥ ((arnoldiLop A dt b m iom).Q *ᵥ x)
      = (arnoldiLop A dt b m iom).Q *ᵥ ((arnoldiLop A dt b m iom).H *ᵥ x)
        + x ⟨(arnoldiLop A dt b m iom).k - 1, by omega⟩ • arnRes A dt b m iom := by
  refine krylov_step_abs hk _ _ _ _ (fun j => ?_) x
  have := arn_relation A dt b m iom j
  rw [← this, Matrix.smul_mulVec, ← hA]
  rfl

theorem hess_support {k : ℕ} (H : Mat k) (hH : ∀ i j : Fin k, (j : ℕ) + 1 < i → H i j = 0) (j : ℕ) (i : Fin k)
    (hi : j < i) : (H ^ j *ᵥ firstUnit k) i = 0 := by
  induction j generalizing i with
  | zero =>
    rw [pow_zero, Matrix.one_mulVec]
    unfold firstUnit
    rw [if_neg (by omega)]
  | succ j ih =>
    rw [pow_succ', ← Matrix.mulVec_mulVec]
    show ∑ q, H i q * (H ^ j *ᵥ firstUnit k) q = 0
    refine Finset.sum_eq_zero fun q _ => ?_
    show H i q * (H ^ j *ᵥ firstUnit k) q = 0
    by_cases hq : j < q
    · rw [ih q hq, mul_zero]
    · rw [hH i q (by omega), zero_mul]

/-- **C65 (polynomial exactness).** With `k` Arnoldi iterations and any orthogonalisation depth, the Krylov approximation
reproduces `(dt A)^j v0` for every `j < k`. -/
theorem C65_polynomial (A : LinOp n) (M : Mat n) (hA : IsMatrix A M) (dt : ℝ) (v0 : Vec n) (hv : v0 ≠ 0) (m iom : ℕ)
    (hm : 1 ≤ m) :
    let R := arnoldiLop A dt (fun i => v0 i / norm2 v0) m iom
    ∀ j < R.k, (dt • M) ^ j *ᵥ v0 = norm2 v0 • (R.Q *ᵥ (R.H ^ j *ᵥ firstUnit R.k)) := by
  intro R j
  obtain ⟨hk, hstart⟩ := arn_start A dt v0 hv m iom hm
  have hH := (C26_arnoldi_relation A dt (fun i => v0 i / norm2 v0) m iom).2.1
  induction j with
  | zero =>
    intro _
    rw [pow_zero, pow_zero, Matrix.one_mulVec, Matrix.one_mulVec]
    exact hstart.symm
  | succ j ih =>
    intro hj
    rw [pow_succ', ← Matrix.mulVec_mulVec, ih (by omega), Matrix.mulVec_smul]
    have hs := krylov_step A M hA dt (fun i => v0 i / norm2 v0) m iom hk (R.H ^ j *ᵥ firstUnit R.k)
    have h0 : (R.H ^ j *ᵥ firstUnit R.k) ⟨R.k - 1, by omega⟩ = 0 := hess_support R.H hH j _ (by simp only; omega)
    have hs' : (dt • M) *ᵥ (R.Q *ᵥ (R.H ^ j *ᵥ firstUnit R.k)) = R.Q *ᵥ (R.H *ᵥ (R.H ^ j *ᵥ firstUnit R.k))
      + (R.H ^ j *ᵥ firstUnit R.k) ⟨R.k - 1, by omega⟩ • arnRes A dt (fun i => v0 i / norm2 v0) m iom := hs
    rw [h0, zero_smul, add_zero] at hs'
    rw [pow_succ', ← Matrix.mulVec_mulVec, hs']

theorem expSeries (ρ : ℝ) : HasSum (fun j : ℕ => ρ ^ j / (Nat.factorial j : ℝ)) (Real.exp ρ) := by
  rw [Real.exp_eq_exp_ℝ]
  exact NormedSpace.expSeries_div_hasSum_exp ρ

theorem norm2_firstUnit {k : ℕ} (hk : 0 < k) : norm2 (firstUnit k) = 1 := by
  unfold norm2 dotProduct firstUnit
  rw [Finset.sum_eq_single (⟨0, hk⟩ : Fin k)]
  · simp
  · intro i _ hi
    have : (i : ℕ) ≠ 0 := fun h => hi (Fin.ext h)
    simp [this]
  · simp

theorem pow_norm2 {k : ℕ} (H : Mat k) (ρ : ℝ) (hρ : 0 ≤ ρ) (h : ∀ x, norm2 (H *ᵥ x) ≤ ρ * norm2 x) (j : ℕ) (x : Vec k) :
    norm2 (H ^ j *ᵥ x) ≤ ρ ^ j * norm2 x := by
  induction j with
  | zero => simp
  | succ j ih =>
    rw [pow_succ', ← Matrix.mulVec_mulVec]
    calc norm2 (H *ᵥ (H ^ j *ᵥ x)) ≤ ρ * norm2 (H ^ j *ᵥ x) := h _
      _ ≤ ρ * (ρ ^ j * norm2 x) := mul_le_mul_of_nonneg_left ih hρ
      _ = ρ ^ (j + 1) * norm2 x := by ring

/-- the projected matrix is bounded by the operator -/
theorem proj_bound (A : LinOp n) (M : Mat n) (hA : IsMatrix A M) (dt ρ : ℝ)
    (hρM : ∀ x, norm2 ((dt • M) *ᵥ x) ≤ ρ * norm2 x) (b : Vec n) (m iom : ℕ) (hiom : min n m ≤ iom + 1)
    (x : Vec (arnoldiLop A dt b m iom).k) :
    norm2 ((arnoldiLop A dt b m iom).H *ᵥ x) ≤ ρ * norm2 x := by
  obtain ⟨hQ, _, hH⟩ := C27_full A dt b m iom hiom
  have hHm : (arnoldiLop A dt b m iom).H
      = (arnoldiLop A dt b m iom).Qᵀ * ((dt • M) * (arnoldiLop A dt b m iom).Q) := by
    ext i j
    have := hH i j
    rw [← this]
    unfold LinOp.call
    rw [hA, ← Matrix.smul_mulVec]
    rfl
  rw [hHm, ← Matrix.mulVec_mulVec, ← Matrix.mulVec_mulVec]
  refine (norm2_transpose hQ _).trans ((hρM _).trans ?_)
  rw [norm2_isometry hQ]

/-- the value returned by `phi_linop`, with the error of the dense kernel split off -/
theorem krylov_split (appl : DenseAppl) (A : LinOp n) (M : Mat n) (dt : ℝ) (v0 : Vec n) (hv : v0 ≠ 0) (l m iom : ℕ)
    (hm : 1 ≤ m) (hiom : min n m ≤ iom + 1) (ε : ℝ)
    (ha : let R := arnoldiLop A dt (fun i => v0 i / norm2 v0) m iom
      ∃ e, appl R.k R.H (firstUnit R.k) l = .ok e ∧ norm2 (e - phiM l R.H *ᵥ firstUnit R.k) ≤ ε) (err : ℝ)
    (h : let R := arnoldiLop A dt (fun i => v0 i / norm2 v0) m iom
      norm2 (phiM l (dt • M) *ᵥ (R.Q *ᵥ firstUnit R.k) - R.Q *ᵥ (phiM l R.H *ᵥ firstUnit R.k)) ≤ err) :
    ∃ w, phiLinop appl A dt v0 l m iom = .ok w ∧ norm2 (w - phiM l (dt • M) *ᵥ v0) ≤ norm2 v0 * (err + ε) := by
  obtain ⟨hk, hstart⟩ := arn_start A dt v0 hv m iom hm
  obtain ⟨hQ, _, _⟩ := C27_full A dt (fun i => v0 i / norm2 v0) m iom hiom
  rw [phiLinop_pos _ _ _ _ _ _ _ hv]
  unfold krylovFinish
  rw [if_pos hk]
  simp only at h ha
  generalize arnoldiLop A dt (fun i => v0 i / norm2 v0) m iom = R at *
  obtain ⟨e, he, heε⟩ := ha
  rw [he]
  refine ⟨_, rfl, ?_⟩
  have e1 : phiM l (dt • M) *ᵥ v0 = norm2 v0 • (phiM l (dt • M) *ᵥ (R.Q *ᵥ firstUnit R.k)) := by
    rw [← Matrix.mulVec_smul, hstart]
  rw [e1, ← smul_sub, norm2_smul, abs_of_nonneg (norm2_nonneg _)]
  refine mul_le_mul_of_nonneg_left ?_ (norm2_nonneg _)
  have e2 : R.Q *ᵥ e - phiM l (dt • M) *ᵥ (R.Q *ᵥ firstUnit R.k)
      = R.Q *ᵥ (e - phiM l R.H *ᵥ firstUnit R.k)
        - (phiM l (dt • M) *ᵥ (R.Q *ᵥ firstUnit R.k) - R.Q *ᵥ (phiM l R.H *ᵥ firstUnit R.k)) := by
    rw [Matrix.mulVec_sub]; abel
  rw [e2]
  refine (norm2_sub_le _ _).trans ?_
  rw [norm2_isometry hQ]
  linarith

/-- the kernel is only called on matrices of order at most `min n m` that are bounded by the operator -/
theorem small_kernel (appl : DenseAppl) (A : LinOp n) (M : Mat n) (hA : IsMatrix A M) (dt : ℝ) (v0 : Vec n) (hv : v0 ≠ 0) (l m iom : ℕ)
    (hm : 1 ≤ m) (hiom : min n m ≤ iom + 1) (ε ρ : ℝ) (hρM : ∀ x, norm2 ((dt • M) *ᵥ x) ≤ ρ * norm2 x)
    (ha : ∀ q (H : Mat q), q ≤ n → q ≤ m → (∀ x, norm2 (H *ᵥ x) ≤ ρ * norm2 x) →
      ∃ e, appl q H (firstUnit q) l = .ok e ∧ norm2 (e - phiM l H *ᵥ firstUnit q) ≤ ε) :
    let R := arnoldiLop A dt (fun i => v0 i / norm2 v0) m iom
    ∃ e, appl R.k R.H (firstUnit R.k) l = .ok e ∧ norm2 (e - phiM l R.H *ᵥ firstUnit R.k) ≤ ε := by
  intro R
  have hn : 0 < n := by
    rcases Nat.eq_zero_or_pos n with rfl | h
    · exact absurd (Subsingleton.elim v0 0) hv
    · exact h
  have hb : (fun i => v0 i / norm2 v0) ≠ 0 := by
    intro h
    have := norm2_normalized (norm2_pos hv).ne'
    rw [h, norm2_zero] at this
    exact zero_ne_one this
  have h2 : R.k ≤ min n m := ((C28_termination A dt (fun i => v0 i / norm2 v0) m iom (by omega)).2 hb).2.1
  exact ha R.k R.H (by omega) (by omega) (proj_bound A M hA dt ρ hρM _ m iom hiom)

/-- series of the difference -/
theorem krylov_diff_hasSum {q : ℕ} (Z : Mat n) (H : Mat q) (Q : Matrix (Fin n) (Fin q) ℝ) (x : Vec q) (l : ℕ) (i : Fin n) :
    HasSum (fun j : ℕ => ((Nat.factorial (j + l) : ℝ)⁻¹ • (Z ^ j *ᵥ (Q *ᵥ x) - Q *ᵥ (H ^ j *ᵥ x))) i)
      ((phiM l Z *ᵥ (Q *ᵥ x) - Q *ᵥ (phiM l H *ᵥ x)) i) := by
  have h1 := phi_mulVec_hasSum l Z (Q *ᵥ x) i
  have h2 := dot_hasSum (fun y => phi_mulVec_hasSum l H x y) (Q i)
  have h3 := h1.sub h2
  have e : (fun j : ℕ => ((Nat.factorial (j + l) : ℝ)⁻¹ • (Z ^ j *ᵥ (Q *ᵥ x) - Q *ᵥ (H ^ j *ᵥ x))) i)
      = fun j : ℕ => (Nat.factorial (j + l) : ℝ)⁻¹ * (Z ^ j *ᵥ (Q *ᵥ x)) i
        - Q i ⬝ᵥ (fun y => (Nat.factorial (j + l) : ℝ)⁻¹ * (H ^ j *ᵥ x) y) := by
    funext j
    have : Q i ⬝ᵥ (fun y => (Nat.factorial (j + l) : ℝ)⁻¹ * (H ^ j *ᵥ x) y)
        = (Nat.factorial (j + l) : ℝ)⁻¹ * (Q *ᵥ (H ^ j *ᵥ x)) i := by
      show Q i ⬝ᵥ ((Nat.factorial (j + l) : ℝ)⁻¹ • (H ^ j *ᵥ x)) = _
      rw [dotProduct_smul]
      rfl
    rw [this, Pi.smul_apply, Pi.sub_apply, smul_eq_mul, mul_sub]
  rw [e]
  exact h3

/-- **C65 (a-priori error bound).** With full orthogonalisation, `k` Arnoldi iterations, `|dt A x| ≤ ρ |x|` and a dense
kernel with error at most `ε`, `phi_linop` differs from `phi_l(dt A) v0` by at most
`|v0| (2 ρ^k e^ρ / (k+l)! + ε)` in the Euclidean norm. -/
theorem C65_error_bound (appl : DenseAppl) (A : LinOp n) (M : Mat n) (hA : IsMatrix A M) (dt : ℝ) (v0 : Vec n)
    (hv : v0 ≠ 0) (l m iom : ℕ) (hm : 1 ≤ m) (hiom : min n m ≤ iom + 1) (ε ρ : ℝ) (hρ : 0 ≤ ρ)
    (hρM : ∀ x, norm2 ((dt • M) *ᵥ x) ≤ ρ * norm2 x)
    (ha : ∀ q (H : Mat q), q ≤ n → q ≤ m → (∀ x, norm2 (H *ᵥ x) ≤ ρ * norm2 x) →
      ∃ e, appl q H (firstUnit q) l = .ok e ∧ norm2 (e - phiM l H *ᵥ firstUnit q) ≤ ε) :
    let k := (arnoldiLop A dt (fun i => v0 i / norm2 v0) m iom).k
    ∃ w, phiLinop appl A dt v0 l m iom = .ok w
      ∧ norm2 (w - phiM l (dt • M) *ᵥ v0) ≤ norm2 v0 * (2 * ρ ^ k * Real.exp ρ / (Nat.factorial (k + l) : ℝ) + ε) := by
  refine krylov_split appl A M dt v0 hv l m iom hm hiom ε (small_kernel appl A M hA dt v0 hv l m iom hm hiom ε ρ hρM ha) _ ?_
  obtain ⟨hk, hstart⟩ := arn_start A dt v0 hv m iom hm
  have hpoly := C65_polynomial A M hA dt v0 hv m iom hm
  obtain ⟨hQ, _, _⟩ := C27_full A dt (fun i => v0 i / norm2 v0) m iom hiom
  have hHb := proj_bound A M hA dt ρ hρM (fun i => v0 i / norm2 v0) m iom hiom
  simp only at hpoly ⊢
  generalize arnoldiLop A dt (fun i => v0 i / norm2 v0) m iom = R at *
  have hv0 := norm2_pos hv
  have hj : ∀ j < R.k, (dt • M) ^ j *ᵥ (R.Q *ᵥ firstUnit R.k) - R.Q *ᵥ (R.H ^ j *ᵥ firstUnit R.k) = 0 := by
    intro j hj
    have h := hpoly j hj
    rw [← hstart, Matrix.mulVec_smul, norm2_smul, abs_of_nonneg (norm2_nonneg _), norm2_isometry hQ,
      norm2_firstUnit hk, mul_one] at h
    exact sub_eq_zero.mpr (smul_right_injective _ hv0.ne' h)
  have hs : ∀ i, HasSum (fun j : ℕ => ((Nat.factorial (j + R.k + l) : ℝ)⁻¹ • ((dt • M) ^ (j + R.k) *ᵥ (R.Q *ᵥ firstUnit R.k)
      - R.Q *ᵥ (R.H ^ (j + R.k) *ᵥ firstUnit R.k))) i)
      ((phiM l (dt • M) *ᵥ (R.Q *ᵥ firstUnit R.k) - R.Q *ᵥ (phiM l R.H *ᵥ firstUnit R.k)) i) := by
    intro i
    have h := krylov_diff_hasSum (dt • M) R.H R.Q (firstUnit R.k) l i
    rw [← hasSum_nat_add_iff' R.k] at h
    rw [Finset.sum_eq_zero, sub_zero] at h
    · exact h
    · intro j hj'
      rw [hj j (Finset.mem_range.mp hj'), smul_zero]
      rfl
  have hg := (expSeries ρ).mul_left (2 * ρ ^ R.k / (Nat.factorial (R.k + l) : ℝ))
  refine (norm2_hasSum_le hs hg fun j => ?_).trans (le_of_eq (by ring))
  have hb : norm2 ((dt • M) ^ (j + R.k) *ᵥ (R.Q *ᵥ firstUnit R.k)
      - R.Q *ᵥ (R.H ^ (j + R.k) *ᵥ firstUnit R.k)) ≤ 2 * ρ ^ (j + R.k) := by
    refine (norm2_sub_le _ _).trans ?_
    rw [norm2_isometry hQ]
    have h1 := pow_norm2 (dt • M) ρ hρ hρM (j + R.k) (R.Q *ᵥ firstUnit R.k)
    have h2 := pow_norm2 R.H ρ hρ hHb (j + R.k) (firstUnit R.k)
    rw [norm2_isometry hQ, norm2_firstUnit hk] at h1
    rw [norm2_firstUnit hk] at h2
    linarith
  rw [norm2_smul, abs_of_nonneg (by positivity)]
  have hf : ((Nat.factorial (R.k + l) : ℝ)) * (Nat.factorial j : ℝ) ≤ (Nat.factorial (j + R.k + l) : ℝ) := by
    have h := Nat.le_of_dvd (Nat.factorial_pos _) (Nat.factorial_mul_factorial_dvd_factorial_add (R.k + l) j)
    rw [show R.k + l + j = j + R.k + l by ring] at h
    exact_mod_cast h
  calc (Nat.factorial (j + R.k + l) : ℝ)⁻¹ * _ ≤ (((Nat.factorial (R.k + l) : ℝ)) * (Nat.factorial j : ℝ))⁻¹ * (2 * ρ ^ (j + R.k)) :=
        mul_le_mul (inv_anti₀ (by positivity) hf) hb (norm2_nonneg _) (by positivity)
    _ = _ := by rw [pow_add]; field_simp

/-- **C65 (residual bound).** With full orthogonalisation the error is also at most `|v0| (|r| e^ρ + ε)`, `r` being the
residual of the last Arnoldi column. -/
theorem C65_residual_bound (appl : DenseAppl) (A : LinOp n) (M : Mat n) (hA : IsMatrix A M) (dt : ℝ) (v0 : Vec n)
    (hv : v0 ≠ 0) (l m iom : ℕ) (hm : 1 ≤ m) (hiom : min n m ≤ iom + 1) (ε ρ δ : ℝ) (hρ : 0 ≤ ρ)
    (hρM : ∀ x, norm2 ((dt • M) *ᵥ x) ≤ ρ * norm2 x)
    (ha : ∀ q (H : Mat q), q ≤ n → q ≤ m → (∀ x, norm2 (H *ᵥ x) ≤ ρ * norm2 x) →
      ∃ e, appl q H (firstUnit q) l = .ok e ∧ norm2 (e - phiM l H *ᵥ firstUnit q) ≤ ε)
    (hr : let R := arnoldiLop A dt (fun i => v0 i / norm2 v0) m iom
      ∀ (j : Fin R.k) (r : Vec n), (j : ℕ) + 1 = R.k →
        dt • A.call (fun i => R.Q i j) = (fun i => (R.Q * R.H) i j) + r → norm2 r ≤ δ) :
    ∃ w, phiLinop appl A dt v0 l m iom = .ok w
      ∧ norm2 (w - phiM l (dt • M) *ᵥ v0) ≤ norm2 v0 * (δ * Real.exp ρ + ε) := by
  refine krylov_split appl A M dt v0 hv l m iom hm hiom ε (small_kernel appl A M hA dt v0 hv l m iom hm hiom ε ρ hρM ha) _ ?_
  obtain ⟨hk, hstart⟩ := arn_start A dt v0 hv m iom hm
  obtain ⟨hQ, _, _⟩ := C27_full A dt (fun i => v0 i / norm2 v0) m iom hiom
  have hHb := proj_bound A M hA dt ρ hρM (fun i => v0 i / norm2 v0) m iom hiom
  have hstep : ∀ x, ∃ c : ℝ, |c| ≤ norm2 x ∧ (dt • M) *ᵥ ((arnoldiLop A dt (fun i => v0 i / norm2 v0) m iom).Q *ᵥ x)
      = (arnoldiLop A dt (fun i => v0 i / norm2 v0) m iom).Q *ᵥ ((arnoldiLop A dt (fun i => v0 i / norm2 v0) m iom).H *ᵥ x)
        + c • arnRes A dt (fun i => v0 i / norm2 v0) m iom := fun x =>
    ⟨_, abs_le_norm2 x _, krylov_step A M hA dt (fun i => v0 i / norm2 v0) m iom hk x⟩
  have hrel := arn_relation A dt (fun i => v0 i / norm2 v0) m iom
  have hres : norm2 (arnRes A dt (fun i => v0 i / norm2 v0) m iom) ≤ δ := by
    have hlt : (arnoldiLop A dt (fun i => v0 i / norm2 v0) m iom).k - 1
      < (arnoldiLop A dt (fun i => v0 i / norm2 v0) m iom).k := by omega
    have h1 : (((⟨_, hlt⟩ : Fin _) : ℕ)) + 1 = (arnoldiLop A dt (fun i => v0 i / norm2 v0) m iom).k := by
      simp only; omega
    refine hr ⟨_, hlt⟩ _ h1 ?_
    have := hrel ⟨_, hlt⟩
    rw [if_pos h1] at this
    exact this
  clear hr hrel
  generalize arnRes A dt (fun i => v0 i / norm2 v0) m iom = r at *
  simp only
  generalize arnoldiLop A dt (fun i => v0 i / norm2 v0) m iom = R at *
  have hδ : 0 ≤ δ := (norm2_nonneg _).trans hres
  have hd : ∀ j : ℕ, norm2 ((dt • M) ^ j *ᵥ (R.Q *ᵥ firstUnit R.k) - R.Q *ᵥ (R.H ^ j *ᵥ firstUnit R.k))
      ≤ j * ρ ^ (j - 1) * δ := by
    intro j
    induction j with
    | zero =>
      rw [pow_zero, pow_zero, Matrix.one_mulVec, Matrix.one_mulVec, sub_self, norm2_zero]
      simp
    | succ j ih =>
      obtain ⟨c, hc, hcs⟩ := hstep (R.H ^ j *ᵥ firstUnit R.k)
      have e : (dt • M) ^ (j + 1) *ᵥ (R.Q *ᵥ firstUnit R.k) - R.Q *ᵥ (R.H ^ (j + 1) *ᵥ firstUnit R.k)
          = (dt • M) *ᵥ ((dt • M) ^ j *ᵥ (R.Q *ᵥ firstUnit R.k) - R.Q *ᵥ (R.H ^ j *ᵥ firstUnit R.k))
            + c • r := by
        rw [Matrix.mulVec_sub, hcs, pow_succ', pow_succ', ← Matrix.mulVec_mulVec, ← Matrix.mulVec_mulVec]
        abel
      rw [e]
      refine (norm2_add_le _ _).trans ?_
      have h1 := (hρM ((dt • M) ^ j *ᵥ (R.Q *ᵥ firstUnit R.k) - R.Q *ᵥ (R.H ^ j *ᵥ firstUnit R.k))).trans
        (mul_le_mul_of_nonneg_left ih hρ)
      have h2 : norm2 (c • r) ≤ ρ ^ j * δ := by
        rw [norm2_smul]
        refine mul_le_mul ?_ hres (norm2_nonneg _) (by positivity)
        refine hc.trans ((pow_norm2 R.H ρ hρ hHb j _).trans ?_)
        rw [norm2_firstUnit hk, mul_one]
      refine (add_le_add h1 h2).trans (le_of_eq ?_)
      rcases j with _ | j
      · simp
      · rw [Nat.add_sub_cancel, Nat.add_sub_cancel]
        push_cast
        ring
  have hs : ∀ i, HasSum (fun j : ℕ => ((Nat.factorial (j + 1 + l) : ℝ)⁻¹ • ((dt • M) ^ (j + 1) *ᵥ (R.Q *ᵥ firstUnit R.k)
      - R.Q *ᵥ (R.H ^ (j + 1) *ᵥ firstUnit R.k))) i)
      ((phiM l (dt • M) *ᵥ (R.Q *ᵥ firstUnit R.k) - R.Q *ᵥ (phiM l R.H *ᵥ firstUnit R.k)) i) := by
    intro i
    have h := krylov_diff_hasSum (dt • M) R.H R.Q (firstUnit R.k) l i
    rw [← hasSum_nat_add_iff' 1] at h
    rw [Finset.sum_range_one, pow_zero, pow_zero, Matrix.one_mulVec, Matrix.one_mulVec, sub_self, smul_zero,
      Pi.zero_apply, sub_zero] at h
    exact h
  refine norm2_hasSum_le hs ((expSeries ρ).mul_left δ) fun j => ?_
  rw [norm2_smul, abs_of_nonneg (by positivity)]
  have hf : ((Nat.factorial (j + 1) : ℝ)) ≤ (Nat.factorial (j + 1 + l) : ℝ) := by
    exact_mod_cast Nat.factorial_le (by omega)
  calc (Nat.factorial (j + 1 + l) : ℝ)⁻¹ * _ ≤ (Nat.factorial (j + 1) : ℝ)⁻¹ * (((j + 1 : ℕ) : ℝ) * ρ ^ (j + 1 - 1) * δ) :=
        mul_le_mul (inv_anti₀ (by positivity) hf) (hd _) (norm2_nonneg _) (by positivity)
    _ = _ := by
      rw [Nat.add_sub_cancel, Nat.factorial_succ]
      push_cast
      field_simp

/-- **C65 (`max_krylov_dim ≥ n`).** If the Krylov dimension is not smaller than the system, the only error besides that of
the dense kernel comes from the breakdown tolerance `1e-12`. -/
theorem C65_full_dimension (appl : DenseAppl) (A : LinOp n) (M : Mat n) (hA : IsMatrix A M) (dt : ℝ) (v0 : Vec n)
    (hv : v0 ≠ 0) (l m iom : ℕ) (hm : n ≤ m) (hiom : n ≤ iom + 1) (ε ρ : ℝ) (hρ : 0 ≤ ρ)
    (hρM : ∀ x, norm2 ((dt • M) *ᵥ x) ≤ ρ * norm2 x)
    (ha : ∀ q (H : Mat q), q ≤ n → q ≤ m → (∀ x, norm2 (H *ᵥ x) ≤ ρ * norm2 x) →
      ∃ e, appl q H (firstUnit q) l = .ok e ∧ norm2 (e - phiM l H *ᵥ firstUnit q) ≤ ε) :
    ∃ w, phiLinop appl A dt v0 l m iom = .ok w
      ∧ norm2 (w - phiM l (dt • M) *ᵥ v0) ≤ norm2 v0 * (1e-12 * Real.exp ρ + ε) := by
  have hn : 0 < n := by
    rcases Nat.eq_zero_or_pos n with rfl | h
    · exact absurd (Subsingleton.elim v0 0) hv
    · exact h
  have hb : (fun i => v0 i / norm2 v0) ≠ 0 := by
    intro h
    have := norm2_normalized (norm2_pos hv).ne'
    rw [h, norm2_zero] at this
    exact zero_ne_one this
  refine C65_residual_bound appl A M hA dt v0 hv l m iom (by omega) (by omega) ε ρ _ hρ hρM ha ?_
  obtain ⟨h1, h2, _, h4⟩ := (C28_termination A dt (fun i => v0 i / norm2 v0) m iom (by omega)).2 hb
  obtain ⟨hQ, _, hH⟩ := C27_full A dt (fun i => v0 i / norm2 v0) m iom (by omega)
  intro R j r hj hr
  by_cases hlt : R.k < min n m
  · exact h4 j r hj hr hlt
  · have hk : R.k = n := by
      have : R.k ≤ min n m := h2
      omega
    have : r = 0 := by
      refine fullspace_res R.Q hk hQ r fun i => ?_
      have h5 := hH i j
      have hr' : dt • A.call (fun x => (arnoldiLop A dt (fun i => v0 i / norm2 v0) m iom).Q x j)
        = (fun i => (R.Q * R.H) i j) + r := hr
      rw [hr', dotProduct_add] at h5
      have h6 : (fun x => R.Q x i) ⬝ᵥ (fun x => (R.Q * R.H) x j) = R.H i j := by
        have : (R.Qᵀ * (R.Q * R.H)) i j = R.H i j := by
          have hQ' : R.Qᵀ * R.Q = 1 := hQ
          rw [← Matrix.mul_assoc, hQ', Matrix.one_mul]
        rw [← this]
        rfl
      have h7 : (fun x => R.Q x i) ⬝ᵥ r = 0 := by
        have h5' : (fun x => R.Q x i) ⬝ᵥ (fun x => (R.Q * R.H) x j) + (fun x => R.Q x i) ⬝ᵥ r = R.H i j := h5
        linarith
      rw [dotProduct_comm]
      exact h7
    rw [this, norm2_zero]
    norm_num

/-- The hypotheses of the bounds are met: a plane rotation generator, dimension 2, an exact dense kernel. -/
example : ∃ w, phiLinop (fun _ H b k => .ok (phiM k H *ᵥ b)) (LinOp.mk (fun v => !![0, 1; -1, 0] *ᵥ v) (.ok !![0, 1; -1, 0]))
      2 ![3, 4] 1 2 2 = .ok w
    ∧ norm2 (w - phiM 1 ((2 : ℝ) • (!![0, 1; -1, 0] : Mat 2)) *ᵥ ![3, 4]) ≤ norm2 ![3, 4] * (1e-12 * Real.exp 2 + 0) := by
  refine C65_full_dimension _ _ !![0, 1; -1, 0] (fun v => rfl) 2 ![3, 4] ?_ 1 2 2 (by norm_num) (by norm_num) 0 2 (by norm_num)
    ?_ ?_
  · intro h
    have := congrFun h 0
    norm_num at this
  · intro x
    rw [Matrix.smul_mulVec, norm2_smul]
    refine le_of_eq ?_
    rw [abs_of_pos (by norm_num)]
    congr 1
    unfold norm2
    congr 1
    simp [dotProduct, Fin.sum_univ_two, Matrix.mulVec]
    ring
  · intro q H _ _ _
    exact ⟨_, rfl, by rw [sub_self, norm2_zero]⟩

/-! ### totality of the package's kernels -/

theorem sqIter_length {N : ℕ} (k s : ℕ) (l : List (Mat N)) : ((sqStep k)^[s] l).length = l.length := by
  induction s generalizing l with
  | zero => rfl
  | succ s ih => rw [Function.iterate_succ_apply, ih, sqStep_length]

theorem applCode_total (expm : ∀ m, Mat m → Mat m) (m : ℕ) (H : Mat m) (b : Vec m) (k : ℕ) : Tot (applCode expm m H b k) := by
  unfold applCode fPhiKApplCode fPhiKAppl
  cases k with
  | zero => exact ⟨_, rfl⟩
  | succ k =>
    obtain ⟨P, hP⟩ := (C25_sq_orders (applExtMat H (Matrix.of fun i (_ : Fin 1) => b i) (k + 1)) 0).1 (by omega)
    simp only [hP]
    exact ⟨_, rfl⟩

theorem phiLinop_total (expm : ∀ m, Mat m → Mat m) (A : LinOp n) (dt : ℝ) (v : Vec n) (k maxDim iom : ℕ) (hm : 1 ≤ maxDim) :
    Tot (phiLinop (applCode expm) A dt v k maxDim iom) := by
  by_cases hv : v = 0
  · subst hv
    exact ⟨_, phiLinop_zero _ _ _ _ _ _⟩
  · obtain ⟨hk, _⟩ := arn_start A dt v hv maxDim iom hm
    rw [phiLinop_pos _ _ _ _ _ _ _ hv]
    unfold krylovFinish
    rw [if_pos hk]
    exact (applCode_total expm _ _ _ _).bind fun _ _ => Tot.pure

/-- With `max_krylov_dim ≥ 1` the kernels of the package always return. -/
theorem realKernels_total (n : ℕ) (expm : ∀ m, Mat m → Mat m) (tab : Pfd) (rs : Mat n → ℝ → Vec n → ℕ → Vec n)
    (maxDim iom : ℕ) (hm : 1 ≤ maxDim) : TotalKernels (realKernels n expm tab rs maxDim iom) where
  phiLinop A dt v k := phiLinop_total expm A dt v k maxDim iom hm
  kiops A dt b hb := by
    show Tot (kiopsFixedsteps (applCode expm) A dt b maxDim iom 1)
    unfold kiopsFixedsteps kiopsWith
    simp only
    rw [if_neg (by rintro rfl; simp at hb)]
    refine Tot.ite ?_ Tot.ok
    rw [if_neg (by omega)]
    refine Tot.bind ?_ fun a _ => Tot.bind (phiLinop_total expm _ _ _ _ _ _ hm) fun _ _ => Tot.pure
    unfold augMatrixLinOp
    rw [dif_pos ⟨rfl, rfl⟩]
    exact Tot.ok
  phiSqAll z k hk := by
    show ∃ l, fPhiKSqAll z k = .ok l ∧ _
    obtain ⟨P, hP⟩ := (C25_sq_orders z k).1 hk
    unfold fPhiKSq at hP
    cases hl : fPhiKSqAll z k with
    | error e => rw [hl] at hP; cases hP
    | ok l =>
      refine ⟨l, rfl, ?_⟩
      unfold fPhiKSqAll fPhiKPolyAll at hl
      have h4 : k + 1 ≤ 4 := by omega
      simp only [h4, if_true, bind, Except.bind, pure, Except.pure, Except.ok.injEq] at hl
      rw [← hl, sqIter_length]
      simp
  phiPfd z b k := ⟨_, rfl⟩

/-- **C10 with the package's kernels.** For `max_krylov_dim ≥ 1` every advertised Rosenbrock and splitting method runs with
any combination of callbacks, with the Krylov, squaring and partial fraction kernels of the package. -/
theorem C10_real_kernels {P : Type} [EmptyCollection P] {Q W : Type} (hasRust : Bool) (expm : ∀ m, Mat m → Mat m) (tab : Pfd)
    (rs : Mat n → ℝ → Vec n → ℕ → Vec n) (maxDim iom : ℕ) (hm : 1 ≤ maxDim) (sys : OdeSys n P)
    (hJ : ∀ kw t y, Tot (sys.fjac kw t y).dense) (hL : ∀ t y, Tot (sys.fl t y).dense) (t0 : ℝ) (y0 : Vec n) (m : String)
    (tol dt : ℝ) (nsteps : ℕ) (before : Option (W → ℝ → Vec n → P × W)) (after : Option (W → ℝ → Vec n → Q × W)) (w : W) :
    (∀ s, ExpRB.new hasRust t0 y0 m tol = .ok s →
      ∃ l, integrateOrmatex (rbStepper hasRust (realKernels n expm tab rs maxDim iom) sys) s y0 t0 dt nsteps before after w
        = .ok l) ∧
    (∀ s, ExpSplit.new t0 y0 m = .ok s →
      ∃ l, integrateOrmatex (splitStepper (realKernels n expm tab rs maxDim iom) sys) s y0 t0 dt nsteps before after w
        = .ok l) :=
  C10_callbacks_partial hasRust _ (realKernels_total n expm tab rs maxDim iom hm) sys hJ hL t0 y0 m tol dt nsteps before after w

end
end Ormatex.Props
