import Verif.Props.RsKiopsSmall
import Verif.Props.RsCram
import Verif.Props.PfdAcc
import Verif.Props.LejaConvStep
import Mathlib.Analysis.Calculus.Deriv.Shift
import Mathlib.Analysis.Calculus.MeanValue

/-!
C123.  For symmetric operators the incomplete orthogonalisation of the two Arnoldi iterations is complete (the Lanczos process), and
the Krylov products built from them are accurate however stiff the operator is.
-/

namespace Ormatex.Props
open Matrix Ormatex.Spec Ormatex.Rs
open scoped Matrix.Norms.Operator

section
variable {n : ℕ}

/-! ### Full orthogonality from incomplete orthogonalisation -/

theorem dot_mulVec_symm {Z : Mat n} (hZ : Zᵀ = Z) (x y : Vec n) : x ⬝ᵥ (Z *ᵥ y) = (Z *ᵥ x) ⬝ᵥ y := by
  rw [Matrix.dotProduct_mulVec, ← Matrix.mulVec_transpose, hZ]

/-- inner product of a vector with `Q h` -/
theorem dot_combo {k : ℕ} (Q : Matrix (Fin n) (Fin k) ℝ) (h : Vec k) (x : Vec n) :
    x ⬝ᵥ (Q *ᵥ h) = ∑ l, h l * (x ⬝ᵥ fun i => Q i l) := by
  simp only [dotProduct, Matrix.mulVec, Finset.mul_sum]
  rw [Finset.sum_comm]
  refine Finset.sum_congr rfl fun l _ => Finset.sum_congr rfl fun i _ => ?_
  ring

variable {Z : Mat n} {iom k : ℕ} {Q : Matrix (Fin n) (Fin k) ℝ} {H : Mat k} {r : Vec n}

/-- one coefficient of the three-term recurrence: if the earlier columns are orthogonal, the new direction has no component along a
column that was not orthogonalised against -/
theorem lanczos_coeff (hZ : Zᵀ = Z) (hiom : 1 ≤ iom) (D : Decomp Z iom k Q H r) (i j : Fin k) (hij : (i : ℕ) + iom < j)
    (hprev : ∀ a b : Fin k, (a : ℕ) < b → (b : ℕ) ≤ j → (fun x => Q x a) ⬝ᵥ (fun x => Q x b) = 0) :
    (fun x => Q x i) ⬝ᵥ (Z *ᵥ fun x => Q x j) = 0 := by
  have hlast : ¬ ((i : ℕ) + 1 = k) := by have := j.2; omega
  rw [dot_mulVec_symm hZ, D.rel i, if_neg hlast, add_zero, dotProduct_comm, dot_combo]
  refine Finset.sum_eq_zero fun l _ => ?_
  by_cases hl : (i : ℕ) + 1 < l
  · rw [D.hess l i hl, zero_mul]
  · rw [dotProduct_comm, hprev l j (by omega) le_rfl, mul_zero]

theorem lanczos_orth (hZ : Zᵀ = Z) (hiom : 1 ≤ iom) (D : Decomp Z iom k Q H r)
    (horth : ∀ i j : Fin k, (i : ℕ) < j → (j : ℕ) ≤ i + (iom + 1) → (fun x => Q x i) ⬝ᵥ (fun x => Q x j) = 0)
    (hsub : ∀ i j : Fin k, (i : ℕ) = j + 1 → H i j ≠ 0) :
    ∀ (b : ℕ) (i j : Fin k), (j : ℕ) ≤ b → (i : ℕ) < j → (fun x => Q x i) ⬝ᵥ (fun x => Q x j) = 0 := by
  intro b
  induction b with
  | zero => intro i j hj hij; omega
  | succ b ih =>
    intro i j hj hij
    by_cases hnear : (j : ℕ) ≤ i + (iom + 1)
    · exact horth i j hij hnear
    have hj0 : (j : ℕ) - 1 < k := by have := j.2; omega
    have hrel := D.rel ⟨(j : ℕ) - 1, hj0⟩
    rw [if_neg (by have := j.2; simp only; omega), add_zero] at hrel
    have h0 := lanczos_coeff hZ hiom D i ⟨(j : ℕ) - 1, hj0⟩ (by simp only; omega)
      (fun a c hac hc => ih a c (by simp only at hc; omega) hac)
    rw [hrel, dot_combo, Finset.sum_eq_single j] at h0
    · exact (mul_eq_zero.mp h0).resolve_left (hsub j ⟨(j : ℕ) - 1, hj0⟩ (by simp only; omega))
    · intro l _ hlj
      by_cases hl : (j : ℕ) < l
      · rw [D.hess l ⟨(j : ℕ) - 1, hj0⟩ (by simp only; omega), zero_mul]
      · have hlt : (l : ℕ) < j := lt_of_le_of_ne (by omega) (fun h => hlj (Fin.ext h))
        rcases lt_trichotomy (l : ℕ) i with h | h | h
        · rw [dotProduct_comm, ih l i (by omega) h, mul_zero]
        · have e : l = i := Fin.ext h
          subst e
          rw [D.band l ⟨(j : ℕ) - 1, hj0⟩ (by simp only; omega), zero_mul]
        · rw [ih i l (by omega) h, mul_zero]
    · intro h; exact absurd (Finset.mem_univ _) h

/-- **Lanczos.** With at least one orthogonalisation against the column before, the iteration on a symmetric operator leaves an
orthonormal basis, its matrix is the tridiagonal projection, and the residual is orthogonal to everything. -/
theorem lanczos_full (hZ : Zᵀ = Z) (hiom : 1 ≤ iom) (D : Decomp Z iom k Q H r)
    (horth : ∀ i j : Fin k, (i : ℕ) < j → (j : ℕ) ≤ i + (iom + 1) → (fun x => Q x i) ⬝ᵥ (fun x => Q x j) = 0)
    (hsub : ∀ i j : Fin k, (i : ℕ) = j + 1 → H i j ≠ 0)
    (hro : ∀ i : Fin k, k ≤ i + iom + 1 → r ⬝ᵥ (fun x => Q x i) = 0) :
    Qᵀ * Q = 1 ∧ Qᵀ *ᵥ r = 0 ∧ H = Qᵀ * Z * Q ∧ Hᵀ = H ∧ (∀ i j : Fin k, (i : ℕ) + 1 < j → H i j = 0) ∧ (k = n → r = 0) := by
  have ho : ∀ i j : Fin k, i ≠ j → (fun x => Q x i) ⬝ᵥ (fun x => Q x j) = 0 := by
    intro i j hij
    rcases lt_or_gt_of_ne (fun h => hij (Fin.ext h) : (i : ℕ) ≠ j) with h | h
    · exact lanczos_orth hZ hiom D horth hsub j i j le_rfl h
    · rw [dotProduct_comm]
      exact lanczos_orth hZ hiom D horth hsub i j i le_rfl h
  have h1 : Qᵀ * Q = 1 := by
    ext i j
    show (fun x => Q x i) ⬝ᵥ (fun x => Q x j) = _
    by_cases hij : i = j
    · subst hij
      rw [Matrix.one_apply_eq, ← norm2_sq, D.unit i, one_mul]
    · rw [Matrix.one_apply_ne hij, ho i j hij]
  have hlastlt : k - 1 < k := by have := D.pos; omega
  have h2 : Qᵀ *ᵥ r = 0 := by
    funext i
    show (fun x => Q x i) ⬝ᵥ r = 0
    by_cases hi : k ≤ i + iom + 1
    · rw [dotProduct_comm]; exact hro i hi
    · have hrel := D.rel ⟨k - 1, hlastlt⟩
      rw [if_pos (by simp only; omega)] at hrel
      have h0 := lanczos_coeff hZ hiom D i ⟨k - 1, hlastlt⟩ (by simp only; omega) (fun a c hac _ => ho a c (fun h => by subst h; omega))
      rw [hrel, dotProduct_add, dot_combo, Finset.sum_eq_zero, zero_add] at h0
      · exact h0
      · intro l _
        by_cases hl : l = i
        · subst hl
          rw [D.band l ⟨k - 1, hlastlt⟩ (by simp only; omega), zero_mul]
        · rw [ho i l (Ne.symm hl), mul_zero]
  have h3 : H = Qᵀ * Z * Q := by
    rw [Matrix.mul_assoc]
    ext i j
    have e : (Qᵀ * (Z * Q)) i j = (Qᵀ *ᵥ (Z *ᵥ fun x => Q x j)) i := rfl
    rw [e, D.rel j, Matrix.mulVec_add, Matrix.mulVec_mulVec, h1, Matrix.one_mulVec]
    split_ifs
    · rw [h2, add_zero]
    · rw [Matrix.mulVec_zero, add_zero]
  have h4 : Hᵀ = H := by
    conv_lhs => rw [h3]
    rw [Matrix.transpose_mul, Matrix.transpose_mul, Matrix.transpose_transpose, hZ, ← Matrix.mul_assoc, ← h3]
  refine ⟨h1, h2, h3, h4, fun i j hij => ?_, fun hk => ?_⟩
  · rw [← h4, Matrix.transpose_apply]; exact D.hess j i hij
  · subst hk
    have : Q * Qᵀ = 1 := mul_eq_one_comm.mp h1
    calc r = (Q * Qᵀ) *ᵥ r := by rw [this, Matrix.one_mulVec]
      _ = Q *ᵥ (Qᵀ *ᵥ r) := (Matrix.mulVec_mulVec _ _ _).symm
      _ = 0 := by rw [h2, Matrix.mulVec_zero]

/-! ### Perturbation without stiffness -/

/-- the exponential of a symmetric negative semidefinite matrix does not increase the Euclidean norm -/
theorem exp_contract {S : Mat n} (hS : Sᵀ = S) (hneg : ∀ v : Vec n, v ⬝ᵥ (S *ᵥ v) ≤ 0) (x : Vec n) :
    norm2 (phiM 0 S *ᵥ x) ≤ norm2 x := by
  obtain ⟨U, d, hU, hd, hneg'⟩ := symm_nonpos S hS hneg
  rw [hd, Cert.phiM_diag U Uᵀ d hU 0, ← Matrix.mulVec_mulVec, ← Matrix.mulVec_mulVec, norm2_isometry hU]
  have hU' : Uᵀᵀ * Uᵀ = 1 := by rw [Matrix.transpose_transpose]; exact mul_eq_one_comm.mp hU
  rw [← norm2_isometry hU' x, ← one_mul (norm2 (Uᵀ *ᵥ x))]
  refine norm2_le_of_abs_le _ _ _ zero_le_one fun i => ?_
  rw [Matrix.mulVec_diagonal, abs_mul]
  refine mul_le_mul_of_nonneg_right ?_ (abs_nonneg _)
  rw [phi_zero, ← Real.exp_eq_exp_ℝ, abs_of_pos (Real.exp_pos _)]
  exact Real.exp_le_one_iff.mpr (hneg' i)

/-- mean value inequality for the Euclidean norm -/
theorem norm2_mean_value {D D' : ℝ → Vec n} {C : ℝ} (hD : ∀ s, HasDerivAt D (D' s) s)
    (hC : ∀ s, 0 ≤ s → s ≤ 1 → norm2 (D' s) ≤ C) : norm2 (D 1 - D 0) ≤ C := by
  set u := D 1 - D 0 with hu
  rcases (norm2_nonneg u).lt_or_eq with hp | h0
  · have hd : ∀ s, HasDerivAt (fun s => u ⬝ᵥ D s) (u ⬝ᵥ D' s) s := by
      intro s
      have h := hasDerivAt_pi.mp (hD s)
      have := HasDerivAt.sum (u := Finset.univ) (A := fun j s => u j * D s j) (A' := fun j => u j * D' s j) (x := s)
        (fun j _ => (h j).const_mul (u j))
      have e : (fun s => u ⬝ᵥ D s) = ∑ j, fun s => u j * D s j := by
        funext s; simp [dotProduct]
      rw [e]
      exact this
    have hb : ∀ s ∈ Set.Icc (0 : ℝ) 1, ‖u ⬝ᵥ D' s‖ ≤ norm2 u * C := by
      intro s hs
      rw [Real.norm_eq_abs]
      exact (abs_dot_le_norm2 _ _).trans (mul_le_mul_of_nonneg_left (hC s hs.1 hs.2) hp.le)
    have := (convex_Icc (0 : ℝ) 1).norm_image_sub_le_of_norm_hasDerivWithin_le (fun s _ => (hd s).hasDerivWithinAt) hb
      (Set.left_mem_Icc.mpr zero_le_one) (Set.right_mem_Icc.mpr zero_le_one)
    rw [← dotProduct_sub, ← hu, sub_zero, norm_one, mul_one, Real.norm_eq_abs, ← norm2_sq, abs_of_pos (mul_pos hp hp)] at this
    exact le_of_mul_le_mul_left this hp
  · rw [← h0]
    exact (norm2_nonneg _).trans (hC 0 le_rfl zero_le_one)

theorem hasDerivAt_rect {n k : ℕ} (Q : Matrix (Fin n) (Fin k) ℝ) {w : ℝ → Vec k} {w' : Vec k} {s : ℝ} (hw : HasDerivAt w w' s) :
    HasDerivAt (fun s => Q *ᵥ w s) (Q *ᵥ w') s :=
  (LinearMap.toContinuousLinearMap (Matrix.mulVecLin Q)).hasFDerivAt.comp_hasDerivAt s hw

/-- **Residual to error, however stiff.** If `Z` and `H` are symmetric negative semidefinite and `Z Q - Q H` is small, so is
`phi_l(Z) Q - Q phi_l(H)`, for every phi order and with constant one. -/
theorem phi_residual {n k : ℕ} (Q : Matrix (Fin n) (Fin k) ℝ) (l : ℕ) : ∀ (Z : Mat n) (H : Mat k), Zᵀ = Z → (∀ v, v ⬝ᵥ (Z *ᵥ v) ≤ 0) →
    Hᵀ = H → (∀ v, v ⬝ᵥ (H *ᵥ v) ≤ 0) → ∀ (δ : ℝ), 0 ≤ δ → (∀ y, norm2 (Z *ᵥ (Q *ᵥ y) - Q *ᵥ (H *ᵥ y)) ≤ δ * norm2 y) → ∀ x,
    norm2 (phiM l Z *ᵥ (Q *ᵥ x) - Q *ᵥ (phiM l H *ᵥ x)) ≤ δ * norm2 x := by
  have hsc : ∀ {m : ℕ} {A : Mat m} {s : ℝ}, 0 ≤ s → (∀ v, v ⬝ᵥ (A *ᵥ v) ≤ 0) → ∀ v, v ⬝ᵥ ((s • A) *ᵥ v) ≤ 0 := by
    intro m A s hs h v
    rw [Matrix.smul_mulVec, dotProduct_smul]
    exact mul_nonpos_of_nonneg_of_nonpos hs (h v)
  have hsy : ∀ {m : ℕ} {A : Mat m} (s : ℝ), Aᵀ = A → (s • A)ᵀ = s • A := by
    intro m A s h
    rw [Matrix.transpose_smul, h]
  induction l with
  | zero =>
    intro Z H hZ hZn hH hHn δ hδ hr x
    have hd : ∀ s, HasDerivAt (fun s : ℝ => phiM 0 ((1 - s) • Z) *ᵥ (Q *ᵥ (phiM 0 (s • H) *ᵥ x)))
        (-(Z * phiM 0 ((1 - s) • Z)) *ᵥ (Q *ᵥ (phiM 0 (s • H) *ᵥ x)) + phiM 0 ((1 - s) • Z) *ᵥ (Q *ᵥ ((H * phiM 0 (s • H)) *ᵥ x))) s := by
      intro s
      exact hasDerivAt_mulVec (HasDerivAt.comp_const_sub 1 s (hasDerivAt_phiM_zero Z (1 - s)))
        (hasDerivAt_rect Q (hasDerivAt_mulVec_const (hasDerivAt_phiM_zero H s) x))
    have := norm2_mean_value hd (C := δ * norm2 x) (fun s hs0 hs1 => by
      have e : -(Z * phiM 0 ((1 - s) • Z)) *ᵥ (Q *ᵥ (phiM 0 (s • H) *ᵥ x)) + phiM 0 ((1 - s) • Z) *ᵥ (Q *ᵥ ((H * phiM 0 (s • H)) *ᵥ x))
          = -(phiM 0 ((1 - s) • Z) *ᵥ (Z *ᵥ (Q *ᵥ (phiM 0 (s • H) *ᵥ x)) - Q *ᵥ (H *ᵥ (phiM 0 (s • H) *ᵥ x)))) := by
        rw [phiM_commute 0 ((1 - s) • Z) Z (by rw [Matrix.mul_smul, Matrix.smul_mul]), Matrix.neg_mulVec, ← Matrix.mulVec_mulVec,
          ← Matrix.mulVec_mulVec, Matrix.mulVec_sub]
        abel
      rw [e, norm2_neg]
      refine (exp_contract (hsy _ hZ) (hsc (by linarith) hZn) _).trans ((hr _).trans ?_)
      exact mul_le_mul_of_nonneg_left (exp_contract (hsy _ hH) (hsc hs0 hHn) x) hδ)
    simp only [sub_self, zero_smul, one_smul, sub_zero] at this
    have e0 : ∀ m, phiM 0 (0 : Mat m) = 1 := fun m => by rw [phiM_at_zero]; simp
    rw [e0, e0, Matrix.one_mulVec, Matrix.one_mulVec, ← norm2_neg, neg_sub] at this
    exact this
  | succ l ih =>
    intro Z H hZ hZn hH hHn δ hδ hr x
    have hd : ∀ s, HasDerivAt (fun s : ℝ => (s ^ (l + 1) • phiM (l + 1) (s • Z)) *ᵥ (Q *ᵥ x) - Q *ᵥ ((s ^ (l + 1) • phiM (l + 1) (s • H)) *ᵥ x))
        ((s ^ l • phiM l (s • Z)) *ᵥ (Q *ᵥ x) - Q *ᵥ ((s ^ l • phiM l (s • H)) *ᵥ x)) s := by
      intro s
      exact (hasDerivAt_mulVec_const (hasDerivAt_phiM_succ l Z s) _).sub
        (hasDerivAt_rect Q (hasDerivAt_mulVec_const (hasDerivAt_phiM_succ l H s) x))
    have := norm2_mean_value hd (C := δ * norm2 x) (fun s hs0 hs1 => by
      rw [Matrix.smul_mulVec, Matrix.smul_mulVec, Matrix.mulVec_smul, ← smul_sub, norm2_smul, abs_of_nonneg (pow_nonneg hs0 _)]
      have h1 := ih (s • Z) (s • H) (hsy _ hZ) (hsc hs0 hZn) (hsy _ hH) (hsc hs0 hHn) δ hδ (fun y => by
        rw [Matrix.smul_mulVec, Matrix.smul_mulVec, Matrix.mulVec_smul, ← smul_sub, norm2_smul, abs_of_nonneg hs0]
        exact (mul_le_of_le_one_left (norm2_nonneg _) hs1).trans (hr y)) x
      exact (mul_le_of_le_one_left (norm2_nonneg _) (pow_le_one₀ hs0 hs1)).trans h1)
    simpa using this

theorem projected_nonpos {Z : Mat n} {k : ℕ} {Q : Matrix (Fin n) (Fin k) ℝ} {H : Mat k} (hH : H = Qᵀ * Z * Q) (hZn : ∀ v, v ⬝ᵥ (Z *ᵥ v) ≤ 0)
    (v : Vec k) : v ⬝ᵥ (H *ᵥ v) ≤ 0 := by
  have e : v ⬝ᵥ (H *ᵥ v) = (Q *ᵥ v) ⬝ᵥ (Z *ᵥ (Q *ᵥ v)) := by
    rw [hH, Matrix.mul_assoc, ← Matrix.mulVec_mulVec, ← Matrix.mulVec_mulVec, Matrix.dotProduct_mulVec, Matrix.vecMul_transpose]
  rw [e]
  exact hZn _

/-- the same for a decomposition with orthonormal columns -/
theorem Decomp.stiff (D : Decomp Z iom k Q H r) (hZ : Zᵀ = Z) (hZn : ∀ v, v ⬝ᵥ (Z *ᵥ v) ≤ 0) (hH : H = Qᵀ * Z * Q) (l : ℕ)
    (x : Vec k) : norm2 (phiM l Z *ᵥ (Q *ᵥ x) - Q *ᵥ (phiM l H *ᵥ x)) ≤ norm2 r * norm2 x := by
  have hHs : Hᵀ = H := by
    conv_lhs => rw [hH]
    rw [Matrix.transpose_mul, Matrix.transpose_mul, Matrix.transpose_transpose, hZ, ← Matrix.mul_assoc, ← hH]
  have hHn := projected_nonpos hH hZn
  refine phi_residual Q l Z H hZ hZn hHs hHn (norm2 r) (norm2_nonneg _) (fun y => ?_) x
  rw [krylov_step_abs D.pos Z Q H r D.rel y, add_sub_cancel_left, norm2_smul, mul_comm]
  exact mul_le_mul_of_nonneg_left (abs_le_norm2 y _) (norm2_nonneg _)

/-! ### C123 -/

/-- **C123 (the crate).** For a symmetric operator, any nonzero start vector and dimension, and any orthogonalisation depth of at least one,
`arnoldi_rs` returns an orthonormal basis and its Hessenberg matrix is the projection of the operator: symmetric, tridiagonal, and negative
semidefinite if the operator is.  When it stops early the residual is below `1e-12`, when the basis fills the space there is none. -/
theorem C123_lanczos (A : LinOp n) (M : Mat n) (hA : IsMatrix A M) (hM : Mᵀ = M) (scale : ℝ) (b : Vec n) (hb : b ≠ 0) (m iom : ℕ)
    (hm : 0 < m) (hiom : 1 ≤ iom) : ∃ (R : ArnResult n) (r : Vec n), arnoldiRs A scale b m iom = .ok R ∧ 0 < R.k ∧ R.k ≤ min n m
      ∧ R.Qᵀ * R.Q = 1 ∧ norm2 b • (R.Q *ᵥ firstUnit R.k) = b
      ∧ R.H = R.Qᵀ * (scale • M) * R.Q ∧ R.Hᵀ = R.H ∧ (∀ i j : Fin R.k, (i : ℕ) + 1 < j ∨ (j : ℕ) + 1 < i → R.H i j = 0)
      ∧ ((∀ v, v ⬝ᵥ ((scale • M) *ᵥ v) ≤ 0) → ∀ v, v ⬝ᵥ (R.H *ᵥ v) ≤ 0)
      ∧ (∀ x : Vec R.k, (scale • M) *ᵥ (R.Q *ᵥ x) = R.Q *ᵥ (R.H *ᵥ x) + (∑ j : Fin R.k, if (j : ℕ) + 1 = R.k then x j else 0) • r)
      ∧ R.Qᵀ *ᵥ r = 0 ∧ (R.k < min n m → norm2 r < 1e-12) ∧ (R.k = n → r = 0)
      ∧ Decomp (scale • M) iom R.k R.Q R.H r := by
  obtain ⟨R, r, hR, hk, D, hst, hres, horth, hsub, -⟩ := C107_arnoldi A M hA scale b hb m iom hm
  have hZ : (scale • M)ᵀ = scale • M := by rw [Matrix.transpose_smul, hM]
  have hro := rs_arnoldi_resOrth A M hA scale b hb m iom hm hR D
  obtain ⟨h1, h2, h3, h4, h5, h6⟩ := lanczos_full hZ hiom D horth
    (fun i j hij h0 => by have := hsub i j hij; rw [h0, abs_zero] at this; norm_num at this) hro
  refine ⟨R, r, hR, D.pos, hk, h1, hst, h3, h4, fun i j hij => ?_, fun hn v => ?_, fun x => ?_, h2, hres, h6, D⟩
  · rcases hij with h | h
    · exact h5 i j h
    · exact D.hess i j h
  · exact projected_nonpos h3 hn v
  · rw [krylov_step_abs D.pos _ R.Q R.H r D.rel x]
    congr 2
    have hp := D.pos
    rw [Finset.sum_eq_single ⟨R.k - 1, by omega⟩]
    · rw [if_pos (by simp only; omega)]
    · intro j _ hj
      rw [if_neg]
      intro h
      exact hj (Fin.ext (by simp only; omega))
    · intro h; exact absurd (Finset.mem_univ _) h

/-- **C123 (Python).** The same for `arnoldi_lop` of the Python package. -/
theorem C123_python (A : LinOp n) (M : Mat n) (hA : IsMatrix A M) (hM : Mᵀ = M) (scale : ℝ) (b : Vec n) (hb : b ≠ 0) (m iom : ℕ)
    (hm : 0 < m) (hiom : 1 ≤ iom) :
    let R := arnoldiLop A scale b m iom
    0 < R.k ∧ R.k ≤ min n m ∧ R.Qᵀ * R.Q = 1
      ∧ R.H = R.Qᵀ * (scale • M) * R.Q ∧ R.Hᵀ = R.H ∧ (∀ i j : Fin R.k, (i : ℕ) + 1 < j ∨ (j : ℕ) + 1 < i → R.H i j = 0)
      ∧ ((∀ v, v ⬝ᵥ ((scale • M) *ᵥ v) ≤ 0) → ∀ v, v ⬝ᵥ (R.H *ᵥ v) ≤ 0)
      ∧ ∃ r, R.Qᵀ *ᵥ r = 0 ∧ (R.k < min n m → norm2 r ≤ 1e-12) ∧ (R.k = n → r = 0) ∧ Decomp (scale • M) iom R.k R.Q R.H r := by
  intro R
  have hn : 0 < n := by
    rcases Nat.eq_zero_or_pos n with rfl | h
    · exact absurd (Subsingleton.elim b 0) hb
    · exact h
  have hmin : 0 < min n m := by omega
  obtain ⟨inv, hstop, hkp, _⟩ := arnJit_inv A scale b m iom hmin
  have hk : 0 < R.k := hkp (norm2_pos hb)
  have hRk : R.k = (arnoldiJit A scale b m iom).k := rfl
  have hvalid := arn_valid A scale b m iom hmin
  have core : ArnCore (fun x => scale • A.call x) iom (arnoldiJit A scale b m iom).hs
      (arnoldiJit A scale b m iom).qs (arnoldiJit A scale b m iom).k
      (arnoldiJit A scale b m iom).k :=
    ⟨fun j hj => inv.unit j (by omega), inv.hess, inv.fresh, inv.band, fun j h1 h2 => inv.next j h1 (by omega),
      fun i j h1 h2 => inv.orth i j h1 (by omega), inv.resOrth⟩
  have hf : ∀ x, scale • A.call x = (scale • M) *ᵥ x := by
    intro x
    rw [Matrix.smul_mulVec]
    show scale • A.matvec x = _
    rw [hA x]
  have D := core.decomp hf hk
  have hZ : (scale • M)ᵀ = scale • M := by rw [Matrix.transpose_smul, hM]
  obtain ⟨h1, h2, h3, h4, h5, h6⟩ := lanczos_full hZ hiom D
    (fun i j h1 h2 => inv.orth i j h1 (by have := j.2; omega) h2)
    (fun i j hij h0 => by
      have hik := i.2
      have hkle := inv.kle
      have e := inv.sub j (by have := j.2; omega) (by omega)
      have g := inv.big j (by omega)
      rw [← e] at g
      have h0' : (arnoldiJit A scale b m iom).hs i j = 0 := h0
      rw [hij] at h0'
      rw [h0'] at g
      unfold breakdownTol at g
      norm_num at g)
    (fun i hi => inv.resOrth i ((arnoldiJit A scale b m iom).k - 1) (by have := i.2; omega) (by omega) (by omega))
  refine ⟨hk, inv.kle, h1, h3, h4, fun i j hij => ?_, fun hn v => projected_nonpos h3 hn v, _, h2, fun hlt => ?_, h6, D⟩
  · rcases hij with h | h
    · exact h5 i j h
    · exact D.hess i j h
  · refine not_lt.mp fun h => hstop ⟨hlt, (inv.last ((arnoldiJit A scale b m iom).k - 1) (by omega)).2 ?_⟩
    unfold breakdownTol
    exact h

/-- **C123 (the exponential product of the Python package).** With an exact dense exponential, for a symmetric negative semidefinite
operator of any stiffness, `dt ≥ 0`, a Krylov dimension of at least the size of the system and any depth of at least one, the product
`exp(dt A) v` has error at most `1e-12 |v|`. -/
theorem C123_python_exp (expm : ∀ m, Mat m → Mat m) (hx : ∀ m A, expm m A = NormedSpace.exp A) (A : LinOp n) (M : Mat n) (hA : IsMatrix A M)
    (hM : Mᵀ = M) (hneg : ∀ v, v ⬝ᵥ (M *ᵥ v) ≤ 0) (dt : ℝ) (hdt : 0 ≤ dt) (v0 : Vec n) (hv : v0 ≠ 0) (m iom : ℕ) (hnm : n ≤ m) (hiom : 1 ≤ iom) :
    ∃ w, phiLinop (applCode expm) A dt v0 0 m iom = .ok w ∧ norm2 (w - NormedSpace.exp (dt • M) *ᵥ v0) ≤ 1e-12 * norm2 v0 := by
  have hn : 0 < n := by
    rcases Nat.eq_zero_or_pos n with rfl | h
    · exact absurd (Subsingleton.elim v0 0) hv
    · exact h
  have hb : (fun i => v0 i / norm2 v0) ≠ 0 := by
    intro h
    have := norm2_normalized (norm2_pos hv).ne'
    rw [h, norm2_zero] at this
    exact zero_ne_one this
  obtain ⟨hk, hstart⟩ := arn_start A dt v0 hv m iom (by omega)
  obtain ⟨-, hkle, hQ, hH, hHs, -, hHn, r, -, hres, hfull, D⟩ := C123_python A M hA hM dt (fun i => v0 i / norm2 v0) hb m iom (by omega) hiom
  have hneg' : ∀ x : Vec n, x ⬝ᵥ ((dt • M) *ᵥ x) ≤ 0 := fun x => by
    rw [Matrix.smul_mulVec, dotProduct_smul]
    exact mul_nonpos_of_nonneg_of_nonpos hdt (hneg x)
  rw [phiLinop_pos _ _ _ _ _ _ _ hv]
  unfold krylovFinish
  rw [if_pos hk]
  generalize arnoldiLop A dt (fun i => v0 i / norm2 v0) m iom = R at *
  have hr : norm2 r ≤ 1e-12 := by
    rcases lt_or_ge R.k (min n m) with h | h
    · exact hres h
    · rw [hfull (by omega), norm2_zero]; norm_num
  have hD := D.stiff (by rw [Matrix.transpose_smul, hM]) hneg' hH 0 (firstUnit R.k)
  have hu : norm2 (firstUnit R.k) = 1 := by
    rw [← norm2_isometry hQ]
    have h := congrArg norm2 hstart
    rw [norm2_smul, abs_of_pos (norm2_pos hv)] at h
    exact mul_left_cancel₀ (norm2_pos hv).ne' (h.trans (mul_one _).symm)
  refine ⟨_, rfl, ?_⟩
  rw [hu, mul_one] at hD
  have e0 : (fun i => (expm R.k R.H * of fun i (_ : Fin 1) => firstUnit R.k i) i 0) = phiM 0 R.H *ᵥ firstUnit R.k := by
    rw [hx, phiM_zero]
    rfl
  have e1 : norm2 v0 • (R.Q *ᵥ (phiM 0 R.H *ᵥ firstUnit R.k)) - NormedSpace.exp (dt • M) *ᵥ v0
      = -(norm2 v0 • (phiM 0 (dt • M) *ᵥ (R.Q *ᵥ firstUnit R.k) - R.Q *ᵥ (phiM 0 R.H *ᵥ firstUnit R.k))) := by
    conv_lhs => rw [← hstart]
    rw [hstart, ← phiM_zero, smul_sub, neg_sub]
    congr 1
    conv_lhs => rw [← hstart]
    rw [Matrix.mulVec_smul]
  rw [e0, e1, norm2_neg, norm2_smul, abs_of_nonneg (norm2_nonneg _), mul_comm]
  exact mul_le_mul_of_nonneg_right (hD.trans hr) (norm2_nonneg _)

/-! ### The CRAM evaluator of the binding -/

/-- **C123 (option `expmv_method` of the binding).** "cram" and "cram_16" select the order 16 rational approximation, "parabolic" the contour
with 24 nodes, and every other name, a misspelt one included, the Padé evaluator. -/
theorem C123_option (split : ℕ → Option (Split ℕ)) (name : String) :
    ((name = "cram" ∨ name = "cram_16") → ∃ c, genCram 16 = .ok c ∧ selectExpmv split name = .ok (fun _ a dt v k => c.phikApply a dt v k (split 8)))
    ∧ (name = "parabolic" → ∃ c, genParabolic 24 = .ok c ∧ selectExpmv split name = .ok (fun _ a dt v k => c.phikApply a dt v k (split 12)))
    ∧ (name ≠ "cram" → name ≠ "cram_16" → name ≠ "parabolic" → selectExpmv split name = .ok (padeApply fun _ a => matexpRs a 1)) := by
  refine ⟨fun h => ?_, fun h => ?_, fun h1 h2 h3 => ?_⟩
  · refine ⟨_, rfl, ?_⟩
    unfold selectExpmv
    rw [if_pos h]
    rfl
  · subst h
    refine ⟨_, rfl, ?_⟩
    unfold selectExpmv
    rw [if_neg (by decide), if_pos rfl]
    rfl
  · unfold selectExpmv
    rw [if_neg (by tauto), if_neg h3]

/-- Krylov products with a dense evaluator that is accurate on symmetric negative semidefinite matrices. -/
theorem krylov_dense {E : DenseRs} (m iom : ℕ) (hnm : n ≤ m) (hiom : 1 ≤ iom) (A : LinOp n) (M : Mat n) (hA : IsMatrix A M)
    (hM : Mᵀ = M) (hneg : ∀ v, v ⬝ᵥ (M *ᵥ v) ≤ 0) (dt : ℝ) (hdt : 0 ≤ dt) (v : Vec n) (hv : v ≠ 0) (l : ℕ) (τ : ℝ)
    (hE : ∀ (k : ℕ) (H : Mat k) (x : Vec k), Hᵀ = H → (∀ v, v ⬝ᵥ (H *ᵥ v) ≤ 0) →
      ∃ e, E k H dt x l = .ok e ∧ norm2 (e - phiM l (dt • H) *ᵥ x) ≤ τ * norm2 x) :
    ∃ w, (KrylovExpm.mk E m iom).applyPhiLinop A dt v l = .ok w ∧
      norm2 (w - phiM l (dt • M) *ᵥ v) ≤ (τ + dt * 1e-12) * norm2 v := by
  have hn : 0 < n := by
    rcases Nat.eq_zero_or_pos n with rfl | h
    · exact absurd (Subsingleton.elim v 0) hv
    · exact h
  obtain ⟨R, r, hR, hpos, hk, hQ, hst, hH, hHs, -, hHn, -, -, hres, hfull, D⟩ := C123_lanczos A M hA hM 1 v hv m iom (by omega) hiom
  rw [one_smul] at D hH hHn
  obtain ⟨e, he, hee⟩ := hE R.k R.H (unitVec R.k) hHs (hHn hneg)
  refine ⟨norm2 v • (R.Q *ᵥ e), ?_, ?_⟩
  · unfold KrylovExpm.applyPhiLinop
    simp only
    rw [hR]
    show (do let e ← E R.k R.H dt (unitVec R.k) l; pure (norm2 v • (R.Q *ᵥ e))) = _
    rw [he]
    rfl
  · have hr : norm2 r ≤ 1e-12 := by
      rcases lt_or_ge R.k (min n m) with h | h
      · exact (hres h).le
      · rw [hfull (by omega), norm2_zero]; norm_num
    have hu : norm2 (firstUnit R.k) = 1 := by
      rw [← norm2_isometry hQ]
      have h := congrArg norm2 hst
      rw [norm2_smul, abs_of_pos (norm2_pos hv)] at h
      exact mul_left_cancel₀ (norm2_pos hv).ne' (h.trans (mul_one _).symm)
    have hue : unitVec R.k = firstUnit R.k := rfl
    rw [hue] at hee
    rw [hu, mul_one] at hee
    have hneg' : ∀ x : Vec n, x ⬝ᵥ ((dt • M) *ᵥ x) ≤ 0 := fun x => by
      rw [Matrix.smul_mulVec, dotProduct_smul]
      exact mul_nonpos_of_nonneg_of_nonpos hdt (hneg x)
    have hD := (D.smul dt).stiff (by rw [Matrix.transpose_smul, hM]) hneg' (by rw [Matrix.mul_smul, Matrix.smul_mul, ← hH]) l (firstUnit R.k)
    rw [hu, mul_one, norm2_smul, abs_of_nonneg hdt] at hD
    have e1 : norm2 v • (R.Q *ᵥ e) - phiM l (dt • M) *ᵥ v
        = norm2 v • (R.Q *ᵥ (e - phiM l (dt • R.H) *ᵥ firstUnit R.k)
          - (phiM l (dt • M) *ᵥ (R.Q *ᵥ firstUnit R.k) - R.Q *ᵥ (phiM l (dt • R.H) *ᵥ firstUnit R.k))) := by
      conv_lhs => rw [← hst]
      rw [Matrix.mulVec_sub, smul_sub, smul_sub, smul_sub, Matrix.mulVec_smul, hst]
      abel
    rw [e1, norm2_smul, abs_of_nonneg (norm2_nonneg _), mul_comm]
    refine mul_le_mul_of_nonneg_right ?_ (norm2_nonneg _)
    refine (norm2_sub_le _ _).trans (add_le_add ?_ (hD.trans (mul_le_mul_of_nonneg_left hr hdt)))
    rw [norm2_isometry hQ]
    exact hee

/-- **C123 (the products of the binding with `expmv_method = "cram"`).** For a symmetric negative semidefinite operator, however stiff, every
`dt ≥ 0`, every schedule of the parallel sum, every orthogonalisation depth of at least one and a Krylov dimension of at least the size of
the system, the product `phi_l(dt A) v` (`l ≤ 2`) is returned with error at most `(rsCramTol l + dt 1e-12) |v|`. -/
theorem C123_cram (split : ℕ → Option (Split ℕ)) (hsp : ValidSplit 8 (split 8)) {name : String} (hname : name = "cram" ∨ name = "cram_16")
    {E : DenseRs} (hE : selectExpmv split name = .ok E) (m iom : ℕ) (hnm : n ≤ m) (hiom : 1 ≤ iom) (A : LinOp n) (M : Mat n) (hA : IsMatrix A M)
    (hM : Mᵀ = M) (hneg : ∀ v, v ⬝ᵥ (M *ᵥ v) ≤ 0) (dt : ℝ) (hdt : 0 ≤ dt) (v : Vec n) (hv : v ≠ 0) (l : ℕ) (hl : l ≤ 2) :
    ∃ w, (KrylovExpm.mk E m iom).applyPhiLinop A dt v l = .ok w ∧
      norm2 (w - phiM l (dt • M) *ᵥ v) ≤ (rsCramTol l + dt * 1e-12) * norm2 v := by
  obtain ⟨c, hc, hsel⟩ := (C123_option split name).1 hname
  rw [hsel] at hE
  cases hE
  exact krylov_dense m iom hnm hiom A M hA hM hneg dt hdt v hv l _ fun k H x hH hHn => (C102_symmetric hc H hH hHn dt hdt x l hl (split 8) hsp).1

end

/-- non-vacuity: a symmetric negative semidefinite stiff matrix, an admissible depth, the binding's own evaluator and schedule -/
example : (∃ E, selectExpmv (fun _ => some (.node (.node (.node (.leaf 0) (.leaf 1)) (.node (.leaf 2) (.leaf 3))) (.node (.node (.leaf 4) (.leaf 5))
      (.node (.leaf 6) (.leaf 7))))) "cram" = .ok E) ∧
    (!![-2e6, 1e6; 1e6, -2e6] : Mat 2)ᵀ = !![-2e6, 1e6; 1e6, -2e6] ∧ (∀ v : Vec 2, v ⬝ᵥ ((!![-2e6, 1e6; 1e6, -2e6] : Mat 2) *ᵥ v) ≤ 0) ∧
    IsMatrix (matrixLinOp (!![-2e6, 1e6; 1e6, -2e6] : Mat 2)) !![-2e6, 1e6; 1e6, -2e6] := by
  refine ⟨⟨_, rfl⟩, ?_, ?_, fun v => rfl⟩
  · ext i j; fin_cases i <;> fin_cases j <;> rfl
  · intro v
    simp [dotProduct, Matrix.mulVec, Fin.sum_univ_two]
    nlinarith [sq_nonneg (v 0), sq_nonneg (v 1), sq_nonneg (v 0 - v 1)]

end Ormatex.Props
