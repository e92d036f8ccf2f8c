import Verif.Props.DdSeries
import Verif.Props.DdTaylorAcc
import Verif.Props.LejaEval
import Verif.Props.Substep

/-!
A priori error of the Newton (Leja) evaluation of the matrix exponential: remainder of the interpolation polynomial, and the
error of the two evaluation routines with perturbed coefficients.
-/

namespace Ormatex.Props
open Matrix Polynomial Ormatex.Spec

section
variable {K : Type*} [RCLike K] {n : ℕ}

/-- The monomial `z^q` has divided difference `remPow q` at `ξ_0, ..., ξ_{m}` and the matrix `A` (scaled by `scale^(m+1)`). -/
def remPow (ξ : ℕ → K) (scale : K) (A : Matrix (Fin n) (Fin n) K) (m : ℕ) : ℕ → Matrix (Fin n) (Fin n) K
  | 0 => 0
  | q + 1 => A * remPow ξ scale A m q + (scale * bipow ξ scale q m 0) • 1

/-- Newton expansion of a power, with remainder. -/
theorem newton_pow (x : ℕ → K) (shift scale : K) (Z : Matrix (Fin n) (Fin n) K) (u : Fin n → K) (m : ℕ) (q : ℕ) :
    ((shift • 1 + scale • Z) ^ q) *ᵥ u
      = ∑ j ∈ Finset.range (m + 1), bipow (fun i => shift + scale * x i) scale q j 0 • newtonVec x Z u j
        + remPow (fun i => shift + scale * x i) scale (shift • 1 + scale • Z) m q *ᵥ newtonVec x Z u (m + 1) := by
  set A := shift • (1 : Matrix (Fin n) (Fin n) K) + scale • Z with hA
  set ξ : ℕ → K := fun i => shift + scale * x i with hξ
  set V := newtonVec x Z u with hV
  have hAV : ∀ j, A *ᵥ V j = scale • V (j + 1) + ξ j • V j := by
    intro j
    rw [hV, newtonVec_succ, hA, Matrix.add_mulVec, Matrix.smul_mulVec, Matrix.smul_mulVec, Matrix.one_mulVec, hξ]
    module
  induction q with
  | zero =>
    have h0 : ∀ j ∈ Finset.range (m + 1), bipow ξ scale 0 j 0 • V j = if j = 0 then u else 0 := by
      intro j _
      by_cases hj : j = 0
      · subst hj; simp [bipow, hV, newtonVec_zero]
      · simp [bipow, hj]
    rw [Finset.sum_congr rfl h0]
    simp [remPow]
  | succ q ih =>
    rw [pow_succ', ← Matrix.mulVec_mulVec, ih, Matrix.mulVec_add, Matrix.mulVec_sum, Matrix.mulVec_mulVec]
    have h1 : ∀ j ∈ Finset.range (m + 1), A *ᵥ (bipow ξ scale q j 0 • V j)
        = (ξ j * bipow ξ scale q j 0) • V j + (scale * bipow ξ scale q j 0) • V (j + 1) := by
      intro j _
      rw [Matrix.mulVec_smul, hAV]
      module
    rw [Finset.sum_congr rfl h1, Finset.sum_add_distrib, Finset.sum_range_succ (fun j => (scale * bipow ξ scale q j 0) • V (j + 1))]
    have h2 : ∑ j ∈ Finset.range (m + 1), bipow ξ scale (q + 1) j 0 • V j
        = ∑ j ∈ Finset.range (m + 1), (ξ j * bipow ξ scale q j 0) • V j
          + ∑ j ∈ Finset.range m, (scale * bipow ξ scale q j 0) • V (j + 1) := by
      rw [Finset.sum_range_succ' _ m, Finset.sum_range_succ' _ m, bipow_succ_zero]
      have : ∀ j ∈ Finset.range m, bipow ξ scale (q + 1) (j + 1) 0 • V (j + 1)
          = (ξ (j + 1) * bipow ξ scale q (j + 1) 0) • V (j + 1) + (scale * bipow ξ scale q j 0) • V (j + 1) := by
        intro j _
        rw [bipow_succ_succ, add_smul]
      rw [Finset.sum_congr rfl this, Finset.sum_add_distrib]
      abel
    rw [h2, remPow, Matrix.add_mulVec, Matrix.smul_mulVec, Matrix.one_mulVec]
    abel

open scoped Matrix.Norms.Operator in
theorem remPow_norm [Nonempty (Fin n)] (ξ : ℕ → K) (scale : K) (A : Matrix (Fin n) (Fin n) K) (m : ℕ) (R : ℝ) (hA : ‖A‖ ≤ R)
    (hξ : ∀ i < m + 1, ‖ξ i‖ ≤ R) (q : ℕ) :
    ‖remPow ξ scale A m q‖ ≤ ‖scale‖ ^ (m + 1) * (q.choose (m + 1) : ℝ) * R ^ (q - (m + 1)) := by
  have hR : 0 ≤ R := (norm_nonneg _).trans hA
  induction q with
  | zero => rw [remPow, norm_zero]; positivity
  | succ q ih =>
    rw [remPow]
    have h1 : ‖A * remPow ξ scale A m q‖ ≤ ‖scale‖ ^ (m + 1) * (q.choose (m + 1) : ℝ) * R ^ (q + 1 - (m + 1)) := by
      refine (norm_mul_le _ _).trans ?_
      refine (mul_le_mul hA ih (norm_nonneg _) hR).trans ?_
      rcases Nat.lt_or_ge q (m + 1) with hq | hq
      · rw [Nat.choose_eq_zero_of_lt hq]; simp
      · rw [show q + 1 - (m + 1) = q - (m + 1) + 1 by omega, pow_succ]
        exact le_of_eq (by ring)
    have h2 : ‖(scale * bipow ξ scale q m 0) • (1 : Matrix (Fin n) (Fin n) K)‖
        ≤ ‖scale‖ ^ (m + 1) * (q.choose m : ℝ) * R ^ (q + 1 - (m + 1)) := by
      rw [norm_smul, norm_one, mul_one, norm_mul]
      have h3 := bipow_bound (m + 1) ξ scale R hR hξ 0 q m (by omega) (by omega)
      rw [Nat.sub_zero] at h3
      calc ‖scale‖ * ‖bipow ξ scale q m 0‖ ≤ ‖scale‖ * (‖scale‖ ^ m * (q.choose m : ℝ) * R ^ (q - m)) :=
            mul_le_mul_of_nonneg_left h3 (norm_nonneg _)
        _ = _ := by rw [show q + 1 - (m + 1) = q - m by omega, pow_succ]; ring
    calc _ ≤ _ := norm_add_le _ _
      _ ≤ _ := add_le_add h1 h2
      _ = _ := by rw [Nat.choose_succ_succ]; push_cast; ring

/-- the real series of the remainder -/
theorem rem_series (R : ℝ) (m : ℕ) : HasSum (fun q : ℕ => (Nat.factorial q : ℝ)⁻¹ * ((q.choose m : ℝ) * R ^ (q - m)))
    (Real.exp R / (Nat.factorial m : ℝ)) := by
  rw [← hasSum_nat_add_iff' m, Finset.sum_eq_zero, sub_zero]
  · have he : HasSum (fun p : ℕ => R ^ p / (Nat.factorial p : ℝ)) (Real.exp R) := by
      rw [Real.exp_eq_exp_ℝ]
      exact NormedSpace.expSeries_div_hasSum_exp R
    have h1 := he.div_const (Nat.factorial m : ℝ)
    refine h1.congr_fun fun p => ?_
    rw [Nat.add_sub_cancel]
    have hch : ((p + m).choose m : ℝ) = (Nat.factorial (p + m) : ℝ) / (Nat.factorial m * Nat.factorial p) := by
      rw [eq_div_iff (by positivity)]
      have := Nat.add_choose_mul_factorial_mul_factorial p m
      have h2 : ((p + m).choose m : ℝ) * (Nat.factorial p : ℝ) * (Nat.factorial m : ℝ) = (Nat.factorial (p + m) : ℝ) := by
        exact_mod_cast this
      rw [← h2]; ring
    rw [hch]
    have hf0 : (Nat.factorial (p + m) : ℝ) ≠ 0 := by exact_mod_cast Nat.factorial_ne_zero _
    have hf1 : (Nat.factorial m : ℝ) ≠ 0 := by exact_mod_cast Nat.factorial_ne_zero _
    have hf2 : (Nat.factorial p : ℝ) ≠ 0 := by exact_mod_cast Nat.factorial_ne_zero _
    field_simp
  · intro q hq
    rw [Nat.choose_eq_zero_of_lt (Finset.mem_range.1 hq)]
    simp

open scoped Matrix.Norms.Operator in
/-- Remainder of Newton interpolation of the matrix exponential at any nodes (confluent or not), centred at 0. -/
theorem newton_remainder0 (x : ℕ → K) (shift scale : K) (Z : Matrix (Fin n) (Fin n) K) (u : Fin n → K) (m : ℕ) (R : ℝ)
    (hA : ‖shift • (1 : Matrix (Fin n) (Fin n) K) + scale • Z‖ ≤ R) (hξ : ∀ i < m + 1, ‖shift + scale * x i‖ ≤ R) :
    ‖NormedSpace.exp (shift • (1 : Matrix (Fin n) (Fin n) K) + scale • Z) *ᵥ u
        - ∑ j ∈ Finset.range (m + 1), exactDd 0 (m + 1) x shift scale 1 j • newtonVec x Z u j‖
      ≤ ‖scale‖ ^ (m + 1) * (Real.exp R / (Nat.factorial (m + 1) : ℝ)) * ‖newtonVec x Z u (m + 1)‖ := by
  rcases isEmpty_or_nonempty (Fin n) with hn | hn
  · rw [Subsingleton.elim (NormedSpace.exp (shift • (1 : Matrix (Fin n) (Fin n) K) + scale • Z) *ᵥ u
        - ∑ j ∈ Finset.range (m + 1), exactDd 0 (m + 1) x shift scale 1 j • newtonVec x Z u j) 0, norm_zero]
    positivity
  set A := shift • (1 : Matrix (Fin n) (Fin n) K) + scale • Z with hAdef
  set ξ : ℕ → K := fun i => shift + scale * x i with hξdef
  set V := newtonVec x Z u with hV
  -- the exponential
  have h1 : HasSum (fun q : ℕ => ((Nat.factorial q : K)⁻¹) • (A ^ q *ᵥ u)) (NormedSpace.exp A *ᵥ u) := by
    have h0 : HasSum (fun q : ℕ => ((Nat.factorial q : K)⁻¹) • A ^ q) (NormedSpace.exp A) :=
      NormedSpace.exp_series_hasSum_exp' (𝕂 := K) A
    let L : Matrix (Fin n) (Fin n) K →ₗ[K] (Fin n → K) := (Matrix.mulVecBilin K K).flip u
    have hL : Continuous L := LinearMap.continuous_of_finiteDimensional L
    have := h0.map L hL
    refine this.congr_fun fun q => ?_
    show _ = (((Nat.factorial q : K)⁻¹) • A ^ q) *ᵥ u
    rw [Matrix.smul_mulVec]
  -- the coefficients
  have h2 : HasSum (fun q : ℕ => ∑ j ∈ Finset.range (m + 1), ((Nat.factorial q : K)⁻¹ * bipow ξ scale q j 0) • V j)
      (∑ j ∈ Finset.range (m + 1), exactDd 0 (m + 1) x shift scale 1 j • V j) := by
    refine hasSum_sum fun j hj => ?_
    have hj' := Finset.mem_range.1 hj
    have h3 := exactTable_hasSum 0 (m + 1) x shift scale 1 ⟨j, hj'⟩ ⟨0, by omega⟩
    have h4 : exactDd 0 (m + 1) x shift scale 1 j = exactTable 0 (m + 1) x shift scale 1 ⟨j, hj'⟩ ⟨0, by omega⟩ := by
      unfold exactDd firstCol
      rw [dif_pos hj']
    rw [h4]
    have h5 := h3.smul_const (V j)
    refine h5.congr_fun fun q => ?_
    simp [hξdef]
  have h3 : HasSum (fun q : ℕ => ((Nat.factorial q : K)⁻¹) • (remPow ξ scale A m q *ᵥ V (m + 1)))
      (NormedSpace.exp A *ᵥ u - ∑ j ∈ Finset.range (m + 1), exactDd 0 (m + 1) x shift scale 1 j • V j) := by
    refine (h1.sub h2).congr_fun fun q => ?_
    rw [newton_pow x shift scale Z u m q, smul_add, Finset.smul_sum]
    simp only [smul_smul]
    rw [← hV, ← hξdef, ← hAdef]
    abel
  have h4 := ((rem_series R (m + 1)).mul_left (‖scale‖ ^ (m + 1))).mul_right ‖V (m + 1)‖
  rw [← h3.tsum_eq]
  refine tsum_of_norm_bounded h4 fun q => ?_
  rw [norm_smul, norm_inv, RCLike.norm_natCast]
  have h5 : ‖remPow ξ scale A m q *ᵥ V (m + 1)‖ ≤ ‖remPow ξ scale A m q‖ * ‖V (m + 1)‖ := Matrix.linfty_opNorm_mulVec _ _
  calc (Nat.factorial q : ℝ)⁻¹ * ‖remPow ξ scale A m q *ᵥ V (m + 1)‖
      ≤ (Nat.factorial q : ℝ)⁻¹ * ((‖scale‖ ^ (m + 1) * (q.choose (m + 1) : ℝ) * R ^ (q - (m + 1))) * ‖V (m + 1)‖) := by
        refine mul_le_mul_of_nonneg_left (h5.trans ?_) (by positivity)
        exact mul_le_mul_of_nonneg_right (remPow_norm ξ scale A m R hA hξ q) (norm_nonneg _)
    _ = _ := by ring


open scoped Matrix.Norms.Operator in
/-- Remainder of Newton interpolation, centred at any `mu`. -/
theorem newton_remainder (x : ℕ → K) (shift scale : K) (Z : Matrix (Fin n) (Fin n) K) (u : Fin n → K) (m : ℕ) (mu : K) (R : ℝ)
    (hA : ‖(shift - mu) • (1 : Matrix (Fin n) (Fin n) K) + scale • Z‖ ≤ R) (hξ : ∀ i < m + 1, ‖shift - mu + scale * x i‖ ≤ R) :
    ‖NormedSpace.exp (shift • (1 : Matrix (Fin n) (Fin n) K) + scale • Z) *ᵥ u
        - ∑ j ∈ Finset.range (m + 1), exactDd 0 (m + 1) x shift scale 1 j • newtonVec x Z u j‖
      ≤ ‖NormedSpace.exp mu‖ * (‖scale‖ ^ (m + 1) * (Real.exp R / (Nat.factorial (m + 1) : ℝ)) * ‖newtonVec x Z u (m + 1)‖) := by
  have hsplit : ∀ (p : ℕ) (Y : Matrix (Fin p) (Fin p) K), NormedSpace.exp (shift • (1 : Matrix (Fin p) (Fin p) K) + scale • Y)
      = NormedSpace.exp mu • NormedSpace.exp ((shift - mu) • (1 : Matrix (Fin p) (Fin p) K) + scale • Y) := by
    intro p Y
    have e : shift • (1 : Matrix (Fin p) (Fin p) K) + scale • Y
        = algebraMap K (Matrix (Fin p) (Fin p) K) mu + ((shift - mu) • (1 : Matrix (Fin p) (Fin p) K) + scale • Y) := by
      rw [Algebra.algebraMap_eq_smul_one]
      module
    have hc : Commute (algebraMap K (Matrix (Fin p) (Fin p) K) mu) ((shift - mu) • (1 : Matrix (Fin p) (Fin p) K) + scale • Y) :=
      Algebra.commutes mu _
    have := NormedSpace.exp_add_of_commute hc
    rw [e]
    refine this.trans ?_
    rw [← NormedSpace.algebraMap_exp_comm, Algebra.algebraMap_eq_smul_one, smul_mul_assoc, one_mul]
    rfl
  have hdd : ∀ j, exactDd 0 (m + 1) x shift scale 1 j = NormedSpace.exp mu * exactDd 0 (m + 1) x (shift - mu) scale 1 j := by
    intro j
    rw [exactDd_zero, exactDd_zero]
    unfold lejaCoeffsExp firstCol xiShift
    split_ifs with h
    · rw [one_smul, one_smul]
      exact congrFun (congrFun (hsplit (m + 1) (bidiag (m + 1) x)) _) _
    · simp
  rw [hsplit]
  have h0 := newton_remainder0 x (shift - mu) scale Z u m R hA hξ
  have e : (NormedSpace.exp mu • NormedSpace.exp ((shift - mu) • (1 : Matrix (Fin n) (Fin n) K) + scale • Z)) *ᵥ u
        - ∑ j ∈ Finset.range (m + 1), exactDd 0 (m + 1) x shift scale 1 j • newtonVec x Z u j
      = NormedSpace.exp mu • (NormedSpace.exp ((shift - mu) • (1 : Matrix (Fin n) (Fin n) K) + scale • Z) *ᵥ u
        - ∑ j ∈ Finset.range (m + 1), exactDd 0 (m + 1) x (shift - mu) scale 1 j • newtonVec x Z u j) := by
    rw [smul_sub, Finset.smul_sum, Matrix.smul_mulVec]
    simp only [hdd, smul_smul]
  rw [e, norm_smul]
  exact mul_le_mul_of_nonneg_left h0 (norm_nonneg _)

open scoped Matrix.Norms.Operator in
/-- Growth of the Newton vectors. -/
theorem newtonVec_norm (x : ℕ → K) (shift scale : K) (hs : scale ≠ 0) (Z : Matrix (Fin n) (Fin n) K) (u : Fin n → K) (j : ℕ) :
    ‖scale‖ ^ j * ‖newtonVec x Z u j‖
      ≤ (∏ l ∈ Finset.range j, ‖shift • (1 : Matrix (Fin n) (Fin n) K) + scale • Z - (shift + scale * x l) • 1‖) * ‖u‖ := by
  induction j with
  | zero => simp [newtonVec_zero]
  | succ j ih =>
    rw [newtonVec_succ, Finset.prod_range_succ, pow_succ]
    have e : scale • (Z *ᵥ newtonVec x Z u j - x j • newtonVec x Z u j)
        = (shift • (1 : Matrix (Fin n) (Fin n) K) + scale • Z - (shift + scale * x j) • 1) *ᵥ newtonVec x Z u j := by
      rw [Matrix.sub_mulVec, Matrix.add_mulVec, Matrix.smul_mulVec, Matrix.smul_mulVec, Matrix.smul_mulVec, Matrix.one_mulVec]
      module
    have h1 : ‖scale‖ * ‖Z *ᵥ newtonVec x Z u j - x j • newtonVec x Z u j‖
        ≤ ‖shift • (1 : Matrix (Fin n) (Fin n) K) + scale • Z - (shift + scale * x j) • 1‖ * ‖newtonVec x Z u j‖ := by
      rw [← norm_smul, e]
      exact Matrix.linfty_opNorm_mulVec _ _
    calc ‖scale‖ ^ j * ‖scale‖ * ‖Z *ᵥ newtonVec x Z u j - x j • newtonVec x Z u j‖
        = ‖scale‖ ^ j * (‖scale‖ * ‖Z *ᵥ newtonVec x Z u j - x j • newtonVec x Z u j‖) := by ring
      _ ≤ ‖scale‖ ^ j * (‖shift • (1 : Matrix (Fin n) (Fin n) K) + scale • Z - (shift + scale * x j) • 1‖ * ‖newtonVec x Z u j‖) :=
          mul_le_mul_of_nonneg_left h1 (by positivity)
      _ = ‖shift • (1 : Matrix (Fin n) (Fin n) K) + scale • Z - (shift + scale * x j) • 1‖ * (‖scale‖ ^ j * ‖newtonVec x Z u j‖) := by ring
      _ ≤ ‖shift • (1 : Matrix (Fin n) (Fin n) K) + scale • Z - (shift + scale * x j) • 1‖
            * ((∏ l ∈ Finset.range j, ‖shift • (1 : Matrix (Fin n) (Fin n) K) + scale • Z - (shift + scale * x l) • 1‖) * ‖u‖) :=
          mul_le_mul_of_nonneg_left ih (norm_nonneg _)
      _ = _ := by ring

open scoped Matrix.Norms.Operator in
/-- **Specification.** `interpBound B nodes mu R δ i U`: the classical error bound of Newton interpolation of the exponential of
the matrix `B` with the first `i` of the given nodes, `|e^mu| e^R / i! * prod_{j<i} |B - node_j| * U`, plus the effect of
coefficient errors `δ_j` (coefficients of the basis `prod (z - node_l)/scale`). -/
noncomputable def interpBound (B : Matrix (Fin n) (Fin n) K) (nodes : ℕ → K) (scale mu : K) (R : ℝ) (δ : ℕ → ℝ) (i : ℕ) (U : ℝ) : ℝ :=
  (‖NormedSpace.exp mu‖ * Real.exp R / (Nat.factorial i : ℝ) * ∏ j ∈ Finset.range i, ‖B - nodes j • 1‖
    + ∑ j ∈ Finset.range i, δ j * ∏ l ∈ Finset.range j, (‖B - nodes l • 1‖ / ‖scale‖)) * U

open scoped Matrix.Norms.Operator in
/-- error of a Newton sum with perturbed coefficients -/
theorem newton_sum_error (x : ℕ → K) (shift scale : K) (hs : scale ≠ 0) (Z : Matrix (Fin n) (Fin n) K) (u : Fin n → K) (i nL : ℕ)
    (hi : 1 ≤ i) (hiL : i ≤ nL) (mu : K) (R : ℝ)
    (B : Matrix (Fin n) (Fin n) K) (hB : B = shift • 1 + scale • Z)
    (hA : ‖B - mu • 1‖ ≤ R) (hξ : ∀ i < nL, ‖shift + scale * x i - mu‖ ≤ R)
    (c : ℕ → K) (δ : ℕ → ℝ) (hc : ∀ j < nL, ‖c j - lejaCoeffsExp (fun _ => NormedSpace.exp) nL x shift scale 1 j‖ ≤ δ j) :
    ‖∑ j ∈ Finset.range i, c j • newtonVec x Z u j - NormedSpace.exp B *ᵥ u‖
      ≤ interpBound B (fun j => shift + scale * x j) scale mu R δ i ‖u‖ := by
  obtain ⟨m, rfl⟩ : ∃ m, i = m + 1 := ⟨i - 1, by omega⟩
  set E := lejaCoeffsExp (fun _ => NormedSpace.exp) nL x shift scale (1 : K) with hE
  have hpre : ∀ j ∈ Finset.range (m + 1), exactDd 0 (m + 1) x shift scale 1 j • newtonVec x Z u j = E j • newtonVec x Z u j := by
    intro j hj
    rw [exactDd_zero, hE, C44_prefix nL x shift scale 1 (m + 1) j hiL (Finset.mem_range.1 hj)]
  have h1 := newton_remainder x shift scale Z u m mu R (by
    rw [sub_smul, sub_add_eq_add_sub, ← hB]; exact hA) (fun i hi => by
    have := hξ i (by omega)
    rwa [show shift - mu + scale * x i = shift + scale * x i - mu by ring])
  rw [Finset.sum_congr rfl hpre, ← hB] at h1
  have h2 : ‖∑ j ∈ Finset.range (m + 1), (c j - E j) • newtonVec x Z u j‖
      ≤ (∑ j ∈ Finset.range (m + 1), δ j * ∏ l ∈ Finset.range j, (‖B - (shift + scale * x l) • 1‖ / ‖scale‖)) * ‖u‖ := by
    refine (norm_sum_le _ _).trans ?_
    rw [Finset.sum_mul]
    refine Finset.sum_le_sum fun j hj => ?_
    rw [norm_smul]
    have hcj := hc j (by have := Finset.mem_range.1 hj; omega)
    have hn := newtonVec_norm x shift scale hs Z u j
    rw [← hB] at hn
    have hsp : 0 < ‖scale‖ ^ j := pow_pos (norm_pos_iff.2 hs) _
    have hn' : ‖newtonVec x Z u j‖ ≤ (∏ l ∈ Finset.range j, (‖B - (shift + scale * x l) • 1‖ / ‖scale‖)) * ‖u‖ := by
      rw [Finset.prod_div_distrib, Finset.prod_const, Finset.card_range, div_mul_eq_mul_div, le_div_iff₀ hsp, mul_comm]
      exact hn
    rw [mul_assoc]
    exact mul_le_mul hcj hn' (norm_nonneg _) ((norm_nonneg _).trans hcj)
  have e : ∑ j ∈ Finset.range (m + 1), c j • newtonVec x Z u j - NormedSpace.exp B *ᵥ u
      = ∑ j ∈ Finset.range (m + 1), (c j - E j) • newtonVec x Z u j
        - (NormedSpace.exp B *ᵥ u - ∑ j ∈ Finset.range (m + 1), E j • newtonVec x Z u j) := by
    simp only [sub_smul, Finset.sum_sub_distrib]
    abel
  rw [e]
  refine (norm_sub_le _ _).trans ?_
  have h3 := newtonVec_norm x shift scale hs Z u (m + 1)
  rw [← hB] at h3
  unfold interpBound
  rw [add_mul, add_comm]
  refine add_le_add (h1.trans ?_) h2
  calc ‖NormedSpace.exp mu‖ * (‖scale‖ ^ (m + 1) * (Real.exp R / (Nat.factorial (m + 1) : ℝ)) * ‖newtonVec x Z u (m + 1)‖)
      = ‖NormedSpace.exp mu‖ * Real.exp R / (Nat.factorial (m + 1) : ℝ) * (‖scale‖ ^ (m + 1) * ‖newtonVec x Z u (m + 1)‖) := by ring
    _ ≤ ‖NormedSpace.exp mu‖ * Real.exp R / (Nat.factorial (m + 1) : ℝ) * _ := mul_le_mul_of_nonneg_left h3 (by positivity)
    _ = _ := by ring

end

section
variable {n : ℕ}

theorem scaledMat_back (M : Mat n) (dt shift scale : ℝ) (hs : scale ≠ 0) :
    dt • M = shift • (1 : Mat n) + scale • scaledMat M dt shift scale := by
  rw [scaledMat, smul_smul, mul_inv_cancel₀ hs, one_smul]
  abel

open scoped Matrix.Norms.Operator in
/-- **C96, real nodes.**  The value returned by `real_leja_expmv` after `i` iterations (whether or not it is flagged as
converged) differs from `exp(dt A) u` by at most the classical interpolation bound for the `i` nodes used, plus the effect of
the coefficient errors. -/
theorem C96_real (A : LinOp n) (M : Mat n) (hA : IsMatrix A M) (dt : ℝ) (u : Vec n) (shift scale : ℝ) (hs : scale ≠ 0)
    (nLeja : ℕ) (hn : 2 ≤ nLeja) (x coeffs : ℕ → ℝ) (tol abortTol : ℝ) (mu R : ℝ) (hR : ‖dt • M - mu • 1‖ ≤ R)
    (hξ : ∀ i < nLeja, |shift + scale * x i - mu| ≤ R) (δ : ℕ → ℝ)
    (hc : ∀ j < nLeja, |coeffs j - lejaCoeffsExp (fun _ => NormedSpace.exp) nLeja x shift scale 1 j| ≤ δ j) :
    let r := realLejaExpmv A dt u shift scale nLeja x coeffs tol abortTol
    ‖r.pm - NormedSpace.exp (dt • M) *ᵥ u‖ ≤ interpBound (dt • M) (fun j => shift + scale * x j) scale mu R δ r.i ‖u‖ := by
  intro r
  obtain ⟨h1, h2, h3, _⟩ := C46_newton A M hA dt u shift scale hs nLeja x coeffs tol abortTol
  rw [newtonPoly_mulVec] at h1
  rw [show r.pm = _ from h1]
  exact newton_sum_error x shift scale hs (scaledMat M dt shift scale) u r.i nLeja h2 (h3.trans (by omega)) mu R (dt • M)
    (scaledMat_back M dt shift scale hs) hR hξ coeffs δ hc


/-- only the real parts of the coefficients enter the conjugate-pair evaluation -/
theorem complexConj_congr (A : LinOp n) (dt : ℝ) (u : Vec n) (shift scale : ℝ) (nLeja : ℕ) (x : ℕ → ℂ) (nReal : ℕ)
    (c c' : ℕ → ℂ) (h : ∀ j, (c j).re = (c' j).re) (tol abortTol : ℝ) :
    complexConjLejaExpmv A dt u shift scale nLeja x nReal c tol abortTol
      = complexConjLejaExpmv A dt u shift scale nLeja x nReal c' tol abortTol := by
  unfold complexConjLejaExpmv
  have e1 : ∀ xsc, complexHeadBody A dt scale xsc c = complexHeadBody A dt scale xsc c' := by
    intro xsc; funext s; unfold complexHeadBody; simp only [h]
  have e2 : ∀ xsc, complexPairBody A dt (norm2 u) scale tol xsc c = complexPairBody A dt (norm2 u) scale tol xsc c' := by
    intro xsc; funext s; unfold complexPairBody; simp only [h]
  simp only [h, e1, e2]

theorem newtonVec_toC (x : ℕ → ℂ) (xr : ℕ → ℝ) (Z : Mat n) (u : Vec n) (j : ℕ) (hx : ∀ l < j, x l = (xr l : ℂ)) :
    newtonVec x (toC Z) (vecC u) j = vecC (newtonVec xr Z u j) := by
  induction j with
  | zero => rw [newtonVec_zero, newtonVec_zero]
  | succ j ih =>
    rw [newtonVec_succ, newtonVec_succ, ih fun l hl => hx l (by omega), vecC_sub, vecC_smul, toC_mulVec, hx j (by omega)]

theorem norm_re_sub_le {c e : ℂ} (he : e.im = 0) : ‖((c.re : ℝ) : ℂ) - e‖ ≤ ‖c - e‖ := by
  have h : ((c.re : ℝ) : ℂ) - e = (((c - e).re : ℝ) : ℂ) := by
    apply Complex.ext
    · simp
    · simp [he]
  rw [h, Complex.norm_real]
  exact Complex.abs_re_le_norm _

theorem norm_re_le (v : Fin n → ℂ) (w : Vec n) : ‖(fun j => (v j).re) - w‖ ≤ ‖v - vecC w‖ := by
  refine (pi_norm_le_iff_of_nonneg (norm_nonneg _)).2 fun j => ?_
  have h1 : ‖(v - vecC w) j‖ ≤ ‖v - vecC w‖ := norm_le_pi_norm _ j
  refine le_trans ?_ h1
  have : ((fun j => (v j).re) - w) j = ((v - vecC w) j).re := by simp [vecC]
  rw [this]
  exact Complex.abs_re_le_norm _

theorem norm_vecC (u : Vec n) : ‖vecC u‖ = ‖u‖ := by
  simp only [Pi.norm_def]
  congr 1
  refine Finset.sup_congr rfl fun j _ => ?_
  ext
  simp [vecC]

theorem toC_back (M : Mat n) (dt shift scale : ℝ) (hs : scale ≠ 0) :
    toC (dt • M) = (shift : ℂ) • (1 : Matrix (Fin n) (Fin n) ℂ) + (scale : ℂ) • toC (scaledMat M dt shift scale) := by
  rw [scaledMat_back M dt shift scale hs]
  ext i j
  simp only [toC, Matrix.smul_apply, Matrix.add_apply, Matrix.map_apply, smul_eq_mul, Complex.coe_algebraMap, Complex.ofReal_mul,
    Complex.ofReal_add]
  rw [Matrix.one_apply, Matrix.one_apply]
  split_ifs <;> simp

open scoped Matrix.Norms.Operator in
/-- **C96, conjugate pairs.**  The same for `complex_conj_leja_expmv`, for any distinct nodes of the stated structure (`nReal` real
ones, then conjugate pairs), which only does real arithmetic: the imaginary parts of the computed coefficients are irrelevant. -/
theorem C96_complex (A : LinOp n) (M : Mat n) (hA : IsMatrix A M) (dt : ℝ) (u : Vec n) (shift scale : ℝ) (hs : scale ≠ 0)
    (nLeja nReal : ℕ) (hn : 2 ≤ nLeja) (hlt : nReal ≤ nLeja) (x coeffs : ℕ → ℂ) (hx : ConjNodes x nReal nLeja)
    (hd : Set.InjOn x (Finset.range nLeja)) (tol abortTol : ℝ) (mu : ℂ) (R : ℝ) (hR : ‖toC (dt • M) - mu • 1‖ ≤ R)
    (hξ : ∀ i < nLeja, ‖(shift : ℂ) + scale * x i - mu‖ ≤ R) (δ : ℕ → ℝ)
    (hc : ∀ j < nLeja, ‖coeffs j - lejaCoeffsExp (fun _ => NormedSpace.exp) nLeja x (shift : ℂ) (scale : ℂ) 1 j‖ ≤ δ j) :
    let r := complexConjLejaExpmv A dt u shift scale nLeja x nReal coeffs tol abortTol
    ‖r.pm - NormedSpace.exp (dt • M) *ᵥ u‖
      ≤ interpBound (toC (dt • M)) (fun j => (shift : ℂ) + scale * x j) (scale : ℂ) mu R δ r.i ‖u‖ := by
  intro r
  have hsC : (scale : ℂ) ≠ 0 := by exact_mod_cast hs
  have hexp : vecC (NormedSpace.exp (dt • M) *ᵥ u) = NormedSpace.exp (toC (dt • M)) *ᵥ vecC u := by
    rw [← toC_mulVec, ← exp_toC]
  rcases hlt.eq_or_lt with heq | hlt
  · -- all nodes real
    have hr : r = realLejaExpmv A dt u shift scale nLeja (fun i => (x i).re) (fun i => (coeffs i).re) tol 1e10 := by
      show complexConjLejaExpmv A dt u shift scale nLeja x nReal coeffs tol abortTol = _
      unfold complexConjLejaExpmv
      rw [if_pos heq]
    obtain ⟨h1, h2, h3, _⟩ := C46_newton A M hA dt u shift scale hs nLeja (fun i => (x i).re) (fun i => (coeffs i).re) tol 1e10
    rw [← hr] at h1 h2 h3
    rw [newtonPoly_mulVec] at h1
    have hxr : ∀ l < nLeja, x l = (((x l).re : ℝ) : ℂ) := fun l hl =>
      Complex.ext rfl (by simpa using hx.real l (by omega))
    have hri : r.i ≤ nLeja := by omega
    have hsum : r.pm = fun j => ((∑ l ∈ Finset.range r.i, ((coeffs l).re : ℂ)
        • newtonVec x (toC (scaledMat M dt shift scale)) (vecC u) l) j).re := by
      rw [h1]
      funext j
      rw [Finset.sum_apply, Finset.sum_apply, Complex.re_sum]
      refine Finset.sum_congr rfl fun l hl => ?_
      rw [newtonVec_toC x (fun i => (x i).re) _ _ l fun l' hl' => hxr l' (by have := Finset.mem_range.1 hl; omega)]
      simp [vecC]
    rw [hsum]
    refine (norm_re_le _ _).trans ?_
    rw [hexp, ← norm_vecC u]
    refine newton_sum_error x (shift : ℂ) (scale : ℂ) hsC _ (vecC u) r.i nLeja h2 hri mu R _ (toC_back M dt shift scale hs) hR hξ _ δ
      fun j hj => le_trans ?_ (hc j hj)
    -- the exact coefficients are real
    have hE : (lejaCoeffsExp (fun _ => NormedSpace.exp) nLeja x (shift : ℂ) (scale : ℂ) 1 j).im = 0 := by
      rw [C44_eq_recursive nLeja x _ _ _ hd j hj, lejaCoeffsExpDd]
      set y : ℕ → ℂ := fun i => NormedSpace.exp ((1 : ℂ) * ((shift : ℂ) + (scale : ℂ) * x i)) with hy
      rw [← newtonPoly_topCoeff x (newtonPolyDivDiff nLeja x y) j, C43_prefix nLeja x y hd (j + 1) (by omega)]
      have hxc : ∀ l < j + 1, x l = (starRingEnd ℂ) (x l) := fun l hl =>
        (Complex.conj_eq_iff_im.2 (hx.real l (by omega))).symm
      refine interpolate_real (j + 1) x y (hd.mono (by
        intro a ha
        simp only [Finset.coe_range, Set.mem_Iio] at ha ⊢
        omega)) id (fun i hi => hi) hxc ?_ j
      intro l hl
      simp only [hy, id]
      rw [← Complex.exp_eq_exp_ℂ, ← Complex.exp_conj]
      congr 1
      simp only [map_mul, map_add, Complex.conj_ofReal, map_one]
      rw [← hxc l hl]
    exact norm_re_sub_le hE
  · -- conjugate pairs
    set c' : ℕ → ℂ := fun j => if (j - nReal) % 2 = 1 ∧ nReal < j then (((coeffs j).re : ℝ) : ℂ) else coeffs j with hc'
    have hr : r = complexConjLejaExpmv A dt u shift scale nLeja x nReal c' tol abortTol := by
      refine complexConj_congr A dt u shift scale nLeja x nReal _ _ (fun j => ?_) tol abortTol
      rw [hc']
      simp only
      split_ifs <;> simp
    have hpr : PairReal c' nReal nLeja := by
      intro k _
      rw [hc']
      simp only
      rw [if_pos ⟨by omega, by omega⟩]
      simp
    obtain ⟨h1, h2, h3, _⟩ := C47_newton A M hA dt u shift scale hs nLeja nReal hlt x c' hx hpr tol abortTol
    rw [← hr] at h1 h2 h3
    rw [newtonPoly_mulVec] at h1
    rw [h1]
    refine (norm_re_le _ _).trans ?_
    rw [hexp, ← norm_vecC u]
    refine newton_sum_error x (shift : ℂ) (scale : ℂ) hsC _ (vecC u) r.i nLeja (by omega) h3 mu R _ (toC_back M dt shift scale hs) hR hξ _ δ
      fun j hj => le_trans ?_ (hc j hj)
    rw [hc']
    simp only
    split_ifs with hj1
    · have hE := C47_coeffs_real x nReal nLeja hx hd shift scale 1 ((j - nReal) / 2) (by omega)
      rw [show nReal + 2 * ((j - nReal) / 2) + 1 = j by omega, Complex.ofReal_one] at hE
      exact norm_re_sub_le hE
    · exact le_rfl

end
end Ormatex.Props
