import Verif.Model.PolyExp
import Verif.Spec.Phi
import Verif.Props.DivDiff
import Mathlib.Analysis.SpecialFunctions.Exponential
import Mathlib.Analysis.Complex.Exponential

/-!
Exact divided differences of the phi functions, as entries of `phi_k` of the bidiagonal matrix of the nodes: interpolation,
power series, entrywise bounds, and the propagation of an entrywise error through powers.
-/

namespace Ormatex.Props
open Matrix Polynomial Ormatex.Spec

section
variable {K : Type*} [RCLike K]

/-- **Specification.** The table of divided differences of `x ↦ phi_k(h (shift + scale x))` at the nodes `x_0, ..., x_{m-1}`:
`phi_k` of the bidiagonal matrix with the (transformed) nodes on the diagonal.  Column 0 holds the Newton coefficients
(`exactDd_interpolates`, `exactDd_eq_recursive`). -/
noncomputable def exactTable (k m : ℕ) (x : ℕ → K) (shift scale h : K) : Matrix (Fin m) (Fin m) K :=
  phi k (h • xiShift m x shift scale)

/-- **Specification.** Newton coefficients of `x ↦ phi_k(h (shift + scale x))`. -/
noncomputable def exactDd (k m : ℕ) (x : ℕ → K) (shift scale h : K) : ℕ → K :=
  firstCol (exactTable k m x shift scale h)

/-- Entries of the powers of the bidiagonal matrix `diag(z) + scale * (subdiagonal of ones)`, by the recurrence of its rows. -/
def bipow (z : ℕ → K) (scale : K) : ℕ → ℕ → ℕ → K
  | 0, i, j => if i = j then 1 else 0
  | q + 1, i, j => z i * bipow z scale q i j + (match i with | 0 => 0 | i' + 1 => scale * bipow z scale q i' j)

theorem bipow_succ_zero (z : ℕ → K) (scale : K) (q j : ℕ) : bipow z scale (q + 1) 0 j = z 0 * bipow z scale q 0 j := by
  simp [bipow]

theorem bipow_succ_succ (z : ℕ → K) (scale : K) (q i j : ℕ) :
    bipow z scale (q + 1) (i + 1) j = z (i + 1) * bipow z scale q (i + 1) j + scale * bipow z scale q i j := by
  simp [bipow]

theorem bipow_lt (z : ℕ → K) (scale : K) : ∀ (q i j : ℕ), i < j → bipow z scale q i j = 0
  | 0, i, j, h => by simp [bipow]; omega
  | q + 1, 0, j, h => by rw [bipow_succ_zero, bipow_lt z scale q 0 j h, mul_zero]
  | q + 1, i + 1, j, h => by
    rw [bipow_succ_succ, bipow_lt z scale q _ j h, bipow_lt z scale q i j (by omega)]; simp

theorem bipow_gt (z : ℕ → K) (scale : K) : ∀ (q i j : ℕ), q + j < i → bipow z scale q i j = 0
  | 0, i, j, h => by simp [bipow]; omega
  | q + 1, 0, j, h => by omega
  | q + 1, i + 1, j, h => by
    rw [bipow_succ_succ, bipow_gt z scale q _ j (by omega), bipow_gt z scale q i j (by omega)]; simp

theorem bipow_diag (z : ℕ → K) (scale : K) (q j : ℕ) : bipow z scale q j j = z j ^ q := by
  induction q with
  | zero => simp [bipow]
  | succ q ih =>
    cases j with
    | zero => rw [bipow_succ_zero, ih, pow_succ']
    | succ j => rw [bipow_succ_succ, ih, bipow_lt z scale q j (j + 1) (by omega), pow_succ', mul_zero, add_zero]

theorem bipow_first (z : ℕ → K) (scale : K) : ∀ (d j : ℕ), bipow z scale d (j + d) j = scale ^ d
  | 0, j => by simp [bipow]
  | d + 1, j => by
    rw [← Nat.add_assoc, bipow_succ_succ, bipow_gt z scale d (j + d + 1) j (by omega), bipow_first z scale d j, pow_succ']
    simp

theorem bipow_eq (m : ℕ) (x : ℕ → K) (shift scale : K) (q : ℕ) : ∀ i j : Fin m,
    (xiShift m x shift scale ^ q) i j = bipow (fun i => shift + scale * x i) scale q i j := by
  induction q with
  | zero =>
    intro i j
    simp [bipow, Matrix.one_apply, Fin.ext_iff]
  | succ q ih =>
    intro i j
    rw [pow_succ', Matrix.mul_apply]
    have hterm : ∀ l : Fin m, xiShift m x shift scale i l * (xiShift m x shift scale ^ q) l j
        = (if l = i then (shift + scale * x i) * (xiShift m x shift scale ^ q) i j else 0)
          + if (i : ℕ) = l + 1 then scale * (xiShift m x shift scale ^ q) l j else 0 := by
      intro l
      simp only [xiShift, Matrix.add_apply, Matrix.smul_apply, bidiag, Matrix.of_apply, Matrix.one_apply, smul_eq_mul]
      by_cases h1 : l = i
      · subst h1
        simp
      · have h1' : ¬ i = l := fun h => h1 h.symm
        by_cases h2 : (i : ℕ) = l + 1
        · simp [h1, h1', h2]
        · simp [h1, h1', h2]
    rw [Finset.sum_congr rfl fun l _ => hterm l, Finset.sum_add_distrib, Finset.sum_ite_eq' _ i]
    simp only [Finset.mem_univ, if_true]
    rw [ih]
    rcases i with ⟨i, hi⟩
    cases i with
    | zero =>
      rw [Finset.sum_eq_zero, add_zero, bipow_succ_zero]
      intro l _
      rw [if_neg]
      simp
    | succ i =>
      rw [bipow_succ_succ, Finset.sum_eq_single (⟨i, by omega⟩ : Fin m)]
      · simp [ih]
      · intro b _ hb
        rw [if_neg]
        intro hb'
        apply hb
        ext
        simpa using (Nat.succ.inj hb').symm
      · simp

attribute [local instance] Matrix.linftyOpNormedRing Matrix.linftyOpNormedAlgebra in
/-- the power series of the table, entry by entry -/
theorem exactTable_hasSum (k m : ℕ) (x : ℕ → K) (shift scale h : K) (i j : Fin m) :
    HasSum (fun q : ℕ => (Nat.factorial (q + k) : K)⁻¹ * (h ^ q * bipow (fun i => shift + scale * x i) scale q i j))
      (exactTable k m x shift scale h i j) := by
  have h0 : HasSum (fun q : ℕ => ((Nat.factorial (q + k) : ℝ)⁻¹) • (h • xiShift m x shift scale) ^ q)
      (exactTable k m x shift scale h) := phi_hasSum k (h • xiShift m x shift scale)
  have h1 := (Pi.hasSum.1 (Pi.hasSum.1 h0 i)) j
  have e : (fun q : ℕ => (((Nat.factorial (q + k) : ℝ)⁻¹) • (h • xiShift m x shift scale) ^ q) i j)
      = fun q : ℕ => (Nat.factorial (q + k) : K)⁻¹ * (h ^ q * bipow (fun i => shift + scale * x i) scale q i j) := by
    funext q
    rw [Matrix.smul_apply, smul_pow, Matrix.smul_apply, bipow_eq, smul_eq_mul, RCLike.real_smul_eq_coe_mul]
    push_cast
    rfl
  exact e ▸ h1

/-- the series starting at the first nonzero term -/
theorem exactTable_hasSum' (k m : ℕ) (x : ℕ → K) (shift scale h : K) (i j : Fin m) (hij : j ≤ i) :
    HasSum (fun p : ℕ => (Nat.factorial (p + (i - j) + k) : K)⁻¹
        * (h ^ (p + (i - j)) * bipow (fun i => shift + scale * x i) scale (p + (i - j)) i j))
      (exactTable k m x shift scale h i j) := by
  have h1 := (hasSum_nat_add_iff' ((i : ℕ) - j)).2 (exactTable_hasSum k m x shift scale h i j)
  rw [Finset.sum_eq_zero, sub_zero] at h1
  · exact h1
  · intro q hq
    have := Finset.mem_range.1 hq
    rw [bipow_gt _ _ _ _ _ (by omega)]
    simp

theorem exactTable_upper (k m : ℕ) (x : ℕ → K) (shift scale h : K) (i j : Fin m) (hij : i < j) :
    exactTable k m x shift scale h i j = 0 := by
  refine (exactTable_hasSum k m x shift scale h i j).unique ?_
  convert hasSum_zero using 2
  rw [bipow_lt _ _ _ _ _ (by exact_mod_cast hij)]
  simp

theorem phi_scalar_hasSum (k : ℕ) (z : K) : HasSum (fun q : ℕ => (Nat.factorial (q + k) : K)⁻¹ * z ^ q) (phi k z) := by
  have := phi_hasSum k z
  convert this using 2
  rw [RCLike.real_smul_eq_coe_mul]
  push_cast
  rfl

theorem phi_scalar_zero (z : K) : phi 0 z = NormedSpace.exp z := phi_zero z

theorem exactTable_diag (k m : ℕ) (x : ℕ → K) (shift scale h : K) (i : Fin m) :
    exactTable k m x shift scale h i i = phi k (h * (shift + scale * x i)) := by
  refine (exactTable_hasSum k m x shift scale h i i).unique ?_
  convert phi_scalar_hasSum k (h * (shift + scale * x i)) using 3
  rw [bipow_diag, mul_pow]

/-- the value vector of the Newton basis at a node is a left eigenvector of the bidiagonal matrix -/
theorem newton_bipow (m : ℕ) (x : ℕ → K) (shift scale : K) (l : ℕ) (hl : l < m) (q : ℕ) (j : Fin m) :
    ∑ i : Fin m, (newtonBasis x i).eval (x l) * (xiShift m x shift scale ^ q) i j
      = (shift + scale * x l) ^ q * (newtonBasis x j).eval (x l) := by
  have h1 : ∀ j : Fin m, ∑ i : Fin m, (newtonBasis x i).eval (x l) * xiShift m x shift scale i j
      = (shift + scale * x l) * (newtonBasis x j).eval (x l) := by
    intro j
    have hterm : ∀ i : Fin m, (newtonBasis x i).eval (x l) * xiShift m x shift scale i j
        = (if i = j then (newtonBasis x j).eval (x l) * (shift + scale * x j) else 0)
          + if (i : ℕ) = j + 1 then (newtonBasis x (j + 1)).eval (x l) * scale else 0 := by
      intro i
      simp only [xiShift, Matrix.add_apply, Matrix.smul_apply, bidiag, Matrix.of_apply, Matrix.one_apply, smul_eq_mul]
      by_cases h1 : i = j
      · subst h1
        simp
      · by_cases h2 : (i : ℕ) = j + 1
        · simp [h1, h2]
        · simp [h1, h2]
    rw [Finset.sum_congr rfl fun i _ => hterm i, Finset.sum_add_distrib, Finset.sum_ite_eq' _ j]
    simp only [Finset.mem_univ, if_true]
    have hlast : ∑ i : Fin m, (if (i : ℕ) = j + 1 then (newtonBasis x (j + 1)).eval (x l) * scale else 0)
        = (newtonBasis x (j + 1)).eval (x l) * scale := by
      by_cases hj : (j : ℕ) + 1 < m
      · rw [Finset.sum_eq_single (⟨j + 1, hj⟩ : Fin m)]
        · simp
        · intro b _ hb
          rw [if_neg]
          intro hb'
          exact hb (Fin.ext hb')
        · simp
      · have hjm : (j : ℕ) + 1 = m := by have := j.2; omega
        rw [hjm, newtonBasis_root x hl, zero_mul]
        simp
    rw [hlast, newtonBasis_succ, eval_mul, eval_sub, eval_X, eval_C]
    ring
  induction q generalizing j with
  | zero => simp [Matrix.one_apply]
  | succ q ih =>
    simp only [pow_succ, Matrix.mul_apply]
    simp only [Finset.mul_sum]
    rw [Finset.sum_comm]
    have : ∀ y : Fin m, ∑ i : Fin m, (newtonBasis x i).eval (x l) * ((xiShift m x shift scale ^ q) i y * xiShift m x shift scale y j)
        = (shift + scale * x l) ^ q * ((newtonBasis x y).eval (x l) * xiShift m x shift scale y j) := by
      intro y
      rw [← mul_assoc, ← ih y, Finset.sum_mul]
      exact Finset.sum_congr rfl fun i _ => by ring
    rw [Finset.sum_congr rfl fun y _ => this y, ← Finset.mul_sum, h1]
    ring

/-- The coefficients `exactDd` interpolate: this characterises them when the nodes are distinct. -/
theorem exactDd_interpolates (k m : ℕ) (x : ℕ → K) (shift scale h : K) (l : ℕ) (hl : l < m) :
    (newtonPoly x (exactDd k m x shift scale h) m).eval (x l) = phi k (h * (shift + scale * x l)) := by
  have hm : 0 < m := by omega
  have h1 : HasSum (fun q : ℕ => ∑ i : Fin m, (newtonBasis x i).eval (x l) * ((Nat.factorial (q + k) : K)⁻¹
      * (h ^ q * bipow (fun i => shift + scale * x i) scale q i (⟨0, hm⟩ : Fin m))))
      (∑ i : Fin m, (newtonBasis x i).eval (x l) * exactTable k m x shift scale h i ⟨0, hm⟩) :=
    hasSum_sum fun i _ => (exactTable_hasSum k m x shift scale h i ⟨0, hm⟩).mul_left _
  have h2 : (newtonPoly x (exactDd k m x shift scale h) m).eval (x l)
      = ∑ i : Fin m, (newtonBasis x i).eval (x l) * exactTable k m x shift scale h i ⟨0, hm⟩ := by
    unfold newtonPoly
    rw [eval_finsetSum, ← Fin.sum_univ_eq_sum_range (fun j => (C (exactDd k m x shift scale h j) * newtonBasis x j).eval (x l))]
    refine Finset.sum_congr rfl fun i _ => ?_
    rw [eval_mul, eval_C, mul_comm]
    congr 1
    unfold exactDd firstCol
    simp
  rw [h2]
  refine h1.unique ?_
  convert phi_scalar_hasSum k (h * (shift + scale * x l)) using 2 with q
  have := newton_bipow m x shift scale l hl q ⟨0, hm⟩
  simp only [newtonBasis, Finset.range_zero, Finset.prod_empty, eval_one, mul_one] at this
  rw [mul_pow, ← this, Finset.mul_sum, Finset.mul_sum]
  refine Finset.sum_congr rfl fun i _ => ?_
  rw [bipow_eq]
  unfold newtonBasis
  ring

/-- For distinct nodes `exactDd` is the result of the textbook recursion `newton_poly_div_diff`. -/
theorem exactDd_eq_recursive (k m : ℕ) (x : ℕ → K) (shift scale h : K) (hx : Set.InjOn x (Finset.range m)) (i : ℕ) (hi : i < m) :
    exactDd k m x shift scale h i = newtonPolyDivDiff m x (fun i => phi k (h * (shift + scale * x i))) i := by
  refine newton_unique m x _ _ hx (fun l hl => ?_) i hi
  rw [exactDd_interpolates k m x shift scale h l hl, C43_interpolates m x _ hx,
    Lagrange.eval_interpolate_at_node _ hx (Finset.mem_range.2 hl)]

/-- For `k = 0` it is `leja_coeffs_exp` with an exact exponential. -/
theorem exactDd_zero (m : ℕ) (x : ℕ → K) (shift scale h : K) :
    exactDd 0 m x shift scale h = lejaCoeffsExp (fun _ => NormedSpace.exp) m x shift scale h := by
  unfold exactDd exactTable lejaCoeffsExp
  congr 1
  show phi 0 (h • xiShift m x shift scale) = NormedSpace.exp (h • xiShift m x shift scale)
  unfold phi
  rw [NormedSpace.exp_eq_tsum ℝ]
  rfl

/-! ### bounds -/

theorem bipow_bound (m : ℕ) (z : ℕ → K) (scale : K) (R : ℝ) (hR : 0 ≤ R) (hz : ∀ i < m, ‖z i‖ ≤ R) (j : ℕ) :
    ∀ (q i : ℕ), i < m → j ≤ i →
    ‖bipow z scale q i j‖ ≤ ‖scale‖ ^ (i - j) * (q.choose (i - j) : ℝ) * R ^ (q - (i - j)) := by
  intro q
  induction q with
  | zero =>
    intro i him hij
    rcases hij.eq_or_lt with h | h
    · subst h; simp [bipow]
    · rw [bipow_gt _ _ _ _ _ (by omega), norm_zero]; positivity
  | succ q ih =>
    intro i him hij
    rcases hij.eq_or_lt with h | h
    · subst h
      rw [bipow_diag, norm_pow]
      simpa using pow_le_pow_left₀ (norm_nonneg _) (hz j him) (q + 1)
    · obtain ⟨i, rfl⟩ : ∃ i', i = i' + 1 := ⟨i - 1, by omega⟩
      rw [bipow_succ_succ]
      set d := i - j with hd
      have hd1 : i + 1 - j = d + 1 := by omega
      rw [hd1, Nat.choose_succ_succ]
      have hA : ‖z (i + 1) * bipow z scale q (i + 1) j‖ ≤ ‖scale‖ ^ (d + 1) * (q.choose (d + 1) : ℝ) * R ^ (q + 1 - (d + 1)) := by
        rw [norm_mul]
        have h1 := ih (i + 1) him hij
        rw [hd1] at h1
        rcases Nat.lt_or_ge q (d + 1) with hq | hq
        · rw [bipow_gt _ _ _ _ _ (by omega), norm_zero, mul_zero]; positivity
        · calc ‖z (i + 1)‖ * ‖bipow z scale q (i + 1) j‖ ≤ R * (‖scale‖ ^ (d + 1) * (q.choose (d + 1) : ℝ) * R ^ (q - (d + 1))) :=
                mul_le_mul (hz _ him) h1 (norm_nonneg _) hR
            _ = ‖scale‖ ^ (d + 1) * (q.choose (d + 1) : ℝ) * R ^ (q + 1 - (d + 1)) := by
                rw [show q + 1 - (d + 1) = q - (d + 1) + 1 by omega, pow_succ]; ring
      have hB : ‖scale * bipow z scale q i j‖ ≤ ‖scale‖ ^ (d + 1) * (q.choose d : ℝ) * R ^ (q + 1 - (d + 1)) := by
        rw [norm_mul]
        have h1 := ih i (by omega) (by omega)
        rw [← hd] at h1
        calc ‖scale‖ * ‖bipow z scale q i j‖ ≤ ‖scale‖ * (‖scale‖ ^ d * (q.choose d : ℝ) * R ^ (q - d)) :=
              mul_le_mul_of_nonneg_left h1 (norm_nonneg _)
          _ = _ := by rw [show q + 1 - (d + 1) = q - d by omega, pow_succ]; ring
      calc _ ≤ _ := norm_add_le _ _
        _ ≤ _ := add_le_add hA hB
        _ = _ := by push_cast; ring

/-- bound of the terms of the series -/
theorem term_bound (m : ℕ) (z : ℕ → K) (scale h : K) (R : ℝ) (hR : 0 ≤ R) (hz : ∀ i < m, ‖z i‖ ≤ R) (k i j p : ℕ) (hi : i < m)
    (hij : j ≤ i) :
    ‖(Nat.factorial (p + (i - j) + k) : K)⁻¹ * (h ^ (p + (i - j)) * bipow z scale (p + (i - j)) i j)‖
      ≤ (‖h * scale‖ ^ (i - j) / (Nat.factorial (i - j) : ℝ)) * ((‖h‖ * R) ^ p / (Nat.factorial p : ℝ)) := by
  set d := i - j with hd
  have h1 := bipow_bound m z scale R hR hz j (p + d) i hi hij
  rw [← hd, Nat.add_sub_cancel] at h1
  rw [norm_mul, norm_inv, RCLike.norm_natCast, norm_mul, norm_pow, norm_mul]
  have hch : ((p + d).choose d : ℝ) = (Nat.factorial (p + d) : ℝ) / (Nat.factorial d * Nat.factorial p) := by
    rw [Nat.choose_eq_factorial_div_factorial (Nat.le_add_left d p), Nat.add_sub_cancel]
    rw [Nat.cast_div]
    · push_cast; rfl
    · have := Nat.factorial_mul_factorial_dvd_factorial_add p d
      rwa [mul_comm] at this
    · have := Nat.factorial_pos d
      have := Nat.factorial_pos p
      positivity
  have hle : (Nat.factorial (p + d + k) : ℝ)⁻¹ ≤ (Nat.factorial (p + d) : ℝ)⁻¹ := by
    refine inv_anti₀ (by exact_mod_cast Nat.factorial_pos _) ?_
    exact_mod_cast Nat.factorial_le (Nat.le_add_right _ _)
  have hf0 : (Nat.factorial (p + d) : ℝ) ≠ 0 := by exact_mod_cast Nat.factorial_ne_zero _
  have hf1 : (Nat.factorial d : ℝ) ≠ 0 := by exact_mod_cast Nat.factorial_ne_zero _
  have hf2 : (Nat.factorial p : ℝ) ≠ 0 := by exact_mod_cast Nat.factorial_ne_zero _
  calc (Nat.factorial (p + d + k) : ℝ)⁻¹ * (‖h‖ ^ (p + d) * ‖bipow z scale (p + d) i j‖)
      ≤ (Nat.factorial (p + d) : ℝ)⁻¹ * (‖h‖ ^ (p + d) * (‖scale‖ ^ d * ((p + d).choose d : ℝ) * R ^ p)) := by
        refine mul_le_mul hle (mul_le_mul_of_nonneg_left h1 (by positivity)) (by positivity) (by positivity)
    _ = _ := by
        rw [hch, mul_pow, mul_pow, pow_add]
        field_simp

theorem exp_tail (ρ : ℝ) (hρ : 0 ≤ ρ) (N : ℕ) :
    Summable (fun p : ℕ => ρ ^ (p + N) / (Nat.factorial (p + N) : ℝ)) ∧
    ∑' p : ℕ, ρ ^ (p + N) / (Nat.factorial (p + N) : ℝ) ≤ ρ ^ N / (Nat.factorial N : ℝ) * Real.exp ρ := by
  have hs : Summable (fun p : ℕ => ρ ^ p / (Nat.factorial p : ℝ)) := Real.summable_pow_div_factorial ρ
  have hs2 : Summable (fun p : ℕ => ρ ^ N / (Nat.factorial N : ℝ) * (ρ ^ p / (Nat.factorial p : ℝ))) := hs.mul_left _
  have hs1 := (summable_nat_add_iff N).2 hs
  refine ⟨hs1, ?_⟩
  have he : Real.exp ρ = ∑' p : ℕ, ρ ^ p / (Nat.factorial p : ℝ) := by
    rw [Real.exp_eq_exp_ℝ, NormedSpace.exp_eq_tsum_div]
  rw [he, ← tsum_mul_left]
  refine hs1.tsum_le_tsum (fun p => ?_) hs2
  rw [div_mul_div_comm, ← pow_add, add_comm N p]
  refine div_le_div_of_nonneg_left (by positivity) (by have := Nat.factorial_pos p; have := Nat.factorial_pos N; positivity) ?_
  have := Nat.le_of_dvd (Nat.factorial_pos _) (Nat.factorial_mul_factorial_dvd_factorial_add p N)
  rw [mul_comm]
  exact_mod_cast this

/-- The entries of the exact table are bounded. -/
theorem exactTable_le (k m : ℕ) (x : ℕ → K) (shift scale h : K) (R : ℝ) (hz : ∀ i < m, ‖shift + scale * x i‖ ≤ R) (i j : Fin m)
    (hij : j ≤ i) :
    ‖exactTable k m x shift scale h i j‖
      ≤ Real.exp (‖h‖ * R) * (‖h * scale‖ ^ ((i : ℕ) - j) / (Nat.factorial ((i : ℕ) - j) : ℝ)) := by
  have hR : 0 ≤ R := (norm_nonneg _).trans (hz i i.2)
  have hρ : 0 ≤ ‖h‖ * R := by positivity
  have hs := exp_tail (‖h‖ * R) hρ 0
  simp only [add_zero, pow_zero, Nat.factorial_zero, Nat.cast_one, div_one, one_mul] at hs
  have h2 := (hs.1.mul_left (‖h * scale‖ ^ ((i : ℕ) - j) / (Nat.factorial ((i : ℕ) - j) : ℝ))).hasSum
  have h1 := (exactTable_hasSum' k m x shift scale h i j hij).norm_le_of_bounded h2
    fun p => term_bound m _ scale h R hR hz k i j p i.2 hij
  rw [tsum_mul_left] at h1
  refine h1.trans ?_
  rw [mul_comm]
  exact mul_le_mul_of_nonneg_right hs.2 (by positivity)

/-- Truncation error of the series after `N` terms. -/
theorem exactTable_trunc (k m : ℕ) (x : ℕ → K) (shift scale h : K) (R : ℝ) (hz : ∀ i < m, ‖shift + scale * x i‖ ≤ R) (i j : Fin m)
    (hij : j ≤ i) (N : ℕ) :
    ‖(∑ p ∈ Finset.range N, (Nat.factorial (p + ((i : ℕ) - j) + k) : K)⁻¹
        * (h ^ (p + ((i : ℕ) - j)) * bipow (fun i => shift + scale * x i) scale (p + ((i : ℕ) - j)) i j))
      - exactTable k m x shift scale h i j‖
      ≤ ((‖h‖ * R) ^ N / (Nat.factorial N : ℝ) * Real.exp (‖h‖ * R))
        * (‖h * scale‖ ^ ((i : ℕ) - j) / (Nat.factorial ((i : ℕ) - j) : ℝ)) := by
  have hR : 0 ≤ R := (norm_nonneg _).trans (hz i i.2)
  have hρ : 0 ≤ ‖h‖ * R := by positivity
  have hs := exp_tail (‖h‖ * R) hρ N
  have h0 := (hasSum_nat_add_iff' N).2 (exactTable_hasSum' k m x shift scale h i j hij)
  have h2 := (hs.1.mul_left (‖h * scale‖ ^ ((i : ℕ) - j) / (Nat.factorial ((i : ℕ) - j) : ℝ))).hasSum
  have h1 := h0.norm_le_of_bounded h2 fun p => term_bound m _ scale h R hR hz k i j (p + N) i.2 hij
  rw [tsum_mul_left] at h1
  rw [norm_sub_rev]
  refine h1.trans ?_
  rw [mul_comm]
  exact mul_le_mul_of_nonneg_right hs.2 (by positivity)

/-! ### powers -/

/-- Entrywise propagation of an error through powers: if `|A| ≤ a G` and `|B - A| ≤ ε G` entrywise then
`|B^n - A^n| ≤ ((a+ε)^n - a^n) G^n`. -/
theorem pow_dominated {m : ℕ} (A B : Matrix (Fin m) (Fin m) K) (G : Matrix (Fin m) (Fin m) ℝ) (a ε : ℝ) (ha : 0 ≤ a) (hε : 0 ≤ ε)
    (hG : ∀ i j, 0 ≤ G i j) (hA : ∀ i j, ‖A i j‖ ≤ a * G i j) (hAB : ∀ i j, ‖B i j - A i j‖ ≤ ε * G i j) (n : ℕ) :
    ∀ i j, ‖(A ^ n) i j‖ ≤ a ^ n * (G ^ n) i j ∧ ‖(B ^ n) i j‖ ≤ (a + ε) ^ n * (G ^ n) i j ∧
      ‖(B ^ n) i j - (A ^ n) i j‖ ≤ ((a + ε) ^ n - a ^ n) * (G ^ n) i j := by
  have hB : ∀ i j, ‖B i j‖ ≤ (a + ε) * G i j := by
    intro i j
    calc ‖B i j‖ = ‖A i j + (B i j - A i j)‖ := by congr 1; ring
      _ ≤ _ := (norm_add_le _ _).trans (add_le_add (hA i j) (hAB i j))
      _ = _ := by ring
  have hGn : ∀ n i j, 0 ≤ (G ^ n) i j := by
    intro n
    induction n with
    | zero => intro i j; rw [pow_zero, Matrix.one_apply]; split <;> norm_num
    | succ n ih =>
      intro i j
      rw [pow_succ, Matrix.mul_apply]
      exact Finset.sum_nonneg fun l _ => mul_nonneg (ih i l) (hG l j)
  induction n with
  | zero =>
    intro i j
    simp only [pow_zero, one_mul, sub_self, norm_zero, zero_mul, le_refl, and_true, Matrix.one_apply]
    split <;> simp
  | succ n ih =>
    intro i j
    have hmono : a ^ n ≤ (a + ε) ^ n := pow_le_pow_left₀ ha (by linarith) n
    refine ⟨?_, ?_, ?_⟩
    · rw [pow_succ, Matrix.mul_apply, pow_succ G, Matrix.mul_apply, Finset.mul_sum]
      refine (norm_sum_le _ _).trans (Finset.sum_le_sum fun l _ => ?_)
      rw [norm_mul]
      calc _ ≤ (a ^ n * (G ^ n) i l) * (a * G l j) :=
            mul_le_mul (ih i l).1 (hA l j) (norm_nonneg _) (mul_nonneg (by positivity) (hGn n i l))
        _ = _ := by ring
    · rw [pow_succ, Matrix.mul_apply, pow_succ G, Matrix.mul_apply, Finset.mul_sum]
      refine (norm_sum_le _ _).trans (Finset.sum_le_sum fun l _ => ?_)
      rw [norm_mul]
      calc _ ≤ ((a + ε) ^ n * (G ^ n) i l) * ((a + ε) * G l j) :=
            mul_le_mul (ih i l).2.1 (hB l j) (norm_nonneg _) (mul_nonneg (by positivity) (hGn n i l))
        _ = _ := by ring
    · rw [pow_succ, pow_succ A, Matrix.mul_apply, Matrix.mul_apply, pow_succ G, Matrix.mul_apply, Finset.mul_sum,
        ← Finset.sum_sub_distrib]
      refine (norm_sum_le _ _).trans (Finset.sum_le_sum fun l _ => ?_)
      have e : (B ^ n) i l * B l j - (A ^ n) i l * A l j
          = ((B ^ n) i l - (A ^ n) i l) * A l j + (B ^ n) i l * (B l j - A l j) := by ring
      rw [e]
      refine (norm_add_le _ _).trans ?_
      rw [norm_mul, norm_mul]
      calc _ ≤ (((a + ε) ^ n - a ^ n) * (G ^ n) i l) * (a * G l j) + ((a + ε) ^ n * (G ^ n) i l) * (ε * G l j) := by
            refine add_le_add (mul_le_mul (ih i l).2.2 (hA l j) (norm_nonneg _) ?_)
              (mul_le_mul (ih i l).2.1 (hAB l j) (norm_nonneg _) ?_)
            · exact mul_nonneg (by linarith) (hGn n i l)
            · exact mul_nonneg (by positivity) (hGn n i l)
        _ = _ := by ring

/-- the comparison matrix `σ^{i-j}/(i-j)!` (lower triangular) -/
noncomputable def cmpMat (m : ℕ) (σ : ℝ) : Matrix (Fin m) (Fin m) ℝ :=
  Matrix.of fun i j => if j ≤ i then σ ^ ((i : ℕ) - j) / (Nat.factorial ((i : ℕ) - j) : ℝ) else 0

theorem cmpMat_eq (m : ℕ) (σ : ℝ) : cmpMat m σ = exactTable 0 m (fun _ => (0 : ℝ)) 0 σ 1 := by
  ext i j
  by_cases hij : j ≤ i
  · rw [cmpMat, Matrix.of_apply, if_pos hij]
    refine ((exactTable_hasSum' 0 m (fun _ => (0 : ℝ)) 0 σ 1 i j hij).unique ?_).symm
    have h0 : ∀ q i j : ℕ, j ≤ i → q ≠ i - j → bipow (fun _ => (0 : ℝ)) σ q i j = 0 := by
      intro q
      induction q with
      | zero => intro i j h1 h2; simp [bipow]; omega
      | succ q ih =>
        intro i j h1 h2
        cases i with
        | zero => rw [bipow_succ_zero]; simp
        | succ i =>
          rw [bipow_succ_succ, zero_mul, zero_add]
          rcases Nat.lt_or_ge i j with h | h
          · rw [bipow_lt _ _ _ _ _ h, mul_zero]
          · rw [ih i j h (by omega), mul_zero]
    have hz : (fun i : ℕ => (0 : ℝ) + σ * (fun _ => (0 : ℝ)) i) = fun _ => 0 := by funext i; simp
    rw [hz]
    have hs := hasSum_single (f := fun p : ℕ => (Nat.factorial (p + ((i : ℕ) - j) + 0) : ℝ)⁻¹
        * (1 ^ (p + ((i : ℕ) - j)) * bipow (fun _ => (0 : ℝ)) σ (p + ((i : ℕ) - j)) i j)) 0 (by
      intro p hp
      rw [h0 _ _ _ hij (by omega)]
      simp)
    have : (i : ℕ) = j + (i - j) := by have : (j : ℕ) ≤ i := hij; omega
    have hb := bipow_first (fun _ => (0 : ℝ)) σ ((i : ℕ) - j) j
    rw [← this] at hb
    rw [zero_add, add_zero, hb, one_pow, one_mul, ← div_eq_inv_mul] at hs
    exact hs
  · rw [cmpMat, Matrix.of_apply, if_neg hij, exactTable_upper _ _ _ _ _ _ _ _ (not_le.1 hij)]

theorem exactTable_zero (m : ℕ) (x : ℕ → K) (shift scale h : K) :
    exactTable 0 m x shift scale h = NormedSpace.exp (h • xiShift m x shift scale) := by
  unfold exactTable phi
  rw [NormedSpace.exp_eq_tsum ℝ]
  rfl

/-- powers of the exact table for the exponential -/
theorem exactTable_pow (m : ℕ) (x : ℕ → K) (shift scale h : K) (n : ℕ) :
    exactTable 0 m x shift scale h ^ n = exactTable 0 m x shift scale (n * h) := by
  rw [exactTable_zero, exactTable_zero, ← Matrix.exp_nsmul, ← Nat.cast_smul_eq_nsmul K, smul_smul]

theorem cmpMat_pow (m : ℕ) (σ : ℝ) (n : ℕ) : cmpMat m σ ^ n = cmpMat m (n * σ) := by
  rw [cmpMat_eq, exactTable_pow, mul_one, cmpMat_eq, exactTable_zero, exactTable_zero]
  congr 1
  unfold xiShift
  have hb : ∀ c : ℝ, (0 : ℝ) • (1 : Matrix (Fin m) (Fin m) ℝ) + c • bidiag m (fun _ => (0 : ℝ)) = c • bidiag m (fun _ => (0 : ℝ)) := by
    intro c; simp
  rw [hb, hb, one_smul, smul_smul]

/-! ### changes of variable -/

theorem bipow_scale (z : ℕ → K) (scale h : K) (j : ℕ) : ∀ q i, j ≤ i →
    h ^ q * bipow z scale q i j = (h * scale) ^ (i - j) * bipow (fun i => h * z i) 1 q i j := by
  intro q
  induction q with
  | zero =>
    intro i hij
    rcases hij.eq_or_lt with h' | h'
    · subst h'; simp [bipow]
    · rw [bipow_gt _ _ _ _ _ (by omega), bipow_gt _ _ _ _ _ (by omega)]; simp
  | succ q ih =>
    intro i hij
    rcases hij.eq_or_lt with h' | h'
    · subst h'
      rw [bipow_diag, bipow_diag, Nat.sub_self, mul_pow]; ring
    · obtain ⟨i, rfl⟩ : ∃ i', i = i' + 1 := ⟨i - 1, by omega⟩
      rw [bipow_succ_succ, bipow_succ_succ]
      have e1 := ih (i + 1) hij
      have e2 := ih i (by omega)
      have e3 : i + 1 - j = i - j + 1 := by omega
      rw [e3] at e1 ⊢
      calc h ^ (q + 1) * (z (i + 1) * bipow z scale q (i + 1) j + scale * bipow z scale q i j)
          = h * z (i + 1) * (h ^ q * bipow z scale q (i + 1) j) + h * scale * (h ^ q * bipow z scale q i j) := by ring
        _ = _ := by rw [e1, e2]; ring

/-- Divided differences in the variable `x` are those in `w = h (shift + scale x)` times powers of `h scale`. -/
theorem exactTable_rescale (k m : ℕ) (x : ℕ → K) (shift scale h : K) (i j : Fin m) (hij : j ≤ i) :
    exactTable k m x shift scale h i j
      = (h * scale) ^ ((i : ℕ) - j) * exactTable k m (fun i => h * (shift + scale * x i)) 0 1 1 i j := by
  refine (exactTable_hasSum k m x shift scale h i j).unique ?_
  have h1 := (exactTable_hasSum k m (fun i => h * (shift + scale * x i)) 0 1 1 i j).mul_left ((h * scale) ^ ((i : ℕ) - j))
  refine h1.congr_fun ?_
  intro q
  rw [bipow_scale _ _ _ _ _ _ hij]
  simp only [zero_add, one_mul, one_pow]
  ring

/-- Translating all nodes by `nu` multiplies the divided differences of the exponential by `exp(nu)`. -/
theorem exactTable_translate (m : ℕ) (w : ℕ → K) (nu : K) (i j : Fin m) :
    exactTable 0 m (fun i => w i + nu) 0 1 1 i j = NormedSpace.exp nu * exactTable 0 m w 0 1 1 i j := by
  rw [exactTable_zero, exactTable_zero]
  have e : (1 : K) • xiShift m (fun i => w i + nu) 0 1 = nu • (1 : Matrix (Fin m) (Fin m) K) + (1 : K) • xiShift m w 0 1 := by
    ext a b
    simp only [xiShift, bidiag, Matrix.smul_apply, Matrix.add_apply, Matrix.of_apply, Matrix.one_apply, smul_eq_mul, zero_mul,
      zero_add, one_mul]
    split_ifs <;> ring
  rw [e, Matrix.exp_add_of_commute _ _ ((Commute.one_left _).smul_left _)]
  have e2 : NormedSpace.exp (nu • (1 : Matrix (Fin m) (Fin m) K)) = NormedSpace.exp nu • 1 := by
    rw [Matrix.smul_one_eq_diagonal, Matrix.smul_one_eq_diagonal, Matrix.exp_diagonal]
    congr 1
    funext a
    simp
  rw [e2, Matrix.smul_mul, Matrix.one_mul, Matrix.smul_apply, smul_eq_mul]

theorem bipow_peel (N : ℕ → K) (h0 : N 0 = 0) : ∀ q i, bipow N 1 (q + 1) (i + 1) 0 = bipow (fun i => N (i + 1)) 1 q i 0 := by
  intro q
  induction q with
  | zero =>
    intro i
    rw [bipow_succ_succ]
    simp [bipow]
  | succ q ih =>
    intro i
    rw [bipow_succ_succ, ih]
    cases i with
    | zero => rw [bipow_succ_zero, bipow_succ_zero, h0, zero_mul, mul_zero, add_zero]
    | succ i => rw [ih, bipow_succ_succ]

/-- A leading zero node turns `phi_k` into `phi_{k+1}` at the remaining nodes. -/
theorem exactTable_peel (k m : ℕ) (N : ℕ → K) (h0 : N 0 = 0) (i : ℕ) (hi : i < m) :
    exactTable k (m + 1) N 0 1 1 ⟨i + 1, by omega⟩ ⟨0, by omega⟩
      = exactTable (k + 1) m (fun i => N (i + 1)) 0 1 1 ⟨i, hi⟩ ⟨0, by omega⟩ := by
  have h1 := (hasSum_nat_add_iff' 1).2 (exactTable_hasSum k (m + 1) N 0 1 1 ⟨i + 1, by omega⟩ ⟨0, by omega⟩)
  rw [Finset.sum_range_one, bipow_gt _ _ _ _ _ (by simp), mul_zero, mul_zero, sub_zero] at h1
  refine h1.unique ?_
  refine (exactTable_hasSum (k + 1) m (fun i => N (i + 1)) 0 1 1 ⟨i, hi⟩ ⟨0, by omega⟩).congr_fun fun q => ?_
  simp only [zero_add, one_mul]
  rw [bipow_peel N h0, show q + (k + 1) = q + 1 + k by omega, one_pow, one_pow]

/-- `l` leading zero nodes turn divided differences of `exp` into those of `phi_l`. -/
theorem exactTable_pad (m : ℕ) (w : ℕ → K) : ∀ (l k : ℕ) (i : ℕ) (hi : i < m),
    exactTable k (l + m) (fun i => if i < l then 0 else w (i - l)) 0 1 1 ⟨l + i, by omega⟩ ⟨0, by omega⟩
      = exactTable (k + l) m w 0 1 1 ⟨i, hi⟩ ⟨0, by omega⟩
  | 0, k, i, hi => by
    simp only [Nat.not_lt_zero, if_false, Nat.sub_zero, add_zero]
    have : ∀ (m' : ℕ) (_ : m' = m) (i' : ℕ) (_ : i' = i) (h1 : i' < m') (h2 : 0 < m'),
        exactTable k m' w 0 1 1 ⟨i', h1⟩ ⟨0, h2⟩ = exactTable k m w 0 1 1 ⟨i, hi⟩ ⟨0, by omega⟩ := by
      rintro _ rfl _ rfl _ _; rfl
    exact this _ (by omega) _ (by omega) _ _
  | l + 1, k, i, hi => by
    have : ∀ (m' : ℕ) (_ : m' = (l + m) + 1) (i' : ℕ) (_ : i' = l + i + 1) (h1 : i' < m') (h2 : 0 < m'),
        exactTable k m' (fun i => if i < l + 1 then 0 else w (i - (l + 1))) 0 1 1 ⟨i', h1⟩ ⟨0, h2⟩
          = exactTable k ((l + m) + 1) (fun i => if i < l + 1 then 0 else w (i - (l + 1))) 0 1 1 ⟨l + i + 1, by omega⟩ ⟨0, by omega⟩ := by
      rintro _ rfl _ rfl _ _; rfl
    rw [this _ (by omega) _ (by omega) _ _, exactTable_peel k (l + m) _ (by simp) (l + i) (by omega)]
    have e : (fun i => if i + 1 < l + 1 then (0 : K) else w (i + 1 - (l + 1))) = fun i => if i < l then 0 else w (i - l) := by
      funext i
      simp only [Nat.add_lt_add_iff_right, Nat.add_sub_add_right]
    rw [e, exactTable_pad m w l (k + 1) i hi]
    congr 1
    omega

end
end Ormatex.Props
