import Verif.Props.DivDiff

/-!
C45 (divided differences by scaled Taylor exponentials) and C54 (zero padding).
-/

namespace Ormatex.Props
open Matrix

section
variable {K : Type*} [RCLike K]

theorem sqIter_pow {m : ℕ} (F : Matrix (Fin m) (Fin m) K) (s : ℕ) : sqIter F s = F ^ 2 ^ s := by
  induction s with
  | zero => simp [sqIter]
  | succ s ih =>
    show sqIter F s * sqIter F s = _
    rw [ih, ← pow_add, pow_succ, mul_two]

/-- **C45, bookkeeping.**  Over an exact exponential kernel, `dd_exp_taylor` (centring by any multiple `mu_scale` of the mean,
scaling by `2^-s`, `s` squarings, final factor) returns exactly the coefficients of `leja_coeffs_exp`. -/
theorem C45_bookkeeping (m : ℕ) (x : ℕ → K) (shift scale h muScale : K) (i : ℕ) :
    ddExpWith (fun _ => NormedSpace.exp) m x shift scale h muScale i
      = lejaCoeffsExp (fun _ => NormedSpace.exp) m x shift scale h i := by
  unfold ddExpWith lejaCoeffsExp ddScaled
  simp only
  set mu := ddMu m x shift scale h muScale
  set z := xiShift m x shift scale - mu • (1 : Matrix (Fin m) (Fin m) K) with hz
  set s := numSquarings (maxAbs z)
  have h2 : (2 : K) ^ s ≠ 0 := pow_ne_zero _ two_ne_zero
  have hF : sqIter (NormedSpace.exp ((1 / (2 : K) ^ s * h) • z)) s = NormedSpace.exp (h • z) := by
    rw [sqIter_pow, ← Matrix.exp_nsmul]
    congr 1
    rw [← Nat.cast_smul_eq_nsmul K, smul_smul]
    congr 1
    push_cast
    field_simp
  rw [hF]
  have hexp : NormedSpace.exp (h • xiShift m x shift scale) = NormedSpace.exp (h * mu) • NormedSpace.exp (h • z) := by
    have e : h • xiShift m x shift scale = (h * mu) • (1 : Matrix (Fin m) (Fin m) K) + h • z := by
      rw [hz, smul_sub, smul_smul]; abel
    rw [e, Matrix.exp_add_of_commute _ _ ((Commute.one_left _).smul_left _)]
    have e2 : NormedSpace.exp ((h * mu) • (1 : Matrix (Fin m) (Fin m) K)) = NormedSpace.exp (h * mu) • 1 := by
      rw [Matrix.smul_one_eq_diagonal, Matrix.smul_one_eq_diagonal, Matrix.exp_diagonal]
      congr 1
      funext a
      simp
    rw [e2, Matrix.smul_mul, Matrix.one_mul]
  rw [hexp]
  unfold firstCol
  split <;> simp

/-- **C45, scaling.**  The matrix handed to the Taylor kernel has entries of modulus at most `|h|` (at most 1 for the
default substep), whatever the nodes. -/
theorem C45_scaled_small (m : ℕ) (x : ℕ → K) (shift scale h muScale : K) (i j : Fin m) :
    ‖(ddScaled m x shift scale h muScale).1 i j‖ ≤ ‖h‖ := by
  unfold ddScaled
  simp only
  set z := xiShift m x shift scale - ddMu m x shift scale h muScale • (1 : Matrix (Fin m) (Fin m) K) with hz
  have hle : ‖z i j‖ ≤ maxAbs z := le_ciSup (f := fun p : Fin m × Fin m => ‖z p.1 p.2‖) (Set.finite_range _).bddAbove (i, j)
  set a := maxAbs z with ha
  have ha0 : 0 ≤ a := (norm_nonneg _).trans hle
  have hpow : a ≤ 2 ^ numSquarings a := by
    rcases ha0.eq_or_lt with h0 | h0
    · rw [← h0]; positivity
    · have hlog : Real.log a / Real.log 2 ≤ (numSquarings a : ℝ) := by
        refine (Int.le_ceil _).trans ?_
        unfold numSquarings
        have h1 : (⌈Real.log a / Real.log 2⌉ : ℤ) ≤ ((max ⌈Real.log a / Real.log 2⌉ 1).toNat : ℤ) := by
          rw [Int.toNat_of_nonneg (le_trans zero_le_one (le_max_right _ _))]
          exact le_max_left _ _
        exact_mod_cast h1
      have hl2 : 0 < Real.log 2 := Real.log_pos one_lt_two
      rw [div_le_iff₀ hl2] at hlog
      rw [← Real.log_le_log_iff h0 (by positivity), Real.log_pow]
      exact hlog
  rw [Matrix.smul_apply, smul_eq_mul, norm_mul, norm_mul, norm_div, norm_one, norm_pow, RCLike.norm_ofNat, one_div]
  have hp : (0 : ℝ) < 2 ^ numSquarings a := by positivity
  calc (2 ^ numSquarings a)⁻¹ * ‖h‖ * ‖z i j‖ ≤ (2 ^ numSquarings a)⁻¹ * ‖h‖ * 2 ^ numSquarings a := by
        refine mul_le_mul_of_nonneg_left (hle.trans hpow) (by positivity)
    _ = ‖h‖ := by field_simp

/-- **C45, expm_taylor.**  `expm_taylor(A, shift, scale, p)` is `exp(shift) (I + scale * sum_{1<=j<=p} A^j/j!)`.  For
`scale = 1` (the only value used in the package) this is `exp(shift)` times the degree-`p` Taylor polynomial of `exp(A)`. -/
theorem C45_expm_taylor {m : ℕ} (A : Matrix (Fin m) (Fin m) K) (shift scale : K) (p : ℕ) :
    expmTaylor A shift scale p
      = NormedSpace.exp shift • (1 + scale • ∑ j ∈ Finset.range p, ((Nat.factorial (j + 1) : K)⁻¹) • A ^ (j + 1)) ∧
    expmTaylor A shift 1 p = NormedSpace.exp shift • ∑ j ∈ Finset.range (p + 1), ((Nat.factorial j : K)⁻¹) • A ^ j := by
  have hl : ∀ i, expmTaylorLoop A scale i
      = (1 + scale • ∑ j ∈ Finset.range i, ((Nat.factorial (j + 1) : K)⁻¹) • A ^ (j + 1), scale • A ^ (i + 1)) := by
    intro i
    induction i with
    | zero => simp [expmTaylorLoop]
    | succ i ih =>
      unfold expmTaylorLoop
      rw [ih, Finset.sum_range_succ, smul_add, ← add_assoc]
      simp only [Prod.mk.injEq]
      refine ⟨?_, ?_⟩
      · rw [smul_comm]
      · rw [Matrix.mul_smul, ← pow_succ']
  have hl1 : ∀ i, expmTaylorLoop A 1 i = (∑ j ∈ Finset.range (i + 1), ((Nat.factorial j : K)⁻¹) • A ^ j, A ^ (i + 1)) := by
    intro i
    induction i with
    | zero => simp [expmTaylorLoop]
    | succ i ih =>
      unfold expmTaylorLoop
      rw [ih, Finset.sum_range_succ (n := i + 1)]
      simp only [Prod.mk.injEq, true_and]
      rw [← pow_succ']
  refine ⟨?_, ?_⟩
  · unfold expmTaylor
    rw [hl]
  · unfold expmTaylor
    rw [hl1]

/-- **C45, the documented formula fails for other scales**: `expm_taylor([1], 0, 2, 2) = 4`, while the degree-2 Taylor
polynomial of `exp(2)` is `5`. -/
theorem C45_expm_taylor_scale_counterexample :
    expmTaylor (1 : Matrix (Fin 1) (Fin 1) ℝ) 0 2 2 = (4 : ℝ) • 1 ∧
    (∑ j ∈ Finset.range 3, ((Nat.factorial j : ℝ)⁻¹) • ((2 : ℝ) • (1 : Matrix (Fin 1) (Fin 1) ℝ)) ^ j) = (5 : ℝ) • 1 := by
  refine ⟨?_, ?_⟩
  · rw [(C45_expm_taylor _ _ _ _).1]
    ext i j
    obtain rfl : i = j := Subsingleton.elim _ _
    simp [Finset.sum_range_succ, Nat.factorial, NormedSpace.exp_zero]
    norm_num
  · ext i j
    obtain rfl : i = j := Subsingleton.elim _ _
    simp [Finset.sum_range_succ, Nat.factorial, smul_pow]
    norm_num

/-- **C45, the coefficients actually computed**: `dd_exp_taylor` is `exp(h mu)` times the first column of the `2^s`-th power of
the Taylor polynomial of the scaled matrix. -/
theorem C45_computed (m : ℕ) (x : ℕ → K) (shift scale h : K) (p : ℕ) (muScale : K) (i : ℕ) :
    ddExpTaylor m x shift scale h p muScale i = NormedSpace.exp (h * ddMu m x shift scale h muScale)
      * firstCol ((∑ j ∈ Finset.range (p + 1), ((Nat.factorial j : K)⁻¹)
          • (ddScaled m x shift scale h muScale).1 ^ j) ^ 2 ^ (ddScaled m x shift scale h muScale).2) i := by
  unfold ddExpTaylor ddExpWith
  simp only
  rw [sqIter_pow, (C45_expm_taylor _ _ 1 _).2, NormedSpace.exp_zero, one_smul]

/-! ### zero padding -/

/-- **C54.**  `leja_seq_pad_zeros(x, p)` is `p` pairwise distinct nodes `1e-12, 2e-12, ..., p 1e-12` followed by `x`. -/
theorem C54_pad (p : ℕ) (x : ℕ → K) :
    (∀ i < p, lejaSeqPadZeros p x i = ((i : K) + 1) * 1e-12) ∧ (∀ i, lejaSeqPadZeros p x (p + i) = x i) ∧
    Set.InjOn (lejaSeqPadZeros p x) (Finset.range p) ∧ ∀ i < p, ‖lejaSeqPadZeros p x i‖ ≤ p * 1e-12 := by
  have h1 : ∀ i < p, lejaSeqPadZeros p x i = ((i : K) + 1) * 1e-12 := by
    intro i hi
    unfold lejaSeqPadZeros
    rw [if_pos hi]
    split_ifs with h
    · obtain rfl : i = 0 := by omega
      simp
    · have hne : (p : K) - 1 ≠ 0 := by
        rw [sub_ne_zero]
        exact_mod_cast h
      field_simp
      ring
  have hpos : (1e-12 : K) ≠ 0 := by norm_num
  refine ⟨h1, ?_, ?_, ?_⟩
  · intro i
    unfold lejaSeqPadZeros
    rw [if_neg (by omega), Nat.add_sub_cancel_left]
  · intro i hi j hj h
    simp only [Finset.coe_range, Set.mem_Iio] at hi hj
    rw [h1 i hi, h1 j hj] at h
    have := mul_right_cancel₀ hpos h
    have := add_right_cancel this
    exact_mod_cast this
  · intro i hi
    rw [h1 i hi, norm_mul]
    have e : ‖(1e-12 : K)‖ = 1e-12 := by
      rw [show (1e-12 : K) = ((1e-12 : ℝ) : K) by push_cast; rfl, RCLike.norm_ofReal]
      norm_num
    rw [e]
    refine mul_le_mul_of_nonneg_right ?_ (by norm_num)
    rw [show (i : K) + 1 = ((i + 1 : ℕ) : K) by push_cast; rfl, RCLike.norm_natCast]
    exact_mod_cast hi

example : ∃ p : ℕ, 1 ≤ p ∧ lejaSeqPadZeros p (fun _ => (5 : ℝ)) 2 = 3 * 1e-12 ∧ lejaSeqPadZeros p (fun _ => (5 : ℝ)) 3 = 5 := by
  refine ⟨3, by norm_num, ?_, ?_⟩
  · rw [(C54_pad 3 _).1 2 (by norm_num)]; norm_num
  · exact (C54_pad 3 _).2.1 0

end
end Ormatex.Props
