import Verif.Props.PhiSq

/-!
Scaling and accuracy of `f_phi_k_sq` and of `f_phi_k_appl` as coded (C22, C23).
-/

namespace Ormatex.Props
open Matrix Ormatex.Spec

/-! ### generic Banach algebra estimates -/

section banach
set_option linter.unusedSectionVars false
variable {𝔸 : Type*} [NormedRing 𝔸] [NormedAlgebra ℝ 𝔸] [CompleteSpace 𝔸] [NormOneClass 𝔸]

/-- quartic Taylor polynomial of the exponential -/
noncomputable def taylor4 (x : 𝔸) : 𝔸 := ∑ i ∈ Finset.range 5, ((Nat.factorial i : ℝ)⁻¹) • x ^ i

theorem norm_term_le (x : 𝔸) (i : ℕ) :
    ‖((Nat.factorial i : ℝ)⁻¹) • x ^ i‖ ≤ ‖x‖ ^ i / (Nat.factorial i : ℝ) := by
  rw [norm_smul, norm_inv, Real.norm_natCast, inv_mul_eq_div]
  gcongr
  exact norm_pow_le x i

theorem taylor4_norm_le (x : 𝔸) : ‖taylor4 x‖ ≤ Real.exp ‖x‖ := by
  refine le_trans (norm_sum_le _ _) (le_trans (Finset.sum_le_sum fun i _ => norm_term_le x i) ?_)
  exact Real.sum_le_exp_of_nonneg (norm_nonneg _) 5

theorem exp_norm_le (x : 𝔸) : ‖NormedSpace.exp x‖ ≤ Real.exp ‖x‖ := by
  have h := phi_hasSum 0 x
  rw [phi_zero] at h
  have hr : HasSum (fun i : ℕ => ‖x‖ ^ i / (Nat.factorial i : ℝ)) (Real.exp ‖x‖) := by
    have := NormedSpace.expSeries_div_hasSum_exp ‖x‖
    rwa [← Real.exp_eq_exp_ℝ] at this
  exact (hasSum_of_nonneg_le h hr (fun i => norm_term_le x i))
where
  hasSum_of_nonneg_le {f : ℕ → 𝔸} {g : ℕ → ℝ} {a : 𝔸} {b : ℝ} (hf : HasSum f a) (hg : HasSum g b)
      (h : ∀ i, ‖f i‖ ≤ g i) : ‖a‖ ≤ b := by
    rw [← hf.tsum_eq, ← hg.tsum_eq]
    exact tsum_of_norm_bounded hg h |>.trans (le_of_eq hg.tsum_eq.symm)

theorem exp_sub_taylor4 (x : 𝔸) : ‖NormedSpace.exp x - taylor4 x‖ ≤ ‖x‖ ^ 5 / 120 * Real.exp ‖x‖ := by
  have h := phi_hasSum 0 x
  rw [phi_zero] at h
  have h5 := (hasSum_nat_add_iff' 5).mpr h
  have hr : HasSum (fun i : ℕ => ‖x‖ ^ 5 / 120 * (‖x‖ ^ i / (Nat.factorial i : ℝ)))
      (‖x‖ ^ 5 / 120 * Real.exp ‖x‖) := by
    have := NormedSpace.expSeries_div_hasSum_exp ‖x‖
    rw [← Real.exp_eq_exp_ℝ] at this
    exact this.mul_left _
  refine exp_norm_le.hasSum_of_nonneg_le h5 hr fun i => ?_
  refine le_trans (norm_term_le x (i + 5)) ?_
  rw [div_mul_div_comm, pow_add, mul_comm (‖x‖ ^ i)]
  have hf : (120 : ℝ) * (Nat.factorial i : ℝ) ≤ (Nat.factorial (i + 5) : ℝ) := by
    have := Nat.le_of_dvd (Nat.factorial_pos _) (Nat.factorial_mul_factorial_dvd_factorial_add i 5)
    have h120 : Nat.factorial 5 = 120 := rfl
    rw [h120] at this
    have h2 : ((Nat.factorial i * 120 : ℕ) : ℝ) ≤ (Nat.factorial (i + 5) : ℝ) := by exact_mod_cast this
    push_cast at h2
    linarith
  have hp : (0 : ℝ) < 120 * (Nat.factorial i : ℝ) := by
    have := Nat.factorial_pos i
    positivity
  exact div_le_div_of_nonneg_left (by positivity) hp hf

theorem pow_sub_pow_le (A B : 𝔸) (C ε : ℝ) (hC : 0 ≤ C) (hε : 0 ≤ ε) (hA : ‖A‖ ≤ C) (hB : ‖B‖ ≤ C)
    (h : ‖A - B‖ ≤ ε * C) (m : ℕ) : ‖A ^ m - B ^ m‖ ≤ m * ε * C ^ m := by
  induction m with
  | zero => simp
  | succ m ih =>
    have e : A ^ (m + 1) - B ^ (m + 1) = A ^ m * (A - B) + (A ^ m - B ^ m) * B := by
      rw [pow_succ, pow_succ]; noncomm_ring
    rw [e]
    have hAm : ‖A ^ m‖ ≤ C ^ m := le_trans (norm_pow_le A m) (pow_le_pow_left₀ (norm_nonneg _) hA m)
    calc ‖A ^ m * (A - B) + (A ^ m - B ^ m) * B‖
        ≤ ‖A ^ m‖ * ‖A - B‖ + ‖A ^ m - B ^ m‖ * ‖B‖ :=
          le_trans (norm_add_le _ _) (add_le_add (norm_mul_le _ _) (norm_mul_le _ _))
      _ ≤ C ^ m * (ε * C) + (m * ε * C ^ m) * C := by
          gcongr
      _ = ((m + 1 : ℕ) : ℝ) * ε * C ^ (m + 1) := by push_cast; ring

/-- Scaling and squaring of the quartic Taylor polynomial with `m` factors. -/
theorem taylor4_pow_error (x : 𝔸) (r : ℝ) (hx : ‖x‖ ≤ r) (m : ℕ) :
    ‖NormedSpace.exp x ^ m - taylor4 x ^ m‖ ≤ (m * r) * Real.exp (m * r) * r ^ 4 / 120 := by
  have hr : 0 ≤ r := le_trans (norm_nonneg _) hx
  have h := pow_sub_pow_le (NormedSpace.exp x) (taylor4 x) (Real.exp r) (r ^ 5 / 120) (Real.exp_pos _).le
    (by positivity) (le_trans (exp_norm_le x) (Real.exp_le_exp.mpr hx))
    (le_trans (taylor4_norm_le x) (Real.exp_le_exp.mpr hx))
    (le_trans (exp_sub_taylor4 x) (by gcongr)) m
  refine le_trans h (le_of_eq ?_)
  rw [← Real.exp_nat_mul]
  ring

end banach

/-! ### C22: number of squarings -/

/-- **C22 (scaling).** With the number of squarings chosen by the code the scaled norm is below `1/8`, and no squaring is
done when the norm is already below `1/16`. -/
theorem C22_scaling (theta : ℝ) (h : 0 ≤ theta) :
    theta / 2 ^ nScale theta < 1 / 8 ∧ (theta < 1 / 16 → nScale theta = 0) := by
  rcases h.eq_or_lt with rfl | hpos
  · simp [nScale]
  have h16 : (0 : ℝ) < theta * 16 := by linarith
  constructor
  · rw [div_lt_div_iff₀ (by positivity) (by norm_num)]
    have hfl := Nat.lt_floor_add_one (max 0 (Real.logb 2 (theta * 16)))
    have h1 : Real.logb 2 (theta * 16) < (nScale theta : ℝ) + 1 := lt_of_le_of_lt (le_max_right _ _) hfl
    rw [Real.logb_lt_iff_lt_rpow (by norm_num) h16] at h1
    have e : (2 : ℝ) ^ ((nScale theta : ℝ) + 1) = 2 ^ nScale theta * 2 := by
      rw [Real.rpow_add (by norm_num), Real.rpow_natCast, Real.rpow_one]
    rw [e] at h1
    linarith
  · intro hs
    unfold nScale
    have : Real.logb 2 (theta * 16) ≤ 0 := by
      apply Real.logb_nonpos (by norm_num) h16.le
      linarith
    rw [max_eq_left this]
    simp

section norm
open scoped Matrix.Norms.Operator

theorem infNorm_eq_norm {N : ℕ} (z : Mat N) : infNorm z = ‖z‖ := by
  unfold infNorm
  rw [Matrix.linfty_opNorm_def]
  rcases N with _ | N
  · simp
  · have hb : BddAbove (Set.range fun i => ∑ j, |z i j|) := Set.finite_range _ |>.bddAbove
    apply le_antisymm
    · refine ciSup_le fun i => ?_
      have := Finset.le_sup (f := fun i => ∑ j, ‖z i j‖₊) (Finset.mem_univ i)
      have h2 : ((∑ j, ‖z i j‖₊ : NNReal) : ℝ) ≤ _ := NNReal.coe_le_coe.mpr this
      rw [NNReal.coe_sum] at h2
      simpa using h2
    · obtain ⟨i, _, hi⟩ := Finset.exists_mem_eq_sup (Finset.univ : Finset (Fin (N + 1))) Finset.univ_nonempty
        (fun i => ∑ j, ‖z i j‖₊)
      rw [hi, NNReal.coe_sum]
      exact le_ciSup (f := fun i => ∑ j, |z i j|) hb i

theorem norm_entry_le {k : ℕ} {α : Type*} [SeminormedAddCommGroup α] (A : Matrix (Fin k) (Fin k) α) (a b : Fin k) :
    ‖A a b‖ ≤ ‖A‖ := by
  rw [Matrix.linfty_opNorm_def]
  have h1 : ‖A a b‖₊ ≤ ∑ j, ‖A a j‖₊ :=
    Finset.single_le_sum (f := fun j => ‖A a j‖₊) (fun _ _ => by simp) (Finset.mem_univ b)
  have h2 := Finset.le_sup (f := fun i => ∑ j, ‖A i j‖₊) (Finset.mem_univ a)
  exact NNReal.coe_le_coe.mpr (h1.trans h2)

end norm

/-! ### the block algebra -/

/-- `[[w, δ, 0, ...], [0, 0, δ, ...], ...]` with blocks in the algebra of matrices -/
def blockJ {N : ℕ} (k : ℕ) (w : Mat N) (δ : ℝ) : Matrix (Fin (k + 1)) (Fin (k + 1)) (Mat N) :=
  Matrix.of fun a b =>
    if b = 0 then (if a = 0 then w else 0) else if (b : ℕ) = a + 1 then δ • (1 : Mat N) else 0

theorem blockJ_pow {N : ℕ} (k : ℕ) (w : Mat N) (δ : ℝ) (j : ℕ) : ∀ a l : Fin (k + 1),
    (blockJ k w δ ^ j) a l = if a = 0 then (if j < (l : ℕ) then 0 else δ ^ (l : ℕ) • w ^ (j - l))
      else if (l : ℕ) = a + j then δ ^ j • (1 : Mat N) else 0 := by
  induction j with
  | zero =>
    intro a l
    rw [pow_zero, Matrix.one_apply]
    by_cases ha : a = 0
    · subst ha
      by_cases hl : l = 0
      · subst hl; simp
      · have : 0 < (l : ℕ) := Nat.pos_of_ne_zero (fun h => hl (Fin.ext h))
        rw [if_neg (fun h => hl h.symm), if_pos rfl, if_pos this]
    · rw [if_neg ha]
      by_cases h : a = l
      · subst h; simp
      · rw [if_neg h, if_neg]
        intro h2
        exact h (Fin.ext (by omega))
  | succ j ih =>
    intro a l
    rw [pow_succ, Matrix.mul_apply]
    by_cases hl : l = 0
    · subst hl
      rw [Finset.sum_eq_single 0]
      · rw [ih]
        simp only [blockJ, Matrix.of_apply, if_true]
        by_cases ha : a = 0
        · simp [ha, pow_succ]
        · have ha' : (a : ℕ) ≠ 0 := fun h => ha (Fin.ext h)
          rw [if_neg ha, if_neg ha, if_neg (by simp only [Fin.val_zero]; omega),
            if_neg (by simp only [Fin.val_zero]; omega), zero_mul]
      · intro b _ hb
        simp [blockJ, hb]
      · intro h; exact absurd (Finset.mem_univ _) h
    · have hl0 : 0 < (l : ℕ) := Nat.pos_of_ne_zero (fun h => hl (Fin.ext h))
      rw [Finset.sum_eq_single (⟨l - 1, by omega⟩ : Fin (k + 1))]
      · rw [ih]
        simp only [blockJ, Matrix.of_apply, if_neg hl]
        rw [if_pos (show (l : ℕ) = (l : ℕ) - 1 + 1 by omega)]
        by_cases ha : a = 0
        · rw [if_pos ha, if_pos ha]
          by_cases h : j < (l : ℕ) - 1
          · rw [if_pos h, if_pos (by omega), zero_mul]
          · rw [if_neg h, if_neg (by omega), mul_smul_comm, mul_one, smul_smul, ← pow_succ',
              show (l : ℕ) - 1 + 1 = l by omega, show j + 1 - (l : ℕ) = j - (l - 1) by omega]
        · rw [if_neg ha, if_neg ha]
          by_cases h : (l : ℕ) - 1 = a + j
          · rw [if_pos h, if_pos (by omega), mul_smul_comm, mul_one, smul_smul, ← pow_succ']
          · rw [if_neg h, if_neg (by omega), zero_mul]
      · intro b _ hb
        simp only [blockJ, Matrix.of_apply, if_neg hl]
        rw [if_neg, mul_zero]
        intro h
        exact hb (Fin.ext (by simp only; omega))
      · intro h; exact absurd (Finset.mem_univ _) h

/-- `M` has first block row `δ^l L_l` and, below, the exponential of the scaled nilpotent shift -/
def Blk {N : ℕ} (k : ℕ) (M : Matrix (Fin (k + 1)) (Fin (k + 1)) (Mat N)) (L : List (Mat N)) (δ : ℝ) : Prop :=
  (∀ l, M 0 l = δ ^ (l : ℕ) • L.getD l 0) ∧
  ∀ a l, a ≠ 0 → M a l = if (a : ℕ) ≤ l then (δ ^ ((l : ℕ) - a) / (Nat.factorial (l - a) : ℝ)) • (1 : Mat N) else 0

theorem Blk.sq {N k : ℕ} {M : Matrix (Fin (k + 1)) (Fin (k + 1)) (Mat N)} {L : List (Mat N)} {δ : ℝ}
    (hL : L.length = k + 1) (h : Blk k M L δ) : Blk k (M * M) (sqStep k L) (2 * δ) := by
  obtain ⟨h0, h1⟩ := h
  obtain ⟨_, hs0, hsj⟩ := C21_pass k L hL
  constructor
  · intro l
    rw [Matrix.mul_apply, Fin.sum_univ_succ]
    let F : ℕ → Mat N := fun q => if q < (l : ℕ) then
      δ ^ (l : ℕ) • (((Nat.factorial ((l : ℕ) - (q + 1)) : ℝ)⁻¹) • L.getD (q + 1) 0) else 0
    have e1 : ∀ y : Fin k, M 0 y.succ * M y.succ l = F y := by
      intro y
      simp only [F]
      rw [h0, h1 _ _ (Fin.succ_ne_zero y)]
      simp only [Fin.val_succ]
      by_cases hy : (y : ℕ) + 1 ≤ l
      · rw [if_pos hy, if_pos (by omega), smul_mul_smul_comm, mul_one, smul_smul]
        congr 1
        rw [div_eq_mul_inv, ← mul_assoc, ← pow_add, show (y : ℕ) + 1 + (l - (y + 1)) = l by omega]
      · rw [if_neg hy, if_neg (by omega), mul_zero]
    rw [(Finset.sum_congr rfl (fun y _ => e1 y)).trans (Fin.sum_univ_eq_sum_range F k)]
    simp only [F]
    rw [← Finset.sum_filter]
    have e2 : (Finset.range k).filter (fun q => q < (l : ℕ)) = Finset.range l := by
      ext q
      simp only [Finset.mem_filter, Finset.mem_range]
      omega
    rw [e2, h0, h0]
    simp only [Fin.val_zero, pow_zero, one_smul]
    by_cases hl : l = 0
    · subst hl
      simp only [Fin.val_zero, pow_zero, one_smul, Finset.range_zero, Finset.sum_empty, add_zero, hs0]
    · have hl0 : 1 ≤ (l : ℕ) := Nat.pos_of_ne_zero (fun h => hl (Fin.ext h))
      rw [hsj l hl0 (by omega), smul_smul, mul_pow, mul_comm ((2 : ℝ) ^ _), mul_assoc, mul_inv_cancel₀ (by positivity),
        mul_one, smul_add, mul_smul_comm, Finset.smul_sum]
  · intro a l ha
    have ha0 : 1 ≤ (a : ℕ) := Nat.pos_of_ne_zero (fun h => ha (Fin.ext h))
    rw [Matrix.mul_apply]
    let F : ℕ → Mat N := fun q => if (a : ℕ) ≤ q ∧ q ≤ (l : ℕ) then (δ ^ (q - a) / (Nat.factorial (q - a) : ℝ)
            * (δ ^ ((l : ℕ) - q) / (Nat.factorial ((l : ℕ) - q) : ℝ))) • (1 : Mat N) else 0
    have e1 : ∀ y : Fin (k + 1), M a y * M y l = F y := by
      intro y
      simp only [F]
      rw [h1 a y ha]
      by_cases hy : (a : ℕ) ≤ y
      · have hy0 : y ≠ 0 := by
          intro h
          rw [h] at hy
          simp only [Fin.val_zero] at hy
          omega
        rw [if_pos hy, h1 y l hy0]
        by_cases hyl : (y : ℕ) ≤ l
        · rw [if_pos hyl]
          simp only [hy, hyl, and_self, if_true]
          rw [smul_mul_smul_comm, mul_one]
        · rw [if_neg hyl]
          simp only [hyl, and_false, if_false, mul_zero]
      · rw [if_neg hy]
        simp only [hy, false_and, if_false, zero_mul]
    rw [(Finset.sum_congr rfl (fun y _ => e1 y)).trans (Fin.sum_univ_eq_sum_range F (k + 1))]
    simp only [F]
    rw [← Finset.sum_filter]
    have e2 : (Finset.range (k + 1)).filter (fun q => (a : ℕ) ≤ q ∧ q ≤ (l : ℕ)) = Finset.Ico (a : ℕ) (l + 1) := by
      ext q
      simp only [Finset.mem_filter, Finset.mem_range, Finset.mem_Ico]
      omega
    rw [e2, Finset.sum_Ico_eq_sum_range]
    by_cases hal : (a : ℕ) ≤ l
    · rw [if_pos hal, ← Finset.sum_smul]
      congr 1
      obtain ⟨d, hd⟩ := Nat.exists_eq_add_of_le hal
      rw [hd, show (a : ℕ) + d - a = d by omega, show (a : ℕ) + d + 1 - a = d + 1 by omega, two_mul, add_pow,
        Finset.sum_div]
      refine Finset.sum_congr rfl fun i hi => ?_
      have hi' : i ≤ d := by have := Finset.mem_range.mp hi; omega
      rw [show (a : ℕ) + i - a = i by omega, show (a : ℕ) + d - (a + i) = d - i by omega]
      have hc := Nat.choose_mul_factorial_mul_factorial hi'
      have hc' : ((d.choose i : ℝ)) * (Nat.factorial i) * (Nat.factorial (d - i)) = Nat.factorial d := by
        exact_mod_cast hc
      have h1 : (Nat.factorial i : ℝ) ≠ 0 := by exact_mod_cast Nat.factorial_ne_zero _
      have h2 : (Nat.factorial (d - i) : ℝ) ≠ 0 := by exact_mod_cast Nat.factorial_ne_zero _
      have h3 : (Nat.factorial d : ℝ) ≠ 0 := by exact_mod_cast Nat.factorial_ne_zero _
      field_simp
      rw [← hc']
      ring
    · rw [if_neg hal, show (l : ℕ) + 1 - a = 0 by omega]
      simp

theorem Blk.iter {N k : ℕ} (s : ℕ) : ∀ {M : Matrix (Fin (k + 1)) (Fin (k + 1)) (Mat N)} {L : List (Mat N)} {δ : ℝ}
    (_ : L.length = k + 1) (_ : Blk k M L δ), Blk k (M ^ (2 ^ s)) ((sqStep k)^[s] L) (2 ^ s * δ) := by
  induction s with
  | zero => intro M L δ _ h; simpa using h
  | succ s ih =>
    intro M L δ hL h
    have h2 := ih (by rw [sqStep_length]; exact hL) (h.sq hL)
    rw [Function.iterate_succ_apply, pow_succ (2 : ℝ), mul_assoc, pow_succ', pow_mul, pow_two]
    exact h2

theorem blk_taylor {N k : ℕ} (hk : k ≤ 3) (w : Mat N) (δ : ℝ) :
    Blk k (∑ i ∈ Finset.range 5, ((Nat.factorial i : ℝ)⁻¹) • blockJ k w δ ^ i)
      ((List.range (k + 1)).map fun j => taylorPhi w j 4) δ := by
  constructor
  · intro l
    rw [Matrix.sum_apply]
    simp only [Matrix.smul_apply, blockJ_pow, if_true]
    have hl : (((List.range (k + 1)).map fun j => taylorPhi w j 4).getD l 0) = taylorPhi w l 4 := by
      rw [List.getD_eq_getElem?_getD, List.getElem?_map, List.getElem?_range (by omega)]
      rfl
    rw [hl, taylorPhi]
    have hl3 : (l : ℕ) ≤ 3 := by omega
    have e5 : 5 = (l : ℕ) + (4 + 1 - l) := by omega
    conv_lhs => rw [e5]
    rw [Finset.sum_range_add, Finset.sum_eq_zero (s := Finset.range (l : ℕ)), zero_add, Finset.smul_sum]
    · refine Finset.sum_congr rfl fun i _ => ?_
      rw [if_neg (by omega), Nat.add_sub_cancel_left, smul_comm, add_comm (l : ℕ) i]
    · intro i hi
      rw [if_pos (Finset.mem_range.mp hi), smul_zero]
  · intro a l ha
    have ha0 : 1 ≤ (a : ℕ) := Nat.pos_of_ne_zero (fun h => ha (Fin.ext h))
    rw [Matrix.sum_apply]
    simp only [Matrix.smul_apply, blockJ_pow, if_neg ha]
    by_cases hal : (a : ℕ) ≤ l
    · rw [if_pos hal, Finset.sum_eq_single ((l : ℕ) - a)]
      · rw [if_pos (by omega), smul_smul, inv_mul_eq_div]
      · intro i _ hi
        rw [if_neg (by omega), smul_zero]
      · intro h
        exact absurd (Finset.mem_range.mpr (by omega)) h
    · rw [if_neg hal]
      refine Finset.sum_eq_zero fun i _ => ?_
      rw [if_neg (by omega), smul_zero]

section acc
open scoped Matrix.Norms.Operator

theorem blk_exp {N k : ℕ} (w : Mat N) (δ : ℝ) :
    Blk k (NormedSpace.exp (blockJ k w δ)) ((List.range (k + 1)).map fun j => phiM j w) δ := by
  have hs := phi_hasSum 0 (blockJ k w δ)
  rw [phi_zero] at hs
  have he : ∀ a l, HasSum (fun j : ℕ => ((Nat.factorial j : ℝ)⁻¹) • (blockJ k w δ ^ j) a l)
      (NormedSpace.exp (blockJ k w δ) a l) := fun a l => Pi.hasSum.mp (Pi.hasSum.mp hs a) l
  constructor
  · intro l
    have h := he 0 l
    have hl : (((List.range (k + 1)).map fun j => phiM j w).getD l 0) = phiM l w := phiList_getD k w l (by omega)
    rw [hl]
    simp only [blockJ_pow, if_true] at h
    have h2 := (hasSum_nat_add_iff' (l : ℕ)).mpr h
    rw [Finset.sum_eq_zero (fun i hi => by rw [if_pos (Finset.mem_range.mp hi), smul_zero]), sub_zero] at h2
    have h3 := (phiM_hasSum l w).const_smul (δ ^ (l : ℕ))
    have e : (fun n : ℕ => ((Nat.factorial (n + (l : ℕ)) : ℝ)⁻¹)
        • (if n + (l : ℕ) < (l : ℕ) then (0 : Mat N) else δ ^ (l : ℕ) • w ^ (n + (l : ℕ) - (l : ℕ))))
        = fun n => δ ^ (l : ℕ) • ((Nat.factorial (n + (l : ℕ)) : ℝ)⁻¹) • w ^ n := by
      funext n
      rw [if_neg (by omega), Nat.add_sub_cancel, smul_comm]
    rw [e] at h2
    exact h2.unique h3
  · intro a l ha
    have h := he a l
    simp only [blockJ_pow, if_neg ha] at h
    refine h.unique ?_
    by_cases hal : (a : ℕ) ≤ l
    · rw [if_pos hal]
      have := hasSum_single (f := fun j : ℕ => ((Nat.factorial j : ℝ)⁻¹)
        • (if (l : ℕ) = a + j then δ ^ j • (1 : Mat N) else 0)) ((l : ℕ) - a) (fun j hj => by
          rw [if_neg (by omega), smul_zero])
      rw [if_pos (by omega), smul_smul, inv_mul_eq_div] at this
      exact this
    · rw [if_neg hal]
      have : (fun j : ℕ => ((Nat.factorial j : ℝ)⁻¹) • (if (l : ℕ) = a + j then δ ^ j • (1 : Mat N) else 0))
          = fun _ => 0 := by
        funext j
        rw [if_neg (by omega), smul_zero]
      rw [this]
      exact hasSum_zero

theorem blockJ_norm_le {N k : ℕ} [Nonempty (Fin N)] (w : Mat N) (δ : ℝ) (hδ : 0 ≤ δ) : ‖blockJ k w δ‖ ≤ ‖w‖ + δ := by
  rw [Matrix.linfty_opNorm_def]
  have hnn : ∀ a, ∑ b, ‖blockJ k w δ a b‖₊ ≤ ‖w‖₊ + Real.toNNReal δ := by
    intro a
    rw [Fin.sum_univ_succ]
    refine add_le_add ?_ ?_
    · simp only [blockJ, Matrix.of_apply, if_true]
      split_ifs
      · exact le_refl _
      · simp
    · have hb : ∀ b : Fin k, ‖blockJ k w δ a b.succ‖₊ = if (b : ℕ) = a then Real.toNNReal δ else 0 := by
        intro b
        simp only [blockJ, Matrix.of_apply, if_neg (Fin.succ_ne_zero b), Fin.val_succ, Nat.add_right_cancel_iff]
        split_ifs
        · rw [nnnorm_smul]
          have : ‖(1 : Mat N)‖₊ = 1 := nnnorm_one
          rw [this, mul_one]
          ext
          simp [hδ]
        · simp
      rw [Finset.sum_congr rfl (fun b _ => hb b)]
      by_cases ha : (a : ℕ) < k
      · rw [Finset.sum_eq_single (⟨a, ha⟩ : Fin k)]
        · simp
        · intro b _ hb
          rw [if_neg (fun h => hb (Fin.ext h))]
        · intro h; exact absurd (Finset.mem_univ _) h
      · rw [Finset.sum_eq_zero]
        · simp
        · intro b _
          rw [if_neg (by omega)]
  have : (Finset.univ.sup fun a => ∑ b, ‖blockJ k w δ a b‖₊) ≤ ‖w‖₊ + Real.toNNReal δ := Finset.sup_le fun a _ => hnn a
  have h := NNReal.coe_le_coe.mpr this
  simpa [hδ] using h

/-- **C22 (accuracy, all orders).**  For `k ≤ 3` every entry `phi_j`, `j ≤ k`, of the list computed by scaling and squaring
satisfies, with `θ = ‖z‖_∞`, `s` the number of squarings and every `ε ≥ 0`,
`ε^j ‖computed_j - phi_j(z)‖_∞ ≤ (θ+ε) e^{θ+ε} ((θ+ε)/2^s)^4 / 120`. -/
theorem C22_accuracy_all {N : ℕ} (z : Mat N) (k : ℕ) (hk : k ≤ 3) (ε : ℝ) (hε : 0 ≤ ε) :
    ∃ l, fPhiKSqAll z k = .ok l ∧ l.length = k + 1 ∧ ∀ j, j ≤ k →
      ε ^ j * infNorm (l.getD j 0 - phiM j z)
        ≤ (infNorm z + ε) * Real.exp (infNorm z + ε) * ((infNorm z + ε) / 2 ^ nScale (infNorm z)) ^ 4 / 120 := by
  set s := nScale (infNorm z) with hs
  set w : Mat N := ((1 : ℝ) / 2 ^ s) • z with hw
  set L0 : List (Mat N) := (List.range (k + 1)).map fun j => taylorPhi w j 4 with hL0
  have hlen0 : L0.length = k + 1 := by simp [hL0]
  have hlen : ∀ t, ((sqStep k)^[t] L0).length = k + 1 := by
    intro t
    induction t with
    | zero => exact hlen0
    | succ t ih => rw [Function.iterate_succ_apply', sqStep_length, ih]
  refine ⟨(sqStep k)^[s] L0, ?_, hlen s, ?_⟩
  · unfold fPhiKSqAll
    simp only [(C20_poly_all _ k 4).1 (by omega)]
    rfl
  intro j hj
  rcases N with _ | N
  · have e0 : ∀ A : Mat 0, infNorm A = 0 := fun A => by simp [infNorm]
    rw [e0, mul_zero]
    have : 0 ≤ infNorm z := by rw [e0]
    positivity
  have h2s : (0 : ℝ) < 2 ^ s := by positivity
  set δ := ε / 2 ^ s with hδ
  have hδ0 : 0 ≤ δ := by positivity
  have hd : (2 : ℝ) ^ s * δ = ε := by rw [hδ]; field_simp
  have hB1 := (blk_taylor hk w δ).iter s (by simp)
  have hB2 := (blk_exp (k := k) w δ).iter s (by simp)
  rw [C21_squarings, hd] at hB2
  rw [hd] at hB1
  have hzw : (2 : ℝ) ^ s • w = z := by
    rw [hw, smul_smul, mul_one_div_cancel h2s.ne', one_smul]
  rw [hzw] at hB2
  have hw0 : ‖w‖ = infNorm z / 2 ^ s := by
    rw [hw, norm_smul, ← infNorm_eq_norm, Real.norm_of_nonneg (by positivity)]
    ring
  have herr := taylor4_pow_error (blockJ k w δ) ((infNorm z + ε) / 2 ^ s)
    (le_trans (blockJ_norm_le w δ hδ0) (by rw [hw0, hδ, add_div])) (2 ^ s)
  have hent := le_trans (norm_entry_le _ (0 : Fin (k + 1)) ⟨j, by omega⟩) herr
  have eA := hB2.1 ⟨j, by omega⟩
  have eB := hB1.1 ⟨j, by omega⟩
  have hl : (((List.range (k + 1)).map fun j => phiM j z).getD j 0) = phiM j z := phiList_getD k z j hj
  simp only [hl] at eA
  simp only at eB
  have hent2 : ‖ε ^ j • phiM j z - ε ^ j • ((sqStep k)^[s] L0).getD j 0‖ ≤
      ((2 ^ s : ℕ) : ℝ) * ((infNorm z + ε) / 2 ^ s) * Real.exp (((2 ^ s : ℕ) : ℝ) * ((infNorm z + ε) / 2 ^ s))
        * ((infNorm z + ε) / 2 ^ s) ^ 4 / 120 := by
    rw [← eA, ← eB]
    exact hent
  rw [← smul_sub, norm_smul, Real.norm_of_nonneg (by positivity), ← norm_neg, neg_sub, ← infNorm_eq_norm] at hent2
  refine le_trans hent2 (le_of_eq ?_)
  have em : ((2 ^ s : ℕ) : ℝ) * ((infNorm z + ε) / 2 ^ s) = infNorm z + ε := by
    push_cast
    field_simp
  rw [em]

/-- **C22 (accuracy of `phi_0`).** `f_phi_k_sq(z, 0)` differs from `exp z` by at most `θ e^θ / (8^4 · 120)` in the infinity
norm, `θ = ‖z‖_∞`. -/
theorem C22_accuracy {N : ℕ} (z : Mat N) :
    ∃ P, fPhiKSq z 0 = .ok P ∧
      infNorm (P - NormedSpace.exp z) ≤ infNorm z * Real.exp (infNorm z) / (8 ^ 4 * 120) := by
  obtain ⟨l, hl, hlen, h⟩ := C22_accuracy_all z 0 (by omega) 0 (le_refl _)
  have hj := h 0 (le_refl _)
  rw [pow_zero, one_mul, add_zero, phiM_zero] at hj
  refine ⟨l.getD 0 0, ?_, ?_⟩
  · unfold fPhiKSq
    rw [hl]
    simp only [bind, Except.bind]
    rw [List.getD_eq_getElem?_getD, List.getElem?_eq_getElem (by omega)]
    rfl
  · refine le_trans hj ?_
    have h0 : 0 ≤ infNorm z := by rw [infNorm_eq_norm]; exact norm_nonneg _
    have h8 := (C22_scaling (infNorm z) h0).1
    have h84 : (infNorm z / 2 ^ nScale (infNorm z)) ^ 4 ≤ (1 / 8) ^ 4 := pow_le_pow_left₀ (by positivity) h8.le 4
    have he := Real.exp_pos (infNorm z)
    calc infNorm z * Real.exp (infNorm z) * (infNorm z / 2 ^ nScale (infNorm z)) ^ 4 / 120
        ≤ infNorm z * Real.exp (infNorm z) * (1 / 8) ^ 4 / 120 := by gcongr
      _ = _ := by ring

/-- **C23 (as coded).**  With the code's own kernel (`f_phi_k_sq(., 0)` of the extended matrix) the result of
`f_phi_k_appl` for `k ≥ 1` differs from `phi_k(z) B` in each entry by at most `Θ e^Θ / (8^4 · 120)`, where `Θ` is the
infinity norm of the extended matrix. -/
theorem C23_appl_code {N M : ℕ} (expm : ∀ m, Mat m → Mat m) (z : Mat N) (B : Matrix (Fin N) (Fin M) ℝ) (k : ℕ) :
    ∃ R, fPhiKApplCode expm z B (k + 1) = .ok R ∧ ∀ i x, |R i x - (phiM (k + 1) z * B) i x|
      ≤ infNorm (applExtMat z B (k + 1)) * Real.exp (infNorm (applExtMat z B (k + 1))) / (8 ^ 4 * 120) := by
  obtain ⟨P, hP, he⟩ := C22_accuracy (applExtMat z B (k + 1))
  unfold fPhiKApplCode fPhiKAppl
  simp only [hP]
  refine ⟨_, rfl, fun i x => ?_⟩
  refine le_trans ?_ he
  rw [infNorm_eq_norm]
  simp only [Matrix.of_apply]
  rw [← applExt_exp z B k i x (by omega) (by
    have h := x.2
    have : (k + 1) * M = k * M + M := by ring
    omega), ← Matrix.sub_apply, ← Real.norm_eq_abs]
  exact norm_entry_le _ _ _

end acc

end Ormatex.Props
