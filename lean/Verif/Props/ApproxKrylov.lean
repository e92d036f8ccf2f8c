import Verif.Props.ApproxDense

/-!
C105: the Krylov kernel `phi_linop` of the package is accurate to `O(dt^p)` plus the breakdown tolerance, so the Krylov methods run
with it have their full order.

The dense kernel inside (`f_phi_k_appl`, `f_phi_k_sq` of the extended matrix) is applied to matrices of norm about one, however
small `dt` is, so its plain error bound (C23) does not tend to zero.  A diagonal change of basis of the extended matrix shows that
the entry that is read is nevertheless accurate to a power of `dt`.
-/

namespace Ormatex.Props
open Filter Asymptotics Topology Matrix Ormatex.Spec
open scoped Classical
open scoped Matrix.Norms.Operator

section
variable {n : ℕ} {P : Type} [EmptyCollection P]

/-- The value of `f_phi_k_sq(., 0)`. -/
theorem fPhiKSq_zero_value {N : ℕ} (E : Mat N) :
    fPhiKSq E 0 = .ok (taylor4 (((1 : ℝ) / 2 ^ nScale (infNorm E)) • E) ^ (2 ^ nScale (infNorm E))) := by
  set s := nScale (infNorm E) with hs
  set w : Mat N := ((1 : ℝ) / 2 ^ s) • E with hw
  set L0 : List (Mat N) := (List.range (0 + 1)).map fun j => taylorPhi w j 4 with hL0
  have h0 : fPhiKSqAll E 0 = .ok ((sqStep 0)^[s] L0) := by
    unfold fPhiKSqAll
    simp only [(C20_poly_all _ 0 4).1 (by omega)]
    rfl
  have hL : ∀ t, ((sqStep 0)^[t] L0).length = 1 ∧ ((sqStep 0)^[t] L0).getD 0 0 = taylor4 w ^ (2 ^ t) := by
    intro t
    induction t with
    | zero =>
      refine ⟨by simp [hL0], ?_⟩
      simp [hL0, taylorPhi, taylor4]
    | succ t ih =>
      rw [Function.iterate_succ_apply']
      obtain ⟨a, b, -⟩ := C21_pass 0 _ ih.1
      refine ⟨a, ?_⟩
      rw [b, ih.2, ← pow_two, ← pow_mul, pow_succ]
  unfold fPhiKSq
  rw [h0]
  obtain ⟨a, b⟩ := hL s
  rw [← b, List.getD_eq_getElem?_getD]
  simp only [Bind.bind, Except.bind]
  rw [List.getElem?_eq_getElem (by omega)]
  rfl

theorem taylor4_conj {N : ℕ} (U : (Mat N)ˣ) (x : Mat N) :
    taylor4 ((U⁻¹ : (Mat N)ˣ) * x * (U : Mat N)) = ((U⁻¹ : (Mat N)ˣ) : Mat N) * taylor4 x * (U : Mat N) := by
  unfold taylor4
  rw [Finset.mul_sum, Finset.sum_mul]
  refine Finset.sum_congr rfl fun i _ => ?_
  rw [Units.conj_pow', Matrix.mul_smul, Matrix.smul_mul]

/-- diagonal change of basis -/
noncomputable def diagUnit {N : ℕ} (d : Fin N → ℝ) (hd : ∀ i, 0 < d i) : (Mat N)ˣ where
  val := Matrix.diagonal d
  inv := Matrix.diagonal fun i => (d i)⁻¹
  val_inv := by
    rw [Matrix.diagonal_mul_diagonal, ← Matrix.diagonal_one]
    congr 1; funext i; exact mul_inv_cancel₀ (hd i).ne'
  inv_val := by
    rw [Matrix.diagonal_mul_diagonal, ← Matrix.diagonal_one]
    congr 1; funext i; exact inv_mul_cancel₀ (hd i).ne'

theorem diagUnit_conj_apply {N : ℕ} (d : Fin N → ℝ) (hd : ∀ i, 0 < d i) (x : Mat N) (i j : Fin N) :
    (((diagUnit d hd)⁻¹ : (Mat N)ˣ) * x * (diagUnit d hd : Mat N)) i j = (d i)⁻¹ * x i j * d j := by
  show (Matrix.diagonal (fun i => (d i)⁻¹) * x * Matrix.diagonal d) i j = _
  rw [Matrix.mul_diagonal, Matrix.diagonal_mul]

/-- Accuracy of `f_phi_k_sq(E, 0)` entry by entry, in any diagonal scaling of the matrix. -/
theorem fPhiKSq_zero_scaled {N : ℕ} (E : Mat N) (d : Fin N → ℝ) (hd : ∀ i, 0 < d i) (r : ℝ)
    (hr : ∀ i, ∑ j, |(d i)⁻¹ * E i j * d j| ≤ r) :
    ∃ P, fPhiKSq E 0 = .ok P ∧ ∀ i j, d j * |P i j - NormedSpace.exp E i j| ≤ d i * (r ^ 5 * Real.exp r / 120) := by
  refine ⟨_, fPhiKSq_zero_value E, fun i j => ?_⟩
  have : Nonempty (Fin N) := ⟨i⟩
  set s := nScale (infNorm E) with hs
  set U := diagUnit d hd with hU
  set E' : Mat N := (U⁻¹ : (Mat N)ˣ) * E * (U : Mat N) with hE'
  have hr0 : 0 ≤ r := (Finset.sum_nonneg fun j _ => abs_nonneg _).trans (hr i)
  have hn : ‖E'‖ ≤ r := by
    rw [← infNorm_eq_norm]
    unfold infNorm
    refine ciSup_le fun i => ?_
    refine le_trans (le_of_eq ?_) (hr i)
    refine Finset.sum_congr rfl fun j _ => ?_
    rw [hE', hU, diagUnit_conj_apply]
  have h2 : (0 : ℝ) < 2 ^ s := by positivity
  have hx : ‖((1 : ℝ) / 2 ^ s) • E'‖ ≤ r / 2 ^ s := by
    rw [norm_smul, Real.norm_of_nonneg (by positivity), div_mul_eq_mul_div, one_mul]
    gcongr
  have h : ‖NormedSpace.exp (((1 : ℝ) / 2 ^ s) • E') ^ (2 ^ s) - taylor4 (((1 : ℝ) / 2 ^ s) • E') ^ (2 ^ s)‖
      ≤ (((2 ^ s : ℕ) : ℝ) * (r / 2 ^ s)) * Real.exp (((2 ^ s : ℕ) : ℝ) * (r / 2 ^ s)) * (r / 2 ^ s) ^ 4 / 120 :=
    taylor4_pow_error (((1 : ℝ) / 2 ^ s) • E') (r / 2 ^ s) hx (2 ^ s)
  have e1 : NormedSpace.exp (((1 : ℝ) / 2 ^ s) • E') ^ (2 ^ s) = (U⁻¹ : (Mat N)ˣ) * NormedSpace.exp E * (U : Mat N) := by
    rw [← Matrix.exp_nsmul, ← Matrix.exp_units_conj', ← hE']
    congr 1
    rw [← Nat.cast_smul_eq_nsmul ℝ, smul_smul]
    push_cast
    rw [mul_one_div, div_self h2.ne', one_smul]
  have e2 : taylor4 (((1 : ℝ) / 2 ^ s) • E') ^ (2 ^ s)
      = (U⁻¹ : (Mat N)ˣ) * (taylor4 (((1 : ℝ) / 2 ^ s) • E) ^ (2 ^ s)) * (U : Mat N) := by
    rw [← Units.conj_pow', ← taylor4_conj]
    congr 2
    rw [hE', Matrix.mul_smul, Matrix.smul_mul]
  rw [e1, e2, ← sub_mul, ← mul_sub] at h
  have h3 := (norm_entry_le _ i j).trans h
  rw [hU, diagUnit_conj_apply, Matrix.sub_apply, Real.norm_eq_abs, abs_mul, abs_mul, abs_of_pos (inv_pos.2 (hd i)), abs_of_pos (hd j),
    abs_sub_comm] at h3
  have e3 : ((2 ^ s : ℕ) : ℝ) * (r / 2 ^ s) = r := by push_cast; field_simp
  rw [e3] at h3
  have h4 : r * Real.exp r * (r / 2 ^ s) ^ 4 / 120 ≤ r ^ 5 * Real.exp r / 120 := by
    have : r / 2 ^ s ≤ r := div_le_self hr0 (one_le_pow₀ (by norm_num))
    calc r * Real.exp r * (r / 2 ^ s) ^ 4 / 120 ≤ r * Real.exp r * r ^ 4 / 120 := by gcongr
      _ = _ := by ring
  have h5 := mul_le_mul_of_nonneg_left (h3.trans h4) (hd i).le
  refine le_trans (le_of_eq ?_) h5
  have := (hd i).ne'
  field_simp

/-- the weights of the extended matrix -/
noncomputable def extWeight (q : ℕ) (ε : ℝ) {N : ℕ} (i : Fin N) : ℝ := if (i : ℕ) < q then 1 else ε ^ ((i : ℕ) - q + 1)

theorem extWeight_pos (q : ℕ) {ε : ℝ} (hε : 0 < ε) {N : ℕ} (i : Fin N) : 0 < extWeight q ε i := by
  unfold extWeight; split_ifs <;> positivity

theorem applExt_scaled_row {q : ℕ} (H : Mat q) (ρ : ℝ) (hρ : 0 ≤ ρ) (hH : ∀ i j, |H i j| ≤ ρ) (k : ℕ) (ε : ℝ) (hε : 0 < ε)
    (i : Fin (q + (k + 1) * 1)) :
    ∑ j, |(extWeight q ε i)⁻¹ * applExtMat H (Matrix.of fun i (_ : Fin 1) => firstUnit q i) (k + 1) i j * extWeight q ε j| ≤ q * ρ + ε := by
  have hqρ : 0 ≤ q * ρ := by positivity
  by_cases hi : (i : ℕ) < q
  · calc ∑ j, |(extWeight q ε i)⁻¹ * applExtMat H (Matrix.of fun i (_ : Fin 1) => firstUnit q i) (k + 1) i j * extWeight q ε j|
        ≤ ∑ j : Fin (q + (k + 1) * 1), ((if (j : ℕ) < q then ρ else 0) + (if (j : ℕ) = q then ε else 0)) := by
          refine Finset.sum_le_sum fun j _ => ?_
          unfold applExtMat extWeight
          rw [Matrix.of_apply, dif_pos hi, if_pos hi, inv_one, one_mul]
          by_cases hj : (j : ℕ) < q
          · have hne : ¬ (j : ℕ) = q := by omega
            rw [dif_pos hj, if_pos hj, if_pos hj, if_neg hne, add_zero, mul_one]
            exact hH _ _
          · rw [dif_neg hj, if_neg hj, if_neg hj, zero_add]
            by_cases hj' : (j : ℕ) - q < 1
            · rw [dif_pos hj', if_pos (by omega)]
              simp only [Matrix.of_apply, firstUnit]
              have h0 : (j : ℕ) - q = 0 := by omega
              rw [h0]
              split_ifs <;> simp [abs_of_pos hε, hε.le]
            · rw [dif_neg hj', zero_mul, abs_zero]
              split_ifs <;> linarith
      _ = q * ρ + ε := by
          rw [Finset.sum_add_distrib]
          congr 1
          · rw [Fin.sum_univ_eq_sum_range (fun j => if j < q then ρ else 0)]
            rw [Finset.sum_ite, Finset.sum_const_zero, add_zero, Finset.sum_const, nsmul_eq_mul]
            congr 2
            have : (Finset.range (q + (k + 1) * 1)).filter (· < q) = Finset.range q := by
              ext x; simp only [Finset.mem_filter, Finset.mem_range]; omega
            rw [this, Finset.card_range]
          · rw [Finset.sum_ite, Finset.sum_const_zero, add_zero]
            have : (Finset.univ.filter fun j : Fin (q + (k + 1) * 1) => (j : ℕ) = q) = {⟨q, by omega⟩} := by
              ext x; simp [Fin.ext_iff]
            rw [this]
            simp
  · calc ∑ j, |(extWeight q ε i)⁻¹ * applExtMat H (Matrix.of fun i (_ : Fin 1) => firstUnit q i) (k + 1) i j * extWeight q ε j|
        ≤ ∑ j : Fin (q + (k + 1) * 1), (if (j : ℕ) = i + 1 then ε else 0) := by
          refine Finset.sum_le_sum fun j _ => ?_
          unfold applExtMat extWeight
          rw [Matrix.of_apply, dif_neg hi, if_neg hi]
          by_cases hj : (j : ℕ) = i + 1
          · have hjq : ¬ (j : ℕ) < q := by omega
            have e : (j : ℕ) - q + 1 = ((i : ℕ) - q + 1) + 1 := by omega
            have hp : 0 < ε ^ ((i : ℕ) - q + 1) := by positivity
            rw [if_neg hjq, e, pow_succ ε ((i : ℕ) - q + 1)]
            generalize ε ^ ((i : ℕ) - q + 1) = a at hp ⊢
            simp only [if_pos hj]
            split_ifs
            · rw [mul_one, ← mul_assoc, inv_mul_cancel₀ hp.ne', one_mul, abs_of_pos hε]
            · rw [mul_zero, zero_mul, abs_zero]; exact hε.le
          · rw [if_neg hj, ite_self, mul_zero, zero_mul, abs_zero]
            simp [hj]
      _ ≤ ε := by
          rw [Finset.sum_ite, Finset.sum_const_zero, add_zero, Finset.sum_const, nsmul_eq_mul]
          have : (Finset.univ.filter fun j : Fin (q + (k + 1) * 1) => (j : ℕ) = i + 1).card ≤ 1 := by
            refine Finset.card_le_one.2 fun a ha b hb => ?_
            simp only [Finset.mem_filter, Finset.mem_univ, true_and] at ha hb
            exact Fin.ext (by omega)
          have h1 : ((Finset.univ.filter fun j : Fin (q + (k + 1) * 1) => (j : ℕ) = i + 1).card : ℝ) ≤ 1 := by exact_mod_cast this
          nlinarith
      _ ≤ _ := by linarith

/-- The dense kernel of `phi_linop` as coded, for `l ≥ 1`, with a free weight `ε`: no hypothesis on `expm`. -/
theorem applCode_scaled (expm : ∀ m, Mat m → Mat m) (ρ ε : ℝ) (hρ : 0 ≤ ρ) (hε : 0 < ε) (l N q : ℕ) (hq : q ≤ N)
    (H : Mat q) (hH : ∀ x, norm2 (H *ᵥ x) ≤ ρ * norm2 x) :
    ∃ e, applCode expm q H (firstUnit q) (l + 1) = .ok e ∧
      ε ^ (l + 1) * norm2 (e - phiM (l + 1) H *ᵥ firstUnit q) ≤ Real.sqrt N * ((N * ρ + ε) ^ 5 * Real.exp (N * ρ + ε) / 120) := by
  set B : Matrix (Fin q) (Fin 1) ℝ := Matrix.of fun i (_ : Fin 1) => firstUnit q i with hB
  obtain ⟨P, hP, he⟩ := fPhiKSq_zero_scaled (applExtMat H B (l + 1)) (extWeight q ε) (fun i => extWeight_pos q hε i) (q * ρ + ε)
    (applExt_scaled_row H ρ hρ (entry_le_norm2 H ρ hH) l ε hε)
  unfold applCode fPhiKApplCode fPhiKAppl
  rw [hB] at hP
  simp only [hP]
  refine ⟨_, rfl, ?_⟩
  have hqN : (q : ℝ) * ρ + ε ≤ N * ρ + ε := by
    have : (q : ℝ) ≤ N := by exact_mod_cast hq
    gcongr
  have hq0 : 0 ≤ (q : ℝ) * ρ + ε := by positivity
  have hbd : (q * ρ + ε) ^ 5 * Real.exp (q * ρ + ε) / 120 ≤ (N * ρ + ε) ^ 5 * Real.exp (N * ρ + ε) / 120 := by gcongr
  have key : ∀ v : Vec q, (∀ i, ε ^ (l + 1) * |v i| ≤ (q * ρ + ε) ^ 5 * Real.exp (q * ρ + ε) / 120) →
      ε ^ (l + 1) * norm2 v ≤ Real.sqrt N * ((N * ρ + ε) ^ 5 * Real.exp (N * ρ + ε) / 120) := by
    intro v hv
    have h1 := norm2_le_of_entries (ε ^ (l + 1) • v) ((q * ρ + ε) ^ 5 * Real.exp (q * ρ + ε) / 120) (by positivity) fun i => by
      rw [Pi.smul_apply, smul_eq_mul, abs_mul, abs_of_pos (pow_pos hε _)]
      exact hv i
    rw [norm2_smul, abs_of_pos (pow_pos hε _)] at h1
    refine h1.trans ?_
    have h2 : Real.sqrt q ≤ Real.sqrt N := Real.sqrt_le_sqrt (by exact_mod_cast hq)
    exact mul_le_mul h2 hbd (by positivity) (Real.sqrt_nonneg _)
  refine key _ fun i => ?_
  have h1 := he ⟨i, by omega⟩ ⟨q + (l + 1) * 1 - 1 + (0 : Fin 1), by simp⟩
  rw [applExt_exp H B l i 0 (by omega) (by simp)] at h1
  have w1 : extWeight q ε (⟨i, by omega⟩ : Fin (q + (l + 1) * 1)) = 1 := if_pos i.2
  have w2 : extWeight q ε (⟨q + (l + 1) * 1 - 1 + (0 : Fin 1), by simp⟩ : Fin (q + (l + 1) * 1)) = ε ^ (l + 1) := by
    unfold extWeight
    rw [if_neg (by simp)]
    congr 1
    simp
  rw [w1, w2, one_mul] at h1
  exact h1

/-! ### truncation -/

theorem norm_le_norm2 (v : Vec n) : ‖v‖ ≤ norm2 v :=
  (pi_norm_le_iff_of_nonneg (norm2_nonneg v)).2 fun i => by rw [Real.norm_eq_abs]; exact abs_le_norm2 v i

theorem norm2_le_norm (v : Vec n) : norm2 v ≤ Real.sqrt n * ‖v‖ :=
  norm2_le_of_entries v _ (norm_nonneg v) fun i => by rw [← Real.norm_eq_abs]; exact norm_le_pi_norm v i

theorem norm2_mulVec_le (M : Mat n) (x : Vec n) : norm2 (M *ᵥ x) ≤ Real.sqrt n * ‖M‖ * norm2 x := by
  refine (norm2_le_norm _).trans ?_
  rw [mul_assoc]
  refine mul_le_mul_of_nonneg_left ?_ (Real.sqrt_nonneg _)
  exact (Matrix.linfty_opNorm_mulVec M x).trans (mul_le_mul_of_nonneg_left (norm_le_norm2 x) (norm_nonneg _))

/-- Error of `phi_linop` for a dense kernel with error `ε`: the breakdown tolerance counts only if it is smaller than the step. -/
theorem phiLinop_trunc (appl : DenseAppl) (A : LinOp n) (M : Mat n)
    (hA : IsMatrix A M) (dt : ℝ) (v0 : Vec n) (l m iom : ℕ) (hm : 1 ≤ m) (hiom : min n m ≤ iom + 1) (ε ρ : ℝ) (hρ : 0 ≤ ρ)
    (hρ1 : ρ ≤ 1) (hρM : ∀ x, norm2 ((dt • M) *ᵥ x) ≤ ρ * norm2 x)
    (hk : ∀ q (H : Mat q), q ≤ n → q ≤ m → (∀ x, norm2 (H *ᵥ x) ≤ ρ * norm2 x) →
      ∃ e, appl q H (firstUnit q) l = .ok e ∧ norm2 (e - phiM l H *ᵥ firstUnit q) ≤ ε) :
    ∃ w, phiLinop appl A dt v0 l m iom = .ok w
      ∧ norm2 (w - phiM l (dt • M) *ᵥ v0) ≤ norm2 v0 * (2 * Real.exp 1 * (min 1e-12 ρ + ρ ^ m) + ε) := by
  by_cases hv : v0 = 0
  · subst hv
    refine ⟨0, phiLinop_zero _ _ _ _ _ _, ?_⟩
    rw [Matrix.mulVec_zero, sub_zero, norm2_zero, zero_mul]
  have hn : 0 < n := by
    rcases Nat.eq_zero_or_pos n with rfl | h
    · exact absurd (Subsingleton.elim v0 0) hv
    · exact h
  have hb : (fun i => v0 i / norm2 v0) ≠ 0 := by
    intro h
    have := norm2_normalized (norm2_pos hv).ne'
    rw [h, norm2_zero] at this
    exact zero_ne_one this
  have he1 : Real.exp ρ ≤ Real.exp 1 := Real.exp_le_exp.2 hρ1
  have he0 := Real.exp_pos ρ
  have hmin : 0 ≤ min (1e-12 : ℝ) ρ := le_min (by norm_num) hρ
  have hpm : 0 ≤ ρ ^ m := by positivity
  obtain ⟨hk1, h2, _, h4⟩ := (C28_termination A dt (fun i => v0 i / norm2 v0) m iom hm).2 hb
  obtain ⟨w, hw, he⟩ := C65_error_bound appl A M hA dt v0 hv l m iom hm hiom ε ρ hρ hρM hk
  have hfac : ∀ j : ℕ, 2 * ρ ^ j * Real.exp ρ / (Nat.factorial (j + l) : ℝ) ≤ 2 * Real.exp 1 * ρ ^ j := by
    intro j
    have h1 : (1 : ℝ) ≤ (Nat.factorial (j + l) : ℝ) := by exact_mod_cast Nat.one_le_iff_ne_zero.2 (Nat.factorial_ne_zero _)
    calc 2 * ρ ^ j * Real.exp ρ / (Nat.factorial (j + l) : ℝ) ≤ 2 * ρ ^ j * Real.exp ρ := div_le_self (by positivity) h1
      _ ≤ 2 * ρ ^ j * Real.exp 1 := by gcongr
      _ = _ := by ring
  have fin : ∀ a, a ≤ 2 * Real.exp 1 * (min 1e-12 ρ + ρ ^ m) → norm2 (w - phiM l (dt • M) *ᵥ v0) ≤ norm2 v0 * (a + ε) →
      norm2 (w - phiM l (dt • M) *ᵥ v0) ≤ norm2 v0 * (2 * Real.exp 1 * (min 1e-12 ρ + ρ ^ m) + ε) := fun a ha h =>
    h.trans (mul_le_mul_of_nonneg_left (by linarith) (norm2_nonneg _))
  refine ⟨w, hw, ?_⟩
  -- a residual below the tolerance
  have small : (∃ w', phiLinop appl A dt v0 l m iom = .ok w' ∧ norm2 (w' - phiM l (dt • M) *ᵥ v0) ≤ norm2 v0 * (1e-12 * Real.exp ρ + ε)) →
      norm2 (w - phiM l (dt • M) *ᵥ v0) ≤ norm2 v0 * (2 * Real.exp 1 * (min 1e-12 ρ + ρ ^ m) + ε) := by
    rintro ⟨w', hw', he'⟩
    obtain rfl : w = w' := by rw [hw] at hw'; exact Except.ok.inj hw'
    rcases le_total (1e-12 : ℝ) ρ with h | h
    · refine fin _ ?_ he'
      rw [min_eq_left h]
      nlinarith [Real.exp_pos 1, mul_nonneg (Real.exp_pos 1).le hpm]
    · refine fin _ ?_ he
      rw [min_eq_right h]
      refine (hfac _).trans ?_
      have : ρ ^ (arnoldiLop A dt (fun i => v0 i / norm2 v0) m iom).k ≤ ρ := pow_le_of_le_one hρ hρ1 (by omega)
      have h1 := Real.exp_pos 1
      exact mul_le_mul_of_nonneg_left (by linarith) (by positivity)
  rcases h2.lt_or_eq with hlt | heq
  · exact small (C65_residual_bound appl A M hA dt v0 hv l m iom hm hiom ε ρ 1e-12 hρ hρM hk fun j r hj hr => h4 j r hj hr hlt)
  · rcases Nat.le_total m n with hmn | hmn
    · rw [heq, min_eq_right hmn] at he
      refine fin _ ((hfac m).trans ?_) he
      have h1 := Real.exp_pos 1
      exact mul_le_mul_of_nonneg_left (by linarith) (by positivity)
    · exact small (C65_full_dimension appl A M hA dt v0 hv l m iom hmn (by omega) ε ρ hρ hρM hk)

/-- The constant of the Krylov kernel. -/
noncomputable def krylovConst (n : ℕ) (R : ℝ) : ℝ :=
  Real.sqrt n * (2 * Real.exp 1 * (Real.sqrt n * R + 1) ^ 4
    + Real.sqrt n * ((n * (Real.sqrt n * R) + 1) ^ 5 * Real.exp (n * (Real.sqrt n * R) + 1) / 120))

theorem krylovConst_nonneg {R : ℝ} (hR : 0 ≤ R) : 0 ≤ krylovConst n R := by unfold krylovConst; positivity

/-- `phi_linop` of the package: weighted error `O(dt^p + min(1e-12, dt))`. -/
theorem realKernels_linop (expm : ∀ m, Mat m → Mat m) (tab : Pfd) (rs : Mat n → ℝ → Vec n → ℕ → Vec n) (maxDim iom : ℕ)
    {dt R : ℝ} (h0 : 0 < dt) (h1 : dt ≤ 1) (hR : 0 ≤ R) (hsmall : Real.sqrt n * R * dt ≤ 1) (p kmax : ℕ)
    (hp : 1 ≤ p) (hpm : p ≤ maxDim) (hiom : min n maxDim ≤ iom + 1) (hkmax : kmax ≤ 3) (hp4 : p ≤ 4) (hp3 : kmax = 3 → p ≤ 3) :
    ApproxLinop (realKernels n expm tab rs maxDim iom) dt R (krylovConst n R * (dt ^ p + min 1e-12 dt)) kmax := by
  intro A M hA hM c c0 c1 v k hk1 hk
  set s := Real.sqrt n with hs
  have hs0 : 0 ≤ s := Real.sqrt_nonneg _
  set ρ := s * R * dt with hρ
  have hρ0 : 0 ≤ ρ := by positivity
  have hρM : ∀ x, norm2 (((c * dt) • M) *ᵥ x) ≤ ρ * norm2 x := fun x => by
    refine (norm2_mulVec_le _ x).trans (mul_le_mul_of_nonneg_right ?_ (norm2_nonneg x))
    rw [norm_smul, Real.norm_of_nonneg (by positivity)]
    calc s * (c * dt * ‖M‖) ≤ s * (1 * dt * R) := by gcongr
      _ = ρ := by rw [hρ]; ring
  set G := n * (s * R) + 1 with hG
  have hG1 : 1 ≤ G := by rw [hG]; have : 0 ≤ n * (s * R) := by positivity
                         linarith
  have hGe : n * ρ + dt = G * dt := by rw [hG, hρ]; ring
  set DC := s * (G ^ 5 * Real.exp G / 120) with hDC
  have hDC0 : 0 ≤ DC := by positivity
  obtain ⟨l, rfl⟩ : ∃ l, k = l + 1 := ⟨k - 1, by omega⟩
  have hdense : ∀ q (H : Mat q), q ≤ n → q ≤ maxDim → (∀ x, norm2 (H *ᵥ x) ≤ ρ * norm2 x) →
      ∃ e, applCode expm q H (firstUnit q) (l + 1) = .ok e ∧ norm2 (e - phiM (l + 1) H *ᵥ firstUnit q) ≤ DC * dt ^ 5 / dt ^ (l + 1) := by
    intro q H hq _ hH
    obtain ⟨e, he, hee⟩ := applCode_scaled expm ρ dt hρ0 h0 l n q hq H hH
    refine ⟨e, he, ?_⟩
    rw [le_div_iff₀ (by positivity), mul_comm]
    refine hee.trans ?_
    rw [hGe, ← hs]
    have : Real.exp (G * dt) ≤ Real.exp G := Real.exp_le_exp.2 (by nlinarith)
    calc s * ((G * dt) ^ 5 * Real.exp (G * dt) / 120) ≤ s * ((G * dt) ^ 5 * Real.exp G / 120) := by gcongr
      _ = DC * dt ^ 5 := by rw [hDC]; ring
  obtain ⟨w, hw, he⟩ := phiLinop_trunc (applCode expm) A M hA (c * dt) v (l + 1) maxDim iom (by omega) hiom _ ρ hρ0
    hsmall hρM hdense
  refine ⟨w, hw, ?_⟩
  have hw0 := stepWeight_nonneg h0.le (l + 1)
  have hw1 := stepWeight_le_one h1 (l + 1)
  have e1 : ‖w - phiM (l + 1) ((c * dt) • M) *ᵥ v‖
      ≤ s * ‖v‖ * (2 * Real.exp 1 * (min 1e-12 ρ + ρ ^ maxDim) + DC * dt ^ 5 / dt ^ (l + 1)) := by
    refine (norm_le_norm2 _).trans (he.trans (mul_le_mul_of_nonneg_right (norm2_le_norm v) ?_))
    have : 0 ≤ min (1e-12 : ℝ) ρ := le_min (by norm_num) hρ0
    positivity
  -- the weighted error of the dense kernel
  have e2 : stepWeight dt (l + 1) * (DC * dt ^ 5 / dt ^ (l + 1)) ≤ DC * dt ^ p := by
    have hq : stepWeight dt (l + 1) * (dt ^ 5 / dt ^ (l + 1)) ≤ dt ^ p := by
      obtain rfl | rfl | rfl : l = 0 ∨ l = 1 ∨ l = 2 := by omega
      · have : stepWeight dt (0 + 1) * (dt ^ 5 / dt ^ (0 + 1)) = dt ^ 4 := by
          rw [show stepWeight dt (0 + 1) = 1 from if_pos (by norm_num), one_mul, div_eq_iff (by positivity)]; ring
        rw [this]; exact pow_le_pow_of_le_one h0.le h1 hp4
      · have : stepWeight dt (1 + 1) * (dt ^ 5 / dt ^ (1 + 1)) = dt ^ 4 := by
          rw [show stepWeight dt (1 + 1) = dt from if_neg (by norm_num), ← mul_div_assoc, div_eq_iff (by positivity)]; ring
        rw [this]; exact pow_le_pow_of_le_one h0.le h1 hp4
      · have : stepWeight dt (2 + 1) * (dt ^ 5 / dt ^ (2 + 1)) = dt ^ 3 := by
          rw [show stepWeight dt (2 + 1) = dt from if_neg (by norm_num), ← mul_div_assoc, div_eq_iff (by positivity)]; ring
        rw [this]; exact pow_le_pow_of_le_one h0.le h1 (hp3 (by omega))
    calc stepWeight dt (l + 1) * (DC * dt ^ 5 / dt ^ (l + 1)) = DC * (stepWeight dt (l + 1) * (dt ^ 5 / dt ^ (l + 1))) := by ring
      _ ≤ DC * dt ^ p := mul_le_mul_of_nonneg_left hq hDC0
  -- truncation
  have hsR : 0 ≤ s * R := by positivity
  have e3 : min 1e-12 ρ + ρ ^ maxDim ≤ (s * R + 1) ^ 4 * (dt ^ p + min 1e-12 dt) := by
    have a1 : ρ ^ maxDim ≤ ρ ^ p := pow_le_pow_of_le_one hρ0 hsmall hpm
    have a2 : ρ ^ p ≤ (s * R + 1) ^ 4 * dt ^ p := by
      rw [hρ, mul_pow]
      refine mul_le_mul_of_nonneg_right ?_ (by positivity)
      calc (s * R) ^ p ≤ (s * R + 1) ^ p := by gcongr; linarith
        _ ≤ (s * R + 1) ^ 4 := pow_le_pow_right₀ (by linarith) hp4
    have a3 : min 1e-12 ρ ≤ (s * R + 1) ^ 4 * min 1e-12 dt := by
      have b1 : (1 : ℝ) ≤ (s * R + 1) ^ 4 := one_le_pow₀ (by linarith)
      have b2 : s * R ≤ (s * R + 1) ^ 4 := le_trans (by linarith) (le_self_pow₀ (by linarith : 1 ≤ s * R + 1) (by norm_num : (4 : ℕ) ≠ 0))
      rcases le_total (1e-12 : ℝ) dt with h | h
      · rw [min_eq_left h]
        refine (min_le_left _ _).trans ?_
        nlinarith
      · rw [min_eq_right h]
        exact (min_le_right _ _).trans (mul_le_mul_of_nonneg_right b2 h0.le)
    linarith
  have hmin0 : 0 ≤ min (1e-12 : ℝ) dt := le_min (by norm_num) h0.le
  calc stepWeight dt (l + 1) * ‖w - phiM (l + 1) ((c * dt) • M) *ᵥ v‖
      ≤ stepWeight dt (l + 1) * (s * ‖v‖ * (2 * Real.exp 1 * (min 1e-12 ρ + ρ ^ maxDim) + DC * dt ^ 5 / dt ^ (l + 1))) :=
        mul_le_mul_of_nonneg_left e1 hw0
    _ = s * ‖v‖ * (stepWeight dt (l + 1) * (2 * Real.exp 1 * (min 1e-12 ρ + ρ ^ maxDim)) + stepWeight dt (l + 1) * (DC * dt ^ 5 / dt ^ (l + 1))) := by
        ring
    _ ≤ s * ‖v‖ * (2 * Real.exp 1 * ((s * R + 1) ^ 4 * (dt ^ p + min 1e-12 dt)) + DC * (dt ^ p + min 1e-12 dt)) := by
        refine mul_le_mul_of_nonneg_left (add_le_add ?_ (e2.trans ?_)) (by positivity)
        · have h3 : 0 ≤ 2 * Real.exp 1 * (min 1e-12 ρ + ρ ^ maxDim) := by
            have : 0 ≤ min (1e-12 : ℝ) ρ := le_min (by norm_num) hρ0
            positivity
          exact (mul_le_of_le_one_left h3 hw1).trans (mul_le_mul_of_nonneg_left e3 (by positivity))
        · exact mul_le_mul_of_nonneg_left (by linarith) hDC0
    _ = krylovConst n R * (dt ^ p + min 1e-12 dt) * ‖v‖ := by
        unfold krylovConst
        rw [← hs, ← hG, ← hDC]
        ring

end
end Ormatex.Props
