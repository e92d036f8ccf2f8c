import Verif.Props.RsKrylovErr

/-!
C111: for small arguments the dense Padé kernel of the Rust crate has no error floor: its error is `O(σ^5)` in the norm `σ` of
the scaled matrix, because the error of the Padé approximant of the extended matrix carries its sixth power.
-/

namespace Ormatex.Props
open Matrix Ormatex.Spec Ormatex.Rs
open scoped Matrix.Norms.Operator

/-- row sums of the powers of the extended matrix -/
theorem ext_pow_row {q : ℕ} (Z : Mat q) (σ : ℝ) (hσ : 0 ≤ σ) (hZ : ∀ i j, |Z i j| ≤ σ) (hρ : q * σ ≤ 1) (l : ℕ) (k : ℕ) :
    ∀ i : Fin ((l + 1) * q), ∑ j, |(phiExtMatRs Z l ^ k) i j| ≤
      if (i : ℕ) < q then (k + 1) * (q * σ) ^ (k - l) else if (i : ℕ) + k * q < (l + 1) * q then 1 else 0 := by
  have hρ0 : 0 ≤ q * σ := by positivity
  induction k with
  | zero =>
    intro i
    have e : ∑ j, |(phiExtMatRs Z l ^ 0) i j| = 1 := by
      rw [pow_zero, Finset.sum_eq_single i]
      · simp
      · intro j _ hj; rw [Matrix.one_apply_ne (Ne.symm hj), abs_zero]
      · intro h; exact absurd (Finset.mem_univ _) h
    rw [e]
    split_ifs with h1 h2
    · simp
    · exact le_rfl
    · exact absurd i.2 (by rw [Nat.zero_mul, Nat.add_zero] at h2; exact h2)
  | succ k ih =>
    intro i
    set sk : ℝ := (k + 1) * (q * σ) ^ (k - l) with hsk
    have hsk0 : 0 ≤ sk := by positivity
    set β : Fin ((l + 1) * q) → ℝ := fun i => if (i : ℕ) < q then sk else if (i : ℕ) + k * q < (l + 1) * q then 1 else 0 with hβ
    have hβ0 : ∀ m, 0 ≤ β m := fun m => by simp only [hβ]; split_ifs <;> first | exact hsk0 | norm_num
    have h1 : ∑ j, |(phiExtMatRs Z l ^ (k + 1)) i j| ≤ ∑ m, |phiExtMatRs Z l i m| * β m := by
      have : ∀ j, |(phiExtMatRs Z l ^ (k + 1)) i j| ≤ ∑ m, |phiExtMatRs Z l i m| * |(phiExtMatRs Z l ^ k) m j| := by
        intro j
        rw [pow_succ', Matrix.mul_apply]
        refine (Finset.abs_sum_le_sum_abs _ _).trans (le_of_eq ?_)
        exact Finset.sum_congr rfl fun m _ => abs_mul _ _
      refine (Finset.sum_le_sum fun j _ => this j).trans ?_
      rw [Finset.sum_comm]
      refine Finset.sum_le_sum fun m _ => ?_
      rw [← Finset.mul_sum]
      exact mul_le_mul_of_nonneg_left (ih m) (abs_nonneg _)
    set γ : ℝ := if (i : ℕ) + q + k * q < (l + 1) * q then 1 else 0 with hγ
    have hγ0 : 0 ≤ γ := by rw [hγ]; split_ifs <;> norm_num
    have h2 : ∀ m : Fin ((l + 1) * q), |phiExtMatRs Z l i m| * β m ≤
        (if (i : ℕ) < q then (if (m : ℕ) < q then σ * sk else 0) else 0)
          + γ * (if (m : ℕ) = i + q then 1 else 0) := by
      intro m
      refine (mul_le_mul_of_nonneg_right (ext_entry Z σ hσ hZ l i m) (hβ0 m)).trans ?_
      rw [add_mul]
      refine add_le_add (le_of_eq ?_) ?_
      · by_cases a : (i : ℕ) < q <;> by_cases b : (m : ℕ) < q <;> simp [a, b, hβ]
      · by_cases a : (i : ℕ) < l * q
        · by_cases b : (m : ℕ) = i + q
          · have c : ¬ (m : ℕ) < q := by omega
            have e : β m = γ := by simp only [hβ, hγ, if_neg c, b]
            rw [if_pos a, if_pos b, e, one_mul, mul_one]
          · simp [b]
        · rw [if_neg a, zero_mul]
          exact mul_nonneg hγ0 (by split_ifs <;> norm_num)
    refine h1.trans ((Finset.sum_le_sum fun m _ => h2 m).trans ?_)
    rw [Finset.sum_add_distrib, ← Finset.mul_sum]
    have h3 := mul_le_mul_of_nonneg_left (ext_sum_eq_le ((l + 1) * q) (i + q)) hγ0
    rw [mul_one] at h3
    by_cases hi : (i : ℕ) < q
    · simp only [if_pos hi]
      have h4 := ext_sum_lt ((l + 1) * q) q (σ * sk) (by positivity)
      refine (add_le_add h4 h3).trans ?_
      rcases Nat.lt_or_ge k l with hk | hk
      · have e1 : k + 1 - l = 0 := by omega
        have e2 : k - l = 0 := by omega
        rw [e1, pow_zero, mul_one, hsk, e2, pow_zero, mul_one]
        have : γ ≤ 1 := by rw [hγ]; split_ifs <;> norm_num
        push_cast
        have hk0 : (0 : ℝ) ≤ k := Nat.cast_nonneg _
        nlinarith
      · have hγz : γ = 0 := by
          rw [hγ, if_neg]
          have : (l + 1) * q ≤ (k + 1) * q := Nat.mul_le_mul_right q (by omega)
          have : (k + 1) * q = k * q + q := by ring
          omega
        rw [hγz, add_zero, hsk, Nat.succ_sub hk, pow_succ]
        push_cast
        have hp : 0 ≤ (q * σ) ^ (k - l) * (q * σ) := by positivity
        nlinarith
    · simp only [if_neg hi]
      rw [Finset.sum_const_zero, zero_add]
      refine h3.trans (le_of_eq ?_)
      rw [hγ]
      have : (i : ℕ) + (k + 1) * q = i + q + k * q := by ring
      rw [this]

/-- the sixth power of the extended matrix is small -/
theorem ext_pow_six {q : ℕ} (Z : Mat q) (σ : ℝ) (hσ : 0 ≤ σ) (hZ : ∀ i j, |Z i j| ≤ σ) (hρ : q * σ ≤ 1) (l : ℕ) (hl : l ≤ 6) :
    ‖phiExtMatRs Z l ^ 6‖ ≤ 7 * (q * σ) ^ (6 - l) := by
  have hρ0 : 0 ≤ q * σ := by positivity
  rw [← infNorm_eq_norm]
  unfold infNorm
  rcases isEmpty_or_nonempty (Fin ((l + 1) * q)) with he | he
  · rw [Real.iSup_of_isEmpty]; positivity
  refine ciSup_le fun i => (ext_pow_row Z σ hσ hZ hρ l 6 i).trans ?_
  by_cases hi : (i : ℕ) < q
  · rw [if_pos hi]
    norm_num
  · rw [if_neg hi, if_neg]
    · positivity
    · have : (l + 1) * q ≤ 7 * q := Nat.mul_le_mul_right q (by omega)
      omega

/-- error of the crate's Padé kernel for small matrices -/
noncomputable def rsDenseSmall (N : ℕ) (σ : ℝ) (l : ℕ) : ℝ :=
  Real.sqrt N * (Real.exp 2 * (14 * (N * σ) ^ (6 - l) * max 1 (2 * ((N : ℝ) + l * N) / 5.371920351148152)))

/-- **C111, the dense kernel.**  On matrices of order at most `N` and norm at most `σ`, with `N σ ≤ 1`, the error of the crate's
Padé evaluation of `phi_l` (`1 ≤ l ≤ 6`) on the first unit vector is at most a constant times `σ^(6 - l)`. -/
theorem C111_dense (q N : ℕ) (hq : q ≤ N) (H : Mat q) (dt σ : ℝ) (hσ : 0 ≤ σ) (hsm : N * σ ≤ 1) (l : ℕ) (hl0 : 0 < l) (hl : l ≤ 6)
    (hH : ∀ x, norm2 ((dt • H) *ᵥ x) ≤ σ * norm2 x) (hbig : ((N : ℝ) + l * N) * (7 * (N * σ) ^ (6 - l)) ≤ 1) :
    ∃ e, padeKernel q H dt (unitVec q) l = .ok e ∧ norm2 (e - phiM l (dt • H) *ᵥ firstUnit q) ≤ rsDenseSmall N σ l := by
  refine ⟨_, rfl, ?_⟩
  set Z := dt • H with hZ
  have hent : ∀ i j, |Z i j| ≤ σ := entry_le_norm2 Z σ hH
  have hqN : (q : ℝ) ≤ N := by exact_mod_cast hq
  have hq0 : (0 : ℝ) ≤ q := Nat.cast_nonneg _
  have hN0 : (0 : ℝ) ≤ N := Nat.cast_nonneg _
  have hl0' : (0 : ℝ) ≤ l := Nat.cast_nonneg _
  have hqσ : q * σ ≤ N * σ := mul_le_mul_of_nonneg_right hqN hσ
  have hqσ1 : q * σ ≤ 1 := hqσ.trans hsm
  have h1 : normL1 (phiExtMatRs Z l) ≤ N + l * N := by
    refine (ext_l1 Z σ hσ hent l).trans (add_le_add ?_ (mul_le_mul_of_nonneg_left hqN hl0'))
    calc (q : ℝ) ^ 2 * σ = q * (q * σ) := by ring
      _ ≤ N * 1 := mul_le_mul hqN hqσ1 (by positivity) hN0
      _ = N := mul_one _
  have h2 := ext_norm Z σ hσ hent l
  set c := Real.exp 2 * (14 * (N * σ) ^ (6 - l) * max 1 (2 * ((N : ℝ) + l * N) / 5.371920351148152)) with hc
  have hmx : (0 : ℝ) ≤ max 1 (2 * ((N : ℝ) + l * N) / 5.371920351148152) := le_trans zero_le_one (le_max_left _ _)
  have hc0 : 0 ≤ c := by positivity
  have hent2 : ∀ i j, |phiExtRs (fun _ A => matexpRs A 1) Z l i j - phiM l Z i j| ≤ c := by
    intro i j
    obtain ⟨k, rfl⟩ : ∃ k', l = k' + 1 := ⟨l - 1, by omega⟩
    rw [← C81_phi_ext]
    have h := C80_accuracy_sharp (phiExtMatRs Z (k + 1)) 1 (by
      rw [one_smul]
      refine le_trans (mul_le_mul h1 ((min_le_right _ _).trans ((ext_pow_six Z σ hσ hent hqσ1 (k + 1) hl).trans ?_))
        (le_min (by norm_num) (norm_nonneg _)) (by positivity)) hbig
      gcongr)
    rw [one_smul] at h
    refine (norm_entry_le (matexpRs (phiExtMatRs Z (k + 1)) 1 - NormedSpace.exp (phiExtMatRs Z (k + 1))) _ _).trans (h.trans ?_)
    have : Nonempty (Fin ((k + 1 + 1) * q)) := ⟨⟨i, lt_of_lt_of_le i.2 (Nat.le_mul_of_pos_left q (by omega))⟩⟩
    have h4 : ‖NormedSpace.exp (phiExtMatRs Z (k + 1))‖ ≤ Real.exp 2 :=
      (exp_norm_le _).trans (Real.exp_le_exp.mpr (by linarith))
    have hm0 : (0 : ℝ) ≤ max 1 (2 * normL1 (phiExtMatRs Z (k + 1)) / 5.371920351148152) := le_trans zero_le_one (le_max_left _ _)
    have hmin : 0 ≤ min (1 / 10 ^ 15) ‖phiExtMatRs Z (k + 1) ^ 6‖ := le_min (by norm_num) (norm_nonneg _)
    refine mul_le_mul h4 (mul_le_mul ?_ (max_le_max le_rfl ?_) hm0 (by positivity)) (by positivity) (Real.exp_pos _).le
    · calc 2 * min (1 / 10 ^ 15) ‖phiExtMatRs Z (k + 1) ^ 6‖ ≤ 2 * (7 * (q * σ) ^ (6 - (k + 1))) := by
            refine mul_le_mul_of_nonneg_left ((min_le_right _ _).trans (ext_pow_six Z σ hσ hent hqσ1 (k + 1) hl)) (by norm_num)
        _ ≤ 2 * (7 * (N * σ) ^ (6 - (k + 1))) := by gcongr
        _ = _ := by ring
    · exact div_le_div_of_nonneg_right (by linarith) (by norm_num)
  refine (norm2_le_of_entries _ _ hc0 fun i => ?_).trans ?_
  · have hpos : 0 < q := lt_of_le_of_lt (Nat.zero_le _) i.2
    have e1 : ∀ W : Mat q, (W *ᵥ firstUnit q) i = W i ⟨0, hpos⟩ := by
      intro W
      rw [mulVec_firstUnit hpos]
    show |(phiExtRs (fun _ A => matexpRs A 1) Z l *ᵥ firstUnit q) i - (phiM l Z *ᵥ firstUnit q) i| ≤ _
    rw [e1, e1]
    exact hent2 i _
  · unfold rsDenseSmall
    exact mul_le_mul_of_nonneg_right (Real.sqrt_le_sqrt hqN) hc0

/-- constant of the crate's Krylov product: dimension `n`, phi order `l`, order `p`, depth `iom` -/
noncomputable def rsKrylovConst (n l p iom : ℕ) : ℝ :=
  Real.exp 1 * (1 + (1 + Real.sqrt (n + p : ℕ)) * Real.sqrt (iom + 2) ^ p)
    + Real.sqrt (n + p : ℕ) * (Real.sqrt n * (Real.exp 2 * (14 * (n * Real.sqrt (iom + 2)) ^ p
      * max 1 (2 * ((n : ℝ) + l * n) / 5.371920351148152))))

theorem rsKrylovConst_nonneg (n l p iom : ℕ) : 0 ≤ rsKrylovConst n l p iom := by
  unfold rsKrylovConst
  have : (0 : ℝ) ≤ max 1 (2 * ((n : ℝ) + l * n) / 5.371920351148152) := le_trans zero_le_one (le_max_left _ _)
  positivity

/-- **C111, the Krylov product of the crate for small steps.**  With at least `p` Krylov vectors, or full orthogonalisation and
as many vectors as unknowns, `apply_phi_linop` (Arnoldi, Padé, its own tables) is accurate to a constant times
`ρ^p + 1e-12 |dt|`, `ρ` bounding the norm of the scaled operator; `1e-12` is the breakdown tolerance.  No floor is left as `dt`
goes to zero. -/
theorem C111_phi {n : ℕ} (m iom : ℕ) (hm : 0 < m) (A : LinOp n) (M : Mat n) (hA : IsMatrix A M) (dt : ℝ) (v : Vec n) (hv : v ≠ 0)
    (l p : ℕ) (hl : 0 < l) (hp : 0 < p) (hlp : l + p ≤ 6) (hdim : p ≤ min n m ∨ (n ≤ m ∧ n ≤ iom + 1))
    (ρ : ℝ) (hρ : 0 ≤ ρ) (hM : ∀ x, norm2 ((dt • M) *ᵥ x) ≤ ρ * norm2 x)
    (hsm : 7 * (l + 1) * n ^ 2 * (Real.sqrt (iom + 2) * ρ) ≤ 1) :
    ∃ w, (KrylovExpm.mk padeKernel m iom).applyPhiLinop A dt v l = .ok w ∧
      norm2 (w - phiM l (dt • M) *ᵥ v) ≤ norm2 v * (rsKrylovConst n l p iom * (ρ ^ p + |dt| * 1e-12)) := by
  obtain ⟨R, r, hR, hk, D, hst, hres, _, _, hfull⟩ := C107_arnoldi A M hA 1 v hv m iom hm
  have D' := D.smul dt
  rw [one_smul] at D'
  have hn : 0 < n := by
    rcases Nat.eq_zero_or_pos n with rfl | h
    · exact absurd (Subsingleton.elim v 0) hv
    · exact h
  have hn1 : (1 : ℝ) ≤ n := by exact_mod_cast hn
  have hn0 : (0 : ℝ) ≤ n := by linarith
  set s := Real.sqrt ((iom : ℝ) + 2) with hs
  have hs1 : 1 ≤ s := sqrt_iom_one iom
  set σ := s * ρ with hσ
  have hσ0 : 0 ≤ σ := by positivity
  have hl0 : (0 : ℝ) ≤ l := Nat.cast_nonneg _
  have hnσ : n * σ ≤ 1 := by
    have h1 : (n : ℝ) * σ ≤ n ^ 2 * σ := mul_le_mul_of_nonneg_right (by nlinarith) hσ0
    nlinarith [mul_nonneg (mul_nonneg hl0 (sq_nonneg (n : ℝ))) hσ0, mul_nonneg (sq_nonneg (n : ℝ)) hσ0]
  have hσ1 : σ ≤ 1 := by nlinarith
  have hnσ0 : 0 ≤ n * σ := by positivity
  have hρσ : ρ ≤ σ := le_mul_of_one_le_left hρ hs1
  obtain ⟨e, he, hee⟩ := C111_dense R.k n (hk.trans (min_le_left _ _)) R.H dt σ hσ0 hnσ l hl (by omega) (D'.bound ρ hρ hM) (by
    have : (n * σ) ^ (6 - l) ≤ n * σ := pow_le_of_le_one hnσ0 hnσ (by omega)
    have h2 : ((n : ℝ) + l * n) * (7 * (n * σ) ^ (6 - l)) ≤ ((n : ℝ) + l * n) * (7 * (n * σ)) :=
      mul_le_mul_of_nonneg_left (by linarith) (by positivity)
    refine h2.trans (le_trans (le_of_eq ?_) hsm)
    ring)
  refine ⟨norm2 v • (R.Q *ᵥ e), ?_, ?_⟩
  · unfold KrylovExpm.applyPhiLinop
    simp only
    rw [hR]
    show (do let e ← padeKernel R.k R.H dt (unitVec R.k) l; pure (norm2 v • (R.Q *ᵥ e))) = _
    rw [he]
    rfl
  obtain ⟨q, hq1, hq2, hq3, hq4⟩ : ∃ q, R.k ≤ q ∧ p ≤ q ∧ q ≤ n + p ∧ (R.k < q → norm2 (dt • r) ≤ |dt| * 1e-12) := by
    have hsmall : R.k < min n m → norm2 (dt • r) ≤ |dt| * 1e-12 := fun h => by
      rw [norm2_smul]; exact mul_le_mul_of_nonneg_left (hres h).le (abs_nonneg _)
    rcases hdim with h | ⟨h1, h2⟩
    · exact ⟨min n m, hk, h, by omega, hsmall⟩
    · refine ⟨n + p, by omega, by omega, le_rfl, fun _ => ?_⟩
      by_cases h : R.k < min n m
      · exact hsmall h
      · have : r = 0 := hfull (by omega) h2
        rw [this, smul_zero, norm2_zero]
        positivity
  refine (krylov_assemble D' ρ (|dt| * 1e-12) hρ hM v hst q l hq1 hq4 e _ hee).trans ?_
  refine mul_le_mul_of_nonneg_left ?_ (norm2_nonneg _)
  set δ := |dt| * 1e-12 with hδ
  have hδ0 : 0 ≤ δ := by positivity
  set t := Real.sqrt ((n + p : ℕ) : ℝ) with ht
  have hqt : Real.sqrt q ≤ t := Real.sqrt_le_sqrt (by exact_mod_cast hq3)
  have ht0 : 0 ≤ t := Real.sqrt_nonneg _
  have hexp : Real.exp σ ≤ Real.exp 1 := Real.exp_le_exp.2 hσ1
  have hpow : σ ^ q ≤ s ^ p * ρ ^ p := by
    rw [← mul_pow]; exact pow_le_pow_of_le_one hσ0 hσ1 hq2
  have hs0 : 0 ≤ s := by linarith
  have hsp : 0 ≤ s ^ p * ρ ^ p := by positivity
  have hkry : krylovErr ρ δ iom q l ≤ Real.exp 1 * (δ + (1 + t) * (s ^ p * ρ ^ p)) := by
    unfold krylovErr
    have he1 : 0 ≤ Real.exp 1 := (Real.exp_pos _).le
    refine max_le ?_ ?_
    · rw [← hs, ← hσ]
      have := mul_le_mul_of_nonneg_left hexp hδ0
      have h2 : 0 ≤ Real.exp 1 * ((1 + t) * (s ^ p * ρ ^ p)) := by positivity
      linarith
    · rw [← hs, ← hσ]
      have hf : (1 : ℝ) ≤ (Nat.factorial (q + l) : ℝ) := by exact_mod_cast Nat.factorial_pos _
      have h1 : ρ ^ q * Real.exp ρ ≤ s ^ p * ρ ^ p * Real.exp 1 :=
        mul_le_mul ((pow_le_pow_left₀ hρ hρσ q).trans hpow) (Real.exp_le_exp.2 (hρσ.trans hσ1)) (Real.exp_pos _).le hsp
      have h2 : Real.sqrt q * σ ^ q * Real.exp σ ≤ t * (s ^ p * ρ ^ p) * Real.exp 1 :=
        mul_le_mul (mul_le_mul hqt hpow (by positivity) ht0) hexp (Real.exp_pos _).le (by positivity)
      have h3 : 0 ≤ ρ ^ q * Real.exp ρ + Real.sqrt q * σ ^ q * Real.exp σ := by positivity
      refine (div_le_self h3 hf).trans ?_
      have h4 : 0 ≤ Real.exp 1 * δ := by positivity
      linarith
  have hdense : Real.sqrt q * rsDenseSmall n σ l ≤ t * (Real.sqrt n * (Real.exp 2 * (14 * (n * s) ^ p
      * max 1 (2 * ((n : ℝ) + l * n) / 5.371920351148152)))) * ρ ^ p := by
    unfold rsDenseSmall
    have hm0 : (0 : ℝ) ≤ max 1 (2 * ((n : ℝ) + l * n) / 5.371920351148152) := le_trans zero_le_one (le_max_left _ _)
    have h1 : (n * σ) ^ (6 - l) ≤ (n * s) ^ p * ρ ^ p := by
      rw [← mul_pow, mul_assoc, ← hσ]
      exact pow_le_pow_of_le_one hnσ0 hnσ (by omega)
    calc _ ≤ t * (Real.sqrt n * (Real.exp 2 * (14 * ((n * s) ^ p * ρ ^ p)
          * max 1 (2 * ((n : ℝ) + l * n) / 5.371920351148152)))) := by gcongr
      _ = _ := by ring
  set E := t * (Real.sqrt n * (Real.exp 2 * (14 * (n * s) ^ p * max 1 (2 * ((n : ℝ) + l * n) / 5.371920351148152)))) with hE
  have hE0 : 0 ≤ E := by
    have : (0 : ℝ) ≤ max 1 (2 * ((n : ℝ) + l * n) / 5.371920351148152) := le_trans zero_le_one (le_max_left _ _)
    positivity
  have hc : rsKrylovConst n l p iom = Real.exp 1 * (1 + (1 + t) * s ^ p) + E := by
    unfold rsKrylovConst
    rfl
  rw [hc]
  have he1 : 0 ≤ Real.exp 1 := (Real.exp_pos _).le
  have hρp : 0 ≤ ρ ^ p := by positivity
  have g1 : 0 ≤ Real.exp 1 * (((1 + t) * s ^ p) * δ) := by positivity
  have g2 : 0 ≤ Real.exp 1 * ρ ^ p := by positivity
  have g3 : 0 ≤ E * δ := by positivity
  nlinarith

end Ormatex.Props
