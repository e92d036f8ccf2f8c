import Verif.Props.KrylovErr
import Verif.Props.PhiAcc

/-!
The Krylov products with the package's own dense kernel (`f_phi_k_appl` over `f_phi_k_sq`), C65 and C31.
-/

namespace Ormatex.Props
open Matrix Ormatex.Spec
open scoped Classical

variable {n : ℕ}

/-- **Specification.** Euclidean error of the dense kernel on a matrix of order at most `N` and norm at most `ρ`. -/
noncomputable def denseErr (N : ℕ) (ρ : ℝ) : ℝ :=
  Real.sqrt N * ((N * ρ + 1) * Real.exp (N * ρ + 1) / (8 ^ 4 * 120))

theorem norm2_le_of_entries {q : ℕ} (e : Vec q) (c : ℝ) (hc : 0 ≤ c) (h : ∀ i, |e i| ≤ c) : norm2 e ≤ Real.sqrt q * c := by
  unfold norm2
  refine Real.sqrt_le_iff.2 ⟨by positivity, ?_⟩
  rw [mul_pow, Real.sq_sqrt (Nat.cast_nonneg _)]
  calc e ⬝ᵥ e ≤ ∑ _i : Fin q, c ^ 2 := by
        refine Finset.sum_le_sum fun i _ => ?_
        rw [← pow_two, ← sq_abs]
        exact pow_le_pow_left₀ (abs_nonneg _) (h i) 2
    _ = _ := by simp

theorem entry_le_norm2 {q : ℕ} (H : Mat q) (ρ : ℝ) (hH : ∀ x, norm2 (H *ᵥ x) ≤ ρ * norm2 x) (i j : Fin q) : |H i j| ≤ ρ := by
  have h1 := hH (Pi.single j 1)
  have h2 : norm2 (Pi.single j 1 : Vec q) = 1 := by
    unfold norm2
    simp
  have h3 : (H *ᵥ Pi.single j 1) i = H i j := by simp
  rw [h2, mul_one] at h1
  rw [← h3]
  exact (abs_le_norm2 _ _).trans h1

/-- row sums of the extended matrix -/
theorem applExt_norm_le {q : ℕ} (H : Mat q) (ρ : ℝ) (hρ : 0 ≤ ρ) (hH : ∀ i j, |H i j| ≤ ρ) (k : ℕ) :
    infNorm (applExtMat H (Matrix.of fun i (_ : Fin 1) => firstUnit q i) (k + 1)) ≤ q * ρ + 1 := by
  have hqρ : 0 ≤ q * ρ := by positivity
  unfold infNorm
  rcases isEmpty_or_nonempty (Fin (q + (k + 1) * 1)) with he | he
  · rw [Real.iSup_of_isEmpty]; linarith
  refine ciSup_le fun i => ?_
  by_cases hi : (i : ℕ) < q
  · calc ∑ j, |applExtMat H (Matrix.of fun i (_ : Fin 1) => firstUnit q i) (k + 1) i j|
        ≤ ∑ j : Fin (q + (k + 1) * 1), ((if (j : ℕ) < q then ρ else 0) + (if (j : ℕ) = q then 1 else 0)) := by
          refine Finset.sum_le_sum fun j _ => ?_
          unfold applExtMat
          rw [Matrix.of_apply, dif_pos hi]
          by_cases hj : (j : ℕ) < q
          · rw [dif_pos hj, if_pos hj, if_neg (by omega), add_zero]
            exact hH _ _
          · rw [dif_neg hj, if_neg hj, zero_add]
            by_cases hj' : (j : ℕ) - q < 1
            · rw [dif_pos hj', if_pos (by omega)]
              simp only [Matrix.of_apply, firstUnit]
              split_ifs <;> simp
            · rw [dif_neg hj', abs_zero]
              split_ifs <;> norm_num
      _ = q * ρ + 1 := by
          rw [Finset.sum_add_distrib]
          congr 1
          · rw [Fin.sum_univ_eq_sum_range (fun j => if j < q then ρ else 0)]
            rw [Finset.sum_ite, Finset.sum_const_zero, add_zero, Finset.sum_const, nsmul_eq_mul]
            congr 2
            have : (Finset.range (q + (k + 1) * 1)).filter (· < q) = Finset.range q := by
              ext x; simp only [Finset.mem_filter, Finset.mem_range]; omega
            rw [this, Finset.card_range]
          · rw [Finset.sum_ite, Finset.sum_const_zero, add_zero]
            have : (Finset.univ.filter fun j : Fin (q + (k + 1) * 1) => (j : ℕ) = q) = {⟨q, by omega⟩} := by
              ext x; simp [Fin.ext_iff]
            rw [this]
            simp
  · calc ∑ j, |applExtMat H (Matrix.of fun i (_ : Fin 1) => firstUnit q i) (k + 1) i j|
        ≤ ∑ j : Fin (q + (k + 1) * 1), (if (j : ℕ) = i + 1 then 1 else 0) := by
          refine Finset.sum_le_sum fun j _ => ?_
          unfold applExtMat
          rw [Matrix.of_apply, dif_neg hi]
          split_ifs <;> simp
      _ ≤ 1 := by
          rw [Finset.sum_ite, Finset.sum_const_zero, add_zero, Finset.sum_const, nsmul_eq_mul, mul_one]
          have : (Finset.univ.filter fun j : Fin (q + (k + 1) * 1) => (j : ℕ) = i + 1).card ≤ 1 := by
            refine Finset.card_le_one.2 fun a ha b hb => ?_
            simp only [Finset.mem_filter, Finset.mem_univ, true_and] at ha hb
            exact Fin.ext (by omega)
          exact_mod_cast this
      _ ≤ _ := by linarith

/-- the package's dense kernel, with an exact `expm` for `k = 0` -/
theorem applCode_error (expm : ∀ m, Mat m → Mat m) (hx : ∀ m A, expm m A = NormedSpace.exp A) (ρ : ℝ) (hρ : 0 ≤ ρ) (l N q : ℕ) (hq : q ≤ N)
    (H : Mat q) (hH : ∀ x, norm2 (H *ᵥ x) ≤ ρ * norm2 x) :
    ∃ e, applCode expm q H (firstUnit q) l = .ok e ∧
      norm2 (e - phiM l H *ᵥ firstUnit q) ≤ if l = 0 then 0 else denseErr N ρ := by
  cases l with
  | zero =>
    refine ⟨_, rfl, ?_⟩
    rw [if_pos rfl, phiM_zero]
    refine le_of_eq ?_
    rw [norm2_eq_zero]
    funext i
    show (expm q H * Matrix.of fun i (_ : Fin 1) => firstUnit q i) i 0 - _ = _
    rw [hx, Pi.zero_apply, sub_eq_zero]
    rfl
  | succ l =>
    obtain ⟨R, hR, he⟩ := C23_appl_code expm H (Matrix.of fun i (_ : Fin 1) => firstUnit q i) l
    refine ⟨fun i => R i 0, ?_, ?_⟩
    · unfold applCode
      rw [hR]
      rfl
    · rw [if_neg (Nat.succ_ne_zero l)]
      have hθ := applExt_norm_le H ρ hρ (entry_le_norm2 H ρ hH) l
      set θ := infNorm (applExtMat H (Matrix.of fun i (_ : Fin 1) => firstUnit q i) (l + 1)) with hθd
      have hθ0 : 0 ≤ θ := Real.iSup_nonneg fun i => Finset.sum_nonneg fun j _ => abs_nonneg _
      have hqN : (q : ℝ) ≤ N := by exact_mod_cast hq
      have hθN : θ ≤ N * ρ + 1 := hθ.trans (by nlinarith)
      refine (norm2_le_of_entries _ (θ * Real.exp θ / (8 ^ 4 * 120)) (by positivity) fun i => he i 0).trans ?_
      unfold denseErr
      have h1 : Real.sqrt q ≤ Real.sqrt N := Real.sqrt_le_sqrt hqN
      have h2 : θ * Real.exp θ ≤ (N * ρ + 1) * Real.exp (N * ρ + 1) :=
        mul_le_mul hθN (Real.exp_le_exp.2 hθN) (Real.exp_pos _).le (by linarith)
      exact mul_le_mul h1 (div_le_div_of_nonneg_right h2 (by positivity)) (by positivity) (Real.sqrt_nonneg _)

/-- **C65 for the code as it is.** With the package's own dense kernel (and an exact `expm` where it calls the library one),
`phi_linop` returns for every operator of norm at most `ρ` a vector within
`|v0| (2 ρ^k e^ρ / (k+l)! + δ)` of `phi_l(dt A) v0`, `k` being the number of Arnoldi vectors and `δ` the explicit error of the
dense kernel on matrices of order at most `min(n, max_krylov_dim)`, zero for `l = 0`. -/
theorem C65_code (expm : ∀ m, Mat m → Mat m) (hx : ∀ m A, expm m A = NormedSpace.exp A) (A : LinOp n) (M : Mat n) (hA : IsMatrix A M)
    (dt : ℝ) (v0 : Vec n) (hv : v0 ≠ 0) (l m iom : ℕ) (hm : 1 ≤ m) (hiom : min n m ≤ iom + 1) (ρ : ℝ) (hρ : 0 ≤ ρ)
    (hρM : ∀ x, norm2 ((dt • M) *ᵥ x) ≤ ρ * norm2 x) :
    let k := (arnoldiLop A dt (fun i => v0 i / norm2 v0) m iom).k
    ∃ w, phiLinop (applCode expm) A dt v0 l m iom = .ok w
      ∧ norm2 (w - phiM l (dt • M) *ᵥ v0) ≤ norm2 v0 * (2 * ρ ^ k * Real.exp ρ / (Nat.factorial (k + l) : ℝ)
        + if l = 0 then 0 else denseErr (min n m) ρ) :=
  C65_error_bound (applCode expm) A M hA dt v0 hv l m iom hm hiom _ ρ hρ hρM fun q H h1 h2 hH =>
    applCode_error expm hx ρ hρ l (min n m) q (by omega) H hH

/-- **C65, code as it is, full dimension.** -/
theorem C65_code_full (expm : ∀ m, Mat m → Mat m) (hx : ∀ m A, expm m A = NormedSpace.exp A) (A : LinOp n) (M : Mat n)
    (hA : IsMatrix A M) (dt : ℝ) (v0 : Vec n) (hv : v0 ≠ 0) (l m iom : ℕ) (hm : n ≤ m) (hiom : n ≤ iom + 1) (ρ : ℝ) (hρ : 0 ≤ ρ)
    (hρM : ∀ x, norm2 ((dt • M) *ᵥ x) ≤ ρ * norm2 x) :
    ∃ w, phiLinop (applCode expm) A dt v0 l m iom = .ok w
      ∧ norm2 (w - phiM l (dt • M) *ᵥ v0) ≤ norm2 v0 * (1e-12 * Real.exp ρ + if l = 0 then 0 else denseErr n ρ) :=
  C65_full_dimension (applCode expm) A M hA dt v0 hv l m iom hm hiom _ ρ hρ hρM fun q H h1 _ hH =>
    applCode_error expm hx ρ hρ l n q h1 H hH

/-- **C65, bound in terms of the inputs only.** With full orthogonalisation, `max_krylov_dim = m` and any norm bound `ρ` of
`dt A`: either the process broke down (tolerance `1e-12`) or `m` vectors were used. -/
theorem C65_apriori (expm : ∀ m, Mat m → Mat m) (hx : ∀ m A, expm m A = NormedSpace.exp A) (A : LinOp n) (M : Mat n)
    (hA : IsMatrix A M) (dt : ℝ) (v0 : Vec n) (l m iom : ℕ) (hm : 1 ≤ m) (hiom : min n m ≤ iom + 1) (ρ : ℝ) (hρ : 0 ≤ ρ)
    (hρM : ∀ x, norm2 ((dt • M) *ᵥ x) ≤ ρ * norm2 x) :
    ∃ w, phiLinop (applCode expm) A dt v0 l m iom = .ok w
      ∧ norm2 (w - phiM l (dt • M) *ᵥ v0)
        ≤ norm2 v0 * (max (1e-12 * Real.exp ρ) (2 * ρ ^ m * Real.exp ρ / (Nat.factorial (m + l) : ℝ))
          + if l = 0 then 0 else denseErr (min n m) ρ) := by
  by_cases hv : v0 = 0
  · subst hv
    refine ⟨0, phiLinop_zero _ _ _ _ _ _, ?_⟩
    rw [Matrix.mulVec_zero, sub_zero, norm2_zero, zero_mul]
  have hn : 0 < n := by
    rcases Nat.eq_zero_or_pos n with rfl | h
    · exact absurd (Subsingleton.elim v0 0) hv
    · exact h
  have hb : (fun i => v0 i / norm2 v0) ≠ 0 := by
    intro h
    have := norm2_normalized (norm2_pos hv).ne'
    rw [h, norm2_zero] at this
    exact zero_ne_one this
  have up : ∀ {w : Vec n} {a b c : ℝ}, a ≤ b → norm2 (w - phiM l (dt • M) *ᵥ v0) ≤ norm2 v0 * (a + c) →
      norm2 (w - phiM l (dt • M) *ᵥ v0) ≤ norm2 v0 * (b + c) := fun hab h =>
    h.trans (mul_le_mul_of_nonneg_left (by linarith) (norm2_nonneg _))
  have hk := fun q (H : Mat q) (h1 : q ≤ n) (h2 : q ≤ m) (hH : ∀ x, norm2 (H *ᵥ x) ≤ ρ * norm2 x) =>
    applCode_error expm hx ρ hρ l (min n m) q (by omega) H hH
  obtain ⟨_, h2, _, h4⟩ := (C28_termination A dt (fun i => v0 i / norm2 v0) m iom hm).2 hb
  rcases h2.lt_or_eq with hlt | heq
  · obtain ⟨w, hw, he⟩ := C65_residual_bound (applCode expm) A M hA dt v0 hv l m iom hm hiom _ ρ 1e-12 hρ hρM hk
      fun j r hj hr => h4 j r hj hr hlt
    exact ⟨w, hw, up (le_max_left _ _) he⟩
  · rcases Nat.le_total m n with hmn | hmn
    · obtain ⟨w, hw, he⟩ := C65_error_bound (applCode expm) A M hA dt v0 hv l m iom hm hiom _ ρ hρ hρM hk
      rw [heq, min_eq_right hmn] at he
      rw [min_eq_right hmn]
      exact ⟨w, hw, up (le_max_right _ _) he⟩
    · obtain ⟨w, hw, he⟩ := C65_full_dimension (applCode expm) A M hA dt v0 hv l m iom hmn (by omega) _ ρ hρ hρM hk
      exact ⟨w, hw, up (le_max_left _ _) he⟩

/-! ### `kiops_fixedsteps` as coded -/

theorem norm2_concat_le {p : ℕ} (a : Vec n) (b : Vec p) : norm2 (concat a b) ≤ norm2 a + norm2 b := by
  have e : concat a b ⬝ᵥ concat a b = a ⬝ᵥ a + b ⬝ᵥ b := by
    simp [dotProduct, concat, Fin.sum_univ_add, Fin.append_left, Fin.append_right]
  refine Real.sqrt_le_iff.2 ⟨add_nonneg (norm2_nonneg _) (norm2_nonneg _), ?_⟩
  rw [e, ← norm2_sq a, ← norm2_sq b]
  nlinarith [norm2_nonneg a, norm2_nonneg b]

theorem norm2_mono_sum {p q : ℕ} (a : Vec p) (b : Vec q) (h : a ⬝ᵥ a ≤ b ⬝ᵥ b) : norm2 a ≤ norm2 b := Real.sqrt_le_sqrt h

theorem norm2_headN_le {p : ℕ} (v : Vec (n + p)) : norm2 (headN v) ≤ norm2 v := by
  refine norm2_mono_sum _ _ ?_
  simp only [dotProduct, Fin.sum_univ_add]
  exact le_add_of_nonneg_right (Finset.sum_nonneg fun i _ => mul_self_nonneg _)

theorem norm2_tailP_le {p : ℕ} (v : Vec (n + p)) : norm2 (tailP v) ≤ norm2 v := by
  refine norm2_mono_sum _ _ ?_
  simp only [dotProduct, Fin.sum_univ_add]
  exact le_add_of_nonneg_left (Finset.sum_nonneg fun i _ => mul_self_nonneg _)

theorem norm2_augK_le (p : ℕ) (z : Vec p) : norm2 (augK p *ᵥ z) ≤ norm2 z := by
  refine norm2_mono_sum _ _ ?_
  have e : ∀ i : Fin p, (augK p *ᵥ z) i = if h : (i : ℕ) + 1 < p then z ⟨i + 1, h⟩ else 0 := by
    intro i
    simp only [Matrix.mulVec, dotProduct, augK, Matrix.of_apply, ite_mul, one_mul, zero_mul]
    split_ifs with h
    · rw [Finset.sum_eq_single (⟨i + 1, h⟩ : Fin p)]
      · simp
      · intro b _ hb
        rw [if_neg fun h' => hb (Fin.ext h')]
      · simp
    · refine Finset.sum_eq_zero fun b _ => ?_
      rw [if_neg (by have := b.2; omega)]
  rcases p with _ | p
  · simp [dotProduct]
  · simp only [dotProduct, e]
    rw [Fin.sum_univ_castSucc, Fin.sum_univ_succ (fun i => z i * z i)]
    have : ∀ i : Fin p, (if h : (i.castSucc : ℕ) + 1 < p + 1 then z ⟨i.castSucc + 1, h⟩ else 0) = z i.succ := by
      intro i
      rw [dif_pos (by simp)]
      rfl
    simp only [this]
    rw [dif_neg (by simp)]
    nlinarith [mul_self_nonneg (z 0)]

theorem getD_norm_le (vb : List (Vec n)) (j : ℕ) : norm2 (vb.getD j 0) ≤ maxNorm vb := by
  rw [List.getD_eq_getElem?_getD]
  cases hj : vb[j]? with
  | none =>
    rw [Option.getD_none, norm2_zero]
    unfold maxNorm
    have : ∀ (l : List ℝ) (a : ℝ), a ≤ l.foldl max a := by
      intro l
      induction l with
      | nil => intro a; exact le_refl _
      | cons x t ih => intro a; exact le_trans (le_max_left a x) (ih (max a x))
    exact this _ _
  | some v => exact maxNorm_le (a := 0) v (List.mem_of_getElem? hj)

theorem norm2_div_le (b : Vec n) (ν : ℝ) (hν : 0 < ν) (h : norm2 b ≤ ν) : norm2 (fun i => b i / ν) ≤ 1 := by
  rw [div_eq_smul, norm2_smul, abs_of_pos (inv_pos.2 hν), inv_mul_le_iff₀ hν, mul_one]
  exact h

theorem norm2_sum_le {ι : Type} (s : Finset ι) (f : ι → Vec n) : norm2 (∑ j ∈ s, f j) ≤ ∑ j ∈ s, norm2 (f j) := by
  induction s using Finset.induction_on with
  | empty => simp [norm2_zero]
  | insert a s ha ih =>
    rw [Finset.sum_insert ha, Finset.sum_insert ha]
    exact (norm2_add_le _ _).trans (by linarith)

/-- norm of the augmented matrix -/
theorem kiopsOp_norm (A : LinOp n) (M : Mat n) (hA : IsMatrix A M) (dt : ℝ) (vb : List (Vec n)) (hpos : maxNorm vb > 0) (ρ : ℝ)
    (hρ : 0 ≤ ρ) (hρM : ∀ x, norm2 ((dt • M) *ᵥ x) ≤ ρ * norm2 x) (Z : Mat (n + (vb.length - 1))) (hZ : IsMatrix (kiopsOp A dt vb) Z)
    (x : Vec (n + (vb.length - 1))) : norm2 (Z *ᵥ x) ≤ (ρ + vb.length) * norm2 x := by
  rw [← hZ]
  have e : (kiopsOp A dt vb).matvec x = concat ((dt • M) *ᵥ headN x
      + (Matrix.of fun i j => augB vb i j / maxNorm vb) *ᵥ tailP x) (augK (vb.length - 1) *ᵥ tailP x) := by
    show concat (dt • A.matvec (headN x) + _) _ = _
    rw [hA, Matrix.smul_mulVec]
  rw [e]
  have hB : norm2 ((Matrix.of fun i j => augB vb i j / maxNorm vb) *ᵥ tailP x) ≤ ((vb.length - 1 : ℕ) : ℝ) * norm2 x := by
    have e2 : (Matrix.of fun i j => augB vb i j / maxNorm vb) *ᵥ tailP x
        = ∑ j : Fin (vb.length - 1), (tailP x j) • fun i => (vb.getD (vb.length - 1 - j) 0) i / maxNorm vb := by
      funext i
      simp [Matrix.mulVec, dotProduct, augB, Finset.sum_apply, mul_comm]
    rw [e2]
    refine (norm2_sum_le _ _).trans ?_
    calc ∑ j : Fin (vb.length - 1), norm2 ((tailP x j) • fun i => (vb.getD (vb.length - 1 - j) 0) i / maxNorm vb)
        ≤ ∑ _j : Fin (vb.length - 1), norm2 x := by
          refine Finset.sum_le_sum fun j _ => ?_
          rw [norm2_smul]
          have h1 := norm2_div_le (vb.getD (vb.length - 1 - j) 0) _ hpos (getD_norm_le vb _)
          have h2 : |tailP x j| ≤ norm2 x := (abs_le_norm2 _ _).trans (norm2_tailP_le x)
          calc _ ≤ |tailP x j| * 1 := mul_le_mul_of_nonneg_left h1 (abs_nonneg _)
            _ ≤ _ := by rw [mul_one]; exact h2
      _ = _ := by simp
  have hlen : ((vb.length - 1 : ℕ) : ℝ) + 1 ≤ vb.length := by
    rcases Nat.eq_zero_or_pos vb.length with h0 | h0
    · have : vb = [] := List.length_eq_zero_iff.1 h0
      rw [this] at hpos
      simp [maxNorm] at hpos
    · have : vb.length - 1 + 1 = vb.length := by omega
      exact_mod_cast this.le
  have hx := norm2_nonneg x
  have h1 := (hρM (headN x)).trans (mul_le_mul_of_nonneg_left (norm2_headN_le x) hρ)
  have h2 := (norm2_augK_le (vb.length - 1) (tailP x)).trans (norm2_tailP_le x)
  calc _ ≤ norm2 ((dt • M) *ᵥ headN x + (Matrix.of fun i j => augB vb i j / maxNorm vb) *ᵥ tailP x) + norm2 (augK (vb.length - 1) *ᵥ tailP x) :=
        norm2_concat_le _ _
    _ ≤ (ρ * norm2 x + ((vb.length - 1 : ℕ) : ℝ) * norm2 x) + norm2 x := by
        have := norm2_add_le ((dt • M) *ᵥ headN x) ((Matrix.of fun i j => augB vb i j / maxNorm vb) *ᵥ tailP x)
        linarith
    _ ≤ _ := by nlinarith

/-- **C31 for the code as it is.** `kiops_fixedsteps` with the package's own Krylov exponential (`expm` exact) returns
`∑_j phi_j(dt A) b_j`, `j = 0..p`, up to `2 max|b_j| max(1e-12 e^R, 2 R^m e^R / m!)`, where `m` is the Krylov dimension and
`R = |dt A| + p + 1` a bound of the augmented matrix; no other hypothesis. -/
theorem C31_code (expm : ∀ m, Mat m → Mat m) (hx : ∀ m A, expm m A = NormedSpace.exp A) (A : LinOp n) (M : Mat n)
    (hA : IsMatrix A M) (dt : ℝ) (vb : List (Vec n)) (hvb : 2 ≤ vb.length) (m iom nSteps : ℕ) (hm : 1 ≤ m)
    (hiom : min (n + (vb.length - 1)) m ≤ iom + 1) (ρ : ℝ) (hρ : 0 ≤ ρ) (hρM : ∀ x, norm2 ((dt • M) *ᵥ x) ≤ ρ * norm2 x) :
    ∃ w, kiopsFixedsteps (applCode expm) A dt vb m iom nSteps = .ok w
      ∧ norm2 (w - ∑ j ∈ Finset.range vb.length, phiM j (dt • M) *ᵥ vb.getD j 0)
        ≤ 2 * maxNorm vb * max (1e-12 * Real.exp (ρ + vb.length))
          (2 * (ρ + vb.length) ^ m * Real.exp (ρ + vb.length) / (Nat.factorial m : ℝ)) := by
  by_cases hpos : maxNorm vb > 0
  · obtain ⟨Z, hZ, hh⟩ := kiops_aug A M hA dt (maxNorm vb) vb
    obtain ⟨w, hw, he⟩ := C65_apriori expm hx (kiopsOp A dt vb) Z hZ 1 (kiopsVec vb) 0 m iom hm hiom (ρ + vb.length) (by positivity)
      (by rw [one_smul]; exact kiopsOp_norm A M hA dt vb hpos ρ hρ hρM Z hZ)
    rw [if_pos rfl, add_zero, add_zero, one_smul] at he
    refine ⟨maxNorm vb • headN w, ?_, ?_⟩
    · unfold kiopsFixedsteps
      rw [kiops_pos _ A dt vb hvb hpos, C29_matexp, hw]
      rfl
    · have e : ∑ j ∈ Finset.range vb.length, phiM j (dt • M) *ᵥ vb.getD j 0 = maxNorm vb • headN (phiM 0 Z *ᵥ kiopsVec vb) := by
        unfold kiopsVec
        rw [hh, smul_smul, mul_inv_cancel₀ hpos.ne', one_smul, show vb.length - 1 + 1 = vb.length by omega]
      have e2 : headN w - headN (phiM 0 Z *ᵥ kiopsVec vb) = headN (w - phiM 0 Z *ᵥ kiopsVec vb) := rfl
      rw [e, ← smul_sub, norm2_smul, abs_of_pos hpos, e2]
      have hv2 : norm2 (kiopsVec vb) ≤ 2 := by
        refine (norm2_concat_le _ _).trans ?_
        have h1 := norm2_div_le (vb.getD 0 0) _ hpos (getD_norm_le vb _)
        have h2 : norm2 (lastUnit (vb.length - 1)) ≤ 1 := by
          refine Real.sqrt_le_iff.2 ⟨zero_le_one, ?_⟩
          simp only [dotProduct, lastUnit, mul_ite, mul_one, mul_zero, one_pow]
          rw [Finset.sum_eq_single (⟨vb.length - 1 - 1, by omega⟩ : Fin (vb.length - 1))]
          · split_ifs <;> norm_num
          · intro b _ hb
            rw [if_neg (fun h => hb (Fin.ext (by simp only; omega)))]
          · simp
        linarith
      have h3 := (norm2_headN_le (w - phiM 0 Z *ᵥ kiopsVec vb)).trans he
      set E := max (1e-12 * Real.exp (ρ + vb.length)) (2 * (ρ + vb.length) ^ m * Real.exp (ρ + vb.length) / (Nat.factorial m : ℝ))
      have hE : 0 ≤ E := le_max_of_le_left (by positivity)
      calc _ ≤ maxNorm vb * (2 * E) := mul_le_mul_of_nonneg_left (h3.trans (mul_le_mul_of_nonneg_right hv2 hE)) hpos.le
        _ = _ := by ring
  · have hne : vb ≠ [] := by intro h; rw [h] at hvb; simp at hvb
    refine ⟨0, ?_, ?_⟩
    · unfold kiopsFixedsteps kiopsWith
      simp only
      rw [if_neg hne, if_neg hpos]
    · rw [Finset.sum_eq_zero fun j _ => by rw [maxNorm_zero hpos, Matrix.mulVec_zero], sub_zero, norm2_zero]
      have h0 : 0 ≤ maxNorm vb := (norm2_nonneg _).trans (getD_norm_le vb 0)
      have hE : 0 ≤ max (1e-12 * Real.exp (ρ + vb.length)) (2 * (ρ + vb.length) ^ m * Real.exp (ρ + vb.length) / (Nat.factorial m : ℝ)) :=
        le_max_of_le_left (by positivity)
      positivity

/-- The hypotheses are met: a plane rotation generator in dimension 2. -/
example : ∃ w, phiLinop (applCode fun _ A => NormedSpace.exp A)
      (LinOp.mk (fun v => !![0, 1; -1, 0] *ᵥ v) (.ok !![0, 1; -1, 0])) 2 ![3, 4] 1 2 2 = .ok w
    ∧ norm2 (w - phiM 1 ((2 : ℝ) • (!![0, 1; -1, 0] : Mat 2)) *ᵥ ![3, 4])
      ≤ norm2 ![3, 4] * (1e-12 * Real.exp 2 + denseErr 2 2) := by
  refine C65_code_full _ (fun _ _ => rfl) _ !![0, 1; -1, 0] (fun v => rfl) 2 ![3, 4] ?_ 1 2 2 (by norm_num) (by norm_num) 2 (by norm_num)
    ?_
  · intro h
    have := congrFun h 0
    norm_num at this
  · intro x
    rw [Matrix.smul_mulVec, norm2_smul]
    refine le_of_eq ?_
    rw [abs_of_pos (by norm_num)]
    congr 1
    unfold norm2
    congr 1
    simp [dotProduct, Fin.sum_univ_two, Matrix.mulVec]
    ring

end Ormatex.Props
