import Verif.Props.RsPadeSmall

/-!
`kiops_fixedsteps` of the crate for small steps.  The vector list of `epi3` starts with a zero vector, so the augmented operator `Z`
maps everything to vectors without last component and the Krylov process starts from the last unit vector.  Although `Z` itself has norm
about one, the iteration behaves as if it had the size of `dt A`.
-/

namespace Ormatex.Props
open Matrix Ormatex.Spec Ormatex.Rs
open scoped Matrix.Norms.Operator

section
variable {n : ℕ}

/-- the residual of the last column is orthogonal to the vectors the column was orthogonalised against -/
theorem rs_arnoldi_resOrth (A : LinOp n) (M : Mat n) (hA : IsMatrix A M) (scale : ℝ) (b : Vec n) (hb : b ≠ 0) (m iom : ℕ)
    (hm : 0 < m) {R : ArnResult n} {r : Vec n} (hR : arnoldiRs A scale b m iom = .ok R) (D : Decomp (scale • M) iom R.k R.Q R.H r)
    (i : Fin R.k) (hi : R.k ≤ i + iom + 1) : r ⬝ᵥ (fun x => R.Q x i) = 0 := by
  have hn : 0 < n := by
    rcases Nat.eq_zero_or_pos n with rfl | h
    · exact absurd (Subsingleton.elim b 0) hb
    · exact h
  have hpos := norm2_pos hb
  set q0 : Vec n := (1 / norm2 b) • b with hq0
  have hu : norm2 ((fun c : ℕ => if c = 0 then q0 else 0) 0) = 1 := by
    simp only [if_true, hq0]
    rw [norm2_smul, abs_of_pos (by positivity)]
    field_simp
  obtain ⟨h1, h2, -⟩ := rs_loop A scale (min m n) iom (min m n) 0
    ⟨fun _ _ => 0, fun c => if c = 0 then q0 else 0⟩ (by omega) (by omega) (ArnCore.init _ iom _ hu)
  have hf : ∀ x, scale • A.call x = (scale • M) *ᵥ x := by
    intro x
    rw [Matrix.smul_mulVec]
    show scale • A.matvec x = _
    rw [hA x]
  set L := arnoldiLoopRs A scale (min m n) iom (min m n) 0 ⟨fun _ _ => 0, fun c => if c = 0 then q0 else 0⟩ 0 with hL
  have hD := h1.decomp hf h2
  have hRe : R = ⟨L.2, Matrix.of fun i j => L.1.qs j i, Matrix.of fun i j => L.1.hs i j⟩ := by
    unfold arnoldiRs at hR
    simp only at hR
    rw [if_neg (by omega), if_neg hpos.ne'] at hR
    exact (Except.ok.inj hR).symm
  subst hRe
  simp only at D i hi
  have e : r = resid (fun x => scale • A.call x) L.1.hs L.1.qs (L.2 - 1) := by
    have a := D.rel ⟨L.2 - 1, by omega⟩
    have b := hD.rel ⟨L.2 - 1, by omega⟩
    rw [if_pos (by simp only; omega)] at a b
    rw [a] at b
    exact add_left_cancel b
  rw [e]
  exact h1.resOrth i (L.2 - 1) (by have := i.2; omega) (by omega) (by omega)

/-! ### operators without last component -/

/-- `Z` maps into the vectors without component `c` and has norm at most `σ` on them -/
structure Nil (Z : Mat n) (c : Fin n) (σ : ℝ) : Prop where
  out : ∀ x, (Z *ᵥ x) c = 0
  small : ∀ x, x c = 0 → norm2 (Z *ᵥ x) ≤ σ * norm2 x

theorem Nil.pow {Z : Mat n} {c : Fin n} {σ : ℝ} (hσ : 0 ≤ σ) (h : Nil Z c σ) (j : ℕ) (x : Vec n) (hx : x c = 0) :
    (Z ^ j *ᵥ x) c = 0 ∧ norm2 (Z ^ j *ᵥ x) ≤ σ ^ j * norm2 x := by
  induction j with
  | zero => simpa using hx
  | succ j ih =>
    rw [pow_succ', ← Matrix.mulVec_mulVec]
    refine ⟨h.out _, (h.small _ ih.1).trans ?_⟩
    rw [pow_succ', mul_assoc]
    exact mul_le_mul_of_nonneg_left ih.2 hσ

/-- the Krylov matrix inherits the structure from the operator -/
theorem nil_krylov {Z : Mat n} {iom k : ℕ} {Q : Matrix (Fin n) (Fin k) ℝ} {H : Mat k} {r : Vec n} (D : Decomp Z iom k Q H r)
    {c : Fin n} {σ : ℝ} (hσ : 0 ≤ σ) (hZ : Nil Z c σ) (hst : ∀ x, Q x ⟨0, D.pos⟩ = if x = c then 1 else 0)
    (horth : ∀ i j : Fin k, (i : ℕ) < j → (j : ℕ) ≤ i + (iom + 1) → (fun x => Q x i) ⬝ᵥ (fun x => Q x j) = 0)
    (hsub : ∀ i j : Fin k, (i : ℕ) = j + 1 → 1e-12 ≤ |H i j|)
    (hres : ∀ i : Fin k, k ≤ i + iom + 1 → r ⬝ᵥ (fun x => Q x i) = 0) :
    (∀ j : Fin k, 0 < (j : ℕ) → Q c j = 0) ∧ Nil H ⟨0, D.pos⟩ (Real.sqrt (iom + 2) * σ) := by
  have hdot : ∀ y : Vec n, (fun x => Q x ⟨0, D.pos⟩) ⬝ᵥ y = y c := by
    intro y
    simp only [dotProduct, hst, ite_mul, one_mul, zero_mul, Finset.sum_ite_eq', Finset.mem_univ, if_true]
  have hcomp : ∀ j : Fin k, (0 : ℝ) = ∑ i, H i j * Q c i + (if (j : ℕ) + 1 = k then r else 0) c := by
    intro j
    have := congrFun (D.rel j) c
    rw [hZ.out] at this
    rw [this]
    simp only [Pi.add_apply, Matrix.mulVec, dotProduct, mul_comm]
  have hq : ∀ N, ∀ j : Fin k, (j : ℕ) = N → 0 < (j : ℕ) → Q c j = 0 := by
    intro N
    induction N using Nat.strong_induction_on with
    | _ N ih =>
      intro j hjN hj
      by_cases hb : (j : ℕ) ≤ iom + 1
      · have := horth ⟨0, D.pos⟩ j hj (by simp only; omega)
        rwa [hdot] at this
      · have hj1 : (j : ℕ) - 1 < k := by have := j.2; omega
        have h := hcomp ⟨(j : ℕ) - 1, hj1⟩
        rw [if_neg (by simp only; have := j.2; omega), Pi.zero_apply, add_zero, Finset.sum_eq_single j] at h
        · have h2 := hsub j ⟨(j : ℕ) - 1, hj1⟩ (by simp only; omega)
          rcases mul_eq_zero.1 h.symm with h3 | h3
          · rw [h3, abs_zero] at h2
            norm_num at h2
          · exact h3
        · intro i _ hi
          rcases Nat.lt_trichotomy (i : ℕ) j with hl | hl | hl
          · by_cases h0 : 0 < (i : ℕ)
            · rw [ih i (by omega) i rfl h0, mul_zero]
            · rw [D.band i ⟨(j : ℕ) - 1, hj1⟩ (by simp only; omega), zero_mul]
          · exact absurd (Fin.ext hl) hi
          · rw [D.hess i ⟨(j : ℕ) - 1, hj1⟩ (by simp only; omega), zero_mul]
        · simp
  have hQ : ∀ j : Fin k, 0 < (j : ℕ) → Q c j = 0 := fun j hj => hq j j rfl hj
  have hQ0 : Q c ⟨0, D.pos⟩ = 1 := by rw [hst, if_pos rfl]
  have hH0 : ∀ j, H ⟨0, D.pos⟩ j = 0 := by
    intro j
    by_cases hb : iom < (j : ℕ)
    · exact D.band _ j (by simp only; omega)
    · have h := hcomp j
      rw [Finset.sum_eq_single (⟨0, D.pos⟩ : Fin k), hQ0, mul_one] at h
      · by_cases hj : (j : ℕ) + 1 = k
        · rw [if_pos hj] at h
          have h2 := hres ⟨0, D.pos⟩ (by simp only; omega)
          rw [dotProduct_comm, hdot] at h2
          rw [h2, add_zero] at h
          exact h.symm
        · rw [if_neg hj, Pi.zero_apply, add_zero] at h
          exact h.symm
      · intro i _ hi
        rw [hQ i (by
          rcases Nat.eq_zero_or_pos (i : ℕ) with h0 | h0
          · exact absurd (Fin.ext h0) hi
          · exact h0), mul_zero]
      · simp
  refine ⟨hQ, fun x => ?_, fun x hx => ?_⟩
  · simp only [Matrix.mulVec, dotProduct, hH0, zero_mul, Finset.sum_const_zero]
  · -- drop column zero
    obtain ⟨H', hH'⟩ : ∃ H' : Mat k, H' = Matrix.of fun (i j : Fin k) => if (j : ℕ) = 0 then 0 else H i j := ⟨_, rfl⟩
    have e : H *ᵥ x = H' *ᵥ x := by
      funext i
      simp only [Matrix.mulVec, dotProduct, hH', Matrix.of_apply]
      refine Finset.sum_congr rfl fun j _ => ?_
      by_cases hj : (j : ℕ) = 0
      · have : j = ⟨0, D.pos⟩ := Fin.ext hj
        rw [this, hx]; simp
      · rw [if_neg hj]
    rw [e]
    refine band_bound H' iom σ ?_ ?_ (fun j => ?_) hσ x
    · intro i j h
      rw [hH', Matrix.of_apply]
      split_ifs
      · rfl
      · exact D.hess i j h
    · intro i j h
      rw [hH', Matrix.of_apply]
      split_ifs
      · rfl
      · exact D.band i j h
    · by_cases hj : (j : ℕ) = 0
      · have : (fun i => H' i j) = 0 := by
          funext i
          rw [hH', Matrix.of_apply, if_pos hj]; rfl
        rw [this, norm2_zero]
        exact hσ
      · have : (fun i => H' i j) = fun i => H i j := by
          funext i
          rw [hH', Matrix.of_apply, if_neg hj]
        rw [this]
        refine (D.col j).trans ((hZ.small _ (hQ j (by omega))).trans ?_)
        rw [D.unit j, mul_one]

/-- the Krylov error, no restriction on breakdown -/
theorem nil_error {Z : Mat n} {iom k : ℕ} {Q : Matrix (Fin n) (Fin k) ℝ} {H : Mat k} {r : Vec n} (D : Decomp Z iom k Q H r)
    {c : Fin n} {σ g : ℝ} (hσ : 0 ≤ σ) (hZ : Nil Z c σ)
    (hH : Nil H ⟨0, D.pos⟩ (Real.sqrt (iom + 2) * σ)) (hk : 2 ≤ k)
    (hg : norm2 (Z *ᵥ (Z *ᵥ fun x => Q x ⟨0, D.pos⟩)) ≤ g) :
    norm2 (NormedSpace.exp Z *ᵥ (fun x => Q x ⟨0, D.pos⟩) - Q *ᵥ (NormedSpace.exp H *ᵥ firstUnit k)) ≤
      (1 + Real.sqrt k) * g * (Real.sqrt (iom + 2) * σ) ^ (k - 2) * Real.exp (Real.sqrt (iom + 2) * σ) := by
  obtain ⟨s, hs⟩ : ∃ s, s = Real.sqrt (iom + 2) * σ := ⟨_, rfl⟩
  have hs0 : 0 ≤ s := by rw [hs]; positivity
  have hσs : σ ≤ s := by rw [hs]; exact le_mul_of_one_le_left hσ (sqrt_iom_one iom)
  rw [← hs] at hH ⊢
  have hQ0 : Q *ᵥ firstUnit k = fun x => Q x ⟨0, D.pos⟩ := mulVec_firstUnit D.pos Q
  rw [← hQ0] at hg ⊢
  -- the second power of the small matrix
  have hHH : norm2 (H *ᵥ (H *ᵥ firstUnit k)) ≤ g := by
    have hc0 : H *ᵥ firstUnit k = H ⟨1, by omega⟩ ⟨0, D.pos⟩ • (fun i : Fin k => if (i : ℕ) = 1 then (1 : ℝ) else 0) := by
      rw [mulVec_firstUnit D.pos H]
      funext i
      show H i ⟨0, D.pos⟩ = H ⟨1, by omega⟩ ⟨0, D.pos⟩ * (if (i : ℕ) = 1 then (1 : ℝ) else 0)
      by_cases h1 : (i : ℕ) = 1
      · rw [if_pos h1, mul_one]
        congr 1
        exact Fin.ext h1
      · rw [if_neg h1, mul_zero]
        rcases Nat.eq_zero_or_pos (i : ℕ) with h0 | h0
        · have h2 := hH.out (firstUnit k)
          rw [mulVec_firstUnit D.pos H] at h2
          rw [show i = ⟨0, D.pos⟩ from Fin.ext h0]
          exact h2
        · exact D.hess i _ (by simp only; omega)
    have hc1 : ∀ W : Matrix (Fin k) (Fin k) ℝ, W *ᵥ (fun i : Fin k => if (i : ℕ) = 1 then (1 : ℝ) else 0) = fun i => W i ⟨1, by omega⟩ := by
      intro W
      funext i
      simp only [Matrix.mulVec, dotProduct, mul_ite, mul_one, mul_zero]
      rw [Finset.sum_eq_single (⟨1, by omega⟩ : Fin k)]
      · simp
      · intro j _ hj
        rw [if_neg (fun h => hj (Fin.ext h))]
      · simp
    have hZq : Z *ᵥ (Q *ᵥ firstUnit k) = H ⟨1, by omega⟩ ⟨0, D.pos⟩ • (fun x => Q x ⟨1, by omega⟩) := by
      have h1 := D.polynomial 1 (by omega)
      rw [pow_one, pow_one] at h1
      rw [h1, hc0, Matrix.mulVec_smul]
      congr 1
      funext x
      simp only [Matrix.mulVec, dotProduct, mul_ite, mul_one, mul_zero]
      rw [Finset.sum_eq_single (⟨1, by omega⟩ : Fin k)]
      · simp
      · intro j _ hj
        rw [if_neg (fun h => hj (Fin.ext h))]
      · simp
    rw [hZq, Matrix.mulVec_smul, norm2_smul] at hg
    rw [hc0, Matrix.mulVec_smul, norm2_smul, hc1]
    exact (mul_le_mul_of_nonneg_left (D.col _) (abs_nonneg _)).trans hg
  have hsum : ∀ i, HasSum (fun j : ℕ => ((Nat.factorial (j + k + 0) : ℝ)⁻¹ • (Z ^ (j + k) *ᵥ (Q *ᵥ firstUnit k)
      - Q *ᵥ (H ^ (j + k) *ᵥ firstUnit k))) i)
      ((NormedSpace.exp Z *ᵥ (Q *ᵥ firstUnit k) - Q *ᵥ (NormedSpace.exp H *ᵥ firstUnit k)) i) := by
    intro i
    have h := krylov_diff_hasSum Z H Q (firstUnit k) 0 i
    rw [phiM_zero, phiM_zero, ← hasSum_nat_add_iff' k] at h
    rw [Finset.sum_eq_zero, sub_zero] at h
    · exact h
    · intro j hj'
      rw [D.polynomial j (Finset.mem_range.mp hj'), sub_self, smul_zero]
      rfl
  have hgs := (expSeries s).mul_left ((1 + Real.sqrt k) * g * s ^ (k - 2))
  refine norm2_hasSum_le hsum hgs fun j => ?_
  have e1 : j + k = j + (k - 2) + 2 := by omega
  have hb : norm2 (Z ^ (j + k) *ᵥ (Q *ᵥ firstUnit k) - Q *ᵥ (H ^ (j + k) *ᵥ firstUnit k)) ≤ (1 + Real.sqrt k) * g * s ^ (k - 2) * s ^ j := by
    refine (norm2_sub_le _ _).trans ?_
    have p1 : Z ^ (j + k) *ᵥ (Q *ᵥ firstUnit k) = Z ^ (j + (k - 2)) *ᵥ (Z *ᵥ (Z *ᵥ (Q *ᵥ firstUnit k))) := by
      rw [e1, pow_add, pow_two, ← Matrix.mulVec_mulVec, ← Matrix.mulVec_mulVec]
    have p2 : H ^ (j + k) *ᵥ firstUnit k = H ^ (j + (k - 2)) *ᵥ (H *ᵥ (H *ᵥ firstUnit k)) := by
      rw [e1, pow_add, pow_two, ← Matrix.mulVec_mulVec, ← Matrix.mulVec_mulVec]
    rw [p1, p2]
    have q1 := (hZ.pow hσ (j + (k - 2)) _ (hZ.out (Z *ᵥ (Q *ᵥ firstUnit k)))).2
    have q2 := (hH.pow hs0 (j + (k - 2)) _ (hH.out (H *ᵥ firstUnit k))).2
    have q3 := unitCols_bound Q D.unit (H ^ (j + (k - 2)) *ᵥ (H *ᵥ (H *ᵥ firstUnit k)))
    have r1 : σ ^ (j + (k - 2)) * norm2 (Z *ᵥ (Z *ᵥ (Q *ᵥ firstUnit k))) ≤ s ^ (j + (k - 2)) * g :=
      mul_le_mul (pow_le_pow_left₀ hσ hσs _) hg (norm2_nonneg _) (by positivity)
    have r2 : s ^ (j + (k - 2)) * norm2 (H *ᵥ (H *ᵥ firstUnit k)) ≤ s ^ (j + (k - 2)) * g :=
      mul_le_mul_of_nonneg_left hHH (by positivity)
    have r3 := mul_le_mul_of_nonneg_left (q2.trans r2) (Real.sqrt_nonneg k)
    have e : (1 + Real.sqrt k) * g * s ^ (k - 2) * s ^ j = s ^ (j + (k - 2)) * g + Real.sqrt k * (s ^ (j + (k - 2)) * g) := by
      rw [pow_add]; ring
    rw [e]
    linarith
  rw [norm2_smul, abs_of_nonneg (by positivity)]
  have hf : (Nat.factorial j : ℝ) ≤ (Nat.factorial (j + k + 0) : ℝ) := by
    exact_mod_cast Nat.factorial_le (by omega)
  calc (Nat.factorial (j + k + 0) : ℝ)⁻¹ * _ ≤ (Nat.factorial j : ℝ)⁻¹ * ((1 + Real.sqrt k) * g * s ^ (k - 2) * s ^ j) :=
        mul_le_mul (inv_anti₀ (by positivity) hf) hb (norm2_nonneg _) (by positivity)
    _ = _ := by ring

theorem norm_le_entries {q : ℕ} (A : Mat q) (c : ℝ) (hc : 0 ≤ c) (h : ∀ i j, |A i j| ≤ c) : ‖A‖ ≤ q * c := by
  rw [← infNorm_eq_norm]
  unfold infNorm
  rcases isEmpty_or_nonempty (Fin q) with he | he
  · rw [Real.iSup_of_isEmpty]; positivity
  · exact ciSup_le fun i => (Finset.sum_le_sum fun j _ => h i j).trans (le_of_eq (by simp))

/-- error of the crate's Padé exponential on a Krylov matrix of this structure -/
noncomputable def nilDense (N : ℕ) (s S : ℝ) : ℝ :=
  Real.sqrt N * (Real.exp (N * S) * (2 * (N * (s ^ 5 * S)) * max 1 (N ^ 2 * S)))

theorem nilDense_nonneg (N : ℕ) {s S : ℝ} (hs : 0 ≤ s) (hS : 0 ≤ S) : 0 ≤ nilDense N s S := by
  unfold nilDense
  have : (0 : ℝ) ≤ max 1 (N ^ 2 * S) := le_trans zero_le_one (le_max_left _ _)
  positivity

theorem nil_dense {k N : ℕ} (hkN : k ≤ N) (H : Mat k) (c : Fin k) (s S : ℝ) (hs : 0 ≤ s) (hS : 0 ≤ S) (hH : Nil H c s)
    (hb : ∀ x, norm2 (H *ᵥ x) ≤ S * norm2 x) (hsm : N ^ 2 * S * (N * (s ^ 5 * S)) ≤ 1) :
    ∃ e, padeKernel k H 1 (unitVec k) 0 = .ok e ∧ norm2 (e - NormedSpace.exp H *ᵥ firstUnit k) ≤ nilDense N s S := by
  refine ⟨_, rfl, ?_⟩
  have hkN' : (k : ℝ) ≤ N := by exact_mod_cast hkN
  have hent : ∀ i j, |H i j| ≤ S := entry_le_norm2 H S hb
  have h6 : ‖H ^ 6‖ ≤ N * (s ^ 5 * S) := by
    refine (norm_le_entries _ (s ^ 5 * S) (by positivity) (entry_le_norm2 _ _ fun x => ?_)).trans (by gcongr)
    rw [pow_succ, ← Matrix.mulVec_mulVec]
    refine (hH.pow hs 5 _ (hH.out x)).2.trans ?_
    rw [mul_assoc]
    exact mul_le_mul_of_nonneg_left (hb x) (by positivity)
  have hL1 : normL1 H ≤ N ^ 2 * S := by
    unfold normL1
    refine (Finset.sum_le_sum fun i _ => Finset.sum_le_sum fun j _ => hent i j).trans ?_
    have : ∑ _i : Fin k, ∑ _j : Fin k, S = (k : ℝ) ^ 2 * S := by simp; ring
    rw [this]
    gcongr
  have hn : ‖H‖ ≤ N * S := (norm_le_entries H S hS hent).trans (by gcongr)
  have h := C80_accuracy_sharp H 1 (by
    rw [one_smul]
    exact (mul_le_mul hL1 ((min_le_right _ _).trans h6) (le_min (by norm_num) (norm_nonneg _)) (by positivity)).trans hsm)
  rw [one_smul] at h
  have hL0 := normL1_nonneg H
  have hm0 : (0 : ℝ) ≤ max 1 (2 * normL1 H / 5.371920351148152) := le_trans zero_le_one (le_max_left _ _)
  have hm1 : (0 : ℝ) ≤ max 1 ((N : ℝ) ^ 2 * S) := le_trans zero_le_one (le_max_left _ _)
  have hmin : 0 ≤ min (1 / 10 ^ 15) ‖H ^ 6‖ := le_min (by norm_num) (norm_nonneg _)
  obtain ⟨C, hC⟩ : ∃ C, C = Real.exp (N * S) * (2 * (N * (s ^ 5 * S)) * max 1 (N ^ 2 * S)) := ⟨_, rfl⟩
  have hC0 : 0 ≤ C := by rw [hC]; positivity
  have hall : ‖matexpRs H 1 - NormedSpace.exp H‖ ≤ C := by
    refine h.trans ?_
    rw [hC]
    rcases isEmpty_or_nonempty (Fin k) with he | he
    · have : ‖NormedSpace.exp H‖ = 0 := by rw [Subsingleton.elim (NormedSpace.exp H) 0, norm_zero]
      rw [this, zero_mul]
      positivity
    · refine mul_le_mul ((exp_norm_le H).trans (Real.exp_le_exp.2 hn)) (mul_le_mul ?_ (max_le_max le_rfl ?_) hm0 (by positivity))
        (by positivity) (Real.exp_pos _).le
      · exact mul_le_mul_of_nonneg_left ((min_le_right _ _).trans h6) (by norm_num)
      · rw [div_le_iff₀ (by norm_num)]
        have : 0 ≤ (N : ℝ) ^ 2 * S := by positivity
        linarith
  have e1 : ((1 : ℝ) • H) = H := one_smul _ _
  show norm2 (phiExtRs (fun _ A => matexpRs A 1) ((1 : ℝ) • H) 0 *ᵥ firstUnit k - _) ≤ _
  rw [e1]
  show norm2 (matexpRs H 1 *ᵥ firstUnit k - NormedSpace.exp H *ᵥ firstUnit k) ≤ _
  rw [← Matrix.sub_mulVec]
  refine (norm2_le_of_entries _ C hC0 fun i => ?_).trans ?_
  · have hpos : 0 < k := lt_of_le_of_lt (Nat.zero_le _) i.2
    rw [mulVec_firstUnit hpos]
    exact (norm_entry_le (matexpRs H 1 - NormedSpace.exp H) _ _).trans hall
  · unfold nilDense
    rw [← hC]
    exact mul_le_mul_of_nonneg_right (Real.sqrt_le_sqrt hkN') hC0

/-- the product with the exponential of an operator of this structure, started at the unit vector -/
theorem nil_product (m iom : ℕ) (hm : 2 ≤ m) (E : LinOp n) (Z : Mat n) (hE : IsMatrix E Z) (c d : Fin n) (hcd : d ≠ c) (σ g P : ℝ)
    (hσ : 0 ≤ σ) (hP0 : 0 ≤ P) (hZ : Nil Z c σ) (v : Vec n) (hv : v = fun x => if x = c then 1 else 0) (h1 : (Z *ᵥ v) d = 1)
    (hg : norm2 (Z *ᵥ (Z *ᵥ v)) ≤ g) (hP : ∀ x, norm2 (Z *ᵥ x) ≤ P * norm2 x) (hs1 : Real.sqrt (iom + 2) * σ ≤ 1)
    (hsm : n ^ 2 * (Real.sqrt (iom + 2) * P) * (n * ((Real.sqrt (iom + 2) * σ) ^ 5 * (Real.sqrt (iom + 2) * P))) ≤ 1) :
    ∃ w, (KrylovExpm.mk padeKernel m iom).applyLinop E 1 v = .ok w ∧
      norm2 (w - NormedSpace.exp Z *ᵥ v) ≤ (1 + Real.sqrt n) * g * Real.exp 1
        + Real.sqrt n * nilDense n (Real.sqrt (iom + 2) * σ) (Real.sqrt (iom + 2) * P) ∧
      ((4 ≤ min n m ∨ (n ≤ m ∧ n ≤ iom + 1)) → norm2 (w - NormedSpace.exp Z *ᵥ v) ≤
        (1 + Real.sqrt n) * g * (Real.sqrt (iom + 2) * σ) ^ 2 * Real.exp 1
        + min ((1 + Real.sqrt n) * g * Real.exp 1) (1e-12 * Real.exp (Real.sqrt (iom + 2) * P))
        + Real.sqrt n * nilDense n (Real.sqrt (iom + 2) * σ) (Real.sqrt (iom + 2) * P)) := by
  have hvn : norm2 v = 1 := by
    rw [hv]
    unfold norm2
    simp [dotProduct]
  have hv0 : v ≠ 0 := by
    intro h
    rw [h, norm2_zero] at hvn
    exact zero_ne_one hvn
  have hg0 : 0 ≤ g := (norm2_nonneg _).trans hg
  obtain ⟨R, r, hR, hk, D, hst, hres, horth, hsub, hfull⟩ := C107_arnoldi E Z hE 1 v hv0 m iom (by omega)
  have hro := rs_arnoldi_resOrth E Z hE 1 v hv0 m iom (by omega) hR D
  rw [one_smul] at D
  rw [hvn, one_smul, mulVec_firstUnit D.pos] at hst
  have hQ0 : ∀ x, R.Q x ⟨0, D.pos⟩ = if x = c then 1 else 0 := fun x => by rw [congrFun hst x, hv]
  obtain ⟨-, hH⟩ := nil_krylov D hσ hZ hQ0 horth hsub hro
  have hn2 : 2 ≤ n := by
    have := c.2; have := d.2
    rcases Nat.lt_or_ge n 2 with h | h
    · exact absurd (Fin.ext (by omega)) hcd
    · exact h
  have hk2 : 2 ≤ R.k := by
    by_contra hlt
    have hpos := D.pos
    have hk1 : R.k = 1 := by omega
    have h3 := hres (by omega)
    have h4 := D.rel ⟨0, D.pos⟩
    rw [if_pos (by simp only; omega), hst] at h4
    have h5 := congrFun h4 d
    have h6 : (R.Q *ᵥ fun i => R.H i ⟨0, D.pos⟩) d = 0 := by
      simp only [Matrix.mulVec, dotProduct]
      refine Finset.sum_eq_zero fun i _ => ?_
      have : i = ⟨0, D.pos⟩ := Fin.ext (by have := i.2; simp only; omega)
      rw [this, hQ0, if_neg hcd, zero_mul]
    rw [Pi.add_apply, h6, h1, zero_add] at h5
    have h7 := abs_le_norm2 r d
    rw [← h5, abs_one] at h7
    linarith
  have hkn : R.k ≤ n := hk.trans (min_le_left _ _)
  have hkn' : Real.sqrt R.k ≤ Real.sqrt n := Real.sqrt_le_sqrt (by exact_mod_cast hkn)
  have hs0 : 0 ≤ Real.sqrt (iom + 2) * σ := by positivity
  have hS0 : 0 ≤ Real.sqrt (iom + 2) * P := by positivity
  obtain ⟨e, he, hee⟩ := nil_dense hkn R.H ⟨0, D.pos⟩ _ _ hs0 hS0 hH (D.bound P hP0 hP) hsm
  have hke := nil_error (g := g) D hσ hZ hH hk2 (by rw [hst]; exact hg)
  rw [hst] at hke
  have hres2 : ∀ ε, norm2 r ≤ ε → norm2 (NormedSpace.exp Z *ᵥ v - R.Q *ᵥ (NormedSpace.exp R.H *ᵥ firstUnit R.k)) ≤
      ε * Real.exp (Real.sqrt (iom + 2) * P) := by
    intro ε hε
    have h := D.residual P ε hP0 hP hε 0
    rw [phiM_zero, phiM_zero, mulVec_firstUnit D.pos, hst] at h
    exact h
  refine ⟨norm2 v • (R.Q *ᵥ e), ?_, ?_⟩
  · unfold KrylovExpm.applyLinop
    simp only
    rw [hR]
    show (do let e ← padeKernel R.k R.H 1 (unitVec R.k) 0; pure (norm2 v • (R.Q *ᵥ e))) = _
    rw [he]
    rfl
  rw [hvn, one_smul]
  have e2 : R.Q *ᵥ e - NormedSpace.exp Z *ᵥ v = R.Q *ᵥ (e - NormedSpace.exp R.H *ᵥ firstUnit R.k)
      - (NormedSpace.exp Z *ᵥ v - R.Q *ᵥ (NormedSpace.exp R.H *ᵥ firstUnit R.k)) := by
    rw [Matrix.mulVec_sub]; abel
  rw [e2]
  have b0 := norm2_sub_le (R.Q *ᵥ (e - NormedSpace.exp R.H *ᵥ firstUnit R.k))
    (NormedSpace.exp Z *ᵥ v - R.Q *ᵥ (NormedSpace.exp R.H *ᵥ firstUnit R.k))
  have b1 := (unitCols_bound R.Q D.unit (e - NormedSpace.exp R.H *ᵥ firstUnit R.k)).trans
    (mul_le_mul hkn' hee (norm2_nonneg _) (Real.sqrt_nonneg _))
  have hsq : ∀ j, 2 ≤ j → (1 + Real.sqrt R.k) * g * (Real.sqrt (iom + 2) * σ) ^ j * Real.exp (Real.sqrt (iom + 2) * σ) ≤
      (1 + Real.sqrt n) * g * (Real.sqrt (iom + 2) * σ) ^ 2 * Real.exp 1 := by
    intro j hj
    have := pow_le_pow_of_le_one hs0 hs1 hj
    have h3 := Real.exp_le_exp.2 hs1
    gcongr
  have b2 : (1 + Real.sqrt R.k) * g * (Real.sqrt (iom + 2) * σ) ^ (R.k - 2) * Real.exp (Real.sqrt (iom + 2) * σ) ≤
      (1 + Real.sqrt n) * g * 1 * Real.exp 1 := by
    have := pow_le_one₀ hs0 hs1 (n := R.k - 2)
    have h3 := Real.exp_le_exp.2 hs1
    gcongr
  rw [mul_one] at b2
  refine ⟨by linarith, fun hdim => ?_⟩
  have hT0 : 0 ≤ (1 + Real.sqrt n) * g * (Real.sqrt (iom + 2) * σ) ^ 2 * Real.exp 1 := by positivity
  have hM0 : 0 ≤ min ((1 + Real.sqrt n) * g * Real.exp 1) (1e-12 * Real.exp (Real.sqrt (iom + 2) * P)) :=
    le_min (by positivity) (by positivity)
  rcases Nat.lt_or_ge R.k (min n m) with hlt | hge
  · have h4 := hres2 _ (hres hlt).le
    have h5 := le_min (hke.trans b2) h4
    linarith
  · have hkm : R.k = min n m := le_antisymm hk hge
    rcases hdim with hd | ⟨hd1, hd2⟩
    · have := hsq (R.k - 2) (by omega)
      linarith
    · have h4 := hres2 0 (by rw [hfull (by rw [hkm]; exact min_eq_left hd1) hd2, norm2_zero])
      rw [zero_mul] at h4
      linarith

/-! ### the vector list of `epi3` -/

/-- **`kiops_fixedsteps` of the crate on `[0, a, b]`, the list of `epi3`.**  With at least two Krylov vectors and any orthogonalisation
depth `phi_1(t A) a + phi_2(t A) b` is computed with an error proportional to `ρ |a| + |b|`, up to a term of fifth order; `ρ` bounds
the norm of `t A`.  With at least four vectors, or the whole augmented space fully orthogonalised, the first error is smaller by the factor
`s^2`, unless the Arnoldi iteration meets its absolute breakdown tolerance `1e-12`. -/
theorem kiops_small (m iom : ℕ) (hm : 2 ≤ m) (A : LinOp n) (M : Mat n) (hA : IsMatrix A M) (t : ℝ) (a b : Vec n) (ρ : ℝ) (hρ : 0 ≤ ρ)
    (hM : ∀ x, norm2 ((t • M) *ᵥ x) ≤ ρ * norm2 x) (s S : ℝ) (hsd : s = Real.sqrt (iom + 2) * (ρ + norm2 b))
    (hSd : S = Real.sqrt (iom + 2) * (ρ + (norm2 a + norm2 b) + 1)) (hs1 : s ≤ 1)
    (hsm : ((n + 2 : ℕ) : ℝ) ^ 2 * S * ((n + 2 : ℕ) * (s ^ 5 * S)) ≤ 1) :
    ∃ w, (KrylovExpm.mk padeKernel m iom).kiops t A [0, a, b] 1 = .ok w ∧
      norm2 (w - (phiM 1 (t • M) *ᵥ a + phiM 2 (t • M) *ᵥ b)) ≤
        (1 + Real.sqrt (n + 2 : ℕ)) * (ρ * norm2 a + norm2 b) * Real.exp 1 + Real.sqrt (n + 2 : ℕ) * nilDense (n + 2) s S ∧
      ((4 ≤ min (n + 2) m ∨ (n + 2 ≤ m ∧ n + 2 ≤ iom + 1)) → norm2 (w - (phiM 1 (t • M) *ᵥ a + phiM 2 (t • M) *ᵥ b)) ≤
        (1 + Real.sqrt (n + 2 : ℕ)) * (ρ * norm2 a + norm2 b) * s ^ 2 * Real.exp 1
        + min ((1 + Real.sqrt (n + 2 : ℕ)) * (ρ * norm2 a + norm2 b) * Real.exp 1) (1e-12 * Real.exp S)
        + Real.sqrt (n + 2 : ℕ) * nilDense (n + 2) s S) := by
  obtain ⟨vb, hvb⟩ : ∃ vb : List (Vec n), vb = [0, a, b] := ⟨_, rfl⟩
  obtain ⟨Z, hZ, hval⟩ := kiops_aug A M hA t 1 [0, a, b]
  obtain ⟨ext, hext⟩ : ∃ ext, extendedLinOp t A [0, a, b] = .ok ext := by
    unfold extendedLinOp
    rw [if_neg (by simp)]
    exact ⟨_, rfl⟩
  have hZ' : IsMatrix ext Z := by
    have e : ext = augMatvec A t (Matrix.of fun i j => augB [0, a, b] i j / 1) (augK ([0, a, b].length - 1)) := by
      unfold extendedLinOp at hext
      rw [if_neg (by simp)] at hext
      have := Except.ok.inj hext
      rw [← this]
      unfold augMatvec
      congr 1
      funext rhs
      have : (Matrix.of fun i j => augB [0, a, b] i j / 1) = extB [0, a, b] := by
        ext i j; simp [augB, extB]
      rw [this]
      rfl
    rw [e]
    exact hZ
  have hP := rsExt_norm A M hA t [0, a, b] ρ (norm2 a + norm2 b) hρ hM (by
    show ∑ j : Fin 2, norm2 ([0, a, b].getD (2 - (j : ℕ)) 0) ≤ _
    rw [Fin.sum_univ_two]
    show norm2 b + norm2 a ≤ _
    linarith) ext hext Z hZ'
  have hform : ∀ x : Vec (n + 2), Z *ᵥ x = concat ((t • M) *ᵥ headN x + (tailP x 0 • b + tailP x 1 • a)) ![tailP x 1, 0] := by
    intro x
    have h0 := hZ' x
    have e : ext.matvec x = concat ((t • M) *ᵥ headN x + extB [0, a, b] *ᵥ tailP x) (augK 2 *ᵥ tailP x) := by
      unfold extendedLinOp at hext
      rw [if_neg (by simp)] at hext
      have := Except.ok.inj hext
      rw [← this]
      show concat (t • A.matvec (headN x) + _) _ = _
      rw [hA, Matrix.smul_mulVec]
      rfl
    refine h0.symm.trans (e.trans ?_)
    congr 1
    · congr 1
      funext i
      show ∑ j : Fin 2, [0, a, b].getD (2 - (j : ℕ)) 0 i * tailP x j = _
      rw [Fin.sum_univ_two]
      show b i * tailP x 0 + a i * tailP x 1 = tailP x 0 * b i + tailP x 1 * a i
      ring
    · funext j
      show ∑ k : Fin 2, augK 2 j k * tailP x k = _
      rw [Fin.sum_univ_two]
      fin_cases j <;> simp [augK]
  obtain ⟨c, hc⟩ : ∃ c : Fin (n + 2), c = Fin.natAdd n 1 := ⟨_, rfl⟩
  obtain ⟨d, hd⟩ : ∃ d : Fin (n + 2), d = Fin.natAdd n 0 := ⟨_, rfl⟩
  have htc : ∀ x : Vec (n + 2), tailP x 1 = x c := fun x => by rw [hc]; rfl
  have hz2 : norm2 (![0, 0] : Vec 2) = 0 := by
    have : (![0, 0] : Vec 2) = 0 := by funext i; fin_cases i <;> rfl
    rw [this, norm2_zero]
  have hnil : Nil Z c (ρ + norm2 b) := by
    constructor
    · intro x
      rw [hform x, hc]
      show Fin.append _ _ (Fin.natAdd n 1) = 0
      rw [Fin.append_right]
      rfl
    · intro x hx
      rw [hform x, htc, hx, zero_smul, add_zero]
      refine (norm2_concat_le _ _).trans ?_
      rw [hz2, add_zero]
      refine (norm2_add_le _ _).trans ?_
      rw [norm2_smul, add_mul]
      refine add_le_add ((hM _).trans (mul_le_mul_of_nonneg_left (norm2_headN_le x) hρ)) ?_
      rw [mul_comm]
      exact mul_le_mul_of_nonneg_left ((abs_le_norm2 _ _).trans (norm2_tailP_le x)) (norm2_nonneg _)
  obtain ⟨v, hv⟩ : ∃ v : Vec (n + 2), v = extV [0, a, b] := ⟨_, rfl⟩
  have hvc : v = concat 0 (lastUnit 2) := by
    rw [hv]
    refine (rs_extV_eq [0, a, b] (by simp)).trans ?_
    congr 1
    funext i
    show (0 : ℝ) / 1 = 0
    simp
  have hv' : v = fun x => if x = c then 1 else 0 := by
    rw [hvc]
    funext x
    refine Fin.addCases (fun i => ?_) (fun j => ?_) x
    · show Fin.append _ _ (Fin.castAdd 2 i) = _
      rw [Fin.append_left, if_neg]
      · rfl
      · rw [hc]
        intro h
        have := congrArg Fin.val h
        simp at this
        omega
    · show Fin.append _ _ (Fin.natAdd n j) = _
      rw [Fin.append_right, hc]
      fin_cases j
      · rw [if_neg (by intro h; have := congrArg Fin.val h; simp at this)]
        simp [lastUnit]
      · show lastUnit 2 1 = if Fin.natAdd n (1 : Fin 2) = Fin.natAdd n 1 then 1 else 0
        rw [if_pos rfl]
        simp [lastUnit]
  have hhv : headN v = 0 := by
    rw [hvc]
    funext i
    show Fin.append _ _ (Fin.castAdd 2 i) = _
    rw [Fin.append_left]
  have htv0 : tailP v 0 = 0 := by
    rw [hvc]
    show Fin.append _ _ (Fin.natAdd n 0) = _
    rw [Fin.append_right]
    simp [lastUnit]
  have htv1 : tailP v 1 = 1 := by rw [htc, hv']; exact if_pos rfl
  have hZv : Z *ᵥ v = concat a ![1, 0] := by
    rw [hform, hhv, htv0, htv1, Matrix.mulVec_zero, zero_smul, one_smul, zero_add, zero_add]
  have hZZv : Z *ᵥ (Z *ᵥ v) = concat ((t • M) *ᵥ a + b) ![0, 0] := by
    rw [hZv, hform]
    have e1 : headN (concat a ![1, 0] : Vec (n + 2)) = a := by
      funext i
      show Fin.append _ _ (Fin.castAdd 2 i) = _
      rw [Fin.append_left]
    have e2 : ∀ j, tailP (concat a ![1, 0] : Vec (n + 2)) j = (![1, 0] : Vec 2) j := by
      intro j
      show Fin.append _ _ (Fin.natAdd n j) = _
      rw [Fin.append_right]
    rw [e1, e2, e2]
    show concat ((t • M) *ᵥ a + ((1 : ℝ) • b + (0 : ℝ) • a)) ![0, 0] = _
    rw [one_smul, zero_smul, add_zero]
  have hna := norm2_nonneg a
  have hnb := norm2_nonneg b
  obtain ⟨w, hw, he⟩ := nil_product m iom hm ext Z hZ' c d (by
      rw [hc, hd]; intro h; have := congrArg Fin.val h; simp at this) (ρ + norm2 b) (ρ * norm2 a + norm2 b)
    (ρ + (norm2 a + norm2 b) + 1) (by positivity) (by positivity) hnil v hv'
    (by
      rw [hZv, hd]
      show Fin.append _ _ (Fin.natAdd n 0) = _
      rw [Fin.append_right]
      rfl)
    (by
      rw [hZZv]
      refine (norm2_concat_le _ _).trans ?_
      rw [hz2, add_zero]
      refine (norm2_add_le _ _).trans ?_
      have := hM a
      linarith)
    hP (by rw [← hsd]; exact hs1) (by rw [← hsd, ← hSd]; exact hsm)
  rw [← hsd, ← hSd] at he
  refine ⟨headN w, ?_, ?_⟩
  · unfold KrylovExpm.kiops
    rw [hext]
    change (do let w ← (KrylovExpm.mk padeKernel m iom).applyLinop ext 1 (extV [0, a, b]); pure (headN w)) = _
    rw [← hv, hw]
    rfl
  · have e : phiM 1 (t • M) *ᵥ a + phiM 2 (t • M) *ᵥ b = headN (NormedSpace.exp Z *ᵥ v) := by
      have h2 : v = concat (fun i => ([0, a, b].getD 0 0) i / 1) (lastUnit ([0, a, b].length - 1)) := by
        rw [hv]; exact rs_extV_eq [0, a, b] (by simp)
      rw [h2, ← phiM_zero]
      refine Eq.trans ?_ hval.symm
      rw [inv_one, one_smul]
      show _ = ∑ j ∈ Finset.range 3, phiM j (t • M) *ᵥ [0, a, b].getD j 0
      simp [Finset.sum_range_succ]
    rw [e]
    exact ⟨(norm2_headN_le (w - NormedSpace.exp Z *ᵥ v)).trans he.1, fun hd => (norm2_headN_le (w - NormedSpace.exp Z *ᵥ v)).trans (he.2 hd)⟩

/-- **One Krylov vector is not enough.**  With `krylov_dim = 1` the crate's `kiops_fixedsteps` returns the zero vector for every operator,
step and pair of vectors: `epi3` then drops the whole increment without an error. -/
theorem kiops_dim1 (iom : ℕ) (A : LinOp n) (M : Mat n) (hA : IsMatrix A M) (t : ℝ) (a b : Vec n) :
    (KrylovExpm.mk padeKernel 1 iom).kiops t A [0, a, b] 1 = .ok 0 := by
  obtain ⟨Z, hZ, -⟩ := kiops_aug A M hA t 1 [0, a, b]
  obtain ⟨ext, hext⟩ : ∃ ext, extendedLinOp t A [0, a, b] = .ok ext := by
    unfold extendedLinOp
    rw [if_neg (by simp)]
    exact ⟨_, rfl⟩
  have hZ' : IsMatrix ext Z := by
    have e : ext = augMatvec A t (Matrix.of fun i j => augB [0, a, b] i j / 1) (augK ([0, a, b].length - 1)) := by
      unfold extendedLinOp at hext
      rw [if_neg (by simp)] at hext
      have := Except.ok.inj hext
      rw [← this]
      unfold augMatvec
      congr 1
      funext rhs
      have : (Matrix.of fun i j => augB [0, a, b] i j / 1) = extB [0, a, b] := by
        ext i j; simp [augB, extB]
      rw [this]
      rfl
    rw [e]
    exact hZ
  obtain ⟨R, r, hR, hk, D, hst, -⟩ := C107_arnoldi ext Z hZ' 1 (extV [0, a, b]) (extV_ne _ (by simp)) 1 iom (by norm_num)
  have hpos := D.pos
  have hk1 : R.k = 1 := by omega
  rw [mulVec_firstUnit D.pos] at hst
  have hnv : norm2 (extV [0, a, b]) ≠ 0 := (norm2_pos (extV_ne _ (by simp))).ne'
  have hQ : ∀ i : Fin n, R.Q (Fin.castAdd 2 i) ⟨0, D.pos⟩ = 0 := by
    intro i
    have h := congrFun hst (Fin.castAdd 2 i)
    have h0 : extV [0, a, b] (Fin.castAdd 2 i) = 0 := by
      rw [rs_extV_eq [0, a, b] (by simp)]
      show Fin.append _ _ (Fin.castAdd 2 i) = _
      rw [Fin.append_left]
      show (0 : ℝ) / 1 = 0
      simp
    rw [h0] at h
    exact (mul_eq_zero.1 h).resolve_left hnv
  obtain ⟨e, he⟩ : ∃ e, padeKernel R.k R.H 1 (unitVec R.k) 0 = .ok e := ⟨_, rfl⟩
  unfold KrylovExpm.kiops
  rw [hext]
  change (do let w ← (KrylovExpm.mk padeKernel 1 iom).applyLinop ext 1 (extV [0, a, b]); pure (headN w)) = _
  have hw : (KrylovExpm.mk padeKernel 1 iom).applyLinop ext 1 (extV [0, a, b]) = .ok (norm2 (extV [0, a, b]) • (R.Q *ᵥ e)) := by
    unfold KrylovExpm.applyLinop
    simp only
    rw [hR]
    show (do let e ← padeKernel R.k R.H 1 (unitVec R.k) 0; pure (norm2 (extV [0, a, b]) • (R.Q *ᵥ e))) = _
    rw [he]
    rfl
  rw [hw]
  show Except.ok _ = _
  congr 1
  funext i
  show norm2 (extV [0, a, b]) * (∑ j, R.Q (Fin.castAdd 2 i) j * e j) = 0
  rw [Finset.sum_eq_zero, mul_zero]
  intro j _
  have : j = ⟨0, D.pos⟩ := Fin.ext (by have := j.2; simp only; omega)
  rw [this, hQ, zero_mul]

end
end Ormatex.Props
