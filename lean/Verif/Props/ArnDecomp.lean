import Verif.Props.KrylovErr
import Mathlib.Algebra.Order.Chebyshev

/-!
Krylov approximations built from an Arnoldi decomposition with incomplete orthogonalisation: norm of the small matrix and
error of the phi products, for any orthogonalisation depth.  Used for C107.
-/

namespace Ormatex.Props
open Matrix Ormatex.Spec
open scoped Classical
variable {n : ℕ}

/-- What an Arnoldi process with orthogonalisation depth `iom` leaves behind: unit columns, a Hessenberg matrix of bandwidth
`iom` whose columns are not longer than the vectors they come from, and `Z Q = Q H` up to a residual in the last column. -/
structure Decomp (Z : Mat n) (iom k : ℕ) (Q : Matrix (Fin n) (Fin k) ℝ) (H : Mat k) (r : Vec n) : Prop where
  pos : 0 < k
  unit : ∀ j, norm2 (fun i => Q i j) = 1
  hess : ∀ i j : Fin k, (j : ℕ) + 1 < i → H i j = 0
  band : ∀ i j : Fin k, (i : ℕ) + iom < j → H i j = 0
  col : ∀ j : Fin k, norm2 (fun i => H i j) ≤ norm2 (Z *ᵥ fun i => Q i j)
  rel : ∀ j : Fin k, Z *ᵥ (fun i => Q i j) = Q *ᵥ (fun i => H i j) + if (j : ℕ) + 1 = k then r else 0

theorem Decomp.smul {Z : Mat n} {iom k : ℕ} {Q : Matrix (Fin n) (Fin k) ℝ} {H : Mat k} {r : Vec n} (D : Decomp Z iom k Q H r)
    (c : ℝ) : Decomp (c • Z) iom k Q (c • H) (c • r) where
  pos := D.pos
  unit := D.unit
  hess i j h := by rw [Matrix.smul_apply, D.hess i j h, smul_zero]
  band i j h := by rw [Matrix.smul_apply, D.band i j h, smul_zero]
  col j := by
    have e : (fun i => (c • H) i j) = c • fun i => H i j := rfl
    rw [e, norm2_smul, Matrix.smul_mulVec, norm2_smul]
    exact mul_le_mul_of_nonneg_left (D.col j) (abs_nonneg _)
  rel j := by
    have e : (fun i => (c • H) i j) = c • fun i => H i j := rfl
    rw [e, Matrix.smul_mulVec, D.rel j, Matrix.mulVec_smul, smul_add]
    congr 1
    split_ifs
    · rfl
    · exact smul_zero c

theorem norm2_sq_sum {k : ℕ} (v : Vec k) : norm2 v ^ 2 = ∑ i, v i ^ 2 := by
  rw [sq, norm2_sq]
  exact Finset.sum_congr rfl fun i _ => (sq _).symm

/-- A Hessenberg band matrix with columns of length at most `ρ` is bounded by `√(iom + 2) ρ`, whatever its order. -/
theorem band_bound {k : ℕ} (H : Mat k) (iom : ℕ) (ρ : ℝ) (hess : ∀ i j : Fin k, (j : ℕ) + 1 < i → H i j = 0)
    (band : ∀ i j : Fin k, (i : ℕ) + iom < j → H i j = 0) (hc : ∀ j : Fin k, norm2 (fun i => H i j) ≤ ρ) (hρ : 0 ≤ ρ) (x : Vec k) :
    norm2 (H *ᵥ x) ≤ Real.sqrt (iom + 2) * ρ * norm2 x := by
  have hrow : ∀ i : Fin k, (H *ᵥ x) i ^ 2 ≤ ((iom : ℝ) + 2) * ∑ j, (H i j * x j) ^ 2 := by
    intro i
    set S : Finset (Fin k) := Finset.univ.filter fun j => (i : ℕ) ≤ j + 1 ∧ (j : ℕ) ≤ i + iom with hS
    have e : (H *ᵥ x) i = ∑ j ∈ S, H i j * x j := by
      show ∑ j, H i j * x j = _
      symm
      refine Finset.sum_subset (Finset.subset_univ _) fun j _ hj => ?_
      rw [hS, Finset.mem_filter] at hj
      push Not at hj
      by_cases h1 : (i : ℕ) ≤ j + 1
      · rw [band i j (hj (Finset.mem_univ _) h1), zero_mul]
      · rw [hess i j (by omega), zero_mul]
    have hcard : (S.card : ℝ) ≤ (iom : ℝ) + 2 := by
      have : S.card ≤ iom + 2 := by
        have h1 : (S.map Fin.valEmbedding) ⊆ Finset.Icc ((i : ℕ) - 1) (i + iom) := by
          intro q hq
          rw [Finset.mem_map] at hq
          obtain ⟨j, hj, rfl⟩ := hq
          rw [hS, Finset.mem_filter] at hj
          rw [Finset.mem_Icc]
          show (i : ℕ) - 1 ≤ (j : ℕ) ∧ (j : ℕ) ≤ i + iom
          omega
        have h2 := Finset.card_le_card h1
        rw [Finset.card_map, Nat.card_Icc] at h2
        omega
      exact_mod_cast this
    rw [e]
    refine (sq_sum_le_card_mul_sum_sq (s := S) (f := fun j => H i j * x j)).trans ?_
    refine mul_le_mul hcard ?_ (Finset.sum_nonneg fun _ _ => sq_nonneg _) (by positivity)
    exact Finset.sum_le_sum_of_subset_of_nonneg (Finset.subset_univ _) fun _ _ _ => sq_nonneg _
  have hsq : norm2 (H *ᵥ x) ^ 2 ≤ (Real.sqrt (iom + 2) * ρ * norm2 x) ^ 2 := by
    rw [norm2_sq_sum, mul_pow, mul_pow, Real.sq_sqrt (by positivity), norm2_sq_sum x]
    calc ∑ i, (H *ᵥ x) i ^ 2 ≤ ∑ i, ((iom : ℝ) + 2) * ∑ j, (H i j * x j) ^ 2 := Finset.sum_le_sum fun i _ => hrow i
      _ = ((iom : ℝ) + 2) * ∑ j, (∑ i, H i j ^ 2) * x j ^ 2 := by
          rw [← Finset.mul_sum, Finset.sum_comm]
          congr 1
          refine Finset.sum_congr rfl fun j _ => ?_
          rw [Finset.sum_mul]
          exact Finset.sum_congr rfl fun i _ => by ring
      _ ≤ ((iom : ℝ) + 2) * ∑ j, ρ ^ 2 * x j ^ 2 := by
          refine mul_le_mul_of_nonneg_left (Finset.sum_le_sum fun j _ => ?_) (by positivity)
          refine mul_le_mul_of_nonneg_right ?_ (sq_nonneg _)
          have := norm2_sq_sum (fun i => H i j)
          rw [← this]
          exact pow_le_pow_left₀ (norm2_nonneg _) (hc j) 2
      _ = _ := by rw [← Finset.mul_sum]; ring
  exact le_of_sq_le_sq hsq (by have := norm2_nonneg x; positivity)
where
  le_of_sq_le_sq {a b : ℝ} (h : a ^ 2 ≤ b ^ 2) (hb : 0 ≤ b) : a ≤ b := by
    by_contra hc
    push Not at hc
    nlinarith

/-- unit columns: `|Q x| ≤ √k |x|` -/
theorem unitCols_bound {k : ℕ} (Q : Matrix (Fin n) (Fin k) ℝ) (hu : ∀ j, norm2 (fun i => Q i j) = 1) (x : Vec k) :
    norm2 (Q *ᵥ x) ≤ Real.sqrt k * norm2 x := by
  have e : Q *ᵥ x = ∑ j, x j • fun i => Q i j := by
    funext i
    rw [Finset.sum_apply]
    simp only [Matrix.mulVec, dotProduct, Pi.smul_apply, smul_eq_mul]
    exact Finset.sum_congr rfl fun j _ => mul_comm _ _
  have h1 : norm2 (Q *ᵥ x) ≤ ∑ j, |x j| := by
    rw [e, norm2_eq, WithLp.toLp_sum]
    refine (norm_sum_le _ _).trans (Finset.sum_le_sum fun j _ => ?_)
    rw [← norm2_eq, norm2_smul, hu, mul_one]
  refine h1.trans ?_
  have h2 : (∑ j, |x j|) ^ 2 ≤ (k : ℝ) * norm2 x ^ 2 := by
    have := sq_sum_le_card_mul_sum_sq (s := (Finset.univ : Finset (Fin k))) (f := fun j => |x j|)
    rw [Finset.card_univ, Fintype.card_fin] at this
    rw [norm2_sq_sum]
    simpa [sq_abs] using this
  have h3 : (∑ j, |x j|) ^ 2 ≤ (Real.sqrt k * norm2 x) ^ 2 := by
    rw [mul_pow, Real.sq_sqrt (Nat.cast_nonneg k)]
    exact h2
  have h4 : 0 ≤ Real.sqrt k * norm2 x := mul_nonneg (Real.sqrt_nonneg _) (norm2_nonneg _)
  exact (sq_le_sq₀ (Finset.sum_nonneg fun _ _ => abs_nonneg _) h4).mp h3

section
variable {Z : Mat n} {iom k : ℕ} {Q : Matrix (Fin n) (Fin k) ℝ} {H : Mat k} {r : Vec n}

/-- the small matrix is bounded by `√(iom + 2)` times the operator -/
theorem Decomp.bound (D : Decomp Z iom k Q H r) (ρ : ℝ) (hρ : 0 ≤ ρ) (hZ : ∀ x, norm2 (Z *ᵥ x) ≤ ρ * norm2 x) (x : Vec k) :
    norm2 (H *ᵥ x) ≤ Real.sqrt (iom + 2) * ρ * norm2 x := by
  refine band_bound H iom ρ D.hess D.band (fun j => ?_) hρ x
  refine (D.col j).trans ((hZ _).trans ?_)
  rw [D.unit j, mul_one]

theorem Decomp.start (D : Decomp Z iom k Q H r) : norm2 (Q *ᵥ firstUnit k) = 1 := by
  rw [mulVec_firstUnit D.pos]
  exact D.unit _

theorem Decomp.polynomial (D : Decomp Z iom k Q H r) (j : ℕ) (hj : j < k) :
    Z ^ j *ᵥ (Q *ᵥ firstUnit k) = Q *ᵥ (H ^ j *ᵥ firstUnit k) := by
  induction j with
  | zero => rw [pow_zero, pow_zero, Matrix.one_mulVec, Matrix.one_mulVec]
  | succ j ih =>
    rw [pow_succ', ← Matrix.mulVec_mulVec, ih (by omega), krylov_step_abs D.pos Z Q H r D.rel,
      hess_support H D.hess j _ (by simp only; omega), zero_smul, add_zero, pow_succ', ← Matrix.mulVec_mulVec]

theorem sqrt_iom_one (iom : ℕ) : 1 ≤ Real.sqrt (iom + 2) := by
  rw [Real.one_le_sqrt]
  have : (0 : ℝ) ≤ iom := Nat.cast_nonneg _
  linarith

/-- a priori error of a Krylov phi product with `k` columns, for any orthogonalisation depth -/
theorem Decomp.error (D : Decomp Z iom k Q H r) (ρ : ℝ) (hρ : 0 ≤ ρ) (hZ : ∀ x, norm2 (Z *ᵥ x) ≤ ρ * norm2 x) (l : ℕ) :
    norm2 (phiM l Z *ᵥ (Q *ᵥ firstUnit k) - Q *ᵥ (phiM l H *ᵥ firstUnit k)) ≤
      (ρ ^ k * Real.exp ρ + Real.sqrt k * (Real.sqrt (iom + 2) * ρ) ^ k * Real.exp (Real.sqrt (iom + 2) * ρ))
        / (Nat.factorial (k + l) : ℝ) := by
  set σ := Real.sqrt (iom + 2) * ρ with hσ
  have hσ0 : 0 ≤ σ := mul_nonneg (Real.sqrt_nonneg _) hρ
  have hs : ∀ i, HasSum (fun j : ℕ => ((Nat.factorial (j + k + l) : ℝ)⁻¹ • (Z ^ (j + k) *ᵥ (Q *ᵥ firstUnit k)
      - Q *ᵥ (H ^ (j + k) *ᵥ firstUnit k))) i)
      ((phiM l Z *ᵥ (Q *ᵥ firstUnit k) - Q *ᵥ (phiM l H *ᵥ firstUnit k)) i) := by
    intro i
    have h := krylov_diff_hasSum Z H Q (firstUnit k) l i
    rw [← hasSum_nat_add_iff' k] at h
    rw [Finset.sum_eq_zero, sub_zero] at h
    · exact h
    · intro j hj'
      rw [D.polynomial j (Finset.mem_range.mp hj'), sub_self, smul_zero]
      rfl
  have hg := ((expSeries ρ).mul_left (ρ ^ k / (Nat.factorial (k + l) : ℝ))).add
    ((expSeries σ).mul_left (Real.sqrt k * σ ^ k / (Nat.factorial (k + l) : ℝ)))
  refine (norm2_hasSum_le hs hg fun j => ?_).trans (le_of_eq (by ring))
  have hb : norm2 (Z ^ (j + k) *ᵥ (Q *ᵥ firstUnit k) - Q *ᵥ (H ^ (j + k) *ᵥ firstUnit k))
      ≤ ρ ^ (j + k) + Real.sqrt k * σ ^ (j + k) := by
    refine (norm2_sub_le _ _).trans ?_
    have h1 := pow_norm2 Z ρ hρ hZ (j + k) (Q *ᵥ firstUnit k)
    have h2 := pow_norm2 H σ hσ0 (D.bound ρ hρ hZ) (j + k) (firstUnit k)
    rw [D.start, mul_one] at h1
    rw [norm2_firstUnit D.pos, mul_one] at h2
    have h3 := (unitCols_bound Q D.unit (H ^ (j + k) *ᵥ firstUnit k)).trans
      (mul_le_mul_of_nonneg_left h2 (Real.sqrt_nonneg _))
    linarith
  rw [norm2_smul, abs_of_nonneg (by positivity)]
  have hf : ((Nat.factorial (k + l) : ℝ)) * (Nat.factorial j : ℝ) ≤ (Nat.factorial (j + k + l) : ℝ) := by
    have h := Nat.le_of_dvd (Nat.factorial_pos _) (Nat.factorial_mul_factorial_dvd_factorial_add (k + l) j)
    rw [show k + l + j = j + k + l by ring] at h
    exact_mod_cast h
  calc (Nat.factorial (j + k + l) : ℝ)⁻¹ * _
      ≤ (((Nat.factorial (k + l) : ℝ)) * (Nat.factorial j : ℝ))⁻¹ * (ρ ^ (j + k) + Real.sqrt k * σ ^ (j + k)) :=
        mul_le_mul (inv_anti₀ (by positivity) hf) hb (norm2_nonneg _) (by positivity)
    _ = _ := by rw [pow_add, pow_add]; field_simp

/-- error in terms of the residual of the last column -/
theorem Decomp.residual (D : Decomp Z iom k Q H r) (ρ δ : ℝ) (hρ : 0 ≤ ρ) (hZ : ∀ x, norm2 (Z *ᵥ x) ≤ ρ * norm2 x)
    (hδ : norm2 r ≤ δ) (l : ℕ) :
    norm2 (phiM l Z *ᵥ (Q *ᵥ firstUnit k) - Q *ᵥ (phiM l H *ᵥ firstUnit k)) ≤ δ * Real.exp (Real.sqrt (iom + 2) * ρ) := by
  set σ := Real.sqrt (iom + 2) * ρ with hσ
  have hσ0 : 0 ≤ σ := mul_nonneg (Real.sqrt_nonneg _) hρ
  have hle : ρ ≤ σ := le_mul_of_one_le_left hρ (sqrt_iom_one iom)
  have hδ0 : 0 ≤ δ := (norm2_nonneg _).trans hδ
  have hd : ∀ j : ℕ, norm2 (Z ^ j *ᵥ (Q *ᵥ firstUnit k) - Q *ᵥ (H ^ j *ᵥ firstUnit k)) ≤ j * σ ^ (j - 1) * δ := by
    intro j
    induction j with
    | zero =>
      rw [pow_zero, pow_zero, Matrix.one_mulVec, Matrix.one_mulVec, sub_self, norm2_zero]
      simp
    | succ j ih =>
      have hcs := krylov_step_abs D.pos Z Q H r D.rel (H ^ j *ᵥ firstUnit k)
      have hc := abs_le_norm2 (H ^ j *ᵥ firstUnit k) ⟨k - 1, by have := D.pos; omega⟩
      generalize (H ^ j *ᵥ firstUnit k) ⟨k - 1, by have := D.pos; omega⟩ = c at hc hcs
      have e : Z ^ (j + 1) *ᵥ (Q *ᵥ firstUnit k) - Q *ᵥ (H ^ (j + 1) *ᵥ firstUnit k)
          = Z *ᵥ (Z ^ j *ᵥ (Q *ᵥ firstUnit k) - Q *ᵥ (H ^ j *ᵥ firstUnit k)) + c • r := by
        rw [Matrix.mulVec_sub, hcs, pow_succ', pow_succ', ← Matrix.mulVec_mulVec, ← Matrix.mulVec_mulVec]
        abel
      rw [e]
      refine (norm2_add_le _ _).trans ?_
      have h1 := (hZ (Z ^ j *ᵥ (Q *ᵥ firstUnit k) - Q *ᵥ (H ^ j *ᵥ firstUnit k))).trans
        ((mul_le_mul_of_nonneg_right hle (norm2_nonneg _)).trans (mul_le_mul_of_nonneg_left ih hσ0))
      have h2 : norm2 (c • r) ≤ σ ^ j * δ := by
        rw [norm2_smul]
        refine mul_le_mul ?_ hδ (norm2_nonneg _) (by positivity)
        refine hc.trans ((pow_norm2 H σ hσ0 (D.bound ρ hρ hZ) j _).trans ?_)
        rw [norm2_firstUnit D.pos, mul_one]
      refine (add_le_add h1 h2).trans (le_of_eq ?_)
      rcases j with _ | j
      · simp
      · rw [Nat.add_sub_cancel, Nat.add_sub_cancel]
        push_cast
        ring
  have hs : ∀ i, HasSum (fun j : ℕ => ((Nat.factorial (j + 1 + l) : ℝ)⁻¹ • (Z ^ (j + 1) *ᵥ (Q *ᵥ firstUnit k)
      - Q *ᵥ (H ^ (j + 1) *ᵥ firstUnit k))) i)
      ((phiM l Z *ᵥ (Q *ᵥ firstUnit k) - Q *ᵥ (phiM l H *ᵥ firstUnit k)) i) := by
    intro i
    have h := krylov_diff_hasSum Z H Q (firstUnit k) l i
    rw [← hasSum_nat_add_iff' 1] at h
    rw [Finset.sum_range_one, pow_zero, pow_zero, Matrix.one_mulVec, Matrix.one_mulVec, sub_self, smul_zero,
      Pi.zero_apply, sub_zero] at h
    exact h
  refine norm2_hasSum_le hs ((expSeries σ).mul_left δ) fun j => ?_
  rw [norm2_smul, abs_of_nonneg (by positivity)]
  have hf : ((Nat.factorial (j + 1) : ℝ)) ≤ (Nat.factorial (j + 1 + l) : ℝ) := by
    exact_mod_cast Nat.factorial_le (by omega)
  calc (Nat.factorial (j + 1 + l) : ℝ)⁻¹ * _ ≤ (Nat.factorial (j + 1) : ℝ)⁻¹ * (((j + 1 : ℕ) : ℝ) * σ ^ (j + 1 - 1) * δ) :=
        mul_le_mul (inv_anti₀ (by positivity) hf) (hd _) (norm2_nonneg _) (by positivity)
    _ = _ := by
      rw [Nat.add_sub_cancel, Nat.factorial_succ]
      push_cast
      field_simp

end

/-! ### Loop invariant, for any rule that decides when to stop -/

/-- residual of column `j` -/
noncomputable def resid (f : Vec n → Vec n) (hs : ℕ → ℕ → ℝ) (qs : ℕ → Vec n) (j : ℕ) : Vec n :=
  f (qs j) - ∑ i ∈ Finset.range (j + 1), hs i j • qs i

/-- State of an Arnoldi process after `k` columns with `V` valid basis vectors. -/
structure ArnCore (f : Vec n → Vec n) (iom : ℕ) (hs : ℕ → ℕ → ℝ) (qs : ℕ → Vec n) (k V : ℕ) : Prop where
  unit : ∀ j < V, norm2 (qs j) = 1
  hess : ∀ i j, j + 1 < i → hs i j = 0
  fresh : ∀ i j, k ≤ j → hs i j = 0
  band : ∀ i j, i + iom < j → hs i j = 0
  next : ∀ j, j < k → j + 1 < V → resid f hs qs j = hs (j + 1) j • qs (j + 1)
  orth : ∀ i j, i < j → j < V → j ≤ i + (iom + 1) → qs i ⬝ᵥ qs j = 0
  resOrth : ∀ i j, i ≤ j → j < k → j ≤ i + iom → resid f hs qs j ⬝ᵥ qs i = 0

/-- One pass of modified Gram-Schmidt, with column `k` finished and the new vector appended when `go` holds. -/
theorem ArnCore.step {f : Vec n → Vec n} {iom : ℕ} {hs : ℕ → ℕ → ℝ} {qs : ℕ → Vec n} {k : ℕ}
    (h : ArnCore f iom hs qs k (k + 1)) (o : OrthoState n)
    (ho : o = (List.range' (k - iom) (k + 1 - (k - iom))).foldl (orthoBody qs k) ⟨hs, f (qs k)⟩)
    (hs' : ℕ → ℕ → ℝ) (qs' : ℕ → Vec n) (go : Prop) [Decidable go]
    (hsent : ∀ i j, (i ≠ k + 1 ∨ j ≠ k) → hs' i j = o.hs i j)
    (hqold : ∀ j, j ≤ k → qs' j = qs j)
    (hgo : go → norm2 o.qv ≠ 0 ∧ hs' (k + 1) k = norm2 o.qv ∧ qs' (k + 1) = (norm2 o.qv)⁻¹ • o.qv) :
    ArnCore f iom hs' qs' (k + 1) (if go then k + 2 else k + 1) ∧ resid f hs' qs' k = o.qv
      ∧ ∀ j < k, resid f hs' qs' j = resid f hs qs j := by
  set a := k - iom with ha
  set c := k + 1 - a with hcdef
  have hac : a + c = k + 1 := by omega
  obtain ⟨hf1, hf2⟩ := ortho_fold qs k a c { hs := hs, qv := f (qs k) }
  rw [← ho] at hf1 hf2
  simp only at hf1 hf2
  have hunit : ∀ i < c, qs (a + i) ⬝ᵥ qs (a + i) = 1 := by
    intro i hi
    rw [← norm2_sq, h.unit (a + i) (by omega), one_mul]
  have horth : ∀ i < c, ∀ j < c, i ≠ j → qs (a + i) ⬝ᵥ qs (a + j) = 0 := by
    intro i hi j hj hij
    rcases Nat.lt_or_gt_of_ne hij with hlt | hlt
    · exact h.orth (a + i) (a + j) (by omega) (by omega) (by omega)
    · rw [dotProduct_comm]
      exact h.orth (a + j) (a + i) (by omega) (by omega) (by omega)
  have hqo := ortho_fold_orth qs k a c { hs := hs, qv := f (qs k) } hunit horth
  rw [← ho] at hqo
  have hsold : ∀ i j, j ≠ k → hs' i j = hs i j := by
    intro i j hj
    rw [hsent i j (Or.inr hj), hf2 i j (Or.inl hj)]
  have hresold : ∀ j, j < k → resid f hs' qs' j = resid f hs qs j := by
    intro j hj
    unfold resid
    rw [hqold j (by omega)]
    congr 1
    refine Finset.sum_congr rfl fun i hi => ?_
    have := Finset.mem_range.mp hi
    rw [hsold i j (by omega), hqold i (by omega)]
  have hresnew : resid f hs' qs' k = o.qv := by
    unfold resid
    rw [hqold k (le_refl _), sub_eq_iff_eq_add, ← hf1]
    congr 1
    have e1 : ∀ i ∈ Finset.range (k + 1), hs' i k • qs' i = o.hs i k • qs i := by
      intro i hi
      have := Finset.mem_range.mp hi
      rw [hsent i k (by omega), hqold i (by omega)]
    rw [Finset.sum_congr rfl e1, ← hac, Finset.sum_range_add, Finset.sum_eq_zero (s := Finset.range a), zero_add]
    intro i hi
    have := Finset.mem_range.mp hi
    rw [hf2 i k (by omega), h.fresh i k (le_refl _), zero_smul]
  refine ⟨⟨?_, ?_, ?_, ?_, ?_, ?_, ?_⟩, hresnew, hresold⟩
  · intro j hj
    by_cases hjk : j ≤ k
    · rw [hqold j hjk]; exact h.unit j (by omega)
    · split_ifs at hj with hcond
      · obtain rfl : j = k + 1 := by omega
        obtain ⟨h0, _, h2⟩ := hgo hcond
        rw [h2, ← div_eq_smul]
        exact norm2_normalized h0
      · omega
  · intro i j hij
    by_cases hj : j = k
    · rw [hsent i j (by omega), hf2 i j (by omega)]
      exact h.hess i j hij
    · rw [hsold i j hj]; exact h.hess i j hij
  · intro i j hj
    rw [hsold i j (by omega)]
    exact h.fresh i j (by omega)
  · intro i j hij
    by_cases hj : j = k
    · rw [hsent i j (by omega), hf2 i j (by omega)]
      exact h.band i j hij
    · rw [hsold i j hj]; exact h.band i j hij
  · intro j hj hj1
    by_cases hjk : j = k
    · subst hjk
      split_ifs at hj1 with hcond
      · obtain ⟨h0, h1, h2⟩ := hgo hcond
        rw [hresnew, h1, h2, smul_smul, mul_inv_cancel₀ h0, one_smul]
      · omega
    · rw [hresold j (by omega), hsold _ _ hjk, hqold (j + 1) (by omega)]
      exact h.next j (by omega) (by omega)
  · intro i j hij hj hd
    by_cases hjk : j ≤ k
    · rw [hqold j hjk, hqold i (by omega)]
      exact h.orth i j hij (by omega) hd
    · split_ifs at hj with hcond
      · obtain rfl : j = k + 1 := by omega
        obtain ⟨h0, h1, h2⟩ := hgo hcond
        rw [hqold i (by omega), h2, dotProduct_smul, dotProduct_comm]
        have := hqo (i - a) (by omega)
        rw [show a + (i - a) = i by omega] at this
        rw [this, smul_zero]
      · omega
  · intro i j hij hj hd
    rw [hqold i (by omega)]
    by_cases hjk : j = k
    · subst hjk
      rw [hresnew]
      have := hqo (i - a) (by omega)
      rwa [show a + (i - a) = i by omega] at this
    · rw [hresold j (by omega)]
      exact h.resOrth i j hij (by omega) hd

theorem ArnCore.init (f : Vec n → Vec n) (iom : ℕ) (qs : ℕ → Vec n) (hq : norm2 (qs 0) = 1) :
    ArnCore f iom (fun _ _ => 0) qs 0 1 where
  unit j hj := by
    obtain rfl : j = 0 := by omega
    exact hq
  hess _ _ _ := rfl
  fresh _ _ _ := rfl
  band _ _ _ := rfl
  next j hj := by omega
  orth i j h1 h2 := by omega
  resOrth i j _ hj := by omega

/-- a linear combination of orthonormal vectors is as long as its coefficients -/
theorem norm2_orthonormal_comb (qs : ℕ → Vec n) (S : Finset ℕ) (c : ℕ → ℝ) (hu : ∀ i ∈ S, norm2 (qs i) = 1)
    (ho : ∀ i ∈ S, ∀ j ∈ S, i ≠ j → qs i ⬝ᵥ qs j = 0) :
    (∑ i ∈ S, c i • qs i) ⬝ᵥ (∑ i ∈ S, c i • qs i) = ∑ i ∈ S, c i ^ 2 := by
  rw [sum_dotProduct]
  refine Finset.sum_congr rfl fun i hi => ?_
  rw [dotProduct_sum, Finset.sum_eq_single i]
  · rw [smul_dotProduct, dotProduct_smul, ← norm2_sq, hu i hi]
    simp [sq]
  · intro j hj hji
    rw [smul_dotProduct, dotProduct_smul, ho i hi j hj (Ne.symm hji)]
    simp
  · intro h
    exact absurd hi h

/-- Pythagoras for one column: the coefficients are not longer than the vector -/
theorem ArnCore.column {f : Vec n → Vec n} {iom : ℕ} {hs : ℕ → ℕ → ℝ} {qs : ℕ → Vec n} {k : ℕ}
    (h : ArnCore f iom hs qs k k) (j : ℕ) (hj : j < k) :
    (∑ i ∈ Finset.range (j + 1), hs i j ^ 2) + norm2 (resid f hs qs j) ^ 2 = norm2 (f (qs j)) ^ 2 := by
  set S : Finset ℕ := (Finset.range (j + 1)).filter fun i => j ≤ i + iom with hS
  have hSm : ∀ i ∈ S, i ≤ j ∧ j ≤ i + iom := by
    intro i hi
    rw [hS, Finset.mem_filter, Finset.mem_range] at hi
    omega
  have e1 : ∑ i ∈ Finset.range (j + 1), hs i j • qs i = ∑ i ∈ S, hs i j • qs i := by
    symm
    refine Finset.sum_subset (Finset.filter_subset _ _) fun i hi hn => ?_
    have hi' := Finset.mem_range.mp hi
    have : ¬ j ≤ i + iom := fun hh => hn (by rw [hS, Finset.mem_filter]; exact ⟨hi, hh⟩)
    rw [h.band i j (by omega), zero_smul]
  have e2 : ∑ i ∈ Finset.range (j + 1), hs i j ^ 2 = ∑ i ∈ S, hs i j ^ 2 := by
    symm
    refine Finset.sum_subset (Finset.filter_subset _ _) fun i hi hn => ?_
    have : ¬ j ≤ i + iom := fun hh => hn (by rw [hS, Finset.mem_filter]; exact ⟨hi, hh⟩)
    rw [h.band i j (by omega)]
    simp
  have e3 : f (qs j) = resid f hs qs j + ∑ i ∈ S, hs i j • qs i := by
    unfold resid
    rw [e1]
    abel
  have e4 : resid f hs qs j ⬝ᵥ (∑ i ∈ S, hs i j • qs i) = 0 := by
    rw [dotProduct_sum]
    refine Finset.sum_eq_zero fun i hi => ?_
    obtain ⟨h1, h2⟩ := hSm i hi
    rw [dotProduct_smul, h.resOrth i j h1 hj h2, smul_zero]
  have e5 := norm2_orthonormal_comb qs S (fun i => hs i j) (fun i hi => h.unit i (by have := hSm i hi; omega))
    (fun i hi q hq hne => by
      obtain ⟨h1, h2⟩ := hSm i hi
      obtain ⟨h3, h4⟩ := hSm q hq
      rcases Nat.lt_or_gt_of_ne hne with hlt | hlt
      · exact h.orth i q hlt (by omega) (by omega)
      · rw [dotProduct_comm]
        exact h.orth q i hlt (by omega) (by omega))
  rw [sq (norm2 (f (qs j))), norm2_sq, e3, add_dotProduct, dotProduct_add, dotProduct_add, e4, dotProduct_comm (∑ i ∈ S, hs i j • qs i) (resid f hs qs j), e4, e5, e2,
    sq (norm2 _), norm2_sq]
  ring

/-- The matrices returned by a finished process form a decomposition. -/
theorem ArnCore.decomp {Z : Mat n} {f : Vec n → Vec n} (hf : ∀ x, f x = Z *ᵥ x) {iom : ℕ} {hs : ℕ → ℕ → ℝ} {qs : ℕ → Vec n}
    {k : ℕ} (hk : 0 < k) (h : ArnCore f iom hs qs k k) :
    Decomp Z iom k (Matrix.of fun i (j : Fin k) => qs j i) (Matrix.of fun (i j : Fin k) => hs i j) (resid f hs qs (k - 1)) := by
  have hcolQ : ∀ j : Fin k, (fun i => (Matrix.of fun i (j : Fin k) => qs j i) i j) = qs j := fun j => rfl
  refine ⟨hk, fun j => h.unit j j.2, fun i j hij => h.hess i j hij, fun i j hij => h.band i j hij, fun j => ?_, fun j => ?_⟩
  · rw [hcolQ, ← hf]
    have hc := h.column j j.2
    have h1 : norm2 (fun i : Fin k => (Matrix.of fun (i j : Fin k) => hs i j) i j) ^ 2 ≤ norm2 (f (qs j)) ^ 2 := by
      rw [norm2_sq_sum, ← hc]
      show ∑ i : Fin k, hs i j ^ 2 ≤ _
      rw [Fin.sum_univ_eq_sum_range (fun i => hs i j ^ 2) k]
      by_cases hlast : (j : ℕ) + 1 = k
      · rw [show Finset.range k = Finset.range ((j : ℕ) + 1) by rw [hlast]]
        have := sq_nonneg (norm2 (resid f hs qs j))
        linarith
      · have hlt : (j : ℕ) + 1 < k := by have := j.2; omega
        have h2 : ∑ i ∈ Finset.range k, hs i j ^ 2 = ∑ i ∈ Finset.range ((j : ℕ) + 1 + 1), hs i j ^ 2 := by
          symm
          refine Finset.sum_subset (Finset.range_mono hlt) fun i _ hni => ?_
          rw [Finset.mem_range] at hni
          rw [h.hess i j (by omega)]
          simp
        rw [h2, Finset.sum_range_succ, h.next j j.2 hlt, norm2_smul, h.unit _ hlt, mul_one, sq_abs]
    exact (sq_le_sq₀ (norm2_nonneg _) (norm2_nonneg _)).mp h1
  · rw [hcolQ, ← hf]
    have hQ : (Matrix.of fun i (j : Fin k) => qs j i) *ᵥ (fun i => (Matrix.of fun (i j : Fin k) => hs i j) i j)
        = ∑ i : Fin k, hs i j • qs i := by
      funext x
      rw [Finset.sum_apply]
      simp only [Matrix.mulVec, dotProduct, Pi.smul_apply, smul_eq_mul, Matrix.of_apply]
      exact Finset.sum_congr rfl fun i _ => mul_comm _ _
    rw [hQ]
    have hres : f (qs j) = ∑ i ∈ Finset.range ((j : ℕ) + 1), hs i j • qs i + resid f hs qs j := by
      unfold resid; abel
    by_cases hlast : (j : ℕ) + 1 = k
    · rw [if_pos hlast, hres, Fin.sum_univ_eq_sum_range (fun i => hs i j • qs i) k,
        show Finset.range ((j : ℕ) + 1) = Finset.range k by rw [hlast], show k - 1 = (j : ℕ) by omega]
    · have hlt : (j : ℕ) + 1 < k := by have := j.2; omega
      rw [if_neg hlast, add_zero, hres, h.next j j.2 hlt,
        fin_sum_hess (fun i => hs i j • qs i) j hlt (fun i hi => by rw [h.hess i j hi, zero_smul])]

end Ormatex.Props
