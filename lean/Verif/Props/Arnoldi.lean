import Verif.Model.Arnoldi
import Mathlib.LinearAlgebra.Matrix.DotProduct

/-!
Arnoldi iteration: relation and shape (C26), orthonormality (C27), termination (C28).
-/

namespace Ormatex.Props
open Matrix
open scoped Classical

section
variable {n : ℕ}

theorem dot_self_nonneg (v : Vec n) : 0 ≤ v ⬝ᵥ v :=
  Finset.sum_nonneg fun i _ => mul_self_nonneg (v i)

theorem norm2_nonneg (v : Vec n) : 0 ≤ norm2 v := Real.sqrt_nonneg _

theorem norm2_sq (v : Vec n) : norm2 v * norm2 v = v ⬝ᵥ v := Real.mul_self_sqrt (dot_self_nonneg v)

theorem norm2_eq_zero {v : Vec n} : norm2 v = 0 ↔ v = 0 := by
  unfold norm2
  rw [Real.sqrt_eq_zero (dot_self_nonneg v), dotProduct_self_eq_zero]

theorem norm2_pos {v : Vec n} (h : v ≠ 0) : 0 < norm2 v :=
  lt_of_le_of_ne (norm2_nonneg v) (fun h0 => h (norm2_eq_zero.mp h0.symm))

theorem norm2_zero : norm2 (0 : Vec n) = 0 := norm2_eq_zero.mpr rfl

theorem norm2_smul (c : ℝ) (v : Vec n) : norm2 (c • v) = |c| * norm2 v := by
  unfold norm2
  rw [smul_dotProduct, dotProduct_smul, smul_eq_mul, smul_eq_mul, ← mul_assoc, Real.sqrt_mul (mul_self_nonneg c),
    Real.sqrt_mul_self_eq_abs]

theorem div_eq_smul (v : Vec n) (c : ℝ) : (fun i => v i / c) = c⁻¹ • v := by
  funext i
  rw [Pi.smul_apply, smul_eq_mul, inv_mul_eq_div]

theorem norm2_normalized {v : Vec n} (h : norm2 v ≠ 0) : norm2 (fun i => v i / norm2 v) = 1 := by
  rw [div_eq_smul, norm2_smul, abs_of_nonneg (inv_nonneg.mpr (norm2_nonneg v)), inv_mul_cancel₀ h]

/-! ### the inner loop -/

/-- inner loop, without assumptions: what is subtracted is recorded in column `k` -/
theorem ortho_fold (qs : ℕ → Vec n) (k a c : ℕ) (s : OrthoState n) :
    let o := (List.range' a c).foldl (orthoBody qs k) s
    (o.qv + ∑ i ∈ Finset.range c, o.hs (a + i) k • qs (a + i) = s.qv)
      ∧ ∀ i j, (j ≠ k ∨ i < a ∨ a + c ≤ i) → o.hs i j = s.hs i j := by
  induction c with
  | zero => simp
  | succ c ih =>
    simp only [List.range'_1_concat, List.foldl_append, List.foldl_cons, List.foldl_nil]
    obtain ⟨h1, h2⟩ := ih
    set o := (List.range' a c).foldl (orthoBody qs k) s with ho
    refine ⟨?_, ?_⟩
    · rw [Finset.sum_range_succ]
      have e : ∀ i ∈ Finset.range c, (orthoBody qs k o (a + c)).hs (a + i) k • qs (a + i) = o.hs (a + i) k • qs (a + i) := by
        intro i hi
        have := Finset.mem_range.mp hi
        simp only [orthoBody]
        rw [Function.update_of_ne (by omega)]
      rw [Finset.sum_congr rfl e]
      simp only [orthoBody, Function.update_self]
      rw [← h1]
      abel
    · intro i j hij
      simp only [orthoBody]
      by_cases hi : i = a + c
      · subst hi
        rw [Function.update_self]
        have hj : j ≠ k := by omega
        rw [Function.update_of_ne hj]
        exact h2 _ _ (Or.inl hj)
      · rw [Function.update_of_ne hi]
        exact h2 _ _ (by omega)

/-- inner loop over mutually orthogonal unit columns: the remainder is orthogonal to all of them -/
theorem ortho_fold_orth (qs : ℕ → Vec n) (k a c : ℕ) (s : OrthoState n)
    (hu : ∀ i < c, qs (a + i) ⬝ᵥ qs (a + i) = 1)
    (ho : ∀ i < c, ∀ j < c, i ≠ j → qs (a + i) ⬝ᵥ qs (a + j) = 0) :
    ∀ i < c, ((List.range' a c).foldl (orthoBody qs k) s).qv ⬝ᵥ qs (a + i) = 0 := by
  induction c with
  | zero => intro i hi; omega
  | succ c ih =>
    simp only [List.range'_1_concat, List.foldl_append, List.foldl_cons, List.foldl_nil]
    have ih' := ih (fun i hi => hu i (by omega)) (fun i hi j hj => ho i (by omega) j (by omega))
    intro i hi
    simp only [orthoBody]
    rw [sub_dotProduct, smul_dotProduct, smul_eq_mul]
    by_cases hic : i = c
    · subst hic
      rw [hu i (by omega), mul_one, sub_self]
    · rw [ih' i (by omega), ho c (by omega) i (by omega) (fun h => hic h.symm), mul_zero, sub_zero]

/-! ### the outer loop -/

/-- number of valid columns of `qs` -/
noncomputable def validCols (m : ℕ) (s : ArnState n) : ℕ := if s.k < m ∧ s.notBreakdown then s.k + 1 else s.k

/-- residual of column `j` -/
noncomputable def colRes (A : LinOp n) (scale : ℝ) (s : ArnState n) (j : ℕ) : Vec n :=
  scale • A.call (s.qs j) - ∑ i ∈ Finset.range (j + 1), s.hs i j • s.qs i

/-- Loop invariant of the Arnoldi iteration. -/
structure ArnInv (A : LinOp n) (scale : ℝ) (m iom : ℕ) (s : ArnState n) : Prop where
  kle : s.k ≤ m
  unit : ∀ j < validCols m s, norm2 (s.qs j) = 1
  hess : ∀ i j, j + 1 < i → s.hs i j = 0
  fresh : ∀ i j, s.k ≤ j → s.hs i j = 0
  band : ∀ i j, i + iom < j → s.hs i j = 0
  next : ∀ j, j < s.k → j + 1 < validCols m s → colRes A scale s j = s.hs (j + 1) j • s.qs (j + 1)
  sub : ∀ j, j < s.k → j + 1 < m → s.hs (j + 1) j = norm2 (colRes A scale s j)
  big : ∀ j, j + 1 < s.k → breakdownTol < norm2 (colRes A scale s j)
  last : ∀ j, j + 1 = s.k → (s.notBreakdown ↔ breakdownTol < norm2 (colRes A scale s j))
  orth : ∀ i j, i < j → j < validCols m s → j ≤ i + (iom + 1) → s.qs i ⬝ᵥ s.qs j = 0
  resOrth : ∀ i j, i ≤ j → j < s.k → j ≤ i + iom → colRes A scale s j ⬝ᵥ s.qs i = 0

theorem arnInit_inv (A : LinOp n) (scale : ℝ) (m iom : ℕ) (b : Vec n) (hm : 0 < m) :
    ArnInv A scale m iom (arnoldiInit b) := by
  have hv : validCols m (arnoldiInit b) = if norm2 b > 0 then 1 else 0 := by
    unfold validCols arnoldiInit
    simp [hm]
  refine ⟨?_, ?_, ?_, ?_, ?_, ?_, ?_, ?_, ?_, ?_, ?_⟩
  · simp [arnoldiInit]
  · intro j hj
    rw [hv] at hj
    split_ifs at hj with hb
    · obtain rfl : j = 0 := by omega
      simp only [arnoldiInit, Function.update_self, hb, if_true]
      exact norm2_normalized hb.ne'
    · omega
  · intro i j _; rfl
  · intro i j _; rfl
  · intro i j _; rfl
  · intro j hj; simp [arnoldiInit] at hj
  · intro j hj; simp [arnoldiInit] at hj
  · intro j hj; simp [arnoldiInit] at hj
  · intro j hj; simp [arnoldiInit] at hj
  · intro i j hij hj
    rw [hv] at hj
    split_ifs at hj <;> omega
  · intro i j _ hj; simp [arnoldiInit] at hj

theorem breakdownTol_pos : 0 < breakdownTol := by unfold breakdownTol; norm_num

theorem arnStep_inv (A : LinOp n) (scale : ℝ) (m iom : ℕ) (s : ArnState n) (h : ArnInv A scale m iom s)
    (hc : s.k < m ∧ s.notBreakdown) : ArnInv A scale m iom (arnoldiMgs A scale m iom s) := by
  have hvs : validCols m s = s.k + 1 := by unfold validCols; rw [if_pos hc]
  set k := s.k with hk
  set a := k - iom with ha
  set c := k + 1 - a with hcdef
  have hac : a + c = k + 1 := by omega
  set o := (List.range' a c).foldl (orthoBody s.qs k) { hs := s.hs, qv := scale • A.call (s.qs k) } with ho
  obtain ⟨hf1, hf2⟩ := ortho_fold s.qs k a c { hs := s.hs, qv := scale • A.call (s.qs k) }
  rw [← ho] at hf1 hf2
  simp only at hf1 hf2
  have hunit : ∀ i < c, s.qs (a + i) ⬝ᵥ s.qs (a + i) = 1 := by
    intro i hi
    rw [← norm2_sq, h.unit (a + i) (by omega), one_mul]
  have horth : ∀ i < c, ∀ j < c, i ≠ j → s.qs (a + i) ⬝ᵥ s.qs (a + j) = 0 := by
    intro i hi j hj hij
    rcases Nat.lt_or_gt_of_ne hij with hlt | hlt
    · exact h.orth (a + i) (a + j) (by omega) (by omega) (by omega)
    · rw [dotProduct_comm]
      exact h.orth (a + j) (a + i) (by omega) (by omega) (by omega)
  have hqo := ortho_fold_orth s.qs k a c { hs := s.hs, qv := scale • A.call (s.qs k) } hunit horth
  rw [← ho] at hqo
  set s' := arnoldiMgs A scale m iom s with hs'
  have hk' : s'.k = k + 1 := rfl
  have hnb : s'.notBreakdown = (norm2 o.qv > breakdownTol) := rfl
  have hhs : s'.hs = if k + 1 < m then Function.update o.hs (k + 1) (Function.update (o.hs (k + 1)) k (norm2 o.qv)) else o.hs := rfl
  have hqs : s'.qs = if k + 1 < m ∧ norm2 o.qv > breakdownTol then
      Function.update s.qs (k + 1) (fun i => o.qv i / norm2 o.qv) else s.qs := rfl
  have hv' : validCols m s' = if k + 1 < m ∧ norm2 o.qv > breakdownTol then k + 2 else k + 1 := by
    unfold validCols
    rw [hk', hnb]
  -- entries
  have hsent : ∀ i j, (i ≠ k + 1 ∨ j ≠ k) → s'.hs i j = o.hs i j := by
    intro i j hij
    rw [hhs]
    split_ifs with hm1
    · by_cases hi : i = k + 1
      · subst hi
        rw [Function.update_self, Function.update_of_ne (by tauto)]
      · rw [Function.update_of_ne hi]
    · rfl
  have hsold : ∀ i j, j ≠ k → s'.hs i j = s.hs i j := by
    intro i j hj
    rw [hsent i j (Or.inr hj), hf2 i j (Or.inl hj)]
  have hqold : ∀ j, j ≤ k → s'.qs j = s.qs j := by
    intro j hj
    rw [hqs]
    split_ifs
    · rw [Function.update_of_ne (by omega)]
    · rfl
  -- residuals
  have hresold : ∀ j, j < k → colRes A scale s' j = colRes A scale s j := by
    intro j hj
    unfold colRes
    rw [hqold j (by omega)]
    congr 1
    refine Finset.sum_congr rfl fun i hi => ?_
    have := Finset.mem_range.mp hi
    rw [hsold i j (by omega), hqold i (by omega)]
  have hresnew : colRes A scale s' k = o.qv := by
    unfold colRes
    rw [hqold k (le_refl _), sub_eq_iff_eq_add, ← hf1]
    congr 1
    have e1 : ∀ i ∈ Finset.range (k + 1), s'.hs i k • s'.qs i = o.hs i k • s.qs i := by
      intro i hi
      have := Finset.mem_range.mp hi
      rw [hsent i k (by omega), hqold i (by omega)]
    rw [Finset.sum_congr rfl e1, ← hac, Finset.sum_range_add, Finset.sum_eq_zero (s := Finset.range a), zero_add]
    intro i hi
    have := Finset.mem_range.mp hi
    rw [hf2 i k (by omega), h.fresh i k (le_refl _), zero_smul]
  refine ⟨?_, ?_, ?_, ?_, ?_, ?_, ?_, ?_, ?_, ?_, ?_⟩
  · rw [hk']; omega
  · intro j hj
    rw [hv'] at hj
    by_cases hjk : j ≤ k
    · rw [hqold j hjk]; exact h.unit j (by omega)
    · split_ifs at hj with hcond
      · obtain rfl : j = k + 1 := by omega
        rw [hqs, if_pos hcond, Function.update_self]
        exact norm2_normalized (lt_trans breakdownTol_pos hcond.2).ne'
      · omega
  · intro i j hij
    by_cases hj : j = k
    · rw [hsent i j (by omega), hf2 i j (by omega)]
      exact h.hess i j hij
    · rw [hsold i j hj]; exact h.hess i j hij
  · intro i j hj
    rw [hk'] at hj
    rw [hsold i j (by omega)]
    exact h.fresh i j (by omega)
  · intro i j hij
    by_cases hj : j = k
    · rw [hsent i j (by omega), hf2 i j (by omega)]
      exact h.band i j hij
    · rw [hsold i j hj]; exact h.band i j hij
  · intro j hj hj1
    rw [hk'] at hj
    rw [hv'] at hj1
    by_cases hjk : j = k
    · subst hjk
      split_ifs at hj1 with hcond
      · rw [hresnew, hhs, if_pos hcond.1, Function.update_self, Function.update_self, hqs, if_pos hcond,
          Function.update_self, div_eq_smul, smul_smul,
          mul_inv_cancel₀ (lt_trans breakdownTol_pos hcond.2).ne', one_smul]
      · omega
    · rw [hresold j (by omega), hsold _ _ hjk, hqold (j + 1) (by omega)]
      exact h.next j (by omega) (by omega)
  · intro j hj hjm
    rw [hk'] at hj
    by_cases hjk : j = k
    · subst hjk
      rw [hresnew, hhs, if_pos hjm, Function.update_self, Function.update_self]
    · rw [hresold j (by omega), hsold _ _ hjk]
      exact h.sub j (by omega) hjm
  · intro j hj
    rw [hk'] at hj
    rw [hresold j (by omega)]
    by_cases hjk : j + 1 = k
    · exact (h.last j hjk).mp hc.2
    · exact h.big j (by omega)
  · intro j hj
    rw [hk'] at hj
    obtain rfl : j = k := by omega
    rw [hresnew, hnb]
  · intro i j hij hj hd
    rw [hv'] at hj
    by_cases hjk : j ≤ k
    · rw [hqold j hjk, hqold i (by omega)]
      exact h.orth i j hij (by omega) hd
    · split_ifs at hj with hcond
      · obtain rfl : j = k + 1 := by omega
        rw [hqold i (by omega), hqs, if_pos hcond, Function.update_self, div_eq_smul, dotProduct_smul, dotProduct_comm]
        have := hqo (i - a) (by omega)
        rw [show a + (i - a) = i by omega] at this
        rw [this, smul_zero]
      · omega
  · intro i j hij hj hd
    rw [hk'] at hj
    rw [hqold i (by omega)]
    by_cases hjk : j = k
    · subst hjk
      rw [hresnew]
      have := hqo (i - a) (by omega)
      rwa [show a + (i - a) = i by omega] at this
    · rw [hresold j (by omega)]
      exact h.resOrth i j hij (by omega) hd

theorem arnLoop_inv (A : LinOp n) (scale : ℝ) (m iom : ℕ) (f : ℕ) : ∀ (s : ArnState n), ArnInv A scale m iom s →
    m - s.k ≤ f → ArnInv A scale m iom (arnoldiLoop A scale m iom f s)
      ∧ ¬ ((arnoldiLoop A scale m iom f s).k < m ∧ (arnoldiLoop A scale m iom f s).notBreakdown)
      ∧ (s.k < m ∧ s.notBreakdown → s.k < (arnoldiLoop A scale m iom f s).k)
      ∧ (arnoldiLoop A scale m iom f s).qs 0 = s.qs 0 := by
  induction f with
  | zero =>
    intro s h hf
    refine ⟨h, ?_, ?_, rfl⟩
    · rw [arnoldiLoop]; omega
    · omega
  | succ f ih =>
    intro s h hf
    rw [arnoldiLoop]
    by_cases hc : s.k < m ∧ s.notBreakdown
    · rw [if_pos hc]
      have hk : (arnoldiMgs A scale m iom s).k = s.k + 1 := rfl
      obtain ⟨h1, h2, h3, h4⟩ := ih _ (arnStep_inv A scale m iom s h hc) (by rw [hk]; omega)
      refine ⟨h1, h2, fun _ => ?_, ?_⟩
      · by_cases hc2 : (arnoldiMgs A scale m iom s).k < m ∧ (arnoldiMgs A scale m iom s).notBreakdown
        · have := h3 hc2; omega
        · have : arnoldiLoop A scale m iom f (arnoldiMgs A scale m iom s) = arnoldiMgs A scale m iom s := by
            cases f with
            | zero => rfl
            | succ f => rw [arnoldiLoop, if_neg hc2]
          rw [this, hk]; omega
      · rw [h4]
        unfold arnoldiMgs
        simp only
        split_ifs
        · rw [Function.update_of_ne (by omega)]
        · rfl
    · rw [if_neg hc]
      exact ⟨h, hc, fun h' => absurd h' hc, rfl⟩

theorem arnJit_zero (A : LinOp n) (scale : ℝ) (b : Vec n) (m iom : ℕ) (h : min n m = 0) :
    (arnoldiJit A scale b m iom).k = 0 := by
  unfold arnoldiJit
  rw [h]
  rfl

theorem arnJit_inv (A : LinOp n) (scale : ℝ) (b : Vec n) (m iom : ℕ) (hm : 0 < min n m) :
    ArnInv A scale (min n m) iom (arnoldiJit A scale b m iom)
      ∧ ¬ ((arnoldiJit A scale b m iom).k < min n m ∧ (arnoldiJit A scale b m iom).notBreakdown)
      ∧ (norm2 b > 0 → 0 < (arnoldiJit A scale b m iom).k)
      ∧ (norm2 b > 0 → (arnoldiJit A scale b m iom).qs 0 = fun i => b i / norm2 b) := by
  obtain ⟨h1, h2, h3, h4⟩ := arnLoop_inv A scale (min n m) iom (min n m) _ (arnInit_inv A scale (min n m) iom b hm)
    (Nat.sub_le _ _)
  refine ⟨h1, h2, fun hb => h3 ⟨hm, hb⟩, fun hb => ?_⟩
  unfold arnoldiJit
  rw [h4]
  simp only [arnoldiInit, Function.update_self, hb, if_true]

/-! ### C26 -/

/-- column `j` of a matrix -/
def colOf {k : ℕ} (Q : Matrix (Fin n) (Fin k) ℝ) (j : Fin k) : Vec n := fun i => Q i j

theorem arn_valid (A : LinOp n) (scale : ℝ) (b : Vec n) (m iom : ℕ) (hm : 0 < min n m) :
    validCols (min n m) (arnoldiJit A scale b m iom) = (arnoldiJit A scale b m iom).k := by
  unfold validCols
  rw [if_neg (arnJit_inv A scale b m iom hm).2.1]

theorem fin_sum_hess {k : ℕ} (f : ℕ → Vec n) (j : ℕ) (hj : j + 1 < k) (h0 : ∀ i, j + 1 < i → f i = 0) :
    ∑ i : Fin k, f i = (∑ i ∈ Finset.range (j + 1), f i) + f (j + 1) := by
  rw [Fin.sum_univ_eq_sum_range (n := k) f, ← Finset.sum_range_succ]
  symm
  refine Finset.sum_subset (Finset.range_mono hj) fun i hi hni => h0 i ?_
  simp only [Finset.mem_range] at hi hni
  omega

/-- the residual vector left in the last column -/
noncomputable def arnRes (A : LinOp n) (scale : ℝ) (b : Vec n) (m iom : ℕ) : Vec n :=
  colRes A scale (arnoldiJit A scale b m iom) ((arnoldiJit A scale b m iom).k - 1)

theorem arn_relation (A : LinOp n) (scale : ℝ) (b : Vec n) (m iom : ℕ) (j : Fin (arnoldiLop A scale b m iom).k) :
    scale • A.call (colOf (arnoldiLop A scale b m iom).Q j)
      = (arnoldiLop A scale b m iom).Q *ᵥ (fun i => (arnoldiLop A scale b m iom).H i j)
        + if (j : ℕ) + 1 = (arnoldiLop A scale b m iom).k then arnRes A scale b m iom else 0 := by
  rcases Nat.eq_zero_or_pos (min n m) with h0 | hm
  · have : (arnoldiLop A scale b m iom).k = 0 := arnJit_zero A scale b m iom h0
    have hj := j.2
    omega
  obtain ⟨inv, hstop, _, _⟩ := arnJit_inv A scale b m iom hm
  have hvalid := arn_valid A scale b m iom hm
  set s := arnoldiJit A scale b m iom with hs
  have hj : (j : ℕ) < s.k := j.2
  have hQ : (arnoldiLop A scale b m iom).Q *ᵥ (fun i => (arnoldiLop A scale b m iom).H i j)
      = ∑ i : Fin s.k, s.hs i j • s.qs i := by
    funext x
    rw [Finset.sum_apply]
    simp only [Matrix.mulVec, dotProduct, Pi.smul_apply, smul_eq_mul]
    exact Finset.sum_congr rfl fun i _ => mul_comm _ _
  rw [hQ]
  have hcol : colOf (arnoldiLop A scale b m iom).Q j = s.qs j := rfl
  rw [hcol]
  have hres : scale • A.call (s.qs j) = ∑ i ∈ Finset.range ((j : ℕ) + 1), s.hs i j • s.qs i + colRes A scale s j := by
    unfold colRes; abel
  by_cases hlast : (j : ℕ) + 1 = (arnoldiLop A scale b m iom).k
  · have hlast' : (j : ℕ) + 1 = s.k := hlast
    rw [if_pos hlast, hres, Fin.sum_univ_eq_sum_range (fun i => s.hs i j • s.qs i) s.k, ← hlast']
    unfold arnRes
    rw [← hs, ← hlast', Nat.add_sub_cancel]
  · have hlast' : (j : ℕ) + 1 ≠ s.k := hlast
    rw [if_neg hlast, add_zero, hres, inv.next j hj (by omega),
      fin_sum_hess (fun i => s.hs i j • s.qs i) j (by omega) (fun i hi => by rw [inv.hess i j hi, zero_smul])]

/-- **C26.** For any operator, scaling, start vector, dimension and depth: at most `min n m` columns, `H` upper Hessenberg
with bandwidth given by the depth, unit columns, and `scale * A(q_j) = (Q H)_j`, with a residual in the last column
only. -/
theorem C26_arnoldi_relation (A : LinOp n) (scale : ℝ) (b : Vec n) (m iom : ℕ) :
    let R := arnoldiLop A scale b m iom
    R.k ≤ min n m
      ∧ (∀ i j : Fin R.k, (j : ℕ) + 1 < i → R.H i j = 0)
      ∧ (∀ i j : Fin R.k, (i : ℕ) + iom < j → R.H i j = 0)
      ∧ (∀ j, norm2 (fun i => R.Q i j) = 1)
      ∧ ∃ r : Vec n, ∀ j : Fin R.k, scale • A.call (fun i => R.Q i j)
          = (fun i => (R.Q * R.H) i j) + if (j : ℕ) + 1 = R.k then r else 0 := by
  intro R
  rcases Nat.eq_zero_or_pos (min n m) with h0 | hm
  · have hk : R.k = 0 := arnJit_zero A scale b m iom h0
    refine ⟨by omega, ?_, ?_, ?_, 0, ?_⟩
    · intro i; have := i.2; omega
    · intro i; have := i.2; omega
    · intro j; have := j.2; omega
    · intro j; have := j.2; omega
  obtain ⟨inv, hstop, _, _⟩ := arnJit_inv A scale b m iom hm
  refine ⟨inv.kle, fun i j hij => inv.hess i j hij, fun i j hij => inv.band i j hij, fun j => ?_,
    arnRes A scale b m iom, fun j => arn_relation A scale b m iom j⟩
  refine inv.unit j ?_
  rw [arn_valid A scale b m iom hm]
  exact j.2

/-! ### C27 -/

/-- **C27 (incomplete orthogonalisation).** Any two different columns at distance at most `iom + 1` are orthogonal. -/
theorem C27_incomplete (A : LinOp n) (scale : ℝ) (b : Vec n) (m iom : ℕ) :
    let R := arnoldiLop A scale b m iom
    ∀ i j : Fin R.k, (i : ℕ) < j → (j : ℕ) ≤ i + (iom + 1) → (fun x => R.Q x i) ⬝ᵥ (fun x => R.Q x j) = 0 := by
  intro R i j hij hd
  rcases Nat.eq_zero_or_pos (min n m) with h0 | hm
  · have hk : R.k = 0 := arnJit_zero A scale b m iom h0
    have := i.2; omega
  obtain ⟨inv, hstop, _, _⟩ := arnJit_inv A scale b m iom hm
  refine inv.orth i j hij ?_ hd
  rw [arn_valid A scale b m iom hm]
  exact j.2

/-- **C27 (full orthogonalisation).** If the depth covers the dimension (`min n m ≤ iom + 1`) the columns are orthonormal,
the first one is the normalised start vector, the residual of the last column is orthogonal to all columns, and
`Qᵀ (scale A) Q = H`. -/
theorem C27_full (A : LinOp n) (scale : ℝ) (b : Vec n) (m iom : ℕ) (hiom : min n m ≤ iom + 1) :
    let R := arnoldiLop A scale b m iom
    R.Qᵀ * R.Q = 1
      ∧ (b ≠ 0 → ∀ j : Fin R.k, (j : ℕ) = 0 → (fun x => R.Q x j) = fun i => b i / norm2 b)
      ∧ (∀ i j : Fin R.k, (fun x => R.Q x i) ⬝ᵥ (scale • A.call (fun x => R.Q x j)) = R.H i j) := by
  intro R
  rcases Nat.eq_zero_or_pos (min n m) with h0 | hm
  · have hk : R.k = 0 := arnJit_zero A scale b m iom h0
    refine ⟨?_, ?_, ?_⟩
    · ext i; have := i.2; omega
    · intro _ j; have := j.2; omega
    · intro i; have := i.2; omega
  obtain ⟨inv, hstop, _, hq0⟩ := arnJit_inv A scale b m iom hm
  have hvalid := arn_valid A scale b m iom hm
  have hkle := inv.kle
  set s := arnoldiJit A scale b m iom with hs
  have hort : ∀ i j : Fin R.k, s.qs i ⬝ᵥ s.qs j = if i = j then 1 else 0 := by
    intro i j
    have hi : (i : ℕ) < s.k := i.2
    have hj : (j : ℕ) < s.k := j.2
    by_cases hij : i = j
    · subst hij
      rw [if_pos rfl, ← norm2_sq, inv.unit i (by omega), one_mul]
    · rw [if_neg hij]
      have hne : (i : ℕ) ≠ j := fun h => hij (Fin.ext h)
      rcases Nat.lt_or_gt_of_ne hne with hlt | hlt
      · exact inv.orth i j hlt (by omega) (by omega)
      · rw [dotProduct_comm]
        exact inv.orth j i hlt (by omega) (by omega)
  refine ⟨?_, ?_, ?_⟩
  · ext i j
    rw [Matrix.mul_apply, Matrix.one_apply]
    exact hort i j
  · intro hb j hj
    have : (fun x => R.Q x j) = s.qs 0 := by
      funext x
      show s.qs j x = _
      rw [hj]
    rw [this]
    exact hq0 (norm2_pos hb)
  · intro i j
    have hi : (i : ℕ) < s.k := i.2
    have hrel := arn_relation A scale b m iom j
    show s.qs i ⬝ᵥ (scale • A.call (colOf R.Q j)) = _
    rw [hrel, dotProduct_add]
    have e1 : s.qs i ⬝ᵥ (R.Q *ᵥ fun q => R.H q j) = R.H i j := by
      have : R.Q *ᵥ (fun q => R.H q j) = ∑ q : Fin R.k, R.H q j • s.qs q := by
        funext x
        rw [Finset.sum_apply]
        simp only [Matrix.mulVec, dotProduct, Pi.smul_apply, smul_eq_mul]
        exact Finset.sum_congr rfl fun q _ => mul_comm _ _
      rw [this, dotProduct_sum]
      simp only [dotProduct_smul, hort, smul_eq_mul, mul_ite, mul_one, mul_zero]
      simp
    have e2 : s.qs i ⬝ᵥ (if (j : ℕ) + 1 = R.k then arnRes A scale b m iom else 0) = 0 := by
      split_ifs
      · unfold arnRes
        rw [dotProduct_comm]
        have := inv.resOrth i (s.k - 1) (by omega) (by omega) (by omega)
        exact this
      · simp
    rw [show (arnoldiLop A scale b m iom).Q *ᵥ (fun i => (arnoldiLop A scale b m iom).H i j)
      = R.Q *ᵥ fun q => R.H q j from rfl, e1]
    rw [show (if (j : ℕ) + 1 = (arnoldiLop A scale b m iom).k then arnRes A scale b m iom else 0)
      = (if (j : ℕ) + 1 = R.k then arnRes A scale b m iom else 0) from rfl, e2, add_zero]

/-! ### C28 -/

/-- **C28.** No iteration for `b = 0`; otherwise between 1 and `min n m` iterations.  The norms of the residuals of all
columns but the last exceed the breakdown tolerance `1e-12` (they are the subdiagonal of `H`), and the run stops before
`min n m` exactly when the residual of the last column does not. -/
theorem C28_termination (A : LinOp n) (scale : ℝ) (b : Vec n) (m iom : ℕ) (hm : 1 ≤ m) :
    let R := arnoldiLop A scale b m iom
    (b = 0 → R.k = 0)
      ∧ (b ≠ 0 → 1 ≤ R.k ∧ R.k ≤ min n m
          ∧ (∀ i j : Fin R.k, (i : ℕ) = j + 1 → 1e-12 < R.H i j)
          ∧ ∀ (j : Fin R.k) (r : Vec n), (j : ℕ) + 1 = R.k →
              scale • A.call (fun i => R.Q i j) = (fun i => (R.Q * R.H) i j) + r →
              (R.k < min n m → norm2 r ≤ 1e-12)) := by
  intro R
  constructor
  · intro hb
    show (arnoldiJit A scale b m iom).k = 0
    unfold arnoldiJit
    cases hmin : min n m with
    | zero => rfl
    | succ q =>
      rw [arnoldiLoop, if_neg]
      · rfl
      · intro h
        have : norm2 b > 0 := h.2
        rw [hb, norm2_zero] at this
        exact lt_irrefl _ this
  · intro hb
    have hn : 0 < n := by
      rcases Nat.eq_zero_or_pos n with rfl | h
      · exact absurd (Subsingleton.elim b 0) hb
      · exact h
    have hmin : 0 < min n m := by omega
    obtain ⟨inv, hstop, hpos, _⟩ := arnJit_inv A scale b m iom hmin
    refine ⟨hpos (norm2_pos hb), inv.kle, ?_, ?_⟩
    · intro i j hij
      have hi : (i : ℕ) < (arnoldiJit A scale b m iom).k := i.2
      have hkle := inv.kle
      show (1e-12 : ℝ) < (arnoldiJit A scale b m iom).hs i j
      rw [hij, inv.sub j (by omega) (by omega)]
      exact inv.big j (by omega)
    · intro j r hj hr hlt
      have hrel := arn_relation A scale b m iom j
      rw [if_pos hj] at hrel
      have hr2 : r = arnRes A scale b m iom := by
        have : (fun i => (R.Q * R.H) i j) + r = (fun i => (R.Q * R.H) i j) + arnRes A scale b m iom := by
          rw [← hr]; exact hrel
        exact add_left_cancel this
      have hnb : ¬ (arnoldiJit A scale b m iom).notBreakdown := fun h => hstop ⟨hlt, h⟩
      have hlast := inv.last j hj
      rw [hlast] at hnb
      have hj2 : ((arnoldiJit A scale b m iom).k - 1) = j := by
        have : (j : ℕ) + 1 = (arnoldiJit A scale b m iom).k := hj
        omega
      rw [hr2]
      unfold arnRes
      rw [hj2]
      exact not_lt.mp hnb

/-- A run with two columns: for `A = [[0,1],[1,0]]`, `b = e_1`, `m = 2` at least one and at most two iterations are made and
the hypotheses of C28 hold. -/
example : (![1, 0] : Vec 2) ≠ 0 := fun h => by simpa using congrFun h 0

end

end Ormatex.Props
