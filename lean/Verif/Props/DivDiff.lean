import Verif.Model.Poly
import Mathlib.LinearAlgebra.Lagrange
import Mathlib.Analysis.Normed.Algebra.MatrixExponential
import Mathlib.Topology.Instances.Matrix

/-!
C43, C44: divided differences.
-/

namespace Ormatex.Props
open Matrix Polynomial

section field
variable {K : Type*} [Field K]

/-- **Specification.** The Newton basis polynomial `(X - x_0) ... (X - x_{j-1})`. -/
noncomputable def newtonBasis (x : ℕ → K) (j : ℕ) : K[X] := ∏ l ∈ Finset.range j, (X - C (x l))

/-- **Specification.** The polynomial with Newton coefficients `a_0, ..., a_{m-1}` at the nodes `x`. -/
noncomputable def newtonPoly (x a : ℕ → K) (m : ℕ) : K[X] := ∑ j ∈ Finset.range m, C (a j) * newtonBasis x j

theorem newtonBasis_succ (x : ℕ → K) (j : ℕ) : newtonBasis x (j + 1) = newtonBasis x j * (X - C (x j)) := by
  unfold newtonBasis
  rw [Finset.prod_range_succ]

theorem newtonBasis_monic (x : ℕ → K) (j : ℕ) : (newtonBasis x j).Monic :=
  monic_prod_of_monic _ _ fun l _ => monic_X_sub_C (x l)

theorem newtonBasis_natDegree (x : ℕ → K) (j : ℕ) : (newtonBasis x j).natDegree = j := by
  unfold newtonBasis
  rw [natDegree_prod_of_monic _ _ fun l _ => monic_X_sub_C (x l)]
  simp

theorem newtonBasis_root (x : ℕ → K) {i j : ℕ} (h : i < j) : (newtonBasis x j).eval (x i) = 0 := by
  unfold newtonBasis
  rw [eval_prod]
  exact Finset.prod_eq_zero (Finset.mem_range.2 h) (by simp)

theorem newtonBasis_ne_zero (x : ℕ → K) {m i : ℕ} (hx : Set.InjOn x (Finset.range m)) (hi : i < m) :
    (newtonBasis x i).eval (x i) ≠ 0 := by
  unfold newtonBasis
  rw [eval_prod]
  refine Finset.prod_ne_zero_iff.2 fun l hl => ?_
  have hl := Finset.mem_range.1 hl
  rw [eval_sub, eval_X, eval_C, sub_ne_zero]
  intro h
  have := hx (by simpa using hi) (by simp; omega) h
  omega

/-- the loop of `newton_poly_div_diff` with passes `1 .. k` -/
theorem dd_split (m : ℕ) (x y : ℕ → K) (k : ℕ) :
    (List.range' 1 (k + 1)).foldl (fun a k => ddPass m x k a) y
      = ddPass m x (k + 1) ((List.range' 1 k).foldl (fun a k => ddPass m x k a) y) := by
  rw [List.range'_1_concat, List.foldl_append]
  simp [add_comm]

theorem dd_invariant (m : ℕ) (x y : ℕ → K) (hx : Set.InjOn x (Finset.range m)) (k : ℕ) (hk : k < m) :
    let a := (List.range' 1 k).foldl (fun a k => ddPass m x k a) y
    (∀ i, i < m → k ≤ i → y i = (newtonPoly x a k).eval (x i) + a i * (newtonBasis x k).eval (x i)) ∧
    (∀ i, i ≤ k → y i = (newtonPoly x a (i + 1)).eval (x i)) := by
  induction k with
  | zero =>
    simp only [List.range'_zero, List.foldl_nil]
    refine ⟨fun i _ _ => by simp [newtonPoly, newtonBasis], fun i hi => ?_⟩
    obtain rfl : i = 0 := by omega
    simp [newtonPoly, newtonBasis]
  | succ k ih =>
    obtain ⟨h1, h2⟩ := ih (by omega)
    rw [dd_split]
    set a := (List.range' 1 k).foldl (fun a k => ddPass m x k a) y with ha
    intro a'
    have hlow : ∀ i, i ≤ k → a' i = a i := by
      intro i hi
      show ddPass m x (k + 1) a i = a i
      unfold ddPass
      rw [if_neg (by omega)]
    have hpoly : ∀ j, j ≤ k + 1 → newtonPoly x a' j = newtonPoly x a j := by
      intro j hj
      unfold newtonPoly
      refine Finset.sum_congr rfl fun l hl => ?_
      rw [hlow l (by have := Finset.mem_range.1 hl; omega)]
    have hA : ∀ i, i < m → k + 1 ≤ i →
        y i = (newtonPoly x a' (k + 1)).eval (x i) + a' i * (newtonBasis x (k + 1)).eval (x i) := by
      intro i him hki
      have hne : x i - x k ≠ 0 := by
        rw [sub_ne_zero]
        intro h
        have := hx (by simpa using him) (by simp; omega) h
        omega
      have ha' : a' i = (a i - a k) / (x i - x k) := by
        show ddPass m x (k + 1) a i = _
        unfold ddPass
        rw [if_pos ⟨hki, him⟩, Nat.add_sub_cancel]
      rw [hpoly _ le_rfl, h1 i him (by omega), newtonPoly, newtonPoly, Finset.sum_range_succ, eval_add, newtonBasis_succ,
        eval_mul, eval_mul, eval_C, ha', eval_sub, eval_X, eval_C]
      field_simp
      ring
    refine ⟨hA, fun i hi => ?_⟩
    rcases Nat.lt_or_ge k i with h | h
    · obtain rfl : i = k + 1 := by omega
      rw [hA (k + 1) hk le_rfl]
      conv_rhs => rw [newtonPoly, Finset.sum_range_succ, ← newtonPoly, eval_add, eval_mul, eval_C]
    · rw [hpoly _ (by omega)]
      exact h2 i h

theorem newtonPoly_eval_ge (x a : ℕ → K) {i m : ℕ} (h : i < m) :
    (newtonPoly x a m).eval (x i) = (newtonPoly x a (i + 1)).eval (x i) := by
  obtain ⟨d, rfl⟩ : ∃ d, m = i + 1 + d := ⟨m - (i + 1), by omega⟩
  unfold newtonPoly
  rw [Finset.sum_range_add, eval_add, add_eq_left, eval_finsetSum]
  refine Finset.sum_eq_zero fun j _ => ?_
  rw [eval_mul, newtonBasis_root x (by omega), mul_zero]

theorem newtonPoly_degree (x a : ℕ → K) (m : ℕ) : (newtonPoly x a m).degree < m := by
  unfold newtonPoly
  refine (degree_sum_le _ _).trans_lt ?_
  refine (Finset.sup_lt_iff (WithBot.bot_lt_coe m)).2 fun j hj => ?_
  rw [← smul_eq_C_mul]
  refine (degree_smul_le _ _).trans_lt ?_
  rw [degree_eq_natDegree (newtonBasis_monic x j).ne_zero, newtonBasis_natDegree]
  exact WithBot.coe_lt_coe.2 (Finset.mem_range.1 hj)

/-- **C43.**  For pairwise distinct nodes, `newton_poly_div_diff(x, y)` returns the Newton coefficients of the unique
polynomial of degree below `m` through the points `(x_i, y_i)`. -/
theorem C43_interpolates (m : ℕ) (x y : ℕ → K) (hx : Set.InjOn x (Finset.range m)) :
    newtonPoly x (newtonPolyDivDiff m x y) m = Lagrange.interpolate (Finset.range m) x y := by
  refine Lagrange.eq_interpolate_of_eval_eq _ hx (by simpa using newtonPoly_degree x _ m) ?_
  intro i hi
  have hi := Finset.mem_range.1 hi
  have := (dd_invariant m x y hx (m - 1) (by omega)).2 i (by omega)
  rw [newtonPoly_eval_ge x _ hi]
  exact this.symm

/-- Newton coefficients are determined by the values at distinct nodes. -/
theorem newton_unique (m : ℕ) (x a b : ℕ → K) (hx : Set.InjOn x (Finset.range m))
    (h : ∀ i < m, (newtonPoly x a m).eval (x i) = (newtonPoly x b m).eval (x i)) : ∀ i < m, a i = b i := by
  intro i
  induction i using Nat.strong_induction_on with
  | _ i ih =>
    intro hi
    have h1 := h i hi
    rw [newtonPoly_eval_ge x a hi, newtonPoly_eval_ge x b hi, newtonPoly, newtonPoly, Finset.sum_range_succ,
      Finset.sum_range_succ, eval_add, eval_add, eval_mul, eval_mul, eval_C, eval_C] at h1
    have h2 : (∑ j ∈ Finset.range i, C (a j) * newtonBasis x j) = ∑ j ∈ Finset.range i, C (b j) * newtonBasis x j :=
      Finset.sum_congr rfl fun j hj => by
        have hj := Finset.mem_range.1 hj
        rw [ih j hj (by omega)]
    rw [h2] at h1
    exact mul_right_cancel₀ (newtonBasis_ne_zero x hx hi) (add_left_cancel h1)

/-- Each coefficient depends only on the nodes and values up to its own index (so truncating the sum after any number of
terms gives the interpolant at the nodes used so far). -/
theorem C43_prefix (m : ℕ) (x y : ℕ → K) (hx : Set.InjOn x (Finset.range m)) (i : ℕ) (hi : i ≤ m) :
    newtonPoly x (newtonPolyDivDiff m x y) i = Lagrange.interpolate (Finset.range i) x y := by
  refine Lagrange.eq_interpolate_of_eval_eq _ (hx.mono (by simpa using hi)) (by simpa using newtonPoly_degree x _ i) ?_
  intro l hl
  have hl := Finset.mem_range.1 hl
  have := (dd_invariant m x y hx (m - 1) (by omega)).2 l (by omega)
  rw [newtonPoly_eval_ge x _ hl]
  exact this.symm

/-- Three distinct nodes, with values of a parabola: the coefficients are those of the parabola. -/
example : ∃ x y : ℕ → ℚ, Set.InjOn x (Finset.range 3) ∧ newtonPolyDivDiff 3 x y 0 = 4 ∧ newtonPolyDivDiff 3 x y 1 = 3 ∧
    newtonPolyDivDiff 3 x y 2 = 1 := by
  refine ⟨fun i => if i = 0 then 2 else if i = 1 then 1 else 5, fun i => if i = 0 then 4 else if i = 1 then 1 else 25, ?_, ?_, ?_, ?_⟩
  · intro i hi j hj h
    simp only [Finset.coe_range, Set.mem_Iio] at hi hj
    interval_cases i <;> interval_cases j <;> simp_all
  all_goals norm_num [newtonPolyDivDiff, ddPass, List.range'_succ]

end field

/-! ### Opitz: divided differences from a matrix exponential -/

section opitz
variable {K : Type*} [RCLike K]

attribute [local instance] Matrix.linftyOpNormedRing Matrix.linftyOpNormedAlgebra in
/-- `A W = W B` implies `exp(A) W = W exp(B)`, for a rectangular `W`. -/
theorem exp_intertwine {n m : ℕ} (A : Matrix (Fin n) (Fin n) K) (B : Matrix (Fin m) (Fin m) K) (W : Matrix (Fin n) (Fin m) K)
    (h : A * W = W * B) : NormedSpace.exp A * W = W * NormedSpace.exp B := by
  have hp : ∀ j : ℕ, A ^ j * W = W * B ^ j := by
    intro j
    induction j with
    | zero => simp
    | succ j ih => rw [pow_succ, pow_succ', Matrix.mul_assoc, h, ← Matrix.mul_assoc, ih, Matrix.mul_assoc, ← pow_succ,
        ← pow_succ']
  have hA : HasSum (fun j : ℕ => ((Nat.factorial j : K)⁻¹) • A ^ j) (NormedSpace.exp A) := NormedSpace.exp_series_hasSum_exp' (𝕂 := K) A
  have hB : HasSum (fun j : ℕ => ((Nat.factorial j : K)⁻¹) • B ^ j) (NormedSpace.exp B) := NormedSpace.exp_series_hasSum_exp' (𝕂 := K) B
  have h1 := hA.map (Matrix.addMonoidHomMulRight W) (by
    show Continuous fun M : Matrix (Fin n) (Fin n) K => M * W
    exact continuous_id.matrix_mul continuous_const)
  have h2 := hB.map (Matrix.addMonoidHomMulLeft W) (by
    show Continuous fun M : Matrix (Fin m) (Fin m) K => W * M
    exact continuous_const.matrix_mul continuous_id)
  have e : (⇑(Matrix.addMonoidHomMulRight W) ∘ fun j : ℕ => ((Nat.factorial j : K)⁻¹) • A ^ j)
      = ⇑(Matrix.addMonoidHomMulLeft W) ∘ fun j : ℕ => ((Nat.factorial j : K)⁻¹) • B ^ j := by
    funext j
    show (((Nat.factorial j : K)⁻¹) • A ^ j) * W = W * (((Nat.factorial j : K)⁻¹) • B ^ j)
    rw [Matrix.smul_mul, Matrix.mul_smul, hp]
  rw [e] at h1
  exact h1.unique h2

/-- the vectors `N_j(A) u` -/
noncomputable def newtonVec {n : ℕ} (x : ℕ → K) (A : Matrix (Fin n) (Fin n) K) (u : Fin n → K) (j : ℕ) : Fin n → K :=
  aeval A (newtonBasis x j) *ᵥ u

theorem newtonVec_zero {n : ℕ} (x : ℕ → K) (A : Matrix (Fin n) (Fin n) K) (u : Fin n → K) : newtonVec x A u 0 = u := by
  simp [newtonVec, newtonBasis]

theorem newtonVec_succ {n : ℕ} (x : ℕ → K) (A : Matrix (Fin n) (Fin n) K) (u : Fin n → K) (j : ℕ) :
    newtonVec x A u (j + 1) = A *ᵥ newtonVec x A u j - x j • newtonVec x A u j := by
  unfold newtonVec
  rw [newtonBasis_succ, mul_comm, map_mul, map_sub, aeval_X, aeval_C, sub_mul, Matrix.sub_mulVec, Matrix.mulVec_mulVec,
    Algebra.algebraMap_eq_smul_one, Matrix.smul_mul, Matrix.one_mul, Matrix.smul_mulVec]

/-- **C44, general form.**  Let `c` be the coefficients returned by `leja_coeffs_exp` with an exact matrix exponential.  For
every matrix `A` and vector `u` annihilated by the nodal polynomial at `A` (in particular, by Cayley-Hamilton, when the nodes
are the eigenvalues of `A` with multiplicity), the Newton polynomial with these coefficients gives
`exp(h (shift + scale A)) u` exactly, whether or not nodes coincide. -/
theorem C44_annihilated {n : ℕ} (m : ℕ) (hm : 0 < m) (x : ℕ → K) (shift scale h : K) (A : Matrix (Fin n) (Fin n) K)
    (u : Fin n → K) (hu : aeval A (newtonBasis x m) *ᵥ u = 0) :
    aeval A (newtonPoly x (lejaCoeffsExp (fun _ => NormedSpace.exp) m x shift scale h) m) *ᵥ u
      = NormedSpace.exp (h • (shift • (1 : Matrix (Fin n) (Fin n) K) + scale • A)) *ᵥ u := by
  set W : Matrix (Fin n) (Fin m) K := Matrix.of fun i j => newtonVec x A u j i with hW
  have hAW : A * W = W * bidiag m x := by
    ext i j
    have hl : (A * W) i j = (A *ᵥ newtonVec x A u j) i := rfl
    have hs := newtonVec_succ x A u j
    have hAv : A *ᵥ newtonVec x A u j = newtonVec x A u (j + 1) + x j • newtonVec x A u j := by rw [hs]; abel
    rw [hl, hAv, Matrix.mul_apply]
    have hterm : ∀ l : Fin m, W i l * bidiag m x l j
        = (if l = j then x j * newtonVec x A u j i else 0)
          + if (l : ℕ) = j + 1 then newtonVec x A u (j + 1) i else 0 := by
      intro l
      simp only [hW, bidiag, Matrix.of_apply]
      by_cases h1 : l = j
      · subst h1
        simp [mul_comm]
      · by_cases h2 : (l : ℕ) = j + 1
        · simp [h1, h2]
        · simp [h1, h2]
    rw [Finset.sum_congr rfl fun l _ => hterm l, Finset.sum_add_distrib, Finset.sum_ite_eq']
    simp only [Finset.mem_univ, if_true, Pi.add_apply, Pi.smul_apply, smul_eq_mul]
    rw [add_comm]
    congr 1
    by_cases hj : (j : ℕ) + 1 < m
    · rw [Finset.sum_eq_single (⟨j + 1, hj⟩ : Fin m)]
      · simp
      · intro b _ hb
        rw [if_neg]
        intro hb'
        exact hb (Fin.ext hb')
      · simp
    · have hjm : (j : ℕ) + 1 = m := by have := j.2; omega
      rw [Finset.sum_eq_zero]
      · rw [hjm]
        exact congrFun hu i
      · intro l _
        rw [if_neg]
        have := l.2
        omega
  have hint : (h • (shift • (1 : Matrix (Fin n) (Fin n) K) + scale • A)) * W = W * (h • xiShift m x shift scale) := by
    unfold xiShift
    simp only [Matrix.smul_mul, Matrix.add_mul, Matrix.one_mul, Matrix.mul_smul, Matrix.mul_add, Matrix.mul_one, hAW]
  have hexp := exp_intertwine _ _ W hint
  have hW0 : W *ᵥ Pi.single ⟨0, hm⟩ 1 = u := by
    rw [Matrix.mulVec_single_one]
    funext i
    exact congrFun (newtonVec_zero x A u) i
  conv_rhs => rw [← hW0, Matrix.mulVec_mulVec, hexp, ← Matrix.mulVec_mulVec, Matrix.mulVec_single_one]
  unfold newtonPoly
  rw [map_sum, Matrix.sum_mulVec]
  funext i
  rw [Finset.sum_apply, Matrix.mulVec, dotProduct, ← Fin.sum_univ_eq_sum_range
    (fun j => (aeval A (C (lejaCoeffsExp (fun _ => NormedSpace.exp) m x shift scale h j) * newtonBasis x j) *ᵥ u) i)]
  refine Finset.sum_congr rfl fun j _ => ?_
  have hc : lejaCoeffsExp (fun _ => NormedSpace.exp) m x shift scale h j
      = NormedSpace.exp (h • xiShift m x shift scale) j ⟨0, hm⟩ := by
    unfold lejaCoeffsExp firstCol
    simp
  rw [hc, ← smul_eq_C_mul, map_smul, Matrix.smul_mulVec, Pi.smul_apply, smul_eq_mul, mul_comm]
  rfl

/-- **C44, nodes.**  The Newton polynomial with the coefficients of `leja_coeffs_exp` interpolates `exp(h (shift + scale x))` at
every node, distinct or not. -/
theorem C44_interpolates (m : ℕ) (x : ℕ → K) (shift scale h : K) (i : ℕ) (hi : i < m) :
    (newtonPoly x (lejaCoeffsExp (fun _ => NormedSpace.exp) m x shift scale h) m).eval (x i)
      = NormedSpace.exp (h * (shift + scale * x i)) := by
  have key := C44_annihilated m (by omega) x shift scale h (Matrix.diagonal fun _ : Fin 1 => x i) (fun _ => 1) (by
    have e : (Matrix.diagonal fun _ : Fin 1 => x i) = algebraMap K (Matrix (Fin 1) (Fin 1) K) (x i) := rfl
    rw [e, aeval_algebraMap_apply_eq_algebraMap_eval, newtonBasis_root x hi, map_zero, Matrix.zero_mulVec])
  have e : (Matrix.diagonal fun _ : Fin 1 => x i) = algebraMap K (Matrix (Fin 1) (Fin 1) K) (x i) := rfl
  have e2 : h • (shift • (1 : Matrix (Fin 1) (Fin 1) K) + scale • (Matrix.diagonal fun _ : Fin 1 => x i))
      = Matrix.diagonal fun _ : Fin 1 => h * (shift + scale * x i) := by
    ext a b
    obtain rfl : a = b := Subsingleton.elim _ _
    simp
  rw [e2, Matrix.exp_diagonal, e, aeval_algebraMap_apply_eq_algebraMap_eval] at key
  have k0 := congrFun key 0
  rw [Matrix.mulVec_diagonal, mul_one] at k0
  rw [Matrix.algebraMap_eq_diagonal, Matrix.mulVec_diagonal] at k0
  simpa [Pi.exp_def] using k0

/-- **C44, agreement of the two methods.**  For distinct nodes `leja_coeffs_exp` (exact exponential) and the recursive
`leja_coeffs_exp_dd` return the same coefficients. -/
theorem C44_eq_recursive (m : ℕ) (x : ℕ → K) (shift scale h : K) (hx : Set.InjOn x (Finset.range m)) (i : ℕ) (hi : i < m) :
    lejaCoeffsExp (fun _ => NormedSpace.exp) m x shift scale h i = lejaCoeffsExpDd m x shift scale h i := by
  refine newton_unique m x _ _ hx (fun l hl => ?_) i hi
  rw [C44_interpolates m x shift scale h l hl, lejaCoeffsExpDd, C43_interpolates m x _ hx,
    Lagrange.eval_interpolate_at_node _ hx (Finset.mem_range.2 hl)]

/-- **C44, prefixes.**  The first `i` coefficients only depend on the first `i` nodes. -/
theorem C44_prefix (m : ℕ) (x : ℕ → K) (shift scale h : K) (i j : ℕ) (hi : i ≤ m) (hj : j < i) :
    lejaCoeffsExp (fun _ => NormedSpace.exp) m x shift scale h j = lejaCoeffsExp (fun _ => NormedSpace.exp) i x shift scale h j := by
  set W : Matrix (Fin i) (Fin m) K := Matrix.of fun a b => if (a : ℕ) = b then 1 else 0 with hW
  have hmul : ∀ (B : Matrix (Fin m) (Fin m) K) (a : Fin i) (b : Fin m), (W * B) a b = B ⟨a, by omega⟩ b := by
    intro B a b
    rw [Matrix.mul_apply, Finset.sum_eq_single (⟨a, by omega⟩ : Fin m)]
    · simp [hW]
    · intro l _ hl
      have : ¬ (a : ℕ) = l := fun h => hl (Fin.ext h.symm)
      simp [hW, this]
    · simp
  have hmul' : ∀ (B : Matrix (Fin i) (Fin i) K) (a : Fin i) (b : Fin m),
      (B * W) a b = if hb : (b : ℕ) < i then B a ⟨b, hb⟩ else 0 := by
    intro B a b
    rw [Matrix.mul_apply]
    split
    · rename_i hb
      rw [Finset.sum_eq_single (⟨b, hb⟩ : Fin i)]
      · simp [hW]
      · intro l _ hl
        have : ¬ (l : ℕ) = b := fun h => hl (Fin.ext h)
        simp [hW, this]
      · simp
    · rename_i hb
      refine Finset.sum_eq_zero fun l _ => ?_
      have : ¬ (l : ℕ) = b := by have := l.2; omega
      simp [hW, this]
  have hb : bidiag i x * W = W * bidiag m x := by
    ext a b
    rw [hmul, hmul']
    have := a.2
    split
    · simp [bidiag, Fin.ext_iff]
    · rename_i hb
      have h1 : ¬ (a : ℕ) = b := by omega
      have h2 : ¬ (a : ℕ) = b + 1 := by omega
      simp [bidiag, Fin.ext_iff, h1, h2]
  have hint : (h • xiShift i x shift scale) * W = W * (h • xiShift m x shift scale) := by
    unfold xiShift
    simp only [Matrix.smul_mul, Matrix.add_mul, Matrix.one_mul, Matrix.mul_smul, Matrix.mul_add, Matrix.mul_one, hb]
  have hexp := exp_intertwine _ _ W hint
  have key := congrFun (congrFun hexp ⟨j, hj⟩) (⟨0, by omega⟩ : Fin m)
  rw [hmul, hmul', dif_pos (by simp; omega)] at key
  unfold lejaCoeffsExp firstCol
  rw [dif_pos (by omega), dif_pos hj]
  exact key.symm

/-- A confluent case: nodes `0, 0` and a nilpotent matrix. -/
example (shift scale h : ℝ) : aeval !![0, 1; 0, (0 : ℝ)]
      (newtonPoly (fun _ => 0) (lejaCoeffsExp (fun _ => NormedSpace.exp) 2 (fun _ => 0) shift scale h) 2) *ᵥ ![1, 2]
    = NormedSpace.exp (h • (shift • (1 : Matrix (Fin 2) (Fin 2) ℝ) + scale • !![0, 1; 0, (0 : ℝ)])) *ᵥ ![1, 2] :=
  C44_annihilated 2 (by norm_num) _ shift scale h _ _ (by
    have h0 : !![0, 1; 0, (0 : ℝ)] * !![0, 1; 0, (0 : ℝ)] = 0 := by
      ext i j; fin_cases i <;> fin_cases j <;> simp [Matrix.mul_apply, Fin.sum_univ_two]
    simp only [newtonBasis, Finset.prod_range_succ, Finset.prod_range_zero, map_zero, sub_zero, one_mul, map_mul, aeval_X, h0,
      Matrix.zero_mulVec])

end opitz
end Ormatex.Props
