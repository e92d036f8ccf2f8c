import Verif.Props.BatemanFlow
import Mathlib.LinearAlgebra.Lagrange

/-!
C57: the analytic solution of a linear decay chain.
-/

namespace Ormatex.Props
open Matrix Ormatex.Spec

section
variable {d : ℕ}

theorem foldl_mul_prod (f : ℕ → ℝ) (n : ℕ) (a : ℝ) :
    (List.range n).foldl (fun p i => p * f i) a = a * ∏ i ∈ Finset.range n, f i := by
  induction n with
  | zero => simp
  | succ n ih => rw [List.range_succ, List.foldl_append, ih]; simp [Finset.prod_range_succ, mul_assoc]

theorem foldl_add_sum (f : ℕ → ℝ) (n : ℕ) (a : ℝ) :
    (List.range n).foldl (fun p i => p + f i) a = a + ∑ i ∈ Finset.range n, f i := by
  induction n with
  | zero => simp
  | succ n ih => rw [List.range_succ, List.foldl_append, ih]; simp [Finset.sum_range_succ, add_assoc]

theorem lmbdProd_eq (l : ℕ → ℝ) (k : ℕ) : lmbdProd l (k + 1) = ∏ i ∈ Finset.range k, l i := by
  rw [lmbdProd, Nat.add_sub_cancel, foldl_mul_prod, one_mul]

theorem prodL_eq (l : ℕ → ℝ) (n i : ℕ) : prodL l n i = ∏ j ∈ (Finset.range n).erase i, (l j - l i) := by
  have h : (fun (p : ℝ) (j : ℕ) => if j = i then p else p * (l j - l i)) =
      fun p j => p * (if j = i then 1 else l j - l i) := by
    funext p j
    split <;> simp
  rw [prodL, h, foldl_mul_prod, one_mul]
  by_cases hi : i ∈ Finset.range n
  · rw [← Finset.mul_prod_erase _ _ hi, if_pos rfl, one_mul]
    exact Finset.prod_congr rfl fun j hj => if_neg (Finset.ne_of_mem_erase hj)
  · rw [Finset.erase_eq_of_notMem hi]
    exact Finset.prod_congr rfl fun j hj => if_neg (by rintro rfl; exact hi hj)

theorem sumK_eq (l : ℕ → ℝ) (n : ℕ) (t : ℝ) :
    sumK l n t = ∑ i ∈ Finset.range n, Real.exp (-l i * t) / prodL l n i := by
  rw [sumK, foldl_add_sum, zero_add]

theorem prodL_ne_zero {l : ℕ → ℝ} {n i : ℕ} (hl : ∀ a < n, ∀ b < n, l a = l b → a = b) (hi : i < n) : prodL l n i ≠ 0 := by
  rw [prodL_eq]
  refine Finset.prod_ne_zero_iff.2 fun j hj h => ?_
  exact (Finset.ne_of_mem_erase hj) (hl j (Finset.mem_range.1 (Finset.mem_of_mem_erase hj)) i hi (sub_eq_zero.1 h))

theorem prodL_succ (l : ℕ → ℝ) {n i : ℕ} (hi : i < n) : prodL l (n + 1) i = prodL l n i * (l n - l i) := by
  unfold prodL
  rw [List.range_succ, List.foldl_append]
  simp [Nat.ne_of_gt hi]

/-- `sum_k 1 / prod_l (l_l - l_k)` is one for a single species and zero for longer chains -/
theorem sum_inv_prodL {l : ℕ → ℝ} {k : ℕ} (hl : ∀ a < k + 1, ∀ b < k + 1, l a = l b → a = b) :
    ∑ i ∈ Finset.range (k + 1), 1 / prodL l (k + 1) i = if k = 0 then 1 else 0 := by
  have h := Lagrange.coeff_eq_sum (s := Finset.range (k + 1)) (v := fun i => - l i) (P := (1 : Polynomial ℝ))
    (fun a ha b hb hab => hl a (Finset.mem_range.1 ha) b (Finset.mem_range.1 hb) (neg_injective hab))
    (by rw [Polynomial.degree_one, Finset.card_range]; exact_mod_cast Nat.succ_pos k)
  rw [Finset.card_range, Nat.add_sub_cancel, Polynomial.coeff_one] at h
  rw [h]
  refine Finset.sum_congr rfl fun i _ => ?_
  rw [prodL_eq, Polynomial.eval_one]
  congr 1
  exact Finset.prod_congr rfl fun j _ => by ring

theorem sumK_deriv (l : ℕ → ℝ) (n : ℕ) (t : ℝ) :
    HasDerivAt (sumK l n) (∑ i ∈ Finset.range n, (-l i) * (Real.exp (-l i * t) / prodL l n i)) t := by
  have he : sumK l n = fun t => ∑ i ∈ Finset.range n, Real.exp (-l i * t) / prodL l n i := funext (sumK_eq l n)
  rw [he]
  refine HasDerivAt.fun_sum fun i _ => ?_
  have h : HasDerivAt (fun t : ℝ => Real.exp (-l i * t)) (Real.exp (-l i * t) * (-l i * 1)) t :=
    ((hasDerivAt_id t).const_mul (-l i)).exp
  refine (h.div_const _).congr_deriv ?_
  ring

/-- recurrence of the sums -/
theorem sumK_step {l : ℕ → ℝ} {k : ℕ} (hl : ∀ a < k + 2, ∀ b < k + 2, l a = l b → a = b) (t : ℝ) :
    ∑ i ∈ Finset.range (k + 2), (-l i) * (Real.exp (-l i * t) / prodL l (k + 2) i)
      = - l (k + 1) * sumK l (k + 2) t + sumK l (k + 1) t := by
  rw [sumK_eq, sumK_eq, Finset.sum_range_succ, Finset.sum_range_succ (n := k + 1)
    (f := fun i => Real.exp (-l i * t) / prodL l (k + 2) i), mul_add, Finset.mul_sum]
  have : ∀ i ∈ Finset.range (k + 1), (-l i) * (Real.exp (-l i * t) / prodL l (k + 2) i)
      = - l (k + 1) * (Real.exp (-l i * t) / prodL l (k + 2) i) + Real.exp (-l i * t) / prodL l (k + 1) i := by
    intro i hi
    have hi' := Finset.mem_range.1 hi
    have h1 : prodL l (k + 1) i ≠ 0 := prodL_ne_zero (fun a ha b hb => hl a (by omega) b (by omega)) hi'
    have h2 : l (k + 1) - l i ≠ 0 := fun h => by
      have := hl (k + 1) (by omega) i (by omega) (sub_eq_zero.1 h)
      omega
    rw [prodL_succ l hi']
    field_simp
    ring
  rw [Finset.sum_congr rfl this, Finset.sum_add_distrib]
  ring

/-- **Specification.** `M` is the matrix of the linear chain `0 → 1 → ... → d-1 →` with decay constants `l`. -/
def IsChain (M : Mat d) (l : Fin d → ℝ) : Prop :=
  ∀ i j : Fin d, M i j = if i = j then - l i else if i.val = j.val + 1 then l j else 0

/-- **C57.** For every linear decay chain with pairwise distinct decay constants (of any sign), every number of species, every
time and initial amount, the function does not fail, and its result, as a function of time, is the solution of
`N' = M N` with `N(0) = (n0, 0, ..., 0)`. -/
theorem C57 {M : Mat d} {l : Fin d → ℝ} (hM : IsChain M l) (hl : Function.Injective l) (n0 : ℝ) :
    ∃ N : ℝ → Vec d, (∀ t, analyticBateman t M n0 = .ok (N t)) ∧ (∀ t, HasDerivAt N (M *ᵥ N t) t) ∧
      ∀ i, N 0 i = if i.val = 0 then n0 else 0 := by
  obtain ⟨L, hL⟩ : ∃ L : ℕ → ℝ, L = fun i => -1.0 * (if h : i < d then M ⟨i, h⟩ ⟨i, h⟩ else 0) := ⟨_, rfl⟩
  have h1 : (-1.0 : ℝ) = -1 := by norm_num
  have hLi : ∀ i : Fin d, L i.val = l i := by
    intro i
    have e : M ⟨i.val, i.isLt⟩ ⟨i.val, i.isLt⟩ = - l i := by rw [hM, if_pos rfl]
    rw [hL]
    simp only [i.isLt, dif_pos, e]
    rw [h1]
    ring
  have hinj : ∀ a < d, ∀ b < d, L a = L b → a = b := by
    intro a ha b hb hab
    have := hl (((hLi ⟨a, ha⟩).symm.trans hab).trans (hLi ⟨b, hb⟩))
    simpa using this
  refine ⟨fun t k => n0 * lmbdProd L (k.val + 1) * sumK L (k.val + 1) t, fun t => ?_, fun t => ?_, fun i => ?_⟩
  · unfold analyticBateman
    simp only
    rw [if_pos, hL]
    intro p hp
    obtain ⟨i, hi, rfl⟩ := List.mem_map.1 hp
    have hid : i + 1 < d := by have := List.mem_range.1 hi; omega
    have e1 : M ⟨i + 1, hid⟩ ⟨i, by omega⟩ = l ⟨i, by omega⟩ := by
      rw [hM, if_neg (fun e => by simpa using congrArg Fin.val e), if_pos rfl]
    have e2 : M ⟨i, by omega⟩ ⟨i, by omega⟩ = - l ⟨i, by omega⟩ := by rw [hM, if_pos rfl]
    simp only [hid, dif_pos, show i < d by omega, e1, e2]
    rw [h1, neg_one_mul, neg_neg, sub_self, abs_zero]
    exact add_nonneg (by norm_num) (mul_nonneg (by norm_num) (abs_nonneg _))
  · rw [hasDerivAt_pi]
    intro k
    refine ((sumK_deriv L (k.val + 1) t).const_mul (n0 * lmbdProd L (k.val + 1))).congr_deriv ?_
    rw [Matrix.mulVec, dotProduct]
    rcases hk : k.val with _ | k'
    · have hsum : ∀ j ∈ Finset.univ, j ≠ k → M k j * (n0 * lmbdProd L (j.val + 1) * sumK L (j.val + 1) t) = 0 := by
        intro j _ hjk
        rw [hM, if_neg (fun e => hjk e.symm), if_neg (by omega), zero_mul]
      rw [Finset.sum_eq_single k hsum (by simp), hM, if_pos rfl, hk, zero_add, sumK_eq, Finset.sum_range_one,
        Finset.sum_range_one, ← hLi k, hk]
      ring
    · have hk'd : k' < d := by have := k.isLt; omega
      have hsum : ∀ j ∈ Finset.univ, j ≠ k ∧ j ≠ ⟨k', hk'd⟩ →
          M k j * (n0 * lmbdProd L (j.val + 1) * sumK L (j.val + 1) t) = 0 := by
        rintro j - ⟨h1, h2⟩
        rw [hM, if_neg (fun e => h1 e.symm), if_neg, zero_mul]
        intro e
        exact h2 (Fin.ext (by simp only; omega))
      have hne : k ≠ ⟨k', hk'd⟩ := fun e => by
        have := congrArg Fin.val e
        simp only at this
        omega
      rw [Finset.sum_eq_add_of_mem k ⟨k', hk'd⟩ (Finset.mem_univ _) (Finset.mem_univ _) hne hsum]
      rw [hM, if_pos rfl, hM, if_neg hne, if_pos hk, ← hLi k, ← hLi ⟨k', hk'd⟩]
      simp only [hk]
      rw [show k' + 1 + 1 = k' + 2 from rfl, sumK_step (fun a ha b hb => hinj a (by have := k.isLt; omega) b (by have := k.isLt; omega)) t,
        lmbdProd_eq, show k' + 2 = (k' + 1) + 1 from rfl, lmbdProd_eq, Finset.prod_range_succ]
      ring
  · have hs := sum_inv_prodL (l := L) (k := i.val) (fun a ha b hb => hinj a (by have := i.isLt; omega) b (by have := i.isLt; omega))
    simp only [sumK_eq, mul_zero, Real.exp_zero, hs, lmbdProd_eq]
    split
    · rename_i h; simp [h]
    · simp

/-- **C57, closed form.** It equals the exponential of the chain matrix applied to the initial state. -/
theorem C57_exp {M : Mat d} {l : Fin d → ℝ} (hM : IsChain M l) (hl : Function.Injective l) (n0 t : ℝ) :
    analyticBateman t M n0 = .ok (NormedSpace.exp (t • M) *ᵥ fun i => if i.val = 0 then n0 else 0) := by
  obtain ⟨N, h1, h2, h3⟩ := C57 hM hl n0
  have hS : Solves M 0 0 N := fun s => (h2 s).congr_deriv (by simp)
  have := homogeneous_flow hS 0 t
  rw [zero_add] at this
  rw [h1, ← this, show N 0 = _ from funext h3]
  congr 2
  rw [phiM_zero]

/-- **C57, limits of the check.** The function only compares the subdiagonal with the diagonal (to a relative tolerance): it
accepts any matrix with these two diagonals and never looks at the other entries, so side branches are silently
ignored. -/
theorem C57_offchain_ignored {M M' : Mat d} (hd : ∀ i, M i i = M' i i)
    (hs : ∀ i j : Fin d, i.val = j.val + 1 → M i j = M' i j) (n0 t : ℝ) :
    analyticBateman t M n0 = analyticBateman t M' n0 := by
  have e1 : (fun i => if h : i < d then M ⟨i, h⟩ ⟨i, h⟩ else 0) = fun i => if h : i < d then M' ⟨i, h⟩ ⟨i, h⟩ else 0 := by
    funext i; split <;> simp [hd]
  have e2 : (fun i => if h : i + 1 < d then M ⟨i + 1, h⟩ ⟨i, by omega⟩ else 0) =
      fun i => if h : i + 1 < d then M' ⟨i + 1, h⟩ ⟨i, by omega⟩ else 0 := by
    funext i
    split
    · rw [hs _ _ rfl]
    · rfl
  unfold analyticBateman
  rw [e1, e2]

/-- Non-vacuity: the three-species chain of `analytic_bateman_s3` (bateman_sys.py:179-184). -/
example : IsChain (!![-(1/10), 0, 0; 1/10, -10, 0; 0, 10, -(1/1000)] : Mat 3) ![1/10, 10, 1/1000] ∧
    Function.Injective (![1/10, 10, 1/1000] : Fin 3 → ℝ) := by
  constructor
  · intro i j
    fin_cases i <;> fin_cases j <;> simp
  · intro i j h
    fin_cases i <;> fin_cases j <;> first | rfl | (exfalso; revert h; norm_num)

end
end Ormatex.Props
