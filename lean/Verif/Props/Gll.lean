import Verif.Model.Progression
import Mathlib.Analysis.SpecialFunctions.Integrals.Basic
import Mathlib.Tactic.IntervalCases
import Mathlib.Tactic.LinearCombination

/-!
C62: the Gauss-Lobatto quadrature tables.
-/

namespace Ormatex.Props
open Polynomial

/-- **Specification.** Value of the quadrature rule with nodes `X` and weights `W`. -/
noncomputable def quadSum (X W : List ℝ) (f : ℝ → ℝ) : ℝ := ((X.zip W).map fun p => p.2 * f p.1).sum

theorem quadSum_add (X W : List ℝ) (f g : ℝ → ℝ) : quadSum X W (fun x => f x + g x) = quadSum X W f + quadSum X W g := by
  unfold quadSum
  rw [← List.sum_map_add]
  congr 2
  funext p
  ring

theorem quadSum_smul (X W : List ℝ) (c : ℝ) (f : ℝ → ℝ) : quadSum X W (fun x => c * f x) = c * quadSum X W f := by
  unfold quadSum
  rw [← List.sum_map_mul_left]
  congr 2
  funext p
  ring

theorem quadSum_zero (X W : List ℝ) : quadSum X W (fun _ => 0) = 0 := by
  unfold quadSum
  simp

/-- exactness on the monomials up to degree `D` is exactness on all polynomials of degree `≤ D` -/
theorem quad_exact_of_moments (X W : List ℝ) (D : ℕ) (h : ∀ k ≤ D, quadSum X W (fun x => x ^ k) = 1 / (k + 1)) (p : ℝ[X])
    (hp : p.natDegree ≤ D) : quadSum X W (fun x => p.eval x) = ∫ x in (0 : ℝ)..1, p.eval x := by
  have e : ∀ x, p.eval x = ∑ k ∈ Finset.range (D + 1), p.coeff k * x ^ k := fun x =>
    Polynomial.eval_eq_sum_range' (Nat.lt_succ_of_le hp) x
  simp only [e]
  rw [intervalIntegral.integral_finsetSum (fun k _ => by
    apply Continuous.intervalIntegrable; fun_prop)]
  have key : ∀ m, quadSum X W (fun x => ∑ k ∈ Finset.range m, p.coeff k * x ^ k)
      = ∑ k ∈ Finset.range m, p.coeff k * quadSum X W (fun x => x ^ k) := by
    intro m
    induction m with
    | zero => simpa using quadSum_zero X W
    | succ m ih =>
      simp only [Finset.sum_range_succ]
      rw [quadSum_add, ih, quadSum_smul]
  rw [key]
  refine Finset.sum_congr rfl fun k hk => ?_
  rw [h k (by rw [Finset.mem_range] at hk; omega), intervalIntegral.integral_const_mul, integral_pow]
  simp

theorem gll_cases {pp : ℕ} {X W : List ℝ} (h : gllQuad pp = .ok (X, W)) :
    (pp = 2 ∧ X = [0, 1] ∧ W = [1 / 2, 1 / 2]) ∨ (pp = 3 ∧ X = [0, 1, 1 / 2] ∧ W = [1 / 6, 1 / 6, 2 / 3]) ∨
    (pp = 4 ∧ X = [0, 1, (1 + 1 / Real.sqrt 5) / 2, (1 - 1 / Real.sqrt 5) / 2] ∧ W = [1 / 12, 1 / 12, 5 / 12, 5 / 12]) ∨
    (pp = 5 ∧ X = [0, 1, 1 / 2, (1 + Real.sqrt (3 / 7)) / 2, (1 - Real.sqrt (3 / 7)) / 2] ∧
      W = [1 / 20, 1 / 20, 16 / 45, 49 / 180, 49 / 180]) := by
  unfold gllQuad at h
  unfold gllRaw at h
  split at h
  · cases h
  · rename_i X' W' hr
    split at hr
    all_goals cases hr
    all_goals cases h
    · left; refine ⟨rfl, ?_, ?_⟩ <;> norm_num [swap1Last]
    · right; left; refine ⟨rfl, ?_, ?_⟩ <;> norm_num [swap1Last]
    · right; right; left
      refine ⟨rfl, ?_, ?_⟩
      · simp [swap1Last]; ring
      · norm_num [swap1Last]
    · right; right; right
      refine ⟨rfl, ?_, ?_⟩
      · simp [swap1Last]; ring
      · norm_num [swap1Last]

/-- **C62, sizes.** Rules exist exactly for 2 to 5 points; any other size raises `KeyError`. -/
theorem C62_sizes (pp : ℕ) : (2 ≤ pp ∧ pp ≤ 5 → ∃ r, gllQuad pp = .ok r) ∧ (¬ (2 ≤ pp ∧ pp ≤ 5) → gllQuad pp = .error .key) := by
  constructor
  · rintro ⟨h1, h2⟩
    interval_cases pp <;> exact ⟨_, rfl⟩
  · intro h
    have : gllRaw pp = none := by
      unfold gllRaw
      split
      all_goals first | rfl | omega
    unfold gllQuad
    rw [this]

/-- **C62.** Every rule of the table has `pp` distinct nodes in `[0,1]` with the end points `0` and `1` in the first two slots,
`pp` positive weights, and integrates every polynomial of degree at most `2 pp - 3` exactly over `[0,1]`. -/
theorem C62_exact {pp : ℕ} {X W : List ℝ} (h : gllQuad pp = .ok (X, W)) :
    X.length = pp ∧ W.length = pp ∧ X.Nodup ∧ X[0]? = some 0 ∧ X[1]? = some 1 ∧ (∀ x ∈ X, 0 ≤ x ∧ x ≤ 1) ∧ (∀ w ∈ W, 0 < w) ∧
    ∀ p : ℝ[X], p.natDegree ≤ 2 * pp - 3 → quadSum X W (fun x => p.eval x) = ∫ x in (0 : ℝ)..1, p.eval x := by
  have s5 : Real.sqrt 5 * Real.sqrt 5 = 5 := Real.mul_self_sqrt (by norm_num)
  have p5 : 0 < Real.sqrt 5 := Real.sqrt_pos.2 (by norm_num)
  set t := 1 / Real.sqrt 5 with ht
  have ht2 : t ^ 2 = 1 / 5 := by rw [ht, div_pow, sq, sq, s5]; norm_num
  have ht0 : 0 < t := by positivity
  have ht1 : t < 1 := by nlinarith
  set r := Real.sqrt (3 / 7) with hr
  have hr2 : r ^ 2 = 3 / 7 := Real.sq_sqrt (by norm_num)
  have hr0 : 0 < r := Real.sqrt_pos.2 (by norm_num)
  have hr1 : r < 1 := by nlinarith
  clear_value t r
  rcases gll_cases h with ⟨rfl, rfl, rfl⟩ | ⟨rfl, rfl, rfl⟩ | ⟨rfl, rfl, rfl⟩ | ⟨rfl, rfl, rfl⟩
  · refine ⟨rfl, rfl, by norm_num, rfl, rfl, by norm_num, by norm_num, fun p hp => quad_exact_of_moments _ _ 1 ?_ p hp⟩
    intro k hk
    interval_cases k <;> norm_num [quadSum]
  · refine ⟨rfl, rfl, by norm_num, rfl, rfl, by norm_num, by norm_num, fun p hp => quad_exact_of_moments _ _ 3 ?_ p hp⟩
    intro k hk
    interval_cases k <;> norm_num [quadSum]
  · rw [← ht] at *
    refine ⟨rfl, rfl, ?_, rfl, rfl, ?_, by norm_num, fun p hp => quad_exact_of_moments _ _ 5 ?_ p hp⟩
    · simp only [List.nodup_cons, List.mem_cons, List.not_mem_nil, or_false, not_or, List.nodup_nil, not_false_eq_true, and_true]
      refine ⟨⟨?_, ?_, ?_⟩, ⟨?_, ?_⟩, ?_⟩ <;> intro h <;> nlinarith
    · intro x hx
      simp only [List.mem_cons, List.not_mem_nil, or_false] at hx
      rcases hx with rfl | rfl | rfl | rfl <;> constructor <;> linarith
    · intro k hk
      have ht4 : t ^ 4 = 1 / 25 := by rw [show t ^ 4 = (t ^ 2) ^ 2 by ring, ht2]; norm_num
      interval_cases k <;> norm_num [quadSum] <;> ring_nf <;> (try rw [ht2]) <;> (try rw [ht4]) <;> norm_num
  · rw [← hr] at *
    refine ⟨rfl, rfl, ?_, rfl, rfl, ?_, by norm_num, fun p hp => quad_exact_of_moments _ _ 7 ?_ p hp⟩
    · simp only [List.nodup_cons, List.mem_cons, List.not_mem_nil, or_false, not_or, List.nodup_nil, not_false_eq_true, and_true]
      refine ⟨⟨?_, ?_, ?_, ?_⟩, ⟨?_, ?_, ?_⟩, ⟨?_, ?_⟩, ?_⟩ <;> intro h <;> nlinarith
    · intro x hx
      simp only [List.mem_cons, List.not_mem_nil, or_false] at hx
      rcases hx with rfl | rfl | rfl | rfl | rfl <;> constructor <;> linarith
    · intro k hk
      have hr4 : r ^ 4 = 9 / 49 := by rw [show r ^ 4 = (r ^ 2) ^ 2 by ring, hr2]; norm_num
      have hr6 : r ^ 6 = 27 / 343 := by rw [show r ^ 6 = (r ^ 2) ^ 3 by ring, hr2]; norm_num
      interval_cases k <;> norm_num [quadSum] <;> ring_nf <;> (try rw [hr2]) <;> (try rw [hr4]) <;> (try rw [hr6]) <;> norm_num

/-- **C62, the degree is sharp:** the two-point (trapezoidal) rule is not exact on `x²`. -/
theorem C62_sharp : ∃ X W, gllQuad 2 = .ok (X, W) ∧ quadSum X W (fun x => (Polynomial.X ^ 2 : ℝ[X]).eval x)
    ≠ ∫ x in (0 : ℝ)..1, (Polynomial.X ^ 2 : ℝ[X]).eval x := by
  refine ⟨_, _, rfl, ?_⟩
  simp [quadSum, swap1Last, integral_pow]

end Ormatex.Props
