import Verif.Props.CramRun

/-!
C101: what the partial-fraction products do on the zero operator (an equilibrium), for every shipped table.
-/

namespace Ormatex.Props
open Matrix Ormatex.Spec Ormatex.Props.Cert
open scoped Classical

variable {n : ℕ}

/-! ### specification -/

/-- **Specification.** A table with bounds for its error at the zero operator: of the exponential and of `phi_1` (both are the identity there). -/
structure ZeroRow where
  method : String
  e0 : ℝ
  e1 : ℝ

/-- **Specification.** The bounds, one row per shipped table. -/
noncomputable def zeroBounds : List ZeroRow := [
  ⟨"IE", 1e-15, 1e-15⟩,
  ⟨"CN", 1e-15, 1e-15⟩,
  ⟨"2", 44e-2, 50e-4⟩,
  ⟨"3", 57e-2, 47e-5⟩,
  ⟨"6", 24e-2, 13e-4⟩,
  ⟨"7", 52e-2, 58e-6⟩,
  ⟨"9", 42e-2, 25e-6⟩,
  ⟨"12", 53e-2, 28e-6⟩,
  ⟨"cram_2", 75e-4, 16e-2⟩,
  ⟨"cram_4", 88e-6, 33e-4⟩,
  ⟨"cram_6", 12e-7, 54e-6⟩,
  ⟨"cram_8", 13e-9, 81e-8⟩,
  ⟨"cram_10", 15e-11, 13e-9⟩,
  ⟨"cram_12", 17e-13, 17e-11⟩,
  ⟨"cram_14", 41e-15, 23e-13⟩,
  ⟨"cram_16", 1e-15, 30e-15⟩,
  ⟨"pade_2_2", 12e-15, 61e-16⟩,
  ⟨"pade_4_4", 97e-15, 16e-15⟩,
  ⟨"pade_6_6", 22e-12, 27e-13⟩,
  ⟨"pade_8_8", 14e-10, 13e-11⟩,
  ⟨"pade_10_10", 77e-8, 66e-9⟩,
  ⟨"pade_12_12", 27e-5, 20e-6⟩,
  ⟨"pade_14_14", 13e-3, 58e-5⟩,
  ⟨"pade_16_16", 18e0, 86e-2⟩,
  ⟨"pade_1_2", 26e-16, 1e-15⟩,
  ⟨"pade_3_4", 69e-15, 19e-15⟩,
  ⟨"pade_5_6", 21e-13, 25e-14⟩,
  ⟨"pade_7_8", 52e-12, 94e-13⟩,
  ⟨"pade_9_10", 92e-8, 75e-9⟩,
  ⟨"pade_11_12", 50e-6, 30e-7⟩,
  ⟨"pade_13_14", 27e-4, 20e-5⟩,
  ⟨"pade_15_16", 66e-1, 37e-2⟩,
  ⟨"pade_0_2", 1e-15, 1e-15⟩,
  ⟨"pade_2_4", 33e-15, 73e-16⟩,
  ⟨"pade_4_6", 57e-13, 84e-14⟩,
  ⟨"pade_6_8", 18e-10, 20e-11⟩,
  ⟨"pade_8_10", 40e-10, 50e-11⟩,
  ⟨"pade_10_12", 12e-6, 12e-7⟩,
  ⟨"pade_12_14", 28e-4, 20e-5⟩,
  ⟨"pade_14_16", 98e-2, 51e-3⟩,
  ⟨"pade_0_4", 93e-16, 73e-16⟩,
  ⟨"pade_0_6", 23e-15, 63e-16⟩,
  ⟨"pade_0_8", 35e-15, 98e-16⟩,
  ⟨"pade_0_10", 15e-14, 34e-15⟩,
  ⟨"pade_0_12", 59e-14, 14e-14⟩,
  ⟨"pade_0_14", 17e-13, 24e-14⟩,
  ⟨"pade_0_16", 23e-13, 43e-14⟩]

/-! ### evaluation at zero -/

theorem zterm0 (x y a b : ℝ) : (2 * (⟨a, b⟩ : ℂ) / (⟨x, y⟩ : ℂ) ^ 0 / (((0 : ℝ) : ℂ) - (⟨x, y⟩ : ℂ))).re
    = -(2 * (a * x + b * y) / (x * x + y * y)) := by
  rw [pow_zero, div_one, Complex.ofReal_zero, zero_sub, div_neg, Complex.neg_re, Complex.div_re]
  simp only [Complex.mul_re, Complex.mul_im, Complex.re_ofNat, Complex.im_ofNat, Complex.normSq_mk]
  ring

theorem zterm1 (x y a b : ℝ) : (2 * (⟨a, b⟩ : ℂ) / (⟨x, y⟩ : ℂ) ^ 1 / (((0 : ℝ) : ℂ) - (⟨x, y⟩ : ℂ))).re
    = -(2 * (a * (x * x - y * y) + 2 * b * x * y) / ((x * x + y * y) * (x * x + y * y))) := by
  rw [pow_one, Complex.ofReal_zero, zero_sub, div_neg, Complex.neg_re, Complex.div_re, Complex.div_re, Complex.div_im]
  simp only [Complex.mul_re, Complex.mul_im, Complex.re_ofNat, Complex.im_ofNat, Complex.normSq_mk]
  by_cases h : x * x + y * y = 0
  · simp [h]
  field_simp
  ring

theorem pne_of {x y : ℝ} (h : x ≠ 0) : (⟨x, y⟩ : ℂ) ≠ 0 := fun h' => h (congrArg Complex.re h')

theorem zero_IE : (∀ p ∈ pfd_IE.poles, p ≠ 0) ∧ |pfdScalar pfd_IE 0 0 - 1| ≤ 1e-15 ∧ |pfdScalar pfd_IE 1 0 - 1| ≤ 1e-15 := by
  refine ⟨?_, ?_, ?_⟩
  · simp only [pfd_IE, List.forall_mem_cons, List.not_mem_nil, false_imp_iff, implies_true, and_true]
    exact pne_of (by norm_num)
  · simp only [pfdScalar, pfd_IE, List.zip_cons_cons, List.zip_nil_left, List.map_cons, List.map_nil, List.sum_cons, List.sum_nil, zterm0, if_true]
    rw [abs_le]; norm_num
  · simp only [pfdScalar, pfd_IE, List.zip_cons_cons, List.zip_nil_left, List.map_cons, List.map_nil, List.sum_cons, List.sum_nil, zterm1, one_ne_zero, if_false]
    rw [abs_le]; norm_num

theorem zero_CN : (∀ p ∈ pfd_CN.poles, p ≠ 0) ∧ |pfdScalar pfd_CN 0 0 - 1| ≤ 1e-15 ∧ |pfdScalar pfd_CN 1 0 - 1| ≤ 1e-15 := by
  refine ⟨?_, ?_, ?_⟩
  · simp only [pfd_CN, List.forall_mem_cons, List.not_mem_nil, false_imp_iff, implies_true, and_true]
    exact pne_of (by norm_num)
  · simp only [pfdScalar, pfd_CN, List.zip_cons_cons, List.zip_nil_left, List.map_cons, List.map_nil, List.sum_cons, List.sum_nil, zterm0, if_true]
    rw [abs_le]; norm_num
  · simp only [pfdScalar, pfd_CN, List.zip_cons_cons, List.zip_nil_left, List.map_cons, List.map_nil, List.sum_cons, List.sum_nil, zterm1, one_ne_zero, if_false]
    rw [abs_le]; norm_num

theorem zero_2 : (∀ p ∈ pfd_2.poles, p ≠ 0) ∧ |pfdScalar pfd_2 0 0 - 1| ≤ 44e-2 ∧ |pfdScalar pfd_2 1 0 - 1| ≤ 50e-4 := by
  refine ⟨?_, ?_, ?_⟩
  · simp only [pfd_2, List.forall_mem_cons, List.not_mem_nil, false_imp_iff, implies_true, and_true]
    refine ⟨?_, ?_⟩ <;> exact pne_of (by norm_num)
  · simp only [pfdScalar, pfd_2, List.zip_cons_cons, List.zip_nil_left, List.map_cons, List.map_nil, List.sum_cons, List.sum_nil, zterm0, if_true]
    rw [abs_le]; norm_num
  · simp only [pfdScalar, pfd_2, List.zip_cons_cons, List.zip_nil_left, List.map_cons, List.map_nil, List.sum_cons, List.sum_nil, zterm1, one_ne_zero, if_false]
    rw [abs_le]; norm_num

theorem zero_3 : (∀ p ∈ pfd_3.poles, p ≠ 0) ∧ |pfdScalar pfd_3 0 0 - 1| ≤ 57e-2 ∧ |pfdScalar pfd_3 1 0 - 1| ≤ 47e-5 := by
  refine ⟨?_, ?_, ?_⟩
  · simp only [pfd_3, List.forall_mem_cons, List.not_mem_nil, false_imp_iff, implies_true, and_true]
    refine ⟨?_, ?_, ?_⟩ <;> exact pne_of (by norm_num)
  · simp only [pfdScalar, pfd_3, List.zip_cons_cons, List.zip_nil_left, List.map_cons, List.map_nil, List.sum_cons, List.sum_nil, zterm0, if_true]
    rw [abs_le]; norm_num
  · simp only [pfdScalar, pfd_3, List.zip_cons_cons, List.zip_nil_left, List.map_cons, List.map_nil, List.sum_cons, List.sum_nil, zterm1, one_ne_zero, if_false]
    rw [abs_le]; norm_num

theorem zero_6 : (∀ p ∈ pfd_6.poles, p ≠ 0) ∧ |pfdScalar pfd_6 0 0 - 1| ≤ 24e-2 ∧ |pfdScalar pfd_6 1 0 - 1| ≤ 13e-4 := by
  refine ⟨?_, ?_, ?_⟩
  · simp only [pfd_6, List.forall_mem_cons, List.not_mem_nil, false_imp_iff, implies_true, and_true]
    refine ⟨?_, ?_, ?_, ?_, ?_, ?_⟩ <;> exact pne_of (by norm_num)
  · simp only [pfdScalar, pfd_6, List.zip_cons_cons, List.zip_nil_left, List.map_cons, List.map_nil, List.sum_cons, List.sum_nil, zterm0, if_true]
    rw [abs_le]; norm_num
  · simp only [pfdScalar, pfd_6, List.zip_cons_cons, List.zip_nil_left, List.map_cons, List.map_nil, List.sum_cons, List.sum_nil, zterm1, one_ne_zero, if_false]
    rw [abs_le]; norm_num

theorem zero_7 : (∀ p ∈ pfd_7.poles, p ≠ 0) ∧ |pfdScalar pfd_7 0 0 - 1| ≤ 52e-2 ∧ |pfdScalar pfd_7 1 0 - 1| ≤ 58e-6 := by
  refine ⟨?_, ?_, ?_⟩
  · simp only [pfd_7, List.forall_mem_cons, List.not_mem_nil, false_imp_iff, implies_true, and_true]
    refine ⟨?_, ?_, ?_, ?_, ?_, ?_, ?_⟩ <;> exact pne_of (by norm_num)
  · simp only [pfdScalar, pfd_7, List.zip_cons_cons, List.zip_nil_left, List.map_cons, List.map_nil, List.sum_cons, List.sum_nil, zterm0, if_true]
    rw [abs_le]; norm_num
  · simp only [pfdScalar, pfd_7, List.zip_cons_cons, List.zip_nil_left, List.map_cons, List.map_nil, List.sum_cons, List.sum_nil, zterm1, one_ne_zero, if_false]
    rw [abs_le]; norm_num

theorem zero_9 : (∀ p ∈ pfd_9.poles, p ≠ 0) ∧ |pfdScalar pfd_9 0 0 - 1| ≤ 42e-2 ∧ |pfdScalar pfd_9 1 0 - 1| ≤ 25e-6 := by
  refine ⟨?_, ?_, ?_⟩
  · simp only [pfd_9, List.forall_mem_cons, List.not_mem_nil, false_imp_iff, implies_true, and_true]
    refine ⟨?_, ?_, ?_, ?_, ?_, ?_, ?_, ?_, ?_⟩ <;> exact pne_of (by norm_num)
  · simp only [pfdScalar, pfd_9, List.zip_cons_cons, List.zip_nil_left, List.map_cons, List.map_nil, List.sum_cons, List.sum_nil, zterm0, if_true]
    rw [abs_le]; norm_num
  · simp only [pfdScalar, pfd_9, List.zip_cons_cons, List.zip_nil_left, List.map_cons, List.map_nil, List.sum_cons, List.sum_nil, zterm1, one_ne_zero, if_false]
    rw [abs_le]; norm_num

theorem zero_12 : (∀ p ∈ pfd_12.poles, p ≠ 0) ∧ |pfdScalar pfd_12 0 0 - 1| ≤ 53e-2 ∧ |pfdScalar pfd_12 1 0 - 1| ≤ 28e-6 := by
  refine ⟨?_, ?_, ?_⟩
  · simp only [pfd_12, List.forall_mem_cons, List.not_mem_nil, false_imp_iff, implies_true, and_true]
    refine ⟨?_, ?_, ?_, ?_, ?_, ?_, ?_, ?_, ?_, ?_, ?_, ?_⟩ <;> exact pne_of (by norm_num)
  · simp only [pfdScalar, pfd_12, List.zip_cons_cons, List.zip_nil_left, List.map_cons, List.map_nil, List.sum_cons, List.sum_nil, zterm0, if_true]
    rw [abs_le]; norm_num
  · simp only [pfdScalar, pfd_12, List.zip_cons_cons, List.zip_nil_left, List.map_cons, List.map_nil, List.sum_cons, List.sum_nil, zterm1, one_ne_zero, if_false]
    rw [abs_le]; norm_num

theorem zero_cram_2 : (∀ p ∈ pfd_cram_2.poles, p ≠ 0) ∧ |pfdScalar pfd_cram_2 0 0 - 1| ≤ 75e-4 ∧ |pfdScalar pfd_cram_2 1 0 - 1| ≤ 16e-2 := by
  refine ⟨?_, ?_, ?_⟩
  · simp only [pfd_cram_2, List.forall_mem_cons, List.not_mem_nil, false_imp_iff, implies_true, and_true]
    exact pne_of (by norm_num)
  · simp only [pfdScalar, pfd_cram_2, List.zip_cons_cons, List.zip_nil_left, List.map_cons, List.map_nil, List.sum_cons, List.sum_nil, zterm0, if_true]
    rw [abs_le]; norm_num
  · simp only [pfdScalar, pfd_cram_2, List.zip_cons_cons, List.zip_nil_left, List.map_cons, List.map_nil, List.sum_cons, List.sum_nil, zterm1, one_ne_zero, if_false]
    rw [abs_le]; norm_num

theorem zero_cram_4 : (∀ p ∈ pfd_cram_4.poles, p ≠ 0) ∧ |pfdScalar pfd_cram_4 0 0 - 1| ≤ 88e-6 ∧ |pfdScalar pfd_cram_4 1 0 - 1| ≤ 33e-4 := by
  refine ⟨?_, ?_, ?_⟩
  · simp only [pfd_cram_4, List.forall_mem_cons, List.not_mem_nil, false_imp_iff, implies_true, and_true]
    refine ⟨?_, ?_⟩ <;> exact pne_of (by norm_num)
  · simp only [pfdScalar, pfd_cram_4, List.zip_cons_cons, List.zip_nil_left, List.map_cons, List.map_nil, List.sum_cons, List.sum_nil, zterm0, if_true]
    rw [abs_le]; norm_num
  · simp only [pfdScalar, pfd_cram_4, List.zip_cons_cons, List.zip_nil_left, List.map_cons, List.map_nil, List.sum_cons, List.sum_nil, zterm1, one_ne_zero, if_false]
    rw [abs_le]; norm_num

theorem zero_cram_6 : (∀ p ∈ pfd_cram_6.poles, p ≠ 0) ∧ |pfdScalar pfd_cram_6 0 0 - 1| ≤ 12e-7 ∧ |pfdScalar pfd_cram_6 1 0 - 1| ≤ 54e-6 := by
  refine ⟨?_, ?_, ?_⟩
  · simp only [pfd_cram_6, List.forall_mem_cons, List.not_mem_nil, false_imp_iff, implies_true, and_true]
    refine ⟨?_, ?_, ?_⟩ <;> exact pne_of (by norm_num)
  · simp only [pfdScalar, pfd_cram_6, List.zip_cons_cons, List.zip_nil_left, List.map_cons, List.map_nil, List.sum_cons, List.sum_nil, zterm0, if_true]
    rw [abs_le]; norm_num
  · simp only [pfdScalar, pfd_cram_6, List.zip_cons_cons, List.zip_nil_left, List.map_cons, List.map_nil, List.sum_cons, List.sum_nil, zterm1, one_ne_zero, if_false]
    rw [abs_le]; norm_num

theorem zero_cram_8 : (∀ p ∈ pfd_cram_8.poles, p ≠ 0) ∧ |pfdScalar pfd_cram_8 0 0 - 1| ≤ 13e-9 ∧ |pfdScalar pfd_cram_8 1 0 - 1| ≤ 81e-8 := by
  refine ⟨?_, ?_, ?_⟩
  · simp only [pfd_cram_8, List.forall_mem_cons, List.not_mem_nil, false_imp_iff, implies_true, and_true]
    refine ⟨?_, ?_, ?_, ?_⟩ <;> exact pne_of (by norm_num)
  · simp only [pfdScalar, pfd_cram_8, List.zip_cons_cons, List.zip_nil_left, List.map_cons, List.map_nil, List.sum_cons, List.sum_nil, zterm0, if_true]
    rw [abs_le]; norm_num
  · simp only [pfdScalar, pfd_cram_8, List.zip_cons_cons, List.zip_nil_left, List.map_cons, List.map_nil, List.sum_cons, List.sum_nil, zterm1, one_ne_zero, if_false]
    rw [abs_le]; norm_num

theorem zero_cram_10 : (∀ p ∈ pfd_cram_10.poles, p ≠ 0) ∧ |pfdScalar pfd_cram_10 0 0 - 1| ≤ 15e-11 ∧ |pfdScalar pfd_cram_10 1 0 - 1| ≤ 13e-9 := by
  refine ⟨?_, ?_, ?_⟩
  · simp only [pfd_cram_10, List.forall_mem_cons, List.not_mem_nil, false_imp_iff, implies_true, and_true]
    refine ⟨?_, ?_, ?_, ?_, ?_⟩ <;> exact pne_of (by norm_num)
  · simp only [pfdScalar, pfd_cram_10, List.zip_cons_cons, List.zip_nil_left, List.map_cons, List.map_nil, List.sum_cons, List.sum_nil, zterm0, if_true]
    rw [abs_le]; norm_num
  · simp only [pfdScalar, pfd_cram_10, List.zip_cons_cons, List.zip_nil_left, List.map_cons, List.map_nil, List.sum_cons, List.sum_nil, zterm1, one_ne_zero, if_false]
    rw [abs_le]; norm_num

theorem zero_cram_12 : (∀ p ∈ pfd_cram_12.poles, p ≠ 0) ∧ |pfdScalar pfd_cram_12 0 0 - 1| ≤ 17e-13 ∧ |pfdScalar pfd_cram_12 1 0 - 1| ≤ 17e-11 := by
  refine ⟨?_, ?_, ?_⟩
  · simp only [pfd_cram_12, List.forall_mem_cons, List.not_mem_nil, false_imp_iff, implies_true, and_true]
    refine ⟨?_, ?_, ?_, ?_, ?_, ?_⟩ <;> exact pne_of (by norm_num)
  · simp only [pfdScalar, pfd_cram_12, List.zip_cons_cons, List.zip_nil_left, List.map_cons, List.map_nil, List.sum_cons, List.sum_nil, zterm0, if_true]
    rw [abs_le]; norm_num
  · simp only [pfdScalar, pfd_cram_12, List.zip_cons_cons, List.zip_nil_left, List.map_cons, List.map_nil, List.sum_cons, List.sum_nil, zterm1, one_ne_zero, if_false]
    rw [abs_le]; norm_num

theorem zero_cram_14 : (∀ p ∈ pfd_cram_14.poles, p ≠ 0) ∧ |pfdScalar pfd_cram_14 0 0 - 1| ≤ 41e-15 ∧ |pfdScalar pfd_cram_14 1 0 - 1| ≤ 23e-13 := by
  refine ⟨?_, ?_, ?_⟩
  · simp only [pfd_cram_14, List.forall_mem_cons, List.not_mem_nil, false_imp_iff, implies_true, and_true]
    refine ⟨?_, ?_, ?_, ?_, ?_, ?_, ?_⟩ <;> exact pne_of (by norm_num)
  · simp only [pfdScalar, pfd_cram_14, List.zip_cons_cons, List.zip_nil_left, List.map_cons, List.map_nil, List.sum_cons, List.sum_nil, zterm0, if_true]
    rw [abs_le]; norm_num
  · simp only [pfdScalar, pfd_cram_14, List.zip_cons_cons, List.zip_nil_left, List.map_cons, List.map_nil, List.sum_cons, List.sum_nil, zterm1, one_ne_zero, if_false]
    rw [abs_le]; norm_num

theorem zero_cram_16 : (∀ p ∈ pfd_cram_16.poles, p ≠ 0) ∧ |pfdScalar pfd_cram_16 0 0 - 1| ≤ 1e-15 ∧ |pfdScalar pfd_cram_16 1 0 - 1| ≤ 30e-15 := by
  refine ⟨?_, ?_, ?_⟩
  · simp only [pfd_cram_16, List.forall_mem_cons, List.not_mem_nil, false_imp_iff, implies_true, and_true]
    refine ⟨?_, ?_, ?_, ?_, ?_, ?_, ?_, ?_⟩ <;> exact pne_of (by norm_num)
  · simp only [pfdScalar, pfd_cram_16, List.zip_cons_cons, List.zip_nil_left, List.map_cons, List.map_nil, List.sum_cons, List.sum_nil, zterm0, if_true]
    rw [abs_le]; norm_num
  · simp only [pfdScalar, pfd_cram_16, List.zip_cons_cons, List.zip_nil_left, List.map_cons, List.map_nil, List.sum_cons, List.sum_nil, zterm1, one_ne_zero, if_false]
    rw [abs_le]; norm_num

theorem zero_pade_2_2 : (∀ p ∈ pfd_pade_2_2.poles, p ≠ 0) ∧ |pfdScalar pfd_pade_2_2 0 0 - 1| ≤ 12e-15 ∧ |pfdScalar pfd_pade_2_2 1 0 - 1| ≤ 61e-16 := by
  refine ⟨?_, ?_, ?_⟩
  · simp only [pfd_pade_2_2, List.forall_mem_cons, List.not_mem_nil, false_imp_iff, implies_true, and_true]
    exact pne_of (by norm_num)
  · simp only [pfdScalar, pfd_pade_2_2, List.zip_cons_cons, List.zip_nil_left, List.map_cons, List.map_nil, List.sum_cons, List.sum_nil, zterm0, if_true]
    rw [abs_le]; norm_num
  · simp only [pfdScalar, pfd_pade_2_2, List.zip_cons_cons, List.zip_nil_left, List.map_cons, List.map_nil, List.sum_cons, List.sum_nil, zterm1, one_ne_zero, if_false]
    rw [abs_le]; norm_num

theorem zero_pade_4_4 : (∀ p ∈ pfd_pade_4_4.poles, p ≠ 0) ∧ |pfdScalar pfd_pade_4_4 0 0 - 1| ≤ 97e-15 ∧ |pfdScalar pfd_pade_4_4 1 0 - 1| ≤ 16e-15 := by
  refine ⟨?_, ?_, ?_⟩
  · simp only [pfd_pade_4_4, List.forall_mem_cons, List.not_mem_nil, false_imp_iff, implies_true, and_true]
    refine ⟨?_, ?_⟩ <;> exact pne_of (by norm_num)
  · simp only [pfdScalar, pfd_pade_4_4, List.zip_cons_cons, List.zip_nil_left, List.map_cons, List.map_nil, List.sum_cons, List.sum_nil, zterm0, if_true]
    rw [abs_le]; norm_num
  · simp only [pfdScalar, pfd_pade_4_4, List.zip_cons_cons, List.zip_nil_left, List.map_cons, List.map_nil, List.sum_cons, List.sum_nil, zterm1, one_ne_zero, if_false]
    rw [abs_le]; norm_num

theorem zero_pade_6_6 : (∀ p ∈ pfd_pade_6_6.poles, p ≠ 0) ∧ |pfdScalar pfd_pade_6_6 0 0 - 1| ≤ 22e-12 ∧ |pfdScalar pfd_pade_6_6 1 0 - 1| ≤ 27e-13 := by
  refine ⟨?_, ?_, ?_⟩
  · simp only [pfd_pade_6_6, List.forall_mem_cons, List.not_mem_nil, false_imp_iff, implies_true, and_true]
    refine ⟨?_, ?_, ?_⟩ <;> exact pne_of (by norm_num)
  · simp only [pfdScalar, pfd_pade_6_6, List.zip_cons_cons, List.zip_nil_left, List.map_cons, List.map_nil, List.sum_cons, List.sum_nil, zterm0, if_true]
    rw [abs_le]; norm_num
  · simp only [pfdScalar, pfd_pade_6_6, List.zip_cons_cons, List.zip_nil_left, List.map_cons, List.map_nil, List.sum_cons, List.sum_nil, zterm1, one_ne_zero, if_false]
    rw [abs_le]; norm_num

theorem zero_pade_8_8 : (∀ p ∈ pfd_pade_8_8.poles, p ≠ 0) ∧ |pfdScalar pfd_pade_8_8 0 0 - 1| ≤ 14e-10 ∧ |pfdScalar pfd_pade_8_8 1 0 - 1| ≤ 13e-11 := by
  refine ⟨?_, ?_, ?_⟩
  · simp only [pfd_pade_8_8, List.forall_mem_cons, List.not_mem_nil, false_imp_iff, implies_true, and_true]
    refine ⟨?_, ?_, ?_, ?_⟩ <;> exact pne_of (by norm_num)
  · simp only [pfdScalar, pfd_pade_8_8, List.zip_cons_cons, List.zip_nil_left, List.map_cons, List.map_nil, List.sum_cons, List.sum_nil, zterm0, if_true]
    rw [abs_le]; norm_num
  · simp only [pfdScalar, pfd_pade_8_8, List.zip_cons_cons, List.zip_nil_left, List.map_cons, List.map_nil, List.sum_cons, List.sum_nil, zterm1, one_ne_zero, if_false]
    rw [abs_le]; norm_num

theorem zero_pade_10_10 : (∀ p ∈ pfd_pade_10_10.poles, p ≠ 0) ∧ |pfdScalar pfd_pade_10_10 0 0 - 1| ≤ 77e-8 ∧ |pfdScalar pfd_pade_10_10 1 0 - 1| ≤ 66e-9 := by
  refine ⟨?_, ?_, ?_⟩
  · simp only [pfd_pade_10_10, List.forall_mem_cons, List.not_mem_nil, false_imp_iff, implies_true, and_true]
    refine ⟨?_, ?_, ?_, ?_, ?_⟩ <;> exact pne_of (by norm_num)
  · simp only [pfdScalar, pfd_pade_10_10, List.zip_cons_cons, List.zip_nil_left, List.map_cons, List.map_nil, List.sum_cons, List.sum_nil, zterm0, if_true]
    rw [abs_le]; norm_num
  · simp only [pfdScalar, pfd_pade_10_10, List.zip_cons_cons, List.zip_nil_left, List.map_cons, List.map_nil, List.sum_cons, List.sum_nil, zterm1, one_ne_zero, if_false]
    rw [abs_le]; norm_num

theorem zero_pade_12_12 : (∀ p ∈ pfd_pade_12_12.poles, p ≠ 0) ∧ |pfdScalar pfd_pade_12_12 0 0 - 1| ≤ 27e-5 ∧ |pfdScalar pfd_pade_12_12 1 0 - 1| ≤ 20e-6 := by
  refine ⟨?_, ?_, ?_⟩
  · simp only [pfd_pade_12_12, List.forall_mem_cons, List.not_mem_nil, false_imp_iff, implies_true, and_true]
    refine ⟨?_, ?_, ?_, ?_, ?_, ?_⟩ <;> exact pne_of (by norm_num)
  · simp only [pfdScalar, pfd_pade_12_12, List.zip_cons_cons, List.zip_nil_left, List.map_cons, List.map_nil, List.sum_cons, List.sum_nil, zterm0, if_true]
    rw [abs_le]; norm_num
  · simp only [pfdScalar, pfd_pade_12_12, List.zip_cons_cons, List.zip_nil_left, List.map_cons, List.map_nil, List.sum_cons, List.sum_nil, zterm1, one_ne_zero, if_false]
    rw [abs_le]; norm_num

theorem zero_pade_14_14 : (∀ p ∈ pfd_pade_14_14.poles, p ≠ 0) ∧ |pfdScalar pfd_pade_14_14 0 0 - 1| ≤ 13e-3 ∧ |pfdScalar pfd_pade_14_14 1 0 - 1| ≤ 58e-5 := by
  refine ⟨?_, ?_, ?_⟩
  · simp only [pfd_pade_14_14, List.forall_mem_cons, List.not_mem_nil, false_imp_iff, implies_true, and_true]
    refine ⟨?_, ?_, ?_, ?_, ?_, ?_, ?_⟩ <;> exact pne_of (by norm_num)
  · simp only [pfdScalar, pfd_pade_14_14, List.zip_cons_cons, List.zip_nil_left, List.map_cons, List.map_nil, List.sum_cons, List.sum_nil, zterm0, if_true]
    rw [abs_le]; norm_num
  · simp only [pfdScalar, pfd_pade_14_14, List.zip_cons_cons, List.zip_nil_left, List.map_cons, List.map_nil, List.sum_cons, List.sum_nil, zterm1, one_ne_zero, if_false]
    rw [abs_le]; norm_num

theorem zero_pade_16_16 : (∀ p ∈ pfd_pade_16_16.poles, p ≠ 0) ∧ |pfdScalar pfd_pade_16_16 0 0 - 1| ≤ 18e0 ∧ |pfdScalar pfd_pade_16_16 1 0 - 1| ≤ 86e-2 := by
  refine ⟨?_, ?_, ?_⟩
  · simp only [pfd_pade_16_16, List.forall_mem_cons, List.not_mem_nil, false_imp_iff, implies_true, and_true]
    refine ⟨?_, ?_, ?_, ?_, ?_, ?_, ?_, ?_⟩ <;> exact pne_of (by norm_num)
  · simp only [pfdScalar, pfd_pade_16_16, List.zip_cons_cons, List.zip_nil_left, List.map_cons, List.map_nil, List.sum_cons, List.sum_nil, zterm0, if_true]
    rw [abs_le]; norm_num
  · simp only [pfdScalar, pfd_pade_16_16, List.zip_cons_cons, List.zip_nil_left, List.map_cons, List.map_nil, List.sum_cons, List.sum_nil, zterm1, one_ne_zero, if_false]
    rw [abs_le]; norm_num

theorem zero_pade_1_2 : (∀ p ∈ pfd_pade_1_2.poles, p ≠ 0) ∧ |pfdScalar pfd_pade_1_2 0 0 - 1| ≤ 26e-16 ∧ |pfdScalar pfd_pade_1_2 1 0 - 1| ≤ 1e-15 := by
  refine ⟨?_, ?_, ?_⟩
  · simp only [pfd_pade_1_2, List.forall_mem_cons, List.not_mem_nil, false_imp_iff, implies_true, and_true]
    exact pne_of (by norm_num)
  · simp only [pfdScalar, pfd_pade_1_2, List.zip_cons_cons, List.zip_nil_left, List.map_cons, List.map_nil, List.sum_cons, List.sum_nil, zterm0, if_true]
    rw [abs_le]; norm_num
  · simp only [pfdScalar, pfd_pade_1_2, List.zip_cons_cons, List.zip_nil_left, List.map_cons, List.map_nil, List.sum_cons, List.sum_nil, zterm1, one_ne_zero, if_false]
    rw [abs_le]; norm_num

theorem zero_pade_3_4 : (∀ p ∈ pfd_pade_3_4.poles, p ≠ 0) ∧ |pfdScalar pfd_pade_3_4 0 0 - 1| ≤ 69e-15 ∧ |pfdScalar pfd_pade_3_4 1 0 - 1| ≤ 19e-15 := by
  refine ⟨?_, ?_, ?_⟩
  · simp only [pfd_pade_3_4, List.forall_mem_cons, List.not_mem_nil, false_imp_iff, implies_true, and_true]
    refine ⟨?_, ?_⟩ <;> exact pne_of (by norm_num)
  · simp only [pfdScalar, pfd_pade_3_4, List.zip_cons_cons, List.zip_nil_left, List.map_cons, List.map_nil, List.sum_cons, List.sum_nil, zterm0, if_true]
    rw [abs_le]; norm_num
  · simp only [pfdScalar, pfd_pade_3_4, List.zip_cons_cons, List.zip_nil_left, List.map_cons, List.map_nil, List.sum_cons, List.sum_nil, zterm1, one_ne_zero, if_false]
    rw [abs_le]; norm_num

theorem zero_pade_5_6 : (∀ p ∈ pfd_pade_5_6.poles, p ≠ 0) ∧ |pfdScalar pfd_pade_5_6 0 0 - 1| ≤ 21e-13 ∧ |pfdScalar pfd_pade_5_6 1 0 - 1| ≤ 25e-14 := by
  refine ⟨?_, ?_, ?_⟩
  · simp only [pfd_pade_5_6, List.forall_mem_cons, List.not_mem_nil, false_imp_iff, implies_true, and_true]
    refine ⟨?_, ?_, ?_⟩ <;> exact pne_of (by norm_num)
  · simp only [pfdScalar, pfd_pade_5_6, List.zip_cons_cons, List.zip_nil_left, List.map_cons, List.map_nil, List.sum_cons, List.sum_nil, zterm0, if_true]
    rw [abs_le]; norm_num
  · simp only [pfdScalar, pfd_pade_5_6, List.zip_cons_cons, List.zip_nil_left, List.map_cons, List.map_nil, List.sum_cons, List.sum_nil, zterm1, one_ne_zero, if_false]
    rw [abs_le]; norm_num

theorem zero_pade_7_8 : (∀ p ∈ pfd_pade_7_8.poles, p ≠ 0) ∧ |pfdScalar pfd_pade_7_8 0 0 - 1| ≤ 52e-12 ∧ |pfdScalar pfd_pade_7_8 1 0 - 1| ≤ 94e-13 := by
  refine ⟨?_, ?_, ?_⟩
  · simp only [pfd_pade_7_8, List.forall_mem_cons, List.not_mem_nil, false_imp_iff, implies_true, and_true]
    refine ⟨?_, ?_, ?_, ?_⟩ <;> exact pne_of (by norm_num)
  · simp only [pfdScalar, pfd_pade_7_8, List.zip_cons_cons, List.zip_nil_left, List.map_cons, List.map_nil, List.sum_cons, List.sum_nil, zterm0, if_true]
    rw [abs_le]; norm_num
  · simp only [pfdScalar, pfd_pade_7_8, List.zip_cons_cons, List.zip_nil_left, List.map_cons, List.map_nil, List.sum_cons, List.sum_nil, zterm1, one_ne_zero, if_false]
    rw [abs_le]; norm_num

theorem zero_pade_9_10 : (∀ p ∈ pfd_pade_9_10.poles, p ≠ 0) ∧ |pfdScalar pfd_pade_9_10 0 0 - 1| ≤ 92e-8 ∧ |pfdScalar pfd_pade_9_10 1 0 - 1| ≤ 75e-9 := by
  refine ⟨?_, ?_, ?_⟩
  · simp only [pfd_pade_9_10, List.forall_mem_cons, List.not_mem_nil, false_imp_iff, implies_true, and_true]
    refine ⟨?_, ?_, ?_, ?_, ?_⟩ <;> exact pne_of (by norm_num)
  · simp only [pfdScalar, pfd_pade_9_10, List.zip_cons_cons, List.zip_nil_left, List.map_cons, List.map_nil, List.sum_cons, List.sum_nil, zterm0, if_true]
    rw [abs_le]; norm_num
  · simp only [pfdScalar, pfd_pade_9_10, List.zip_cons_cons, List.zip_nil_left, List.map_cons, List.map_nil, List.sum_cons, List.sum_nil, zterm1, one_ne_zero, if_false]
    rw [abs_le]; norm_num

theorem zero_pade_11_12 : (∀ p ∈ pfd_pade_11_12.poles, p ≠ 0) ∧ |pfdScalar pfd_pade_11_12 0 0 - 1| ≤ 50e-6 ∧ |pfdScalar pfd_pade_11_12 1 0 - 1| ≤ 30e-7 := by
  refine ⟨?_, ?_, ?_⟩
  · simp only [pfd_pade_11_12, List.forall_mem_cons, List.not_mem_nil, false_imp_iff, implies_true, and_true]
    refine ⟨?_, ?_, ?_, ?_, ?_, ?_⟩ <;> exact pne_of (by norm_num)
  · simp only [pfdScalar, pfd_pade_11_12, List.zip_cons_cons, List.zip_nil_left, List.map_cons, List.map_nil, List.sum_cons, List.sum_nil, zterm0, if_true]
    rw [abs_le]; norm_num
  · simp only [pfdScalar, pfd_pade_11_12, List.zip_cons_cons, List.zip_nil_left, List.map_cons, List.map_nil, List.sum_cons, List.sum_nil, zterm1, one_ne_zero, if_false]
    rw [abs_le]; norm_num

theorem zero_pade_13_14 : (∀ p ∈ pfd_pade_13_14.poles, p ≠ 0) ∧ |pfdScalar pfd_pade_13_14 0 0 - 1| ≤ 27e-4 ∧ |pfdScalar pfd_pade_13_14 1 0 - 1| ≤ 20e-5 := by
  refine ⟨?_, ?_, ?_⟩
  · simp only [pfd_pade_13_14, List.forall_mem_cons, List.not_mem_nil, false_imp_iff, implies_true, and_true]
    refine ⟨?_, ?_, ?_, ?_, ?_, ?_, ?_⟩ <;> exact pne_of (by norm_num)
  · simp only [pfdScalar, pfd_pade_13_14, List.zip_cons_cons, List.zip_nil_left, List.map_cons, List.map_nil, List.sum_cons, List.sum_nil, zterm0, if_true]
    rw [abs_le]; norm_num
  · simp only [pfdScalar, pfd_pade_13_14, List.zip_cons_cons, List.zip_nil_left, List.map_cons, List.map_nil, List.sum_cons, List.sum_nil, zterm1, one_ne_zero, if_false]
    rw [abs_le]; norm_num

theorem zero_pade_15_16 : (∀ p ∈ pfd_pade_15_16.poles, p ≠ 0) ∧ |pfdScalar pfd_pade_15_16 0 0 - 1| ≤ 66e-1 ∧ |pfdScalar pfd_pade_15_16 1 0 - 1| ≤ 37e-2 := by
  refine ⟨?_, ?_, ?_⟩
  · simp only [pfd_pade_15_16, List.forall_mem_cons, List.not_mem_nil, false_imp_iff, implies_true, and_true]
    refine ⟨?_, ?_, ?_, ?_, ?_, ?_, ?_, ?_⟩ <;> exact pne_of (by norm_num)
  · simp only [pfdScalar, pfd_pade_15_16, List.zip_cons_cons, List.zip_nil_left, List.map_cons, List.map_nil, List.sum_cons, List.sum_nil, zterm0, if_true]
    rw [abs_le]; norm_num
  · simp only [pfdScalar, pfd_pade_15_16, List.zip_cons_cons, List.zip_nil_left, List.map_cons, List.map_nil, List.sum_cons, List.sum_nil, zterm1, one_ne_zero, if_false]
    rw [abs_le]; norm_num

theorem zero_pade_0_2 : (∀ p ∈ pfd_pade_0_2.poles, p ≠ 0) ∧ |pfdScalar pfd_pade_0_2 0 0 - 1| ≤ 1e-15 ∧ |pfdScalar pfd_pade_0_2 1 0 - 1| ≤ 1e-15 := by
  refine ⟨?_, ?_, ?_⟩
  · simp only [pfd_pade_0_2, List.forall_mem_cons, List.not_mem_nil, false_imp_iff, implies_true, and_true]
    exact pne_of (by norm_num)
  · simp only [pfdScalar, pfd_pade_0_2, List.zip_cons_cons, List.zip_nil_left, List.map_cons, List.map_nil, List.sum_cons, List.sum_nil, zterm0, if_true]
    rw [abs_le]; norm_num
  · simp only [pfdScalar, pfd_pade_0_2, List.zip_cons_cons, List.zip_nil_left, List.map_cons, List.map_nil, List.sum_cons, List.sum_nil, zterm1, one_ne_zero, if_false]
    rw [abs_le]; norm_num

theorem zero_pade_2_4 : (∀ p ∈ pfd_pade_2_4.poles, p ≠ 0) ∧ |pfdScalar pfd_pade_2_4 0 0 - 1| ≤ 33e-15 ∧ |pfdScalar pfd_pade_2_4 1 0 - 1| ≤ 73e-16 := by
  refine ⟨?_, ?_, ?_⟩
  · simp only [pfd_pade_2_4, List.forall_mem_cons, List.not_mem_nil, false_imp_iff, implies_true, and_true]
    refine ⟨?_, ?_⟩ <;> exact pne_of (by norm_num)
  · simp only [pfdScalar, pfd_pade_2_4, List.zip_cons_cons, List.zip_nil_left, List.map_cons, List.map_nil, List.sum_cons, List.sum_nil, zterm0, if_true]
    rw [abs_le]; norm_num
  · simp only [pfdScalar, pfd_pade_2_4, List.zip_cons_cons, List.zip_nil_left, List.map_cons, List.map_nil, List.sum_cons, List.sum_nil, zterm1, one_ne_zero, if_false]
    rw [abs_le]; norm_num

theorem zero_pade_4_6 : (∀ p ∈ pfd_pade_4_6.poles, p ≠ 0) ∧ |pfdScalar pfd_pade_4_6 0 0 - 1| ≤ 57e-13 ∧ |pfdScalar pfd_pade_4_6 1 0 - 1| ≤ 84e-14 := by
  refine ⟨?_, ?_, ?_⟩
  · simp only [pfd_pade_4_6, List.forall_mem_cons, List.not_mem_nil, false_imp_iff, implies_true, and_true]
    refine ⟨?_, ?_, ?_⟩ <;> exact pne_of (by norm_num)
  · simp only [pfdScalar, pfd_pade_4_6, List.zip_cons_cons, List.zip_nil_left, List.map_cons, List.map_nil, List.sum_cons, List.sum_nil, zterm0, if_true]
    rw [abs_le]; norm_num
  · simp only [pfdScalar, pfd_pade_4_6, List.zip_cons_cons, List.zip_nil_left, List.map_cons, List.map_nil, List.sum_cons, List.sum_nil, zterm1, one_ne_zero, if_false]
    rw [abs_le]; norm_num

theorem zero_pade_6_8 : (∀ p ∈ pfd_pade_6_8.poles, p ≠ 0) ∧ |pfdScalar pfd_pade_6_8 0 0 - 1| ≤ 18e-10 ∧ |pfdScalar pfd_pade_6_8 1 0 - 1| ≤ 20e-11 := by
  refine ⟨?_, ?_, ?_⟩
  · simp only [pfd_pade_6_8, List.forall_mem_cons, List.not_mem_nil, false_imp_iff, implies_true, and_true]
    refine ⟨?_, ?_, ?_, ?_⟩ <;> exact pne_of (by norm_num)
  · simp only [pfdScalar, pfd_pade_6_8, List.zip_cons_cons, List.zip_nil_left, List.map_cons, List.map_nil, List.sum_cons, List.sum_nil, zterm0, if_true]
    rw [abs_le]; norm_num
  · simp only [pfdScalar, pfd_pade_6_8, List.zip_cons_cons, List.zip_nil_left, List.map_cons, List.map_nil, List.sum_cons, List.sum_nil, zterm1, one_ne_zero, if_false]
    rw [abs_le]; norm_num

theorem zero_pade_8_10 : (∀ p ∈ pfd_pade_8_10.poles, p ≠ 0) ∧ |pfdScalar pfd_pade_8_10 0 0 - 1| ≤ 40e-10 ∧ |pfdScalar pfd_pade_8_10 1 0 - 1| ≤ 50e-11 := by
  refine ⟨?_, ?_, ?_⟩
  · simp only [pfd_pade_8_10, List.forall_mem_cons, List.not_mem_nil, false_imp_iff, implies_true, and_true]
    refine ⟨?_, ?_, ?_, ?_, ?_⟩ <;> exact pne_of (by norm_num)
  · simp only [pfdScalar, pfd_pade_8_10, List.zip_cons_cons, List.zip_nil_left, List.map_cons, List.map_nil, List.sum_cons, List.sum_nil, zterm0, if_true]
    rw [abs_le]; norm_num
  · simp only [pfdScalar, pfd_pade_8_10, List.zip_cons_cons, List.zip_nil_left, List.map_cons, List.map_nil, List.sum_cons, List.sum_nil, zterm1, one_ne_zero, if_false]
    rw [abs_le]; norm_num

theorem zero_pade_10_12 : (∀ p ∈ pfd_pade_10_12.poles, p ≠ 0) ∧ |pfdScalar pfd_pade_10_12 0 0 - 1| ≤ 12e-6 ∧ |pfdScalar pfd_pade_10_12 1 0 - 1| ≤ 12e-7 := by
  refine ⟨?_, ?_, ?_⟩
  · simp only [pfd_pade_10_12, List.forall_mem_cons, List.not_mem_nil, false_imp_iff, implies_true, and_true]
    refine ⟨?_, ?_, ?_, ?_, ?_, ?_⟩ <;> exact pne_of (by norm_num)
  · simp only [pfdScalar, pfd_pade_10_12, List.zip_cons_cons, List.zip_nil_left, List.map_cons, List.map_nil, List.sum_cons, List.sum_nil, zterm0, if_true]
    rw [abs_le]; norm_num
  · simp only [pfdScalar, pfd_pade_10_12, List.zip_cons_cons, List.zip_nil_left, List.map_cons, List.map_nil, List.sum_cons, List.sum_nil, zterm1, one_ne_zero, if_false]
    rw [abs_le]; norm_num

theorem zero_pade_12_14 : (∀ p ∈ pfd_pade_12_14.poles, p ≠ 0) ∧ |pfdScalar pfd_pade_12_14 0 0 - 1| ≤ 28e-4 ∧ |pfdScalar pfd_pade_12_14 1 0 - 1| ≤ 20e-5 := by
  refine ⟨?_, ?_, ?_⟩
  · simp only [pfd_pade_12_14, List.forall_mem_cons, List.not_mem_nil, false_imp_iff, implies_true, and_true]
    refine ⟨?_, ?_, ?_, ?_, ?_, ?_, ?_⟩ <;> exact pne_of (by norm_num)
  · simp only [pfdScalar, pfd_pade_12_14, List.zip_cons_cons, List.zip_nil_left, List.map_cons, List.map_nil, List.sum_cons, List.sum_nil, zterm0, if_true]
    rw [abs_le]; norm_num
  · simp only [pfdScalar, pfd_pade_12_14, List.zip_cons_cons, List.zip_nil_left, List.map_cons, List.map_nil, List.sum_cons, List.sum_nil, zterm1, one_ne_zero, if_false]
    rw [abs_le]; norm_num

theorem zero_pade_14_16 : (∀ p ∈ pfd_pade_14_16.poles, p ≠ 0) ∧ |pfdScalar pfd_pade_14_16 0 0 - 1| ≤ 98e-2 ∧ |pfdScalar pfd_pade_14_16 1 0 - 1| ≤ 51e-3 := by
  refine ⟨?_, ?_, ?_⟩
  · simp only [pfd_pade_14_16, List.forall_mem_cons, List.not_mem_nil, false_imp_iff, implies_true, and_true]
    refine ⟨?_, ?_, ?_, ?_, ?_, ?_, ?_, ?_⟩ <;> exact pne_of (by norm_num)
  · simp only [pfdScalar, pfd_pade_14_16, List.zip_cons_cons, List.zip_nil_left, List.map_cons, List.map_nil, List.sum_cons, List.sum_nil, zterm0, if_true]
    rw [abs_le]; norm_num
  · simp only [pfdScalar, pfd_pade_14_16, List.zip_cons_cons, List.zip_nil_left, List.map_cons, List.map_nil, List.sum_cons, List.sum_nil, zterm1, one_ne_zero, if_false]
    rw [abs_le]; norm_num

theorem zero_pade_0_4 : (∀ p ∈ pfd_pade_0_4.poles, p ≠ 0) ∧ |pfdScalar pfd_pade_0_4 0 0 - 1| ≤ 93e-16 ∧ |pfdScalar pfd_pade_0_4 1 0 - 1| ≤ 73e-16 := by
  refine ⟨?_, ?_, ?_⟩
  · simp only [pfd_pade_0_4, List.forall_mem_cons, List.not_mem_nil, false_imp_iff, implies_true, and_true]
    refine ⟨?_, ?_⟩ <;> exact pne_of (by norm_num)
  · simp only [pfdScalar, pfd_pade_0_4, List.zip_cons_cons, List.zip_nil_left, List.map_cons, List.map_nil, List.sum_cons, List.sum_nil, zterm0, if_true]
    rw [abs_le]; norm_num
  · simp only [pfdScalar, pfd_pade_0_4, List.zip_cons_cons, List.zip_nil_left, List.map_cons, List.map_nil, List.sum_cons, List.sum_nil, zterm1, one_ne_zero, if_false]
    rw [abs_le]; norm_num

theorem zero_pade_0_6 : (∀ p ∈ pfd_pade_0_6.poles, p ≠ 0) ∧ |pfdScalar pfd_pade_0_6 0 0 - 1| ≤ 23e-15 ∧ |pfdScalar pfd_pade_0_6 1 0 - 1| ≤ 63e-16 := by
  refine ⟨?_, ?_, ?_⟩
  · simp only [pfd_pade_0_6, List.forall_mem_cons, List.not_mem_nil, false_imp_iff, implies_true, and_true]
    refine ⟨?_, ?_, ?_⟩ <;> exact pne_of (by norm_num)
  · simp only [pfdScalar, pfd_pade_0_6, List.zip_cons_cons, List.zip_nil_left, List.map_cons, List.map_nil, List.sum_cons, List.sum_nil, zterm0, if_true]
    rw [abs_le]; norm_num
  · simp only [pfdScalar, pfd_pade_0_6, List.zip_cons_cons, List.zip_nil_left, List.map_cons, List.map_nil, List.sum_cons, List.sum_nil, zterm1, one_ne_zero, if_false]
    rw [abs_le]; norm_num

theorem zero_pade_0_8 : (∀ p ∈ pfd_pade_0_8.poles, p ≠ 0) ∧ |pfdScalar pfd_pade_0_8 0 0 - 1| ≤ 35e-15 ∧ |pfdScalar pfd_pade_0_8 1 0 - 1| ≤ 98e-16 := by
  refine ⟨?_, ?_, ?_⟩
  · simp only [pfd_pade_0_8, List.forall_mem_cons, List.not_mem_nil, false_imp_iff, implies_true, and_true]
    refine ⟨?_, ?_, ?_, ?_⟩ <;> exact pne_of (by norm_num)
  · simp only [pfdScalar, pfd_pade_0_8, List.zip_cons_cons, List.zip_nil_left, List.map_cons, List.map_nil, List.sum_cons, List.sum_nil, zterm0, if_true]
    rw [abs_le]; norm_num
  · simp only [pfdScalar, pfd_pade_0_8, List.zip_cons_cons, List.zip_nil_left, List.map_cons, List.map_nil, List.sum_cons, List.sum_nil, zterm1, one_ne_zero, if_false]
    rw [abs_le]; norm_num

theorem zero_pade_0_10 : (∀ p ∈ pfd_pade_0_10.poles, p ≠ 0) ∧ |pfdScalar pfd_pade_0_10 0 0 - 1| ≤ 15e-14 ∧ |pfdScalar pfd_pade_0_10 1 0 - 1| ≤ 34e-15 := by
  refine ⟨?_, ?_, ?_⟩
  · simp only [pfd_pade_0_10, List.forall_mem_cons, List.not_mem_nil, false_imp_iff, implies_true, and_true]
    refine ⟨?_, ?_, ?_, ?_, ?_⟩ <;> exact pne_of (by norm_num)
  · simp only [pfdScalar, pfd_pade_0_10, List.zip_cons_cons, List.zip_nil_left, List.map_cons, List.map_nil, List.sum_cons, List.sum_nil, zterm0, if_true]
    rw [abs_le]; norm_num
  · simp only [pfdScalar, pfd_pade_0_10, List.zip_cons_cons, List.zip_nil_left, List.map_cons, List.map_nil, List.sum_cons, List.sum_nil, zterm1, one_ne_zero, if_false]
    rw [abs_le]; norm_num

theorem zero_pade_0_12 : (∀ p ∈ pfd_pade_0_12.poles, p ≠ 0) ∧ |pfdScalar pfd_pade_0_12 0 0 - 1| ≤ 59e-14 ∧ |pfdScalar pfd_pade_0_12 1 0 - 1| ≤ 14e-14 := by
  refine ⟨?_, ?_, ?_⟩
  · simp only [pfd_pade_0_12, List.forall_mem_cons, List.not_mem_nil, false_imp_iff, implies_true, and_true]
    refine ⟨?_, ?_, ?_, ?_, ?_, ?_⟩ <;> exact pne_of (by norm_num)
  · simp only [pfdScalar, pfd_pade_0_12, List.zip_cons_cons, List.zip_nil_left, List.map_cons, List.map_nil, List.sum_cons, List.sum_nil, zterm0, if_true]
    rw [abs_le]; norm_num
  · simp only [pfdScalar, pfd_pade_0_12, List.zip_cons_cons, List.zip_nil_left, List.map_cons, List.map_nil, List.sum_cons, List.sum_nil, zterm1, one_ne_zero, if_false]
    rw [abs_le]; norm_num

theorem zero_pade_0_14 : (∀ p ∈ pfd_pade_0_14.poles, p ≠ 0) ∧ |pfdScalar pfd_pade_0_14 0 0 - 1| ≤ 17e-13 ∧ |pfdScalar pfd_pade_0_14 1 0 - 1| ≤ 24e-14 := by
  refine ⟨?_, ?_, ?_⟩
  · simp only [pfd_pade_0_14, List.forall_mem_cons, List.not_mem_nil, false_imp_iff, implies_true, and_true]
    refine ⟨?_, ?_, ?_, ?_, ?_, ?_, ?_⟩ <;> exact pne_of (by norm_num)
  · simp only [pfdScalar, pfd_pade_0_14, List.zip_cons_cons, List.zip_nil_left, List.map_cons, List.map_nil, List.sum_cons, List.sum_nil, zterm0, if_true]
    rw [abs_le]; norm_num
  · simp only [pfdScalar, pfd_pade_0_14, List.zip_cons_cons, List.zip_nil_left, List.map_cons, List.map_nil, List.sum_cons, List.sum_nil, zterm1, one_ne_zero, if_false]
    rw [abs_le]; norm_num

theorem zero_pade_0_16 : (∀ p ∈ pfd_pade_0_16.poles, p ≠ 0) ∧ |pfdScalar pfd_pade_0_16 0 0 - 1| ≤ 23e-13 ∧ |pfdScalar pfd_pade_0_16 1 0 - 1| ≤ 43e-14 := by
  refine ⟨?_, ?_, ?_⟩
  · simp only [pfd_pade_0_16, List.forall_mem_cons, List.not_mem_nil, false_imp_iff, implies_true, and_true]
    refine ⟨?_, ?_, ?_, ?_, ?_, ?_, ?_, ?_⟩ <;> exact pne_of (by norm_num)
  · simp only [pfdScalar, pfd_pade_0_16, List.zip_cons_cons, List.zip_nil_left, List.map_cons, List.map_nil, List.sum_cons, List.sum_nil, zterm0, if_true]
    rw [abs_le]; norm_num
  · simp only [pfdScalar, pfd_pade_0_16, List.zip_cons_cons, List.zip_nil_left, List.map_cons, List.map_nil, List.sum_cons, List.sum_nil, zterm1, one_ne_zero, if_false]
    rw [abs_le]; norm_num

theorem bad_2 : (1423/1000) ≤ pfdScalar pfd_2 0 0 ∧ pfdScalar pfd_2 0 0 ≤ (1424/1000) ∧
    (995/1000) ≤ pfdScalar pfd_2 1 0 ∧ pfdScalar pfd_2 1 0 ≤ (996/1000) := by
  have h0 : (1423/1000) ≤ pfdScalar pfd_2 0 0 ∧ pfdScalar pfd_2 0 0 ≤ (1424/1000) := by
    simp only [pfdScalar, pfd_2, List.zip_cons_cons, List.zip_nil_left, List.map_cons, List.map_nil, List.sum_cons, List.sum_nil, zterm0, if_true]
    norm_num
  have h1 : (995/1000) ≤ pfdScalar pfd_2 1 0 ∧ pfdScalar pfd_2 1 0 ≤ (996/1000) := by
    simp only [pfdScalar, pfd_2, List.zip_cons_cons, List.zip_nil_left, List.map_cons, List.map_nil, List.sum_cons, List.sum_nil, zterm1, one_ne_zero, if_false]
    norm_num
  exact ⟨h0.1, h0.2, h1.1, h1.2⟩

theorem bad_3 : (1559/1000) ≤ pfdScalar pfd_3 0 0 ∧ pfdScalar pfd_3 0 0 ≤ (1560/1000) ∧
    (1000/1000) ≤ pfdScalar pfd_3 1 0 ∧ pfdScalar pfd_3 1 0 ≤ (1001/1000) := by
  have h0 : (1559/1000) ≤ pfdScalar pfd_3 0 0 ∧ pfdScalar pfd_3 0 0 ≤ (1560/1000) := by
    simp only [pfdScalar, pfd_3, List.zip_cons_cons, List.zip_nil_left, List.map_cons, List.map_nil, List.sum_cons, List.sum_nil, zterm0, if_true]
    norm_num
  have h1 : (1000/1000) ≤ pfdScalar pfd_3 1 0 ∧ pfdScalar pfd_3 1 0 ≤ (1001/1000) := by
    simp only [pfdScalar, pfd_3, List.zip_cons_cons, List.zip_nil_left, List.map_cons, List.map_nil, List.sum_cons, List.sum_nil, zterm1, one_ne_zero, if_false]
    norm_num
  exact ⟨h0.1, h0.2, h1.1, h1.2⟩

theorem bad_6 : (772/1000) ≤ pfdScalar pfd_6 0 0 ∧ pfdScalar pfd_6 0 0 ≤ (773/1000) ∧
    (1001/1000) ≤ pfdScalar pfd_6 1 0 ∧ pfdScalar pfd_6 1 0 ≤ (1002/1000) := by
  have h0 : (772/1000) ≤ pfdScalar pfd_6 0 0 ∧ pfdScalar pfd_6 0 0 ≤ (773/1000) := by
    simp only [pfdScalar, pfd_6, List.zip_cons_cons, List.zip_nil_left, List.map_cons, List.map_nil, List.sum_cons, List.sum_nil, zterm0, if_true]
    norm_num
  have h1 : (1001/1000) ≤ pfdScalar pfd_6 1 0 ∧ pfdScalar pfd_6 1 0 ≤ (1002/1000) := by
    simp only [pfdScalar, pfd_6, List.zip_cons_cons, List.zip_nil_left, List.map_cons, List.map_nil, List.sum_cons, List.sum_nil, zterm1, one_ne_zero, if_false]
    norm_num
  exact ⟨h0.1, h0.2, h1.1, h1.2⟩

theorem bad_7 : (498/1000) ≤ pfdScalar pfd_7 0 0 ∧ pfdScalar pfd_7 0 0 ≤ (499/1000) ∧
    (999/1000) ≤ pfdScalar pfd_7 1 0 ∧ pfdScalar pfd_7 1 0 ≤ (1000/1000) := by
  have h0 : (498/1000) ≤ pfdScalar pfd_7 0 0 ∧ pfdScalar pfd_7 0 0 ≤ (499/1000) := by
    simp only [pfdScalar, pfd_7, List.zip_cons_cons, List.zip_nil_left, List.map_cons, List.map_nil, List.sum_cons, List.sum_nil, zterm0, if_true]
    norm_num
  have h1 : (999/1000) ≤ pfdScalar pfd_7 1 0 ∧ pfdScalar pfd_7 1 0 ≤ (1000/1000) := by
    simp only [pfdScalar, pfd_7, List.zip_cons_cons, List.zip_nil_left, List.map_cons, List.map_nil, List.sum_cons, List.sum_nil, zterm1, one_ne_zero, if_false]
    norm_num
  exact ⟨h0.1, h0.2, h1.1, h1.2⟩

theorem bad_9 : (1409/1000) ≤ pfdScalar pfd_9 0 0 ∧ pfdScalar pfd_9 0 0 ≤ (1410/1000) ∧
    (1000/1000) ≤ pfdScalar pfd_9 1 0 ∧ pfdScalar pfd_9 1 0 ≤ (1001/1000) := by
  have h0 : (1409/1000) ≤ pfdScalar pfd_9 0 0 ∧ pfdScalar pfd_9 0 0 ≤ (1410/1000) := by
    simp only [pfdScalar, pfd_9, List.zip_cons_cons, List.zip_nil_left, List.map_cons, List.map_nil, List.sum_cons, List.sum_nil, zterm0, if_true]
    norm_num
  have h1 : (1000/1000) ≤ pfdScalar pfd_9 1 0 ∧ pfdScalar pfd_9 1 0 ≤ (1001/1000) := by
    simp only [pfdScalar, pfd_9, List.zip_cons_cons, List.zip_nil_left, List.map_cons, List.map_nil, List.sum_cons, List.sum_nil, zterm1, one_ne_zero, if_false]
    norm_num
  exact ⟨h0.1, h0.2, h1.1, h1.2⟩

theorem bad_12 : (1515/1000) ≤ pfdScalar pfd_12 0 0 ∧ pfdScalar pfd_12 0 0 ≤ (1516/1000) ∧
    (999/1000) ≤ pfdScalar pfd_12 1 0 ∧ pfdScalar pfd_12 1 0 ≤ (1000/1000) := by
  have h0 : (1515/1000) ≤ pfdScalar pfd_12 0 0 ∧ pfdScalar pfd_12 0 0 ≤ (1516/1000) := by
    simp only [pfdScalar, pfd_12, List.zip_cons_cons, List.zip_nil_left, List.map_cons, List.map_nil, List.sum_cons, List.sum_nil, zterm0, if_true]
    norm_num
  have h1 : (999/1000) ≤ pfdScalar pfd_12 1 0 ∧ pfdScalar pfd_12 1 0 ≤ (1000/1000) := by
    simp only [pfdScalar, pfd_12, List.zip_cons_cons, List.zip_nil_left, List.map_cons, List.map_nil, List.sum_cons, List.sum_nil, zterm1, one_ne_zero, if_false]
    norm_num
  exact ⟨h0.1, h0.2, h1.1, h1.2⟩

theorem bad_cram_2 : (992/1000) ≤ pfdScalar pfd_cram_2 0 0 ∧ pfdScalar pfd_cram_2 0 0 ≤ (993/1000) ∧
    (852/1000) ≤ pfdScalar pfd_cram_2 1 0 ∧ pfdScalar pfd_cram_2 1 0 ≤ (853/1000) := by
  have h0 : (992/1000) ≤ pfdScalar pfd_cram_2 0 0 ∧ pfdScalar pfd_cram_2 0 0 ≤ (993/1000) := by
    simp only [pfdScalar, pfd_cram_2, List.zip_cons_cons, List.zip_nil_left, List.map_cons, List.map_nil, List.sum_cons, List.sum_nil, zterm0, if_true]
    norm_num
  have h1 : (852/1000) ≤ pfdScalar pfd_cram_2 1 0 ∧ pfdScalar pfd_cram_2 1 0 ≤ (853/1000) := by
    simp only [pfdScalar, pfd_cram_2, List.zip_cons_cons, List.zip_nil_left, List.map_cons, List.map_nil, List.sum_cons, List.sum_nil, zterm1, one_ne_zero, if_false]
    norm_num
  exact ⟨h0.1, h0.2, h1.1, h1.2⟩

theorem bad_cram_4 : (999/1000) ≤ pfdScalar pfd_cram_4 0 0 ∧ pfdScalar pfd_cram_4 0 0 ≤ (1000/1000) ∧
    (996/1000) ≤ pfdScalar pfd_cram_4 1 0 ∧ pfdScalar pfd_cram_4 1 0 ≤ (997/1000) := by
  have h0 : (999/1000) ≤ pfdScalar pfd_cram_4 0 0 ∧ pfdScalar pfd_cram_4 0 0 ≤ (1000/1000) := by
    simp only [pfdScalar, pfd_cram_4, List.zip_cons_cons, List.zip_nil_left, List.map_cons, List.map_nil, List.sum_cons, List.sum_nil, zterm0, if_true]
    norm_num
  have h1 : (996/1000) ≤ pfdScalar pfd_cram_4 1 0 ∧ pfdScalar pfd_cram_4 1 0 ≤ (997/1000) := by
    simp only [pfdScalar, pfd_cram_4, List.zip_cons_cons, List.zip_nil_left, List.map_cons, List.map_nil, List.sum_cons, List.sum_nil, zterm1, one_ne_zero, if_false]
    norm_num
  exact ⟨h0.1, h0.2, h1.1, h1.2⟩

theorem bad_pade_14_14 : (1011/1000) ≤ pfdScalar pfd_pade_14_14 0 0 ∧ pfdScalar pfd_pade_14_14 0 0 ≤ (1012/1000) ∧
    (1000/1000) ≤ pfdScalar pfd_pade_14_14 1 0 ∧ pfdScalar pfd_pade_14_14 1 0 ≤ (1001/1000) := by
  have h0 : (1011/1000) ≤ pfdScalar pfd_pade_14_14 0 0 ∧ pfdScalar pfd_pade_14_14 0 0 ≤ (1012/1000) := by
    simp only [pfdScalar, pfd_pade_14_14, List.zip_cons_cons, List.zip_nil_left, List.map_cons, List.map_nil, List.sum_cons, List.sum_nil, zterm0, if_true]
    norm_num
  have h1 : (1000/1000) ≤ pfdScalar pfd_pade_14_14 1 0 ∧ pfdScalar pfd_pade_14_14 1 0 ≤ (1001/1000) := by
    simp only [pfdScalar, pfd_pade_14_14, List.zip_cons_cons, List.zip_nil_left, List.map_cons, List.map_nil, List.sum_cons, List.sum_nil, zterm1, one_ne_zero, if_false]
    norm_num
  exact ⟨h0.1, h0.2, h1.1, h1.2⟩

theorem bad_pade_16_16 : (-15380/1000) ≤ pfdScalar pfd_pade_16_16 0 0 ∧ pfdScalar pfd_pade_16_16 0 0 ≤ (-15379/1000) ∧
    (156/1000) ≤ pfdScalar pfd_pade_16_16 1 0 ∧ pfdScalar pfd_pade_16_16 1 0 ≤ (157/1000) := by
  have h0 : (-15380/1000) ≤ pfdScalar pfd_pade_16_16 0 0 ∧ pfdScalar pfd_pade_16_16 0 0 ≤ (-15379/1000) := by
    simp only [pfdScalar, pfd_pade_16_16, List.zip_cons_cons, List.zip_nil_left, List.map_cons, List.map_nil, List.sum_cons, List.sum_nil, zterm0, if_true]
    norm_num
  have h1 : (156/1000) ≤ pfdScalar pfd_pade_16_16 1 0 ∧ pfdScalar pfd_pade_16_16 1 0 ≤ (157/1000) := by
    simp only [pfdScalar, pfd_pade_16_16, List.zip_cons_cons, List.zip_nil_left, List.map_cons, List.map_nil, List.sum_cons, List.sum_nil, zterm1, one_ne_zero, if_false]
    norm_num
  exact ⟨h0.1, h0.2, h1.1, h1.2⟩

theorem bad_pade_13_14 : (997/1000) ≤ pfdScalar pfd_pade_13_14 0 0 ∧ pfdScalar pfd_pade_13_14 0 0 ≤ (998/1000) ∧
    (999/1000) ≤ pfdScalar pfd_pade_13_14 1 0 ∧ pfdScalar pfd_pade_13_14 1 0 ≤ (1000/1000) := by
  have h0 : (997/1000) ≤ pfdScalar pfd_pade_13_14 0 0 ∧ pfdScalar pfd_pade_13_14 0 0 ≤ (998/1000) := by
    simp only [pfdScalar, pfd_pade_13_14, List.zip_cons_cons, List.zip_nil_left, List.map_cons, List.map_nil, List.sum_cons, List.sum_nil, zterm0, if_true]
    norm_num
  have h1 : (999/1000) ≤ pfdScalar pfd_pade_13_14 1 0 ∧ pfdScalar pfd_pade_13_14 1 0 ≤ (1000/1000) := by
    simp only [pfdScalar, pfd_pade_13_14, List.zip_cons_cons, List.zip_nil_left, List.map_cons, List.map_nil, List.sum_cons, List.sum_nil, zterm1, one_ne_zero, if_false]
    norm_num
  exact ⟨h0.1, h0.2, h1.1, h1.2⟩

theorem bad_pade_15_16 : (7403/1000) ≤ pfdScalar pfd_pade_15_16 0 0 ∧ pfdScalar pfd_pade_15_16 0 0 ≤ (7404/1000) ∧
    (1351/1000) ≤ pfdScalar pfd_pade_15_16 1 0 ∧ pfdScalar pfd_pade_15_16 1 0 ≤ (1352/1000) := by
  have h0 : (7403/1000) ≤ pfdScalar pfd_pade_15_16 0 0 ∧ pfdScalar pfd_pade_15_16 0 0 ≤ (7404/1000) := by
    simp only [pfdScalar, pfd_pade_15_16, List.zip_cons_cons, List.zip_nil_left, List.map_cons, List.map_nil, List.sum_cons, List.sum_nil, zterm0, if_true]
    norm_num
  have h1 : (1351/1000) ≤ pfdScalar pfd_pade_15_16 1 0 ∧ pfdScalar pfd_pade_15_16 1 0 ≤ (1352/1000) := by
    simp only [pfdScalar, pfd_pade_15_16, List.zip_cons_cons, List.zip_nil_left, List.map_cons, List.map_nil, List.sum_cons, List.sum_nil, zterm1, one_ne_zero, if_false]
    norm_num
  exact ⟨h0.1, h0.2, h1.1, h1.2⟩

theorem bad_pade_12_14 : (1002/1000) ≤ pfdScalar pfd_pade_12_14 0 0 ∧ pfdScalar pfd_pade_12_14 0 0 ≤ (1003/1000) ∧
    (1000/1000) ≤ pfdScalar pfd_pade_12_14 1 0 ∧ pfdScalar pfd_pade_12_14 1 0 ≤ (1001/1000) := by
  have h0 : (1002/1000) ≤ pfdScalar pfd_pade_12_14 0 0 ∧ pfdScalar pfd_pade_12_14 0 0 ≤ (1003/1000) := by
    simp only [pfdScalar, pfd_pade_12_14, List.zip_cons_cons, List.zip_nil_left, List.map_cons, List.map_nil, List.sum_cons, List.sum_nil, zterm0, if_true]
    norm_num
  have h1 : (1000/1000) ≤ pfdScalar pfd_pade_12_14 1 0 ∧ pfdScalar pfd_pade_12_14 1 0 ≤ (1001/1000) := by
    simp only [pfdScalar, pfd_pade_12_14, List.zip_cons_cons, List.zip_nil_left, List.map_cons, List.map_nil, List.sum_cons, List.sum_nil, zterm1, one_ne_zero, if_false]
    norm_num
  exact ⟨h0.1, h0.2, h1.1, h1.2⟩

theorem bad_pade_14_16 : (32/1000) ≤ pfdScalar pfd_pade_14_16 0 0 ∧ pfdScalar pfd_pade_14_16 0 0 ≤ (33/1000) ∧
    (950/1000) ≤ pfdScalar pfd_pade_14_16 1 0 ∧ pfdScalar pfd_pade_14_16 1 0 ≤ (951/1000) := by
  have h0 : (32/1000) ≤ pfdScalar pfd_pade_14_16 0 0 ∧ pfdScalar pfd_pade_14_16 0 0 ≤ (33/1000) := by
    simp only [pfdScalar, pfd_pade_14_16, List.zip_cons_cons, List.zip_nil_left, List.map_cons, List.map_nil, List.sum_cons, List.sum_nil, zterm0, if_true]
    norm_num
  have h1 : (950/1000) ≤ pfdScalar pfd_pade_14_16 1 0 ∧ pfdScalar pfd_pade_14_16 1 0 ≤ (951/1000) := by
    simp only [pfdScalar, pfd_pade_14_16, List.zip_cons_cons, List.zip_nil_left, List.map_cons, List.map_nil, List.sum_cons, List.sum_nil, zterm1, one_ne_zero, if_false]
    norm_num
  exact ⟨h0.1, h0.2, h1.1, h1.2⟩

end Ormatex.Props