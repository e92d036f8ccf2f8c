import Verif.Props.RsCram
import Verif.Props.PfdCertP
import Mathlib.Analysis.Real.Pi.Bounds
import Mathlib.Analysis.Complex.Exponential

/-!
C125: accuracy of the crate's parabolic contour (`gen_parabolic_expm(24)`, the option `expmv_method = "parabolic"`).
-/

namespace Ormatex.Props
open Matrix Ormatex.Spec Ormatex.Rs Ormatex.Props.Cert
open scoped Classical

variable {N : ℕ}

/-! ### the numbers of the contour -/

/-- 20 digits of `π` -/
noncomputable def piQ : ℝ := 3.14159265358979323846
/-- `exp(3.1416)` -/
noncomputable def eQ : ℝ := 23.140862634424268132278114
/-- `exp(-2.8656 π² / 576)` -/
noncomputable def qQ : ℝ := 0.952084695872489027476406
/-- `√2 / 2` -/
noncomputable def rQ : ℝ := 0.707106781186547524400844

theorem piQ_close : |Real.pi - piQ| ≤ 1e-20 := by
  have h1 := Real.pi_gt_d20
  have h2 := Real.pi_lt_d20
  unfold piQ
  rw [abs_le]; constructor <;> norm_num at * <;> linarith

theorem piSq_close : |Real.pi ^ 2 - piQ ^ 2| ≤ 7e-20 := by
  have h := piQ_close
  have h2 := Real.pi_lt_d20
  have h3 := Real.pi_pos
  rw [sq_sub_sq, abs_mul]
  have h4 : |Real.pi + piQ| ≤ 7 := by
    unfold piQ
    rw [abs_of_pos (by positivity)]
    norm_num at *; linarith
  calc |Real.pi + piQ| * |Real.pi - piQ| ≤ 7 * 1e-20 := mul_le_mul h4 h (abs_nonneg _) (by norm_num)
    _ = 7e-20 := by norm_num

theorem rQ_close : |Real.sqrt 2 / 2 - rQ| ≤ 1e-22 := by
  have h1 : 2 * (rQ - 1e-22) ≤ Real.sqrt 2 := Real.le_sqrt_of_sq_le (by unfold rQ; norm_num)
  have h2 : Real.sqrt 2 ≤ 2 * (rQ + 1e-22) := Real.sqrt_le_iff.2 ⟨by unfold rQ; norm_num, by unfold rQ; norm_num⟩
  rw [abs_le]; constructor <;> linarith

theorem eQ_close : |Real.exp 3.1416 - eQ| ≤ 1e-21 := by
  have h := Real.exp_bound (x := 0.31416) (by rw [abs_of_pos (by norm_num)]; norm_num) (n := 18) (by norm_num)
  have e : Real.exp 3.1416 = Real.exp 0.31416 ^ 10 := by rw [← Real.exp_nat_mul]; norm_num
  rw [e]
  rw [abs_of_pos (by norm_num : (0 : ℝ) < 0.31416)] at h
  have h1 : (1.369108776427946364389933 : ℝ) ≤ Real.exp 0.31416 := by
    have := (abs_le.1 h).1
    simp only [Finset.sum_range_succ, Finset.sum_range_zero, Nat.factorial] at this
    norm_num at this ⊢
    linarith
  have h2 : Real.exp 0.31416 ≤ (1.369108776427946364389943 : ℝ) := by
    have := (abs_le.1 h).2
    simp only [Finset.sum_range_succ, Finset.sum_range_zero, Nat.factorial] at this
    norm_num at this ⊢
    linarith
  have h3 := pow_le_pow_left₀ (by norm_num) h1 10
  have h4 := pow_le_pow_left₀ (Real.exp_pos _).le h2 10
  have h5 : eQ - 1e-21 ≤ (1.369108776427946364389933 : ℝ) ^ 10 := by unfold eQ; norm_num
  have h6 : (1.369108776427946364389943 : ℝ) ^ 10 ≤ eQ + 1e-21 := by unfold eQ; norm_num
  rw [abs_le]; constructor <;> linarith

/-- the ratio of the contour -/
noncomputable def qP : ℝ := Real.exp (-(2.8656 / 576 * Real.pi ^ 2))

theorem qQ_close : |qP - qQ| ≤ 1e-21 := by
  have hb := abs_le.1 piSq_close
  have ex : ∀ x : ℝ, |x| ≤ 1 → _ := fun x hx => abs_le.1 (Real.exp_bound hx (n := 14) (by norm_num))
  have h1 : Real.exp (-(2.8656 / 576 * (piQ ^ 2 + 7e-20))) ≤ qP := Real.exp_le_exp.2 (by linarith [hb.2])
  have h2 : qP ≤ Real.exp (-(2.8656 / 576 * (piQ ^ 2 - 7e-20))) := Real.exp_le_exp.2 (by linarith [hb.1])
  have h3 := (ex (-(2.8656 / 576 * (piQ ^ 2 + 7e-20))) (by unfold piQ; rw [abs_le]; constructor <;> norm_num)).1
  have h4 := (ex (-(2.8656 / 576 * (piQ ^ 2 - 7e-20))) (by unfold piQ; rw [abs_le]; constructor <;> norm_num)).2
  rw [abs_neg, abs_of_nonneg (by unfold piQ; norm_num)] at h3 h4
  simp only [Finset.sum_range_succ, Finset.sum_range_zero, Nat.factorial, piQ] at h3 h4
  have h5 : qQ - 1e-21 ≤ Real.exp (-(2.8656 / 576 * (piQ ^ 2 + 7e-20))) := by
    unfold qQ piQ; norm_num at h3 ⊢; linarith
  have h6 : Real.exp (-(2.8656 / 576 * (piQ ^ 2 - 7e-20))) ≤ qQ + 1e-21 := by
    unfold qQ piQ; norm_num at h4 ⊢; linarith
  rw [abs_le]; constructor <;> linarith

/-- signs of the cosine and sine at the odd multiples of `π / 4` -/
def octant : ℕ → ℤ × ℤ
  | 0 => (1, 1)
  | i + 1 => (-(octant i).2, (octant i).1)

theorem octant_eq (i : ℕ) : Real.cos (Real.pi * ((2 * i + 1 : ℕ) : ℝ) / 4) = (octant i).1 * (Real.sqrt 2 / 2) ∧
    Real.sin (Real.pi * ((2 * i + 1 : ℕ) : ℝ) / 4) = (octant i).2 * (Real.sqrt 2 / 2) := by
  induction i with
  | zero => simp [octant]
  | succ i ih =>
    have e : Real.pi * ((2 * (i + 1) + 1 : ℕ) : ℝ) / 4 = Real.pi * ((2 * i + 1 : ℕ) : ℝ) / 4 + Real.pi / 2 := by push_cast; ring
    rw [e, Real.cos_add_pi_div_two, Real.sin_add_pi_div_two, ih.1, ih.2]
    simp [octant]

/-- a pole of the contour -/
noncomputable def parPole (i : ℕ) : ℂ :=
  ⟨3.1416 - 2.8656 / 576 * Real.pi ^ 2 * ((2 * i + 1 : ℕ) : ℝ) ^ 2, Real.pi * ((2 * i + 1 : ℕ) : ℝ) / 4⟩

/-- a weight of the contour -/
noncomputable def parWt (i : ℕ) : ℂ := Complex.exp (parPole i) * ⟨-0.25, -(0.2388 / 24 * Real.pi * ((2 * i + 1 : ℕ) : ℝ))⟩

/-- the table of the contour -/
noncomputable def parPfd : Pfd := ⟨(List.range 12).map parPole, (List.range 12).map parWt, 0⟩

/-- The model's constructor builds this table. -/
theorem genParabolic_24 : genParabolic 24 = Cauchy.new parPfd.poles parPfd.coeffs ((parPfd.c0 : ℝ) : ℂ) := by
  unfold genParabolic
  rw [if_pos (by norm_num)]
  simp only [parPfd]
  have hp : ∀ i : ℕ, ((24 : ℕ) : ℂ) * (0.1309 - 0.1194 * ((Real.pi * ((2 * i + 1 : ℕ) : ℝ) / ((24 : ℕ) : ℝ) : ℝ) : ℂ) ^ 2
      + 0.25 * ((Real.pi * ((2 * i + 1 : ℕ) : ℝ) / ((24 : ℕ) : ℝ) : ℝ) : ℂ) * Complex.I) = parPole i := by
    intro i
    have e : parPole i = ((3.1416 - 2.8656 / 576 * Real.pi ^ 2 * ((2 * i + 1 : ℕ) : ℝ) ^ 2 : ℝ) : ℂ)
        + ((Real.pi * ((2 * i + 1 : ℕ) : ℝ) / 4 : ℝ) : ℂ) * Complex.I := by
      exact Complex.mk_eq_add_mul_I _ _
    rw [e]
    push_cast
    ring
  congr 1
  · exact List.map_congr_left fun i _ => hp i
  · refine List.map_congr_left fun i _ => ?_
    rw [hp i, parWt]
    have e : (⟨-0.25, -(0.2388 / 24 * Real.pi * ((2 * i + 1 : ℕ) : ℝ))⟩ : ℂ)
        = ((-0.25 : ℝ) : ℂ) + ((-(0.2388 / 24 * Real.pi * ((2 * i + 1 : ℕ) : ℝ)) : ℝ) : ℂ) * Complex.I := by
      exact Complex.mk_eq_add_mul_I _ _
    rw [e]
    have e2 : (-2.0 : ℂ) = -2 := by norm_num
    rw [e2]
    push_cast
    linear_combination (Complex.exp (parPole i) / 4) * Complex.I_sq

theorem parPole_im (i : ℕ) : 3 / 4 ≤ (parPole i).im := by
  have h1 := Real.pi_gt_three
  have h2 : (1 : ℝ) ≤ ((2 * i + 1 : ℕ) : ℝ) := by push_cast; linarith [Nat.cast_nonneg (α := ℝ) i]
  simp only [parPole]
  nlinarith

theorem par_nonReal : NonReal parPfd := by
  intro p hp
  obtain ⟨i, -, rfl⟩ := List.mem_map.1 hp
  have := parPole_im i
  intro h
  rw [h] at this
  norm_num at this

/-! ### the rounded table -/

theorem parPole_close (i : ℕ) {P Q : ℝ} (hi : i < 12)
    (h1 : |3.1416 - 2.8656 / 576 * piQ ^ 2 * ((2 * i + 1 : ℕ) : ℝ) ^ 2 - P| ≤ 9e-17) (h2 : |piQ * ((2 * i + 1 : ℕ) : ℝ) / 4 - Q| ≤ 9e-17) :
    ‖parPole i - ⟨P, Q⟩‖ ≤ 2e-16 := by
  have hn : ((2 * i + 1 : ℕ) : ℝ) ≤ 23 := by exact_mod_cast (by omega : 2 * i + 1 ≤ 23)
  have hn0 : (0 : ℝ) ≤ ((2 * i + 1 : ℕ) : ℝ) := Nat.cast_nonneg _
  refine (Complex.norm_le_abs_re_add_abs_im _).trans ?_
  simp only [parPole, Complex.sub_re, Complex.sub_im]
  generalize ((2 * i + 1 : ℕ) : ℝ) = n at *
  have hn2 : n ^ 2 ≤ 529 := by nlinarith
  have a1 : |3.1416 - 2.8656 / 576 * Real.pi ^ 2 * n ^ 2 - P| ≤ 9e-17 + 2.8656 / 576 * 7e-20 * 529 := by
    have e : 3.1416 - 2.8656 / 576 * Real.pi ^ 2 * n ^ 2 - P
        = (3.1416 - 2.8656 / 576 * piQ ^ 2 * n ^ 2 - P) + -(2.8656 / 576 * (Real.pi ^ 2 - piQ ^ 2) * n ^ 2) := by ring
    rw [e]
    refine (abs_add_le _ _).trans (add_le_add h1 ?_)
    rw [abs_neg, abs_mul, abs_mul, abs_of_nonneg (by norm_num : (0 : ℝ) ≤ 2.8656 / 576), abs_of_nonneg (sq_nonneg n)]
    exact mul_le_mul (mul_le_mul_of_nonneg_left piSq_close (by norm_num)) hn2 (sq_nonneg n) (by norm_num)
  have a2 : |Real.pi * n / 4 - Q| ≤ 9e-17 + 1e-20 * 23 / 4 := by
    have e : Real.pi * n / 4 - Q = (piQ * n / 4 - Q) + (Real.pi - piQ) * n / 4 := by ring
    rw [e]
    refine (abs_add_le _ _).trans (add_le_add h2 ?_)
    rw [abs_div, abs_mul, abs_of_nonneg hn0, abs_of_pos (by norm_num : (0 : ℝ) < 4)]
    exact div_le_div_of_nonneg_right (mul_le_mul piQ_close hn hn0 (by norm_num)) (by norm_num)
  norm_num at a1 a2 ⊢
  linarith

theorem mul_close' {x y x' y' a b X Y : ℝ} (hx : |x - x'| ≤ a) (hy : |y - y'| ≤ b) (hX : |x| ≤ X) (hY : |y'| ≤ Y) :
    |x * y - x' * y'| ≤ X * b + a * Y := by
  have e : x * y - x' * y' = x * (y - y') + (x - x') * y' := by ring
  rw [e]
  refine (abs_add_le _ _).trans (add_le_add ?_ ?_)
  · rw [abs_mul]; exact mul_le_mul hX hy (abs_nonneg _) ((abs_nonneg _).trans hX)
  · rw [abs_mul]; exact mul_le_mul hx hY (abs_nonneg _) ((abs_nonneg _).trans hx)

theorem parWt_eq (i : ℕ) : parWt i =
    ⟨Real.exp 3.1416 * qP ^ ((2 * i + 1) ^ 2) * (Real.sqrt 2 / 2) * (-0.25 * (octant i).1 + 0.2388 / 24 * Real.pi * ((2 * i + 1 : ℕ) : ℝ) * (octant i).2),
     Real.exp 3.1416 * qP ^ ((2 * i + 1) ^ 2) * (Real.sqrt 2 / 2) * (-0.25 * (octant i).2 - 0.2388 / 24 * Real.pi * ((2 * i + 1 : ℕ) : ℝ) * (octant i).1)⟩ := by
  have he : Real.exp (3.1416 - 2.8656 / 576 * Real.pi ^ 2 * ((2 * i + 1 : ℕ) : ℝ) ^ 2) = Real.exp 3.1416 * qP ^ ((2 * i + 1) ^ 2) := by
    rw [qP, ← Real.exp_nat_mul, ← Real.exp_add]
    congr 1
    push_cast
    ring
  obtain ⟨hc, hs⟩ := octant_eq i
  have hE : Complex.exp (parPole i) = ⟨Real.exp 3.1416 * qP ^ ((2 * i + 1) ^ 2) * ((octant i).1 * (Real.sqrt 2 / 2)),
      Real.exp 3.1416 * qP ^ ((2 * i + 1) ^ 2) * ((octant i).2 * (Real.sqrt 2 / 2))⟩ := by
    apply Complex.ext
    · rw [Complex.exp_re]; simp only [parPole]; rw [he, hc]
    · rw [Complex.exp_im]; simp only [parPole]; rw [he, hs]
  rw [parWt, hE]
  apply Complex.ext
  · simp only [Complex.mul_re]; ring
  · simp only [Complex.mul_im]; ring

theorem octant_abs (i : ℕ) : |((octant i).1 : ℝ)| = 1 ∧ |((octant i).2 : ℝ)| = 1 := by
  induction i with
  | zero => simp [octant]
  | succ i ih => simp only [octant, Int.cast_neg, abs_neg]; exact ⟨ih.2, ih.1⟩

theorem qQ_unit : |qP| ≤ 1 ∧ |qQ| ≤ 1 := by
  constructor
  · rw [qP, abs_of_pos (Real.exp_pos _), Real.exp_le_one_iff]
    have := sq_nonneg Real.pi
    linarith
  · unfold qQ; rw [abs_of_pos (by norm_num)]; norm_num

theorem parWt_close (i : ℕ) {P Q : ℝ} (hi : i < 12)
    (h1 : |eQ * qQ ^ ((2 * i + 1) ^ 2) * rQ * (-0.25 * (octant i).1 + 0.2388 / 24 * piQ * ((2 * i + 1 : ℕ) : ℝ) * (octant i).2) - P| ≤ 8e-17)
    (h2 : |eQ * qQ ^ ((2 * i + 1) ^ 2) * rQ * (-0.25 * (octant i).2 - 0.2388 / 24 * piQ * ((2 * i + 1 : ℕ) : ℝ) * (octant i).1) - Q| ≤ 8e-17) :
    ‖parWt i - ⟨P, Q⟩‖ ≤ 2e-16 := by
  have hn : ((2 * i + 1 : ℕ) : ℝ) ≤ 23 := by exact_mod_cast (by omega : 2 * i + 1 ≤ 23)
  have hn0 : (0 : ℝ) ≤ ((2 * i + 1 : ℕ) : ℝ) := Nat.cast_nonneg _
  have hm : (((2 * i + 1) ^ 2 : ℕ) : ℝ) ≤ 529 := by exact_mod_cast Nat.pow_le_pow_left (by omega : 2 * i + 1 ≤ 23) 2
  obtain ⟨o1, o2⟩ := octant_abs i
  obtain ⟨u1, u2⟩ := qQ_unit
  refine (Complex.norm_le_abs_re_add_abs_im _).trans ?_
  rw [parWt_eq]
  simp only [Complex.sub_re, Complex.sub_im]
  generalize ((2 * i + 1 : ℕ) : ℝ) = n at *
  have hq := (pow_close u1 u2 qQ_close ((2 * i + 1) ^ 2)).trans (mul_le_mul_of_nonneg_right hm (by norm_num : (0 : ℝ) ≤ 1e-21))
  have hqa : |qQ ^ ((2 * i + 1) ^ 2)| ≤ 1 := by rw [abs_pow]; exact pow_le_one₀ (abs_nonneg _) u2
  have hqb : |qP ^ ((2 * i + 1) ^ 2)| ≤ 1 := by rw [abs_pow]; exact pow_le_one₀ (abs_nonneg _) u1
  generalize qQ ^ ((2 * i + 1) ^ 2) = x at *
  generalize qP ^ ((2 * i + 1) ^ 2) = y at *
  have hE : |Real.exp 3.1416| ≤ 24 := by
    have := abs_le.1 eQ_close
    rw [abs_of_pos (Real.exp_pos _)]
    have h : eQ + 1e-21 ≤ 24 := by unfold eQ; norm_num
    linarith
  have hr : |rQ| ≤ 1 := by unfold rQ; rw [abs_of_pos (by norm_num)]; norm_num
  have g1 := mul_close' eQ_close hq hE hqa
  have g1b : |Real.exp 3.1416 * y| ≤ 24 := by rw [abs_mul]; calc _ ≤ (24 : ℝ) * 1 := mul_le_mul hE hqb (abs_nonneg _) (by norm_num)
    _ = 24 := by norm_num
  have g2 := mul_close' g1 rQ_close g1b hr
  have hs2 : |Real.sqrt 2 / 2| ≤ 1 := by
    rw [abs_of_nonneg (by positivity)]
    have : Real.sqrt 2 ≤ 2 := Real.sqrt_le_iff.2 ⟨by norm_num, by norm_num⟩
    linarith
  have g2b : |Real.exp 3.1416 * y * (Real.sqrt 2 / 2)| ≤ 24 := by
    rw [abs_mul]; calc _ ≤ (24 : ℝ) * 1 := mul_le_mul g1b hs2 (abs_nonneg _) (by norm_num)
    _ = 24 := by norm_num
  have hf : ∀ s c : ℝ, |s| = 1 → |c| = 1 →
      |(-0.25 * c + 0.2388 / 24 * Real.pi * n * s) - (-0.25 * c + 0.2388 / 24 * piQ * n * s)| ≤ 1e-20 := by
    intro s c hs hc
    have e : (-0.25 * c + 0.2388 / 24 * Real.pi * n * s) - (-0.25 * c + 0.2388 / 24 * piQ * n * s) = 0.2388 / 24 * (n * ((Real.pi - piQ) * s)) := by ring
    rw [e, abs_mul, abs_mul, abs_mul, hs, abs_of_nonneg hn0, mul_one, abs_of_pos (by norm_num)]
    calc (0.2388 / 24 : ℝ) * (n * |Real.pi - piQ|) ≤ 0.2388 / 24 * (23 * 1e-20) :=
          mul_le_mul_of_nonneg_left (mul_le_mul hn piQ_close (abs_nonneg _) (by norm_num)) (by norm_num)
      _ ≤ 1e-20 := by norm_num
  have hfb : ∀ s c : ℝ, |s| = 1 → |c| = 1 → |-0.25 * c + 0.2388 / 24 * piQ * n * s| ≤ 1 := by
    intro s c hs hc
    have hp : piQ ≤ 3.2 := by unfold piQ; norm_num
    have hp0 : 0 ≤ piQ := by unfold piQ; norm_num
    refine (abs_add_le _ _).trans ?_
    rw [abs_mul, abs_mul, hs, hc, abs_of_nonneg (by positivity : 0 ≤ 0.2388 / 24 * piQ * n), abs_of_neg (by norm_num : (-0.25 : ℝ) < 0)]
    have : piQ * n ≤ 3.2 * 23 := mul_le_mul hp hn hn0 (by norm_num)
    norm_num at this ⊢
    linarith
  have fin : ∀ s c T : ℝ, |s| = 1 → |c| = 1 → |eQ * x * rQ * (-0.25 * c + 0.2388 / 24 * piQ * n * s) - T| ≤ 8e-17 →
      |Real.exp 3.1416 * y * (Real.sqrt 2 / 2) * (-0.25 * c + 0.2388 / 24 * Real.pi * n * s) - T| ≤ 1e-16 := by
    intro s c T hs hc hT
    have g3 := mul_close' g2 (hf s c hs hc) g2b (hfb s c hs hc)
    generalize Real.exp 3.1416 * y * (Real.sqrt 2 / 2) * (-0.25 * c + 0.2388 / 24 * Real.pi * n * s) = A at *
    generalize eQ * x * rQ * (-0.25 * c + 0.2388 / 24 * piQ * n * s) = B at *
    have := abs_sub_le A B T
    norm_num at g3 hT ⊢
    linarith
  have f1 := fin _ _ P o2 o1 h1
  have o1' : |(-((octant i).1 : ℝ))| = 1 := by rw [abs_neg]; exact o1
  have f2 := fin (-((octant i).1 : ℝ)) ((octant i).2 : ℝ) Q o1' o2 (by
    have e : -0.25 * ((octant i).2 : ℝ) + 0.2388 / 24 * piQ * n * -((octant i).1 : ℝ)
      = -0.25 * (octant i).2 - 0.2388 / 24 * piQ * n * (octant i).1 := by ring
    rw [e]; exact h2)
  have e : -0.25 * ((octant i).2 : ℝ) + 0.2388 / 24 * Real.pi * n * -((octant i).1 : ℝ)
      = -0.25 * (octant i).2 - 0.2388 / 24 * Real.pi * n * (octant i).1 := by ring
  rw [e] at f2
  norm_num at f1 f2 ⊢
  linarith

set_option maxRecDepth 100000 in
set_option exponentiation.threshold 600 in
theorem par_entries : ∀ i (hi : i < 12), ‖parPole i - (parTab[i]'hi).pole parD‖ ≤ 2e-16 ∧ ‖parWt i - (parTab[i]'hi).coef parD‖ ≤ 2e-16 := by
  intro i hi
  refine ⟨parPole_close i hi ?_ ?_, parWt_close i hi ?_ ?_⟩ <;>
  · interval_cases i <;>
    · simp only [parTab, List.getElem_cons_zero, List.getElem_cons_succ, parD, piQ, eQ, qQ, rQ, octant]
      rw [abs_le]
      constructor <;> norm_num

/-! ### the scalar errors -/

theorem div_close {a a' u u' : ℂ} {ε δ B : ℝ} (ha : ‖a - a'‖ ≤ ε) (hu : ‖u - u'‖ ≤ δ) (hB : ‖a'‖ ≤ B) (h1 : 3 / 4 ≤ ‖u‖) (h2 : 3 / 4 ≤ ‖u'‖) :
    ‖a / u - a' / u'‖ ≤ 4 / 3 * ε + 16 / 9 * (B * δ) ∧ ‖a' / u'‖ ≤ 4 / 3 * B := by
  have hu0 : u ≠ 0 := by rintro rfl; norm_num at h1
  have hu1 : u' ≠ 0 := by rintro rfl; norm_num at h2
  have i1 : ‖u‖⁻¹ ≤ 4 / 3 := by rw [inv_le_comm₀ (by linarith) (by norm_num)]; linarith
  have i2 : ‖u'‖⁻¹ ≤ 4 / 3 := by rw [inv_le_comm₀ (by linarith) (by norm_num)]; linarith
  have hB0 : 0 ≤ B := (norm_nonneg _).trans hB
  have hε0 : 0 ≤ ε := (norm_nonneg _).trans ha
  have hδ0 : 0 ≤ δ := (norm_nonneg _).trans hu
  constructor
  · have e : a / u - a' / u' = (a - a') * u⁻¹ + (a' * (u' - u)) * (u⁻¹ * u'⁻¹) := by field_simp; ring
    rw [e]
    refine (norm_add_le _ _).trans (add_le_add ?_ ?_)
    · rw [norm_mul, norm_inv, mul_comm]
      exact mul_le_mul i1 ha (norm_nonneg _) (by norm_num)
    · rw [norm_mul, norm_mul, norm_mul, norm_inv, norm_inv, norm_sub_rev, mul_comm]
      refine mul_le_mul ?_ (mul_le_mul hB hu (norm_nonneg _) hB0) (by positivity) (by norm_num)
      calc ‖u‖⁻¹ * ‖u'‖⁻¹ ≤ 4 / 3 * (4 / 3) := mul_le_mul i1 i2 (by positivity) (by norm_num)
        _ = 16 / 9 := by norm_num
  · rw [norm_div, div_eq_mul_inv, mul_comm]
    exact mul_le_mul i2 hB (norm_nonneg _) (by norm_num)

theorem term_close {p p' w w' : ℂ} (hp : ‖p - p'‖ ≤ 2e-16) (hw : ‖w - w'‖ ≤ 2e-16) (hB : ‖w'‖ ≤ 7) (h1 : 3 / 4 ≤ |p.im|)
    (h2 : 3 / 4 ≤ |p'.im|) (k : ℕ) (hk : k ≤ 2) (x : ℝ) :
    |(2 * w / p ^ k / ((x : ℂ) - p)).re - (2 * w' / p' ^ k / ((x : ℂ) - p')).re| ≤ 3e-14 := by
  have n1 := h1.trans (Complex.abs_im_le_norm p)
  have n2 := h2.trans (Complex.abs_im_le_norm p')
  have m1 : 3 / 4 ≤ ‖(x : ℂ) - p‖ := by
    refine h1.trans (le_trans ?_ (Complex.abs_im_le_norm _))
    simp
  have m2 : 3 / 4 ≤ ‖(x : ℂ) - p'‖ := by
    refine h2.trans (le_trans ?_ (Complex.abs_im_le_norm _))
    simp
  have hd : ‖((x : ℂ) - p) - ((x : ℂ) - p')‖ ≤ 2e-16 := by
    rw [sub_sub_sub_cancel_left, norm_sub_rev]; exact hp
  have a0 : ‖2 * w - 2 * w'‖ ≤ 4e-16 := by
    rw [← mul_sub, norm_mul, Complex.norm_ofNat]
    norm_num at hw ⊢
    linarith
  have b0 : ‖2 * w'‖ ≤ 14 := by rw [norm_mul, Complex.norm_ofNat]; linarith
  obtain ⟨a1, b1⟩ := div_close a0 hp b0 n1 n2
  obtain ⟨a2, b2⟩ := div_close a1 hp b1 n1 n2
  rw [← Complex.sub_re]
  refine (Complex.abs_re_le_norm _).trans ?_
  obtain rfl | rfl | rfl : k = 0 ∨ k = 1 ∨ k = 2 := by omega
  · simp only [pow_zero, div_one]
    refine (div_close a0 hd b0 m1 m2).1.trans (by norm_num)
  · simp only [pow_one]
    refine (div_close a1 hd b1 m1 m2).1.trans (by norm_num)
  · rw [sq p, sq p', ← div_div (2 * w), ← div_div (2 * w')]
    refine (div_close a2 hd b2 m1 m2).1.trans (by norm_num)

/-- the rounded table -/
noncomputable def parPfdQ : Pfd := ⟨parTab.map fun e => e.pole parD, parTab.map fun e => e.coef parD, 0⟩

theorem zip_map_map {α β γ : Type*} (l : List α) (f : α → β) (g : α → γ) : (l.map f).zip (l.map g) = l.map fun e => (f e, g e) := by
  induction l with
  | nil => rfl
  | cons a l ih => simp [ih]

theorem parQ_matches : Matches parPfdQ parD parC0 parTab := ⟨by simp [parPfdQ, parC0], zip_map_map _ _ _⟩

theorem parQ_im : ∀ e ∈ parTab, 3 / 4 ≤ |(e.pole parD).im| := by
  intro e he
  simp only [parTab, List.mem_cons, List.not_mem_nil, or_false] at he
  rcases he with h | h | h | h | h | h | h | h | h | h | h | h <;> rw [h] <;> simp only [RTerm.pole, parD] <;>
    rw [abs_of_pos (by norm_num)] <;> norm_num

theorem parQ_coef : ∀ e ∈ parTab, ‖e.coef parD‖ ≤ 7 := by
  intro e he
  refine (Complex.norm_le_sqrt_two_mul_max _).trans ?_
  have hs : Real.sqrt 2 ≤ 1.42 := Real.sqrt_le_iff.2 ⟨by norm_num, by norm_num⟩
  have hm : max |(e.coef parD).re| |(e.coef parD).im| ≤ 4.4 := by
    simp only [parTab, List.mem_cons, List.not_mem_nil, or_false] at he
    rcases he with h | h | h | h | h | h | h | h | h | h | h | h <;> rw [h] <;> simp only [RTerm.coef, parD] <;>
      refine max_le (abs_le.2 ⟨?_, ?_⟩) (abs_le.2 ⟨?_, ?_⟩) <;> norm_num
  calc Real.sqrt 2 * max |(e.coef parD).re| |(e.coef parD).im| ≤ 1.42 * 4.4 :=
        mul_le_mul hs hm (le_max_of_le_left (abs_nonneg _)) (by norm_num)
    _ ≤ 7 := by norm_num

theorem parQ_nonReal : NonReal parPfdQ := by
  intro p hp
  obtain ⟨e, he, rfl⟩ := List.mem_map.1 hp
  have := parQ_im e he
  intro h
  rw [h] at this
  norm_num at this

theorem par_scalar_close (k : ℕ) (hk : k ≤ 2) (x : ℝ) : |pfdScalar parPfd k x - pfdScalar parPfdQ k x| ≤ 4e-13 := by
  have hlen : parTab.length = 12 := rfl
  have hT : parTab = (List.range 12).map fun i => parTab.getD i ⟨0, 0, 0, 0, 0⟩ := rfl
  have e1 : parPfd.poles.zip parPfd.coeffs = (List.range 12).map fun i => (parPole i, parWt i) := zip_map_map _ _ _
  have e2 : parPfdQ.poles.zip parPfdQ.coeffs
      = (List.range 12).map fun i => ((parTab.getD i ⟨0, 0, 0, 0, 0⟩).pole parD, (parTab.getD i ⟨0, 0, 0, 0, 0⟩).coef parD) := by
    show (parTab.map _).zip (parTab.map _) = _
    rw [zip_map_map]
    conv_lhs => rw [hT]
    rw [List.map_map]
    rfl
  have hc : ∀ i < 12, |(2 * parWt i / parPole i ^ k / ((x : ℂ) - parPole i)).re
      - (2 * (parTab.getD i ⟨0, 0, 0, 0, 0⟩).coef parD / (parTab.getD i ⟨0, 0, 0, 0, 0⟩).pole parD ^ k
        / ((x : ℂ) - (parTab.getD i ⟨0, 0, 0, 0, 0⟩).pole parD)).re| ≤ 3e-14 := by
    intro i hi
    obtain ⟨h1, h2⟩ := par_entries i hi
    have hm : parTab[i]'hi ∈ parTab := List.getElem_mem _
    have hg : parTab.getD i ⟨0, 0, 0, 0, 0⟩ = parTab[i]'hi := by interval_cases i <;> rfl
    rw [hg]
    exact term_close h1 h2 (parQ_coef _ hm) ((parPole_im i).trans (le_abs_self _)) (parQ_im _ hm) k hk x
  rw [pfdScalar, pfdScalar, e1, e2, List.map_map, List.map_map]
  have e3 : parPfd.c0 = parPfdQ.c0 := rfl
  rw [e3, add_sub_add_left_eq_sub]
  have gen : ∀ (m : ℕ) (f g : ℕ → ℝ), (∀ i < m, |f i - g i| ≤ 3e-14) →
      |((List.range m).map f).sum - ((List.range m).map g).sum| ≤ m * 3e-14 := by
    intro m f g h
    induction m with
    | zero => simp
    | succ m ih =>
      rw [List.range_succ, List.map_append, List.map_append, List.sum_append, List.sum_append]
      simp only [List.map_cons, List.map_nil, List.sum_cons, List.sum_nil, add_zero]
      rw [add_sub_add_comm]
      refine (abs_add_le _ _).trans ?_
      have h1 := ih fun i hi => h i (by omega)
      have h2 := h m (by omega)
      push_cast
      linarith
  refine (gen 12 _ _ hc).trans (by norm_num)

/-- The bounds for the contour: `exp`, `phi_1`, `phi_2`. -/
noncomputable def parTol (l : ℕ) : ℝ := if l = 0 then 2.9e-11 else if l = 1 then 2.7e-9 else 4.7e-8

theorem parTol_nonneg (l : ℕ) : 0 ≤ parTol l := by unfold parTol; split_ifs <;> norm_num

theorem par_scalar (l : ℕ) (hl : l ≤ 2) (x : ℝ) (hx : x ≤ 0) : |pfdScalar parPfd l x - phi l x| ≤ parTol l := by
  obtain ⟨k0, k1, k2⟩ := cram_scalar parQ_matches par_side parQ_nonReal par_exp par_phi1 par_phi2 (by norm_num) (by norm_num)
  have hc := par_scalar_close l hl x
  have ht := abs_sub_le (pfdScalar parPfd l x) (pfdScalar parPfdQ l x) (phi l x)
  obtain rfl | rfl | rfl : l = 0 ∨ l = 1 ∨ l = 2 := by omega
  · have := k0 x hx
    simp only [parTol, if_true]
    norm_num at this hc ⊢
    linarith
  · have := k1 x hx
    simp only [parTol, one_ne_zero, if_false, if_true]
    norm_num at this hc ⊢
    linarith
  · have := k2 x hx
    simp only [parTol, OfNat.ofNat_ne_zero, OfNat.ofNat_ne_one, if_false]
    norm_num at this hc ⊢
    linarith

/-! ### C125 -/

/-- **C125.** For every `a = V diag(d) V^{-1}` with `dt d ≤ 0`, of any size, every vector and every parallel schedule: the evaluator built by
`gen_parabolic_expm(24)` returns `phi_l(dt a) v` (`l ≤ 2`) up to an error that in eigenvector coordinates is at most `parTol l` times the
coordinate of `v`. -/
theorem C125_accuracy {c : Cauchy} (hc : genParabolic 24 = .ok c) (V W : Mat N) (d : Fin N → ℝ) (hWV : W * V = 1) (dt : ℝ)
    (hd : ∀ i, dt * d i ≤ 0) (v : Vec N) (l : ℕ) (hl : l ≤ 2) (sp : Option (Split ℕ)) (hsp : ValidSplit 12 sp) :
    ∃ (x : Vec N) (e : Fin N → ℝ), c.phikApply (V * diagonal d * W) dt v l sp = .ok x ∧ (∀ i, |e i| ≤ parTol l) ∧
      x = phiM l (dt • (V * diagonal d * W)) *ᵥ v + V *ᵥ fun i => e i * (W *ᵥ v) i := by
  rw [genParabolic_24] at hc
  have hv := C82_value _ _ _ c hc (by simp [parPfd]) (V * diagonal d * W) dt v l sp (by simpa [parPfd] using hsp)
  rw [Complex.ofReal_re] at hv
  obtain ⟨e, h1, h2⟩ := fPhiKPfd_error parPfd par_nonReal l (parTol l) (par_scalar l hl) V W (fun i => dt * d i) hWV hd v
  rw [← smul_diag] at h2
  refine ⟨_, e, hv, h1, ?_⟩
  have e3 : (if l = 0 then 0 else parPfd.c0 • v) = (0 : Vec N) := by split_ifs <;> simp [parPfd]
  rw [e3, add_zero]
  exact h2

/-- **C125, symmetric.** For a symmetric negative semidefinite `a` and `dt ≥ 0` the Euclidean error is at most `parTol l ‖v‖`. -/
theorem C125_symmetric {c : Cauchy} (hc : genParabolic 24 = .ok c) (a : Mat N) (ha : aᵀ = a) (hneg : ∀ v : Vec N, v ⬝ᵥ (a *ᵥ v) ≤ 0) (dt : ℝ)
    (hdt : 0 ≤ dt) (v : Vec N) (l : ℕ) (hl : l ≤ 2) (sp : Option (Split ℕ)) (hsp : ValidSplit 12 sp) :
    ∃ x, c.phikApply a dt v l sp = .ok x ∧ norm2 (x - phiM l (dt • a) *ᵥ v) ≤ parTol l * norm2 v := by
  obtain ⟨U, d, hU, hS, hd⟩ := symm_nonpos a ha hneg
  obtain ⟨x, e, h0, h1, h2⟩ := C125_accuracy hc U Uᵀ d hU dt (fun i => mul_nonpos_of_nonneg_of_nonpos hdt (hd i)) v l hl sp hsp
  rw [← hS] at h0 h2
  refine ⟨x, h0, ?_⟩
  rw [h2, add_sub_cancel_left, norm2_isometry hU]
  have hU' : Uᵀᵀ * Uᵀ = 1 := by rw [Matrix.transpose_transpose]; exact mul_eq_one_comm.mp hU
  rw [← norm2_isometry hU' v]
  refine norm2_le_of_abs_le _ _ _ (parTol_nonneg l) fun i => ?_
  rw [abs_mul]
  exact mul_le_mul_of_nonneg_right (h1 i) (abs_nonneg _)

/-- non-vacuity: the evaluator exists, a schedule exists, and the operator `[[-2, 1], [1, -2]]` qualifies -/
example : (∃ c, genParabolic 24 = .ok c) ∧ (∃ t : Split ℕ, ValidSplit 12 (some t)) ∧
    (!![-2, 1; 1, -2] : Mat 2)ᵀ = !![-2, 1; 1, -2] ∧ ∀ v : Vec 2, v ⬝ᵥ ((!![-2, 1; 1, -2] : Mat 2) *ᵥ v) ≤ 0 := by
  refine ⟨⟨_, by rw [genParabolic_24]; unfold Cauchy.new; rw [if_neg (by simp [parPfd])]⟩, ?_, ?_, ?_⟩
  · exact ⟨.node (.node (.node (.leaf 0) (.leaf 1)) (.node (.leaf 2) (.node (.leaf 3) (.leaf 4)))) (.node (.node (.leaf 5) (.leaf 6))
      (.node (.node (.leaf 7) (.leaf 8)) (.node (.leaf 9) (.node (.leaf 10) (.leaf 11))))), List.Perm.refl _⟩
  · ext i j; fin_cases i <;> fin_cases j <;> rfl
  · intro v
    simp only [Matrix.mulVec, dotProduct, Fin.sum_univ_two, Matrix.of_apply, Matrix.cons_val_zero, Matrix.cons_val_one]
    nlinarith [sq_nonneg (v 0 - v 1), sq_nonneg (v 0), sq_nonneg (v 1)]

end Ormatex.Props
