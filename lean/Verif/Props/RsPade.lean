import Verif.Props.RsPhi
import Verif.Props.PhiAcc
import Mathlib.RingTheory.PowerSeries.Derivative
import Mathlib.Analysis.Normed.Ring.InfiniteSum

/-!
C80: the matrix exponential of the Rust crate (`matexp`, matexp_pade.rs). The specification of the diagonal Pade
approximants is `padeD` (the classical coefficients); the accuracy is measured against `NormedSpace.exp`.
-/

namespace Ormatex.Props
open Matrix Ormatex.Spec Ormatex.Rs
open scoped Nat

/-- Coefficient of `x^k` in the denominator of the diagonal Pade approximant of order `m` of the exponential,
normalised to `1` at `k = 0`. -/
noncomputable def padeD (m k : ℕ) : ℝ :=
  if k ≤ m then (-1) ^ k * ((2 * m - k)! : ℝ) * (m)! / ((2 * m)! * (k)! * (m - k)!) else 0

/-- the two-term recurrence of the coefficients -/
theorem padeD_rec (m k : ℕ) : (k + 1 : ℝ) * (2 * m - k) * padeD m (k + 1) = -(m - k) * padeD m k := by
  rcases lt_trichotomy k m with h | rfl | h
  · obtain ⟨r, rfl⟩ : ∃ r, m = k + 1 + r := ⟨m - (k + 1), by omega⟩
    have e1 : 2 * (k + 1 + r) - (k + 1) = k + 1 + 2 * r := by omega
    have e2 : 2 * (k + 1 + r) - k = k + 1 + 2 * r + 1 := by omega
    have e3 : k + 1 + r - (k + 1) = r := by omega
    have e4 : k + 1 + r - k = r + 1 := by omega
    unfold padeD
    rw [if_pos (by omega), if_pos (by omega), e1, e2, e3, e4, Nat.factorial_succ (k + 1 + 2 * r), Nat.factorial_succ k,
      Nat.factorial_succ r]
    push_cast
    field_simp
    ring
  · unfold padeD
    rw [if_neg (by omega), if_pos le_rfl]
    ring
  · unfold padeD
    rw [if_neg (by omega), if_neg (by omega)]
    ring

theorem padeD_zero (m : ℕ) : padeD m 0 = 1 := by
  unfold padeD
  rw [if_pos (by omega)]
  have h1 : ((2 * m)! : ℝ) ≠ 0 := by positivity
  have h2 : ((m)! : ℝ) ≠ 0 := by positivity
  simp [h1, h2]

/-- Taylor coefficients of `e^(x/2)` -/
noncomputable def halfE (k : ℕ) : ℝ := (1 / 2) ^ k / (k)!

/-- Taylor coefficients of `D(x) e^(x/2)` -/
noncomputable def padeF (m j : ℕ) : ℝ := PowerSeries.coeff j (PowerSeries.mk (padeD m) * PowerSeries.mk halfE)

theorem halfE_succ (k : ℕ) : halfE (k + 1) * (k + 1) = 1 / 2 * halfE k := by
  unfold halfE
  rw [Nat.factorial_succ, pow_succ]
  push_cast
  field_simp

open PowerSeries in
/-- `D(x) e^(x/2)` solves `x y'' - 2 m y' = x y / 4`. -/
theorem padeF_rec (m j : ℕ) : 4 * (j + 2 : ℝ) * (j + 1 - 2 * m) * padeF m (j + 2) = padeF m j := by
  set D : PowerSeries ℝ := mk (padeD m) with hD
  set E : PowerSeries ℝ := mk halfE with hE
  have hE1 : d⁄dX ℝ E = C (1 / 2 : ℝ) * E := by
    ext k
    rw [coeff_derivative, coeff_C_mul, hE, coeff_mk, coeff_mk, halfE_succ]
  have hD1 : X * d⁄dX ℝ (d⁄dX ℝ D) + X * d⁄dX ℝ D = C (2 * m : ℝ) * d⁄dX ℝ D + C (m : ℝ) * D := by
    ext k
    have hr := padeD_rec m k
    rw [map_add, map_add, coeff_C_mul, coeff_C_mul, coeff_derivative, hD, coeff_mk, coeff_mk]
    cases k with
    | zero =>
      simp only [coeff_zero_X_mul]
      push_cast at hr ⊢
      linarith
    | succ k =>
      rw [coeff_succ_X_mul, coeff_succ_X_mul, coeff_derivative, coeff_derivative, coeff_derivative, coeff_mk, coeff_mk]
      push_cast at hr ⊢
      linarith
  have hy : X * d⁄dX ℝ (d⁄dX ℝ (D * E)) = C (2 * m : ℝ) * d⁄dX ℝ (D * E) + C (1 / 4 : ℝ) * (X * (D * E)) := by
    have hc : (C (1 / 2 : ℝ) : PowerSeries ℝ) * C (1 / 2) = C (1 / 4) := by rw [← map_mul]; norm_num
    have hc2 : (C (2 * m : ℝ) : PowerSeries ℝ) * C (1 / 2) = C (m : ℝ) := by rw [← map_mul]; congr 1; ring
    have hc3 : (C (1 / 2 : ℝ) : PowerSeries ℝ) + C (1 / 2) = 1 := by rw [← map_add]; norm_num
    simp only [Derivation.leibniz, hE1, smul_eq_mul, map_add, derivative_C, mul_zero, add_zero]
    linear_combination E * hD1 + X * D * E * hc + X * E * (d⁄dX ℝ D) * hc3 - D * E * hc2
  have := congrArg (coeff (j + 1)) hy
  rw [coeff_succ_X_mul, map_add, coeff_C_mul, coeff_C_mul, coeff_succ_X_mul, coeff_derivative, coeff_derivative] at this
  change coeff (j + 2) (D * E) * _ * _ = _ * (coeff (j + 2) (D * E) * _) + _ * coeff j (D * E) at this
  unfold padeF
  push_cast at this
  linarith

theorem padeF_zero (m : ℕ) : padeF m 0 = 1 := by
  unfold padeF
  simp [PowerSeries.coeff_mul, padeD_zero, halfE]

theorem padeF_one (m : ℕ) (hm : 0 < m) : padeF m 1 = 0 := by
  unfold padeF
  have h := padeD_rec m 0
  rw [padeD_zero] at h
  have hm' : (0 : ℝ) < m := by exact_mod_cast hm
  have : padeD m 1 = -1 / 2 := by
    push_cast at h
    simp at h
    field_simp
    nlinarith
  simp [PowerSeries.coeff_mul, Finset.antidiagonal, padeD_zero, halfE, this]
  norm_num

/-- The odd coefficients below `2 m + 1` vanish. -/
theorem padeF_odd_zero (m i : ℕ) (h : i < m) : padeF m (2 * i + 1) = 0 := by
  induction i with
  | zero => exact padeF_one m h
  | succ i ih =>
    have hr := padeF_rec m (2 * i + 1)
    rw [ih (by omega)] at hr
    have h1 : (((2 * i + 1 : ℕ) : ℝ) + 1 - 2 * m) ≠ 0 := by
      have : ((i + 1 : ℕ) : ℝ) < m := by exact_mod_cast h
      push_cast at this ⊢
      intro h0
      linarith
    have h2 : (((2 * i + 1 : ℕ) : ℝ) + 2) ≠ 0 := by positivity
    rcases mul_eq_zero.1 hr with h0 | h0
    · rcases mul_eq_zero.1 h0 with h0 | h0
      · rcases mul_eq_zero.1 h0 with h0 | h0
        · norm_num at h0
        · exact absurd h0 h2
      · exact absurd h0 h1
    · exact h0

theorem padeF_even_bound (m : ℕ) (hm : 0 < m) (i : ℕ) : |padeF m (2 * i)| ≤ (1 / (8 * m)) ^ i := by
  have hm' : (0 : ℝ) < m := by exact_mod_cast hm
  induction i with
  | zero => simp [padeF_zero]
  | succ i ih =>
    have hr := padeF_rec m (2 * i)
    have hge : (2 * m : ℝ) ≤ abs ((((2 * i : ℕ) : ℝ) + 2) * (((2 * i : ℕ) : ℝ) + 1 - 2 * m)) := by
      push_cast
      have hi : (0 : ℝ) ≤ i := by positivity
      rcases Nat.lt_or_ge i m with h | h
      · have h' : (i : ℝ) + 1 ≤ m := by exact_mod_cast h
        rw [abs_of_nonpos (by nlinarith)]
        nlinarith
      · have h' : (m : ℝ) ≤ i := by exact_mod_cast h
        rw [abs_of_nonneg (by nlinarith)]
        nlinarith
    have habs : |padeF m (2 * i)| = 4 * abs ((((2 * i : ℕ) : ℝ) + 2) * (((2 * i : ℕ) : ℝ) + 1 - 2 * m)) *
        |padeF m (2 * i + 2)| := by
      rw [← hr, mul_assoc 4, abs_mul, abs_mul]
      norm_num
    rw [show 2 * (i + 1) = 2 * i + 2 by ring, pow_succ]
    have : 8 * m * |padeF m (2 * i + 2)| ≤ |padeF m (2 * i)| := by
      rw [habs]
      have := abs_nonneg (padeF m (2 * i + 2))
      nlinarith
    rw [mul_one_div, le_div_iff₀ (by positivity)]
    linarith

theorem padeF_odd_bound (m : ℕ) (i : ℕ) :
    |padeF m (2 * (m + i) + 1)| ≤ |padeF m (2 * m + 1)| * (1 / (8 * (2 * m + 3))) ^ i := by
  induction i with
  | zero => simp
  | succ i ih =>
    have hr := padeF_rec m (2 * (m + i) + 1)
    have hi : (0 : ℝ) ≤ i := by positivity
    have hmm : (0 : ℝ) ≤ m := by positivity
    have habs : |padeF m (2 * (m + i) + 1)| = (4 * (2 * (m + i) + 3) * (2 * i + 2)) * |padeF m (2 * (m + i) + 1 + 2)| := by
      rw [← hr, abs_mul, abs_of_nonneg]
      · push_cast; ring
      · push_cast
        have : (2 * ((m : ℝ) + i) + 1 + 1 - 2 * m) = 2 * i + 2 := by ring
        rw [this]
        positivity
    have : 8 * (2 * m + 3) * |padeF m (2 * (m + i) + 1 + 2)| ≤ |padeF m (2 * (m + i) + 1)| := by
      rw [habs]
      refine mul_le_mul_of_nonneg_right ?_ (abs_nonneg _)
      nlinarith
    rw [show 2 * (m + (i + 1)) + 1 = 2 * (m + i) + 1 + 2 by ring, pow_succ, ← mul_assoc, mul_one_div,
      le_div_iff₀ (by positivity)]
    linarith

/-! ### Banach algebra estimate -/

section banach
set_option linter.unusedSectionVars false
variable {𝔸 : Type*} [NormedRing 𝔸] [NormedAlgebra ℝ 𝔸] [CompleteSpace 𝔸]

/-- denominator of the Pade approximant of order `m` -/
noncomputable def padePoly (m : ℕ) (x : 𝔸) : 𝔸 := ∑ k ∈ Finset.range (m + 1), padeD m k • x ^ k

theorem padeF_hasSum (m : ℕ) (x : 𝔸) :
    HasSum (fun j => padeF m j • x ^ j) (padePoly m x * NormedSpace.exp ((1 / 2 : ℝ) • x)) := by
  have hf0 : ∀ k ∉ Finset.range (m + 1), padeD m k • x ^ k = 0 := by
    intro k hk
    have : m < k := by simpa [Nat.lt_succ_iff] using hk
    unfold padeD
    rw [if_neg (by omega), zero_smul]
  have hf : HasSum (fun k => padeD m k • x ^ k) (padePoly m x) := hasSum_sum_of_ne_finset_zero hf0
  have hfn : Summable fun k => ‖padeD m k • x ^ k‖ := by
    refine summable_of_ne_finset_zero (s := Finset.range (m + 1)) fun k hk => ?_
    rw [hf0 k hk, norm_zero]
  have eg : (fun k : ℕ => halfE k • x ^ k) = fun k : ℕ => ((k ! : ℝ)⁻¹) • ((1 / 2 : ℝ) • x) ^ k := by
    funext k
    rw [smul_pow, smul_smul]
    congr 1
    unfold halfE
    rw [div_eq_inv_mul]
  have hg : HasSum (fun k : ℕ => halfE k • x ^ k) (NormedSpace.exp ((1 / 2 : ℝ) • x)) := by
    rw [eg]
    have := phi_hasSum 0 ((1 / 2 : ℝ) • x)
    rw [phi_zero] at this
    exact this
  have hgn : Summable fun k : ℕ => ‖halfE k • x ^ k‖ := by
    have := NormedSpace.norm_expSeries_summable' (𝕂 := ℝ) ((1 / 2 : ℝ) • x)
    refine this.congr fun k => ?_
    rw [← congrFun eg k]
  have := hasSum_sum_range_mul_of_summable_norm hfn hgn
  rw [hf.tsum_eq, hg.tsum_eq] at this
  refine (congrArg (fun f : ℕ → 𝔸 => HasSum f (padePoly m x * NormedSpace.exp ((1 / 2 : ℝ) • x))) ?_).mpr this
  funext j
  unfold padeF
  rw [PowerSeries.coeff_mul, Finset.Nat.sum_antidiagonal_eq_sum_range_succ_mk, Finset.sum_smul]
  refine Finset.sum_congr rfl fun k hk => ?_
  have hk' : k ≤ j := by simpa [Nat.lt_succ_iff] using hk
  simp only [PowerSeries.coeff_mk]
  rw [smul_mul_smul_comm, ← pow_add, Nat.add_sub_cancel' hk']

theorem norm_sum_le_geom {f : ℕ → 𝔸} {a : 𝔸} (hf : HasSum f a) {c r : ℝ} (hr0 : 0 ≤ r) (hr : r < 1)
    (h : ∀ i, ‖f i‖ ≤ c * r ^ i) : ‖a‖ ≤ c / (1 - r) := by
  have hg := (hasSum_geometric_of_lt_one hr0 hr).mul_left c
  rw [← hf.tsum_eq, div_eq_mul_inv]
  exact tsum_of_norm_bounded hg h

theorem norm_pow_pos_le (x : 𝔸) {ρ : ℝ} (hx : ‖x‖ ≤ ρ) {k : ℕ} (hk : 0 < k) : ‖x ^ k‖ ≤ ρ ^ k :=
  (norm_pow_le' x hk).trans (pow_le_pow_left₀ (norm_nonneg _) hx k)

/-- size of the odd part -/
noncomputable def padeS (m : ℕ) (ρ : ℝ) : ℝ := |padeF m (2 * m + 1)| * ρ ^ (2 * m + 1) / (1 - ρ ^ 2 / (8 * (2 * m + 3)))

/-- size of `D(x) e^(x/2) - 1` -/
noncomputable def padeW (m : ℕ) (ρ : ℝ) : ℝ := (ρ ^ 2 / (8 * m)) / (1 - ρ ^ 2 / (8 * m)) + padeS m ρ

set_option maxHeartbeats 1000000 in
/-- The Pade quotient is `e^x (1 + G)` with an explicit bound on `G`. -/
theorem pade_core (m : ℕ) (hm : 0 < m) (x : 𝔸) (ρ : ℝ) (hx : ‖x‖ ≤ ρ) (hq : ρ ^ 2 / (8 * m) < 1) (hw : padeW m ρ < 1)
    (hpm : NormedSpace.exp ((1 / 2 : ℝ) • x) * NormedSpace.exp ((1 / 2 : ℝ) • (-x)) = 1)
    (hmp : NormedSpace.exp ((1 / 2 : ℝ) • (-x)) * NormedSpace.exp ((1 / 2 : ℝ) • x) = 1)
    (hsq : NormedSpace.exp ((1 / 2 : ℝ) • x) * NormedSpace.exp ((1 / 2 : ℝ) • x) = NormedSpace.exp x) :
    IsUnit (padePoly m x) ∧ ∃ G : 𝔸, ‖G‖ ≤ 2 * padeS m ρ / (1 - padeW m ρ) ∧ Commute G (NormedSpace.exp x) ∧
      padePoly m (-x) = padePoly m x * (NormedSpace.exp x * (1 + G)) ∧ (x ^ (2 * m + 1) = 0 → G = 0) ∧
      ∀ r ≤ 2 * m, ‖G‖ * ρ ^ r ≤ 2 * padeS m ρ / (1 - padeW m ρ) * ‖x ^ r‖ := by
  have hm' : (0 : ℝ) < m := by exact_mod_cast hm
  have hρ : 0 ≤ ρ := (norm_nonneg x).trans hx
  have hall := padeF_hasSum m x
  have hneg := padeF_hasSum m (-x)
  set P := padePoly m x with hP
  set P' := padePoly m (-x) with hP'
  set ep := NormedSpace.exp ((1 / 2 : ℝ) • x) with hep
  set em := NormedSpace.exp ((1 / 2 : ℝ) • (-x)) with hem
  have hse := hall.summable.comp_injective (mul_right_injective₀ (two_ne_zero' ℕ))
  have hso := hall.summable.comp_injective ((add_left_injective 1).comp (mul_right_injective₀ (two_ne_zero' ℕ)))
  obtain ⟨Se, hSe⟩ := hse
  obtain ⟨So, hSo⟩ := hso
  simp only [Function.comp_def] at hSe hSo
  have hplus : P * ep = Se + So := (hall.unique (hSe.even_add_odd hSo))
  have hminus : P' * em = Se - So := by
    have h1 : HasSum (fun k => padeF m (2 * k) • (-x) ^ (2 * k)) Se := by
      simpa using hSe
    have h2 : HasSum (fun k => padeF m (2 * k + 1) • (-x) ^ (2 * k + 1)) (-So) := by
      have e : (fun k => padeF m (2 * k + 1) • (-x) ^ (2 * k + 1)) = fun k => -(padeF m (2 * k + 1) • x ^ (2 * k + 1)) := by
        funext k
        rw [Odd.neg_pow ⟨k, rfl⟩, smul_neg]
      rw [e]
      exact hSo.neg
    rw [sub_eq_add_neg]
    exact hneg.unique (h1.even_add_odd h2)
  -- bounds
  have hq0 : 0 ≤ ρ ^ 2 / (8 * m) := by positivity
  have hq2 : ρ ^ 2 / (8 * (2 * m + 3)) < 1 := by
    refine lt_of_le_of_lt ?_ hq
    gcongr
    linarith
  have hbe : ‖Se - 1‖ ≤ (ρ ^ 2 / (8 * m)) / (1 - ρ ^ 2 / (8 * m)) := by
    have h1 := (hasSum_nat_add_iff' 1).mpr hSe
    simp only [Finset.range_one, Finset.sum_singleton, mul_zero, padeF_zero, pow_zero, one_smul] at h1
    refine norm_sum_le_geom h1 hq0 hq fun i => ?_
    rw [norm_smul, Real.norm_eq_abs]
    have a1 := padeF_even_bound m hm (i + 1)
    have a2 := norm_pow_pos_le x hx (k := 2 * (i + 1)) (by omega)
    calc _ ≤ (1 / (8 * m)) ^ (i + 1) * ρ ^ (2 * (i + 1)) := mul_le_mul a1 a2 (norm_nonneg _) (by positivity)
      _ = _ := by rw [pow_mul, ← mul_pow, one_div_mul_eq_div, pow_succ, mul_comm]
  have hSo' : HasSum (fun i => padeF m (2 * (m + i) + 1) • x ^ (2 * (m + i) + 1)) So := by
    have h1 := (hasSum_nat_add_iff' m).mpr hSo
    have h0 : ∑ i ∈ Finset.range m, padeF m (2 * i + 1) • x ^ (2 * i + 1) = 0 :=
      Finset.sum_eq_zero fun i hi => by rw [padeF_odd_zero m i (Finset.mem_range.1 hi), zero_smul]
    rw [h0, sub_zero] at h1
    have e : (fun i => padeF m (2 * (m + i) + 1) • x ^ (2 * (m + i) + 1)) =
        fun i => padeF m (2 * (i + m) + 1) • x ^ (2 * (i + m) + 1) := by
      funext i; rw [add_comm m i]
    rw [e]
    exact h1
  have hbo : ‖So‖ ≤ padeS m ρ := by
    refine norm_sum_le_geom hSo' (by positivity) hq2 fun i => ?_
    rw [norm_smul, Real.norm_eq_abs]
    have a1 := padeF_odd_bound m i
    have a2 := norm_pow_pos_le x hx (k := 2 * (m + i) + 1) (by omega)
    calc _ ≤ (|padeF m (2 * m + 1)| * (1 / (8 * (2 * m + 3))) ^ i) * ρ ^ (2 * (m + i) + 1) :=
          mul_le_mul a1 a2 (norm_nonneg _) (by positivity)
      _ = _ := by
        rw [show 2 * (m + i) + 1 = (2 * m + 1) + 2 * i by ring, pow_add, pow_mul ρ 2 i, div_pow, div_pow]
        ring
  set W := Se + So with hW
  have hbW : ‖1 - W‖ ≤ padeW m ρ := by
    have : 1 - W = -((Se - 1) + So) := by rw [hW]; abel
    rw [this, norm_neg]
    exact (norm_add_le _ _).trans (add_le_add hbe hbo)
  set u : 𝔸ˣ := Units.oneSub (1 - W) (lt_of_le_of_lt hbW hw) with hu
  have huW : (u : 𝔸) = W := by rw [hu, Units.val_oneSub]; abel
  have hPu : P = (u : 𝔸) * em := by
    rw [huW, ← hplus, mul_assoc, hpm, mul_one]
  -- everything commutes with x
  have cx : ∀ k, Commute x (x ^ k) := fun k => Commute.self_pow x k
  have cep : Commute x ep := ((Commute.refl x).smul_right _).exp_right
  have cem : Commute x em := (((Commute.refl x).neg_right).smul_right _).exp_right
  have cP : Commute x P := Commute.sum_right _ _ _ fun k _ => (cx k).smul_right _
  have cP' : Commute x P' := Commute.sum_right _ _ _ fun k _ => (((Commute.refl x).neg_right).pow_right k).smul_right _
  have cW : ∀ y, Commute x y → Commute W y := by
    intro y hy
    have h1 : Commute P y := Commute.sum_left _ _ _ fun k _ => ((hy.pow_left k).smul_left _)
    have h2 : Commute ep y := (hy.smul_left _).exp_left
    rw [← hplus]
    exact h1.mul_left h2
  have cSo : ∀ y, Commute x y → Commute So y := by
    intro y hy
    have h1 : Commute P' y := Commute.sum_left _ _ _ fun k _ => ((hy.neg_left.pow_left k).smul_left _)
    have h2 : Commute em y := (hy.neg_left.smul_left _).exp_left
    have h3 : So = (1 / 2 : ℝ) • (W - P' * em) := by rw [hminus, hW]; module
    rw [h3]
    exact ((cW y hy).sub_left (h1.mul_left h2)).smul_left _
  set X : 𝔸 := (↑u⁻¹ : 𝔸) * So with hX
  have cX : ∀ y, Commute x y → Commute X y := by
    intro y hy
    have : Commute (u : 𝔸) y := huW ▸ cW y hy
    exact this.units_inv_left.mul_left (cSo y hy)
  have hWX : W * X = So := by rw [hX, ← huW, ← mul_assoc, Units.mul_inv, one_mul]
  have hbX : ‖X‖ ≤ padeS m ρ / (1 - padeW m ρ) := by
    have h1 : X = So + (1 - W) * X := by rw [sub_mul, hWX, one_mul]; abel
    have h2 : ‖X‖ ≤ padeS m ρ + padeW m ρ * ‖X‖ := by
      calc ‖X‖ = ‖So + (1 - W) * X‖ := by rw [← h1]
        _ ≤ ‖So‖ + ‖(1 - W) * X‖ := norm_add_le _ _
        _ ≤ _ := add_le_add hbo ((norm_mul_le _ _).trans (mul_le_mul_of_nonneg_right hbW (norm_nonneg _)))
    rw [le_div_iff₀ (by linarith)]
    linarith
  have uem : IsUnit em := ⟨⟨em, ep, hmp, hpm⟩, rfl⟩
  refine ⟨hPu ▸ u.isUnit.mul uem, -((2 : ℝ) • X), ?_, ?_, ?_, ?_, ?_⟩
  · rw [norm_neg, norm_smul, mul_div_assoc]
    norm_num
    exact hbX
  · refine ((cX _ ?_).smul_left _).neg_left
    rw [← hsq]
    exact cep.mul_right cep
  · have e1 : P * (NormedSpace.exp x * (1 + -((2 : ℝ) • X))) = ep * (W * (1 + -((2 : ℝ) • X))) := by
      rw [← hsq, ← mul_assoc, ← mul_assoc P, hplus, ← mul_assoc ep]
      rw [(cW ep cep).eq]
    have e2 : W * (1 + -((2 : ℝ) • X)) = Se - So := by
      rw [mul_add, mul_one, mul_neg, mul_smul_comm, hWX, hW]
      module
    have e3 : Commute ep P' := Commute.sum_right _ _ _ fun k _ =>
      (((cep.neg_left).pow_left k).smul_left _).symm
    rw [e1, e2, ← hminus, ← mul_assoc, e3.eq, mul_assoc, hpm, mul_one]
  · intro h0
    have : So = 0 := by
      refine hSo'.unique ?_
      have e : (fun i => padeF m (2 * (m + i) + 1) • x ^ (2 * (m + i) + 1)) = fun _ => 0 := by
        funext i
        rw [show 2 * (m + i) + 1 = (2 * m + 1) + 2 * i by ring, pow_add, h0, zero_mul, smul_zero]
      rw [e]
      exact hasSum_zero
    rw [hX, this, mul_zero, smul_zero, neg_zero]
  · intro r hr
    have hbo2 : ‖So‖ * ρ ^ r ≤ padeS m ρ * ‖x ^ r‖ := by
      have hsum := hSo'.const_smul (ρ ^ r)
      have h1 : ‖ρ ^ r • So‖ ≤ (|padeF m (2 * m + 1)| * ρ ^ (2 * m + 1) * ‖x ^ r‖) / (1 - ρ ^ 2 / (8 * (2 * m + 3))) := by
        refine norm_sum_le_geom hsum (by positivity) hq2 fun i => ?_
        rw [norm_smul, norm_smul, Real.norm_eq_abs, Real.norm_eq_abs, abs_of_nonneg (by positivity : (0 : ℝ) ≤ ρ ^ r)]
        have a1 := padeF_odd_bound m i
        obtain ⟨d, hd⟩ : ∃ d, 2 * m + 1 = r + d := ⟨2 * m + 1 - r, by omega⟩
        have a2 : ‖x ^ (2 * (m + i) + 1)‖ ≤ ‖x ^ r‖ * ρ ^ (d + 2 * i) := by
          rw [show 2 * (m + i) + 1 = r + (d + 2 * i) by omega, pow_add]
          exact (norm_mul_le _ _).trans (mul_le_mul_of_nonneg_left (norm_pow_pos_le x hx (by omega)) (norm_nonneg _))
        calc ρ ^ r * (|padeF m (2 * (m + i) + 1)| * ‖x ^ (2 * (m + i) + 1)‖)
            ≤ ρ ^ r * ((|padeF m (2 * m + 1)| * (1 / (8 * (2 * m + 3))) ^ i) * (‖x ^ r‖ * ρ ^ (d + 2 * i))) := by
              refine mul_le_mul_of_nonneg_left (mul_le_mul a1 a2 (norm_nonneg _) (by positivity)) (by positivity)
          _ = _ := by
            rw [hd, pow_add ρ r d, pow_add ρ d, pow_mul ρ 2 i, div_pow, div_pow]
            ring
      rw [norm_smul, Real.norm_eq_abs, abs_of_nonneg (by positivity : (0 : ℝ) ≤ ρ ^ r)] at h1
      refine (le_of_eq (mul_comm _ _)).trans (h1.trans (le_of_eq ?_))
      unfold padeS
      ring
    have hbX2 : ‖X‖ * ρ ^ r ≤ padeS m ρ * ‖x ^ r‖ / (1 - padeW m ρ) := by
      have h1 : X = So + (1 - W) * X := by rw [sub_mul, hWX, one_mul]; abel
      have h2 : ‖X‖ ≤ ‖So‖ + padeW m ρ * ‖X‖ := by
        calc ‖X‖ = ‖So + (1 - W) * X‖ := by rw [← h1]
          _ ≤ ‖So‖ + ‖(1 - W) * X‖ := norm_add_le _ _
          _ ≤ _ := add_le_add le_rfl ((norm_mul_le _ _).trans (mul_le_mul_of_nonneg_right hbW (norm_nonneg _)))
      rw [le_div_iff₀ (by linarith)]
      have h3 := mul_le_mul_of_nonneg_right h2 (by positivity : (0 : ℝ) ≤ ρ ^ r)
      linarith
    rw [norm_neg, norm_smul, Real.norm_eq_abs, abs_of_pos (by norm_num : (0 : ℝ) < 2)]
    calc 2 * ‖X‖ * ρ ^ r = 2 * (‖X‖ * ρ ^ r) := by ring
      _ ≤ 2 * (padeS m ρ * ‖x ^ r‖ / (1 - padeW m ρ)) := by linarith
      _ = _ := by ring

theorem one_add_pow_sub_le (G : 𝔸) (g : ℝ) (hg : ‖G‖ ≤ g) (k : ℕ) : ‖(1 + G) ^ k - 1‖ ≤ (1 + g) ^ k - 1 := by
  induction k with
  | zero => simp
  | succ k ih =>
    have e : (1 + G) ^ (k + 1) - 1 = ((1 + G) ^ k - 1) + ((1 + G) ^ k - 1) * G + G := by
      rw [pow_succ]; noncomm_ring
    rw [e]
    have h1 := norm_mul_le ((1 + G) ^ k - 1) G
    have h2 := norm_add_le (((1 + G) ^ k - 1) + ((1 + G) ^ k - 1) * G) G
    have h3 := norm_add_le ((1 + G) ^ k - 1) (((1 + G) ^ k - 1) * G)
    have h4 : ‖(1 + G) ^ k - 1‖ * ‖G‖ ≤ ((1 + g) ^ k - 1) * g :=
      mul_le_mul ih hg (norm_nonneg _) ((norm_nonneg _).trans ih)
    rw [pow_succ]
    linarith

end banach

end Ormatex.Props
