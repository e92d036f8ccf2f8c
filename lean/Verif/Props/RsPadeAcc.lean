import Verif.Props.RsPade
import Mathlib.Analysis.Complex.Exponential
import Mathlib.RingTheory.PowerSeries.Exp

/-!
C80: the tables, the scaling and the accuracy of the matrix exponential of the Rust crate.
-/

namespace Ormatex.Props
open Matrix Ormatex.Spec Ormatex.Rs
open scoped Nat Matrix.Norms.Operator
variable {N : ℕ}

/-! ### the specification -/

open PowerSeries in
/-- C80: the polynomials specified by `padeD` are the Pade approximant of order `m`: the Taylor coefficients of
`D(x) e^x` and `N(x) = D(-x)` agree up to the power `2 m`. -/
theorem C80_pade_order (m : ℕ) (j : ℕ) (hj : j ≤ 2 * m) :
    ∑ k ∈ Finset.range (j + 1), padeD m k * (1 / (j - k)! : ℝ) = (-1) ^ j * padeD m j := by
  set D : PowerSeries ℝ := mk (padeD m) with hD
  have hE : (mk halfE : PowerSeries ℝ) = rescale (1 / 2 : ℝ) (exp ℝ) := by
    ext k
    rw [coeff_rescale, coeff_exp, coeff_mk]
    simp [halfE, div_eq_mul_inv]
  set E : PowerSeries ℝ := mk halfE with hEdef
  set E' : PowerSeries ℝ := rescale (-1 : ℝ) E with hE'
  have hEE' : E * E' = 1 := by
    rw [hE', hE, rescale_rescale, mul_comm (1 / 2 : ℝ), ← rescale_rescale, ← map_mul]
    have := exp_mul_exp_neg_eq_one (A := ℝ)
    rw [evalNegHom] at this
    rw [this, map_one]
  have hEE : E * E = exp ℝ := by
    rw [hE, exp_mul_exp_eq_exp_add]
    norm_num
  have hdvd : (X : PowerSeries ℝ) ^ (2 * m + 1) ∣ D * E - rescale (-1 : ℝ) (D * E) := by
    rw [X_pow_dvd_iff]
    intro i hi
    rw [map_sub, coeff_rescale]
    change padeF m i - (-1) ^ i * padeF m i = 0
    rcases Nat.even_or_odd' i with ⟨r, rfl | rfl⟩
    · simp
    · rw [padeF_odd_zero m r (by omega)]; simp
  have hmain : D * exp ℝ - rescale (-1 : ℝ) D = E * (D * E - rescale (-1 : ℝ) (D * E)) := by
    rw [map_mul, ← hE', ← hEE]
    linear_combination (-(rescale (-1 : ℝ) D)) * hEE' * (-1)
  have hz := X_pow_dvd_iff.1 (hmain ▸ hdvd.mul_left E) j (by omega)
  rw [map_sub, coeff_rescale, coeff_mul, Finset.Nat.sum_antidiagonal_eq_sum_range_succ_mk, hD, coeff_mk] at hz
  simp only [coeff_mk, coeff_exp] at hz
  rw [← sub_eq_zero.1 hz]
  refine Finset.sum_congr rfl fun k _ => ?_
  simp

/-! ### tables -/

/-- C80: `(u, v)` of `pade3` are `120` times the odd and even parts of the Pade numerator: `v - u` and `v + u` are multiples
of the denominator and numerator of the approximant of order 3. -/
theorem C80_tables (a : Mat N) :
    (let p := pade3 a (a ^ 2); p.2 - p.1 = (120 : ℝ) • padePoly 3 a ∧ p.1 + p.2 = (120 : ℝ) • padePoly 3 (-a)) ∧
    (let p := pade5 a (a ^ 2) (a ^ 4);
      p.2 - p.1 = (30240 : ℝ) • padePoly 5 a ∧ p.1 + p.2 = (30240 : ℝ) • padePoly 5 (-a)) ∧
    (let p := pade7 a (a ^ 2) (a ^ 4) (a ^ 6);
      p.2 - p.1 = (17297280 : ℝ) • padePoly 7 a ∧ p.1 + p.2 = (17297280 : ℝ) • padePoly 7 (-a)) ∧
    (let p := pade9 a (a ^ 2) (a ^ 4) (a ^ 6) (a ^ 8);
      p.2 - p.1 = (17643225600 : ℝ) • padePoly 9 a ∧ p.1 + p.2 = (17643225600 : ℝ) • padePoly 9 (-a)) ∧
    (let p := pade13 a (a ^ 2) (a ^ 4) (a ^ 6);
      p.2 - p.1 = (64764752532480000 : ℝ) • padePoly 13 a ∧ p.1 + p.2 = (64764752532480000 : ℝ) • padePoly 13 (-a)) := by
  have e1 : ∀ k : ℕ, a * a ^ k = a ^ (k + 1) := fun k => (pow_succ' a k).symm
  have e2 : ∀ j k : ℕ, a ^ j * a ^ k = a ^ (j + k) := fun j k => (pow_add a j k).symm
  have n2 : ∀ k : ℕ, (-a) ^ k = ((-1 : ℝ) ^ k) • a ^ k := by
    intro k
    rw [← neg_one_smul ℝ a, smul_pow]
  refine ⟨?_, ?_, ?_, ?_, ?_⟩ <;>
  · simp only [pade3, pade5, pade7, pade9, pade13, padePoly, n2, Finset.sum_range_succ, Finset.sum_range_zero]
    simp only [mul_add, mul_smul_comm, e1, e2, mul_one, pow_zero, pow_one, zero_add]
    norm_num [padeD, Nat.factorial]
    constructor <;> module

/-! ### numbers -/

private theorem padeF_sum (m j : ℕ) : padeF m j = ∑ k ∈ Finset.range (j + 1), padeD m k * halfE (j - k) := by
  unfold padeF
  rw [PowerSeries.coeff_mul, Finset.Nat.sum_antidiagonal_eq_sum_range_succ_mk]
  simp only [PowerSeries.coeff_mk]

/-- What is needed of a threshold `θ` for the order `m`. -/
structure GoodTheta (m : ℕ) (θ : ℝ) : Prop where
  pos : 3 ≤ m
  q : θ ^ 2 / (8 * m) < 1
  w : padeW m θ < 1
  g : 2 * padeS m θ / (1 - padeW m θ) ≤ 1 / 10 ^ 15
  large : 1 / 10 ^ 15 ≤ θ ^ 6

private theorem good_of (m : ℕ) (θ θ' c : ℝ) (hm : 3 ≤ m) (h0 : 0 ≤ θ) (hθ : θ ≤ θ') (hc : |padeF m (2 * m + 1)| ≤ c)
    (q : θ' ^ 2 / (8 * m) ≤ 2 / 7) (hs : c * θ' ^ (2 * m + 1) ≤ 1 / 2 / 10 ^ 15 / 2) (hl : 1 / 10 ^ 15 ≤ θ ^ 6) :
    GoodTheta m θ := by
  have hm' : (3 : ℝ) ≤ m := by exact_mod_cast hm
  have hc0 : 0 ≤ c := (abs_nonneg _).trans hc
  have q1 : θ ^ 2 / (8 * m) ≤ 2 / 7 := le_trans (by gcongr) q
  have q2 : θ ^ 2 / (8 * (2 * m + 3)) ≤ 1 / 7 := by
    rw [div_le_iff₀ (by positivity)] at q1 ⊢
    nlinarith
  have q0 : 0 ≤ θ ^ 2 / (8 * (2 * m + 3)) := by positivity
  have q3 : 0 ≤ θ ^ 2 / (8 * m) := by positivity
  have n : |padeF m (2 * m + 1)| * θ ^ (2 * m + 1) ≤ 1 / 4 / 10 ^ 15 := by
    refine le_trans ?_ (hs.trans (by norm_num))
    exact mul_le_mul hc (pow_le_pow_left₀ h0 hθ _) (by positivity) hc0
  have s : padeS m θ ≤ 7 / 24 / 10 ^ 15 := by
    unfold padeS
    rw [div_le_iff₀ (by linarith)]
    nlinarith
  have s0 : 0 ≤ padeS m θ := by
    unfold padeS
    exact div_nonneg (by positivity) (by linarith)
  have w : padeW m θ ≤ 2 / 5 + 7 / 24 / 10 ^ 15 := by
    unfold padeW
    refine add_le_add ?_ s
    rw [div_le_iff₀ (by linarith)]
    linarith
  have w1 : padeW m θ < 5 / 12 := lt_of_le_of_lt w (by norm_num)
  refine ⟨hm, by linarith, by linarith, ?_, hl⟩
  rw [div_le_iff₀ (by linarith)]
  have : 2 * padeS m θ ≤ 7 / 12 / 10 ^ 15 := by linarith
  refine this.trans ?_
  have : (7 / 12 : ℝ) ≤ 1 - padeW m θ := by linarith
  calc (7 / 12 / 10 ^ 15 : ℝ) = 1 / 10 ^ 15 * (7 / 12) := by ring
    _ ≤ _ := by gcongr

theorem good3 : GoodTheta 3 (1.495585217958292e-2) := by
  refine good_of 3 _ (15 / 1000) (1 / 100000) le_rfl (by norm_num) (by norm_num) ?_ (by norm_num) (by norm_num) (by norm_num)
  rw [padeF_sum]
  simp only [Finset.sum_range_succ, Finset.sum_range_zero, padeD, halfE]
  norm_num [Nat.factorial, abs_le]

theorem good5 : GoodTheta 5 (2.539398330063230e-1) := by
  refine good_of 5 _ (2.54e-1) (1 / 10 ^ 10) (by norm_num) (by norm_num) (by norm_num) ?_ (by norm_num) (by norm_num) (by norm_num)
  rw [padeF_sum]
  simp only [Finset.sum_range_succ, Finset.sum_range_zero, padeD, halfE]
  norm_num [Nat.factorial, abs_le]

theorem good7 : GoodTheta 7 (9.504178996162932e-1) := by
  refine good_of 7 _ (9.505e-1) (1.2 / 10 ^ 16) (by norm_num) (by norm_num) (by norm_num) ?_ (by norm_num) (by norm_num) (by norm_num)
  rw [padeF_sum]
  simp only [Finset.sum_range_succ, Finset.sum_range_zero, padeD, halfE]
  norm_num [Nat.factorial, abs_le]

theorem good9 : GoodTheta 9 (2.097847961257068) := by
  refine good_of 9 _ (2.098) (8.5 / 10 ^ 23) (by norm_num) (by norm_num) (by norm_num) ?_ (by norm_num) (by norm_num) (by norm_num)
  rw [padeF_sum]
  simp only [Finset.sum_range_succ, Finset.sum_range_zero, padeD, halfE]
  norm_num [Nat.factorial, abs_le]

theorem good13 : GoodTheta 13 (5.371920351148152) := by
  refine good_of 13 _ (5.372) (4.42 / 10 ^ 36) (by norm_num) (by norm_num) (by norm_num) ?_ (by norm_num) (by norm_num) (by norm_num)
  rw [padeF_sum]
  simp only [Finset.sum_range_succ, Finset.sum_range_zero, padeD, halfE]
  norm_num [Nat.factorial, abs_le]

/-! ### scaling -/

theorem norm_le_normL1 (a : Mat N) : ‖a‖ ≤ normL1 a := by
  rw [← infNorm_eq_norm]
  unfold infNorm normL1
  rcases isEmpty_or_nonempty (Fin N) with h | h
  · simp
  · refine ciSup_le fun i => ?_
    exact Finset.single_le_sum (f := fun i => ∑ j, |a i j|) (fun _ _ => Finset.sum_nonneg fun _ _ => abs_nonneg _)
      (Finset.mem_univ i)

theorem normL1_smul (c : ℝ) (a : Mat N) : normL1 (c • a) = |c| * normL1 a := by
  unfold normL1
  simp only [Matrix.smul_apply, smul_eq_mul, abs_mul, Finset.mul_sum]

theorem normL1_nonneg (a : Mat N) : 0 ≤ normL1 a :=
  Finset.sum_nonneg fun _ _ => Finset.sum_nonneg fun _ _ => abs_nonneg _

/-- The number of squarings brings the norm below the threshold, and is the least one up to a factor of two. -/
theorem scale_bound (x M : ℝ) (hx : 0 ≤ x) (hM : 0 < M) :
    x / 2 ^ (frexpExp (x / M)).toNat ≤ M ∧ (2 : ℝ) ^ (frexpExp (x / M)).toNat ≤ max 1 (2 * x / M) := by
  unfold frexpExp
  split_ifs with h
  · have : x = 0 := by
      rcases div_eq_zero_iff.1 h with h | h
      · exact h
      · exact absurd h hM.ne'
    subst this
    simp [hM.le]
  · have hpos : 0 < x / M := lt_of_le_of_ne (div_nonneg hx hM.le) (Ne.symm h)
    have h1 := Int.lt_zpow_succ_log_self (b := 2) (by norm_num) (x / M)
    have h2 := Int.zpow_log_le_self (b := 2) (by norm_num) hpos
    push_cast at h1 h2
    rcases le_or_gt 0 (Int.log 2 (x / M) + 1) with h0 | h0
    · obtain ⟨k, hk⟩ := Int.eq_ofNat_of_zero_le h0
      rw [hk] at h1 ⊢
      simp only [Int.toNat_natCast, zpow_natCast] at h1 ⊢
      constructor
      · rw [div_le_iff₀ (by positivity)]
        rw [div_lt_iff₀ hM] at h1
        linarith
      · have : Int.log 2 (x / M) = (k : ℤ) - 1 := by omega
        rw [this, zpow_sub_one₀ (by norm_num), zpow_natCast] at h2
        refine le_max_of_le_right ?_
        rw [mul_div_assoc]
        linarith
    · rw [Int.toNat_of_nonpos h0.le]
      simp only [pow_zero, div_one, le_max_iff, le_refl, true_or, and_true]
      have : (2 : ℝ) ^ (Int.log 2 (x / M) + 1) ≤ 1 := zpow_le_one_of_nonpos₀ (by norm_num) h0.le
      have := h1.trans_le this
      rw [div_lt_one hM] at this
      exact this.le

private theorem iter_sq (s : ℕ) (r : Mat N) : (fun r => r ^ 2)^[s] r = r ^ 2 ^ s := by
  induction s generalizing r with
  | zero => simp
  | succ s ih => rw [Function.iterate_succ_apply, ih, ← pow_mul, pow_succ']

private theorem quot {m : ℕ} (c : ℝ) (hc : c ≠ 0) (x : Mat N) (u v : Mat N) (hd : IsUnit (padePoly m x).det)
    (h : v - u = c • padePoly m x ∧ u + v = c • padePoly m (-x)) :
    (v - u)⁻¹ * (u + v) = (padePoly m x)⁻¹ * padePoly m (-x) := by
  rw [h.1, h.2]
  have := invertibleOfNonzero hc
  rw [Matrix.inv_smul _ c hd, Matrix.smul_mul, Matrix.mul_smul, smul_smul, invOf_mul_self, one_smul]

/-- The Pade quotient below a good threshold. -/
theorem pade_mat {m : ℕ} {θ : ℝ} (h : GoodTheta m θ) (x : Mat N) (hx : normL1 x ≤ θ) :
    IsUnit (padePoly m x).det ∧ ∃ G : Mat N, ‖G‖ ≤ 1 / 10 ^ 15 ∧ Commute G (NormedSpace.exp x) ∧
      (padePoly m x)⁻¹ * padePoly m (-x) = NormedSpace.exp x * (1 + G) ∧ (x ^ 7 = 0 → G = 0) ∧ ‖G‖ ≤ ‖x ^ 6‖ := by
  have hadd : ∀ y z : Mat N, Commute y z → NormedSpace.exp y * NormedSpace.exp z = NormedSpace.exp (y + z) :=
    fun y z hyz => (Matrix.exp_add_of_commute y z hyz).symm
  have c1 : Commute ((1 / 2 : ℝ) • x) ((1 / 2 : ℝ) • (-x)) :=
    (((Commute.refl x).neg_right).smul_right _).smul_left _
  obtain ⟨hu, G, hG, hc, he, hn, hp⟩ := pade_core m (by have := h.pos; omega) x θ ((norm_le_normL1 x).trans hx) h.q h.w
    ((hadd _ _ c1).trans (by rw [smul_neg, add_neg_cancel, NormedSpace.exp_zero]))
    ((hadd _ _ c1.symm).trans (by rw [smul_neg, neg_add_cancel, NormedSpace.exp_zero]))
    ((hadd _ _ (Commute.refl _)).trans (by rw [← add_smul, show (1 / 2 + 1 / 2 : ℝ) = 1 by norm_num, one_smul]; rfl))
  have hdet : IsUnit (padePoly m x).det := (Matrix.isUnit_iff_isUnit_det _).1 hu
  refine ⟨hdet, G, hG.trans h.g, hc, ?_, fun h7 => hn ?_, ?_⟩
  · rw [he, ← Matrix.mul_assoc, Matrix.nonsing_inv_mul _ hdet, Matrix.one_mul]
    rfl
  · obtain ⟨r, hr⟩ : ∃ r, 2 * m + 1 = 7 + r := ⟨2 * m + 1 - 7, by have := h.pos; omega⟩
    rw [hr, pow_add, h7, zero_mul]
  · have h6 := (hp 6 (by have := h.pos; omega)).trans (mul_le_mul_of_nonneg_right (h.g.trans h.large) (norm_nonneg _))
    rw [mul_comm] at h6
    exact le_of_mul_le_mul_left h6 (lt_of_lt_of_le (by norm_num) h.large)

/-- The shape of the result: for every `c` with the same norm of `c a`, `matexp(a, c)` is the same power of the same Pade
quotient of the same scaling. -/
theorem matexp_form (a : Mat N) (dt : ℝ) : ∃ (m s : ℕ) (θ : ℝ), GoodTheta m θ ∧
    normL1 ((1 / 2 ^ s : ℝ) • (dt • a)) ≤ θ ∧ (2 : ℝ) ^ s ≤ max 1 (2 * normL1 (dt • a) / 5.371920351148152) ∧
    ∀ c : ℝ, normL1 (c • a) = normL1 (dt • a) →
      matexpRs a c = ((padePoly m ((1 / 2 ^ s : ℝ) • (c • a)))⁻¹ * padePoly m (-((1 / 2 ^ s : ℝ) • (c • a)))) ^ 2 ^ s := by
  have p2 : ∀ x : Mat N, x * x = x ^ 2 := fun x => (pow_two x).symm
  have p4 : ∀ x : Mat N, (x ^ 2) ^ 2 = x ^ 4 := fun x => by rw [← pow_mul]
  have p6 : ∀ x : Mat N, x ^ 4 * x ^ 2 = x ^ 6 := fun x => by rw [← pow_add]
  have p8 : ∀ x : Mat N, x ^ 6 * x ^ 2 = x ^ 8 := fun x => by rw [← pow_add]
  have s0 : ∀ x : Mat N, (1 / 2 ^ 0 : ℝ) • x = x := fun x => by simp
  by_cases h3 : normL1 (dt • a) < 1.495585217958292e-2
  · refine ⟨3, 0, _, good3, by rw [s0]; exact h3.le, by simp, fun c hc => ?_⟩
    unfold matexpRs matexpPade
    rw [s0]
    simp only [hc, if_pos h3, p2, Function.iterate_zero, id, pow_zero, pow_one]
    exact quot 120 (by norm_num) _ _ _ (pade_mat good3 _ (by rw [hc]; exact h3.le)).1 (C80_tables (c • a)).1
  by_cases h5 : normL1 (dt • a) < 2.539398330063230e-1
  · refine ⟨5, 0, _, good5, by rw [s0]; exact h5.le, by simp, fun c hc => ?_⟩
    unfold matexpRs matexpPade
    rw [s0]
    simp only [hc, if_neg h3, if_pos h5, p2, p4, Function.iterate_zero, id, pow_zero, pow_one]
    exact quot 30240 (by norm_num) _ _ _ (pade_mat good5 _ (by rw [hc]; exact h5.le)).1 (C80_tables (c • a)).2.1
  by_cases h7 : normL1 (dt • a) < 9.504178996162932e-1
  · refine ⟨7, 0, _, good7, by rw [s0]; exact h7.le, by simp, fun c hc => ?_⟩
    unfold matexpRs matexpPade
    rw [s0]
    simp only [hc, if_neg h3, if_neg h5, if_pos h7, p2, p4, p6, Function.iterate_zero, id, pow_zero, pow_one]
    exact quot 17297280 (by norm_num) _ _ _ (pade_mat good7 _ (by rw [hc]; exact h7.le)).1 (C80_tables (c • a)).2.2.1
  by_cases h9 : normL1 (dt • a) < 2.097847961257068
  · refine ⟨9, 0, _, good9, by rw [s0]; exact h9.le, by simp, fun c hc => ?_⟩
    unfold matexpRs matexpPade
    rw [s0]
    simp only [hc, if_neg h3, if_neg h5, if_neg h7, if_pos h9, p2, p4, p6, p8, Function.iterate_zero, id, pow_zero, pow_one]
    exact quot 17643225600 (by norm_num) _ _ _ (pade_mat good9 _ (by rw [hc]; exact h9.le)).1
      (C80_tables (c • a)).2.2.2.1
  obtain ⟨b1, b2⟩ := scale_bound (normL1 (dt • a)) 5.371920351148152 (normL1_nonneg _) (by norm_num)
  set s := (frexpExp (normL1 (dt • a) / 5.371920351148152)).toNat with hs
  have hb : ∀ c : ℝ, normL1 (c • a) = normL1 (dt • a) → normL1 ((1 / 2 ^ s : ℝ) • (c • a)) ≤ 5.371920351148152 := by
    intro c hc
    rw [normL1_smul, hc, abs_of_pos (by positivity), one_div_mul_eq_div]
    exact b1
  refine ⟨13, s, _, good13, hb dt rfl, b2, fun c hc => ?_⟩
  unfold matexpRs matexpPade
  simp only [hc, if_neg h3, if_neg h5, if_neg h7, if_neg h9, ← hs, p2, p4, p6]
  rw [iter_sq]
  refine congrArg (· ^ 2 ^ s) ?_
  exact quot 64764752532480000 (by norm_num) _ _ _ (pade_mat good13 _ (hb c hc)).1 (C80_tables _).2.2.2.2

private theorem exp_unscale (s : ℕ) (b : Mat N) :
    NormedSpace.exp ((1 / 2 ^ s : ℝ) • b) ^ 2 ^ s = NormedSpace.exp b := by
  rw [← Matrix.exp_nsmul, ← Nat.cast_smul_eq_nsmul ℝ, smul_smul]
  congr 1
  push_cast
  rw [mul_one_div_cancel (by positivity), one_smul]

/-! ### C80 -/

/-- C80, accuracy: for every matrix and every `dt`, `matexp(a, dt)` is `e^(dt a)` times a power of a perturbation of the
identity by at most `1e-15` that commutes with `e^(dt a)`, the power being at most `max(1, 2 |dt a|_1 / 5.37)`. -/
theorem C80_perturbation_comm (a : Mat N) (dt : ℝ) : ∃ (k : ℕ) (G : Mat N), ‖G‖ ≤ 1 / 10 ^ 15 ∧
    (k : ℝ) ≤ max 1 (2 * normL1 (dt • a) / 5.371920351148152) ∧
    matexpRs a dt = NormedSpace.exp (dt • a) * (1 + G) ^ k ∧ ((dt • a) ^ 7 = 0 → G = 0) ∧ ‖G‖ ≤ ‖(dt • a) ^ 6‖ ∧
    Commute (NormedSpace.exp (dt • a)) (1 + G) := by
  obtain ⟨m, s, θ, hθ, hn, hk, hf⟩ := matexp_form a dt
  obtain ⟨_, G, hG, hc, he, h7, h6⟩ := pade_mat hθ _ hn
  refine ⟨2 ^ s, G, hG, by exact_mod_cast hk, ?_, fun h => h7 (by rw [smul_pow, h, smul_zero]), h6.trans ?_, ?_⟩
  rotate_left
  · rw [smul_pow, norm_smul, Real.norm_of_nonneg (by positivity)]
    refine mul_le_of_le_one_left (norm_nonneg _) (pow_le_one₀ (by positivity) ?_)
    rw [div_le_one (by positivity)]
    exact one_le_pow₀ (by norm_num)
  · rw [← exp_unscale s (dt • a)]
    exact ((Commute.one_right _).add_right hc.symm).pow_left _
  rw [hf dt rfl, he]
  have : Commute (NormedSpace.exp ((1 / 2 ^ s : ℝ) • (dt • a))) (1 + G) := (Commute.one_right _).add_right hc.symm
  rw [this.mul_pow, exp_unscale]

/-- C80, accuracy: for every matrix and every `dt`, `matexp(a, dt)` is `e^(dt a)` times a power of a perturbation of the
identity by at most `1e-15`, the power being at most `max(1, 2 |dt a|_1 / 5.37)`. -/
theorem C80_perturbation (a : Mat N) (dt : ℝ) : ∃ (k : ℕ) (G : Mat N), ‖G‖ ≤ 1 / 10 ^ 15 ∧
    (k : ℝ) ≤ max 1 (2 * normL1 (dt • a) / 5.371920351148152) ∧
    matexpRs a dt = NormedSpace.exp (dt • a) * (1 + G) ^ k ∧ ((dt • a) ^ 7 = 0 → G = 0) ∧ ‖G‖ ≤ ‖(dt • a) ^ 6‖ := by
  obtain ⟨k, G, h1, h2, h3, h4, h5, _⟩ := C80_perturbation_comm a dt
  exact ⟨k, G, h1, h2, h3, h4, h5⟩

/-- C80, powers: `m` applications of `matexp(a, dt)` are `e^(m dt a)` up to a relative error `(1 + 1e-15)^(k m) - 1`, `k ≤ max(1, |dt a|_1 / 2.68)`:
the error grows with the number of steps only linearly (as long as it is small), whatever the norm of `e^(dt a)`. -/
theorem C80_power (a : Mat N) (dt : ℝ) : ∃ k : ℕ, (k : ℝ) ≤ max 1 (2 * normL1 (dt • a) / 5.371920351148152) ∧ ∀ m : ℕ,
    ‖matexpRs a dt ^ m - NormedSpace.exp ((m * dt) • a)‖ ≤ ‖NormedSpace.exp ((m * dt) • a)‖ * ((1 + 1 / 10 ^ 15) ^ (k * m) - 1) := by
  obtain ⟨k, G, hG, hk, he, _, _, hc⟩ := C80_perturbation_comm a dt
  refine ⟨k, hk, fun m => ?_⟩
  have e : matexpRs a dt ^ m = NormedSpace.exp ((m * dt) • a) * (1 + G) ^ (k * m) := by
    rw [he, (hc.pow_right k).mul_pow, ← pow_mul, ← Matrix.exp_nsmul, ← Nat.cast_smul_eq_nsmul ℝ, smul_smul]
  have e2 : matexpRs a dt ^ m - NormedSpace.exp ((m * dt) • a) = NormedSpace.exp ((m * dt) • a) * ((1 + G) ^ (k * m) - 1) := by
    rw [e, mul_sub, mul_one]
  rw [e2]
  exact (norm_mul_le _ _).trans (mul_le_mul_of_nonneg_left (one_add_pow_sub_le G _ hG _) (norm_nonneg _))

/-- C80, relative error: as long as `|dt a|_1 g ≤ 1`, the error of `matexp(a, dt)` relative to the norm
of `e^(dt a)` is at most `2 g max(1, |dt a|_1 / 2.68)`, with `g` the smaller of `1e-15` and `|(dt a)^6|`. -/
theorem C80_accuracy_sharp (a : Mat N) (dt : ℝ) (hn : normL1 (dt • a) * min (1 / 10 ^ 15) ‖(dt • a) ^ 6‖ ≤ 1) :
    ‖matexpRs a dt - NormedSpace.exp (dt • a)‖ ≤
      ‖NormedSpace.exp (dt • a)‖ * (2 * min (1 / 10 ^ 15) ‖(dt • a) ^ 6‖ * max 1 (2 * normL1 (dt • a) / 5.371920351148152)) := by
  obtain ⟨k, G, hG1, hk, he, _, hG6⟩ := C80_perturbation a dt
  have hG := le_min hG1 hG6
  have hg1 : min (1 / 10 ^ 15) ‖(dt • a) ^ 6‖ ≤ 1 / 10 ^ 15 := min_le_left _ _
  have hg0 : 0 ≤ min (1 / 10 ^ 15) ‖(dt • a) ^ 6‖ := le_min (by norm_num) (norm_nonneg _)
  generalize min (1 / 10 ^ 15) ‖(dt • a) ^ 6‖ = g at *
  have e : matexpRs a dt - NormedSpace.exp (dt • a) = NormedSpace.exp (dt • a) * ((1 + G) ^ k - 1) := by
    rw [he, mul_sub, mul_one]
  rw [e]
  refine (norm_mul_le _ _).trans (mul_le_mul_of_nonneg_left ?_ (norm_nonneg _))
  refine (one_add_pow_sub_le G _ hG k).trans ?_
  have h1 : (1 + g) ^ k ≤ Real.exp (k * g) := by
    rw [Real.exp_nat_mul]
    refine pow_le_pow_left₀ (by positivity) ?_ k
    have := Real.add_one_le_exp g
    linarith
  have h2 : (k : ℝ) * g ≤ 1 := by
    refine (mul_le_mul_of_nonneg_right hk hg0).trans ?_
    rcases le_total 1 (2 * normL1 (dt • a) / 5.371920351148152) with h | h
    · rw [max_eq_right h]
      have := normL1_nonneg (dt • a)
      have hx : 2 * normL1 (dt • a) / 5.371920351148152 ≤ normL1 (dt • a) := by
        rw [div_le_iff₀ (by norm_num)]
        nlinarith
      exact (mul_le_mul_of_nonneg_right hx hg0).trans hn
    · rw [max_eq_left h, one_mul]
      exact hg1.trans (by norm_num)
  have h3 := Real.abs_exp_sub_one_le (x := (k : ℝ) * g) (by rw [abs_of_nonneg (by positivity)]; exact h2)
  rw [abs_of_nonneg (a := (k : ℝ) * g) (by positivity)] at h3
  have h4 := (abs_le.1 h3).2
  calc (1 + g) ^ k - 1 ≤ 2 * (k * g) := by linarith
    _ = 2 * g * k := by ring
    _ ≤ _ := by gcongr

/-- C80, relative error: as long as the norm of `dt a` is at most `10^15`, the error of `matexp(a, dt)` relative to the norm
of `e^(dt a)` is at most `2e-15 max(1, |dt a|_1 / 2.68)`. -/
theorem C80_accuracy (a : Mat N) (dt : ℝ) (hn : normL1 (dt • a) ≤ 10 ^ 15) :
    ‖matexpRs a dt - NormedSpace.exp (dt • a)‖ ≤
      ‖NormedSpace.exp (dt • a)‖ * (2 / 10 ^ 15 * max 1 (2 * normL1 (dt • a) / 5.371920351148152)) := by
  have hn' : normL1 (dt • a) * min (1 / 10 ^ 15) ‖(dt • a) ^ 6‖ ≤ 1 := by
    calc normL1 (dt • a) * min (1 / 10 ^ 15) ‖(dt • a) ^ 6‖ ≤ 10 ^ 15 * (1 / 10 ^ 15) :=
          mul_le_mul hn (min_le_left _ _) (le_min (by norm_num) (norm_nonneg _)) (by positivity)
      _ = 1 := by norm_num
  refine (C80_accuracy_sharp a dt hn').trans (mul_le_mul_of_nonneg_left (mul_le_mul_of_nonneg_right ?_ ?_) (norm_nonneg _))
  · calc 2 * min (1 / 10 ^ 15) ‖(dt • a) ^ 6‖ ≤ 2 * (1 / 10 ^ 15) := by linarith [min_le_left (1 / 10 ^ 15 : ℝ) ‖(dt • a) ^ 6‖]
      _ = _ := by norm_num
  · exact le_trans zero_le_one (le_max_left _ _)

/-- C80: `matexp` is exact on nilpotent matrices with `a^7 = 0`, whatever their norm. -/
theorem C80_nilpotent (a : Mat N) (h : a ^ 7 = 0) (dt : ℝ) : matexpRs a dt = NormedSpace.exp (dt • a) := by
  obtain ⟨k, G, _, _, he, h0, _⟩ := C80_perturbation a dt
  rw [he, h0 (by rw [smul_pow, h, smul_zero]), add_zero, one_pow, mul_one]

/-- C80: the linear systems solved are never singular and stepping back undoes a step, for every matrix. -/
theorem C80_inverse (a : Mat N) (dt : ℝ) : matexpRs a dt * matexpRs a (-dt) = 1 := by
  obtain ⟨m, s, θ, hθ, hn, _, hf⟩ := matexp_form a dt
  have hneg : normL1 (-dt • a) = normL1 (dt • a) := by rw [normL1_smul, normL1_smul, abs_neg]
  set x : Mat N := (1 / 2 ^ s : ℝ) • (dt • a) with hx
  have hx' : (1 / 2 ^ s : ℝ) • (-dt • a) = -x := by rw [hx]; module
  have hnx : normL1 (-x) ≤ θ := by
    rw [← neg_one_smul ℝ x, normL1_smul]; simpa using hn
  obtain ⟨u1, _⟩ := pade_mat hθ x hn
  obtain ⟨u2, _⟩ := pade_mat hθ (-x) hnx
  rw [hf dt rfl, hf (-dt) hneg, hx', neg_neg]
  set P := padePoly m x with hP
  set P' := padePoly m (-x) with hP'
  have cPP : P * P' = P' * P := by
    have : Commute P P' := Commute.sum_left _ _ _ fun k _ => Commute.sum_right _ _ _ fun l _ =>
      ((((Commute.refl x).neg_right).pow_pow k l).smul_right _).smul_left _
    exact this.eq
  have c2 : (P⁻¹ * P') * (P'⁻¹ * P) = 1 := by
    rw [Matrix.mul_assoc, ← Matrix.mul_assoc P', Matrix.mul_nonsing_inv _ u2, Matrix.one_mul, Matrix.nonsing_inv_mul _ u1]
  have c3 : (P'⁻¹ * P) * (P⁻¹ * P') = 1 := by
    rw [Matrix.mul_assoc, ← Matrix.mul_assoc P, Matrix.mul_nonsing_inv _ u1, Matrix.one_mul, Matrix.nonsing_inv_mul _ u2]
  have : Commute (P⁻¹ * P') (P'⁻¹ * P) := by
    show _ * _ = _ * _
    rw [c2, c3]
  rw [← this.mul_pow, c2, one_pow]

/-- C80: the scaled matrix has norm at most `5.3719`, and `phi_ext` with the crate's own exponential differs from `phi_k` by
at most the relative accuracy of the exponential of the extended matrix. -/
theorem C80_phi_ext (z : Mat N) (k : ℕ) (hk : 0 < k) (hn : normL1 (phiExtMatRs z k) ≤ 10 ^ 15) (i j : Fin N) :
    |phiExtRs (fun _ A => matexpRs A 1) z k i j - phiM k z i j| ≤
      ‖NormedSpace.exp (phiExtMatRs z k)‖ *
        (2 / 10 ^ 15 * max 1 (2 * normL1 (phiExtMatRs z k) / 5.371920351148152)) := by
  obtain ⟨k, rfl⟩ : ∃ k', k = k' + 1 := ⟨k - 1, by omega⟩
  rw [← C81_phi_ext]
  have h := C80_accuracy (phiExtMatRs z (k + 1)) 1 (by rwa [one_smul])
  rw [one_smul] at h
  refine le_trans ?_ h
  exact norm_entry_le (matexpRs (phiExtMatRs z (k + 1)) 1 - NormedSpace.exp (phiExtMatRs z (k + 1))) _ _

/-- Non-vacuity of `C80_nilpotent`: a nilpotent matrix in each norm range. -/
example (c : ℝ) : (!![0, c; 0, 0] : Mat 2) ^ 7 = 0 := by
  have : (!![0, c; 0, 0] : Mat 2) ^ 2 = 0 := by
    rw [pow_two]
    ext i j
    fin_cases i <;> fin_cases j <;> simp
  rw [show 7 = 2 + 5 by norm_num, pow_add, this, zero_mul]

/-- Non-vacuity of `C80_accuracy`: a matrix that needs scaling. -/
example : normL1 ((1 : ℝ) • (!![-100, 0; 100, 0] : Mat 2)) ≤ 10 ^ 15 ∧
    ¬ normL1 ((1 : ℝ) • (!![-100, 0; 100, 0] : Mat 2)) ≤ 5.371920351148152 := by
  have : normL1 ((1 : ℝ) • (!![-100, 0; 100, 0] : Mat 2)) = 200 := by
    unfold normL1
    simp [Fin.sum_univ_two]
    norm_num
  rw [this]
  constructor <;> norm_num

end Ormatex.Props
