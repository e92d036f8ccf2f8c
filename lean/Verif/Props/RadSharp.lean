import Verif.Props.RadExist

/-!
C119: the stirred tank is well posed, and the Péclet bound is needed: with the shipped parameters concentrations become negative.
-/

namespace Ormatex.Props
open Matrix Ormatex.Spec Polynomial

noncomputable section
set_option linter.unusedSectionVars false

/-! ### the coupling of a node to its downstream neighbour -/

theorem fin_one_ne {n : ℕ} (hn : 1 ≤ n) : (1 : Fin (n + 1)) ≠ 0 := by
  obtain ⟨k, rfl⟩ : ∃ k, n = k + 1 := ⟨n - 1, by omega⟩
  exact one_ne_zero

theorem fin_two_ne {n : ℕ} (hn : 2 ≤ n) : (1 : Fin (n + 1)) + 1 ≠ 0 := by
  obtain ⟨k, rfl⟩ : ∃ k, n = k + 2 := ⟨n - 2, by omega⟩
  intro h
  have := congrArg Fin.val h
  simp [Fin.val_add] at this
  rw [Nat.mod_eq_of_lt (by omega)] at this
  omega

theorem downstream_coupling {n : ℕ} (hn : 2 ≤ n) {Q : Quad 2} (hq : semQuad 1 = .ok Q) {nu vel tau : ℝ} {A : Mat (n + 1)} {Ml b : Vec (n + 1)}
    (h : semAssemble (perMesh n) Q (elemFields (fun _ => nu) (fun _ => vel) (fun _ => tau)) none = some (A, Ml, b)) (i : Fin (n + 1)) :
    A i (i + 1) = vel / 2 - nu * (n + 1) - tau * vel / 2 := by
  have hQ : GoodQuad (r := 0) Q := goodQuad (r := 0) hq
  obtain ⟨hv, hA, _, _⟩ := semAssemble_some h
  have hv' : vel ≠ 0 := hv 0 0
  have e0 : Q.x 0 = 0 := hQ.x0
  have e1 : Q.x 1 = 1 := hQ.x1
  obtain ⟨w0, w1⟩ := quad1 hQ
  obtain ⟨s0, s1⟩ := shape1 hQ
  have hn1 : (n : ℝ) + 1 ≠ 0 := by positivity
  have one_ne := fin_one_ne (n := n) (by omega)
  have two_ne := fin_two_ne hn
  have s2 : ∀ f : Fin 2 → Fin 2 → ℝ, ∑ a, ∑ b, f a b = f 0 0 + f 0 1 + (f 1 0 + f 1 1) := fun f => by simp only [Fin.sum_univ_two]
  rw [hA]
  show semStiff (perMesh n) Q _ none i (i + 1) = _
  unfold semStiff assembleForm
  dsimp only
  rw [Finset.sum_eq_single i]
  · rw [s2]
    have d0 : ∀ e, (perMesh n).dof e 0 = e := fun e => by simp [perMesh]
    have d1 : ∀ e, (perMesh n).dof e 1 = e + 1 := fun e => by simp [perMesh]
    have hi1 : i ≠ i + 1 := fun h' => one_ne (by simpa using h'.symm)
    rw [if_neg (by rw [d0]; exact fun h' => hi1 h'.2), if_pos (by rw [d0, d1]; exact ⟨rfl, rfl⟩),
      if_neg (by rw [d1]; exact fun h' => hi1 h'.1.symm), if_neg (by rw [d1]; exact fun h' => hi1 h'.1.symm)]
    simp only [Fin.sum_univ_two, jetOf, advDiffConsSupg, tauUpwind, elemFields, s0, s1, w0, w1, e0, e1,
        eval_sub, eval_one, eval_X, derivative_sub, derivative_one, derivative_X, eval_zero, perMesh]
    field_simp
    ring
  · intro e _ he
    have d0 : ∀ e, (perMesh n).dof e 0 = e := fun e => by simp [perMesh]
    have d1 : ∀ e, (perMesh n).dof e 1 = e + 1 := fun e => by simp [perMesh]
    rw [s2]
    rw [if_neg (by rw [d0]; exact fun h' => he h'.1), if_neg (by rw [d0]; exact fun h' => he h'.1), if_neg, if_neg]
    · simp
    · rw [d1]
      rintro ⟨h1, h2⟩
      exact one_ne (by rw [h1] at h2; simpa using h2.symm)
    · rw [d0, d1]
      rintro ⟨h1, h2⟩
      refine two_ne ?_
      have : e + 1 + 1 = e := by rw [h1]; exact h2.symm
      rw [add_assoc] at this
      simpa using this
  · intro h'; exact absurd (Finset.mem_univ _) h'

theorem evap2_zero {N : ℕ} (un : Arr N 2) (i : Fin N) (h : ∀ c, un i c = 0) (j : Fin 2) : sourceEvap2 un i j = 0 := by
  unfold sourceEvap2 colAdd
  fin_cases j <;> simp [h, mxfNonlin]

/-- **C119, the Péclet bound is needed.** With the parameters of `rad_1d_2s.py` (`nu = 1e-8`, `vel = 0.5`, no stabilization), linear
elements on the periodic unit interval and any number of elements from 3 to twenty-four million: the discretisation exists, its masses
are positive, and wherever one of the species is present at one node only, the solution is negative right after at the node
before it. -/
theorem C119_shipped_negative {n : ℕ} (hn : 2 ≤ n) (hn' : n < 24000000) {Q : Quad 2} (hq : semQuad 1 = .ok Q) :
    ∃ A Ml b, semAssemble (perMesh n) Q (elemFields (fun _ => 1 / 10 ^ 8) (fun _ => 1 / 2) (fun _ => 0)) none = some (A, Ml, b) ∧
      (∀ i, 0 < Ml i) ∧
      ∀ (bat : Mat 2) (i : Fin (n + 1)) (j : Fin 2) (c : ℝ), 0 < c → ∀ (U : ℝ → Vec (2 * (n + 1))) (t0 : ℝ),
        (U t0 = flattenU fun x y => if x = i + 1 ∧ y = j then c else 0) →
        HasDerivAt U (radRhs sourceEvap2 bat A Ml [] (U t0)) t0 →
        ∃ δ > 0, ∀ t, t0 < t → t < t0 + δ → U t (finProdFinEquiv (j, i)) < 0 := by
  have hw := quad1 (goodQuad (r := 0) hq)
  obtain ⟨A, Ml, b, h⟩ : ∃ A Ml b, semAssemble (perMesh n) Q (elemFields (fun _ => 1 / 10 ^ 8) (fun _ => 1 / 2) (fun _ => 0)) none = some (A, Ml, b) := by
    unfold semAssemble
    rw [if_neg (by rintro ⟨e, k, hk⟩; simp [elemFields] at hk)]
    exact ⟨_, _, _, rfl⟩
  have hpos : ∀ i, 0 < Ml i := C118_mass_pos (r := 0) hq (fun _ => by simp only [perMesh]; positivity) h
    (fun _ => by rw [abs_zero, hw.1, hw.2]; norm_num) (fun i => ⟨i, 0, by simp [perMesh]⟩)
  refine ⟨A, Ml, b, h, hpos, fun bat i j c hc U t0 h0 hU => ?_⟩
  have hAi : 0 < A i (i + 1) := by
    rw [downstream_coupling hn hq h]
    have : (n : ℝ) < 24000000 := by exact_mod_cast hn'
    have e : (1 : ℝ) / 10 ^ 8 * (n + 1) < 1 / 4 := by
      rw [div_mul_eq_mul_div, one_mul, div_lt_iff₀ (by norm_num)]
      norm_num
      linarith
    linarith
  have hne : i ≠ i + 1 := by
    intro h'
    exact fin_one_ne (n := n) (by omega) (by simpa using h'.symm)
  exact C119_negative (fun un i h => evap2_zero un i h) bat hne hAi (hpos i) (by simp) j hc h0 hU

/-! ### the tank is well posed -/

/-- **C119, the stirred tank is well posed**: from every nonnegative state, for every flux `n_phi ≥ 0`, there is a solution on every
time interval, it is nonnegative, and no other solution exists. -/
theorem C119_tank_exists {bat tr fis : Mat 9} (hbat : genBatemanMatrix keymap9 decayLibTank = .ok bat)
    (htr : genTransmuteMatrix keymap9 (transmuteLib (1 / 1000000000)) = .ok tr)
    (hfis : genTransmuteMatrix keymap9 fissionLibTank = .ok fis) {nPhi : ℝ} (hphi : 0 ≤ nPhi) (tankVol : ℝ)
    {y0 : Vec 9} (hy0 : ∀ k, 0 ≤ y0 k) {t0 t1 : ℝ} (h01 : t0 ≤ t1) :
    ∃ U : ℝ → Vec 9, U t0 = y0 ∧
      (∀ t ∈ Set.Icc t0 t1, HasDerivAt U (nonlinBatemanRhs bat tr fis.diag nPhi tankVol 5 7 (U t)) t ∧ ∀ k, 0 ≤ U t k) ∧
      ∀ V : ℝ → Vec 9, V t0 = y0 → (∀ t ∈ Set.Icc t0 t1, HasDerivAt V (nonlinBatemanRhs bat tr fis.diag nPhi tankVol 5 7 (V t)) t) →
        ∀ t ∈ Set.Icc t0 t1, V t = U t := by
  obtain ⟨f1, f2⟩ := fissionLib_spec (sigma := 1 / 1000000000) (y0 := 3 / 100) (y1 := 2 / 100) (y2 := 1 / 100) (y3 := 20 / 100) (y4 := 1 / 100)
    (by norm_num) (by norm_num) (by norm_num) (by norm_num) (by norm_num) (by norm_num)
  obtain ⟨g1, g2⟩ := fission_matrix zero_le_one f1 f2 hfis
  have hm1 := bateman_metzler decayTank_nonneg hbat
  have hm2 := transmute_metzler zero_le_one (transmuteLib_sign (by norm_num)) htr
  have harea : BoxLip fun u : Vec 9 => bubbleArea (u 7) 100 (5 / 100) 10 := by
    unfold bubbleArea
    obtain ⟨α, β, hα, hβ, hvol⟩ : ∃ α β : ℝ, 0 < α ∧ 0 ≤ β ∧ ∀ x : ℝ, (3 / 4) * (100 * (5 / 100) / 10 + 1 / 10 * ((100 * x / (101300 * (1 / 10 ^ 6))) * rgas * 900) / 10)
        / Real.pi = α + β * x := by
      refine ⟨(3 / 4) * (100 * (5 / 100) / 10) / Real.pi, (3 / 4) * (1 / 10 * ((100 / (101300 * (1 / 10 ^ 6))) * rgas * 900) / 10) / Real.pi,
        by positivity, ?_, fun x => by ring⟩
      have := Real.pi_pos
      unfold rgas
      positivity
    simp only [hvol]
    have hl : BoxLip fun u : Vec 9 => α + β * u 7 := (boxLip_const α).add ((boxLip_const β).mul (boxLip_coord 7))
    have hl3 := hl.rpow hα (fun u hu => le_add_of_nonneg_right (mul_nonneg hβ (hu 7))) ((1 : ℝ) / 3)
    exact (boxLip_const _).mul (hl3.rpow (c := α ^ ((1 : ℝ) / 3)) (Real.rpow_pos_of_pos hα _) (fun u hu =>
      Real.rpow_le_rpow hα.le (le_add_of_nonneg_right (mul_nonneg hβ (hu 7))) (by norm_num)) 2)
  have hbub : BoxLip fun u : Vec 9 => mxfBubble (u 5) (u 7) 100 (5 / 100) (k := 1 / 100) := by
    unfold mxfBubble
    simp only [div_eq_mul_inv (_ : ℝ) (1 - 5 / 100 : ℝ), div_eq_mul_inv (_ : ℝ) (5 / 100 : ℝ)]
    refine BoxLip.mul ((boxLip_const _).mul ?_) (BoxLip.sub ?_ ((boxLip_coord 5).mul (boxLip_const _)))
    · simpa only [div_eq_mul_inv] using harea
    · exact (((boxLip_coord 7).mul (boxLip_const _)).mul (boxLip_const _)).mul (boxLip_const _) |>.mul (boxLip_const _)
  have hentry : ∀ (u : Vec 9) (k : Fin 9), nonlinBatemanRhs bat tr fis.diag nPhi tankVol 5 7 u k = (∑ c, (bat k c + nPhi * tr k c) * u c + nPhi * fis k k)
      + ((if k = 5 then 1 else 0) - (if k = 7 then 1 else 0)) * mxfBubble (u 5) (u 7) 100 (5 / 100) (k := 1 / 100) := by
    intro u k
    unfold nonlinBatemanRhs srcfXeAv atSet
    simp only [Pi.add_apply, Pi.smul_apply, smul_eq_mul, Matrix.diag_apply, add_mul, Finset.sum_add_distrib, Matrix.mulVec, dotProduct, mul_assoc,
      ← Finset.mul_sum]
    congr 1
    by_cases h7 : k = 7
    · subst h7; simp
    · by_cases h5 : k = 5
      · subst h5; simp
      · simp [h5, h7]
  have hlip : ∀ k, BoxLip fun u => nonlinBatemanRhs bat tr fis.diag nPhi tankVol 5 7 u k := by
    intro k
    simp only [hentry]
    exact ((BoxLip.sum _ fun c => (boxLip_const _).mul (boxLip_coord c)).add (boxLip_const _)).add ((boxLip_const _).mul hbub)
  have hin : ∀ u : Vec 9, (∀ i, 0 ≤ u i) → ∀ i, u i = 0 → 0 ≤ nonlinBatemanRhs bat tr fis.diag nPhi tankVol 5 7 u i := by
    intro u hu k hk
    rw [hentry]
    have hA := bubbleArea_nonneg (u 7) 100 (5 / 100) 10 (by norm_num)
    refine add_nonneg (add_nonneg (Finset.sum_nonneg fun c _ => ?_) (mul_nonneg hphi (g2 k))) ?_
    · by_cases hc : k = c
      · subst hc; rw [hk, mul_zero]
      · exact mul_nonneg (add_nonneg (hm1 k c hc) (mul_nonneg hphi (hm2 k c hc))) (hu c)
    · by_cases h5 : k = 5
      · subst h5
        simp only [if_true, show (5 : Fin 9) ≠ 7 from by decide, if_false, sub_zero, one_mul]
        unfold mxfBubble
        rw [hk]
        have := hu 7
        unfold rgas
        have h0 : (0 : ℝ) / (1 - 5 / 100) = 0 := by norm_num
        rw [h0, sub_zero]
        exact mul_nonneg (mul_nonneg (by norm_num) hA) (by positivity)
      · by_cases h7 : k = 7
        · subst h7
          simp only [if_true, show (7 : Fin 9) ≠ 5 from by decide, if_false, zero_sub, neg_mul, one_mul]
          unfold mxfBubble
          rw [hk] at hA ⊢
          have h0 : (0 : ℝ) / (5 / 100) * (1 / 10 ^ 4) * rgas * 900 = 0 := by norm_num
          rw [h0, zero_sub, mul_neg, neg_neg]
          exact mul_nonneg (mul_nonneg (by norm_num) hA) (div_nonneg (hu 5) (by norm_num))
        · simp [h5, h7]
  obtain ⟨a, B, ha, hB, hg⟩ : ∃ a B : ℝ, 0 ≤ a ∧ 0 ≤ B ∧ ∀ u : Vec 9, (∀ i, 0 ≤ u i) →
      ∑ k, nonlinBatemanRhs bat tr fis.diag nPhi tankVol 5 7 u k ≤ a * ∑ k, u k + B := by
    refine ⟨∑ k, ∑ c, |bat k c + nPhi * tr k c|, ∑ k, nPhi * fis k k, Finset.sum_nonneg fun _ _ => Finset.sum_nonneg fun _ _ => abs_nonneg _,
      Finset.sum_nonneg fun k _ => mul_nonneg hphi (g2 k), fun u hu => ?_⟩
    simp only [hentry]
    rw [Finset.sum_add_distrib, Finset.sum_add_distrib, ← Finset.sum_mul]
    have hz : ∑ k : Fin 9, ((if k = 5 then (1 : ℝ) else 0) - (if k = 7 then 1 else 0)) = 0 := by
      rw [Finset.sum_sub_distrib]; simp
    rw [hz, zero_mul, add_zero]
    refine add_le_add ?_ le_rfl
    rw [Finset.sum_mul]
    refine Finset.sum_le_sum fun k _ => ?_
    rw [Finset.sum_mul]
    refine Finset.sum_le_sum fun c _ => ?_
    calc (bat k c + nPhi * tr k c) * u c ≤ |bat k c + nPhi * tr k c| * u c := mul_le_mul_of_nonneg_right (le_abs_self _) (hu c)
      _ ≤ _ := mul_le_mul_of_nonneg_left (Finset.single_le_sum (fun c _ => hu c) (Finset.mem_univ c)) (abs_nonneg _)
  obtain ⟨U, hU0, hU⟩ := positive_global hlip hin ha hB hg hy0 h01
  refine ⟨U, hU0, fun t h => ⟨(hU t h).1, (hU t h).2.1⟩, fun V hV0 hV t h => ?_⟩
  have hVp := C119_tank hbat htr hfis hphi tankVol hV (by rw [hV0]; exact hy0)
  exact positive_unique hlip hV (fun t h => (hU t h).1) hVp (fun t h => (hU t h).2.1) (hV0.trans hU0.symm) h

end
end Ormatex.Props
