import Verif.Model.Progression
import Mathlib.Analysis.SpecialFunctions.Arsinh
import Mathlib.Analysis.SpecialFunctions.Trigonometric.DerivHyp

/-!
C58: the inter-phase transfer terms are conservative, act only on their pair of species, push towards phase equilibrium and never
drive an empty phase negative.
-/

namespace Ormatex.Props
open Matrix

/-! ### rates -/

theorem nonlin_factor_pos (uG : ℝ) {kS : ℝ} (hs : 0 ≤ kS) : 0 < (max uG (1 / 10 ^ 16)) ^ ((2 : ℝ) / 3) + kS := by
  have h : (0 : ℝ) < max uG (1 / 10 ^ 16) := lt_of_lt_of_le (by positivity) (le_max_right _ _)
  have := Real.rpow_pos_of_pos h ((2 : ℝ) / 3)
  linarith

/-- **C58, direction of the nonlinear transfer.** With a positive coefficient the rate has the sign of the disequilibrium
`k_g u_g - k_a u_a`, for all concentrations (also negative ones), and vanishes exactly at phase equilibrium. -/
theorem C58_nonlin_direction (uA uG kG kA : ℝ) {k kS : ℝ} (hk : 0 < k) (hs : 0 ≤ kS) :
    (0 < mxfNonlin uA uG k kG kA kS ↔ kA * uA < kG * uG) ∧ (mxfNonlin uA uG k kG kA kS = 0 ↔ kA * uA = kG * uG) := by
  have hp : 0 < k * ((max uG (1 / 10 ^ 16)) ^ ((2 : ℝ) / 3) + kS) := mul_pos hk (nonlin_factor_pos uG hs)
  unfold mxfNonlin
  constructor
  · rw [mul_pos_iff_of_pos_left hp, sub_pos]
  · rw [mul_eq_zero, sub_eq_zero]
    exact ⟨fun h => h.elim (fun h => absurd h hp.ne') Eq.symm, fun h => Or.inr h.symm⟩

/-- The bubble surface is positive for a nonnegative gas content and positive cell volume, gas fraction, bubble density,
temperature and pressure. -/
theorem bubbleArea_pos {uG cvol al nb : ℝ} {aK T P : ℝ} (hu : 0 ≤ uG) (hc : 0 < cvol) (ha : 0 < al) (hn : 0 < nb) (hk : 0 ≤ aK)
    (hT : 0 ≤ T) (hP : 0 < P) : 0 < bubbleArea uG cvol al nb aK T P := by
  unfold bubbleArea
  simp only
  have hr : 0 < rgas := by unfold rgas; norm_num
  have hv : 0 < cvol * al / nb + aK * (cvol * uG / (P * (1 / 10 ^ 6)) * rgas * T) / nb := by
    have h1 : 0 < cvol * al / nb := by positivity
    have h2 : 0 ≤ aK * (cvol * uG / (P * (1 / 10 ^ 6)) * rgas * T) / nb := by positivity
    linarith
  have hpi := Real.pi_pos
  have hrad : 0 < (3 / 4 * (cvol * al / nb + aK * (cvol * uG / (P * (1 / 10 ^ 6)) * rgas * T) / nb) / Real.pi) ^ ((1 : ℝ) / 3) :=
    Real.rpow_pos_of_pos (by positivity) _
  have := Real.rpow_pos_of_pos hrad (2 : ℝ)
  positivity

/-- **C58, direction of the bubble transfer.** For a gas fraction strictly between 0 and 1 and a nonnegative gas content the
bubble rate has the sign of the disequilibrium. -/
theorem C58_bubble_direction (uA : ℝ) {uG cvol al k h nb T : ℝ} (hu : 0 ≤ uG) (hc : 0 < cvol) (ha : 0 < al) (hk : 0 < k)
    (hn : 0 < nb) (hT : 0 ≤ T) :
    (0 < mxfBubble uA uG cvol al k h nb T ↔ uA / (1 - al) < uG / al * h * rgas * T) ∧
    (mxfBubble uA uG cvol al k h nb T = 0 ↔ uA / (1 - al) = uG / al * h * rgas * T) := by
  have hp : 0 < k * bubbleArea uG cvol al nb (T := T) :=
    mul_pos hk (bubbleArea_pos hu hc ha hn (by norm_num) hT (by norm_num))
  unfold mxfBubble
  simp only
  constructor
  · rw [mul_pos_iff_of_pos_left hp, sub_pos]
  · rw [mul_eq_zero, sub_eq_zero]
    exact ⟨fun h => h.elim (fun h => absurd h hp.ne') Eq.symm, fun h => Or.inr h.symm⟩

/-- **C58, linear exchange, sorption and Arrhenius terms.** The linear exchange and the sorption term vanish at equilibrium and
push towards it; the reaction rate is nonnegative for nonnegative concentrations and prefactor. -/
theorem C58_other_terms (uA uG kG kA : ℝ) {k a : ℝ} (hka : 0 < k * a) :
    ((0 < mxfLin uA uG k kG kA a ↔ kA * uA < kG * uG) ∧ (mxfLin uA uG k kG kA a = 0 ↔ kA * uA = kG * uG)) ∧
    (∀ al, (0 < mxfSorption uA uG al k a ↔ uA < uG / al) ∧ (mxfSorption uA uG al k a = 0 ↔ uA = uG / al)) ∧
    (∀ e apre mA mB T, 0 ≤ uA → 0 ≤ uG → 0 ≤ apre → 0 ≤ mxfArrhenius uA uG e apre mA mB T) := by
  refine ⟨⟨?_, ?_⟩, fun al => ⟨?_, ?_⟩, ?_⟩
  · rw [mxfLin, mul_pos_iff_of_pos_left hka, sub_pos]
  · rw [mxfLin, mul_eq_zero, sub_eq_zero]
    exact ⟨fun h => h.elim (fun h => absurd h hka.ne') Eq.symm, fun h => Or.inr h.symm⟩
  · rw [mxfSorption, show -k * a * (uA - uG / al) = k * a * (uG / al - uA) by ring, mul_pos_iff_of_pos_left hka, sub_pos]
  · rw [mxfSorption, show -k * a * (uA - uG / al) = k * a * (uG / al - uA) by ring, mul_eq_zero, sub_eq_zero]
    exact ⟨fun h => h.elim (fun h => absurd h hka.ne') Eq.symm, fun h => Or.inr h.symm⟩
  · intro e apre mA mB T hA hG hp
    unfold mxfArrhenius
    have := Real.rpow_nonneg hA mA
    have := Real.rpow_nonneg hG mB
    positivity

/-! ### source vectors -/

/-- **Specification.** `s` moves an amount from species `a` to species `b` and touches nothing else. -/
def IsTransfer {n : ℕ} (s : Vec n) (a b : Fin n) : Prop := s b = -s a ∧ ∀ j, j ≠ a → j ≠ b → s j = 0

theorem isTransfer_sum {n : ℕ} {s : Vec n} {a b : Fin n} (h : IsTransfer s a b) (hab : a ≠ b) : ∑ j, s j = 0 := by
  rw [Finset.sum_eq_add_of_mem a b (Finset.mem_univ _) (Finset.mem_univ _) hab (fun j _ hj => h.2 j hj.1 hj.2), h.1]
  ring

/-- **C58, Xe transfer of the tank model.** For two different species the source moves between them exactly, whatever the
state, and does nothing else; in particular its total is zero. -/
theorem C58_xe {n : ℕ} (u : Vec n) {iA iG : Fin n} (h : iA ≠ iG) (al vol : ℝ) :
    IsTransfer (srcfXeAv u iA iG al vol) iA iG ∧ ∑ j, srcfXeAv u iA iG al vol j = 0 ∧
    srcfXeAv u iA iG al vol iA = mxfBubble (u iA) (u iG) vol al (1 / 100) := by
  have e : srcfXeAv u iA iG al vol iA = mxfBubble (u iA) (u iG) vol al (1 / 100) := by
    simp [srcfXeAv, atSet, Function.update_of_ne h]
  have ht : IsTransfer (srcfXeAv u iA iG al vol) iA iG := by
    refine ⟨?_, fun j h1 h2 => ?_⟩
    · rw [e]; simp [srcfXeAv, atSet]
    · simp [srcfXeAv, atSet, Function.update_of_ne h1, Function.update_of_ne h2]
  exact ⟨ht, isTransfer_sum ht h, e⟩

/-- With the same index twice the code is not conservative: the second assignment overwrites the first. -/
theorem C58_same_index {n : ℕ} (u : Vec n) (i : Fin n) (al vol : ℝ) :
    srcfXeAv u i i al vol i = -mxfBubble (u i) (u i) vol al (1 / 100) := by
  simp [srcfXeAv, atSet]

/-- **C58, two-species systems.** At every grid point both source terms of the two-species model move between the two species. -/
theorem C58_two_species {N : ℕ} (un : Arr N 2) (i : Fin N) :
    (IsTransfer (sourcePoly un i) 0 1 ∧ ∑ j, sourcePoly un i j = 0 ∧ sourcePoly un i 0 ≤ 0) ∧
    (IsTransfer (sourceEvap2 un i) 0 1 ∧ ∑ j, sourceEvap2 un i j = 0) := by
  have h1 : IsTransfer (sourcePoly un i) 0 1 := by
    refine ⟨by simp [sourcePoly, colAdd], fun j h1 h2 => ?_⟩
    simp [sourcePoly, colAdd, h1, h2]
  have h2 : IsTransfer (sourceEvap2 un i) 0 1 := by
    refine ⟨by simp [sourceEvap2, colAdd], fun j h1 h2 => ?_⟩
    simp [sourceEvap2, colAdd, h1, h2]
  refine ⟨⟨h1, isTransfer_sum h1 (by decide), ?_⟩, h2, isTransfer_sum h2 (by decide)⟩
  simp [sourcePoly, colAdd]

/-- **C58, nine-species system.** At every grid point the evaporation term moves Xe between columns 5 and 7 and Cs between
columns 6 and 8 and touches nothing else; the off-gas term only removes from the vapour columns 7 and 8, at most a fraction
`0.16` per unit time, and vanishes elsewhere. -/
theorem C58_nine_species {N : ℕ} (xs : Vec N) (un : Arr N 9) (i : Fin N) :
    (nonlinEvap9 un i 7 = -nonlinEvap9 un i 5 ∧ nonlinEvap9 un i 8 = -nonlinEvap9 un i 6 ∧
      (∀ j, j ≠ 5 → j ≠ 6 → j ≠ 7 → j ≠ 8 → nonlinEvap9 un i j = 0) ∧ ∑ j, nonlinEvap9 un i j = 0) ∧
    (∀ j, j ≠ 7 → j ≠ 8 → gasPurify xs un i j = 0) ∧
    (∀ j, (j = 7 ∨ j = 8) → 0 ≤ un i j → -(16 / 100) * un i j ≤ gasPurify xs un i j ∧ gasPurify xs un i j ≤ 0) := by
  have hprof : ∀ x, 0 ≤ offgasProfile x ∧ offgasProfile x ≤ 1 := by
    intro x
    unfold offgasProfile
    set a := Real.tanh ((x - (4 - 4 / 10 / 2)) * 10)
    set b := Real.tanh ((x - (4 + 4 / 10 / 2)) * 10)
    have ha : |a| ≤ 1 := (Real.abs_tanh_lt_one _).le
    have hb : |b| ≤ 1 := (Real.abs_tanh_lt_one _).le
    have hab : |a * -b| ≤ 1 := by
      rw [abs_mul, abs_neg]
      exact mul_le_one₀ ha (abs_nonneg _) hb
    have := abs_le.1 hab
    constructor <;> linarith [this.1, this.2]
  refine ⟨⟨?_, ?_, ?_, ?_⟩, ?_, ?_⟩
  · simp [nonlinEvap9, colAdd]
  · simp [nonlinEvap9, colAdd]
  · intro j h5 h6 h7 h8
    simp [nonlinEvap9, colAdd, h5, h6, h7, h8]
  · rw [Fin.sum_univ_castSucc, Fin.sum_univ_eight]
    have e : ∀ j : Fin 9, nonlinEvap9 un i j = if j = 8 then -mxfNonlin (un i 6) (un i 8) 900 1 1 else
        if j = 6 then mxfNonlin (un i 6) (un i 8) 900 1 1 else if j = 7 then -mxfNonlin (un i 5) (un i 7) 10000 1 1 else
        if j = 5 then mxfNonlin (un i 5) (un i 7) 10000 1 1 else 0 := by
      intro j
      fin_cases j <;> simp [nonlinEvap9, colAdd]
    simp only [e]
    simp [Fin.ext_iff]
  · intro j h7 h8
    simp [gasPurify, colAdd, h7, h8]
  · intro j hj hu
    have hp := hprof (xs i)
    have key : gasPurify xs un i j = -(16 / 100 * un i j * offgasProfile (xs i)) := by
      rcases hj with rfl | rfl
      · simp [gasPurify, colAdd]; norm_num
      · simp [gasPurify, colAdd]; norm_num
    rw [key]
    have h0 := mul_nonneg hu hp.1
    have h1 := mul_le_of_le_one_right hu hp.2
    constructor <;> nlinarith

/-- **C58, no species is driven negative.** In the evaporation terms an empty phase never loses material: if one member of a
pair is zero and the other nonnegative, the empty one has a nonnegative rate. -/
theorem C58_quasipositive {N : ℕ} (un : Arr N 2) (vn : Arr N 9) (i : Fin N) :
    (un i 0 = 0 → 0 ≤ un i 1 → 0 ≤ sourceEvap2 un i 0) ∧ (un i 1 = 0 → 0 ≤ un i 0 → 0 ≤ sourceEvap2 un i 1) ∧
    (un i 0 = 0 → 0 ≤ sourcePoly un i 0) ∧ 0 ≤ sourcePoly un i 1 ∧
    (vn i 5 = 0 → 0 ≤ vn i 7 → 0 ≤ nonlinEvap9 vn i 5) ∧ (vn i 7 = 0 → 0 ≤ vn i 5 → 0 ≤ nonlinEvap9 vn i 7) ∧
    (vn i 6 = 0 → 0 ≤ vn i 8 → 0 ≤ nonlinEvap9 vn i 6) ∧ (vn i 8 = 0 → 0 ≤ vn i 6 → 0 ≤ nonlinEvap9 vn i 8) := by
  have pos : ∀ {uG k : ℝ}, 0 < k → 0 ≤ uG → 0 ≤ mxfNonlin 0 uG k 1 1 := by
    intro uG k hk hu
    unfold mxfNonlin
    refine mul_nonneg (mul_pos hk (nonlin_factor_pos uG (by positivity))).le (by linarith)
  have neg : ∀ {uA k : ℝ}, 0 < k → 0 ≤ uA → mxfNonlin uA 0 k 1 1 ≤ 0 := by
    intro uA k hk hu
    unfold mxfNonlin
    refine mul_nonpos_of_nonneg_of_nonpos (mul_pos hk (nonlin_factor_pos 0 (by positivity))).le (by linarith)
  refine ⟨?_, ?_, ?_, ?_, ?_, ?_, ?_, ?_⟩
  · intro h1 h2; simpa [sourceEvap2, colAdd, h1] using pos (by norm_num) h2
  · intro h1 h2; simpa [sourceEvap2, colAdd, h1] using neg (by norm_num) h2
  · intro h1; simp [sourcePoly, colAdd, h1]
  · simp [sourcePoly, colAdd]
  · intro h1 h2; simpa [nonlinEvap9, colAdd, h1] using pos (by norm_num) h2
  · intro h1 h2; simpa [nonlinEvap9, colAdd, h1] using neg (by norm_num) h2
  · intro h1 h2; simpa [nonlinEvap9, colAdd, h1] using pos (by norm_num) h2
  · intro h1 h2; simpa [nonlinEvap9, colAdd, h1] using neg (by norm_num) h2

/-- **C58, balance of the tank model.** The total inventory of `NonlinearBateman` changes only by decay, transmutation and
fission: the transfer term cancels; the user's `tank_vol` has no effect at all. -/
theorem C58_tank {n : ℕ} (bat trans : Mat n) (fis : Vec n) (nPhi v v' : ℝ) {iA iG : Fin n} (h : iA ≠ iG) (u : Vec n) :
    ∑ j, nonlinBatemanRhs bat trans fis nPhi v iA iG u j
      = ∑ j, (bat *ᵥ u) j + nPhi * ∑ j, (trans *ᵥ u) j + nPhi * ∑ j, fis j ∧
    nonlinBatemanRhs bat trans fis nPhi v iA iG u = nonlinBatemanRhs bat trans fis nPhi v' iA iG u := by
  refine ⟨?_, rfl⟩
  unfold nonlinBatemanRhs
  simp only [Pi.add_apply, Pi.smul_apply, smul_eq_mul, Finset.sum_add_distrib]
  rw [(C58_xe u h _ _).2.1, Finset.mul_sum, Finset.mul_sum, add_zero]

/-- The neutron flux profile of the nine-species system is nonnegative. -/
theorem fluxProfile_nonneg (x : ℝ) : 0 ≤ fluxProfile x := by
  unfold fluxProfile
  split
  · rename_i h
    have hpi := Real.pi_pos
    refine Real.cos_nonneg_of_neg_pi_div_two_le_of_le ?_ ?_
    · nlinarith [h.1]
    · nlinarith [h.2]
  · exact le_rfl

/-- **C58, fission and capture of the nine-species system.** With the nonnegative diagonal production matrix and nonpositive
diagonal capture matrix of the file, fission produces every species at a nonnegative rate and capture removes at most
`sigma * u`. -/
theorem C58_neutron {N : ℕ} (fis trans : Mat 9) (hf : ∀ i j, 0 ≤ fis i j) (ht : ∀ i j, i ≠ j → trans i j = 0)
    (hd : ∀ i, trans i i ≤ 0) (xs : Vec N) (un : Arr N 9) (i : Fin N) (j : Fin 9) :
    0 ≤ fissionSrc fis xs i j ∧ (0 ≤ un i j → transmuteSrc trans xs un i j ≤ 0 ∧ trans j j * un i j ≤ transmuteSrc trans xs un i j) := by
  have h0 := fluxProfile_nonneg (xs i)
  have h1 : fluxProfile (xs i) ≤ 1 := by
    unfold fluxProfile
    split
    · exact Real.cos_le_one _
    · exact zero_le_one
  constructor
  · unfold fissionSrc
    refine mul_nonneg h0 ?_
    rw [Matrix.mul_apply]
    exact Finset.sum_nonneg fun k _ => by simpa using hf j k
  · intro hu
    have e : (un * transᵀ) i j = trans j j * un i j := by
      rw [Matrix.mul_apply, Finset.sum_eq_single j]
      · simp [mul_comm]
      · intro k _ hk
        rw [Matrix.transpose_apply, ht j k hk.symm, mul_zero]
      · simp
    unfold transmuteSrc
    rw [e]
    have hn : trans j j * un i j ≤ 0 := mul_nonpos_of_nonpos_of_nonneg (hd j) hu
    constructor <;> nlinarith

/-- The hypotheses are met by unit production and capture; at the middle of the reactor the flux is 1 and capture removes exactly
`u`. -/
example : ∃ fis trans : Mat 9, (∀ i j, 0 ≤ fis i j) ∧ (∀ i j, i ≠ j → trans i j = 0) ∧ (∀ i, trans i i ≤ 0) ∧
    fluxProfile (1 / 2) = 1 ∧ trans ≠ 0 := by
  refine ⟨1, -1, fun i j => ?_, fun i j h => ?_, fun i => ?_, ?_, ?_⟩
  · rw [Matrix.one_apply]; split <;> norm_num
  · rw [Matrix.neg_apply, Matrix.one_apply_ne h, neg_zero]
  · rw [Matrix.neg_apply, Matrix.one_apply_eq]; norm_num
  · unfold fluxProfile
    rw [if_pos (by norm_num)]
    simp
  · intro h
    have := congrFun (congrFun h 0) 0
    simp at this

end Ormatex.Props
