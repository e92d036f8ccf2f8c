import Verif.Props.LejaCircle
import Verif.Props.LejaEval

/-!
C50: the Leja points on an ellipse, and how they feed the evaluation of C46/C47.
-/

namespace Ormatex.Props
open Finset
open scoped Classical

/-- the reordered circle sequence, whatever the requested length -/
noncomputable def circC (i : ℕ) : ℂ := circPt (reIdx i)

theorem circC_eq (n i : ℕ) (hi : i < n) : genLejaCircle n true i = circC i := circle_conj_eq n i (lt_circleLog n i hi)

theorem circC_eq4 (n i : ℕ) (hi : i < 4) : genLejaCircle n true i = circC i := by
  refine circle_conj_eq n i (hi.trans_le ?_)
  have : 2 ^ 2 ≤ 2 ^ circleLog n := Nat.pow_le_pow_right (by norm_num) (le_max_left _ _)
  simpa using this

theorem circC_norm (i : ℕ) : ‖circC i‖ = 1 := circPt_norm _

theorem circC_injective : Function.Injective circC := circPt_injective.comp reIdx_injective

theorem circC_zero : circC 0 = 1 := by simp [circC, reIdx, circPt_zero]

theorem circC_one : circC 1 = -1 := by simp [circC, reIdx, circPt_one]

theorem circC_pair (k : ℕ) : circC (2 + 2 * k + 1) = (starRingEnd ℂ) (circC (2 + 2 * k)) := by
  rw [← circC_eq (2 + 2 * k + 2) _ (by omega), ← circC_eq (2 + 2 * k + 2) _ (by omega)]
  exact circle_conj_pair _ k (lt_circleLog _ _ (by omega))

theorem circPt_odd (m : ℕ) : circPt (2 * m + 1) = -circPt (2 * m) := by
  induction m using Nat.strong_induction_on with
  | _ m ih =>
    rcases Nat.eq_zero_or_pos m with rfl | hm
    · simp [circPt_zero, circPt_one]
    · obtain ⟨k, r, hk, hr, e⟩ := block_of (2 * m) (by omega)
      have h2 : 2 ^ k = 2 * 2 ^ (k - 1) := by rw [← pow_succ']; congr 1; omega
      obtain ⟨s, rfl⟩ : ∃ s, r = 2 * s := ⟨r / 2, by omega⟩
      rw [e, Nat.add_assoc, circPt_block k hk _ hr, circPt_block k hk _ (by omega), ih s (by omega)]
      ring

theorem circC_neg (t : ℕ) : circC (4 + 4 * t + 2) = -circC (4 + 4 * t) := by
  obtain ⟨k, r, hk, hr, e⟩ := block_of (4 + 4 * t) (by omega)
  have hk2 : 2 ≤ k := by
    by_contra h
    obtain rfl : k = 1 := by omega
    omega
  have h2 : 2 ^ k = 2 * 2 ^ (k - 1) := by rw [← pow_succ']; congr 1; omega
  have h3 : 2 ^ (k - 1) = 2 * 2 ^ (k - 2) := by rw [← pow_succ']; congr 1; omega
  obtain ⟨s, rfl⟩ : ∃ s, r = 2 * (2 * s) := ⟨r / 4, by omega⟩
  unfold circC
  rw [e, show 2 ^ k + 2 * (2 * s) + 2 = 2 ^ k + 2 * (2 * s + 1) by ring, reIdx_even k _ hk (by omega),
    reIdx_even k _ hk (by omega), show 2 ^ k + (2 * s + 1) = 2 * (2 ^ (k - 1) + s) + 1 by omega, circPt_odd,
    show 2 * (2 ^ (k - 1) + s) = 2 ^ k + 2 * s by omega]

theorem unit_re_eq {z w : ℂ} (hz : ‖z‖ = 1) (hw : ‖w‖ = 1) (h : z.re = w.re) : z = w ∨ z = (starRingEnd ℂ) w := by
  have a1 : z.re * z.re + z.im * z.im = 1 := by rw [← Complex.normSq_apply, Complex.normSq_eq_norm_sq, hz]; norm_num
  have a2 : w.re * w.re + w.im * w.im = 1 := by rw [← Complex.normSq_apply, Complex.normSq_eq_norm_sq, hw]; norm_num
  have : (z.im - w.im) * (z.im + w.im) = 0 := by rw [h] at a1; linarith
  rcases mul_eq_zero.1 this with h1 | h1
  · left; exact Complex.ext h (by linarith)
  · right; exact Complex.ext (by simpa using h) (by simp; linarith)

theorem unit_im_eq {z w : ℂ} (hz : ‖z‖ = 1) (hw : ‖w‖ = 1) (h : z.im = w.im) : z = w ∨ z = -(starRingEnd ℂ) w := by
  have a1 : z.re * z.re + z.im * z.im = 1 := by rw [← Complex.normSq_apply, Complex.normSq_eq_norm_sq, hz]; norm_num
  have a2 : w.re * w.re + w.im * w.im = 1 := by rw [← Complex.normSq_apply, Complex.normSq_eq_norm_sq, hw]; norm_num
  have : (z.re - w.re) * (z.re + w.re) = 0 := by rw [h] at a1; linarith
  rcases mul_eq_zero.1 this with h1 | h1
  · left; exact Complex.ext (by linarith) h
  · right; exact Complex.ext (by simp; linarith) (by simpa using h)

/-- positions read in the real branch -/
def rePos (i : ℕ) : ℕ := if i < 2 then i else 2 + 2 * (i - 2)

theorem re_injective : Function.Injective fun i => (circC (rePos i)).re := by
  have hconj : ∀ j, ∃ q, (starRingEnd ℂ) (circC (rePos j)) = circC q ∧ (q = rePos j ∨ (3 ≤ q ∧ q % 2 = 1)) := by
    intro j
    by_cases hj : j < 2
    · refine ⟨rePos j, ?_, Or.inl rfl⟩
      have : j = 0 ∨ j = 1 := by omega
      rcases this with rfl | rfl <;> simp [rePos, circC_zero, circC_one]
    · refine ⟨2 + 2 * (j - 2) + 1, ?_, Or.inr (by omega)⟩
      rw [circC_pair, rePos, if_neg hj]
  have hpos : ∀ i, rePos i < 2 ∨ rePos i % 2 = 0 := by
    intro i; unfold rePos; split_ifs <;> omega
  have hinj : Function.Injective rePos := by
    intro i j h; unfold rePos at h; split_ifs at h <;> omega
  intro i j h
  rcases unit_re_eq (circC_norm _) (circC_norm _) h with e | e
  · exact hinj (circC_injective e)
  · obtain ⟨q, hq, hq2⟩ := hconj j
    rw [hq] at e
    have e := circC_injective e
    rcases hq2 with rfl | hq2
    · exact hinj e
    · have := hpos i; omega

/-- positions read in the imaginary branch -/
def imPos (i : ℕ) : ℕ := if i = 0 then 0 else if i = 1 then 2 else if i = 2 then 3 else 4 + 2 * (i - 3)

theorem circC_two_sq : circC 2 ^ 2 = -1 := by
  have : circC 2 = circRoot 1 := by
    unfold circC circRoot
    congr 1
  rw [this]
  simpa using circRoot_pow 1

theorem neg_conj_of_sq {z : ℂ} (hz : ‖z‖ = 1) (h : z ^ 2 = -1) : -(starRingEnd ℂ) z = z := by
  have := conj_of_mul_one hz (w := -z) (by linear_combination -h)
  rw [← this, neg_neg]

theorem im_injective : Function.Injective fun i => (circC (imPos i)).im := by
  have h3 : circC 3 = (starRingEnd ℂ) (circC 2) := circC_pair 0
  have h2 := neg_conj_of_sq (circC_norm 2) circC_two_sq
  have hconj : ∀ j, ∃ q, -(starRingEnd ℂ) (circC (imPos j)) = circC q ∧ (q = imPos j ∨ q = 1 ∨ (5 ≤ q ∧ q % 2 = 1)) := by
    intro j
    by_cases h0 : j = 0
    · exact ⟨1, by simp [h0, imPos, circC_zero, circC_one], Or.inr (Or.inl rfl)⟩
    · by_cases h1 : j = 1
      · exact ⟨2, by simpa [h1, imPos] using h2, Or.inl (by simp [h1, imPos])⟩
      · by_cases h22 : j = 2
        · refine ⟨3, ?_, Or.inl (by simp [h22, imPos])⟩
          have : circC 3 = -circC 2 := by rw [h3]; exact neg_eq_iff_eq_neg.1 h2
          subst h22
          simp only [imPos]
          norm_num
          rw [this, map_neg, neg_neg]
          exact neg_eq_iff_eq_neg.1 h2
        · rcases Nat.even_or_odd' (j - 3) with ⟨t, ht | ht⟩
          · refine ⟨2 + 2 * (2 * t + 2) + 1, ?_, Or.inr (Or.inr (by omega))⟩
            rw [circC_pair, show 2 + 2 * (2 * t + 2) = 4 + 4 * t + 2 by ring, circC_neg, map_neg, imPos, if_neg h0, if_neg h1,
              if_neg h22, ht, show 4 + 2 * (2 * t) = 4 + 4 * t by ring]
          · refine ⟨2 + 2 * (2 * t + 1) + 1, ?_, Or.inr (Or.inr (by omega))⟩
            rw [circC_pair, show 2 + 2 * (2 * t + 1) = 4 + 4 * t by ring, imPos, if_neg h0, if_neg h1,
              if_neg h22, ht, show 4 + 2 * (2 * t + 1) = 4 + 4 * t + 2 by ring, circC_neg, map_neg, neg_neg]
  have hpos : ∀ i, imPos i = 3 ∨ imPos i % 2 = 0 := by
    intro i; unfold imPos; split_ifs <;> omega
  have hinj : Function.Injective imPos := by
    intro i j h; unfold imPos at h; split_ifs at h <;> omega
  intro i j h
  rcases unit_im_eq (circC_norm _) (circC_norm _) h with e | e
  · exact hinj (circC_injective e)
  · obtain ⟨q, hq, hq2⟩ := hconj j
    rw [hq] at e
    have e := circC_injective e
    rcases hq2 with rfl | hq2
    · exact hinj e
    · have := hpos i; omega

theorem im_pair (k : ℕ) : (circC (imPos (1 + 2 * k + 1))).im = -(circC (imPos (1 + 2 * k))).im := by
  rcases Nat.eq_zero_or_pos k with rfl | hk
  · have := circC_pair 0
    simp only [imPos]
    norm_num at this ⊢
    rw [this]; simp
  · obtain ⟨t, rfl⟩ : ∃ t, k = t + 1 := ⟨k - 1, by omega⟩
    rw [imPos, if_neg (by omega), if_neg (by omega), if_neg (by omega), imPos, if_neg (by omega), if_neg (by omega),
      if_neg (by omega), show 4 + 2 * (1 + 2 * (t + 1) + 1 - 3) = 4 + 4 * t + 2 by omega,
      show 4 + 2 * (1 + 2 * (t + 1) - 3) = 4 + 4 * t by omega, circC_neg, Complex.neg_im]

/-! ### `gen_leja_conjugate` -/

/-- **Specification.**  What the caller of `gen_leja_conjugate(n, a, b, c)` gets: a centre and a scale; `n` distinct points,
the leading `nReal` of them real and the others in conjugate pairs, which after scaling and shifting lie in the box, and on
the ellipse with half axes `(b-a)/2` and `c` in the generic case. -/
structure EllipseSeq (n : ℕ) (a b c : ℝ) (r : LejaSeq) : Prop where
  shift : r.shift = (a + b) / 2
  scale : 2 * r.scale = (b - a) / 2 + c
  scale_ne : r.scale ≠ 0
  distinct : Set.InjOn r.zt (Finset.range n)
  conj : ConjNodes r.zt r.nReal n
  box : ∀ i < n, |((r.shift : ℂ) + r.scale * r.zt i).re - (a + b) / 2| ≤ |(b - a) / 2| ∧
    |((r.shift : ℂ) + r.scale * r.zt i).im| ≤ |c|
  ellipse : r.nReal = 2 → n ≠ 2 → ∀ i < n, ((((r.shift : ℂ) + r.scale * r.zt i).re - (a + b) / 2) * c) ^ 2 +
    (((r.shift : ℂ) + r.scale * r.zt i).im * ((b - a) / 2)) ^ 2 = ((b - a) / 2 * c) ^ 2

/-- **C50.**  Whatever `gen_leja_conjugate` returns meets the specification. -/
theorem C50_ellipse (n : ℕ) (a b c : ℝ) (r : LejaSeq) (h : genLejaConjugate n a b c = .ok r) : EllipseSeq n a b c r := by
  unfold genLejaConjugate at h
  simp only at h
  set scale := ((b - a) / 2 + c) / 2 with hsc
  by_cases hs : scale = 0
  · rw [if_pos hs] at h; cases h
  rw [if_neg hs] at h
  set h1 := (b - a) / 2 / scale with hh1
  set h2 := c / scale with hh2
  have e1 : scale * h1 = (b - a) / 2 := mul_div_cancel₀ _ hs
  have e2 : scale * h2 = c := mul_div_cancel₀ _ hs
  have hsum : h1 + h2 = 2 := by
    rw [hh1, hh2, ← add_div, div_eq_iff hs, hsc]; ring
  by_cases hneg : h1 < 0 ∨ h2 < 0
  · rw [if_pos hneg] at h; cases h
  rw [if_neg hneg] at h
  push Not at hneg
  have habs : ∀ z : ℂ, ‖z‖ = 1 → |z.re| ≤ 1 ∧ |z.im| ≤ 1 := fun z hz =>
    ⟨hz ▸ Complex.abs_re_le_norm z, hz ▸ Complex.abs_im_le_norm z⟩
  by_cases ht : h2 ≤ 1e-4
  · rw [if_pos ht] at h
    have hne : h1 ≠ 0 := by intro h0; rw [h0] at hsum; norm_num at ht; linarith
    by_cases hn : n < 2
    · rw [if_pos hn] at h; cases h
    rw [if_neg hn] at h
    cases h
    have hz : ∀ i < n, (if i < 2 then (genLejaCircle (2 * (n - 1)) true i).re
        else (genLejaCircle (2 * (n - 1)) true (2 + 2 * (i - 2))).re) = (circC (rePos i)).re := by
      intro i hi
      unfold rePos
      split_ifs with h2
      · rw [circC_eq4 _ _ (by omega)]
      · rw [circC_eq _ _ (by omega)]
    refine ⟨rfl, by simp only; ring, hs, ?_, ⟨?_, ?_⟩, ?_, ?_⟩
    · intro i hi j hj hij
      simp only [Finset.coe_range, Set.mem_Iio] at hi hj
      simp only [Complex.ofReal_inj] at hij
      rw [hz i hi, hz j hj] at hij
      exact re_injective (mul_left_cancel₀ hne hij)
    · intro i _
      simp only [Complex.ofReal_im]
    · intro k hk
      simp only at hk
      omega
    · intro i hi
      simp only [← Complex.ofReal_mul, ← Complex.ofReal_add, Complex.ofReal_re, Complex.ofReal_im, abs_zero]
      refine ⟨?_, abs_nonneg _⟩
      rw [hz i hi, add_sub_cancel_left, ← mul_assoc, e1, abs_mul]
      exact mul_le_of_le_one_right (abs_nonneg _) (habs _ (circC_norm _)).1
    · intro h2 h3; exact absurd h2 h3
  · rw [if_neg ht] at h
    by_cases ht1 : h1 ≤ 1e-4
    · rw [if_pos ht1] at h
      have hne : h2 ≠ 0 := by intro h0; rw [h0] at ht; norm_num at ht
      by_cases hn : n < 3
      · rw [if_pos hn] at h; cases h
      rw [if_neg hn] at h
      cases h
      have hz : ∀ i < n, (if i = 0 then (genLejaCircle (2 * (n - 1)) true 0).im
          else if i = 1 then (genLejaCircle (2 * (n - 1)) true 2).im
          else if i = 2 then (genLejaCircle (2 * (n - 1)) true 3).im
          else (genLejaCircle (2 * (n - 1)) true (4 + 2 * (i - 3))).im) = (circC (imPos i)).im := by
        intro i hi
        unfold imPos
        split_ifs
        · rw [circC_eq4 _ _ (by omega)]
        · rw [circC_eq4 _ _ (by omega)]
        · rw [circC_eq4 _ _ (by omega)]
        · rw [circC_eq _ _ (by omega)]
      refine ⟨rfl, by simp only; ring, hs, ?_, ⟨?_, ?_⟩, ?_, ?_⟩
      · intro i hi j hj hij
        simp only [Finset.coe_range, Set.mem_Iio] at hi hj
        simp only at hij
        rw [hz i hi, hz j hj] at hij
        have h5 := mul_left_cancel₀ (mul_ne_zero Complex.I_ne_zero (Complex.ofReal_ne_zero.2 hne)) hij
        exact im_injective (Complex.ofReal_inj.1 h5)
      · intro i hi
        simp only at hi
        obtain rfl : i = 0 := by omega
        simp [circC_eq4, circC_zero]
      · intro k hk
        simp only at hk ⊢
        rw [hz _ hk, hz _ (by omega), im_pair]
        simp
      · intro i hi
        simp only
        rw [hz i hi]
        have e3 : ((a + b) / 2 : ℝ) + (scale : ℂ) * (Complex.I * h2 * ((circC (imPos i)).im : ℂ))
            = ⟨(a + b) / 2, c * (circC (imPos i)).im⟩ := by
          rw [← e2]
          apply Complex.ext <;> simp
          ring
        rw [e3]
        simp only [sub_self, abs_zero]
        refine ⟨abs_nonneg _, ?_⟩
        rw [abs_mul]
        exact mul_le_of_le_one_right (abs_nonneg _) (habs _ (circC_norm _)).2
      · intro h2; norm_num at h2
    · rw [if_neg ht1] at h
      cases h
      have hne1 : h1 ≠ 0 := by intro h0; rw [h0] at ht1; norm_num at ht1
      have hne2 : h2 ≠ 0 := by intro h0; rw [h0] at ht; norm_num at ht
      have e4 : ∀ z : ℂ, (h1 : ℂ) * (z.re : ℂ) + Complex.I * (h2 : ℂ) * (z.im : ℂ) = ⟨h1 * z.re, h2 * z.im⟩ := by
        intro z; apply Complex.ext <;> simp
      have e3 : ∀ z : ℂ, (((a + b) / 2 : ℝ) : ℂ) + (scale : ℂ) * ⟨h1 * z.re, h2 * z.im⟩
          = ⟨(a + b) / 2 + (b - a) / 2 * z.re, c * z.im⟩ := by
        intro z
        apply Complex.ext
        · simp only [Complex.add_re, Complex.ofReal_re, Complex.re_ofReal_mul]; rw [← mul_assoc, e1]
        · simp only [Complex.add_im, Complex.ofReal_im, Complex.im_ofReal_mul, zero_add]; rw [← mul_assoc, e2]
      refine ⟨rfl, by simp only; ring, hs, ?_, ⟨?_, ?_⟩, ?_, ?_⟩
      · intro i hi j hj hij
        simp only [Finset.coe_range, Set.mem_Iio] at hi hj
        simp only [e4] at hij
        rw [circC_eq _ _ hi, circC_eq _ _ hj] at hij
        rw [Complex.mk.injEq] at hij
        exact circC_injective (Complex.ext (mul_left_cancel₀ hne1 hij.1) (mul_left_cancel₀ hne2 hij.2))
      · intro i hi
        simp only at hi
        simp only [e4]
        rw [circC_eq4 _ _ (by omega)]
        have : i = 0 ∨ i = 1 := by omega
        rcases this with rfl | rfl <;> simp [circC_zero, circC_one]
      · intro k hk
        simp only at hk ⊢
        rw [e4, e4, circC_eq _ _ hk, circC_eq _ _ (by omega), circC_pair]
        apply Complex.ext <;> simp
      · intro i hi
        simp only
        rw [e4, e3, circC_eq _ _ hi]
        simp only [add_sub_cancel_left, abs_mul]
        exact ⟨mul_le_of_le_one_right (abs_nonneg _) (habs _ (circC_norm _)).1,
          mul_le_of_le_one_right (abs_nonneg _) (habs _ (circC_norm _)).2⟩
      · intro _ _ i hi
        simp only
        rw [e4, e3, circC_eq _ _ hi]
        simp only [add_sub_cancel_left]
        have a1 : (circC i).re * (circC i).re + (circC i).im * (circC i).im = 1 := by
          rw [← Complex.normSq_apply, Complex.normSq_eq_norm_sq, circC_norm]; norm_num
        linear_combination ((b - a) / 2 * c) ^ 2 * a1

/-- **C50, acceptance.**  A nonempty box with `n ≥ 3` is accepted; the number of leading real points is `n` for boxes
(relatively) flat in the imaginary direction, `1` for boxes flat in the real direction and `2` otherwise. -/
theorem C50_accepts (n : ℕ) (hn : 3 ≤ n) (a b c : ℝ) (hab : a ≤ b) (hc : 0 ≤ c) (hne : a < b ∨ 0 < c) :
    ∃ r, genLejaConjugate n a b c = .ok r ∧ 0 < r.scale ∧
      r.nReal = if c ≤ 1e-4 * (((b - a) / 2 + c) / 2) then n
        else if (b - a) / 2 ≤ 1e-4 * (((b - a) / 2 + c) / 2) then 1 else 2 := by
  have hpos : 0 < ((b - a) / 2 + c) / 2 := by rcases hne with h | h <;> linarith
  unfold genLejaConjugate
  simp only
  rw [if_neg hpos.ne', if_neg (by
    push Not
    exact ⟨div_nonneg (by linarith) hpos.le, div_nonneg hc hpos.le⟩)]
  simp only [div_le_iff₀ hpos]
  split_ifs with h1 h2 h3 h4
  · omega
  · exact ⟨_, rfl, hpos, rfl⟩
  · omega
  · exact ⟨_, rfl, hpos, rfl⟩
  · exact ⟨_, rfl, hpos, rfl⟩

/-- **C50, refusal.**  A box with one extent negative and the other one positive is refused with `ValueError`. -/
theorem C50_rejects (n : ℕ) (a b c : ℝ) (h : (b < a ∧ 0 < c) ∨ (a < b ∧ c < 0)) :
    genLejaConjugate n a b c = .error .value := by
  unfold genLejaConjugate
  simp only
  split_ifs with h0 h1 <;> try rfl
  all_goals
    exfalso
    push Not at h1
    obtain ⟨h1, h2⟩ := h1
    rcases lt_or_gt_of_ne h0 with hs | hs
    · have a1 : (b - a) / 2 ≤ 0 := by
        by_contra hcon
        exact absurd h1 (not_le.2 (div_neg_of_pos_of_neg (not_le.1 hcon) hs))
      have a2 : c ≤ 0 := by
        by_contra hcon
        exact absurd h2 (not_le.2 (div_neg_of_pos_of_neg (not_le.1 hcon) hs))
      rcases h with h | h <;> linarith
    · have a1 : 0 ≤ (b - a) / 2 := by
        by_contra hcon
        exact absurd h1 (not_le.2 (div_neg_of_neg_of_pos (not_le.1 hcon) hs))
      have a2 : 0 ≤ c := by
        by_contra hcon
        exact absurd h2 (not_le.2 (div_neg_of_neg_of_pos (not_le.1 hcon) hs))
      rcases h with h | h <;> linarith

/-- **C50, the test for empty boxes is not complete**: the empty box `[1, -1] x [1, -1]` is accepted, with a negative
scale. -/
theorem C50_empty_box_accepted : ∃ r, genLejaConjugate 4 1 (-1) (-1) = .ok r ∧ r.scale < 0 := by
  unfold genLejaConjugate
  norm_num

/-- The generic ellipse occurs: `[-2, 2] x [-2, 2]`. -/
example : ∃ r, genLejaConjugate 10 (-2) 2 2 = .ok r ∧ r.nReal = 2 := by
  obtain ⟨r, h1, _, h3⟩ := C50_accepts 10 (by norm_num) (-2) 2 2 (by norm_num) (by norm_num) (by norm_num)
  refine ⟨r, h1, ?_⟩
  rw [h3]; norm_num

end Ormatex.Props
