import Verif.Model.Leja
import Mathlib.Data.Nat.Size

/-!
C49: the Leja points on the unit circle.
-/

namespace Ormatex.Props
open Finset
open scoped Classical

/-- the `i`-th entry of the doubling construction, whatever the number of passes -/
noncomputable def circPt (i : ℕ) : ℂ := circleRaw (i + 1) i

theorem circleRaw_succ (k : ℕ) (hk : 1 ≤ k) : circleRaw (k + 1) = circleDouble (circleRaw k) k := by
  unfold circleRaw
  obtain ⟨j, rfl⟩ : ∃ j, k = j + 1 := ⟨k - 1, by omega⟩
  rw [show j + 1 + 1 - 1 = j + 1 by omega, show j + 1 - 1 = j by omega, List.range'_1_concat, List.foldl_append]
  simp [Nat.add_comm]

theorem circleRaw_stable (i L : ℕ) (hL : 1 ≤ L) (hi : i < 2 ^ L) (d : ℕ) : circleRaw (L + d) i = circleRaw L i := by
  induction d with
  | zero => rfl
  | succ d ih =>
    rw [← Nat.add_assoc, circleRaw_succ (L + d) (by omega), circleDouble, if_neg, ih]
    have : 2 ^ L ≤ 2 ^ (L + d) := Nat.pow_le_pow_right (by norm_num) (by omega)
    omega

theorem circleRaw_eq (i L : ℕ) (hL : 1 ≤ L) (hi : i < 2 ^ L) : circleRaw L i = circPt i := by
  unfold circPt
  have h2 : i < 2 ^ (i + 1) := Nat.lt_two_pow_self.trans (Nat.pow_lt_pow_right (by norm_num) (by omega))
  rcases le_total L (i + 1) with h | h
  · obtain ⟨d, hd⟩ := Nat.exists_eq_add_of_le h
    rw [hd, circleRaw_stable i L hL hi]
  · obtain ⟨d, hd⟩ := Nat.exists_eq_add_of_le h
    rw [hd, circleRaw_stable i (i + 1) (by omega) h2]

theorem circPt_zero : circPt 0 = 1 := by
  unfold circPt circleRaw; simp

theorem circPt_one : circPt 1 = -1 := by
  rw [← circleRaw_eq 1 1 le_rfl (by norm_num)]
  unfold circleRaw; simp

/-- the root used in the `k`-th pass -/
noncomputable def circRoot (k : ℕ) : ℂ := circPt (2 ^ k)

theorem circPt_block (k : ℕ) (hk : 1 ≤ k) (r : ℕ) (hr : r < 2 ^ k) : circPt (2 ^ k + r) = circRoot k * circPt r := by
  have key : ∀ r < 2 ^ k, circPt (2 ^ k + r) = (circPt (2 ^ (k - 1))) ^ (1 / 2 : ℂ) * circPt r := by
    intro r hr
    have h1 : 2 ^ (k + 1) = 2 ^ k + 2 ^ k := by rw [pow_succ]; omega
    have h3 : 2 ^ (k - 1) < 2 ^ k := Nat.pow_lt_pow_right (by norm_num) (by omega)
    rw [← circleRaw_eq (2 ^ k + r) (k + 1) (by omega) (by omega), circleRaw_succ k hk, circleDouble, if_pos (by omega),
      Nat.add_sub_cancel_left, circleRaw_eq _ k hk h3, circleRaw_eq _ k hk hr]
  rw [key r hr, circRoot]
  have := key 0 (by positivity)
  rw [Nat.add_zero] at this
  rw [this, circPt_zero, mul_one]

theorem circRoot_zero : circRoot 0 = -1 := by simp [circRoot, circPt_one]

theorem circRoot_sq (k : ℕ) : circRoot (k + 1) ^ 2 = circRoot k := by
  have h1 : 2 ^ (k + 2) = 2 ^ (k + 1) + 2 ^ (k + 1) := by rw [pow_succ _ (k + 1)]; omega
  have h3 : 2 ^ k < 2 ^ (k + 1) := Nat.pow_lt_pow_right (by norm_num) (by omega)
  have hp : 0 < 2 ^ (k + 1) := by positivity
  have : circRoot (k + 1) = (circRoot k) ^ (1 / 2 : ℂ) := by
    rw [circRoot, ← circleRaw_eq (2 ^ (k + 1)) (k + 2) (by omega) (by omega), circleRaw_succ (k + 1) (by omega), circleDouble,
      if_pos (by omega), Nat.sub_self, circleRaw_eq _ (k + 1) (by omega) hp, circPt_zero, mul_one, Nat.add_sub_cancel,
      circleRaw_eq _ (k + 1) (by omega) h3]
    rfl
  rw [this, ← Complex.cpow_nat_mul]
  norm_num

theorem circRoot_pow (k : ℕ) : circRoot k ^ 2 ^ k = -1 := by
  induction k with
  | zero => simp [circRoot_zero]
  | succ k ih => rw [pow_succ 2, mul_comm, pow_mul, circRoot_sq, ih]

theorem circRoot_norm (k : ℕ) : ‖circRoot k‖ = 1 := by
  have h := congrArg norm (circRoot_pow k)
  rw [norm_pow, norm_neg, norm_one] at h
  exact (pow_eq_one_iff_of_nonneg (norm_nonneg _) (by positivity)).1 h

theorem circRoot_ne (k : ℕ) : circRoot k ≠ 0 := by
  intro h
  have := circRoot_norm k
  rw [h, norm_zero] at this
  exact one_ne_zero this.symm

/-- every index above 1 lies in exactly one block -/
theorem block_of (i : ℕ) (hi : 2 ≤ i) : ∃ k r, 1 ≤ k ∧ r < 2 ^ k ∧ i = 2 ^ k + r := by
  refine ⟨Nat.log 2 i, i - 2 ^ Nat.log 2 i, ?_, ?_, ?_⟩
  · exact (Nat.le_log_iff_pow_le (by norm_num) (by omega)).2 (by simpa using hi)
  · have := Nat.lt_pow_succ_log_self (b := 2) (by norm_num) i
    rw [pow_succ] at this
    omega
  · have := Nat.pow_log_le_self 2 (x := i) (by omega)
    omega

theorem circPt_pow (k : ℕ) : ∀ i < 2 ^ k, circPt i ^ 2 ^ k = 1 := by
  induction k with
  | zero => intro i hi; obtain rfl : i = 0 := by simpa using hi
            simp [circPt_zero]
  | succ k ih =>
    intro i hi
    have h1 : 2 ^ (k + 1) = 2 ^ k + 2 ^ k := by rw [pow_succ]; omega
    rcases lt_or_ge i (2 ^ k) with h | h
    · rw [pow_succ 2, pow_mul, ih i h, one_pow]
    · obtain ⟨r, rfl⟩ := Nat.exists_eq_add_of_le h
      rcases Nat.eq_zero_or_pos k with rfl | hk
      · obtain rfl : r = 0 := by simp at hi; omega
        simp [circPt_one]
      · rw [circPt_block k hk r (by omega), mul_pow, pow_succ 2, pow_mul, pow_mul, circRoot_pow, ih r (by omega)]
        norm_num

theorem circPt_block_pow (k : ℕ) (r : ℕ) (hr : r < 2 ^ k) : circPt (2 ^ k + r) ^ 2 ^ k = -1 := by
  rcases Nat.eq_zero_or_pos k with rfl | hk
  · obtain rfl : r = 0 := by simpa using hr
    simp [circPt_one]
  · rw [circPt_block k hk r hr, mul_pow, circRoot_pow, circPt_pow k r hr]; ring

theorem circPt_norm (i : ℕ) : ‖circPt i‖ = 1 := by
  have h := congrArg norm (circPt_pow i i Nat.lt_two_pow_self)
  rw [norm_pow, norm_one] at h
  exact (pow_eq_one_iff_of_nonneg (norm_nonneg _) (by positivity)).1 h

theorem circPt_injOn (k : ℕ) : ∀ i < 2 ^ k, ∀ j < 2 ^ k, circPt i = circPt j → i = j := by
  have hneg : ∀ z : ℂ, z = 1 → z = -1 → False := by
    rintro z rfl h; norm_num at h
  induction k with
  | zero => intro i hi j hj _; simp at hi hj; omega
  | succ k ih =>
    intro i hi j hj h
    have h1 : 2 ^ (k + 1) = 2 ^ k + 2 ^ k := by rw [pow_succ]; omega
    rcases lt_or_ge i (2 ^ k) with h2 | h2 <;> rcases lt_or_ge j (2 ^ k) with h3 | h3
    · exact ih i h2 j h3 h
    · obtain ⟨r, rfl⟩ := Nat.exists_eq_add_of_le h3
      exact absurd (h ▸ circPt_block_pow k r (by omega)) (fun e => hneg _ (circPt_pow k i h2) e)
    · obtain ⟨r, rfl⟩ := Nat.exists_eq_add_of_le h2
      exact absurd (h ▸ circPt_block_pow k r (by omega)) (fun e => hneg _ (circPt_pow k j h3) e)
    · obtain ⟨r, rfl⟩ := Nat.exists_eq_add_of_le h2
      obtain ⟨r', rfl⟩ := Nat.exists_eq_add_of_le h3
      rcases Nat.eq_zero_or_pos k with rfl | hk
      · simp at hi hj; omega
      · rw [circPt_block k hk r (by omega), circPt_block k hk r' (by omega)] at h
        have := mul_left_cancel₀ (circRoot_ne k) h
        rw [ih r (by omega) r' (by omega) this]

theorem circPt_injective : Function.Injective circPt := by
  intro i j h
  refine circPt_injOn (max i j) i ?_ j ?_ h
  · exact Nat.lt_two_pow_self.trans_le (Nat.pow_le_pow_right (by norm_num) (le_max_left _ _))
  · exact Nat.lt_two_pow_self.trans_le (Nat.pow_le_pow_right (by norm_num) (le_max_right _ _))

theorem circPt_refl_prod (k : ℕ) : ∀ r < 2 ^ (k + 1), circPt r * circPt (2 ^ (k + 1) - 1 - r) * circRoot k = 1 := by
  induction k with
  | zero =>
    intro r hr
    have : r = 0 ∨ r = 1 := by simp at hr; omega
    rcases this with rfl | rfl <;> simp [circPt_zero, circPt_one, circRoot_zero]
  | succ k ih =>
    intro r hr
    have h1 : 2 ^ (k + 2) = 2 ^ (k + 1) + 2 ^ (k + 1) := by rw [pow_succ _ (k + 1)]; omega
    rw [show k + 1 + 1 = k + 2 from rfl] at hr ⊢
    rcases lt_or_ge r (2 ^ (k + 1)) with h | h
    · rw [show 2 ^ (k + 2) - 1 - r = 2 ^ (k + 1) + (2 ^ (k + 1) - 1 - r) by omega,
        circPt_block (k + 1) (by omega) _ (by omega)]
      calc circPt r * (circRoot (k + 1) * circPt (2 ^ (k + 1) - 1 - r)) * circRoot (k + 1)
          = circPt r * circPt (2 ^ (k + 1) - 1 - r) * circRoot (k + 1) ^ 2 := by ring
        _ = 1 := by rw [circRoot_sq, ih r h]
    · obtain ⟨s, rfl⟩ := Nat.exists_eq_add_of_le h
      rw [show 2 ^ (k + 2) - 1 - (2 ^ (k + 1) + s) = 2 ^ (k + 1) - 1 - s by omega,
        circPt_block (k + 1) (by omega) s (by omega)]
      calc circRoot (k + 1) * circPt s * circPt (2 ^ (k + 1) - 1 - s) * circRoot (k + 1)
          = circPt s * circPt (2 ^ (k + 1) - 1 - s) * circRoot (k + 1) ^ 2 := by ring
        _ = 1 := by rw [circRoot_sq, ih s (by omega)]

theorem conj_of_mul_one {z w : ℂ} (hz : ‖z‖ = 1) (h : z * w = 1) : w = (starRingEnd ℂ) z := by
  have hne : z ≠ 0 := by
    rintro rfl; simp at hz
  have e : z * (starRingEnd ℂ) z = 1 := by
    rw [Complex.mul_conj, Complex.normSq_eq_norm_sq, hz]; simp
  exact mul_left_cancel₀ hne (h.trans e.symm)

theorem circPt_conj (k : ℕ) (hk : 1 ≤ k) (s : ℕ) (hs : s < 2 ^ k) :
    circPt (2 ^ (k + 1) - 1 - s) = (starRingEnd ℂ) (circPt (2 ^ k + s)) := by
  refine conj_of_mul_one (circPt_norm _) ?_
  obtain ⟨j, rfl⟩ : ∃ j, k = j + 1 := ⟨k - 1, by omega⟩
  have h1 : 2 ^ (j + 2) = 2 ^ (j + 1) + 2 ^ (j + 1) := by rw [pow_succ _ (j + 1)]; omega
  rw [show j + 1 + 1 = j + 2 from rfl, show 2 ^ (j + 2) - 1 - s = 2 ^ (j + 1) + (2 ^ (j + 1) - 1 - s) by omega,
    circPt_block (j + 1) hk s hs, circPt_block (j + 1) hk _ (by omega)]
  calc circRoot (j + 1) * circPt s * (circRoot (j + 1) * circPt (2 ^ (j + 1) - 1 - s))
      = circPt s * circPt (2 ^ (j + 1) - 1 - s) * circRoot (j + 1) ^ 2 := by ring
    _ = 1 := by rw [circRoot_sq, circPt_refl_prod j s hs]

/-! ### the conjugate reordering -/

/-- where the entry at position `i` of the reordered sequence comes from -/
def reIdx (i : ℕ) : ℕ :=
  if i < 2 then i else
    if (i - 2 ^ Nat.log 2 i) % 2 = 0 then 2 ^ Nat.log 2 i + (i - 2 ^ Nat.log 2 i) / 2
    else 2 ^ (Nat.log 2 i + 1) - 1 - (i - 2 ^ Nat.log 2 i) / 2

theorem log_block (k r : ℕ) (hr : r < 2 ^ k) : Nat.log 2 (2 ^ k + r) = k := by
  rw [Nat.log_eq_iff (Or.inr ⟨by norm_num, by positivity⟩)]
  refine ⟨by omega, ?_⟩
  rw [pow_succ]; omega

theorem reIdx_even (k s : ℕ) (hk : 1 ≤ k) (hs : s < 2 ^ (k - 1)) : reIdx (2 ^ k + 2 * s) = 2 ^ k + s := by
  have h2 : 2 ^ k = 2 * 2 ^ (k - 1) := by rw [← pow_succ']; congr 1; omega
  have hp : 0 < 2 ^ (k - 1) := by positivity
  unfold reIdx
  rw [if_neg (by omega), log_block k (2 * s) (by omega), if_pos (by omega)]
  omega

theorem reIdx_odd (k s : ℕ) (hk : 1 ≤ k) (hs : s < 2 ^ (k - 1)) :
    reIdx (2 ^ k + 2 * s + 1) = 2 ^ (k + 1) - 1 - s := by
  have h2 : 2 ^ k = 2 * 2 ^ (k - 1) := by rw [← pow_succ']; congr 1; omega
  have hp : 0 < 2 ^ (k - 1) := by positivity
  unfold reIdx
  rw [if_neg (by omega), Nat.add_assoc, log_block k (2 * s + 1) (by omega), if_neg (by omega)]
  congr 1; omega

theorem conjFold_eq (zt : ℕ → ℂ) (L : ℕ) : ∀ i,
    (List.range' 1 L).foldl conjReorder zt i = if i < 2 ^ (L + 1) then zt (reIdx i) else zt i := by
  induction L with
  | zero =>
    intro i
    simp only [List.range'_zero, List.foldl_nil]
    split
    · rename_i h
      rw [show reIdx i = i by unfold reIdx; rw [if_pos (by simpa using h)]]
    · rfl
  | succ L ih =>
    intro i
    rw [List.range'_1_concat, List.foldl_append, List.foldl_cons, List.foldl_nil, conjReorder]
    rw [Nat.add_comm 1 L]
    have h1 : 2 ^ (L + 1 + 1) = 2 ^ (L + 1) + 2 ^ (L + 1) := by rw [pow_succ _ (L + 1)]; omega
    have hp : 2 ≤ 2 ^ (L + 1) := by rw [pow_succ]; have : 0 < 2 ^ L := by positivity
                                    omega
    split
    · rename_i h
      rw [if_pos h.2]
      have hlog : Nat.log 2 i = L + 1 := by
        obtain ⟨r, rfl⟩ := Nat.exists_eq_add_of_le h.1
        exact log_block _ r (by omega)
      have hre : reIdx i = if (i - 2 ^ (L + 1)) % 2 = 0 then 2 ^ (L + 1) + (i - 2 ^ (L + 1)) / 2
          else 2 ^ (L + 1 + 1) - 1 - (i - 2 ^ (L + 1)) / 2 := by
        unfold reIdx
        rw [if_neg (by omega), hlog]
      by_cases hpar : (i - 2 ^ (L + 1)) % 2 = 0
      · rw [if_pos hpar, hre, if_pos hpar, ih, if_neg (by omega)]
      · rw [if_neg hpar, hre, if_neg hpar, ih, if_neg (by omega)]
    · rename_i h
      rw [ih]
      by_cases h2 : i < 2 ^ (L + 1)
      · rw [if_pos h2, if_pos (by omega)]
      · rw [if_neg h2, if_neg (by omega)]

theorem reIdx_block (i k r : ℕ) (hk : 1 ≤ k) (hr : r < 2 ^ k) (hi : i = 2 ^ k + r) :
    2 ^ k ≤ reIdx i ∧ reIdx i < 2 ^ (k + 1) := by
  have h2 : 2 ^ k = 2 * 2 ^ (k - 1) := by rw [← pow_succ']; congr 1; omega
  have h1 : 2 ^ (k + 1) = 2 ^ k + 2 ^ k := by rw [pow_succ]; omega
  rcases Nat.even_or_odd' r with ⟨s, rfl | rfl⟩
  · rw [hi, reIdx_even k s hk (by omega)]; omega
  · rw [hi, ← Nat.add_assoc, reIdx_odd k s hk (by omega)]; omega

theorem reIdx_injective : Function.Injective reIdx := by
  intro i j h
  by_cases hi : i < 2
  · by_cases hj : j < 2
    · simpa [reIdx, hi, hj] using h
    · obtain ⟨k, r, hk, hr, e⟩ := block_of j (by omega)
      have := (reIdx_block j k r hk hr e).1
      have h4 : 2 ≤ 2 ^ k := by simpa using Nat.pow_le_pow_right (n := 2) (by norm_num) hk
      rw [← h, reIdx, if_pos hi] at this
      omega
  · obtain ⟨k, r, hk, hr, e⟩ := block_of i (by omega)
    have hb := reIdx_block i k r hk hr e
    have h4 : 2 ≤ 2 ^ k := by simpa using Nat.pow_le_pow_right (n := 2) (by norm_num) hk
    by_cases hj : j < 2
    · rw [h, reIdx, if_pos hj] at hb
      omega
    · obtain ⟨k', r', hk', hr', e'⟩ := block_of j (by omega)
      have hb' := reIdx_block j k' r' hk' hr' e'
      rw [← h] at hb'
      have hkk : k = k' := by
        have a1 : k < k' + 1 := (Nat.pow_lt_pow_iff_right (by norm_num)).1 (hb.1.trans_lt hb'.2)
        have a2 : k' < k + 1 := (Nat.pow_lt_pow_iff_right (by norm_num)).1 (hb'.1.trans_lt hb.2)
        omega
      subst hkk
      have h2 : 2 ^ k = 2 * 2 ^ (k - 1) := by rw [← pow_succ']; congr 1; omega
      have h1 : 2 ^ (k + 1) = 2 ^ k + 2 ^ k := by rw [pow_succ]; omega
      subst e e'
      rcases Nat.even_or_odd' r with ⟨s, rfl | rfl⟩ <;> rcases Nat.even_or_odd' r' with ⟨s', rfl | rfl⟩
      · rw [reIdx_even k s hk (by omega), reIdx_even k s' hk (by omega)] at h; omega
      · rw [reIdx_even k s hk (by omega), ← Nat.add_assoc, reIdx_odd k s' hk (by omega)] at h; omega
      · rw [← Nat.add_assoc, reIdx_odd k s hk (by omega), reIdx_even k s' hk (by omega)] at h; omega
      · rw [← Nat.add_assoc, ← Nat.add_assoc, reIdx_odd k s hk (by omega), reIdx_odd k s' hk (by omega)] at h; omega

theorem lt_circleLog (n i : ℕ) (hi : i < n) : i < 2 ^ circleLog n := by
  have h : n - 1 < 2 ^ Nat.size (n - 1) := Nat.lt_size_self _
  have : 2 ^ Nat.size (n - 1) ≤ 2 ^ circleLog n := Nat.pow_le_pow_right (by norm_num) (le_max_right _ _)
  omega

theorem circle_raw_eq (n i : ℕ) (hi : i < n) : genLejaCircle n false i = circPt i := by
  unfold genLejaCircle
  simp only [Bool.false_eq_true, if_false]
  exact circleRaw_eq i _ (by unfold circleLog; omega) (lt_circleLog n i hi)

theorem reIdx_lt (L i : ℕ) (hi : i < 2 ^ L) : reIdx i < 2 ^ L := by
  by_cases h : i < 2
  · rw [reIdx, if_pos h]; exact hi
  · obtain ⟨k, r, hk, hr, e⟩ := block_of i (by omega)
    have hb := reIdx_block i k r hk hr e
    have : k < L := (Nat.pow_lt_pow_iff_right (a := 2) (by norm_num)).1 (by omega)
    exact hb.2.trans_le (Nat.pow_le_pow_right (by norm_num) this)

theorem circle_conj_eq (n i : ℕ) (hi : i < 2 ^ circleLog n) : genLejaCircle n true i = circPt (reIdx i) := by
  unfold genLejaCircle
  simp only [if_true]
  have h2 : 2 ≤ circleLog n := le_max_left _ _
  rw [conjFold_eq, show circleLog n - 1 + 1 = circleLog n by omega, if_pos hi,
    circleRaw_eq _ _ (by omega) (reIdx_lt _ i hi)]

theorem circle_conj_pair (n k : ℕ) (hk : 2 + 2 * k + 1 < 2 ^ circleLog n) :
    genLejaCircle n true (2 + 2 * k + 1) = (starRingEnd ℂ) (genLejaCircle n true (2 + 2 * k)) := by
  rw [circle_conj_eq n _ hk, circle_conj_eq n _ (by omega)]
  obtain ⟨b, r, hb, hr, e⟩ := block_of (2 + 2 * k) (by omega)
  have h2 : 2 ^ b = 2 * 2 ^ (b - 1) := by rw [← pow_succ']; congr 1; omega
  obtain ⟨s, rfl⟩ : ∃ s, r = 2 * s := ⟨r / 2, by omega⟩
  rw [e, reIdx_even b s hb (by omega), reIdx_odd b s hb (by omega), circPt_conj b hb s (by omega)]

/-- **C49.**  `gen_leja_circle(n, conjugate=True)` returns `n` pairwise distinct points of the unit circle, beginning with
`1, -1`, followed by conjugate pairs. -/
theorem C49_circle (n : ℕ) :
    (∀ i < n, ‖genLejaCircle n true i‖ = 1) ∧ Set.InjOn (genLejaCircle n true) (Finset.range n) ∧
    genLejaCircle n true 0 = 1 ∧ genLejaCircle n true 1 = -1 ∧
    ∀ k, 2 + 2 * k + 1 < n →
      genLejaCircle n true (2 + 2 * k + 1) = (starRingEnd ℂ) (genLejaCircle n true (2 + 2 * k)) := by
  have hp : 4 ≤ 2 ^ circleLog n := by
    have : 2 ^ 2 ≤ 2 ^ circleLog n := Nat.pow_le_pow_right (by norm_num) (le_max_left _ _)
    simpa using this
  refine ⟨?_, ?_, ?_, ?_, ?_⟩
  · intro i hi
    rw [circle_conj_eq n i (lt_circleLog n i hi)]
    exact circPt_norm _
  · intro i hi j hj h
    simp only [Finset.coe_range, Set.mem_Iio] at hi hj
    rw [circle_conj_eq n i (lt_circleLog n i hi), circle_conj_eq n j (lt_circleLog n j hj)] at h
    exact reIdx_injective (circPt_injective h)
  · rw [circle_conj_eq n 0 (by omega)]; simp [reIdx, circPt_zero]
  · rw [circle_conj_eq n 1 (by omega)]; simp [reIdx, circPt_one]
  · intro k hk
    exact circle_conj_pair n k (lt_circleLog n _ hk)

/-! ### the Leja property -/

theorem circPt_prod (k : ℕ) (w : ℂ) : ∏ j ∈ range (2 ^ k), (w - circPt j) = w ^ 2 ^ k - 1 := by
  induction k generalizing w with
  | zero => simp [circPt_zero]
  | succ k ih =>
    have h1 : 2 ^ (k + 1) = 2 ^ k + 2 ^ k := by rw [pow_succ]; omega
    have e : ∏ j ∈ range (2 ^ k), (w - circPt (2 ^ k + j)) = w ^ 2 ^ k + 1 := by
      rcases Nat.eq_zero_or_pos k with rfl | hk
      · simp [circPt_one]
      · have : ∀ j ∈ range (2 ^ k), w - circPt (2 ^ k + j) = circRoot k * (w / circRoot k - circPt j) := by
          intro j hj
          rw [circPt_block k hk j (mem_range.1 hj), mul_sub, mul_div_cancel₀ _ (circRoot_ne k)]
        rw [prod_congr rfl this, prod_mul_distrib, prod_const, card_range, ih, div_pow, circRoot_pow]
        ring
    rw [h1, prod_range_add, ih, e, ← h1, pow_succ 2, pow_mul]
    ring

/-- **C49, the Leja property.**  Without the conjugate reordering, every point of `gen_leja_circle(n)` maximises, over the whole
closed unit disc, the product of the distances to its predecessors. -/
theorem C49_leja (n m : ℕ) (hm : m < n) (w : ℂ) (hw : ‖w‖ ≤ 1) :
    ∏ j ∈ range m, ‖w - genLejaCircle n false j‖
      ≤ ∏ j ∈ range m, ‖genLejaCircle n false m - genLejaCircle n false j‖ := by
  have key : ∀ k, ∀ m < 2 ^ k, ∀ w : ℂ, ‖w‖ ≤ 1 →
      ∏ j ∈ range m, ‖w - circPt j‖ ≤ ∏ j ∈ range m, ‖circPt m - circPt j‖ := by
    intro k
    induction k with
    | zero => intro m hm w _; obtain rfl : m = 0 := by simpa using hm
              simp
    | succ k ih =>
      intro m hm w hw
      have h1 : 2 ^ (k + 1) = 2 ^ k + 2 ^ k := by rw [pow_succ]; omega
      rcases lt_or_ge m (2 ^ k) with h | h
      · exact ih m h w hw
      · obtain ⟨r, rfl⟩ := Nat.exists_eq_add_of_le h
        rw [prod_range_add, prod_range_add, ← norm_prod, ← norm_prod (range (2 ^ k)), circPt_prod, circPt_prod,
          circPt_block_pow k r (by omega)]
        have hb : ‖w ^ 2 ^ k - 1‖ ≤ ‖(-1 : ℂ) - 1‖ := by
          refine (norm_sub_le _ _).trans ?_
          rw [norm_pow, norm_one]
          have : ‖w‖ ^ 2 ^ k ≤ 1 := pow_le_one₀ (norm_nonneg _) hw
          norm_num
          linarith
        refine mul_le_mul hb ?_ (prod_nonneg fun _ _ => norm_nonneg _) (norm_nonneg _)
        rcases Nat.eq_zero_or_pos k with rfl | hk
        · obtain rfl : r = 0 := by simp at hm; omega
          simp
        · have hd : ∀ v : ℂ, ∀ j ∈ range r, ‖v - circPt (2 ^ k + j)‖ = ‖v / circRoot k - circPt j‖ := by
            intro v j hj
            rw [mem_range] at hj
            rw [circPt_block k hk j (by omega), ← mul_div_cancel₀ v (circRoot_ne k), ← mul_div_cancel₀ v (circRoot_ne k),
              ← mul_sub, norm_mul, circRoot_norm, one_mul]
            simp [mul_div_cancel_left₀ _ (circRoot_ne k)]
          rw [prod_congr rfl (hd w), prod_congr rfl (hd _), circPt_block k hk r (by omega),
            mul_div_cancel_left₀ _ (circRoot_ne k)]
          refine ih r (by omega) _ ?_
          rw [norm_div, circRoot_norm, div_one]
          exact hw
  have hsub : ∀ v : ℂ, ∏ j ∈ range m, ‖v - genLejaCircle n false j‖ = ∏ j ∈ range m, ‖v - circPt j‖ := fun v =>
    prod_congr rfl fun j hj => by rw [circle_raw_eq n j ((mem_range.1 hj).trans hm)]
  rw [hsub, hsub, circle_raw_eq n m hm]
  exact key m m Nat.lt_two_pow_self w hw

/-- The points are not merely `±1`: for `n = 4` the third one is not real. -/
example : (genLejaCircle 4 true 2).im ≠ 0 := by
  obtain ⟨_, h2, _, _, h5⟩ := C49_circle 4
  intro h
  have h5 := h5 0 (by norm_num)
  have e : (starRingEnd ℂ) (genLejaCircle 4 true 2) = genLejaCircle 4 true 2 := Complex.conj_eq_iff_im.2 h
  have := h2 (by simp : (3 : ℕ) ∈ (Finset.range 4 : Set ℕ)) (by simp : (2 : ℕ) ∈ (Finset.range 4 : Set ℕ)) (h5.trans e)
  norm_num at this

end Ormatex.Props
