import Verif.Model.Progression
import Mathlib.Tactic.Linarith

/-!
C61: `torus_distance` is the metric of the circle `ℝ/ℤ`.
-/

namespace Ormatex.Props

/-- **C61, characterisation.** The torus distance is the distance to the nearest integer translate: it is attained by some
integer shift and no shift does better. -/
theorem C61_nearest (x y : ℝ) : (∃ k : ℤ, torusDistance x y = |x - y + k|) ∧ ∀ k : ℤ, torusDistance x y ≤ |x - y + k| := by
  have hx := Int.fract_nonneg x
  have hx1 := Int.fract_lt_one x
  have hy := Int.fract_nonneg y
  have hy1 := Int.fract_lt_one y
  have ex := Int.floor_add_fract x
  have ey := Int.floor_add_fract y
  set a := Int.fract x
  set b := Int.fract y
  have hd : x - y = (⌊x⌋ - ⌊y⌋ : ℤ) + (a - b) := by push_cast; linarith
  have hlow : ∀ j : ℤ, j ≠ 0 → 1 ≤ |(j : ℝ)| := fun j hj => by
    rw [← Int.cast_abs]
    exact_mod_cast Int.one_le_abs hj
  have hab : |a - b| < 1 := by rw [abs_lt]; constructor <;> linarith
  have hbound : ∀ k : ℤ, (if |a - b| > 1 / 2 then 1 - |a - b| else |a - b|) ≤ |x - y + k| := by
    intro k
    rw [hd, show ((⌊x⌋ - ⌊y⌋ : ℤ) : ℝ) + (a - b) + k = ((⌊x⌋ - ⌊y⌋ + k : ℤ) : ℝ) + (a - b) by push_cast; ring]
    by_cases h0 : (⌊x⌋ - ⌊y⌋ + k) = 0
    · rw [h0, Int.cast_zero, zero_add]
      split <;> linarith
    · have h1 := hlow _ h0
      have h2 := abs_sub_abs_le_abs_sub ((⌊x⌋ - ⌊y⌋ + k : ℤ) : ℝ) (-(a - b))
      rw [abs_neg, sub_neg_eq_add] at h2
      split <;> linarith
  refine ⟨?_, hbound⟩
  show ∃ k : ℤ, (if |a - b| > 1 / 2 then 1 - |a - b| else |a - b|) = _
  split
  · rename_i h
    rcases le_total 0 (a - b) with hs | hs
    · refine ⟨-(⌊x⌋ - ⌊y⌋) - 1, ?_⟩
      rw [hd]
      push_cast
      rw [abs_of_nonneg hs, show ((⌊x⌋ : ℝ) - ⌊y⌋ + (a - b) + (-(⌊x⌋ - ⌊y⌋) - 1)) = -(1 - (a - b)) by ring, abs_neg,
        abs_of_nonneg (by linarith)]
    · refine ⟨-(⌊x⌋ - ⌊y⌋) + 1, ?_⟩
      rw [hd]
      push_cast
      rw [abs_of_nonpos hs, show ((⌊x⌋ : ℝ) - ⌊y⌋ + (a - b) + (-(⌊x⌋ - ⌊y⌋) + 1)) = 1 - -(a - b) by ring,
        abs_of_nonneg (by linarith)]
  · refine ⟨-(⌊x⌋ - ⌊y⌋), ?_⟩
    rw [hd]
    push_cast
    congr 1
    ring

/-- two functions with the characterisation of C61 at two pairs of points compare as soon as their shifts do -/
theorem torus_le {x y x' y' : ℝ} (h : ∀ k : ℤ, ∃ k' : ℤ, |x - y + k'| ≤ |x' - y' + k|) : torusDistance x y ≤ torusDistance x' y' := by
  obtain ⟨k, hk⟩ := (C61_nearest x' y').1
  obtain ⟨k', hk'⟩ := h k
  rw [hk]
  exact ((C61_nearest x y).2 k').trans hk'

/-- **C61, metric.** `torus_distance` is symmetric, nonnegative, at most `1/2`, obeys the triangle inequality, and vanishes exactly
when the points differ by an integer. -/
theorem C61_metric (x y z : ℝ) :
    torusDistance x y = torusDistance y x ∧ 0 ≤ torusDistance x y ∧ torusDistance x y ≤ 1 / 2 ∧
    torusDistance x z ≤ torusDistance x y + torusDistance y z ∧ (torusDistance x y = 0 ↔ ∃ k : ℤ, x = y + k) := by
  refine ⟨le_antisymm ?_ ?_, ?_, ?_, ?_, ?_⟩
  · refine torus_le fun k => ⟨-k, ?_⟩
    rw [Int.cast_neg, ← abs_neg]; apply le_of_eq; congr 1; ring
  · refine torus_le fun k => ⟨-k, ?_⟩
    rw [Int.cast_neg, ← abs_neg]; apply le_of_eq; congr 1; ring
  · obtain ⟨k, hk⟩ := (C61_nearest x y).1
    rw [hk]; exact abs_nonneg _
  · unfold torusDistance
    simp only
    split <;> linarith
  · obtain ⟨k, hk⟩ := (C61_nearest x y).1
    obtain ⟨j, hj⟩ := (C61_nearest y z).1
    have := (C61_nearest x z).2 (k + j)
    refine this.trans ?_
    rw [hk, hj]
    have e : x - z + ((k + j : ℤ) : ℝ) = (x - y + k) + (y - z + j) := by push_cast; ring
    rw [e]
    exact abs_add_le _ _
  · constructor
    · intro h
      obtain ⟨k, hk⟩ := (C61_nearest x y).1
      rw [h] at hk
      have := abs_eq_zero.1 hk.symm
      exact ⟨-k, by push_cast; linarith⟩
    · rintro ⟨k, rfl⟩
      obtain ⟨j, hj⟩ := (C61_nearest (y + k) y).1
      have := (C61_nearest (y + k) y).2 (-k)
      push_cast at this
      rw [show y + (k : ℝ) - y + -k = 0 by ring, abs_zero] at this
      refine le_antisymm this ?_
      rw [hj]; exact abs_nonneg _

/-- **C61, invariance.** The distance does not change when both points are translated by the same amount, or one of them by an
integer. -/
theorem C61_translate (x y c : ℝ) (m : ℤ) :
    torusDistance (x + c) (y + c) = torusDistance x y ∧ torusDistance (x + m) y = torusDistance x y := by
  refine ⟨le_antisymm ?_ ?_, le_antisymm ?_ ?_⟩
  · exact torus_le fun k => ⟨k, by apply le_of_eq; congr 1; ring⟩
  · exact torus_le fun k => ⟨k, by apply le_of_eq; congr 1; ring⟩
  · exact torus_le fun k => ⟨k - m, by apply le_of_eq; push_cast; congr 1; ring⟩
  · exact torus_le fun k => ⟨k + m, by apply le_of_eq; push_cast; congr 1; ring⟩

/-- close points are at their ordinary distance, and `0.9` and `0.1` are `0.2` apart -/
theorem C61_local {x y : ℝ} (h : |x - y| ≤ 1 / 2) : torusDistance x y = |x - y| := by
  refine le_antisymm ?_ ?_
  · have := (C61_nearest x y).2 0
    simpa using this
  · obtain ⟨k, hk⟩ := (C61_nearest x y).1
    rw [hk]
    by_cases h0 : k = 0
    · simp [h0]
    · have h1 : (1 : ℝ) ≤ |(k : ℝ)| := by
        rw [← Int.cast_abs]
        exact_mod_cast Int.one_le_abs h0
      have h2 := abs_sub_abs_le_abs_sub (k : ℝ) (-(x - y))
      rw [abs_neg, sub_neg_eq_add, add_comm (k : ℝ)] at h2
      linarith

example : torusDistance (9 / 10) (1 / 10) = 1 / 5 := by
  have h := (C61_translate (9 / 10) (1 / 10) 0 (-1)).2
  rw [← h, C61_local] <;> norm_num [abs_le]

end Ormatex.Props
