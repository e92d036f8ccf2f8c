import Verif.Model.PhiInt
import Verif.Model.OdeExp
import Verif.Props.PhiAcc
import Verif.Props.Steps

/-!
C115: the integer power in the scaling of the dense phi functions.
-/

namespace Ormatex.Props
open Matrix Ormatex Ormatex.Spec

/-- the number of squarings is `s` exactly when `16 θ` lies in `[2^s, 2^(s+1))` (for `s ≥ 1`) -/
theorem nScale_eq {theta : ℝ} {s : ℕ} (h0 : (2 : ℝ) ^ s ≤ 16 * theta) (h1 : 16 * theta < 2 ^ (s + 1)) : nScale theta = s := by
  have hp : (0 : ℝ) < theta * 16 := by
    have : (0 : ℝ) < 2 ^ s := by positivity
    linarith
  unfold nScale
  rw [Nat.floor_eq_iff (le_max_left _ _)]
  have a : (s : ℝ) ≤ Real.logb 2 (theta * 16) := by
    rw [Real.le_logb_iff_rpow_le (by norm_num) hp, Real.rpow_natCast]
    linarith
  constructor
  · exact le_trans a (le_max_right _ _)
  · rw [max_lt_iff]
    constructor
    · positivity
    · rw [Real.logb_lt_iff_lt_rpow (by norm_num) hp]
      have : (2 : ℝ) ^ ((s : ℝ) + 1) = 2 ^ (s + 1) := by
        rw [← Real.rpow_natCast]
        push_cast
        rfl
      rw [this]
      linarith

theorem nScale_lt {theta : ℝ} (h0 : 0 ≤ theta) {s : ℕ} (hs : 1 ≤ s) (h : 16 * theta < 2 ^ s) : nScale theta < s := by
  unfold nScale
  rw [Nat.floor_lt' (by omega), max_lt_iff]
  refine ⟨by exact_mod_cast hs, ?_⟩
  rcases h0.eq_or_lt with rfl | hp
  · simp only [zero_mul, Real.logb_zero]
    exact_mod_cast hs
  · rw [Real.logb_lt_iff_lt_rpow (by norm_num) (by linarith), Real.rpow_natCast]
    linarith

theorem infNorm_nonneg {N : ℕ} (z : Mat N) : 0 ≤ infNorm z := Real.iSup_nonneg fun _ => Finset.sum_nonneg fun _ _ => abs_nonneg _

theorem infNorm_neg {N : ℕ} (z : Mat N) : infNorm (-z) = infNorm z := by
  unfold infNorm
  simp

/-- below `w - 1` the integer power is exact -/
theorem ttN_exact {w ns : ℕ} (h : ns + 1 < w) : ttN w ns = 2 ^ ns := by
  unfold ttN
  rw [Int.bmod_eq_of_le]
  · have : (0 : ℤ) ≤ 2 ^ ns := by positivity
    have h2 : (0 : ℤ) ≤ ((2 ^ w : ℕ) : ℤ) / 2 := by positivity
    linarith
  · obtain ⟨d, rfl⟩ : ∃ d, w = ns + 1 + (d + 1) := ⟨w - ns - 2, by omega⟩
    have e : (((2 ^ (ns + 1 + (d + 1)) : ℕ) : ℤ) + 1) / 2 = 2 ^ (ns + 1) * 2 ^ d := by
      push_cast
      rw [show (2 : ℤ) ^ (ns + 1 + (d + 1)) = 2 * (2 ^ (ns + 1) * 2 ^ d) by ring]
      omega
    rw [e]
    have h1 : (1 : ℤ) ≤ 2 ^ d := one_le_pow₀ (by norm_num)
    have h2 : (0 : ℤ) < 2 ^ ns := by positivity
    have h3 : (2 : ℤ) ^ (ns + 1) = 2 * 2 ^ ns := by ring
    nlinarith

/-- at `w - 1` it is the most negative integer -/
theorem ttN_wrap (ns : ℕ) : ttN (ns + 1) ns = -2 ^ ns := by
  unfold ttN
  have e : ((2 ^ (ns + 1) : ℕ) : ℤ) = 2 * 2 ^ ns := by push_cast; ring
  have h2 : (0 : ℤ) < 2 ^ ns := by positivity
  rw [Int.bmod_def, Int.emod_eq_of_lt h2.le (by rw [e]; linarith), e]
  rw [if_neg (by omega)]
  ring

/-- **C115 (in range).**  As long as `16 ‖z‖_∞ < 2^(w-1)` the scaling by a `w`-bit integer power is the exact scaling. -/
theorem C115_in_range_partial (w : ℕ) (hw : 2 ≤ w) {N : ℕ} (z : Mat N) (k : ℕ) (h : 16 * infNorm z < 2 ^ (w - 1)) :
    fPhiKSqAllW w z k = fPhiKSqAll z k ∧ fPhiKSqW w z k = fPhiKSq z k := by
  have hlt := nScale_lt (infNorm_nonneg z) (s := w - 1) (by omega) h
  have key : fPhiKSqAllW w z k = fPhiKSqAll z k := by
    unfold fPhiKSqAllW fPhiKSqAll
    simp only
    rw [if_neg (by omega), ttN_exact (by omega)]
    push_cast
    rfl
  refine ⟨key, ?_⟩
  unfold fPhiKSqW fPhiKSq
  rw [key]
  rfl

/-- **C115 fails beyond that range**: for `2^(w-1) ≤ 16 ‖z‖_∞ < 2^w` the integer power is `-2^(w-1)`, and the routine silently
returns its approximation of the phi functions of `-z`. -/
theorem C115_reversed (w : ℕ) (hw : 1 ≤ w) {N : ℕ} (z : Mat N) (k : ℕ) (h0 : 2 ^ (w - 1) ≤ 16 * infNorm z)
    (h1 : 16 * infNorm z < 2 ^ w) :
    fPhiKSqAllW w z k = fPhiKSqAll (-z) k ∧ fPhiKSqW w z k = fPhiKSq (-z) k := by
  obtain ⟨v, rfl⟩ : ∃ v, w = v + 1 := ⟨w - 1, by omega⟩
  have hns : nScale (infNorm z) = v := nScale_eq h0 h1
  have key : fPhiKSqAllW (v + 1) z k = fPhiKSqAll (-z) k := by
    unfold fPhiKSqAllW fPhiKSqAll
    simp only [infNorm_neg, hns]
    rw [if_neg (by omega), ttN_wrap]
    have e : ((1 : ℝ) / ((-2 ^ v : ℤ) : ℝ)) • z = ((1 : ℝ) / 2 ^ v) • (-z) := by
      push_cast
      rw [div_neg, neg_smul, smul_neg]
    rw [e]
  refine ⟨key, ?_⟩
  unfold fPhiKSqW fPhiKSq
  rw [key]
  rfl

/-! ### a decaying system that explodes -/

/-- invariant of the squaring loop for `1 × 1` matrices -/
theorem sq_ge_one (l : List (Mat 1)) (hl : l.length = 3) (h0 : 1 ≤ l.getD 0 0 0 0) (h1 : 1 ≤ l.getD 1 0 0 0) (s : ℕ) :
    ((sqStep 2)^[s] l).length = 3 ∧ 1 ≤ ((sqStep 2)^[s] l).getD 0 0 0 0 ∧ 1 ≤ ((sqStep 2)^[s] l).getD 1 0 0 0 := by
  induction s with
  | zero => exact ⟨hl, h0, h1⟩
  | succ s ih =>
    obtain ⟨a, b, c⟩ := ih
    rw [Function.iterate_succ_apply']
    obtain ⟨p, q, r⟩ := C21_pass 2 _ a
    refine ⟨p, ?_, ?_⟩
    · rw [q]
      simp only [Matrix.mul_apply, Finset.univ_unique, Finset.sum_singleton, Fin.default_eq_zero]
      nlinarith
    · rw [r 1 (le_refl _) (by norm_num)]
      simp only [Matrix.smul_apply, Matrix.add_apply, Matrix.mul_apply, Finset.univ_unique, Finset.sum_singleton,
        Fin.default_eq_zero, Finset.sum_range_one, Nat.sub_self, Nat.factorial_zero, Nat.cast_one, inv_one, one_smul, zero_add,
        pow_one, smul_eq_mul]
      nlinarith

/-- for a nonnegative number the coded first phi function is at least one -/
theorem phi1_ge_one (x : ℝ) (hx : 0 ≤ x) :
    ∃ l, fPhiKSqAll (x • (1 : Mat 1)) 2 = .ok l ∧ l.length = 3 ∧ 1 ≤ l.getD 1 0 0 0 := by
  set ns := nScale (infNorm (x • (1 : Mat 1)))
  set u : ℝ := 1 / 2 ^ ns * x with hu
  have hu0 : 0 ≤ u := by positivity
  have e : ((1 : ℝ) / 2 ^ ns) • x • (1 : Mat 1) = u • 1 := by rw [smul_smul]
  have ht : ∀ j, taylorPhi (u • (1 : Mat 1)) j 4 0 0 = ∑ i ∈ Finset.range (4 + 1 - j), (Nat.factorial (i + j) : ℝ)⁻¹ * u ^ i := by
    intro j
    unfold taylorPhi
    rw [Matrix.sum_apply]
    refine Finset.sum_congr rfl fun i _ => ?_
    rw [smul_pow, one_pow]
    simp [Nat.add_comm]
  refine ⟨(sqStep 2)^[ns] ((List.range 3).map fun j => taylorPhi (u • (1 : Mat 1)) j 4), ?_, ?_⟩
  · unfold fPhiKSqAll
    simp only
    rw [show nScale (infNorm (x • (1 : Mat 1))) = ns from rfl, e, (C20_poly_all _ 2 4).1 (by norm_num)]
    rfl
  · have := sq_ge_one ((List.range 3).map fun j => taylorPhi (u • (1 : Mat 1)) j 4) (by simp) (by
      show 1 ≤ taylorPhi (u • (1 : Mat 1)) 0 4 0 0
      rw [ht]
      simp only [Finset.sum_range_succ, Nat.factorial]
      norm_num
      nlinarith [pow_nonneg hu0 2, pow_nonneg hu0 3, pow_nonneg hu0 4]) (by
      show 1 ≤ taylorPhi (u • (1 : Mat 1)) 1 4 0 0
      rw [ht]
      simp only [Finset.sum_range_succ, Nat.factorial]
      norm_num
      nlinarith [pow_nonneg hu0 2, pow_nonneg hu0 3, pow_nonneg hu0 4]) ns
    exact ⟨this.1, this.2.2⟩

/-- the decay equation `y' = -λ y` -/
noncomputable def decaySys (lam : ℝ) : OdeSys 1 (List ℕ) where
  frhs _ _ y := (-lam) • y
  fjac _ _ y := { matvec := fun v => (-lam) • v, dense := .ok ((-lam) • 1), fdt := 0, frhsCached := (-lam) • y }
  fl _ _ := matrixLinOp ((-lam) • 1)

/-- **C115 is false at the level of the integrator.**  A step of `exprb2_dense` for the decay equation `y' = -λ y`, with `w`-bit
integers and any `h` with `2^(w-1) ≤ 16 h λ < 2^w`, returns a state that is at least `h λ - 1` times as large as the old one
and (for `h λ > 1`) has the opposite sign; the exact solution is `exp(-h λ)` times the old one. -/
theorem C115_false (w : ℕ) (hw : 1 ≤ w) (lam h : ℝ) (h0 : 2 ^ (w - 1) ≤ 16 * (h * lam)) (h1 : 16 * (h * lam) < 2 ^ w)
    (K : Kernels 1) (hK : K.phiSqAll = fun z k => fPhiKSqAllW w z k) (s : ExpRB 1) (hm : s.base.method = "exprb2_dense") (y : Vec 1)
    (hy : s.base.yHist.get 0 = .ok y) :
    ∃ r, ExpRB.step true K (decaySys lam) s h none = .ok r ∧ ∃ g, h * lam - 1 ≤ g ∧ r.y 0 = -g * y 0 := by
  have hx : 0 ≤ h * lam := by
    have : (0 : ℝ) < 2 ^ (w - 1) := by positivity
    linarith
  have hn : infNorm (h • (-lam) • (1 : Mat 1)) = h * lam := by
    unfold infNorm
    rw [ciSup_unique, Fintype.sum_unique]
    rw [smul_smul, Matrix.smul_apply, Matrix.one_apply, if_pos (Subsingleton.elim _ _), smul_eq_mul, mul_one, mul_neg, abs_neg,
      abs_of_nonneg hx]
  obtain ⟨l, hl, hlen, hge⟩ := phi1_ge_one (h * lam) hx
  have hcode := (C115_reversed w hw (h • (-lam) • (1 : Mat 1)) 2 (by rw [hn]; exact h0) (by rw [hn]; exact h1)).1
  rw [show -(h • (-lam) • (1 : Mat 1)) = (h * lam) • 1 by rw [smul_smul]; simp, hl] at hcode
  have g1 : l[1]? = some (l.getD 1 0) := by
    rw [List.getD_eq_getElem?_getD, List.getElem?_eq_getElem (by omega)]
    rfl
  have g2 : l[2]? = some (l.getD 2 0) := by
    rw [List.getD_eq_getElem?_getD, List.getElem?_eq_getElem (by omega)]
    rfl
  refine ⟨StepResult.mk (s.base.t + h) h (y + h • (l.getD 1 0 *ᵥ ((-lam) • y) + h • l.getD 2 0 *ᵥ (0 : Vec 1))) (-1), ?_,
    h * lam * l.getD 1 0 0 0 - 1, by nlinarith, ?_⟩
  · unfold ExpRB.step
    simp only [hm, String.reduceEq, if_true, if_false]
    unfold stepExprb2Dense
    rw [hy]
    simp only [bind, Except.bind, pure, Except.pure, decaySys, hK, hcode, pyGet, g1, g2]
  · simp [Matrix.mulVec, dotProduct]
    ring

/-- the hypotheses are met with JAX's default 32-bit integers and `h λ = 2^27` -/
example : (2 : ℝ) ^ (32 - 1) ≤ 16 * (1 * 2 ^ 27) ∧ (16 : ℝ) * (1 * 2 ^ 27) < 2 ^ 32 := by norm_num

/-- and the range in which the exact model applies contains, in 32-bit mode, every matrix of norm at most `10^8` -/
example {N : ℕ} (z : Mat N) (h : infNorm z ≤ 1e8) (k : ℕ) : fPhiKSqAllW 32 z k = fPhiKSqAll z k :=
  (C115_in_range_partial 32 (by norm_num) z k (by norm_num at h ⊢; linarith)).1

end Ormatex.Props
