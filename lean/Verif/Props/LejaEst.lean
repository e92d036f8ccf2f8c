import Verif.Props.LejaEval
import Mathlib.Analysis.SpecialFunctions.Pow.Real

/-!
# The error estimate behind the `converged` flag of the Leja evaluations

What the flag of `real_leja_expmv` and `complex_conj_leja_expmv` means: the estimate is the running geometric mean of the
norms of the increments added to the result, started at twice the norm of the input.
-/

namespace Ormatex.Props

open Matrix Polynomial Ormatex.Spec
open scoped Classical

variable {n : ℕ}

/-- Specification: the running geometric mean, started at `e`, over increments of norm `t 1, t 2, …` -/
noncomputable def geoMean (e : ℝ) (t : ℕ → ℝ) : ℕ → ℝ
  | 0 => e
  | k + 1 => Real.sqrt (t (k + 1) * geoMean e t k)

theorem decay_sqrt (a b : ℝ) (ha : 0 ≤ a) : decayFun a b (1 / 2) = Real.sqrt (a * b) := by
  unfold decayFun
  rw [show (1 : ℝ) - 1 / 2 = 1 / 2 by norm_num, ← Real.sqrt_eq_rpow, ← Real.sqrt_eq_rpow, Real.sqrt_mul ha]

theorem geoMean_nonneg {e : ℝ} (he : 0 ≤ e) (t : ℕ → ℝ) (k : ℕ) : 0 ≤ geoMean e t k := by
  cases k with
  | zero => exact he
  | succ k => exact Real.sqrt_nonneg _

/-- a running geometric mean below `c` has an entry below `c` -/
theorem geoMean_lt {e c : ℝ} {t : ℕ → ℝ} (hc : 0 ≤ c) (k : ℕ) (h : geoMean e t k < c) (he : c ≤ e) :
    ∃ j, 1 ≤ j ∧ j ≤ k ∧ t j < c := by
  induction k with
  | zero => exact absurd h (not_lt.2 he)
  | succ k ih =>
    by_cases hk : geoMean e t k < c
    · obtain ⟨j, h1, h2, h3⟩ := ih hk
      exact ⟨j, h1, by omega, h3⟩
    · refine ⟨k + 1, by omega, le_rfl, ?_⟩
      by_contra ht
      have h2 : c * c ≤ t (k + 1) * geoMean e t k := mul_le_mul (not_lt.1 ht) (not_lt.1 hk) hc (hc.trans (not_lt.1 ht))
      have h3 : c ≤ Real.sqrt (t (k + 1) * geoMean e t k) := Real.le_sqrt_of_sq_le (by nlinarith)
      exact absurd h (not_lt.2 h3)

/-- the increments bound the running geometric mean: if all are at most `c` and it starts at most at `c`, it stays there -/
theorem geoMean_le {e c : ℝ} {t : ℕ → ℝ} (he : e ≤ c) (hc : 0 ≤ c) (he0 : 0 ≤ e) (k : ℕ) (h : ∀ j, 1 ≤ j → j ≤ k → t j ≤ c) :
    geoMean e t k ≤ c := by
  induction k with
  | zero => exact he
  | succ k ih =>
    have h1 := ih fun j a b => h j a (by omega)
    have h2 := h (k + 1) (by omega) le_rfl
    refine Real.sqrt_le_iff.2 ⟨hc, ?_⟩
    have := mul_le_mul h2 h1 (geoMean_nonneg he0 t k) hc
    nlinarith

/-- The increments of the real evaluation: the summands of the Newton sum. -/
noncomputable def newtonTerm (x coeffs : ℕ → ℝ) (Z : Mat n) (u : Vec n) (k : ℕ) : Vec n :=
  coeffs k • newtonVec x Z u k

/-- **C46, the estimate.**  The estimate returned by `real_leja_expmv` is the running geometric mean of the norms of the
summands of the Newton sum, started at `2 ‖u‖`. -/
theorem C46_estimate (A : LinOp n) (M : Mat n) (hA : IsMatrix A M) (dt : ℝ) (u : Vec n) (shift scale : ℝ) (hs : scale ≠ 0)
    (nLeja : ℕ) (x coeffs : ℕ → ℝ) (tol abortTol : ℝ) :
    let r := realLejaExpmv A dt u shift scale nLeja x coeffs tol abortTol
    r.err = geoMean (2 * norm2 u) (fun k => norm2 (newtonTerm x coeffs (scaledMat M dt shift scale) u k)) (r.i - 1) := by
  intro r
  have h := lejaLoop_invariant (cond := lejaCond nLeja abortTol (norm2 u))
    (body := realLejaBody A dt (norm2 u) scale tol (fun i => shift + scale * x i) coeffs)
    (fun s => 1 ≤ s.i ∧ s.vm = newtonVec x (scaledMat M dt shift scale) u (s.i - 1) ∧
      s.err = geoMean (2 * norm2 u) (fun k => norm2 (newtonTerm x coeffs (scaledMat M dt shift scale) u k)) (s.i - 1)) ?_ nLeja
    { i := 1, vm := u, pm := coeffs 0 • u, err := 2 * norm2 u, conv := norm2 u = 0 } ?_
  · exact h.2.2
  · rintro s ⟨h1, h3, h4⟩ hc
    have hvm : (realLejaBody A dt (norm2 u) scale tol (fun i => shift + scale * x i) coeffs s).vm
        = newtonVec x (scaledMat M dt shift scale) u s.i := by
      show (fun j => (dt * A.matvec s.vm j - (shift + scale * x (s.i - 1)) * s.vm j) / scale) = _
      rw [scaled_step hA dt shift scale _ hs, h3, ← newtonVec_succ, Nat.sub_add_cancel h1]
    refine ⟨by simp [realLejaBody], ?_, ?_⟩
    · rw [hvm]; rfl
    · show decayFun (|coeffs s.i| * norm2 (realLejaBody A dt (norm2 u) scale tol
        (fun i => shift + scale * x i) coeffs s).vm) s.err (1 / 2) = _
      rw [hvm, h4, decay_sqrt _ _ (mul_nonneg (abs_nonneg _) (norm2_nonneg _)), ← norm2_smul]
      show _ = geoMean _ _ s.i
      conv_rhs => rw [← Nat.sub_add_cancel h1]
      rw [geoMean, Nat.sub_add_cancel h1]
      rfl
  · refine ⟨le_rfl, ?_, ?_⟩
    · exact (newtonVec_zero _ _ _).symm
    · rfl

/-- **C46, what convergence means.**  If `real_leja_expmv` reports convergence for `u ≠ 0` with a tolerance at most two, then
a summand of the Newton sum that was added is shorter than `tol ‖u‖`. -/
theorem C46_converged (A : LinOp n) (M : Mat n) (hA : IsMatrix A M) (dt : ℝ) (u : Vec n) (hu : u ≠ 0) (shift scale : ℝ)
    (hs : scale ≠ 0) (nLeja : ℕ) (x coeffs : ℕ → ℝ) (tol abortTol : ℝ) (ht : 0 ≤ tol) (ht2 : tol ≤ 2)
    (hconv : (realLejaExpmv A dt u shift scale nLeja x coeffs tol abortTol).conv) :
    ∃ k, 1 ≤ k ∧ k < (realLejaExpmv A dt u shift scale nLeja x coeffs tol abortTol).i ∧
      norm2 (coeffs k • newtonVec x (scaledMat M dt shift scale) u k) < tol * norm2 u := by
  have h0 := norm2_nonneg u
  obtain ⟨_, h1, _, h2⟩ := C46_newton A M hA dt u shift scale hs nLeja x coeffs tol abortTol
  have he := C46_estimate A M hA dt u shift scale hs nLeja x coeffs tol abortTol
  rcases h2 hconv with h | h
  · simp only at he
    rw [he] at h
    obtain ⟨j, a, b, c⟩ := geoMean_lt (mul_nonneg ht h0) _ h (mul_le_mul_of_nonneg_right ht2 h0)
    exact ⟨j, a, by omega, c⟩
  · exact absurd h hu

/-- the loop ends because its condition fails, not because the model's fuel is used up -/
theorem lejaLoop_exit {nLeja : ℕ} {a b : ℝ} {body : LejaState n → LejaState n}
    (hb : ∀ s, s.i + 1 ≤ (body s).i) : ∀ (f : ℕ) (s : LejaState n), nLeja ≤ s.i + f →
    ¬ lejaCond nLeja a b (lejaLoop (lejaCond nLeja a b) body f s) := by
  intro f
  induction f with
  | zero =>
    intro s hs h
    have := h.1
    simp only [lejaLoop] at this
    omega
  | succ f ih =>
    intro s hs
    unfold lejaLoop
    split
    · exact ih _ (by have := hb s; omega)
    · assumption

/-- **C46, what a false flag means.**  If `real_leja_expmv` does not report convergence then either all `n_leja - 1` usable
coefficients were used or the estimate left the range `abort_tol ‖u‖`. -/
theorem C46_not_converged (A : LinOp n) (dt : ℝ) (u : Vec n) (shift scale : ℝ) (nLeja : ℕ) (x coeffs : ℕ → ℝ)
    (tol abortTol : ℝ) (h : ¬ (realLejaExpmv A dt u shift scale nLeja x coeffs tol abortTol).conv) :
    nLeja ≤ (realLejaExpmv A dt u shift scale nLeja x coeffs tol abortTol).i + 1 ∨
      abortTol * norm2 u < (realLejaExpmv A dt u shift scale nLeja x coeffs tol abortTol).err := by
  have hx := lejaLoop_exit (nLeja := nLeja) (a := abortTol) (b := norm2 u)
    (body := realLejaBody A dt (norm2 u) scale tol (fun i => shift + scale * x i) coeffs) (fun s => le_rfl) nLeja
    { i := 1, vm := u, pm := coeffs 0 • u, err := 2 * norm2 u, conv := norm2 u = 0 } (by simp)
  by_contra hc
  push Not at hc
  exact hx ⟨hc.1, hc.2, h⟩

/-- Specification: `p` is the sum of `p0` and `k` increments, and `e` the running geometric mean of their norms started at
`e0`. -/
def SumOf (p0 : Vec n) (e0 : ℝ) (k : ℕ) (p : Vec n) (e : ℝ) : Prop :=
  ∃ d : ℕ → Vec n, p = p0 + ∑ j ∈ Finset.range k, d (j + 1) ∧ e = geoMean e0 (fun j => norm2 (d j)) k

theorem geoMean_congr {e : ℝ} {t t' : ℕ → ℝ} (k : ℕ) (h : ∀ j ≤ k, t j = t' j) : geoMean e t k = geoMean e t' k := by
  induction k with
  | zero => rfl
  | succ k ih => rw [geoMean, geoMean, ih fun j hj => h j (by omega), h (k + 1) le_rfl]

theorem SumOf.snoc {p0 p : Vec n} {e0 e : ℝ} {k : ℕ} (h : SumOf p0 e0 k p e) (c : ℝ) (v : Vec n) :
    SumOf p0 e0 (k + 1) (p + c • v) (decayFun (|c| * norm2 v) e (1 / 2)) := by
  obtain ⟨d, hp, he⟩ := h
  refine ⟨fun j => if j = k + 1 then c • v else d j, ?_, ?_⟩
  · rw [Finset.sum_range_succ, hp, add_assoc]
    congr 1
    beta_reduce
    rw [if_pos rfl]
    congr 1
    refine Finset.sum_congr rfl fun j hj => ?_
    rw [if_neg (by have := Finset.mem_range.1 hj; omega)]
  · rw [decay_sqrt _ _ (mul_nonneg (abs_nonneg _) (norm2_nonneg _)), ← norm2_smul, geoMean, he]
    beta_reduce
    rw [if_pos rfl]
    congr 2
    refine geoMean_congr _ fun j hj => ?_
    rw [if_neg (by omega)]

/-- **C47, the estimate.**  The same for `complex_conj_leja_expmv` with at least one conjugate pair: after `i` iterations the
result is `Re c_0 · u` plus `i - 1` increments, the estimate is the running geometric mean of their norms started at `2 ‖u‖`,
a true flag (`u ≠ 0`, `tol ≤ 2`) means that one of them is shorter than `tol ‖u‖`, and a false flag that the nodes were used
up or the estimate exceeded `abort_tol ‖u‖`. -/
theorem C47_estimate (A : LinOp n) (dt : ℝ) (u : Vec n) (shift scale : ℝ) (nLeja : ℕ) (x : ℕ → ℂ) (nReal : ℕ)
    (hr : nReal ≠ nLeja) (coeffs : ℕ → ℂ) (tol abortTol : ℝ) :
    let r := complexConjLejaExpmv A dt u shift scale nLeja x nReal coeffs tol abortTol
    SumOf ((coeffs 0).re • u) (2 * norm2 u) (r.i - 1) r.pm r.err ∧
      (r.conv → r.err < tol * norm2 u ∨ u = 0) ∧
      (¬ r.conv → nLeja ≤ r.i + 1 ∨ abortTol * norm2 u < r.err) := by
  intro r
  let P : LejaState n → Prop := fun s => 1 ≤ s.i ∧ SumOf ((coeffs 0).re • u) (2 * norm2 u) (s.i - 1) s.pm s.err ∧
    (s.conv → s.err < tol * norm2 u ∨ u = 0)
  let xsc : ℕ → ℂ := fun i => (shift : ℂ) + (scale : ℂ) * x i
  let s0 : LejaState n := { i := 1, vm := u, pm := (coeffs 0).re • u, err := 2 * norm2 u, conv := norm2 u = 0 }
  have h0 : P s0 := ⟨le_rfl, ⟨fun _ => 0, by simp [s0], rfl⟩, fun h => Or.inr (norm2_eq_zero.1 h)⟩
  have hh : ∀ s, (s.conv → u = 0) → P s → P (complexHeadBody A dt scale xsc coeffs s) ∧
      ((complexHeadBody A dt scale xsc coeffs s).conv → u = 0) := by
    rintro s hu ⟨h1, h2, h3⟩
    refine ⟨⟨by simp [complexHeadBody], ?_, fun h => Or.inr (hu h)⟩, hu⟩
    have := h2.snoc (coeffs s.i).re (complexHeadBody A dt scale xsc coeffs s).vm
    rw [Nat.sub_add_cancel h1] at this
    exact this
  have h1 : ∀ k, P ((complexHeadBody A dt scale xsc coeffs)^[k] s0) ∧
      (((complexHeadBody A dt scale xsc coeffs)^[k] s0).conv → u = 0) := by
    intro k
    induction k with
    | zero => exact ⟨h0, fun h => norm2_eq_zero.1 h⟩
    | succ k ih =>
      rw [Function.iterate_succ_apply']
      exact hh _ ih.2 ih.1
  have hb : ∀ s, P s → lejaCond nLeja abortTol (norm2 u) s → P (complexPairBody A dt (norm2 u) scale tol xsc coeffs s) := by
    rintro s ⟨h1, h2, h3⟩ _
    refine ⟨by simp [complexPairBody], ?_, fun h => Or.inl h.2⟩
    have a := h2.snoc (coeffs s.i).re (fun j => (dt * A.matvec s.vm j - (xsc (s.i - 1)).re * s.vm j) / scale)
    have b := a.snoc (coeffs (s.i + 1)).re (complexPairBody A dt (norm2 u) scale tol xsc coeffs s).vm
    have e : s.i - 1 + 1 + 1 = (complexPairBody A dt (norm2 u) scale tol xsc coeffs s).i - 1 := by
      show _ = s.i + 2 - 1
      omega
    rw [e] at b
    exact b
  have e : r = lejaLoop (lejaCond nLeja abortTol (norm2 u)) (complexPairBody A dt (norm2 u) scale tol xsc coeffs) nLeja
      ((complexHeadBody A dt scale xsc coeffs)^[nReal] s0) := by
    show complexConjLejaExpmv A dt u shift scale nLeja x nReal coeffs tol abortTol = _
    unfold complexConjLejaExpmv
    rw [if_neg hr]
  have h2 := lejaLoop_invariant P hb nLeja _ (h1 nReal).1
  have h3 := lejaLoop_exit (nLeja := nLeja) (a := abortTol) (b := norm2 u)
    (body := complexPairBody A dt (norm2 u) scale tol xsc coeffs) (fun s => by simp [complexPairBody]) nLeja
    ((complexHeadBody A dt scale xsc coeffs)^[nReal] s0) (by omega)
  rw [← e] at h2 h3
  refine ⟨h2.2.1, h2.2.2, fun h => ?_⟩
  by_contra hc
  push Not at hc
  exact h3 ⟨hc.1, hc.2, h⟩

/-- Non-vacuity: `u = 1`, operator `0`, nodes `0`: the second summand vanishes and the flag is set. -/
example : (realLejaExpmv (n := 1) ⟨fun _ => 0, .ok 0⟩ 1 1 0 1 3 (fun _ => 0) (fun _ => 1) 1 10).conv := by
  have hn : norm2 (1 : Vec 1) = 1 := by simp [norm2]
  have hz : norm2 (fun _ : Fin 1 => (0 : ℝ)) = 0 := norm2_zero
  unfold realLejaExpmv
  simp only [hn]
  unfold lejaLoop
  rw [if_pos (by simp [lejaCond]; norm_num)]
  unfold lejaLoop
  rw [if_neg (by simp [lejaCond, realLejaBody])]
  simp [realLejaBody, decayFun, hz]

end Ormatex.Props
