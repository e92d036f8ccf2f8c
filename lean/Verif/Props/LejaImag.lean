import Verif.Model.LejaImag
import Verif.Props.LejaEval
import Verif.Props.LejaFast
import Verif.Props.KrylovErr

/-!
C88, C89, C90: Leja points on the imaginary axis and the Newton evaluation in them.
-/

namespace Ormatex.Props
open Matrix Polynomial Ormatex.Spec
open scoped Classical

section
variable {n : ℕ}

/-- **Specification.** Nodes on the imaginary axis: `0` first, then conjugate pairs of purely imaginary points. -/
structure ImagNodes (x : ℕ → ℂ) (nLeja : ℕ) : Prop where
  zero : x 0 = 0
  imag : ∀ i < nLeja, (x i).re = 0
  pair : ∀ k, 2 * k + 2 < nLeja → x (2 * k + 2) = (starRingEnd ℂ) (x (2 * k + 1))

theorem ImagNodes.conj {x : ℕ → ℂ} {m : ℕ} (h : ImagNodes x m) : ConjNodes x 1 m :=
  ⟨fun i hi => by obtain rfl : i = 0 := by omega
                  simp [h.zero], fun k hk => by
    have := h.pair k (by omega)
    rw [show 1 + 2 * k + 1 = 2 * k + 2 by ring, show 1 + 2 * k = 2 * k + 1 by ring]
    exact this⟩

/-- **C88.**  `gen_complex_conj_leja_fast(beta, n)` refuses `n < 2`; for `n ≥ 3` it returns `0, i*beta, -i*beta` followed by
conjugate pairs of purely imaginary points of `i[-beta, beta]`, the structure `complex_conj_imag_leja_expmv` and
`complex_conj_leja_expmv` (with one real point) ask for; for `n ≥ 4` it returns one point less than asked. -/
theorem C88_nodes (beta : ℝ) (hb : 0 < beta) (n : ℕ) :
    (n < 2 → genComplexConjLejaFast beta n = .error .value) ∧
    (3 ≤ n → ∃ l, genComplexConjLejaFast beta n = .ok l ∧ l.length = (if n = 3 then 3 else n - 1) ∧
      (∀ z ∈ l, z.re = 0 ∧ |z.im| ≤ beta) ∧ ImagNodes (fun i => l.getD i 0) l.length ∧
      l.getD 1 0 = beta * Complex.I ∧ l.getD 2 0 = -(beta * Complex.I)) := by
  constructor
  · intro h
    unfold genComplexConjLejaFast
    rw [(C51_fast (-beta) beta (by linarith) (n * 2)).1 (by omega)]
    rfl
  · intro h3
    obtain ⟨z, hz, hbnd, -, h01, h2, -⟩ := (C51_fast (-beta) beta (by linarith) (n * 2)).2 (by omega)
    rw [if_neg (by simp)] at h01
    have z0 : z 0 = beta := congrArg Prod.fst h01
    have z2 : z 2 = 0 := by rw [h2]; ring
    set t := conjInterleave z with ht
    have hre : ∀ i, (t i).re = 0 := by
      intro i
      rw [ht]; unfold conjInterleave
      split_ifs <;> simp
    have him : ∀ i, i < n → |(t i).im| ≤ beta := by
      intro i hi
      have : ∃ k < n * 2, |(t i).im| = |z k| := by
        rw [ht]; unfold conjInterleave
        split_ifs
        · exact ⟨i, by omega, by simp⟩
        · exact ⟨i - 1, by omega, by simp⟩
      obtain ⟨k, hk, e⟩ := this
      rw [e, abs_le]
      exact hbnd k hk
    have hpair : ∀ k, t (2 * k + 1) = (starRingEnd ℂ) (t (2 * k)) := by
      intro k
      rw [ht]; unfold conjInterleave
      rw [if_neg (by omega), if_pos (by omega)]
      simp
    set tmp := (List.range n).map t with htmp
    have hlen : tmp.length = n := by simp [htmp]
    have hget : ∀ i, i < n → tmp[i]? = some (t i) := by
      intro i hi
      simp [htmp, hi]
    have hgen : genComplexConjLejaFast beta n = .ok ((tmp.drop 2).take 1 ++ tmp.take 2 ++ tmp.drop 4) := by
      unfold genComplexConjLejaFast
      rw [hz]
      rfl
    set l := (tmp.drop 2).take 1 ++ tmp.take 2 ++ tmp.drop 4 with hl
    have hll : l.length = 3 + (n - 4) := by
      simp only [hl, List.length_append, List.length_take, List.length_drop, hlen]
      omega
    have l0 : ∀ i, i < l.length → l.getD i 0 = t (if i = 0 then 2 else if i < 3 then i - 1 else i + 1) := by
      intro i hi
      rw [hll] at hi
      have e1 : ((tmp.drop 2).take 1).length = 1 := by
        simp only [List.length_take, List.length_drop, hlen]; omega
      have e2 : (tmp.take 2).length = 2 := by
        simp only [List.length_take, hlen]; omega
      rw [List.getD_eq_getElem?_getD, hl]
      split_ifs with h0 h1
      · rw [List.getElem?_append_left (by rw [List.length_append]; omega), List.getElem?_append_left (by omega), h0]
        simp [hget 2 (by omega), List.getElem?_drop]
      · rw [List.getElem?_append_left (by rw [List.length_append]; omega), List.getElem?_append_right (by omega), e1,
          List.getElem?_take, if_pos (by omega), hget _ (by omega)]
        rfl
      · rw [List.getElem?_append_right (by rw [List.length_append]; omega), List.length_append, e1, e2, List.getElem?_drop,
          show 4 + (i - (1 + 2)) = i + 1 by omega, hget _ (by omega)]
        rfl
    refine ⟨l, hgen, ?_, ?_, ⟨?_, ?_, ?_⟩, ?_, ?_⟩
    · rw [hll]
      split_ifs <;> omega
    · intro w hw
      have : w ∈ tmp := by
        simp only [hl, List.mem_append] at hw
        rcases hw with (hw | hw) | hw
        · exact List.mem_of_mem_drop (List.mem_of_mem_take hw)
        · exact List.mem_of_mem_take hw
        · exact List.mem_of_mem_drop hw
      simp only [htmp, List.mem_map, List.mem_range] at this
      obtain ⟨i, hi, rfl⟩ := this
      exact ⟨hre i, him i hi⟩
    · rw [l0 0 (by omega), if_pos rfl, ht]
      simp [conjInterleave, z2]
    · intro i hi
      rw [l0 i hi]
      exact hre _
    · intro k hk
      rw [l0 _ hk, l0 _ (by omega)]
      rcases Nat.eq_zero_or_pos k with rfl | hk0
      · simpa using hpair 0
      · rw [if_neg (by omega), if_neg (by omega), if_neg (by omega), if_neg (by omega)]
        exact hpair (k + 1)
    · rw [l0 1 (by omega)]
      simp [ht, conjInterleave, z0]
    · rw [l0 2 (by omega)]
      simp [ht, conjInterleave, z0]

theorem imagLoop_invariant {cond : ImagState n → Prop} {body : ImagState n → ImagState n} (P : ImagState n → Prop)
    (hstep : ∀ s, P s → cond s → P (body s)) (f : ℕ) (s : ImagState n) (h : P s) : P (imagLoop cond body f s) := by
  induction f generalizing s with
  | zero => exact h
  | succ f ih =>
    unfold imagLoop
    split_ifs with hc
    · exact ih _ (hstep s h hc)
    · exact h

theorem imagApply_eq {A : LinOp n} {M : Mat n} (hA : IsMatrix A M) (dt shift scale : ℝ) (hs : scale ≠ 0) (v : Vec n) :
    imagApply A dt shift scale v = scaledMat M dt shift scale *ᵥ v := by
  have := scaled_step hA dt shift scale 0 hs v
  rw [zero_smul, sub_zero] at this
  rw [← this]
  funext j
  simp [imagApply]

/-- what the loop maintains: `rm` is the next odd Newton vector, `pm` the real part of the sum so far -/
def ImagInv (x coeffs : ℕ → ℂ) (Z : Mat n) (u : Vec n) (nLeja : ℕ) (s : ImagState n) : Prop :=
  (∃ k, s.i = 2 * k + 2) ∧ s.i ≤ nLeja + 1 ∧ vecC s.rm = newtonVec x (toC Z) (vecC u) (s.i - 1) ∧
    s.pm = (fun j => ((∑ l ∈ Finset.range (s.i - 1), coeffs l • newtonVec x (toC Z) (vecC u) l) j).re)

theorem imagInv_init {A : LinOp n} {M : Mat n} (hA : IsMatrix A M) (dt : ℝ) (u : Vec n) (shift scale : ℝ) (hs : scale ≠ 0)
    {nLeja : ℕ} (h2 : 2 ≤ nLeja + 1) {x : ℕ → ℂ} (coeffs : ℕ → ℂ) (hx : ImagNodes x nLeja) :
    ImagInv x coeffs (scaledMat M dt shift scale) u nLeja (imagInit A dt u shift scale coeffs) := by
  refine ⟨⟨0, rfl⟩, by show 2 ≤ _; omega, ?_, ?_⟩
  · show vecC (imagApply A dt shift scale u) = newtonVec x (toC (scaledMat M dt shift scale)) (vecC u) 1
    rw [imagApply_eq hA dt shift scale hs, newtonVec_succ, newtonVec_zero, hx.zero, zero_smul, sub_zero, toC_mulVec]
  · show (coeffs 0).re • u = fun j => ((∑ l ∈ Finset.range 1, coeffs l • newtonVec x _ (vecC u) l) j).re
    funext j
    simp [newtonVec_zero, vecC]

theorem imagInv_step {A : LinOp n} {M : Mat n} (hA : IsMatrix A M) (dt : ℝ) (u : Vec n) (shift scale : ℝ) (hs : scale ≠ 0)
    {nLeja : ℕ} {x coeffs : ℕ → ℂ} (hx : ImagNodes x nLeja) (hc : PairReal coeffs 1 nLeja) (s : ImagState n)
    (h : ImagInv x coeffs (scaledMat M dt shift scale) u nLeja s) (hlt : s.i < nLeja) :
    ImagInv x coeffs (scaledMat M dt shift scale) u nLeja (imagBody A dt shift scale x coeffs s) := by
  set Z := scaledMat M dt shift scale with hZ
  set N : ℕ → Fin n → ℂ := newtonVec x (toC Z) (vecC u) with hN
  have hNs : ∀ j, N (j + 1) = toC Z *ᵥ N j - x j • N j := newtonVec_succ x (toC Z) (vecC u)
  have hap : ∀ v, imagApply A dt shift scale v = Z *ᵥ v := imagApply_eq hA dt shift scale hs
  obtain ⟨⟨k, h1⟩, h2', h3, h4⟩ := h
  have hk : s.i - 1 = 2 * k + 1 := by omega
  rw [← hN] at h3 h4
  set b := (x (2 * k + 1)).im with hb
  have hx1 : x (2 * k + 1) = (b : ℂ) * Complex.I := by
    apply Complex.ext <;> simp [hx.imag (2 * k + 1) (by omega), hb]
  have hx2 : x (2 * k + 2) = -((b : ℂ) * Complex.I) := by
    rw [hx.pair k (by omega), hx1]
    simp
  have hq : N (2 * k + 2) = vecC (Z *ᵥ s.rm) - ((b : ℂ) * Complex.I) • vecC s.rm := by
    rw [hNs, hx1, ← hk, ← toC_mulVec, h3]
  have hr3 : N (2 * k + 3) = vecC (Z *ᵥ (Z *ᵥ s.rm) + b ^ 2 • s.rm) := by
    rw [hNs, hq, hx2, Matrix.mulVec_sub, Matrix.mulVec_smul, toC_mulVec, toC_mulVec]
    funext j
    simp only [vecC, Pi.sub_apply, Pi.add_apply, Pi.smul_apply, smul_eq_mul]
    push_cast
    linear_combination (-(b : ℂ) ^ 2 * (s.rm j : ℂ)) * Complex.I_sq
  have hci : (coeffs (2 * k + 2)).im = 0 := by
    have := hc k (by omega)
    rwa [show 1 + 2 * k + 1 = 2 * k + 2 by ring] at this
  refine ⟨⟨k + 1, ?_⟩, ?_, ?_, ?_⟩
  · show s.i + 2 = _
    omega
  · show s.i + 2 ≤ _
    omega
  · show vecC (imagApply A dt shift scale (imagApply A dt shift scale s.rm) + (x (s.i - 1)).im ^ 2 • s.rm) = N (s.i + 2 - 1)
    rw [hap, hap, hk, show s.i + 2 - 1 = 2 * k + 3 by omega, hr3]
  · show s.pm + (coeffs (s.i - 1)).re • s.rm + (coeffs s.i).re • imagApply A dt shift scale s.rm = _
    funext j
    show _ = ((∑ l ∈ Finset.range (s.i + 2 - 1), coeffs l • N l) j).re
    rw [show s.i + 2 - 1 = (s.i - 1) + 1 + 1 by omega, Finset.sum_range_succ, Finset.sum_range_succ, hap,
      show s.i - 1 + 1 = 2 * k + 2 by omega, hq, ← h3, hk, show s.i = 2 * k + 2 from h1]
    have h4j := congrFun h4 j
    rw [hk] at h4j
    simp [h4j, vecC, hci]

/-- **C89.**  `complex_conj_imag_leja_expmv` returns the real part of the complex Newton polynomial with its first `i - 1`
coefficients (`i` the returned counter), at nodes of the stated structure and for coefficients that are real at the second point
of each pair (as they are for `exp`, `C47_coeffs_real`). -/
theorem C89_newton (A : LinOp n) (M : Mat n) (hA : IsMatrix A M) (dt : ℝ) (u : Vec n) (shift scale : ℝ) (hs : scale ≠ 0)
    (nLeja : ℕ) (h1 : 1 ≤ nLeja) (x coeffs : ℕ → ℂ) (hx : ImagNodes x nLeja) (hc : PairReal coeffs 1 nLeja) (tol : ℝ) :
    let r := (complexConjImagLejaExpmv A dt u shift scale nLeja x coeffs tol).1
    r.pm = (fun j => ((aeval (toC (scaledMat M dt shift scale)) (newtonPoly x coeffs (r.i - 1)) *ᵥ vecC u) j).re) ∧
      2 ≤ r.i ∧ r.i ≤ nLeja + 1 := by
  intro r
  have h : ImagInv x coeffs (scaledMat M dt shift scale) u nLeja r :=
    imagLoop_invariant _ (fun s h hcond => imagInv_step hA dt u shift scale hs hx hc s h hcond.2) nLeja _
      (imagInv_init hA dt u shift scale hs (by omega) coeffs hx)
  obtain ⟨⟨k, h1⟩, h2, _, h4⟩ := h
  refine ⟨?_, by omega, h2⟩
  rw [newtonPoly_mulVec]
  exact h4

/-- the real part of a Newton sum with exact divided differences of `exp` over nodes that annihilate `u` -/
theorem newton_re_exact (M : Mat n) (dt : ℝ) (u : Vec n) (shift scale : ℝ) (hs : scale ≠ 0)
    (nLeja : ℕ) (x : ℕ → ℂ) (m : ℕ) (hm : 0 < m) (hmn : m ≤ nLeja)
    (hz : aeval (toC (scaledMat M dt shift scale)) (newtonBasis x m) *ᵥ vecC u = 0) :
    (fun j => ((aeval (toC (scaledMat M dt shift scale)) (newtonPoly x
      (lejaCoeffsExp (fun _ => NormedSpace.exp) nLeja x (shift : ℂ) (scale : ℂ) ((1 : ℝ) : ℂ)) m) *ᵥ vecC u) j).re)
      = NormedSpace.exp (dt • M) *ᵥ u := by
  have key := C44_annihilated m hm x (shift : ℂ) (scale : ℂ) ((1 : ℝ) : ℂ) (toC (scaledMat M dt shift scale)) (vecC u) hz
  have e : ((1 : ℝ) : ℂ) • ((shift : ℂ) • (1 : Matrix (Fin n) (Fin n) ℂ) + (scale : ℂ) • toC (scaledMat M dt shift scale))
      = toC (dt • M) := by
    have hsC : (scale : ℂ) ≠ 0 := by exact_mod_cast hs
    ext i j
    simp only [toC, scaledMat, Matrix.smul_apply, Matrix.add_apply, Matrix.map_apply, Matrix.sub_apply, smul_eq_mul,
      Complex.coe_algebraMap, Complex.ofReal_mul, Complex.ofReal_sub, Complex.ofReal_inv, Complex.ofReal_one, one_mul]
    rw [Matrix.one_apply, Matrix.one_apply]
    split_ifs <;> field_simp <;> simp
  rw [e, ← exp_toC, toC_mulVec] at key
  rw [← re_vecC (NormedSpace.exp (dt • M) *ᵥ u), ← key, newtonPoly_mulVec, newtonPoly_mulVec]
  have hsum : ∑ j ∈ Finset.range m, lejaCoeffsExp (fun _ => NormedSpace.exp) nLeja x (shift : ℂ) (scale : ℂ) ((1 : ℝ) : ℂ) j
        • newtonVec x (toC (scaledMat M dt shift scale)) (vecC u) j
      = ∑ j ∈ Finset.range m, lejaCoeffsExp (fun _ => NormedSpace.exp) m x (shift : ℂ) (scale : ℂ) ((1 : ℝ) : ℂ) j
        • newtonVec x (toC (scaledMat M dt shift scale)) (vecC u) j :=
    Finset.sum_congr rfl fun j hj => by rw [C44_prefix nLeja x _ _ _ m j hmn (Finset.mem_range.1 hj)]
  rw [hsum]

/-- **C89, exactness.**  With distinct nodes and the exact divided differences of `exp` the result is `exp(dt A) u` as soon as
the coefficients used belong to nodes that annihilate `u`. -/
theorem C89_exact (A : LinOp n) (M : Mat n) (hA : IsMatrix A M) (dt : ℝ) (u : Vec n) (shift scale : ℝ) (hs : scale ≠ 0)
    (nLeja : ℕ) (h1 : 1 ≤ nLeja) (x : ℕ → ℂ) (hx : ImagNodes x nLeja) (hd : Set.InjOn x (Finset.range nLeja)) (tol : ℝ) (k : ℕ)
    (hk : aeval (toC (scaledMat M dt shift scale)) (newtonBasis x k) *ᵥ vecC u = 0)
    (hik : k + 1 ≤ (complexConjImagLejaExpmv A dt u shift scale nLeja x
      (lejaCoeffsExp (fun _ => NormedSpace.exp) nLeja x (shift : ℂ) (scale : ℂ) ((1 : ℝ) : ℂ)) tol).1.i) :
    (complexConjImagLejaExpmv A dt u shift scale nLeja x
      (lejaCoeffsExp (fun _ => NormedSpace.exp) nLeja x (shift : ℂ) (scale : ℂ) ((1 : ℝ) : ℂ)) tol).1.pm
      = NormedSpace.exp (dt • M) *ᵥ u := by
  obtain ⟨a1, a2, a3⟩ := C89_newton A M hA dt u shift scale hs nLeja h1 x
    (lejaCoeffsExp (fun _ => NormedSpace.exp) nLeja x (shift : ℂ) (scale : ℂ) ((1 : ℝ) : ℂ)) hx
    (C47_coeffs_real x 1 nLeja hx.conj hd shift scale 1) tol
  rw [a1]
  exact newton_re_exact M dt u shift scale hs nLeja x _ (by omega) (by omega) (newtonVec_zero_of_le x _ _ hk (by omega))

/-! ### the convergence flag -/

theorem imagLoop_exit {A : LinOp n} {dt shift scale tol beta : ℝ} {x coeffs : ℕ → ℂ} {nLeja : ℕ} (f : ℕ) (s : ImagState n)
    (hf : nLeja ≤ s.i + f) :
    ¬ imagCond nLeja tol beta (imagLoop (imagCond nLeja tol beta) (imagBody A dt shift scale x coeffs) f s) := by
  induction f generalizing s with
  | zero =>
    unfold imagLoop
    exact fun h => by have := h.2; omega
  | succ f ih =>
    unfold imagLoop
    split_ifs with hc
    · refine ih _ ?_
      show nLeja ≤ s.i + 2 + f
      omega
    · exact hc

/-- **C90, proved part.**  If the flag is set, `tol*‖u‖ < 100` and the coefficients at odd positions have nonnegative real part,
then at least one pair of nodes was processed and the contribution of the last pair has norm at most `tol*‖u‖`. -/
theorem C90_partial (A : LinOp n) (M : Mat n) (hA : IsMatrix A M) (dt : ℝ) (u : Vec n) (shift scale : ℝ) (hs : scale ≠ 0)
    (nLeja : ℕ) (h1 : 1 ≤ nLeja) (x coeffs : ℕ → ℂ) (hx : ImagNodes x nLeja) (hc : PairReal coeffs 1 nLeja)
    (hpos : ∀ k, 0 ≤ (coeffs (2 * k + 1)).re) (tol : ℝ) (hu : tol * norm2 u < 100)
    (hflag : (complexConjImagLejaExpmv A dt u shift scale nLeja x coeffs tol).2) :
    let r := (complexConjImagLejaExpmv A dt u shift scale nLeja x coeffs tol).1
    4 ≤ r.i ∧ norm2 (r.pm - fun j => ((aeval (toC (scaledMat M dt shift scale)) (newtonPoly x coeffs (r.i - 3)) *ᵥ vecC u) j).re)
      ≤ tol * norm2 u := by
  intro r
  have hinv : ImagInv x coeffs (scaledMat M dt shift scale) u nLeja r ∧ ((r.i = 2 ∧ r.err = 100) ∨ (4 ≤ r.i ∧
      norm2 (r.pm - fun j => ((∑ l ∈ Finset.range (r.i - 3), coeffs l • newtonVec x (toC (scaledMat M dt shift scale)) (vecC u) l) j).re)
        ≤ r.err)) := by
    refine imagLoop_invariant (fun s => ImagInv x coeffs (scaledMat M dt shift scale) u nLeja s ∧ ((s.i = 2 ∧ s.err = 100) ∨
      (4 ≤ s.i ∧ norm2 (s.pm - fun j => ((∑ l ∈ Finset.range (s.i - 3), coeffs l • newtonVec x (toC (scaledMat M dt shift scale))
        (vecC u) l) j).re) ≤ s.err))) ?_ nLeja _ ⟨imagInv_init hA dt u shift scale hs (by omega) coeffs hx, Or.inl ⟨rfl, rfl⟩⟩
    rintro s ⟨hi, -⟩ hcond
    refine ⟨imagInv_step hA dt u shift scale hs hx hc s hi hcond.2, Or.inr ?_⟩
    obtain ⟨⟨k, hk⟩, -, -, h4⟩ := hi
    refine ⟨by show 4 ≤ s.i + 2; omega, ?_⟩
    show norm2 (s.pm + (coeffs (s.i - 1)).re • s.rm + (coeffs s.i).re • imagApply A dt shift scale s.rm
      - fun j => ((∑ l ∈ Finset.range (s.i + 2 - 3), coeffs l • newtonVec x (toC (scaledMat M dt shift scale)) (vecC u) l) j).re)
      ≤ norm2 (imagApply A dt shift scale s.rm) * ‖coeffs s.i‖ + (coeffs (s.i - 1)).re * norm2 s.rm
    rw [show s.i + 2 - 3 = s.i - 1 by omega, ← h4]
    have e : s.pm + (coeffs (s.i - 1)).re • s.rm + (coeffs s.i).re • imagApply A dt shift scale s.rm - s.pm
        = (coeffs (s.i - 1)).re • s.rm + (coeffs s.i).re • imagApply A dt shift scale s.rm := by abel
    rw [e]
    refine (norm2_add_le _ _).trans ?_
    rw [norm2_smul, norm2_smul]
    have hp := hpos k
    rw [show s.i - 1 = 2 * k + 1 by omega, abs_of_nonneg hp]
    have : |(coeffs s.i).re| * norm2 (imagApply A dt shift scale s.rm) ≤ ‖coeffs s.i‖ * norm2 (imagApply A dt shift scale s.rm) :=
      mul_le_mul_of_nonneg_right (Complex.abs_re_le_norm _) (norm2_nonneg _)
    linarith
  have hex : ¬ imagCond nLeja tol (norm2 u) r := imagLoop_exit nLeja _ (by omega)
  have hf : r.i < nLeja ∧ r.err < norm2 u * 1000 := hflag
  have herr : r.err ≤ tol * norm2 u := by
    by_contra hc'
    exact hex ⟨⟨not_le.1 hc', hf.2⟩, hf.1⟩
  rcases hinv.2 with ⟨-, h100⟩ | ⟨h4, h5⟩
  · rw [h100] at herr
    linarith
  · refine ⟨h4, ?_⟩
    rw [newtonPoly_mulVec]
    exact h5.trans herr

/-- **C90, small vectors.**  For `‖u‖ ≤ 0.1` no pair is ever processed: the result is `Re(c_0) u`, reported as not converged,
whatever the operator, the nodes and the tolerance. -/
theorem C90_small (A : LinOp n) (dt : ℝ) (u : Vec n) (shift scale : ℝ) (nLeja : ℕ) (x coeffs : ℕ → ℂ) (tol : ℝ)
    (hu : norm2 u ≤ 1 / 10) :
    (complexConjImagLejaExpmv A dt u shift scale nLeja x coeffs tol).1.pm = (coeffs 0).re • u ∧
      ¬ (complexConjImagLejaExpmv A dt u shift scale nLeja x coeffs tol).2 := by
  have hc : ¬ imagCond nLeja tol (norm2 u) (imagInit A dt u shift scale coeffs) := by
    rintro ⟨⟨-, h⟩, -⟩
    have h' : (100 : ℝ) < norm2 u * 1000 := h
    linarith
  have he : imagLoop (imagCond nLeja tol (norm2 u)) (imagBody A dt shift scale x coeffs) nLeja (imagInit A dt u shift scale coeffs)
      = imagInit A dt u shift scale coeffs := by
    cases nLeja with
    | zero => rfl
    | succ f => unfold imagLoop; rw [if_neg hc]
  unfold complexConjImagLejaExpmv
  simp only [he]
  refine ⟨rfl, ?_⟩
  rintro ⟨-, h⟩
  have h' : (100 : ℝ) < norm2 u * 1000 := h
  linarith

/-- **C90, large vectors.**  For `tol*‖u‖ ≥ 100` no pair is processed either, and the result `Re(c_0) u` is reported as
converged (for a tolerance below 1000). -/
theorem C90_large (A : LinOp n) (dt : ℝ) (u : Vec n) (shift scale : ℝ) (nLeja : ℕ) (h3 : 3 ≤ nLeja) (x coeffs : ℕ → ℂ) (tol : ℝ)
    (ht : tol < 1000) (hu : 100 ≤ tol * norm2 u) :
    (complexConjImagLejaExpmv A dt u shift scale nLeja x coeffs tol).1.pm = (coeffs 0).re • u ∧
      (complexConjImagLejaExpmv A dt u shift scale nLeja x coeffs tol).2 := by
  have hc : ¬ imagCond nLeja tol (norm2 u) (imagInit A dt u shift scale coeffs) := by
    rintro ⟨⟨h, -⟩, -⟩
    have h' : tol * norm2 u < (100 : ℝ) := h
    linarith
  have he : imagLoop (imagCond nLeja tol (norm2 u)) (imagBody A dt shift scale x coeffs) nLeja (imagInit A dt u shift scale coeffs)
      = imagInit A dt u shift scale coeffs := by
    cases nLeja with
    | zero => rfl
    | succ f => unfold imagLoop; rw [if_neg hc]
  unfold complexConjImagLejaExpmv
  simp only [he]
  refine ⟨rfl, h3, ?_⟩
  show (100 : ℝ) < norm2 u * 1000
  have h0 := norm2_nonneg u
  rcases h0.eq_or_lt with h | h
  · rw [← h] at hu; linarith
  · have := mul_lt_mul_of_pos_right ht h
    linarith

/-- rotation by the angle `a`: generator, and its exponential applied to the first unit vector -/
theorem exp_rotation (a : ℝ) : NormedSpace.exp (!![0, -a; a, 0] : Mat 2) *ᵥ ![1, 0] = ![Real.cos a, Real.sin a] := by
  have h := exp_intertwine (toC (!![0, -a; a, 0] : Mat 2)) (Matrix.diagonal fun _ : Fin 1 => (a : ℂ) * Complex.I)
    (!![1; -Complex.I] : Matrix (Fin 2) (Fin 1) ℂ) (by
      ext i j
      fin_cases i <;> fin_cases j <;> simp [toC, Matrix.mul_apply, Fin.sum_univ_two]
      rw [mul_comm, mul_assoc, Complex.I_mul_I]; ring)
  rw [← exp_toC, Matrix.exp_diagonal] at h
  set E := NormedSpace.exp (!![0, -a; a, 0] : Mat 2) with hE
  have key : ∀ i : Fin 2, E i 0 = ((((!![1; -Complex.I] : Matrix (Fin 2) (Fin 1) ℂ) * Matrix.diagonal
      (NormedSpace.exp fun _ : Fin 1 => (a : ℂ) * Complex.I)) i 0)).re := by
    intro i
    rw [← h]
    simp [toC, Matrix.mul_apply, Fin.sum_univ_two]
  have hexp : (NormedSpace.exp (fun _ : Fin 1 => (a : ℂ) * Complex.I)) 0 = Complex.exp (a * Complex.I) := by
    rw [Pi.coe_exp, Complex.exp_eq_exp_ℂ]
  funext i
  have e : (E *ᵥ ![1, 0]) i = E i 0 := by simp [Matrix.mulVec, dotProduct, Fin.sum_univ_two]
  rw [e, key i]
  fin_cases i
  · simp [Matrix.mul_apply, hexp, Complex.exp_ofReal_mul_I_re]
  · simp [Matrix.mul_apply, hexp, Complex.exp_ofReal_mul_I_re, Complex.exp_ofReal_mul_I_im]

/-- the first three exact divided differences of `exp` at `0, ib, -ib` with `exp(ib) = -i` -/
theorem coeffs_three (x : ℕ → ℂ) (b : ℝ) (hb : b ≠ 0) (m : ℕ) (hm : 3 ≤ m) (h0 : x 0 = 0) (h1 : x 1 = b * Complex.I)
    (h2 : x 2 = -(b * Complex.I)) (he : Complex.exp (b * Complex.I) = -Complex.I) :
    let c := lejaCoeffsExp (fun _ => NormedSpace.exp) m x ((0 : ℝ) : ℂ) ((1 : ℝ) : ℂ) ((1 : ℝ) : ℂ)
    c 0 = 1 ∧ (c 1).re = -(1 / b) ∧ c 2 = ((1 / b ^ 2 : ℝ) : ℂ) := by
  intro c
  have hbc : (b : ℂ) ≠ 0 := by exact_mod_cast hb
  have hbI : (b : ℂ) * Complex.I ≠ 0 := mul_ne_zero hbc Complex.I_ne_zero
  have hne : (b : ℂ) * Complex.I ≠ -(b * Complex.I) := by
    intro h
    exact hbI (by linear_combination h / 2)
  have hinj : Set.InjOn x (Finset.range 3) := by
    intro i hi j hj h
    simp only [Finset.coe_range, Set.mem_Iio] at hi hj
    interval_cases i <;> interval_cases j <;> first | rfl | (exfalso; simp only [h0, h1, h2] at h)
    · exact hbI h.symm
    · exact hbI (neg_eq_zero.1 h.symm)
    · exact hbI h
    · exact hne h
    · exact hbI (neg_eq_zero.1 h)
    · exact hne h.symm
  have hc : ∀ j < 3, c j = newtonPolyDivDiff 3 x (fun i => Complex.exp (x i)) j := by
    intro j hj
    have e1 : c j = lejaCoeffsExp (fun _ => NormedSpace.exp) 3 x ((0 : ℝ) : ℂ) ((1 : ℝ) : ℂ) ((1 : ℝ) : ℂ) j :=
      C44_prefix m x _ _ _ 3 j hm hj
    rw [e1, C44_eq_recursive 3 x _ _ _ hinj j hj, lejaCoeffsExpDd]
    congr 1
    funext i
    rw [Complex.exp_eq_exp_ℂ]
    simp
  have he' : Complex.exp (-(b * Complex.I)) = Complex.I := by
    rw [Complex.exp_neg, he, inv_neg, Complex.inv_I, neg_neg]
  have d0 : c 0 = 1 := by rw [hc 0 (by norm_num)]; simp [newtonPolyDivDiff, ddPass, List.range', h0]
  have d1 : c 1 = (-Complex.I - 1) / (b * Complex.I) := by
    rw [hc 1 (by norm_num)]; simp [newtonPolyDivDiff, ddPass, List.range', h0, h1, he]
  have d2 : c 2 = ((Complex.I - 1) / (-(b * Complex.I)) - (-Complex.I - 1) / (b * Complex.I)) / (-(b * Complex.I) - b * Complex.I) := by
    rw [hc 2 (by norm_num)]; simp [newtonPolyDivDiff, ddPass, List.range', h0, h1, h2, he, he']
  refine ⟨d0, ?_, ?_⟩
  · have : c 1 = ((-(1 / b) : ℝ) : ℂ) + ((1 / b : ℝ) : ℂ) * Complex.I := by
      rw [d1]
      push_cast
      rw [div_eq_iff hbI]
      field_simp
      linear_combination (-1 : ℂ) * Complex.I_sq
    rw [this]
    simp
  · rw [d2]
    push_cast
    have : -((b : ℂ) * Complex.I) - b * Complex.I ≠ 0 := by
      intro h
      exact hbI (by linear_combination -h / 2)
    rw [div_eq_iff this]
    field_simp
    ring_nf
    rw [Complex.I_sq]
    norm_num

/-- **C90 fails.**  With the nodes of `gen_complex_conj_leja_fast(3π/2, 6)` and the exact divided differences of `exp`, the
rotation generator with angle `3π/4` and `u = e_1` give, for every tolerance in `(0, 100)`, a result flagged as converged after
one pair, although it is off by more than `1` from `exp(A) u` (the estimate is negative). -/
theorem C90_false : ∃ l : List ℂ, genComplexConjLejaFast (3 * Real.pi / 2) 6 = .ok l ∧ l.length = 5 ∧
    ∃ A : LinOp 2, IsMatrix A !![0, -(3 * Real.pi / 4); 3 * Real.pi / 4, 0] ∧ ∀ tol : ℝ, 0 < tol → tol < 100 →
      let x : ℕ → ℂ := fun i => l.getD i 0
      let r := complexConjImagLejaExpmv A 1 ![1, 0] 0 1 5 x
        (lejaCoeffsExp (fun _ => NormedSpace.exp) 5 x ((0 : ℝ) : ℂ) ((1 : ℝ) : ℂ) ((1 : ℝ) : ℂ)) tol
      r.2 ∧ r.1.pm = ![3 / 4, -1 / 2] ∧
        1 < norm2 (r.1.pm - NormedSpace.exp (!![0, -(3 * Real.pi / 4); 3 * Real.pi / 4, 0] : Mat 2) *ᵥ ![1, 0]) := by
  set b : ℝ := 3 * Real.pi / 2 with hb
  have hbpos : 0 < b := by have := Real.pi_pos; positivity
  obtain ⟨l, hl, hlen, -, hx, hx1, hx2⟩ := (C88_nodes b hbpos 6).2 (by norm_num)
  have hlen5 : l.length = 5 := by rw [hlen]; norm_num
  rw [hlen5] at hx
  have hx0 : l.getD 0 0 = 0 := hx.zero
  set A : LinOp 2 := ⟨fun v => !![0, -(3 * Real.pi / 4); 3 * Real.pi / 4, 0] *ᵥ v, .ok !![0, -(3 * Real.pi / 4); 3 * Real.pi / 4, 0]⟩
    with hAdef
  have hA : IsMatrix A !![0, -(3 * Real.pi / 4); 3 * Real.pi / 4, 0] := fun v => rfl
  refine ⟨l, hl, hlen5, A, hA, fun tol ht0 ht => ?_⟩
  intro x r
  set c := lejaCoeffsExp (fun _ => NormedSpace.exp) 5 x ((0 : ℝ) : ℂ) ((1 : ℝ) : ℂ) ((1 : ℝ) : ℂ) with hc
  have hexp : Complex.exp (b * Complex.I) = -Complex.I := by
    rw [hb]
    have : ((3 * Real.pi / 2 : ℝ) : ℂ) * Complex.I = Real.pi * Complex.I + (Real.pi / 2 : ℝ) * Complex.I := by push_cast; ring
    rw [this, Complex.exp_add, Complex.exp_pi_mul_I]
    push_cast
    rw [Complex.exp_pi_div_two_mul_I]
    ring
  obtain ⟨c0, c1, c2⟩ := coeffs_three x b hbpos.ne' 5 (by norm_num) hx0 hx1 hx2 hexp
  rw [← hc] at c0 c1 c2
  have hb2 : (3 * Real.pi / 4 : ℝ) = b / 2 := by rw [hb]; ring
  have hnu : norm2 (![1, 0] : Vec 2) = 1 := by simp [norm2]
  set s0 := imagInit A 1 ![1, 0] 0 1 c with hs0
  have hrm : s0.rm = ![0, b / 2] := by
    show imagApply A 1 0 1 ![1, 0] = _
    rw [imagApply_eq hA 1 0 1 one_ne_zero, scaledMat, hb2]
    funext i
    fin_cases i <;> simp
  have hqm : imagApply A 1 0 1 s0.rm = ![-(b / 2) ^ 2, 0] := by
    rw [imagApply_eq hA 1 0 1 one_ne_zero, scaledMat, hrm, hb2]
    funext i
    fin_cases i <;> simp
    ring
  have hn1 : norm2 s0.rm = b / 2 := by
    rw [hrm]
    simp only [norm2, dotProduct, Fin.sum_univ_two]
    simp
    exact Real.sqrt_mul_self (by positivity)
  have hn2 : norm2 (imagApply A 1 0 1 s0.rm) = (b / 2) ^ 2 := by
    rw [hqm]
    simp only [norm2, dotProduct, Fin.sum_univ_two]
    simp
    exact Real.sqrt_mul_self (by positivity)
  set s1 := imagBody A 1 0 1 x c s0 with hs1
  have hpm : s1.pm = ![3 / 4, -1 / 2] := by
    show s0.pm + (c (s0.i - 1)).re • s0.rm + (c s0.i).re • imagApply A 1 0 1 s0.rm = _
    rw [hqm, hrm]
    show (c 0).re • ![1, 0] + (c 1).re • ![0, b / 2] + (c 2).re • ![-(b / 2) ^ 2, 0] = _
    rw [c0, c1, c2, Complex.ofReal_re]
    funext i
    fin_cases i
    · simp
      field_simp
      norm_num
    · simp
      field_simp
  have herr : s1.err = -(1 / 4) := by
    show norm2 (imagApply A 1 0 1 s0.rm) * ‖c 2‖ + (c 1).re * norm2 s0.rm = _
    rw [hn2, hn1, c1, c2, Complex.norm_real, Real.norm_of_nonneg (by positivity)]
    field_simp
    norm_num
  have hr1 : r.1 = s1 := by
    show imagLoop (imagCond 5 tol (norm2 ![1, 0])) (imagBody A 1 0 1 x c) 5 s0 = s1
    rw [hnu]
    unfold imagLoop
    rw [if_pos (by
      refine ⟨⟨?_, ?_⟩, ?_⟩
      · show (100 : ℝ) > tol * 1
        linarith
      · show (100 : ℝ) < 1 * 1000
        norm_num
      · show 2 < 5
        norm_num)]
    unfold imagLoop
    rw [if_neg (by
      rintro ⟨⟨h, -⟩, -⟩
      rw [herr] at h
      linarith)]
  refine ⟨?_, by rw [hr1, hpm], ?_⟩
  · show r.1.i < 5 ∧ r.1.err < norm2 ![1, 0] * 1000
    rw [hr1, herr, hnu]
    refine ⟨?_, by norm_num⟩
    show 2 + 2 < 5
    norm_num
  · rw [hr1, hpm, exp_rotation]
    have hcos : Real.cos (3 * Real.pi / 4) ≤ -(1 / 2) := by
      have : (3 * Real.pi / 4) = Real.pi - Real.pi / 4 := by ring
      rw [this, Real.cos_pi_sub, Real.cos_pi_div_four]
      have : (1 : ℝ) ≤ √2 := Real.one_le_sqrt.2 (by norm_num)
      linarith
    have := abs_le_norm2 ((![3 / 4, -1 / 2] : Vec 2) - ![Real.cos (3 * Real.pi / 4), Real.sin (3 * Real.pi / 4)]) 0
    have e : ((![3 / 4, -1 / 2] : Vec 2) - ![Real.cos (3 * Real.pi / 4), Real.sin (3 * Real.pi / 4)]) 0
        = 3 / 4 - Real.cos (3 * Real.pi / 4) := by simp
    rw [e, abs_of_nonneg (by linarith)] at this
    linarith

/-- The hypotheses of C89 and C90 are met: the points of `gen_complex_conj_leja_fast(beta, 6)`. -/
example : ∃ l : List ℂ, genComplexConjLejaFast 1 6 = .ok l ∧ l.length = 5 ∧ ImagNodes (fun i => l.getD i 0) 5 := by
  obtain ⟨l, hl, hlen, -, hx, -, -⟩ := (C88_nodes 1 one_pos 6).2 (by norm_num)
  have h5 : l.length = 5 := by rw [hlen]; norm_num
  exact ⟨l, hl, h5, h5 ▸ hx⟩

end
end Ormatex.Props
