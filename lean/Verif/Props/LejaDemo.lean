import Verif.Props.LejaStep
import Verif.Props.LejaTol
import Verif.Props.LejaEst
import Verif.Props.LinExact

/-!
Non-vacuity of C97: a complete run of the `epi2_leja_re` step on the system with constant right-hand side one.
-/

namespace Ormatex.Props
open Ormatex Ormatex.Spec Matrix Polynomial
open scoped Classical
variable {n : ℕ}

/-! ### Non-vacuity: `y' = 1` -/

theorem newtonVec_sq_zero (x : ℕ → ℝ) (M : Mat n) (hM : M * M = 0) (dt shift scale : ℝ) (hs : scale ≠ 0)
    (hx : ∀ i, shift + scale * x i = 0) (u : Vec n) :
    aeval (scaledMat M dt shift scale) (newtonBasis x 2) *ᵥ u = 0 := by
  have hz : ∀ v i, scaledMat M dt shift scale *ᵥ v - x i • v = (scale⁻¹ * dt) • (M *ᵥ v) := by
    intro v i
    have hxi : x i = -(scale⁻¹ * shift) := by
      have := hx i
      field_simp
      linarith
    rw [hxi, scaledMat, Matrix.smul_mulVec, Matrix.sub_mulVec, Matrix.smul_mulVec, Matrix.smul_mulVec, Matrix.one_mulVec]
    module
  have h2 : aeval (scaledMat M dt shift scale) (newtonBasis x 2) *ᵥ u = newtonVec x (scaledMat M dt shift scale) u 2 := rfl
  rw [h2, newtonVec_succ, hz, newtonVec_succ, hz, Matrix.mulVec_smul, Matrix.mulVec_mulVec, hM]
  simp

/-- on a matrix of square zero every converged evaluation with all nodes at zero is exact -/
theorem good_of_sq_zero (M : Mat n) (hM : M * M = 0) (shift scale : ℝ) (hs : scale ≠ 0) (nLeja : ℕ) (hn : 2 ≤ nLeja) (x : ℕ → ℝ)
    (hx : ∀ i, shift + scale * x i = 0) (tol : ℝ) (ht : tol ≤ 2) (abortTol d : ℝ) (w : Vec n) :
    GoodEval (d • M) w 0 (realLejaExpmv (matrixLinOp M) d w shift scale nLeja x
      (lejaCoeffsExp (fun _ => NormedSpace.exp) nLeja x shift scale 1) tol abortTol) := by
  intro hc
  have hA : IsMatrix (matrixLinOp M) M := fun v => rfl
  obtain ⟨h1, h2, h3, h4⟩ := C46_newton (matrixLinOp M) M hA d w shift scale hs nLeja x
    (lejaCoeffsExp (fun _ => NormedSpace.exp) nLeja x shift scale 1) tol abortTol
  have h5 := C46_estimate (matrixLinOp M) M hA d w shift scale hs nLeja x
    (lejaCoeffsExp (fun _ => NormedSpace.exp) nLeja x shift scale 1) tol abortTol
  have h6 := C46_exact (matrixLinOp M) M hA d w shift scale hs nLeja x tol abortTol 2 (newtonVec_sq_zero x M hM d shift scale hs hx w)
  simp only at h5
  rcases h4 hc with h4 | rfl
  · rcases Nat.lt_or_ge 1 (realLejaExpmv (matrixLinOp M) d w shift scale nLeja x
      (lejaCoeffsExp (fun _ => NormedSpace.exp) nLeja x shift scale 1) tol abortTol).i with hi | hi
    · rw [h6 hi hn]
      simp
    · exfalso
      have e : (realLejaExpmv (matrixLinOp M) d w shift scale nLeja x
      (lejaCoeffsExp (fun _ => NormedSpace.exp) nLeja x shift scale 1) tol abortTol).i - 1 = 0 := by omega
      rw [e] at h5
      simp only [geoMean] at h5
      rw [h5] at h4
      have := norm2_nonneg w
      nlinarith
  · rw [h1]; simp

/-- an evaluation whose second Newton vector vanishes converges -/
theorem conv_of_newton_two (M : Mat n) (shift scale : ℝ) (hs : scale ≠ 0) (nLeja : ℕ) (hn : 4 ≤ nLeja) (x c : ℕ → ℝ)
    (tol : ℝ) (ht : 0 < tol) (abortTol : ℝ) (ha : 2 ≤ abortTol) (d : ℝ) (w : Vec n) (hw : norm2 w ≠ 0)
    (hz' : newtonVec x (scaledMat M d shift scale) w 2 = 0)
    (hab : Real.sqrt (|c 1| * norm2 (newtonVec x (scaledMat M d shift scale) w 1) * (2 * norm2 w)) ≤ abortTol * norm2 w) :
    (realLejaExpmv (matrixLinOp M) d w shift scale nLeja x c tol abortTol).conv := by
  have hA : IsMatrix (matrixLinOp M) M := fun v => rfl
  have hpos : 0 < norm2 w := lt_of_le_of_ne (norm2_nonneg w) (Ne.symm hw)
  obtain ⟨m, rfl⟩ : ∃ m, nLeja = m + 1 + 1 + 1 + 1 := ⟨nLeja - 4, by omega⟩
  unfold realLejaExpmv
  simp only
  rw [lejaLoop, if_pos ⟨by simp, by simp only; nlinarith, hw⟩]
  have hb : ∀ (s : LejaState n) , 1 ≤ s.i → s.vm = newtonVec x (scaledMat M d shift scale) w (s.i - 1) →
      (realLejaBody (matrixLinOp M) d (norm2 w) scale tol (fun i => shift + scale * x i) c s).vm
        = newtonVec x (scaledMat M d shift scale) w s.i := by
    intro s hs1 hs2
    show (fun j => (d * (matrixLinOp M).matvec s.vm j - (shift + scale * x (s.i - 1)) * s.vm j) / scale) = _
    rw [scaled_step hA d shift scale _ hs, hs2, ← newtonVec_succ, Nat.sub_add_cancel hs1]
  set s0 : LejaState n := { i := 1, vm := w, pm := c 0 • w, err := 2 * norm2 w, conv := norm2 w = 0 } with hs0
  set B := realLejaBody (matrixLinOp M) d (norm2 w) scale tol (fun i => shift + scale * x i) c with hB
  have hv1 : (B s0).vm = newtonVec x (scaledMat M d shift scale) w 1 := hb s0 le_rfl (by simp [hs0, newtonVec, newtonBasis])
  have hv2 : (B (B s0)).vm = newtonVec x (scaledMat M d shift scale) w 2 := hb (B s0) (by show 1 ≤ 1 + 1; omega) hv1
  have he1 : (B s0).err = Real.sqrt (|c 1| * norm2 (newtonVec x (scaledMat M d shift scale) w 1) * (2 * norm2 w)) := by
    rw [← hv1]
    exact decay_sqrt _ _ (mul_nonneg (abs_nonneg _) (norm2_nonneg _))
  have he2 : (B (B s0)).err = 0 := by
    have : (B (B s0)).err = decayFun (|c 2| * norm2 (B (B s0)).vm) (B s0).err (1 / 2) := rfl
    rw [this, hv2, hz', decay_sqrt _ _ (mul_nonneg (abs_nonneg _) (norm2_nonneg _))]
    simp [norm2_zero]
  have hc2 : (B (B s0)).conv := by
    show scale ≠ 0 ∧ (B (B s0)).err < tol * norm2 w
    rw [he2]; exact ⟨hs, by positivity⟩
  rw [lejaLoop]
  split
  · rw [lejaLoop, if_neg (fun h => h.2.2 hc2)]
    exact hc2
  · rename_i hnc
    by_contra hcv
    exact hnc ⟨by show 1 + 1 + 1 < m + 1 + 1 + 1 + 1; omega, by rw [he1]; exact hab, hcv⟩

/-- and the evaluation does converge -/
theorem conv_of_sq_zero (M : Mat n) (hM : M * M = 0) (shift scale : ℝ) (hs : scale ≠ 0) (nLeja : ℕ) (hn : 4 ≤ nLeja) (x c : ℕ → ℝ)
    (hx : ∀ i, shift + scale * x i = 0) (tol : ℝ) (ht : 0 < tol) (abortTol : ℝ) (ha : 2 ≤ abortTol) (d : ℝ) (w : Vec n) (hw : norm2 w ≠ 0)
    (hab : Real.sqrt (|c 1| * norm2 (newtonVec x (scaledMat M d shift scale) w 1) * (2 * norm2 w)) ≤ abortTol * norm2 w) :
    (realLejaExpmv (matrixLinOp M) d w shift scale nLeja x c tol abortTol).conv :=
  conv_of_newton_two M shift scale hs nLeja hn x c tol ht abortTol ha d w hw (newtonVec_sq_zero x M hM d shift scale hs hx w) hab

/-- `y' = 1` in one dimension, with its exact Jacobian operator -/
noncomputable def oneSys : OdeSys 1 (List ℕ) where
  frhs _ _ _ := fun _ => 1
  fjac _ _ _ := { toLinOp := matrixLinOp 0, fdt := 0, frhsCached := fun _ => 1 }
  fl _ _ := eyeLinOp 1

/-- options: interval `[-4, 0]`, five nodes at its right end, exact divided differences -/
noncomputable def oneOpts : LejaOpts where
  tol := 1 / 1000
  lejaA := some (-4)
  lejaC := none
  substep := true
  nZeros := 0
  maxPowerIter := 10
  maxReEigScale := 1
  nLeja := 5
  lejaX := fun _ => 2
  ddRe := fun n x a b => lejaCoeffsExp (fun _ => NormedSpace.exp) n x a b 1
  ddIm := fun n x a b => lejaCoeffsExp (fun _ => NormedSpace.exp) n x (a : ℂ) (b : ℂ) 1
  bRand := fun _ _ => 1

theorem aug_one_sq (F : Vec n) : augSpec 0 F 0 * augSpec 0 F 0 = (0 : Mat (n + 2)) := by
  unfold augSpec
  rw [Matrix.submatrix_mul_equiv, Matrix.fromBlocks_multiply]
  ext i j
  simp only [Matrix.submatrix_apply]
  rcases finSumFinEquiv.symm i with i | i <;> rcases finSumFinEquiv.symm j with j | j <;>
    simp [Matrix.mul_apply, Matrix.fromBlocks, Fin.sum_univ_two] <;> fin_cases j <;> (try fin_cases i) <;> simp

open scoped Matrix.Norms.Operator in
/-- The hypotheses of `C97_re` are met: the step on `y' = 1` with `dt = 1` returns, and the theorem gives the exact value. -/
example : ∃ s r s', ExpLeja.new 0 (fun _ => 0 : Vec 1) "epi2_leja_re" = .ok s ∧
    ExpLeja.step oneOpts oneSys s 1 none = .ok (r, s') ∧ r.t = 1 ∧ r.y = rosEuler 0 (fun _ => 0) (fun _ => 1) 0 1 1 := by
  obtain ⟨s, hs, hb, hm, hsub⟩ : ∃ s, ExpLeja.new 0 (fun _ => 0 : Vec 1) "epi2_leja_re" = .ok s ∧ At s.base 0 (fun _ => 0) ∧
      s.base.method = "epi2_leja_re" ∧ s.substepSize = 1 := by
    refine ⟨_, rfl, at_init (p := 2) (m := "epi2_leja_re") rfl, rfl, rfl⟩
  have hZ : augSpec ((1 : ℝ) • (0 : Mat 1)) ((1 : ℝ) • fun _ => 1) ((1 : ℝ) ^ 2 • 0) = augSpec (0 : Mat 1) (fun _ => 1) 0 := by
    simp
  have hsq := aug_one_sq (fun _ => 1 : Vec 1)
  set Z := augSpec (0 : Mat 1) (fun _ => 1) 0 with hZd
  set u : Vec (1 + 2) := concat 0 (lastUnit 2) with hu
  have hx : ∀ i : ℕ, (-2 : ℝ) + 1 * oneOpts.lejaX i = 0 := fun i => by show (-2 : ℝ) + 1 * 2 = 0; norm_num
  have hnu : norm2 u = 1 := by
    rw [hu]; unfold norm2
    simp [dotProduct, Fin.sum_univ_three, concat, lastUnit, Fin.append, Fin.addCases]
  have hv1 : norm2 (newtonVec oneOpts.lejaX (scaledMat Z 1 (-2) 1) u 1) ≤ 2 := by
    have e : newtonVec oneOpts.lejaX (scaledMat Z 1 (-2) 1) u 1 = Z *ᵥ u := by
      rw [newtonVec_succ]
      show scaledMat Z 1 (-2) 1 *ᵥ (newtonVec oneOpts.lejaX (scaledMat Z 1 (-2) 1) u 0) - (2 : ℝ) • _ = _
      rw [show newtonVec oneOpts.lejaX (scaledMat Z 1 (-2) 1) u 0 = u by simp [newtonVec, newtonBasis]]
      simp only [scaledMat, inv_one, one_smul, Matrix.sub_mulVec, Matrix.smul_mulVec, Matrix.one_mulVec]
      module
    have e2 : Z *ᵥ u = fun i => if i = 2 then 0 else 1 := by
      funext i
      rw [hZd, hu]
      fin_cases i <;> simp [augSpec, Matrix.mulVec, dotProduct, Fin.sum_univ_three, concat, lastUnit, Fin.append, Fin.addCases,
        finSumFinEquiv, Matrix.fromBlocks]
    rw [e, e2]
    unfold norm2
    refine Real.sqrt_le_iff.2 ⟨by norm_num, ?_⟩
    simp [dotProduct, Fin.sum_univ_three]
    norm_num
  have hc1 : |oneOpts.ddRe oneOpts.nLeja oneOpts.lejaX (-2) 1 1| ≤ 1 := by
    have := exactTable_le 0 5 (fun _ => (2 : ℝ)) (-2) 1 1 0 (fun i _ => by norm_num) 1 0 (by decide)
    have e : oneOpts.ddRe oneOpts.nLeja oneOpts.lejaX (-2) 1 1 = exactTable 0 5 (fun _ => (2 : ℝ)) (-2) 1 1 1 0 := by
      show lejaCoeffsExp (fun _ => NormedSpace.exp) 5 (fun _ => (2 : ℝ)) (-2) 1 1 1 = _
      rw [← exactDd_zero]
      rfl
    rw [e]
    refine this.trans ?_
    simp
  have hconv : (realLejaExpmv (matrixLinOp Z) 1 u (-2) 1 oneOpts.nLeja oneOpts.lejaX
      (oneOpts.ddRe oneOpts.nLeja oneOpts.lejaX (-2) 1) oneOpts.tol 1e10).conv := by
    refine conv_of_sq_zero Z hsq (-2) 1 one_ne_zero 5 (by norm_num) _ _ hx _ (by norm_num [oneOpts]) _ (by norm_num) 1 u
      (by rw [hnu]; exact one_ne_zero) ?_
    rw [hnu]
    refine Real.sqrt_le_iff.2 ⟨by norm_num, ?_⟩
    have : |oneOpts.ddRe oneOpts.nLeja oneOpts.lejaX (-2) 1 1| * norm2 (newtonVec oneOpts.lejaX (scaledMat Z 1 (-2) 1) u 1)
        ≤ 1 * 2 := mul_le_mul hc1 hv1 (norm2_nonneg _) zero_le_one
    have h2 : (1 : ℝ) * 2 * (2 * 1) ≤ (1e10 * 1) ^ 2 := by norm_num
    exact (mul_le_mul_of_nonneg_right this (by norm_num)).trans h2
  obtain ⟨r, s', hr⟩ : ∃ r s', ExpLeja.step oneOpts oneSys s 1 none = .ok (r, s') := by
    obtain ⟨op, hop, -, -⟩ := C14_block (matrixLinOp (0 : Mat 1)) 0 (fun v => rfl) 1
      (augB [0, (1 : ℝ) • (fun _ => 1 : Vec 1), (1 : ℝ) ^ 2 • (0 : Vec 1)]) (augK 2)
    have hav : buildATilde3 (matrixLinOp (0 : Mat 1)) 1 0 ((1 : ℝ) • fun _ => 1) ((1 : ℝ) ^ 2 • 0) = .ok (op, u) := by
      unfold buildATilde3 buildATilde
      rw [if_neg (by simp)]
      exact congrArg (fun q => Bind.bind q _) hop
    obtain ⟨hopZ, -⟩ := augMatvec3_eq _ 0 (fun v => rfl) 1 _ _ op u hav
    rw [hZ] at hopZ
    have hin : (realInner op oneOpts (-2) 1 1 u).2.2 := by
      show (realLejaExpmv op 1 u (-2) 1 oneOpts.nLeja oneOpts.lejaX
        (oneOpts.ddRe oneOpts.nLeja oneOpts.lejaX (-2) 1) oneOpts.tol 1e10).conv
      rw [realLeja_congr hopZ (B := matrixLinOp Z) (fun v => rfl)]
      exact hconv
    have hlp : ∃ w it mt, ∃ c : Prop, c ∧ expmvSubstep (realInner op oneOpts (-2) 1) (1.1 * s.substepSize) u true = .ok (w, it, c, mt) := by
      unfold expmvSubstep
      rw [if_neg (by simp), hsub, show min (1.1 * 1 : ℝ) 1 = 1 by norm_num]
      have hsb : subBody (realInner op oneOpts (-2) 1) { dts := 1, tau := 0, w := u, tot := 0, maxTau := 0, conv := False }
          = { dts := min 1 (1 - (0 + 1)), tau := 0 + 1, w := (realInner op oneOpts (-2) 1 1 u).1,
              tot := 0 + (realInner op oneOpts (-2) 1 1 u).2.1, maxTau := max 0 1, conv := (realInner op oneOpts (-2) 1 1 u).2.2 } := by
        unfold subBody
        simp only
        rw [if_neg (not_not.2 hin)]
      rw [show (1001 : ℕ) = 1000 + 1 from rfl, subLoop, hsb, if_pos (by norm_num)]
      exact ⟨_, _, _, _, hin, rfl⟩
    obtain ⟨w, it, mt, c, hc, hlp⟩ := hlp
    have hstep : stepEpiRe oneOpts oneSys s 1 ((none : Option (List ℕ)).getD ∅) = lejaFinish s s.bk (fun _ => 0) (headN w) 1 c mt := by
      unfold stepEpiRe
      simp only
      rw [hb.yNew]
      show (do
        let (aT, v) ← buildATilde3 (matrixLinOp (0 : Mat 1)) 1 0 ((1 : ℝ) • (fun _ => 1 : Vec 1)) ((1 : ℝ) ^ 2 • (0 : Vec 1))
        let (w, _iters, conv, maxTau) ← expmvSubstep (realInner aT oneOpts (1 * (-4) / 2) |1 * (-4) / 4|) (1.1 * s.substepSize) v true
        lejaFinish s s.bk (fun _ => 0 : Vec 1) (headN w) 1 conv maxTau) = _
      rw [hav]
      show (do
        let (w, _iters, conv, maxTau) ← expmvSubstep (realInner op oneOpts (1 * (-4) / 2) |1 * (-4) / 4|) (1.1 * s.substepSize) u true
        lejaFinish s s.bk (fun _ => 0 : Vec 1) (headN w) 1 conv maxTau) = _
      rw [show (1 * (-4) / 2 : ℝ) = -2 by norm_num, show |(1 * (-4) / 4 : ℝ)| = 1 by norm_num, hlp]
      rfl
    unfold ExpLeja.step
    simp only
    rw [if_pos hm, hstep]
    unfold lejaFinish
    rw [if_neg (not_not.2 hc)]
    exact ⟨_, _, rfl⟩
  obtain ⟨h1, shift, scale, h2, h3⟩ := C97_re oneOpts oneSys s hb (by rw [hsub]; exact one_pos) hm 1 none 0 (fun v => rfl) r s' hr
  refine ⟨s, r, s', hs, hr, by rw [h1]; norm_num, ?_⟩
  obtain ⟨rfl, rfl⟩ := h2
  have h4 := h3 0 ‖Z‖ le_rfl (norm_nonneg _) (fun d hd _ => ?_) (fun d w hd hd1 => ?_)
  · rw [add_zero, one_pow, sub_self, mul_zero] at h4
    exact sub_eq_zero.1 (norm_le_zero_iff.1 h4)
  · refine (exp_norm_le _).trans (Real.exp_le_exp.2 ?_)
    show ‖d • augSpec ((1 : ℝ) • (0 : Mat 1)) ((1 : ℝ) • fun _ => 1) ((1 : ℝ) ^ 2 • 0)‖ ≤ d * ‖Z‖
    rw [hZ, norm_smul, Real.norm_of_nonneg hd]
  · show GoodEval (d • augSpec ((1 : ℝ) • (0 : Mat 1)) ((1 : ℝ) • fun _ => 1) ((1 : ℝ) ^ 2 • 0)) w 0
      (realLejaExpmv (matrixLinOp (augSpec ((1 : ℝ) • (0 : Mat 1)) ((1 : ℝ) • fun _ => 1) ((1 : ℝ) ^ 2 • 0))) d w _ _ _ _ _ _ _)
    rw [hZ, show (1 * (-4) / 2 : ℝ) = -2 by norm_num, show |(1 * (-4) / 4 : ℝ)| = 1 by norm_num]
    exact good_of_sq_zero Z hsq (-2) 1 one_ne_zero 5 (by norm_num) _ hx _ (by norm_num [oneOpts]) _ d w

open scoped Matrix.Norms.Operator in
/-- The hypotheses of `C96_real` are met by any matrix and any nodes, with exact coefficients (`δ = 0`), `mu = 0` and a radius
that bounds both; here the nodes are `-2 + x_i`, `x_i` in `[-2, 2]`. -/
example (M : Mat n) (x : ℕ → ℝ) (hx : ∀ i, |x i| ≤ 2) (u : Vec n) (tol : ℝ) :
    let r := realLejaExpmv (matrixLinOp M) 1 u (-2) 1 100 x (lejaCoeffsExp (fun _ => NormedSpace.exp) 100 x (-2) 1 1) tol 1e10
    ‖r.pm - NormedSpace.exp ((1 : ℝ) • M) *ᵥ u‖
      ≤ interpBound ((1 : ℝ) • M) (fun j => -2 + 1 * x j) 1 0 (max ‖M‖ 4) (fun _ => 0) r.i ‖u‖ := by
  refine C96_real (matrixLinOp M) M (fun v => rfl) 1 u (-2) 1 one_ne_zero 100 (by norm_num) x _ tol 1e10 0 (max ‖M‖ 4) ?_ ?_
    (fun _ => 0) ?_
  · rw [zero_smul, sub_zero, one_smul]; exact le_max_left _ _
  · intro i _
    refine le_trans ?_ (le_max_right _ _)
    have := abs_le.1 (hx i)
    rw [abs_le]; constructor <;> linarith
  · intro j _; simp

/-- The hypotheses of `C98_symmetric_partial` are met: the diagonal operator with eigenvalues `-1, -3`, nodes at its
spectrum, a vector with both components; the evaluation converges after two steps. -/
example (tol : ℝ) (ht : 0 < tol) (ht2 : tol ≤ 2) : ∃ abortTol : ℝ,
    let M : Mat 2 := Matrix.diagonal ![-1, -3]
    let x : ℕ → ℝ := fun i => if i = 0 then 1 else -1
    let r := realLejaExpmv (matrixLinOp M) 1 (fun _ => 1 : Vec 2) (-2) 1 5 x (lejaCoeffsExp (fun _ => NormedSpace.exp) 5 x (-2) 1 1) tol abortTol
    r.conv ∧ norm2 (r.pm - NormedSpace.exp ((1 : ℝ) • M) *ᵥ (fun _ => 1)) ≤ (0 - -4) * Real.exp (0 - -4) / r.i * tol * norm2 (fun _ => 1 : Vec 2) := by
  set M : Mat 2 := Matrix.diagonal ![-1, -3] with hM
  set x : ℕ → ℝ := fun i => if i = 0 then 1 else -1 with hx
  set c := lejaCoeffsExp (fun _ => NormedSpace.exp) 5 x (-2) 1 (1 : ℝ) with hc
  set w : Vec 2 := fun _ => 1 with hw
  have hwp : 1 ≤ norm2 w := by
    unfold norm2
    rw [Real.one_le_sqrt]
    simp [hw, dotProduct, Fin.sum_univ_two]
  set Q := Real.sqrt (|c 1| * norm2 (newtonVec x (scaledMat M 1 (-2) 1) w 1) * (2 * norm2 w)) with hQ
  have hQ0 : 0 ≤ Q := Real.sqrt_nonneg _
  refine ⟨2 + Q, ?_⟩
  intro M' x' r
  have hconv : r.conv := by
    refine conv_of_newton_two M (-2) 1 one_ne_zero 5 (by norm_num) x c tol ht (2 + Q) (by linarith) 1 w (by linarith) ?_ (by nlinarith)
    have hZ : scaledMat M 1 (-2) 1 = Matrix.diagonal ![1, -1] := by
      rw [scaledMat, hM]
      ext i j
      fin_cases i <;> fin_cases j <;> simp <;> norm_num
    rw [hZ, newtonVec_diag]
    funext i
    fin_cases i <;> simp [hx, Finset.prod_range_succ]
  refine ⟨hconv, C98_symmetric_partial (matrixLinOp M) M (fun v => rfl) 1 w (-2) 1 one_pos ?_ (-4) 0 ?_ 5 (by norm_num) x ?_ tol (2 + Q) ht ht2 hconv⟩
  · rw [hM, Matrix.diagonal_transpose]
  · intro v
    simp only [hM, one_smul, dotProduct, Matrix.mulVec_diagonal, Fin.sum_univ_two, Matrix.cons_val_zero, Matrix.cons_val_one]
    constructor <;> nlinarith [sq_nonneg (v 0), sq_nonneg (v 1)]
  · intro i _
    simp only [hx]
    split <;> constructor <;> norm_num

end Ormatex.Props
