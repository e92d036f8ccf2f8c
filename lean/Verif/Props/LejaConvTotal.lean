import Verif.Props.LejaConvRun

/-!
C116: the runs do return.  For a step size below a bound that depends on the problem, a node interval given by `leja_a ≠ 0` and enough
terms for the tolerance, every evaluation converges, no step is subdivided and the run completes.
-/

namespace Ormatex.Props
open Ormatex Ormatex.Spec Matrix
open scoped Classical
open scoped Matrix.Norms.Operator

variable {n : ℕ}

/-- upper bound of the exact coefficients -/
theorem coeff_upper (nLeja : ℕ) (x : ℕ → ℝ) (shift scale γ : ℝ) (hs : 0 ≤ scale) (hx : ∀ i < nLeja, |shift + scale * x i| ≤ γ) (j : ℕ)
    (hj : j < nLeja) : |lejaCoeffsExp (fun _ => NormedSpace.exp) nLeja x shift scale 1 j|
      ≤ Real.exp γ * (scale ^ j / (Nat.factorial j : ℝ)) := by
  have h4 := exactTable_le 0 nLeja x shift scale 1 γ (fun i hi => by rw [Real.norm_eq_abs]; exact hx i hi) ⟨j, hj⟩ ⟨0, by omega⟩ (by simp)
  have e : lejaCoeffsExp (fun _ => NormedSpace.exp) nLeja x shift scale 1 j
      = exactTable 0 nLeja x shift scale 1 ⟨j, hj⟩ ⟨0, by omega⟩ := by
    rw [← exactDd_zero]
    unfold exactDd firstCol
    rw [dif_pos hj]
  rw [e]
  refine (Real.norm_eq_abs _).symm.le.trans (h4.trans (le_of_eq ?_))
  simp only [Nat.sub_zero, one_mul, norm_one, Real.norm_of_nonneg hs]

/-- growth of the Newton vectors in the euclidean norm -/
theorem newtonVec_norm2 (x : ℕ → ℝ) (M : Mat n) (dt shift scale : ℝ) (hs : 0 < scale) (u : Vec n) (β γ : ℝ) (hβ : 0 ≤ β) (hγ : 0 ≤ γ)
    (hM : ∀ v, norm2 ((dt • M) *ᵥ v) ≤ β * norm2 v) (m : ℕ) (hx : ∀ i < m, |shift + scale * x i| ≤ γ) :
    ∀ j ≤ m, scale ^ j * norm2 (newtonVec x (scaledMat M dt shift scale) u j) ≤ (β + γ) ^ j * norm2 u := by
  intro j
  induction j with
  | zero => intro _; rw [newtonVec_zero]
            simp
  | succ j ih =>
    intro hj
    have ih := ih (by omega)
    have e : scale • newtonVec x (scaledMat M dt shift scale) u (j + 1)
        = (dt • M) *ᵥ newtonVec x (scaledMat M dt shift scale) u j
          - (shift + scale * x j) • newtonVec x (scaledMat M dt shift scale) u j := by
      rw [newtonVec_succ]
      have hb : (dt • M) *ᵥ newtonVec x (scaledMat M dt shift scale) u j
          = shift • newtonVec x (scaledMat M dt shift scale) u j
            + scale • (scaledMat M dt shift scale *ᵥ newtonVec x (scaledMat M dt shift scale) u j) := by
        have hb := congrArg (fun N : Mat n => N *ᵥ newtonVec x (scaledMat M dt shift scale) u j) (scaledMat_back M dt shift scale hs.ne')
        simp only [Matrix.add_mulVec, Matrix.smul_mulVec _ _ (newtonVec x (scaledMat M dt shift scale) u j), Matrix.one_mulVec] at hb
        rw [Matrix.smul_mulVec]
        exact hb
      rw [hb]
      module
    have h1 : scale * norm2 (newtonVec x (scaledMat M dt shift scale) u (j + 1))
        ≤ (β + γ) * norm2 (newtonVec x (scaledMat M dt shift scale) u j) := by
      calc _ = norm2 (scale • newtonVec x (scaledMat M dt shift scale) u (j + 1)) := by rw [norm2_smul, abs_of_pos hs]
        _ ≤ norm2 ((dt • M) *ᵥ newtonVec x (scaledMat M dt shift scale) u j)
            + norm2 ((shift + scale * x j) • newtonVec x (scaledMat M dt shift scale) u j) := by rw [e]; exact norm2_sub_le _ _
        _ ≤ β * norm2 (newtonVec x (scaledMat M dt shift scale) u j) + γ * norm2 (newtonVec x (scaledMat M dt shift scale) u j) := by
            refine add_le_add (hM _) ?_
            rw [norm2_smul]
            exact mul_le_mul_of_nonneg_right (hx j (by omega)) (norm2_nonneg _)
        _ = _ := by ring
    calc scale ^ (j + 1) * norm2 (newtonVec x (scaledMat M dt shift scale) u (j + 1))
        = scale ^ j * (scale * norm2 (newtonVec x (scaledMat M dt shift scale) u (j + 1))) := by ring
      _ ≤ scale ^ j * ((β + γ) * norm2 (newtonVec x (scaledMat M dt shift scale) u j)) :=
          mul_le_mul_of_nonneg_left h1 (by positivity)
      _ = (β + γ) * (scale ^ j * norm2 (newtonVec x (scaledMat M dt shift scale) u j)) := by ring
      _ ≤ (β + γ) * ((β + γ) ^ j * norm2 u) := mul_le_mul_of_nonneg_left ih (by positivity)
      _ = _ := by ring

/-- **C116, evaluations converge.**  If the operator and the nodes are bounded by `β` and `γ` and there are enough terms for the
tolerance, `real_leja_expmv` reports convergence for every vector. -/
theorem eval_converges (A : LinOp n) (M : Mat n) (hA : IsMatrix A M) (dt : ℝ) (u : Vec n) (shift scale : ℝ) (hs : 0 < scale)
    (β γ : ℝ) (hβ : 0 ≤ β) (hγ : 0 ≤ γ) (hM : ∀ v, norm2 ((dt • M) *ᵥ v) ≤ β * norm2 v) (nLeja : ℕ) (hn : 2 ≤ nLeja) (x c : ℕ → ℝ)
    (hx : ∀ i < nLeja, |shift + scale * x i| ≤ γ) (θ : ℝ) (hθ2 : θ ≤ 1 / 2)
    (hc : ∀ j < nLeja, |c j - lejaCoeffsExp (fun _ => NormedSpace.exp) nLeja x shift scale 1 j|
      ≤ θ * lejaCoeffsExp (fun _ => NormedSpace.exp) nLeja x shift scale 1 j)
    (tol abortTol : ℝ) (ht2 : tol ≤ 2) (D : ℝ) (hD2 : 2 ≤ D) (hD : 3 / 2 * Real.exp (4 * β + 5 * γ) ≤ D) (hDa : D ≤ abortTol)
    (hDt : D < tol * 2 ^ (nLeja - 2)) :
    (realLejaExpmv A dt u shift scale nLeja x c tol abortTol).conv := by
  by_cases hu : u = 0
  · unfold realLejaExpmv
    obtain ⟨k, rfl⟩ : ∃ k, nLeja = k + 1 := ⟨nLeja - 1, by omega⟩
    simp only
    rw [lejaLoop, if_neg (fun h => h.2.2 (by show norm2 u = 0; rw [hu]; exact norm2_zero))]
    show norm2 u = 0
    rw [hu]; exact norm2_zero
  have hu0 := norm2_pos hu
  set Z := scaledMat M dt shift scale with hZ
  set E := lejaCoeffsExp (fun _ => NormedSpace.exp) nLeja x shift scale (1 : ℝ) with hE
  have hcj : ∀ j < nLeja, |c j| ≤ 3 / 2 * (Real.exp γ * (scale ^ j / (Nat.factorial j : ℝ))) := by
    intro j hj
    have h1 := coeff_upper nLeja x shift scale γ hs.le hx j hj
    have h2 := hc j hj
    have h3 : 0 ≤ E j := by
      have hlow := coeff_lower nLeja x shift scale (-γ) hs.le (fun i hi => (abs_le.1 (hx i hi)).1) j hj
      exact le_trans (by positivity) hlow
    have h4 : θ * E j ≤ 1 / 2 * E j := mul_le_mul_of_nonneg_right hθ2 h3
    have h5 : |E j| = E j := abs_of_nonneg h3
    have h6 : |c j| ≤ |c j - E j| + |E j| := by simpa using abs_add_le (c j - E j) (E j)
    change |E j| ≤ _ at h1
    linarith
  have hgrow := newtonVec_norm2 x M dt shift scale hs u β γ hβ hγ hM nLeja hx
  have hterm : ∀ j < nLeja, |c j| * norm2 (newtonVec x Z u j) ≤ D * (1 / 4) ^ j * norm2 u := by
    intro j hj
    have h1 := hgrow j hj.le
    have h2 : (4 * (β + γ)) ^ j / (Nat.factorial j : ℝ) ≤ Real.exp (4 * (β + γ)) := by
      have := Real.sum_le_exp_of_nonneg (by positivity : 0 ≤ 4 * (β + γ)) (j + 1)
      refine le_trans ?_ this
      exact Finset.single_le_sum (f := fun i : ℕ => (4 * (β + γ)) ^ i / (Nat.factorial i : ℝ)) (fun i _ => by positivity)
        (Finset.mem_range.2 (by omega))
    calc _ ≤ 3 / 2 * (Real.exp γ * (scale ^ j / (Nat.factorial j : ℝ))) * norm2 (newtonVec x Z u j) :=
          mul_le_mul_of_nonneg_right (hcj j hj) (norm2_nonneg _)
      _ = 3 / 2 * Real.exp γ / (Nat.factorial j : ℝ) * (scale ^ j * norm2 (newtonVec x Z u j)) := by ring
      _ ≤ 3 / 2 * Real.exp γ / (Nat.factorial j : ℝ) * ((β + γ) ^ j * norm2 u) := mul_le_mul_of_nonneg_left h1 (by positivity)
      _ = 3 / 2 * Real.exp γ * ((4 * (β + γ)) ^ j / (Nat.factorial j : ℝ)) * (1 / 4) ^ j * norm2 u := by
          rw [mul_pow]
          have : (4 : ℝ) ^ j * (1 / 4) ^ j = 1 := by rw [← mul_pow]; norm_num
          calc _ = 3 / 2 * Real.exp γ * ((β + γ) ^ j / (Nat.factorial j : ℝ)) * norm2 u * 1 := by ring
            _ = 3 / 2 * Real.exp γ * ((β + γ) ^ j / (Nat.factorial j : ℝ)) * norm2 u * (4 ^ j * (1 / 4) ^ j) := by rw [this]
            _ = _ := by ring
      _ ≤ 3 / 2 * Real.exp γ * Real.exp (4 * (β + γ)) * (1 / 4) ^ j * norm2 u := by
          refine mul_le_mul_of_nonneg_right (mul_le_mul_of_nonneg_right (mul_le_mul_of_nonneg_left h2 (by positivity)) (by positivity))
            (norm2_nonneg _)
      _ = 3 / 2 * Real.exp (4 * β + 5 * γ) * (1 / 4) ^ j * norm2 u := by
          rw [mul_assoc (3 / 2) (Real.exp γ), ← Real.exp_add]
          congr 4
          ring
      _ ≤ _ := mul_le_mul_of_nonneg_right (mul_le_mul_of_nonneg_right hD (by positivity)) (norm2_nonneg _)
  have hinv := lejaLoop_invariant (cond := lejaCond nLeja abortTol (norm2 u))
    (body := realLejaBody A dt (norm2 u) scale tol (fun i => shift + scale * x i) c)
    (fun s => 1 ≤ s.i ∧ s.i + 1 ≤ nLeja ∧ s.vm = newtonVec x Z u (s.i - 1) ∧ (¬ s.conv → tol * norm2 u ≤ s.err) ∧
      0 ≤ s.err ∧ s.err ≤ D * (1 / 2) ^ (s.i - 1) * norm2 u) ?_ nLeja
    { i := 1, vm := u, pm := c 0 • u, err := 2 * norm2 u, conv := norm2 u = 0 } ?_
  · change (fun s : LejaState n => 1 ≤ s.i ∧ s.i + 1 ≤ nLeja ∧ s.vm = newtonVec x Z u (s.i - 1) ∧ (¬ s.conv → tol * norm2 u ≤ s.err) ∧
      0 ≤ s.err ∧ s.err ≤ D * (1 / 2) ^ (s.i - 1) * norm2 u) (realLejaExpmv A dt u shift scale nLeja x c tol abortTol) at hinv
    have hexit : ¬ lejaCond nLeja abortTol (norm2 u) (realLejaExpmv A dt u shift scale nLeja x c tol abortTol) := by
      unfold realLejaExpmv
      exact lejaLoop_exit (fun s => le_rfl) nLeja _ (by simp)
    generalize realLejaExpmv A dt u shift scale nLeja x c tol abortTol = r at hinv hexit
    obtain ⟨h1, h2, -, h4, h5, h6⟩ := hinv
    by_contra hnc
    have h7 := h4 hnc
    have hpow : (1 / 2 : ℝ) ^ (r.i - 1) ≤ 1 := pow_le_one₀ (by norm_num) (by norm_num)
    have h8 : r.err ≤ abortTol * norm2 u := by
      refine h6.trans (mul_le_mul_of_nonneg_right ?_ (norm2_nonneg _))
      exact (mul_le_of_le_one_right (by linarith) hpow).trans hDa
    have h9 : ¬ (r.i + 1 < nLeja) := fun h => hexit ⟨h, h8, hnc⟩
    have h10 : r.i - 1 = nLeja - 2 := by omega
    rw [h10] at h6
    have h11 : tol ≤ D * (1 / 2) ^ (nLeja - 2) := le_of_mul_le_mul_right (h7.trans h6) hu0
    have h12 : (2 : ℝ) ^ (nLeja - 2) * (1 / 2) ^ (nLeja - 2) = 1 := by rw [← mul_pow]; norm_num
    have h13 := mul_le_mul_of_nonneg_right h11 (by positivity : (0 : ℝ) ≤ 2 ^ (nLeja - 2))
    have h14 : D * (1 / 2) ^ (nLeja - 2) * 2 ^ (nLeja - 2) = D := by
      rw [mul_assoc, mul_comm ((1 / 2 : ℝ) ^ (nLeja - 2)), h12, mul_one]
    linarith
  · rintro s ⟨h1, h2, h3, h4, h5, h6⟩ hcond
    have hvm : (realLejaBody A dt (norm2 u) scale tol (fun i => shift + scale * x i) c s).vm = newtonVec x Z u s.i := by
      show (fun j => (dt * A.matvec s.vm j - (shift + scale * x (s.i - 1)) * s.vm j) / scale) = _
      rw [scaled_step hA dt shift scale _ hs.ne', h3, ← newtonVec_succ, Nat.sub_add_cancel h1]
    have he : (realLejaBody A dt (norm2 u) scale tol (fun i => shift + scale * x i) c s).err
        = Real.sqrt (|c s.i| * norm2 (newtonVec x Z u s.i) * s.err) := by
      rw [← hvm]
      exact decay_sqrt _ _ (mul_nonneg (abs_nonneg _) (norm2_nonneg _))
    refine ⟨by show 1 ≤ s.i + 1; omega, by show s.i + 1 + 1 ≤ nLeja; exact hcond.1, ?_, ?_, ?_, ?_⟩
    · rw [hvm]; rfl
    · intro hnc
      exact not_lt.1 fun hlt => hnc ⟨hs.ne', hlt⟩
    · rw [he]; exact Real.sqrt_nonneg _
    · rw [he]
      show _ ≤ D * (1 / 2) ^ s.i * norm2 u
      refine Real.sqrt_le_iff.2 ⟨by positivity, ?_⟩
      have h7 := mul_le_mul (hterm s.i (by have := hcond.1; omega)) h6 h5 (by positivity)
      refine h7.trans ?_
      obtain ⟨k, hk⟩ : ∃ k, s.i = k + 1 := ⟨s.i - 1, by omega⟩
      rw [hk, Nat.add_sub_cancel]
      have e1 : (1 / 4 : ℝ) ^ (k + 1) = (1 / 2) ^ (k + 1) * (1 / 2) ^ (k + 1) := by rw [← mul_pow]; norm_num
      have e2 : (1 / 2 : ℝ) ^ k ≤ 1 := pow_le_one₀ (by norm_num) (by norm_num)
      calc D * (1 / 4) ^ (k + 1) * norm2 u * (D * (1 / 2) ^ k * norm2 u)
          = (D * (1 / 2) ^ (k + 1) * norm2 u) ^ 2 * (1 / 2) ^ k := by rw [e1]; ring
        _ ≤ _ := mul_le_of_le_one_right (sq_nonneg _) e2
  · refine ⟨le_rfl, by show 1 + 1 ≤ nLeja; omega, (newtonVec_zero _ _ _).symm, fun _ => ?_, by show 0 ≤ 2 * norm2 u; positivity, ?_⟩
    · exact mul_le_mul_of_nonneg_right ht2 (norm2_nonneg _)
    · show 2 * norm2 u ≤ D * (1 / 2) ^ 0 * norm2 u
      rw [pow_zero, mul_one]
      exact mul_le_mul_of_nonneg_right hD2 (norm2_nonneg _)

/-- the augmented matrix in the euclidean norm -/
theorem augSpec_norm2 (X : Mat n) (b1 b2 : Vec n) (w : Vec (n + 2)) :
    norm2 (augSpec X b1 b2 *ᵥ w) ≤ (1 + Real.sqrt n * (‖X‖ + ‖b1‖ + ‖b2‖)) * norm2 w := by
  have hw : w = Fin.append (headN w) (tailP w) := (Fin.append_castAdd_natAdd (f := w)).symm
  have e : augSpec X b1 b2 *ᵥ w
      = concat (X *ᵥ headN w + (tailP w 0 • b2 + tailP w 1 • b1)) (augK 2 *ᵥ tailP w) := by
    obtain ⟨op, _, h2, h3⟩ := C14_block (matrixLinOp X) X (fun _ => rfl) 1
      (Matrix.of fun i (j : Fin 2) => if j = 0 then b2 i else b1 i) !![0, 1; 0, 0]
    rw [one_smul] at h3
    have h4 := h3 w
    have h5 := h2 (headN w) (tailP w)
    rw [← hw, h4, one_smul] at h5
    have e1 : (Matrix.of fun i (j : Fin 2) => if j = 0 then b2 i else b1 i) *ᵥ tailP w = tailP w 0 • b2 + tailP w 1 • b1 := by
      funext i
      simp [Matrix.mulVec, dotProduct, mul_comm]
    have e2 : (!![0, 1; 0, 0] : Matrix (Fin 2) (Fin 2) ℝ) = augK 2 := by
      ext i j
      fin_cases i <;> fin_cases j <;> simp [augK]
    rw [e1, e2] at h5
    unfold augSpec
    rw [e2]
    exact h5
  rw [e]
  have ht : ∀ j : Fin 2, |tailP w j| ≤ norm2 w := fun j => by
    have h1 := norm_le_norm2 w
    exact (norm_le_pi_norm w (Fin.natAdd n j)).trans h1
  have hh := norm2_headN_le w
  have h1 := norm2_mulVec_le X (headN w)
  have h2 := norm2_augK_le 2 (tailP w)
  have h3 := norm2_tailP_le w
  have hq := Real.sqrt_nonneg (n : ℝ)
  have h4 : ∀ (b : Vec n) (j : Fin 2), norm2 (tailP w j • b) ≤ Real.sqrt n * ‖b‖ * norm2 w := fun b j => by
    rw [norm2_smul, mul_comm]
    exact mul_le_mul (norm2_le_norm b) (ht j) (abs_nonneg _) (by positivity)
  have h5 : Real.sqrt n * ‖X‖ * norm2 (headN w) ≤ Real.sqrt n * ‖X‖ * norm2 w := mul_le_mul_of_nonneg_left hh (by positivity)
  calc _ ≤ _ := norm2_concat_le _ _
    _ ≤ (norm2 (X *ᵥ headN w) + (norm2 (tailP w 0 • b2) + norm2 (tailP w 1 • b1))) + norm2 (augK 2 *ᵥ tailP w) :=
        add_le_add ((norm2_add_le _ _).trans (add_le_add le_rfl (norm2_add_le _ _))) le_rfl
    _ ≤ (Real.sqrt n * ‖X‖ * norm2 w + (Real.sqrt n * ‖b2‖ * norm2 w + Real.sqrt n * ‖b1‖ * norm2 w)) + norm2 w :=
        add_le_add (add_le_add (h1.trans h5) (add_le_add (h4 b2 0) (h4 b1 1))) (h2.trans h3)
    _ = _ := by ring

variable {P : Type} [EmptyCollection P]

theorem bind_of_ok {α β : Type} {x : Py α} {a : α} (h : x = .ok a) (f : α → Py β) : (x >>= f) = f a := by rw [h]; rfl

/-- a substepping evaluation that converges at once -/
theorem substep_once {m : ℕ} (inner : ℝ → Vec m → Vec m × ℕ × Prop) (v : Vec m) (substep : Bool) (h : (inner 1 v).2.2) :
    ∃ q, expmvSubstep inner (1.1 * 1) v substep = .ok q ∧ q.2.2.1 ∧ q.2.2.2 = 1 := by
  unfold expmvSubstep
  split
  · exact ⟨_, rfl, h, rfl⟩
  · have e : min (1.1 * 1 : ℝ) 1 = 1 := by norm_num
    rw [subLoop]
    simp only [e]
    have hb : subBody inner (SubState.mk 1 0 v 0 0 False)
        = SubState.mk (min 1 (1 - (0 + 1))) (0 + 1) (inner 1 v).1 (0 + (inner 1 v).2.1) (max 0 1) (inner 1 v).2.2 := by
      unfold subBody
      simp only
      rw [if_neg (not_not.2 h)]
    rw [hb, if_pos (by norm_num)]
    exact ⟨_, rfl, h, by norm_num⟩

/-- **C116, a step of `epi2_leja_re` returns** when the interval is given by `leja_a ≠ 0`, the step size is small for the problem and
there are enough terms for the tolerance; it is not subdivided. -/
theorem C116_returns_re (o : LejaOpts) (sys : OdeSys n P) (s : ExpLeja n) {t : ℝ} {y : Vec n} (hb : At s.base t y)
    (hsub : s.substepSize = 1) (hm : s.base.method = "epi2_leja_re") (dt : ℝ) (hdt0 : 0 < dt) (hdt1 : dt ≤ 1) (kw : Option P)
    (J : Mat n) (hJ : IsMatrix (sys.fjac (some (kw.getD ∅)) t y).toLinOp J) {B : ℝ} (hJB : ‖J‖ ≤ B)
    (hFB : ‖(sys.fjac (some (kw.getD ∅)) t y).frhsCached‖ ≤ B) (hcB : ‖(sys.fjac (some (kw.getD ∅)) t y).fdt‖ ≤ B) {A θ ρ : ℝ}
    (ho : LejaAccurate o A θ ρ) {a : ℝ} (ha : o.lejaA = some a) (ha0 : a ≠ 0) (hdtA : dt * A ≤ 1 / 4) (hρ : 1 / 4 ≤ ρ)
    (hdtB : Real.sqrt n * (3 * B) * dt ≤ 1 / 4) (hterms : 2000 < o.tol * 2 ^ (o.nLeja - 2)) :
    ∃ r s', ExpLeja.step o sys s dt kw = .ok (r, s') ∧ s'.substepSize = 1 := by
  have hB : 0 ≤ B := (norm_nonneg _).trans hJB
  obtain ⟨op, hop, -, -⟩ := C14_block (sys.fjac (some (kw.getD ∅)) t y).toLinOp J hJ dt
    (augB [0, dt • (sys.fjac (some (kw.getD ∅)) t y).frhsCached, dt ^ 2 • (sys.fjac (some (kw.getD ∅)) t y).fdt])
    (augK ([0, dt • (sys.fjac (some (kw.getD ∅)) t y).frhsCached, dt ^ 2 • (sys.fjac (some (kw.getD ∅)) t y).fdt].length - 1))
  have hbuild : buildATilde3 (sys.fjac (some (kw.getD ∅)) t y).toLinOp dt 0 (dt • (sys.fjac (some (kw.getD ∅)) t y).frhsCached)
      (dt ^ 2 • (sys.fjac (some (kw.getD ∅)) t y).fdt) = .ok (op, concat 0 (lastUnit 2)) := by
    unfold buildATilde3 buildATilde
    rw [if_neg (by simp), hop]
    rfl
  obtain ⟨hopZ, -⟩ := augMatvec3_eq _ J hJ dt _ _ op _ hbuild
  have hconv : (realInner op o (dt * a / 2) |dt * a / 4| 1 (concat 0 (lastUnit 2))).2.2 := by
    have hint := ho.interval
    rw [ha] at hint
    have e1 : |dt * a| = dt * |a| := by rw [abs_mul, abs_of_pos hdt0]
    have hga : dt * |a| ≤ 1 / 4 := (mul_le_mul_of_nonneg_left hint hdt0.le).trans hdtA
    have hsum : |dt * a / 2| + 2 * |(|dt * a / 4|)| = dt * |a| := by
      rw [abs_abs, abs_div, abs_div, e1, abs_of_pos (by norm_num : (0:ℝ) < 2), abs_of_pos (by norm_num : (0:ℝ) < 4)]
      ring
    refine eval_converges op _ hopZ 1 _ (dt * a / 2) |dt * a / 4| (by positivity) (5 / 4) (1 / 4) (by norm_num) (by norm_num) ?_ o.nLeja
      ho.terms o.lejaX _ ?_ θ ho.theta_le (ho.coeffs _ _ (by rw [hsum]; exact hga.trans hρ)) o.tol 1e10
      (ho.tol_le.trans (by norm_num)) 2000 (by norm_num) ?_ (by norm_num) hterms
    · intro v
      rw [one_smul]
      refine (augSpec_norm2 _ _ _ v).trans (mul_le_mul_of_nonneg_right ?_ (norm2_nonneg _))
      rw [norm_smul, norm_smul, norm_smul, Real.norm_of_nonneg hdt0.le, Real.norm_of_nonneg (sq_nonneg dt)]
      have hd2 : dt ^ 2 ≤ dt := by
        calc dt ^ 2 = dt * dt := by ring
          _ ≤ dt * 1 := mul_le_mul_of_nonneg_left hdt1 hdt0.le
          _ = dt := mul_one _
      have h1 := mul_le_mul_of_nonneg_left hJB hdt0.le
      have h2 := mul_le_mul_of_nonneg_left hFB hdt0.le
      have h3 := mul_le_mul hd2 hcB (norm_nonneg _) hdt0.le
      have h4 : Real.sqrt n * (dt * ‖J‖ + dt * ‖(sys.fjac (some (kw.getD ∅)) t y).frhsCached‖
          + dt ^ 2 * ‖(sys.fjac (some (kw.getD ∅)) t y).fdt‖) ≤ Real.sqrt n * (3 * B * dt) :=
        mul_le_mul_of_nonneg_left (by linarith) (Real.sqrt_nonneg _)
      linarith
    · intro i hi
      refine (abs_add_le _ _).trans (le_trans ?_ hga)
      rw [← hsum, abs_mul]
      have := mul_le_mul_of_nonneg_left (ho.points i hi) (abs_nonneg |dt * a / 4|)
      linarith
    · have h1 : Real.exp (4 * (5 / 4) + 5 * (1 / 4)) ≤ Real.exp 7 := Real.exp_le_exp.2 (by norm_num)
      have h2 : Real.exp 7 ≤ 1100 := by
        have e : Real.exp 7 = Real.exp 1 ^ 7 := by rw [← Real.exp_nat_mul]; norm_num
        rw [e]
        calc Real.exp 1 ^ 7 ≤ 2.7182818286 ^ 7 := pow_le_pow_left₀ (Real.exp_pos _).le Real.exp_one_lt_d9.le 7
          _ ≤ 1100 := by norm_num
      linarith
  obtain ⟨q, hq, hqc, hq1⟩ := substep_once (realInner op o (dt * a / 2) |dt * a / 4|) (concat 0 (lastUnit 2)) o.substep hconv
  unfold ExpLeja.step
  simp only
  rw [if_pos hm]
  unfold stepEpiRe
  simp only
  rw [hb.yNew, hb.time, hsub, ha]
  simp only
  have hfin : ∃ r s', lejaFinish s s.bk y (headN q.1) dt q.2.2.1 q.2.2.2 = .ok (r, s') ∧ s'.substepSize = 1 := by
    unfold lejaFinish
    rw [if_neg (not_not.2 hqc)]
    refine ⟨_, _, rfl, ?_⟩
    show 1 / (((min (s.istep + 1) 10 : ℕ) : ℝ)) * q.2.2.2 + ((((min (s.istep + 1) 10 : ℕ) : ℝ)) - 1) / (((min (s.istep + 1) 10 : ℕ) : ℝ))
      * s.substepSize = 1
    have hw : ((min (s.istep + 1) 10 : ℕ) : ℝ) ≠ 0 := by
      have : min (s.istep + 1) 10 ≠ 0 := by omega
      exact_mod_cast this
    rw [hq1, hsub]
    field_simp
    ring
  obtain ⟨r, s', h1, h2⟩ := hfin
  refine ⟨r, s', ?_, h2⟩
  change (buildATilde3 (sys.fjac (some (kw.getD ∅)) t y).toLinOp dt 0 (dt • (sys.fjac (some (kw.getD ∅)) t y).frhsCached)
      (dt ^ 2 • (sys.fjac (some (kw.getD ∅)) t y).fdt) >>= fun z =>
        (expmvSubstep (realInner z.1 o (dt * a / 2) |dt * a / 4|) (1.1 * 1) z.2 o.substep >>= fun q =>
          lejaFinish s s.bk y (headN q.1) dt q.2.2.1 q.2.2.2)) = _
  rw [hbuild]
  change (expmvSubstep (realInner op o (dt * a / 2) |dt * a / 4|) (1.1 * 1) (concat 0 (lastUnit 2)) o.substep >>= fun q =>
          lejaFinish s s.bk y (headN q.1) dt q.2.2.1 q.2.2.2) = _
  exact (bind_of_ok hq _).trans h1

section
open Filter Asymptotics Topology
set_option linter.unusedSectionVars false

/-- The same when the steps are known to return without being subdivided. -/
theorem leja2_run_total (sys : OdeSys n P) (hj : ExactJacs sys) (Y : ℝ → Vec n) (t0 T : ℝ)
    (hY : ∀ t ∈ Set.Icc t0 T, SmoothIVP (sys.frhs none) 4 t Y) :
    ∃ C δ B : ℝ, 0 ≤ C ∧ 0 < δ ∧ δ ≤ 1 ∧ 0 ≤ B ∧ ∀ (o : LejaOpts) (m : String) (dt η : ℝ) (nsteps : ℕ) (s : ExpLeja n), 0 < dt → dt ≤ δ →
      0 ≤ η → η ≤ δ * dt → t0 + nsteps * dt ≤ T → ExpLeja.new t0 (Y t0) m = .ok s →
      (∀ (s : ExpLeja n) (t : ℝ) (y : Vec n) (kw : Option P) (J : Mat n), At s.base t y →
        s.substepSize = 1 → s.base.method = m → IsMatrix (sys.fjac (some (kw.getD ∅)) t y).toLinOp J →
        ‖J‖ ≤ B → ‖(sys.fjac (some (kw.getD ∅)) t y).frhsCached‖ ≤ B → ‖(sys.fjac (some (kw.getD ∅)) t y).fdt‖ ≤ B →
        ∃ r s', ExpLeja.step o sys s dt kw = .ok (r, s') ∧ s'.substepSize = 1 ∧ r.t = t + dt ∧
        ‖r.y - rosEuler J y (sys.fjac (some (kw.getD ∅)) t y).frhsCached (sys.fjac (some (kw.getD ∅)) t y).fdt dt 1‖ ≤ η) →
      ∀ {Q W : Type} (before : Option (W → ℝ → Vec n → P × W)) (after : Option (W → ℝ → Vec n → Q × W)) (w : W),
        ∃ l, integrateOrmatex (lejaStepper o sys) s (Y t0) t0 dt nsteps before after w = .ok l ∧
        RunAccurate l t0 dt nsteps Y (C * (dt ^ 2 + η / dt)) := by
  set f := sys.frhs none with hf
  obtain ⟨hp, -, -, hord⟩ := rbMap_facts (f := f) (m := "exprb2") (p := 2) (by simp [rbOrders])
  obtain ⟨Kd, rd, hKd, hrd, hlip⟩ := dtM_tube (f := f) (Y := Y) (t0 := t0) (T := T) fun t ht => (hY t ht).mono (by omega)
  obtain ⟨B, ρ, hB, hρ, htube⟩ := rb_tube (f := f) (Y := Y) (t0 := t0) (T := T) fun t ht => (hY t ht).mono (by omega)
  have hsm1 : ∀ t ∈ Set.Icc t0 T, ContDiffAt ℝ (2 + 1 : ℕ) (rbMapE "exprb2" f) (0, t, (Y t, (dtM f (t, Y t), 0))) :=
    fun t ht => rbMapE_smooth (m := 2 + 1) (hY t ht).smooth _ "exprb2"
  have hdt : ∀ t ∈ Set.Icc t0 T, ContDiffAt ℝ (2 + 1 : ℕ) (fun s => dtM f (s, Y s)) t := fun t ht => by
    have hYc : ContDiffAt ℝ (2 + 1 : ℕ) Y t := (hY t ht).contDiff.of_le (by norm_cast)
    exact ContDiffAt.comp (g := dtM f) (f := fun s => (s, Y s)) t (dtM_contDiffAt (hY t ht).smooth) (contDiffAt_id.prodMk hYc)
  obtain ⟨C0, δ0, hC0, hδ0, hdef⟩ := uniform_defect (S := rbMapE "exprb2" f) (f := f) (Y := Y) (β := fun t _ => ((dtM f (t, Y t), 0) : Aux n))
    (t0 := t0) (T := T) 2 4 (by omega) hY hsm1
    (fun t ht => (ContDiffAt.comp (g := fun s => dtM f (s, Y s)) (f := fun q : ℝ × ℝ => q.1) (t, 0) (hdt t ht) contDiffAt_fst).prodMk
      contDiffAt_const)
    (fun t h => by
      simp only [rbMapE_zero_err]
      exact hord t Y (h.mono (by omega)))
  set r1 := min rd ρ with hr1
  have hr10 : 0 < r1 := by positivity
  have hr1d : r1 ≤ rd := min_le_left _ _
  have hr1ρ : r1 ≤ ρ := min_le_right _ _
  obtain ⟨C, δ, hC, hδ, hmain⟩ := converge_run (S := rbMapE "exprb2" f) (Y := Y) (a := fun t => ((dtM f (t, Y t), 0) : Aux n)) (t0 := t0) (T := T)
    2 hp (fun t ht => (hsm1 t ht).of_le (by norm_cast)) (fun t x => rbMapE_zero "exprb2" x)
    (fun t ht => (hY t ht).contDiff.continuousAt) (fun t ht => (hdt t ht).continuousAt.prodMk continuousAt_const) Kd C0 r1 hKd hC0 hr10
  set δ' := min (min δ (δ0 / 2)) 1 with hδ'
  have hδ'0 : 0 < δ' := by positivity
  have a1 : δ' ≤ δ := (min_le_left _ _).trans (min_le_left _ _)
  have a2 : δ' ≤ δ0 / 2 := (min_le_left _ _).trans (min_le_right _ _)
  have a3 : δ' ≤ 1 := min_le_right _ _
  refine ⟨C, δ', B, hC, hδ'0, a3, hB, ?_⟩
  intro o m dt η N s hdt0 hdtδ hη hηδ hN hnew hstep Q W before after w
  have hin : ∀ k < N, t0 + (k : ℝ) * dt ∈ Set.Icc t0 T := by
    intro k hk
    have h1 : (k : ℝ) ≤ N := by exact_mod_cast hk.le
    have h2 := mul_le_mul_of_nonneg_right h1 hdt0.le
    have h3 : 0 ≤ (k : ℝ) * dt := by positivity
    constructor <;> linarith
  have hεδ : η / dt ≤ δ := by
    rw [div_le_iff₀ hdt0]
    exact hηδ.trans (mul_le_mul_of_nonneg_right a1 hdt0.le)
  refine hmain dt (η / dt) N (fun k => (dtM f (t0 + k * dt, Y (t0 + k * dt)), 0)) hdt0 (hdtδ.trans a1)
    (by positivity) hεδ hN (by intro k hk; simpa using hδ.le)
    (by
      intro k hk
      have h1 := hdef _ (hin k hk) dt (by rw [abs_of_pos hdt0]; linarith)
      rw [abs_of_pos hdt0] at h1
      have e : t0 + ((k + 1 : ℕ) : ℝ) * dt = t0 + k * dt + dt := by push_cast; ring
      rw [e]; exact h1)
    (lejaStepper o sys) (fun (o : ExpLeja n) k u => At o.base (t0 + k * dt) (u k) ∧ o.base.method = m ∧
      o.substepSize = 1 ∧
      (Nonempty2 o.base ∧ 0 < o.base.yHist.maxlen ∧ o.base.tHist.maxlen = o.base.yHist.maxlen))
    before after s w
    (by
      intro u hu
      obtain ⟨g1, g2, g3, g4⟩ := leja_new_at hnew
      exact ⟨by simpa [hu] using g1, g2, g3, g4⟩)
    ?_
  rintro q k u kw hk - hsmall ⟨g1, g2, g3, g4⟩
  set t := t0 + (k : ℝ) * dt with ht
  have hyk := hsmall k le_rfl
  have hdk := hlip _ (hin k hk) (u k) (hyk.trans_le hr1d)
  obtain ⟨b1, b2, b3, -, -⟩ := htube t (hin k hk) (u k) (dtM f (t, Y t)) 0 0 (hyk.trans_le hr1ρ) (by simpa using hρ) (by simpa using hρ)
    (by simpa using hρ)
  have hget := hj.get (some (kw.getD ∅)) t (u k)
  have hF : (sys.fjac (some (kw.getD ∅)) t (u k)).frhsCached = f t (u k) := hget.1.rhs
  have hc : (sys.fjac (some (kw.getD ∅)) t (u k)).fdt = dtM f (t, u k) := hget.2
  obtain ⟨r, q', hst, s3, e1, e2⟩ := hstep q t (u k) kw (jacM f (t, u k)) g1 g3 g2 hget.1.mat b3 (by rw [hF]; exact b1)
    (by rw [hc]; exact b2)
  rw [hF, hc] at e2
  obtain ⟨s1, -, -, -⟩ := leja_step_sane o sys q (by rw [g3]; norm_num) dt kw (r, q') hst
  simp only at s1
  set z := rosEuler (jacM f (t, u k)) (u k) (f t (u k)) (dtM f (t, u k)) dt 1
  refine ⟨r, q', (dtM f (t, u k), fun _ => dt⁻¹ • (r.y - z)), hst, e1, ?_, ?_, ?_⟩
  · show r.y = z + dt • dt⁻¹ • (r.y - z)
    rw [smul_inv_smul₀ hdt0.ne']
    abel
  · rw [Prod.mk_sub_mk, Prod.norm_mk, sub_zero]
    have h3 := le_maxErr (fun j : ℕ => ‖u j - Y (t0 + j * dt)‖) k k le_rfl
    have h4 := mul_le_mul_of_nonneg_left h3 hKd
    have h6 : 0 ≤ Kd * ‖u k - Y t‖ := by positivity
    have h7 : 0 ≤ η / dt := by positivity
    simp only [← ht] at h4
    refine max_le (by linarith) ?_
    have h8 : ‖(fun _ => dt⁻¹ • (r.y - z) : Fin 3 → Vec n)‖ ≤ η / dt := by
      refine (pi_norm_le_iff_of_nonneg h7).2 fun _ => ?_
      rw [norm_smul, norm_inv, Real.norm_of_nonneg hdt0.le, div_eq_inv_mul]
      exact mul_le_mul_of_nonneg_left e2 (by positivity)
    linarith
  · intro u' hu' hn
    have e : t0 + ((k + 1 : ℕ) : ℝ) * dt = t + dt := by rw [ht]; push_cast; ring
    have g4' : Nonempty2 q'.base ∧ 0 < q'.base.yHist.maxlen ∧ q'.base.tHist.maxlen = q'.base.yHist.maxlen := by rw [s1]; exact g4
    refine ⟨?_, ?_, s3, accept_nonempty g4' _⟩
    · rw [e, hn, ← e1]
      exact at_accept g4'.2 r
    · show q'.base.method = m
      rw [s1]; exact g2

/-- **C116, `epi2_leja_re`, complete.**  For a smooth problem with exact Jacobians and an interval end `leja_a = a ≠ 0` there are constants such
that for every step size `dt ≤ δ`, every tolerance and coefficient error with `tol + θ ≤ δ dt` and enough terms for the tolerance
(`tol 2^(n_leja - 2) > 2000`) the run **returns**, and is accurate to `C (dt^2 + (tol + θ)/dt)` at every output time. -/
theorem C116_complete_re (sys : OdeSys n P) (hj : ExactJacs sys) (Y : ℝ → Vec n) (t0 T : ℝ)
    (hY : ∀ t ∈ Set.Icc t0 T, SmoothIVP (sys.frhs none) 4 t Y) (a : ℝ) (ha0 : a ≠ 0) :
    ∃ C δ ρ : ℝ, 0 ≤ C ∧ 0 < δ ∧ ∀ (o : LejaOpts) (θ dt : ℝ) (nsteps : ℕ) (s : ExpLeja n), LejaAccurate o |a| θ ρ → o.lejaA = some a →
      2000 < o.tol * 2 ^ (o.nLeja - 2) → 0 < dt → dt ≤ δ →
      o.tol + θ ≤ δ * dt → t0 + nsteps * dt ≤ T → ExpLeja.new t0 (Y t0) "epi2_leja_re" = .ok s →
      ∀ {Q W : Type} (before : Option (W → ℝ → Vec n → P × W)) (after : Option (W → ℝ → Vec n → Q × W)) (w : W),
        ∃ l, integrateOrmatex (lejaStepper o sys) s (Y t0) t0 dt nsteps before after w = .ok l ∧
        RunAccurate l t0 dt nsteps Y (C * (dt ^ 2 + (o.tol + θ) / dt)) := by
  obtain ⟨C, δ, B, hC, hδ, hδ1, hB, hmain⟩ := leja2_run_total sys hj Y t0 T hY
  set R := max (1 + 3 * B) (|a| * (1 + Real.sqrt (n + 2 : ℕ) * (1 + 3 * B))) with hR
  have hR1 : 1 + 3 * B ≤ R := le_max_left _ _
  have hR0 : 0 ≤ R := le_trans (by positivity) hR1
  have hH := stepConst_nonneg n hR0
  set H := stepConst n R with hHdef
  set G := 4 * (|a| + Real.sqrt n * (3 * B)) + 1 with hG
  have hG1 : 1 ≤ G := by
    have : 0 ≤ 4 * (|a| + Real.sqrt n * (3 * B)) := by positivity
    linarith
  refine ⟨C * (H + 1), min (δ / (H + 1)) (1 / G), R, by positivity, by positivity, ?_⟩
  intro o θ dt N s ho ha hterms hdt0 hdtδ hsmall hN hnew Q W before after w
  have hd : δ / (H + 1) ≤ δ := div_le_self hδ.le (by linarith)
  have hdt1 : dt ≤ δ := hdtδ.trans ((min_le_left _ _).trans hd)
  have hdtG : dt * G ≤ 1 := by
    have := hdtδ.trans (min_le_right _ _)
    rwa [le_div_iff₀ (by positivity)] at this
  have hs0 : 0 ≤ o.tol + θ := add_nonneg ho.tol_pos.le ho.theta_nonneg
  have hη : H * (o.tol + θ) ≤ δ * dt := by
    have h0 : o.tol + θ ≤ δ / (H + 1) * dt := hsmall.trans (mul_le_mul_of_nonneg_right (min_le_left _ _) hdt0.le)
    have h1 : (H + 1) * (o.tol + θ) ≤ (H + 1) * (δ / (H + 1) * dt) := mul_le_mul_of_nonneg_left h0 (by linarith)
    have h2 : (H + 1) * (δ / (H + 1) * dt) = δ * dt := by field_simp
    linarith
  have hq : 0 ≤ dt * (Real.sqrt n * (3 * B)) := by positivity
  have hq2 : 0 ≤ dt * |a| := by positivity
  have hGe : dt * G = 4 * (dt * |a|) + 4 * (dt * (Real.sqrt n * (3 * B))) + dt := by rw [hG]; ring
  obtain ⟨l, hl, hacc⟩ := hmain o "epi2_leja_re" dt (H * (o.tol + θ)) N s hdt0 hdt1 (mul_nonneg hH hs0) hη hN hnew
    (by
      intro s t y kw J h1 h2 h3 h4 h5 h6 h7
      obtain ⟨r, s', g1, g2⟩ := C116_returns_re o sys s h1 h2 h3 dt hdt0 (hdt1.trans hδ1) kw J h4 h5 h6 h7 ho ha ha0 (by linarith)
        (by linarith) (by linarith) hterms
      obtain ⟨g3, g4⟩ := C116_step_re o sys s h1 (by rw [h2]; norm_num) h3 dt hdt0.le (hdt1.trans hδ1) kw J h4 r s' g1 h5 h6 h7 ho
        le_rfl hR1 (le_max_right _ _)
      exact ⟨r, s', g1, g2, g3, g4⟩) before after w
  refine ⟨l, hl, hacc.1, hacc.2.1, fun i y hi => (hacc.2.2 i y hi).trans ?_⟩
  rw [mul_assoc]
  refine mul_le_mul_of_nonneg_left ?_ hC
  have h1 : 0 ≤ dt ^ 2 := by positivity
  have h2 : 0 ≤ (o.tol + θ) / dt := by positivity
  have h3 := mul_nonneg hH h1
  rw [mul_div_assoc]
  linarith

end
end Ormatex.Props
