import Verif.Props.LejaConvIm

/-!
C116 for the conjugate-pair methods: one step.
-/

namespace Ormatex.Props
open Ormatex Ormatex.Spec Matrix
open scoped Classical
open scoped Matrix.Norms.Operator

variable {n : ℕ}

/-- the converged evaluations of a conjugate-pair step are accurate -/
theorem pair_good (o : LejaOpts) {A θ ρ : ℝ} (ho : LejaAccurateIm o A θ ρ) (bk : Option (Vec (n + 2))) (Z : Mat (n + 2)) {dt : ℝ}
    (hdt0 : 0 ≤ dt) (hdt1 : dt ≤ 1) {q : LejaSeq} (h : StepNodes o bk Z dt q) {R R1 : ℝ} (hZ : ‖Z‖ ≤ R1) (hR1 : R1 ≤ R)
    (hR2 : A * (1 + Real.sqrt (n + 2 : ℕ) * R1) ≤ R) (hRρ : R ≤ ρ) (d : ℝ) (w : Vec (n + 2)) (hd0 : 0 < d) (hd1 : d ≤ 1) :
    GoodEval (d • Z) w (evalConst (n + 2) R * (o.tol + θ)) (pairEval o q Z d w) := by
  have hA := ho.nonneg
  have hm : A * (1 + Real.sqrt (n + 2 : ℕ) * ‖Z‖) ≤ R := by
    refine le_trans (mul_le_mul_of_nonneg_left ?_ hA) hR2
    have := mul_le_mul_of_nonneg_left hZ (Real.sqrt_nonneg (n + 2 : ℕ))
    linarith
  obtain ⟨h2, hs, hb, -, x, c, hx, hc, he⟩ := pair_real o ho bk Z hdt0 hdt1 h (hm.trans hRρ)
  rw [he]
  intro hconv
  refine converged_error (matrixLinOp Z) Z (fun _ => rfl) d w q.shift q.scale hs.le R ?_ (o.nZeros + o.nLeja) (by omega) x c ?_ θ
    ho.theta_nonneg ho.theta_le hc o.tol 1e10 ho.tol_pos (ho.tol_le.trans (by norm_num)) hconv
  · rw [norm_smul, Real.norm_of_nonneg hd0.le]
    exact (mul_le_of_le_one_left (norm_nonneg _) hd1).trans (hZ.trans hR1)
  · intro i hi
    refine (abs_add_le _ _).trans (le_trans ?_ (hb.trans hm))
    rw [abs_mul]
    have := mul_le_mul_of_nonneg_left (hx i hi) (abs_nonneg q.scale)
    linarith

variable {P : Type} [EmptyCollection P]

theorem b2_norm {dt B : ℝ} (hdt0 : 0 ≤ dt) (hdt1 : dt ≤ 1) {r c : Vec n} (hr : ‖r‖ ≤ B) (hc : ‖c‖ ≤ B) :
    ‖(dt * (2 / 3)) • r + dt ^ 2 • c‖ ≤ 2 * B * dt := by
  have hd2 : dt ^ 2 ≤ dt := by
    calc dt ^ 2 = dt * dt := by ring
      _ ≤ dt * 1 := mul_le_mul_of_nonneg_left hdt1 hdt0
      _ = dt := mul_one _
  refine (norm_add_le _ _).trans ?_
  rw [norm_smul, norm_smul, Real.norm_of_nonneg (by positivity), Real.norm_of_nonneg (by positivity)]
  have h1 := mul_le_mul hd2 hc (norm_nonneg _) hdt0
  have h2 : dt * (2 / 3) * ‖r‖ ≤ dt * B := mul_le_mul (by linarith) hr (norm_nonneg _) hdt0
  linarith

theorem aug_small {dt B : ℝ} (hdt0 : 0 ≤ dt) (hdt1 : dt ≤ 1) {J : Mat n} {F b : Vec n} (hJ : ‖J‖ ≤ B) (hF : ‖F‖ ≤ B)
    (hb : ‖b‖ ≤ 2 * B * dt) : ‖augSpec (dt • J) (dt • F) b‖ ≤ 1 + 4 * B := by
  have hB : 0 ≤ B := (norm_nonneg _).trans hJ
  refine (augSpec_norm _ _ _).trans ?_
  rw [norm_smul, norm_smul, Real.norm_of_nonneg hdt0]
  have h1 := mul_le_mul hdt1 hJ (norm_nonneg _) zero_le_one
  have h2 := mul_le_mul hdt1 hF (norm_nonneg _) zero_le_one
  have h3 := mul_le_mul_of_nonneg_left hdt1 (by positivity : 0 ≤ 2 * B)
  linarith

theorem step_const_bound {o : LejaOpts} {A θ ρ R : ℝ} (ho : LejaAccurateIm o A θ ρ) (hR : 0 ≤ R) :
    Real.exp R * ((1 + evalConst (n + 2) R * (o.tol + θ)) ^ 1001 - 1) ≤ stepConst n R * (o.tol + θ) := by
  unfold stepConst
  have hK := evalConst_pos (n + 2) hR
  have hs : 0 ≤ o.tol + θ := add_nonneg ho.tol_pos.le ho.theta_nonneg
  have h1 := pow_error_linear hK.le hs (by linarith [ho.tol_le, ho.theta_le]) 1001
  generalize 1001 = N at h1 ⊢
  rw [mul_assoc]
  exact mul_le_mul_of_nonneg_left (h1.trans (le_of_eq (mul_comm _ _))) (Real.exp_pos _).le

/-- **C116, one step of `epi2_leja_im`** (and of `epi3_leja_im` before it has two states). -/
theorem C116_step_im2 (o : LejaOpts) (sys : OdeSys n P) (s : ExpLeja n) {t : ℝ} {y : Vec n} (hb : At s.base t y)
    (hsub : 0 < s.substepSize)
    (hm : s.base.method = "epi2_leja_im" ∨ s.base.method = "epi3_leja_im" ∧ s.base.yHist.len < 2) (dt : ℝ) (hdt0 : 0 ≤ dt)
    (hdt1 : dt ≤ 1) (kw : Option P)
    (J : Mat n) (hJ : IsMatrix (sys.fjac (some (kw.getD ∅)) t y).toLinOp J) (r : StepResult (Vec n)) (s' : ExpLeja n)
    (h : ExpLeja.step o sys s dt kw = .ok (r, s')) {B : ℝ} (hJB : ‖J‖ ≤ B)
    (hFB : ‖(sys.fjac (some (kw.getD ∅)) t y).frhsCached‖ ≤ B) (hcB : ‖(sys.fjac (some (kw.getD ∅)) t y).fdt‖ ≤ B) {A θ ρ : ℝ}
    (ho : LejaAccurateIm o A θ ρ) {R : ℝ} (hRρ : R ≤ ρ) (hR1 : 1 + 4 * B ≤ R) (hR2 : A * (1 + Real.sqrt (n + 2 : ℕ) * (1 + 4 * B)) ≤ R) :
    r.t = t + dt ∧
    ‖r.y - rosEuler J y (sys.fjac (some (kw.getD ∅)) t y).frhsCached (sys.fjac (some (kw.getD ∅)) t y).fdt dt 1‖
      ≤ stepConst n R * (o.tol + θ) := by
  have hB : 0 ≤ B := (norm_nonneg _).trans hJB
  have hR : 0 ≤ R := by linarith
  obtain ⟨ht, q, hq, hmain⟩ := C97_im2 o sys s hb hsub hm dt kw J hJ r s' h
  have hb2 : ‖dt ^ 2 • (sys.fjac (some (kw.getD ∅)) t y).fdt‖ ≤ 2 * B * dt := by
    have := b2_norm (r := (0 : Vec n)) hdt0 hdt1 (by rw [norm_zero]; exact hB) hcB
    simpa using this
  have hZ := aug_small hdt0 hdt1 hJB hFB hb2
  have hK := evalConst_pos (n + 2) hR
  have hs : 0 ≤ o.tol + θ := add_nonneg ho.tol_pos.le ho.theta_nonneg
  refine ⟨ht, (hmain (evalConst (n + 2) R * (o.tol + θ)) R (mul_nonneg hK.le hs) hR (exp_smul_bound _ (hZ.trans hR1)) ?_).trans
    (step_const_bound ho hR)⟩
  intro d w hd0 hd1
  exact pair_good o ho s.bk _ hdt0 hdt1 hq hZ hR1 hR2 hRρ d w hd0 hd1

/-- **C116, one step of `epi3_leja_im`** with two states in its history. -/
theorem C116_step_im3 (o : LejaOpts) (sys : OdeSys n P) (s : ExpLeja n) {t : ℝ} {y : Vec n} (hb : At s.base t y)
    (hsub : 0 < s.substepSize) (hm : s.base.method = "epi3_leja_im") (hl : 2 ≤ s.base.yHist.len) (tp : ℝ) (yp : Vec n)
    (htp : s.base.tHist.get 1 = .ok tp) (hyp : s.base.yHist.get 1 = .ok yp) (dt : ℝ) (hdt0 : 0 ≤ dt)
    (hdt1 : dt ≤ 1) (kw : Option P)
    (J : Mat n) (hJ : IsMatrix (sys.fjac (some (kw.getD ∅)) t y).toLinOp J) (r : StepResult (Vec n)) (s' : ExpLeja n)
    (h : ExpLeja.step o sys s dt kw = .ok (r, s')) {B : ℝ} (hJB : ‖J‖ ≤ B)
    (hFB : ‖(sys.fjac (some (kw.getD ∅)) t y).frhsCached‖ ≤ B) (hcB : ‖(sys.fjac (some (kw.getD ∅)) t y).fdt‖ ≤ B)
    (hrB : ‖sys.frhs none tp yp - (sys.fjac (some (kw.getD ∅)) t y).frhsCached - J *ᵥ (yp - y)
      - (tp - t) • (sys.fjac (some (kw.getD ∅)) t y).fdt‖ ≤ B) {A θ ρ : ℝ}
    (ho : LejaAccurateIm o A θ ρ) {R : ℝ} (hRρ : R ≤ ρ) (hR1 : 1 + 4 * B ≤ R) (hR2 : A * (1 + Real.sqrt (n + 2 : ℕ) * (1 + 4 * B)) ≤ R) :
    r.t = t + dt ∧
    ‖r.y - (rosEuler J y (sys.fjac (some (kw.getD ∅)) t y).frhsCached (sys.fjac (some (kw.getD ∅)) t y).fdt dt 1
      + (dt * (2 / 3)) • (phiM 2 (dt • J) *ᵥ (sys.frhs none tp yp - (sys.fjac (some (kw.getD ∅)) t y).frhsCached - J *ᵥ (yp - y)
      - (tp - t) • (sys.fjac (some (kw.getD ∅)) t y).fdt)))‖ ≤ stepConst n R * (o.tol + θ) := by
  have hB : 0 ≤ B := (norm_nonneg _).trans hJB
  have hR : 0 ≤ R := by linarith
  obtain ⟨ht, q, hq, hmain⟩ := C97_im3 o sys s hb hsub hm hl tp yp htp hyp dt kw J hJ r s' h
  have hb2 := b2_norm hdt0 hdt1 hrB hcB
  have hZ := aug_small hdt0 hdt1 hJB hFB hb2
  have hK := evalConst_pos (n + 2) hR
  have hs : 0 ≤ o.tol + θ := add_nonneg ho.tol_pos.le ho.theta_nonneg
  refine ⟨ht, (hmain (evalConst (n + 2) R * (o.tol + θ)) R (mul_nonneg hK.le hs) hR (exp_smul_bound _ (hZ.trans hR1)) ?_).trans
    (step_const_bound ho hR)⟩
  intro d w hd0 hd1
  exact pair_good o ho s.bk _ hdt0 hdt1 hq hZ hR1 hR2 hRρ d w hd0 hd1

/-! ### the steps return -/

/-- the points are generated when the interval is not a point -/
theorem gen_ok (N : ℕ) (hN : 2 ≤ N) (a : ℝ) (ha : a < 0) : ∃ q, genLejaConjugate N a 0 0 = .ok q := by
  unfold genLejaConjugate
  simp only
  have hs : ((0 - a) / 2 + 0) / 2 = -a / 4 := by ring
  have hsc : 0 < -a / 4 := by linarith
  have hh1 : (0 - a) / 2 / (-a / 4) = 2 := by
    have : a ≠ 0 := ha.ne
    field_simp
    ring
  rw [hs, if_neg hsc.ne', hh1, zero_div, if_neg (by norm_num), if_pos (by norm_num), if_neg (by omega)]
  exact ⟨_, rfl⟩

theorem leja_finish_one {s : ExpLeja n} (hsub : s.substepSize = 1) (bk : Option (Vec (n + 2))) (y w : Vec n) (dt : ℝ) {conv : Prop}
    (hc : conv) {τ : ℝ} (hτ : τ = 1) : ∃ r s', lejaFinish s bk y w dt conv τ = .ok (r, s') ∧ s'.substepSize = 1 := by
  unfold lejaFinish
  rw [if_neg (not_not.2 hc)]
  refine ⟨_, _, rfl, ?_⟩
  show 1 / (((min (s.istep + 1) 10 : ℕ) : ℝ)) * τ + ((((min (s.istep + 1) 10 : ℕ) : ℝ)) - 1) / (((min (s.istep + 1) 10 : ℕ) : ℝ))
    * s.substepSize = 1
  have hw : ((min (s.istep + 1) 10 : ℕ) : ℝ) ≠ 0 := by
    have : min (s.istep + 1) 10 ≠ 0 := by omega
    exact_mod_cast this
  rw [hτ, hsub]
  field_simp
  ring

/-- **C116, the steps of the conjugate-pair methods return** when the interval is given by `leja_a < 0`, the step size is small for
the problem and there are enough terms for the tolerance. -/
theorem C116_returns_im (o : LejaOpts) (sys : OdeSys n P) (s : ExpLeja n) {t : ℝ} {y : Vec n} (hb : At s.base t y)
    (hsub : s.substepSize = 1) (dt : ℝ) (hdt0 : 0 < dt) (hdt1 : dt ≤ 1) (kw : P) (third : Bool) (tp : ℝ) (yp : Vec n)
    (hp : third = true → s.base.tHist.get 1 = .ok tp ∧ s.base.yHist.get 1 = .ok yp)
    (J : Mat n) (hJ : IsMatrix (sys.fjac (some kw) t y).toLinOp J) {B : ℝ} (hJB : ‖J‖ ≤ B)
    (hFB : ‖(sys.fjac (some kw) t y).frhsCached‖ ≤ B) (hcB : ‖(sys.fjac (some kw) t y).fdt‖ ≤ B)
    (hrB : third = true → ‖sys.frhs none tp yp - (sys.fjac (some kw) t y).frhsCached - J *ᵥ (yp - y)
      - (tp - t) • (sys.fjac (some kw) t y).fdt‖ ≤ B) {A θ ρ : ℝ}
    (ho : LejaAccurateIm o A θ ρ) {a : ℝ} (ha : o.lejaA = some a) (ha0 : a < 0) (hdtA : dt * A ≤ 1 / 4)
    (hρ : A * (1 + Real.sqrt (n + 2 : ℕ) * (1 + 4 * B)) ≤ ρ)
    (hdtB : Real.sqrt n * (4 * B) * dt ≤ 1 / 4) (hN : 2 ≤ o.nLeja) (hterms : 2000 < o.tol * 2 ^ (o.nZeros + o.nLeja - 2)) :
    ∃ r s', stepEpiIm o sys s dt kw third = .ok (r, s') ∧ s'.substepSize = 1 := by
  have hB : 0 ≤ B := (norm_nonneg _).trans hJB
  have hA := ho.nonneg
  set F := (sys.fjac (some kw) t y).frhsCached with hF
  set c := (sys.fjac (some kw) t y).fdt with hc
  have hmain : ∀ b : Vec n, ‖b‖ ≤ 2 * B * dt → ∃ r s',
      (buildATilde3 (sys.fjac (some kw) t y).toLinOp dt 0 (dt • F) b >>= fun p =>
        genLejaConjugate o.nLeja (a * dt) 0 0 >>= fun q =>
          expmvSubstep (complexInner p.1 o q) (1.1 * s.substepSize) p.2 o.substep >>= fun q =>
          lejaFinish s s.bk y (headN q.1) dt q.2.2.1 q.2.2.2) = .ok (r, s') ∧ s'.substepSize = 1 := by
    intro b hb2
    obtain ⟨op, hop, -, -⟩ := C14_block (sys.fjac (some kw) t y).toLinOp J hJ dt (augB [0, dt • F, b]) (augK ([0, dt • F, b].length - 1))
    have hbuild : buildATilde3 (sys.fjac (some kw) t y).toLinOp dt 0 (dt • F) b = .ok (op, concat 0 (lastUnit 2)) := by
      unfold buildATilde3 buildATilde
      rw [if_neg (by simp), hop]
      rfl
    obtain ⟨hopZ, -⟩ := augMatvec3_eq _ J hJ dt _ _ op _ hbuild
    set Z := augSpec (dt • J) (dt • F) b with hZd
    have hZ : ‖Z‖ ≤ 1 + 4 * B := aug_small hdt0.le hdt1 hJB hFB hb2
    obtain ⟨q, hq⟩ := gen_ok o.nLeja hN (a * dt) (mul_neg_of_neg_of_pos ha0 hdt0)
    have hnodes : StepNodes o s.bk Z dt q := ⟨a * dt, by rw [ho.real]; exact hq, by rw [ha]⟩
    have hm : A * (1 + Real.sqrt (n + 2 : ℕ) * ‖Z‖) ≤ ρ := by
      refine le_trans (mul_le_mul_of_nonneg_left ?_ hA) hρ
      have := mul_le_mul_of_nonneg_left hZ (Real.sqrt_nonneg (n + 2 : ℕ))
      linarith
    obtain ⟨-, hs, -, hbd, x, cf, hx, hcf, he⟩ := pair_real o ho s.bk Z hdt0.le hdt1 hnodes hm
    have hint := ho.interval
    rw [ha] at hint
    have hga : |q.shift| + 2 * |q.scale| ≤ 1 / 4 := by
      refine (hbd a ha).trans (le_trans ?_ hdtA)
      exact mul_le_mul_of_nonneg_left (abs_le.2 ⟨hint.1, hint.2.trans hA⟩) hdt0.le
    have hconv : (complexInner op o q 1 (concat 0 (lastUnit 2))).2.2 := by
      have e : complexInner op o q 1 (concat 0 (lastUnit 2)) = ((pairEval o q Z 1 (concat 0 (lastUnit 2))).pm,
          (pairEval o q Z 1 (concat 0 (lastUnit 2))).i, (pairEval o q Z 1 (concat 0 (lastUnit 2))).conv) := by
        unfold complexInner pairEval
        simp only
        rw [complexLeja_congr hopZ (fun _ => rfl : IsMatrix (matrixLinOp Z) Z)]
      rw [e, he]
      refine eval_converges (matrixLinOp Z) Z (fun _ => rfl) 1 _ q.shift q.scale hs (5 / 4) (1 / 4) (by norm_num) (by norm_num) ?_
        (o.nZeros + o.nLeja) (by omega) x cf ?_ θ ho.theta_le hcf o.tol 1e10
        (ho.tol_le.trans (by norm_num)) 2000 (by norm_num) ?_ (by norm_num) hterms
      · intro v
        rw [one_smul]
        refine (augSpec_norm2 _ _ _ v).trans (mul_le_mul_of_nonneg_right ?_ (norm2_nonneg _))
        rw [norm_smul, norm_smul, Real.norm_of_nonneg hdt0.le]
        have h1 := mul_le_mul_of_nonneg_left hJB hdt0.le
        have h2 := mul_le_mul_of_nonneg_left hFB hdt0.le
        have h4 : Real.sqrt n * (dt * ‖J‖ + dt * ‖F‖ + ‖b‖) ≤ Real.sqrt n * (4 * B * dt) :=
          mul_le_mul_of_nonneg_left (by linarith) (Real.sqrt_nonneg _)
        linarith
      · intro i hi
        refine (abs_add_le _ _).trans (le_trans ?_ hga)
        rw [abs_mul]
        have := mul_le_mul_of_nonneg_left (hx i hi) (abs_nonneg q.scale)
        linarith
      · have h1 : Real.exp (4 * (5 / 4) + 5 * (1 / 4)) ≤ Real.exp 7 := Real.exp_le_exp.2 (by norm_num)
        have h2 : Real.exp 7 ≤ 1100 := by
          have e : Real.exp 7 = Real.exp 1 ^ 7 := by rw [← Real.exp_nat_mul]; norm_num
          rw [e]
          calc Real.exp 1 ^ 7 ≤ 2.7182818286 ^ 7 := pow_le_pow_left₀ (Real.exp_pos _).le Real.exp_one_lt_d9.le 7
            _ ≤ 1100 := by norm_num
        linarith
    obtain ⟨z, hz, hzc, hz1⟩ := substep_once (complexInner op o q) (concat 0 (lastUnit 2)) o.substep hconv
    obtain ⟨r, s', h1, h2⟩ := leja_finish_one hsub s.bk y (headN z.1) dt hzc hz1
    refine ⟨r, s', ?_, h2⟩
    refine (bind_of_ok hbuild _).trans ((bind_of_ok hq _).trans ?_)
    rw [hsub]
    exact (bind_of_ok hz _).trans h1
  unfold stepEpiIm
  simp only
  rw [hb.yNew, hb.time, ha, ho.real]
  cases third with
  | false =>
    have hb2 : ‖dt ^ 2 • c‖ ≤ 2 * B * dt := by
      have := b2_norm (r := (0 : Vec n)) hdt0.le hdt1 (by rw [norm_zero]; exact hB) hcB
      simpa using this
    exact hmain _ hb2
  | true =>
    obtain ⟨htp, hyp⟩ := hp rfl
    simp only [if_true]
    rw [hyp, htp]
    have hr : remf sys s.base tp yp F (sys.fjac (some kw) t y).toLinOp c = _ := remf_closed sys hb _ _ _ _ J hJ c
    obtain ⟨r, s', h1, h2⟩ := hmain _ (b2_norm hdt0.le hdt1 (hrB rfl) hcB)
    refine ⟨r, s', ?_, h2⟩
    rw [← h1]
    change (remf sys s.base tp yp F (sys.fjac (some kw) t y).toLinOp c >>= fun rn => _) = _
    rw [hr]
    rfl

end Ormatex.Props
