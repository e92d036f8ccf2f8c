import Verif.Props.ApproxDemo
import Verif.Props.PhiAcc
import Verif.Props.KrylovCode

/-!
C104, dense methods: the scaling-and-squaring kernel of the package itself is accurate to `O(dt^4)`, so the dense methods run with it
(and not with some ideal kernel) have their full order.
-/

namespace Ormatex.Props
open Filter Asymptotics Topology Matrix Ormatex.Spec
open scoped Classical
open scoped Matrix.Norms.Operator

section
variable {n : ℕ} {P : Type} [EmptyCollection P]

/-- The constant of the dense kernel. -/
noncomputable def denseConst (R : ℝ) : ℝ := (R + 1) ^ 5 * Real.exp (R + 1) / 120

theorem denseConst_nonneg {R : ℝ} (hR : 0 ≤ R) : 0 ≤ denseConst R := by unfold denseConst; positivity

theorem fPhiKSqAll_approx (M : Mat n) {R : ℝ} (hM : ‖M‖ ≤ R) {dt : ℝ} (h0 : 0 < dt) (h1 : dt ≤ 1) {c : ℝ} (c0 : 0 < c) (c1 : c ≤ 1)
    (k : ℕ) (hk : k ≤ 3) : ∃ L, fPhiKSqAll ((c * dt) • M) k = .ok L ∧ L.length = k + 1 ∧
      ∀ j, 1 ≤ j → j ≤ k → dt ^ (j - 1) * ‖L.getD j 0 - phiM j ((c * dt) • M)‖ ≤ denseConst R * dt ^ 4 := by
  obtain ⟨L, h, hl, hacc⟩ := C22_accuracy_all ((c * dt) • M) k hk dt h0.le
  refine ⟨L, h, hl, fun j hj1 hj => ?_⟩
  have hR : 0 ≤ R := (norm_nonneg _).trans hM
  have hz : infNorm ((c * dt) • M) ≤ R * dt := by
    rw [infNorm_eq_norm, norm_smul, Real.norm_of_nonneg (by positivity)]
    calc c * dt * ‖M‖ ≤ 1 * dt * R := by gcongr
      _ = R * dt := by ring
  have hz0 : 0 ≤ infNorm ((c * dt) • M) := by rw [infNorm_eq_norm]; positivity
  have a := hacc j hj
  rw [infNorm_eq_norm (L.getD j 0 - _)] at a
  generalize nScale (infNorm ((c * dt) • M)) = s at a
  generalize infNorm ((c * dt) • M) = z at a hz hz0
  have hzd : z + dt ≤ (R + 1) * dt := by linarith
  have e1 : (z + dt) * Real.exp (z + dt) * ((z + dt) / 2 ^ s) ^ 4 / 120 ≤ dt * (denseConst R * dt ^ 4) := by
    have b1 : (z + dt) / 2 ^ s ≤ (R + 1) * dt := (div_le_self (by positivity) (one_le_pow₀ (by norm_num))).trans hzd
    have b2 : Real.exp (z + dt) ≤ Real.exp (R + 1) := Real.exp_le_exp.2 (by nlinarith)
    calc (z + dt) * Real.exp (z + dt) * ((z + dt) / 2 ^ s) ^ 4 / 120
        ≤ (R + 1) * dt * Real.exp (R + 1) * ((R + 1) * dt) ^ 4 / 120 := by gcongr
      _ = dt * (denseConst R * dt ^ 4) := by unfold denseConst; ring
  obtain ⟨i, rfl⟩ : ∃ i, j = i + 1 := ⟨j - 1, by omega⟩
  have := a.trans e1
  rw [pow_succ', mul_assoc] at this
  exact le_of_mul_le_mul_left this h0

/-- The dense kernel of the package meets the specification of an approximate kernel with `κ = O(dt^4)`. -/
theorem realKernels_sq (expm : ∀ m, Mat m → Mat m) (tab : Pfd) (rs : Mat n → ℝ → Vec n → ℕ → Vec n) (maxDim iom : ℕ)
    {dt R : ℝ} (h0 : 0 < dt) (h1 : dt ≤ 1) : ApproxSq (realKernels n expm tab rs maxDim iom) dt R (denseConst R * dt ^ 4) := by
  intro M hM c c0 c1 k hk
  obtain ⟨L, h, hl, hacc⟩ := fPhiKSqAll_approx M hM h0 h1 c0 c1 k (by omega)
  refine ⟨L, h, hl, fun j h1 hj => ?_⟩
  have := hacc j h1 hj
  obtain rfl | rfl : j = 1 ∨ j = 2 := by omega
  · simpa [stepWeight] using this
  · simpa [stepWeight] using this

theorem realKernels_dense (m : String) (hm : m ∈ ["exprb2_dense", "exp1_dense", "exp2_dense", "exp3_dense"])
    (expm : ∀ m, Mat m → Mat m) (tab : Pfd) (rs : Mat n → ℝ → Vec n → ℕ → Vec n) (maxDim iom : ℕ)
    {dt R : ℝ} (h0 : 0 < dt) (h1 : dt ≤ 1) : ApproxFor m (realKernels n expm tab rs maxDim iom) dt R (denseConst R * dt ^ 4) := by
  simp only [List.mem_cons, List.not_mem_nil, or_false] at hm
  rcases hm with rfl | rfl | rfl | rfl <;>
  exact ⟨fun h => absurd h (by decide), fun h => absurd h (by decide), fun _ => realKernels_sq expm tab rs maxDim iom h0 h1,
    fun h => absurd h (by decide), fun h => absurd h (by decide)⟩

/-- **C104, `exprb2_dense`.**  With the package's own scaling-and-squaring kernel the run is accurate to `C (dt^2 + ε)`
(`ε`: the threshold under which the time derivative is dropped), for every pole table, Krylov dimension and external `expm`. -/
theorem C104_exprb2_dense (hasRust : Bool) (sys : OdeSys n P) (hj : ExactJacs sys) (Y : ℝ → Vec n) (t0 T : ℝ)
    (hY : ∀ t ∈ Set.Icc t0 T, SmoothIVP (sys.frhs none) 4 t Y)
    (expm : ∀ m, Mat m → Mat m) (tab : Pfd) (rs : Mat n → ℝ → Vec n → ℕ → Vec n) (maxDim iom : ℕ) :
    ∃ C δ : ℝ, 0 ≤ C ∧ 0 < δ ∧ ∀ (dt ε tol : ℝ) (nsteps : ℕ) (s : ExpRB n), 0 < dt → dt ≤ δ → 0 ≤ ε → ε ≤ δ →
      t0 + nsteps * dt ≤ T → ExpRB.new hasRust t0 (Y t0) "exprb2_dense" tol = .ok s →
      ((0 ≤ tol ∧ tol ≤ ε) ∨ (∀ kw t y, (sys.fjac kw t y).fdt = 0) ∨ "exprb2_dense" ∈ alwaysCorrected) →
      ∀ {Q W : Type} (before : Option (W → ℝ → Vec n → P × W)) (after : Option (W → ℝ → Vec n → Q × W)) (w : W),
      ∃ l, integrateOrmatex (rbStepper hasRust (realKernels n expm tab rs maxDim iom) sys) s (Y t0) t0 dt nsteps before after w = .ok l ∧
        RunAccurate l t0 dt nsteps Y (C * (dt ^ 2 + ε)) := by
  obtain ⟨C, δ, R, hC, hδ, h⟩ := C103_rosenbrock hasRust sys hj "exprb2_dense" 2 (by simp [rbOrders]) Y t0 T hY
  set D := denseConst (max R 0) with hD
  have hD0 : 0 ≤ D := denseConst_nonneg (le_max_right _ _)
  refine ⟨C * (D + 1), min (min δ 1) (δ / (D + 1)), by positivity, by positivity, ?_⟩
  intro dt ε tol N s h1 h2 h3 h4 h5 h6 h7 Q W before after w
  have hd1 : dt ≤ 1 := h2.trans ((min_le_left _ _).trans (min_le_right _ _))
  have hdδ : dt ≤ δ := h2.trans ((min_le_left _ _).trans (min_le_left _ _))
  have hdD : dt ≤ δ / (D + 1) := h2.trans (min_le_right _ _)
  have h4' : dt ^ 4 ≤ dt := pow_le_of_le_one h1.le hd1 (by norm_num)
  have h42 : dt ^ 4 ≤ dt ^ 2 := pow_le_pow_of_le_one h1.le hd1 (by norm_num)
  have hκ : D * dt ^ 4 ≤ δ := by
    rw [le_div_iff₀ (by positivity)] at hdD
    nlinarith [mul_le_mul_of_nonneg_left h4' hD0]
  have ha : ApproxFor "exprb2_dense" (realKernels n expm tab rs maxDim iom) dt R (D * dt ^ 4) := by
    have := realKernels_dense (n := n) "exprb2_dense" (by simp) expm tab rs maxDim iom (R := max R 0) h1 hd1
    exact ⟨fun h => absurd h (by decide), fun h => absurd h (by decide), fun h M hM => this.sq h M (hM.trans (le_max_left _ _)),
      fun h => absurd h (by decide), fun h => absurd h (by decide)⟩
  obtain ⟨l, hl, hacc⟩ := h _ dt ε (D * dt ^ 4) tol N s h1 hdδ h3 (h4.trans ((min_le_left _ _).trans (min_le_left _ _)))
    (by positivity) hκ ha h5 h6 h7 before after w
  refine ⟨l, hl, hacc.1, hacc.2.1, fun i y hi => (hacc.2.2 i y hi).trans ?_⟩
  rw [mul_assoc]
  refine mul_le_mul_of_nonneg_left ?_ hC
  nlinarith [mul_le_mul_of_nonneg_left h42 hD0, mul_nonneg hD0 h3]

/-- **C104, `exp1_dense`, `exp2_dense`, `exp3_dense`** with the package's own kernel: full order, with no error floor. -/
theorem C104_split_dense (sys : OdeSys n P) (lop : LinOp n) (hl : ∀ t y, sys.fl t y = lop)
    (L : Mat n) (hd : lop.dense = .ok L) (hL : IsMatrix lop L)
    (m : String) (p : ℕ) (hm : (m, p) ∈ splitOrders) (hmd : m ∈ ["exp1_dense", "exp2_dense", "exp3_dense"]) (Y : ℝ → Vec n) (t0 T : ℝ)
    (hY : ∀ t ∈ Set.Icc t0 T, SmoothIVP (sys.frhs none) (p + 1) t Y)
    (expm : ∀ m, Mat m → Mat m) (tab : Pfd) (rs : Mat n → ℝ → Vec n → ℕ → Vec n) (maxDim iom : ℕ) :
    ∃ C δ : ℝ, 0 ≤ C ∧ 0 < δ ∧ ∀ (dt : ℝ) (nsteps : ℕ) (s : ExpSplit n), 0 < dt → dt ≤ δ →
      t0 + nsteps * dt ≤ T → ExpSplit.new t0 (Y t0) m = .ok s →
      ∀ {Q W : Type} (before : Option (W → ℝ → Vec n → P × W)) (after : Option (W → ℝ → Vec n → Q × W)) (w : W),
      ∃ l, integrateOrmatex (splitStepper (realKernels n expm tab rs maxDim iom) sys) s (Y t0) t0 dt nsteps before after w = .ok l ∧
        RunAccurate l t0 dt nsteps Y (C * dt ^ p) := by
  obtain ⟨C, δ, hC, hδ, h⟩ := C103_split sys lop hl L hd hL m p hm Y t0 T hY
  set D := denseConst ‖L‖ with hD
  have hD0 : 0 ≤ D := denseConst_nonneg (norm_nonneg _)
  have hp : p ≤ 4 := by
    simp only [splitOrders, List.mem_cons, List.not_mem_nil, or_false, Prod.mk.injEq] at hm
    omega
  refine ⟨C * (D + 1), min (min δ 1) (δ / (D + 1)), by positivity, by positivity, ?_⟩
  intro dt N s h1 h2 h5 h6 Q W before after w
  have hd1 : dt ≤ 1 := h2.trans ((min_le_left _ _).trans (min_le_right _ _))
  have hdδ : dt ≤ δ := h2.trans ((min_le_left _ _).trans (min_le_left _ _))
  have hdD : dt ≤ δ / (D + 1) := h2.trans (min_le_right _ _)
  have h4' : dt ^ 4 ≤ dt := pow_le_of_le_one h1.le hd1 (by norm_num)
  have h42 : dt ^ 4 ≤ dt ^ p := pow_le_pow_of_le_one h1.le hd1 hp
  have hκ : D * dt ^ 4 ≤ δ := by
    rw [le_div_iff₀ (by positivity)] at hdD
    nlinarith [mul_le_mul_of_nonneg_left h4' hD0]
  have ha : ApproxFor m (realKernels n expm tab rs maxDim iom) dt ‖L‖ (D * dt ^ 4) :=
    realKernels_dense m (by simp only [List.mem_cons] at hmd ⊢; tauto) expm tab rs maxDim iom h1 hd1
  obtain ⟨l, hl, hacc⟩ := h _ dt (D * dt ^ 4) N s h1 hdδ (by positivity) hκ ha h5 h6 before after w
  refine ⟨l, hl, hacc.1, hacc.2.1, fun i y hi => (hacc.2.2 i y hi).trans ?_⟩
  rw [mul_assoc]
  refine mul_le_mul_of_nonneg_left ?_ hC
  nlinarith [mul_le_mul_of_nonneg_left h42 hD0]

/-- On the demonstration system (`t, y1^2`) with the package's dense kernels: `exp3_dense` has order 3. -/
example (expm : ∀ m, Mat m → Mat m) (tab : Pfd) (rs : Mat 2 → ℝ → Vec 2 → ℕ → Vec 2) :
    ∃ C δ : ℝ, 0 ≤ C ∧ 0 < δ ∧ ∀ (dt : ℝ) (nsteps : ℕ) (s : ExpSplit 2), 0 < dt → dt ≤ δ → 0 + nsteps * dt ≤ 1 / 2 →
    ExpSplit.new 0 (demoY 0) "exp3_dense" = .ok s →
    ∃ l, integrateOrmatex (splitStepper (realKernels 2 expm tab rs 100 100) (OdeSys.ofFrhs demoF (fun _ _ => matrixLinOp 1))) s (demoY 0) 0 dt nsteps
        (none : Option (Unit → ℝ → Vec 2 → List ℕ × Unit)) (none : Option (Unit → ℝ → Vec 2 → Unit × Unit)) () = .ok l ∧
      RunAccurate l 0 dt nsteps demoY (C * dt ^ 3) := by
  obtain ⟨C, δ, hC, hδ, h⟩ := C104_split_dense (OdeSys.ofFrhs demoF (fun _ _ => matrixLinOp 1)) (matrixLinOp 1) (fun _ _ => rfl) 1
    (by simp [matrixLinOp]) (fun v => by simp [matrixLinOp]) "exp3_dense" 3 (by simp [splitOrders]) (by simp) demoY 0 (1 / 2)
    (fun t ht => demo_smooth_at _ t (by linarith [ht.2])) expm tab rs 100 100
  exact ⟨C, δ, hC, hδ, fun dt N s h1 h2 h3 h4 => h dt N s h1 h2 h3 h4 none none ()⟩

/-- and `exprb2_dense` has order 2. -/
example (expm : ∀ m, Mat m → Mat m) (tab : Pfd) (rs : Mat 2 → ℝ → Vec 2 → ℕ → Vec 2) :
    ∃ C δ : ℝ, 0 ≤ C ∧ 0 < δ ∧ ∀ (dt : ℝ) (nsteps : ℕ) (s : ExpRB 2), 0 < dt → dt ≤ δ → 0 + nsteps * dt ≤ 1 / 2 →
    ExpRB.new false 0 (demoY 0) "exprb2_dense" 0 = .ok s →
    ∃ l, integrateOrmatex (rbStepper false (realKernels 2 expm tab rs 100 100) (OdeSys.ofFrhs demoF (fun _ _ => matrixLinOp 1))) s (demoY 0) 0 dt nsteps
        (none : Option (Unit → ℝ → Vec 2 → List ℕ × Unit)) (none : Option (Unit → ℝ → Vec 2 → Unit × Unit)) () = .ok l ∧
      RunAccurate l 0 dt nsteps demoY (C * dt ^ 2) := by
  obtain ⟨C, δ, hC, hδ, h⟩ := C104_exprb2_dense false (OdeSys.ofFrhs demoF (fun _ _ => matrixLinOp 1))
    (exactJacs_autodiff demoF (fun _ => rfl) _) demoY 0 (1 / 2)
    (fun t ht => demo_smooth_at _ t (by linarith [ht.2])) expm tab rs 100 100
  refine ⟨C, δ, hC, hδ, fun dt N s h1 h2 h3 h4 => ?_⟩
  have := h dt 0 0 N s h1 h2 le_rfl hδ.le h3 h4 (Or.inl ⟨le_rfl, le_rfl⟩)
    (none : Option (Unit → ℝ → Vec 2 → List ℕ × Unit)) (none : Option (Unit → ℝ → Vec 2 → Unit × Unit)) ()
  rw [add_zero] at this
  exact this

end
end Ormatex.Props
