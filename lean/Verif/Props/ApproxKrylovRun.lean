import Verif.Props.ApproxKrylov

/-!
C105: runs of the Krylov methods with the package's own `phi_linop` (Arnoldi, extended matrix, scaling and squaring).
-/

namespace Ormatex.Props
open Filter Asymptotics Topology Matrix Ormatex.Spec
open scoped Classical
open scoped Matrix.Norms.Operator

section
variable {n : ℕ} {P : Type} [EmptyCollection P]

theorem realKernels_krylov (m : String) (p : ℕ)
    (hm : (m, p) ∈ [("exprb2", 2), ("exprb3", 3), ("exp1", 1), ("exp2", 2), ("exp3", 3)])
    (expm : ∀ m, Mat m → Mat m) (tab : Pfd) (rs : Mat n → ℝ → Vec n → ℕ → Vec n) (maxDim iom : ℕ) (hpm : p ≤ maxDim)
    (hiom : min n maxDim ≤ iom + 1) {dt R R' : ℝ} (h0 : 0 < dt) (h1 : dt ≤ 1) (hR' : 0 ≤ R') (hRR : R ≤ R') (hsmall : Real.sqrt n * R' * dt ≤ 1) :
    ApproxFor m (realKernels n expm tab rs maxDim iom) dt R (krylovConst n R' * (dt ^ p + min 1e-12 dt)) := by
  have up : ∀ {κ kmax}, ApproxLinop (realKernels n expm tab rs maxDim iom) dt R' κ kmax →
      ApproxLinop (realKernels n expm tab rs maxDim iom) dt R κ kmax := fun h A M hA hM => h A M hA (hM.trans hRR)
  simp only [List.mem_cons, List.not_mem_nil, or_false, Prod.mk.injEq] at hm
  rcases hm with ⟨rfl, rfl⟩ | ⟨rfl, rfl⟩ | ⟨rfl, rfl⟩ | ⟨rfl, rfl⟩ | ⟨rfl, rfl⟩
  · exact ⟨fun _ => up (realKernels_linop expm tab rs maxDim iom h0 h1 hR' hsmall 2 2 (by omega) hpm hiom (by omega) (by omega) (by omega)),
      fun h => absurd h (by decide), fun h => absurd h (by decide), fun h => absurd h (by decide), fun h => absurd h (by decide)⟩
  · exact ⟨fun _ => up (realKernels_linop expm tab rs maxDim iom h0 h1 hR' hsmall 3 3 (by omega) hpm hiom (by omega) (by omega) (by omega)),
      fun h => absurd h (by decide), fun h => absurd h (by decide), fun h => absurd h (by decide), fun h => absurd h (by decide)⟩
  · exact ⟨fun _ => up (realKernels_linop expm tab rs maxDim iom h0 h1 hR' hsmall 1 2 (by omega) hpm hiom (by omega) (by omega) (by omega)),
      fun h => absurd h (by decide), fun h => absurd h (by decide), fun h => absurd h (by decide), fun h => absurd h (by decide)⟩
  · exact ⟨fun _ => up (realKernels_linop expm tab rs maxDim iom h0 h1 hR' hsmall 2 2 (by omega) hpm hiom (by omega) (by omega) (by omega)),
      fun h => absurd h (by decide), fun h => absurd h (by decide), fun h => absurd h (by decide), fun h => absurd h (by decide)⟩
  · exact ⟨fun _ => up (realKernels_linop expm tab rs maxDim iom h0 h1 hR' hsmall 3 2 (by omega) hpm hiom (by omega) (by omega) (by omega)),
      fun h => absurd h (by decide), fun h => absurd h (by decide), fun h => absurd h (by decide), fun h => absurd h (by decide)⟩

/-- **C105, Rosenbrock methods.**  `integrate` with `exprb2` or `exprb3` and the package's own Krylov kernel: for every smooth system
there are `C` and `δ` such that for every Krylov dimension at least `p` (with full orthogonalisation), every step `dt ≤ δ` and number of
steps, every output is within `C (dt^p + ε + min(1e-12, dt))` of the solution; `1e-12` is the breakdown tolerance of the Arnoldi process. -/
theorem C105_rosenbrock (hasRust : Bool) (sys : OdeSys n P) (hj : ExactJacs sys)
    (m : String) (p : ℕ) (hm : (m, p) ∈ [("exprb2", 2), ("exprb3", 3)]) (Y : ℝ → Vec n) (t0 T : ℝ)
    (hY : ∀ t ∈ Set.Icc t0 T, SmoothIVP (sys.frhs none) (p + 2) t Y) :
    ∃ C δ : ℝ, 0 ≤ C ∧ 0 < δ ∧ ∀ (expm : ∀ m, Mat m → Mat m) (tab : Pfd) (rs : Mat n → ℝ → Vec n → ℕ → Vec n) (maxDim iom : ℕ)
      (dt ε tol : ℝ) (nsteps : ℕ) (s : ExpRB n), p ≤ maxDim → min n maxDim ≤ iom + 1 → 0 < dt → dt ≤ δ → 0 ≤ ε → ε ≤ δ →
      t0 + nsteps * dt ≤ T → ExpRB.new hasRust t0 (Y t0) m tol = .ok s →
      ((0 ≤ tol ∧ tol ≤ ε) ∨ (∀ kw t y, (sys.fjac kw t y).fdt = 0) ∨ m ∈ alwaysCorrected) →
      ∀ {Q W : Type} (before : Option (W → ℝ → Vec n → P × W)) (after : Option (W → ℝ → Vec n → Q × W)) (w : W),
      ∃ l, integrateOrmatex (rbStepper hasRust (realKernels n expm tab rs maxDim iom) sys) s (Y t0) t0 dt nsteps before after w = .ok l ∧
        RunAccurate l t0 dt nsteps Y (C * (dt ^ p + ε + min 1e-12 dt)) := by
  have hm' : (m, p) ∈ rbOrders := by
    simp only [List.mem_cons, List.not_mem_nil, or_false, Prod.mk.injEq] at hm
    rcases hm with ⟨rfl, rfl⟩ | ⟨rfl, rfl⟩ <;> simp [rbOrders]
  have hm2 : (m, p) ∈ [("exprb2", 2), ("exprb3", 3), ("exp1", 1), ("exp2", 2), ("exp3", 3)] := by
    simp only [List.mem_cons] at hm ⊢; tauto
  have hp1 : 1 ≤ p := by
    simp only [List.mem_cons, List.not_mem_nil, or_false, Prod.mk.injEq] at hm
    omega
  obtain ⟨C, δ, R, hC, hδ, h⟩ := C103_rosenbrock hasRust sys hj m p hm' Y t0 T hY
  set R' := max R 0 with hR'
  have hR0 : 0 ≤ R' := le_max_right _ _
  set D := krylovConst n R' with hD
  have hD0 : 0 ≤ D := krylovConst_nonneg hR0
  set S := Real.sqrt n * R' with hS
  have hS0 : 0 ≤ S := by positivity
  refine ⟨C * (D + 1), min (min δ 1) (min (δ / (2 * D + 1)) (1 / (S + 1))), by positivity, by positivity, ?_⟩
  intro expm tab rs maxDim iom dt ε tol N s hpm hiom h1 h2 h3 h4 h5 h6 h7 Q W before after w
  have hd1 : dt ≤ 1 := h2.trans ((min_le_left _ _).trans (min_le_right _ _))
  have hdδ : dt ≤ δ := h2.trans ((min_le_left _ _).trans (min_le_left _ _))
  have hdD : dt ≤ δ / (2 * D + 1) := h2.trans ((min_le_right _ _).trans (min_le_left _ _))
  have hdS : dt ≤ 1 / (S + 1) := h2.trans ((min_le_right _ _).trans (min_le_right _ _))
  have hsm : S * dt ≤ 1 := by
    rw [le_div_iff₀ (by positivity)] at hdS
    nlinarith
  have hmin0 : 0 ≤ min (1e-12 : ℝ) dt := le_min (by norm_num) h1.le
  have hmin1 : min (1e-12 : ℝ) dt ≤ dt := min_le_right _ _
  have hpd : dt ^ p ≤ dt := pow_le_of_le_one h1.le hd1 (by omega)
  have hp0 : 0 ≤ dt ^ p := by positivity
  have hκ : D * (dt ^ p + min 1e-12 dt) ≤ δ := by
    rw [le_div_iff₀ (by positivity)] at hdD
    nlinarith [mul_le_mul_of_nonneg_left (add_le_add hpd hmin1) hD0]
  obtain ⟨l, hl, hacc⟩ := h _ dt ε (D * (dt ^ p + min 1e-12 dt)) tol N s h1 hdδ h3 (h4.trans ((min_le_left _ _).trans (min_le_left _ _)))
    (by positivity) hκ (realKernels_krylov m p hm2 expm tab rs maxDim iom hpm hiom h1 hd1 hR0 (le_max_left _ _) hsm) h5 h6 h7 before after w
  refine ⟨l, hl, hacc.1, hacc.2.1, fun i y hi => (hacc.2.2 i y hi).trans ?_⟩
  rw [mul_assoc]
  refine mul_le_mul_of_nonneg_left ?_ hC
  nlinarith [mul_nonneg hD0 h3]

/-- **C105, splitting methods** `exp1`, `exp2`, `exp3` with the package's own Krylov kernel. -/
theorem C105_split (sys : OdeSys n P) (lop : LinOp n) (hl : ∀ t y, sys.fl t y = lop)
    (L : Mat n) (hd : lop.dense = .ok L) (hL : IsMatrix lop L)
    (m : String) (p : ℕ) (hm : (m, p) ∈ [("exp1", 1), ("exp2", 2), ("exp3", 3)]) (Y : ℝ → Vec n) (t0 T : ℝ)
    (hY : ∀ t ∈ Set.Icc t0 T, SmoothIVP (sys.frhs none) (p + 1) t Y) :
    ∃ C δ : ℝ, 0 ≤ C ∧ 0 < δ ∧ ∀ (expm : ∀ m, Mat m → Mat m) (tab : Pfd) (rs : Mat n → ℝ → Vec n → ℕ → Vec n) (maxDim iom : ℕ)
      (dt : ℝ) (nsteps : ℕ) (s : ExpSplit n), p ≤ maxDim → min n maxDim ≤ iom + 1 → 0 < dt → dt ≤ δ →
      t0 + nsteps * dt ≤ T → ExpSplit.new t0 (Y t0) m = .ok s →
      ∀ {Q W : Type} (before : Option (W → ℝ → Vec n → P × W)) (after : Option (W → ℝ → Vec n → Q × W)) (w : W),
      ∃ l, integrateOrmatex (splitStepper (realKernels n expm tab rs maxDim iom) sys) s (Y t0) t0 dt nsteps before after w = .ok l ∧
        RunAccurate l t0 dt nsteps Y (C * (dt ^ p + min 1e-12 dt)) := by
  have hm' : (m, p) ∈ splitOrders := by
    simp only [List.mem_cons, List.not_mem_nil, or_false, Prod.mk.injEq] at hm
    rcases hm with ⟨rfl, rfl⟩ | ⟨rfl, rfl⟩ | ⟨rfl, rfl⟩ <;> simp [splitOrders]
  have hm2 : (m, p) ∈ [("exprb2", 2), ("exprb3", 3), ("exp1", 1), ("exp2", 2), ("exp3", 3)] := by
    simp only [List.mem_cons] at hm ⊢; tauto
  have hp1 : 1 ≤ p := by
    simp only [List.mem_cons, List.not_mem_nil, or_false, Prod.mk.injEq] at hm
    omega
  obtain ⟨C, δ, hC, hδ, h⟩ := C103_split sys lop hl L hd hL m p hm' Y t0 T hY
  have hR0 : 0 ≤ ‖L‖ := norm_nonneg _
  set D := krylovConst n ‖L‖ with hD
  have hD0 : 0 ≤ D := krylovConst_nonneg hR0
  set S := Real.sqrt n * ‖L‖ with hS
  have hS0 : 0 ≤ S := by positivity
  refine ⟨C * (D + 1), min (min δ 1) (min (δ / (2 * D + 1)) (1 / (S + 1))), by positivity, by positivity, ?_⟩
  intro expm tab rs maxDim iom dt N s hpm hiom h1 h2 h5 h6 Q W before after w
  have hd1 : dt ≤ 1 := h2.trans ((min_le_left _ _).trans (min_le_right _ _))
  have hdδ : dt ≤ δ := h2.trans ((min_le_left _ _).trans (min_le_left _ _))
  have hdD : dt ≤ δ / (2 * D + 1) := h2.trans ((min_le_right _ _).trans (min_le_left _ _))
  have hdS : dt ≤ 1 / (S + 1) := h2.trans ((min_le_right _ _).trans (min_le_right _ _))
  have hsm : S * dt ≤ 1 := by
    rw [le_div_iff₀ (by positivity)] at hdS
    nlinarith
  have hmin0 : 0 ≤ min (1e-12 : ℝ) dt := le_min (by norm_num) h1.le
  have hmin1 : min (1e-12 : ℝ) dt ≤ dt := min_le_right _ _
  have hpd : dt ^ p ≤ dt := pow_le_of_le_one h1.le hd1 (by omega)
  have hp0 : 0 ≤ dt ^ p := by positivity
  have hκ : D * (dt ^ p + min 1e-12 dt) ≤ δ := by
    rw [le_div_iff₀ (by positivity)] at hdD
    nlinarith [mul_le_mul_of_nonneg_left (add_le_add hpd hmin1) hD0]
  obtain ⟨l, hl, hacc⟩ := h _ dt (D * (dt ^ p + min 1e-12 dt)) N s h1 hdδ (by positivity) hκ
    (realKernels_krylov m p hm2 expm tab rs maxDim iom hpm hiom h1 hd1 hR0 le_rfl hsm) h5 h6 before after w
  refine ⟨l, hl, hacc.1, hacc.2.1, fun i y hi => (hacc.2.2 i y hi).trans ?_⟩
  rw [mul_assoc]
  refine mul_le_mul_of_nonneg_left ?_ hC
  nlinarith

/-- `exprb3` with the default Krylov dimension 100 on the demonstration system. -/
example (expm : ∀ m, Mat m → Mat m) (tab : Pfd) (rs : Mat 2 → ℝ → Vec 2 → ℕ → Vec 2) :
    ∃ C δ : ℝ, 0 ≤ C ∧ 0 < δ ∧ ∀ (dt : ℝ) (nsteps : ℕ) (s : ExpRB 2), 0 < dt → dt ≤ δ → 0 + nsteps * dt ≤ 1 / 2 →
    ExpRB.new false 0 (demoY 0) "exprb3" 0 = .ok s →
    ∃ l, integrateOrmatex (rbStepper false (realKernels 2 expm tab rs 100 100) (OdeSys.ofFrhs demoF (fun _ _ => matrixLinOp 1))) s (demoY 0) 0 dt nsteps
        (none : Option (Unit → ℝ → Vec 2 → List ℕ × Unit)) (none : Option (Unit → ℝ → Vec 2 → Unit × Unit)) () = .ok l ∧
      RunAccurate l 0 dt nsteps demoY (C * (dt ^ 3 + min 1e-12 dt)) := by
  obtain ⟨C, δ, hC, hδ, h⟩ := C105_rosenbrock false (OdeSys.ofFrhs demoF (fun _ _ => matrixLinOp 1))
    (exactJacs_autodiff demoF (fun _ => rfl) _) "exprb3" 3 (by simp) demoY 0 (1 / 2)
    (fun t ht => demo_smooth_at _ t (by linarith [ht.2]))
  refine ⟨C, δ, hC, hδ, fun dt N s h1 h2 h3 h4 => ?_⟩
  have := h expm tab rs 100 100 dt 0 0 N s (by norm_num) (by norm_num) h1 h2 le_rfl hδ.le h3 h4 (Or.inl ⟨le_rfl, le_rfl⟩)
    (none : Option (Unit → ℝ → Vec 2 → List ℕ × Unit)) (none : Option (Unit → ℝ → Vec 2 → Unit × Unit)) ()
  rw [add_zero] at this
  exact this

/-- `exp2` with Krylov dimension 2. -/
example (expm : ∀ m, Mat m → Mat m) (tab : Pfd) (rs : Mat 2 → ℝ → Vec 2 → ℕ → Vec 2) :
    ∃ C δ : ℝ, 0 ≤ C ∧ 0 < δ ∧ ∀ (dt : ℝ) (nsteps : ℕ) (s : ExpSplit 2), 0 < dt → dt ≤ δ → 0 + nsteps * dt ≤ 1 / 2 →
    ExpSplit.new 0 (demoY 0) "exp2" = .ok s →
    ∃ l, integrateOrmatex (splitStepper (realKernels 2 expm tab rs 2 2) (OdeSys.ofFrhs demoF (fun _ _ => matrixLinOp 1))) s (demoY 0) 0 dt nsteps
        (none : Option (Unit → ℝ → Vec 2 → List ℕ × Unit)) (none : Option (Unit → ℝ → Vec 2 → Unit × Unit)) () = .ok l ∧
      RunAccurate l 0 dt nsteps demoY (C * (dt ^ 2 + min 1e-12 dt)) := by
  obtain ⟨C, δ, hC, hδ, h⟩ := C105_split (OdeSys.ofFrhs demoF (fun _ _ => matrixLinOp 1)) (matrixLinOp 1) (fun _ _ => rfl) 1
    (by simp [matrixLinOp]) (fun v => by simp [matrixLinOp]) "exp2" 2 (by simp) demoY 0 (1 / 2)
    (fun t ht => demo_smooth_at _ t (by linarith [ht.2]))
  exact ⟨C, δ, hC, hδ, fun dt N s h1 h2 h3 h4 => h expm tab rs 2 2 dt N s (by norm_num) (by norm_num) h1 h2 h3 h4 none none ()⟩

end
end Ormatex.Props
