import Verif.Props.ApproxEpi3
import Verif.Props.ApproxSplitRun

/-!
The hypotheses of C103 are met by kernels that are wrong by a genuine, non-zero amount: the exact products disturbed by `κ v`.
-/

namespace Ormatex.Props
open Filter Asymptotics Topology Matrix Ormatex.Spec
open scoped Classical
open scoped Matrix.Norms.Operator

section
variable {n : ℕ}

/-- Kernels that return every product `phi_k(A) v` disturbed by `κ v` (and every list of matrices disturbed by `κ I`). -/
noncomputable def shiftKernels (n : ℕ) (κ : ℝ) : Kernels n where
  phiLinop A dt v k := .ok (phiM k (dt • opMatrix A) *ᵥ v + κ • v)
  kiops A dt bs := .ok (∑ j ∈ Finset.range bs.length, phiM j (dt • opMatrix A) *ᵥ bs.getD j 0 + κ • bs.getD 0 0)
  phiSqAll z k := .ok ((List.range (k + 1)).map fun j => phiM j z + κ • (1 : Mat n))
  phiPfd z b k := .ok (phiM k z *ᵥ b + κ • b)
  phikvRs J dt v k := phiM k (dt • J) *ᵥ v + κ • v

theorem stepWeight_le_one {dt : ℝ} (h1 : dt ≤ 1) (k : ℕ) : stepWeight dt k ≤ 1 := by
  rw [stepWeight]; split_ifs <;> linarith

theorem stepWeight_nonneg {dt : ℝ} (h0 : 0 ≤ dt) (k : ℕ) : 0 ≤ stepWeight dt k := by
  rw [stepWeight]; split_ifs <;> linarith

theorem shiftKernels_approx (m : String) (dt R κ : ℝ) (h0 : 0 ≤ dt) (h1 : dt ≤ 1) (hκ : 0 ≤ κ) :
    ApproxFor m (shiftKernels n κ) dt R κ := by
  have key : ∀ (v : Vec n) k, stepWeight dt k * ‖κ • v‖ ≤ κ * ‖v‖ := fun v k => by
    rw [norm_smul, Real.norm_of_nonneg hκ]
    exact mul_le_of_le_one_left (by positivity) (stepWeight_le_one h1 k)
  refine ⟨fun _ A M hA _ c _ _ v k _ _ => ⟨_, rfl, ?_⟩, fun _ A M hA _ bs hb _ B hB _ => ⟨_, rfl, ?_⟩, fun _ M _ c _ _ k _ => ⟨_, rfl, by simp, ?_⟩,
    fun _ M _ v k _ _ => ⟨_, rfl, ?_⟩, fun _ M _ v k _ _ => ?_⟩
  · rw [opMatrix_eq hA, add_sub_cancel_left]; exact key v k
  · rw [opMatrix_eq hA, add_sub_cancel_left, norm_smul, Real.norm_of_nonneg hκ]
    refine mul_le_mul_of_nonneg_left ?_ hκ
    refine hB _ ?_
    rw [List.getD_eq_getElem?_getD, List.getElem?_eq_getElem (by omega : 0 < bs.length)]
    exact List.getElem_mem _
  · intro j _ hj
    rw [List.getD_eq_getElem?_getD, List.getElem?_map, List.getElem?_range (by omega)]
    simp only [Option.map_some, Option.getD_some, add_sub_cancel_left]
    rw [norm_smul, Real.norm_of_nonneg hκ]
    have h1' : ‖(1 : Mat n)‖ ≤ 1 := by
      rcases isEmpty_or_nonempty (Fin n) with h | h
      · rw [Subsingleton.elim (1 : Mat n) 0, norm_zero]; exact zero_le_one
      · exact norm_one.le
    calc stepWeight dt j * (κ * ‖(1 : Mat n)‖) ≤ 1 * (κ * 1) :=
          mul_le_mul (stepWeight_le_one h1 j) (mul_le_mul_of_nonneg_left h1' hκ) (by positivity) zero_le_one
      _ = κ := by ring
  · rw [add_sub_cancel_left]; exact key v k
  · simp only [shiftKernels]
    rw [add_sub_cancel_left]; exact key v k

/-- `exprb3` with kernels wrong by a relative `dt^3` still has order 3 on `y0' = t, y1' = y1^2`. -/
example : ∃ C δ : ℝ, 0 ≤ C ∧ 0 < δ ∧ ∀ (dt : ℝ) (nsteps : ℕ) (s : ExpRB 2), 0 < dt → dt ≤ δ → 0 + nsteps * dt ≤ 1 / 2 →
    ExpRB.new false 0 (demoY 0) "exprb3" 0 = .ok s →
    ∃ l, integrateOrmatex (rbStepper false (shiftKernels 2 (dt ^ 3)) (OdeSys.ofFrhs demoF (fun _ _ => matrixLinOp 1))) s (demoY 0) 0 dt nsteps
        (none : Option (Unit → ℝ → Vec 2 → List ℕ × Unit)) (none : Option (Unit → ℝ → Vec 2 → Unit × Unit)) () = .ok l ∧
      RunAccurate l 0 dt nsteps demoY (C * dt ^ 3) := by
  obtain ⟨C, δ, R, hC, hδ, h⟩ := C103_rosenbrock false (OdeSys.ofFrhs demoF (fun _ _ => matrixLinOp 1))
    (exactJacs_autodiff demoF (fun _ => rfl) _) "exprb3" 3 (by simp [rbOrders]) demoY 0 (1 / 2)
    (fun t ht => demo_smooth_at _ t (by linarith [ht.2]))
  refine ⟨2 * C, min δ 1, by positivity, by positivity, fun dt N s h1 h2 h3 h4 => ?_⟩
  have hd1 : dt ≤ 1 := h2.trans (min_le_right _ _)
  have hdδ : dt ≤ δ := h2.trans (min_le_left _ _)
  have hle : dt ^ 3 ≤ dt := pow_le_of_le_one h1.le hd1 (by norm_num)
  have := h (shiftKernels 2 (dt ^ 3)) dt 0 (dt ^ 3) 0 N s h1 hdδ le_rfl hδ.le (by positivity) (hle.trans hdδ)
    (shiftKernels_approx _ _ _ _ h1.le hd1 (by positivity)) h3 h4 (Or.inl ⟨le_rfl, le_rfl⟩)
    (none : Option (Unit → ℝ → Vec 2 → List ℕ × Unit)) (none : Option (Unit → ℝ → Vec 2 → Unit × Unit)) ()
  rw [show C * (dt ^ 3 + 0 + dt ^ 3) = 2 * C * dt ^ 3 by ring] at this
  exact this

/-- the same for the two-step method `epi3` -/
example : ∃ C δ : ℝ, 0 ≤ C ∧ 0 < δ ∧ ∀ (dt : ℝ) (nsteps : ℕ) (s : ExpRB 2), 0 < dt → dt ≤ δ → 0 + nsteps * dt ≤ 1 / 2 →
    ExpRB.new false 0 (demoY 0) "epi3" 0 = .ok s →
    ∃ l, integrateOrmatex (rbStepper false (shiftKernels 2 (dt ^ 3)) (OdeSys.ofFrhs demoF (fun _ _ => matrixLinOp 1))) s (demoY 0) 0 dt nsteps
        (none : Option (Unit → ℝ → Vec 2 → List ℕ × Unit)) (none : Option (Unit → ℝ → Vec 2 → Unit × Unit)) () = .ok l ∧
      RunAccurate l 0 dt nsteps demoY (C * dt ^ 3) := by
  obtain ⟨C, δ, R, hC, hδ, h⟩ := C103_epi3 false (OdeSys.ofFrhs demoF (fun _ _ => matrixLinOp 1))
    (exactJacs_autodiff demoF (fun _ => rfl) _) demoY 0 (1 / 2)
    (fun t ht => demo_smooth_at _ t (by linarith [ht.2]))
  refine ⟨2 * C, min δ 1, by positivity, by positivity, fun dt N s h1 h2 h3 h4 => ?_⟩
  have hd1 : dt ≤ 1 := h2.trans (min_le_right _ _)
  have hdδ : dt ≤ δ := h2.trans (min_le_left _ _)
  have hle : dt ^ 3 ≤ dt := pow_le_of_le_one h1.le hd1 (by norm_num)
  have := h (shiftKernels 2 (dt ^ 3)) dt 0 (dt ^ 3) 0 N s h1 hdδ le_rfl hδ.le (by positivity) (hle.trans hdδ)
    (shiftKernels_approx _ _ _ _ h1.le hd1 (by positivity)) h3 h4 (Or.inl ⟨le_rfl, le_rfl⟩)
    (none : Option (Unit → ℝ → Vec 2 → List ℕ × Unit)) (none : Option (Unit → ℝ → Vec 2 → Unit × Unit)) ()
  rw [show C * (dt ^ 3 + 0 + dt ^ 3) = 2 * C * dt ^ 3 by ring] at this
  exact this

/-- the same for the splitting method `exp2` -/
example : ∃ C δ : ℝ, 0 ≤ C ∧ 0 < δ ∧ ∀ (dt : ℝ) (nsteps : ℕ) (s : ExpSplit 2), 0 < dt → dt ≤ δ → 0 + nsteps * dt ≤ 1 / 2 →
    ExpSplit.new 0 (demoY 0) "exp2" = .ok s →
    ∃ l, integrateOrmatex (splitStepper (shiftKernels 2 (dt ^ 2)) (OdeSys.ofFrhs demoF (fun _ _ => matrixLinOp 1))) s (demoY 0) 0 dt nsteps
        (none : Option (Unit → ℝ → Vec 2 → List ℕ × Unit)) (none : Option (Unit → ℝ → Vec 2 → Unit × Unit)) () = .ok l ∧
      RunAccurate l 0 dt nsteps demoY (C * dt ^ 2) := by
  obtain ⟨C, δ, hC, hδ, h⟩ := C103_split (OdeSys.ofFrhs demoF (fun _ _ => matrixLinOp 1)) (matrixLinOp 1) (fun _ _ => rfl) 1
    (by simp [matrixLinOp]) (fun v => by simp [matrixLinOp]) "exp2" 2 (by simp [splitOrders]) demoY 0 (1 / 2)
    (fun t ht => demo_smooth_at _ t (by linarith [ht.2]))
  refine ⟨2 * C, min δ 1, by positivity, by positivity, fun dt N s h1 h2 h3 h4 => ?_⟩
  have hd1 : dt ≤ 1 := h2.trans (min_le_right _ _)
  have hdδ : dt ≤ δ := h2.trans (min_le_left _ _)
  have hle : dt ^ 2 ≤ dt := pow_le_of_le_one h1.le hd1 (by norm_num)
  have := h (shiftKernels 2 (dt ^ 2)) dt (dt ^ 2) N s h1 hdδ (by positivity) (hle.trans hdδ)
    (shiftKernels_approx _ _ _ _ h1.le hd1 (by positivity)) h3 h4
    (none : Option (Unit → ℝ → Vec 2 → List ℕ × Unit)) (none : Option (Unit → ℝ → Vec 2 → Unit × Unit)) ()
  rw [show C * (dt ^ 2 + dt ^ 2) = 2 * C * dt ^ 2 by ring] at this
  exact this

end
end Ormatex.Props
