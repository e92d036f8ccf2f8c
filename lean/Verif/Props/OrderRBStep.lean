import Verif.Props.OrderRB
import Verif.Props.LinExact

/-!
C37: order of consistency of one step of the Rosenbrock and EPI integrators.
-/

namespace Ormatex.Props
open Matrix Ormatex.Spec Filter Asymptotics Topology
open scoped Classical

section
variable {n : ℕ}

section asym
variable {f : ℝ → Vec n → Vec n} {t : ℝ} {Y : ℝ → Vec n} {J : Mat n} {e : Vec n}

theorem isBigO_scale {c : ℝ} {q : ℕ} {E : Type*} [NormedAddCommGroup E] {g : ℝ → E} (h : g =O[𝓝 0] fun s : ℝ => s ^ q) :
    (fun s => g (c * s)) =O[𝓝 0] fun s : ℝ => s ^ q := by
  have hc : Tendsto (fun s : ℝ => c * s) (𝓝 0) (𝓝 0) := by
    simpa using (continuous_const.mul continuous_id (X := ℝ)).tendsto (0 : ℝ) (f := fun s => c * s)
  have h2 := h.comp_tendsto hc
  have h3 : ((fun s : ℝ => s ^ q) ∘ fun s => c * s) =O[𝓝 0] fun s => s ^ q := by
    have : ((fun s : ℝ => s ^ q) ∘ fun s => c * s) = fun s => c ^ q * s ^ q := by funext s; simp [mul_pow]
    rw [this]
    exact (isBigO_refl _ _).const_mul_left _
  exact h2.trans h3

theorem smul_isBigO {q r : ℕ} {g : ℝ → Vec n} (c : ℝ) (h : g =O[𝓝 0] fun s : ℝ => s ^ q) (hr : r = q + 1) :
    (fun s : ℝ => (c * s) • g s) =O[𝓝 0] fun s : ℝ => s ^ r := by
  have h1 : (fun s : ℝ => c * s) =O[𝓝 0] (fun s => s) := (isBigO_refl _ _).const_mul_left c
  refine (h1.smul h).congr_right fun s => ?_
  rw [hr, smul_eq_mul, pow_succ']

theorem isBigO_weaken {q r : ℕ} {E : Type*} [NormedAddCommGroup E] {g : ℝ → E} (h : g =O[𝓝 0] fun s : ℝ => s ^ q)
    (hr : r ≤ q) : g =O[𝓝 0] fun s : ℝ => s ^ r := by
  refine h.trans (IsBigO.of_bound 1 ?_)
  filter_upwards [Metric.closedBall_mem_nhds (0 : ℝ) one_pos] with s hs
  have hs1 : |s| ≤ 1 := by simpa using hs
  rw [one_mul, norm_pow, norm_pow, Real.norm_eq_abs]
  exact pow_le_pow_of_le_one (abs_nonneg _) hs1 hr

/-- the exprb3 update -/
theorem exprb3_order (h : SmoothIVP f 3 t Y)
    (hJ : ∀ τ v, fderiv ℝ (fun p : ℝ × Vec n => f p.1 p.2) (t, Y t) (τ, v) = τ • e + J *ᵥ v) :
    (fun s => (rosEuler J (Y t) (f t (Y t)) e s 1 + (2 * s) • (phiM 3 (s • J) *ᵥ
        (f (t + s) (rosEuler J (Y t) (f t (Y t)) e s 1) - f t (Y t)
          - J *ᵥ (rosEuler J (Y t) (f t (Y t)) e s 1 - Y t) - s • e))) - Y (t + s))
      =O[𝓝 0] fun s => s ^ 4 := by
  obtain ⟨a, a0, a1, ha⟩ := rem_second h (by norm_num) hJ
  have h1 := rosEuler_expand h ha
  have hst := stage_rem (h.mono (by norm_num)) hJ 1 (by norm_num : 1 ≤ 3) (rosEuler_order (h.mono (by norm_num)) hJ 1)
  simp only [one_mul] at hst
  have hr := (isBigO_weaken hst (by norm_num : 3 ≤ 3 + 1)).add ha
  have h2 := smul_isBigO 2 (phi_isBigO' 3 J hr) (rfl : 4 = 3 + 1)
  refine (h2.sub h1).congr_left fun s => ?_
  simp only [Finset.sum_range_succ, Finset.sum_range_zero, a0, a1, Matrix.mulVec_zero, smul_zero, add_zero, zero_add,
    Nat.factorial, Matrix.mulVec_add, Matrix.mulVec_sub, Matrix.mulVec_smul, smul_add, smul_sub]
  push_cast
  module

theorem pexprb4_order (h : SmoothIVP f 4 t Y)
    (hJ : ∀ τ v, fderiv ℝ (fun p : ℝ × Vec n => f p.1 p.2) (t, Y t) (τ, v) = τ • e + J *ᵥ v) :
    (fun s =>
      let F := f t (Y t)
      let y2 := rosEuler J (Y t) F e s (1 / 2)
      let r2 := f (t + 1 / 2 * s) y2 - F - J *ᵥ (y2 - Y t) - (1 / 2 * s) • e
      let y3 := rosEuler J (Y t) F e s 1
      let r3 := f (t + s) y3 - F - J *ᵥ (y3 - Y t) - s • e
      (y3 + (phiM 3 (s • J) *ᵥ (s • ((16 : ℝ) • r2 - (2 : ℝ) • r3))
        + phiM 4 (s • J) *ᵥ (s • ((-48 : ℝ) • r2 + (12 : ℝ) • r3)))) - Y (t + s))
      =O[𝓝 0] fun s => s ^ 5 := by
  obtain ⟨a, a0, a1, ha⟩ := rem_second h (by norm_num) hJ
  have h1 := rosEuler_expand h ha
  have hst3 := stage_rem (h.mono (by norm_num)) hJ 1 (by norm_num : 1 ≤ 3) (rosEuler_order (h.mono (by norm_num)) hJ 1)
  simp only [one_mul] at hst3
  have hst2 := stage_rem (h.mono (by norm_num)) hJ (1 / 2) (by norm_num : 1 ≤ 3) (rosEuler_order (h.mono (by norm_num)) hJ (1 / 2))
  have hr3 := hst3.add ha
  have hr2 := hst2.add (isBigO_scale (c := 1 / 2) ha)
  have hA := smul_isBigO 1 (phi_isBigO' 3 J ((hr2.const_smul_left (16 : ℝ)).sub (hr3.const_smul_left (2 : ℝ)))) (rfl : 5 = 4 + 1)
  have hB := smul_isBigO 1 (phi_isBigO' 4 J ((hr2.const_smul_left (-48 : ℝ)).add (hr3.const_smul_left (12 : ℝ)))) (rfl : 5 = 4 + 1)
  refine ((hA.add hB).sub h1).congr_left fun s => ?_
  simp only [Finset.sum_range_succ, Finset.sum_range_zero, a0, a1, Matrix.mulVec_zero, smul_zero, add_zero, zero_add,
    Nat.factorial, Matrix.mulVec_add, Matrix.mulVec_sub, Matrix.mulVec_smul, smul_add, smul_sub, Pi.smul_apply]
  push_cast
  module

/-- the epi3 update after a previous step of size `w dt`: order two at least -/
theorem epi3_order_unequal (w : ℝ) (h : SmoothIVP f 2 t Y)
    (hJ : ∀ τ v, fderiv ℝ (fun p : ℝ × Vec n => f p.1 p.2) (t, Y t) (τ, v) = τ • e + J *ᵥ v)
    {yp : ℝ → Vec n} (hyp : (fun s => yp s - Y (t - w * s)) =O[𝓝 0] fun s => s ^ 2) :
    (fun s => (rosEuler J (Y t) (f t (Y t)) e s 1 + (s * (2 / 3)) • (phiM 2 (s • J) *ᵥ
        (f (t - w * s) (yp s) - f t (Y t) - J *ᵥ (yp s - Y t) - (t - w * s - t) • e))) - Y (t + s))
      =O[𝓝 0] fun s => s ^ 3 := by
  obtain ⟨a, a0, a1, ha⟩ := rem_second h (by norm_num) hJ
  have h1 := rosEuler_expand h ha
  have hst := stage_rem h hJ (-w) (by norm_num : 1 ≤ 2) (z := yp)
    (hyp.congr_left fun s => by rw [neg_mul, ← sub_eq_add_neg])
  have hr := (isBigO_weaken hst (by norm_num : 2 ≤ 2 + 1)).add (isBigO_scale (c := -w) ha)
  have h2 := smul_isBigO (2 / 3) (phi_isBigO' 2 J hr) (rfl : 3 = 2 + 1)
  refine (h2.sub h1).congr_left fun s => ?_
  simp only [Finset.sum_range_succ, Finset.sum_range_zero, a0, a1, Matrix.mulVec_zero, smul_zero, add_zero, zero_add,
    sub_zero, Nat.factorial, Matrix.mulVec_add, Matrix.mulVec_sub, Matrix.mulVec_smul, smul_add, smul_sub,
    ← sub_eq_add_neg, neg_mul, sub_sub_cancel_left]
  module

/-- the epi3 update after an equal previous step -/
theorem epi3_order (h : SmoothIVP f 3 t Y)
    (hJ : ∀ τ v, fderiv ℝ (fun p : ℝ × Vec n => f p.1 p.2) (t, Y t) (τ, v) = τ • e + J *ᵥ v)
    {yp : ℝ → Vec n} (hyp : (fun s => yp s - Y (t - s)) =O[𝓝 0] fun s => s ^ 3) :
    (fun s => (rosEuler J (Y t) (f t (Y t)) e s 1 + (s * (2 / 3)) • (phiM 2 (s • J) *ᵥ
        (f (t - s) (yp s) - f t (Y t) - J *ᵥ (yp s - Y t) - (t - s - t) • e))) - Y (t + s))
      =O[𝓝 0] fun s => s ^ 4 := by
  obtain ⟨a, a0, a1, ha⟩ := rem_second h (by norm_num) hJ
  have h1 := rosEuler_expand h ha
  have hst := stage_rem (h.mono (by norm_num)) hJ (-1) (by norm_num : 1 ≤ 3) (z := yp)
    (hyp.congr_left fun s => by rw [neg_one_mul, ← sub_eq_add_neg])
  have hr := (isBigO_weaken hst (by norm_num : 3 ≤ 3 + 1)).add (isBigO_scale (c := -1) ha)
  have h2 := smul_isBigO (2 / 3) (phi_isBigO' 2 J hr) (rfl : 4 = 3 + 1)
  have hc : (fun _ : ℝ => a 2) =O[𝓝 0] fun s : ℝ => (1 : ℝ) := isBigO_const_const _ one_ne_zero _
  have h3 := (phi_sub_isBigO' 2 J hc).const_smul_left (2 / 3 : ℝ)
  have h4 := (phi_sub_isBigO' 3 J hc).const_smul_left (2 : ℝ)
  have h5 : (fun s : ℝ => s ^ 3 • ((2 / 3 : ℝ) • (phiM 2 (s • J) *ᵥ a 2 - ((Nat.factorial 2 : ℝ)⁻¹) • a 2)
      - (2 : ℝ) • (phiM 3 (s • J) *ᵥ a 2 - ((Nat.factorial 3 : ℝ)⁻¹) • a 2))) =O[𝓝 0] fun s : ℝ => s ^ 4 := by
    refine ((isBigO_refl (fun s : ℝ => s ^ 3) (𝓝 0)).smul (h3.sub h4)).congr_right fun s => ?_
    rw [smul_eq_mul]; ring
  refine ((h2.add h5).sub h1).congr_left fun s => ?_
  simp only [Finset.sum_range_succ, Finset.sum_range_zero, a0, a1, Matrix.mulVec_zero, smul_zero, add_zero, zero_add,
    Nat.factorial, Matrix.mulVec_add, Matrix.mulVec_sub, Matrix.mulVec_smul, smul_add, smul_sub,
    ← sub_eq_add_neg, neg_one_mul, sub_sub_cancel_left]
  push_cast
  module

end asym

variable {P : Type} [EmptyCollection P]
set_option linter.unusedSectionVars false

/-- **Specification.** One step from the exact value of `Y` at `t` never fails, advances the time by `dt`, and its error is
`O(dt^(p+1))` as `dt → 0` (with either sign of `dt`). -/
def LocalOrder (p : ℕ) (step : ℝ → Py (StepResult (Vec n))) (t : ℝ) (Y : ℝ → Vec n) : Prop :=
  ∃ r : ℝ → StepResult (Vec n), (∀ dt, step dt = .ok (r dt)) ∧ (∀ dt, (r dt).t = t + dt) ∧
    (fun dt => (r dt).y - Y (t + dt)) =O[𝓝 0] fun dt => dt ^ (p + 1)

/-- one-step methods of order two -/
def orderTwo : List String := ["exprb2", "epi2", "exprb2_dense", "exprb2_pfd", "exprb2_pfd_rs"]

/-- **C37, order two.**  For any smooth (`C^2`) right-hand side, autonomous or not, `exprb2`, `epi2`, `exprb2_dense`,
`exprb2_pfd` and `exprb2_pfd_rs` with exact phi kernels and exact derivatives have local error `O(dt^3)`; the methods that check
`tol_fdt` need the check to pass (or `f_t = 0`). -/
theorem C37_order2 {K : Kernels n} (hK : ExactKernels K) (hasRust : Bool) (sys : OdeSys n P) (s : ExpRB n) (t : ℝ)
    (Y : ℝ → Vec n) (hs : At s.base t (Y t)) (kw : Option P) (hm : s.base.method ∈ orderTwo)
    (hrust : s.base.method = "exprb2_pfd_rs" → hasRust = true)
    (hY : SmoothIVP (sys.frhs none) 2 t Y) (J : Mat n)
    (hJ : ExactJac (sys.fjac (some (kw.getD ∅)) t (Y t)) (sys.frhs none) t (Y t) J)
    (hJ' : ExactJac (sys.fjac none t (Y t)) (sys.frhs none) t (Y t) J)
    (hfdt : ∀ kw, (sys.fjac kw t (Y t)).fdt = 0 ∨ (0 ≤ s.tolFdt ∧ s.tolFdt < ‖(sys.fjac kw t (Y t)).fdt‖) ∨
      s.base.method ∈ alwaysCorrected) :
    LocalOrder 2 (fun dt => ExpRB.step hasRust K sys s dt kw) t Y := by
  have ho := rosEuler_order hY hJ.deriv 1
  have ho' := rosEuler_order hY hJ'.deriv 1
  simp only [one_mul] at ho ho'
  have heff : s.base.method ∉ alwaysCorrected → ∀ kw, effFdt s.tolFdt (sys.fjac kw t (Y t)).fdt = (sys.fjac kw t (Y t)).fdt :=
    fun h kw => effFdt_active (by rcases hfdt kw with h' | h' | h'; exacts [Or.inl h', Or.inr h', absurd h' h])
  unfold LocalOrder ExpRB.step
  simp only
  simp only [orderTwo, List.mem_cons, List.not_mem_nil, or_false] at hm
  rcases hm with hm | hm | hm | hm | hm <;> rw [hm] at heff hrust ⊢ <;>
    simp only [String.reduceEq, if_true, if_false, false_and, true_and]
  · refine ⟨_, fun dt => exprb2_closed hK sys s hs dt _ J hJ.mat, fun _ => rfl, ?_⟩
    simp only [heff (by decide), hJ.rhs]
    exact ho
  · refine ⟨_, fun dt => epi2_closed hK sys s hs dt _ J hJ.mat, fun _ => rfl, ?_⟩
    simp only [hJ.rhs]
    exact ho
  · refine ⟨_, fun dt => exprb2Dense_closed hK sys s hs dt J hJ'.dense, fun _ => rfl, ?_⟩
    simp only [hJ'.rhs]
    exact ho'
  · refine ⟨_, fun dt => exprb2Pfd_closed hK sys s hs dt _ J hJ.dense, fun _ => rfl, ?_⟩
    simp only [heff (by decide), hJ.rhs]
    exact ho
  · have hr := hrust rfl
    simp only [hr, if_true]
    refine ⟨_, fun dt => exprb2PfdRs_closed hK sys s hs dt J hJ'.dense, fun _ => rfl, ?_⟩
    simp only [heff (by decide), hJ'.rhs]
    exact ho'

/-- **C37, order three and four.**  `exprb3` (also used by `epi3` for its first step, whose history is one entry) has local
error `O(dt^4)` for `C^3` right-hand sides, and `pexprb4` `O(dt^5)` for `C^4` ones. -/
theorem C37_order34 {K : Kernels n} (hK : ExactKernels K) (hasRust : Bool) (sys : OdeSys n P) (s : ExpRB n) (t : ℝ)
    (Y : ℝ → Vec n) (hs : At s.base t (Y t)) (kw : Option P) (p : ℕ)
    (hm : s.base.method = "exprb3" ∧ p = 3 ∨ s.base.method = "epi3" ∧ s.base.yHist.items.length < 2 ∧ p = 3 ∨
      s.base.method = "pexprb4" ∧ p = 4)
    (hY : SmoothIVP (sys.frhs none) p t Y) (J : Mat n)
    (hJ : ExactJac (sys.fjac (some (kw.getD ∅)) t (Y t)) (sys.frhs none) t (Y t) J)
    (hfdt : (sys.fjac (some (kw.getD ∅)) t (Y t)).fdt = 0 ∨
      (0 ≤ s.tolFdt ∧ s.tolFdt < ‖(sys.fjac (some (kw.getD ∅)) t (Y t)).fdt‖)) :
    LocalOrder p (fun dt => ExpRB.step hasRust K sys s dt kw) t Y := by
  have heff := effFdt_active hfdt
  unfold LocalOrder ExpRB.step
  simp only
  rcases hm with ⟨hm, rfl⟩ | ⟨hm, hl, rfl⟩ | ⟨hm, rfl⟩ <;> rw [hm] <;> simp only [String.reduceEq, if_true, if_false]
  · refine ⟨_, fun dt => exprb3_closed hK sys s hs dt _ J hJ.mat, fun _ => rfl, ?_⟩
    simp only [heff, hJ.rhs]
    exact exprb3_order hY hJ.deriv
  · have hl' : ¬ s.base.yHist.len ≥ 2 := by
      show ¬ s.base.yHist.items.length ≥ 2
      omega
    simp only [hl', if_false]
    refine ⟨_, fun dt => exprb3_closed hK sys s hs dt _ J hJ.mat, fun _ => rfl, ?_⟩
    simp only [heff, hJ.rhs]
    exact exprb3_order hY hJ.deriv
  · refine ⟨_, fun dt => pexprb4_closed hK sys s hs dt _ J hJ.mat, fun _ => rfl, ?_⟩
    simp only [heff, hJ.rhs]
    exact pexprb4_order hY hJ.deriv

/-- **C37, epi3 after its first step.**  When the previous step was as long as this one (the previous entry is at `t - dt`,
within `O(dt^3)` of the solution) the local error is `O(dt^4)`. -/
theorem C37_epi3 {K : Kernels n} (hK : ExactKernels K) (hasRust : Bool) (sys : OdeSys n P) (s : ℝ → ExpRB n) (t : ℝ)
    (Y : ℝ → Vec n) (kw : Option P) (yp : ℝ → Vec n)
    (hs : ∀ dt, At (s dt).base t (Y t) ∧ (s dt).base.method = "epi3" ∧ 2 ≤ (s dt).base.yHist.items.length ∧
      (s dt).base.tHist.get 1 = .ok (t - dt) ∧ (s dt).base.yHist.get 1 = .ok (yp dt))
    (hyp : (fun dt => yp dt - Y (t - dt)) =O[𝓝 0] fun dt => dt ^ 3)
    (hY : SmoothIVP (sys.frhs none) 3 t Y) (J : Mat n)
    (hJ : ExactJac (sys.fjac (some (kw.getD ∅)) t (Y t)) (sys.frhs none) t (Y t) J) :
    LocalOrder 3 (fun dt => ExpRB.step hasRust K sys (s dt) dt kw) t Y := by
  have hstep : ∀ dt, ExpRB.step hasRust K sys (s dt) dt kw = stepEpi3 K sys (s dt) dt (kw.getD ∅) := by
    intro dt
    obtain ⟨_, hm, hl, _, _⟩ := hs dt
    have hl' : (s dt).base.yHist.len ≥ 2 := hl
    unfold ExpRB.step
    simp only [hm, String.reduceEq, if_true, if_false, hl']
  unfold LocalOrder
  refine ⟨_, fun dt => (hstep dt).trans
    (epi3_closed hK sys (s dt) (hs dt).1 dt _ J hJ.mat _ _ (hs dt).2.2.2.1 (hs dt).2.2.2.2), fun _ => rfl, ?_⟩
  simp only [hJ.rhs]
  exact epi3_order hY hJ.deriv hyp

/-- **C37, epi3 after an unequal step.**  With a previous step of length `w dt` for any fixed `w`, the local error is still
`O(dt^3)`. -/
theorem C37_epi3_unequal {K : Kernels n} (hK : ExactKernels K) (hasRust : Bool) (sys : OdeSys n P) (s : ℝ → ExpRB n) (t w : ℝ)
    (Y : ℝ → Vec n) (kw : Option P) (yp : ℝ → Vec n)
    (hs : ∀ dt, At (s dt).base t (Y t) ∧ (s dt).base.method = "epi3" ∧ 2 ≤ (s dt).base.yHist.items.length ∧
      (s dt).base.tHist.get 1 = .ok (t - w * dt) ∧ (s dt).base.yHist.get 1 = .ok (yp dt))
    (hyp : (fun dt => yp dt - Y (t - w * dt)) =O[𝓝 0] fun dt => dt ^ 2)
    (hY : SmoothIVP (sys.frhs none) 2 t Y) (J : Mat n)
    (hJ : ExactJac (sys.fjac (some (kw.getD ∅)) t (Y t)) (sys.frhs none) t (Y t) J) :
    LocalOrder 2 (fun dt => ExpRB.step hasRust K sys (s dt) dt kw) t Y := by
  have hstep : ∀ dt, ExpRB.step hasRust K sys (s dt) dt kw = stepEpi3 K sys (s dt) dt (kw.getD ∅) := by
    intro dt
    obtain ⟨_, hm, hl, _, _⟩ := hs dt
    have hl' : (s dt).base.yHist.len ≥ 2 := hl
    unfold ExpRB.step
    simp only [hm, String.reduceEq, if_true, if_false, hl']
  unfold LocalOrder
  refine ⟨_, fun dt => (hstep dt).trans
    (epi3_closed hK sys (s dt) (hs dt).1 dt _ J hJ.mat _ _ (hs dt).2.2.2.1 (hs dt).2.2.2.2), fun _ => rfl, ?_⟩
  simp only [hJ.rhs]
  exact epi3_order_unequal w hY hJ.deriv hyp

/-- **C37, sharpness for unequal steps.**  For `y' = t^2` at `t = 0` with exact history, a previous step of length `w dt`
makes the error of `epi3` exactly `(w^2 - 1) dt^3 / 3`: third order is lost unless the two steps have equal length. -/
theorem C37_epi3_unequal_sharp {K : Kernels 1} (hK : ExactKernels K) (hasRust : Bool) (sys : OdeSys 1 P) (s : ExpRB 1)
    (w dt : ℝ) (kw : Option P) (hf : ∀ kw t y, sys.frhs kw t y = fun _ => t ^ 2)
    (hjac : ∀ kw t y, IsMatrix (sys.fjac kw t y).toLinOp 0 ∧ (sys.fjac kw t y).frhsCached = (fun _ => t ^ 2) ∧
      (sys.fjac kw t y).fdt = fun _ => 2 * t)
    (hs : At s.base 0 0) (hm : s.base.method = "epi3") (hl : 2 ≤ s.base.yHist.items.length)
    (htp : s.base.tHist.get 1 = .ok (-(w * dt))) (hyp : s.base.yHist.get 1 = .ok (fun _ => (-(w * dt)) ^ 3 / 3)) :
    ∃ r, ExpRB.step hasRust K sys s dt kw = .ok r ∧ r.t = dt ∧
      r.y 0 = dt ^ 3 / 3 + (w ^ 2 - 1) * dt ^ 3 / 3 := by
  have hl' : s.base.yHist.len ≥ 2 := hl
  unfold ExpRB.step
  simp only [hm, String.reduceEq, if_true, if_false, hl']
  refine ⟨_, epi3_closed hK sys s hs dt _ 0 (hjac _ _ _).1 _ _ htp hyp, by simp, ?_⟩
  simp only [(hjac _ _ _).2.1, (hjac _ _ _).2.2, hf, rosEuler, smul_zero, phiM_at_zero]
  simp [Matrix.smul_mulVec, Nat.factorial]
  ring

/-- **C37, exp_pfd.**  `exp_pfd` (and `exp_pfd_rs`) only propagate the homogeneous part: for `y' = 1` from `y = 0` every step
returns `0`, so the error is exactly `dt` and the method is not consistent. -/
theorem C37_exp_pfd_inconsistent {K : Kernels 1} (hK : ExactKernels K) (hasRust : Bool) (sys : OdeSys 1 P) (s : ExpRB 1)
    (t dt : ℝ) (kw : Option P) (hsys : ForcedSys sys 0 (fun _ => 1) 0) (hs : At s.base t 0)
    (hm : s.base.method = "exp_pfd" ∨ s.base.method = "exp_pfd_rs" ∧ hasRust = true) :
    ∃ r, ExpRB.step hasRust K sys s dt kw = .ok r ∧ r.y = 0 := by
  unfold ExpRB.step
  simp only
  rcases hm with hm | ⟨hm, hr⟩ <;> rw [hm]
  · simp only [String.reduceEq, if_true, if_false]
    exact ⟨_, expPfd_closed hK sys s hs dt _ 0 (hsys.jacDense _ _ _), by simp⟩
  · simp only [String.reduceEq, hr, if_true, if_false, true_and, false_and]
    exact ⟨_, expPfdRs_closed hK sys s hs dt 0 (hsys.jacDense _ _ _), by simp⟩

/-- The hypotheses are met by a nonlinear, non-autonomous system with the default autodiff Jacobian: `y0' = t`,
`y1' = y1^2`, started from `(0, 1)`. -/
noncomputable def demoF : Option (List ℕ) → ℝ → Vec 2 → Vec 2 := fun _ t y => ![t, y 1 ^ 2]

noncomputable def demoY : ℝ → Vec 2 := fun s => ![s ^ 2 / 2, (1 - s)⁻¹]

theorem demo_smooth (m : ℕ) : SmoothIVP (demoF none) m 0 demoY where
  smooth := by
    refine contDiffAt_pi.2 fun i => ?_
    fin_cases i
    · exact contDiffAt_fst
    · have h1 : ContDiff ℝ m (fun p : ℝ × Vec 2 => p.2 1) :=
        ((ContinuousLinearMap.proj (R := ℝ) (φ := fun _ : Fin 2 => ℝ) 1).contDiff).comp contDiff_snd
      exact (h1.pow 2).contDiffAt
  sol := by
    filter_upwards [Metric.ball_mem_nhds (0 : ℝ) one_pos] with s hs
    have hs1 : |s| < 1 := by simpa using hs
    have hne : 1 - s ≠ 0 := by have := (abs_lt.1 hs1).2; intro h; linarith
    refine hasDerivAt_pi.2 fun i => ?_
    fin_cases i
    · refine (((hasDerivAt_id s).pow 2).div_const 2).congr_deriv ?_
      simp [demoF]
    · refine (((hasDerivAt_id s).const_sub 1).inv hne).congr_deriv ?_
      simp [demoF, demoY]

theorem demo_fdt : (adJac (demoF none) 0 (demoY 0)).fdt = ![1, 0] := by
  have h0 : HasFDerivAt (fun p : ℝ × Vec 2 => demoF none p.1 p.2)
      (ContinuousLinearMap.pi ![ContinuousLinearMap.fst ℝ ℝ (Vec 2),
        (2 : ℝ) • ((ContinuousLinearMap.proj (R := ℝ) (φ := fun _ : Fin 2 => ℝ) 1).comp (ContinuousLinearMap.snd ℝ ℝ (Vec 2)))])
      (0, demoY 0) := by
    refine hasFDerivAt_pi.2 fun i => ?_
    fin_cases i
    · exact hasFDerivAt_fst
    · have h1 : HasFDerivAt (fun p : ℝ × Vec 2 => p.2 1)
          ((ContinuousLinearMap.proj (R := ℝ) (φ := fun _ : Fin 2 => ℝ) 1).comp (ContinuousLinearMap.snd ℝ ℝ (Vec 2))) (0, demoY 0) :=
        ((ContinuousLinearMap.proj (R := ℝ) (φ := fun _ : Fin 2 => ℝ) 1).comp (ContinuousLinearMap.snd ℝ ℝ (Vec 2))).hasFDerivAt
      refine (h1.pow 2).congr_fderiv ?_
      ext <;> simp [demoY]
  show fderiv ℝ (fun p : ℝ × Vec 2 => demoF none p.1 p.2) (0, demoY 0) (1, 0) = _
  rw [h0.fderiv]
  ext i
  fin_cases i <;> simp

example : ∃ s : ExpRB 2, ExpRB.new false 0 (demoY 0) "pexprb4" 0 = .ok s ∧
    LocalOrder 4 (fun dt => ExpRB.step false (exactKernels 2) (OdeSys.ofFrhs demoF) s dt none) 0 demoY := by
  refine ⟨_, rfl, ?_⟩
  obtain ⟨J, hJ⟩ := exactJac_autodiff (demoF none) 0 (demoY 0)
  refine C37_order34 (exactKernels_exact 2) false _ _ 0 demoY ⟨rfl, rfl, rfl⟩ none 4 (Or.inr (Or.inr ⟨rfl, rfl⟩))
    (demo_smooth 4) J hJ (Or.inr ⟨le_rfl, ?_⟩)
  show (0 : ℝ) < ‖(adJac (demoF none) 0 (demoY 0)).fdt‖
  rw [demo_fdt, norm_pos_iff]
  exact fun h => by simpa using congrFun h 0

end
end Ormatex.Props
