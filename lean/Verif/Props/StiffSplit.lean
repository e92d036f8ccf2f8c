import Verif.Spec.Stiff
import Verif.Props.RsStiff

/-!
C132: error of the splitting methods on stiff semilinear systems, uniform in the stiffness of the linear part.
-/

namespace Ormatex.Props
open Matrix Ormatex.Spec Ormatex.Rs

section
variable {n : ℕ} {P : Type} [EmptyCollection P]

/-- the flow of a dissipative matrix is a contraction -/
theorem phi0_norm {L : Mat n} (hL : Dissipative L) {h : ℝ} (hh : 0 ≤ h) (v : Vec n) : norm2 (phiM 0 (h • L) *ᵥ v) ≤ norm2 v := by
  have := dissipative_flow hL (F := fun s => phiM 0 (s • L) *ᵥ v) (fun s => by
    have := hasDerivAt_mulVec_const (hasDerivAt_phiM_zero L s) v
    rwa [← mulVec_mulVec] at this) hh
  simpa [phiM_at_zero] using this

open scoped Matrix.Norms.Operator in
/-- a perturbed dissipative linear flow -/
theorem duhamel_norm {L : Mat n} (hL : Dissipative L) {D r : ℝ → Vec n} (hD : ∀ s, HasDerivAt D (L *ᵥ D s + r s) s) (c : ℝ) (p : ℕ) {h : ℝ}
    (hh : 0 ≤ h) (hr : ∀ s, 0 ≤ s → s ≤ h → norm2 (r s) ≤ c * s ^ p) : norm2 (D h) ≤ norm2 (D 0) + c * h ^ (p + 1) / (p + 1) := by
  have hW : ∀ s, HasDerivAt (fun s => phiM 0 ((h - s) • L) *ᵥ D s) (phiM 0 ((h - s) • L) *ᵥ r s) s := by
    intro s
    have h1 := HasDerivAt.comp_const_sub h s (hasDerivAt_phiM_zero L (h - s))
    refine (Spec.hasDerivAt_mulVec h1 (hD s)).congr_deriv ?_
    have hc : L * phiM 0 ((h - s) • L) = phiM 0 ((h - s) • L) * L := phiM_commute 0 _ _ (by rw [mul_smul_comm, smul_mul_assoc])
    rw [neg_mulVec, hc, mulVec_add, mulVec_mulVec]
    abel
  have hg := norm2_growth (f := fun s => phiM 0 ((h - s) • L) *ᵥ D s - phiM 0 ((h - 0) • L) *ᵥ D 0) (f' := fun s => phiM 0 ((h - s) • L) *ᵥ r s)
    (fun s => (hW s).sub_const _) (sub_self _) c p hh
    (fun s hs hsh => (phi0_norm hL (by linarith) _).trans (hr s hs hsh))
  have h2 := norm2_add_le (phiM 0 ((h - h) • L) *ᵥ D h - phiM 0 ((h - 0) • L) *ᵥ D 0) (phiM 0 ((h - 0) • L) *ᵥ D 0)
  rw [sub_add_cancel] at h2
  have h3 : phiM 0 ((h - h) • L) *ᵥ D h = D h := by simp [phiM_at_zero]
  rw [h3] at h2 hg
  have h4 := phi0_norm hL (show 0 ≤ h - 0 by linarith) (D 0)
  linarith

/-- the curve `φ0(sL) a + s φ1(sL) v + s² φ2(sL) w` -/
noncomputable def phiCurve (L : Mat n) (a v w : Vec n) (s : ℝ) : Vec n :=
  phiM 0 (s • L) *ᵥ a + (s ^ (0 + 1) • phiM (0 + 1) (s • L)) *ᵥ v + (s ^ (1 + 1) • phiM (1 + 1) (s • L)) *ᵥ w

theorem phiCurve_deriv (L : Mat n) (a v w : Vec n) (s : ℝ) : HasDerivAt (phiCurve L a v w) (L *ᵥ phiCurve L a v w s + (v + s • w)) s := by
  have h0 := hasDerivAt_mulVec_const (hasDerivAt_phiM_zero L s) a
  have h1 := hasDerivAt_mulVec_const (hasDerivAt_phiM_succ 0 L s) v
  have h2 := hasDerivAt_mulVec_const (hasDerivAt_phiM_succ 1 L s) w
  refine ((h0.add h1).add h2).congr_deriv ?_
  have r0 : phiM 0 (s • L) = (s • L) * phiM (0 + 1) (s • L) + 1 := by
    rw [phiM_recurrence 0 (s • L)]; simp
  have r1 : phiM 1 (s • L) = (s • L) * phiM (1 + 1) (s • L) + 1 := by
    rw [phiM_recurrence 1 (s • L)]; simp
  have e1 : (s ^ 0 • phiM 0 (s • L)) *ᵥ v = L *ᵥ ((s ^ (0 + 1) • phiM (0 + 1) (s • L)) *ᵥ v) + v := by
    conv_lhs => rw [r0]
    rw [pow_zero, one_smul, add_mulVec, one_mulVec, mulVec_mulVec, zero_add, pow_one, smul_mul_assoc, mul_smul_comm]
  have e2 : (s ^ 1 • phiM 1 (s • L)) *ᵥ w = L *ᵥ ((s ^ (1 + 1) • phiM (1 + 1) (s • L)) *ᵥ w) + s • w := by
    conv_lhs => rw [r1]
    rw [pow_one, smul_add, add_mulVec, smul_mulVec s 1, one_mulVec, mulVec_mulVec, smul_mul_assoc, mul_smul_comm, smul_smul, show s ^ (1 + 1) = s * s by ring]
  rw [e1, e2, phiCurve, mulVec_add, mulVec_add, ← mulVec_mulVec a L (phiM 0 (s • L))]
  abel

theorem phiCurve_zero (L : Mat n) (a v w : Vec n) : phiCurve L a v w 0 = a := by
  simp [phiCurve, phiM_at_zero]

/-- comparison with the curve -/
theorem phiCurve_compare {L : Mat n} (hL : Dissipative L) {X q : ℝ → Vec n} (hX : ∀ s, HasDerivAt X (L *ᵥ X s + q s) s) (a v w : Vec n) (c : ℝ) (p : ℕ)
    {h : ℝ} (hh : 0 ≤ h) (hr : ∀ s, 0 ≤ s → s ≤ h → norm2 (q s - v - s • w) ≤ c * s ^ p) :
    norm2 (X h - phiCurve L a v w h) ≤ norm2 (X 0 - a) + c * h ^ (p + 1) / (p + 1) := by
  have := duhamel_norm hL (D := fun s => X s - phiCurve L a v w s) (r := fun s => q s - v - s • w) (fun s => by
    refine ((hX s).sub (phiCurve_deriv L a v w s)).congr_deriv ?_
    rw [mulVec_sub]
    abel) c p hh hr
  simpa only [phiCurve_zero] using this

theorem phiCurve_norm {L : Mat n} (hL : Dissipative L) (a v w : Vec n) {h : ℝ} (hh : 0 ≤ h) :
    norm2 (phiCurve L a v w h) ≤ norm2 a + norm2 v * h + norm2 w * h ^ 2 / 2 := by
  have e : phiCurve L a v w h = phiCurve L a 0 0 h + phiCurve L 0 v 0 h + phiCurve L 0 0 w h := by simp [phiCurve]
  have z : ∀ s : ℝ, phiCurve L (0 : Vec n) 0 0 s = 0 := fun s => by simp [phiCurve]
  have h1 : norm2 (phiCurve L a 0 0 h) ≤ norm2 a := by
    have : phiCurve L a 0 0 h = phiM 0 (h • L) *ᵥ a := by simp [phiCurve]
    rw [this]; exact phi0_norm hL hh a
  have h2 : norm2 (phiCurve L 0 v 0 h) ≤ norm2 v * h := by
    have := duhamel_norm hL (D := phiCurve L 0 v 0) (r := fun _ => v) (fun s => by simpa using phiCurve_deriv L 0 v 0 s) (norm2 v) 0 hh
      (fun s _ _ => by simp)
    rw [phiCurve_zero, norm2_zero] at this
    simpa using this
  have h3 : norm2 (phiCurve L 0 0 w h) ≤ norm2 w * h ^ 2 / 2 := by
    have := duhamel_norm hL (D := phiCurve L 0 0 w) (r := fun s => s • w) (fun s => by simpa using phiCurve_deriv L 0 0 w s) (norm2 w) 1 hh
      (fun s hs _ => by rw [norm2_smul, abs_of_nonneg hs, pow_one, mul_comm])
    rw [phiCurve_zero, norm2_zero] at this
    norm_num at this ⊢
    exact this
  rw [e]
  have := norm2_add_le (phiCurve L a 0 0 h + phiCurve L 0 v 0 h) (phiCurve L 0 0 w h)
  have := norm2_add_le (phiCurve L a 0 0 h) (phiCurve L 0 v 0 h)
  linarith

theorem phiCurve_sub (L : Mat n) (a v w a' v' w' : Vec n) (h : ℝ) :
    phiCurve L a v w h - phiCurve L a' v' w' h = phiCurve L (a - a') (v - v') (w - w') h := by
  simp only [phiCurve, mulVec_sub]
  abel

/-! ### the stages -/

variable {f : ℝ → Vec n → Vec n} {L : Mat n} {Y D : ℝ → Vec n} {t0 l M M2 : ℝ}

/-- the exponential Euler value -/
noncomputable def stage1 (f : ℝ → Vec n → Vec n) (L : Mat n) (t h : ℝ) (y : Vec n) : Vec n := phiCurve L y (nonl f L t y) 0 h

/-- the second-order update from an approximation `U` of the solution at `t + c h` -/
noncomputable def stage2 (f : ℝ → Vec n → Vec n) (L : Mat n) (t h c : ℝ) (y U : Vec n) : Vec n :=
  phiCurve L y (nonl f L t y) ((c * h)⁻¹ • (nonl f L (t + c * h) U - nonl f L t y)) h

theorem shifted_solution (hp : StiffProblem f L Y t0 l M) (t s : ℝ) :
    HasDerivAt (fun s => Y (t + s)) (L *ᵥ Y (t + s) + nonl f L (t + s) (Y (t + s))) s := by
  refine (shift_deriv hp.sol t s).congr_deriv ?_
  unfold nonl
  abel

theorem stage1_err (hp : StiffProblem f L Y t0 l M) {t : ℝ} (ht : t0 ≤ t) {h : ℝ} (hh : 0 ≤ h) :
    norm2 (stage1 f L t h (Y t) - Y (t + h)) ≤ M * h ^ 2 / 2 := by
  have := phiCurve_compare hp.diss (shifted_solution hp t) (Y t) (nonl f L t (Y t)) 0 M 1 hh (fun s hs _ => by
    rw [smul_zero, sub_zero, pow_one]; exact hp.rate t s ht hs)
  rw [add_zero, sub_self, norm2_zero] at this
  rw [← norm2_neg, neg_sub]
  unfold stage1
  norm_num at this ⊢
  exact this

theorem stage1_stab (hp : StiffProblem f L Y t0 l M) (t : ℝ) {h : ℝ} (hh : 0 ≤ h) (x y : Vec n) :
    norm2 (stage1 f L t h x - stage1 f L t h y) ≤ (1 + l * h) * norm2 (x - y) := by
  unfold stage1
  rw [phiCurve_sub]
  have h1 := phiCurve_norm hp.diss (x - y) (nonl f L t x - nonl f L t y) (0 - 0) hh
  have h2 := mul_le_mul_of_nonneg_right (hp.lip t x y) hh
  rw [sub_zero, norm2_zero] at h1
  rw [sub_zero]
  linarith

theorem stage2_err (hp : StiffProblem f L Y t0 l M) (hq : StiffSmooth f L Y D t0 M2) {t : ℝ} (ht : t0 ≤ t) {h : ℝ} (hh : 0 < h) {c : ℝ} (hc : 0 < c)
    (hc1 : c ≤ 1) (U : Vec n) :
    norm2 (stage2 f L t h c (Y t) U - Y (t + h)) ≤ M2 * h ^ 3 / 2 + l * h / (2 * c) * norm2 (U - Y (t + c * h)) := by
  have hch : 0 < c * h := mul_pos hc hh
  obtain ⟨η, hη⟩ : ∃ η, η = norm2 (U - Y (t + c * h)) := ⟨_, rfl⟩
  have key := phiCurve_compare hp.diss (shifted_solution hp t) (Y t) (nonl f L t (Y t)) ((c * h)⁻¹ • (nonl f L (t + c * h) U - nonl f L t (Y t)))
    (M2 * h + l * η / (c * h)) 1 hh.le (fun s hs hsh => by
      have e : nonl f L (t + s) (Y (t + s)) - nonl f L t (Y t) - s • ((c * h)⁻¹ • (nonl f L (t + c * h) U - nonl f L t (Y t))) =
          (nonl f L (t + s) (Y (t + s)) - nonl f L t (Y t) - s • D t) -
          (s * (c * h)⁻¹) • (nonl f L (t + c * h) (Y (t + c * h)) - nonl f L t (Y t) - (c * h) • D t) -
          (s * (c * h)⁻¹) • (nonl f L (t + c * h) U - nonl f L (t + c * h) (Y (t + c * h))) := by
        have : s • D t = (s * (c * h)⁻¹) • ((c * h) • D t) := by rw [smul_smul, mul_assoc, inv_mul_cancel₀ hch.ne', mul_one]
        rw [this]
        module
      rw [e]
      have hs' : 0 ≤ s * (c * h)⁻¹ := mul_nonneg hs (inv_nonneg.2 hch.le)
      have a1 := norm2_sub_le ((nonl f L (t + s) (Y (t + s)) - nonl f L t (Y t) - s • D t) -
          (s * (c * h)⁻¹) • (nonl f L (t + c * h) (Y (t + c * h)) - nonl f L t (Y t) - (c * h) • D t))
          ((s * (c * h)⁻¹) • (nonl f L (t + c * h) U - nonl f L (t + c * h) (Y (t + c * h))))
      have a2 := norm2_sub_le (nonl f L (t + s) (Y (t + s)) - nonl f L t (Y t) - s • D t)
          ((s * (c * h)⁻¹) • (nonl f L (t + c * h) (Y (t + c * h)) - nonl f L t (Y t) - (c * h) • D t))
      rw [norm2_smul, abs_of_nonneg hs'] at a1 a2
      have a3 := hq.curv t s ht hs
      have a4 := mul_le_mul_of_nonneg_left (hq.curv t (c * h) ht hch.le) hs'
      have a5 := mul_le_mul_of_nonneg_left (hp.lip (t + c * h) U (Y (t + c * h))) hs'
      rw [← hη] at a5
      have b1 : s * (c * h)⁻¹ * (M2 / 2 * (c * h) ^ 2) = M2 / 2 * (c * h) * s := by field_simp
      have b2 : s * (c * h)⁻¹ * (l * η) = l * η / (c * h) * s := by field_simp
      rw [b1] at a4
      rw [b2] at a5
      have b3 : M2 / 2 * s ^ 2 ≤ M2 / 2 * h * s := by
        have := mul_le_mul_of_nonneg_left hsh (mul_nonneg (show 0 ≤ M2 / 2 by linarith [hq.curv_nonneg]) hs)
        calc M2 / 2 * s ^ 2 = M2 / 2 * s * s := by ring
          _ ≤ M2 / 2 * s * h := this
          _ = _ := by ring
      have b4 : M2 / 2 * (c * h) * s ≤ M2 / 2 * h * s := by
        have : c * h ≤ h := by nlinarith
        exact mul_le_mul_of_nonneg_right (mul_le_mul_of_nonneg_left this (by linarith [hq.curv_nonneg])) hs
      rw [pow_one, add_mul]
      have b5 : M2 * h * s = M2 / 2 * h * s + M2 / 2 * h * s := by ring
      linarith)
  rw [add_zero, sub_self, norm2_zero, zero_add] at key
  rw [← norm2_neg, neg_sub]
  refine key.trans (le_of_eq ?_)
  rw [← hη]
  norm_num
  field_simp

theorem stage2_stab (hp : StiffProblem f L Y t0 l M) (t : ℝ) {h : ℝ} (hh : 0 < h) {c : ℝ} (hc : 0 < c) (x y U V : Vec n) :
    norm2 (stage2 f L t h c x U - stage2 f L t h c y V) ≤ (1 + l * h + l * h / (2 * c)) * norm2 (x - y) + l * h / (2 * c) * norm2 (U - V) := by
  have hch : 0 < c * h := mul_pos hc hh
  unfold stage2
  rw [phiCurve_sub]
  refine (phiCurve_norm hp.diss _ _ _ hh.le).trans ?_
  have e : (c * h)⁻¹ • (nonl f L (t + c * h) U - nonl f L t x) - (c * h)⁻¹ • (nonl f L (t + c * h) V - nonl f L t y) =
      (c * h)⁻¹ • ((nonl f L (t + c * h) U - nonl f L (t + c * h) V) - (nonl f L t x - nonl f L t y)) := by module
  rw [e, norm2_smul, abs_of_pos (inv_pos.2 hch)]
  have h1 := norm2_sub_le (nonl f L (t + c * h) U - nonl f L (t + c * h) V) (nonl f L t x - nonl f L t y)
  have h2 := hp.lip t x y
  have h3 := hp.lip (t + c * h) U V
  have h4 : norm2 ((nonl f L (t + c * h) U - nonl f L (t + c * h) V) - (nonl f L t x - nonl f L t y)) ≤ l * norm2 (U - V) + l * norm2 (x - y) := by
    linarith
  have h5 : (c * h)⁻¹ * norm2 ((nonl f L (t + c * h) U - nonl f L (t + c * h) V) - (nonl f L t x - nonl f L t y)) * h ^ 2 / 2 ≤
      (c * h)⁻¹ * (l * norm2 (U - V) + l * norm2 (x - y)) * h ^ 2 / 2 := by
    have := inv_pos.2 hch
    gcongr
  have h6 : (c * h)⁻¹ * (l * norm2 (U - V) + l * norm2 (x - y)) * h ^ 2 / 2 = l * h / (2 * c) * norm2 (U - V) + l * h / (2 * c) * norm2 (x - y) := by
    field_simp
  have h7 := mul_le_mul_of_nonneg_right h2 hh.le
  rw [h6] at h5
  linarith

/-! ### the updates of the code -/

theorem stage1_eq (t h : ℝ) (y : Vec n) : y + h • (phiM 1 (h • L) *ᵥ f t y) = stage1 f L t h y := by
  have e : f t y = nonl f L t y + L *ᵥ y := by unfold nonl; abel
  have r : (h • phiM 1 (h • L)) * L = phiM 0 (h • L) - 1 := by
    have := phiM_recurrence' 0 (h • L)
    rw [mul_smul_comm] at this
    rw [smul_mul_assoc]
    simpa using this
  rw [← smul_mulVec, e, mulVec_add, mulVec_mulVec, r, sub_mulVec, one_mulVec]
  simp only [stage1, phiCurve, zero_add, pow_one, mulVec_zero, add_zero]
  abel

theorem rem_eq (t s : ℝ) (y U : Vec n) : f s U - f t y - L *ᵥ (U - y) = nonl f L s U - nonl f L t y := by
  unfold nonl
  rw [mulVec_sub]
  abel

theorem stage2_eq (t : ℝ) {h c : ℝ} (hh : 0 < h) (hc : 0 < c) (y U : Vec n) :
    y + h • (phiM 1 (h • L) *ᵥ f t y) + (h / c) • (phiM 2 (h • L) *ᵥ (f (t + c * h) U - f t y - L *ᵥ (U - y))) = stage2 f L t h c y U := by
  rw [stage1_eq, rem_eq]
  have e : h / c = h ^ (1 + 1) * (c * h)⁻¹ := by field_simp
  rw [e, mul_smul, ← mulVec_smul, ← smul_mulVec]
  simp only [stage1, stage2, phiCurve, mulVec_zero, add_zero]

theorem exp2_eq (t : ℝ) {h c : ℝ} (hh : 0 < h) (hc : 0 < c) (y : Vec n) : exp2Update f L t y h c = stage2 f L t h c y (stage1 f L t (c * h) y) := by
  rw [← stage2_eq t hh hc, ← stage1_eq]
  rfl

theorem exp3_eq (t : ℝ) {h : ℝ} (hh : 0 < h) (y : Vec n) :
    exp3Update f L t y h = stage2 f L t h (2 / 3) y (stage2 f L t (2 / 3 * h) 1 y (stage1 f L t (1 * (2 / 3 * h)) y)) := by
  have h1 : (0 : ℝ) < 2 / 3 * h := by positivity
  rw [← stage2_eq t hh (by norm_num : (0 : ℝ) < 2 / 3), ← stage2_eq t h1 one_pos, ← stage1_eq]
  have e : h / (2 / 3) = 3 / 2 * h := by ring
  rw [e]
  simp only [one_mul, div_one]
  rfl

/-! ### one step -/

theorem exp2_err (hp : StiffProblem f L Y t0 l M) (hq : StiffSmooth f L Y D t0 M2) {t : ℝ} (ht : t0 ≤ t) {h : ℝ} (hh : 0 < h) {c : ℝ} (hc : 0 < c)
    (hc1 : c ≤ 1) : norm2 (exp2Update f L t (Y t) h c - Y (t + h)) ≤ h ^ 3 * (M2 / 2 + l * M / 4) := by
  rw [exp2_eq t hh hc]
  have hch : 0 < c * h := mul_pos hc hh
  refine (stage2_err hp hq ht hh hc hc1 _).trans ?_
  have h1 := mul_le_mul_of_nonneg_left (stage1_err hp ht hch.le) (div_nonneg (mul_nonneg hp.lip_nonneg hh.le) (by positivity : 0 ≤ 2 * c))
  have h2 : l * h / (2 * c) * (M * (c * h) ^ 2 / 2) = c * (h ^ 3 * (l * M / 4)) := by field_simp; ring
  rw [h2] at h1
  have h3 : 0 ≤ h ^ 3 * (l * M / 4) := by have := hp.lip_nonneg; have := hp.rate_nonneg; positivity
  have h4 := mul_le_mul_of_nonneg_right hc1 h3
  linarith

theorem exp2_stab (hp : StiffProblem f L Y t0 l M) (t : ℝ) {h : ℝ} (hh : 0 < h) {c : ℝ} (hc : 0 < c) (x y : Vec n) :
    norm2 (exp2Update f L t x h c - exp2Update f L t y h c) ≤ (1 + l * h + l * h / c + (l * h) ^ 2 / 2) * norm2 (x - y) := by
  rw [exp2_eq t hh hc, exp2_eq t hh hc]
  have hch : 0 < c * h := mul_pos hc hh
  refine (stage2_stab hp t hh hc _ _ _ _).trans ?_
  have h1 := mul_le_mul_of_nonneg_left (stage1_stab hp t hch.le x y) (div_nonneg (mul_nonneg hp.lip_nonneg hh.le) (by positivity : 0 ≤ 2 * c))
  refine (add_le_add_right h1 _).trans (le_of_eq ?_)
  field_simp
  ring

theorem exp3_err (hp : StiffProblem f L Y t0 l M) (hq : StiffSmooth f L Y D t0 M2) {t : ℝ} (ht : t0 ≤ t) {h : ℝ} (hh : 0 < h) :
    norm2 (exp3Update f L t (Y t) h - Y (t + h)) ≤ h ^ 3 * (M2 / 2 + l * M / 4) * (1 + l * h / 4) := by
  have h0 : (0 : ℝ) < 2 / 3 * h := by positivity
  have hl := hp.lip_nonneg
  have hM := hp.rate_nonneg
  have hM2 := hq.curv_nonneg
  rw [exp3_eq t hh]
  refine (stage2_err hp hq ht hh (by norm_num : (0 : ℝ) < 2 / 3) (by norm_num) _).trans ?_
  have h1 := exp2_err hp hq ht h0 one_pos le_rfl
  rw [exp2_eq t h0 one_pos] at h1
  have h2 := mul_le_mul_of_nonneg_left h1 (by positivity : 0 ≤ l * h / (2 * (2 / 3)))
  refine (add_le_add_right h2 _).trans ?_
  have h3 : 0 ≤ h ^ 3 * (l * M / 4) := by positivity
  have h4 : 0 ≤ h ^ 3 * (M2 / 2 + l * M / 4) * (l * h) := by positivity
  have e : l * h / (2 * (2 / 3)) * ((2 / 3 * h) ^ 3 * (M2 / 2 + l * M / 4)) = 2 / 9 * (h ^ 3 * (M2 / 2 + l * M / 4) * (l * h)) := by ring
  rw [e]
  linarith

theorem exp3_stab (hp : StiffProblem f L Y t0 l M) (t : ℝ) {h : ℝ} (hh : 0 < h) (x y : Vec n) :
    norm2 (exp3Update f L t x h - exp3Update f L t y h) ≤ (1 + 5 / 2 * (l * h) + (l * h) ^ 2 + (l * h) ^ 3 / 6) * norm2 (x - y) := by
  have h0 : (0 : ℝ) < 2 / 3 * h := by positivity
  have hl := hp.lip_nonneg
  rw [exp3_eq t hh, exp3_eq t hh]
  refine (stage2_stab hp t hh (by norm_num : (0 : ℝ) < 2 / 3) _ _ _ _).trans ?_
  have h1 := exp2_stab hp t h0 one_pos x y
  rw [exp2_eq t h0 one_pos, exp2_eq t h0 one_pos] at h1
  have h2 := mul_le_mul_of_nonneg_left h1 (by positivity : 0 ≤ l * h / (2 * (2 / 3)))
  refine (add_le_add_right h2 _).trans (le_of_eq ?_)
  ring

/-! ### the whole run -/

/-- the errors of a stable recursion -/
theorem stable_sum {e : ℕ → ℝ} {q d : ℝ} (hq : 1 ≤ q) (hd : 0 ≤ d) (h0 : e 0 = 0) (h : ∀ k, e (k + 1) ≤ q * e k + d) : ∀ k : ℕ, e k ≤ q ^ k * (k * d)
  | 0 => by simp [h0]
  | k + 1 => by
    have ih := mul_le_mul_of_nonneg_left (stable_sum hq hd h0 h k) (by linarith : 0 ≤ q)
    have h1 : d ≤ q ^ (k + 1) * d := le_mul_of_one_le_left hd (one_le_pow₀ hq)
    have h2 : q * (q ^ k * (k * d)) = q ^ (k + 1) * (k * d) := by ring
    rw [h2] at ih
    have := h k
    push_cast
    rw [add_mul, one_mul, mul_add]
    linarith

theorem stable_run {Φ : ℝ → Vec n → Vec n} {dt q x d : ℝ} (hdt : 0 ≤ dt) (hq : 1 ≤ q) (hx : q ≤ Real.exp x) (hd : 0 ≤ d)
    (hs : ∀ t a b, norm2 (Φ t a - Φ t b) ≤ q * norm2 (a - b)) (hdef : ∀ t, t0 ≤ t → norm2 (Φ t (Y t) - Y (t + dt)) ≤ d) (k : ℕ) :
    norm2 (iterSeq Φ t0 dt (Y t0) k - Y (t0 + k * dt)) ≤ Real.exp (k * x) * (k * d) := by
  have := stable_sum (e := fun k => norm2 (iterSeq Φ t0 dt (Y t0) k - Y (t0 + k * dt))) hq hd (by simp [iterSeq, norm2_zero]) (fun k => by
    have e : t0 + ((k + 1 : ℕ) : ℝ) * dt = t0 + k * dt + dt := by push_cast; ring
    simp only [iterSeq]
    rw [e]
    have h1 := norm2_add_le (Φ (t0 + k * dt) (iterSeq Φ t0 dt (Y t0) k) - Φ (t0 + k * dt) (Y (t0 + k * dt))) (Φ (t0 + k * dt) (Y (t0 + k * dt)) - Y (t0 + k * dt + dt))
    rw [sub_add_sub_cancel] at h1
    have h2 := hs (t0 + k * dt) (iterSeq Φ t0 dt (Y t0) k) (Y (t0 + k * dt))
    have h3 := hdef (t0 + k * dt) (by have : (0 : ℝ) ≤ k * dt := by positivity
                                      linarith)
    linarith) k
  refine this.trans (mul_le_mul_of_nonneg_right ?_ (by positivity))
  rw [Real.exp_nat_mul]
  exact pow_le_pow_left₀ (by linarith) hx k

/-- the values of a run of a splitting method -/
theorem split_run {K : Kernels n} (hK : ExactKernels K) (sys : OdeSys n P) (lop : LinOp n) (hl : ∀ t y, sys.fl t y = lop)
    (L : Mat n) (hd : lop.dense = .ok L) (hL : IsMatrix lop L) (m : String) (p : ℕ) (hm : (m, p) ∈ splitOrders) (y0 : Vec n) (t0 dt : ℝ) (N : ℕ)
    (s : ExpSplit n) (hnew : ExpSplit.new t0 y0 m = .ok s) {Q W : Type} (before : Option (W → ℝ → Vec n → P × W))
    (after : Option (W → ℝ → Vec n → Q × W)) (w : W) :
    ∃ l, integrateOrmatex (splitStepper K sys) s y0 t0 dt N before after w = .ok l ∧
      l.tRes = (List.range (N + 1)).map (fun i : ℕ => t0 + i * dt) ∧
      l.yRes = (List.range (N + 1)).map (iterSeq (splitMap m (sys.frhs none) L dt) t0 dt y0) := by
  set u := iterSeq (splitMap m (sys.frhs none) L dt) t0 dt y0 with hu
  exact run_seq (splitStepper K sys) (fun (o : ExpSplit n) k => At o.base (t0 + k * dt) (u k) ∧ o.base.method = m ∧
    Coherent K lop o ∧ (Nonempty2 o.base ∧ 0 < o.base.yHist.maxlen ∧ o.base.tHist.maxlen = o.base.yHist.maxlen)) u t0 dt before after
    (by
      rintro o k kw - ⟨g1, g2, g3, g4⟩
      obtain ⟨o', hst, hb'⟩ := split_step_closed hK sys lop hl L hd hL o _ _ g1 g3 kw dt p (by rw [g2]; exact hm)
      rw [g2] at hst
      rw [← hb'] at g4
      refine ⟨StepResult.mk (t0 + k * dt + dt) dt (u (k + 1)) (-1), o', hst, rfl, rfl, ?_, by rw [← g2, ← hb']; rfl,
        dense_step_coherent K sys lop hl o o' g3 dt kw _ hst, accept_nonempty g4 _⟩
      have := at_accept g4.2 (StepResult.mk (t0 + k * dt + dt) dt (u (k + 1)) (-1))
      have e : t0 + ((k + 1 : ℕ) : ℝ) * dt = t0 + k * dt + dt := by push_cast; ring
      rw [e]
      exact this)
    s (by
      have hco : Coherent K lop s := new_coherent K lop hnew
      have hmm := ((C09_construct_others (n := n) t0 y0 m).2.1 s hnew).1
      unfold ExpSplit.new at hnew
      split at hnew
      · cases hnew
      · rename_i o _
        cases hb : Base.init t0 y0 o m with
        | error e => rw [hb] at hnew; cases hnew
        | ok bb =>
          rw [hb] at hnew
          cases hnew
          exact ⟨by simpa [hu, iterSeq] using at_init hb, hmm, hco, init_nonempty hb⟩) N w

/-- **C132, order 1.**  On a semilinear problem whose linear part is dissipative (however stiff), a run of `exp1` or `exp1_dense` with any step size is
within `exp(l T) · T · M dt / 2` of the solution after the time `T = k dt`; the bound contains no norm of the linear part. -/
theorem C132_order1 {K : Kernels n} (hK : ExactKernels K) (sys : OdeSys n P) (lop : LinOp n) (hl : ∀ t y, sys.fl t y = lop)
    (L : Mat n) (hd : lop.dense = .ok L) (hL : IsMatrix lop L) (m : String) (hm : m = "exp1" ∨ m = "exp1_dense") {Y : ℝ → Vec n} {t0 lip M : ℝ}
    (hp : StiffProblem (sys.frhs none) L Y t0 lip M) (dt : ℝ) (hdt : 0 < dt) (N : ℕ) (s : ExpSplit n) (hnew : ExpSplit.new t0 (Y t0) m = .ok s)
    {Q W : Type} (before : Option (W → ℝ → Vec n → P × W)) (after : Option (W → ℝ → Vec n → Q × W)) (w : W) :
    ∃ (l : LoopState (ExpSplit n) P Q W (Vec n)) (u : ℕ → Vec n),
      integrateOrmatex (splitStepper K sys) s (Y t0) t0 dt N before after w = .ok l ∧
      l.tRes = (List.range (N + 1)).map (fun i : ℕ => t0 + i * dt) ∧ l.yRes = (List.range (N + 1)).map u ∧
      ∀ k : ℕ, norm2 (u k - Y (t0 + k * dt)) ≤ Real.exp (lip * (k * dt)) * (k * dt) * (M * dt / 2) := by
  obtain ⟨l, e1, e2, e3⟩ := split_run hK sys lop hl L hd hL m 1 (by rcases hm with rfl | rfl <;> simp [splitOrders]) (Y t0) t0 dt N s hnew before after w
  refine ⟨l, _, e1, e2, e3, fun k => ?_⟩
  have hmap : splitMap m (sys.frhs none) L dt = fun t y => stage1 (sys.frhs none) L t dt y := by
    funext t y
    rw [← stage1_eq]
    rcases hm with rfl | rfl <;> simp [splitMap]
  have hx : 0 ≤ lip * dt := mul_nonneg hp.lip_nonneg hdt.le
  have hM := hp.rate_nonneg
  rw [hmap]
  refine (stable_run (q := 1 + lip * dt) (x := lip * dt) (d := M * dt ^ 2 / 2) hdt.le (by linarith) (by linarith [Real.add_one_le_exp (lip * dt)]) (by positivity)
    (fun t a b => stage1_stab hp t hdt.le a b) (fun t ht => stage1_err hp ht hdt.le) k).trans (le_of_eq ?_)
  rw [show (k : ℝ) * (lip * dt) = lip * (k * dt) by ring]
  ring

theorem quad_exp {x : ℝ} (hx : 0 ≤ x) : 1 + 5 / 2 * x + x ^ 2 + x ^ 3 / 6 ≤ Real.exp (5 / 2 * x) := by
  have h := Real.sum_le_exp_of_nonneg (x := 5 / 2 * x) (by positivity) 4
  simp only [Finset.sum_range_succ, Finset.sum_range_zero, Nat.factorial] at h
  norm_num at h
  have h1 : 0 ≤ x ^ 2 := by positivity
  have h2 : 0 ≤ x ^ 3 := by positivity
  nlinarith

/-- **C132, order 2.**  If moreover the remainder is twice differentiable along the solution, a run of `exp2`, `exp3` or their dense variants with any step
size is within `exp(5/2 l T) · T · dt² (M2 / 2 + l M / 4) (1 + l dt / 4)` of the solution: second order, uniformly in the stiffness. -/
theorem C132_order2 {K : Kernels n} (hK : ExactKernels K) (sys : OdeSys n P) (lop : LinOp n) (hl : ∀ t y, sys.fl t y = lop)
    (L : Mat n) (hd : lop.dense = .ok L) (hL : IsMatrix lop L) (m : String) (hm : m = "exp2" ∨ m = "exp3" ∨ m = "exp2_dense" ∨ m = "exp3_dense")
    {Y D : ℝ → Vec n} {t0 lip M M2 : ℝ} (hp : StiffProblem (sys.frhs none) L Y t0 lip M) (hq : StiffSmooth (sys.frhs none) L Y D t0 M2) (dt : ℝ) (hdt : 0 < dt)
    (N : ℕ) (s : ExpSplit n) (hnew : ExpSplit.new t0 (Y t0) m = .ok s)
    {Q W : Type} (before : Option (W → ℝ → Vec n → P × W)) (after : Option (W → ℝ → Vec n → Q × W)) (w : W) :
    ∃ (l : LoopState (ExpSplit n) P Q W (Vec n)) (u : ℕ → Vec n),
      integrateOrmatex (splitStepper K sys) s (Y t0) t0 dt N before after w = .ok l ∧
      l.tRes = (List.range (N + 1)).map (fun i : ℕ => t0 + i * dt) ∧ l.yRes = (List.range (N + 1)).map u ∧
      ∀ k : ℕ, norm2 (u k - Y (t0 + k * dt)) ≤
        Real.exp (5 / 2 * lip * (k * dt)) * (k * dt) * (dt ^ 2 * (M2 / 2 + lip * M / 4) * (1 + lip * dt / 4)) := by
  obtain ⟨l, e1, e2, e3⟩ : ∃ l, integrateOrmatex (splitStepper K sys) s (Y t0) t0 dt N before after w = .ok l ∧
      l.tRes = (List.range (N + 1)).map (fun i : ℕ => t0 + i * dt) ∧
      l.yRes = (List.range (N + 1)).map (iterSeq (splitMap m (sys.frhs none) L dt) t0 dt (Y t0)) := by
    rcases hm with rfl | rfl | rfl | rfl
    · exact split_run hK sys lop hl L hd hL _ 2 (by simp [splitOrders]) (Y t0) t0 dt N s hnew before after w
    · exact split_run hK sys lop hl L hd hL _ 3 (by simp [splitOrders]) (Y t0) t0 dt N s hnew before after w
    · exact split_run hK sys lop hl L hd hL _ 2 (by simp [splitOrders]) (Y t0) t0 dt N s hnew before after w
    · exact split_run hK sys lop hl L hd hL _ 3 (by simp [splitOrders]) (Y t0) t0 dt N s hnew before after w
  refine ⟨l, _, e1, e2, e3, fun k => ?_⟩
  have hlip := hp.lip_nonneg
  have hx : 0 ≤ lip * dt := mul_nonneg hlip hdt.le
  have hM := hp.rate_nonneg
  have hM2 := hq.curv_nonneg
  have hone : (1 : ℝ) ≤ 1 + lip * dt / 4 := by linarith
  have hbase : 0 ≤ dt ^ 3 * (M2 / 2 + lip * M / 4) := by positivity
  have hst2 : ∀ c : ℝ, 0 < c → 2 / 3 ≤ c → ∀ t a b, norm2 (exp2Update (sys.frhs none) L t a dt c - exp2Update (sys.frhs none) L t b dt c) ≤
      (1 + 5 / 2 * (lip * dt) + (lip * dt) ^ 2 + (lip * dt) ^ 3 / 6) * norm2 (a - b) := by
    intro c hc hc2 t a b
    refine (exp2_stab hp t hdt hc a b).trans (mul_le_mul_of_nonneg_right ?_ (norm2_nonneg _))
    have h1 : lip * dt / c ≤ 3 / 2 * (lip * dt) := by
      rw [div_le_iff₀ hc]
      nlinarith
    have h2 : 0 ≤ (lip * dt) ^ 3 := by positivity
    have h3 : 0 ≤ (lip * dt) ^ 2 := by positivity
    linarith
  have hdf2 : ∀ c : ℝ, 0 < c → c ≤ 1 → ∀ t, t0 ≤ t → norm2 (exp2Update (sys.frhs none) L t (Y t) dt c - Y (t + dt)) ≤
      dt ^ 3 * (M2 / 2 + lip * M / 4) * (1 + lip * dt / 4) := fun c hc hc1 t ht =>
    (exp2_err hp hq ht hdt hc hc1).trans (le_mul_of_one_le_right hbase hone)
  have hfin : ∀ Φ : ℝ → Vec n → Vec n, splitMap m (sys.frhs none) L dt = Φ →
      (∀ t a b, norm2 (Φ t a - Φ t b) ≤ (1 + 5 / 2 * (lip * dt) + (lip * dt) ^ 2 + (lip * dt) ^ 3 / 6) * norm2 (a - b)) →
      (∀ t, t0 ≤ t → norm2 (Φ t (Y t) - Y (t + dt)) ≤ dt ^ 3 * (M2 / 2 + lip * M / 4) * (1 + lip * dt / 4)) →
      norm2 (iterSeq (splitMap m (sys.frhs none) L dt) t0 dt (Y t0) k - Y (t0 + k * dt)) ≤
        Real.exp (5 / 2 * lip * (k * dt)) * (k * dt) * (dt ^ 2 * (M2 / 2 + lip * M / 4) * (1 + lip * dt / 4)) := by
    intro Φ hΦ h1 h2
    rw [hΦ]
    refine (stable_run hdt.le (by have : 0 ≤ (lip * dt) ^ 3 := by positivity
                                  have : 0 ≤ (lip * dt) ^ 2 := by positivity
                                  linarith) (quad_exp hx) (by positivity) h1 h2 k).trans (le_of_eq ?_)
    rw [show (k : ℝ) * (5 / 2 * (lip * dt)) = 5 / 2 * lip * (k * dt) by ring]
    ring
  rcases hm with rfl | rfl | rfl | rfl
  · exact hfin (fun t y => exp2Update (sys.frhs none) L t y dt 1) (by funext t y; simp [splitMap]) (hst2 1 one_pos (by norm_num)) (hdf2 1 one_pos le_rfl)
  · exact hfin (fun t y => exp3Update (sys.frhs none) L t y dt) (by funext t y; simp [splitMap]) (fun t a b => exp3_stab hp t hdt a b)
      (fun t ht => exp3_err hp hq ht hdt)
  · exact hfin (fun t y => exp2Update (sys.frhs none) L t y dt (2 / 3)) (by funext t y; simp [splitMap]) (hst2 _ (by norm_num) le_rfl)
      (hdf2 _ (by norm_num) (by norm_num))
  · exact hfin (fun t y => exp3Update (sys.frhs none) L t y dt) (by funext t y; simp [splitMap]) (fun t a b => exp3_stab hp t hdt a b)
      (fun t ht => exp3_err hp hq ht hdt)

/-- the hypotheses hold for a stiff problem: `y' = -1000 y + (y + 0.999 t + 0.001)` with the solution `y = t / 1000` -/
example : StiffProblem (n := 1) (fun t y => fun _ => -1000 * y 0 + (y 0 + 0.999 * t + 0.001)) (fun _ _ => -1000) (fun t _ => t / 1000) 0 1 1 ∧
    StiffSmooth (n := 1) (fun t y => fun _ => -1000 * y 0 + (y 0 + 0.999 * t + 0.001)) (fun _ _ => -1000) (fun t _ => t / 1000) (fun _ _ => 1) 0 0 := by
  have e : ∀ (t : ℝ) (y : Vec 1), nonl (n := 1) (fun t y => fun _ => -1000 * y 0 + (y 0 + 0.999 * t + 0.001)) (fun _ _ => -1000) t y =
      fun _ => y 0 + 0.999 * t + 0.001 := by
    intro t y
    funext i
    simp [nonl, mulVec, dotProduct]
  have a : ∀ v : Vec 1, norm2 v = |v 0| := by
    intro v
    unfold norm2
    simp [dotProduct, Real.sqrt_mul_self_eq_abs]
  refine ⟨StiffProblem.mk ?_ one_pos.le one_pos.le ?_ ?_ ?_, StiffSmooth.mk le_rfl ?_⟩
  · intro v
    simp [mulVec, dotProduct]
    nlinarith [mul_self_nonneg (v 0)]
  · intro t x y
    rw [e, e, a, a]
    simp
  · intro s
    rw [hasDerivAt_pi]
    intro i
    refine ((hasDerivAt_id s).div_const 1000).congr_deriv ?_
    norm_num
    ring
  · intro t s _ hs
    rw [e, e, a]
    have : ((fun _ => (t + s) / 1000 + 0.999 * (t + s) + 0.001 : Vec 1) - (fun _ => t / 1000 + 0.999 * t + 0.001 : Vec 1)) 0 = s := by
      simp only [Pi.sub_apply]; ring
    rw [this, abs_of_nonneg hs, one_mul]
  · intro t s _ hs
    rw [e, e, a]
    have : ((fun _ => (t + s) / 1000 + 0.999 * (t + s) + 0.001 : Vec 1) - (fun _ => t / 1000 + 0.999 * t + 0.001 : Vec 1) - s • (fun _ => 1 : Vec 1)) 0 = 0 := by
      simp only [Pi.sub_apply, Pi.smul_apply, smul_eq_mul]; ring
    rw [this]
    simp

end
end Ormatex.Props
