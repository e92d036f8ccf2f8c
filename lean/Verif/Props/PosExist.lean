import Verif.Props.Metzler
import Mathlib.Analysis.ODE.ExistUnique
import Mathlib.Analysis.SpecialFunctions.Pow.Deriv
import Mathlib.Analysis.Calculus.ContDiff.RCLike

/-!
Global existence for systems that keep the nonnegative orthant and whose total grows at most linearly (used for C119).
-/

namespace Ormatex.Props
open Filter Topology Set
open scoped NNReal

noncomputable section
variable {d : ℕ}

/-- the box of vectors with entries between 0 and `C` -/
def box (d : ℕ) (C : ℝ) : Set (Vec d) := {u | ∀ i, 0 ≤ u i ∧ u i ≤ C}

/-- bounded and Lipschitz on every box -/
def BoxLip (f : Vec d → ℝ) : Prop :=
  ∀ C, ∃ K B, 0 ≤ K ∧ 0 ≤ B ∧ (∀ u ∈ box d C, |f u| ≤ B) ∧ ∀ u ∈ box d C, ∀ v ∈ box d C, |f u - f v| ≤ K * ‖u - v‖

theorem boxLip_const (c : ℝ) : BoxLip (fun _ : Vec d => c) :=
  fun _ => ⟨0, |c|, le_rfl, abs_nonneg _, fun _ _ => le_rfl, fun _ _ _ _ => by simp⟩

theorem boxLip_coord (i : Fin d) : BoxLip (fun u : Vec d => u i) := by
  intro C
  refine ⟨1, |C|, zero_le_one, abs_nonneg _, fun u hu => ?_, fun u _ v _ => ?_⟩
  · rw [abs_of_nonneg (hu i).1]
    exact (hu i).2.trans (le_abs_self _)
  · rw [one_mul]
    exact norm_le_pi_norm (u - v) i

theorem BoxLip.add {f g : Vec d → ℝ} (hf : BoxLip f) (hg : BoxLip g) : BoxLip fun u => f u + g u := by
  intro C
  obtain ⟨K, B, k0, b0, h1, h2⟩ := hf C
  obtain ⟨K', B', k0', b0', h1', h2'⟩ := hg C
  refine ⟨K + K', B + B', by positivity, by positivity, fun u hu => ?_, fun u hu v hv => ?_⟩
  · exact (abs_add_le _ _).trans (add_le_add (h1 u hu) (h1' u hu))
  · rw [add_sub_add_comm, add_mul]
    exact (abs_add_le _ _).trans (add_le_add (h2 u hu v hv) (h2' u hu v hv))

theorem BoxLip.mul {f g : Vec d → ℝ} (hf : BoxLip f) (hg : BoxLip g) : BoxLip fun u => f u * g u := by
  intro C
  obtain ⟨K, B, k0, b0, h1, h2⟩ := hf C
  obtain ⟨K', B', k0', b0', h1', h2'⟩ := hg C
  refine ⟨B * K' + K * B', B * B', by positivity, by positivity, fun u hu => ?_, fun u hu v hv => ?_⟩
  · rw [abs_mul]
    exact mul_le_mul (h1 u hu) (h1' u hu) (abs_nonneg _) b0
  · have e : f u * g u - f v * g v = f u * (g u - g v) + (f u - f v) * g v := by ring
    rw [e]
    refine (abs_add_le _ _).trans ?_
    rw [abs_mul, abs_mul, add_mul]
    refine add_le_add ?_ ?_
    · rw [mul_assoc]
      exact mul_le_mul (h1 u hu) (h2' u hu v hv) (abs_nonneg _) b0
    · calc |f u - f v| * |g v| ≤ (K * ‖u - v‖) * B' := mul_le_mul (h2 u hu v hv) (h1' v hv) (abs_nonneg _) (by positivity)
        _ = K * B' * ‖u - v‖ := by ring

theorem BoxLip.neg {f : Vec d → ℝ} (hf : BoxLip f) : BoxLip fun u => -f u := by
  have := (boxLip_const (d := d) (-1)).mul hf
  simpa using this

theorem BoxLip.sub {f g : Vec d → ℝ} (hf : BoxLip f) (hg : BoxLip g) : BoxLip fun u => f u - g u := by
  simpa [sub_eq_add_neg] using hf.add hg.neg

theorem BoxLip.sum {ι : Type} (s : Finset ι) {f : ι → Vec d → ℝ} (hf : ∀ i, BoxLip (f i)) : BoxLip fun u => ∑ i ∈ s, f i u := by
  classical
  induction s using Finset.induction_on with
  | empty => simpa using boxLip_const (d := d) 0
  | insert a s ha ih =>
    simp only [Finset.sum_insert ha]
    exact (hf a).add ih

/-- powers of a quantity that stays above a positive constant -/
theorem BoxLip.rpow {f : Vec d → ℝ} (hf : BoxLip f) {c : ℝ} (hc : 0 < c) (hfc : ∀ u, (∀ i, 0 ≤ u i) → c ≤ f u) (p : ℝ) :
    BoxLip fun u => f u ^ p := by
  intro C
  obtain ⟨K, B, k0, b0, h1, h2⟩ := hf C
  have hcd : ContDiffOn ℝ 1 (fun x : ℝ => x ^ p) (Set.Icc c B) := fun x hx =>
    (Real.contDiffAt_rpow_const_of_ne (ne_of_gt (hc.trans_le hx.1))).contDiffWithinAt
  obtain ⟨L, hL⟩ := hcd.exists_lipschitzOnWith one_ne_zero (convex_Icc c B) isCompact_Icc
  have hmem : ∀ u ∈ box d C, f u ∈ Set.Icc c B := fun u hu =>
    ⟨hfc u fun i => (hu i).1, (le_abs_self _).trans (h1 u hu)⟩
  obtain ⟨M, hM⟩ := isCompact_Icc.exists_bound_of_continuousOn hcd.continuousOn
  refine ⟨L * K, |M|, by positivity, abs_nonneg _, fun u hu => (hM _ (hmem u hu)).trans (le_abs_self _), fun u hu v hv => ?_⟩
  have := hL.dist_le_mul _ (hmem u hu) _ (hmem v hv)
  rw [Real.dist_eq, Real.dist_eq] at this
  refine this.trans ?_
  rw [mul_assoc]
  exact mul_le_mul_of_nonneg_left (h2 u hu v hv) L.2

theorem BoxLip.max_const {f : Vec d → ℝ} (hf : BoxLip f) (c : ℝ) : BoxLip fun u => max (f u) c := by
  intro C
  obtain ⟨K, B, k0, b0, h1, h2⟩ := hf C
  refine ⟨K, B + |c|, k0, by positivity, fun u hu => ?_, fun u hu v hv => (abs_max_sub_max_le_abs _ _ _).trans (h2 u hu v hv)⟩
  show |max (f u) c| ≤ _
  rcases max_choice (f u) c with h | h <;> rw [h]
  · exact (h1 u hu).trans (le_add_of_nonneg_right (abs_nonneg _))
  · exact le_add_of_nonneg_left b0

/-! ### existence -/

/-- clamping to the box -/
def clampBox (C : ℝ) (u : Vec d) : Vec d := fun i => max 0 (min (u i) C)

theorem clamp_mem {C : ℝ} (hC : 0 ≤ C) (u : Vec d) : clampBox C u ∈ box d C :=
  fun i => ⟨le_max_left _ _, max_le hC (min_le_right _ _)⟩

theorem clamp_id {C : ℝ} {u : Vec d} (hu : u ∈ box d C) : clampBox C u = u :=
  funext fun i => by
    unfold clampBox
    rw [min_eq_left (hu i).2, max_eq_right (hu i).1]

theorem clamp_lip (C : ℝ) (u v : Vec d) : ‖clampBox C u - clampBox C v‖ ≤ ‖u - v‖ := by
  rw [pi_norm_le_iff_of_nonneg (norm_nonneg _)]
  intro i
  refine le_trans ?_ (norm_le_pi_norm (u - v) i)
  show |max 0 (min (u i) C) - max 0 (min (v i) C)| ≤ |u i - v i|
  rw [max_comm 0, max_comm 0]
  refine (abs_max_sub_max_le_abs _ _ _).trans ?_
  have h := abs_min_sub_min_le_max (u i) C (v i) C
  simpa using h

/-- a bounded Lipschitz field has a solution on every interval -/
theorem bounded_exists {g : Vec d → Vec d} {K : ℝ≥0} (hg : LipschitzWith K g) {L : ℝ≥0} (hb : ∀ x, ‖g x‖ ≤ L) (x0 : Vec d) (t0 : ℝ) {T : ℝ}
    (hT : 0 < T) : ∃ U : ℝ → Vec d, U t0 = x0 ∧ ∀ t ∈ Set.Ioo (t0 - T) (t0 + T), HasDerivAt U (g (U t)) t := by
  have hpl : IsPicardLindelof (fun _ => g) (tmin := t0 - T) (tmax := t0 + T) ⟨t0, by constructor <;> linarith⟩ x0 (L * ⟨T, hT.le⟩) 0 L K := by
    refine IsPicardLindelof.of_time_independent (fun x _ => hb x) (hg.lipschitzOnWith) ?_
    simp only [add_sub_cancel_left, sub_sub_cancel, max_self]
    simp only [NNReal.coe_zero, sub_zero, NNReal.coe_mul]
    exact le_rfl
  obtain ⟨U, h1, h2⟩ := hpl.exists_eq_forall_mem_Icc_hasDerivWithinAt₀
  exact ⟨U, h1, fun t ht => (h2 t (Set.Ioo_subset_Icc_self ht)).hasDerivAt (Icc_mem_nhds ht.1 ht.2)⟩

/-- **Global existence.** If `f` is Lipschitz on boxes, points inward where a component is zero, and its components sum to at
most `a` times the total plus a constant on nonnegative vectors, then from every nonnegative state there is a nonnegative
solution on every time interval. -/
theorem positive_global {f : Vec d → Vec d} (hlip : ∀ i, BoxLip fun u => f u i)
    (hq : ∀ u, (∀ i, 0 ≤ u i) → ∀ i, u i = 0 → 0 ≤ f u i) {a B : ℝ} (ha : 0 ≤ a) (hB : 0 ≤ B)
    (hg : ∀ u, (∀ i, 0 ≤ u i) → ∑ i, f u i ≤ a * ∑ i, u i + B) {y0 : Vec d} (hy0 : ∀ i, 0 ≤ y0 i) {t0 t1 : ℝ} (ht : t0 ≤ t1) :
    ∃ U : ℝ → Vec d, U t0 = y0 ∧ ∀ t ∈ Set.Icc t0 t1, HasDerivAt U (f (U t)) t ∧ (∀ i, 0 ≤ U t i) ∧
      ∑ i, U t i ≤ Real.exp (a * (t - t0)) * (∑ i, y0 i + B * (t - t0)) := by
  obtain ⟨T, hT⟩ : ∃ T, T = t1 - t0 + 1 := ⟨_, rfl⟩
  have hTpos : 0 < T := by rw [hT]; linarith
  have hS0 : 0 ≤ ∑ i, y0 i := Finset.sum_nonneg fun i _ => hy0 i
  obtain ⟨C, hC⟩ : ∃ C, C = Real.exp (a * T) * (∑ i, y0 i + B * T) := ⟨_, rfl⟩
  have hC0 : 0 ≤ C := by rw [hC]; positivity
  have hcl : ∀ i, ∃ K B, 0 ≤ K ∧ 0 ≤ B ∧ (∀ u ∈ box d C, |f u i| ≤ B) ∧ ∀ u ∈ box d C, ∀ v ∈ box d C, |f u i - f v i| ≤ K * ‖u - v‖ :=
    fun i => hlip i C
  choose Ks Bs k0 b0 hbd hlp using hcl
  have hKs : 0 ≤ ∑ i, Ks i := Finset.sum_nonneg fun i _ => k0 i
  have hBs : 0 ≤ ∑ i, Bs i := Finset.sum_nonneg fun i _ => b0 i
  have hgl : LipschitzWith ⟨∑ i, Ks i, hKs⟩ fun u => f (clampBox C u) := by
    refine LipschitzWith.of_dist_le_mul fun u v => ?_
    rw [dist_eq_norm, dist_eq_norm]
    show _ ≤ (∑ i, Ks i) * _
    rw [pi_norm_le_iff_of_nonneg (by positivity)]
    intro i
    refine (hlp i _ (clamp_mem hC0 u) _ (clamp_mem hC0 v)).trans ?_
    exact mul_le_mul (Finset.single_le_sum (fun i _ => k0 i) (Finset.mem_univ i)) (clamp_lip C u v) (norm_nonneg _) hKs
  have hgb : ∀ u, ‖f (clampBox C u)‖ ≤ (⟨∑ i, Bs i, hBs⟩ : ℝ≥0) := by
    intro u
    show _ ≤ ∑ i, Bs i
    rw [pi_norm_le_iff_of_nonneg hBs]
    intro i
    exact (hbd i _ (clamp_mem hC0 u)).trans (Finset.single_le_sum (fun i _ => b0 i) (Finset.mem_univ i))
  obtain ⟨U, hU0, hU⟩ := bounded_exists hgl hgb y0 t0 hTpos
  have hin : ∀ t ∈ Set.Icc t0 t1, t ∈ Set.Ioo (t0 - T) (t0 + T) := by
    intro t h
    have h1 := h.1
    have h2 := h.2
    constructor <;> rw [hT] <;> linarith
  have hd : ∀ t ∈ Set.Icc t0 t1, ∀ i, HasDerivAt (fun s => U s i) (f (clampBox C (U t)) i) t := fun t h i =>
    hasDerivAt_pi.1 (hU t (hin t h)) i
  have hpos : ∀ t ∈ Set.Icc t0 t1, ∀ i, 0 ≤ U t i := by
    intro s hs i
    by_contra hneg
    push Not at hneg
    have hcont : ContinuousOn (fun t => U t i) (Set.Icc t0 s) := fun t h =>
      (hd t ⟨h.1, h.2.trans hs.2⟩ i).continuousAt.continuousWithinAt
    have hcomp : IsCompact {t | t ∈ Set.Icc t0 s ∧ 0 ≤ U t i} :=
      isCompact_Icc.of_isClosed_subset (hcont.preimage_isClosed_of_isClosed isClosed_Icc (isClosed_Ici (a := (0 : ℝ)))) fun t h => h.1
    obtain ⟨τ, hτ, hmax⟩ := hcomp.exists_isGreatest ⟨t0, ⟨⟨le_rfl, hs.1⟩, by
      show 0 ≤ U t0 i
      rw [hU0]
      exact hy0 i⟩⟩
    have hmono : MonotoneOn (fun t => U t i) (Set.Icc τ s) := by
      have hsub : Set.Icc τ s ⊆ Set.Icc t0 t1 := fun t h => ⟨hτ.1.1.trans h.1, h.2.trans hs.2⟩
      refine monotoneOn_of_deriv_nonneg (convex_Icc τ s) (fun t h => (hd t (hsub h) i).continuousAt.continuousWithinAt)
        (fun t h => (hd t (hsub (interior_subset h)) i).differentiableAt.differentiableWithinAt) (fun t h => ?_)
      rw [(hd t (hsub (interior_subset h)) i).deriv]
      rw [interior_Icc] at h
      have hlt : U t i < 0 := by
        by_contra hge
        have : t ≤ τ := hmax ⟨⟨hτ.1.1.trans h.1.le, h.2.le⟩, not_lt.1 hge⟩
        exact absurd h.1 (not_lt.2 this)
      refine hq _ (fun j => (clamp_mem hC0 (U t) j).1) i ?_
      unfold clampBox
      rw [max_eq_left ((min_le_left _ _).trans hlt.le)]
    have := hmono ⟨le_rfl, hτ.1.2⟩ ⟨hτ.1.2, le_rfl⟩ hτ.1.2
    have h2 := hτ.2
    simp only at this
    linarith
  have hsum : ∀ t ∈ Set.Icc t0 t1, ∑ i, U t i ≤ Real.exp (a * (t - t0)) * (∑ i, y0 i + B * (t - t0)) := by
    intro s hs
    obtain ⟨R, hR⟩ : ∃ R : ℝ → ℝ, R = fun t => Real.exp (-(a * (t - t0))) * (∑ i, U t i) - B * (t - t0) := ⟨_, rfl⟩
    have hRd : ∀ t ∈ Set.Icc t0 t1, HasDerivAt R (Real.exp (-(a * (t - t0))) * (-a) * (∑ i, U t i)
        + Real.exp (-(a * (t - t0))) * (∑ i, f (clampBox C (U t)) i) - B) t := by
      intro t h
      rw [hR]
      have h1 : HasDerivAt (fun t => -(a * (t - t0))) (-a) t := by
        have := (((hasDerivAt_id t).sub_const t0).const_mul a).neg
        rw [mul_one] at this
        exact this
      have h2 : HasDerivAt (fun t => ∑ i, U t i) (∑ i, f (clampBox C (U t)) i) t := HasDerivAt.fun_sum fun i _ => hd t h i
      have h3 : HasDerivAt (fun t => B * (t - t0)) B t := by
        simpa using ((hasDerivAt_id t).sub_const t0).const_mul B
      exact (h1.exp.mul h2).sub h3
    have hanti : AntitoneOn R (Set.Icc t0 t1) := by
      refine antitoneOn_of_deriv_nonpos (convex_Icc t0 t1) (fun t h => (hRd t h).continuousAt.continuousWithinAt)
        (fun t h => (hRd t (interior_subset h)).differentiableAt.differentiableWithinAt) (fun t h => ?_)
      have hI := interior_subset h
      rw [(hRd t hI).deriv]
      have e0 : 0 < Real.exp (-(a * (t - t0))) := Real.exp_pos _
      have e1 : Real.exp (-(a * (t - t0))) ≤ 1 := Real.exp_le_one_iff.2 (neg_nonpos.2 (mul_nonneg ha (sub_nonneg.2 hI.1)))
      have h1 := hg _ (fun j => (clamp_mem hC0 (U t) j).1)
      have h2 : ∑ i, clampBox C (U t) i ≤ ∑ i, U t i :=
        Finset.sum_le_sum fun i _ => max_le (hpos t hI i) (min_le_left _ _)
      have h3 : ∑ i, f (clampBox C (U t)) i ≤ a * ∑ i, U t i + B := h1.trans (by
        have := mul_le_mul_of_nonneg_left h2 ha
        linarith)
      have h4 := mul_le_mul_of_nonneg_left h3 e0.le
      have h5 : Real.exp (-(a * (t - t0))) * B ≤ 1 * B := mul_le_mul_of_nonneg_right e1 hB
      linarith
    have := hanti ⟨le_rfl, ht⟩ hs hs.1
    rw [hR] at this
    simp only [sub_self, mul_zero, neg_zero, Real.exp_zero, one_mul, sub_zero, hU0] at this
    have e : Real.exp (a * (s - t0)) * Real.exp (-(a * (s - t0))) = 1 := by rw [← Real.exp_add]; simp
    calc ∑ i, U s i = Real.exp (a * (s - t0)) * (Real.exp (-(a * (s - t0))) * ∑ i, U s i) := by rw [← mul_assoc, e, one_mul]
      _ ≤ _ := mul_le_mul_of_nonneg_left (by linarith) (Real.exp_pos _).le
  refine ⟨U, hU0, fun t h => ⟨?_, hpos t h, hsum t h⟩⟩
  have hbox : U t ∈ box d C := by
    intro i
    refine ⟨hpos t h i, ?_⟩
    refine (Finset.single_le_sum (fun i _ => hpos t h i) (Finset.mem_univ i)).trans ((hsum t h).trans ?_)
    rw [hC]
    have h1 : t - t0 ≤ T := by rw [hT]; linarith [h.2]
    have h0 : 0 ≤ t - t0 := sub_nonneg.2 h.1
    exact mul_le_mul (Real.exp_le_exp.2 (mul_le_mul_of_nonneg_left h1 ha)) (add_le_add le_rfl (mul_le_mul_of_nonneg_left h1 hB))
      (by positivity) (Real.exp_pos _).le
  have := hU t (hin t h)
  rwa [clamp_id hbox] at this

/-- **Uniqueness** among nonnegative solutions. -/
theorem positive_unique {f : Vec d → Vec d} (hlip : ∀ i, BoxLip fun u => f u i) {U V : ℝ → Vec d} {t0 t1 : ℝ}
    (hU : ∀ t ∈ Set.Icc t0 t1, HasDerivAt U (f (U t)) t) (hV : ∀ t ∈ Set.Icc t0 t1, HasDerivAt V (f (V t)) t)
    (hUp : ∀ t ∈ Set.Icc t0 t1, ∀ i, 0 ≤ U t i) (hVp : ∀ t ∈ Set.Icc t0 t1, ∀ i, 0 ≤ V t i) (h0 : U t0 = V t0) :
    Set.EqOn U V (Set.Icc t0 t1) := by
  have hUc : ContinuousOn U (Set.Icc t0 t1) := fun t h => (hU t h).continuousAt.continuousWithinAt
  have hVc : ContinuousOn V (Set.Icc t0 t1) := fun t h => (hV t h).continuousAt.continuousWithinAt
  obtain ⟨C1, h1⟩ := isCompact_Icc.exists_bound_of_continuousOn hUc
  obtain ⟨C2, h2⟩ := isCompact_Icc.exists_bound_of_continuousOn hVc
  have hmem : ∀ (W : ℝ → Vec d) (C' : ℝ), (∀ t ∈ Set.Icc t0 t1, ‖W t‖ ≤ C') → (∀ t ∈ Set.Icc t0 t1, ∀ i, 0 ≤ W t i) → C' ≤ max C1 C2 →
      ∀ t ∈ Set.Icc t0 t1, W t ∈ box d (max C1 C2) := fun W C' hb hp hle t h i =>
    ⟨hp t h i, (le_abs_self _).trans ((norm_le_pi_norm (W t) i).trans ((hb t h).trans hle))⟩
  have hcl := fun i => hlip i (max C1 C2)
  choose Ks Bs k0 b0 hbd hlp using hcl
  have hKs : 0 ≤ ∑ i, Ks i := Finset.sum_nonneg fun i _ => k0 i
  refine ODE_solution_unique_of_mem_Icc_right (v := fun _ => f) (s := fun _ => box d (max C1 C2)) (K := ⟨∑ i, Ks i, hKs⟩) (fun t _ => ?_) hUc
    (fun t h => (hU t (Set.Ico_subset_Icc_self h)).hasDerivWithinAt) (fun t h => hmem U C1 h1 hUp (le_max_left _ _) t (Set.Ico_subset_Icc_self h))
    hVc (fun t h => (hV t (Set.Ico_subset_Icc_self h)).hasDerivWithinAt)
    (fun t h => hmem V C2 h2 hVp (le_max_right _ _) t (Set.Ico_subset_Icc_self h)) h0
  refine LipschitzOnWith.of_dist_le_mul fun u hu v hv => ?_
  rw [dist_eq_norm, dist_eq_norm]
  show _ ≤ (∑ i, Ks i) * _
  rw [pi_norm_le_iff_of_nonneg (by positivity)]
  intro i
  exact (hlp i u hu v hv).trans (mul_le_mul_of_nonneg_right (Finset.single_le_sum (fun i _ => k0 i) (Finset.mem_univ i)) (norm_nonneg _))

end
end Ormatex.Props
