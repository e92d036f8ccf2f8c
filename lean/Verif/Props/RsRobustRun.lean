import Verif.Props.RsRobustExp
import Verif.Props.RsConvergeReal
import Verif.Props.Bridge
import Verif.Props.RsCnOrder
import Verif.Props.RsKiopsSmall

/-!
C122: runs of the exponential integrators of the crate on right-hand sides that are only Lipschitz near the solution, with any bounded
matrices in the place of the Jacobian and approximate phi products; then with the crate's own Krylov-Padé products, at the level of the
Python binding.
-/

namespace Ormatex.Props
open Filter Asymptotics Topology Matrix Ormatex.Spec Ormatex.Rs
open scoped Classical NNReal
open scoped Matrix.Norms.Operator

section
variable {n : ℕ} {Y : ℝ → Vec n} {t0 T : ℝ}

/-- **Specification.** The difference quotients in time taken by the exponential integrators stay bounded near the solution. -/
def TameFdtRs (sys : Sys n) (Y : ℝ → Vec n) (t0 T : ℝ) : Prop :=
  ∃ B ρ : ℝ, 0 < ρ ∧ ∀ t ∈ Set.Icc t0 T, ∀ y, ‖y - Y t‖ < ρ → ∀ i, |(sys.frhs (t + 1e-8) y i - sys.frhs t y i) / 1e-8| ≤ B

/-- an autonomous right-hand side has no difference in time -/
theorem tameFdt_auto {sys : Sys n} (h : ∀ t t' y, sys.frhs t y = sys.frhs t' y) : TameFdtRs sys Y t0 T :=
  ⟨0, 1, one_pos, fun t _ y _ i => by rw [h (t + 1e-8) t y]; simp⟩

/-- the methods of the crate -/
def rsExpMethods : List String := ["epi2", "exprb2", "exprb3", "epi3"]

theorem lip_nonzero {f : ℝ → Vec n → Vec n} (h : LipIVP f Y t0 T) :
    ∃ r : ℝ, 0 < r ∧ ((∀ t ∈ Set.Icc t0 T, f t (Y t) ≠ 0) → ∀ t ∈ Set.Icc t0 T, ∀ y, ‖y - Y t‖ < r → f t y ≠ 0) := by
  by_cases hne : ∀ t ∈ Set.Icc t0 T, f t (Y t) ≠ 0
  swap
  · exact ⟨1, one_pos, fun h' => absurd h' hne⟩
  obtain ⟨Λ, ρ, hΛ, hρ, hl⟩ := h.tube2
  rcases Set.eq_empty_or_nonempty (Set.Icc t0 T) with he | hn
  · exact ⟨1, one_pos, fun _ t ht => by rw [he] at ht; exact absurd ht (Set.notMem_empty t)⟩
  have hc : ContinuousOn (fun t => ‖f t (Y t)‖) (Set.Icc t0 T) := fun t ht => by
    obtain ⟨L, U, hU, hL⟩ := h.lip t ht
    have h1 : ContinuousAt (fun p : ℝ × Vec n => f p.1 p.2) (t, Y t) := hL.continuousOn.continuousAt hU
    have h2 : ContinuousWithinAt (fun s => ((s, Y s) : ℝ × Vec n)) (Set.Icc t0 T) t :=
      continuousWithinAt_id.prodMk (h.cont t ht)
    exact (ContinuousAt.comp_continuousWithinAt (g := fun p : ℝ × Vec n => f p.1 p.2) (f := fun s => ((s, Y s) : ℝ × Vec n)) h1 h2).norm
  obtain ⟨s, hs, hmin⟩ := isCompact_Icc.exists_isMinOn hn hc
  have hpos : 0 < ‖f s (Y s)‖ := norm_pos_iff.2 (hne s hs)
  obtain ⟨c, hcd⟩ : ∃ c, c = ‖f s (Y s)‖ := ⟨_, rfl⟩
  rw [← hcd] at hpos
  refine ⟨min ρ (c / (2 * (Λ + 1))), by positivity, fun _ t ht y hy h0 => ?_⟩
  rw [lt_min_iff] at hy
  have h1 := hl t ht t t y (Y t) (by simpa using hρ) (by simpa using hρ) hy.1 (by simpa using hρ)
  rw [sub_self, abs_zero, zero_add, h0, zero_sub, norm_neg] at h1
  have h2 : c ≤ ‖f t (Y t)‖ := by rw [hcd]; exact hmin ht
  have h3 : ‖y - Y t‖ * (2 * (Λ + 1)) < c := by rw [← lt_div_iff₀ (by positivity)]; exact hy.2
  have h4 := norm_nonneg (y - Y t)
  have h5 : 0 ≤ ‖y - Y t‖ * Λ := by positivity
  linarith

set_option maxHeartbeats 1000000 in
/-- **C122, exponential methods.**  On a right-hand side that is only Lipschitz near the solution, with any bounded matrices in the
place of the Jacobian and phi products of relative error at most `κ`, every run of `epi2`, `exprb2`, `exprb3` and `epi3` that returns is
accurate to `C (dt + κ)` at every output time.  `epi2` and `exprb2` return if the solution stays away from equilibria, `epi3` if the
initial state is not one. -/
theorem C122_exp (sys : Sys n) (h : LipIVP sys.frhs Y t0 T) (hj : TameJacsRs sys Y t0 T) :
    ∃ C δ R : ℝ, 0 ≤ C ∧ 0 < δ ∧ 0 ≤ R ∧ ∀ (m : String), m ∈ rsExpMethods → ∀ (K : Kern n) (dt κ tol : ℝ) (N osteps : ℕ) (s1 s0 : Epirk n),
      0 < dt → dt ≤ δ → 0 ≤ κ → κ ≤ δ → ApproxPhis K dt R κ → (m = "epi3" → ApproxKiopsRs K dt R κ) →
      (tol < 0 ∨ TameFdtRs sys Y t0 T) → t0 + N * dt ≤ T → 0 < osteps →
      Epirk.new t0 (Y t0) m = .ok s1 → s1.withOpt "tol_fdt" tol = .ok s0 →
      (∀ out, outLoop (Epirk.integrator K sys) dt osteps N 0 s0 [] [] = .ok out → RsRunAccurate out t0 dt osteps N Y (C * (dt + κ))) ∧
      ((m = "epi2" ∨ m = "exprb2") → (∀ t ∈ Set.Icc t0 T, sys.frhs t (Y t) ≠ 0) →
        ∃ out, outLoop (Epirk.integrator K sys) dt osteps N 0 s0 [] [] = .ok out) ∧
      (m = "epi3" → sys.frhs t0 (Y t0) ≠ 0 → ∃ out, outLoop (Epirk.integrator K sys) dt osteps N 0 s0 [] [] = .ok out) := by
  obtain ⟨Λ0, Bj, F, ρ, hΛ0, hBj, hF, hρ, hbox⟩ := impl_uniform h hj
  obtain ⟨rz, hrz, hnz⟩ := lip_nonzero h
  obtain ⟨Bf, ρf, hBf, hρf, hfdt⟩ : ∃ Bf ρf : ℝ, 0 ≤ Bf ∧ 0 < ρf ∧ (TameFdtRs sys Y t0 T → ∀ t ∈ Set.Icc t0 T, ∀ y, ‖y - Y t‖ < ρf →
      ‖rsFdt sys t y‖ ≤ Bf) := by
    by_cases ht : TameFdtRs sys Y t0 T
    · obtain ⟨B, ρ, h1, h2⟩ := ht
      refine ⟨max B 0, ρ, le_max_right _ _, h1, fun _ t ht y hy => ?_⟩
      rw [pi_norm_le_iff_of_nonneg (le_max_right _ _)]
      intro i
      rw [Real.norm_eq_abs]
      exact (h2 t ht y hy i).trans (le_max_left _ _)
    · exact ⟨0, 1, le_rfl, one_pos, fun h' => absurd h' ht⟩
  obtain ⟨B, hBd⟩ : ∃ B, B = Bj + F + Bf := ⟨_, rfl⟩
  have hB : 0 ≤ B := by rw [hBd]; positivity
  obtain ⟨G, hGd⟩ : ∃ G, G = B + 1 := ⟨_, rfl⟩
  have hG : 0 ≤ G := by rw [hGd]; positivity
  obtain ⟨S, hSd⟩ : ∃ S, S = stageSize B := ⟨_, rfl⟩
  have hS : 0 ≤ S := by rw [hSd]; exact stageSize_nonneg hB
  obtain ⟨Λ, hΛd⟩ : ∃ Λ, Λ = Λ0 * (1 + S + G) := ⟨_, rfl⟩
  have hΛ : 0 ≤ Λ := by rw [hΛd]; positivity
  have hrc := robustConst_nonneg hB hΛ
  have hec := epiConst_nonneg hB hΛ hG
  obtain ⟨D, hDd⟩ : ∃ D, D = robustConst B Λ + (2 * epiConst B Λ G + 1) := ⟨_, rfl⟩
  have hD : 0 ≤ D := by rw [hDd]; positivity
  obtain ⟨r1, hr1d⟩ : ∃ r1, r1 = min (ρ / 2) (min rz ρf) := ⟨_, rfl⟩
  have hr1 : 0 < r1 := by rw [hr1d]; positivity
  have r1a : r1 ≤ ρ / 2 := by rw [hr1d]; exact min_le_left _ _
  have r1b : r1 ≤ rz := by rw [hr1d]; exact (min_le_right _ _).trans (min_le_left _ _)
  have r1c : r1 ≤ ρf := by rw [hr1d]; exact (min_le_right _ _).trans (min_le_right _ _)
  obtain ⟨C, δ, hC, hδ, hmain⟩ := rs_robust h D r1 hD hr1
  refine ⟨C, min (min 1 δ) (min (min (1 / (2 * D + 1)) (1 / (B + (Λ + B * G + B) + 1))) (ρ / (4 * (S + G + 1)))), B, hC, by positivity, hB, ?_⟩
  intro m hm K dt κ tol N osteps s1 s0 hdt hd hκ hκδ hK hKi hfd hN ho hn1 hn0
  have d1 : dt ≤ 1 := hd.trans ((min_le_left _ _).trans (min_le_left _ _))
  have d2 : dt ≤ δ := hd.trans ((min_le_left _ _).trans (min_le_right _ _))
  have k1 : κ ≤ 1 := hκδ.trans ((min_le_left _ _).trans (min_le_left _ _))
  have k2 : κ ≤ δ := hκδ.trans ((min_le_left _ _).trans (min_le_right _ _))
  have d5 : dt * (B + (Λ + B * G + B) + 1) ≤ 1 := by
    have := hd.trans ((min_le_right _ _).trans ((min_le_left _ _).trans (min_le_right _ _)))
    rwa [le_div_iff₀ (by positivity)] at this
  have d3 : dt * (2 * D + 1) ≤ 1 := by
    have := hd.trans ((min_le_right _ _).trans ((min_le_left _ _).trans (min_le_left _ _)))
    rwa [le_div_iff₀ (by positivity)] at this
  have k3 : κ * (2 * D + 1) ≤ 1 := by
    have := hκδ.trans ((min_le_right _ _).trans ((min_le_left _ _).trans (min_le_left _ _)))
    rwa [le_div_iff₀ (by positivity)] at this
  have d4 : dt * (4 * (S + G + 1)) ≤ ρ := by
    have := hd.trans ((min_le_right _ _).trans (min_le_right _ _))
    rwa [le_div_iff₀ (by positivity)] at this
  have hDκ : D * (dt + κ) ≤ 1 := by nlinarith
  have pS : 0 ≤ dt * S := by positivity
  have pG : 0 ≤ dt * G := by positivity
  have dρ : dt < ρ := by linarith
  have dS : dt * S < ρ / 2 := by linarith
  have dG : G * dt < ρ / 2 := by linarith
  obtain ⟨g1, g2, g3, g4⟩ := epirk_built hn1 hn0
  have g5 : s0.tolFdt = tol := by
    unfold Epirk.withOpt at hn0
    rw [if_pos rfl] at hn0
    cases hn0
    rfl
  obtain ⟨Inv, hInv⟩ : ∃ Inv : Epirk n → ℕ → (ℕ → Vec n) → Prop, Inv = fun (o : Epirk n) (k : ℕ) (u : ℕ → Vec n) => o.method = m ∧ o.tolFdt = tol ∧
      AtRs o (t0 + k * dt) (u k) ∧ o.yHist.length = k + 1 ∧ u 0 = Y t0 ∧
      (0 < k → rsGet o.yHist 1 = .ok (u (k - 1)) ∧ rsGet o.tHist 1 = .ok (t0 + (k - 1 : ℕ) * dt)) := ⟨_, rfl⟩
  have htm : ∀ k < N, t0 + (k : ℝ) * dt ∈ Set.Icc t0 T := by
    intro k hk
    have h1 : (k : ℝ) ≤ N := by exact_mod_cast hk.le
    have h2 := mul_le_mul_of_nonneg_right h1 hdt.le
    have h3 : 0 ≤ (k : ℝ) * dt := by positivity
    constructor <;> linarith
  have est : ∀ o k (u : ℕ → Vec n), k < N → (∀ j ≤ k, ‖u j - Y (t0 + j * dt)‖ < r1) →
      (∀ j < k, ‖u (j + 1) - u j - dt • sys.frhs (t0 + j * dt) (u j)‖ ≤ dt * (D * (dt + κ))) → Inv o k u →
      (∀ r, Epirk.step K sys o dt = .ok r → r.t = t0 + (k + 1 : ℕ) * dt ∧
        ‖r.y - u k - dt • sys.frhs (t0 + k * dt) (u k)‖ ≤ dt * (D * (dt + κ))) ∧
      ((m = "epi2" ∨ m = "exprb2") → (∀ t ∈ Set.Icc t0 T, sys.frhs t (Y t) ≠ 0) → ∃ r, Epirk.step K sys o dt = .ok r) ∧
      (m = "epi3" → sys.frhs t0 (Y t0) ≠ 0 → ∃ r, Epirk.step K sys o dt = .ok r) := by
    intro o k u hk hnear hrel hi
    rw [hInv] at hi
    obtain ⟨i1, i2, i3, i4, i5, i6⟩ := hi
    obtain ⟨t, ht⟩ : ∃ t, t = t0 + (k : ℝ) * dt := ⟨_, rfl⟩
    have hkT := htm k hk
    have hnk := hnear k le_rfl
    rw [← ht] at i3 hkT hnk
    have bx := hbox t hkT
    have hyρ : ‖u k - Y t‖ < ρ := by linarith
    have hρ0 : |t - t| < ρ := by simpa using hρ
    have hFB : ‖sys.frhs t (u k)‖ ≤ B := (bx.size t (u k) hρ0 hyρ).trans (by rw [hBd]; linarith)
    obtain ⟨J, hJ, hJB⟩ := bx.jac t (u k) hρ0 hyρ
    have hJB' : ‖J‖ ≤ B := hJB.trans (by rw [hBd]; linarith)
    have hv : o.tolFdt < 0 ∨ ‖rsFdt sys t (u k)‖ ≤ B := by
      rw [i2]
      refine hfd.imp id (fun h' => (hfdt h' t hkT (u k) (by linarith)).trans (by rw [hBd]; linarith))
    have et : t0 + ((k + 1 : ℕ) : ℝ) * dt = t + dt := by rw [ht]; push_cast; ring
    have up : ∀ c x : ℝ, c ≤ D → x ≤ dt * (c * (dt + κ)) → x ≤ dt * (D * (dt + κ)) := fun c x hc hx =>
      hx.trans (mul_le_mul_of_nonneg_left (mul_le_mul_of_nonneg_right hc (by positivity)) hdt.le)
    have c1 : robustConst B Λ ≤ D := by rw [hDd]; linarith
    have c2 : 2 * epiConst B Λ G + 1 ≤ D := by rw [hDd]; linarith
    obtain ⟨s2a, s2b⟩ := rs_step2_rob (Λ := Λ) hdt d1 hκ k1 i3 hFB hK hJ hJB' hv hΛ
    rw [← ht, et]
    simp only [rsExpMethods, List.mem_cons, List.not_mem_nil, or_false] at hm
    have two : (m = "epi2" ∨ m = "exprb2") → Epirk.step K sys o dt = Epirk.stepOrder2 K sys o dt := by
      intro hm'
      unfold Epirk.step
      rw [i1, if_pos hm']
    by_cases hm2 : m = "epi2" ∨ m = "exprb2"
    · rw [two hm2]
      refine ⟨fun r hr => ?_, fun _ hne => s2b (hnz hne t hkT (u k) (by linarith)), fun h3 => ?_⟩
      · obtain ⟨a1, a2, -⟩ := s2a r hr
        exact ⟨a1, up _ _ c1 a2⟩
      · subst h3; simp at hm2
    by_cases hm3 : m = "exprb3"
    · refine ⟨fun r hr => ?_, fun h' => absurd h' hm2, fun h' => by rw [hm3] at h'; simp at h'⟩
      have hst : Epirk.step K sys o dt = Epirk.stepExprb32 K sys o dt := by
        unfold Epirk.step
        rw [i1, hm3]
        simp only [String.reduceEq, or_self, if_true, if_false]
      rw [hst] at hr
      obtain ⟨a1, a2⟩ := rs_exprb3_rob (Λ := Λ) hdt d1 hκ k1 i3 hFB hK hJ hJB' hv hΛ (fun z hz => by
        rw [← hSd] at hz
        have hzY : ‖z - Y t‖ < ρ := by
          have := norm_add_le (z - u k) (u k - Y t)
          rw [sub_add_sub_cancel] at this
          linarith
        have h1 := bx.lip (t + dt) t z (u k) (by rw [add_sub_cancel_left, abs_of_pos hdt]; exact dρ) hρ0 hzY hyρ
        rw [add_sub_cancel_left, abs_of_pos hdt] at h1
        refine h1.trans ?_
        rw [hΛd, mul_assoc]
        refine mul_le_mul_of_nonneg_left ?_ hΛ0
        linarith) r hr
      exact ⟨a1, up _ _ c1 a2⟩
    have hm4 : m = "epi3" := by
      rcases hm with h' | h' | h' | h'
      · exact absurd (Or.inl h') hm2
      · exact absurd (Or.inr h') hm2
      · exact absurd h' hm3
      · exact h'
    have hst : Epirk.step K sys o dt = if o.yHist.length ≥ 2 then Epirk.stepOrder3 K sys o dt else Epirk.stepOrder2 K sys o dt := by
      unfold Epirk.step
      rw [i1, hm4]
      simp only [String.reduceEq, or_self, if_true, if_false]
    rw [hst, i4]
    rcases k with _ | k
    · rw [if_neg (by omega)]
      refine ⟨fun r hr => ?_, fun h' => absurd h' hm2, fun _ hne => s2b ?_⟩
      · obtain ⟨a1, a2, -⟩ := s2a r hr
        exact ⟨a1, up _ _ c1 a2⟩
      · rw [i5]
        rw [Nat.cast_zero, zero_mul, add_zero] at ht
        rw [ht]
        exact hne
    · rw [if_pos (by omega)]
      obtain ⟨j1, j2⟩ := i6 (by omega)
      rw [Nat.add_sub_cancel] at j1 j2
      have etp : t0 + (k : ℝ) * dt = t - dt := by rw [ht]; push_cast; ring
      rw [etp] at j2
      have hyy : ‖u k - u (k + 1)‖ ≤ G * dt := by
        have h1 := hrel k (by omega)
        rw [etp] at h1
        have hk1 := hnear k (by omega)
        rw [etp] at hk1
        have hkT1 := htm k (by omega)
        rw [etp] at hkT1
        have h2 : ‖sys.frhs (t - dt) (u k)‖ ≤ B :=
          ((hbox _ hkT1).size (t - dt) (u k) (by simpa using hρ) (by linarith)).trans (by rw [hBd]; linarith)
        have h3 : ‖dt • sys.frhs (t - dt) (u k)‖ ≤ dt * B := by
          rw [norm_smul, Real.norm_of_nonneg hdt.le]
          exact mul_le_mul_of_nonneg_left h2 hdt.le
        have h4 := norm_add_le (u (k + 1) - u k - dt • sys.frhs (t - dt) (u k)) (dt • sys.frhs (t - dt) (u k))
        rw [sub_add_cancel] at h4
        rw [norm_sub_rev, hGd]
        have h5 := mul_le_mul_of_nonneg_left hDκ hdt.le
        linarith
      obtain ⟨r, a0, a1, a2⟩ := rs_epi3_rob (Λ := Λ) hdt d1 hκ k1 i3 hFB hK hJ hJB' hv (hKi hm4) hΛ hG hyy (by
        have hzY : ‖u k - Y t‖ < ρ := by
          have := norm_add_le (u k - u (k + 1)) (u (k + 1) - Y t)
          rw [sub_add_sub_cancel] at this
          linarith
        have e1 : t - dt - t = -dt := by ring
        have h1 := bx.lip (t - dt) t (u k) (u (k + 1)) (by rw [e1, abs_neg, abs_of_pos hdt]; exact dρ) hρ0 hzY hyρ
        rw [e1, abs_neg, abs_of_pos hdt] at h1
        refine h1.trans ?_
        rw [hΛd, mul_assoc]
        refine mul_le_mul_of_nonneg_left ?_ hΛ0
        linarith) d5 j2 j1
      refine ⟨fun r' hr' => ?_, fun h' => absurd h' hm2, fun _ _ => ⟨r, a0⟩⟩
      rw [a0] at hr'
      cases hr'
      exact ⟨a1, up _ _ c2 a2⟩
  obtain ⟨p1, p2⟩ := hmain dt κ N hdt d2 hκ k2 hN (Epirk.integrator K sys) Inv s0 osteps ho
    (by
      intro u hu
      rw [hInv]
      refine ⟨g1, g5, ⟨by simp [g2], by rw [g4]; simp [rsGet], by rw [g3, hu]; rfl⟩, by rw [g3]; rfl, hu, fun h => absurd h (by omega)⟩)
    (by
      intro o k u hi
      rw [hInv] at hi
      exact ⟨hi.2.2.1.yNew, hi.2.2.1.time⟩)
    (fun o r => ⟨rfl, rfl⟩)
    (by
      intro o k u r hi hrt hry
      rw [hInv] at hi ⊢
      obtain ⟨i1, i2, i3, i4, i5, i6⟩ := hi
      refine ⟨i1, i2, ⟨hrt, ?_, ?_⟩, ?_, i5, fun _ => ⟨i3.yNew, i3.tNew⟩⟩
      · rw [← hrt]; rfl
      · rw [hry]; rfl
      · show (_ :: o.yHist).length = _
        rw [List.length_cons, i4])
    (fun o k u r hk hnear hrel hi hs => (est o k u hk hnear hrel hi).1 r hs)
  refine ⟨p1, fun hm2 hne => ?_, fun hm3 hne => ?_⟩
  · obtain ⟨out, a, -⟩ := p2 (fun o k u hk hnear hrel hi => (est o k u hk hnear hrel hi).2.1 hm2 hne)
    exact ⟨out, a⟩
  · obtain ⟨out, a, -⟩ := p2 (fun o k u hk hnear hrel hi => (est o k u hk hnear hrel hi).2.2 hm3 hne)
    exact ⟨out, a⟩

/-! ### the crate's own products -/

/-- constants of the crate's phi products, `k = 1, 2, 3`, at first order -/
noncomputable def rsPhiConst (n iom : ℕ) : ℝ := rsKrylovConst n 1 1 iom + rsKrylovConst n 2 1 iom + rsKrylovConst n 3 1 iom

theorem rsPhiConst_nonneg (n iom : ℕ) : 0 ≤ rsPhiConst n iom := by
  have h1 := rsKrylovConst_nonneg n 1 1 iom
  have h2 := rsKrylovConst_nonneg n 2 1 iom
  have h3 := rsKrylovConst_nonneg n 3 1 iom
  unfold rsPhiConst
  positivity

/-- the products of the crate, with any Krylov dimension and any orthogonalisation depth -/
theorem padeKrylov_phis (m iom : ℕ) (hm : 0 < m) {dt R : ℝ} (hdt : 0 < dt) (hR : 0 ≤ R)
    (hsm : 28 * n ^ 2 * (Real.sqrt (iom + 2) * (Real.sqrt n * R * dt)) ≤ 1) :
    ApproxPhis ((KrylovExpm.mk padeKernel m iom).kern n) dt R (Real.sqrt n * (rsPhiConst n iom * (Real.sqrt n * R + 1)) * dt) := by
  have main : ∀ (A : LinOp n) (M : Mat n), IsMatrix A M → ‖M‖ ≤ R → ∀ (v : Vec n) (k : ℕ), 1 ≤ k → k ≤ 3 → v ≠ 0 →
      ∃ w, (KrylovExpm.mk padeKernel m iom).applyPhiLinop A dt v k = .ok w ∧
        ‖w - phiM k (dt • M) *ᵥ v‖ ≤ Real.sqrt n * (rsPhiConst n iom * (Real.sqrt n * R + 1)) * dt * ‖v‖ := by
    intro A M hA hM v k hk1 hk3 hv
    have hn : 0 < n := by
      rcases Nat.eq_zero_or_pos n with rfl | h
      · exact absurd (Subsingleton.elim v 0) hv
      · exact h
    obtain ⟨ρ, hρ⟩ : ∃ ρ, ρ = Real.sqrt n * R * dt := ⟨_, rfl⟩
    rw [← hρ] at hsm
    have hρ0 : 0 ≤ ρ := by rw [hρ]; positivity
    have hρM : ∀ x, norm2 ((dt • M) *ᵥ x) ≤ ρ * norm2 x := fun x => by
      refine (norm2_mulVec_le _ x).trans (mul_le_mul_of_nonneg_right ?_ (norm2_nonneg x))
      rw [norm_smul, Real.norm_of_nonneg hdt.le]
      calc Real.sqrt n * (dt * ‖M‖) ≤ Real.sqrt n * (dt * R) := by gcongr
        _ = ρ := by rw [hρ]; ring
    have hs' : 7 * ((k : ℝ) + 1) * n ^ 2 * (Real.sqrt (iom + 2) * ρ) ≤ 1 := by
      refine le_trans ?_ hsm
      have h4 : (k : ℝ) + 1 ≤ 4 := by
        have : (k : ℝ) ≤ 3 := by exact_mod_cast hk3
        linarith
      have : 7 * ((k : ℝ) + 1) ≤ 28 := by linarith
      gcongr
    obtain ⟨w, hw, he⟩ := C111_phi m iom hm A M hA dt v hv k 1 (by omega) (by norm_num) (by omega) (Or.inl (by omega)) ρ hρ0 hρM hs'
    refine ⟨w, hw, (norm_le_norm2 _).trans (he.trans ?_)⟩
    have hle : rsKrylovConst n k 1 iom ≤ rsPhiConst n iom := by
      have h1 := rsKrylovConst_nonneg n 1 1 iom
      have h2 := rsKrylovConst_nonneg n 2 1 iom
      have h3 := rsKrylovConst_nonneg n 3 1 iom
      unfold rsPhiConst
      have : k = 1 ∨ k = 2 ∨ k = 3 := by omega
      rcases this with rfl | rfl | rfl <;> linarith
    have hP := rsPhiConst_nonneg n iom
    obtain ⟨P, hPd⟩ : ∃ P, P = rsPhiConst n iom := ⟨_, rfl⟩
    rw [← hPd] at hle hP ⊢
    have hb : ρ ^ 1 + |dt| * 1e-12 ≤ (Real.sqrt n * R + 1) * dt := by
      rw [abs_of_pos hdt, hρ, pow_one]
      have : dt * 1e-12 ≤ dt := by linarith
      linarith
    have hb0 : 0 ≤ ρ ^ 1 + |dt| * 1e-12 := by positivity
    have hQ : 0 ≤ (Real.sqrt n * R + 1) * dt := hb0.trans hb
    calc norm2 v * (rsKrylovConst n k 1 iom * (ρ ^ 1 + |dt| * 1e-12))
        ≤ norm2 v * (P * (ρ ^ 1 + |dt| * 1e-12)) :=
          mul_le_mul_of_nonneg_left (mul_le_mul_of_nonneg_right hle hb0) (norm2_nonneg v)
      _ ≤ norm2 v * (P * ((Real.sqrt n * R + 1) * dt)) := mul_le_mul_of_nonneg_left (mul_le_mul_of_nonneg_left hb hP) (norm2_nonneg v)
      _ ≤ (Real.sqrt n * ‖v‖) * (P * ((Real.sqrt n * R + 1) * dt)) := mul_le_mul_of_nonneg_right (norm2_le_norm v) (mul_nonneg hP hQ)
      _ = _ := by ring
  refine ⟨fun A M hA hM v k h1 h2 hv => ?_, fun A M hA hM v k h1 h2 w hw => ?_⟩
  · obtain ⟨w, hw, -⟩ := main A M hA hM v k h1 h2 hv
    exact ⟨w, hw⟩
  · by_cases hv : v = 0
    · exfalso
      have hz : arnoldiRs A 1 v m iom = .error .nan ∨ arnoldiRs A 1 v m iom = .error .panic := by
        rw [hv]
        unfold arnoldiRs
        by_cases h0 : min m n = 0
        · exact Or.inr (if_pos h0)
        · left
          simp only [if_neg h0]
          rw [if_pos (norm2_zero)]
      change KrylovExpm.applyPhiLinop _ A dt v k = .ok w at hw
      unfold KrylovExpm.applyPhiLinop at hw
      rcases hz with hz | hz <;> (simp only [hz, Bind.bind, Except.bind] at hw; cases hw)
    · obtain ⟨w', hw', he⟩ := main A M hA hM v k h1 h2 hv
      change KrylovExpm.applyPhiLinop _ A dt v k = .ok w at hw
      rw [hw'] at hw
      cases hw
      exact he

/-- size of the augmented operator of `epi3` -/
noncomputable def kiSize (n iom : ℕ) (R : ℝ) : ℝ := Real.sqrt (iom + 2) * (Real.sqrt n * R + 2 * Real.sqrt n + 1)

/-- its size on the vectors that matter, divided by `dt` -/
noncomputable def kiSmall (n iom : ℕ) (R : ℝ) : ℝ := Real.sqrt (iom + 2) * (Real.sqrt n * (R + 1))

/-- constant of the crate's `kiops_fixedsteps` in `epi3`, at first order -/
noncomputable def kiConst (n iom : ℕ) (R : ℝ) : ℝ :=
  (1 + Real.sqrt (n + 2 : ℕ)) * (n * R + Real.sqrt n) * Real.exp 1 + Real.sqrt (n + 2 : ℕ) * (Real.sqrt (n + 2 : ℕ) *
    (Real.exp ((n + 2 : ℕ) * kiSize n iom R) * (2 * ((n + 2 : ℕ) * (kiSmall n iom R ^ 2 * kiSize n iom R)) *
      max 1 (((n + 2 : ℕ) : ℝ) ^ 2 * kiSize n iom R))))

theorem kiConst_nonneg (n iom : ℕ) {R : ℝ} (hR : 0 ≤ R) : 0 ≤ kiConst n iom R := by
  have h1 : 0 ≤ kiSize n iom R := by unfold kiSize; positivity
  have h2 : (0 : ℝ) ≤ max 1 (((n + 2 : ℕ) : ℝ) ^ 2 * kiSize n iom R) := le_trans zero_le_one (le_max_left _ _)
  unfold kiConst
  positivity

set_option maxHeartbeats 1000000 in
/-- `kiops_fixedsteps` of the crate, with any Krylov dimension from two on and any orthogonalisation depth -/
theorem padeKrylov_kiops (m iom : ℕ) (hm : 2 ≤ m) {dt R : ℝ} (hdt : 0 < dt) (hR : 0 ≤ R) (hs1 : kiSmall n iom R * dt ≤ 1)
    (hsm : ((n + 2 : ℕ) : ℝ) ^ 3 * kiSize n iom R ^ 2 * (kiSmall n iom R * dt) ≤ 1) :
    ApproxKiopsRs ((KrylovExpm.mk padeKernel m iom).kern n) dt R (kiConst n iom R * dt) := by
  intro A M hA hM a b β hβ hβ1 ha hb
  have hβ0 : 0 ≤ β := hdt.le.trans hβ
  obtain ⟨ρ, hρ⟩ : ∃ ρ, ρ = Real.sqrt n * R * dt := ⟨_, rfl⟩
  have hρ0 : 0 ≤ ρ := by rw [hρ]; positivity
  have hρM : ∀ x, norm2 ((dt • M) *ᵥ x) ≤ ρ * norm2 x := fun x => by
    refine (norm2_mulVec_le _ x).trans (mul_le_mul_of_nonneg_right ?_ (norm2_nonneg x))
    rw [norm_smul, Real.norm_of_nonneg hdt.le]
    calc Real.sqrt n * (dt * ‖M‖) ≤ Real.sqrt n * (dt * R) := by gcongr
      _ = ρ := by rw [hρ]; ring
  have hq := Real.sqrt_nonneg (n : ℝ)
  have hqq : Real.sqrt n * Real.sqrt n = n := Real.mul_self_sqrt (Nat.cast_nonneg n)
  have na : norm2 a ≤ Real.sqrt n * β := (norm2_le_norm a).trans (mul_le_mul_of_nonneg_left ha hq)
  have nb : norm2 b ≤ Real.sqrt n * (dt * β) := (norm2_le_norm b).trans (mul_le_mul_of_nonneg_left hb hq)
  have na0 := norm2_nonneg a
  have nb0 := norm2_nonneg b
  have hdβ : dt * β ≤ dt := mul_le_of_le_one_right hdt.le hβ1
  have hdt1 : dt ≤ 1 := hβ.trans hβ1
  obtain ⟨s, hs⟩ : ∃ s, s = Real.sqrt (iom + 2) * (ρ + norm2 b) := ⟨_, rfl⟩
  obtain ⟨S, hS⟩ : ∃ S, S = Real.sqrt (iom + 2) * (ρ + (norm2 a + norm2 b) + 1) := ⟨_, rfl⟩
  have hs0 : 0 ≤ s := by rw [hs]; positivity
  have hS0 : 0 ≤ S := by rw [hS]; positivity
  have hsle : s ≤ kiSmall n iom R * dt := by
    rw [hs]
    unfold kiSmall
    rw [mul_assoc]
    refine mul_le_mul_of_nonneg_left ?_ (Real.sqrt_nonneg _)
    have := mul_le_mul_of_nonneg_left hdβ hq
    rw [hρ]
    linarith
  have hSle : S ≤ kiSize n iom R := by
    rw [hS]
    unfold kiSize
    refine mul_le_mul_of_nonneg_left ?_ (Real.sqrt_nonneg _)
    have h1 : ρ ≤ Real.sqrt n * R := by rw [hρ]; exact mul_le_of_le_one_right (by positivity) hdt1
    have h2 : Real.sqrt n * β ≤ Real.sqrt n := mul_le_of_le_one_right hq hβ1
    have h3 : Real.sqrt n * (dt * β) ≤ Real.sqrt n := mul_le_of_le_one_right hq (hdβ.trans hdt1)
    linarith
  have hs1' : s ≤ 1 := hsle.trans hs1
  have hN0 : (0 : ℝ) ≤ ((n + 2 : ℕ) : ℝ) := Nat.cast_nonneg _
  have hK0 : 0 ≤ kiSize n iom R := hS0.trans hSle
  have hk0 : 0 ≤ kiSmall n iom R := by unfold kiSmall; positivity
  have hs5 : s ^ 5 ≤ s := pow_le_of_le_one hs0 hs1' (by norm_num)
  obtain ⟨w, hw, he⟩ := kiops_small m iom hm A M hA dt a b ρ hρ0 hρM s S hs hS hs1' (by
    calc ((n + 2 : ℕ) : ℝ) ^ 2 * S * ((n + 2 : ℕ) * (s ^ 5 * S))
        ≤ ((n + 2 : ℕ) : ℝ) ^ 2 * kiSize n iom R * ((n + 2 : ℕ) * ((kiSmall n iom R * dt) * kiSize n iom R)) := by
          have := hs5.trans hsle
          gcongr
      _ = ((n + 2 : ℕ) : ℝ) ^ 3 * kiSize n iom R ^ 2 * (kiSmall n iom R * dt) := by ring
      _ ≤ 1 := hsm)
  refine ⟨w, hw, (norm_le_norm2 _).trans (he.1.trans ?_)⟩
  have hg : ρ * norm2 a + norm2 b ≤ (n * R + Real.sqrt n) * (dt * β) := by
    have h1 := mul_le_mul_of_nonneg_left na hρ0
    have e : ρ * (Real.sqrt n * β) = n * R * (dt * β) := by
      rw [hρ]
      have e2 : Real.sqrt n * R * dt * (Real.sqrt n * β) = (Real.sqrt n * Real.sqrt n) * R * (dt * β) := by ring
      rw [e2, hqq]
    rw [e] at h1
    linarith
  have hs52 : s ^ 5 ≤ kiSmall n iom R ^ 2 * (dt * β) := by
    calc s ^ 5 ≤ s ^ 2 := pow_le_pow_of_le_one hs0 hs1' (by norm_num)
      _ ≤ (kiSmall n iom R * dt) ^ 2 := pow_le_pow_left₀ hs0 hsle 2
      _ = kiSmall n iom R ^ 2 * (dt * dt) := by ring
      _ ≤ _ := by gcongr
  obtain ⟨k1, hk1⟩ : ∃ k1, k1 = kiSize n iom R := ⟨_, rfl⟩
  obtain ⟨k2, hk2⟩ : ∃ k2, k2 = kiSmall n iom R := ⟨_, rfl⟩
  rw [← hk1] at hSle hK0
  rw [← hk2] at hs52
  have hmx : (0 : ℝ) ≤ max 1 (((n + 2 : ℕ) : ℝ) ^ 2 * k1) := le_trans zero_le_one (le_max_left _ _)
  have hmx0 : (0 : ℝ) ≤ max 1 (((n + 2 : ℕ) : ℝ) ^ 2 * S) := le_trans zero_le_one (le_max_left _ _)
  have hmle : max 1 (((n + 2 : ℕ) : ℝ) ^ 2 * S) ≤ max 1 (((n + 2 : ℕ) : ℝ) ^ 2 * k1) := max_le_max le_rfl (by gcongr)
  have hdense : nilDense (n + 2) s S ≤ Real.sqrt (n + 2 : ℕ) * (Real.exp ((n + 2 : ℕ) * k1) * (2 * ((n + 2 : ℕ) * (k2 ^ 2 * (dt * β) * k1)) *
      max 1 (((n + 2 : ℕ) : ℝ) ^ 2 * k1))) := by
    unfold nilDense
    gcongr
  have b1 : (1 + Real.sqrt (n + 2 : ℕ)) * (ρ * norm2 a + norm2 b) * Real.exp 1 ≤
      (1 + Real.sqrt (n + 2 : ℕ)) * ((n * R + Real.sqrt n) * (dt * β)) * Real.exp 1 := by gcongr
  have b2 := mul_le_mul_of_nonneg_left hdense (Real.sqrt_nonneg ((n + 2 : ℕ) : ℝ))
  refine (add_le_add b1 b2).trans (le_of_eq ?_)
  unfold kiConst
  rw [← hk1, ← hk2]
  ring

/-- **C122, the crate as it is.**  `epi2`, `exprb2`, `exprb3` and `epi3` through the Python binding, with the crate's own Krylov-Padé products:
on a right-hand side that is only Lipschitz near the solution and with any bounded matrices in the place of the Jacobian there are `C`
and `δ > 0` such that for every Krylov dimension (from two on for `epi3`), every step `dt ≤ δ`, number of steps and output stride every
call that returns has output states within `C dt` of the solution; the second order methods return whenever the solution stays away from
equilibria, `epi3` whenever the initial state is not one. -/
theorem C122_binding (gmres : Gmres n) (split : ℕ → Option (Split ℕ)) (sys : Sys n) (h : LipIVP sys.frhs Y t0 T) (hj : TameJacsRs sys Y t0 T)
    (iom : ℕ) :
    ∃ C δ : ℝ, 0 ≤ C ∧ 0 < δ ∧ ∀ (dt : ℝ) (N : ℕ) (kd : Kwds) (o : RunOpts), 0 < dt → dt ≤ δ → t0 + N * dt ≤ T →
      parseOpts kd = .ok o → o.method ∈ rsExpMethods → o.expmvMethod = "pade" → 0 < o.krylovDim → (o.method = "epi3" → 2 ≤ o.krylovDim) → o.iom = iom → 0 < o.osteps →
      (o.tolFdt < 0 ∨ TameFdtRs sys Y t0 T) →
      (∀ out, integrateWrapperRs gmres split sys (Y t0) t0 dt N kd = .ok out → RsRunAccurate out t0 dt o.osteps N Y (C * dt)) ∧
      ((o.method = "epi2" ∨ o.method = "exprb2") → (∀ t ∈ Set.Icc t0 T, sys.frhs t (Y t) ≠ 0) →
        ∃ out, integrateWrapperRs gmres split sys (Y t0) t0 dt N kd = .ok out) ∧
      (o.method = "epi3" → sys.frhs t0 (Y t0) ≠ 0 → ∃ out, integrateWrapperRs gmres split sys (Y t0) t0 dt N kd = .ok out) := by
  obtain ⟨C, δ, R, hC, hδ, hR, hmain⟩ := C122_exp sys h hj
  have hP := rsPhiConst_nonneg n iom
  have hKC := kiConst_nonneg n iom hR
  obtain ⟨E1, hE⟩ : ∃ E, E = Real.sqrt n * (rsPhiConst n iom * (Real.sqrt n * R + 1)) := ⟨_, rfl⟩
  have hE10 : 0 ≤ E1 := by rw [hE]; positivity
  obtain ⟨E, hEE⟩ : ∃ E, E = E1 + kiConst n iom R := ⟨_, rfl⟩
  have hE0 : 0 ≤ E := by rw [hEE]; positivity
  have hks : 0 ≤ kiSmall n iom R := by unfold kiSmall; positivity
  obtain ⟨U, hU⟩ : ∃ U, U = kiSmall n iom R + ((n + 2 : ℕ) : ℝ) ^ 3 * kiSize n iom R ^ 2 * kiSmall n iom R := ⟨_, rfl⟩
  have hU1 : 0 ≤ ((n + 2 : ℕ) : ℝ) ^ 3 * kiSize n iom R ^ 2 * kiSmall n iom R := by positivity
  have hU0 : 0 ≤ U := by rw [hU]; positivity
  obtain ⟨S, hS⟩ : ∃ S, S = 28 * (n : ℝ) ^ 2 * (Real.sqrt (iom + 2) * (Real.sqrt n * R)) := ⟨_, rfl⟩
  have hS0 : 0 ≤ S := by rw [hS]; positivity
  refine ⟨C * (1 + E), min (min δ (1 / (U + 1))) (min (δ / (E + 1)) (1 / (S + 1))), by positivity, by positivity, ?_⟩
  intro dt N kd o hdt hd hN hp hme he hk hk2 hi ho hfd
  have d1 : dt ≤ δ := hd.trans ((min_le_left _ _).trans (min_le_left _ _))
  have d4 : dt * (U + 1) ≤ 1 := by
    have := hd.trans ((min_le_left _ _).trans (min_le_right _ _))
    rwa [le_div_iff₀ (by positivity)] at this
  have d2 : dt * (E + 1) ≤ δ := by
    have := hd.trans ((min_le_right _ _).trans (min_le_left _ _))
    rwa [le_div_iff₀ (by positivity)] at this
  have d3 : dt * (S + 1) ≤ 1 := by
    have := hd.trans ((min_le_right _ _).trans (min_le_right _ _))
    rwa [le_div_iff₀ (by positivity)] at this
  have hme' := hme
  simp only [rsExpMethods, List.mem_cons, List.not_mem_nil, or_false] at hme
  obtain ⟨s1, hs1⟩ : ∃ s1, Epirk.new t0 (Y t0) o.method = .ok s1 := by
    rcases hme with h | h | h | h <;> rw [h] <;> exact ⟨_, rfl⟩
  obtain ⟨s0, hs0⟩ : ∃ s0, s1.withOpt "tol_fdt" o.tolFdt = .ok s0 := ⟨_, rfl⟩
  have hsel : selectSolver split t0 (Y t0) o.method o.expmvMethod o.krylovDim o.iom o.tolFdt =
      .ok (.epirk (KrylovExpm.mk padeKernel o.krylovDim iom) s0) := by
    have em : selectExpmv split "pade" = .ok padeKernel := rfl
    have en : KrylovExpm.new padeKernel o.krylovDim (some iom) = .ok (KrylovExpm.mk padeKernel o.krylovDim iom) := if_pos hk
    have ne : ¬ (o.method = "bdf1" ∨ o.method = "backeuler") ∧ o.method ≠ "bdf2" ∧ o.method ≠ "cn" := by
      rcases hme with h | h | h | h <;> rw [h] <;> decide
    unfold selectSolver
    rw [he, hi, if_neg ne.1, if_neg ne.2.1, if_neg ne.2.2, em]
    show (KrylovExpm.new padeKernel o.krylovDim (some iom) >>= fun K => Epirk.new t0 (Y t0) o.method >>= fun s => s.withOpt "tol_fdt" o.tolFdt >>= fun s =>
      Pure.pure (Solver.epirk K s)) = _
    rw [en, hs1]
    show (s1.withOpt "tol_fdt" o.tolFdt >>= fun s => Pure.pure (Solver.epirk _ s)) = _
    rw [hs0]
    rfl
  have hw : integrateWrapperRs gmres split sys (Y t0) t0 dt N kd =
      outLoop (Epirk.integrator ((KrylovExpm.mk padeKernel o.krylovDim iom).kern n) sys) dt o.osteps N 0 s0 [] [] := by
    unfold integrateWrapperRs
    rw [hp]
    show (selectSolver split t0 (Y t0) o.method o.expmvMethod o.krylovDim o.iom o.tolFdt >>= fun s =>
      outLoop (solverIntegrator gmres sys) dt o.osteps N 0 s [] []) = _
    rw [hsel]
    show outLoop (solverIntegrator gmres sys) dt o.osteps N 0 (.epirk _ s0) [] [] = _
    rw [outLoop_epirk]
  have hphi := padeKrylov_phis (n := n) o.krylovDim iom hk hdt hR (by
    refine le_trans (le_of_eq ?_) (show S * dt ≤ 1 by linarith)
    rw [hS]; ring)
  rw [← hE] at hphi
  have hphi' : ApproxPhis ((KrylovExpm.mk padeKernel o.krylovDim iom).kern n) dt R (E * dt) :=
    ApproxPhis.mk hphi.def' fun A M hA hM v k h1 h2 w hw => (hphi.acc A M hA hM v k h1 h2 w hw).trans (by
      refine mul_le_mul_of_nonneg_right ?_ (norm_nonneg _)
      rw [hEE]
      exact mul_le_mul_of_nonneg_right (by linarith) hdt.le)
  have hUd : 0 ≤ dt * (((n + 2 : ℕ) : ℝ) ^ 3 * kiSize n iom R ^ 2 * kiSmall n iom R) := by positivity
  have hUs : 0 ≤ dt * kiSmall n iom R := by positivity
  have hki : o.method = "epi3" → ApproxKiopsRs ((KrylovExpm.mk padeKernel o.krylovDim iom).kern n) dt R (E * dt) := fun h3 => by
    have h := padeKrylov_kiops (n := n) o.krylovDim iom (hk2 h3) hdt hR (by rw [hU] at d4; linarith) (by rw [hU] at d4; linarith)
    intro A M hA hM a b β q1 q2 q3 q4
    obtain ⟨w, w1, w2⟩ := h A M hA hM a b β q1 q2 q3 q4
    refine ⟨w, w1, w2.trans (mul_le_mul_of_nonneg_right ?_ (hdt.le.trans q1))⟩
    rw [hEE]
    exact mul_le_mul_of_nonneg_right (by linarith) hdt.le
  have hκ : E * dt ≤ δ := by linarith
  obtain ⟨p1, p2, p3⟩ := hmain o.method hme' _ dt (E * dt) o.tolFdt N o.osteps s1 s0 hdt d1
    (by positivity) hκ hphi' hki hfd hN ho hs1 hs0
  rw [hw]
  refine ⟨fun out hout => ?_, p2, p3⟩
  have := p1 out hout
  have e : C * (dt + E * dt) = C * (1 + E) * dt := by ring
  rwa [e] at this

/-! ### non-vacuity: a right-hand side with two kinks and a wrong Jacobian -/

theorem kinkRs_fdt : TameFdtRs kinkRs kinkY (-1) 1 := by
  refine ⟨1, 1, one_pos, fun t _ y _ i => ?_⟩
  show |(1 + |y i| - |t + 1e-8| - (1 + |y i| - |t|)) / 1e-8| ≤ 1
  rw [abs_div, abs_of_pos (by norm_num : (0 : ℝ) < 1e-8), div_le_one (by norm_num)]
  have h := abs_abs_sub_abs_le_abs_sub t (t + 1e-8)
  have e1 : 1 + |y i| - |t + 1e-8| - (1 + |y i| - |t|) = |t| - |t + 1e-8| := by ring
  have e2 : t - (t + 1e-8) = -1e-8 := by ring
  rw [e1]
  rw [e2, abs_neg, abs_of_pos (by norm_num : (0 : ℝ) < 1e-8)] at h
  exact h

theorem kinkRs_ne : ∀ t ∈ Set.Icc (-1 : ℝ) 1, kinkRs.frhs t (kinkY t) ≠ 0 := by
  intro t _ h
  have : (1 : ℝ) + |t| - |t| = 0 := congrFun h 0
  rw [add_sub_cancel_right] at this
  exact one_ne_zero this

example : ∃ C δ : ℝ, 0 ≤ C ∧ 0 < δ ∧ ∀ (dt : ℝ) (N : ℕ), 0 < dt → dt ≤ δ → N * dt ≤ 2 →
    ∃ s0 out, Rk.new (-1) (kinkY (-1)) 4 = .ok s0 ∧ outLoop (Rk.integrator kinkRs) dt 3 N 0 s0 [] [] = .ok out ∧ RsRunAccurate out (-1) dt 3 N kinkY (C * dt) := by
  obtain ⟨C, δ, hC, hδ, h⟩ := C122_rk (Y := kinkY) (t0 := -1) (T := 1) kinkRs (kink_ivp (P := List Unit)) 4
  refine ⟨C, δ, hC, hδ, fun dt N h1 h2 h3 => ?_⟩
  obtain ⟨s0, hs0⟩ : ∃ s0, Rk.new (-1) (kinkY (-1)) 4 = .ok s0 := ⟨_, rfl⟩
  obtain ⟨out, a, b⟩ := h dt N 3 s0 h1 h2 (by linarith) (by norm_num) hs0
  exact ⟨s0, out, hs0, a, b⟩

example (gmres : Gmres 1) (split : ℕ → Option (Split ℕ)) : ∃ C δ : ℝ, 0 ≤ C ∧ 0 < δ ∧ ∀ (dt : ℝ) (N : ℕ), 0 < dt → dt ≤ δ → N * dt ≤ 2 →
    ∃ out, integrateWrapperRs gmres split kinkRs (kinkY (-1)) (-1) dt N
        (fun k => if k = "method" then some (.str "exprb2") else none) = .ok out ∧ RsRunAccurate out (-1) dt 1 N kinkY (C * dt) := by
  obtain ⟨C, δ, hC, hδ, hm⟩ := C122_binding (Y := kinkY) (t0 := -1) (T := 1) gmres split kinkRs (kink_ivp (P := List Unit)) kinkRs_tame 2
  refine ⟨C, δ, hC, hδ, fun dt N h1 h2 h3 => ?_⟩
  obtain ⟨a, b, -⟩ := hm dt N (fun k => if k = "method" then some (.str "exprb2") else none)
    { method := "exprb2", expmvMethod := "pade", krylovDim := 100, iom := 2, tol := 1e-8, tolFdt := 1e-8, osteps := 1 } h1 h2 (by linarith)
    (by simp [parseOpts, getValOrDefault, PyVal.asString, Bind.bind, Except.bind, Pure.pure, Except.pure]) (by simp [rsExpMethods]) rfl (by norm_num) (by simp) rfl (by norm_num)
    (Or.inr kinkRs_fdt)
  obtain ⟨out, ho⟩ := b (Or.inr rfl) kinkRs_ne
  exact ⟨out, ho, a out ho⟩

example (gmres : Gmres 1) (split : ℕ → Option (Split ℕ)) : ∃ C δ : ℝ, 0 ≤ C ∧ 0 < δ ∧ ∀ (dt : ℝ) (N : ℕ), 0 < dt → dt ≤ δ → N * dt ≤ 2 →
    ∃ out, integrateWrapperRs gmres split kinkRs (kinkY (-1)) (-1) dt N
        (fun k => if k = "method" then some (.str "epi3") else none) = .ok out ∧ RsRunAccurate out (-1) dt 1 N kinkY (C * dt) := by
  obtain ⟨C, δ, hC, hδ, hm⟩ := C122_binding (Y := kinkY) (t0 := -1) (T := 1) gmres split kinkRs (kink_ivp (P := List Unit)) kinkRs_tame 2
  refine ⟨C, δ, hC, hδ, fun dt N h1 h2 h3 => ?_⟩
  obtain ⟨a, -, b⟩ := hm dt N (fun k => if k = "method" then some (.str "epi3") else none)
    { method := "epi3", expmvMethod := "pade", krylovDim := 100, iom := 2, tol := 1e-8, tolFdt := 1e-8, osteps := 1 } h1 h2 (by linarith)
    (by simp [parseOpts, getValOrDefault, PyVal.asString, Bind.bind, Except.bind, Pure.pure, Except.pure]) (by simp [rsExpMethods]) rfl (by norm_num)
    (by norm_num) rfl (by norm_num) (Or.inr kinkRs_fdt)
  obtain ⟨out, ho⟩ := b rfl (kinkRs_ne (-1) (by norm_num))
  exact ⟨out, ho, a out ho⟩

example : ∃ C δ : ℝ, 0 ≤ C ∧ 0 < δ ∧ ∀ (dt : ℝ) (N : ℕ), 0 < dt → dt ≤ δ → N * dt ≤ 2 →
    ∃ s0 out, Epirk.new (-1) (kinkY (-1)) "epi3" = .ok s0 ∧ outLoop (Epirk.integrator (exactKern 1) kinkRs) dt 2 N 0 s0 [] [] = .ok out ∧
      RsRunAccurate out (-1) dt 2 N kinkY (C * dt) := by
  obtain ⟨C, δ, R, hC, hδ, -, hm⟩ := C122_exp (Y := kinkY) (t0 := -1) (T := 1) kinkRs (kink_ivp (P := List Unit)) kinkRs_tame
  refine ⟨C, δ, hC, hδ, fun dt N h1 h2 h3 => ?_⟩
  obtain ⟨a, -, b⟩ := hm "epi3" (by simp [rsExpMethods]) (exactKern 1) dt 0 (-1) N 2 ⟨3, "epi3", -1, -1, [kinkY (-1)], [-1]⟩
    ⟨3, "epi3", -1, -1, [kinkY (-1)], [-1]⟩ h1 h2 le_rfl hδ.le
    (exact_approxPhis (exactKern_exact 1) (fun A dt k => by simp [exactKern]) dt R)
    (fun _ => exact_approxKiops (exactKern_exact 1) dt R) (Or.inr kinkRs_fdt) (by linarith) (by norm_num)
    (by simp [Epirk.new, Bind.bind, Except.bind, Pure.pure, Except.pure]) rfl
  obtain ⟨out, ho⟩ := b rfl (kinkRs_ne (-1) (by norm_num))
  have h5 := a out ho
  rw [add_zero] at h5
  exact ⟨_, out, by simp [Epirk.new, Bind.bind, Except.bind, Pure.pure, Except.pure], ho, h5⟩

end
end Ormatex.Props
