import Verif.Props.RsEpi3Converge
import Verif.Props.RsRobustRun

/-!
C111 for `epi3` with the crate's own products.
-/

namespace Ormatex.Props
open Filter Asymptotics Topology Matrix Ormatex.Spec Ormatex.Rs
open scoped Classical
open scoped Matrix.Norms.Operator

section
variable {n : ℕ}

/-- constant of the crate's `kiops_fixedsteps` in `epi3`, at third order -/
noncomputable def kiConst3 (n iom : ℕ) (R : ℝ) : ℝ :=
  (1 + Real.sqrt (n + 2 : ℕ)) * (n * R + Real.sqrt n) * Real.exp 1 * (kiSmall n iom R ^ 2 + 1) + Real.exp (kiSize n iom R)
    + Real.sqrt (n + 2 : ℕ) * (Real.sqrt (n + 2 : ℕ) *
    (Real.exp ((n + 2 : ℕ) * kiSize n iom R) * (2 * ((n + 2 : ℕ) * (kiSmall n iom R ^ 4 * kiSize n iom R)) *
      max 1 (((n + 2 : ℕ) : ℝ) ^ 2 * kiSize n iom R))))

theorem kiConst3_nonneg (n iom : ℕ) {R : ℝ} (hR : 0 ≤ R) : 0 ≤ kiConst3 n iom R := by
  have h1 : 0 ≤ kiSize n iom R := by unfold kiSize; positivity
  have h3 : 0 ≤ kiSmall n iom R := by unfold kiSmall; positivity
  have h2 : (0 : ℝ) ≤ max 1 (((n + 2 : ℕ) : ℝ) ^ 2 * kiSize n iom R) := le_trans zero_le_one (le_max_left _ _)
  unfold kiConst3
  positivity

set_option maxHeartbeats 1000000 in
/-- `kiops_fixedsteps` of the crate with at least four Krylov vectors and two unknowns, or with the whole augmented space: third order up to
the absolute breakdown tolerance -/
theorem padeKrylov_kiops3 (m iom : ℕ) (hm : 2 ≤ m) (hdim : 4 ≤ min (n + 2) m ∨ (n + 2 ≤ m ∧ n + 2 ≤ iom + 1)) {dt R : ℝ} (hdt : 0 < dt)
    (hR : 0 ≤ R) (hs1 : kiSmall n iom R * dt ≤ 1)
    (hsm : ((n + 2 : ℕ) : ℝ) ^ 3 * kiSize n iom R ^ 2 * (kiSmall n iom R * dt) ≤ 1) :
    ApproxKiopsRs ((KrylovExpm.mk padeKernel m iom).kern n) dt R (kiConst3 n iom R * (dt ^ 3 + min (1e-12 / dt) dt)) := by
  intro A M hA hM a b β hβ hβ1 ha hb
  have hβ0 : 0 ≤ β := hdt.le.trans hβ
  obtain ⟨ρ, hρ⟩ : ∃ ρ, ρ = Real.sqrt n * R * dt := ⟨_, rfl⟩
  have hρ0 : 0 ≤ ρ := by rw [hρ]; positivity
  have hρM : ∀ x, norm2 ((dt • M) *ᵥ x) ≤ ρ * norm2 x := fun x => by
    refine (norm2_mulVec_le _ x).trans (mul_le_mul_of_nonneg_right ?_ (norm2_nonneg x))
    rw [norm_smul, Real.norm_of_nonneg hdt.le]
    calc Real.sqrt n * (dt * ‖M‖) ≤ Real.sqrt n * (dt * R) := by gcongr
      _ = ρ := by rw [hρ]; ring
  have hq := Real.sqrt_nonneg (n : ℝ)
  have hqq : Real.sqrt n * Real.sqrt n = n := Real.mul_self_sqrt (Nat.cast_nonneg n)
  have na : norm2 a ≤ Real.sqrt n * β := (norm2_le_norm a).trans (mul_le_mul_of_nonneg_left ha hq)
  have nb : norm2 b ≤ Real.sqrt n * (dt * β) := (norm2_le_norm b).trans (mul_le_mul_of_nonneg_left hb hq)
  have na0 := norm2_nonneg a
  have nb0 := norm2_nonneg b
  have hdβ : dt * β ≤ dt := mul_le_of_le_one_right hdt.le hβ1
  have hdt1 : dt ≤ 1 := hβ.trans hβ1
  obtain ⟨s, hs⟩ : ∃ s, s = Real.sqrt (iom + 2) * (ρ + norm2 b) := ⟨_, rfl⟩
  obtain ⟨S, hS⟩ : ∃ S, S = Real.sqrt (iom + 2) * (ρ + (norm2 a + norm2 b) + 1) := ⟨_, rfl⟩
  have hs0 : 0 ≤ s := by rw [hs]; positivity
  have hS0 : 0 ≤ S := by rw [hS]; positivity
  have hsle : s ≤ kiSmall n iom R * dt := by
    rw [hs]
    unfold kiSmall
    rw [mul_assoc]
    refine mul_le_mul_of_nonneg_left ?_ (Real.sqrt_nonneg _)
    have := mul_le_mul_of_nonneg_left hdβ hq
    rw [hρ]
    linarith
  have hSle : S ≤ kiSize n iom R := by
    rw [hS]
    unfold kiSize
    refine mul_le_mul_of_nonneg_left ?_ (Real.sqrt_nonneg _)
    have h1 : ρ ≤ Real.sqrt n * R := by rw [hρ]; exact mul_le_of_le_one_right (by positivity) hdt1
    have h2 : Real.sqrt n * β ≤ Real.sqrt n := mul_le_of_le_one_right hq hβ1
    have h3 : Real.sqrt n * (dt * β) ≤ Real.sqrt n := mul_le_of_le_one_right hq (hdβ.trans hdt1)
    linarith
  have hs1' : s ≤ 1 := hsle.trans hs1
  have hN0 : (0 : ℝ) ≤ ((n + 2 : ℕ) : ℝ) := Nat.cast_nonneg _
  have hK0 : 0 ≤ kiSize n iom R := hS0.trans hSle
  have hk0 : 0 ≤ kiSmall n iom R := by unfold kiSmall; positivity
  have hs5 : s ^ 5 ≤ s := pow_le_of_le_one hs0 hs1' (by norm_num)
  obtain ⟨w, hw, -, he⟩ := kiops_small m iom hm A M hA dt a b ρ hρ0 hρM s S hs hS hs1' (by
    calc ((n + 2 : ℕ) : ℝ) ^ 2 * S * ((n + 2 : ℕ) * (s ^ 5 * S))
        ≤ ((n + 2 : ℕ) : ℝ) ^ 2 * kiSize n iom R * ((n + 2 : ℕ) * ((kiSmall n iom R * dt) * kiSize n iom R)) := by
          have := hs5.trans hsle
          gcongr
      _ = ((n + 2 : ℕ) : ℝ) ^ 3 * kiSize n iom R ^ 2 * (kiSmall n iom R * dt) := by ring
      _ ≤ 1 := hsm)
  have he := he hdim
  refine ⟨w, hw, (norm_le_norm2 _).trans (he.trans ?_)⟩
  have hg : ρ * norm2 a + norm2 b ≤ (n * R + Real.sqrt n) * (dt * β) := by
    have h1 := mul_le_mul_of_nonneg_left na hρ0
    have e : ρ * (Real.sqrt n * β) = n * R * (dt * β) := by
      rw [hρ]
      have e2 : Real.sqrt n * R * dt * (Real.sqrt n * β) = (Real.sqrt n * Real.sqrt n) * R * (dt * β) := by ring
      rw [e2, hqq]
    rw [e] at h1
    linarith
  have hs2 : s ^ 2 ≤ kiSmall n iom R ^ 2 * dt ^ 2 := by
    calc s ^ 2 ≤ (kiSmall n iom R * dt) ^ 2 := pow_le_pow_left₀ hs0 hsle 2
      _ = _ := by ring
  have hs52 : s ^ 5 ≤ kiSmall n iom R ^ 4 * (dt ^ 3 * β) := by
    calc s ^ 5 ≤ s ^ 4 := pow_le_pow_of_le_one hs0 hs1' (by norm_num)
      _ ≤ (kiSmall n iom R * dt) ^ 4 := pow_le_pow_left₀ hs0 hsle 4
      _ = kiSmall n iom R ^ 4 * (dt ^ 3 * dt) := by ring
      _ ≤ _ := by gcongr
  have hexp : Real.exp S ≤ Real.exp (kiSize n iom R) := Real.exp_le_exp.2 hSle
  obtain ⟨k1, hk1⟩ : ∃ k1, k1 = kiSize n iom R := ⟨_, rfl⟩
  obtain ⟨k2, hk2⟩ : ∃ k2, k2 = kiSmall n iom R := ⟨_, rfl⟩
  rw [← hk1] at hSle hK0 hexp
  rw [← hk2] at hs52 hs2
  have hmx : (0 : ℝ) ≤ max 1 (((n + 2 : ℕ) : ℝ) ^ 2 * k1) := le_trans zero_le_one (le_max_left _ _)
  have hmx0 : (0 : ℝ) ≤ max 1 (((n + 2 : ℕ) : ℝ) ^ 2 * S) := le_trans zero_le_one (le_max_left _ _)
  have hmle : max 1 (((n + 2 : ℕ) : ℝ) ^ 2 * S) ≤ max 1 (((n + 2 : ℕ) : ℝ) ^ 2 * k1) := max_le_max le_rfl (by gcongr)
  have hdense : nilDense (n + 2) s S ≤ Real.sqrt (n + 2 : ℕ) * (Real.exp ((n + 2 : ℕ) * k1) * (2 * ((n + 2 : ℕ) * (k2 ^ 4 * (dt ^ 3 * β) * k1)) *
      max 1 (((n + 2 : ℕ) : ℝ) ^ 2 * k1))) := by
    unfold nilDense
    gcongr
  obtain ⟨c, hc⟩ : ∃ c, c = (1 + Real.sqrt (n + 2 : ℕ)) * (n * R + Real.sqrt n) * Real.exp 1 := ⟨_, rfl⟩
  have hc0 : 0 ≤ c := by rw [hc]; positivity
  have hcg : (1 + Real.sqrt (n + 2 : ℕ)) * (ρ * norm2 a + norm2 b) * Real.exp 1 ≤ c * (dt * β) := by
    have : (1 + Real.sqrt (n + 2 : ℕ)) * (ρ * norm2 a + norm2 b) * Real.exp 1 ≤
      (1 + Real.sqrt (n + 2 : ℕ)) * ((n * R + Real.sqrt n) * (dt * β)) * Real.exp 1 := by gcongr
    refine this.trans (le_of_eq ?_)
    rw [hc]; ring
  have b1 : (1 + Real.sqrt (n + 2 : ℕ)) * (ρ * norm2 a + norm2 b) * s ^ 2 * Real.exp 1 ≤ c * k2 ^ 2 * (dt ^ 3 * β) := by
    have h1 := mul_le_mul hcg hs2 (by positivity) (by positivity)
    refine (le_of_eq ?_).trans (h1.trans (le_of_eq ?_)) <;> ring
  obtain ⟨μ, hμ⟩ : ∃ μ, μ = min (1e-12 / dt) dt := ⟨_, rfl⟩
  have hμ0 : 0 ≤ μ := by rw [hμ]; exact le_min (by positivity) hdt.le
  have b3 : min ((1 + Real.sqrt (n + 2 : ℕ)) * (ρ * norm2 a + norm2 b) * Real.exp 1) (1e-12 * Real.exp S) ≤ (c + Real.exp k1) * (μ * β) := by
    have h0 : 0 ≤ c * (μ * β) := by positivity
    have h1 : 0 ≤ Real.exp k1 * (μ * β) := by positivity
    rcases le_total (1e-12 / dt) dt with h | h
    · refine (min_le_right _ _).trans ?_
      have e : μ = 1e-12 / dt := by rw [hμ]; exact min_eq_left h
      have h2 : 1e-12 ≤ μ * β := by
        rw [e, div_mul_eq_mul_div, le_div_iff₀ hdt]
        exact mul_le_mul_of_nonneg_left hβ (by norm_num)
      have h3 : 1e-12 * Real.exp S ≤ (μ * β) * Real.exp k1 := mul_le_mul h2 hexp (Real.exp_pos _).le (by positivity)
      linarith
    · refine (min_le_left _ _).trans ?_
      have e : μ = dt := by rw [hμ]; exact min_eq_right h
      rw [e] at h0 h1 ⊢
      linarith
  have b2 := mul_le_mul_of_nonneg_left hdense (Real.sqrt_nonneg ((n + 2 : ℕ) : ℝ))
  refine (add_le_add (add_le_add b1 b3) b2).trans ?_
  obtain ⟨Q, hQ⟩ : ∃ Q, Q = Real.sqrt (n + 2 : ℕ) * (Real.sqrt (n + 2 : ℕ) * (Real.exp ((n + 2 : ℕ) * k1) * (2 * ((n + 2 : ℕ) * (k2 ^ 4 * k1)) *
      max 1 (((n + 2 : ℕ) : ℝ) ^ 2 * k1)))) := ⟨_, rfl⟩
  have hQ0 : 0 ≤ Q := by
    have : 0 ≤ k2 := by rw [hk2]; exact hk0
    rw [hQ]; positivity
  have e1 : Real.sqrt (n + 2 : ℕ) * (Real.sqrt (n + 2 : ℕ) * (Real.exp ((n + 2 : ℕ) * k1) * (2 * ((n + 2 : ℕ) * (k2 ^ 4 * (dt ^ 3 * β) * k1)) *
      max 1 (((n + 2 : ℕ) : ℝ) ^ 2 * k1)))) = Q * (dt ^ 3 * β) := by rw [hQ]; ring
  have e2 : kiConst3 n iom R = c * (k2 ^ 2 + 1) + Real.exp k1 + Q := by
    unfold kiConst3
    rw [← hk1, ← hk2, hc, hQ]
  rw [e1, e2, ← hμ]
  have p1 : 0 ≤ (c + Real.exp k1) * (dt ^ 3 * β) := by positivity
  have p2 : 0 ≤ (c * k2 ^ 2 + Q) * (μ * β) := by positivity
  linarith

set_option maxHeartbeats 1000000 in
/-- **C111, `epi3` of the crate as it is.**  With the crate's own products, at least two unknowns and four Krylov vectors (or the whole
augmented space, fully orthogonalised), any orthogonalisation depth `iom`: for every autonomous smooth system with exact Jacobians and every
solution that does not start at an equilibrium there are `C` and `δ > 0` such that for every Krylov dimension, every step `dt ≤ δ`, number
of steps and output stride the run succeeds and every output state is within `C (dt^3 + min (1e-12/dt) dt)` of the solution: order three
until the absolute breakdown tolerance `1e-12` of the Arnoldi iteration, spent once per step, dominates. -/
theorem C111_epi3 (sys : Sys n) (hj : ExactJacsRs sys) (Y : ℝ → Vec n) (t0 T : ℝ) (hT : t0 ≤ T)
    (hY : ∀ t ∈ Set.Icc t0 T, SmoothIVP sys.frhs 5 t Y) (hne : sys.frhs t0 (Y t0) ≠ 0) (iom : ℕ) :
    ∃ C δ : ℝ, 0 ≤ C ∧ 0 < δ ∧ ∀ (m : ℕ) (dt tol : ℝ) (N osteps : ℕ) (s1 s0 : Epirk n),
      ((2 ≤ n ∧ 4 ≤ m) ∨ (n + 2 ≤ m ∧ n + 2 ≤ iom + 1)) → 0 < dt → dt ≤ δ → t0 + N * dt ≤ T → 0 < osteps →
      Epirk.new t0 (Y t0) "epi3" = .ok s1 → s1.withOpt "tol_fdt" tol = .ok s0 →
      ∃ out, outLoop (Epirk.integrator ((KrylovExpm.mk padeKernel m iom).kern n) sys) dt osteps N 0 s0 [] [] = .ok out ∧
        RsRunAccurate out t0 dt osteps N Y (C * (dt ^ 3 + min (1e-12 / dt) dt)) := by
  obtain ⟨C, δ, R, hC, hδ, hR, h⟩ := C111_epi3_approx sys hj Y t0 T hT hY hne
  obtain ⟨D, hD⟩ : ∃ D, D = Real.sqrt n * (rsKrylovConst n 1 2 iom * ((Real.sqrt n * R) ^ 2 + 1)) := ⟨_, rfl⟩
  have hD0 : 0 ≤ D := by
    have := rsKrylovConst_nonneg n 1 2 iom
    rw [hD]; positivity
  obtain ⟨S, hS⟩ : ∃ S, S = 14 * (n : ℝ) ^ 2 * (Real.sqrt (iom + 2) * (Real.sqrt n * R)) := ⟨_, rfl⟩
  have hS0 : 0 ≤ S := by rw [hS]; positivity
  obtain ⟨D3, hD3⟩ : ∃ D3, D3 = kiConst3 n iom R := ⟨_, rfl⟩
  have hD30 : 0 ≤ D3 := by rw [hD3]; exact kiConst3_nonneg n iom hR
  have hks : 0 ≤ kiSmall n iom R := by unfold kiSmall; positivity
  obtain ⟨U, hU⟩ : ∃ U, U = kiSmall n iom R + ((n + 2 : ℕ) : ℝ) ^ 3 * kiSize n iom R ^ 2 * kiSmall n iom R := ⟨_, rfl⟩
  have hU1 : 0 ≤ ((n + 2 : ℕ) : ℝ) ^ 3 * kiSize n iom R ^ 2 * kiSmall n iom R := by positivity
  have hU0 : 0 ≤ U := by rw [hU]; positivity
  obtain ⟨X, hX⟩ : ∃ X, X = 1 + 2 * D + 2 * D3 := ⟨_, rfl⟩
  have hX1 : 1 ≤ X := by rw [hX]; linarith
  refine ⟨C * (1 + 2 * D + D3), min (min (δ / X) 1) (1 / (S + U + 1)), by positivity, by positivity, ?_⟩
  intro m dt tol N osteps s1 s0 hdim h1 h2 h3 ho hn1 hn0
  have hd1 : dt ≤ 1 := h2.trans ((min_le_left _ _).trans (min_le_right _ _))
  have hdX : dt * X ≤ δ := by
    have := h2.trans ((min_le_left _ _).trans (min_le_left _ _))
    rwa [le_div_iff₀ (by positivity)] at this
  have hdS : dt * (S + U + 1) ≤ 1 := by
    have := h2.trans (min_le_right _ _)
    rwa [le_div_iff₀ (by rw [hU]; positivity)] at this
  have hdS0 : 0 ≤ dt * S := by positivity
  have hdU0 : 0 ≤ dt * U := by rw [hU]; positivity
  have hU2 : 0 ≤ dt * (((n + 2 : ℕ) : ℝ) ^ 3 * kiSize n iom R ^ 2 * kiSmall n iom R) := by positivity
  have hU3 : 0 ≤ dt * kiSmall n iom R := by positivity
  obtain ⟨μ, hμ⟩ : ∃ μ, μ = min (1e-12 / dt) dt := ⟨_, rfl⟩
  have hμ0 : 0 ≤ μ := by rw [hμ]; exact le_min (by positivity) h1.le
  have hμd : μ ≤ dt := by rw [hμ]; exact min_le_right _ _
  have hp2 : dt ^ 2 ≤ dt := by
    calc dt ^ 2 ≤ dt ^ 1 := pow_le_pow_of_le_one h1.le hd1 (by norm_num)
      _ = dt := pow_one dt
  have hp3 : dt ^ 3 ≤ dt := by
    calc dt ^ 3 ≤ dt ^ 1 := pow_le_pow_of_le_one h1.le hd1 (by norm_num)
      _ = dt := pow_one dt
  have hp20 : 0 ≤ dt ^ 2 := by positivity
  have hp30 : 0 ≤ dt ^ 3 := by positivity
  have hκ1 : D * (dt ^ 2 + 1e-12 * dt) ≤ δ := by
    have a1 : dt ^ 2 + 1e-12 * dt ≤ 2 * dt := by linarith
    have a2 := mul_le_mul_of_nonneg_left a1 hD0
    have a3 : 0 ≤ dt * (1 + 2 * D3) := by positivity
    rw [hX] at hdX
    linarith
  have hκ : D3 * (dt ^ 3 + μ) ≤ δ := by
    have a1 : dt ^ 3 + μ ≤ 2 * dt := by linarith
    have a2 := mul_le_mul_of_nonneg_left a1 hD30
    have a3 : 0 ≤ dt * (1 + 2 * D) := by positivity
    rw [hX] at hdX
    linarith
  have hn0' : n ≠ 0 := by
    rintro rfl
    exact hne (Subsingleton.elim _ _)
  obtain ⟨out, ho1, ho2⟩ := h _ dt (D * (dt ^ 2 + 1e-12 * dt)) (D3 * (dt ^ 3 + μ)) tol N osteps s1 s0 h1 (by
      have : 0 ≤ dt * (2 * D + 2 * D3) := by positivity
      rw [hX] at hdX
      linarith) (by positivity) hκ1 (by positivity) hκ
    (by
      rw [hD]
      refine padeKrylov_approx m iom (by omega) ?_ h1 hR ?_
      · rcases hdim with ⟨p1, p2⟩ | ⟨p1, p2⟩
        · exact Or.inl (le_min p1 (by omega))
        · exact Or.inr ⟨by omega, by omega⟩
      · have e : 14 * (n : ℝ) ^ 2 * (Real.sqrt (iom + 2) * (Real.sqrt n * R * dt)) = dt * S := by rw [hS]; ring
        rw [e]; linarith)
    (by
      rw [hD3, hμ]
      refine padeKrylov_kiops3 m iom (by omega) ?_ h1 hR (by rw [hU] at hdS; linarith) (by rw [hU] at hdS hdU0; linarith)
      rcases hdim with ⟨p1, p2⟩ | p
      · exact Or.inl (le_min (by omega) p2)
      · exact Or.inr p) h3 ho hn1 hn0
  refine ⟨out, ho1, ho2.1, ho2.2.1, fun i y t hy ht => (ho2.2.2 i y t hy ht).trans ?_⟩
  rw [← hμ]
  refine le_trans ?_ (le_of_eq (mul_assoc C (1 + 2 * D + D3) (dt ^ 3 + μ)).symm)
  refine mul_le_mul_of_nonneg_left ?_ hC
  have hmd : 1e-12 * dt ^ 2 ≤ dt ^ 3 + μ := by
    rcases le_total (1e-12 / dt) dt with hle | hle
    · have e : μ = 1e-12 / dt := by rw [hμ]; exact min_eq_left hle
      rw [e]
      have : 1e-12 ≤ 1e-12 / dt := by
        rw [le_div_iff₀ h1]; linarith
      linarith
    · have e : μ = dt := by rw [hμ]; exact min_eq_right hle
      rw [e]; linarith
  have q1 := mul_le_mul_of_nonneg_left hmd hD0
  have q2 : 0 ≤ D * μ := by positivity
  have e3 : dt * (D * (dt ^ 2 + 1e-12 * dt)) = D * dt ^ 3 + D * (1e-12 * dt ^ 2) := by ring
  rw [e3]
  linarith

/-- on `y' = y^2`, `y(0) = 1`, the crate's `epi3` with its own products and the whole augmented space has order three on `[0, 1/2]`, up
to the breakdown tolerance -/
example : ∃ C δ : ℝ, 0 ≤ C ∧ 0 < δ ∧ ∀ (dt : ℝ) (N : ℕ), 0 < dt → dt ≤ δ → N * dt ≤ 1 / 2 →
    ∃ s0 out, Epirk.new 0 (fun _ => 1) "epi3" = .ok s0 ∧
      outLoop (Epirk.integrator ((KrylovExpm.mk padeKernel 3 2).kern 1) squareSys) dt 2 N 0 s0 [] [] = .ok out ∧
      RsRunAccurate out 0 dt 2 N (fun s _ => (1 - s)⁻¹) (C * (dt ^ 3 + min (1e-12 / dt) dt)) := by
  obtain ⟨C, δ, hC, hδ, h⟩ := C111_epi3 squareSys squareSys_exact (fun s _ => (1 - s)⁻¹) 0 (1 / 2) (by norm_num)
    (fun t ht => squareSys_smooth 5 t (by linarith [ht.2])) (fun h0 => by
      have := congrFun h0 0
      simp [squareSys] at this) 2
  refine ⟨C, δ, hC, hδ, fun dt N h1 h2 h3 => ?_⟩
  obtain ⟨out, h4, h5⟩ := h 3 dt (-1) N 2 ⟨3, "epi3", 0, -1, [fun _ => 1], [0]⟩ ⟨3, "epi3", 0, -1, [fun _ => 1], [0]⟩
    (Or.inr ⟨by norm_num, by norm_num⟩) h1 h2 (by linarith)
    (by norm_num) (by simp [Epirk.new, Bind.bind, Except.bind, Pure.pure, Except.pure]) rfl
  exact ⟨_, out, by simp [Epirk.new, Bind.bind, Except.bind, Pure.pure, Except.pure], h4, h5⟩

end
end Ormatex.Props
