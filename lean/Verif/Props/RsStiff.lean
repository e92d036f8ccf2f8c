import Verif.Props.RsInexact
import Mathlib.Analysis.Calculus.MeanValue

/-!
C131: error of the implicit methods of the crate against the solution, on dissipative affine systems, without hidden constants.
-/

namespace Ormatex.Props
open Matrix Ormatex.Spec Ormatex.Rs

section
variable {n : ℕ}

theorem hasDerivAt_toLp {f : ℝ → Vec n} {f' : Vec n} {s : ℝ} (h : HasDerivAt f f' s) :
    HasDerivAt (fun t => (WithLp.toLp 2 (f t) : PiLp 2 fun _ : Fin n => ℝ)) (WithLp.toLp 2 f') s :=
  ((PiLp.continuousLinearEquiv 2 ℝ fun _ : Fin n => ℝ).symm.toContinuousLinearMap.hasFDerivAt).comp_hasDerivAt s h

/-- a curve that starts at zero and whose speed is at most `c sᵖ` -/
theorem norm2_growth {f f' : ℝ → Vec n} (hf : ∀ s, HasDerivAt f (f' s) s) (h0 : f 0 = 0) (c : ℝ) (p : ℕ) {h : ℝ} (hh : 0 ≤ h)
    (hb : ∀ s, 0 ≤ s → s ≤ h → norm2 (f' s) ≤ c * s ^ p) : norm2 (f h) ≤ c * h ^ (p + 1) / (p + 1) := by
  have key := image_norm_le_of_norm_deriv_right_le_deriv_boundary (a := 0) (b := h)
    (f := fun t => (WithLp.toLp 2 (f t) : PiLp 2 fun _ : Fin n => ℝ)) (f' := fun t => WithLp.toLp 2 (f' t))
    (fun s _ => (hasDerivAt_toLp (hf s)).continuousAt.continuousWithinAt) (fun s _ => (hasDerivAt_toLp (hf s)).hasDerivWithinAt)
    (B := fun s => c * s ^ (p + 1) / (p + 1)) (B' := fun s => c * s ^ p) (by rw [h0]; simp)
    (fun s => by
      refine (((hasDerivAt_pow (p + 1) s).const_mul c).div_const ((p : ℝ) + 1)).congr_deriv ?_
      have : (p : ℝ) + 1 ≠ 0 := by positivity
      push_cast
      field_simp)
    (fun s hs => by rw [← norm2_eq]; exact hb s hs.1 hs.2.le)
  have := key (Set.mem_Icc.2 ⟨hh, le_rfl⟩)
  rw [norm2_eq]
  exact this

theorem hasDerivAt_mulVec (A : Mat n) {f : ℝ → Vec n} {f' : Vec n} {s : ℝ} (h : HasDerivAt f f' s) : HasDerivAt (fun t => A *ᵥ f t) (A *ᵥ f') s :=
  ((LinearMap.toContinuousLinearMap (Matrix.mulVecLin A)).hasFDerivAt).comp_hasDerivAt s h

/-- a dissipative linear flow does not increase the Euclidean norm -/
theorem dissipative_flow {A : Mat n} (hA : Dissipative A) {F : ℝ → Vec n} (hF : ∀ s, HasDerivAt F (A *ᵥ F s) s) {s t : ℝ} (hst : s ≤ t) :
    norm2 (F t) ≤ norm2 (F s) := by
  have hd : ∀ s, HasDerivAt (fun t => F t ⬝ᵥ F t) (2 * (F s ⬝ᵥ (A *ᵥ F s))) s := by
    intro s
    have h1 : ∀ i, HasDerivAt (fun t => F t i * F t i) ((A *ᵥ F s) i * F s i + F s i * (A *ᵥ F s) i) s := fun i =>
      (hasDerivAt_pi.1 (hF s) i).mul (hasDerivAt_pi.1 (hF s) i)
    have h2 := HasDerivAt.fun_sum (u := Finset.univ) fun i _ => h1 i
    refine h2.congr_deriv ?_
    simp only [dotProduct, Finset.mul_sum]
    exact Finset.sum_congr rfl fun i _ => by ring
  have hanti : Antitone fun t => F t ⬝ᵥ F t := antitone_of_hasDerivAt_nonpos hd fun s => by
    show 2 * (F s ⬝ᵥ (A *ᵥ F s)) ≤ (0 : ℝ)
    have := hA (F s)
    linarith
  exact Real.sqrt_le_sqrt (hanti hst)

/-- the solution of `y' = A y + b` and its derivatives -/
theorem affine_derivs {A : Mat n} {b : Vec n} {Y : ℝ → Vec n} (hY : ∀ t, HasDerivAt Y (A *ᵥ Y t + b) t) :
    (∀ t, HasDerivAt (fun t => A *ᵥ Y t + b) (A *ᵥ (A *ᵥ Y t + b)) t) ∧
    (∀ t, HasDerivAt (fun t => A *ᵥ (A *ᵥ Y t + b)) (A *ᵥ (A *ᵥ (A *ᵥ Y t + b))) t) ∧
    (∀ t, HasDerivAt (fun t => A *ᵥ (A *ᵥ (A *ᵥ Y t + b))) (A *ᵥ (A *ᵥ (A *ᵥ (A *ᵥ Y t + b)))) t) := by
  have h1 : ∀ t, HasDerivAt (fun t => A *ᵥ Y t + b) (A *ᵥ (A *ᵥ Y t + b)) t := fun t => (hasDerivAt_mulVec A (hY t)).add_const b
  exact ⟨h1, fun t => hasDerivAt_mulVec A (h1 t), fun t => hasDerivAt_mulVec A (hasDerivAt_mulVec A (h1 t))⟩

theorem shift_deriv {f : ℝ → Vec n} {f' : ℝ → Vec n} (hf : ∀ t, HasDerivAt f (f' t) t) (t s : ℝ) : HasDerivAt (fun s => f (t + s)) (f' (t + s)) s := by
  have := (hf (t + s)).scomp s ((hasDerivAt_id s).const_add t)
  rw [one_smul] at this
  exact this

/-- the error of one exact implicit step from a point of the solution -/
theorem imp_defect {order : ℕ} (ho : order = 1 ∨ order = 3) {A : Mat n} (hA : Dissipative A) {b : Vec n} {Y : ℝ → Vec n}
    (hY : ∀ t, HasDerivAt Y (A *ᵥ Y t + b) t) (t : ℝ) {dt : ℝ} (hdt : 0 ≤ dt) :
    norm2 (Y (t + dt) - impMap order A b dt (Y t)) ≤
      if order = 1 then norm2 (A *ᵥ (A *ᵥ Y t + b)) * dt ^ 2 / 2 else norm2 (A *ᵥ (A *ᵥ (A *ᵥ Y t + b))) * dt ^ 3 / 12 := by
  obtain ⟨d1, d2, d3⟩ := affine_derivs hY
  have e1 := shift_deriv hY t
  have e2 := shift_deriv d1 t
  have e3 := shift_deriv d2 t
  rcases ho with rfl | rfl
  · rw [if_pos rfl]
    have hM := dissipative_unit hA hdt
    have hg := norm2_growth (f := fun s => Y (t + s) - s • (A *ᵥ Y (t + s) + b) - Y t) (f' := fun s => -(s • (A *ᵥ (A *ᵥ Y (t + s) + b))))
      (fun s => by
        refine (((e1 s).sub ((hasDerivAt_id s).smul (e2 s))).sub_const (Y t)).congr_deriv ?_
        simp only [id]
        module) (by simp) (norm2 (A *ᵥ (A *ᵥ Y t + b))) 1 hdt (by
        intro s hs _
        rw [norm2_neg, norm2_smul, abs_of_nonneg hs, pow_one, mul_comm]
        exact mul_le_mul_of_nonneg_right (dissipative_flow hA d2 (by linarith)) hs)
    refine (be_norm hA hdt (y := Y (t + dt) - dt • (A *ᵥ Y (t + dt) + b) - Y t) ?_).trans (hg.trans (le_of_eq ?_))
    · have : (1 - dt • A) *ᵥ impMap 1 A b dt (Y t) = Y t + dt • b := by
        simp only [impMap, if_true, beMap]; rw [mulVec_mulVec, mul_nonsing_inv _ hM, one_mulVec]
      rw [mulVec_sub, this, sub_mulVec, one_mulVec, smul_mulVec]
      module
    · norm_num
  · rw [if_neg (by norm_num)]
    have hh : (0 : ℝ) ≤ dt / 2 := by positivity
    have hM := dissipative_unit hA hh
    obtain ⟨m, hm⟩ : ∃ m, m = norm2 (A *ᵥ (A *ᵥ (A *ᵥ Y t + b))) := ⟨_, rfl⟩
    have hfirst : ∀ s, 0 ≤ s → norm2 ((1 / 2 : ℝ) • ((A *ᵥ Y (t + s) + b) - (A *ᵥ Y t + b)) - (s / 2) • (A *ᵥ (A *ᵥ Y (t + s) + b))) ≤ m / 4 * s ^ 2 := by
      intro s hs
      have hg := norm2_growth (f := fun s => (1 / 2 : ℝ) • ((A *ᵥ Y (t + s) + b) - (A *ᵥ Y t + b)) - (s / 2) • (A *ᵥ (A *ᵥ Y (t + s) + b)))
        (f' := fun s => -((s / 2) • (A *ᵥ (A *ᵥ (A *ᵥ Y (t + s) + b)))))
        (fun s => by
          refine ((((e2 s).sub_const (A *ᵥ Y t + b)).const_smul (1 / 2 : ℝ)).sub (((hasDerivAt_id s).div_const 2).smul (e3 s))).congr_deriv ?_
          simp only [id]
          module) (by simp) (m / 2) 1 hs (by
          intro r hr _
          rw [norm2_neg, norm2_smul, abs_of_nonneg (by positivity), pow_one, hm]
          have := mul_le_mul_of_nonneg_right (dissipative_flow hA d3 (show t ≤ t + r by linarith)) (show 0 ≤ r / 2 by positivity)
          linarith)
      refine hg.trans (le_of_eq ?_)
      norm_num
      ring
    have hg := norm2_growth (f := fun s => Y (t + s) - Y t - (s / 2) • ((A *ᵥ Y (t + s) + b) + (A *ᵥ Y t + b)))
      (f' := fun s => (1 / 2 : ℝ) • ((A *ᵥ Y (t + s) + b) - (A *ᵥ Y t + b)) - (s / 2) • (A *ᵥ (A *ᵥ Y (t + s) + b)))
      (fun s => by
        refine (((e1 s).sub_const (Y t)).sub (((hasDerivAt_id s).div_const 2).smul ((e2 s).add_const (A *ᵥ Y t + b)))).congr_deriv ?_
        simp only [id]
        module) (by simp) (m / 4) 2 hdt (fun s hs _ => hfirst s hs)
    refine (be_norm hA hh (y := Y (t + dt) - Y t - (dt / 2) • ((A *ᵥ Y (t + dt) + b) + (A *ᵥ Y t + b))) ?_).trans (hg.trans (le_of_eq ?_))
    · have : (1 - (dt / 2) • A) *ᵥ impMap 3 A b dt (Y t) = (1 + (dt / 2) • A) *ᵥ Y t + dt • b := by
        have : impMap 3 A b dt (Y t) = cnMap A b dt (Y t) := by simp [impMap]
        rw [this, cnMap, mulVec_mulVec, mul_nonsing_inv _ hM, one_mulVec]
      rw [mulVec_sub, this, sub_mulVec, add_mulVec, one_mulVec, smul_mulVec, one_mulVec, smul_mulVec]
      module
    · rw [hm]; norm_num; ring

/-- the errors add up -/
theorem imp_global {order : ℕ} (ho : order = 1 ∨ order = 3) {A : Mat n} (hA : Dissipative A) {b : Vec n} {Y : ℝ → Vec n}
    (hY : ∀ t, HasDerivAt Y (A *ᵥ Y t + b) t) (t0 : ℝ) {dt : ℝ} (hdt : 0 ≤ dt) (k : ℕ) :
    norm2 ((impMap order A b dt)^[k] (Y t0) - Y (t0 + k * dt)) ≤
      k * (if order = 1 then norm2 (A *ᵥ (A *ᵥ Y t0 + b)) * dt ^ 2 / 2 else norm2 (A *ᵥ (A *ᵥ (A *ᵥ Y t0 + b))) * dt ^ 3 / 12) := by
  obtain ⟨d1, d2, d3⟩ := affine_derivs hY
  induction k with
  | zero => simp [norm2_zero]
  | succ k ih =>
    have hk : t0 ≤ t0 + k * dt := by have : (0 : ℝ) ≤ k * dt := by positivity
                                     linarith
    have hdef := imp_defect ho hA hY (t0 + k * dt) hdt
    have hmono : (if order = 1 then norm2 (A *ᵥ (A *ᵥ Y (t0 + k * dt) + b)) * dt ^ 2 / 2 else norm2 (A *ᵥ (A *ᵥ (A *ᵥ Y (t0 + k * dt) + b))) * dt ^ 3 / 12) ≤
        (if order = 1 then norm2 (A *ᵥ (A *ᵥ Y t0 + b)) * dt ^ 2 / 2 else norm2 (A *ᵥ (A *ᵥ (A *ᵥ Y t0 + b))) * dt ^ 3 / 12) := by
      split_ifs
      · have := mul_le_mul_of_nonneg_right (dissipative_flow hA d2 hk) (show 0 ≤ dt ^ 2 by positivity)
        linarith
      · have := mul_le_mul_of_nonneg_right (dissipative_flow hA d3 hk) (show 0 ≤ dt ^ 3 by positivity)
        linarith
    obtain ⟨D, hD⟩ : ∃ D, D = (if order = 1 then norm2 (A *ᵥ (A *ᵥ Y t0 + b)) * dt ^ 2 / 2 else norm2 (A *ᵥ (A *ᵥ (A *ᵥ Y t0 + b))) * dt ^ 3 / 12) := ⟨_, rfl⟩
    rw [← hD] at ih hmono ⊢
    have e : (impMap order A b dt)^[k + 1] (Y t0) - Y (t0 + ((k + 1 : ℕ) : ℝ) * dt) =
        (impMap order A b dt ((impMap order A b dt)^[k] (Y t0)) - impMap order A b dt (Y (t0 + k * dt))) -
        (Y (t0 + k * dt + dt) - impMap order A b dt (Y (t0 + k * dt))) := by
      rw [Function.iterate_succ_apply', show t0 + ((k + 1 : ℕ) : ℝ) * dt = t0 + k * dt + dt by push_cast; ring]
      abel
    rw [e]
    have h1 := norm2_sub_le (impMap order A b dt ((impMap order A b dt)^[k] (Y t0)) - impMap order A b dt (Y (t0 + k * dt)))
      (Y (t0 + k * dt + dt) - impMap order A b dt (Y (t0 + k * dt)))
    have h2 := (impMap_spec ho hA b hdt).1 ((impMap order A b dt)^[k] (Y t0)) (Y (t0 + k * dt))
    push_cast
    linarith

/-- **C131 (a priori error).** For `y' = A y + b` with dissipative `A` of any stiffness and a linear solver known by its residual contract only, the calls
of the binding with `bdf1`/`backeuler` and `cn` return, and their states differ from the solution by at most the stated explicit bounds: first and second
order in `dt`, linear in the elapsed time, with constants that depend on the initial state only. -/
theorem C131_error {gmres : Gmres n} (hg : ResidualGmres gmres) (hn : n ≤ 1000) (split : ℕ → Option (Split ℕ)) {sys : Sys n} {A : Mat n} {b : Vec n}
    (hs : AffineSys sys A b) (hA : Dissipative A) {Y : ℝ → Vec n} (hY : ∀ t, HasDerivAt Y (A *ᵥ Y t + b) t) (t0 dt : ℝ) (hdt : 0 ≤ dt) (N : ℕ)
    (kd : Kwds) (o : RunOpts) (hp : parseOpts kd = .ok o) (ho : 0 < o.osteps) (hbig : dt * ((1 + 2e-8) ^ N * norm2 (A *ᵥ Y t0 + b)) ≤ 1e300)
    (hm : o.method = "bdf1" ∨ o.method = "backeuler" ∨ o.method = "cn") :
    ∃ u : ℕ → Vec n,
      integrateWrapperRs gmres split sys (Y t0) t0 dt N kd =
        .ok ((outputSteps o.osteps N).map u, (outputSteps o.osteps N).map fun i : ℕ => t0 + i * dt) ∧
      (o.method ≠ "cn" → ∀ k ≤ N, norm2 (u k - Y (t0 + k * dt)) ≤
        (k * dt) * (dt / 2 * norm2 (A *ᵥ (A *ᵥ Y t0 + b)) + 1e-8 * (1 + 2e-8) ^ k * norm2 (A *ᵥ Y t0 + b))) ∧
      (o.method = "cn" → ∀ k ≤ N, norm2 (u k - Y (t0 + k * dt)) ≤
        (k * dt) * (dt ^ 2 / 12 * norm2 (A *ᵥ (A *ᵥ (A *ᵥ Y t0 + b))) + 1e-8 * (1 + 2e-8) ^ k * norm2 (A *ᵥ Y t0 + b))) := by
  have fin : ∀ (order : ℕ), (order = 1 ∨ order = 3) → ∀ u : ℕ → Vec n,
      (∀ k ≤ N, norm2 (u k - (impMap order A b dt)^[k] (Y t0)) ≤ 1e-8 * (k * dt) * ((1 + 2e-8) ^ k * norm2 (A *ᵥ Y t0 + b))) → ∀ k ≤ N,
      norm2 (u k - Y (t0 + k * dt)) ≤ 1e-8 * (k * dt) * ((1 + 2e-8) ^ k * norm2 (A *ᵥ Y t0 + b)) + k * (if order = 1 then
        norm2 (A *ᵥ (A *ᵥ Y t0 + b)) * dt ^ 2 / 2 else norm2 (A *ᵥ (A *ᵥ (A *ᵥ Y t0 + b))) * dt ^ 3 / 12) := by
    intro order hord u hu k hk
    have h1 := norm2_add_le (u k - (impMap order A b dt)^[k] (Y t0)) ((impMap order A b dt)^[k] (Y t0) - Y (t0 + k * dt))
    rw [sub_add_sub_cancel] at h1
    have := hu k hk
    have := imp_global hord hA hY t0 hdt k
    linarith
  by_cases hcn : o.method = "cn"
  · obtain ⟨u, u0, u1, u2⟩ := C130_inexact hg hn split hs hA (Y t0) t0 dt hdt N kd o hp ho hbig (impMap 3 A b dt) (Or.inr ⟨hcn, by simp [impMap]⟩)
    refine ⟨u, u1, fun h => absurd hcn h, fun _ k hk => (fin 3 (Or.inr rfl) u u2 k hk).trans (le_of_eq ?_)⟩
    rw [if_neg (by norm_num)]
    ring
  · have hb : o.method = "bdf1" ∨ o.method = "backeuler" := by
      rcases hm with h | h | h
      · exact Or.inl h
      · exact Or.inr h
      · exact absurd h hcn
    obtain ⟨u, u0, u1, u2⟩ := C130_inexact hg hn split hs hA (Y t0) t0 dt hdt N kd o hp ho hbig (impMap 1 A b dt) (Or.inl ⟨hb, by simp [impMap]⟩)
    refine ⟨u, u1, fun _ k hk => (fin 1 (Or.inl rfl) u u2 k hk).trans (le_of_eq ?_), fun h => absurd h hcn⟩
    rw [if_pos rfl]
    ring

/-- the hypotheses are met: a stiff system and its solution through a given point -/
example : ∃ Y : ℝ → Vec 2, Y 0 = ![1, 0] ∧ (∀ t, HasDerivAt Y (!![-1000000, 5; -5, 0] *ᵥ Y t + ![1, 2]) t) ∧ Dissipative !![-1000000, 5; -5, 0] ∧
    ResidualGmres (sloppyGmres 2) := by
  obtain ⟨Y, h1, h2⟩ := solves_exists !![-1000000, 5; -5, 0] ![1, 2] 0 ![1, 0] 0
  refine ⟨Y, h2, fun t => (h1 t).congr_deriv (by simp), fun v => ?_, sloppy_residual 2⟩
  simp [mulVec, dotProduct, Fin.sum_univ_two]
  nlinarith [sq_nonneg (v 0)]

end
end Ormatex.Props
