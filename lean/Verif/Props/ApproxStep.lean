import Verif.Props.ConvergeRun
import Verif.Spec.Approx

/-!
C103: one step of the Rosenbrock, EPI and splitting methods with approximate kernels is a smooth function of the step size, the
time, the state and the (scaled) kernel errors.
-/

namespace Ormatex.Props
open Filter Asymptotics Topology Matrix Ormatex.Spec
open scoped Classical

section tube
variable {E X : Type*} [NormedAddCommGroup E] [NormedSpace ℝ E] [NormedAddCommGroup X] [NormedSpace ℝ X]

/-- a smooth function that vanishes at `h = 0` is `O(h)` uniformly near a compact curve -/
theorem tube_bound {G : ℝ × ℝ × X → E} {x : ℝ → X} {a b : ℝ} (hG : ∀ t ∈ Set.Icc a b, ContDiffAt ℝ 2 G (0, t, x t))
    (h0 : ∀ t x, G (0, t, x) = 0) (hx : ∀ t ∈ Set.Icc a b, ContinuousAt x t) :
    ∃ B ρ : ℝ, 0 ≤ B ∧ 0 < ρ ∧ ∀ t ∈ Set.Icc a b, ∀ h y, |h| < ρ → ‖y - x t‖ < ρ → ‖G (h, t, y)‖ ≤ B * |h| := by
  obtain ⟨L, ρ, hL, hρ, hl⟩ := tube_lipschitz (G := fun q : ℝ × ℝ × (X × ℝ) => q.2.2.2 • G (q.1, q.2.1, q.2.2.1))
    (x := fun t => (x t, (0 : ℝ))) (a := a) (b := b)
    (fun t ht => by
      have h1 : ContDiffAt ℝ 2 (fun q : ℝ × ℝ × (X × ℝ) => (q.1, q.2.1, q.2.2.1)) (0, t, (x t, (0 : ℝ))) := by fun_prop
      have h2 : ContDiffAt ℝ 2 (fun q : ℝ × ℝ × (X × ℝ) => q.2.2.2) (0, t, (x t, (0 : ℝ))) := by fun_prop
      exact h2.smul (ContDiffAt.comp (g := G) (0, t, (x t, (0 : ℝ))) (hG t ht) h1))
    (fun t x => by simp [h0]) (fun t ht => (hx t ht).prodMk continuousAt_const)
  refine ⟨L, ρ, hL, hρ, fun t ht h y hh hy => ?_⟩
  have h2 : (0 : ℝ) < ρ / 2 := by linarith
  have := hl t ht h (y, ρ / 2) (y, 0) hh
    (by rw [Prod.mk_sub_mk, Prod.norm_mk, max_lt_iff, sub_zero, Real.norm_of_nonneg h2.le]; exact ⟨hy, by linarith⟩)
    (by rw [Prod.mk_sub_mk, Prod.norm_mk, max_lt_iff, sub_zero, norm_zero]; exact ⟨hy, hρ⟩)
  simp only [zero_smul, sub_zero, Prod.mk_sub_mk, sub_self, Prod.norm_mk, norm_zero, norm_smul, Real.norm_of_nonneg h2.le] at this
  rw [max_eq_right h2.le] at this
  have h3 : ρ / 2 * ‖G (h, t, y)‖ ≤ ρ / 2 * (L * |h|) := by linarith
  exact le_of_mul_le_mul_left h3 h2

/-- a smooth function is bounded near a compact curve -/
theorem tube_bound0 {g : ℝ × X → E} {x : ℝ → X} {a b : ℝ} (hg : ∀ t ∈ Set.Icc a b, ContDiffAt ℝ 2 g (t, x t))
    (hx : ∀ t ∈ Set.Icc a b, ContinuousAt x t) :
    ∃ B ρ : ℝ, 0 ≤ B ∧ 0 < ρ ∧ ∀ t ∈ Set.Icc a b, ∀ y, ‖y - x t‖ < ρ → ‖g (t, y)‖ ≤ B := by
  obtain ⟨B, ρ, hB, hρ, hb⟩ := tube_bound (G := fun q : ℝ × ℝ × X => q.1 • g q.2) (x := x) (a := a) (b := b)
    (fun t ht => contDiffAt_fst.smul (ContDiffAt.comp (g := g) (0, t, x t) (hg t ht) contDiffAt_snd)) (fun t x => by simp) hx
  refine ⟨B, ρ, hB, hρ, fun t ht y hy => ?_⟩
  have h2 : (0 : ℝ) < ρ / 2 := by linarith
  have := hb t ht (ρ / 2) y (by rw [abs_of_pos h2]; linarith) hy
  rw [norm_smul, Real.norm_of_nonneg h2.le, abs_of_pos h2, mul_comm B] at this
  exact le_of_mul_le_mul_left this h2

end tube

section maps
open scoped Matrix.Norms.Operator
variable {n : ℕ}

/-- time derivative used by the step, and the kernel errors divided by the step size -/
abbrev Aux (n : ℕ) := Vec n × (Fin 3 → Vec n)

/-- a stage of a Rosenbrock method with error `h d_i` -/
noncomputable def stageE (f : ℝ → Vec n → Vec n) (c : ℝ) (i : Fin 3) (q : ℝ × ℝ × (Vec n × Aux n)) : Vec n :=
  rosEuler (jacM f (q.2.1, q.2.2.1)) q.2.2.1 (f q.2.1 q.2.2.1) q.2.2.2.1 q.1 c + q.1 • q.2.2.2.2 i

/-- the remainder at a perturbed stage -/
noncomputable def remE (f : ℝ → Vec n → Vec n) (c : ℝ) (i : Fin 3) (q : ℝ × ℝ × (Vec n × Aux n)) : Vec n :=
  f (q.2.1 + c * q.1) (stageE f c i q) - f q.2.1 q.2.2.1 - jacM f (q.2.1, q.2.2.1) *ᵥ (stageE f c i q - q.2.2.1)
    - (c * q.1) • q.2.2.2.1

noncomputable def mapE3 (f : ℝ → Vec n → Vec n) (q : ℝ × ℝ × (Vec n × Aux n)) : Vec n :=
  stageE f 1 0 q + (2 * q.1) • (phiM 3 (q.1 • jacM f (q.2.1, q.2.2.1)) *ᵥ remE f 1 0 q) + q.1 • q.2.2.2.2 1

noncomputable def mapE4 (f : ℝ → Vec n → Vec n) (q : ℝ × ℝ × (Vec n × Aux n)) : Vec n :=
  stageE f 1 0 q + (phiM 3 (q.1 • jacM f (q.2.1, q.2.2.1)) *ᵥ (q.1 • ((16 : ℝ) • remE f (1 / 2) 2 q - (2 : ℝ) • remE f 1 0 q))
    + phiM 4 (q.1 • jacM f (q.2.1, q.2.2.1)) *ᵥ (q.1 • ((-48 : ℝ) • remE f (1 / 2) 2 q + (12 : ℝ) • remE f 1 0 q)))
    + q.1 • q.2.2.2.2 1

/-- the perturbed step map of a one-step Rosenbrock method -/
noncomputable def rbMapE (m : String) (f : ℝ → Vec n → Vec n) : ℝ × ℝ × (Vec n × Aux n) → Vec n :=
  if m = "exprb3" then mapE3 f else if m = "pexprb4" then mapE4 f else stageE f 1 0

theorem rbMapE_zero_err (m : String) (f : ℝ → Vec n → Vec n) (h t : ℝ) (y e : Vec n) :
    rbMapE m f (h, t, (y, (e, 0))) = rbMap m f (h, t, (y, e)) := by
  unfold rbMapE rbMap
  split_ifs <;>
    simp [mapE3, mapE4, stageE, remE, mapRB2, mapRB3, mapRB4, mapR2, mapR3, mapRBhalf]

variable {f : ℝ → Vec n → Vec n} {m : ℕ} {t : ℝ} {y : Vec n}

theorem stageE_zero (c : ℝ) (i : Fin 3) (x : Vec n × Aux n) : stageE f c i (0, t, x) = x.1 := by simp [stageE, rosEuler_zero]
theorem remE_zero (c : ℝ) (i : Fin 3) (x : Vec n × Aux n) : remE f c i (0, t, x) = 0 := by simp [remE, stageE_zero]
theorem rbMapE_zero (s : String) (x : Vec n × Aux n) : rbMapE s f (0, t, x) = x.1 := by
  unfold rbMapE; split_ifs <;> simp [mapE3, mapE4, stageE_zero]

theorem proj_smooth {X : Type*} [NormedAddCommGroup X] [NormedSpace ℝ X] {g : X → Fin 3 → Vec n} {x : X} {k : WithTop ℕ∞}
    (h : ContDiffAt ℝ k g x) (i : Fin 3) : ContDiffAt ℝ k (fun q => g q i) x := contDiffAt_pi.1 h i

variable (hf : ContDiffAt ℝ (m + 1 : ℕ) (fun p : ℝ × Vec n => f p.1 p.2) (t, y)) (e : Aux n)
include hf

theorem smoothFE : ContDiffAt ℝ m (fun q : ℝ × ℝ × (Vec n × Aux n) => f q.2.1 q.2.2.1) (0, t, (y, e)) :=
  comp_contDiffAt (hf.of_le (by norm_cast; omega)) (by fun_prop) (by fun_prop) rfl rfl

theorem smoothJE : ContDiffAt ℝ m (fun q : ℝ × ℝ × (Vec n × Aux n) => jacM f (q.2.1, q.2.2.1)) (0, t, (y, e)) := by
  have h : ContDiffAt ℝ m (fun q : ℝ × ℝ × (Vec n × Aux n) => (q.2.1, q.2.2.1)) (0, t, (y, e)) := by fun_prop
  exact ContDiffAt.comp (g := jacM f) (0, t, (y, e)) (jacM_contDiffAt hf) h

theorem stageE_smooth (c : ℝ) (i : Fin 3) : ContDiffAt ℝ m (stageE f c i) (0, t, (y, e)) := by
  have h1 : ContDiffAt ℝ m (fun q : ℝ × ℝ × (Vec n × Aux n) => q.1) (0, t, (y, e)) := by fun_prop
  have h2 : ContDiffAt ℝ m (fun q : ℝ × ℝ × (Vec n × Aux n) => q.2.2.2.2) (0, t, (y, e)) := by fun_prop
  exact (ros_contDiffAt (smoothJE hf e) (by fun_prop) (smoothFE hf e) (by fun_prop) h1 c).add (h1.smul (proj_smooth h2 i))

theorem remE_smooth (c : ℝ) (i : Fin 3) : ContDiffAt ℝ m (remE f c i) (0, t, (y, e)) := by
  have h2 := stageE_smooth hf e c i
  have hJ := smoothJE hf e
  have hy : ContDiffAt ℝ m (fun q : ℝ × ℝ × (Vec n × Aux n) => q.2.2.1) (0, t, (y, e)) := by fun_prop
  have he : ContDiffAt ℝ m (fun q : ℝ × ℝ × (Vec n × Aux n) => (c * q.1) • q.2.2.2.1) (0, t, (y, e)) := by fun_prop
  have h3 : ContDiffAt ℝ m (fun q : ℝ × ℝ × (Vec n × Aux n) => f (q.2.1 + c * q.1) (stageE f c i q)) (0, t, (y, e)) :=
    comp_contDiffAt (hf.of_le (by norm_cast; omega)) (by fun_prop) h2 (by simp) (stageE_zero _ _ _)
  exact ((h3.sub (smoothFE hf e)).sub (mulVec_contDiffAt hJ (h2.sub hy))).sub he

theorem rbMapE_smooth (s : String) : ContDiffAt ℝ m (rbMapE s f) (0, t, (y, e)) := by
  have hh : ContDiffAt ℝ m (fun q : ℝ × ℝ × (Vec n × Aux n) => q.1) (0, t, (y, e)) := by fun_prop
  have hh2 : ContDiffAt ℝ m (fun q : ℝ × ℝ × (Vec n × Aux n) => 2 * q.1) (0, t, (y, e)) := by fun_prop
  have hd : ContDiffAt ℝ m (fun q : ℝ × ℝ × (Vec n × Aux n) => q.2.2.2.2) (0, t, (y, e)) := by fun_prop
  have h2 := remE_smooth hf e (1 / 2) 2
  have h3 := remE_smooth hf e 1 0
  have hJ := smoothJE hf e
  unfold rbMapE
  split_ifs
  · exact ((stageE_smooth hf e 1 0).add (hh2.smul (phiVec_contDiffAt 3 hJ hh h3))).add (hh.smul (proj_smooth hd 1))
  · exact ((stageE_smooth hf e 1 0).add ((phiVec_contDiffAt 3 hJ hh (hh.smul ((h2.const_smul _).sub (h3.const_smul _)))).add
      (phiVec_contDiffAt 4 hJ hh (hh.smul ((h2.const_smul _).add (h3.const_smul _)))))).add (hh.smul (proj_smooth hd 1))
  · exact stageE_smooth hf e 1 0

end maps

end Ormatex.Props
