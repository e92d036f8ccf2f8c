import Verif.Model.RsSystems
import Verif.Props.RsInvariant
import Verif.Props.RsExp
import Verif.Props.BatemanFlow

/-!
C110: the example systems of the Rust crate and the difference Jacobians built on them.
-/

namespace Ormatex.Props
open Matrix Ormatex.Rs Ormatex.Spec

noncomputable section

/-! ### Lotka-Volterra -/

theorem lvSysJac_eq (t : ℝ) (x : Vec 2) : lvSysJac t x = .ok !![1 - x 1, -x 0; x 1, x 0 - 1] := by
  unfold lvSysJac fromTriplets
  rw [if_pos]
  · congr 1
    ext i j
    fin_cases i <;> fin_cases j <;> simp [List.finRange_succ, List.filter]
  · intro s hs
    simp only [List.mem_flatMap, List.mem_map] at hs
    obtain ⟨i, _, j, _, rfl⟩ := hs
    exact ⟨i.2, j.2⟩

/-- **C110 (Lotka-Volterra Jacobian).** `lv_sys_jac` succeeds at every state and returns the derivative of `lv_sys_rhs`. -/
theorem C110_lv_jac (t : ℝ) (x : Vec 2) :
    ∃ J, lvSysJac t x = .ok J ∧ HasFDerivAt (lvSysRhs t) (LinearMap.toContinuousLinearMap (Matrix.mulVecLin J)) x := by
  refine ⟨_, lvSysJac_eq t x, ?_⟩
  have h0 := hasFDerivAt_apply (𝕜 := ℝ) (0 : Fin 2) x
  have h1 := hasFDerivAt_apply (𝕜 := ℝ) (1 : Fin 2) x
  rw [hasFDerivAt_pi']
  intro i
  fin_cases i
  · have h := (h0.const_mul (1 : ℝ)).sub ((h0.const_mul (1 : ℝ)).mul h1)
    refine h.congr_fderiv ?_
    ext v
    simp [dotProduct, Fin.sum_univ_two]
    ring
  · have h := ((h0.const_mul (1 : ℝ)).mul h1).sub (h1.const_mul (1 : ℝ))
    refine h.congr_fderiv ?_
    ext v
    simp [dotProduct, Fin.sum_univ_two]
    ring

/-! ### Difference Jacobians -/

/-- **C110 (affine systems).** On `f(t, x) = A x + t c + b` the difference operator is `A` itself, at every state but zero,
where every product with it is NaN. -/
theorem C110_fd_affine {n : ℕ} (f : ℝ → Vec n → Vec n) (A : Mat n) (b c : Vec n)
    (hf : ∀ t x, f t x = A *ᵥ x + t • c + b) (t : ℝ) (x v : Vec n) :
    (x ≠ 0 → (getFdJac f t x).apply v = .ok (A *ᵥ v)) ∧ (x = 0 → (getFdJac f t x).apply v = .error .nan) := by
  constructor
  · intro hx
    have hn : (0.5e-8 * ‖x‖ : ℝ) ≠ 0 := mul_ne_zero (by norm_num) (norm_ne_zero_iff.2 hx)
    unfold FdJac.apply getFdJac FdJac.new
    dsimp only
    rw [if_neg hn]
    generalize (0.5e-8 * ‖x‖ : ℝ) = e at hn
    congr 1
    rw [hf, hf, mulVec_add, mulVec_smul]
    rw [show A *ᵥ x + e • A *ᵥ v + t • c + b - (A *ᵥ x + t • c + b) = e • A *ᵥ v by abel, smul_smul]
    rw [show (1 * 1 / e) * e = 1 by field_simp, one_smul]
  · intro hx
    unfold FdJac.apply getFdJac FdJac.new
    dsimp only
    rw [if_pos (by rw [hx]; simp)]

/-- **C110 (Lotka-Volterra with differences).** At a nonzero state `x` the product of the difference operator with `v` differs
from the product with the Jacobian by exactly `eps * v0 * v1 * (-1, 1)`, with `eps = 0.5e-8 * max |x_i|`. -/
theorem C110_fd_lv (t : ℝ) (x v : Vec 2) (hx : x ≠ 0) :
    (getFdJac lvSysRhs t x).apply v =
      .ok (!![1 - x 1, -x 0; x 1, x 0 - 1] *ᵥ v + (0.5e-8 * ‖x‖ * (v 0 * v 1)) • ![-1, 1]) := by
  have hn : (0.5e-8 * ‖x‖ : ℝ) ≠ 0 := mul_ne_zero (by norm_num) (norm_ne_zero_iff.2 hx)
  unfold FdJac.apply getFdJac FdJac.new
  dsimp only
  rw [if_neg hn]
  generalize (0.5e-8 * ‖x‖ : ℝ) = e at hn
  congr 1
  funext i
  fin_cases i
  · simp [lvSysRhs, dotProduct, Fin.sum_univ_two]
    field_simp
    ring
  · simp [lvSysRhs, dotProduct, Fin.sum_univ_two]
    field_simp
    ring

/-- **C110 (`x^2 - 1`).** The difference operator of `TestQuadSys` at `x <> 0` multiplies by `2 x + eps v`. -/
theorem C110_fd_quad (t : ℝ) (x v : Vec 1) (hx : x ≠ 0) :
    (getFdJac quadRhs t x).apply v = .ok (fun _ => (2 * x 0 + 0.5e-8 * |x 0| * v 0) * v 0) := by
  have hnx : ‖x‖ = |x 0| := by
    rw [show x = fun _ => x 0 from funext fun i => by rw [Subsingleton.elim i 0]]
    simp
  have hn : (0.5e-8 * ‖x‖ : ℝ) ≠ 0 := mul_ne_zero (by norm_num) (norm_ne_zero_iff.2 hx)
  unfold FdJac.apply getFdJac FdJac.new
  dsimp only
  rw [if_neg hn, ← hnx]
  generalize (0.5e-8 * ‖x‖ : ℝ) = e at hn
  congr 1
  funext i
  rw [Subsingleton.elim i 0]
  simp [quadRhs]
  field_simp
  ring

/-! ### Bateman -/

/-- the decay chain 2 -> 1 -> 0 -> out, with rates 0.1, 10 and 0.001 -/
def chain3 : Mat 3 := !![-(1 / 1000), 10, 0; 0, -10, 1 / 10; 0, 0, -(1 / 10)]

theorem bateman_rhs (t : ℝ) (x : Vec 3) : batemanSysRhs t x = chain3 *ᵥ x := by
  unfold batemanSysRhs chain3
  norm_num

/-- **C110 (Bateman).** The system of `bateman_sys_rhs` is linear with a decay-chain matrix: solutions that start nonnegative
stay nonnegative, and the total changes only by the loss `0.001 n0`. -/
theorem C110_bateman (Y : ℝ → Vec 3) (hY : ∀ t, HasDerivAt Y (batemanSysRhs t (Y t)) t) :
    (∀ t0 t, t0 ≤ t → (∀ i, 0 ≤ Y t0 i) → ∀ i, 0 ≤ Y t i) ∧
    (∀ t, HasDerivAt (fun s => ∑ i, Y s i) (-(1 / 1000) * Y t 0) t) ∧
    (∀ t0 t1 t2, (∀ i, 0 ≤ Y t0 i) → t0 ≤ t1 → t1 ≤ t2 → ∑ i, Y t2 i ≤ ∑ i, Y t1 i) := by
  have hS : Solves chain3 0 0 Y := fun t => by
    have := hY t
    rw [bateman_rhs] at this
    simpa using this
  have hoff : ∀ i j, i ≠ j → 0 ≤ chain3 i j := by
    intro i j h
    fin_cases i <;> fin_cases j <;> simp [chain3] at h ⊢
  refine ⟨fun t0 t ht h0 i => C56_positive hoff hS ht h0 i, fun t => ?_, fun t0 t1 t2 h0 h1 h2 => ?_⟩
  · refine (total_deriv hS t).congr_deriv ?_
    simp [chain3, Fin.sum_univ_three]
  · refine (C56_total hS).1 hoff (fun j => ?_) t0 t1 t2 h0 h1 h2
    fin_cases j <;> simp [chain3, Fin.sum_univ_three]

/-- **C110 (Bateman runs).** "Best case for ETD methods": with exact phi-vector products, `epi2`, `exprb2` and `epi3` on
`TestBatemanFdSys` (whose Jacobian is a finite difference) follow the solution exactly from every nonzero state, with every step
size and for any number of steps. -/
theorem C110_bateman_run {K : Kern 3} (hK : ExactKern K) (Y : ℝ → Vec 3) (hY : ∀ t, HasDerivAt Y (batemanSysRhs t (Y t)) t)
    (t0 : ℝ) (hne : Y t0 ≠ 0) (dt : ℝ) (hdt : dt ≠ 0) (m : String) (hm : m = "epi2" ∨ m = "exprb2" ∨ m = "epi3") (s0 : Epirk 3)
    (hs0 : Epirk.new t0 (Y t0) m = .ok s0) :
    let I := Epirk.integrator K batemanFdSys
    ∃ S : ℕ → Epirk 3, S 0 = s0 ∧ ∀ N, I.Stepping dt N S ∧ I.time (S N) = t0 + N * dt ∧
      I.state (S N) = .ok (Y (t0 + N * dt)) := by
  have hS : Solves chain3 0 0 Y := fun t => by
    have := hY t
    rw [bateman_rhs] at this
    simpa using this
  have hinj : ∀ v : Vec 3, chain3 *ᵥ v = 0 → v = 0 := by
    intro v hv
    have h0 := congrFun hv 0
    have h1 := congrFun hv 1
    have h2 := congrFun hv 2
    simp [chain3, mulVec, dotProduct, Fin.sum_univ_three] at h0 h1 h2
    rw [h2] at h1
    have h1' : v 1 = 0 := by linarith
    rw [h1'] at h0
    have h0' : v 0 = 0 := by linarith
    funext i
    fin_cases i
    · exact h0'
    · exact h1'
    · exact h2
  have hflow : chain3 *ᵥ Y t0 + 0 ≠ 0 := by
    rw [add_zero]
    exact fun h => hne (hinj _ h)
  refine affine_run_at hK (fun t y => ?_) hS (fun t => ?_) t0 hflow dt hdt m hm s0 hs0
  · rw [add_zero]
    exact bateman_rhs t y
  · have hYt : Y t ≠ 0 := by
      intro h
      have := never_equilibrium hS hflow t
      rw [h] at this
      simp at this
    intro v
    have := (C110_fd_affine batemanSysRhs chain3 0 0 (fun t x => by rw [bateman_rhs]; simp) t (Y t) v).1 hYt
    simp only [batemanFdSys, fdSys, this]

/-- the hypotheses are met: the system has a nonzero solution -/
example : ∃ Y : ℝ → Vec 3, (∀ t, HasDerivAt Y (batemanSysRhs t (Y t)) t) ∧ Y 0 = ![1, 2, 3] ∧ Y 0 ≠ 0 := by
  obtain ⟨Y, hY, h0⟩ := solves_exists chain3 0 0 ![1, 2, 3] 0
  refine ⟨Y, fun t => ?_, h0, ?_⟩
  · have := hY t
    rw [bateman_rhs]
    simpa using this
  · rw [h0]
    intro h
    have := congrFun h 0
    norm_num at this

/-! ### Robertson -/

/-- **C110 (Robertson).** The right-hand side of `rob_sys_rhs` sums to zero at every state. -/
theorem C110_robertson (t : ℝ) (x : Vec 3) : ∑ i, robSysRhs t x i = 0 := by
  simp [robSysRhs, Fin.sum_univ_three]
  ring

/-- **C110 (Robertson runs).** Every run of every method of `integrate_wrapper_rs` on it, with difference Jacobians and any
Krylov dimension, tolerance and step size, that ends without an error keeps `x + y + z`; for the implicit methods with any
iterative solver whose corrections are combinations of residuals. -/
theorem C110_robertson_run (gmres : Gmres 3) (hg : ∀ V y0, RsTangent robFdSys V y0 → SolverKeeps gmres robFdSys V y0)
    (split : ℕ → Option (Split ℕ)) (y0 : Vec 3) (t0 dt : ℝ) (nsteps : ℕ) (kd : Kwds) (ys : List (Vec 3)) (ts : List ℝ)
    (h : integrateWrapperRs gmres split robFdSys y0 t0 dt nsteps kd = .ok (ys, ts)) :
    ∀ y ∈ ys, y 0 + y 1 + y 2 = y0 0 + y0 1 + y0 2 := by
  have hw : ∀ v : Vec 3, (fun _ : Fin 3 => (1 : ℝ)) ⬝ᵥ v = v 0 + v 1 + v 2 := fun v => by
    simp [dotProduct, Fin.sum_univ_three]
  have hrhs : ∀ t y, (fun _ : Fin 3 => (1 : ℝ)) ⬝ᵥ robSysRhs t y = 0 := fun t y => by
    rw [hw, ← Fin.sum_univ_three]
    exact C110_robertson t y
  intro y hy
  rw [← hw, ← hw]
  let V : Submodule ℝ (Vec 3) :=
    { carrier := {v | (fun _ : Fin 3 => (1 : ℝ)) ⬝ᵥ v = 0}
      add_mem' := fun {a b} ha hb => by
        show _ ⬝ᵥ (a + b) = 0
        rw [dotProduct_add, show _ ⬝ᵥ a = 0 from ha, show _ ⬝ᵥ b = 0 from hb, add_zero]
      zero_mem' := dotProduct_zero _
      smul_mem' := fun c a ha => by
        show _ ⬝ᵥ (c • a) = 0
        rw [dotProduct_smul, show _ ⬝ᵥ a = 0 from ha, smul_zero] }
  have he : RsTangent robFdSys V y0 := by
    refine ⟨fun t y _ => hrhs t y, fun t y _ v _ => ?_⟩
    simp only [robFdSys, fdSys]
    cases e : (getFdJac robSysRhs t y).apply v with
    | error _ => exact V.zero_mem
    | ok r => exact C109_fd_jac V robSysRhs hrhs t y v r e
  have key := C109_run he gmres (hg V y0 he) split t0 dt nsteps kd (ys, ts) h y hy
  have h2 : (fun _ : Fin 3 => (1 : ℝ)) ⬝ᵥ (y - y0) = 0 := key
  rwa [dotProduct_sub, sub_eq_zero] at h2

/-- a solver of the required kind -/
example : ∀ V y0, RsTangent robFdSys V y0 → SolverKeeps (richardson 3) robFdSys V y0 := fun _ _ he => richardson_keeps he

end
end Ormatex.Props
