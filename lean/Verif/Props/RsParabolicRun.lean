import Verif.Props.RsParabolic
import Verif.Props.RsCramRun

/-!
C125 (continued): the option `expmv_method = "parabolic"` of the Python binding, products and stiff linear systems.
-/

namespace Ormatex.Props
open Matrix Ormatex.Spec Ormatex.Rs

section
variable {n : ℕ}

/-- **C125 (the products of the binding).** For a symmetric negative semidefinite operator, however stiff, every `dt ≥ 0`, every schedule of
the parallel sum, every orthogonalisation depth of at least one and a Krylov dimension of at least the size of the system, the product
`phi_l(dt A) v` (`l ≤ 2`) with `expmv_method = "parabolic"` is returned with error at most `(parTol l + dt 1e-12) |v|`. -/
theorem C125_products (split : ℕ → Option (Split ℕ)) (hsp : ValidSplit 12 (split 12)) {E : DenseRs} (hE : selectExpmv split "parabolic" = .ok E)
    (m iom : ℕ) (hnm : n ≤ m) (hiom : 1 ≤ iom) (A : LinOp n) (M : Mat n) (hA : IsMatrix A M)
    (hM : Mᵀ = M) (hneg : ∀ v, v ⬝ᵥ (M *ᵥ v) ≤ 0) (dt : ℝ) (hdt : 0 ≤ dt) (v : Vec n) (hv : v ≠ 0) (l : ℕ) (hl : l ≤ 2) :
    ∃ w, (KrylovExpm.mk E m iom).applyPhiLinop A dt v l = .ok w ∧
      norm2 (w - phiM l (dt • M) *ᵥ v) ≤ (parTol l + dt * 1e-12) * norm2 v := by
  obtain ⟨c, hc, hsel⟩ := (C123_option split "parabolic").2.1 rfl
  rw [hsel] at hE
  cases hE
  exact krylov_dense m iom hnm hiom A M hA hM hneg dt hdt v hv l _ fun k H x hH hHn => C125_symmetric hc H hH hHn dt hdt x l hl (split 12) hsp

/-- **C125 (through the binding).** `integrate_wrapper_rs` with `method` "epi2" or "exprb2" and `expmv_method` "parabolic" on
`y' = M y + b`, `M` symmetric negative semidefinite of any norm `ρ`: with a Krylov dimension of at least the size of the system and an
orthogonalisation depth of at least one, for every step size, number of steps, tolerance, output stride and schedule of the parallel sums,
a call that returns has output states within `N dt ε (1 + ρ dt ε)^N |M y0 + b|` of the solution, where `ε = 2.7e-9 + dt 1e-12`.  The
call returns if the initial state is not an equilibrium and `ρ dt ε < e^{-ρ dt}`. -/
theorem C125_binding (gmres : Gmres n) (split : ℕ → Option (Split ℕ)) (hsp : ValidSplit 12 (split 12)) (sys : Sys n) {M : Mat n} {b : Vec n}
    (hsys : LinearSysRs sys M b) (hM : Mᵀ = M) (hneg : ∀ v, v ⬝ᵥ (M *ᵥ v) ≤ 0) (ρ : ℝ) (hρ : 0 ≤ ρ)
    (hMρ : ∀ x, norm2 (M *ᵥ x) ≤ ρ * norm2 x) (Y : ℝ → Vec n) (hY : ∀ s, HasDerivAt Y (M *ᵥ Y s + b) s)
    (t0 dt : ℝ) (hdt : 0 ≤ dt) (N : ℕ) (kd : Kwds) (o : RunOpts) (hp : parseOpts kd = .ok o) (hme : o.method = "epi2" ∨ o.method = "exprb2")
    (he : o.expmvMethod = "parabolic") (hk : n ≤ o.krylovDim) (hk0 : 0 < o.krylovDim) (hi : 1 ≤ o.iom) (ho : 0 < o.osteps) :
    (∀ out, integrateWrapperRs gmres split sys (Y t0) t0 dt N kd = .ok out →
      RsRunAccurate out t0 dt o.osteps N Y (N * (dt * (2.7e-9 + dt * 1e-12)) * (1 + ρ * (dt * (2.7e-9 + dt * 1e-12))) ^ N * norm2 (M *ᵥ Y t0 + b))) ∧
    (0 < dt → ρ * (dt * (2.7e-9 + dt * 1e-12)) < Real.exp (-(ρ * dt)) → M *ᵥ Y t0 + b ≠ 0 →
      ∃ out, integrateWrapperRs gmres split sys (Y t0) t0 dt N kd = .ok out) := by
  obtain ⟨c, hc, hsel⟩ := (C123_option split o.expmvMethod).2.1 he
  have ht : parTol 1 = 2.7e-9 := by simp [parTol]
  have h := linear_binding gmres split sys hsys hM hneg ρ hρ hMρ Y hY t0 dt hdt N kd o hp hme hsel (parTol 1) (parTol_nonneg 1)
    (fun k H x hH hHn => C125_symmetric hc H hH hHn dt hdt x 1 (by norm_num) (split 12) hsp) hk hk0 hi ho
  rw [ht] at h
  exact h

end

/-- non-vacuity: heat conduction between two cells with `expmv_method = "parabolic"`, and the condition for the call to return -/
example : ∃ (sys : Sys 2) (kd : Kwds) (o : RunOpts), LinearSysRs sys !![-2, 1; 1, -2] ![1, 0] ∧ parseOpts kd = .ok o ∧ o.method = "epi2" ∧
    o.expmvMethod = "parabolic" ∧ 2 ≤ o.krylovDim ∧ 1 ≤ o.iom ∧ 0 < o.osteps ∧
    3 * (1 * (2.7e-9 + 1 * 1e-12)) < Real.exp (-(3 * 1)) ∧
    (!![-2, 1; 1, -2] : Mat 2) *ᵥ (0 : Vec 2) + ![1, 0] ≠ 0 := by
  refine ⟨Sys.mk (fun _ y => !![-2, 1; 1, -2] *ᵥ y + ![1, 0]) (fun _ _ => matrixLinOp !![-2, 1; 1, -2]),
    fun k => if k = "expmv_method" then some (.str "parabolic") else none,
    RunOpts.mk "epi2" "parabolic" 100 2 1e-8 1e-8 1, ⟨fun _ _ => rfl, fun _ _ _ => rfl⟩, ?_, rfl, rfl, by norm_num, by norm_num, by norm_num, ?_, ?_⟩
  · simp [parseOpts, getValOrDefault, PyVal.asString, bind, Except.bind, pure, Except.pure]
  · have h := Real.exp_one_lt_d9
    have h3 : Real.exp 3 = Real.exp 1 ^ 3 := by rw [← Real.exp_nat_mul]; norm_num
    have h0 := Real.exp_pos 1
    have h4 : Real.exp 1 ^ 3 < 27 := (pow_lt_pow_left₀ (by linarith : Real.exp 1 < 3) h0.le (by norm_num)).trans_le (by norm_num)
    rw [mul_one, Real.exp_neg, h3, lt_inv_comm₀ (by norm_num) (by positivity)]
    refine h4.trans ?_
    norm_num
  · intro h
    have := congrFun h 0
    simp at this

end Ormatex.Props
