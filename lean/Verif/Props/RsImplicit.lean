import Verif.Props.RsHistory
import Verif.Props.Arnoldi
import Verif.Spec.RsExact

/-!
C70-C73: the implicit integrators of the Rust crate and their Newton iteration.
-/

namespace Ormatex.Props
open Matrix Ormatex.Spec Ormatex.Rs
open scoped Classical
variable {n : ℕ}

/-! ### C72: what a successful Newton iteration guarantees -/

/-- C72, the part that holds: the value returned is one exact correction away from some iterate `x` whose norm exceeds
the norm of the result by less than the tolerance (nothing bounds the correction itself). -/
theorem C72_newton_result_partial (gmres : Gmres n) (t : ℝ) (x0 : Vec n) (frhs : ℝ → Vec n → Vec n)
    (jac : ℝ → Vec n → LinOp n) (tol tolLin : ℝ) (iters itersLin : ℕ) (y : Vec n)
    (h : jacNewton gmres t x0 frhs jac tol tolLin iters itersLin = .ok y) :
    ∃ x a g, gmres (jac t x) (frhs t x) g itersLin tolLin = .ok a ∧ y = x - a ∧ norm2 x - norm2 y < tol := by
  unfold jacNewton at h
  generalize (0 : Vec n) = a0 at h
  induction iters generalizing x0 a0 with
  | zero => cases h
  | succ it ih =>
    unfold newtonLoop at h
    obtain ⟨a, ha, h⟩ := bind_ok' h
    simp only at h
    split_ifs at h with hlt
    · cases h
      exact ⟨x0, a, a0, ha, rfl, hlt⟩
    · exact ih _ _ h

/-- C72: every unsuccessful iteration lowers the norm by at least the tolerance, so the iteration can only give up when
`iters * tol` does not exceed the norm of the start. -/
theorem C72_newton_gives_up_partial (gmres : Gmres n) (t : ℝ) (x0 : Vec n) (frhs : ℝ → Vec n → Vec n)
    (jac : ℝ → Vec n → LinOp n) (tol tolLin : ℝ) (iters itersLin : ℕ)
    (hg : ∀ op b g it tol, gmres op b g it tol ≠ .error .stepError)
    (h : jacNewton gmres t x0 frhs jac tol tolLin iters itersLin = .error .stepError) :
    iters * tol ≤ norm2 x0 := by
  unfold jacNewton at h
  generalize (0 : Vec n) = a0 at h
  induction iters generalizing x0 a0 with
  | zero => simpa using norm2_nonneg x0
  | succ it ih =>
    unfold newtonLoop at h
    cases ha : gmres (jac t x0) (frhs t x0) a0 itersLin tolLin with
    | error e =>
      simp only [ha] at h
      change Except.error e = _ at h
      cases h
      exact absurd ha (hg _ _ _ _ _)
    | ok a =>
      simp only [ha] at h
      change (if norm2 x0 - norm2 (x0 - a) < tol then pure (x0 - a) else
        newtonLoop gmres t frhs jac tol tolLin itersLin it (x0 - a) a) = _ at h
      split_ifs at h with hlt
      · cases h
      · have := ih _ _ h
        push_cast
        linarith

/-- The scalar function `y - y^2/10 - 1`: the backward Euler residual of `y' = y^2` from `y = 1` with step `1/10`. -/
noncomputable def quadSys : Sys 1 where
  frhs _ y := fun i => y i ^ 2
  fjac _ y := { matvec := fun v => fun i => 2 * y i * v i, dense := .ok (Matrix.of fun i _ => 2 * y i) }

private theorem norm2_one (v : Vec 1) : norm2 v = |v 0| := by
  simp [norm2, dotProduct, Real.sqrt_mul_self_eq_abs]

private theorem det_one (M : Mat 1) : M.det = M 0 0 := by simp

private theorem inv_one_mulVec (c : ℝ) (hc : c ≠ 0) (b : Vec 1) :
    (Matrix.of fun _ _ => c : Mat 1)⁻¹ *ᵥ b = fun _ => b 0 / c := by
  have hd : IsUnit (Matrix.of fun _ _ => c : Mat 1).det := by simpa using hc
  have h : (Matrix.of fun _ _ => c : Mat 1) *ᵥ (fun _ => b 0 / c) = b := by
    funext i
    rw [Subsingleton.elim i 0]
    simp [mulVec, dotProduct]
    field_simp
  rw [← h, mulVec_mulVec, nonsing_inv_mul _ hd, one_mulVec]
  simp [mulVec, dotProduct]
  field_simp

/-- C72 is refuted: with an exact linear solver, the backward Euler step of `y' = y^2` from `y = 1` with `dt = 1/10`
succeeds and returns `9/8`, whose residual in the implicit equation is `-1/640`, three orders of magnitude above the
Newton tolerance `1e-6`; the only correction made is `-1/8`. -/
theorem C72_false (gmres : Gmres 1) (hg : ExactGmres gmres) :
    let y : Vec 1 := fun _ => 1
    let y1 : Vec 1 := fun _ => 9 / 8
    Bdf.step gmres quadSys (Bdf.new 0 y 1) (1 / 10) = .ok ⟨0 + 1 / 10, 1 / 10, y1, none⟩ ∧
      y1 - y - (1 / 10 : ℝ) • quadSys.frhs (1 / 10) y1 = fun _ => -(1 / 640) := by
  intro y y1
  constructor
  · have hsolve := hg (quadSys.fjacShifted (0 + 1 / 10 + 1 / 10) y (-(1 / 10)) (some 1)) (Matrix.of fun _ _ => 4 / 5)
      (by
        intro v
        funext i
        rw [Subsingleton.elim i 0]
        simp [Sys.fjacShifted, shiftedLinOp, quadSys, LinOp.call, mulVec, dotProduct, y]
        ring)
      (by simp)
    have hgfn : (-((1 / 10 : ℝ) • quadSys.frhs (0 + 1 / 10 + 1 / 10) y) - y + y : Vec 1) = fun _ => -(1 / 10) := by
      funext i
      simp [quadSys, y]
    unfold Bdf.step Bdf.new
    simp only [Bdf.stepOrder1, rsGet, List.getElem?_cons_zero]
    change (do
      let yNew ← jacNewton gmres (0 + 1 / 10) y (fun t y' => -((1 / 10 : ℝ) • quadSys.frhs (t + 1 / 10) y') - y + y')
        (fun t y' => quadSys.fjacShifted (t + 1 / 10) y' (-(1 / 10)) (some 1)) 1e-6 1e-8 100 1000
      pure (StepRes.mk (0 + 1 / 10) (1 / 10) yNew none)) = _
    have : jacNewton gmres (0 + 1 / 10) y (fun t y' => -((1 / 10 : ℝ) • quadSys.frhs (t + 1 / 10) y') - y + y')
        (fun t y' => quadSys.fjacShifted (t + 1 / 10) y' (-(1 / 10)) (some 1)) 1e-6 1e-8 100 1000 = .ok y1 := by
      unfold jacNewton
      rw [newtonLoop]
      simp only
      rw [hsolve, hgfn, inv_one_mulVec _ (by norm_num)]
      change (if norm2 y - norm2 (y - fun _ => -(1 / 10 : ℝ) / (4 / 5)) < 1e-6 then
        pure (y - fun _ => -(1 / 10 : ℝ) / (4 / 5)) else _) = _
      have e : (y - fun _ => -(1 / 10 : ℝ) / (4 / 5)) = y1 := by
        funext i
        simp [y, y1]
        norm_num
      rw [e, if_pos]
      · rfl
      · rw [norm2_one, norm2_one]
        simp only [y, y1]
        norm_num
    rw [this]
    rfl
  · funext i
    simp [quadSys, y, y1]
    norm_num

/-! ### C73: affine systems -/

/-- Newton's method on an affine residual with its exact Jacobian and exact linear solves returns the root, whichever
branch of the stopping test is taken, from the second iteration at the latest. -/
theorem newton_affine (gmres : Gmres n) (hg : ExactGmres gmres) (t : ℝ) (x0 r : Vec n) (M : Mat n) (hM : IsUnit M.det)
    (frhs : ℝ → Vec n → Vec n) (jac : ℝ → Vec n → LinOp n) (hf : ∀ x, frhs t x = M *ᵥ x - r)
    (hj : ∀ x, IsMatrix (jac t x) M) (tol tolLin : ℝ) (htol : 0 < tol) (it itersLin : ℕ) :
    jacNewton gmres t x0 frhs jac tol tolLin (it + 2) itersLin = .ok (M⁻¹ *ᵥ r) := by
  have hstep : ∀ x : Vec n, x - M⁻¹ *ᵥ (M *ᵥ x - r) = M⁻¹ *ᵥ r := by
    intro x
    rw [mulVec_sub, mulVec_mulVec, nonsing_inv_mul _ hM, one_mulVec]
    abel
  unfold jacNewton
  rw [newtonLoop]
  simp only
  rw [hg _ M (hj x0) hM, hf]
  change (if norm2 x0 - norm2 (x0 - M⁻¹ *ᵥ (M *ᵥ x0 - r)) < tol then pure (x0 - M⁻¹ *ᵥ (M *ᵥ x0 - r)) else
    newtonLoop gmres t frhs jac tol tolLin itersLin (it + 1) (x0 - M⁻¹ *ᵥ (M *ᵥ x0 - r)) (M⁻¹ *ᵥ (M *ᵥ x0 - r))) = _
  rw [hstep]
  split_ifs with h1
  · rfl
  · rw [newtonLoop]
    simp only
    rw [hg _ M (hj _) hM, hf]
    change (if norm2 (M⁻¹ *ᵥ r) - norm2 (M⁻¹ *ᵥ r - M⁻¹ *ᵥ (M *ᵥ M⁻¹ *ᵥ r - r)) < tol then
      pure (M⁻¹ *ᵥ r - M⁻¹ *ᵥ (M *ᵥ M⁻¹ *ᵥ r - r)) else _) = _
    rw [hstep, sub_self, if_pos htol]
    rfl

private theorem shifted_matrix {sys : Sys n} {A : Mat n} {b : Vec n} (hs : AffineSys sys A b) (t : ℝ) (y : Vec n)
    (sc : ℝ) : IsMatrix (sys.fjacShifted t y sc (some 1)) (1 + sc • A) := by
  intro v
  simp only [Sys.fjacShifted, shiftedLinOp, LinOp.call]
  rw [hs.fjac t y v, add_mulVec, one_mulVec, smul_mulVec, one_smul, add_comm]

private theorem bind_pure_ok {α β : Type} {x : RsM α} {a : α} (h : x = .ok a) (f : α → β) :
    (do let r ← x; pure (f r) : RsM β) = .ok (f a) := by
  rw [h]; rfl

private theorem inv_eq {M : Mat n} (hM : IsUnit M.det) (r : Vec n) : M *ᵥ (M⁻¹ *ᵥ r) = r := by
  rw [mulVec_mulVec, mul_nonsing_inv _ hM, one_mulVec]

private theorem get0 {α : Type} (y : α) (l : List α) : rsGet (y :: l) 0 = .ok y := rfl
private theorem get1 {α : Type} (y z : α) (l : List α) : rsGet (y :: z :: l) 1 = .ok z := rfl

theorem stepOrder1_affine (gmres : Gmres n) (hg : ExactGmres gmres) {sys : Sys n} {A : Mat n} {b : Vec n}
    (hs : AffineSys sys A b) (s : Bdf n) (y : Vec n) (l : List (Vec n)) (hy : s.yHist = y :: l) (dt : ℝ)
    (hM : IsUnit (1 - dt • A).det) :
    Bdf.stepOrder1 gmres sys s dt = .ok ⟨s.t + dt, dt, (1 - dt • A)⁻¹ *ᵥ (y + dt • b), none⟩ := by
  unfold Bdf.stepOrder1
  rw [hy, get0]
  refine bind_pure_ok (newton_affine gmres hg _ y (y + dt • b) (1 - dt • A) hM _ _ ?_ ?_ _ _ (by norm_num) 98 1000) _
  · intro x
    rw [hs.frhs, sub_mulVec, one_mulVec, smul_mulVec]
    module
  · intro x
    have := shifted_matrix hs (s.t + dt + dt) x (-dt)
    rwa [neg_smul, ← sub_eq_add_neg] at this

theorem stepCn_affine (gmres : Gmres n) (hg : ExactGmres gmres) {sys : Sys n} {A : Mat n} {b : Vec n}
    (hs : AffineSys sys A b) (s : Bdf n) (y : Vec n) (l : List (Vec n)) (hy : s.yHist = y :: l) (dt : ℝ)
    (hM : IsUnit (1 - (dt / 2) • A).det) :
    Bdf.stepCn gmres sys s dt =
      .ok ⟨s.t + dt, dt, (1 - (dt / 2) • A)⁻¹ *ᵥ ((1 + (dt / 2) • A) *ᵥ y + dt • b), none⟩ := by
  unfold Bdf.stepCn
  rw [hy, get0]
  refine bind_pure_ok (newton_affine gmres hg _ y ((1 + (dt / 2) • A) *ᵥ y + dt • b) (1 - (dt / 2) • A) hM _ _ ?_ ?_ _ _
    (by norm_num) 98 1000) _
  · intro x
    rw [hs.frhs, hs.frhs, sub_mulVec, add_mulVec, one_mulVec, one_mulVec, smul_mulVec, smul_mulVec]
    have h2 : dt * 0.5 = dt / 2 := by norm_num; ring
    rw [h2]
    module
  · intro x
    have := shifted_matrix hs (s.t + dt + dt) x (-(dt / 2))
    rw [neg_smul, ← sub_eq_add_neg] at this
    have h2 : -0.5 * dt = -(dt / 2) := by norm_num; ring
    rw [h2]
    exact this

theorem stepOrder2_affine (gmres : Gmres n) (hg : ExactGmres gmres) {sys : Sys n} {A : Mat n} {b : Vec n}
    (hs : AffineSys sys A b) (s : Bdf n) (ho : s.order = 2) (y z : Vec n) (l : List (Vec n)) (hy : s.yHist = y :: z :: l)
    (dt : ℝ) (hM : IsUnit (1 - (2 * dt / 3) • A).det) :
    Bdf.stepOrder2 gmres sys s dt = .ok ⟨s.t + dt, dt,
      (1 - (2 * dt / 3) • A)⁻¹ *ᵥ ((4 / 3 : ℝ) • y - (1 / 3 : ℝ) • z + (2 * dt / 3) • b), none⟩ := by
  have hG : ∀ t x, Bdf.nonlinGfn sys s t x dt 2 =
      .ok (x - (4 / 3 : ℝ) • y + (1 / 3 : ℝ) • z - (2 * dt / 3) • sys.frhs (t + dt) x) := by
    intro t x
    unfold Bdf.nonlinGfn
    rw [hy, get0, get1]
    rfl
  unfold Bdf.stepOrder2
  rw [ho]
  simp only [hG, Bdf.nonlinScale]
  rw [hy, get0]
  refine bind_pure_ok (newton_affine gmres hg _ y ((4 / 3 : ℝ) • y - (1 / 3 : ℝ) • z + (2 * dt / 3) • b)
    (1 - (2 * dt / 3) • A) hM _ _ ?_ ?_ _ _ (by norm_num) 98 1000) _
  · intro x
    rw [hs.frhs, sub_mulVec, one_mulVec, smul_mulVec]
    module
  · intro x
    have := shifted_matrix hs (s.t + dt + dt) x (-(2 * dt / 3))
    rw [neg_smul, ← sub_eq_add_neg] at this
    have h2 : -2 * dt / 3 = -(2 * dt / 3) := by ring
    rw [h2]
    exact this


theorem bdf_step_1 (gmres : Gmres n) (sys : Sys n) (s : Bdf n) (dt : ℝ) (h : s.order = 1) :
    Bdf.step gmres sys s dt = Bdf.stepOrder1 gmres sys s dt := by
  unfold Bdf.step; rw [h]; rfl

theorem bdf_step_3 (gmres : Gmres n) (sys : Sys n) (s : Bdf n) (dt : ℝ) (h : s.order = 3) :
    Bdf.step gmres sys s dt = Bdf.stepCn gmres sys s dt := by
  unfold Bdf.step; rw [h]; rfl

theorem bdf_step_2 (gmres : Gmres n) (sys : Sys n) (s : Bdf n) (dt : ℝ) (h : s.order = 2) :
    Bdf.step gmres sys s dt =
      if s.yHist.length = 2 then Bdf.stepOrder2 gmres sys s dt else Bdf.stepOrder1 gmres sys s dt := by
  unfold Bdf.step; rw [h]; rfl

private theorem bdf_head (gmres : Gmres n) (sys : Sys n) (t0 : ℝ) (y0 : Vec n) (order : ℕ) (cs : List (RsCall n)) :
    let s := (Bdf.integrator gmres sys).run (Bdf.new t0 y0 order) cs
    s.order = order ∧ s.t = (newest (t0, y0) cs).1 ∧ ∃ l, s.yHist = (newest (t0, y0) cs).2 :: l := by
  intro s
  have h := C68_newest_bdf gmres sys t0 y0 order cs
  refine ⟨rsBdf_run_order gmres sys cs _, h.1, ?_⟩
  have h2 := h.2
  change rsGet s.yHist 0 = _ at h2
  cases hl : s.yHist with
  | nil => rw [hl] at h2; cases h2
  | cons y l =>
    rw [hl, get0] at h2
    exact ⟨l, by rw [Except.ok.inj h2]⟩

/-- C73, backward Euler: for `y' = A y + b`, after any history of calls, the step from the current state `y` succeeds and
returns the solution `y1` of `(I - dt A) y1 = y + dt b`. -/
theorem C73_backward_euler (gmres : Gmres n) (hg : ExactGmres gmres) {sys : Sys n} {A : Mat n} {b : Vec n}
    (hs : AffineSys sys A b) (t0 : ℝ) (y0 : Vec n) (cs : List (RsCall n)) (dt : ℝ) (hM : IsUnit (1 - dt • A).det) :
    let I := Bdf.integrator gmres sys
    ∃ y1, I.step (I.run (Bdf.new t0 y0 1) cs) dt = .ok ⟨(newest (t0, y0) cs).1 + dt, dt, y1, none⟩ ∧
      (1 - dt • A) *ᵥ y1 = (newest (t0, y0) cs).2 + dt • b := by
  intro I
  obtain ⟨ho, ht, l, hl⟩ := bdf_head gmres sys t0 y0 1 cs
  refine ⟨_, ?_, inv_eq hM _⟩
  change Bdf.step gmres sys _ dt = _
  rw [bdf_step_1 gmres sys _ dt ho, stepOrder1_affine gmres hg hs _ _ l hl dt hM, ht]

/-- C73, Crank-Nicolson: the step from `y` returns the solution `y1` of `(I - dt/2 A) y1 = (I + dt/2 A) y + dt b`. -/
theorem C73_crank_nicolson (gmres : Gmres n) (hg : ExactGmres gmres) {sys : Sys n} {A : Mat n} {b : Vec n}
    (hs : AffineSys sys A b) (t0 : ℝ) (y0 : Vec n) (cs : List (RsCall n)) (dt : ℝ)
    (hM : IsUnit (1 - (dt / 2) • A).det) :
    let I := Bdf.integrator gmres sys
    ∃ y1, I.step (I.run (Bdf.new t0 y0 3) cs) dt = .ok ⟨(newest (t0, y0) cs).1 + dt, dt, y1, none⟩ ∧
      (1 - (dt / 2) • A) *ᵥ y1 = (1 + (dt / 2) • A) *ᵥ (newest (t0, y0) cs).2 + dt • b := by
  intro I
  obtain ⟨ho, ht, l, hl⟩ := bdf_head gmres sys t0 y0 3 cs
  refine ⟨_, ?_, inv_eq hM _⟩
  change Bdf.step gmres sys _ dt = _
  rw [bdf_step_3 gmres sys _ dt ho, stepCn_affine gmres hg hs _ _ l hl dt hM, ht]

/-- `A` does not increase the Euclidean norm along solutions of `y' = A y`. -/
def Dissipative (A : Mat n) : Prop := ∀ v : Vec n, v ⬝ᵥ (A *ᵥ v) ≤ 0

/-- The system matrices of the implicit steps of a dissipative system are invertible for every step size. -/
theorem dissipative_unit {A : Mat n} (hA : Dissipative A) {h : ℝ} (hh : 0 ≤ h) : IsUnit (1 - h • A).det := by
  rw [isUnit_iff_ne_zero]
  intro h0
  obtain ⟨v, hv, hz⟩ := Matrix.exists_mulVec_eq_zero_iff.mpr h0
  rw [sub_mulVec, one_mulVec, smul_mulVec, sub_eq_zero] at hz
  have h1 : v ⬝ᵥ v = h * (v ⬝ᵥ (A *ᵥ v)) := by
    conv_lhs => rhs; rw [hz]
    rw [dotProduct_smul, smul_eq_mul]
  have h2 : v ⬝ᵥ v ≤ 0 := by rw [h1]; exact mul_nonpos_of_nonneg_of_nonpos hh (hA v)
  have h3 : norm2 v = 0 := by
    have := norm2_sq v
    nlinarith [sq_nonneg (norm2 v)]
  exact hv (norm2_eq_zero.mp h3)

private theorem norm2_le_of_dot {x y : Vec n} (h : x ⬝ᵥ x ≤ y ⬝ᵥ y) : norm2 x ≤ norm2 y := Real.sqrt_le_sqrt h

/-- Norm of the backward Euler value of a dissipative homogeneous system. -/
theorem be_norm {A : Mat n} (hA : Dissipative A) {h : ℝ} (hh : 0 ≤ h) {y y1 : Vec n} (he : (1 - h • A) *ᵥ y1 = y) :
    norm2 y1 ≤ norm2 y := by
  apply norm2_le_of_dot
  rw [sub_mulVec, one_mulVec, smul_mulVec] at he
  rw [← he]
  simp only [sub_dotProduct, dotProduct_sub, smul_dotProduct, dotProduct_smul, smul_eq_mul]
  have h1 : y1 ⬝ᵥ (A *ᵥ y1) ≤ 0 := hA y1
  have h2 : 0 ≤ (A *ᵥ y1) ⬝ᵥ (A *ᵥ y1) := by rw [← norm2_sq]; exact mul_self_nonneg (norm2 (A *ᵥ y1))
  rw [dotProduct_comm (A *ᵥ y1) y1]
  have h3 : h * (y1 ⬝ᵥ (A *ᵥ y1)) ≤ 0 := mul_nonpos_of_nonneg_of_nonpos hh h1
  have h4 : 0 ≤ h * (h * ((A *ᵥ y1) ⬝ᵥ (A *ᵥ y1))) := mul_nonneg hh (mul_nonneg hh h2)
  linarith

private theorem cn_dot {A : Mat n} {h : ℝ} {y y1 : Vec n} (he : (1 - h • A) *ᵥ y1 = (1 + h • A) *ᵥ y) :
    y1 ⬝ᵥ y1 - y ⬝ᵥ y = h * ((y1 + y) ⬝ᵥ (A *ᵥ (y1 + y))) := by
  rw [sub_mulVec, add_mulVec, one_mulVec, one_mulVec, smul_mulVec, smul_mulVec] at he
  have e : y1 - y = h • (A *ᵥ (y1 + y)) := by
    rw [mulVec_add, smul_add]
    have := congrArg (fun z => z + h • (A *ᵥ y1) - y) he
    rw [sub_add_cancel] at this
    rw [this]
    abel
  have : (y1 + y) ⬝ᵥ (y1 - y) = y1 ⬝ᵥ y1 - y ⬝ᵥ y := by
    simp only [add_dotProduct, dotProduct_sub]
    rw [dotProduct_comm y y1]
    ring
  rw [← this, e, dotProduct_smul, smul_eq_mul]

theorem cn_norm {A : Mat n} (hA : Dissipative A) {h : ℝ} (hh : 0 ≤ h) {y y1 : Vec n}
    (he : (1 - h • A) *ᵥ y1 = (1 + h • A) *ᵥ y) : norm2 y1 ≤ norm2 y := by
  apply norm2_le_of_dot
  have := cn_dot he
  nlinarith [mul_nonpos_of_nonneg_of_nonpos hh (hA (y1 + y))]

private theorem skew_dot {A : Mat n} (hA : Aᵀ = -A) (v : Vec n) : v ⬝ᵥ (A *ᵥ v) = 0 := by
  have h : v ⬝ᵥ (A *ᵥ v) = -(v ⬝ᵥ (A *ᵥ v)) := by
    conv_lhs => rw [dotProduct_mulVec, ← mulVec_transpose, hA, neg_mulVec, neg_dotProduct, dotProduct_comm]
  linarith

theorem skew_dissipative {A : Mat n} (hA : Aᵀ = -A) : Dissipative A := fun v => (skew_dot hA v).le

theorem cn_norm_skew {A : Mat n} (hA : Aᵀ = -A) {h : ℝ} {y y1 : Vec n}
    (he : (1 - h • A) *ᵥ y1 = (1 + h • A) *ᵥ y) : norm2 y1 = norm2 y := by
  have := cn_dot he
  rw [skew_dot hA] at this
  unfold norm2
  rw [show y1 ⬝ᵥ y1 = y ⬝ᵥ y by linarith]

/-- C73: a linear functional that is constant along the solutions of `y' = A y + b` is left unchanged by the backward
Euler and Crank-Nicolson steps. -/
theorem C73_invariant (gmres : Gmres n) (hg : ExactGmres gmres) {sys : Sys n} {A : Mat n} {b : Vec n}
    (hs : AffineSys sys A b) (t0 : ℝ) (y0 : Vec n) (cs : List (RsCall n)) (dt : ℝ) (c : Vec n)
    (hc : c ᵥ* A = 0) (hb : c ⬝ᵥ b = 0) (order : ℕ) (r : StepRes n)
    (ho : order = 1 ∧ IsUnit (1 - dt • A).det ∨ order = 3 ∧ IsUnit (1 - (dt / 2) • A).det)
    (h : (Bdf.integrator gmres sys).step ((Bdf.integrator gmres sys).run (Bdf.new t0 y0 order) cs) dt = .ok r) :
    c ⬝ᵥ r.y = c ⬝ᵥ (newest (t0, y0) cs).2 := by
  rcases ho with ⟨rfl, hM⟩ | ⟨rfl, hM⟩
  · obtain ⟨y1, e1, e2⟩ := C73_backward_euler gmres hg hs t0 y0 cs dt hM
    rw [e1] at h
    cases h
    have := congrArg (fun z => c ⬝ᵥ z) e2
    simp only [dotProduct_mulVec, vecMul_sub, vecMul_one, vecMul_smul, hc, smul_zero, sub_zero, dotProduct_add,
      dotProduct_smul, hb, add_zero] at this
    exact this
  · obtain ⟨y1, e1, e2⟩ := C73_crank_nicolson gmres hg hs t0 y0 cs dt hM
    rw [e1] at h
    cases h
    have := congrArg (fun z => c ⬝ᵥ z) e2
    simp only [dotProduct_mulVec, vecMul_sub, vecMul_add, vecMul_one, vecMul_smul, hc, smul_zero, sub_zero,
      dotProduct_add, dotProduct_smul, hb, add_zero] at this
    exact this

/-- C73, whole runs of a dissipative homogeneous system with any nonnegative step: `bdf1_rs` and `cn_rs` complete every
number of steps and the norm never exceeds the initial one; `cn_rs` keeps it for skew-symmetric `A`. -/
theorem C73_run (gmres : Gmres n) (hg : ExactGmres gmres) {sys : Sys n} {A : Mat n} (hs : AffineSys sys A 0)
    (hA : Dissipative A) (t0 : ℝ) (y0 : Vec n) (dt : ℝ) (hdt : 0 ≤ dt) (order : ℕ) (ho : order = 1 ∨ order = 3) (N : ℕ) :
    let I := Bdf.integrator gmres sys
    ∃ (S : ℕ → Bdf n) (Y : ℕ → Vec n), S 0 = Bdf.new t0 y0 order ∧ I.Stepping dt N S ∧ Y 0 = y0 ∧
      ∀ i ≤ N, I.state (S i) = .ok (Y i) ∧ I.time (S i) = t0 + i * dt ∧
        (∀ j ≤ i, norm2 (Y i) ≤ norm2 (Y j)) ∧ (order = 3 → Aᵀ = -A → norm2 (Y i) = norm2 y0) := by
  intro I
  have key : ∀ s : Bdf n, s.order = order → ∀ y l, s.yHist = y :: l → ∃ y1, I.step s dt = .ok ⟨s.t + dt, dt, y1, none⟩ ∧
      norm2 y1 ≤ norm2 y ∧ (order = 3 → Aᵀ = -A → norm2 y1 = norm2 y) := by
    intro s hso y l hl
    rcases ho with rfl | rfl
    · have hM := dissipative_unit hA hdt
      refine ⟨_, ?_, be_norm hA hdt (inv_eq hM _), by omega⟩
      change Bdf.step gmres sys _ dt = _
      rw [bdf_step_1 gmres sys _ dt hso, stepOrder1_affine gmres hg hs _ _ l hl dt hM, smul_zero, add_zero]
    · have hM := dissipative_unit hA (show 0 ≤ dt / 2 by positivity)
      refine ⟨_, ?_, cn_norm hA (by positivity) (inv_eq hM _), fun _ h => cn_norm_skew h (inv_eq hM _)⟩
      change Bdf.step gmres sys _ dt = _
      rw [bdf_step_3 gmres sys _ dt hso, stepCn_affine gmres hg hs _ _ l hl dt hM, smul_zero, add_zero]
  induction N with
  | zero =>
    refine ⟨fun _ => Bdf.new t0 y0 order, fun _ => y0, rfl, fun i hi => by omega, rfl, ?_⟩
    intro i hi
    obtain rfl : i = 0 := by omega
    exact ⟨rfl, by simp [I, Bdf.integrator, Bdf.new], fun _ _ => le_rfl, fun _ _ => rfl⟩
  | succ N ih =>
    obtain ⟨S, Y, h0, hS, hY0, hY⟩ := ih
    have hord : ∀ i ≤ N, (S i).order = order := by
      intro i
      induction i with
      | zero => intro _; rw [h0]; rfl
      | succ i ihi =>
        intro hi
        obtain ⟨r, _, h2⟩ := hS i (by omega)
        rw [h2]
        exact ihi (by omega)
    have hst := (hY N le_rfl).1
    change rsGet (S N).yHist 0 = _ at hst
    cases hl : (S N).yHist with
    | nil => rw [hl] at hst; cases hst
    | cons y l =>
      rw [hl, get0] at hst
      have hy := Except.ok.inj hst
      obtain ⟨y1, e1, e2, e3⟩ := key (S N) (hord N le_rfl) y l hl
      rw [hy] at e2 e3
      refine ⟨fun i => if i ≤ N then S i else I.accept (S N) ⟨(S N).t + dt, dt, y1, none⟩,
        fun i => if i ≤ N then Y i else y1, by simp [h0], ?_, by simp [hY0], ?_⟩
      · intro i hi
        by_cases hN : i = N
        · subst hN
          exact ⟨⟨(S i).t + dt, dt, y1, none⟩, by simp only [le_refl, if_true]; exact e1, by simp⟩
        · obtain ⟨r', h1, h2⟩ := hS i (by omega)
          exact ⟨r', by simp only [show i ≤ N by omega, if_true]; exact h1,
            by simp only [show i ≤ N by omega, show i + 1 ≤ N by omega, if_true]; exact h2⟩
      · intro i hi
        by_cases hN : i ≤ N
        · have := hY i hN
          simp only [hN, if_true]
          refine ⟨this.1, this.2.1, fun j hj => ?_, this.2.2.2⟩
          simp only [show j ≤ N by omega, if_true]
          exact this.2.2.1 j hj
        · obtain rfl : i = N + 1 := by omega
          simp only [hN, if_false]
          refine ⟨rfl, ?_, ?_, ?_⟩
          · change (S N).t + dt = _
            have := (hY N le_rfl).2.1
            change (S N).t = _ at this
            rw [this]
            push_cast
            ring
          · intro j hj
            by_cases hj' : j ≤ N
            · simp only [hj', if_true]
              exact e2.trans ((hY N le_rfl).2.2.1 j hj')
            · simp only [hj', if_false]
              exact le_rfl
          · intro h1 h2
            rw [e3 h1 h2]
            exact (hY N le_rfl).2.2.2 h1 h2

/-- Non-vacuity: the rotation generator is skew-symmetric, hence dissipative, and the exact solver qualifies. -/
example : Dissipative !![0, 1; -1, 0] ∧ (!![0, 1; -1, 0] : Mat 2)ᵀ = -!![0, 1; -1, 0] ∧ ExactGmres (exactGmres 2) ∧
    AffineSys (affineSys !![0, 1; -1, 0] 0) !![0, 1; -1, 0] 0 := by
  have h : (!![0, 1; -1, 0] : Mat 2)ᵀ = -!![0, 1; -1, 0] := by
    ext i j; fin_cases i <;> fin_cases j <;> simp
  exact ⟨skew_dissipative h, h, exactGmres_exact 2, affineSys_affine _ _⟩

/-- Non-vacuity of the invertibility hypotheses and of a conserved functional: a transfer between two species. -/
example : let A : Mat 2 := !![-1, 0; 1, 0]
    IsUnit (1 - (1 : ℝ) • A).det ∧ (fun _ => 1 : Vec 2) ᵥ* A = 0 := by
  intro A
  constructor
  · simp [A, Matrix.det_fin_two]
  · funext i
    fin_cases i <;> simp [A, vecMul, dotProduct, Fin.sum_univ_two]

/-! ### C70: `bdf2_rs` -/

/-- C70, what holds: in a run of `bdf2_rs` on an affine system the second state solves the BDF2 equation with the two
states before it, and every other state (the third, the fourth, ...) only the backward Euler equation. -/
theorem C70_run_partial (gmres : Gmres n) (hg : ExactGmres gmres) {sys : Sys n} {A : Mat n} {b : Vec n}
    (hs : AffineSys sys A b) (t0 : ℝ) (y0 : Vec n) (dt : ℝ) (h1 : IsUnit (1 - dt • A).det)
    (h2 : IsUnit (1 - (2 * dt / 3) • A).det) (N : ℕ) (S : ℕ → Bdf n) (hS0 : S 0 = Bdf.new t0 y0 2)
    (hS : (Bdf.integrator gmres sys).Stepping dt N S) (Y : ℕ → Vec n)
    (hY : ∀ i ≤ N, (Bdf.integrator gmres sys).state (S i) = .ok (Y i)) (i : ℕ) (hi : i < N) :
    if i = 1 then Y 2 - (4 / 3 : ℝ) • Y 1 + (1 / 3 : ℝ) • Y 0 = (2 * dt / 3) • (A *ᵥ Y 2 + b)
    else Y (i + 1) - Y i = dt • (A *ᵥ Y (i + 1) + b) := by
  have conf : ∀ i ≤ N, (S i).order = 2 ∧ (S i).yHist.length = i + 1 ∧
      (∃ l, (S i).yHist = Y i :: l ∧ ∀ j, i = j + 1 → ∃ l', l = Y j :: l') := by
    intro i
    induction i with
    | zero =>
      intro _
      have := hY 0 (by omega)
      rw [hS0] at this ⊢
      change rsGet [y0] 0 = _ at this
      have e := Except.ok.inj this
      exact ⟨rfl, rfl, [], by rw [← e]; rfl, fun j hj => by omega⟩
    | succ i ih =>
      intro hi
      obtain ⟨h1, h2, l, h3, _⟩ := ih (by omega)
      obtain ⟨r, _, hr⟩ := hS i (by omega)
      have hl : (S (i + 1)).yHist = r.y :: (S i).yHist := by rw [hr]; rfl
      have := hY (i + 1) hi
      change rsGet (S (i + 1)).yHist 0 = _ at this
      rw [hl, get0] at this
      refine ⟨by rw [hr]; exact h1, by rw [hl]; simp [h2], (S i).yHist, by rw [hl, Except.ok.inj this], ?_⟩
      intro j hj
      obtain rfl : i = j := by omega
      exact ⟨l, h3⟩
  obtain ⟨r, hr, hacc⟩ := hS i hi
  obtain ⟨ho, hlen, l, hl, hprev⟩ := conf i (by omega)
  have hYr : Y (i + 1) = r.y := by
    have := hY (i + 1) hi
    rw [hacc] at this
    exact (Except.ok.inj this).symm
  change Bdf.step gmres sys _ dt = _ at hr
  rw [bdf_step_2 gmres sys _ dt ho, hlen] at hr
  split_ifs with h
  · subst h
    obtain ⟨l', rfl⟩ := hprev 0 rfl
    rw [if_pos rfl, stepOrder2_affine gmres hg hs _ ho _ _ _ hl dt h2] at hr
    cases hr
    have e := inv_eq h2 ((4 / 3 : ℝ) • Y 1 - (1 / 3 : ℝ) • Y 0 + (2 * dt / 3) • b)
    simp only at hYr
    rw [← hYr, sub_mulVec, one_mulVec, smul_mulVec] at e
    funext k
    have ek := congrFun e k
    simp only [Pi.sub_apply, Pi.add_apply, Pi.smul_apply, smul_eq_mul] at ek ⊢
    linarith
  · rw [if_neg (by omega), stepOrder1_affine gmres hg hs _ _ _ hl dt h1] at hr
    cases hr
    have e := inv_eq h1 (Y i + dt • b)
    simp only at hYr
    rw [← hYr, sub_mulVec, one_mulVec, smul_mulVec] at e
    funext k
    have ek := congrFun e k
    simp only [Pi.sub_apply, Pi.add_apply, Pi.smul_apply, smul_eq_mul] at ek ⊢
    linarith

/-- C70 is refuted: for `y' = -y`, `y(0) = 1`, `dt = 1`, three successful steps of `bdf2_rs` give `1/2`, `1/5` and
`1/10`, while the BDF2 equation for the third step has the solution `3/50`. -/
theorem C70_false (gmres : Gmres 1) (hg : ExactGmres gmres) {sys : Sys 1} (hs : AffineSys sys (-1) 0) (S : ℕ → Bdf 1)
    (hS0 : S 0 = Bdf.new 0 1 2) (hS : (Bdf.integrator gmres sys).Stepping 1 3 S) (Y : ℕ → Vec 1)
    (hY : ∀ i ≤ 3, (Bdf.integrator gmres sys).state (S i) = .ok (Y i)) :
    Y 1 0 = 1 / 2 ∧ Y 2 0 = 1 / 5 ∧ Y 3 0 = 1 / 10 ∧
      ¬ (Y 3 - (4 / 3 : ℝ) • Y 2 + (1 / 3 : ℝ) • Y 1 = (2 * 1 / 3 : ℝ) • ((-1 : Mat 1) *ᵥ Y 3 + 0)) := by
  have u1 : IsUnit (1 - (1 : ℝ) • (-1 : Mat 1)).det := by simp
  have u2 : IsUnit (1 - (2 * 1 / 3 : ℝ) • (-1 : Mat 1)).det := by simp; norm_num
  have h0 : Y 0 = 1 := by
    have := hY 0 (by omega)
    rw [hS0] at this
    exact (Except.ok.inj this).symm
  have k := C70_run_partial gmres hg hs 0 1 1 u1 u2 3 S hS0 hS Y hY
  have k0 := congrFun (k 0 (by omega)) 0
  have k1 := congrFun (k 1 (by omega)) 0
  have k2 := congrFun (k 2 (by omega)) 0
  simp [h0, neg_mulVec] at k0 k1 k2
  have e1 : Y 1 0 = 1 / 2 := by linarith
  have e2 : Y 2 0 = 1 / 5 := by rw [e1] at k1; linarith
  have e3 : Y 3 0 = 1 / 10 := by rw [e2] at k2; linarith
  refine ⟨e1, e2, e3, fun h => ?_⟩
  have := congrFun h 0
  simp [neg_mulVec, e1, e2, e3] at this
  norm_num at this

/-! ### C71: times at which the right-hand side is evaluated -/

private theorem newtonLoop_congr (gmres : Gmres n) (t : ℝ) (f f' : ℝ → Vec n → Vec n) (j j' : ℝ → Vec n → LinOp n)
    (hf : ∀ x, f t x = f' t x) (hj : ∀ x, j t x = j' t x) (tol tl : ℝ) (il it : ℕ) :
    ∀ x a, newtonLoop gmres t f j tol tl il it x a = newtonLoop gmres t f' j' tol tl il it x a := by
  induction it with
  | zero => intro x a; rfl
  | succ it ih =>
    intro x a
    rw [newtonLoop, newtonLoop]
    simp only [hf, hj, ih]

/-- C71, the part that holds: a backward Euler or BDF2 step from `t` depends on the right-hand side and its Jacobian only
through their values at the single time `t + 2 dt`, a Crank-Nicolson step also on the right-hand side at `t + dt`. -/
theorem C71_times_partial (gmres : Gmres n) (sys sys' : Sys n) (s : Bdf n) (dt : ℝ)
    (hf : ∀ y, sys.frhs (s.t + dt + dt) y = sys'.frhs (s.t + dt + dt) y)
    (hj : ∀ y, sys.fjac (s.t + dt + dt) y = sys'.fjac (s.t + dt + dt) y)
    (hc : s.order = 3 → ∀ y, sys.frhs (s.t + dt) y = sys'.frhs (s.t + dt) y) :
    Bdf.step gmres sys s dt = Bdf.step gmres sys' s dt := by
  have h1 : Bdf.stepOrder1 gmres sys s dt = Bdf.stepOrder1 gmres sys' s dt := by
    unfold Bdf.stepOrder1 jacNewton
    simp only
    congr 1
    funext y0
    rw [newtonLoop_congr gmres (s.t + dt)]
    · intro x; rw [hf]
    · intro x; simp only [Sys.fjacShifted]; rw [hj]
  have hG : ∀ y, Bdf.nonlinGfn sys s (s.t + dt) y dt s.order = Bdf.nonlinGfn sys' s (s.t + dt) y dt s.order := by
    intro y
    unfold Bdf.nonlinGfn
    simp only [hf]
  unfold Bdf.step
  split
  · exact h1
  · split
    · unfold Bdf.stepOrder2 jacNewton
      simp only [hG]
      congr 1
      funext y0
      congr 1
      funext _
      congr 1
      funext sc
      rw [newtonLoop_congr gmres (s.t + dt)]
      · intro x; rw [hG]
      · intro x; simp only [Sys.fjacShifted]; rw [hj]
    · exact h1
  · rename_i h3
    unfold Bdf.stepCn jacNewton
    simp only
    congr 1
    funext y0
    rw [newtonLoop_congr gmres (s.t + dt)]
    · intro x; rw [hf, hc h3]
    · intro x; simp only [Sys.fjacShifted]; rw [hj]
  · rfl

/-- A forcing that vanishes up to time 1. -/
noncomputable def lateSys : Sys 1 where
  frhs t _ := fun _ => max (t - 1) 0
  fjac _ _ := { matvec := fun _ => 0, dense := .ok 0 }

/-- C71 is refuted: the two systems agree at all times in the step `[0, 1]`, but the steps of the forced one move the
state `0`, by `1` (backward Euler), `2/3` (BDF2) and `1/2` (Crank-Nicolson). -/
theorem C71_false (gmres : Gmres 1) (hg : ExactGmres gmres) :
    (∀ t ≤ 1, ∀ y, lateSys.frhs t y = (affineSys 0 0 : Sys 1).frhs t y) ∧
    (∀ y v, (lateSys.fjac 2 y).matvec v = ((affineSys 0 0 : Sys 1).fjac 2 y).matvec v) ∧
    Bdf.step gmres (affineSys 0 0) (Bdf.new 0 0 1) 1 = .ok ⟨0 + 1, 1, 0, none⟩ ∧
    Bdf.step gmres lateSys (Bdf.new 0 0 1) 1 = .ok ⟨0 + 1, 1, fun _ => 1, none⟩ ∧
    Bdf.step gmres lateSys ⟨2, 0, [0, 0]⟩ 1 = .ok ⟨0 + 1, 1, fun _ => 2 / 3, none⟩ ∧
    Bdf.step gmres lateSys (Bdf.new 0 0 3) 1 = .ok ⟨0 + 1, 1, fun _ => 1 / 2, none⟩ := by
  have hI : ∀ (t : ℝ) (y : Vec 1) (sc : ℝ), IsMatrix (lateSys.fjacShifted t y sc (some 1)) 1 := by
    intro t y sc v
    simp [Sys.fjacShifted, shiftedLinOp, lateSys, LinOp.call]
  have u : IsUnit (1 : Mat 1).det := by simp
  have hl : ∀ y, lateSys.frhs 2 y = fun _ => 1 := by
    intro y
    funext i
    simp [lateSys]
    norm_num
  have hl1 : ∀ y, lateSys.frhs 1 y = 0 := by
    intro y
    funext i
    simp [lateSys]
  refine ⟨?_, ?_, ?_, ?_, ?_, ?_⟩
  · intro t ht y
    funext i
    simp [lateSys, affineSys]
    linarith
  · intro y v
    simp [lateSys, affineSys]
  · have := stepOrder1_affine gmres hg (affineSys_affine (0 : Mat 1) 0) (Bdf.new 0 0 1) 0 [] rfl 1 (by simp)
    unfold Bdf.step
    simpa [Bdf.new] using this
  · unfold Bdf.step
    change Bdf.stepOrder1 gmres lateSys (Bdf.new 0 0 1) 1 = _
    unfold Bdf.stepOrder1
    simp only [Bdf.new, get0]
    refine (bind_pure_ok (newton_affine gmres hg _ 0 (fun _ => 1) 1 u _ _ ?_ ?_ _ _ (by norm_num) 98 1000) _).trans ?_
    · intro x
      rw [show (0 : ℝ) + 1 + 1 = 2 by norm_num, hl]
      funext i
      simp
      ring
    · intro x; exact hI _ _ _
    · simp
  · have hG : ∀ t x, Bdf.nonlinGfn lateSys ⟨2, 0, [0, 0]⟩ t x 1 2 =
        .ok (x - (4 / 3 : ℝ) • 0 + (1 / 3 : ℝ) • 0 - (2 * 1 / 3 : ℝ) • lateSys.frhs (t + 1) x) := by
      intro t x
      unfold Bdf.nonlinGfn
      rw [get0, get1]
      rfl
    unfold Bdf.step
    change Bdf.stepOrder2 gmres lateSys ⟨2, 0, [0, 0]⟩ 1 = _
    unfold Bdf.stepOrder2
    simp only [hG, Bdf.nonlinScale, get0]
    refine (bind_pure_ok (newton_affine gmres hg _ 0 (fun _ => 2 / 3) 1 u _ _ ?_ ?_ _ _ (by norm_num) 98 1000) _).trans ?_
    · intro x
      rw [show (0 : ℝ) + 1 + 1 = 2 by norm_num, hl]
      funext i
      simp
    · intro x; exact hI _ _ _
    · simp
  · unfold Bdf.step
    change Bdf.stepCn gmres lateSys (Bdf.new 0 0 3) 1 = _
    unfold Bdf.stepCn
    simp only [Bdf.new, get0]
    refine (bind_pure_ok (newton_affine gmres hg _ 0 (fun _ => 1 / 2) 1 u _ _ ?_ ?_ _ _ (by norm_num) 98 1000) _).trans ?_
    · intro x
      rw [show (0 : ℝ) + 1 + 1 = 2 by norm_num, show (0 : ℝ) + 1 = 1 by norm_num, hl, hl1]
      funext i
      simp
      norm_num
      ring
    · intro x; exact hI _ _ _
    · simp

end Ormatex.Props
