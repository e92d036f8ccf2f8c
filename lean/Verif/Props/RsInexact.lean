import Verif.Spec.RsInexact
import Verif.Props.RsPositive

/-!
C130: backward Euler and Crank-Nicolson runs of the crate with an inexact linear solver, on stiff dissipative affine systems.
-/

namespace Ormatex.Props
open Matrix Ormatex.Spec Ormatex.Rs

section
variable {n : ℕ}

theorem sloppy_residual (n : ℕ) : ResidualGmres (sloppyGmres n) where
  returns op M h hM b g it tol _ _ := by
    unfold sloppyGmres
    rw [opMatrix_eq h, if_pos hM]
    exact ⟨_, rfl⟩
  residual op M h b g it tol x ht hx := by
    unfold sloppyGmres at hx
    rw [opMatrix_eq h] at hx
    by_cases hM : IsUnit M.det
    · rw [if_pos hM] at hx
      cases hx
      rw [mulVec_mulVec, mul_nonsing_inv _ hM, one_mulVec, show (1 + tol) • b - b = tol • b by module, norm2_smul, abs_of_pos ht]
    · rw [if_neg hM] at hx
      cases hx

/-- what an affine residual becomes under Newton's method with an inexact linear solver -/
theorem newton_inexact {gmres : Gmres n} (hg : ResidualGmres gmres) (t : ℝ) (r : Vec n) (M : Mat n)
    (frhs : ℝ → Vec n → Vec n) (jac : ℝ → Vec n → LinOp n) (hf : ∀ x, frhs t x = M *ᵥ x - r) (hj : ∀ x, IsMatrix (jac t x) M)
    (tol tolLin : ℝ) (h0 : 0 < tolLin) (h1 : tolLin ≤ 1) (itersLin : ℕ) (it : ℕ) : ∀ (x a x' : Vec n),
    newtonLoop gmres t frhs jac tol tolLin itersLin it x a = .ok x' → norm2 (M *ᵥ x' - r) ≤ tolLin * norm2 (M *ᵥ x - r) := by
  induction it with
  | zero => intro x a x' h; cases h
  | succ it ih =>
    intro x a x' h
    rw [newtonLoop] at h
    simp only [Bind.bind, Except.bind] at h
    cases ha : gmres (jac t x) (frhs t x) a itersLin tolLin with
    | error e => rw [ha] at h; cases h
    | ok a' =>
      rw [ha] at h
      simp only at h
      have hr := hg.residual _ M (hj x) _ _ _ _ _ h0 ha
      rw [hf] at hr
      have hstep : norm2 (M *ᵥ (x - a') - r) ≤ tolLin * norm2 (M *ᵥ x - r) := by
        rw [show M *ᵥ (x - a') - r = -(M *ᵥ a' - (M *ᵥ x - r)) by rw [mulVec_sub]; abel, norm2_neg]
        exact hr
      split_ifs at h with hc
      · cases h
        exact hstep
      · refine (ih _ _ _ h).trans ?_
        calc tolLin * norm2 (M *ᵥ (x - a') - r) ≤ 1 * norm2 (M *ᵥ (x - a') - r) := mul_le_mul_of_nonneg_right h1 (norm2_nonneg _)
          _ = norm2 (M *ᵥ (x - a') - r) := one_mul _
          _ ≤ _ := hstep

/-- the iteration ends when the residual, shrunk by the tolerance of the linear solver in every pass, cannot move the iterate any more -/
theorem newton_returns {gmres : Gmres n} (hg : ResidualGmres gmres) (t : ℝ) (r : Vec n) (M : Mat n) (hM : IsUnit M.det)
    (hexp : ∀ v, norm2 v ≤ norm2 (M *ᵥ v))
    (frhs : ℝ → Vec n → Vec n) (jac : ℝ → Vec n → LinOp n) (hf : ∀ x, frhs t x = M *ᵥ x - r) (hj : ∀ x, IsMatrix (jac t x) M)
    (tol tolLin : ℝ) (h0 : 0 < tolLin) (itersLin : ℕ) (hn : n ≤ itersLin) (it : ℕ) : ∀ (x a : Vec n),
    tolLin ^ it * ((1 + tolLin) * norm2 (M *ᵥ x - r)) < tol →
    ∃ x', newtonLoop gmres t frhs jac tol tolLin itersLin (it + 1) x a = .ok x' := by
  have one : ∀ x a, ∃ a', gmres (jac t x) (frhs t x) a itersLin tolLin = .ok a' ∧ norm2 (M *ᵥ (x - a') - r) ≤ tolLin * norm2 (M *ᵥ x - r) ∧
      norm2 x - norm2 (x - a') ≤ (1 + tolLin) * norm2 (M *ᵥ x - r) := by
    intro x a
    obtain ⟨a', ha⟩ := hg.returns _ M (hj x) hM (frhs t x) a itersLin tolLin h0 hn
    have hr := hg.residual _ M (hj x) _ _ _ _ _ h0 ha
    rw [hf] at hr
    refine ⟨a', ha, ?_, ?_⟩
    · rw [show M *ᵥ (x - a') - r = -(M *ᵥ a' - (M *ᵥ x - r)) by rw [mulVec_sub]; abel, norm2_neg]
      exact hr
    · have e1 : norm2 x ≤ norm2 (x - a') + norm2 a' := by
        have := norm2_add_le (x - a') a'
        rwa [sub_add_cancel] at this
      have e2 : norm2 (M *ᵥ a') ≤ norm2 (M *ᵥ a' - (M *ᵥ x - r)) + norm2 (M *ᵥ x - r) := by
        have := norm2_add_le (M *ᵥ a' - (M *ᵥ x - r)) (M *ᵥ x - r)
        rwa [sub_add_cancel] at this
      have := hexp a'
      linarith
  induction it with
  | zero =>
    intro x a h
    obtain ⟨a', ha, -, h2⟩ := one x a
    rw [newtonLoop]
    simp only [Bind.bind, Except.bind, ha]
    rw [if_pos (by rw [pow_zero, one_mul] at h; linarith)]
    exact ⟨_, rfl⟩
  | succ it ih =>
    intro x a h
    obtain ⟨a', ha, h1, h2⟩ := one x a
    rw [newtonLoop]
    simp only [Bind.bind, Except.bind, ha]
    split_ifs with hc
    · exact ⟨_, rfl⟩
    · refine ih _ _ (lt_of_le_of_lt ?_ h)
      have : tolLin ^ it * ((1 + tolLin) * norm2 (M *ᵥ (x - a') - r)) ≤ tolLin ^ it * ((1 + tolLin) * (tolLin * norm2 (M *ᵥ x - r))) :=
        mul_le_mul_of_nonneg_left (mul_le_mul_of_nonneg_left h1 (by linarith)) (pow_nonneg h0.le _)
      refine this.trans (le_of_eq ?_)
      rw [pow_succ]; ring

/-- `1 - h A` expands and `h A (1 - h A)⁻¹` contracts, for dissipative `A` -/
theorem resolvent_bounds {A : Mat n} (hA : Dissipative A) {h : ℝ} (hh : 0 ≤ h) (v : Vec n) :
    norm2 v ≤ norm2 ((1 - h • A) *ᵥ v) ∧ h * norm2 (A *ᵥ v) ≤ norm2 ((1 - h • A) *ᵥ v) := by
  refine ⟨be_norm hA hh rfl, ?_⟩
  have e : h * norm2 (A *ᵥ v) = norm2 (h • (A *ᵥ v)) := by rw [norm2_smul, abs_of_nonneg hh]
  rw [e]
  unfold norm2
  refine Real.sqrt_le_sqrt ?_
  rw [sub_mulVec, one_mulVec, smul_mulVec]
  have h1 : v ⬝ᵥ (h • (A *ᵥ v)) ≤ 0 := by
    rw [dotProduct_smul, smul_eq_mul]
    exact mul_nonpos_of_nonneg_of_nonpos hh (hA v)
  have h2 : 0 ≤ v ⬝ᵥ v := by rw [← norm2_sq]; exact mul_self_nonneg (norm2 v)
  have h3 : (v - h • (A *ᵥ v)) ⬝ᵥ (v - h • (A *ᵥ v)) = v ⬝ᵥ v - 2 * (v ⬝ᵥ (h • (A *ᵥ v))) + (h • (A *ᵥ v)) ⬝ᵥ (h • (A *ᵥ v)) := by
    rw [sub_dotProduct, dotProduct_sub, dotProduct_sub, dotProduct_comm (h • (A *ᵥ v)) v]
    ring
  rw [h3]
  linarith

/-- the exact implicit map that the method approximates -/
noncomputable def impMap (order : ℕ) (A : Mat n) (b : Vec n) (dt : ℝ) : Vec n → Vec n := if order = 1 then beMap A b dt else cnMap A b dt

/-- the coefficient of the implicit part -/
noncomputable def impH (order : ℕ) (dt : ℝ) : ℝ := if order = 1 then dt else dt / 2

theorem impMap_spec {order : ℕ} (ho : order = 1 ∨ order = 3) {A : Mat n} (hA : Dissipative A) (b : Vec n) {dt : ℝ} (hdt : 0 ≤ dt) :
    (∀ x y, norm2 (impMap order A b dt x - impMap order A b dt y) ≤ norm2 (x - y)) ∧
    (∀ y, norm2 (A *ᵥ impMap order A b dt y + b) ≤ norm2 (A *ᵥ y + b)) := by
  rcases ho with rfl | rfl
  · have hM := dissipative_unit hA hdt
    have e : ∀ y, (1 - dt • A) *ᵥ impMap 1 A b dt y = y + dt • b := fun y => by
      simp only [impMap, if_true, beMap]; rw [mulVec_mulVec, mul_nonsing_inv _ hM, one_mulVec]
    refine ⟨fun x y => be_norm hA hdt ?_, fun y => be_norm hA hdt ?_⟩
    · rw [mulVec_sub, e, e]; abel
    · have e' := congrArg (fun z => A *ᵥ z) (e y)
      simp only [mulVec_mulVec, mulVec_add, mulVec_smul] at e'
      rw [mulVec_add, mulVec_mulVec, show (1 - dt • A) * A = A * (1 - dt • A) by
        rw [sub_mul, mul_sub, one_mul, mul_one, smul_mul_assoc, mul_smul_comm], e', sub_mulVec, one_mulVec, smul_mulVec]
      abel
  · have hh : (0 : ℝ) ≤ dt / 2 := by positivity
    have hM := dissipative_unit hA hh
    have e : ∀ y, (1 - (dt / 2) • A) *ᵥ impMap 3 A b dt y = (1 + (dt / 2) • A) *ᵥ y + dt • b := fun y => by
      have : impMap 3 A b dt y = cnMap A b dt y := by simp [impMap]
      rw [this, cnMap, mulVec_mulVec, mul_nonsing_inv _ hM, one_mulVec]
    refine ⟨fun x y => cn_norm hA hh ?_, fun y => cn_norm hA hh ?_⟩
    · rw [mulVec_sub, e, e, mulVec_sub]; abel
    · have e' := congrArg (fun z => A *ᵥ z) (e y)
      simp only [mulVec_mulVec, mulVec_add, mulVec_smul] at e'
      rw [mulVec_add, mulVec_mulVec, show (1 - (dt / 2) • A) * A = A * (1 - (dt / 2) • A) by
        rw [sub_mul, mul_sub, one_mul, mul_one, smul_mul_assoc, mul_smul_comm], e', mulVec_add, mulVec_mulVec,
        show (1 + (dt / 2) • A) * A = A * (1 + (dt / 2) • A) by
        rw [add_mul, mul_add, one_mul, mul_one, smul_mul_assoc, mul_smul_comm], sub_mulVec, one_mulVec, smul_mulVec, add_mulVec, one_mulVec, smul_mulVec]
      module

/-- one step with an inexact solver -/
theorem step_inexact {gmres : Gmres n} (hg : ResidualGmres gmres) (hn : n ≤ 1000) {sys : Sys n} {A : Mat n} {b : Vec n} (hs : AffineSys sys A b)
    (hA : Dissipative A) {order : ℕ} (ho : order = 1 ∨ order = 3) (s : Bdf n) (hso : s.order = order) (y : Vec n) (l : List (Vec n))
    (hy : s.yHist = y :: l) {dt : ℝ} (hdt : 0 ≤ dt) (hbig : dt * norm2 (A *ᵥ y + b) ≤ 1e300) :
    ∃ x, Bdf.step gmres sys s dt = .ok ⟨s.t + dt, dt, x, none⟩ ∧
      norm2 (x - impMap order A b dt y) ≤ 1e-8 * (dt * norm2 (A *ᵥ y + b)) ∧
      norm2 (A *ᵥ (x - impMap order A b dt y)) ≤ 2e-8 * norm2 (A *ᵥ y + b) := by
  -- the equation of the step
  obtain ⟨h, hh0, hh, r, frhs, jac, hM, hr, hf, hj, hstep⟩ : ∃ (h : ℝ), 0 ≤ h ∧ dt ≤ 2 * h ∧ ∃ (r : Vec n) (frhs : ℝ → Vec n → Vec n)
      (jac : ℝ → Vec n → LinOp n), (1 - h • A) *ᵥ impMap order A b dt y = r ∧ (1 - h • A) *ᵥ y - r = -(dt • (A *ᵥ y + b)) ∧
      (∀ x, frhs (s.t + dt) x = (1 - h • A) *ᵥ x - r) ∧ (∀ x, IsMatrix (jac (s.t + dt) x) (1 - h • A)) ∧
      ∀ x, jacNewton gmres (s.t + dt) y frhs jac 1e-6 1e-8 100 1000 = .ok x → Bdf.step gmres sys s dt = .ok ⟨s.t + dt, dt, x, none⟩ := by
    have hsh : ∀ (t : ℝ) (x : Vec n) (sc : ℝ), IsMatrix (sys.fjacShifted t x sc (some 1)) (1 + sc • A) := by
      intro t x sc v
      simp only [Sys.fjacShifted, shiftedLinOp, LinOp.call]
      rw [hs.fjac t x v, add_mulVec, one_mulVec, smul_mulVec, one_smul, add_comm]
    rcases ho with rfl | rfl
    · refine ⟨dt, hdt, by linarith, y + dt • b, fun t x => -(dt • sys.frhs (t + dt) x) - y + x,
        fun t x => sys.fjacShifted (t + dt) x (-dt) (some 1), ?_, ?_, ?_, ?_, ?_⟩
      · simp only [impMap, if_true, beMap]; rw [mulVec_mulVec, mul_nonsing_inv _ (dissipative_unit hA hdt), one_mulVec]
      · rw [sub_mulVec, one_mulVec, smul_mulVec]; module
      · intro x
        simp only
        rw [hs.frhs, sub_mulVec, one_mulVec, smul_mulVec]
        module
      · intro x
        have := hsh (s.t + dt + dt) x (-dt)
        rwa [neg_smul, ← sub_eq_add_neg] at this
      · intro x hx
        rw [bdf_step_1 gmres sys s dt hso]
        unfold Bdf.stepOrder1
        rw [hy]
        simp only [show rsGet (y :: l) 0 = .ok y from rfl, Bind.bind, Except.bind]
        rw [hx]
        rfl
    · have hh : (0 : ℝ) ≤ dt / 2 := by positivity
      refine ⟨dt / 2, hh, by linarith, (1 + (dt / 2) • A) *ᵥ y + dt • b,
        fun t x => -((dt * 0.5) • sys.frhs (t + dt) x) - (dt * 0.5) • sys.frhs t y - y + x,
        fun t x => sys.fjacShifted (t + dt) x (-0.5 * dt) (some 1), ?_, ?_, ?_, ?_, ?_⟩
      · have : impMap 3 A b dt y = cnMap A b dt y := by simp [impMap]
        rw [this, cnMap, mulVec_mulVec, mul_nonsing_inv _ (dissipative_unit hA hh), one_mulVec]
      · rw [sub_mulVec, add_mulVec, one_mulVec, smul_mulVec]; module
      · intro x
        simp only
        rw [hs.frhs, hs.frhs, sub_mulVec, add_mulVec, one_mulVec, one_mulVec, smul_mulVec, smul_mulVec]
        have h2 : dt * 0.5 = dt / 2 := by norm_num; ring
        rw [h2]
        module
      · intro x
        have := hsh (s.t + dt + dt) x (-(dt / 2))
        rw [neg_smul, ← sub_eq_add_neg] at this
        have h2 : -0.5 * dt = -(dt / 2) := by norm_num; ring
        rw [h2]
        exact this
      · intro x hx
        rw [bdf_step_3 gmres sys s dt hso]
        unfold Bdf.stepCn
        rw [hy]
        simp only [show rsGet (y :: l) 0 = .ok y from rfl, Bind.bind, Except.bind]
        rw [hx]
        rfl
  have hres : norm2 ((1 - h • A) *ᵥ y - r) = dt * norm2 (A *ᵥ y + b) := by rw [hr, norm2_neg, norm2_smul, abs_of_nonneg hdt]
  have hexp := fun v => (resolvent_bounds hA hh0 v).1
  obtain ⟨x, hx⟩ := newton_returns hg (s.t + dt) r (1 - h • A) (dissipative_unit hA hh0) hexp frhs jac hf hj 1e-6 1e-8 (by norm_num) 1000 hn 99 y 0 (by
    rw [hres]
    calc (1e-8 : ℝ) ^ 99 * ((1 + 1e-8) * (dt * norm2 (A *ᵥ y + b))) ≤ (1e-8 : ℝ) ^ 99 * ((1 + 1e-8) * 1e300) := by gcongr
      _ < 1e-6 := by norm_num)
  have hfin := newton_inexact hg (s.t + dt) r (1 - h • A) frhs jac hf hj 1e-6 1e-8 (by norm_num) (by norm_num) 1000 100 y 0 x hx
  rw [hres] at hfin
  have hd : (1 - h • A) *ᵥ (x - impMap order A b dt y) = (1 - h • A) *ᵥ x - r := by rw [mulVec_sub, hM]
  obtain ⟨b1, b2⟩ := resolvent_bounds hA hh0 (x - impMap order A b dt y)
  rw [hd] at b1 b2
  refine ⟨x, hstep x hx, b1.trans hfin, ?_⟩
  rcases hh0.eq_or_lt with h0 | hpos
  · have hdt0 : dt = 0 := by linarith
    have : norm2 (x - impMap order A b dt y) = 0 := le_antisymm (b1.trans (hfin.trans (by rw [hdt0]; simp))) (norm2_nonneg _)
    rw [norm2_eq_zero.mp this, mulVec_zero, norm2_zero]
    exact mul_nonneg (by norm_num) (norm2_nonneg _)
  · have hb : h * norm2 (A *ᵥ (x - impMap order A b dt y)) ≤ h * (2e-8 * norm2 (A *ᵥ y + b)) := by
      refine b2.trans (hfin.trans ?_)
      have := mul_le_mul_of_nonneg_right hh (norm2_nonneg (A *ᵥ y + b))
      linarith
    exact le_of_mul_le_mul_left hb hpos

/-- the recursion of the errors -/
theorem inexact_recursion {order : ℕ} (ho : order = 1 ∨ order = 3) {A : Mat n} (hA : Dissipative A) (b : Vec n) {dt : ℝ} (hdt : 0 ≤ dt) (u : ℕ → Vec n)
    (N : ℕ) (hbig : dt * ((1 + 2e-8) ^ N * norm2 (A *ᵥ u 0 + b)) ≤ 1e300)
    (hu : ∀ k < N, dt * norm2 (A *ᵥ u k + b) ≤ 1e300 → norm2 (u (k + 1) - impMap order A b dt (u k)) ≤ 1e-8 * (dt * norm2 (A *ᵥ u k + b)) ∧
      norm2 (A *ᵥ (u (k + 1) - impMap order A b dt (u k))) ≤ 2e-8 * norm2 (A *ᵥ u k + b)) :
    ∀ k ≤ N, norm2 (A *ᵥ u k + b) ≤ (1 + 2e-8) ^ k * norm2 (A *ᵥ u 0 + b) ∧ dt * norm2 (A *ᵥ u k + b) ≤ 1e300 ∧
      norm2 (u k - (impMap order A b dt)^[k] (u 0)) ≤ 1e-8 * (k * dt) * ((1 + 2e-8) ^ k * norm2 (A *ᵥ u 0 + b)) := by
  obtain ⟨m1, m2⟩ := impMap_spec ho hA b hdt
  have hb : ∀ k ≤ N, norm2 (A *ᵥ u k + b) ≤ (1 + 2e-8) ^ k * norm2 (A *ᵥ u 0 + b) → dt * norm2 (A *ᵥ u k + b) ≤ 1e300 := by
    intro k hk h
    refine (mul_le_mul_of_nonneg_left (h.trans ?_) hdt).trans hbig
    exact mul_le_mul_of_nonneg_right (pow_le_pow_right₀ (by norm_num) hk) (norm2_nonneg _)
  intro k
  induction k with
  | zero =>
    intro _
    have h : norm2 (A *ᵥ u 0 + b) ≤ (1 + 2e-8) ^ 0 * norm2 (A *ᵥ u 0 + b) := by rw [pow_zero, one_mul]
    refine ⟨h, hb 0 (Nat.zero_le _) h, ?_⟩
    rw [Function.iterate_zero, id, sub_self, norm2_zero]
    simp
  | succ k ih =>
    intro hk
    obtain ⟨i1, i2, i3⟩ := ih (by omega)
    obtain ⟨s1, s2⟩ := hu k (by omega) i2
    obtain ⟨q, hq⟩ : ∃ q : ℝ, q = (1 + 2e-8) ^ k * norm2 (A *ᵥ u 0 + b) := ⟨_, rfl⟩
    have hq0 : 0 ≤ q := by rw [hq]; exact mul_nonneg (by positivity) (norm2_nonneg _)
    have hq1 : (1 + 2e-8) ^ (k + 1) * norm2 (A *ᵥ u 0 + b) = (1 + 2e-8) * q := by rw [hq, pow_succ]; ring
    rw [← hq] at i1 i3
    have g1 : norm2 (A *ᵥ u (k + 1) + b) ≤ (1 + 2e-8) ^ (k + 1) * norm2 (A *ᵥ u 0 + b) := by
      have e : A *ᵥ u (k + 1) + b = A *ᵥ (u (k + 1) - impMap order A b dt (u k)) + (A *ᵥ impMap order A b dt (u k) + b) := by
        rw [mulVec_sub]; abel
      have := norm2_add_le (A *ᵥ (u (k + 1) - impMap order A b dt (u k))) (A *ᵥ impMap order A b dt (u k) + b)
      rw [← e] at this
      have := m2 (u k)
      rw [hq1]
      linarith
    refine ⟨g1, hb (k + 1) hk g1, ?_⟩
    rw [hq1]
    have e : u (k + 1) - (impMap order A b dt)^[k + 1] (u 0) = (u (k + 1) - impMap order A b dt (u k)) +
        (impMap order A b dt (u k) - impMap order A b dt ((impMap order A b dt)^[k] (u 0))) := by
      rw [Function.iterate_succ_apply']; abel
    rw [e]
    have t1 := norm2_add_le (u (k + 1) - impMap order A b dt (u k)) (impMap order A b dt (u k) - impMap order A b dt ((impMap order A b dt)^[k] (u 0)))
    have t2 := m1 (u k) ((impMap order A b dt)^[k] (u 0))
    have t3 : dt * norm2 (A *ᵥ u k + b) ≤ dt * q := mul_le_mul_of_nonneg_left i1 hdt
    have t4 : 0 ≤ ((k : ℝ) + 1) * (dt * q) := mul_nonneg (by positivity) (mul_nonneg hdt hq0)
    push_cast
    have t5 : 1e-8 * (((k : ℝ) + 1) * dt) * ((1 + 2e-8) * q) = 1e-8 * (k * dt) * q + 1e-8 * (dt * q) + 1e-8 * 2e-8 * (((k : ℝ) + 1) * (dt * q)) := by ring
    rw [t5]
    have t6 : 0 ≤ (1e-8 : ℝ) * 2e-8 * (((k : ℝ) + 1) * (dt * q)) := mul_nonneg (by norm_num) t4
    linarith

/-- **C130 (inexact linear solver).** For an affine system `y' = A y + b` with dissipative `A`, whatever its stiffness, and a linear solver that only
promises the requested relative residual, a call of the binding with `bdf1`, `backeuler` or `cn` and any `dt ≥ 0` returns, and every state of the run is
within `1e-8 · k·dt · (1 + 2e-8)^k · ‖A y0 + b‖` of the run of the exact implicit formula. The restriction `1e300` is the range of a double. -/
theorem C130_inexact {gmres : Gmres n} (hg : ResidualGmres gmres) (hn : n ≤ 1000) (split : ℕ → Option (Split ℕ)) {sys : Sys n} {A : Mat n} {b : Vec n}
    (hs : AffineSys sys A b) (hA : Dissipative A) (y0 : Vec n) (t0 dt : ℝ) (hdt : 0 ≤ dt) (N : ℕ) (kd : Kwds) (o : RunOpts) (hp : parseOpts kd = .ok o)
    (ho : 0 < o.osteps) (hbig : dt * ((1 + 2e-8) ^ N * norm2 (A *ᵥ y0 + b)) ≤ 1e300)
    (step : Vec n → Vec n) (hm : (o.method = "bdf1" ∨ o.method = "backeuler") ∧ step = beMap A b dt ∨ o.method = "cn" ∧ step = cnMap A b dt) :
    ∃ u : ℕ → Vec n, u 0 = y0 ∧
      integrateWrapperRs gmres split sys y0 t0 dt N kd =
        .ok ((outputSteps o.osteps N).map u, (outputSteps o.osteps N).map fun i : ℕ => t0 + i * dt) ∧
      ∀ k ≤ N, norm2 (u k - step^[k] y0) ≤ 1e-8 * (k * dt) * ((1 + 2e-8) ^ k * norm2 (A *ᵥ y0 + b)) := by
  obtain ⟨order, hord, hstep, hsel⟩ : ∃ order, (order = 1 ∨ order = 3) ∧ step = impMap order A b dt ∧
      selectSolver split t0 y0 o.method o.expmvMethod o.krylovDim o.iom o.tolFdt = .ok (.bdf (Bdf.new t0 y0 order)) := by
    rcases hm with ⟨h1, h2⟩ | ⟨h1, h2⟩
    · exact ⟨1, Or.inl rfl, by rw [h2]; simp [impMap], by unfold selectSolver; rw [if_pos h1]⟩
    · exact ⟨3, Or.inr rfl, by rw [h2]; simp [impMap], by unfold selectSolver; rw [h1]; simp⟩
  -- the run
  obtain ⟨u, hu0, hus⟩ : ∃ u : ℕ → Vec n, u 0 = y0 ∧ ∀ k, u (k + 1) = match Bdf.step gmres sys ⟨order, t0 + k * dt, [u k]⟩ dt with
      | .ok r => r.y
      | .error _ => 0 :=
    ⟨fun k => Nat.rec y0 (fun k y => match Bdf.step gmres sys ⟨order, t0 + k * dt, [y]⟩ dt with
      | .ok r => r.y
      | .error _ => 0) k, rfl, fun _ => rfl⟩
  have hkey : ∀ k, dt * norm2 (A *ᵥ u k + b) ≤ 1e300 → ∀ (s : Bdf n) (l : List (Vec n)), s.order = order → s.t = t0 + k * dt → s.yHist = u k :: l →
      Bdf.step gmres sys s dt = .ok ⟨s.t + dt, dt, u (k + 1), none⟩ ∧
      norm2 (u (k + 1) - impMap order A b dt (u k)) ≤ 1e-8 * (dt * norm2 (A *ᵥ u k + b)) ∧
      norm2 (A *ᵥ (u (k + 1) - impMap order A b dt (u k))) ≤ 2e-8 * norm2 (A *ᵥ u k + b) := by
    intro k hk s l h1 h2 h3
    have hsame : Bdf.step gmres sys s dt = Bdf.step gmres sys ⟨order, t0 + k * dt, [u k]⟩ dt := by
      rcases hord with h | h
      · rw [bdf_step_1 gmres sys s dt (h1.trans h), bdf_step_1 gmres sys _ dt h]
        unfold Bdf.stepOrder1
        rw [h2, h3]
        rfl
      · rw [bdf_step_3 gmres sys s dt (h1.trans h), bdf_step_3 gmres sys _ dt h]
        unfold Bdf.stepCn
        rw [h2, h3]
        rfl
    obtain ⟨x, e1, e2, e3⟩ := step_inexact hg hn hs hA hord s h1 (u k) l h3 hdt hk
    have hx : u (k + 1) = x := by rw [hus, ← hsame, e1]
    rw [hx]
    exact ⟨e1, e2, e3⟩
  rw [← hu0] at hbig
  have hrec := inexact_recursion hord hA b hdt u N hbig fun k _ hk =>
    (hkey k hk ⟨order, t0 + k * dt, [u k]⟩ [] rfl rfl rfl).2
  refine ⟨u, hu0, ?_, fun k hk => ?_⟩
  · have h := bdf_follow gmres sys order t0 dt u N o.osteps ho (by
      intro s k l hk g1 g2 g3 _ _
      exact (hkey k (hrec k hk.le).2.1 s l g1 g2 g3).1)
    rw [hu0] at h
    exact wrap_bdf gmres split sys y0 t0 dt N kd o order _ hp hsel h
  · rw [hstep, ← hu0]
    exact (hrec k hk).2.2

theorem impMap_iterate_le {order : ℕ} (ho : order = 1 ∨ order = 3) {A : Mat n} (hA : Dissipative A) (b : Vec n) {dt : ℝ} (hdt : 0 ≤ dt) (y z : Vec n)
    (k : ℕ) : norm2 ((impMap order A b dt)^[k] y - (impMap order A b dt)^[k] z) ≤ norm2 (y - z) := by
  induction k with
  | zero => exact le_rfl
  | succ k ih =>
    rw [Function.iterate_succ_apply', Function.iterate_succ_apply']
    exact ((impMap_spec ho hA b hdt).1 _ _).trans ih

/-- **C130 (two runs).** Two such calls from `y0` and `z0`, each with its own linear solver, never separate by more than the starts and the residuals of
the solvers. -/
theorem C130_contractive {gmres gmres' : Gmres n} (hg : ResidualGmres gmres) (hg' : ResidualGmres gmres') (hn : n ≤ 1000)
    (split : ℕ → Option (Split ℕ)) {sys : Sys n} {A : Mat n} {b : Vec n}
    (hs : AffineSys sys A b) (hA : Dissipative A) (y0 z0 : Vec n) (t0 dt : ℝ) (hdt : 0 ≤ dt) (N : ℕ) (kd : Kwds) (o : RunOpts) (hp : parseOpts kd = .ok o)
    (ho : 0 < o.osteps) (hm : o.method = "bdf1" ∨ o.method = "backeuler" ∨ o.method = "cn")
    (hbig : dt * ((1 + 2e-8) ^ N * norm2 (A *ᵥ y0 + b)) ≤ 1e300) (hbig' : dt * ((1 + 2e-8) ^ N * norm2 (A *ᵥ z0 + b)) ≤ 1e300) :
    ∃ u v : ℕ → Vec n, u 0 = y0 ∧ v 0 = z0 ∧
      integrateWrapperRs gmres split sys y0 t0 dt N kd =
        .ok ((outputSteps o.osteps N).map u, (outputSteps o.osteps N).map fun i : ℕ => t0 + i * dt) ∧
      integrateWrapperRs gmres' split sys z0 t0 dt N kd =
        .ok ((outputSteps o.osteps N).map v, (outputSteps o.osteps N).map fun i : ℕ => t0 + i * dt) ∧
      ∀ k ≤ N, norm2 (u k - v k) ≤ norm2 (y0 - z0) +
        1e-8 * (k * dt) * ((1 + 2e-8) ^ k * (norm2 (A *ᵥ y0 + b) + norm2 (A *ᵥ z0 + b))) := by
  obtain ⟨order, hord, hm'⟩ : ∃ order, (order = 1 ∨ order = 3) ∧ ((o.method = "bdf1" ∨ o.method = "backeuler") ∧ impMap order A b dt = beMap A b dt ∨
      o.method = "cn" ∧ impMap order A b dt = cnMap A b dt) := by
    rcases hm with h | h | h
    · exact ⟨1, Or.inl rfl, Or.inl ⟨Or.inl h, by simp [impMap]⟩⟩
    · exact ⟨1, Or.inl rfl, Or.inl ⟨Or.inr h, by simp [impMap]⟩⟩
    · exact ⟨3, Or.inr rfl, Or.inr ⟨h, by simp [impMap]⟩⟩
  obtain ⟨u, u0, u1, u2⟩ := C130_inexact hg hn split hs hA y0 t0 dt hdt N kd o hp ho hbig _ hm'
  obtain ⟨v, v0, v1, v2⟩ := C130_inexact hg' hn split hs hA z0 t0 dt hdt N kd o hp ho hbig' _ hm'
  refine ⟨u, v, u0, v0, u1, v1, fun k hk => ?_⟩
  have e : u k - v k = (u k - (impMap order A b dt)^[k] y0) + ((impMap order A b dt)^[k] y0 - (impMap order A b dt)^[k] z0) -
      (v k - (impMap order A b dt)^[k] z0) := by abel
  rw [e]
  have h1 := norm2_sub_le ((u k - (impMap order A b dt)^[k] y0) + ((impMap order A b dt)^[k] y0 - (impMap order A b dt)^[k] z0))
    (v k - (impMap order A b dt)^[k] z0)
  have h2 := norm2_add_le (u k - (impMap order A b dt)^[k] y0) ((impMap order A b dt)^[k] y0 - (impMap order A b dt)^[k] z0)
  have h3 := impMap_iterate_le hord hA b hdt y0 z0 k
  have := u2 k hk
  have := v2 k hk
  rw [mul_add, mul_add]
  linarith

/-- the hypotheses are met: a thousand steps of size one of the stiff oscillator with a solver that uses all of its tolerance -/
example : ∃ u : ℕ → Vec 2, u 0 = ![1, 0] ∧
    integrateWrapperRs (sloppyGmres 2) (fun _ => none) (affineSys !![-1000000, 5; -5, 0] ![1, 2]) ![1, 0] 0 1 1000
      (fun k => if k = "method" then some (.str "cn") else none) =
      .ok ((outputSteps 1 1000).map u, (outputSteps 1 1000).map fun i : ℕ => 0 + i * 1) ∧
    ∀ k ≤ 1000, norm2 (u k - (cnMap !![-1000000, 5; -5, 0] ![1, 2] 1)^[k] ![1, 0]) ≤
      1e-8 * (k * 1) * ((1 + 2e-8) ^ k * norm2 (!![-1000000, 5; -5, 0] *ᵥ ![1, 0] + ![1, 2])) := by
  refine C130_inexact (sloppy_residual 2) (by norm_num) (fun _ => none) (affineSys_affine _ _) ?_ ![1, 0] 0 1 (by norm_num) 1000 _
    (RunOpts.mk "cn" "pade" 100 2 1e-8 1e-8 1)
    (by simp [parseOpts, getValOrDefault, PyVal.asString, bind, Except.bind, pure, Except.pure]) one_pos ?_ _ (Or.inr ⟨rfl, rfl⟩)
  · intro v
    simp [mulVec, dotProduct, Fin.sum_univ_two]
    nlinarith [sq_nonneg (v 0)]
  · have h1 : norm2 (!![-1000000, 5; -5, 0] *ᵥ ![1, 0] + ![1, 2]) ≤ 1000001 := by
      unfold norm2
      rw [Real.sqrt_le_left (by norm_num)]
      norm_num [mulVec, dotProduct, Fin.sum_univ_two]
    have h3 : ((1 : ℝ) + 2e-8) ^ 1000 ≤ 10 ^ 200 := by
      have : ((1 : ℝ) + 2e-8) ^ 1000 ≤ (1.5 : ℝ) ^ 1000 := pow_le_pow_left₀ (by norm_num) (by norm_num) _
      refine this.trans ?_
      calc (1.5 : ℝ) ^ 1000 = ((1.5 : ℝ) ^ 5) ^ 200 := by rw [← pow_mul]
        _ ≤ 10 ^ 200 := pow_le_pow_left₀ (by norm_num) (by norm_num) _
    have h4 := mul_le_mul h3 h1 (norm2_nonneg _) (by positivity)
    rw [one_mul]
    exact h4.trans (by norm_num)

end
end Ormatex.Props
