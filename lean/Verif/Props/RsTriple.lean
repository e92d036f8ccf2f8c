import Verif.Props.RsArnoldi
import Verif.Props.PhiSq
import Verif.Props.OrderBase

/-!
C84: the triple of products of `apply_phi_linop_3`.
-/

namespace Ormatex.Props
open Matrix Ormatex.Spec Ormatex.Rs
open scoped Classical Nat Matrix.Norms.Operator
variable {n : ℕ}

/-- Every polynomial expression in `H` and `phi_k(dt H)` of the triple is intertwined with the one in `M`. -/
private theorem triple_mats {m : ℕ} (M : Mat n) (H : Mat m) (Q : Matrix (Fin n) (Fin m) ℝ) (h : M * Q = Q * H) (k : ℕ)
    (dt : ℝ) : phiM k (dt • M) * Q = Q * phiM k (dt • H) := by
  ext i j
  have := congrFun (phi_intertwine (dt • M) (dt • H) Q (by rw [Matrix.smul_mul, h, Matrix.mul_smul]) k (Pi.single j 1)) i
  rw [mulVec_mulVec, mulVec_mulVec, mulVec_single_one, mulVec_single_one] at this
  exact this

/-- C84, the exact value of the triple on an exhausted Krylov space, for every order `k`. -/
theorem C84_triple_partial (K : KrylovExpm) (A : LinOp n) (M : Mat n) (dt : ℝ) (v : Vec n) (hv : v ≠ 0)
    (hd : 0 < K.krylovDim) (k : ℕ) (R : ArnResult n) (hR : arnoldiRs A 1 v K.krylovDim K.iom = .ok R)
    (hex : M * R.Q = R.Q * R.H) :
    let P := phiM k (dt • M)
    let P2 := ((dt / 2) • (M * P) + 1) * P
    K.applyPhiLinop3 (fun _ B => NormedSpace.exp B) A dt v k =
      .ok (P *ᵥ v, P2 *ᵥ v, ((2 / 3 : ℝ) • ((dt • (M * P) + 1) * P2) + (1 / 3 : ℝ) • P) *ᵥ v) := by
  obtain ⟨R', hR', _, hst⟩ := arnRs_start A 1 v hv K.krylovDim K.iom hd
  obtain rfl : R = R' := Except.ok.inj (hR.symm.trans hR')
  intro P P2
  unfold KrylovExpm.applyPhiLinop3
  rw [hR]
  have hP : P * R.Q = R.Q * phiM k (dt • R.H) := triple_mats M R.H R.Q hex k dt
  have hP' : ∀ X : Matrix (Fin R.k) (Fin R.k) ℝ, P * (R.Q * X) = R.Q * (phiM k (dt • R.H) * X) := by
    intro X; rw [← Matrix.mul_assoc, hP, Matrix.mul_assoc]
  have hM' : ∀ X : Matrix (Fin R.k) (Fin R.k) ℝ, M * (R.Q * X) = R.Q * (R.H * X) := by
    intro X; rw [← Matrix.mul_assoc, hex, Matrix.mul_assoc]
  have hval : ∀ X : Mat n, ∀ Y : Mat R.k, X * R.Q = R.Q * Y →
      norm2 v • ((R.Q * Y) *ᵥ unitVec R.k) = X *ᵥ v := by
    intro X Y hXY
    rw [← hXY, ← mulVec_mulVec, ← mulVec_smul, hst]
  have e2 : P2 * R.Q = R.Q * (((dt * 1 / 2) • (R.H * phiM k (dt • R.H)) + 1) * phiM k (dt • R.H)) := by
    simp only [P2, Matrix.mul_assoc, hP, Matrix.add_mul, Matrix.mul_add, Matrix.smul_mul, Matrix.mul_smul, Matrix.one_mul,
      hP', hM', mul_one]
  show Except.ok _ = Except.ok _
  congr 1
  simp only [C81_phi_ext]
  refine Prod.ext (hval _ _ hP) (Prod.ext (hval _ _ e2) (hval _ _ ?_))
  simp only [Matrix.add_mul, Matrix.smul_mul, Matrix.mul_assoc, e2, hP, Matrix.one_mul, Matrix.mul_add, Matrix.mul_smul,
    hP', hM']
  module

/-- `(a + 1) phi_1((a+1) A) = a e^A phi_1(a A) + phi_1(A)`. -/
theorem phi1_add (A : Mat n) (a : ℝ) :
    (a + 1) • phiM 1 ((a + 1) • A) = a • (NormedSpace.exp A * phiM 1 (a • A)) + phiM 1 A := by
  ext i j
  set g : ℝ → Mat n := fun s => (s + 1) • phiM 1 ((s + 1) • A) - s • (NormedSpace.exp A * phiM 1 (s • A)) with hg
  have hsum : ∀ s : ℝ, phiM 0 ((s + 1) • A) = NormedSpace.exp A * phiM 0 (s • A) := by
    intro s
    rw [phiM_zero, phiM_zero, add_smul, one_smul, add_comm,
      Matrix.exp_add_of_commute _ _ ((Commute.refl A).smul_right s)]
  have hd : ∀ s, HasDerivAt (fun s => g s i j) 0 s := by
    intro s
    have h1 : HasDerivAt (fun s : ℝ => (s + 1) • phiM 1 ((s + 1) • A)) (phiM 0 ((s + 1) • A)) s := by
      have := (hasDerivAt_phiM_succ 0 A (s + 1)).scomp s ((hasDerivAt_id s).add_const 1)
      simp [Function.comp_def] at this
      exact this
    have h2 : HasDerivAt (fun s : ℝ => s • phiM 1 (s • A)) (phiM 0 (s • A)) s := by
      simpa using hasDerivAt_phiM_succ 0 A s
    have h3 : HasDerivAt (fun s : ℝ => NormedSpace.exp A * (s • phiM 1 (s • A))) (NormedSpace.exp A * phiM 0 (s • A)) s :=
      h2.const_mul _
    have h4 := h1.sub h3
    rw [hsum, sub_self] at h4
    have h5 := (hasDerivAt_pi.1 ((hasDerivAt_pi.1 h4) i)) j
    simpa [hg, Matrix.mul_smul] using h5
  have hc := is_const_of_deriv_eq_zero (fun s => (hd s).differentiableAt) (fun s => (hd s).deriv) a 0
  simp only [hg] at hc
  simp only [Matrix.add_apply]
  simp at hc ⊢
  linarith

/-- C84 holds for `k = 1`: the triple is `phi_1(dt A) v`, `phi_1(2 dt A) v`, `phi_1(3 dt A) v`. -/
theorem C84_order_one (K : KrylovExpm) (A : LinOp n) (M : Mat n) (dt : ℝ) (v : Vec n) (hv : v ≠ 0)
    (hd : 0 < K.krylovDim) (R : ArnResult n) (hR : arnoldiRs A 1 v K.krylovDim K.iom = .ok R)
    (hex : M * R.Q = R.Q * R.H) :
    K.applyPhiLinop3 (fun _ B => NormedSpace.exp B) A dt v 1 =
      .ok (phiM 1 (dt • M) *ᵥ v, phiM 1 ((2 * dt) • M) *ᵥ v, phiM 1 ((3 * dt) • M) *ᵥ v) := by
  rw [C84_triple_partial K A M dt v hv hd 1 R hR hex]
  have hr := phiM_recurrence 0 (dt • M)
  simp only [Nat.factorial_zero, Nat.cast_one, inv_one, one_smul, zero_add, phiM_zero] at hr
  have h1 := phi1_add (dt • M) 1
  have h2 := phi1_add (dt • M) 2
  rw [one_smul, one_smul, show ((1 : ℝ) + 1) = 2 by norm_num, smul_smul] at h1
  rw [show ((2 : ℝ) + 1) = 3 by norm_num, smul_smul, smul_smul] at h2
  have e1 : dt • (M * phiM 1 (dt • M)) + 1 = NormedSpace.exp (dt • M) := by
    rw [← Matrix.smul_mul, hr]; simp
  have e2 : ((dt / 2) • (M * phiM 1 (dt • M)) + 1) * phiM 1 (dt • M) = phiM 1 ((2 * dt) • M) := by
    have : (dt / 2) • (M * phiM 1 (dt • M)) + 1 = (2⁻¹ : ℝ) • (NormedSpace.exp (dt • M) + 1) := by
      rw [← e1]; module
    rw [this, Matrix.smul_mul, Matrix.add_mul, Matrix.one_mul, ← h1]
    module
  simp only [e1, e2]
  have e3 : (2 / 3 : ℝ) • (NormedSpace.exp (dt • M) * phiM 1 ((2 * dt) • M)) + (1 / 3 : ℝ) • phiM 1 (dt • M) =
      phiM 1 ((3 * dt) • M) := by
    have : phiM 1 ((3 * dt) • M) = (1 / 3 : ℝ) • ((3 : ℝ) • phiM 1 ((3 * dt) • M)) := by module
    rw [this, h2]
    module
  rw [e3]

/-- scalar phi function -/
private noncomputable def phS (k : ℕ) (a : ℝ) : ℝ := phiM k (a • (1 : Mat 1)) 0 0

private theorem phS_rec (k : ℕ) (a : ℝ) : phS k a = 1 / (k)! + a * phS (k + 1) a := by
  have h := congrFun (congrFun (phiM_recurrence k (a • (1 : Mat 1))) 0) 0
  unfold phS
  simp at h
  simp
  linarith

private theorem phS_lim (k : ℕ) (c : ℝ) : Filter.Tendsto (fun a : ℝ => phS k (c * a)) (nhds 0) (nhds (1 / (k)!)) := by
  have hb := phi_isBigO (k + 1) (1 : Mat 1) c (v := fun _ => fun _ => 1) (g := fun _ => (1 : ℝ))
    (Asymptotics.isBigO_refl _ _ |>.trans (by
      refine Asymptotics.IsBigO.of_bound 1 (Filter.Eventually.of_forall fun _ => ?_)
      simp [pi_norm_const]))
  have hb2 : (fun a : ℝ => phS (k + 1) (c * a)) =O[nhds 0] fun _ => (1 : ℝ) := by
    refine Asymptotics.IsBigO.trans (Asymptotics.IsBigO.of_bound 1 (Filter.Eventually.of_forall fun a => ?_)) hb
    rw [one_mul]
    refine le_trans (le_of_eq ?_) (norm_le_pi_norm _ 0)
    simp [phS, mulVec, dotProduct]
  have h1 : Filter.Tendsto (fun a : ℝ => c * a * phS (k + 1) (c * a)) (nhds 0) (nhds 0) := by
    have : (fun a : ℝ => c * a * phS (k + 1) (c * a)) =O[nhds 0] fun a => a := by
      have := ((Asymptotics.isBigO_refl (fun a : ℝ => a) (nhds 0)).const_mul_left c).mul hb2
      simpa using this
    exact this.trans_tendsto Filter.tendsto_id
  have := h1.const_add (1 / ((k)! : ℝ))
  rw [add_zero] at this
  refine this.congr fun a => ?_
  rw [phS_rec k (c * a)]

private theorem phS_ne (k : ℕ) (hk : k ≠ 1) : ∃ a : ℝ, (a / 2 * phS k a + 1) * phS k a ≠ phS k (2 * a) := by
  by_contra hcon
  push Not at hcon
  have hd : ∀ a : ℝ, a ≠ 0 → phS k a ^ 2 / 2 + phS (k + 1) a = 2 * phS (k + 1) (2 * a) := by
    intro a ha
    have h := hcon a
    have r1 := phS_rec k a
    have r2 := phS_rec k (2 * a)
    have : a * (phS k a ^ 2 / 2 + phS (k + 1) a) = a * (2 * phS (k + 1) (2 * a)) := by
      have : a / 2 * phS k a * phS k a + phS k a = phS k (2 * a) := by rw [← h]; ring
      linarith
    exact mul_left_cancel₀ ha this
  have l1 : Filter.Tendsto (fun a : ℝ => phS k a ^ 2 / 2 + phS (k + 1) a) (nhdsWithin 0 {0}ᶜ)
      (nhds ((1 / (k)! : ℝ) ^ 2 / 2 + 1 / (k + 1)!)) := by
    have a1 := phS_lim k 1
    have a2 := phS_lim (k + 1) 1
    simp only [one_mul] at a1 a2
    exact (((a1.pow 2).div_const 2).add a2).mono_left nhdsWithin_le_nhds
  have l2 : Filter.Tendsto (fun a : ℝ => 2 * phS (k + 1) (2 * a)) (nhdsWithin 0 {0}ᶜ)
      (nhds (2 * (1 / (k + 1)!))) := ((phS_lim (k + 1) 2).const_mul 2).mono_left nhdsWithin_le_nhds
  have l3 := l1.congr' (by
    filter_upwards [self_mem_nhdsWithin] with a ha
    exact hd a ha)
  have e := tendsto_nhds_unique l3 l2
  have f0 : (0 : ℝ) < (k)! := by positivity
  rw [Nat.factorial_succ] at e
  push_cast at e
  have e' : (k : ℝ) + 1 = 2 * (k)! := by
    field_simp at e
    nlinarith
  have e'' : k + 1 = 2 * (k)! := by exact_mod_cast e'
  have := Nat.self_le_factorial k
  rcases Nat.eq_zero_or_pos k with rfl | h
  · simp at e''
  · omega

/-- C84 is false for every order but one: for each `k` other than `1` there is a scalar `a` for which the second entry
of the triple of the one-dimensional operator `a` (whose Krylov space is always exhausted) is not `phi_k(2 a)`. -/
theorem C84_false (k : ℕ) (hk : k ≠ 1) : ∃ a : ℝ, ∀ (K : KrylovExpm), 0 < K.krylovDim → ∀ (A : LinOp 1),
    IsMatrix A (a • 1) → ∃ x y z : Vec 1,
      K.applyPhiLinop3 (fun _ B => NormedSpace.exp B) A 1 (fun _ => 1) k = .ok (x, y, z) ∧
      y ≠ phiM k ((2 * a) • 1) *ᵥ (fun _ => 1) := by
  obtain ⟨a, ha⟩ := phS_ne k hk
  refine ⟨a, fun K hd A hA => ?_⟩
  have hv : (fun _ => 1 : Vec 1) ≠ 0 := fun h => one_ne_zero (congrFun h 0)
  have h1 : min 1 K.krylovDim = 1 := by omega
  have hR := C78_agree A 1 (fun _ => 1) hv K.krylovDim K.iom hd (fun j hj => by omega)
  have hfull : (arnoldiLop A 1 (fun _ => 1) K.krylovDim K.iom).k = 1 := by
    have := (C28_termination A 1 (fun _ => 1) K.krylovDim K.iom hd).2 hv
    omega
  have hex := full_relation A _ hA 1 (fun _ => 1) K.krylovDim K.iom (by omega) hfull
  rw [one_smul] at hex
  refine ⟨_, _, _, C84_triple_partial K A _ 1 _ hv hd k _ hR hex, fun h => ha ?_⟩
  have := congrFun h 0
  simp only [one_smul] at this
  simp [mulVec, dotProduct, Matrix.mul_apply, Matrix.add_apply] at this
  unfold phS
  rw [← this]
  ring

/-- Non-vacuity of the hypotheses of `C84_triple_partial` and `C84_order_one`: every one-dimensional operator. -/
example (a : ℝ) (K : KrylovExpm) (hd : 0 < K.krylovDim) (A : LinOp 1) (hA : IsMatrix A (a • 1)) :
    ∃ R, arnoldiRs A 1 (fun _ => 1) K.krylovDim K.iom = .ok R ∧ (a • 1 : Mat 1) * R.Q = R.Q * R.H := by
  have hv : (fun _ => 1 : Vec 1) ≠ 0 := fun h => one_ne_zero (congrFun h 0)
  have hR := C78_agree A 1 (fun _ => 1) hv K.krylovDim K.iom hd (fun j hj => by omega)
  have hfull : (arnoldiLop A 1 (fun _ => 1) K.krylovDim K.iom).k = 1 := by
    have := (C28_termination A 1 (fun _ => 1) K.krylovDim K.iom hd).2 hv
    omega
  have hex := full_relation A _ hA 1 (fun _ => 1) K.krylovDim K.iom (by omega) hfull
  rw [one_smul] at hex
  exact ⟨_, hR, hex⟩

end Ormatex.Props
