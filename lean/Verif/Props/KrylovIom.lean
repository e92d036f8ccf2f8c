import Verif.Props.ApproxKrylovRun
import Verif.Props.RsKrylovErr

/-!
C105 for incomplete orthogonalisation: runs of `exprb2`, `exprb3`, `exp1`, `exp2`, `exp3` with the package's own Krylov kernel and any
depth `iom`.
-/

namespace Ormatex.Props
open Filter Asymptotics Topology Matrix Ormatex.Spec
open scoped Classical
open scoped Matrix.Norms.Operator

section
variable {n : ℕ} {P : Type} [EmptyCollection P]

/-- what `arnoldi_lop` returns, for every depth -/
theorem arn_decomp (A : LinOp n) (M : Mat n) (hA : IsMatrix A M) (dt : ℝ) (v0 : Vec n) (hv : v0 ≠ 0) (m iom : ℕ) (hm : 1 ≤ m) :
    let R := arnoldiLop A dt (fun i => v0 i / norm2 v0) m iom
    ∃ r, 0 < R.k ∧ R.k ≤ min n m ∧ Decomp (dt • M) iom R.k R.Q R.H r ∧ norm2 v0 • (R.Q *ᵥ firstUnit R.k) = v0 ∧
      (R.k < min n m → norm2 r ≤ 1e-12) := by
  intro R
  have hn : 0 < n := by
    rcases Nat.eq_zero_or_pos n with rfl | h
    · exact absurd (Subsingleton.elim v0 0) hv
    · exact h
  have hb : (fun i => v0 i / norm2 v0) ≠ 0 := by
    intro h
    have := norm2_normalized (norm2_pos hv).ne'
    rw [h, norm2_zero] at this
    exact zero_ne_one this
  obtain ⟨hk, hstart⟩ := arn_start A dt v0 hv m iom hm
  have hmin : 0 < min n m := by omega
  obtain ⟨inv, hstop, _, _⟩ := arnJit_inv A dt (fun i => v0 i / norm2 v0) m iom hmin
  have hvalid := arn_valid A dt (fun i => v0 i / norm2 v0) m iom hmin
  have core : ArnCore (fun x => dt • A.call x) iom (arnoldiJit A dt (fun i => v0 i / norm2 v0) m iom).hs
      (arnoldiJit A dt (fun i => v0 i / norm2 v0) m iom).qs (arnoldiJit A dt (fun i => v0 i / norm2 v0) m iom).k
      (arnoldiJit A dt (fun i => v0 i / norm2 v0) m iom).k :=
    ⟨fun j hj => inv.unit j (by omega), inv.hess, inv.fresh, inv.band, fun j h1 h2 => inv.next j h1 (by omega),
      fun i j h1 h2 => inv.orth i j h1 (by omega), inv.resOrth⟩
  have hf : ∀ x, dt • A.call x = (dt • M) *ᵥ x := by
    intro x
    rw [Matrix.smul_mulVec]
    show dt • A.matvec x = _
    rw [hA x]
  have D := core.decomp hf hk
  refine ⟨arnRes A dt (fun i => v0 i / norm2 v0) m iom, hk, inv.kle, D, hstart, fun hlt => ?_⟩
  obtain ⟨_, _, _, h4⟩ := (C28_termination A dt (fun i => v0 i / norm2 v0) m iom hm).2 hb
  have hl : (arnoldiLop A dt (fun i => v0 i / norm2 v0) m iom).k - 1
    < (arnoldiLop A dt (fun i => v0 i / norm2 v0) m iom).k := by omega
  have h1 : (((⟨_, hl⟩ : Fin _) : ℕ)) + 1 = (arnoldiLop A dt (fun i => v0 i / norm2 v0) m iom).k := by
    simp only; omega
  refine h4 ⟨_, hl⟩ _ h1 ?_ hlt
  have := arn_relation A dt (fun i => v0 i / norm2 v0) m iom ⟨_, hl⟩
  rw [if_pos h1] at this
  exact this

/-- **Krylov products for small operators, any depth.**  `σ` bounds `sqrt(iom + 2)` times the norm of the operator. -/
theorem phiLinop_trunc_iom (appl : DenseAppl) (A : LinOp n) (M : Mat n)
    (hA : IsMatrix A M) (dt : ℝ) (v0 : Vec n) (l m iom p : ℕ) (hp : 1 ≤ p) (hpm : p ≤ min n m) (ε ρ σ : ℝ) (hρ : 0 ≤ ρ)
    (hσ : σ = Real.sqrt (iom + 2) * ρ) (hσ1 : σ ≤ 1) (hρM : ∀ x, norm2 ((dt • M) *ᵥ x) ≤ ρ * norm2 x)
    (hk : ∀ q (H : Mat q), q ≤ n → q ≤ m → (∀ x, norm2 (H *ᵥ x) ≤ σ * norm2 x) →
      ∃ e, appl q H (firstUnit q) l = .ok e ∧ norm2 (e - phiM l H *ᵥ firstUnit q) ≤ ε) :
    ∃ w, phiLinop appl A dt v0 l m iom = .ok w
      ∧ norm2 (w - phiM l (dt • M) *ᵥ v0)
        ≤ norm2 v0 * ((1 + Real.sqrt n) * (2 * Real.exp 1 * (min 1e-12 σ + σ ^ p) + ε)) := by
  by_cases hv : v0 = 0
  · subst hv
    refine ⟨0, phiLinop_zero _ _ _ _ _ _, ?_⟩
    rw [Matrix.mulVec_zero, sub_zero, norm2_zero, zero_mul]
  obtain ⟨r, hR0, hRk, D, hst, hr⟩ := arn_decomp A M hA dt v0 hv m iom (by omega)
  rw [phiLinop_pos _ _ _ _ _ _ _ hv]
  unfold krylovFinish
  rw [if_pos hR0]
  generalize arnoldiLop A dt (fun i => v0 i / norm2 v0) m iom = R at *
  have hσ0 : 0 ≤ σ := by rw [hσ]; positivity
  have hρσ : ρ ≤ σ := by rw [hσ]; exact le_mul_of_one_le_left hρ (sqrt_iom_one iom)
  have hb := D.bound ρ hρ hρM
  rw [← hσ] at hb
  obtain ⟨e, he, hee⟩ := hk R.k R.H (by omega) (by omega) hb
  rw [he]
  refine ⟨_, rfl, ?_⟩
  have hε : 0 ≤ ε := (norm2_nonneg _).trans hee
  have hexp : Real.exp σ ≤ Real.exp 1 := Real.exp_le_exp.2 hσ1
  have hexp' : Real.exp ρ ≤ Real.exp 1 := Real.exp_le_exp.2 (hρσ.trans hσ1)
  have hE := Real.exp_pos 1
  have hsk : Real.sqrt R.k ≤ Real.sqrt n := Real.sqrt_le_sqrt (by exact_mod_cast (by omega : R.k ≤ n))
  have hs0 := Real.sqrt_nonneg (n : ℝ)
  have hmin0 : 0 ≤ min (1e-12 : ℝ) σ := le_min (by norm_num) hσ0
  have e1 : phiM l (dt • M) *ᵥ v0 = norm2 v0 • (phiM l (dt • M) *ᵥ (R.Q *ᵥ firstUnit R.k)) := by
    rw [← Matrix.mulVec_smul, hst]
  rw [e1, ← smul_sub, norm2_smul, abs_of_nonneg (norm2_nonneg _)]
  refine mul_le_mul_of_nonneg_left ?_ (norm2_nonneg _)
  have e2 : R.Q *ᵥ e - phiM l (dt • M) *ᵥ (R.Q *ᵥ firstUnit R.k)
      = R.Q *ᵥ (e - phiM l R.H *ᵥ firstUnit R.k)
        - (phiM l (dt • M) *ᵥ (R.Q *ᵥ firstUnit R.k) - R.Q *ᵥ (phiM l R.H *ᵥ firstUnit R.k)) := by
    rw [Matrix.mulVec_sub]; abel
  rw [e2]
  refine (norm2_sub_le _ _).trans ?_
  have h1 : norm2 (R.Q *ᵥ (e - phiM l R.H *ᵥ firstUnit R.k)) ≤ Real.sqrt n * ε :=
    (unitCols_bound R.Q D.unit _).trans (mul_le_mul hsk hee (norm2_nonneg _) hs0)
  -- the truncation error with `k` columns is of order `σ^k`
  have htr : norm2 (phiM l (dt • M) *ᵥ (R.Q *ᵥ firstUnit R.k) - R.Q *ᵥ (phiM l R.H *ᵥ firstUnit R.k))
      ≤ (1 + Real.sqrt n) * (2 * Real.exp 1 * σ ^ R.k) := by
    have h := D.error ρ hρ hρM l
    rw [← hσ] at h
    have hf : (1 : ℝ) ≤ (Nat.factorial (R.k + l) : ℝ) := by exact_mod_cast Nat.one_le_iff_ne_zero.2 (Nat.factorial_ne_zero _)
    have hp1 : ρ ^ R.k ≤ σ ^ R.k := pow_le_pow_left₀ hρ hρσ _
    have hp0 : 0 ≤ σ ^ R.k := by positivity
    refine h.trans ((div_le_self (by positivity) hf).trans ?_)
    calc ρ ^ R.k * Real.exp ρ + Real.sqrt R.k * σ ^ R.k * Real.exp σ
        ≤ σ ^ R.k * Real.exp 1 + Real.sqrt n * σ ^ R.k * Real.exp 1 := by gcongr
      _ = (1 + Real.sqrt n) * (Real.exp 1 * σ ^ R.k) := by ring
      _ ≤ (1 + Real.sqrt n) * (2 * Real.exp 1 * σ ^ R.k) := by
          refine mul_le_mul_of_nonneg_left ?_ (by positivity)
          nlinarith [mul_nonneg hE.le hp0]
  have h2 : norm2 (phiM l (dt • M) *ᵥ (R.Q *ᵥ firstUnit R.k) - R.Q *ᵥ (phiM l R.H *ᵥ firstUnit R.k))
      ≤ (1 + Real.sqrt n) * (2 * Real.exp 1 * (min 1e-12 σ + σ ^ p)) := by
    have hpp : 0 ≤ σ ^ p := by positivity
    rcases Nat.lt_or_ge R.k (min n m) with hlt | hge
    · rcases le_total (1e-12 : ℝ) σ with h | h
      · have h3 := D.residual ρ 1e-12 hρ hρM (hr hlt) l
        rw [← hσ] at h3
        rw [min_eq_left h]
        calc _ ≤ 1e-12 * Real.exp σ := h3
          _ ≤ 1e-12 * Real.exp 1 := by gcongr
          _ ≤ 1 * (2 * Real.exp 1 * (1e-12 + σ ^ p)) := by nlinarith [mul_nonneg hE.le hpp]
          _ ≤ _ := by
            refine mul_le_mul_of_nonneg_right (by linarith) ?_
            positivity
      · rw [min_eq_right h]
        refine htr.trans (mul_le_mul_of_nonneg_left (mul_le_mul_of_nonneg_left ?_ (by positivity)) (by positivity))
        have : σ ^ R.k ≤ σ := pow_le_of_le_one hσ0 hσ1 (by omega)
        linarith
    · refine htr.trans (mul_le_mul_of_nonneg_left (mul_le_mul_of_nonneg_left ?_ (by positivity)) (by positivity))
      have : σ ^ R.k ≤ σ ^ p := pow_le_pow_of_le_one hσ0 hσ1 (by omega)
      linarith
  have h3 : Real.sqrt n * ε ≤ (1 + Real.sqrt n) * ε := mul_le_mul_of_nonneg_right (by linarith) hε
  rw [mul_add]
  linarith

/-- The constant of the Krylov kernel of depth `iom`. -/
noncomputable def krylovConstIom (n : ℕ) (R : ℝ) (iom : ℕ) : ℝ := (1 + Real.sqrt n) * krylovConst n (Real.sqrt (iom + 2) * R)

theorem krylovConstIom_nonneg {R : ℝ} (hR : 0 ≤ R) (iom : ℕ) : 0 ≤ krylovConstIom n R iom := by
  unfold krylovConstIom
  have := krylovConst_nonneg (n := n) (mul_nonneg (Real.sqrt_nonneg ((iom : ℝ) + 2)) hR)
  positivity

/-- `phi_linop` of the package with any depth: weighted error `O(dt^p + min(1e-12, dt))`. -/
theorem realKernels_linop_iom (expm : ∀ m, Mat m → Mat m) (tab : Pfd) (rs : Mat n → ℝ → Vec n → ℕ → Vec n) (maxDim iom : ℕ)
    {dt R0 : ℝ} (h0 : 0 < dt) (h1 : dt ≤ 1) (hR0 : 0 ≤ R0) (hsmall : Real.sqrt n * (Real.sqrt (iom + 2) * R0) * dt ≤ 1) (p kmax : ℕ)
    (hp : 1 ≤ p) (hpm : p ≤ min n maxDim) (hkmax : kmax ≤ 3) (hp4 : p ≤ 4) (hp3 : kmax = 3 → p ≤ 3) :
    ApproxLinop (realKernels n expm tab rs maxDim iom) dt R0 (krylovConstIom n R0 iom * (dt ^ p + min 1e-12 dt)) kmax := by
  intro A M hA hM c c0 c1 v k hk1 hk
  set s := Real.sqrt n with hs
  have hs0 : 0 ≤ s := Real.sqrt_nonneg _
  set R := Real.sqrt (iom + 2) * R0 with hR
  have hRn : 0 ≤ R := by positivity
  set ρ := s * R * dt with hρ
  have hρ0 : 0 ≤ ρ := by positivity
  have hρM : ∀ x, norm2 (((c * dt) • M) *ᵥ x) ≤ s * R0 * dt * norm2 x := fun x => by
    refine (norm2_mulVec_le _ x).trans (mul_le_mul_of_nonneg_right ?_ (norm2_nonneg x))
    rw [norm_smul, Real.norm_of_nonneg (by positivity)]
    calc s * (c * dt * ‖M‖) ≤ s * (1 * dt * R0) := by gcongr
      _ = s * R0 * dt := by ring
  set G := n * (s * R) + 1 with hG
  have hG1 : 1 ≤ G := by rw [hG]; have : 0 ≤ n * (s * R) := by positivity
                         linarith
  have hGe : n * ρ + dt = G * dt := by rw [hG, hρ]; ring
  set DC := s * (G ^ 5 * Real.exp G / 120) with hDC
  have hDC0 : 0 ≤ DC := by positivity
  obtain ⟨l, rfl⟩ : ∃ l, k = l + 1 := ⟨k - 1, by omega⟩
  have hdense : ∀ q (H : Mat q), q ≤ n → q ≤ maxDim → (∀ x, norm2 (H *ᵥ x) ≤ ρ * norm2 x) →
      ∃ e, applCode expm q H (firstUnit q) (l + 1) = .ok e ∧ norm2 (e - phiM (l + 1) H *ᵥ firstUnit q) ≤ DC * dt ^ 5 / dt ^ (l + 1) := by
    intro q H hq _ hH
    obtain ⟨e, he, hee⟩ := applCode_scaled expm ρ dt hρ0 h0 l n q hq H hH
    refine ⟨e, he, ?_⟩
    rw [le_div_iff₀ (by positivity), mul_comm]
    refine hee.trans ?_
    rw [hGe, ← hs]
    have : Real.exp (G * dt) ≤ Real.exp G := Real.exp_le_exp.2 (by nlinarith)
    calc s * ((G * dt) ^ 5 * Real.exp (G * dt) / 120) ≤ s * ((G * dt) ^ 5 * Real.exp G / 120) := by gcongr
      _ = DC * dt ^ 5 := by rw [hDC]; ring
  obtain ⟨w, hw, he⟩ := phiLinop_trunc_iom (applCode expm) A M hA (c * dt) v (l + 1) maxDim iom p hp hpm _ (s * R0 * dt) ρ (by positivity)
    (by rw [hρ, hR]; ring) hsmall hρM hdense
  refine ⟨w, hw, ?_⟩
  have hw0 := stepWeight_nonneg h0.le (l + 1)
  have hw1 := stepWeight_le_one h1 (l + 1)
  have e1 : ‖w - phiM (l + 1) ((c * dt) • M) *ᵥ v‖
      ≤ s * ‖v‖ * ((1 + s) * (2 * Real.exp 1 * (min 1e-12 ρ + ρ ^ p) + DC * dt ^ 5 / dt ^ (l + 1))) := by
    refine (norm_le_norm2 _).trans (he.trans (mul_le_mul_of_nonneg_right (norm2_le_norm v) ?_))
    have : 0 ≤ min (1e-12 : ℝ) ρ := le_min (by norm_num) hρ0
    positivity
  -- the weighted error of the dense kernel
  have e2 : stepWeight dt (l + 1) * (DC * dt ^ 5 / dt ^ (l + 1)) ≤ DC * dt ^ p := by
    have hq : stepWeight dt (l + 1) * (dt ^ 5 / dt ^ (l + 1)) ≤ dt ^ p := by
      obtain rfl | rfl | rfl : l = 0 ∨ l = 1 ∨ l = 2 := by omega
      · have : stepWeight dt (0 + 1) * (dt ^ 5 / dt ^ (0 + 1)) = dt ^ 4 := by
          rw [show stepWeight dt (0 + 1) = 1 from if_pos (by norm_num), one_mul, div_eq_iff (by positivity)]; ring
        rw [this]; exact pow_le_pow_of_le_one h0.le h1 hp4
      · have : stepWeight dt (1 + 1) * (dt ^ 5 / dt ^ (1 + 1)) = dt ^ 4 := by
          rw [show stepWeight dt (1 + 1) = dt from if_neg (by norm_num), ← mul_div_assoc, div_eq_iff (by positivity)]; ring
        rw [this]; exact pow_le_pow_of_le_one h0.le h1 hp4
      · have : stepWeight dt (2 + 1) * (dt ^ 5 / dt ^ (2 + 1)) = dt ^ 3 := by
          rw [show stepWeight dt (2 + 1) = dt from if_neg (by norm_num), ← mul_div_assoc, div_eq_iff (by positivity)]; ring
        rw [this]; exact pow_le_pow_of_le_one h0.le h1 (hp3 (by omega))
    calc stepWeight dt (l + 1) * (DC * dt ^ 5 / dt ^ (l + 1)) = DC * (stepWeight dt (l + 1) * (dt ^ 5 / dt ^ (l + 1))) := by ring
      _ ≤ DC * dt ^ p := mul_le_mul_of_nonneg_left hq hDC0
  -- truncation
  have hsR : 0 ≤ s * R := by positivity
  have e3 : min 1e-12 ρ + ρ ^ p ≤ (s * R + 1) ^ 4 * (dt ^ p + min 1e-12 dt) := by
    have a2 : ρ ^ p ≤ (s * R + 1) ^ 4 * dt ^ p := by
      rw [hρ, mul_pow]
      refine mul_le_mul_of_nonneg_right ?_ (by positivity)
      calc (s * R) ^ p ≤ (s * R + 1) ^ p := by gcongr; linarith
        _ ≤ (s * R + 1) ^ 4 := pow_le_pow_right₀ (by linarith) hp4
    have a3 : min 1e-12 ρ ≤ (s * R + 1) ^ 4 * min 1e-12 dt := by
      have b1 : (1 : ℝ) ≤ (s * R + 1) ^ 4 := one_le_pow₀ (by linarith)
      have b2 : s * R ≤ (s * R + 1) ^ 4 := le_trans (by linarith) (le_self_pow₀ (by linarith : 1 ≤ s * R + 1) (by norm_num : (4 : ℕ) ≠ 0))
      rcases le_total (1e-12 : ℝ) dt with h | h
      · rw [min_eq_left h]
        refine (min_le_left _ _).trans ?_
        nlinarith
      · rw [min_eq_right h]
        exact (min_le_right _ _).trans (mul_le_mul_of_nonneg_right b2 h0.le)
    linarith
  have hmin0 : 0 ≤ min (1e-12 : ℝ) dt := le_min (by norm_num) h0.le
  calc stepWeight dt (l + 1) * ‖w - phiM (l + 1) ((c * dt) • M) *ᵥ v‖
      ≤ stepWeight dt (l + 1) * (s * ‖v‖ * ((1 + s) * (2 * Real.exp 1 * (min 1e-12 ρ + ρ ^ p) + DC * dt ^ 5 / dt ^ (l + 1)))) :=
        mul_le_mul_of_nonneg_left e1 hw0
    _ = (1 + s) * (s * ‖v‖) * (stepWeight dt (l + 1) * (2 * Real.exp 1 * (min 1e-12 ρ + ρ ^ p)) + stepWeight dt (l + 1) * (DC * dt ^ 5 / dt ^ (l + 1))) := by
        ring
    _ ≤ (1 + s) * (s * ‖v‖) * (2 * Real.exp 1 * ((s * R + 1) ^ 4 * (dt ^ p + min 1e-12 dt)) + DC * (dt ^ p + min 1e-12 dt)) := by
        refine mul_le_mul_of_nonneg_left (add_le_add ?_ (e2.trans ?_)) (by positivity)
        · have h3 : 0 ≤ 2 * Real.exp 1 * (min 1e-12 ρ + ρ ^ p) := by
            have : 0 ≤ min (1e-12 : ℝ) ρ := le_min (by norm_num) hρ0
            positivity
          exact (mul_le_of_le_one_left h3 hw1).trans (mul_le_mul_of_nonneg_left e3 (by positivity))
        · exact mul_le_mul_of_nonneg_left (by linarith) hDC0
    _ = krylovConstIom n R0 iom * (dt ^ p + min 1e-12 dt) * ‖v‖ := by
        unfold krylovConstIom krylovConst
        rw [← hs, ← hR, ← hG, ← hDC]
        ring

theorem realKernels_krylov_iom (m : String) (p : ℕ)
    (hm : (m, p) ∈ [("exprb2", 2), ("exprb3", 3), ("exp1", 1), ("exp2", 2), ("exp3", 3)])
    (expm : ∀ m, Mat m → Mat m) (tab : Pfd) (rs : Mat n → ℝ → Vec n → ℕ → Vec n) (maxDim iom : ℕ) (hpm : p ≤ min n maxDim)
    {dt R R' : ℝ} (h0 : 0 < dt) (h1 : dt ≤ 1) (hR' : 0 ≤ R') (hRR : R ≤ R')
    (hsmall : Real.sqrt n * (Real.sqrt (iom + 2) * R') * dt ≤ 1) :
    ApproxFor m (realKernels n expm tab rs maxDim iom) dt R (krylovConstIom n R' iom * (dt ^ p + min 1e-12 dt)) := by
  have up : ∀ {κ kmax}, ApproxLinop (realKernels n expm tab rs maxDim iom) dt R' κ kmax →
      ApproxLinop (realKernels n expm tab rs maxDim iom) dt R κ kmax := fun h A M hA hM => h A M hA (hM.trans hRR)
  simp only [List.mem_cons, List.not_mem_nil, or_false, Prod.mk.injEq] at hm
  rcases hm with ⟨rfl, rfl⟩ | ⟨rfl, rfl⟩ | ⟨rfl, rfl⟩ | ⟨rfl, rfl⟩ | ⟨rfl, rfl⟩
  · exact ⟨fun _ => up (realKernels_linop_iom expm tab rs maxDim iom h0 h1 hR' hsmall 2 2 (by omega) hpm (by omega) (by omega) (by omega)),
      fun h => absurd h (by decide), fun h => absurd h (by decide), fun h => absurd h (by decide), fun h => absurd h (by decide)⟩
  · exact ⟨fun _ => up (realKernels_linop_iom expm tab rs maxDim iom h0 h1 hR' hsmall 3 3 (by omega) hpm (by omega) (by omega) (by omega)),
      fun h => absurd h (by decide), fun h => absurd h (by decide), fun h => absurd h (by decide), fun h => absurd h (by decide)⟩
  · exact ⟨fun _ => up (realKernels_linop_iom expm tab rs maxDim iom h0 h1 hR' hsmall 1 2 (by omega) hpm (by omega) (by omega) (by omega)),
      fun h => absurd h (by decide), fun h => absurd h (by decide), fun h => absurd h (by decide), fun h => absurd h (by decide)⟩
  · exact ⟨fun _ => up (realKernels_linop_iom expm tab rs maxDim iom h0 h1 hR' hsmall 2 2 (by omega) hpm (by omega) (by omega) (by omega)),
      fun h => absurd h (by decide), fun h => absurd h (by decide), fun h => absurd h (by decide), fun h => absurd h (by decide)⟩
  · exact ⟨fun _ => up (realKernels_linop_iom expm tab rs maxDim iom h0 h1 hR' hsmall 3 2 (by omega) hpm (by omega) (by omega) (by omega)),
      fun h => absurd h (by decide), fun h => absurd h (by decide), fun h => absurd h (by decide), fun h => absurd h (by decide)⟩

/-- thresholds and constants for a kernel error `D (dt^p + min(1e-12, dt))` -/
theorem iom_to_step (p : ℕ) (hp1 : 1 ≤ p) (C δ D S : ℝ) (hC : 0 ≤ C) (hδ : 0 < δ) (hD0 : 0 ≤ D) (hS0 : 0 ≤ S) :
    ∃ C' δ' : ℝ, 0 ≤ C' ∧ 0 < δ' ∧ δ' ≤ δ ∧ δ' ≤ 1 ∧ ∀ dt ε, 0 < dt → dt ≤ δ' → 0 ≤ ε →
      S * dt ≤ 1 ∧ 0 ≤ D * (dt ^ p + min 1e-12 dt) ∧ D * (dt ^ p + min 1e-12 dt) ≤ δ ∧
      C * (dt ^ p + ε + D * (dt ^ p + min 1e-12 dt)) ≤ C' * (dt ^ p + ε + min 1e-12 dt) := by
  refine ⟨C * (D + 1), min (min δ 1) (min (δ / (2 * D + 1)) (1 / (S + 1))), by positivity, by positivity,
    (min_le_left _ _).trans (min_le_left _ _), (min_le_left _ _).trans (min_le_right _ _), ?_⟩
  intro dt ε h1 h2 h3
  have hd1 : dt ≤ 1 := h2.trans ((min_le_left _ _).trans (min_le_right _ _))
  have hdD : dt ≤ δ / (2 * D + 1) := h2.trans ((min_le_right _ _).trans (min_le_left _ _))
  have hdS : dt ≤ 1 / (S + 1) := h2.trans ((min_le_right _ _).trans (min_le_right _ _))
  have hmin0 : 0 ≤ min (1e-12 : ℝ) dt := le_min (by norm_num) h1.le
  have hmin1 : min (1e-12 : ℝ) dt ≤ dt := min_le_right _ _
  have hpd : dt ^ p ≤ dt := pow_le_of_le_one h1.le hd1 (by omega)
  have hp0 : 0 ≤ dt ^ p := by positivity
  refine ⟨?_, by positivity, ?_, ?_⟩
  · rw [le_div_iff₀ (by positivity)] at hdS
    nlinarith
  · rw [le_div_iff₀ (by positivity)] at hdD
    nlinarith [mul_le_mul_of_nonneg_left (add_le_add hpd hmin1) hD0]
  · rw [mul_assoc]
    refine mul_le_mul_of_nonneg_left ?_ hC
    nlinarith [mul_nonneg hD0 h3]

/-- **C105, Rosenbrock methods with incomplete orthogonalisation.**  As `C105_rosenbrock`, for any depth `iom` (the constants depend on
it) and every Krylov dimension: it is enough that at least `p` vectors are built. -/
theorem C105_rosenbrock_iom (hasRust : Bool) (sys : OdeSys n P) (hj : ExactJacs sys)
    (m : String) (p : ℕ) (hm : (m, p) ∈ [("exprb2", 2), ("exprb3", 3)]) (Y : ℝ → Vec n) (t0 T : ℝ)
    (hY : ∀ t ∈ Set.Icc t0 T, SmoothIVP (sys.frhs none) (p + 2) t Y) (iom : ℕ) :
    ∃ C δ : ℝ, 0 ≤ C ∧ 0 < δ ∧ ∀ (expm : ∀ m, Mat m → Mat m) (tab : Pfd) (rs : Mat n → ℝ → Vec n → ℕ → Vec n) (maxDim : ℕ)
      (dt ε tol : ℝ) (nsteps : ℕ) (s : ExpRB n), p ≤ min n maxDim → 0 < dt → dt ≤ δ → 0 ≤ ε → ε ≤ δ →
      t0 + nsteps * dt ≤ T → ExpRB.new hasRust t0 (Y t0) m tol = .ok s →
      ((0 ≤ tol ∧ tol ≤ ε) ∨ (∀ kw t y, (sys.fjac kw t y).fdt = 0) ∨ m ∈ alwaysCorrected) →
      ∀ {Q W : Type} (before : Option (W → ℝ → Vec n → P × W)) (after : Option (W → ℝ → Vec n → Q × W)) (w : W),
      ∃ l, integrateOrmatex (rbStepper hasRust (realKernels n expm tab rs maxDim iom) sys) s (Y t0) t0 dt nsteps before after w = .ok l ∧
        RunAccurate l t0 dt nsteps Y (C * (dt ^ p + ε + min 1e-12 dt)) := by
  have hm' : (m, p) ∈ rbOrders := by
    simp only [List.mem_cons, List.not_mem_nil, or_false, Prod.mk.injEq] at hm
    rcases hm with ⟨rfl, rfl⟩ | ⟨rfl, rfl⟩ <;> simp [rbOrders]
  have hm2 : (m, p) ∈ [("exprb2", 2), ("exprb3", 3), ("exp1", 1), ("exp2", 2), ("exp3", 3)] := by
    simp only [List.mem_cons] at hm ⊢; tauto
  have hp1 : 1 ≤ p := by
    simp only [List.mem_cons, List.not_mem_nil, or_false, Prod.mk.injEq] at hm
    omega
  obtain ⟨C, δ, R, hC, hδ, h⟩ := C103_rosenbrock hasRust sys hj m p hm' Y t0 T hY
  have hR0 : 0 ≤ max R 0 := le_max_right _ _
  obtain ⟨C', δ', hC', hδ', hle, hle1, hst⟩ := iom_to_step p hp1 C δ (krylovConstIom n (max R 0) iom)
    (Real.sqrt n * (Real.sqrt (iom + 2) * max R 0)) hC hδ (krylovConstIom_nonneg hR0 iom) (by positivity)
  refine ⟨C', δ', hC', hδ', ?_⟩
  intro expm tab rs maxDim dt ε tol N s hpm h1 h2 h3 h4 h5 h6 h7 Q W before after w
  obtain ⟨s1, s2, s3, s4⟩ := hst dt ε h1 h2 h3
  obtain ⟨l, hl, hacc⟩ := h _ dt ε _ tol N s h1 (h2.trans hle) h3 (h4.trans hle) s2 s3
    (realKernels_krylov_iom m p hm2 expm tab rs maxDim iom hpm h1 (h2.trans hle1) hR0 (le_max_left _ _) s1) h5 h6 h7 before after w
  exact ⟨l, hl, hacc.1, hacc.2.1, fun i y hi => (hacc.2.2 i y hi).trans s4⟩

/-- **C105, splitting methods with incomplete orthogonalisation.** -/
theorem C105_split_iom (sys : OdeSys n P) (lop : LinOp n) (hl : ∀ t y, sys.fl t y = lop)
    (L : Mat n) (hd : lop.dense = .ok L) (hL : IsMatrix lop L)
    (m : String) (p : ℕ) (hm : (m, p) ∈ [("exp1", 1), ("exp2", 2), ("exp3", 3)]) (Y : ℝ → Vec n) (t0 T : ℝ)
    (hY : ∀ t ∈ Set.Icc t0 T, SmoothIVP (sys.frhs none) (p + 1) t Y) (iom : ℕ) :
    ∃ C δ : ℝ, 0 ≤ C ∧ 0 < δ ∧ ∀ (expm : ∀ m, Mat m → Mat m) (tab : Pfd) (rs : Mat n → ℝ → Vec n → ℕ → Vec n) (maxDim : ℕ)
      (dt : ℝ) (nsteps : ℕ) (s : ExpSplit n), p ≤ min n maxDim → 0 < dt → dt ≤ δ →
      t0 + nsteps * dt ≤ T → ExpSplit.new t0 (Y t0) m = .ok s →
      ∀ {Q W : Type} (before : Option (W → ℝ → Vec n → P × W)) (after : Option (W → ℝ → Vec n → Q × W)) (w : W),
      ∃ l, integrateOrmatex (splitStepper (realKernels n expm tab rs maxDim iom) sys) s (Y t0) t0 dt nsteps before after w = .ok l ∧
        RunAccurate l t0 dt nsteps Y (C * (dt ^ p + min 1e-12 dt)) := by
  have hm' : (m, p) ∈ splitOrders := by
    simp only [List.mem_cons, List.not_mem_nil, or_false, Prod.mk.injEq] at hm
    rcases hm with ⟨rfl, rfl⟩ | ⟨rfl, rfl⟩ | ⟨rfl, rfl⟩ <;> simp [splitOrders]
  have hm2 : (m, p) ∈ [("exprb2", 2), ("exprb3", 3), ("exp1", 1), ("exp2", 2), ("exp3", 3)] := by
    simp only [List.mem_cons] at hm ⊢; tauto
  have hp1 : 1 ≤ p := by
    simp only [List.mem_cons, List.not_mem_nil, or_false, Prod.mk.injEq] at hm
    omega
  obtain ⟨C, δ, hC, hδ, h⟩ := C103_split sys lop hl L hd hL m p hm' Y t0 T hY
  have hR0 : 0 ≤ ‖L‖ := norm_nonneg _
  obtain ⟨C', δ', hC', hδ', hle, hle1, hst⟩ := iom_to_step p hp1 C δ (krylovConstIom n ‖L‖ iom)
    (Real.sqrt n * (Real.sqrt (iom + 2) * ‖L‖)) hC hδ (krylovConstIom_nonneg hR0 iom) (by positivity)
  refine ⟨C', δ', hC', hδ', ?_⟩
  intro expm tab rs maxDim dt N s hpm h1 h2 h5 h6 Q W before after w
  obtain ⟨s1, s2, s3, s4⟩ := hst dt 0 h1 h2 le_rfl
  simp only [add_zero] at s4
  obtain ⟨l, hl, hacc⟩ := h _ dt _ N s h1 (h2.trans hle) s2 s3
    (realKernels_krylov_iom m p hm2 expm tab rs maxDim iom hpm h1 (h2.trans hle1) hR0 le_rfl s1) h5 h6 before after w
  exact ⟨l, hl, hacc.1, hacc.2.1, fun i y hi => (hacc.2.2 i y hi).trans s4⟩

/-- `exprb2` with depth 0 (every new vector is orthogonalised against the last one only) on the demonstration system. -/
example (expm : ∀ m, Mat m → Mat m) (tab : Pfd) (rs : Mat 2 → ℝ → Vec 2 → ℕ → Vec 2) :
    ∃ C δ : ℝ, 0 ≤ C ∧ 0 < δ ∧ ∀ (dt : ℝ) (nsteps : ℕ) (s : ExpRB 2), 0 < dt → dt ≤ δ → 0 + nsteps * dt ≤ 1 / 2 →
    ExpRB.new false 0 (demoY 0) "exprb2" 0 = .ok s →
    ∃ l, integrateOrmatex (rbStepper false (realKernels 2 expm tab rs 200 0) (OdeSys.ofFrhs demoF (fun _ _ => matrixLinOp 1))) s (demoY 0) 0 dt nsteps
        (none : Option (Unit → ℝ → Vec 2 → List ℕ × Unit)) (none : Option (Unit → ℝ → Vec 2 → Unit × Unit)) () = .ok l ∧
      RunAccurate l 0 dt nsteps demoY (C * (dt ^ 2 + min 1e-12 dt)) := by
  obtain ⟨C, δ, hC, hδ, h⟩ := C105_rosenbrock_iom false (OdeSys.ofFrhs demoF (fun _ _ => matrixLinOp 1))
    (exactJacs_autodiff demoF (fun _ => rfl) _) "exprb2" 2 (by simp) demoY 0 (1 / 2)
    (fun t ht => demo_smooth_at _ t (by linarith [ht.2])) 0
  refine ⟨C, δ, hC, hδ, fun dt N s h1 h2 h3 h4 => ?_⟩
  have := h expm tab rs 200 dt 0 0 N s (by norm_num) h1 h2 le_rfl hδ.le h3 h4 (Or.inl ⟨le_rfl, le_rfl⟩)
    (none : Option (Unit → ℝ → Vec 2 → List ℕ × Unit)) (none : Option (Unit → ℝ → Vec 2 → Unit × Unit)) ()
  rw [add_zero] at this
  exact this

end
end Ormatex.Props
