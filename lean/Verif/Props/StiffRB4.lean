import Verif.Props.StiffRB3

/-!
C136: fourth order of `pexprb4` on stiff nonlinear systems, uniform in the stiffness.
-/

namespace Ormatex.Props
open Matrix Ormatex.Spec Ormatex.Rs

section
variable {n : ℕ} {P : Type} [EmptyCollection P]
variable {f : ℝ → Vec n → Vec n} {J : ℝ → Vec n → Mat n} {d : ℝ → Vec n → Vec n} {Y C E : ℝ → Vec n} {t0 B l l2 κ μ M2 M4 : ℝ}

/-- the curve with a cubic source -/
noncomputable def phiCurve4 (L : Mat n) (a v w z q : Vec n) (s : ℝ) : Vec n :=
  phiCurve3 L a v w z s + (s ^ (3 + 1) • phiM (3 + 1) (s • L)) *ᵥ q

theorem phiCurve4_deriv (L : Mat n) (a v w z q : Vec n) (s : ℝ) :
    HasDerivAt (phiCurve4 L a v w z q) (L *ᵥ phiCurve4 L a v w z q s + (v + s • w + (s ^ 2 / 2) • z + (s ^ 3 / 6) • q)) s := by
  have h3 := hasDerivAt_mulVec_const (hasDerivAt_phiM_succ 3 L s) q
  refine ((phiCurve3_deriv L a v w z s).add h3).congr_deriv ?_
  have r2 : phiM 3 (s • L) = (s • L) * phiM (3 + 1) (s • L) + (1 / 6 : ℝ) • 1 := by
    rw [phiM_recurrence 3 (s • L)]; norm_num [Nat.factorial]
  have e3 : (s ^ 3 • phiM 3 (s • L)) *ᵥ q = L *ᵥ ((s ^ (3 + 1) • phiM (3 + 1) (s • L)) *ᵥ q) + (s ^ 3 / 6) • q := by
    conv_lhs => rw [r2]
    rw [smul_add, add_mulVec, smul_smul, smul_mulVec _ 1, one_mulVec, mulVec_mulVec, smul_mul_assoc, mul_smul_comm, smul_smul,
      show s ^ (3 + 1) = s ^ 3 * s by ring, show s ^ 3 * (1 / 6) = s ^ 3 / 6 by ring]
  rw [e3, phiCurve4, mulVec_add]
  abel

theorem phiCurve4_zero (L : Mat n) (a v w z q : Vec n) : phiCurve4 L a v w z q 0 = a := by
  rw [phiCurve4, phiCurve3_zero]; simp

/-- the remainder of the linearization at the computed state, seen along the exact solution -/
noncomputable def linRem (f : ℝ → Vec n → Vec n) (A : Mat n) (t : ℝ) (x e : Vec n) (s : ℝ) (y : Vec n) : Vec n :=
  f (t + s) y - f t x - A *ᵥ (y - x) - s • e

theorem linRem_err (hp : StiffNonlinear f J d Y t0 B l κ μ M2) {t : ℝ} (ht : t0 ≤ t) {h : ℝ} (hh : 0 ≤ h) (x e : Vec n) {τ : ℝ}
    (he : norm2 (d t x - e) ≤ τ) {s : ℝ} (hs : 0 ≤ s) (hsh : s ≤ h) :
    norm2 (linRem f (J t x) t x e s (Y (t + s)) - linRem f (J t (Y t)) t (Y t) (d t (Y t)) s (Y (t + s))) ≤
      norm2 (x - Y t) * (κ * B * h + l + h * μ) + h * τ := by
  obtain ⟨hB, hl, hκ, hμ, hM⟩ := hp.nonneg
  obtain ⟨ε, hε⟩ : ∃ ε, ε = norm2 (x - Y t) := ⟨_, rfl⟩
  have hε0 : 0 ≤ ε := by rw [hε]; exact norm2_nonneg _
  have e1 : linRem f (J t x) t x e s (Y (t + s)) - linRem f (J t (Y t)) t (Y t) (d t (Y t)) s (Y (t + s)) =
      -((J t x - J t (Y t)) *ᵥ (Y (t + s) - Y t)) - (f t x - f t (Y t) - J t x *ᵥ (x - Y t)) - s • (d t x - d t (Y t)) + s • (d t x - e) := by
    unfold linRem
    rw [sub_mulVec, mulVec_sub, mulVec_sub, mulVec_sub, mulVec_sub, smul_sub, smul_sub]
    abel
  rw [e1]
  have a0 := norm2_add_le (-((J t x - J t (Y t)) *ᵥ (Y (t + s) - Y t)) - (f t x - f t (Y t) - J t x *ᵥ (x - Y t)) - s • (d t x - d t (Y t))) (s • (d t x - e))
  have a1 := norm2_sub_le (-((J t x - J t (Y t)) *ᵥ (Y (t + s) - Y t)) - (f t x - f t (Y t) - J t x *ᵥ (x - Y t))) (s • (d t x - d t (Y t)))
  have a2 := norm2_sub_le (-((J t x - J t (Y t)) *ᵥ (Y (t + s) - Y t))) (f t x - f t (Y t) - J t x *ᵥ (x - Y t))
  rw [norm2_smul, abs_of_nonneg hs] at a0 a1
  rw [norm2_neg] at a2
  have b2 := hp.jac t x (Y (t + s) - Y t) ht
  have b3 := hp.speed t s ht hs
  have b4 := hp.lip t x ht
  have b5 := hp.time t x ht
  rw [← hε] at b2 b4 b5
  rw [← hε]
  have c2 : κ * ε * norm2 (Y (t + s) - Y t) ≤ κ * ε * (B * h) :=
    mul_le_mul_of_nonneg_left (b3.trans (mul_le_mul_of_nonneg_left hsh hB)) (mul_nonneg hκ hε0)
  have c3 : s * norm2 (d t x - d t (Y t)) ≤ h * (μ * ε) := mul_le_mul hsh b5 (norm2_nonneg _) hh
  have c4 : s * norm2 (d t x - e) ≤ h * τ := mul_le_mul hsh he (norm2_nonneg _) hh
  linarith

/-- the contribution of a stage value `U` at `t + s` -/
theorem stage_err (hc : StiffQuartic f J d Y C E t0 l l2 M4) {t : ℝ} (ht : t0 ≤ t) {h s : ℝ} (hs : 0 ≤ s) (hsh : s ≤ h) (x e U : Vec n) {q D : ℝ}
    (hq : 1 ≤ q) (hD : 0 ≤ D) (hU : norm2 (U - Y (t + s)) ≤ q * norm2 (x - Y t) + D) :
    norm2 (linRem f (J t x) t x e s U - linRem f (J t x) t x e s (Y (t + s))) ≤ 2 * l * q * norm2 (x - Y t) + 2 * l2 * D * (h + 3 * D) := by
  obtain ⟨hl, hl2, hM4⟩ := hc.nonneg
  have e1 : linRem f (J t x) t x e s U - linRem f (J t x) t x e s (Y (t + s)) = f (t + s) U - f (t + s) (Y (t + s)) - J t x *ᵥ (U - Y (t + s)) := by
    unfold linRem
    rw [mulVec_sub, mulVec_sub, mulVec_sub]
    abel
  rw [e1]
  have h1 := hc.frozen t s U x ht hs
  have h2 := hc.near t s U x ht hs
  obtain ⟨ε, hε⟩ : ∃ ε, ε = norm2 (x - Y t) := ⟨_, rfl⟩
  obtain ⟨a, ha⟩ : ∃ a, a = norm2 (U - Y (t + s)) := ⟨_, rfl⟩
  have hε0 : 0 ≤ ε := by rw [hε]; exact norm2_nonneg _
  have ha0 : 0 ≤ a := by rw [ha]; exact norm2_nonneg _
  rw [← ha, ← hε] at hU
  rw [← ha] at h1
  rw [← ha, ← hε] at h2
  rw [← hε]
  have hh : 0 ≤ h := hs.trans hsh
  by_cases hb : D ≤ q * ε
  · have h3 := mul_le_mul_of_nonneg_left (show a ≤ 2 * (q * ε) by linarith) hl
    have h4 : 0 ≤ 2 * l2 * D * (h + 3 * D) := by positivity
    have h5 : l * (2 * (q * ε)) = 2 * l * q * ε := by ring
    linarith
  · have h3 : a ≤ 2 * D := by linarith [not_le.1 hb]
    have h4 : ε ≤ D := by
      have := le_mul_of_one_le_left hε0 hq
      linarith [not_le.1 hb]
    have h5 : l2 * (s + ε + a) * a ≤ l2 * (h + D + 2 * D) * (2 * D) := by gcongr
    have h6 : 0 ≤ 2 * l * q * ε := by positivity
    have h7 : l2 * (h + D + 2 * D) * (2 * D) = 2 * l2 * D * (h + 3 * D) := by ring
    linarith

/-- the `pexprb4` update -/
noncomputable def rb4Update (f : ℝ → Vec n → Vec n) (A : Mat n) (t : ℝ) (x e : Vec n) (h : ℝ) : Vec n :=
  rosEuler A x (f t x) e h 1 +
    (phiM 3 (h • A) *ᵥ (h • ((16 : ℝ) • linRem f A t x e (1 / 2 * h) (rosEuler A x (f t x) e h (1 / 2)) - (2 : ℝ) • linRem f A t x e h (rosEuler A x (f t x) e h 1)))
    + phiM 4 (h • A) *ᵥ (h • ((-48 : ℝ) • linRem f A t x e (1 / 2 * h) (rosEuler A x (f t x) e h (1 / 2)) + (12 : ℝ) • linRem f A t x e h (rosEuler A x (f t x) e h 1))))

theorem rb4_curve (A : Mat n) (x F e R2 R3 : Vec n) {h : ℝ} (hh : 0 < h) :
    rosEuler A x F e h 1 + (phiM 3 (h • A) *ᵥ (h • ((16 : ℝ) • R2 - (2 : ℝ) • R3)) + phiM 4 (h • A) *ᵥ (h • ((-48 : ℝ) • R2 + (12 : ℝ) • R3))) =
      phiCurve4 A x (F - A *ᵥ x) e ((1 / h ^ 2) • ((16 : ℝ) • R2 - (2 : ℝ) • R3)) ((1 / h ^ 3) • ((-48 : ℝ) • R2 + (12 : ℝ) • R3)) h := by
  have hne : h ≠ 0 := hh.ne'
  unfold phiCurve4 phiCurve3
  rw [← rosEuler_curve, smul_mulVec, smul_mulVec, mulVec_smul _ (1 / h ^ 2), mulVec_smul _ (1 / h ^ 3), smul_smul, smul_smul, mulVec_smul _ h, mulVec_smul _ h,
    show h ^ (2 + 1) * (1 / h ^ 2) = h by field_simp, show h ^ (3 + 1) * (1 / h ^ 3) = h by field_simp, add_assoc]

theorem half_stage (A : Mat n) (x F e : Vec n) (h : ℝ) : rosEuler A x F e h (1 / 2) = rosEuler A x F e (1 / 2 * h) 1 := by
  unfold rosEuler
  rw [one_mul, one_pow, one_mul, mul_pow]

theorem rb4_err (hp : StiffNonlinear f J d Y t0 B l κ μ M2) (hc : StiffQuartic f J d Y C E t0 l l2 M4) {t : ℝ} (ht : t0 ≤ t) {h : ℝ} (hh : 0 < h)
    (x e : Vec n) {τ : ℝ} (he : norm2 (d t x - e) ≤ τ) {g D : ℝ} (hg : g = l + (κ * B + μ) * h) (hD : D = M2 / 2 * h ^ 3 + τ * h ^ 2) :
    norm2 (rb4Update f (J t x) t x e h - Y (t + h)) ≤
      (1 + h * (20 * g + 38 * l * (1 + h * g))) * norm2 (x - Y t) + (20 * M4 * h ^ 5 + 38 * l2 * D * (h + 3 * D) * h + 20 * τ * h ^ 2) := by
  obtain ⟨hB, hl, hκ, hμ, hM⟩ := hp.nonneg
  obtain ⟨-, hl2, hM4⟩ := hc.nonneg
  obtain ⟨ε, hε⟩ : ∃ ε, ε = norm2 (x - Y t) := ⟨_, rfl⟩
  have hε0 : 0 ≤ ε := by rw [hε]; exact norm2_nonneg _
  have hτ : 0 ≤ τ := (norm2_nonneg _).trans he
  have hg0 : 0 ≤ g := by rw [hg]; positivity
  have hD0 : 0 ≤ D := by rw [hD]; positivity
  have hh2 : (0 : ℝ) ≤ 1 / 2 * h := by positivity
  have hh2h : 1 / 2 * h ≤ h := by linarith
  have hq : 1 ≤ 1 + h * g := by have := mul_nonneg hh.le hg0; linarith
  obtain ⟨U2, hU2⟩ : ∃ U, U = rosEuler (J t x) x (f t x) e h (1 / 2) := ⟨_, rfl⟩
  obtain ⟨U3, hU3⟩ : ∃ U, U = rosEuler (J t x) x (f t x) e h 1 := ⟨_, rfl⟩
  have u3 : norm2 (U3 - Y (t + h)) ≤ (1 + h * g) * ε + D := by
    have := rosEuler_err hp ht hh.le x e he
    rw [← hU3, ← hε, ← hg, ← hD] at this
    exact this
  have u2 : norm2 (U2 - Y (t + 1 / 2 * h)) ≤ (1 + h * g) * ε + D := by
    have := rosEuler_err hp ht hh2 x e he
    rw [← half_stage, ← hU2, ← hε] at this
    refine this.trans ?_
    rw [hg, hD]
    have k1 : (κ * B + μ) * (1 / 2 * h) ≤ (κ * B + μ) * h := mul_le_mul_of_nonneg_left hh2h (by positivity)
    have k2 : 1 / 2 * h * (l + (κ * B + μ) * (1 / 2 * h)) ≤ h * (l + (κ * B + μ) * h) :=
      mul_le_mul hh2h (by linarith) (by positivity) hh.le
    have k3 := mul_le_mul_of_nonneg_right k2 hε0
    have k4 : (1 / 2 * h) ^ 3 ≤ h ^ 3 := by gcongr
    have k5 : (1 / 2 * h) ^ 2 ≤ h ^ 2 := by gcongr
    have k6 := mul_le_mul_of_nonneg_left k4 (show 0 ≤ M2 / 2 by linarith)
    have k7 := mul_le_mul_of_nonneg_left k5 hτ
    linarith
  obtain ⟨G, hG⟩ : ∃ G, G = ε * (κ * B * h + l + h * μ) + h * τ := ⟨_, rfl⟩
  obtain ⟨T, hT⟩ : ∃ T, T = 2 * l * (1 + h * g) * ε + 2 * l2 * D * (h + 3 * D) := ⟨_, rfl⟩
  have s2 := stage_err hc ht hh2 hh2h x e U2 hq hD0 (by rw [← hε]; exact u2)
  have s3 := stage_err hc ht hh.le le_rfl x e U3 hq hD0 (by rw [← hε]; exact u3)
  rw [← hε, ← hT] at s2 s3
  have hRr := fun s (hs : 0 ≤ s) (hsh : s ≤ h) => linRem_err hp ht hh.le x e he hs hsh
  simp only [← hε, ← hG] at hRr
  obtain ⟨r, hr⟩ : ∃ r : ℝ → Vec n, r = fun s => linRem f (J t (Y t)) t (Y t) (d t (Y t)) s (Y (t + s)) := ⟨_, rfl⟩
  obtain ⟨R, hR⟩ : ∃ R : ℝ → Vec n, R = fun s => linRem f (J t x) t x e s (Y (t + s)) := ⟨_, rfl⟩
  obtain ⟨R2, hR2⟩ : ∃ R2, R2 = linRem f (J t x) t x e (1 / 2 * h) U2 := ⟨_, rfl⟩
  obtain ⟨R3, hR3⟩ : ∃ R3, R3 = linRem f (J t x) t x e h U3 := ⟨_, rfl⟩
  have hRr' : ∀ s, 0 ≤ s → s ≤ h → norm2 (R s - r s) ≤ G := fun s hs hsh => by rw [hR, hr]; exact hRr s hs hsh
  have s2' : norm2 (R2 - R (1 / 2 * h)) ≤ T := by rw [hR2, hR]; exact s2
  have s3' : norm2 (R3 - R h) ≤ T := by rw [hR3, hR]; exact s3
  have hrq : ∀ s, 0 ≤ s → s ≤ h → norm2 (r s - s ^ 2 • C t - s ^ 3 • E t) ≤ M4 * h ^ 4 := by
    intro s hs hsh
    rw [hr]
    refine (hc.quartic t s ht hs).trans (mul_le_mul_of_nonneg_left ?_ hM4)
    gcongr
  have d2 : norm2 (R2 - ((1 / 2 * h) ^ 2 • C t + (1 / 2 * h) ^ 3 • E t)) ≤ T + G + M4 * h ^ 4 := by
    have e1 : R2 - ((1 / 2 * h) ^ 2 • C t + (1 / 2 * h) ^ 3 • E t) = (R2 - R (1 / 2 * h)) + (R (1 / 2 * h) - r (1 / 2 * h)) +
      (r (1 / 2 * h) - (1 / 2 * h) ^ 2 • C t - (1 / 2 * h) ^ 3 • E t) := by abel
    rw [e1]
    have a1 := norm2_add_le ((R2 - R (1 / 2 * h)) + (R (1 / 2 * h) - r (1 / 2 * h))) (r (1 / 2 * h) - (1 / 2 * h) ^ 2 • C t - (1 / 2 * h) ^ 3 • E t)
    have a2 := norm2_add_le (R2 - R (1 / 2 * h)) (R (1 / 2 * h) - r (1 / 2 * h))
    have := hRr' _ hh2 hh2h
    have := hrq _ hh2 hh2h
    linarith
  have d3 : norm2 (R3 - (h ^ 2 • C t + h ^ 3 • E t)) ≤ T + G + M4 * h ^ 4 := by
    have e1 : R3 - (h ^ 2 • C t + h ^ 3 • E t) = (R3 - R h) + (R h - r h) + (r h - h ^ 2 • C t - h ^ 3 • E t) := by abel
    rw [e1]
    have a1 := norm2_add_le ((R3 - R h) + (R h - r h)) (r h - h ^ 2 • C t - h ^ 3 • E t)
    have a2 := norm2_add_le (R3 - R h) (R h - r h)
    have := hRr' _ hh.le le_rfl
    have := hrq _ hh.le le_rfl
    linarith
  have hX : ∀ s, HasDerivAt (fun s => Y (t + s)) (J t x *ᵥ Y (t + s) + (f (t + s) (Y (t + s)) - J t x *ᵥ Y (t + s))) s := fun s => by
    refine (shift_deriv hp.sol t s).congr_deriv ?_
    abel
  have key := duhamel_norm (hp.diss t x) (D := fun s => Y (t + s) - phiCurve4 (J t x) x (f t x - J t x *ᵥ x) e ((1 / h ^ 2) • ((16 : ℝ) • R2 - (2 : ℝ) • R3))
      ((1 / h ^ 3) • ((-48 : ℝ) • R2 + (12 : ℝ) • R3)) s)
    (r := fun s => R s - (s / h) ^ 2 • ((8 : ℝ) • R2 - R3) - (s / h) ^ 3 • ((2 : ℝ) • R3 - (8 : ℝ) • R2)) (fun s => by
      refine ((hX s).sub (phiCurve4_deriv (J t x) x (f t x - J t x *ᵥ x) e ((1 / h ^ 2) • ((16 : ℝ) • R2 - (2 : ℝ) • R3))
        ((1 / h ^ 3) • ((-48 : ℝ) • R2 + (12 : ℝ) • R3)) s)).congr_deriv ?_
      have k1 : (s ^ 2 / 2) • ((1 / h ^ 2) • ((16 : ℝ) • R2 - (2 : ℝ) • R3)) = (s / h) ^ 2 • ((8 : ℝ) • R2 - R3) := by
        rw [smul_smul, show s ^ 2 / 2 * (1 / h ^ 2) = (s / h) ^ 2 / 2 by field_simp]
        module
      have k2 : (s ^ 3 / 6) • ((1 / h ^ 3) • ((-48 : ℝ) • R2 + (12 : ℝ) • R3)) = (s / h) ^ 3 • ((2 : ℝ) • R3 - (8 : ℝ) • R2) := by
        rw [smul_smul, show s ^ 3 / 6 * (1 / h ^ 3) = (s / h) ^ 3 / 6 by field_simp]
        module
      rw [k1, k2, hR, mulVec_sub (J t x) (Y (t + s)) (phiCurve4 _ _ _ _ _ _ _)]
      simp only [linRem]
      rw [mulVec_sub]
      abel)
    (20 * G + 19 * T + 20 * (M4 * h ^ 4)) 0 hh.le (fun s hs hsh => by
      rw [pow_zero, mul_one]
      have hσ0 : 0 ≤ s / h := by positivity
      have hσ1 : s / h ≤ 1 := by rw [div_le_one hh]; exact hsh
      obtain ⟨σ, hσ⟩ : ∃ σ, σ = s / h := ⟨_, rfl⟩
      rw [← hσ] at hσ0 hσ1 ⊢
      have hsσ : s = σ * h := by rw [hσ]; field_simp
      have q2 : σ ^ 2 ≤ 1 := pow_le_one₀ hσ0 hσ1
      have q3 : σ ^ 3 ≤ 1 := pow_le_one₀ hσ0 hσ1
      have p2 : 0 ≤ σ ^ 2 := by positivity
      have p3 : 0 ≤ σ ^ 3 := by positivity
      have e1 : R s - σ ^ 2 • ((8 : ℝ) • R2 - R3) - σ ^ 3 • ((2 : ℝ) • R3 - (8 : ℝ) • R2) =
          ((R s - r s) + (r s - s ^ 2 • C t - s ^ 3 • E t)) - (8 * σ ^ 2 - 8 * σ ^ 3) • (R2 - ((1 / 2 * h) ^ 2 • C t + (1 / 2 * h) ^ 3 • E t)) -
            (2 * σ ^ 3 - σ ^ 2) • (R3 - (h ^ 2 • C t + h ^ 3 • E t)) := by
        rw [hsσ]
        module
      rw [e1]
      have a1 := norm2_sub_le (((R s - r s) + (r s - s ^ 2 • C t - s ^ 3 • E t)) - (8 * σ ^ 2 - 8 * σ ^ 3) • (R2 - ((1 / 2 * h) ^ 2 • C t + (1 / 2 * h) ^ 3 • E t)))
        ((2 * σ ^ 3 - σ ^ 2) • (R3 - (h ^ 2 • C t + h ^ 3 • E t)))
      have a2 := norm2_sub_le ((R s - r s) + (r s - s ^ 2 • C t - s ^ 3 • E t)) ((8 * σ ^ 2 - 8 * σ ^ 3) • (R2 - ((1 / 2 * h) ^ 2 • C t + (1 / 2 * h) ^ 3 • E t)))
      have a3 := norm2_add_le (R s - r s) (r s - s ^ 2 • C t - s ^ 3 • E t)
      rw [norm2_smul] at a1 a2
      have c1 : |8 * σ ^ 2 - 8 * σ ^ 3| ≤ 16 := by rw [abs_le]; constructor <;> linarith
      have c2 : |2 * σ ^ 3 - σ ^ 2| ≤ 3 := by rw [abs_le]; constructor <;> linarith
      have b1 := mul_le_mul c1 d2 (norm2_nonneg _) (by norm_num)
      have b2 := mul_le_mul c2 d3 (norm2_nonneg _) (by norm_num)
      have := hRr' s hs hsh
      have := hrq s hs hsh
      linarith)
  rw [phiCurve4_zero, add_zero, zero_add, pow_one] at key
  have hup : rb4Update f (J t x) t x e h = phiCurve4 (J t x) x (f t x - J t x *ᵥ x) e ((1 / h ^ 2) • ((16 : ℝ) • R2 - (2 : ℝ) • R3))
      ((1 / h ^ 3) • ((-48 : ℝ) • R2 + (12 : ℝ) • R3)) h := by
    rw [← rb4_curve _ _ _ _ _ _ hh, hR2, hR3, hU2, hU3]
    rfl
  rw [hup, ← norm2_neg, neg_sub]
  refine key.trans ?_
  rw [← norm2_neg (Y t - x), neg_sub, ← hε, hT, hG, hg]
  norm_num
  have e2 : ε * (κ * B * h + l + h * μ) = ε * (l + (κ * B + μ) * h) := by ring
  have e3 : 0 ≤ M4 * h ^ 5 := by positivity
  rw [e2]
  linarith [show (20 * (ε * (l + (κ * B + μ) * h) + h * τ) + 19 * (2 * l * (1 + h * (l + (κ * B + μ) * h)) * ε + 2 * l2 * D * (h + 3 * D)) + 20 * (M4 * h ^ 4)) * h =
    h * (20 * (l + (κ * B + μ) * h) + 38 * l * (1 + h * (l + (κ * B + μ) * h))) * ε + (20 * M4 * h ^ 5 + 38 * l2 * D * (h + 3 * D) * h + 20 * τ * h ^ 2) by ring]

/-- **C136**: `pexprb4` has order four on stiff dissipative systems, with a constant that does not involve the size of the Jacobian -/
theorem C136_error {K : Kernels n} (hK : ExactKernels K) (hasRust : Bool) (sys : OdeSys n P)
    (hj : ∀ kw t y, ExactJac (sys.fjac kw t y) (sys.frhs none) t y (J t y)) (hd : ∀ kw t y, (sys.fjac kw t y).fdt = d t y)
    (hp : StiffNonlinear (sys.frhs none) J d Y t0 B l κ μ M2) (hc : StiffQuartic (sys.frhs none) J d Y C E t0 l l2 M4) (tol τ : ℝ) (hτ : 0 ≤ τ)
    (htol : (0 ≤ tol ∧ Real.sqrt n * tol ≤ τ) ∨ (∀ t y, d t y = 0)) (dt : ℝ) (hdt : 0 < dt) (N : ℕ) (s : ExpRB n)
    (hnew : ExpRB.new hasRust t0 (Y t0) "pexprb4" tol = .ok s)
    {Q W : Type} (before : Option (W → ℝ → Vec n → P × W)) (after : Option (W → ℝ → Vec n → Q × W)) (w : W) :
    ∃ (run : LoopState (ExpRB n) P Q W (Vec n)) (u : ℕ → Vec n),
      integrateOrmatex (rbStepper hasRust K sys) s (Y t0) t0 dt N before after w = .ok run ∧
      run.tRes = (List.range (N + 1)).map (fun i : ℕ => t0 + i * dt) ∧ run.yRes = (List.range (N + 1)).map u ∧
      ∀ k : ℕ, norm2 (u k - Y (t0 + k * dt)) ≤
        Real.exp (k * dt * (20 * (l + (κ * B + μ) * dt) + 38 * l * (1 + dt * (l + (κ * B + μ) * dt)))) * (k * dt) *
          (20 * M4 * dt ^ 4 + 38 * l2 * (M2 / 2 * dt ^ 3 + τ * dt ^ 2) * (dt + 3 * (M2 / 2 * dt ^ 3 + τ * dt ^ 2)) + 20 * τ * dt) := by
  have hjs : ExactJacs sys := fun kw t y => ⟨_, hj kw t y⟩
  have hJ : ∀ t y, jacM (sys.frhs none) (t, y) = J t y := fun t y => ((hj none t y).eq.1).symm
  have hD : ∀ t y, dtM (sys.frhs none) (t, y) = d t y := fun t y => by rw [← (hj none t y).eq.2, hd]
  obtain ⟨Φ, hΦ⟩ : ∃ Φ : ℝ → Vec n → Vec n, Φ = fun t y => rb4Update (sys.frhs none) (J t y) t y (effFdt tol (d t y)) dt := ⟨_, rfl⟩
  obtain ⟨u, hu⟩ : ∃ u, u = iterSeq Φ t0 dt (Y t0) := ⟨_, rfl⟩
  have hu0 : u 0 = Y t0 := by rw [hu]; rfl
  have hus : ∀ k : ℕ, u (k + 1) = Φ (t0 + k * dt) (u k) := fun k => by rw [hu]; rfl
  obtain ⟨run, e1, e2, e3⟩ := run_seq (rbStepper hasRust K sys) (fun (o : ExpRB n) k => At o.base (t0 + k * dt) (u k) ∧ o.base.method = "pexprb4" ∧
    o.tolFdt = tol ∧ (Nonempty2 o.base ∧ 0 < o.base.yHist.maxlen ∧ o.base.tHist.maxlen = o.base.yHist.maxlen)) u t0 dt before after
    (by
      rintro o k kw - ⟨g1, g2, g3, g4⟩
      have hst := rb_step_closed hK hasRust sys hjs o _ _ g1 kw dt 4 (by rw [g2]; simp [rbOrders]) (by rw [g2]; exact fun h => absurd h (by decide))
      have hmap : rbMap (n := n) "pexprb4" = mapRB4 := by simp [rbMap]
      have heff : ∀ v : Vec n, rbEff "pexprb4" tol v = effFdt tol v := fun v => by simp [rbEff, alwaysCorrected]
      rw [g2, g3, hmap, heff] at hst
      unfold mapRB4 mapR2 mapR3 mapRB2 mapRBhalf at hst
      simp only [hJ, hD] at hst
      have hst' : ExpRB.step hasRust K sys o dt kw = .ok (StepResult.mk (t0 + k * dt + dt) dt (u (k + 1)) (-1)) := by
        rw [hst, hus, hΦ]; rfl
      refine ⟨StepResult.mk (t0 + k * dt + dt) dt (u (k + 1)) (-1), o, ?_, rfl, rfl, ?_, g2, g3, accept_nonempty g4 _⟩
      · show keep o (ExpRB.step hasRust K sys o dt kw) = _
        rw [hst']; rfl
      · have := at_accept g4.2 (StepResult.mk (t0 + k * dt + dt) dt (u (k + 1)) (-1))
        have e : t0 + ((k + 1 : ℕ) : ℝ) * dt = t0 + k * dt + dt := by push_cast; ring
        rw [e]
        exact this)
    s (by
      obtain ⟨g1, g2, g3, g4⟩ := rb_new_at hnew
      refine ⟨by simpa [hu0] using g1, g2, g3, g4⟩) N w
  rw [hu0] at e1
  refine ⟨run, u, e1, e2, e3, ?_⟩
  obtain ⟨hB, hl, hκ, hμ, hM⟩ := hp.nonneg
  obtain ⟨-, hl2, hM4⟩ := hc.nonneg
  have heff : ∀ t x, norm2 (d t x - effFdt tol (d t x)) ≤ τ := by
    intro t x
    unfold effFdt
    split_ifs with h2
    · rw [sub_self, norm2_zero]; exact hτ
    · rw [sub_zero]
      rcases htol with h | h
      · have : ‖d t x‖ ≤ tol := by
          by_contra hc
          exact h2 ⟨h.1, by linarith⟩
        exact ((norm2_le_sup _).trans (mul_le_mul_of_nonneg_left this (Real.sqrt_nonneg _))).trans h.2
      · rw [h, norm2_zero]; exact hτ
  intro k
  obtain ⟨G, hG⟩ : ∃ G, G = 20 * (l + (κ * B + μ) * dt) + 38 * l * (1 + dt * (l + (κ * B + μ) * dt)) := ⟨_, rfl⟩
  have hG0 : 0 ≤ G := by rw [hG]; positivity
  have hsum := stable_sum (e := fun k => norm2 (u k - Y (t0 + k * dt))) (q := 1 + dt * G)
    (d := 20 * M4 * dt ^ 5 + 38 * l2 * (M2 / 2 * dt ^ 3 + τ * dt ^ 2) * (dt + 3 * (M2 / 2 * dt ^ 3 + τ * dt ^ 2)) * dt + 20 * τ * dt ^ 2)
    (by have := mul_nonneg hdt.le hG0; linarith) (by positivity) (by simp [hu0, norm2_zero]) (fun k => by
      have e : t0 + ((k + 1 : ℕ) : ℝ) * dt = t0 + k * dt + dt := by push_cast; ring
      simp only [e, hus, hΦ, hG]
      exact rb4_err hp hc (by have : (0 : ℝ) ≤ k * dt := by positivity
                              linarith) hdt _ _ (heff _ _) rfl rfl) k
  have hq : (1 + dt * G) ^ k ≤ Real.exp (k * dt * G) := by
    rw [mul_assoc (k : ℝ) dt, Real.exp_nat_mul]
    have := mul_nonneg hdt.le hG0
    exact pow_le_pow_left₀ (by linarith) (by linarith [Real.add_one_le_exp (dt * G)]) k
  rw [← hG]
  refine (hsum.trans (mul_le_mul_of_nonneg_right hq (by positivity))).trans (le_of_eq ?_)
  ring

/-- the additional hypotheses hold for the problem `y' = -1000 (y - t) + 1 + sin y - sin t`, `y = t` of C133 -/
example : StiffQuartic (n := 1) (fun t y => fun _ => -1000 * (y 0 - t) + 1 + Real.sin (y 0) - Real.sin t) (fun _ y _ _ => -1000 + Real.cos (y 0))
    (fun t _ _ => 1000 - Real.cos t) (fun t _ => t) (fun _ => 0) (fun _ => 0) 0 2 1 0 := by
  have a : ∀ v : Vec 1, norm2 v = |v 0| := by
    intro v
    unfold norm2
    simp [dotProduct, Real.sqrt_mul_self_eq_abs]
  have lipsin : ∀ x y : ℝ, |Real.sin x - Real.sin y| ≤ |x - y| := fun x y => by
    simpa [Real.dist_eq] using Real.lipschitzWith_sin.dist_le_mul x y
  have lipcos : ∀ x y : ℝ, |Real.cos x - Real.cos y| ≤ |x - y| := fun x y => by
    simpa [Real.dist_eq] using Real.lipschitzWith_cos.dist_le_mul x y
  refine StiffQuartic.mk ⟨by norm_num, by norm_num, le_rfl⟩ ?_ ?_ ?_
  · intro t s _ hs
    rw [a]
    simp [mulVec, dotProduct]
    ring_nf
  · intro t s x z _ _
    rw [a, a]
    simp [mulVec, dotProduct]
    have e : -(1000 * (x 0 - (t + s))) + 1 + Real.sin (x 0) - Real.sin (t + s) - 1 - (-1000 + Real.cos (z 0)) * (x 0 - (t + s)) =
      (Real.sin (x 0) - Real.sin (t + s)) - Real.cos (z 0) * (x 0 - (t + s)) := by ring
    rw [e]
    have h1 := abs_sub (Real.sin (x 0) - Real.sin (t + s)) (Real.cos (z 0) * (x 0 - (t + s)))
    have h2 := lipsin (x 0) (t + s)
    have h3 : |Real.cos (z 0) * (x 0 - (t + s))| ≤ |x 0 - (t + s)| := by
      rw [abs_mul]
      exact mul_le_of_le_one_left (abs_nonneg _) (Real.abs_cos_le_one _)
    linarith
  · intro t s x z _ hs
    rw [a, a, a]
    simp [mulVec, dotProduct]
    have e : -(1000 * (x 0 - (t + s))) + 1 + Real.sin (x 0) - Real.sin (t + s) - 1 - (-1000 + Real.cos (z 0)) * (x 0 - (t + s)) =
      (Real.sin (x 0) - Real.sin (t + s)) - Real.cos (z 0) * (x 0 - (t + s)) := by ring
    rw [e]
    have hd : ∀ u ∈ Set.uIcc (t + s) (x 0), ‖Real.cos u - Real.cos (z 0)‖ ≤ s + |z 0 - t| + |x 0 - (t + s)| := fun u hu => by
      have h1 := lipcos u (z 0)
      have h2 : |u - (t + s)| ≤ |x 0 - (t + s)| := Set.abs_sub_left_of_mem_uIcc hu
      have h3 : |u - z 0| ≤ |u - (t + s)| + (|t + s - t| + |t - z 0|) := by
        have := abs_sub_le u (t + s) (z 0)
        have := abs_sub_le (t + s) t (z 0)
        linarith
      rw [abs_sub_comm t, add_sub_cancel_left, abs_of_nonneg hs] at h3
      rw [Real.norm_eq_abs]
      linarith
    have := (convex_uIcc (t + s) (x 0)).norm_image_sub_le_of_norm_hasDerivWithin_le (f := fun u => Real.sin u - Real.cos (z 0) * u)
      (f' := fun u => Real.cos u - Real.cos (z 0)) (fun u _ => by
        have := (Real.hasDerivAt_sin u).sub ((hasDerivAt_id u).const_mul (Real.cos (z 0)))
        rw [mul_one] at this
        exact this.hasDerivWithinAt) hd Set.left_mem_uIcc Set.right_mem_uIcc
    rw [Real.norm_eq_abs, Real.norm_eq_abs] at this
    have e2 : Real.sin (x 0) - Real.sin (t + s) - Real.cos (z 0) * (x 0 - (t + s)) =
      Real.sin (x 0) - Real.cos (z 0) * x 0 - (Real.sin (t + s) - Real.cos (z 0) * (t + s)) := by ring
    rw [e2]
    exact this

end
end Ormatex.Props
