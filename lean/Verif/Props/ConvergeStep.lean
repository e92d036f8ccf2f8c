import Verif.Props.Converge
import Verif.Props.PhiExt
import Verif.Props.OrderSplit
import Verif.Props.OrderRK
import Verif.Props.OrderRBStep
import Mathlib.Analysis.Calculus.ContDiff.FiniteDimension
import Mathlib.Analysis.Analytic.Constructions

/-!
C91: the abstract convergence theorem for a step map with an auxiliary argument (time derivative, or previous state), and the
smoothness of the building blocks of the step maps.
-/

namespace Ormatex.Props
open Filter Asymptotics Topology Matrix Ormatex.Spec

section
variable {E A : Type*} [NormedAddCommGroup E] [NormedSpace ℝ E] [NormedAddCommGroup A] [NormedSpace ℝ A]

/-- largest error up to index `k` -/
noncomputable def maxErr (e : ℕ → ℝ) : ℕ → ℝ
  | 0 => e 0
  | k + 1 => max (maxErr e k) (e (k + 1))

theorem le_maxErr (e : ℕ → ℝ) : ∀ k j, j ≤ k → e j ≤ maxErr e k
  | 0, j, h => by rw [Nat.le_zero.1 h]; rfl
  | k + 1, j, h => by
    rcases Nat.lt_or_ge j (k + 1) with h' | h'
    · exact (le_maxErr e k j (by omega)).trans (le_max_left _ _)
    · rw [show j = k + 1 by omega]; exact le_max_right _ _

set_option maxHeartbeats 1000000 in
/-- A smooth step map `S(h, t, (y, a))` with `S(0, t, (y, a)) = y`: a sequence of steps whose auxiliary arguments are within
`K` times the errors so far (plus `ε`) of arguments `b` for which the step from the exact solution has defect `C0 h^(p+1)`
stays within `C (h^p + ε + initial error)` of the solution. -/
theorem converge_abstract {S : ℝ × ℝ × (E × A) → E} {Y : ℝ → E} {a : ℝ → A} {t0 T : ℝ} (p : ℕ) (hp : 1 ≤ p)
    (hS : ∀ t ∈ Set.Icc t0 T, ContDiffAt ℝ 2 S (0, t, (Y t, a t))) (hS0 : ∀ t x, S (0, t, x) = x.1)
    (hY : ∀ t ∈ Set.Icc t0 T, ContinuousAt Y t) (ha : ∀ t ∈ Set.Icc t0 T, ContinuousAt a t)
    (K C0 r1 : ℝ) (hK : 0 ≤ K) (hC0 : 0 ≤ C0) (hr1 : 0 < r1) :
    ∃ C δ : ℝ, 0 ≤ C ∧ 0 < δ ∧ ∀ (ts h ε η : ℝ) (N : ℕ) (u : ℕ → E) (al b : ℕ → A), 0 < h → h ≤ δ → 0 ≤ ε → ε ≤ δ → 0 ≤ η → η ≤ δ →
      t0 ≤ ts → ts + N * h ≤ T → ‖u 0 - Y ts‖ ≤ η →
      (∀ k < N, u (k + 1) = S (h, ts + k * h, (u k, al k))) →
      (∀ k < N, (∀ j ≤ k, ‖u j - Y (ts + j * h)‖ < r1) → ‖al k - b k‖ ≤ K * maxErr (fun j => ‖u j - Y (ts + j * h)‖) k + ε) →
      (∀ k < N, ‖b k - a (ts + k * h)‖ ≤ δ) →
      (∀ k < N, ‖S (h, ts + k * h, (Y (ts + k * h), b k)) - Y (ts + (k + 1 : ℕ) * h)‖ ≤ C0 * h ^ (p + 1)) →
      ∀ k ≤ N, ‖u k - Y (ts + k * h)‖ ≤ C * (h ^ p + ε + η) := by
  obtain ⟨L, ρ, hL, hρ, hlip⟩ := tube_lipschitz (G := fun q : ℝ × ℝ × (E × A) => S q - q.2.2.1) (x := fun t => (Y t, a t))
    (a := t0) (b := T)
    (fun t ht => (hS t ht).sub (contDiff_fst.comp (contDiff_snd.comp contDiff_snd)).contDiffAt)
    (fun t x => by simp [hS0]) (fun t ht => (hY t ht).prodMk (ha t ht))
  by_cases hT : t0 ≤ T
  swap
  · refine ⟨0, 1, le_rfl, one_pos, ?_⟩
    intro ts h ε η N u al b hh _ _ _ _ _ h1 h2
    have : 0 ≤ (N : ℝ) * h := by positivity
    exact absurd (by linarith) hT
  set M := Real.exp (L * (1 + K) * (T - t0)) * (1 + (T - t0) * (C0 + L)) with hM
  have hM0 : 0 ≤ M := by
    have : 0 ≤ T - t0 := by linarith
    positivity
  set r := min r1 (ρ / (4 * (1 + K))) with hr
  have hr0 : 0 < r := by positivity
  have hrρ : r * (1 + K) ≤ ρ / 4 := by
    have h1 : r ≤ ρ / (4 * (1 + K)) := min_le_right _ _
    rw [le_div_iff₀ (by positivity)] at h1
    linarith
  have hrr1 : r ≤ r1 := min_le_left _ _
  refine ⟨M, min (min 1 (ρ / 4)) (r / (6 * (M + 1))), hM0, by positivity, ?_⟩
  intro ts h ε η N u al b hh hhδ hε hεδ hη hηδ hts hN h0 hu hal hb hd
  set δ := min (min 1 (ρ / 4)) (r / (6 * (M + 1))) with hδ
  have hd1 : δ ≤ 1 := (min_le_left _ _).trans (min_le_left _ _)
  have hd2 : δ ≤ ρ / 4 := (min_le_left _ _).trans (min_le_right _ _)
  have hd3 : δ * (6 * (M + 1)) ≤ r := by
    have : δ ≤ r / (6 * (M + 1)) := min_le_right _ _
    rwa [le_div_iff₀ (by positivity)] at this
  set e : ℕ → ℝ := fun j => ‖u j - Y (ts + j * h)‖ with he
  have hhp : h ^ p ≤ h := by
    calc h ^ p ≤ h ^ 1 := pow_le_pow_of_le_one hh.le (hhδ.trans hd1) hp
      _ = h := pow_one h
  have hTt : 0 ≤ T - t0 := by linarith
  set L' := L * (1 + K) with hL'
  have hL'0 : 0 ≤ L' := by positivity
  have hbnd : Real.exp (L' * (T - t0)) * (η + (T - t0) * (C0 * h ^ p + L * ε)) ≤ M * (h ^ p + ε + η) := by
    rw [hM, mul_assoc (Real.exp _)]
    refine mul_le_mul_of_nonneg_left ?_ (Real.exp_pos _).le
    have a1 : 0 ≤ (T - t0) * C0 := by positivity
    have a2 : 0 ≤ (T - t0) * L := by positivity
    have a3 : 0 ≤ h ^ p := by positivity
    nlinarith [mul_nonneg a1 hε, mul_nonneg a1 hη, mul_nonneg a2 hη, mul_nonneg a2 a3]
  have hsmall : M * (h ^ p + ε + η) < r / 1 := by
    have : h ^ p + ε + η ≤ 3 * δ := by linarith
    have hδ0 : 0 < δ := lt_of_lt_of_le hh hhδ
    have : M * (h ^ p + ε + η) ≤ M * (3 * δ) := mul_le_mul_of_nonneg_left this hM0
    have h2 : M * (3 * δ) < δ * (6 * (M + 1)) := by nlinarith
    rw [div_one]; linarith
  rw [div_one] at hsmall
  have hstep : ∀ k < N, maxErr e k < r → maxErr e (k + 1) ≤ (1 + L' * h) * maxErr e k + h * (C0 * h ^ p + L * ε) := by
    intro k hk hkr
    set m := maxErr e k with hm
    have hek : e k ≤ m := le_maxErr e k k le_rfl
    have hm0 : 0 ≤ m := (norm_nonneg _).trans hek
    have hal' := hal k hk (fun j hj => lt_of_le_of_lt (le_maxErr e k j hj) (hkr.trans_le hrr1))
    have htk : ts + k * h ∈ Set.Icc t0 T := by
      have h1 : (k : ℝ) ≤ N := by exact_mod_cast hk.le
      have h2 := mul_le_mul_of_nonneg_right h1 hh.le
      have h3 : 0 ≤ (k : ℝ) * h := by positivity
      constructor <;> linarith
    have hKm : (1 + K) * m ≤ ρ / 4 := by
      have := mul_le_mul_of_nonneg_right hkr.le (by positivity : 0 ≤ 1 + K)
      nlinarith
    have hKm2 : K * m ≤ ρ / 4 := by nlinarith
    have hm2 : m ≤ ρ / 4 := by nlinarith [mul_nonneg hK hm0]
    have hl := hlip (ts + k * h) htk h (u k, al k) (Y (ts + k * h), b k) (by rw [abs_of_pos hh]; linarith)
      (by
        rw [Prod.mk_sub_mk, Prod.norm_mk, max_lt_iff]
        refine ⟨by linarith, ?_⟩
        calc ‖al k - a (ts + k * h)‖ = ‖(al k - b k) + (b k - a (ts + k * h))‖ := by congr 1; abel
          _ ≤ _ := norm_add_le _ _
          _ < ρ := by linarith [hb k hk])
      (by
        rw [Prod.mk_sub_mk, Prod.norm_mk, max_lt_iff, sub_self, norm_zero]
        exact ⟨hρ, by linarith [hb k hk]⟩)
    simp only [abs_of_pos hh, Prod.mk_sub_mk, Prod.norm_mk] at hl
    have hmax : max ‖u k - Y (ts + k * h)‖ ‖al k - b k‖ ≤ (1 + K) * m + ε := by
      refine max_le ?_ ?_
      · have : 0 ≤ K * m := by positivity
        have : e k ≤ (1 + K) * m + ε := by linarith
        exact this
      · linarith
    have hnew : e (k + 1) ≤ (1 + L' * h) * m + h * (C0 * h ^ p + L * ε) := by
      have e1 : u (k + 1) - Y (ts + (k + 1 : ℕ) * h) = (u k - Y (ts + k * h))
          + (S (h, ts + k * h, (u k, al k)) - u k - (S (h, ts + k * h, (Y (ts + k * h), b k)) - Y (ts + k * h)))
          + (S (h, ts + k * h, (Y (ts + k * h), b k)) - Y (ts + (k + 1 : ℕ) * h)) := by
        rw [hu k hk]; abel
      show ‖u (k + 1) - Y (ts + (k + 1 : ℕ) * h)‖ ≤ _
      rw [e1]
      refine (norm_add_le _ _).trans ((add_le_add (norm_add_le _ _) le_rfl).trans ?_)
      have a1 : ‖u k - Y (ts + k * h)‖ ≤ m := hek
      have a2 := hl.trans (mul_le_mul_of_nonneg_left hmax (by positivity))
      have a3 := hd k hk
      rw [pow_succ] at a3
      have a4 : L * h * ((1 + K) * m + ε) = L' * h * m + h * (L * ε) := by rw [hL']; ring
      have a5 : C0 * (h ^ p * h) = h * (C0 * h ^ p) := by ring
      rw [a4] at a2
      rw [a5] at a3
      linarith
    refine max_le ?_ hnew
    have : 0 ≤ L' * h * m := by positivity
    have : 0 ≤ h * (C0 * h ^ p + L * ε) := by positivity
    show m ≤ _
    linarith
  have hNT : (N : ℝ) * h ≤ T - t0 := by linarith
  have hg := gronwall_tube hL'0 hh.le (by positivity : 0 ≤ C0 * h ^ p + L * ε) hη N hNT hTt (lt_of_le_of_lt hbnd hsmall)
    (maxErr e) (by simpa [maxErr, he] using h0) hstep
  intro k hk
  exact (le_maxErr e k k le_rfl).trans ((hg k hk).trans hbnd)

end

section smooth
open scoped Matrix.Norms.Operator
variable {n : ℕ} {X : Type*} [NormedAddCommGroup X] [NormedSpace ℝ X]

theorem lin_contDiff {V W : Type*} [NormedAddCommGroup V] [NormedSpace ℝ V] [FiniteDimensional ℝ V] [NormedAddCommGroup W]
    [NormedSpace ℝ W] (l : V →ₗ[ℝ] W) (m : WithTop ℕ∞) : ContDiff ℝ m (fun v => l v) :=
  (LinearMap.toContinuousLinearMap l).contDiff

theorem phiM_contDiff (k : ℕ) (m : WithTop ℕ∞) : ContDiff ℝ m (fun z : Mat n => phiM k z) := by
  have e : (fun z : Mat n => phiM k z) = fun z => fPhiKExt (fun _ A => NormedSpace.exp A) z k := by
    funext z; rw [C19_ext]
  rw [e]
  -- the block matrix is affine in `z`
  let l1 : Mat n →ₗ[ℝ] Mat ((k + 1) * n) :=
    { toFun := fun z => phiExtMat z k - phiExtMat 0 k
      map_add' := by
        intro a b; ext i j
        simp only [phiExtMat, Matrix.sub_apply, Matrix.add_apply]
        split <;> simp only [Matrix.of_apply] <;> split_ifs <;> simp
      map_smul' := by
        intro c a; ext i j
        simp only [phiExtMat, Matrix.sub_apply, Matrix.smul_apply]
        split <;> simp only [Matrix.of_apply] <;> split_ifs <;> simp }
  have h1 : ContDiff ℝ m (fun z : Mat n => phiExtMat z k) := by
    have := (lin_contDiff l1 m).add (contDiff_const (c := phiExtMat (0 : Mat n) k))
    have e2 : (fun z : Mat n => phiExtMat z k) = fun z => l1 z + phiExtMat 0 k := by
      funext z
      show phiExtMat z k = (phiExtMat z k - phiExtMat 0 k) + phiExtMat 0 k
      abel
    rw [e2]
    exact this
  have h2 : ContDiff ℝ m (fun A : Mat ((k + 1) * n) => NormedSpace.exp A) :=
    contDiff_iff_contDiffAt.2 fun A => (NormedSpace.exp_analytic (𝕂 := ℝ) A).contDiffAt
  let l2 : Mat ((k + 1) * n) →ₗ[ℝ] Mat n :=
    { toFun := fun E => Matrix.of fun i j => E ⟨i, by nlinarith [i.2, Nat.zero_le (k * n)]⟩ ⟨k * n + j, by nlinarith [j.2]⟩
      map_add' := by intro a b; rfl
      map_smul' := by intro c a; rfl }
  exact (lin_contDiff l2 m).comp (h2.comp h1)

theorem mulVec_contDiffAt {M : X → Mat n} {v : X → Vec n} {m : WithTop ℕ∞} {x : X} (hM : ContDiffAt ℝ m M x) (hv : ContDiffAt ℝ m v x) :
    ContDiffAt ℝ m (fun x => M x *ᵥ v x) x := by
  let l : Mat n →ₗ[ℝ] (Vec n →L[ℝ] Vec n) := LinearMap.toContinuousLinearMap.toLinearMap.comp (Matrix.toLin' (R := ℝ)).toLinearMap
  exact ((lin_contDiff l m).contDiffAt.comp x hM).clm_apply hv

theorem phiVec_contDiffAt (k : ℕ) {M : X → Mat n} {c : X → ℝ} {v : X → Vec n} {m : WithTop ℕ∞} {x : X} (hM : ContDiffAt ℝ m M x)
    (hc : ContDiffAt ℝ m c x) (hv : ContDiffAt ℝ m v x) : ContDiffAt ℝ m (fun x => phiM k (c x • M x) *ᵥ v x) x :=
  mulVec_contDiffAt ((phiM_contDiff k m).contDiffAt.comp x (hc.smul hM)) hv

/-- the Jacobian matrix of `f` in the state, and its time derivative, from its total derivative -/
noncomputable def jacM (f : ℝ → Vec n → Vec n) (q : ℝ × Vec n) : Mat n :=
  LinearMap.toMatrix' ((fderiv ℝ (fun p : ℝ × Vec n => f p.1 p.2) q).toLinearMap.comp (LinearMap.inr ℝ ℝ (Vec n)))

noncomputable def dtM (f : ℝ → Vec n → Vec n) (q : ℝ × Vec n) : Vec n := fderiv ℝ (fun p : ℝ × Vec n => f p.1 p.2) q (1, 0)

theorem jacM_contDiffAt {f : ℝ → Vec n → Vec n} {q : ℝ × Vec n} {m : ℕ} (hf : ContDiffAt ℝ (m + 1 : ℕ) (fun p : ℝ × Vec n => f p.1 p.2) q) :
    ContDiffAt ℝ m (jacM f) q := by
  let l : ((ℝ × Vec n) →L[ℝ] Vec n) →ₗ[ℝ] Mat n :=
    { toFun := fun D => LinearMap.toMatrix' (D.toLinearMap.comp (LinearMap.inr ℝ ℝ (Vec n)))
      map_add' := by intro a b; ext i j; simp [LinearMap.toMatrix'_apply]
      map_smul' := by intro a b; ext i j; simp [LinearMap.toMatrix'_apply] }
  have h1 : ContDiffAt ℝ m (fderiv ℝ (fun p : ℝ × Vec n => f p.1 p.2)) q := hf.fderiv_right (m := m) (by norm_cast)
  exact (lin_contDiff l m).contDiffAt.comp q h1

theorem dtM_contDiffAt {f : ℝ → Vec n → Vec n} {q : ℝ × Vec n} {m : ℕ} (hf : ContDiffAt ℝ (m + 1 : ℕ) (fun p : ℝ × Vec n => f p.1 p.2) q) :
    ContDiffAt ℝ m (dtM f) q := by
  have h1 : ContDiffAt ℝ m (fderiv ℝ (fun p : ℝ × Vec n => f p.1 p.2)) q := hf.fderiv_right (m := m) (by norm_cast)
  exact h1.clm_apply contDiffAt_const

theorem ExactJac.eq {j : SysJac n} {f : ℝ → Vec n → Vec n} {t : ℝ} {y : Vec n} {J : Mat n} (h : ExactJac j f t y J) :
    J = jacM f (t, y) ∧ j.fdt = dtM f (t, y) := by
  constructor
  · have : ∀ v, J *ᵥ v = jacM f (t, y) *ᵥ v := by
      intro v
      have := h.deriv 0 v
      rw [zero_smul, zero_add] at this
      rw [← this, jacM, LinearMap.toMatrix'_mulVec]; rfl
    ext i j
    have := congrFun (this (Pi.single j 1)) i
    simpa using this
  · have := h.deriv 1 0
    rw [one_smul, Matrix.mulVec_zero, add_zero] at this
    exact this.symm


/-! ### the step maps are smooth near `h = 0` on the solution -/

theorem comp_contDiffAt {f : ℝ → Vec n → Vec n} {τ : X → ℝ} {z : X → Vec n} {m : WithTop ℕ∞} {x : X} {t : ℝ} {y : Vec n}
    (hf : ContDiffAt ℝ m (fun p : ℝ × Vec n => f p.1 p.2) (t, y)) (hτ : ContDiffAt ℝ m τ x) (hz : ContDiffAt ℝ m z x)
    (e1 : τ x = t) (e2 : z x = y) : ContDiffAt ℝ m (fun x => f (τ x) (z x)) x := by
  subst e1 e2
  exact hf.comp x (hτ.prodMk hz)

theorem ros_contDiffAt {M : X → Mat n} {y F e : X → Vec n} {h : X → ℝ} {m : WithTop ℕ∞} {x : X} (hM : ContDiffAt ℝ m M x)
    (hy : ContDiffAt ℝ m y x) (hF : ContDiffAt ℝ m F x) (he : ContDiffAt ℝ m e x) (hh : ContDiffAt ℝ m h x) (c : ℝ) :
    ContDiffAt ℝ m (fun x => rosEuler (M x) (y x) (F x) (e x) (h x) c) x := by
  unfold rosEuler
  have hc : ContDiffAt ℝ m (fun x => c * h x) x := contDiffAt_const.mul hh
  have hc2 : ContDiffAt ℝ m (fun x => c ^ 2 * h x ^ 2) x := contDiffAt_const.mul (hh.pow 2)
  exact (hy.add (hc.smul (phiVec_contDiffAt 1 hM hc hF))).add (hc2.smul (phiVec_contDiffAt 2 hM hc he))

/-- one step of `exprb2` and its relatives: step size `h`, time `t`, state `y`, time derivative `e` used for the correction -/
noncomputable def mapRB2 (f : ℝ → Vec n → Vec n) (q : ℝ × ℝ × (Vec n × Vec n)) : Vec n :=
  rosEuler (jacM f (q.2.1, q.2.2.1)) q.2.2.1 (f q.2.1 q.2.2.1) q.2.2.2 q.1 1

/-- one step of `exprb3` -/
noncomputable def mapRB3 (f : ℝ → Vec n → Vec n) (q : ℝ × ℝ × (Vec n × Vec n)) : Vec n :=
  mapRB2 f q + (2 * q.1) • (phiM 3 (q.1 • jacM f (q.2.1, q.2.2.1)) *ᵥ
    (f (q.2.1 + q.1) (mapRB2 f q) - f q.2.1 q.2.2.1 - jacM f (q.2.1, q.2.2.1) *ᵥ (mapRB2 f q - q.2.2.1) - q.1 • q.2.2.2))

/-- the half-step stage of `pexprb4` -/
noncomputable def mapRBhalf (f : ℝ → Vec n → Vec n) (q : ℝ × ℝ × (Vec n × Vec n)) : Vec n :=
  rosEuler (jacM f (q.2.1, q.2.2.1)) q.2.2.1 (f q.2.1 q.2.2.1) q.2.2.2 q.1 (1 / 2)

/-- the two remainders of `pexprb4` -/
noncomputable def mapR2 (f : ℝ → Vec n → Vec n) (q : ℝ × ℝ × (Vec n × Vec n)) : Vec n :=
  f (q.2.1 + 1 / 2 * q.1) (mapRBhalf f q) - f q.2.1 q.2.2.1 - jacM f (q.2.1, q.2.2.1) *ᵥ (mapRBhalf f q - q.2.2.1)
    - (1 / 2 * q.1) • q.2.2.2

noncomputable def mapR3 (f : ℝ → Vec n → Vec n) (q : ℝ × ℝ × (Vec n × Vec n)) : Vec n :=
  f (q.2.1 + q.1) (mapRB2 f q) - f q.2.1 q.2.2.1 - jacM f (q.2.1, q.2.2.1) *ᵥ (mapRB2 f q - q.2.2.1) - q.1 • q.2.2.2

/-- one step of `pexprb4` -/
noncomputable def mapRB4 (f : ℝ → Vec n → Vec n) (q : ℝ × ℝ × (Vec n × Vec n)) : Vec n :=
  mapRB2 f q + (phiM 3 (q.1 • jacM f (q.2.1, q.2.2.1)) *ᵥ (q.1 • ((16 : ℝ) • mapR2 f q - (2 : ℝ) • mapR3 f q))
    + phiM 4 (q.1 • jacM f (q.2.1, q.2.2.1)) *ᵥ (q.1 • ((-48 : ℝ) • mapR2 f q + (12 : ℝ) • mapR3 f q)))

/-- one step of `epi3` after the first: the last argument is the previous state, at time `t - h` -/
noncomputable def mapEpi3 (f : ℝ → Vec n → Vec n) (q : ℝ × ℝ × (Vec n × Vec n)) : Vec n :=
  rosEuler (jacM f (q.2.1, q.2.2.1)) q.2.2.1 (f q.2.1 q.2.2.1) (dtM f (q.2.1, q.2.2.1)) q.1 1
    + (q.1 * (2 / 3)) • (phiM 2 (q.1 • jacM f (q.2.1, q.2.2.1)) *ᵥ
      (f (q.2.1 - q.1) q.2.2.2 - f q.2.1 q.2.2.1 - jacM f (q.2.1, q.2.2.1) *ᵥ (q.2.2.2 - q.2.2.1)
        - (q.2.1 - q.1 - q.2.1) • dtM f (q.2.1, q.2.2.1)))

section maps
variable {f : ℝ → Vec n → Vec n} {m : ℕ} {t : ℝ} {y e : Vec n}

theorem mapRB2_zero (x : Vec n × Vec n) : mapRB2 f (0, t, x) = x.1 := rosEuler_zero _ _ _ _ _
theorem mapRBhalf_zero (x : Vec n × Vec n) : mapRBhalf f (0, t, x) = x.1 := rosEuler_zero _ _ _ _ _
theorem mapRB3_zero (x : Vec n × Vec n) : mapRB3 f (0, t, x) = x.1 := by simp [mapRB3, mapRB2_zero]
theorem mapRB4_zero (x : Vec n × Vec n) : mapRB4 f (0, t, x) = x.1 := by simp [mapRB4, mapRB2_zero]
theorem mapEpi3_zero (x : Vec n × Vec n) : mapEpi3 f (0, t, x) = x.1 := by simp [mapEpi3, rosEuler_zero]

variable (hf : ContDiffAt ℝ (m + 1 : ℕ) (fun p : ℝ × Vec n => f p.1 p.2) (t, y))
include hf

theorem smoothF (e : Vec n) : ContDiffAt ℝ m (fun q : ℝ × ℝ × (Vec n × Vec n) => f q.2.1 q.2.2.1) (0, t, (y, e)) :=
  comp_contDiffAt (hf.of_le (by norm_cast; omega)) (by fun_prop) (by fun_prop) rfl rfl

theorem smoothJ (e : Vec n) : ContDiffAt ℝ m (fun q : ℝ × ℝ × (Vec n × Vec n) => jacM f (q.2.1, q.2.2.1)) (0, t, (y, e)) := by
  have h : ContDiffAt ℝ m (fun q : ℝ × ℝ × (Vec n × Vec n) => (q.2.1, q.2.2.1)) (0, t, (y, e)) := by fun_prop
  exact ContDiffAt.comp (g := jacM f) (0, t, (y, e)) (jacM_contDiffAt hf) h

theorem smoothD (e : Vec n) : ContDiffAt ℝ m (fun q : ℝ × ℝ × (Vec n × Vec n) => dtM f (q.2.1, q.2.2.1)) (0, t, (y, e)) := by
  have h : ContDiffAt ℝ m (fun q : ℝ × ℝ × (Vec n × Vec n) => (q.2.1, q.2.2.1)) (0, t, (y, e)) := by fun_prop
  exact ContDiffAt.comp (g := dtM f) (0, t, (y, e)) (dtM_contDiffAt hf) h

theorem mapRB2_smooth (e : Vec n) : ContDiffAt ℝ m (mapRB2 f) (0, t, (y, e)) :=
  ros_contDiffAt (smoothJ hf e) (by fun_prop) (smoothF hf e) (by fun_prop) (by fun_prop) 1

theorem mapRBhalf_smooth (e : Vec n) : ContDiffAt ℝ m (mapRBhalf f) (0, t, (y, e)) :=
  ros_contDiffAt (smoothJ hf e) (by fun_prop) (smoothF hf e) (by fun_prop) (by fun_prop) (1 / 2)

theorem mapR3_smooth (e : Vec n) : ContDiffAt ℝ m (mapR3 f) (0, t, (y, e)) := by
  have h2 := mapRB2_smooth hf e
  have hJ := smoothJ hf e
  have hy : ContDiffAt ℝ m (fun q : ℝ × ℝ × (Vec n × Vec n) => q.2.2.1) (0, t, (y, e)) := by fun_prop
  have he : ContDiffAt ℝ m (fun q : ℝ × ℝ × (Vec n × Vec n) => q.1 • q.2.2.2) (0, t, (y, e)) := by fun_prop
  have h3 : ContDiffAt ℝ m (fun q : ℝ × ℝ × (Vec n × Vec n) => f (q.2.1 + q.1) (mapRB2 f q)) (0, t, (y, e)) :=
    comp_contDiffAt (hf.of_le (by norm_cast; omega)) (by fun_prop) h2 (by simp) (mapRB2_zero _)
  exact ((h3.sub (smoothF hf e)).sub (mulVec_contDiffAt hJ (h2.sub hy))).sub he

theorem mapR2_smooth (e : Vec n) : ContDiffAt ℝ m (mapR2 f) (0, t, (y, e)) := by
  have h2 := mapRBhalf_smooth hf e
  have hJ := smoothJ hf e
  have hy : ContDiffAt ℝ m (fun q : ℝ × ℝ × (Vec n × Vec n) => q.2.2.1) (0, t, (y, e)) := by fun_prop
  have he : ContDiffAt ℝ m (fun q : ℝ × ℝ × (Vec n × Vec n) => (1 / 2 * q.1) • q.2.2.2) (0, t, (y, e)) := by fun_prop
  have h3 : ContDiffAt ℝ m (fun q : ℝ × ℝ × (Vec n × Vec n) => f (q.2.1 + 1 / 2 * q.1) (mapRBhalf f q)) (0, t, (y, e)) :=
    comp_contDiffAt (hf.of_le (by norm_cast; omega)) (by fun_prop) h2 (by simp) (mapRBhalf_zero _)
  exact ((h3.sub (smoothF hf e)).sub (mulVec_contDiffAt hJ (h2.sub hy))).sub he

theorem mapRB3_smooth (e : Vec n) : ContDiffAt ℝ m (mapRB3 f) (0, t, (y, e)) := by
  have hh : ContDiffAt ℝ m (fun q : ℝ × ℝ × (Vec n × Vec n) => q.1) (0, t, (y, e)) := by fun_prop
  have hh2 : ContDiffAt ℝ m (fun q : ℝ × ℝ × (Vec n × Vec n) => 2 * q.1) (0, t, (y, e)) := by fun_prop
  exact (mapRB2_smooth hf e).add (hh2.smul (phiVec_contDiffAt 3 (smoothJ hf e) hh (mapR3_smooth hf e)))

theorem mapRB4_smooth (e : Vec n) : ContDiffAt ℝ m (mapRB4 f) (0, t, (y, e)) := by
  have hh : ContDiffAt ℝ m (fun q : ℝ × ℝ × (Vec n × Vec n) => q.1) (0, t, (y, e)) := by fun_prop
  have h2 := mapR2_smooth hf e
  have h3 := mapR3_smooth hf e
  exact (mapRB2_smooth hf e).add ((phiVec_contDiffAt 3 (smoothJ hf e) hh (hh.smul ((h2.const_smul _).sub (h3.const_smul _)))).add
    (phiVec_contDiffAt 4 (smoothJ hf e) hh (hh.smul ((h2.const_smul _).add (h3.const_smul _)))))

theorem mapEpi3_smooth : ContDiffAt ℝ m (mapEpi3 f) (0, t, (y, y)) := by
  have hh : ContDiffAt ℝ m (fun q : ℝ × ℝ × (Vec n × Vec n) => q.1) (0, t, (y, y)) := by fun_prop
  have hh2 : ContDiffAt ℝ m (fun q : ℝ × ℝ × (Vec n × Vec n) => q.1 * (2 / 3)) (0, t, (y, y)) := by fun_prop
  have hy : ContDiffAt ℝ m (fun q : ℝ × ℝ × (Vec n × Vec n) => q.2.2.1) (0, t, (y, y)) := by fun_prop
  have hz : ContDiffAt ℝ m (fun q : ℝ × ℝ × (Vec n × Vec n) => q.2.2.2 - q.2.2.1) (0, t, (y, y)) := by fun_prop
  have ht : ContDiffAt ℝ m (fun q : ℝ × ℝ × (Vec n × Vec n) => q.2.1 - q.1 - q.2.1) (0, t, (y, y)) := by fun_prop
  have hJ := smoothJ hf y
  have h3 : ContDiffAt ℝ m (fun q : ℝ × ℝ × (Vec n × Vec n) => f (q.2.1 - q.1) q.2.2.2) (0, t, (y, y)) :=
    comp_contDiffAt (hf.of_le (by norm_cast; omega)) (by fun_prop) (by fun_prop) (by simp) rfl
  exact (ros_contDiffAt hJ hy (smoothF hf y) (smoothD hf y) hh 1).add (hh2.smul (phiVec_contDiffAt 2 hJ hh
    (((h3.sub (smoothF hf y)).sub (mulVec_contDiffAt hJ hz)).sub (ht.smul (smoothD hf y)))))

end maps

/-! ### splitting methods and rk4 (the auxiliary argument is not used) -/

section maps2
variable {f : ℝ → Vec n → Vec n} {m : ℕ} {t : ℝ} {y : Vec n}
  (hf : ContDiffAt ℝ m (fun p : ℝ × Vec n => f p.1 p.2) (t, y)) (L : Mat n)
include hf

theorem smoothF' : ContDiffAt ℝ m (fun q : ℝ × ℝ × (Vec n × Vec n) => f q.2.1 q.2.2.1) (0, t, (y, 0)) :=
  comp_contDiffAt hf (by fun_prop) (by fun_prop) rfl rfl

theorem mapExp1_smooth : ContDiffAt ℝ m (fun q : ℝ × ℝ × (Vec n × Vec n) =>
    q.2.2.1 + q.1 • (phiM 1 (q.1 • L) *ᵥ f q.2.1 q.2.2.1)) (0, t, (y, 0)) := by
  have hh : ContDiffAt ℝ m (fun q : ℝ × ℝ × (Vec n × Vec n) => q.1) (0, t, (y, (0 : Vec n))) := by fun_prop
  have hy : ContDiffAt ℝ m (fun q : ℝ × ℝ × (Vec n × Vec n) => q.2.2.1) (0, t, (y, (0 : Vec n))) := by fun_prop
  exact hy.add (hh.smul (phiVec_contDiffAt 1 contDiffAt_const hh (smoothF' hf)))

theorem mapExp2_smooth (c : ℝ) : ContDiffAt ℝ m (fun q : ℝ × ℝ × (Vec n × Vec n) =>
    exp2Update f L q.2.1 q.2.2.1 q.1 c) (0, t, (y, 0)) := by
  have hh : ContDiffAt ℝ m (fun q : ℝ × ℝ × (Vec n × Vec n) => q.1) (0, t, (y, (0 : Vec n))) := by fun_prop
  have hc : ContDiffAt ℝ m (fun q : ℝ × ℝ × (Vec n × Vec n) => c * q.1) (0, t, (y, (0 : Vec n))) := by fun_prop
  have hd : ContDiffAt ℝ m (fun q : ℝ × ℝ × (Vec n × Vec n) => q.1 / c) (0, t, (y, (0 : Vec n))) := by fun_prop
  have hy : ContDiffAt ℝ m (fun q : ℝ × ℝ × (Vec n × Vec n) => q.2.2.1) (0, t, (y, (0 : Vec n))) := by fun_prop
  have hF := smoothF' hf
  have h2 := hy.add (hc.smul (phiVec_contDiffAt 1 (contDiffAt_const (c := L)) hc hF))
  have h3 := comp_contDiffAt (τ := fun q : ℝ × ℝ × (Vec n × Vec n) => q.2.1 + c * q.1) hf (by fun_prop) h2 (by simp) (by simp)
  exact (hy.add (hh.smul (phiVec_contDiffAt 1 (contDiffAt_const (c := L)) hh hF))).add
    (hd.smul (phiVec_contDiffAt 2 (contDiffAt_const (c := L)) hh ((h3.sub hF).sub
      (mulVec_contDiffAt (contDiffAt_const (c := L)) (h2.sub hy)))))

theorem mapExp3_smooth : ContDiffAt ℝ m (fun q : ℝ × ℝ × (Vec n × Vec n) =>
    exp3Update f L q.2.1 q.2.2.1 q.1) (0, t, (y, 0)) := by
  have hh : ContDiffAt ℝ m (fun q : ℝ × ℝ × (Vec n × Vec n) => q.1) (0, t, (y, (0 : Vec n))) := by fun_prop
  have hc : ContDiffAt ℝ m (fun q : ℝ × ℝ × (Vec n × Vec n) => 2 / 3 * q.1) (0, t, (y, (0 : Vec n))) := by fun_prop
  have hd : ContDiffAt ℝ m (fun q : ℝ × ℝ × (Vec n × Vec n) => 3 / 2 * q.1) (0, t, (y, (0 : Vec n))) := by fun_prop
  have hy : ContDiffAt ℝ m (fun q : ℝ × ℝ × (Vec n × Vec n) => q.2.2.1) (0, t, (y, (0 : Vec n))) := by fun_prop
  have hF := smoothF' hf
  have hL : ContDiffAt ℝ m (fun _ : ℝ × ℝ × (Vec n × Vec n) => L) (0, t, (y, (0 : Vec n))) := contDiffAt_const
  have h2 := hy.add (hc.smul (phiVec_contDiffAt 1 hL hc hF))
  have h3 := comp_contDiffAt (τ := fun q : ℝ × ℝ × (Vec n × Vec n) => q.2.1 + 2 / 3 * q.1) hf (by fun_prop) h2 (by simp) (by simp)
  have hr2 := (h3.sub hF).sub (mulVec_contDiffAt hL (h2.sub hy))
  have h4 := h2.add (hc.smul (phiVec_contDiffAt 2 hL hc hr2))
  have h5 := comp_contDiffAt (τ := fun q : ℝ × ℝ × (Vec n × Vec n) => q.2.1 + 2 / 3 * q.1) hf (by fun_prop) h4 (by simp) (by simp)
  have hr3 := (h5.sub hF).sub (mulVec_contDiffAt hL (h4.sub hy))
  exact (hy.add (hh.smul (phiVec_contDiffAt 1 hL hh hF))).add (hd.smul (phiVec_contDiffAt 2 hL hh hr3))

theorem mapRk4_smooth : ContDiffAt ℝ m (fun q : ℝ × ℝ × (Vec n × Vec n) =>
    rk4Kernel f q.2.1 q.2.2.1 q.1) (0, t, (y, 0)) := by
  have hh : ContDiffAt ℝ m (fun q : ℝ × ℝ × (Vec n × Vec n) => q.1) (0, t, (y, (0 : Vec n))) := by fun_prop
  have hc : ContDiffAt ℝ m (fun q : ℝ × ℝ × (Vec n × Vec n) => q.1 / 2) (0, t, (y, (0 : Vec n))) := by fun_prop
  have hd : ContDiffAt ℝ m (fun q : ℝ × ℝ × (Vec n × Vec n) => q.1 / 6) (0, t, (y, (0 : Vec n))) := by fun_prop
  have hy : ContDiffAt ℝ m (fun q : ℝ × ℝ × (Vec n × Vec n) => q.2.2.1) (0, t, (y, (0 : Vec n))) := by fun_prop
  have h1 := smoothF' hf
  have h2 := comp_contDiffAt (τ := fun q : ℝ × ℝ × (Vec n × Vec n) => q.2.1 + q.1 / 2) hf (by fun_prop)
    (hy.add (hc.smul h1)) (by simp) (by simp)
  have h3 := comp_contDiffAt (τ := fun q : ℝ × ℝ × (Vec n × Vec n) => q.2.1 + q.1 / 2) hf (by fun_prop)
    (hy.add (hc.smul h2)) (by simp) (by simp)
  have h4 := comp_contDiffAt (τ := fun q : ℝ × ℝ × (Vec n × Vec n) => q.2.1 + q.1) hf (by fun_prop)
    (hy.add (hh.smul h3)) (by simp) (by simp)
  exact hy.add (hd.smul (((h1.add (h2.const_smul (2 : ℝ))).add (h3.const_smul (2 : ℝ))).add h4))

end maps2
end smooth

end Ormatex.Props
