import Verif.Props.RsPadeSmall
import Verif.Props.RsConvergeExp
import Verif.Props.ApproxRun
import Verif.Props.ApproxKrylov

/-!
C111: convergence of whole runs of the second order exponential integrators of the Rust crate with approximate kernels, and with the
crate's own kernel (Arnoldi iteration with any orthogonalisation depth and Padé evaluation of the phi functions).
-/

namespace Ormatex.Props
open Filter Asymptotics Topology Matrix Ormatex.Spec Ormatex.Rs
open scoped Classical
open scoped Matrix.Norms.Operator

section
variable {n : ℕ} {σ : Type}

/-- A run of the crate whose steps are controlled while the values so far are good, and whose controlled values are good. -/
theorem rs_tube (I : Integrator σ n) (Inv : σ → ℕ → (ℕ → Vec n) → Prop) (Rel Good : ℕ → (ℕ → Vec n) → Prop)
    (t0 dt : ℝ) (y0 : Vec n) (N : ℕ)
    (hgood : ∀ k ≤ N, ∀ u : ℕ → Vec n, u 0 = y0 → (∀ j < k, Rel j u) → Good k u)
    (hs : ∀ o k u, k < N → Good k u → Inv o k u → ∃ r, I.step o dt = .ok r ∧ I.state (I.accept o r) = .ok r.y ∧
      I.time (I.accept o r) = t0 + (k + 1 : ℕ) * dt ∧ (u (k + 1) = r.y → Rel k u ∧ Inv (I.accept o r) (k + 1) u))
    (s0 : σ) (hst : I.state s0 = .ok y0) (htm : I.time s0 = t0) (h0 : ∀ u : ℕ → Vec n, u 0 = y0 → Inv s0 0 u)
    (osteps : ℕ) (ho : 0 < osteps) :
    ∃ u : ℕ → Vec n, u 0 = y0 ∧ (∀ j < N, Rel j u) ∧ outLoop I dt osteps N 0 s0 [] [] =
      .ok ((outputSteps osteps N).map u, (outputSteps osteps N).map fun i : ℕ => t0 + i * dt) := by
  let nxt : σ → σ := fun s => match I.step s dt with
    | .ok r => I.accept s r
    | .error _ => s
  let S : ℕ → σ := fun i => nxt^[i] s0
  let u : ℕ → Vec n := fun i => match I.state (S i) with
    | .ok y => y
    | .error _ => 0
  have hnext : ∀ i r, I.step (S i) dt = .ok r → S (i + 1) = I.accept (S i) r := by
    intro i r hr
    show nxt^[i + 1] s0 = _
    rw [Function.iterate_succ_apply']
    show (match I.step (S i) dt with | .ok r => I.accept (S i) r | .error _ => S i) = _
    rw [hr]
  have hu : ∀ i y, I.state (S i) = .ok y → u i = y := by
    intro i y h
    show (match I.state (S i) with | .ok y => y | .error _ => 0) = y
    rw [h]
  have hu0 : u 0 = y0 := hu 0 y0 hst
  have key : ∀ i ≤ N, (∀ j < i, Rel j u) ∧ Inv (S i) i u ∧ I.state (S i) = .ok (u i) ∧ I.time (S i) = t0 + i * dt := by
    intro i
    induction i with
    | zero =>
      intro _
      refine ⟨by omega, h0 u hu0, by rw [hu0]; exact hst, ?_⟩
      rw [Nat.cast_zero, zero_mul, add_zero]; exact htm
    | succ i ih =>
      intro hi
      obtain ⟨h1, h2, _, _⟩ := ih (by omega)
      obtain ⟨r, g1, g2, g3, g4⟩ := hs (S i) i u (by omega) (hgood i (by omega) u hu0 h1) h2
      have hS := hnext i r g1
      rw [← hS] at g2 g3 g4
      have hur := hu _ _ g2
      obtain ⟨g5, g6⟩ := g4 hur
      refine ⟨fun j hj => ?_, g6, by rw [hur]; exact g2, g3⟩
      rcases Nat.lt_succ_iff_lt_or_eq.1 hj with h | h
      · exact h1 j h
      · rw [h]; exact g5
  refine ⟨u, hu0, (key N le_rfl).1, ?_⟩
  refine rs_follow I (fun o k => o = S k ∧ I.state o = .ok (u k) ∧ I.time o = t0 + k * dt) u t0 dt N (fun o k h => h.2) ?_ s0
    ⟨rfl, by rw [hu0]; exact hst, by rw [Nat.cast_zero, zero_mul, add_zero]; exact htm⟩ osteps ho
  rintro o k hk ⟨rfl, -, -⟩
  obtain ⟨h1, h2, _, _⟩ := key k hk.le
  obtain ⟨r, g1, _⟩ := hs (S k) k u hk (hgood k hk.le u hu0 h1) h2
  refine ⟨r, g1, (hnext k r g1).symm, ?_⟩
  rw [← hnext k r g1]
  exact (key (k + 1) (by omega)).2.2

/-- A run of the crate whose steps are a smooth step map of order `p` with auxiliary arguments that are, near the solution, within
`K (largest error so far) + ε` of the right ones, is accurate to `C (dt^p + ε)`. -/
theorem rs_converge_run {A : Type*} [NormedAddCommGroup A] [NormedSpace ℝ A] {S : ℝ × ℝ × (Vec n × A) → Vec n} {Y : ℝ → Vec n} {a : ℝ → A}
    {t0 T : ℝ} (p : ℕ) (hp : 1 ≤ p)
    (hS : ∀ t ∈ Set.Icc t0 T, ContDiffAt ℝ 2 S (0, t, (Y t, a t))) (hS0 : ∀ t x, S (0, t, x) = x.1)
    (hY : ∀ t ∈ Set.Icc t0 T, ContinuousAt Y t) (ha : ∀ t ∈ Set.Icc t0 T, ContinuousAt a t)
    (K C0 r1 : ℝ) (hK : 0 ≤ K) (hC0 : 0 ≤ C0) (hr1 : 0 < r1) :
    ∃ C δ : ℝ, 0 ≤ C ∧ 0 < δ ∧ ∀ (dt ε : ℝ) (N : ℕ) (b : ℕ → A), 0 < dt → dt ≤ δ → 0 ≤ ε → ε ≤ δ →
      t0 + N * dt ≤ T →
      (∀ k < N, ‖b k - a (t0 + k * dt)‖ ≤ δ) →
      (∀ k < N, ‖S (dt, t0 + k * dt, (Y (t0 + k * dt), b k)) - Y (t0 + (k + 1 : ℕ) * dt)‖ ≤ C0 * dt ^ (p + 1)) →
      ∀ {σ : Type} (I : Integrator σ n) (Inv : σ → ℕ → (ℕ → Vec n) → Prop) (s0 : σ) (osteps : ℕ), 0 < osteps →
      I.state s0 = .ok (Y t0) → I.time s0 = t0 → (∀ u : ℕ → Vec n, u 0 = Y t0 → Inv s0 0 u) →
      (∀ o k (u : ℕ → Vec n), k < N → u 0 = Y t0 → (∀ j ≤ k, ‖u j - Y (t0 + j * dt)‖ < r1) → Inv o k u → ∃ r al, I.step o dt = .ok r ∧
        I.state (I.accept o r) = .ok r.y ∧ I.time (I.accept o r) = t0 + (k + 1 : ℕ) * dt ∧ r.y = S (dt, t0 + k * dt, (u k, al)) ∧
        ‖al - b k‖ ≤ K * maxErr (fun j => ‖u j - Y (t0 + j * dt)‖) k + ε ∧
        (u (k + 1) = r.y → Inv (I.accept o r) (k + 1) u)) →
      ∃ out, outLoop I dt osteps N 0 s0 [] [] = .ok out ∧ RsRunAccurate out t0 dt osteps N Y (C * (dt ^ p + ε)) := by
  obtain ⟨C, δ, hC, hδ, hmain⟩ := converge_abstract p hp hS hS0 hY ha K C0 r1 hK hC0 hr1
  refine ⟨C, min (min δ 1) (r1 / (4 * (C + 1))), hC, by positivity, ?_⟩
  intro dt ε N b hdt hdtδ hε hεδ hN hb hd σ I Inv s0 osteps ho hst htm h0 hs
  have d1 : dt ≤ δ := hdtδ.trans ((min_le_left _ _).trans (min_le_left _ _))
  have d2 : dt ≤ 1 := hdtδ.trans ((min_le_left _ _).trans (min_le_right _ _))
  have d3 : dt * (4 * (C + 1)) ≤ r1 := by
    have := hdtδ.trans (min_le_right _ _)
    rwa [le_div_iff₀ (by positivity)] at this
  have e1 : ε ≤ δ := hεδ.trans ((min_le_left _ _).trans (min_le_left _ _))
  have e3 : ε * (4 * (C + 1)) ≤ r1 := by
    have := hεδ.trans (min_le_right _ _)
    rwa [le_div_iff₀ (by positivity)] at this
  have hdp : dt ^ p ≤ dt := by
    calc dt ^ p ≤ dt ^ 1 := pow_le_pow_of_le_one hdt.le d2 hp
      _ = dt := pow_one dt
  have hdp0 : 0 ≤ dt ^ p := by positivity
  have hsmall : C * (dt ^ p + ε) < r1 := by nlinarith [mul_nonneg hC hε, mul_nonneg hC hdt.le, mul_le_mul_of_nonneg_left hdp hC]
  set Rel : ℕ → (ℕ → Vec n) → Prop := fun k u => ∃ al, u (k + 1) = S (dt, t0 + k * dt, (u k, al)) ∧
    ‖al - b k‖ ≤ K * maxErr (fun j => ‖u j - Y (t0 + j * dt)‖) k + ε with hRel
  have hbound : ∀ k ≤ N, ∀ u : ℕ → Vec n, u 0 = Y t0 → (∀ j < k, Rel j u) → ∀ j ≤ k, ‖u j - Y (t0 + j * dt)‖ ≤ C * (dt ^ p + ε) := by
    intro k hk u hu0 hr
    have hkT : t0 + (k : ℝ) * dt ≤ T := by
      have h1 : (k : ℝ) ≤ N := by exact_mod_cast hk
      have h2 := mul_le_mul_of_nonneg_right h1 hdt.le
      linarith
    have := hmain t0 dt ε 0 k u (fun j => if h : j < k then (hr j h).choose else 0) b hdt d1 hε e1 le_rfl hδ.le le_rfl hkT
      (by simp [hu0])
      (by
        intro j hj
        simp only [hj, dif_pos]
        exact (hr j hj).choose_spec.1)
      (by
        intro j hj _
        simp only [hj, dif_pos]
        exact (hr j hj).choose_spec.2)
      (fun j hj => (hb j (by omega)).trans ((min_le_left _ _).trans (min_le_left _ _)))
      (fun j hj => hd j (by omega))
    intro j hj
    have h := this j hj
    rwa [add_zero] at h
  obtain ⟨u, g1, g2, g3⟩ := rs_tube I Inv Rel (fun k u => u 0 = Y t0 ∧ ∀ j ≤ k, ‖u j - Y (t0 + j * dt)‖ < r1) t0 dt (Y t0) N
    (fun k hk u hu0 hr => ⟨hu0, fun j hj => (hbound k hk u hu0 hr j hj).trans_lt hsmall⟩)
    (by
      rintro o k u hk ⟨hu0, hg⟩ hi
      obtain ⟨r, al, h1, h2, h3, h4, h5, h6⟩ := hs o k u hk hu0 hg hi
      exact ⟨r, h1, h2, h3, fun hur => ⟨⟨al, by rw [hur, h4], h5⟩, h6 hur⟩⟩)
    s0 hst htm h0 osteps ho
  exact ⟨_, g3, rsAccurate_of (hbound N le_rfl u g1 g2)⟩

/-- **Specification.** The product `phi_1(dt A) v` of a nonzero vector is computed, with relative error at most `κ`, for operators of
norm at most `R`. -/
def ApproxKern (K : Kern n) (dt R κ : ℝ) : Prop :=
  ∀ (A : LinOp n) (M : Mat n), IsMatrix A M → ‖M‖ ≤ R → ∀ v : Vec n, v ≠ 0 → ∃ w, K.phi A dt v 1 = .ok w ∧
    ‖w - phiM 1 (dt • M) *ᵥ v‖ ≤ κ * ‖v‖

/-- one step of the second order methods with an approximate kernel -/
theorem rs_step2_approx {K : Kern n} {dt R κ : ℝ} (hK : ApproxKern K dt R κ) {sys : Sys n} (hj : ExactJacsRs sys) (s : Epirk n) {t : ℝ}
    {y : Vec n} (hs : AtRs s t y) (hdt : 0 < dt) (hf : sys.frhs t y ≠ 0) (hR : ‖jacM sys.frhs (t, y)‖ ≤ R) :
    ∃ d : Vec n, ‖d‖ ≤ κ * ‖sys.frhs t y‖ ∧
      Epirk.stepOrder2 K sys s dt = .ok ⟨t + dt, dt, stageE sys.frhs 1 0 (dt, t, (y, (0, fun _ => d))), none⟩ := by
  have hJ := (hj.deriv t y).1
  obtain ⟨w, hw, he⟩ := hK _ _ hJ hR (dt • sys.frhs t y) (smul_ne_zero hdt.ne' hf)
  have hphi2 : ∃ v, Epirk.fphi2V K sys s (sys.frhs t y) (sys.fjac t y) dt = .ok (0, v) := by
    unfold Epirk.fphi2V
    by_cases h : s.tolFdt < 0
    · rw [if_pos h]; exact ⟨_, rfl⟩
    · rw [if_neg h]
      have hv : Epirk.frhsFdt sys s (sys.frhs t y) 1e-8 = .ok (rsFdt sys t y) := by
        unfold Epirk.frhsFdt
        rw [hs.yNew, hs.time]
        rfl
      rw [hv, rsFdt_zero hj]
      refine ⟨0, ?_⟩
      show (if ‖(0 : Vec n)‖ > s.tolFdt then _ else _) = _
      rw [norm_zero, if_neg h]
      rfl
  obtain ⟨v, hv⟩ := hphi2
  refine ⟨dt⁻¹ • (w - phiM 1 (dt • jacM sys.frhs (t, y)) *ᵥ (dt • sys.frhs t y)), ?_, ?_⟩
  · rw [norm_smul, Real.norm_of_nonneg (by positivity), inv_mul_le_iff₀ hdt]
    refine he.trans (le_of_eq ?_)
    rw [norm_smul, Real.norm_of_nonneg hdt.le]
    ring
  · unfold Epirk.stepOrder2
    rw [hs.yNew, hs.time]
    simp only [Bind.bind, Except.bind, Pure.pure, Except.pure, hv, hw]
    congr 2
    unfold stageE rosEuler
    simp only [one_mul, one_pow, smul_zero, Matrix.mulVec_zero, add_zero, smul_inv_smul₀ hdt.ne', Matrix.mulVec_smul]
    abel

/-- **C111, approximate kernels.**  Let `Y` solve the autonomous smooth system on a neighbourhood of `[t0, T]` and never be at an
equilibrium there.  There are constants `C`, `δ > 0` and `R`, depending on the problem only, such that every run of `epi2` or
`exprb2` with `dt ≤ δ` and a kernel accurate to `κ ≤ δ` for operators of norm at most `R` succeeds and every output state is within
`C (dt^2 + κ)` of `Y` at its time. -/
theorem C111_approx (sys : Sys n) (hj : ExactJacsRs sys) (m : String) (hm : m = "epi2" ∨ m = "exprb2") (Y : ℝ → Vec n) (t0 T : ℝ)
    (hY : ∀ t ∈ Set.Icc t0 T, SmoothIVP sys.frhs 4 t Y) (hne : ∀ t ∈ Set.Icc t0 T, sys.frhs t (Y t) ≠ 0) :
    ∃ C δ R : ℝ, 0 ≤ C ∧ 0 < δ ∧ 0 ≤ R ∧ ∀ (K : Kern n) (dt κ tol : ℝ) (N osteps : ℕ) (s1 s0 : Epirk n), 0 < dt → dt ≤ δ → 0 ≤ κ → κ ≤ δ →
      ApproxKern K dt R κ → t0 + N * dt ≤ T → 0 < osteps →
      Epirk.new t0 (Y t0) m = .ok s1 → s1.withOpt "tol_fdt" tol = .ok s0 →
      ∃ out, outLoop (Epirk.integrator K sys) dt osteps N 0 s0 [] [] = .ok out ∧
        RsRunAccurate out t0 dt osteps N Y (C * (dt ^ 2 + κ)) := by
  set f := sys.frhs with hfdef
  have hord := (rbMap_facts (f := f) (m := "exprb2") (p := 2) (by simp [rbOrders])).2.2.2
  have hmap : rbMapE (n := n) "exprb2" f = stageE f 1 0 := by unfold rbMapE; simp
  have hdz : ∀ t y, dtM f (t, y) = 0 := fun t y => (hj.deriv t y).2
  obtain ⟨B, ρ, hB, hρ, htube⟩ := rb_tube (f := f) (Y := Y) (t0 := t0) (T := T) fun t ht => (hY t ht).mono (by norm_num)
  obtain ⟨r, hr, hnz⟩ := nonzero_tube (fun t ht => (hY t ht).mono (by norm_num : 2 ≤ 4)) hne
  have hsm1 : ∀ t ∈ Set.Icc t0 T, ContDiffAt ℝ (2 + 1 : ℕ) (stageE f 1 0) (0, t, (Y t, ((0, 0) : Aux n))) :=
    fun t ht => stageE_smooth (m := 3) (hY t ht).smooth _ 1 0
  obtain ⟨C0, δ0, hC0, hδ0, hdef⟩ := uniform_defect (S := stageE f 1 0) (f := f) (Y := Y) (β := fun _ _ => ((0, 0) : Aux n))
    (t0 := t0) (T := T) 2 4 (by norm_num) hY hsm1 (fun t ht => contDiffAt_const)
    (fun t h => by
      have := hord t Y (h.mono (by norm_num))
      rw [hdz] at this
      simp only [← rbMapE_zero_err, hmap] at this
      exact this)
  obtain ⟨C, δ, hC, hδ, hmain⟩ := rs_converge_run (n := n) (S := stageE f 1 0) (Y := Y) (a := fun _ => ((0, 0) : Aux n)) (t0 := t0) (T := T)
    2 (by norm_num) (fun t ht => (hsm1 t ht).of_le (by norm_cast)) (fun t x => stageE_zero 1 0 x)
    (fun t ht => (hY t ht).contDiff.continuousAt) (fun t ht => continuousAt_const) 0 C0 (min r ρ) le_rfl hC0 (by positivity)
  refine ⟨C * (B + 1), min (min δ (δ0 / 2)) (δ / (B + 1)), B, by positivity, by positivity, hB, ?_⟩
  intro K dt κ tol N osteps s1 s0 hdt hdtδ hκ hκδ hK hN ho hn1 hn0
  have a1 : dt ≤ δ := hdtδ.trans ((min_le_left _ _).trans (min_le_left _ _))
  have a2 : dt ≤ δ0 / 2 := hdtδ.trans ((min_le_left _ _).trans (min_le_right _ _))
  have a3 : κ * (B + 1) ≤ δ := by
    have := hκδ.trans (min_le_right _ _)
    rwa [le_div_iff₀ (by positivity)] at this
  have hin : ∀ k < N, t0 + (k : ℝ) * dt ∈ Set.Icc t0 T := by
    intro k hk
    have h1 : (k : ℝ) ≤ N := by exact_mod_cast hk.le
    have h2 := mul_le_mul_of_nonneg_right h1 hdt.le
    have h3 : 0 ≤ (k : ℝ) * dt := by positivity
    constructor <;> linarith
  obtain ⟨g1, g2, g3, g4⟩ := epirk_built hn1 hn0
  obtain ⟨out, hout, hacc⟩ := hmain dt (κ * B) N (fun _ => (0, 0)) hdt a1 (by positivity) (by nlinarith) hN
    (by intro k hk; simpa using hδ.le)
    (by
      intro k hk
      have h1 := hdef _ (hin k hk) dt (by rw [abs_of_pos hdt]; linarith)
      rw [abs_of_pos hdt] at h1
      have e : t0 + ((k + 1 : ℕ) : ℝ) * dt = t0 + k * dt + dt := by push_cast; ring
      rw [e]; exact h1)
    (Epirk.integrator K sys) (fun o k u => o.method = m ∧ AtRs o (t0 + k * dt) (u k)) s0 osteps ho
    (by show rsGet s0.yHist 0 = _; rw [g3]; rfl) g2
    (fun u hu0 => ⟨g1, ⟨by simp [g2], by rw [g4]; simp [rsGet], by rw [g3, hu0]; rfl⟩⟩)
    (by
      rintro o k u hk hu0 hclose ⟨e1, e2⟩
      have hyk := hclose k le_rfl
      have htk := hin k hk
      obtain ⟨b1, -, b3, -, -⟩ := htube _ htk (u k) 0 0 0 (hyk.trans_le (min_le_right _ _)) (by rw [hdz]; simpa using hρ)
        (by simpa using hρ) (by simpa using hρ)
      obtain ⟨d, hd, hstep⟩ := rs_step2_approx hK hj o e2 hdt (hnz _ htk _ (hyk.trans_le (min_le_left _ _))) b3
      refine ⟨StepRes.mk (t0 + k * dt + dt) dt (stageE f 1 0 (dt, t0 + k * dt, (u k, (0, fun _ => d)))) none, (0, fun _ => d),
        ?_, rfl, ?_, rfl, ?_, fun hu => ⟨e1, ?_⟩⟩
      · show Epirk.step K sys o dt = _
        unfold Epirk.step
        rw [e1, if_pos hm]
        exact hstep
      · show t0 + k * dt + dt = _
        push_cast; ring
      · rw [zero_mul, zero_add, Prod.mk_sub_mk, sub_zero, sub_zero, Prod.norm_mk, norm_zero]
        refine max_le (by positivity) ?_
        refine (pi_norm_le_iff_of_nonneg (by positivity)).2 fun _ => hd.trans ?_
        exact mul_le_mul_of_nonneg_left b1 hκ
      · have e : t0 + ((k + 1 : ℕ) : ℝ) * dt = t0 + k * dt + dt := by push_cast; ring
        rw [e, hu]
        exact ⟨rfl, rfl, rfl⟩)
  refine ⟨out, hout, hacc.1, hacc.2.1, fun i y t hy ht => (hacc.2.2 i y t hy ht).trans ?_⟩
  rw [mul_assoc]
  refine mul_le_mul_of_nonneg_left ?_ hC
  have : 0 ≤ dt ^ 2 := by positivity
  nlinarith [mul_nonneg hB this]

/-- the crate's own kernel -/
theorem padeKrylov_approx (m iom : ℕ) (hm : 0 < m) (hdim : 2 ≤ min n m ∨ (n ≤ m ∧ n ≤ iom + 1)) {dt R : ℝ} (hdt : 0 < dt) (hR : 0 ≤ R)
    (hsm : 14 * n ^ 2 * (Real.sqrt (iom + 2) * (Real.sqrt n * R * dt)) ≤ 1) :
    ApproxKern ((KrylovExpm.mk padeKernel m iom).kern n) dt R
      (Real.sqrt n * (rsKrylovConst n 1 2 iom * ((Real.sqrt n * R) ^ 2 + 1)) * (dt ^ 2 + 1e-12 * dt)) := by
  intro A M hA hM v hv
  set ρ := Real.sqrt n * R * dt with hρ
  have hρ0 : 0 ≤ ρ := by positivity
  have hρM : ∀ x, norm2 ((dt • M) *ᵥ x) ≤ ρ * norm2 x := fun x => by
    refine (norm2_mulVec_le _ x).trans (mul_le_mul_of_nonneg_right ?_ (norm2_nonneg x))
    rw [norm_smul, Real.norm_of_nonneg hdt.le]
    calc Real.sqrt n * (dt * ‖M‖) ≤ Real.sqrt n * (dt * R) := by gcongr
      _ = ρ := by rw [hρ]; ring
  obtain ⟨w, hw, he⟩ := C111_phi m iom hm A M hA dt v hv 1 2 (by norm_num) (by norm_num) (by norm_num) hdim ρ hρ0 hρM
    (by push_cast; refine le_trans (le_of_eq ?_) hsm; ring)
  refine ⟨w, hw, (norm_le_norm2 _).trans (he.trans ?_)⟩
  have hD := rsKrylovConst_nonneg n 1 2 iom
  set D := rsKrylovConst n 1 2 iom
  have hb : ρ ^ 2 + |dt| * 1e-12 ≤ ((Real.sqrt n * R) ^ 2 + 1) * (dt ^ 2 + 1e-12 * dt) := by
    rw [abs_of_pos hdt, hρ]
    have h1 : 0 ≤ (Real.sqrt n * R) ^ 2 * (1e-12 * dt) := by positivity
    have h2 : 0 ≤ dt ^ 2 := by positivity
    nlinarith
  have h0 : 0 ≤ D * (ρ ^ 2 + |dt| * 1e-12) := by positivity
  calc norm2 v * (D * (ρ ^ 2 + |dt| * 1e-12)) ≤ (Real.sqrt n * ‖v‖) * (D * (ρ ^ 2 + |dt| * 1e-12)) :=
        mul_le_mul_of_nonneg_right (norm2_le_norm v) h0
    _ ≤ (Real.sqrt n * ‖v‖) * (D * (((Real.sqrt n * R) ^ 2 + 1) * (dt ^ 2 + 1e-12 * dt))) := by gcongr
    _ = _ := by ring

/-- **C111, the crate as it is.**  `epi2` and `exprb2` with the crate's own kernel: an Arnoldi iteration of any orthogonalisation depth
`iom` with at least two vectors (one if there is one unknown), whose projected phi functions come from the Padé tables with scaling
and squaring.  For every autonomous smooth system with exact Jacobians and every solution that stays away from equilibria there are
`C` and `δ > 0` such that for every Krylov dimension, every step `dt ≤ δ`, number of steps and output stride the run succeeds and
every output state is within `C (dt^2 + 1e-12 dt)` of the solution; `1e-12` is the breakdown tolerance. -/
theorem C111_converge (sys : Sys n) (hj : ExactJacsRs sys) (me : String) (hme : me = "epi2" ∨ me = "exprb2") (Y : ℝ → Vec n) (t0 T : ℝ)
    (hY : ∀ t ∈ Set.Icc t0 T, SmoothIVP sys.frhs 4 t Y) (hne : ∀ t ∈ Set.Icc t0 T, sys.frhs t (Y t) ≠ 0) (iom : ℕ) :
    ∃ C δ : ℝ, 0 ≤ C ∧ 0 < δ ∧ ∀ (m : ℕ) (dt tol : ℝ) (N osteps : ℕ) (s1 s0 : Epirk n), 0 < m →
      (2 ≤ min n m ∨ (n ≤ m ∧ n ≤ iom + 1)) → 0 < dt → dt ≤ δ → t0 + N * dt ≤ T → 0 < osteps →
      Epirk.new t0 (Y t0) me = .ok s1 → s1.withOpt "tol_fdt" tol = .ok s0 →
      ∃ out, outLoop (Epirk.integrator ((KrylovExpm.mk padeKernel m iom).kern n) sys) dt osteps N 0 s0 [] [] = .ok out ∧
        RsRunAccurate out t0 dt osteps N Y (C * (dt ^ 2 + 1e-12 * dt)) := by
  obtain ⟨C, δ, R, hC, hδ, hR, h⟩ := C111_approx sys hj me hme Y t0 T hY hne
  set D := Real.sqrt n * (rsKrylovConst n 1 2 iom * ((Real.sqrt n * R) ^ 2 + 1)) with hD
  have hD0 : 0 ≤ D := by
    have := rsKrylovConst_nonneg n 1 2 iom
    positivity
  set S := 14 * (n : ℝ) ^ 2 * (Real.sqrt (iom + 2) * (Real.sqrt n * R)) with hS
  have hS0 : 0 ≤ S := by positivity
  refine ⟨C * (D + 1), min (min δ 1) (min (δ / (2 * D + 1)) (1 / (S + 1))), by positivity, by positivity, ?_⟩
  intro m dt tol N osteps s1 s0 hm hdim h1 h2 h3 ho hn1 hn0
  have hd1 : dt ≤ 1 := h2.trans ((min_le_left _ _).trans (min_le_right _ _))
  have hdδ : dt ≤ δ := h2.trans ((min_le_left _ _).trans (min_le_left _ _))
  have hdD : dt ≤ δ / (2 * D + 1) := h2.trans ((min_le_right _ _).trans (min_le_left _ _))
  have hdS : dt ≤ 1 / (S + 1) := h2.trans ((min_le_right _ _).trans (min_le_right _ _))
  have hsm : S * dt ≤ 1 := by
    rw [le_div_iff₀ (by positivity)] at hdS
    nlinarith
  have hp0 : 0 ≤ dt ^ 2 := by positivity
  have hpd : dt ^ 2 ≤ dt := by nlinarith
  have hκ : D * (dt ^ 2 + 1e-12 * dt) ≤ δ := by
    rw [le_div_iff₀ (by positivity)] at hdD
    have : dt ^ 2 + 1e-12 * dt ≤ 2 * dt := by nlinarith
    nlinarith [mul_le_mul_of_nonneg_left this hD0]
  obtain ⟨out, ho1, ho2⟩ := h _ dt (D * (dt ^ 2 + 1e-12 * dt)) tol N osteps s1 s0 h1 hdδ (by positivity) hκ
    (padeKrylov_approx m iom hm hdim h1 hR (by refine le_trans (le_of_eq ?_) hsm; rw [hS]; ring)) h3 ho hn1 hn0
  refine ⟨out, ho1, ho2.1, ho2.2.1, fun i y t hy ht => (ho2.2.2 i y t hy ht).trans ?_⟩
  refine le_trans ?_ (le_of_eq (mul_assoc C (D + 1) (dt ^ 2 + 1e-12 * dt)).symm)
  refine mul_le_mul_of_nonneg_left ?_ hC
  nlinarith

/-- on `y' = y^2`, `y(0) = 1`, the crate's `exprb2` with its own kernel and one Krylov vector has order two on `[0, 1/2]`, up to the
breakdown tolerance -/
example : ∃ C δ : ℝ, 0 ≤ C ∧ 0 < δ ∧ ∀ (dt : ℝ) (N : ℕ), 0 < dt → dt ≤ δ → N * dt ≤ 1 / 2 →
    ∃ s0 out, Epirk.new 0 (fun _ => 1) "exprb2" = .ok s0 ∧
      outLoop (Epirk.integrator ((KrylovExpm.mk padeKernel 1 2).kern 1) squareSys) dt 2 N 0 s0 [] [] = .ok out ∧
      RsRunAccurate out 0 dt 2 N (fun s _ => (1 - s)⁻¹) (C * (dt ^ 2 + 1e-12 * dt)) := by
  obtain ⟨C, δ, hC, hδ, h⟩ := C111_converge squareSys squareSys_exact "exprb2" (Or.inr rfl) (fun s _ => (1 - s)⁻¹) 0 (1 / 2)
    (fun t ht => squareSys_smooth 4 t (by linarith [ht.2])) (fun t ht h0 => by
      have := congrFun h0 0
      simp only [squareSys, Pi.zero_apply] at this
      have h1 : (0 : ℝ) < 1 - t := by linarith [ht.2]
      have h2 := inv_pos.2 h1
      nlinarith [pow_pos h2 2]) 2
  refine ⟨C, δ, hC, hδ, fun dt N h1 h2 h3 => ?_⟩
  obtain ⟨out, h4, h5⟩ := h 1 dt (-1) N 2 ⟨2, "exprb2", 0, -1, [fun _ => 1], [0]⟩ ⟨2, "exprb2", 0, -1, [fun _ => 1], [0]⟩ one_pos
    (Or.inr ⟨le_rfl, by norm_num⟩) h1 h2 (by linarith)
    (by norm_num) (by simp [Epirk.new, Bind.bind, Except.bind, Pure.pure, Except.pure]) rfl
  exact ⟨_, out, by simp [Epirk.new, Bind.bind, Except.bind, Pure.pure, Except.pure], h4, h5⟩

end
end Ormatex.Props
