import Verif.Props.ConvergeRun
import Verif.Props.RsRk
import Verif.Props.RsImplicit
import Mathlib.Analysis.Calculus.ContDiff.Operations

/-!
C106: convergence of whole runs of the Rust integrators: explicit Runge-Kutta on any smooth system, and the implicit methods of
`integrate_wrapper_rs` on affine systems.
-/

namespace Ormatex.Props
open Filter Asymptotics Topology Matrix Ormatex.Spec Ormatex.Rs
open scoped Classical

section
variable {n : ℕ} {σ : Type}

/-- **Specification.** The output of a run from `t0` with `N` steps of size `dt` that keeps the steps `0, osteps, 2 osteps, ...`
and the last one: the times are `t0 + i dt` for these steps `i`, there is one state per time, and every state is within `bound` of
the exact solution at its time. -/
def RsRunAccurate (out : List (Vec n) × List ℝ) (t0 dt : ℝ) (osteps N : ℕ) (Y : ℝ → Vec n) (bound : ℝ) : Prop :=
  out.2 = (outputSteps osteps N).map (fun i : ℕ => t0 + i * dt) ∧ out.1.length = out.2.length ∧
    ∀ (i : ℕ) (y : Vec n) (t : ℝ), out.1[i]? = some y → out.2[i]? = some t → ‖y - Y t‖ ≤ bound

/-- A run whose objects satisfy an invariant that determines time and state. -/
theorem rs_follow (I : Integrator σ n) (Inv : σ → ℕ → Prop) (u : ℕ → Vec n) (t0 dt : ℝ) (N : ℕ)
    (hobs : ∀ o k, Inv o k → I.state o = .ok (u k) ∧ I.time o = t0 + k * dt)
    (hs : ∀ o k, k < N → Inv o k → ∃ r, I.step o dt = .ok r ∧ Inv (I.accept o r) (k + 1))
    (s0 : σ) (h0 : Inv s0 0) (osteps : ℕ) (ho : 0 < osteps) :
    outLoop I dt osteps N 0 s0 [] [] =
      .ok ((outputSteps osteps N).map u, (outputSteps osteps N).map fun i : ℕ => t0 + i * dt) := by
  let nxt : σ → σ := fun s => match I.step s dt with
    | .ok r => I.accept s r
    | .error _ => s
  let S : ℕ → σ := fun i => nxt^[i] s0
  have hnext : ∀ i r, I.step (S i) dt = .ok r → S (i + 1) = I.accept (S i) r := by
    intro i r hr
    show nxt^[i + 1] s0 = _
    rw [Function.iterate_succ_apply']
    show (match I.step (S i) dt with | .ok r => I.accept (S i) r | .error _ => S i) = _
    rw [hr]
  have hinv : ∀ i ≤ N, Inv (S i) i := by
    intro i
    induction i with
    | zero => intro _; exact h0
    | succ i ih =>
      intro hi
      obtain ⟨r, hr, h⟩ := hs (S i) i (by omega) (ih (by omega))
      rw [hnext i r hr]; exact h
  have hst : I.Stepping dt N S := by
    intro i hi
    obtain ⟨r, hr, _⟩ := hs (S i) i hi (hinv i hi.le)
    exact ⟨r, hr, hnext i r hr⟩
  have := C69_output I dt osteps ho N S hst u (fun i hi => (hobs _ _ (hinv i hi)).1)
  refine this.trans ?_
  congr 2
  apply List.map_congr_left
  intro i hi
  refine (hobs _ _ (hinv i ?_)).2
  simp only [outputSteps, List.mem_append, List.mem_filter, List.mem_range, List.mem_singleton] at hi
  omega

theorem rsAccurate_of {t0 dt : ℝ} {osteps N : ℕ} {Y : ℝ → Vec n} {bound : ℝ} {u : ℕ → Vec n}
    (h : ∀ k ≤ N, ‖u k - Y (t0 + k * dt)‖ ≤ bound) :
    RsRunAccurate ((outputSteps osteps N).map u, (outputSteps osteps N).map fun i : ℕ => t0 + i * dt) t0 dt osteps N Y bound := by
  refine ⟨rfl, by simp, ?_⟩
  intro i y t hy ht
  simp only [List.getElem?_map, Option.map_eq_some_iff] at hy ht
  obtain ⟨a, ha, rfl⟩ := hy
  obtain ⟨a', ha', rfl⟩ := ht
  obtain rfl : a = a' := Option.some.inj (ha.symm.trans ha')
  refine h a ?_
  have hm := List.mem_of_getElem? ha
  simp only [outputSteps, List.mem_append, List.mem_filter, List.mem_range, List.mem_singleton] at hm
  omega

/-- the iterates of a smooth one-step map whose order `p` is known under more smoothness -/
theorem plain_converge' {f : ℝ → Vec n → Vec n} {Y : ℝ → Vec n} {t0 T : ℝ} (Φ : ℝ → ℝ → Vec n → Vec n) (p m : ℕ) (hp : 1 ≤ p)
    (hm : p ≤ m)
    (hY : ∀ t ∈ Set.Icc t0 T, SmoothIVP f m t Y) (hz : ∀ t y, Φ 0 t y = y)
    (hsm : ∀ t ∈ Set.Icc t0 T, ContDiffAt ℝ (p + 1 : ℕ) (fun q : ℝ × ℝ × (Vec n × Vec n) => Φ q.1 q.2.1 q.2.2.1) (0, t, (Y t, 0)))
    (hord : ∀ t, SmoothIVP f m t Y → (fun h => Φ h t (Y t) - Y (t + h)) =O[𝓝 0] fun h => h ^ (p + 1)) :
    ∃ C δ : ℝ, 0 ≤ C ∧ 0 < δ ∧ ∀ (ts dt η : ℝ) (N : ℕ) (u : ℕ → Vec n), t0 ≤ ts → 0 < dt → dt ≤ δ → ts + N * dt ≤ T →
      0 ≤ η → η ≤ δ → ‖u 0 - Y ts‖ ≤ η → (∀ k < N, u (k + 1) = Φ dt (ts + k * dt) (u k)) →
      ∀ k ≤ N, ‖u k - Y (ts + k * dt)‖ ≤ C * (dt ^ p + η) := by
  obtain ⟨C0, δ0, hC0, hδ0, hdef⟩ := uniform_defect (S := fun q : ℝ × ℝ × (Vec n × Vec n) => Φ q.1 q.2.1 q.2.2.1) (f := f) (Y := Y)
    (β := fun _ _ => (0 : Vec n)) (t0 := t0) (T := T) p m hm hY hsm (fun t ht => contDiffAt_const)
    (fun t h => hord t h)
  obtain ⟨C, δ, hC, hδ, hmain⟩ := converge_abstract (S := fun q : ℝ × ℝ × (Vec n × Vec n) => Φ q.1 q.2.1 q.2.2.1) (Y := Y)
    (a := fun _ => (0 : Vec n)) (t0 := t0) (T := T)
    p hp (fun t ht => (hsm t ht).of_le (by norm_cast; omega)) (fun t x => hz t x.1)
    (fun t ht => (hY t ht).contDiff.continuousAt) (fun t ht => continuousAt_const) 0 C0 1 le_rfl hC0 one_pos
  refine ⟨C, min δ (δ0 / 2), hC, by positivity, ?_⟩
  intro ts dt η N u hts hdt0 hdtδ hN hη hηδ hu0 hu
  have hin : ∀ k < N, ts + (k : ℝ) * dt ∈ Set.Icc t0 T := by
    intro k hk
    have h1 : (k : ℝ) ≤ N := by exact_mod_cast hk.le
    have h2 := mul_le_mul_of_nonneg_right h1 hdt0.le
    have h3 : 0 ≤ (k : ℝ) * dt := by positivity
    constructor <;> linarith
  have := hmain ts dt 0 η N u (fun _ => 0) (fun _ => 0)
    hdt0 (hdtδ.trans (min_le_left _ _)) le_rfl hδ.le hη (hηδ.trans (min_le_left _ _)) hts hN hu0
    hu (by intro k hk _; simp) (by intro k hk; simpa using hδ.le)
    (by
      intro k hk
      have h1 := hdef _ (hin k hk) dt (by
        rw [abs_of_pos hdt0]
        have : dt ≤ δ0 / 2 := hdtδ.trans (min_le_right _ _)
        linarith)
      rw [abs_of_pos hdt0] at h1
      have e : ts + ((k + 1 : ℕ) : ℝ) * dt = ts + k * dt + dt := by push_cast; ring
      rw [e]; exact h1)
  intro k hk
  have h := this k hk
  rw [add_zero] at h
  exact h

/-! ### explicit Runge-Kutta -/

theorem rkClosed_zero (f : ℝ → Vec n → Vec n) (t : ℝ) (y : Vec n) (p : ℕ) : rkClosed f t y 0 p = y := by
  unfold rkClosed
  split <;> simp

theorem rkClosed_smooth {f : ℝ → Vec n → Vec n} {m : ℕ} {t : ℝ} {y : Vec n}
    (hf : ContDiffAt ℝ m (fun p : ℝ × Vec n => f p.1 p.2) (t, y)) (p : ℕ) :
    ContDiffAt ℝ m (fun q : ℝ × ℝ × (Vec n × Vec n) => rkClosed f q.2.1 q.2.2.1 q.1 p) (0, t, (y, 0)) := by
  have hh : ContDiffAt ℝ m (fun q : ℝ × ℝ × (Vec n × Vec n) => q.1) (0, t, (y, (0 : Vec n))) := by fun_prop
  have hc : ContDiffAt ℝ m (fun q : ℝ × ℝ × (Vec n × Vec n) => q.1 / 2) (0, t, (y, (0 : Vec n))) := by fun_prop
  have hd : ContDiffAt ℝ m (fun q : ℝ × ℝ × (Vec n × Vec n) => q.1 / 6) (0, t, (y, (0 : Vec n))) := by fun_prop
  have he : ContDiffAt ℝ m (fun q : ℝ × ℝ × (Vec n × Vec n) => 2 * q.1) (0, t, (y, (0 : Vec n))) := by fun_prop
  have hy : ContDiffAt ℝ m (fun q : ℝ × ℝ × (Vec n × Vec n) => q.2.2.1) (0, t, (y, (0 : Vec n))) := by fun_prop
  have h1 := smoothF' hf
  have h2 := comp_contDiffAt (τ := fun q : ℝ × ℝ × (Vec n × Vec n) => q.2.1) hf (by fun_prop)
    (hy.add (hc.smul h1)) (by simp) (by simp)
  unfold rkClosed
  split
  · exact hy.add (hh.smul h1)
  · exact hy.add (hh.smul h2)
  · have h3 := comp_contDiffAt (τ := fun q : ℝ × ℝ × (Vec n × Vec n) => q.2.1 + q.1 / 2) hf (by fun_prop)
      ((hy.sub (hh.smul h1)).add (he.smul h2)) (by simp) (by simp)
    exact hy.add (hd.smul ((h1.add (h2.const_smul (4 : ℝ))).add h3))
  · have h3 := comp_contDiffAt (τ := fun q : ℝ × ℝ × (Vec n × Vec n) => q.2.1 + q.1 / 2) hf (by fun_prop)
      (hy.add (hc.smul h2)) (by simp) (by simp)
    have h4 := comp_contDiffAt (τ := fun q : ℝ × ℝ × (Vec n × Vec n) => q.2.1 + q.1 / 2) hf (by fun_prop)
      (hy.add (hh.smul h3)) (by simp) (by simp)
    exact hy.add (hd.smul (((h1.add (h2.const_smul (2 : ℝ))).add (h3.const_smul (2 : ℝ))).add h4))

/-- a run of the Runge-Kutta integrator computes the iterates of the step map -/
theorem rk_run (sys : Sys n) (t0 : ℝ) (y0 : Vec n) (p : ℕ) (s0 : Rk n) (h : Rk.new t0 y0 p = .ok s0) (dt : ℝ) (N osteps : ℕ)
    (ho : 0 < osteps) :
    outLoop (Rk.integrator sys) dt osteps N 0 s0 [] [] =
      .ok ((outputSteps osteps N).map (iterSeq (fun t y => rkClosed sys.frhs t y dt p) t0 dt y0),
        (outputSteps osteps N).map fun i : ℕ => t0 + i * dt) := by
  have hp : p ∈ [1, 2, 3, 4] := by
    unfold Rk.new at h
    split at h <;> first | (cases h; done) | simp
  have hs := rk_new h
  refine rs_follow (Rk.integrator sys) (fun o k => o.order = p ∧ o.bt = btFactory p ∧ o.t = t0 + k * dt ∧
    ∃ l, o.yHist = iterSeq (fun t y => rkClosed sys.frhs t y dt p) t0 dt y0 k :: l) _ t0 dt N ?_ ?_ s0 ?_ osteps ho
  · rintro o k ⟨-, -, h3, l, h4⟩
    refine ⟨?_, h3⟩
    show rsGet o.yHist 0 = _
    rw [h4]; rfl
  · rintro o k - ⟨h1, h2, h3, l, h4⟩
    refine ⟨_, rk_closed sys o _ l h4 p hp h1 h2 dt, h1, h2, ?_, o.yHist, ?_⟩
    · show o.t + dt = _
      rw [h3]; push_cast; ring
    · show _ :: o.yHist = _
      rw [h3]; rfl
  · rw [hs]
    exact ⟨rfl, rfl, by simp, [], rfl⟩

/-- **C106, explicit Runge-Kutta.**  Let `Y` solve the smooth system `y' = f(t, y)` on a neighbourhood of `[t0, T]`.  A run of the
Rust Runge-Kutta integrator of order `p = 1, ..., 4` from `Y t0` with `N` steps of size `dt` that stays in `[t0, T]` succeeds, and
for all small step sizes every output state is within `C dt^q` of `Y` at its time, where `q = p` for autonomous systems and `q = 1`
otherwise (`C77_false` shows that the order really drops). -/
theorem C106_rk (sys : Sys n) (p q : ℕ) (hp : p ∈ [1, 2, 3, 4])
    (hq : q = 1 ∨ q = p ∧ ∀ t t' y, sys.frhs t y = sys.frhs t' y) (Y : ℝ → Vec n) (t0 T : ℝ)
    (hY : ∀ t ∈ Set.Icc t0 T, SmoothIVP sys.frhs 5 t Y) :
    ∃ C δ : ℝ, 0 ≤ C ∧ 0 < δ ∧ ∀ (dt : ℝ) (N osteps : ℕ) (s0 : Rk n), 0 < dt → dt ≤ δ → t0 + N * dt ≤ T → 0 < osteps →
      Rk.new t0 (Y t0) p = .ok s0 →
      ∃ out, outLoop (Rk.integrator sys) dt osteps N 0 s0 [] [] = .ok out ∧
        RsRunAccurate out t0 dt osteps N Y (C * dt ^ q) := by
  have hp4 : p ≤ 4 ∧ 1 ≤ p := by
    simp only [List.mem_cons, List.not_mem_nil, or_false] at hp
    omega
  have hord : ∀ t, SmoothIVP sys.frhs 5 t Y →
      (fun s => rkClosed sys.frhs t (Y t) s p - Y (t + s)) =O[𝓝 0] fun s : ℝ => s ^ (q + 1) := by
    intro t h
    have h3 : SmoothIVP sys.frhs 3 t Y := h.mono (by norm_num)
    rcases hq with rfl | ⟨rfl, hf⟩
    · exact rk_consistent h3 p hp
    · simp only [List.mem_cons, List.not_mem_nil, or_false] at hp
      rcases hp with rfl | rfl | rfl | rfl
      · exact rk1_order h3
      · exact rk2_order h3 hf
      · exact rk3_order h3 hf
      · refine (rk4_order (h.mono (by norm_num : 4 ≤ 5))).congr_left fun s => ?_
        simp only [rk4_classical hf]
  obtain ⟨C, δ, hC, hδ, hmain⟩ := plain_converge' (f := sys.frhs) (Y := Y) (t0 := t0) (T := T)
    (fun h t y => rkClosed sys.frhs t y h p) q 5 (by rcases hq with rfl | ⟨rfl, _⟩ <;> omega)
    (by rcases hq with rfl | ⟨rfl, _⟩ <;> omega) hY
    (fun t y => rkClosed_zero _ _ _ _)
    (fun t ht => (rkClosed_smooth (hY t ht).smooth p).of_le (by
      have : q + 1 ≤ 5 := by rcases hq with rfl | ⟨rfl, _⟩ <;> omega
      exact_mod_cast this)) hord
  refine ⟨C, δ, hC, hδ, ?_⟩
  intro dt N osteps s0 h1 h2 h3 ho hnew
  refine ⟨_, rk_run sys t0 (Y t0) p s0 hnew dt N osteps ho, rsAccurate_of ?_⟩
  have := hmain t0 dt 0 N (iterSeq (fun t y => rkClosed sys.frhs t y dt p) t0 dt (Y t0)) le_rfl h1 h2 h3 le_rfl hδ.le
    (by simp [iterSeq]) (fun k _ => rfl)
  simpa using this

/-! ### implicit methods on affine systems -/

section implicit
open scoped Matrix.Norms.Operator

/-- backward Euler step for `y' = A y + b` -/
noncomputable def beMap (A : Mat n) (b : Vec n) (h : ℝ) (y : Vec n) : Vec n := (1 - h • A)⁻¹ *ᵥ (y + h • b)

/-- Crank-Nicolson step for `y' = A y + b` -/
noncomputable def cnMap (A : Mat n) (b : Vec n) (h : ℝ) (y : Vec n) : Vec n :=
  (1 - (h / 2) • A)⁻¹ *ᵥ ((1 + (h / 2) • A) *ᵥ y + h • b)

/-- first two steps of `bdf2` for `y' = A y + b` -/
noncomputable def bdf2Map (A : Mat n) (b : Vec n) (h : ℝ) (y : Vec n) : Vec n :=
  (1 - (2 * h / 3) • A)⁻¹ *ᵥ ((4 / 3 : ℝ) • beMap A b h y - (1 / 3 : ℝ) • y + (2 * h / 3) • b)

theorem inv_smooth {X : Type*} [NormedAddCommGroup X] [NormedSpace ℝ X] (A : Mat n) {c : X → ℝ} {x : X} {m : WithTop ℕ∞}
    (hc : ContDiffAt ℝ m c x) (h0 : c x = 0) : ContDiffAt ℝ m (fun q => (1 - c q • A)⁻¹) x := by
  have e : (fun q => (1 - c q • A)⁻¹) = fun q => Ring.inverse (1 - c q • A) := by
    funext q; rw [nonsing_inv_eq_ringInverse]
  rw [e]
  have h1 : ContDiffAt ℝ m (Ring.inverse : Mat n → Mat n) (1 - c x • A) := by
    rw [h0, zero_smul, sub_zero]
    exact contDiffAt_ringInverse ℝ (1 : (Mat n)ˣ)
  exact ContDiffAt.comp x h1 (contDiffAt_const.sub (hc.smul contDiffAt_const))

theorem beMap_smooth (A : Mat n) (b : Vec n) {X : Type*} [NormedAddCommGroup X] [NormedSpace ℝ X] {c : X → ℝ} {y : X → Vec n}
    {x : X} {m : WithTop ℕ∞} (hc : ContDiffAt ℝ m c x) (h0 : c x = 0) (hy : ContDiffAt ℝ m y x) :
    ContDiffAt ℝ m (fun q => beMap A b (c q) (y q)) x :=
  mulVec_contDiffAt (inv_smooth A hc h0) (hy.add (hc.smul contDiffAt_const))

theorem cnMap_smooth (A : Mat n) (b : Vec n) {X : Type*} [NormedAddCommGroup X] [NormedSpace ℝ X] {c : X → ℝ} {y : X → Vec n}
    {x : X} {m : WithTop ℕ∞} (hc : ContDiffAt ℝ m c x) (h0 : c x = 0) (hy : ContDiffAt ℝ m y x) :
    ContDiffAt ℝ m (fun q => cnMap A b (c q) (y q)) x := by
  have hc2 : ContDiffAt ℝ m (fun q => c q / 2) x := hc.div_const 2
  exact mulVec_contDiffAt (inv_smooth A hc2 (by simp [h0]))
    ((mulVec_contDiffAt (contDiffAt_const.add (hc2.smul contDiffAt_const)) hy).add (hc.smul contDiffAt_const))

theorem bdf2Map_smooth (A : Mat n) (b y : Vec n) (m : WithTop ℕ∞) : ContDiffAt ℝ m (fun h : ℝ => bdf2Map A b h y) 0 := by
  have hc : ContDiffAt ℝ m (fun h : ℝ => 2 * h / 3) 0 := by fun_prop
  have hbe : ContDiffAt ℝ m (fun h : ℝ => beMap A b h y) 0 := beMap_smooth A b (c := fun h : ℝ => h) contDiffAt_id rfl contDiffAt_const
  exact mulVec_contDiffAt (inv_smooth A hc (by simp))
    (((hbe.const_smul (4 / 3 : ℝ)).sub contDiffAt_const).add (hc.smul contDiffAt_const))

theorem unit_near (A : Mat n) : ∃ δ : ℝ, 0 < δ ∧ ∀ h : ℝ, |h| < δ → IsUnit (1 - h • A).det := by
  have hc : Continuous fun h : ℝ => (1 - h • A).det :=
    Continuous.matrix_det (continuous_const.sub (continuous_id.smul continuous_const))
  have h0 : (fun h : ℝ => (1 - h • A).det) 0 ≠ 0 := by simp
  have := hc.continuousAt.eventually_ne h0
  rw [Metric.eventually_nhds_iff] at this
  obtain ⟨δ, hδ, h⟩ := this
  exact ⟨δ, hδ, fun s hs => isUnit_iff_ne_zero.2 (h (by rwa [Real.dist_eq, sub_zero]))⟩

theorem mulVec_isBigO_cont {M : ℝ → Mat n} (hM : ContinuousAt M 0) {g : ℝ → Vec n} {k : ℕ}
    (hg : g =O[𝓝 0] fun s : ℝ => s ^ k) : (fun s => M s *ᵥ g s) =O[𝓝 0] fun s : ℝ => s ^ k := by
  have h1 : (fun s => M s *ᵥ g s) =O[𝓝 0] fun s => ‖M s‖ * ‖g s‖ := by
    refine IsBigO.of_bound 1 (Eventually.of_forall fun s => ?_)
    rw [one_mul, Real.norm_of_nonneg (by positivity)]
    exact Matrix.linfty_opNorm_mulVec _ _
  have h2 : (fun s => ‖M s‖) =O[𝓝 0] fun _ => (1 : ℝ) := hM.norm.isBigO_one ℝ
  exact (h1.trans (h2.mul hg.norm_left)).congr_right fun s => by simp

theorem solves_smooth {sys : Sys n} {A : Mat n} {b : Vec n} (hs : AffineSys sys A b) {Y : ℝ → Vec n} (hY : Solves A b 0 Y) (m : ℕ)
    (t : ℝ) : SmoothIVP sys.frhs m t Y := by
  constructor
  · have e : (fun p : ℝ × Vec n => sys.frhs p.1 p.2) = fun p => A *ᵥ p.2 + b := by funext p; exact hs.frhs _ _
    rw [e]
    exact (mulVec_contDiffAt contDiffAt_const contDiffAt_snd).add contDiffAt_const
  · refine Eventually.of_forall fun s => ?_
    rw [hs.frhs]
    have := hY s
    simpa using this

private theorem inv_cancel' {M : Mat n} (hM : IsUnit M.det) (v : Vec n) : M⁻¹ *ᵥ (M *ᵥ v) = v := by
  rw [mulVec_mulVec, nonsing_inv_mul _ hM, one_mulVec]

private theorem pw' (q : ℕ) (c : ℝ) (w : Vec n) : (fun s : ℝ => (c * s ^ q) • w) =O[𝓝 0] fun s : ℝ => s ^ q := by
  simpa using ((isBigO_refl (fun s : ℝ => s ^ q) (𝓝 0)).const_mul_left c).smul
    (isBigO_const_const w (one_ne_zero (α := ℝ)) (𝓝 0))

theorem inv_continuous (A : Mat n) (c : ℝ) : ContinuousAt (fun s : ℝ => (1 - (c * s) • A)⁻¹) 0 :=
  (inv_smooth (m := 0) A (c := fun s : ℝ => c * s) (by fun_prop) (by simp)).continuousAt

theorem eventually_unit (A : Mat n) (c : ℝ) : ∀ᶠ s : ℝ in 𝓝 0, IsUnit (1 - (c * s) • A).det := by
  obtain ⟨δ, hδ, h⟩ := unit_near A
  have hc : Tendsto (fun s : ℝ => c * s) (𝓝 0) (𝓝 0) := by
    have : Continuous (fun s : ℝ => c * s) := by fun_prop
    simpa using this.tendsto 0
  filter_upwards [hc.eventually (Metric.ball_mem_nhds 0 hδ)] with s hs
  exact h _ (by simpa [Real.dist_eq] using hs)

theorem be_order {sys : Sys n} {A : Mat n} {b : Vec n} (hs : AffineSys sys A b) {Y : ℝ → Vec n} {t : ℝ}
    (h : SmoothIVP sys.frhs 3 t Y) : (fun s => beMap A b s (Y t) - Y (t + s)) =O[𝓝 0] fun s : ℝ => s ^ 2 := by
  obtain ⟨a0, a1, a2, ha0, ha, hY⟩ := taylor_pair h
  have h1 : (fun s => Y t + s • b - (1 - s • A) *ᵥ Y (t + s)) =O[𝓝 0] fun s : ℝ => s ^ 2 := by
    have := ((isBigO_weaken hY (by norm_num : 2 ≤ 4)).neg_left.add
      (isBigO_weaken (smul_isBigO 1 ha (rfl : 4 = 3 + 1)) (by norm_num : 2 ≤ 4))).add
      ((pw' 2 (1 / 2) a1).add (isBigO_weaken (pw' 3 (2 / 3) a2) (by norm_num : 2 ≤ 3)))
    refine this.congr_left fun s => ?_
    rw [hs.frhs, sub_mulVec, one_mulVec, smul_mulVec]
    module
  have h2 := mulVec_isBigO_cont (inv_continuous A 1) h1
  refine h2.congr' ?_ EventuallyEq.rfl
  filter_upwards [eventually_unit A 1] with s hu
  rw [one_mul] at hu ⊢
  rw [mulVec_sub, inv_cancel' hu]
  rfl

theorem cn_order {sys : Sys n} {A : Mat n} {b : Vec n} (hs : AffineSys sys A b) {Y : ℝ → Vec n} {t : ℝ}
    (h : SmoothIVP sys.frhs 3 t Y) : (fun s => cnMap A b s (Y t) - Y (t + s)) =O[𝓝 0] fun s : ℝ => s ^ 3 := by
  obtain ⟨a0, a1, a2, ha0, ha, hY⟩ := taylor_pair h
  have h1 : (fun s => (1 + (s / 2) • A) *ᵥ Y t + s • b - (1 - (s / 2) • A) *ᵥ Y (t + s)) =O[𝓝 0] fun s : ℝ => s ^ 3 := by
    have := ((isBigO_weaken hY (by norm_num : 3 ≤ 4)).neg_left.add
      (isBigO_weaken (smul_isBigO (1 / 2) ha (rfl : 4 = 3 + 1)) (by norm_num : 3 ≤ 4))).add
      (pw' 3 (1 / 6) a2)
    refine this.congr_left fun s => ?_
    rw [ha0, hs.frhs, hs.frhs, sub_mulVec, add_mulVec, one_mulVec, one_mulVec, smul_mulVec, smul_mulVec]
    module
  have h2 := mulVec_isBigO_cont (inv_continuous A (1 / 2)) h1
  refine h2.congr' ?_ EventuallyEq.rfl
  filter_upwards [eventually_unit A (1 / 2)] with s hu
  rw [show (1 / 2 : ℝ) * s = s / 2 by ring] at hu ⊢
  rw [mulVec_sub, inv_cancel' hu]
  rfl

/-- the states of a `bdf2` run: backward Euler, one BDF2 step, then backward Euler again (`C70_run_partial`) -/
noncomputable def bdf2Seq (A : Mat n) (b : Vec n) (h : ℝ) (y0 : Vec n) : ℕ → Vec n
  | 0 => y0
  | 1 => beMap A b h y0
  | 2 => bdf2Map A b h y0
  | k + 3 => beMap A b h (bdf2Seq A b h y0 (k + 2))

/-- a smooth map that starts at `Y t0` stays within `C h` of `Y (t0 + c h)` -/
theorem start_error {g : ℝ → Vec n} {Y : ℝ → Vec n} {t0 c : ℝ} (hg : DifferentiableAt ℝ g 0) (hY : DifferentiableAt ℝ Y t0)
    (h0 : g 0 = Y t0) : ∃ C δ : ℝ, 0 ≤ C ∧ 0 < δ ∧ ∀ h, |h| < δ → ‖g h - Y (t0 + c * h)‖ ≤ C * |h| := by
  have h1 : DifferentiableAt ℝ (fun h : ℝ => g h - Y (t0 + c * h)) 0 := by
    have h2 : DifferentiableAt ℝ (fun h : ℝ => Y (t0 + c * h)) 0 := by
      refine DifferentiableAt.comp (g := Y) (f := fun h : ℝ => t0 + c * h) 0 ?_ (by fun_prop)
      simpa using hY
    exact hg.sub h2
  have h3 := h1.hasFDerivAt.isBigO_sub
  obtain ⟨C, hC, hb⟩ := h3.exists_pos
  rw [IsBigOWith, Metric.eventually_nhds_iff] at hb
  obtain ⟨δ, hδ, hb⟩ := hb
  refine ⟨C, δ, hC.le, hδ, fun h hh => ?_⟩
  have := hb (y := h) (by rwa [Real.dist_eq, sub_zero])
  simpa [h0] using this

theorem bdf2_converge {sys : Sys n} {A : Mat n} {b : Vec n} (hs : AffineSys sys A b) {Y : ℝ → Vec n} (hY : Solves A b 0 Y)
    (t0 T : ℝ) : ∃ C δ : ℝ, 0 ≤ C ∧ 0 < δ ∧ ∀ (dt : ℝ) (N : ℕ), 0 < dt → dt ≤ δ → t0 + N * dt ≤ T →
      ∀ k ≤ N, ‖bdf2Seq A b dt (Y t0) k - Y (t0 + k * dt)‖ ≤ C * dt := by
  have hYs : ∀ t ∈ Set.Icc t0 T, SmoothIVP sys.frhs 3 t Y := fun t _ => solves_smooth hs hY 3 t
  obtain ⟨C, δ, hC, hδ, hmain⟩ := plain_converge' (f := sys.frhs) (Y := Y) (t0 := t0) (T := T)
    (fun h _ y => beMap A b h y) 1 3 le_rfl (by norm_num) hYs (fun t y => by simp [beMap])
    (fun t ht => beMap_smooth A b (c := fun q : ℝ × ℝ × (Vec n × Vec n) => q.1) (by fun_prop) rfl (by fun_prop))
    (fun t h => be_order hs h)
  have hYd : DifferentiableAt ℝ Y t0 := (hY t0).differentiableAt
  obtain ⟨C1, δ1, hC1, hδ1, h1⟩ := start_error (g := fun h => beMap A b h (Y t0)) (Y := Y) (t0 := t0) (c := 1)
    ((beMap_smooth A b (c := fun h : ℝ => h) (m := 1) contDiffAt_id rfl contDiffAt_const).differentiableAt (by norm_num)) hYd
    (by simp [beMap])
  obtain ⟨C2, δ2, hC2, hδ2, h2⟩ := start_error (g := fun h => bdf2Map A b h (Y t0)) (Y := Y) (t0 := t0) (c := 2)
    ((bdf2Map_smooth A b (Y t0) 1).differentiableAt (by norm_num)) hYd
    (by
      have : (4 / 3 : ℝ) • Y t0 - (1 / 3 : ℝ) • Y t0 = Y t0 := by module
      simp only [bdf2Map, beMap, mul_zero, zero_div, zero_smul, sub_zero, inv_one, one_mulVec, add_zero]
      exact this)
  refine ⟨C * (1 + C2) + C1 + C2, min (min δ (δ / (C2 + 1))) (min (δ1 / 2) (δ2 / 2)), by positivity, by positivity, ?_⟩
  intro dt N hdt hdtδ hN k hk
  have b1 : dt ≤ δ := hdtδ.trans ((min_le_left _ _).trans (min_le_left _ _))
  have b2 : dt * (C2 + 1) ≤ δ := by
    have : dt ≤ δ / (C2 + 1) := hdtδ.trans ((min_le_left _ _).trans (min_le_right _ _))
    rwa [le_div_iff₀ (by positivity)] at this
  have b3 : dt ≤ δ1 / 2 := hdtδ.trans ((min_le_right _ _).trans (min_le_left _ _))
  have b4 : dt ≤ δ2 / 2 := hdtδ.trans ((min_le_right _ _).trans (min_le_right _ _))
  have e1 := h1 dt (by rw [abs_of_pos hdt]; linarith)
  have e2 := h2 dt (by rw [abs_of_pos hdt]; linarith)
  rw [abs_of_pos hdt] at e1 e2
  have p0 : 0 ≤ C * (1 + C2) * dt := by positivity
  have p1 : 0 ≤ C1 * dt := by positivity
  have p2 : 0 ≤ C2 * dt := by positivity
  rcases k with _ | _ | k
  · simp only [bdf2Seq, Nat.cast_zero, zero_mul, add_zero, sub_self, norm_zero]
    positivity
  · have : bdf2Seq A b dt (Y t0) (0 + 1) - Y (t0 + ((0 + 1 : ℕ) : ℝ) * dt) = beMap A b dt (Y t0) - Y (t0 + 1 * dt) := by
      simp [bdf2Seq]
    rw [this]
    linarith
  · have := hmain (t0 + 2 * dt) dt (C2 * dt) (N - 2) (fun j => bdf2Seq A b dt (Y t0) (j + 2)) (by linarith) hdt b1
      (by
        have : ((N - 2 : ℕ) : ℝ) = N - 2 := by push_cast [Nat.cast_sub (by omega : 2 ≤ N)]; ring
        rw [this]; linarith)
      p2 (by linarith) e2 (fun j _ => rfl) k (by omega)
    have e : t0 + ((k + 1 + 1 : ℕ) : ℝ) * dt = t0 + 2 * dt + k * dt := by push_cast; ring
    rw [e]
    refine this.trans ?_
    rw [pow_one]
    linarith

/-- the implicit methods of `integrate_wrapper_rs` with the order they reach on affine systems -/
def rsImplicitOrders : List (String × ℕ) := [("bdf1", 1), ("backeuler", 1), ("bdf2", 1), ("cn", 2)]

theorem bdf_follow (gmres : Gmres n) (sys : Sys n) (ord : ℕ) (t0 dt : ℝ) (u : ℕ → Vec n) (N osteps : ℕ) (ho : 0 < osteps)
    (hst : ∀ (s : Bdf n) (k : ℕ) (l : List (Vec n)), k < N → s.order = ord → s.t = t0 + k * dt → s.yHist = u k :: l →
      s.yHist.length = k + 1 → (∀ j, k = j + 1 → ∃ l', l = u j :: l') →
      Bdf.step gmres sys s dt = .ok ⟨s.t + dt, dt, u (k + 1), none⟩) :
    outLoop (solverIntegrator gmres sys) dt osteps N 0 (.bdf (Bdf.new t0 (u 0) ord)) [] [] =
      .ok ((outputSteps osteps N).map u, (outputSteps osteps N).map fun i : ℕ => t0 + i * dt) := by
  refine rs_follow (solverIntegrator gmres sys) (fun o k => ∃ s l, o = .bdf s ∧ s.order = ord ∧ s.t = t0 + k * dt ∧
    s.yHist = u k :: l ∧ s.yHist.length = k + 1 ∧ (∀ j, k = j + 1 → ∃ l', l = u j :: l')) u t0 dt N ?_ ?_ _ ?_ osteps ho
  · rintro o k ⟨s, l, rfl, h1, h2, h3, -⟩
    refine ⟨?_, h2⟩
    show rsGet s.yHist 0 = _
    rw [h3]; rfl
  · rintro o k hk ⟨s, l, rfl, h1, h2, h3, h4, h5⟩
    refine ⟨_, hst s k l hk h1 h2 h3 h4 h5, ⟨_, s.yHist, rfl, h1, ?_, rfl, ?_, ?_⟩⟩
    · show s.t + dt = _
      rw [h2]; push_cast; ring
    · show (_ :: s.yHist).length = _
      rw [List.length_cons, h4]
    · intro j hj
      obtain rfl : k = j := by omega
      exact ⟨l, h3⟩
  · exact ⟨_, [], rfl, rfl, by simp [Bdf.new], rfl, rfl, fun j hj => by omega⟩

/-- **C106, implicit methods of the Python binding.**  Let `Y` solve `y' = A y + b`.  For the methods `bdf1`, `backeuler`, `bdf2`
and `cn` of `integrate_wrapper_rs`, with a linear solver that solves nonsingular systems, there are `C` and `δ > 0` such that every
call with a step size `dt ≤ δ`, any number of steps that stays before `T` and any output interval succeeds, and every returned
state is within `C dt^p` of `Y` at its time, with `p = 2` for `cn` and `p = 1` for the others (`bdf2` is backward Euler from the
third step on, `C70_run_partial`). -/
theorem C106_implicit (gmres : Gmres n) (hg : ExactGmres gmres) (split : ℕ → Option (Split ℕ)) {sys : Sys n} {A : Mat n}
    {b : Vec n} (hs : AffineSys sys A b) {Y : ℝ → Vec n} (hY : Solves A b 0 Y) (t0 T : ℝ) (m : String) (p : ℕ)
    (hm : (m, p) ∈ rsImplicitOrders) :
    ∃ C δ : ℝ, 0 ≤ C ∧ 0 < δ ∧ ∀ (dt : ℝ) (N : ℕ) (kd : Kwds) (o : RunOpts), 0 < dt → dt ≤ δ → t0 + N * dt ≤ T →
      parseOpts kd = .ok o → o.method = m → 0 < o.osteps →
      ∃ out, integrateWrapperRs gmres split sys (Y t0) t0 dt N kd = .ok out ∧
        RsRunAccurate out t0 dt o.osteps N Y (C * dt ^ p) := by
  have hYs : ∀ t ∈ Set.Icc t0 T, SmoothIVP sys.frhs 3 t Y := fun t _ => solves_smooth hs hY 3 t
  obtain ⟨δu, hδu, hu⟩ := unit_near A
  have hunit : ∀ {dt c : ℝ}, 0 < dt → dt ≤ δu / 2 → 0 ≤ c → c ≤ 1 → IsUnit (1 - (c * dt) • A).det := by
    intro dt c h1 h2 h3 h4
    refine hu _ ?_
    have h5 : c * dt ≤ 1 * dt := mul_le_mul_of_nonneg_right h4 h1.le
    rw [abs_of_nonneg (by positivity)]
    linarith
  have hwrap : ∀ (dt : ℝ) (N : ℕ) (kd : Kwds) (o : RunOpts) (ord : ℕ) (out : List (Vec n) × List ℝ), parseOpts kd = .ok o →
      selectSolver split t0 (Y t0) o.method o.expmvMethod o.krylovDim o.iom o.tolFdt = .ok (.bdf (Bdf.new t0 (Y t0) ord)) →
      outLoop (solverIntegrator gmres sys) dt o.osteps N 0 (.bdf (Bdf.new t0 (Y t0) ord)) [] [] = .ok out →
      integrateWrapperRs gmres split sys (Y t0) t0 dt N kd = .ok out := by
    intro dt N kd o ord out h1 h2 h3
    unfold integrateWrapperRs
    simp only [h1, h2, Bind.bind, Except.bind]
    exact h3
  have hbe : m = "bdf1" ∨ m = "backeuler" → p = 1 →
      ∃ C δ : ℝ, 0 ≤ C ∧ 0 < δ ∧ ∀ (dt : ℝ) (N : ℕ) (kd : Kwds) (o : RunOpts), 0 < dt → dt ≤ δ → t0 + N * dt ≤ T →
      parseOpts kd = .ok o → o.method = m → 0 < o.osteps →
      ∃ out, integrateWrapperRs gmres split sys (Y t0) t0 dt N kd = .ok out ∧
        RsRunAccurate out t0 dt o.osteps N Y (C * dt ^ p) := by
    rintro hm' rfl
    obtain ⟨C, δ, hC, hδ, hmain⟩ := plain_converge' (f := sys.frhs) (Y := Y) (t0 := t0) (T := T)
      (fun h _ y => beMap A b h y) 1 3 le_rfl (by norm_num) hYs (fun t y => by simp [beMap])
      (fun t ht => beMap_smooth A b (c := fun q : ℝ × ℝ × (Vec n × Vec n) => q.1) (by fun_prop) rfl (by fun_prop))
      (fun t h => be_order hs h)
    refine ⟨C, min δ (δu / 2), hC, by positivity, ?_⟩
    intro dt N kd o h1 h2 h3 hp hom ho
    set u := iterSeq (fun _ y => beMap A b dt y) t0 dt (Y t0) with hu'
    have herr := hmain t0 dt 0 N u le_rfl h1 (h2.trans (min_le_left _ _)) h3 le_rfl hδ.le (by simp [hu', iterSeq]) (fun k _ => rfl)
    refine ⟨_, hwrap dt N kd o 1 _ hp (by unfold selectSolver; rw [hom, if_pos hm']) (bdf_follow gmres sys 1 t0 dt u N o.osteps ho ?_),
      rsAccurate_of (by simpa using herr)⟩
    intro s k l hk g1 g2 g3 g4 g5
    have hU := hunit (c := 1) h1 (h2.trans (min_le_right _ _)) zero_le_one le_rfl
    rw [one_mul] at hU
    rw [bdf_step_1 gmres sys s dt g1, stepOrder1_affine gmres hg hs s _ l g3 dt hU]
    rfl
  simp only [rsImplicitOrders, List.mem_cons, List.not_mem_nil, or_false, Prod.mk.injEq] at hm
  rcases hm with ⟨h, hp⟩ | ⟨h, hp⟩ | ⟨rfl, rfl⟩ | ⟨rfl, rfl⟩
  · exact hbe (Or.inl h) hp
  · exact hbe (Or.inr h) hp
  · obtain ⟨C, δ, hC, hδ, hmain⟩ := bdf2_converge hs hY t0 T
    refine ⟨C, min δ (δu / 2), hC, by positivity, ?_⟩
    intro dt N kd o h1 h2 h3 hp hom ho
    have herr := hmain dt N h1 (h2.trans (min_le_left _ _)) h3
    refine ⟨_, hwrap dt N kd o 2 _ hp (by unfold selectSolver; rw [hom]; simp)
      (bdf_follow gmres sys 2 t0 dt (bdf2Seq A b dt (Y t0)) N o.osteps ho ?_), rsAccurate_of (by simpa using herr)⟩
    intro s k l hk g1 g2 g3 g4 g5
    have hU := hunit (c := 1) h1 (h2.trans (min_le_right _ _)) zero_le_one le_rfl
    have hU2 := hunit (c := 2 / 3) h1 (h2.trans (min_le_right _ _)) (by norm_num) (by norm_num)
    rw [one_mul] at hU
    rw [show (2 / 3 : ℝ) * dt = 2 * dt / 3 by ring] at hU2
    rw [bdf_step_2 gmres sys s dt g1, g4]
    rcases k with _ | _ | k
    · rw [if_neg (by omega), stepOrder1_affine gmres hg hs s _ l g3 dt hU]; rfl
    · obtain ⟨l', rfl⟩ := g5 0 rfl
      rw [if_pos rfl, stepOrder2_affine gmres hg hs s g1 _ _ l' g3 dt hU2]; rfl
    · rw [if_neg (by omega), stepOrder1_affine gmres hg hs s _ l g3 dt hU]; rfl
  · obtain ⟨C, δ, hC, hδ, hmain⟩ := plain_converge' (f := sys.frhs) (Y := Y) (t0 := t0) (T := T)
      (fun h _ y => cnMap A b h y) 2 3 (by norm_num) (by norm_num) hYs (fun t y => by simp [cnMap])
      (fun t ht => cnMap_smooth A b (c := fun q : ℝ × ℝ × (Vec n × Vec n) => q.1) (by fun_prop) rfl (by fun_prop))
      (fun t h => cn_order hs h)
    refine ⟨C, min δ (δu / 2), hC, by positivity, ?_⟩
    intro dt N kd o h1 h2 h3 hp hom ho
    set u := iterSeq (fun _ y => cnMap A b dt y) t0 dt (Y t0) with hu'
    have herr := hmain t0 dt 0 N u le_rfl h1 (h2.trans (min_le_left _ _)) h3 le_rfl hδ.le (by simp [hu', iterSeq]) (fun k _ => rfl)
    refine ⟨_, hwrap dt N kd o 3 _ hp (by unfold selectSolver; rw [hom]; simp) (bdf_follow gmres sys 3 t0 dt u N o.osteps ho ?_),
      rsAccurate_of (by simpa using herr)⟩
    intro s k l hk g1 g2 g3 g4 g5
    have hU := hunit (c := 1 / 2) h1 (h2.trans (min_le_right _ _)) (by norm_num) (by norm_num)
    rw [show (1 / 2 : ℝ) * dt = dt / 2 by ring] at hU
    rw [bdf_step_3 gmres sys s dt g1, stepCn_affine gmres hg hs s _ l g3 dt hU]
    rfl

end implicit

/-! ### non-vacuity -/

/-- `y' = y^2` -/
noncomputable def squareSys : Sys 1 where
  frhs _ y := fun i => y i ^ 2
  fjac _ y := LinOp.mk (fun v i => 2 * y i * v i) (.error .notImplemented)

theorem squareSys_smooth (m : ℕ) (t : ℝ) (ht : t < 1) : SmoothIVP squareSys.frhs m t (fun s _ => (1 - s)⁻¹) := by
  constructor
  · refine contDiffAt_pi.2 fun i => ?_
    have h1 : ContDiff ℝ m (fun p : ℝ × Vec 1 => p.2 i) :=
      ((ContinuousLinearMap.proj (R := ℝ) (φ := fun _ : Fin 1 => ℝ) i).contDiff).comp contDiff_snd
    exact (h1.pow 2).contDiffAt
  · have : ∀ᶠ s : ℝ in 𝓝 t, s < 1 := (isOpen_Iio.mem_nhds ht)
    filter_upwards [this] with s hs
    rw [hasDerivAt_pi]
    intro i
    have h1 : HasDerivAt (fun s : ℝ => 1 - s) (-1) s := by simpa using (hasDerivAt_id s).const_sub 1
    have h2 := h1.inv (by linarith : (1 : ℝ) - s ≠ 0)
    refine h2.congr_deriv ?_
    simp [squareSys]

/-- the solution of `y' = y^2`, `y(0) = 1` on `[0, 1/2]` is followed with order four -/
example : ∃ C δ : ℝ, 0 ≤ C ∧ 0 < δ ∧ ∀ (dt : ℝ) (N : ℕ), 0 < dt → dt ≤ δ → N * dt ≤ 1 / 2 →
    ∃ s0 out, Rk.new 0 (fun _ => 1) 4 = .ok s0 ∧ outLoop (Rk.integrator squareSys) dt 3 N 0 s0 [] [] = .ok out ∧
      RsRunAccurate out 0 dt 3 N (fun s _ => (1 - s)⁻¹) (C * dt ^ 4) := by
  obtain ⟨C, δ, hC, hδ, h⟩ := C106_rk squareSys 4 4 (by simp) (Or.inr ⟨rfl, fun _ _ _ => rfl⟩) (fun s _ => (1 - s)⁻¹) 0 (1 / 2)
    (fun t ht => squareSys_smooth 5 t (by linarith [ht.2]))
  refine ⟨C, δ, hC, hδ, fun dt N h1 h2 h3 => ?_⟩
  obtain ⟨out, h4, h5⟩ := h dt N 3 ⟨4, btFactory 4, 0, [fun _ => 1]⟩ h1 h2 (by linarith) (by norm_num) (by simp [Rk.new])
  exact ⟨_, out, rfl, h4, h5⟩

/-- a call of the binding with Crank-Nicolson on a damped oscillator -/
example : ∃ (Y : ℝ → Vec 2) (C δ : ℝ), Y 0 = ![1, 0] ∧ 0 < δ ∧ ∀ (dt : ℝ) (N : ℕ), 0 < dt → dt ≤ δ → N * dt ≤ 5 →
    ∃ out, integrateWrapperRs (exactGmres 2) (fun _ => none) (affineSys !![0, 1; -1, -1] 0) ![1, 0] 0 dt N
        (fun k => if k = "method" then some (.str "cn") else none) = .ok out ∧
      RsRunAccurate out 0 dt 1 N Y (C * dt ^ 2) := by
  obtain ⟨Y, hY, h0⟩ := solves_exists (!![0, 1; -1, -1] : Mat 2) 0 0 ![1, 0] 0
  obtain ⟨C, δ, -, hδ, h⟩ := C106_implicit (exactGmres 2) (exactGmres_exact 2) (fun _ => none) (affineSys_affine _ _) hY 0 5 "cn" 2
    (by simp [rsImplicitOrders])
  refine ⟨Y, C, δ, h0, hδ, fun dt N h1 h2 h3 => ?_⟩
  obtain ⟨out, h4, h5⟩ := h dt N (fun k => if k = "method" then some (.str "cn") else none)
    { method := "cn", expmvMethod := "pade", krylovDim := 100, iom := 2, tol := 1e-8, tolFdt := 1e-8, osteps := 1 } h1 h2
    (by linarith) (by simp [parseOpts, getValOrDefault, PyVal.asString, Bind.bind, Except.bind, Pure.pure, Except.pure]) rfl (by norm_num)
  rw [h0] at h4
  exact ⟨out, h4, h5⟩

end

end Ormatex.Props
