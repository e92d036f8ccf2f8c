import Verif.Props.LejaConvStep
import Verif.Props.ApproxRun
import Verif.Props.Substep

/-!
C116: runs of the Leja integrator.  A run that returns is accurate to `C (dt^p + (tol + θ)/dt)`.
-/

namespace Ormatex.Props
open Filter Asymptotics Topology Matrix Ormatex.Spec
open scoped Classical
open scoped Matrix.Norms.Operator

section
variable {n : ℕ}

/-- `run_tube` for steps that may raise: what is known of the steps that return holds along a run that returns. -/
theorem run_tube_ret {P σ Q W : Type} (I : Stepper σ P (Vec n)) (Inv : σ → ℕ → (ℕ → Vec n) → Prop) (Rel Good : ℕ → (ℕ → Vec n) → Prop)
    (t0 dt : ℝ) (y0 : Vec n) (N : ℕ) (before : Option (W → ℝ → Vec n → P × W)) (after : Option (W → ℝ → Vec n → Q × W))
    (hRel : ∀ k u u', (∀ i ≤ k + 1, u' i = u i) → Rel k u → Rel k u')
    (hgood : ∀ k ≤ N, ∀ u : ℕ → Vec n, u 0 = y0 → (∀ j < k, Rel j u) → Good k u)
    (hs : ∀ o k u kw r o', k < N → Good k u → Inv o k u → I.step o dt kw = .ok (r, o') → r.t = t0 + k * dt + dt ∧
      ∀ u' : ℕ → Vec n, (∀ i ≤ k, u' i = u i) → u' (k + 1) = r.y → Rel k u' ∧ Inv (I.accept o' r) (k + 1) u')
    (obj : σ) (h0 : ∀ u : ℕ → Vec n, u 0 = y0 → Inv obj 0 u) (w : W) (l : LoopState σ P Q W (Vec n))
    (hl : integrateOrmatex I obj y0 t0 dt N before after w = .ok l) :
    ∃ u, l.tRes = (List.range (N + 1)).map (fun i : ℕ => t0 + i * dt) ∧
      l.yRes = (List.range (N + 1)).map u ∧ u 0 = y0 ∧ ∀ j < N, Rel j u := by
  have key : ∀ (k j : ℕ) (l l' : LoopState σ P Q W (Vec n)) (u : ℕ → Vec n), j + k = N → u 0 = y0 → Inv l.obj j u →
      (∀ i < j, Rel i u) →
      l.tRes = (List.range (j + 1)).map (fun i : ℕ => t0 + i * dt) →
      l.yRes = (List.range (j + 1)).map u →
      loopN I t0 y0 dt before after k l = .ok l' →
      ∃ u', l'.tRes = (List.range (j + k + 1)).map (fun i : ℕ => t0 + i * dt) ∧
        l'.yRes = (List.range (j + k + 1)).map u' ∧ u' 0 = y0 ∧ ∀ i < j + k, Rel i u' := by
    intro k
    induction k with
    | zero => intro j l l' u _ h3 _ h4 h1 h2 hr; cases hr; exact ⟨u, h1, h2, h3, h4⟩
    | succ k ih =>
      intro j l l' u hjk hu0 hl hrel h1 h2 hrun
      change (loopBody I t0 y0 dt before after l >>= fun l1 => loopN I t0 y0 dt before after k l1) = _ at hrun
      obtain ⟨l1, hl1, hrun⟩ := bind_ok hrun
      have hb : ∃ r o', I.step l.obj dt (callBefore before l.world (l.tRes.getLastD t0) (l.yRes.getLastD y0) l.cbBefore).1 = .ok (r, o') ∧
          l1.obj = I.accept o' r ∧ l1.tRes = l.tRes ++ [r.t] ∧ l1.yRes = l.yRes ++ [r.y] := by
        unfold loopBody at hl1
        simp only at hl1
        obtain ⟨⟨r, o'⟩, hst, hl1⟩ := bind_ok hl1
        cases hl1
        exact ⟨r, o', hst, rfl, rfl, rfl⟩
      obtain ⟨r, o', e1, ho, ht, hy⟩ := hb
      obtain ⟨e2, e3⟩ := hs l.obj j u _ r o' (by omega) (hgood j (by omega) u hu0 hrel) hl e1
      have hj : t0 + (j : ℝ) * dt + dt = t0 + ((j + 1 : ℕ) : ℝ) * dt := by push_cast; ring
      rw [hj] at e2
      set u' : ℕ → Vec n := fun i => if i ≤ j then u i else r.y with hu'
      have a1 : ∀ i ≤ j, u' i = u i := fun i hi => by simp [hu', hi]
      have a2 : u' (j + 1) = r.y := by simp [hu']
      obtain ⟨b1, b2⟩ := e3 u' a1 a2
      obtain ⟨u2, g1, g2, g3, g4⟩ := ih (j + 1) l1 l' u' (by omega) (by rw [a1 0 (by omega), hu0]) (by rw [ho]; exact b2)
        (by
          intro i hi
          rcases Nat.lt_succ_iff_lt_or_eq.1 hi with h | h
          · exact hRel i u u' (fun x hx => a1 x (by omega)) (hrel i h)
          · rw [h]; exact b1)
        (by rw [ht, h1, e2, List.range_succ (n := j + 1), List.map_append]; rfl)
        (by
          rw [hy, h2, List.range_succ (n := j + 1), List.map_append]
          congr 1
          · exact List.map_congr_left fun i hi => (a1 i (by have := List.mem_range.1 hi; omega)).symm
          · simp [a2])
        hrun
      refine ⟨u2, ?_, ?_, g3, ?_⟩
      · rw [g1, show j + 1 + k + 1 = j + (k + 1) + 1 by ring]
      · rw [g2, show j + 1 + k + 1 = j + (k + 1) + 1 by ring]
      · intro i hi; exact g4 i (by omega)
  obtain ⟨u, h2, h3, h4, h5⟩ := key N 0
    { obj := obj, tRes := [t0], yRes := [y0], cbBefore := [], cbAfter := [], world := w } l (fun _ => y0) (by omega) rfl
    (h0 _ rfl) (by intro i hi; omega) (by simp) (by simp) hl
  rw [zero_add] at h2 h3 h5
  exact ⟨u, h2, h3, h4, h5⟩

/-- `converge_run` for steps that may raise. -/
theorem converge_ret {A : Type*} [NormedAddCommGroup A] [NormedSpace ℝ A] {S : ℝ × ℝ × (Vec n × A) → Vec n} {Y : ℝ → Vec n} {a : ℝ → A}
    {t0 T : ℝ} (p : ℕ) (hp : 1 ≤ p)
    (hS : ∀ t ∈ Set.Icc t0 T, ContDiffAt ℝ 2 S (0, t, (Y t, a t))) (hS0 : ∀ t x, S (0, t, x) = x.1)
    (hY : ∀ t ∈ Set.Icc t0 T, ContinuousAt Y t) (ha : ∀ t ∈ Set.Icc t0 T, ContinuousAt a t)
    (K C0 r1 : ℝ) (hK : 0 ≤ K) (hC0 : 0 ≤ C0) (hr1 : 0 < r1) :
    ∃ C δ : ℝ, 0 ≤ C ∧ 0 < δ ∧ ∀ (dt ε : ℝ) (N : ℕ) (b : ℕ → A), 0 < dt → dt ≤ δ → 0 ≤ ε → ε ≤ δ →
      t0 + N * dt ≤ T →
      (∀ k < N, ‖b k - a (t0 + k * dt)‖ ≤ δ) →
      (∀ k < N, ‖S (dt, t0 + k * dt, (Y (t0 + k * dt), b k)) - Y (t0 + (k + 1 : ℕ) * dt)‖ ≤ C0 * dt ^ (p + 1)) →
      ∀ {P σ Q W : Type} (I : Stepper σ P (Vec n)) (Inv : σ → ℕ → (ℕ → Vec n) → Prop)
        (before : Option (W → ℝ → Vec n → P × W)) (after : Option (W → ℝ → Vec n → Q × W)) (obj : σ) (w : W),
      (∀ u : ℕ → Vec n, u 0 = Y t0 → Inv obj 0 u) →
      (∀ o k (u : ℕ → Vec n) kw r o', k < N → u 0 = Y t0 → (∀ j ≤ k, ‖u j - Y (t0 + j * dt)‖ < r1) → Inv o k u →
        I.step o dt kw = .ok (r, o') → ∃ al,
        r.t = t0 + k * dt + dt ∧ r.y = S (dt, t0 + k * dt, (u k, al)) ∧
        ‖al - b k‖ ≤ K * maxErr (fun j => ‖u j - Y (t0 + j * dt)‖) k + ε ∧
        ∀ u' : ℕ → Vec n, (∀ i ≤ k, u' i = u i) → u' (k + 1) = r.y → Inv (I.accept o' r) (k + 1) u') →
      ∀ l, integrateOrmatex I obj (Y t0) t0 dt N before after w = .ok l → RunAccurate l t0 dt N Y (C * (dt ^ p + ε)) := by
  obtain ⟨C, δ, hC, hδ, hmain⟩ := converge_abstract p hp hS hS0 hY ha K C0 r1 hK hC0 hr1
  refine ⟨C, min (min δ 1) (r1 / (4 * (C + 1))), hC, by positivity, ?_⟩
  intro dt ε N b hdt hdtδ hε hεδ hN hb hd P σ Q W I Inv before after obj w h0 hs l hl
  have d1 : dt ≤ δ := hdtδ.trans ((min_le_left _ _).trans (min_le_left _ _))
  have d2 : dt ≤ 1 := hdtδ.trans ((min_le_left _ _).trans (min_le_right _ _))
  have d3 : dt * (4 * (C + 1)) ≤ r1 := by
    have := hdtδ.trans (min_le_right _ _)
    rwa [le_div_iff₀ (by positivity)] at this
  have e1 : ε ≤ δ := hεδ.trans ((min_le_left _ _).trans (min_le_left _ _))
  have e3 : ε * (4 * (C + 1)) ≤ r1 := by
    have := hεδ.trans (min_le_right _ _)
    rwa [le_div_iff₀ (by positivity)] at this
  have hdp : dt ^ p ≤ dt := by
    calc dt ^ p ≤ dt ^ 1 := pow_le_pow_of_le_one hdt.le d2 hp
      _ = dt := pow_one dt
  have hdp0 : 0 ≤ dt ^ p := by positivity
  have hsmall : C * (dt ^ p + ε) < r1 := by nlinarith [mul_nonneg hC hε, mul_nonneg hC hdt.le, mul_le_mul_of_nonneg_left hdp hC]
  set Rel : ℕ → (ℕ → Vec n) → Prop := fun k u => ∃ al, u (k + 1) = S (dt, t0 + k * dt, (u k, al)) ∧
    ‖al - b k‖ ≤ K * maxErr (fun j => ‖u j - Y (t0 + j * dt)‖) k + ε with hRel
  have hmaxc : ∀ (k : ℕ) (u u' : ℕ → Vec n), (∀ i ≤ k, u' i = u i) →
      maxErr (fun j => ‖u' j - Y (t0 + j * dt)‖) k = maxErr (fun j => ‖u j - Y (t0 + j * dt)‖) k := by
    intro k u u' h
    induction k with
    | zero => simp only [maxErr]; rw [h 0 le_rfl]
    | succ k ih => simp only [maxErr]; rw [ih fun i hi => h i (by omega), h (k + 1) le_rfl]
  have hbound : ∀ k ≤ N, ∀ u : ℕ → Vec n, u 0 = Y t0 → (∀ j < k, Rel j u) → ∀ j ≤ k, ‖u j - Y (t0 + j * dt)‖ ≤ C * (dt ^ p + ε) := by
    intro k hk u hu0 hr
    have hkT : t0 + (k : ℝ) * dt ≤ T := by
      have h1 : (k : ℝ) ≤ N := by exact_mod_cast hk
      have h2 := mul_le_mul_of_nonneg_right h1 hdt.le
      linarith
    have := hmain t0 dt ε 0 k u (fun j => if h : j < k then (hr j h).choose else 0) b hdt d1 hε e1 le_rfl hδ.le le_rfl hkT
      (by simp [hu0])
      (by
        intro j hj
        simp only [hj, dif_pos]
        exact (hr j hj).choose_spec.1)
      (by
        intro j hj _
        simp only [hj, dif_pos]
        exact (hr j hj).choose_spec.2)
      (fun j hj => (hb j (by omega)).trans ((min_le_left _ _).trans (min_le_left _ _)))
      (fun j hj => hd j (by omega))
    intro j hj
    have h := this j hj
    rwa [add_zero] at h
  obtain ⟨u, g2, g3, g4, g5⟩ := run_tube_ret I Inv Rel (fun k u => u 0 = Y t0 ∧ ∀ j ≤ k, ‖u j - Y (t0 + j * dt)‖ < r1) t0 dt (Y t0) N before after
    (by
      rintro k u u' h ⟨al, h1, h2⟩
      refine ⟨al, ?_, ?_⟩
      · rw [h (k + 1) le_rfl, h k (by omega), h1]
      · rw [hmaxc k u u' fun i hi => h i (by omega)]; exact h2)
    (fun k hk u hu0 hr => ⟨hu0, fun j hj => (hbound k hk u hu0 hr j hj).trans_lt hsmall⟩)
    (by
      rintro o k u kw r o' hk ⟨hu0, hg⟩ hi h1
      obtain ⟨al, h2, h3, h4, h5⟩ := hs o k u kw r o' hk hu0 hg hi h1
      refine ⟨h2, fun u' ha hn => ⟨⟨al, ?_, ?_⟩, h5 u' ha hn⟩⟩
      · rw [hn, h3, ha k le_rfl]
      · rw [hmaxc k u u' ha]; exact h4)
    obj h0 w l hl
  exact runAccurate_of g2 g3 (hbound N le_rfl u g4 g5)

end

section
variable {n : ℕ} {P : Type} [EmptyCollection P]
set_option linter.unusedSectionVars false

theorem leja_new_at {t0 : ℝ} {y0 : Vec n} {m : String} {s : ExpLeja n}
    (hnew : ExpLeja.new t0 y0 m = .ok s) : At s.base t0 y0 ∧ s.base.method = m ∧ s.substepSize = 1 ∧
      (Nonempty2 s.base ∧ 0 < s.base.yHist.maxlen ∧ s.base.tHist.maxlen = s.base.yHist.maxlen) := by
  unfold ExpLeja.new at hnew
  split at hnew
  · cases hnew
  · rename_i o _
    cases hb : Base.init t0 y0 o m with
    | error e => rw [hb] at hnew; cases hnew
    | ok b =>
      rw [hb] at hnew
      cases hnew
      refine ⟨at_init hb, ?_, rfl, init_nonempty hb⟩
      unfold Base.init at hb
      split at hb
      · cases hb; rfl
      · cases hb

/-- The second-order Leja methods: if, while the data of the problem are bounded by `B`, every step that returns is within `η` of
the exponential Rosenbrock value, a run that returns is accurate to `C (dt^2 + η/dt)`. -/
theorem leja2_run (sys : OdeSys n P) (hj : ExactJacs sys) (Y : ℝ → Vec n) (t0 T : ℝ)
    (hY : ∀ t ∈ Set.Icc t0 T, SmoothIVP (sys.frhs none) 4 t Y) :
    ∃ C δ B : ℝ, 0 ≤ C ∧ 0 < δ ∧ δ ≤ 1 ∧ 0 ≤ B ∧ ∀ (o : LejaOpts) (m : String) (dt η : ℝ) (nsteps : ℕ) (s : ExpLeja n), 0 < dt → dt ≤ δ →
      0 ≤ η → η ≤ δ * dt → t0 + nsteps * dt ≤ T → ExpLeja.new t0 (Y t0) m = .ok s →
      (∀ (s : ExpLeja n) (t : ℝ) (y : Vec n) (kw : Option P) (J : Mat n) (r : StepResult (Vec n)) (s' : ExpLeja n), At s.base t y →
        0 < s.substepSize → s.base.method = m → IsMatrix (sys.fjac (some (kw.getD ∅)) t y).toLinOp J →
        ‖J‖ ≤ B → ‖(sys.fjac (some (kw.getD ∅)) t y).frhsCached‖ ≤ B → ‖(sys.fjac (some (kw.getD ∅)) t y).fdt‖ ≤ B →
        ExpLeja.step o sys s dt kw = .ok (r, s') → r.t = t + dt ∧
        ‖r.y - rosEuler J y (sys.fjac (some (kw.getD ∅)) t y).frhsCached (sys.fjac (some (kw.getD ∅)) t y).fdt dt 1‖ ≤ η) →
      ∀ {Q W : Type} (before : Option (W → ℝ → Vec n → P × W)) (after : Option (W → ℝ → Vec n → Q × W)) (w : W) l,
        integrateOrmatex (lejaStepper o sys) s (Y t0) t0 dt nsteps before after w = .ok l →
        RunAccurate l t0 dt nsteps Y (C * (dt ^ 2 + η / dt)) := by
  set f := sys.frhs none with hf
  obtain ⟨hp, -, -, hord⟩ := rbMap_facts (f := f) (m := "exprb2") (p := 2) (by simp [rbOrders])
  obtain ⟨Kd, rd, hKd, hrd, hlip⟩ := dtM_tube (f := f) (Y := Y) (t0 := t0) (T := T) fun t ht => (hY t ht).mono (by omega)
  obtain ⟨B, ρ, hB, hρ, htube⟩ := rb_tube (f := f) (Y := Y) (t0 := t0) (T := T) fun t ht => (hY t ht).mono (by omega)
  have hsm1 : ∀ t ∈ Set.Icc t0 T, ContDiffAt ℝ (2 + 1 : ℕ) (rbMapE "exprb2" f) (0, t, (Y t, (dtM f (t, Y t), 0))) :=
    fun t ht => rbMapE_smooth (m := 2 + 1) (hY t ht).smooth _ "exprb2"
  have hdt : ∀ t ∈ Set.Icc t0 T, ContDiffAt ℝ (2 + 1 : ℕ) (fun s => dtM f (s, Y s)) t := fun t ht => by
    have hYc : ContDiffAt ℝ (2 + 1 : ℕ) Y t := (hY t ht).contDiff.of_le (by norm_cast)
    exact ContDiffAt.comp (g := dtM f) (f := fun s => (s, Y s)) t (dtM_contDiffAt (hY t ht).smooth) (contDiffAt_id.prodMk hYc)
  obtain ⟨C0, δ0, hC0, hδ0, hdef⟩ := uniform_defect (S := rbMapE "exprb2" f) (f := f) (Y := Y) (β := fun t _ => ((dtM f (t, Y t), 0) : Aux n))
    (t0 := t0) (T := T) 2 4 (by omega) hY hsm1
    (fun t ht => (ContDiffAt.comp (g := fun s => dtM f (s, Y s)) (f := fun q : ℝ × ℝ => q.1) (t, 0) (hdt t ht) contDiffAt_fst).prodMk
      contDiffAt_const)
    (fun t h => by
      simp only [rbMapE_zero_err]
      exact hord t Y (h.mono (by omega)))
  set r1 := min rd ρ with hr1
  have hr10 : 0 < r1 := by positivity
  have hr1d : r1 ≤ rd := min_le_left _ _
  have hr1ρ : r1 ≤ ρ := min_le_right _ _
  obtain ⟨C, δ, hC, hδ, hmain⟩ := converge_ret (S := rbMapE "exprb2" f) (Y := Y) (a := fun t => ((dtM f (t, Y t), 0) : Aux n)) (t0 := t0) (T := T)
    2 hp (fun t ht => (hsm1 t ht).of_le (by norm_cast)) (fun t x => rbMapE_zero "exprb2" x)
    (fun t ht => (hY t ht).contDiff.continuousAt) (fun t ht => (hdt t ht).continuousAt.prodMk continuousAt_const) Kd C0 r1 hKd hC0 hr10
  set δ' := min (min δ (δ0 / 2)) 1 with hδ'
  have hδ'0 : 0 < δ' := by positivity
  have a1 : δ' ≤ δ := (min_le_left _ _).trans (min_le_left _ _)
  have a2 : δ' ≤ δ0 / 2 := (min_le_left _ _).trans (min_le_right _ _)
  have a3 : δ' ≤ 1 := min_le_right _ _
  refine ⟨C, δ', B, hC, hδ'0, a3, hB, ?_⟩
  intro o m dt η N s hdt0 hdtδ hη hηδ hN hnew hstep Q W before after w l hl
  have hin : ∀ k < N, t0 + (k : ℝ) * dt ∈ Set.Icc t0 T := by
    intro k hk
    have h1 : (k : ℝ) ≤ N := by exact_mod_cast hk.le
    have h2 := mul_le_mul_of_nonneg_right h1 hdt0.le
    have h3 : 0 ≤ (k : ℝ) * dt := by positivity
    constructor <;> linarith
  have hεδ : η / dt ≤ δ := by
    rw [div_le_iff₀ hdt0]
    exact hηδ.trans (mul_le_mul_of_nonneg_right a1 hdt0.le)
  refine hmain dt (η / dt) N (fun k => (dtM f (t0 + k * dt, Y (t0 + k * dt)), 0)) hdt0 (hdtδ.trans a1)
    (by positivity) hεδ hN (by intro k hk; simpa using hδ.le)
    (by
      intro k hk
      have h1 := hdef _ (hin k hk) dt (by rw [abs_of_pos hdt0]; linarith)
      rw [abs_of_pos hdt0] at h1
      have e : t0 + ((k + 1 : ℕ) : ℝ) * dt = t0 + k * dt + dt := by push_cast; ring
      rw [e]; exact h1)
    (lejaStepper o sys) (fun (o : ExpLeja n) k u => At o.base (t0 + k * dt) (u k) ∧ o.base.method = m ∧
      (0 < o.substepSize ∧ o.substepSize ≤ 1) ∧
      (Nonempty2 o.base ∧ 0 < o.base.yHist.maxlen ∧ o.base.tHist.maxlen = o.base.yHist.maxlen))
    before after s w
    (by
      intro u hu
      obtain ⟨g1, g2, g3, g4⟩ := leja_new_at hnew
      exact ⟨by simpa [hu] using g1, g2, by rw [g3]; norm_num, g4⟩)
    ?_ l hl
  rintro q k u kw r q' hk - hsmall ⟨g1, g2, g3, g4⟩ hst
  set t := t0 + (k : ℝ) * dt with ht
  have hyk := hsmall k le_rfl
  have hdk := hlip _ (hin k hk) (u k) (hyk.trans_le hr1d)
  obtain ⟨b1, b2, b3, -, -⟩ := htube t (hin k hk) (u k) (dtM f (t, Y t)) 0 0 (hyk.trans_le hr1ρ) (by simpa using hρ) (by simpa using hρ)
    (by simpa using hρ)
  have hget := hj.get (some (kw.getD ∅)) t (u k)
  have hF : (sys.fjac (some (kw.getD ∅)) t (u k)).frhsCached = f t (u k) := hget.1.rhs
  have hc : (sys.fjac (some (kw.getD ∅)) t (u k)).fdt = dtM f (t, u k) := hget.2
  obtain ⟨e1, e2⟩ := hstep q t (u k) kw (jacM f (t, u k)) r q' g1 g3.1 g2 hget.1.mat b3 (by rw [hF]; exact b1) (by rw [hc]; exact b2) hst
  rw [hF, hc] at e2
  obtain ⟨s1, s2, s3, s4⟩ := leja_step_sane o sys q g3 dt kw (r, q') hst
  simp only at s1 s3 s4
  set z := rosEuler (jacM f (t, u k)) (u k) (f t (u k)) (dtM f (t, u k)) dt 1
  refine ⟨(dtM f (t, u k), fun _ => dt⁻¹ • (r.y - z)), e1, ?_, ?_, ?_⟩
  · show r.y = z + dt • dt⁻¹ • (r.y - z)
    rw [smul_inv_smul₀ hdt0.ne']
    abel
  · rw [Prod.mk_sub_mk, Prod.norm_mk, sub_zero]
    have h3 := le_maxErr (fun j : ℕ => ‖u j - Y (t0 + j * dt)‖) k k le_rfl
    have h4 := mul_le_mul_of_nonneg_left h3 hKd
    have h6 : 0 ≤ Kd * ‖u k - Y t‖ := by positivity
    have h7 : 0 ≤ η / dt := by positivity
    simp only [← ht] at h4
    refine max_le (by linarith) ?_
    have h8 : ‖(fun _ => dt⁻¹ • (r.y - z) : Fin 3 → Vec n)‖ ≤ η / dt := by
      refine (pi_norm_le_iff_of_nonneg h7).2 fun _ => ?_
      rw [norm_smul, norm_inv, Real.norm_of_nonneg hdt0.le, div_eq_inv_mul]
      exact mul_le_mul_of_nonneg_left e2 (by positivity)
    linarith
  · intro u' hu' hn
    have e : t0 + ((k + 1 : ℕ) : ℝ) * dt = t + dt := by rw [ht]; push_cast; ring
    have g4' : Nonempty2 q'.base ∧ 0 < q'.base.yHist.maxlen ∧ q'.base.tHist.maxlen = q'.base.yHist.maxlen := by rw [s1]; exact g4
    refine ⟨?_, ?_, ⟨s3, s4⟩, accept_nonempty g4' _⟩
    · rw [e, hn, ← e1]
      exact at_accept g4'.2 r
    · show q'.base.method = m
      rw [s1]; exact g2

/-- **C116, `epi2_leja_re`.**  For a smooth problem with exact Jacobians there are constants such that, for every step size
`dt ≤ δ`, every tolerance and coefficient error with `tol + θ ≤ δ dt`, and every node interval of size at most `A` (given or estimated), **every run that returns** is
accurate to `C (dt^2 + (tol + θ)/dt)` at every output time.  No assumption on the evaluations, the number of terms, the substeps or the
stored power-iteration vector. -/
theorem C116_converge_re (sys : OdeSys n P) (hj : ExactJacs sys) (Y : ℝ → Vec n) (t0 T : ℝ)
    (hY : ∀ t ∈ Set.Icc t0 T, SmoothIVP (sys.frhs none) 4 t Y) (A : ℝ) :
    ∃ C δ ρ : ℝ, 0 ≤ C ∧ 0 < δ ∧ ∀ (o : LejaOpts) (θ dt : ℝ) (nsteps : ℕ) (s : ExpLeja n), LejaAccurate o A θ ρ → 0 < dt → dt ≤ δ →
      o.tol + θ ≤ δ * dt → t0 + nsteps * dt ≤ T → ExpLeja.new t0 (Y t0) "epi2_leja_re" = .ok s →
      ∀ {Q W : Type} (before : Option (W → ℝ → Vec n → P × W)) (after : Option (W → ℝ → Vec n → Q × W)) (w : W) l,
        integrateOrmatex (lejaStepper o sys) s (Y t0) t0 dt nsteps before after w = .ok l →
        RunAccurate l t0 dt nsteps Y (C * (dt ^ 2 + (o.tol + θ) / dt)) := by
  obtain ⟨C, δ, B, hC, hδ, hδ1, hB, hmain⟩ := leja2_run sys hj Y t0 T hY
  set R := max (1 + 3 * B) (A * (1 + Real.sqrt (n + 2 : ℕ) * (1 + 3 * B))) with hR
  have hR0 : 0 ≤ R := le_trans (by positivity) (le_max_left _ _)
  have hH := stepConst_nonneg n hR0
  set H := stepConst n R with hHdef
  refine ⟨C * (H + 1), δ / (H + 1), R, by positivity, by positivity, ?_⟩
  intro o θ dt N s ho hdt0 hdtδ hsmall hN hnew Q W before after w l hl
  have hd : δ / (H + 1) ≤ δ := div_le_self hδ.le (by linarith)
  have hdt1 : dt ≤ δ := hdtδ.trans hd
  have hs0 : 0 ≤ o.tol + θ := add_nonneg ho.tol_pos.le ho.theta_nonneg
  have hη : H * (o.tol + θ) ≤ δ * dt := by
    have h1 : (H + 1) * (o.tol + θ) ≤ (H + 1) * (δ / (H + 1) * dt) := mul_le_mul_of_nonneg_left hsmall (by linarith)
    have h2 : (H + 1) * (δ / (H + 1) * dt) = δ * dt := by field_simp
    linarith
  have hacc := hmain o "epi2_leja_re" dt (H * (o.tol + θ)) N s hdt0 hdt1 (mul_nonneg hH hs0) hη hN hnew
    (fun s t y kw J r s' h1 h2 h3 h4 h5 h6 h7 h8 => C116_step_re o sys s h1 h2 h3 dt hdt0.le (hdt1.trans hδ1) kw J h4 r s' h8 h5 h6 h7 ho
      le_rfl (le_max_left _ _) (le_max_right _ _)) before after w l hl
  refine ⟨hacc.1, hacc.2.1, fun i y hi => (hacc.2.2 i y hi).trans ?_⟩
  rw [mul_assoc]
  refine mul_le_mul_of_nonneg_left ?_ hC
  have h1 : 0 ≤ dt ^ 2 := by positivity
  have h2 : 0 ≤ (o.tol + θ) / dt := by positivity
  have h3 := mul_nonneg hH h1
  rw [mul_div_assoc]
  linarith

end
end Ormatex.Props
