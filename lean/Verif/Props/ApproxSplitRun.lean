import Verif.Props.ApproxSplit

/-!
C103: runs of the splitting methods with approximate kernels converge with the order of the method, up to a multiple of the
accuracy of the kernels.
-/

namespace Ormatex.Props
open Filter Asymptotics Topology Matrix Ormatex.Spec
open scoped Classical
open scoped Matrix.Norms.Operator

section
variable {n : ℕ} {P : Type} [EmptyCollection P]
set_option linter.unusedSectionVars false

theorem split_step_approx {K : Kernels n} (sys : OdeSys n P) (lop : LinOp n) (hl : ∀ t y, sys.fl t y = lop)
    (L : Mat n) (hd : lop.dense = .ok L) (hL : IsMatrix lop L) (s : ExpSplit n) (t : ℝ) (y : Vec n) (hs : At s.base t y)
    (hco : Coherent K lop s) (kw : Option P) (dt κ B R : ℝ) (p : ℕ) (m : String) (hm0 : s.base.method = m) (hm : (m, p) ∈ splitOrders)
    (hK : ApproxFor m K dt R κ) (hdt : 0 < dt) (hκ : 0 ≤ κ) (hR : ‖L‖ ≤ R) (hF : ‖sys.frhs none t y‖ ≤ B)
    (h1 : ∀ d, ‖d‖ ≤ κ * (4 * B) → ‖remS (sys.frhs none) L 1 (stageS (sys.frhs none) L 1) (dt, t, (y, d))‖ ≤ B * dt)
    (h2 : ∀ d, ‖d‖ ≤ κ * (4 * B) → ‖remS (sys.frhs none) L (2 / 3) (stageS (sys.frhs none) L (2 / 3)) (dt, t, (y, d))‖ ≤ B * dt)
    (h3 : ∀ d, ‖d‖ ≤ κ * (4 * B) → ‖remS (sys.frhs none) L (2 / 3) (stageS3 (sys.frhs none) L) (dt, t, (y, d))‖ ≤ B * dt) :
    ∃ d s', ‖d‖ ≤ κ * (4 * B) ∧ s'.base = s.base ∧
      ExpSplit.step K sys s dt kw = .ok (StepResult.mk (t + dt) dt (splitMapE m (sys.frhs none) L (dt, t, (y, d))) (-1), s') := by
  have hL' : IsMatrix (sys.fl t y) L := by rw [hl]; exact hL
  unfold ExpSplit.step
  simp only [hm0]
  simp only [splitOrders, List.mem_cons, List.not_mem_nil, or_false, Prod.mk.injEq] at hm
  rcases hm with ⟨rfl, rfl⟩ | ⟨rfl, rfl⟩ | ⟨rfl, rfl⟩ | ⟨rfl, rfl⟩ | ⟨rfl, rfl⟩ | ⟨rfl, rfl⟩ <;>
    simp only [String.reduceEq, if_true, if_false, splitMapE, or_true, or_false, or_self]
  · obtain ⟨d, e1, e2⟩ := exp1_approx hdt hκ hs hR hF (by simpa using hK.linop (by decide)) hL'
    exact ⟨d, s, e1, rfl, by rw [e2]; rfl⟩
  · obtain ⟨d, e1, e2⟩ := exp2_approx hdt hκ hs hR hF (by simpa using hK.linop (by decide)) hL' h1
    exact ⟨d, s, e1, rfl, by rw [e2]; rfl⟩
  · obtain ⟨d, e1, e2⟩ := exp3_approx hdt hκ hs hR hF (by simpa using hK.linop (by decide)) hL' h2 h3
    exact ⟨d, s, e1, rfl, by rw [e2]; rfl⟩
  · exact exp1Dense_approx hdt hκ hs hR hF (hK.sq (by decide)) lop hl hd hco hm0
  · exact exp2Dense_approx hdt hκ hs hR hF (hK.sq (by decide)) lop hl hd hL hco hm0 h2
  · exact exp3Dense_approx hdt hκ hs hR hF (hK.sq (by decide)) lop hl hd hL hco hm0 h2 h3

theorem split_tube {f : ℝ → Vec n → Vec n} {Y : ℝ → Vec n} (L : Mat n) {t0 T : ℝ} (hY : ∀ t ∈ Set.Icc t0 T, SmoothIVP f 2 t Y) :
    ∃ B ρ : ℝ, 0 ≤ B ∧ 0 < ρ ∧ ∀ t ∈ Set.Icc t0 T, ∀ (y : Vec n) (d : Fin 3 → Vec n) (h : ℝ), ‖y - Y t‖ < ρ → ‖d‖ < ρ → |h| < ρ →
      ‖f t y‖ ≤ B ∧ ‖remS f L 1 (stageS f L 1) (h, t, (y, d))‖ ≤ B * |h| ∧
        ‖remS f L (2 / 3) (stageS f L (2 / 3)) (h, t, (y, d))‖ ≤ B * |h| ∧ ‖remS f L (2 / 3) (stageS3 f L) (h, t, (y, d))‖ ≤ B * |h| := by
  have hYc : ∀ t ∈ Set.Icc t0 T, ContinuousAt Y t := fun t ht => (hY t ht).contDiff.continuousAt
  have hxc : ∀ t ∈ Set.Icc t0 T, ContinuousAt (fun s => ((Y s, 0) : Vec n × (Fin 3 → Vec n))) t := fun t ht =>
    (hYc t ht).prodMk continuousAt_const
  obtain ⟨B1, ρ1, hB1, hρ1, b1⟩ := tube_bound0 (g := fun q : ℝ × Vec n => f q.1 q.2) (x := Y) (a := t0) (b := T)
    (fun t ht => (hY t ht).smooth.of_le (by norm_cast)) hYc
  obtain ⟨B2, ρ2, hB2, hρ2, b2⟩ := tube_bound (G := remS f L 1 (stageS f L 1)) (x := fun s => ((Y s, 0) : Vec n × (Fin 3 → Vec n))) (a := t0) (b := T)
    (fun t ht => remS_smooth (m := 2) (hY t ht).smooth _ 1 (stageS_smooth (hY t ht).smooth _ 1) (fun t x => stageS_zero _ _))
    (fun t x => remS_zero _ (fun t x => stageS_zero _ _) _) hxc
  obtain ⟨B3, ρ3, hB3, hρ3, b3⟩ := tube_bound (G := remS f L (2 / 3) (stageS f L (2 / 3))) (x := fun s => ((Y s, 0) : Vec n × (Fin 3 → Vec n))) (a := t0) (b := T)
    (fun t ht => remS_smooth (m := 2) (hY t ht).smooth _ (2 / 3) (stageS_smooth (hY t ht).smooth _ (2 / 3)) (fun t x => stageS_zero _ _))
    (fun t x => remS_zero _ (fun t x => stageS_zero _ _) _) hxc
  obtain ⟨B4, ρ4, hB4, hρ4, b4⟩ := tube_bound (G := remS f L (2 / 3) (stageS3 f L)) (x := fun s => ((Y s, 0) : Vec n × (Fin 3 → Vec n))) (a := t0) (b := T)
    (fun t ht => remS_smooth (m := 2) (hY t ht).smooth _ (2 / 3) (stageS3_smooth (hY t ht).smooth _) (fun t x => stageS3_zero _))
    (fun t x => remS_zero _ (fun t x => stageS3_zero _) _) hxc
  refine ⟨B1 + B2 + B3 + B4, min (min ρ1 ρ2) (min ρ3 ρ4), by positivity, by positivity, ?_⟩
  intro t ht y d h hy hd hh
  have m1 : min (min ρ1 ρ2) (min ρ3 ρ4) ≤ ρ1 := (min_le_left _ _).trans (min_le_left _ _)
  have m2 : min (min ρ1 ρ2) (min ρ3 ρ4) ≤ ρ2 := (min_le_left _ _).trans (min_le_right _ _)
  have m3 : min (min ρ1 ρ2) (min ρ3 ρ4) ≤ ρ3 := (min_le_right _ _).trans (min_le_left _ _)
  have m4 : min (min ρ1 ρ2) (min ρ3 ρ4) ≤ ρ4 := (min_le_right _ _).trans (min_le_right _ _)
  have hx : ∀ r, min (min ρ1 ρ2) (min ρ3 ρ4) ≤ r → ‖((y, d) : Vec n × (Fin 3 → Vec n)) - (Y t, 0)‖ < r := by
    intro r hr
    rw [Prod.mk_sub_mk, Prod.norm_mk, sub_zero]
    exact max_lt (hy.trans_le hr) (hd.trans_le hr)
  have c1 := b1 t ht y (hy.trans_le m1)
  have c2 := b2 t ht h (y, d) (hh.trans_le m2) (hx _ m2)
  have c3 := b3 t ht h (y, d) (hh.trans_le m3) (hx _ m3)
  have c4 := b4 t ht h (y, d) (hh.trans_le m4) (hx _ m4)
  simp only at c1
  refine ⟨by linarith, c2.trans ?_, c3.trans ?_, c4.trans ?_⟩ <;>
    exact mul_le_mul_of_nonneg_right (by linarith) (abs_nonneg h)

theorem split_new_at {K : Kernels n} {lop : LinOp n} {t0 : ℝ} {y0 : Vec n} {m : String} {s : ExpSplit n} (hnew : ExpSplit.new t0 y0 m = .ok s) :
    At s.base t0 y0 ∧ s.base.method = m ∧ Coherent K lop s ∧
      (Nonempty2 s.base ∧ 0 < s.base.yHist.maxlen ∧ s.base.tHist.maxlen = s.base.yHist.maxlen) := by
  have hco : Coherent K lop s := new_coherent K lop hnew
  have hmm := ((C09_construct_others (n := n) t0 y0 m).2.1 s hnew).1
  unfold ExpSplit.new at hnew
  split at hnew
  · cases hnew
  · rename_i o _
    cases hb : Base.init t0 y0 o m with
    | error e => rw [hb] at hnew; cases hnew
    | ok bb =>
      rw [hb] at hnew
      cases hnew
      exact ⟨at_init hb, hmm, hco, init_nonempty hb⟩

/-- **C103, splitting family.**  In the setting of C91 but with kernels that are only approximately right: there are constants
`C`, `δ > 0`, depending on the problem only, such that for every step size `dt ≤ δ` and any kernels that are accurate to `κ ≤ δ` for
operators of norm at most `‖L‖`, `integrate` with `exp1/2/3` or their dense variants succeeds and returns at **every** output time
a value within `C (dt^p + κ)` of the solution. -/
theorem C103_split (sys : OdeSys n P) (lop : LinOp n) (hl : ∀ t y, sys.fl t y = lop)
    (L : Mat n) (hd : lop.dense = .ok L) (hL : IsMatrix lop L)
    (m : String) (p : ℕ) (hm : (m, p) ∈ splitOrders) (Y : ℝ → Vec n) (t0 T : ℝ)
    (hY : ∀ t ∈ Set.Icc t0 T, SmoothIVP (sys.frhs none) (p + 1) t Y) :
    ∃ C δ : ℝ, 0 ≤ C ∧ 0 < δ ∧ ∀ (K : Kernels n) (dt κ : ℝ) (nsteps : ℕ) (s : ExpSplit n), 0 < dt → dt ≤ δ → 0 ≤ κ → κ ≤ δ →
      ApproxFor m K dt ‖L‖ κ →
      t0 + nsteps * dt ≤ T → ExpSplit.new t0 (Y t0) m = .ok s →
      ∀ {Q W : Type} (before : Option (W → ℝ → Vec n → P × W)) (after : Option (W → ℝ → Vec n → Q × W)) (w : W),
      ∃ l, integrateOrmatex (splitStepper K sys) s (Y t0) t0 dt nsteps before after w = .ok l ∧
        RunAccurate l t0 dt nsteps Y (C * (dt ^ p + κ)) := by
  set f := sys.frhs none with hf
  obtain ⟨hp, -, -, hord⟩ := splitMap_facts (f := f) L hm
  obtain ⟨B, ρ, hB, hρ, htube⟩ := split_tube (f := f) (Y := Y) (t0 := t0) (T := T) L fun t ht => (hY t ht).mono (by omega)
  have hsm1 : ∀ t ∈ Set.Icc t0 T, ContDiffAt ℝ (p + 1 : ℕ) (splitMapE m f L) (0, t, (Y t, 0)) :=
    fun t ht => splitMapE_smooth (m := p + 1) (hY t ht).smooth _ m
  obtain ⟨C0, δ0, hC0, hδ0, hdef⟩ := uniform_defect (S := splitMapE m f L) (f := f) (Y := Y) (β := fun _ _ => (0 : Fin 3 → Vec n))
    (t0 := t0) (T := T) p (p + 1) (by omega) hY hsm1
    (fun t ht => contDiffAt_const)
    (fun t h => by
      simp only [splitMapE_zero_err]
      exact hord t Y (h.mono (by omega)))
  obtain ⟨C, δ, hC, hδ, hmain⟩ := converge_run (S := splitMapE m f L) (Y := Y) (a := fun _ => (0 : Fin 3 → Vec n)) (t0 := t0) (T := T)
    p hp (fun t ht => (hsm1 t ht).of_le (by norm_cast; omega)) (fun t x => splitMapE_zero m x)
    (fun t ht => (hY t ht).contDiff.continuousAt) (fun t ht => continuousAt_const) 0 C0 ρ le_rfl hC0 hρ
  set δ' := min (min (min δ (δ0 / 2)) (ρ / 2)) (min (δ / (4 * B + 1)) (ρ / (2 * (4 * B + 1)))) with hδ'
  have hδ'0 : 0 < δ' := by positivity
  have a1 : δ' ≤ δ := (min_le_left _ _).trans ((min_le_left _ _).trans (min_le_left _ _))
  have a2 : δ' ≤ δ0 / 2 := (min_le_left _ _).trans ((min_le_left _ _).trans (min_le_right _ _))
  have a4 : δ' ≤ ρ / 2 := (min_le_left _ _).trans (min_le_right _ _)
  have a5 : δ' * (4 * B + 1) ≤ δ := by
    have : δ' ≤ δ / (4 * B + 1) := (min_le_right _ _).trans (min_le_left _ _)
    rwa [le_div_iff₀ (by positivity)] at this
  have a6 : δ' * (2 * (4 * B + 1)) ≤ ρ := by
    have : δ' ≤ ρ / (2 * (4 * B + 1)) := (min_le_right _ _).trans (min_le_right _ _)
    rwa [le_div_iff₀ (by positivity)] at this
  refine ⟨C * (4 * B + 1), δ', by positivity, hδ'0, ?_⟩
  intro K dt κ N s hdt0 hdtδ hκ hκδ hK hN hnew Q W before after w
  have hin : ∀ k < N, t0 + (k : ℝ) * dt ∈ Set.Icc t0 T := by
    intro k hk
    have h1 : (k : ℝ) ≤ N := by exact_mod_cast hk.le
    have h2 := mul_le_mul_of_nonneg_right h1 hdt0.le
    have h3 : 0 ≤ (k : ℝ) * dt := by positivity
    constructor <;> linarith
  have hκB : κ * (4 * B) ≤ δ' * (4 * B) := mul_le_mul_of_nonneg_right hκδ (by positivity)
  have hκρ : κ * (4 * B) < ρ := by nlinarith
  have hκt : κ * (4 * B) ≤ δ := by nlinarith
  have hκ0 : 0 ≤ κ * (4 * B) := by positivity
  obtain ⟨l, hl', hacc⟩ := hmain dt (κ * (4 * B)) N (fun _ => 0) hdt0 (hdtδ.trans a1)
    hκ0 hκt hN (by intro k hk; simpa using hδ.le)
    (by
      intro k hk
      have h1 := hdef _ (hin k hk) dt (by rw [abs_of_pos hdt0]; linarith)
      rw [abs_of_pos hdt0] at h1
      have e : t0 + ((k + 1 : ℕ) : ℝ) * dt = t0 + k * dt + dt := by push_cast; ring
      rw [e]; exact h1)
    (splitStepper K sys) (fun (o : ExpSplit n) k u => At o.base (t0 + k * dt) (u k) ∧ o.base.method = m ∧
      Coherent K lop o ∧ (Nonempty2 o.base ∧ 0 < o.base.yHist.maxlen ∧ o.base.tHist.maxlen = o.base.yHist.maxlen))
    before after s w
    (by
      intro u hu
      obtain ⟨g1, g2, g3, g4⟩ := split_new_at (K := K) (lop := lop) hnew
      exact ⟨by simpa [hu] using g1, g2, g3, g4⟩)
    (by
      rintro o k u kw hk - hsmall ⟨g1, g2, g3, g4⟩
      set t := t0 + (k : ℝ) * dt with ht
      have hyk := hsmall k le_rfl
      have hdtρ : |dt| < ρ := by rw [abs_of_pos hdt0]; linarith
      have hb := fun (d : Fin 3 → Vec n) (hd : ‖d‖ ≤ κ * (4 * B)) => htube t (hin k hk) (u k) d dt hyk (hd.trans_lt hκρ) hdtρ
      rw [abs_of_pos hdt0] at hb
      obtain ⟨d, o', hdn, hbase, hst⟩ := split_step_approx sys lop hl L hd hL o t (u k) g1 g3 kw dt κ B ‖L‖ p m g2 hm hK hdt0 hκ le_rfl
        (hb 0 (by simpa using hκ0)).1 (fun d hd => (hb d hd).2.1) (fun d hd => (hb d hd).2.2.1) (fun d hd => (hb d hd).2.2.2)
      refine ⟨StepResult.mk (t + dt) dt (splitMapE m f L (dt, t, (u k, d))) (-1), o', d, hst, rfl, rfl, ?_, ?_⟩
      · rw [sub_zero, zero_mul, zero_add]; exact hdn
      · intro u' hu' hn
        rw [← hbase] at g4
        refine ⟨?_, by rw [← g2, ← hbase]; rfl, dense_step_coherent K sys lop hl o o' g3 dt kw _ hst, accept_nonempty g4 _⟩
        have := at_accept g4.2 (StepResult.mk (t + dt) dt (u' (k + 1)) (-1))
        have e : t0 + ((k + 1 : ℕ) : ℝ) * dt = t + dt := by rw [ht]; push_cast; ring
        rw [e]
        rw [hn] at this ⊢
        exact this)
  refine ⟨l, hl', hacc.1, hacc.2.1, fun i y hi => (hacc.2.2 i y hi).trans ?_⟩
  rw [mul_assoc]
  refine mul_le_mul_of_nonneg_left ?_ hC
  have : 0 ≤ dt ^ p := by positivity
  nlinarith [mul_nonneg hB this]

end
end Ormatex.Props
