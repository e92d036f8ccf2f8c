import Verif.Props.Wrapper

/-!
C48 (substepping) and C04 (heuristic state of the Leja integrator).
-/

namespace Ormatex.Props
open Ormatex Matrix
open scoped Classical

variable {n : ℕ}

/-- **Specification.** `Composed inner ds v w`: starting from `v`, the inner evaluation was called with the substeps `ds` in
order, every one of these calls reported convergence, and the result is `w`. -/
inductive Composed (inner : ℝ → Vec n → Vec n × ℕ × Prop) : List ℝ → Vec n → Vec n → Prop
  | nil (v : Vec n) : Composed inner [] v v
  | snoc {ds : List ℝ} {v w : Vec n} (d : ℝ) : Composed inner ds v w → (inner d w).2.2 →
      Composed inner (ds ++ [d]) v (inner d w).1

/-- invariant of the substep loop -/
structure SubInv (inner : ℝ → Vec n → Vec n × ℕ × Prop) (v : Vec n) (s : SubState n) (ds : List ℝ) : Prop where
  comp : Composed inner ds v s.w
  sum : ds.sum = s.tau
  pos : ∀ d ∈ ds, 0 < d
  max : ds ≠ [] → 0 < s.maxTau
  maxle : s.maxTau ≤ 1
  maxnn : 0 ≤ s.maxTau
  fits : s.tau + s.dts ≤ 1
  alive : s.tau < 1 → 0 < s.dts
  taunn : 0 ≤ s.tau

theorem subInv_body {inner : ℝ → Vec n → Vec n × ℕ × Prop} {v : Vec n} {s : SubState n} {ds : List ℝ}
    (h : SubInv inner v s ds) (hlt : s.tau < 1) :
    ∃ ds', SubInv inner v (subBody inner s) ds' ∧
      ((subBody inner s).tau ≥ 1 → (subBody inner s).conv) ∧ ds'.length ≤ ds.length + 1 := by
  have hd := h.alive hlt
  by_cases hc : (inner s.dts s.w).2.2
  · have e : subBody inner s = SubState.mk (min s.dts (1 - (s.tau + s.dts))) (s.tau + s.dts) (inner s.dts s.w).1
        (s.tot + (inner s.dts s.w).2.1) (Max.max s.maxTau s.dts) (inner s.dts s.w).2.2 := by
      unfold subBody; simp [hc]
    rw [e]
    refine ⟨ds ++ [s.dts], ⟨h.comp.snoc _ hc, ?_, ?_, ?_, ?_, ?_, ?_, ?_, ?_⟩, fun _ => hc, by simp⟩
    · simp [h.sum]
    · intro d hd'
      rcases List.mem_append.mp hd' with h1 | h1
      · exact h.pos d h1
      · simp at h1; rw [h1]; exact hd
    · intro _; exact lt_max_of_lt_right hd
    · refine max_le h.maxle ?_
      have := h.fits; have := h.taunn; linarith
    · exact le_max_of_le_left h.maxnn
    · have : min s.dts (1 - (s.tau + s.dts)) ≤ 1 - (s.tau + s.dts) := min_le_right _ _
      simp only; linarith
    · intro ht
      simp only at ht ⊢
      exact lt_min hd (by linarith)
    · have := h.taunn; simp only; linarith
  · have e : subBody inner s = SubState.mk (s.dts / 1.2) s.tau s.w (s.tot + (inner s.dts s.w).2.1) s.maxTau
        (inner s.dts s.w).2.2 := by
      unfold subBody; simp [hc]
    rw [e]
    refine ⟨ds, ⟨h.comp, h.sum, h.pos, h.max, h.maxle, h.maxnn, ?_, ?_, h.taunn⟩, ?_, by omega⟩
    · have := h.fits
      have h2 : s.dts / 1.2 ≤ s.dts := by
        rw [div_le_iff₀ (by norm_num)]; nlinarith
      simp only; linarith
    · intro _; simp only; positivity
    · intro ht; simp only at ht; linarith

theorem subLoop_ok {inner : ℝ → Vec n → Vec n × ℕ × Prop} {v : Vec n} (f : ℕ) {s s' : SubState n} {ds : List ℝ}
    (h : SubInv inner v s ds) (hlt : s.tau < 1) (hr : subLoop inner f s = .ok s') :
    ∃ ds' k, 1 ≤ k ∧ k ≤ f ∧ s' = (subBody inner)^[k] s ∧ SubInv inner v s' ds' ∧ s'.tau = 1 ∧ s'.conv ∧
      ds'.length ≤ ds.length + k := by
  induction f generalizing s ds with
  | zero => cases hr
  | succ f ih =>
    unfold subLoop at hr
    obtain ⟨ds1, h1, hconv, hlen⟩ := subInv_body h hlt
    simp only at hr
    split at hr
    · rename_i ht
      cases hr
      refine ⟨ds1, 1, le_rfl, by omega, rfl, h1, ?_, hconv ht, hlen⟩
      refine le_antisymm ?_ ht
      have h2 := h1.fits
      by_contra hcon
      push Not at hcon
      have h0 := h1.fits
      -- tau = sum of the previous tau and dts, at most 1
      have : (subBody inner s).tau ≤ 1 := by
        unfold subBody
        simp only
        split
        · exact hlt.le
        · exact h.fits
      linarith
    · rename_i ht
      obtain ⟨ds', k, hk1, hk2, hk3, r1, r2, r3, r4⟩ := ih h1 (by simpa using ht) hr
      exact ⟨ds', k + 1, by omega, by omega, by rw [hk3, Function.iterate_succ_apply], r1, r2, r3, by omega⟩

theorem subLoop_error {inner : ℝ → Vec n → Vec n × ℕ × Prop} (f : ℕ) {s : SubState n} {e : PyErr}
    (hr : subLoop inner f s = .error e) :
    e = .runtime ∧ ∀ k, 1 ≤ k → k ≤ f → ((subBody inner)^[k] s).tau < 1 := by
  induction f generalizing s with
  | zero =>
    cases hr
    exact ⟨rfl, fun k h1 h2 => by omega⟩
  | succ f ih =>
    unfold subLoop at hr
    simp only at hr
    split at hr
    · cases hr
    · rename_i ht
      obtain ⟨h1, h2⟩ := ih hr
      refine ⟨h1, fun k hk1 hk2 => ?_⟩
      obtain ⟨k, rfl⟩ : ∃ j, k = j + 1 := ⟨k - 1, by omega⟩
      rw [Function.iterate_succ_apply]
      rcases Nat.eq_zero_or_pos k with rfl | hk
      · simpa using ht
      · exact h2 k hk (by omega)

theorem subInv_init (inner : ℝ → Vec n → Vec n × ℕ × Prop) (v : Vec n) (tauDt : ℝ) (h : 0 < tauDt) :
    SubInv inner v { dts := min tauDt 1, tau := 0, w := v, tot := 0, maxTau := 0, conv := False } [] :=
  ⟨.nil v, rfl, by simp, by simp, by norm_num, le_rfl, by simp, fun _ => lt_min h one_pos, le_rfl⟩

/-- **C48.** A substepped Leja evaluation that returns did so after at most 1001 inner calls; the accepted substeps are
positive and sum to exactly 1; every accepted inner call had converged and the result is their composition; the
returned flag is true; and the reported maximal substep lies in `(0, 1]`. -/
theorem C48_substeps (inner : ℝ → Vec n → Vec n × ℕ × Prop) (tauDt : ℝ) (htau : 0 < tauDt) (v w : Vec n) (iters : ℕ)
    (conv : Prop) (maxTau : ℝ) (h : expmvSubstep inner tauDt v true = .ok (w, iters, conv, maxTau)) :
    (∃ ds : List ℝ, Composed inner ds v w ∧ ds.sum = 1 ∧ (∀ d ∈ ds, 0 < d) ∧ ds.length ≤ 1001) ∧ conv ∧ 0 < maxTau ∧ maxTau ≤ 1 ∧
    ∃ k ≤ 1001, 1 ≤ k ∧ w = ((subBody inner)^[k]
      { dts := min tauDt 1, tau := 0, w := v, tot := 0, maxTau := 0, conv := False }).w := by
  unfold expmvSubstep at h
  simp only [not_true, if_false] at h
  obtain ⟨s, hs, h⟩ := bind_ok h
  cases h
  obtain ⟨ds, k, hk1, hk2, hk3, hinv, ht, hc, hlen⟩ := subLoop_ok 1001 (subInv_init inner v tauDt htau) (by norm_num) hs
  have hne : ds ≠ [] := by
    rintro rfl
    have := hinv.sum
    rw [ht] at this
    norm_num at this
  exact ⟨⟨ds, hinv.comp, by rw [hinv.sum, ht], hinv.pos, by simpa using hlen.trans (Nat.add_le_add_left hk2 _)⟩, hc, hinv.max hne, hinv.maxle, k, hk2, hk1, by rw [hk3]⟩

/-- **C48, error branch.** The only exception is `RuntimeError`, and it is raised only when 1001 passes did not reach the
end of the interval. -/
theorem C48_error (inner : ℝ → Vec n → Vec n × ℕ × Prop) (tauDt : ℝ) (v : Vec n) (substep : Bool) (e : PyErr)
    (h : expmvSubstep inner tauDt v substep = .error e) :
    e = .runtime ∧ substep = true ∧ ∀ k, 1 ≤ k → k ≤ 1001 → ((subBody inner)^[k]
      { dts := min tauDt 1, tau := 0, w := v, tot := 0, maxTau := 0, conv := False }).tau < 1 := by
  unfold expmvSubstep at h
  cases substep with
  | false => simp at h
  | true =>
    simp only [not_true, if_false] at h
    cases hs : subLoop inner 1001 { dts := min tauDt 1, tau := 0, w := v, tot := 0, maxTau := 0, conv := False } with
    | ok s => rw [hs] at h; cases h
    | error e' =>
      rw [hs] at h
      cases h
      obtain ⟨h1, h2⟩ := subLoop_error 1001 hs
      exact ⟨h1, rfl, h2⟩

open scoped Matrix.Norms.Operator in
/-- **C48, exactness.** If every converged inner call with substep `d` returns `exp(d A) w`, the substepped evaluation
returns `exp(A) v`. -/
theorem C48_exact (A : Mat n) (inner : ℝ → Vec n → Vec n × ℕ × Prop)
    (hin : ∀ d w, (inner d w).2.2 → (inner d w).1 = NormedSpace.exp (d • A) *ᵥ w) (tauDt : ℝ) (htau : 0 < tauDt)
    (v w : Vec n) (iters : ℕ) (conv : Prop) (maxTau : ℝ)
    (h : expmvSubstep inner tauDt v true = .ok (w, iters, conv, maxTau)) :
    w = NormedSpace.exp A *ᵥ v := by
  obtain ⟨⟨ds, hc, hsum, _⟩, _⟩ := C48_substeps inner tauDt htau v w iters conv maxTau h
  have key : ∀ ds v w, Composed inner ds v w → w = NormedSpace.exp (ds.sum • A) *ᵥ v := by
    intro ds v w hc
    induction hc with
    | nil v => simp
    | @snoc ds v w d _ hconv ih =>
      rw [hin d _ hconv, ih, Matrix.mulVec_mulVec, List.sum_append]
      have hcomm : Commute (d • A) (ds.sum • A) := by
        simp only [Commute, SemiconjBy, smul_mul_smul_comm, mul_comm]
      have := NormedSpace.exp_add_of_commute hcomm
      rw [← add_smul] at this
      simp only [List.sum_cons, List.sum_nil, add_zero]
      rw [add_comm ds.sum d]
      exact congrArg (· *ᵥ v) this.symm
  rw [key ds v w hc, hsum, one_smul]

/-- Non-vacuity of C48: with an inner evaluation that always converges and a first guess 1/2, the run takes two substeps
and returns. -/
example (v : Vec 2) : expmvSubstep (fun d w => (d • w, 1, True)) (1 / 2) v true
    = .ok ((1 / 2 : ℝ) • (1 / 2 : ℝ) • v, 2, True, 1 / 2) := by
  unfold expmvSubstep
  simp only [not_true, if_false]
  rw [show (1001 : ℕ) = 999 + 1 + 1 from rfl, subLoop]
  simp only [subBody, not_true, if_false]
  rw [if_neg (by norm_num), subLoop]
  simp only [subBody, not_true, if_false]
  rw [if_pos (by norm_num)]
  norm_num [bind, Except.bind, pure, Except.pure]

/-! ### C04 -/

theorem substep_maxTau (inner : ℝ → Vec n → Vec n × ℕ × Prop) (tauDt : ℝ) (htau : 0 < tauDt) (v : Vec n)
    (substep : Bool) :
    Ret (fun q => 0 < q.2.2.2 ∧ q.2.2.2 ≤ 1) (expmvSubstep inner tauDt v substep) := by
  intro q hq
  obtain ⟨w, it, c, mt⟩ := q
  cases substep with
  | false =>
    unfold expmvSubstep at hq
    simp at hq
    obtain ⟨_, _, _, rfl⟩ := hq
    norm_num
  | true =>
    obtain ⟨_, _, h1, h2, _⟩ := C48_substeps inner tauDt htau v w it c mt hq
    exact ⟨h1, h2⟩

/-- the properties of the heuristic state -/
def SaneAfter (s : ExpLeja n) (q : StepResult (Vec n) × ExpLeja n) : Prop :=
  q.2.base = s.base ∧ q.2.istep = s.istep + 1 ∧ 0 < q.2.substepSize ∧ q.2.substepSize ≤ 1

theorem finish_sane (s : ExpLeja n) (hs : 0 < s.substepSize ∧ s.substepSize ≤ 1) (bk : Option (Vec (n + 2)))
    (yt u : Vec n) (dt : ℝ) (c : Prop) (mt : ℝ) (hmt : 0 < mt ∧ mt ≤ 1) :
    Ret (SaneAfter s) (lejaFinish s bk yt u dt c mt) := by
  intro q hq
  unfold lejaFinish at hq
  split at hq
  · cases hq
  · cases hq
    refine ⟨rfl, rfl, ?_, ?_⟩
    · simp only
      have hw : (1 : ℝ) ≤ ((min (s.istep + 1) 10 : ℕ) : ℝ) := by
        have : 1 ≤ min (s.istep + 1) 10 := by omega
        exact_mod_cast this
      set wgt : ℝ := ((min (s.istep + 1) 10 : ℕ) : ℝ)
      have h1 : 0 < (1 / wgt) * mt := mul_pos (by positivity) hmt.1
      have h2 : 0 ≤ ((wgt - 1) / wgt) * s.substepSize := mul_nonneg (div_nonneg (by linarith) (by linarith)) hs.1.le
      linarith
    · simp only
      have hw : (1 : ℝ) ≤ ((min (s.istep + 1) 10 : ℕ) : ℝ) := by
        have : 1 ≤ min (s.istep + 1) 10 := by omega
        exact_mod_cast this
      set wgt : ℝ := ((min (s.istep + 1) 10 : ℕ) : ℝ)
      have hp : 0 < wgt := by linarith
      have h1 : (1 / wgt) * mt ≤ 1 / wgt := by
        have := mul_le_mul_of_nonneg_left hmt.2 (by positivity : (0:ℝ) ≤ 1 / wgt)
        linarith
      have h2 : ((wgt - 1) / wgt) * s.substepSize ≤ (wgt - 1) / wgt := by
        have := mul_le_mul_of_nonneg_left hs.2 (div_nonneg (by linarith) hp.le : (0:ℝ) ≤ (wgt - 1) / wgt)
        linarith
      have h3 : 1 / wgt + (wgt - 1) / wgt = 1 := by field_simp; ring
      linarith

theorem Ret.bind_of {α β : Type} {r : α → Prop} {p : β → Prop} {x : Py α} {f : α → Py β} (hx : Ret r x)
    (h : ∀ a, r a → Ret p (f a)) : Ret p (x >>= f) := by
  intro b hb
  obtain ⟨a, h1, ha⟩ := bind_ok hb
  exact h a (hx a h1) b ha

theorem leja_step_sane {P : Type} [EmptyCollection P] (o : LejaOpts) (sys : OdeSys n P) (s : ExpLeja n)
    (hs : 0 < s.substepSize ∧ s.substepSize ≤ 1) (dt : ℝ) (kw : Option P) :
    Ret (SaneAfter s) (ExpLeja.step o sys s dt kw) := by
  have hpos : (0 : ℝ) < 1.1 * s.substepSize := by have := hs.1; positivity
  have him : ∀ b d, Ret (SaneAfter s) (stepEpiIm o sys s dt d b) := fun b d =>
    Ret.bind fun _ => Ret.ite
      (Ret.bind fun _ => Ret.bind fun _ => Ret.bind fun _ => Ret.bind fun _ => Ret.bind fun _ => Ret.bind fun _ =>
        Ret.bind_of (substep_maxTau _ _ hpos _ _) fun _ h => finish_sane _ hs _ _ _ _ _ _ h)
      (Ret.bind fun _ => Ret.bind fun _ => Ret.bind fun _ =>
        Ret.bind_of (substep_maxTau _ _ hpos _ _) fun _ h => finish_sane _ hs _ _ _ _ _ _ h)
  unfold ExpLeja.step
  refine Ret.ite ?_ (Ret.ite (him _ _) (Ret.ite (Ret.ite (him _ _) (him _ _)) Ret.err))
  exact Ret.bind fun _ => Ret.bind fun _ =>
    Ret.bind_of (substep_maxTau _ _ hpos _ _) fun _ h => finish_sane _ hs _ _ _ _ _ _ h

/-- a step that raises changes at most the stored eigenvector -/
theorem leja_failed {P : Type} [EmptyCollection P] (o : LejaOpts) (sys : OdeSys n P) (s : ExpLeja n) (dt : ℝ) (kw : Option P)
    (e : PyErr) (h : ExpLeja.step o sys s dt kw = .error e) :
    ∃ bk, (s.stepWrites o sys dt kw).getLastD s = { s with bk := bk } := by
  unfold ExpLeja.stepWrites
  dsimp only
  split
  · split
    · exact ⟨s.bk, rfl⟩
    · rename_i bk _
      rw [h]
      exact ⟨bk, rfl⟩
  · exact ⟨s.bk, rfl⟩

/-- **Specification.** Number of `step` calls of a history that return. -/
noncomputable def completedSteps {σ P Y : Type} (M : Machine σ P Y) : σ → List (Call P Y) → ℕ
  | _, [] => 0
  | s, c :: cs =>
    (match c with
      | .step dt kw => if ∃ p, M.step s dt kw = .ok p then 1 else 0
      | _ => 0) + completedSteps M (M.after s c) cs

/-- **C04.** Over every history of steps (returning or raising), accepts and resets of a Leja integrator: the remembered
substep size stays in `(0, 1]`; a step never changes time or history; and the step counter equals the number of steps
that have returned since construction (resets do not restart it). -/
theorem C04_leja_state {P : Type} [EmptyCollection P] (o : LejaOpts) (sys : OdeSys n P) (t0 : ℝ) (y0 : Vec n) (m : String)
    (s0 : ExpLeja n) (h0 : ExpLeja.new t0 y0 m = .ok s0) (cs : List (Call P (Vec n))) :
    let M := lejaMachine o sys
    let s := M.run s0 cs
    0 < s.substepSize ∧ s.substepSize ≤ 1 ∧ s.istep = completedSteps M s0 cs ∧
      (∀ dt kw, (M.after s (.step dt kw)).base = s.base) ∧
      s.base = s0.base.run (opsOf cs) := by
  intro M s
  have key : ∀ (cs : List (Call P (Vec n))) (s : ExpLeja n), 0 < s.substepSize ∧ s.substepSize ≤ 1 →
      (0 < (M.run s cs).substepSize ∧ (M.run s cs).substepSize ≤ 1) ∧
      (M.run s cs).istep = s.istep + completedSteps M s cs ∧ (M.run s cs).base = s.base.run (opsOf cs) := by
    intro cs
    induction cs with
    | nil => intro s hs; exact ⟨hs, rfl, rfl⟩
    | cons c cs ih =>
      intro s hs
      cases c with
      | step dt kw =>
        cases hst : M.step s dt kw with
        | error e =>
          obtain ⟨bk, hbk⟩ := leja_failed o sys s dt kw e hst
          have ha : M.after s (.step dt kw) = { s with bk := bk } := by
            simp only [Machine.after, hst]
            exact hbk
          have hn : ¬ ∃ p, M.step s dt kw = .ok p := by rintro ⟨p, hp⟩; rw [hst] at hp; cases hp
          have := ih { s with bk := bk } hs
          refine ⟨?_, ?_, ?_⟩
          · show 0 < (M.run (M.after s _) cs).substepSize ∧ (M.run (M.after s _) cs).substepSize ≤ 1; rw [ha]; exact this.1
          · show (M.run (M.after s _) cs).istep = s.istep + ((if _ then 1 else 0) + completedSteps M (M.after s _) cs)
            rw [ha, if_neg hn, this.2.1]; dsimp only; omega
          · show (M.run (M.after s _) cs).base = _; rw [ha]; exact this.2.2
        | ok p =>
          obtain ⟨r, s'⟩ := p
          have ha : M.after s (.step dt kw) = s' := by simp only [Machine.after, hst]
          have hn : ∃ p, M.step s dt kw = .ok p := ⟨_, hst⟩
          obtain ⟨g1, g2, g3, g4⟩ := leja_step_sane o sys s hs dt kw (r, s') hst
          have := ih s' ⟨g3, g4⟩
          refine ⟨?_, ?_, ?_⟩
          · show 0 < (M.run (M.after s _) cs).substepSize ∧ (M.run (M.after s _) cs).substepSize ≤ 1; rw [ha]; exact this.1
          · show (M.run (M.after s _) cs).istep = s.istep + ((if _ then 1 else 0) + completedSteps M (M.after s _) cs)
            rw [ha, if_pos hn, this.2.1, g2]; omega
          · show (M.run (M.after s _) cs).base = _; rw [ha, this.2.2, g1]; rfl
      | accept r =>
        have := ih (s.acceptStep r) hs
        refine ⟨this.1, ?_, this.2.2⟩
        have e := this.2.1
        show (M.run (s.acceptStep r) cs).istep = s.istep + (0 + completedSteps M (s.acceptStep r) cs)
        rw [e, zero_add]; rfl
      | reset t y =>
        have := ih (s.resetIc t y) hs
        refine ⟨this.1, ?_, this.2.2⟩
        have e := this.2.1
        show (M.run (s.resetIc t y) cs).istep = s.istep + (0 + completedSteps M (s.resetIc t y) cs)
        rw [e, zero_add]; rfl
  have hinit : (0 < s0.substepSize ∧ s0.substepSize ≤ 1) ∧ s0.istep = 0 := by
    unfold ExpLeja.new at h0
    split at h0
    · cases h0
    · obtain ⟨b, _, h0⟩ := bind_ok h0
      cases h0
      norm_num
  obtain ⟨k1, k2, k3⟩ := key cs s0 hinit.1
  refine ⟨k1.1, k1.2, ?_, ?_, k3⟩
  · rw [k2, hinit.2, zero_add]
  · intro dt kw
    simp only [Machine.after]
    split
    · rename_i r s' h; exact (leja_wellBehaved o sys).step_base _ _ _ _ _ h
    · rename_i e h
      obtain ⟨bk, hbk⟩ := leja_failed o sys s dt kw e h
      show ((s.stepWrites o sys dt kw).getLastD s).base = s.base
      rw [hbk]

/-- **C04, reset.** Unlike the other families, `reset_ic` keeps the heuristic state of a Leja integrator: after any
history with a completed step, the reset object differs from a newly constructed one. -/
theorem C04_reset_keeps_heuristics {P : Type} [EmptyCollection P] (o : LejaOpts) (sys : OdeSys n P) (t0 t1 : ℝ)
    (y0 y1 : Vec n) (m : String) (s0 s1 : ExpLeja n) (h0 : ExpLeja.new t0 y0 m = .ok s0)
    (h1 : ExpLeja.new t1 y1 m = .ok s1) (cs : List (Call P (Vec n)))
    (hc : completedSteps (lejaMachine o sys) s0 cs ≠ 0) :
    let s := (lejaMachine o sys).run s0 cs
    s.resetIc t1 y1 ≠ s1 ∧ (s.resetIc t1 y1).substepSize = s.substepSize ∧ (s.resetIc t1 y1).bk = s.bk := by
  intro s
  refine ⟨?_, rfl, rfl⟩
  intro heq
  have hs := (C04_leja_state o sys t0 y0 m s0 h0 cs).2.2.1
  have : (s.resetIc t1 y1).istep = s.istep := rfl
  rw [heq] at this
  have h2 : s1.istep = 0 := by
    unfold ExpLeja.new at h1
    split at h1
    · cases h1
    · obtain ⟨b, _, h1⟩ := bind_ok h1
      cases h1
      rfl
  rw [h2] at this
  have hs' : s.istep = completedSteps (lejaMachine o sys) s0 cs := hs
  exact hc (by rw [← hs', ← this])

/-- Non-vacuity of C04: construction succeeds for the three advertised names. -/
example (y0 : Vec n) : (∃ s, ExpLeja.new 0 y0 "epi2_leja_re" = .ok s) ∧ (∃ s, ExpLeja.new 0 y0 "epi2_leja_im" = .ok s) ∧
    (∃ s, ExpLeja.new 0 y0 "epi3_leja_im" = .ok s) := ⟨⟨_, rfl⟩, ⟨_, rfl⟩, ⟨_, rfl⟩⟩

end Ormatex.Props
