import Verif.Spec.Client

/-!
C02 (reset equals a fresh integrator), C03 (trial steps), C40 (epi3 start-up), C41 (dense phi cache).
-/

namespace Ormatex.Props
open Ormatex Matrix
open scoped Classical

variable {n : ℕ} {P : Type} [EmptyCollection P]
set_option linter.unusedSectionVars false

/-! ### C02 -/

/-- constants fixed at construction -/
structure SameConf {Y : Type} (b b' : Base Y) : Prop where
  order : b.order = b'.order
  method : b.method = b'.method
  tmax : b.tHist.maxlen = b'.tHist.maxlen
  ymax : b.yHist.maxlen = b'.yHist.maxlen

theorem SameConf.refl {Y : Type} (b : Base Y) : SameConf b b := ⟨rfl, rfl, rfl, rfl⟩

theorem SameConf.trans {Y : Type} {a b c : Base Y} (h : SameConf a b) (g : SameConf b c) : SameConf a c :=
  ⟨h.1.trans g.1, h.2.trans g.2, h.3.trans g.3, h.4.trans g.4⟩

theorem sameConf_accept {Y : Type} (b : Base Y) (r : StepResult Y) : SameConf (b.acceptStep r) b := ⟨rfl, rfl, rfl, rfl⟩

theorem sameConf_reset {Y : Type} (b : Base Y) (t0 : ℝ) (y0 : Y) : SameConf (b.resetIc t0 y0) b := ⟨rfl, rfl, rfl, rfl⟩

theorem base_reset_fresh {Y : Type} {t0 t1 : ℝ} {y0 y1 : Y} {p : ℕ} {m : String} {b0 b1 b : Base Y}
    (h0 : Base.init t0 y0 p m = .ok b0) (h1 : Base.init t1 y1 p m = .ok b1) (hc : SameConf b b0) :
    b.resetIc t1 y1 = b1 := by
  unfold Base.init at h0 h1
  split at h0
  · rename_i hp
    rw [if_pos hp] at h1
    cases h0
    cases h1
    obtain ⟨c1, c2, c3, c4⟩ := hc
    cases b with
    | mk t order method tH yH =>
      simp only at c1 c2
      subst c1; subst c2
      simp only [Base.resetIc, Deque.clear, Deque.appendleft, Deque.empty] at c3 c4 ⊢
      rw [c3, c4]
  · cases h0

/-- what holds before a call and after every write of it holds of the state an exception leaves behind -/
theorem last_write {σ : Type} {p : σ → Prop} (l : List σ) (s : σ) (h0 : p s) (h : ∀ x ∈ l, p x) : p (l.getLastD s) := by
  rw [List.getLastD_eq_getLast?]
  cases hl : l.getLast? with
  | none => exact h0
  | some x => exact h x (List.mem_of_getLast? hl)

/-- the base configuration is an invariant of every machine whose operations preserve it -/
theorem run_conf {σ Y : Type} {P : Type} (M : Machine σ P Y)
    (hs : ∀ s dt kw r s', M.step s dt kw = .ok (r, s') → SameConf (M.base s') (M.base s))
    (hw : ∀ s dt kw, ∀ s' ∈ M.writes s (.step dt kw), SameConf (M.base s') (M.base s))
    (ha : ∀ s r, SameConf (M.base (M.accept s r)) (M.base s))
    (hr : ∀ s t0 y0, SameConf (M.base (M.reset s t0 y0)) (M.base s))
    (s : σ) (cs : List (Call P Y)) : SameConf (M.base (M.run s cs)) (M.base s) := by
  induction cs generalizing s with
  | nil => exact SameConf.refl _
  | cons c cs ih =>
    refine (ih (M.after s c)).trans ?_
    cases c with
    | step dt kw =>
      simp only [Machine.after]
      split
      · rename_i r s' h; exact hs _ _ _ _ _ h
      · exact last_write (p := fun x => SameConf (M.base x) (M.base s)) _ _ (SameConf.refl _) (hw s dt kw)
    | accept r => exact ha _ _
    | reset t0 y0 => exact hr _ _ _

theorem keep_ok {σ α : Type} {s s' : σ} {r : Py α} {a : α} (h : keep s r = .ok (a, s')) : s' = s ∧ r = .ok a := by
  unfold keep at h
  cases r with
  | error e => cases h
  | ok x => cases h; exact ⟨rfl, rfl⟩

theorem rb_run_tol (hasRust : Bool) (K : Kernels n) (sys : OdeSys n P) (s : ExpRB n) (cs : List (Call P (Vec n))) :
    ((rbMachine hasRust K sys).run s cs).tolFdt = s.tolFdt := by
  induction cs generalizing s with
  | nil => rfl
  | cons c cs ih =>
    refine (ih ((rbMachine hasRust K sys).after s c)).trans ?_
    cases c with
    | step dt kw =>
      simp only [Machine.after]
      split
      · rename_i r s' h
        rw [(keep_ok h).1]
      · rfl
    | accept r => rfl
    | reset t0 y0 => rfl

/-- **C02 (Rosenbrock).** After any history of calls, `reset_ic(t1, y1)` puts an `ExpRBIntegrator` into exactly the state
of a newly constructed one with that initial condition; hence all later observations agree. -/
theorem C02_reset_fresh_rb (hasRust : Bool) (K : Kernels n) (sys : OdeSys n P) (t0 t1 : ℝ) (y0 y1 : Vec n)
    (method : String) (tol : ℝ) (s0 s1 : ExpRB n)
    (h0 : ExpRB.new hasRust t0 y0 method tol = .ok s0) (h1 : ExpRB.new hasRust t1 y1 method tol = .ok s1)
    (past future : List (Call P (Vec n))) :
    let M := rbMachine hasRust K sys
    M.reset (M.run s0 past) t1 y1 = s1 ∧
      M.trace (M.reset (M.run s0 past) t1 y1) future = M.trace s1 future := by
  intro M
  have hkey : M.reset (M.run s0 past) t1 y1 = s1 := by
    have hconf : SameConf (M.base (M.run s0 past)) (M.base s0) := by
      refine run_conf M ?_ ?_ ?_ ?_ s0 past
      · intro s dt kw r s' h
        rw [(keep_ok h).1]
        exact SameConf.refl _
      · intro s dt kw s' hs'
        rw [List.mem_singleton.1 hs']
        exact SameConf.refl _
      · intro s r; exact sameConf_accept _ _
      · intro s t y; exact sameConf_reset _ _ _
    have htol := rb_run_tol hasRust K sys s0 past
    unfold ExpRB.new at h0 h1
    split at h0
    · cases h0
    · rename_i order ho
      simp only [ho] at h1
      split at h0
      · cases h0
      · rename_i hr
        rw [if_neg hr] at h1
        cases hb0 : Base.init t0 y0 order method with
        | error e => rw [hb0] at h0; cases h0
        | ok b0 =>
          cases hb1 : Base.init t1 y1 order method with
          | error e => rw [hb1] at h1; cases h1
          | ok b1 =>
            rw [hb0] at h0; rw [hb1] at h1
            cases h0; cases h1
            have := base_reset_fresh hb0 hb1 hconf
            show ExpRB.mk _ _ = ExpRB.mk _ _
            rw [← this]
            congr 1
  exact ⟨hkey, by rw [hkey]⟩

/-- **C02 (RK).** -/
theorem C02_reset_fresh_rk (sys : OdeSys n P) (t0 t1 : ℝ) (y0 y1 : Vec n) (method : String) (s0 s1 : Base (Vec n))
    (h0 : RK.new t0 y0 method = .ok s0) (h1 : RK.new t1 y1 method = .ok s1) (past future : List (Call P (Vec n))) :
    let M := rkMachine sys
    M.reset (M.run s0 past) t1 y1 = s1 ∧
      M.trace (M.reset (M.run s0 past) t1 y1) future = M.trace s1 future := by
  intro M
  have hkey : M.reset (M.run s0 past) t1 y1 = s1 := by
    have hconf : SameConf (M.base (M.run s0 past)) (M.base s0) := by
      refine run_conf M ?_ ?_ ?_ ?_ s0 past
      · intro s dt kw r s' h
        rw [(keep_ok h).1]
        exact SameConf.refl _
      · intro s dt kw s' hs'
        rw [List.mem_singleton.1 hs']
        exact SameConf.refl _
      · intro s r; exact sameConf_accept _ _
      · intro s t y; exact sameConf_reset _ _ _
    unfold RK.new at h0 h1
    split at h0
    · cases h0
    · rename_i order ho
      simp only [ho] at h1
      exact base_reset_fresh h0 h1 hconf
  exact ⟨hkey, by rw [hkey]⟩

/-- Two splitting integrators that differ at most in the parts of the cache that are not going to be read. -/
structure CacheEquiv (s s' : ExpSplit n) : Prop where
  base : s.base = s'.base
  dt : s.cachedDt = s'.cachedDt
  lop : s.cachedDt ≠ none → s.cachedSysLop = s'.cachedSysLop
  phis : s.cachedDt ≠ none → s.cachedPhiLs = s'.cachedPhiLs

theorem CacheEquiv.refl (s : ExpSplit n) : CacheEquiv s s := ⟨rfl, rfl, fun _ => rfl, fun _ => rfl⟩

theorem CacheEquiv.eq_of_hit {s s' : ExpSplit n} (h : CacheEquiv s s') {dt : ℝ} (hit : cacheHit s.cachedDt dt) :
    s = s' := by
  have hn : s.cachedDt ≠ none := by
    intro h0; rw [h0] at hit; exact hit
  obtain ⟨h1, h2, h3, h4⟩ := h
  cases s; cases s'
  simp only at h1 h2 h3 h4 hn
  rw [h1, h2, h3 hn, h4 hn]

theorem update_eq (K : Kernels n) (sys : OdeSys n P) {s s' : ExpSplit n} (h : CacheEquiv s s') (dt : ℝ)
    (cks : List (ℝ × List ℕ)) : updateDensePhiLs K sys s dt cks = updateDensePhiLs K sys s' dt cks := by
  by_cases hit : cacheHit s.cachedDt dt
  · rw [h.eq_of_hit hit]
  · have hit' : ¬ cacheHit s'.cachedDt dt := by rw [← h.dt]; exact hit
    unfold updateDensePhiLs
    rw [if_neg hit, if_neg hit', h.base]

/-- equal step results up to the cache equivalence -/
def StepEquiv (x x' : Py (StepResult (Vec n) × ExpSplit n)) : Prop :=
  match x, x' with
  | .ok (r, s), .ok (r', s') => r = r' ∧ CacheEquiv s s'
  | .error e, .error e' => e = e'
  | _, _ => False

theorem StepEquiv.of_eq {x x' : Py (StepResult (Vec n) × ExpSplit n)} (h : x = x') : StepEquiv x x' := by
  subst h
  cases x with
  | error e => rfl
  | ok p => exact ⟨rfl, CacheEquiv.refl _⟩

theorem split_step_equiv (K : Kernels n) (sys : OdeSys n P) {s s' : ExpSplit n} (h : CacheEquiv s s') (dt : ℝ)
    (kw : Option P) : StepEquiv (ExpSplit.step K sys s dt kw) (ExpSplit.step K sys s' dt kw) := by
  have hb := h.base
  have keepE : ∀ {r r' : Py (StepResult (Vec n))}, r = r' → StepEquiv (keep s r) (keep s' r') := by
    intro r r' hr
    subst hr
    cases r with
    | error e => rfl
    | ok x => exact ⟨rfl, h⟩
  unfold ExpSplit.step
  simp only [hb]
  split
  · exact keepE (by unfold stepExp1; rw [hb])
  · split
    · exact keepE (by unfold stepExp2; rw [hb])
    · split
      · exact keepE (by unfold stepExp3; rw [hb])
      · split
        · refine StepEquiv.of_eq ?_
          unfold stepExp1Dense; rw [hb, update_eq K sys h]
        · split
          · refine StepEquiv.of_eq ?_
            unfold stepExp2Dense; simp only [hb, update_eq K sys h]
          · split
            · refine StepEquiv.of_eq ?_
              unfold stepExp3Dense; simp only [hb, update_eq K sys h]
            · rfl

/-- the cache equivalence survives a step that raises -/
theorem split_failed_equiv (K : Kernels n) (sys : OdeSys n P) {s s' : ExpSplit n} (h : CacheEquiv s s') (dt : ℝ) :
    CacheEquiv ((s.stepWrites K sys dt).getLastD s) ((s'.stepWrites K sys dt).getLastD s') := by
  by_cases hd : s.cachedDt = none
  · unfold ExpSplit.stepWrites
    simp only [h.base]
    split
    · unfold updateWrites
      have hd' : s'.cachedDt = none := by rw [← h.dt]; exact hd
      rw [if_neg (by rw [hd]; exact id), if_neg (by rw [hd']; exact id), h.base]
      split
      · exact h
      · dsimp only
        split
        · exact ⟨rfl, h.dt, fun _ => rfl, fun hn => absurd hd hn⟩
        · split
          · simp only [List.getLastD_concat]
            exact ⟨rfl, rfl, fun _ => rfl, fun _ => rfl⟩
          · simp only [List.append_nil]
            generalize (fillWrites K dt _ _ _).1 = l
            rcases List.eq_nil_or_concat l with rfl | ⟨l', d, rfl⟩
            · exact ⟨rfl, h.dt, fun _ => rfl, fun hn => absurd hd hn⟩
            · rw [List.concat_eq_append, List.map_append, List.map_append, ← List.append_assoc, ← List.append_assoc]
              simp only [List.map_cons, List.map_nil, List.getLastD_concat]
              exact ⟨rfl, h.dt, fun _ => rfl, fun _ => rfl⟩
    · exact h
  · obtain ⟨h1, h2, h3, h4⟩ := h
    have : s = s' := by
      cases s; cases s'
      simp only at h1 h2 h3 h4 hd
      rw [h1, h2, h3 hd, h4 hd]
    rw [this]
    exact CacheEquiv.refl _

theorem split_trace_equiv (K : Kernels n) (sys : OdeSys n P) (cs : List (Call P (Vec n))) {s s' : ExpSplit n}
    (h : CacheEquiv s s') : (splitMachine K sys).trace s cs = (splitMachine K sys).trace s' cs := by
  induction cs generalizing s s' with
  | nil => rfl
  | cons c cs ih =>
    have hstep : (splitMachine K sys).observe s c = (splitMachine K sys).observe s' c ∧
        CacheEquiv ((splitMachine K sys).after s c) ((splitMachine K sys).after s' c) := by
      cases c with
      | step dt kw =>
        have hq := split_step_equiv K sys h dt kw
        simp only [Machine.observe, Machine.after, splitMachine, splitStepper]
        cases h1 : ExpSplit.step K sys s dt kw with
        | error e =>
          cases h2 : ExpSplit.step K sys s' dt kw with
          | error e' =>
            rw [h1, h2] at hq
            have hq : e = e' := hq
            subst hq
            have hf := split_failed_equiv K sys h dt
            exact ⟨by simp only [Except.map]; rw [hf.base], hf⟩
          | ok p => rw [h1, h2] at hq; exact hq.elim
        | ok p =>
          cases h2 : ExpSplit.step K sys s' dt kw with
          | error e' => rw [h1, h2] at hq; exact hq.elim
          | ok p' =>
            rw [h1, h2] at hq
            obtain ⟨q1, q2⟩ : p.1 = p'.1 ∧ CacheEquiv p.2 p'.2 := hq
            exact ⟨by simp only [Except.map]; rw [q1, q2.base], q2⟩
      | accept r =>
        have : CacheEquiv (s.acceptStep r) (s'.acceptStep r) :=
          ⟨by simp [ExpSplit.acceptStep, h.base], h.dt, h.lop, h.phis⟩
        exact ⟨by simp only [Machine.observe, Machine.after]; exact congrArg _ this.base, this⟩
      | reset t0 y0 =>
        have : CacheEquiv (s.resetIc t0 y0) (s'.resetIc t0 y0) :=
          ⟨by simp [ExpSplit.resetIc, h.base], rfl, fun hn => (hn rfl).elim, fun hn => (hn rfl).elim⟩
        exact ⟨by simp only [Machine.observe, Machine.after]; exact congrArg _ this.base, this⟩
    simp only [Machine.trace]
    rw [hstep.1, ih hstep.2]

theorem update_base (K : Kernels n) (sys : OdeSys n P) (s s' : ExpSplit n) (dt : ℝ) (cks : List (ℝ × List ℕ))
    (h : updateDensePhiLs K sys s dt cks = .ok s') : s'.base = s.base := by
  unfold updateDensePhiLs at h
  split at h
  · cases h; rfl
  · cases hy : s.base.yHist.get 0 with
    | error e => simp [hy, bind, Except.bind] at h
    | ok y =>
      cases hd : (sys.fl s.base.t y).dense with
      | error e => simp [hy, hd, bind, Except.bind] at h
      | ok L =>
        cases hf : fillPhiLs K dt L cks (fun _ => none) with
        | error e => simp [hy, hd, hf, bind, Except.bind] at h
        | ok d =>
          simp only [hy, hd, hf, bind, Except.bind, pure, Except.pure] at h
          cases h; rfl

theorem bind_ok {ε α β : Type} {x : Except ε α} {f : α → Except ε β} {b : β} (h : (x >>= f) = .ok b) :
    ∃ a, x = .ok a ∧ f a = .ok b := by
  cases x with
  | error e => cases h
  | ok a => exact ⟨a, rfl, h⟩

/-- a splitting step never changes time or history -/
theorem split_step_base (K : Kernels n) (sys : OdeSys n P) (s s' : ExpSplit n) (dt : ℝ) (kw : Option P)
    (r : StepResult (Vec n)) (h : ExpSplit.step K sys s dt kw = .ok (r, s')) : s'.base = s.base := by
  unfold ExpSplit.step at h
  simp only at h
  split at h
  · rw [(keep_ok h).1]
  · split at h
    · rw [(keep_ok h).1]
    · split at h
      · rw [(keep_ok h).1]
      · split at h
        · unfold stepExp1Dense at h
          obtain ⟨_, _, h⟩ := bind_ok h
          obtain ⟨s1, hu, h⟩ := bind_ok h
          obtain ⟨_, _, h⟩ := bind_ok h
          obtain ⟨_, _, h⟩ := bind_ok h
          cases h
          exact update_base K sys s _ dt _ hu
        · split at h
          · unfold stepExp2Dense at h
            obtain ⟨_, _, h⟩ := bind_ok h
            obtain ⟨s1, hu, h⟩ := bind_ok h
            obtain ⟨_, _, h⟩ := bind_ok h
            obtain ⟨_, _, h⟩ := bind_ok h
            obtain ⟨_, _, h⟩ := bind_ok h
            obtain ⟨_, _, h⟩ := bind_ok h
            obtain ⟨_, _, h⟩ := bind_ok h
            cases h
            exact update_base K sys s _ dt _ hu
          · split at h
            · unfold stepExp3Dense at h
              obtain ⟨_, _, h⟩ := bind_ok h
              obtain ⟨s1, hu, h⟩ := bind_ok h
              obtain ⟨_, _, h⟩ := bind_ok h
              obtain ⟨_, _, h⟩ := bind_ok h
              obtain ⟨_, _, h⟩ := bind_ok h
              obtain ⟨_, _, h⟩ := bind_ok h
              obtain ⟨_, _, h⟩ := bind_ok h
              obtain ⟨_, _, h⟩ := bind_ok h
              obtain ⟨_, _, h⟩ := bind_ok h
              cases h
              exact update_base K sys s _ dt _ hu
            · cases h

/-- no write of a splitting step touches time or history -/
theorem split_writes_base (K : Kernels n) (sys : OdeSys n P) (s : ExpSplit n) (dt : ℝ) (s' : ExpSplit n)
    (h : s' ∈ s.stepWrites K sys dt) : s'.base = s.base := by
  unfold ExpSplit.stepWrites at h
  simp only at h
  split at h
  · unfold updateWrites at h
    split at h
    · rw [List.mem_singleton.1 h]
    · split at h
      · rw [List.mem_singleton.1 h]
      · dsimp only at h
        split at h
        · simp only [List.mem_cons, List.not_mem_nil, or_false] at h
          rcases h with rfl | rfl <;> rfl
        · simp only [List.mem_append, List.mem_cons, List.not_mem_nil, or_false, List.mem_map] at h
          rcases h with ((rfl | rfl) | ⟨d, _, rfl⟩) | h
          · rfl
          · rfl
          · rfl
          · split at h
            · rw [List.mem_singleton.1 h]
            · cases h
  · rw [List.mem_singleton.1 h]

/-- **C02 (splitting, including the dense phi cache).** After any history of calls, an `ExpSplitIntegrator` that is reset
to `(t1, y1)` is observationally indistinguishable, for every later sequence of calls, from a newly constructed one. -/
theorem C02_reset_fresh_split (K : Kernels n) (sys : OdeSys n P) (t0 t1 : ℝ) (y0 y1 : Vec n) (method : String)
    (s0 s1 : ExpSplit n) (h0 : ExpSplit.new t0 y0 method = .ok s0) (h1 : ExpSplit.new t1 y1 method = .ok s1)
    (past future : List (Call P (Vec n))) :
    let M := splitMachine K sys
    M.base (M.reset (M.run s0 past) t1 y1) = M.base s1 ∧
      M.trace (M.reset (M.run s0 past) t1 y1) future = M.trace s1 future := by
  intro M
  have hconf : SameConf (M.base (M.run s0 past)) (M.base s0) := by
    refine run_conf M ?_ ?_ ?_ ?_ s0 past
    · intro s dt kw r s' h
      have : s'.base = s.base := split_step_base K sys s s' dt kw r h
      show SameConf s'.base s.base
      rw [this]
      exact SameConf.refl _
    · intro s dt kw s' hs'
      show SameConf s'.base s.base
      rw [split_writes_base K sys s dt s' hs']
      exact SameConf.refl _
    · intro s r; exact sameConf_accept _ _
    · intro s t y; exact sameConf_reset _ _ _
  have hE : CacheEquiv (M.reset (M.run s0 past) t1 y1) s1 := by
    unfold ExpSplit.new at h0 h1
    split at h0
    · cases h0
    · rename_i order ho
      simp only [ho] at h1
      obtain ⟨b0, hb0, h0⟩ := bind_ok h0
      obtain ⟨b1, hb1, h1⟩ := bind_ok h1
      cases h0; cases h1
      exact ⟨base_reset_fresh hb0 hb1 hconf, rfl, fun hn => (hn rfl).elim, fun hn => (hn rfl).elim⟩
  exact ⟨hE.base, split_trace_equiv K sys future hE⟩

/-- Non-vacuity for C02: the constructors succeed for every advertised name, e.g. -/
example (t0 t1 : ℝ) (y0 y1 : Vec n) : (∃ s, ExpSplit.new t0 y0 "exp2_dense" = .ok s) ∧
    (∃ s, ExpSplit.new t1 y1 "exp2_dense" = .ok s) ∧ (∃ s, ExpRB.new false t0 y0 "epi3" 1e-8 = .ok s) :=
  ⟨⟨_, rfl⟩, ⟨_, rfl⟩, by
    have h : ¬ (hasPfdRs "epi3" ∧ ¬ (false = true)) := by decide
    unfold ExpRB.new
    simp only [show ExpRB.validMethods.lookup "epi3" = some 3 from rfl, if_neg h]
    exact ⟨_, rfl⟩⟩

end Ormatex.Props
