import Verif.Props.Stale
import Verif.Props.Substep
import Verif.Props.KrylovErr

/-!
C114: crash points.  What a call of an integrator that raises, or is interrupted between two attribute writes, leaves behind.
-/

namespace Ormatex.Props
open Matrix
open scoped Classical

/-! ### Specification -/

/-- Specification: an event in the life of an object: a call that runs until it returns or raises, or a call stopped from outside
(`KeyboardInterrupt`, an exception of a signal handler, `MemoryError`) after `i` attribute writes. -/
inductive Event (P Y : Type) where
  | call (c : Call P Y)
  | cut (c : Call P Y) (i : ℕ)

/-- the object after an event -/
def afterEvent {σ P Y : Type} (M : Machine σ P Y) (s : σ) : Event P Y → σ
  | .call c => M.after s c
  | .cut c i => (M.writes s c).getD i s

/-- the object after a history of events -/
def runEvents {σ P Y : Type} (M : Machine σ P Y) (s : σ) (es : List (Event P Y)) : σ := es.foldl (afterEvent M) s

/-- Specification: every step attempted in this event has the size `dt`. -/
def OnlySize {P Y : Type} (dt : ℝ) : Event P Y → Prop
  | .call (.step d _) => d = dt
  | .cut (.step d _) _ => d = dt
  | _ => True

/-- Specification: no step attempted in this event has the size `dt`. -/
def NeverSize {P Y : Type} (dt : ℝ) : Event P Y → Prop
  | .call (.step d _) => d ≠ dt
  | .cut (.step d _) _ => d ≠ dt
  | _ => True

section
set_option linter.unusedSectionVars false
variable {n : ℕ} {P : Type} [EmptyCollection P]

/-! ### Every write list starts with the object before the call and ends with the object after it -/

theorem mem_cut {σ P Y : Type} (M : Machine σ P Y) (s : σ) (c : Call P Y) (i : ℕ) :
    (M.writes s c).getD i s ∈ M.writes s c ∨ (M.writes s c).getD i s = s := by
  rw [List.getD_eq_getElem?_getD]
  cases h : (M.writes s c)[i]? with
  | none => exact Or.inr rfl
  | some x => exact Or.inl (List.mem_of_getElem? h)

theorem accept_writes_last {Y : Type} (b : Base Y) (r : StepResult Y) :
    (b.acceptWrites r).head? = some b ∧ (b.acceptWrites r).getLast? = some (b.acceptStep r) := ⟨rfl, rfl⟩

theorem reset_writes_last {Y : Type} (b : Base Y) (t0 : ℝ) (y0 : Y) :
    (b.resetWrites t0 y0).head? = some b ∧ (b.resetWrites t0 y0).getLast? = some (b.resetIc t0 y0) := ⟨rfl, rfl⟩

theorem getLastD_some {α : Type} {l : List α} {a : α} (hl : l ≠ []) (d : α) (h : l.getLastD d = a) : l.getLast? = some a := by
  rw [List.getLastD_eq_getLast?] at h
  cases hg : l.getLast? with
  | none => rw [List.getLast?_eq_none_iff] at hg; exact absurd hg hl
  | some x => rw [hg] at h; exact congrArg some h

/-- a dense step that returns leaves the object of its cache update -/
theorem dense_step_update (K : Kernels n) (sys : OdeSys n P) (s s' : ExpSplit n) (dt : ℝ) (kw : Option P)
    (r : StepResult (Vec n)) (hm : isDense s.base.method) (h : ExpSplit.step K sys s dt kw = .ok (r, s')) :
    updateDensePhiLs K sys s dt (cksOf s.base.method) = .ok s' := by
  unfold ExpSplit.step at h
  rcases hm with hm | hm | hm
  · simp [hm] at h
    unfold stepExp1Dense at h
    obtain ⟨y, hy, h⟩ := bind_ok h
    obtain ⟨s1, hu1, h⟩ := bind_ok h
    obtain ⟨_, _, h⟩ := bind_ok h
    obtain ⟨_, _, h⟩ := bind_ok h
    cases h
    simpa [cksOf, hm] using hu1
  · simp [hm] at h
    unfold stepExp2Dense at h
    obtain ⟨y, hy, h⟩ := bind_ok h
    obtain ⟨s1, hu1, h⟩ := bind_ok h
    obtain ⟨_, _, h⟩ := bind_ok h
    obtain ⟨_, _, h⟩ := bind_ok h
    obtain ⟨_, _, h⟩ := bind_ok h
    obtain ⟨_, _, h⟩ := bind_ok h
    obtain ⟨_, _, h⟩ := bind_ok h
    cases h
    simpa [cksOf, hm] using hu1
  · simp [hm] at h
    unfold stepExp3Dense at h
    obtain ⟨y, hy, h⟩ := bind_ok h
    obtain ⟨s1, hu1, h⟩ := bind_ok h
    obtain ⟨_, _, h⟩ := bind_ok h
    obtain ⟨_, _, h⟩ := bind_ok h
    obtain ⟨_, _, h⟩ := bind_ok h
    obtain ⟨_, _, h⟩ := bind_ok h
    obtain ⟨_, _, h⟩ := bind_ok h
    obtain ⟨_, _, h⟩ := bind_ok h
    obtain ⟨_, _, h⟩ := bind_ok h
    cases h
    simpa [cksOf, hm] using hu1

theorem updateWrites_head (K : Kernels n) (sys : OdeSys n P) (s : ExpSplit n) (dt : ℝ) (cks : List (ℝ × List ℕ)) :
    (updateWrites K sys s dt cks).head? = some s := by
  unfold updateWrites
  split
  · rfl
  · split
    · rfl
    · dsimp only
      split
      · rfl
      · rfl

theorem head_ne_nil {α : Type} {l : List α} {a : α} (h : l.head? = some a) : l ≠ [] := by
  rintro rfl
  cases h

/-- splitting steps: the writes start with the object before the call and end with the object after it -/
theorem split_writes_ends (K : Kernels n) (sys : OdeSys n P) (s s' : ExpSplit n) (dt : ℝ) (kw : Option P)
    (r : StepResult (Vec n)) (h : ExpSplit.step K sys s dt kw = .ok (r, s')) :
    (s.stepWrites K sys dt).head? = some s ∧ (s.stepWrites K sys dt).getLast? = some s' := by
  unfold ExpSplit.stepWrites
  dsimp only
  split
  · rename_i hm
    have hu := dense_step_update K sys s s' dt kw r hm h
    have hh := updateWrites_head K sys s dt (cksOf s.base.method)
    exact ⟨hh, getLastD_some (head_ne_nil hh) s (update_writes K sys s s' dt _ hu s)⟩
  · rename_i hm
    refine ⟨rfl, ?_⟩
    unfold ExpSplit.step at h
    have h1 : ¬ s.base.method = "exp1_dense" := fun e => hm (Or.inl e)
    have h2 : ¬ s.base.method = "exp2_dense" := fun e => hm (Or.inr (Or.inl e))
    have h3 : ¬ s.base.method = "exp3_dense" := fun e => hm (Or.inr (Or.inr e))
    simp only [h1, h2, h3, if_false] at h
    split_ifs at h
    · rw [(keep_ok h).1]; rfl
    · rw [(keep_ok h).1]; rfl
    · rw [(keep_ok h).1]; rfl

theorem finish_bk {s : ExpLeja n} {bk : Option (Vec (n + 2))} {yt u : Vec n} {dt : ℝ} {c : Prop} {mt : ℝ} {r : StepResult (Vec n)}
    {s' : ExpLeja n} (h : lejaFinish s bk yt u dt c mt = .ok (r, s')) : s'.bk = bk ∧ s'.base = s.base := by
  unfold lejaFinish at h
  split at h
  · cases h
  · cases h; exact ⟨rfl, rfl⟩

theorem re_stored (o : LejaOpts) (sys : OdeSys n P) (s s' : ExpLeja n) (dt : ℝ) (kw : P) (r : StepResult (Vec n))
    (h : stepEpiRe o sys s dt kw = .ok (r, s')) : lejaStored o sys s dt kw false = some s'.bk := by
  unfold stepEpiRe at h
  obtain ⟨yt, hy, h⟩ := bind_ok h
  obtain ⟨⟨aT, v⟩, hb, h⟩ := bind_ok h
  dsimp only at h
  unfold lejaStored
  rw [hy]
  dsimp only
  have hB : lejaB2 sys s dt (sys.fjac (some kw) s.base.t yt) false = .ok (dt ^ 2 • (sys.fjac (some kw) s.base.t yt).fdt) := rfl
  rw [hB]
  dsimp only
  rw [hb]
  dsimp only
  cases ho : o.lejaA with
  | none =>
    rw [ho] at h
    obtain ⟨⟨w, i, cv, mt⟩, _, h⟩ := bind_ok h
    rw [(finish_bk h).1]
  | some a =>
    rw [ho] at h
    obtain ⟨⟨w, i, cv, mt⟩, _, h⟩ := bind_ok h
    rw [(finish_bk h).1]

theorem im_stored (o : LejaOpts) (sys : OdeSys n P) (s s' : ExpLeja n) (dt : ℝ) (kw : P) (third : Bool) (r : StepResult (Vec n))
    (h : stepEpiIm o sys s dt kw third = .ok (r, s')) : lejaStored o sys s dt kw third = some s'.bk := by
  have h' : (do
      let yt ← s.base.yHist.get 0
      let b2 ← lejaB2 sys s dt (sys.fjac (some kw) s.base.t yt) third
      let (aT, v) ← buildATilde3 (sys.fjac (some kw) s.base.t yt).toLinOp dt 0 (dt • (sys.fjac (some kw) s.base.t yt).frhsCached) b2
      let (lejaA, bk) := match o.lejaA with
        | none =>
          let r := lejaShiftScale aT o.maxPowerIter s.bk (o.bRand (n + 2)) o.maxReEigScale
          (-|r.2.2.1|, some r.2.2.2.1)
        | some a => (a * dt, s.bk)
      let lejaC := match o.lejaC with
        | none => 0
        | some c => c * dt
      let q ← genLejaConjugate o.nLeja lejaA 0 lejaC
      let (w, _iters, conv, maxTau) ← expmvSubstep (complexInner aT o q) (1.1 * s.substepSize) v o.substep
      lejaFinish s bk yt (headN w) dt conv maxTau) = Except.ok (r, s') := by
    rw [← h]
    unfold stepEpiIm lejaB2
    cases third with
    | false => rfl
    | true =>
      simp only [if_true, bind_assoc, pure_bind]
      rfl
  obtain ⟨yt, hy, h⟩ := bind_ok h'
  obtain ⟨b2, hb2, h⟩ := bind_ok h
  obtain ⟨⟨aT, v⟩, hb, h⟩ := bind_ok h
  dsimp only at h
  unfold lejaStored
  rw [hy]
  dsimp only
  rw [hb2]
  dsimp only
  rw [hb]
  dsimp only
  cases ho : o.lejaA with
  | none =>
    rw [ho] at h
    obtain ⟨q, _, h⟩ := bind_ok h
    obtain ⟨⟨w, i, cv, mt⟩, _, h⟩ := bind_ok h
    rw [(finish_bk h).1]
  | some a =>
    rw [ho] at h
    obtain ⟨q, _, h⟩ := bind_ok h
    obtain ⟨⟨w, i, cv, mt⟩, _, h⟩ := bind_ok h
    rw [(finish_bk h).1]

theorem leja_stored (o : LejaOpts) (sys : OdeSys n P) (s s' : ExpLeja n) (dt : ℝ) (kw : Option P) (r : StepResult (Vec n))
    (h : ExpLeja.step o sys s dt kw = .ok (r, s')) :
    (s.base.method = "epi2_leja_re" ∨ s.base.method = "epi2_leja_im" ∨ s.base.method = "epi3_leja_im") ∧
      lejaStored o sys s dt (kw.getD ∅) (lejaThird s) = some s'.bk := by
  unfold ExpLeja.step at h
  dsimp only at h
  split at h
  · rename_i hm
    refine ⟨Or.inl hm, ?_⟩
    have ht : lejaThird s = false := by unfold lejaThird; rw [hm]; simp
    rw [ht]
    exact re_stored o sys s s' dt _ r h
  · split at h
    · rename_i hm
      refine ⟨Or.inr (Or.inl hm), ?_⟩
      have ht : lejaThird s = false := by unfold lejaThird; rw [hm]; simp
      rw [ht]
      exact im_stored o sys s s' dt _ _ r h
    · split at h
      · rename_i hm
        refine ⟨Or.inr (Or.inr hm), ?_⟩
        split at h
        · rename_i hl
          have ht : lejaThird s = true := by unfold lejaThird; simp [hm, hl]
          rw [ht]
          exact im_stored o sys s s' dt _ _ r h
        · rename_i hl
          have ht : lejaThird s = false := by unfold lejaThird; simp only [hl]; simp
          rw [ht]
          exact im_stored o sys s s' dt _ _ r h
      · cases h

theorem leja_writes_ends (o : LejaOpts) (sys : OdeSys n P) (s s' : ExpLeja n) (dt : ℝ) (kw : Option P) (r : StepResult (Vec n))
    (h : ExpLeja.step o sys s dt kw = .ok (r, s')) :
    (s.stepWrites o sys dt kw).head? = some s ∧ (s.stepWrites o sys dt kw).getLast? = some s' := by
  obtain ⟨hm, hst⟩ := leja_stored o sys s s' dt kw r h
  unfold ExpLeja.stepWrites
  dsimp only
  rw [if_pos hm, hst, h]
  exact ⟨rfl, rfl⟩

/-- no write of a Leja step touches time or history -/
theorem leja_writes_base (o : LejaOpts) (sys : OdeSys n P) (s : ExpLeja n) (dt : ℝ) (kw : Option P) (s' : ExpLeja n)
    (h : s' ∈ s.stepWrites o sys dt kw) : s'.base = s.base := by
  unfold ExpLeja.stepWrites at h
  dsimp only at h
  split at h
  · split at h
    · rw [List.mem_singleton.1 h]
    · simp only [List.mem_append, List.mem_cons, List.not_mem_nil, or_false] at h
      rcases h with (rfl | rfl) | h
      · rfl
      · rfl
      · split at h
        · cases h
        · rename_i r s'' hs
          simp only [List.mem_cons, List.not_mem_nil, or_false] at h
          rcases h with rfl | rfl
          · rfl
          · exact (leja_wellBehaved o sys).step_base _ _ _ _ _ hs
  · rw [List.mem_singleton.1 h]

/-- **C114, calls that complete.**  For every class: the recorded writes of a call start with the object before it and end with
the object after it, if the call returns. -/
theorem C114_complete (hasRust : Bool) (K : Kernels n) (o : LejaOpts) (sys : OdeSys n P) :
    (∀ (s : ExpRB n) (c : Call P (Vec n)), (∀ dt kw, c = .step dt kw → ∃ p, (rbMachine hasRust K sys).step s dt kw = .ok p) →
      ((rbMachine hasRust K sys).writes s c).head? = some s ∧
        ((rbMachine hasRust K sys).writes s c).getLast? = some ((rbMachine hasRust K sys).after s c)) ∧
    (∀ (s : ExpSplit n) (c : Call P (Vec n)), (∀ dt kw, c = .step dt kw → ∃ p, (splitMachine K sys).step s dt kw = .ok p) →
      ((splitMachine K sys).writes s c).head? = some s ∧
        ((splitMachine K sys).writes s c).getLast? = some ((splitMachine K sys).after s c)) ∧
    (∀ (s : Base (Vec n)) (c : Call P (Vec n)), (∀ dt kw, c = .step dt kw → ∃ p, (rkMachine sys).step s dt kw = .ok p) →
      ((rkMachine sys).writes s c).head? = some s ∧
        ((rkMachine sys).writes s c).getLast? = some ((rkMachine sys).after s c)) ∧
    (∀ (s : ExpLeja n) (c : Call P (Vec n)), (∀ dt kw, c = .step dt kw → ∃ p, (lejaMachine o sys).step s dt kw = .ok p) →
      ((lejaMachine o sys).writes s c).head? = some s ∧
        ((lejaMachine o sys).writes s c).getLast? = some ((lejaMachine o sys).after s c)) := by
  refine ⟨?_, ?_, ?_, ?_⟩
  · intro s c hc
    cases c with
    | step dt kw =>
      obtain ⟨⟨r, s'⟩, hp⟩ := hc dt kw rfl
      refine ⟨rfl, ?_⟩
      simp only [Machine.after, hp]
      rw [(keep_ok hp).1]
      rfl
    | accept r => exact ⟨rfl, rfl⟩
    | reset t0 y0 => exact ⟨rfl, rfl⟩
  · intro s c hc
    cases c with
    | step dt kw =>
      obtain ⟨⟨r, s'⟩, hp⟩ := hc dt kw rfl
      simp only [Machine.after, hp]
      exact split_writes_ends K sys s s' dt kw r hp
    | accept r => exact ⟨rfl, rfl⟩
    | reset t0 y0 =>
      refine ⟨rfl, ?_⟩
      show (_ ++ [s.resetIc t0 y0]).getLast? = _
      rw [List.getLast?_append]
      rfl
  · intro s c hc
    cases c with
    | step dt kw =>
      obtain ⟨⟨r, s'⟩, hp⟩ := hc dt kw rfl
      refine ⟨rfl, ?_⟩
      simp only [Machine.after, hp]
      rw [(keep_ok hp).1]
      rfl
    | accept r => exact ⟨rfl, rfl⟩
    | reset t0 y0 => exact ⟨rfl, rfl⟩
  · intro s c hc
    cases c with
    | step dt kw =>
      obtain ⟨⟨r, s'⟩, hp⟩ := hc dt kw rfl
      simp only [Machine.after, hp]
      exact leja_writes_ends o sys s s' dt kw r hp
    | accept r => exact ⟨rfl, rfl⟩
    | reset t0 y0 => exact ⟨rfl, rfl⟩

/-! ### Steps never touch time or history -/

/-- **C114, steps.**  For every class, whether a `step` returns, raises or is interrupted at any point: time and both histories
are the ones before the call. -/
theorem C114_step_frame (hasRust : Bool) (K : Kernels n) (o : LejaOpts) (sys : OdeSys n P) (dt : ℝ) (kw : Option P) (i : ℕ) :
    (∀ s : ExpRB n, (afterEvent (rbMachine hasRust K sys) s (.call (.step dt kw))).base = s.base ∧
      (afterEvent (rbMachine hasRust K sys) s (.cut (.step dt kw) i)).base = s.base) ∧
    (∀ s : ExpSplit n, (afterEvent (splitMachine K sys) s (.call (.step dt kw))).base = s.base ∧
      (afterEvent (splitMachine K sys) s (.cut (.step dt kw) i)).base = s.base) ∧
    (∀ s : Base (Vec n), afterEvent (rkMachine sys) s (.call (.step dt kw)) = s ∧
      afterEvent (rkMachine sys) s (.cut (.step dt kw) i) = s) ∧
    (∀ s : ExpLeja n, (afterEvent (lejaMachine o sys) s (.call (.step dt kw))).base = s.base ∧
      (afterEvent (lejaMachine o sys) s (.cut (.step dt kw) i)).base = s.base) := by
  refine ⟨fun s => ⟨?_, ?_⟩, fun s => ⟨?_, ?_⟩, fun s => ⟨?_, ?_⟩, fun s => ⟨?_, ?_⟩⟩
  · simp only [afterEvent, Machine.after]
    split
    · rename_i r s' h; rw [(keep_ok h).1]
    · rfl
  · rcases mem_cut (rbMachine hasRust K sys) s (.step dt kw) i with h | h
    · have h : afterEvent (rbMachine hasRust K sys) s (.cut (.step dt kw) i) ∈ [s] := h
      rw [List.mem_singleton.1 h]
    · exact congrArg ExpRB.base h
  · simp only [afterEvent, Machine.after]
    split
    · rename_i r s' h; exact split_step_base K sys s s' dt kw r h
    · exact last_write (p := fun x : ExpSplit n => x.base = s.base) _ _ rfl fun x hx => split_writes_base K sys s dt x hx
  · rcases mem_cut (splitMachine K sys) s (.step dt kw) i with h | h
    · exact split_writes_base K sys s dt _ h
    · exact congrArg ExpSplit.base h
  · simp only [afterEvent, Machine.after]
    split
    · rename_i r s' h; exact (keep_ok h).1
    · rfl
  · rcases mem_cut (rkMachine sys) s (.step dt kw) i with h | h
    · exact List.mem_singleton.1 (show afterEvent (rkMachine sys) s (.cut (.step dt kw) i) ∈ [s] from h)
    · exact h
  · simp only [afterEvent, Machine.after]
    split
    · rename_i r s' h; exact (leja_wellBehaved o sys).step_base _ _ _ _ _ h
    · exact last_write (p := fun x : ExpLeja n => x.base = s.base) _ _ rfl fun x hx => leja_writes_base o sys s dt kw x hx
  · rcases mem_cut (lejaMachine o sys) s (.step dt kw) i with h | h
    · exact leja_writes_base o sys s dt kw _ h
    · exact congrArg ExpLeja.base h

/-! ### Reset after any history of events -/

theorem acceptWrites_conf {Y : Type} (b : Base Y) (r : StepResult Y) : ∀ x ∈ b.acceptWrites r, SameConf x b := by
  intro x hx
  simp only [Base.acceptWrites, List.mem_cons, List.not_mem_nil, or_false] at hx
  rcases hx with rfl | rfl | rfl | rfl <;> exact ⟨rfl, rfl, rfl, rfl⟩

theorem resetWrites_conf {Y : Type} (b : Base Y) (t0 : ℝ) (y0 : Y) : ∀ x ∈ b.resetWrites t0 y0, SameConf x b := by
  intro x hx
  simp only [Base.resetWrites, List.mem_cons, List.not_mem_nil, or_false] at hx
  rcases hx with rfl | rfl | rfl | rfl | rfl | rfl <;> exact ⟨rfl, rfl, rfl, rfl⟩

/-- an invariant of every event is an invariant of every history -/
theorem events_invariant {σ P Y : Type} (M : Machine σ P Y) (p : σ → Prop) (q : Event P Y → Prop)
    (h : ∀ s e, q e → p s → p (afterEvent M s e)) (es : List (Event P Y)) : (∀ e ∈ es, q e) → ∀ s, p s → p (runEvents M s es) := by
  induction es with
  | nil => intro _ s hs; exact hs
  | cons e es ih =>
    intro hq s hs
    exact ih (fun e' he' => hq e' (by simp [he'])) _ (h s e (hq e (by simp)) hs)

theorem rb_events_conf (hasRust : Bool) (K : Kernels n) (sys : OdeSys n P) (s0 : ExpRB n) (es : List (Event P (Vec n))) :
    SameConf (runEvents (rbMachine hasRust K sys) s0 es).base s0.base ∧
      (runEvents (rbMachine hasRust K sys) s0 es).tolFdt = s0.tolFdt := by
  refine events_invariant (rbMachine hasRust K sys) (fun s => SameConf s.base s0.base ∧ s.tolFdt = s0.tolFdt) (fun _ => True) ?_ es
    (fun _ _ => trivial) s0 ⟨SameConf.refl _, rfl⟩
  rintro s e - ⟨h1, h2⟩
  have hw : ∀ (c : Call P (Vec n)), ∀ x ∈ (rbMachine hasRust K sys).writes s c, SameConf x.base s.base ∧ x.tolFdt = s.tolFdt := by
    intro c x hx
    cases c with
    | step dt kw =>
      have hx : x ∈ [s] := hx
      rw [List.mem_singleton.1 hx]; exact ⟨SameConf.refl _, rfl⟩
    | accept r =>
      obtain ⟨b, hb, rfl⟩ := List.mem_map.1 hx
      exact ⟨acceptWrites_conf _ _ b hb, rfl⟩
    | reset t0 y0 =>
      obtain ⟨b, hb, rfl⟩ := List.mem_map.1 hx
      exact ⟨resetWrites_conf _ _ _ b hb, rfl⟩
  have hcut : ∀ x : ExpRB n, (SameConf x.base s.base ∧ x.tolFdt = s.tolFdt) → SameConf x.base s0.base ∧ x.tolFdt = s0.tolFdt :=
    fun x hx => ⟨hx.1.trans h1, hx.2.trans h2⟩
  apply hcut
  cases e with
  | cut c i =>
    rcases mem_cut (rbMachine hasRust K sys) s c i with h | h
    · exact hw c _ h
    · simp only [afterEvent]; rw [h]; exact ⟨SameConf.refl _, rfl⟩
  | call c =>
    cases c with
    | step dt kw =>
      simp only [afterEvent, Machine.after]
      split
      · rename_i r s' h; rw [(keep_ok h).1]; exact ⟨SameConf.refl _, rfl⟩
      · exact last_write (p := fun x : ExpRB n => SameConf x.base s.base ∧ x.tolFdt = s.tolFdt) _ _ ⟨SameConf.refl _, rfl⟩ (hw _)
    | accept r => exact ⟨sameConf_accept _ _, rfl⟩
    | reset t0 y0 => exact ⟨sameConf_reset _ _ _, rfl⟩

theorem rk_events_conf (sys : OdeSys n P) (s0 : Base (Vec n)) (es : List (Event P (Vec n))) :
    SameConf (runEvents (rkMachine sys) s0 es) s0 := by
  refine events_invariant (rkMachine sys) (fun s => SameConf s s0) (fun _ => True) ?_ es (fun _ _ => trivial) s0 (SameConf.refl _)
  rintro s e - h1
  have hw : ∀ (c : Call P (Vec n)), ∀ x ∈ (rkMachine sys).writes s c, SameConf x s := by
    intro c x hx
    cases c with
    | step dt kw =>
      have hx : x ∈ [s] := hx
      rw [List.mem_singleton.1 hx]; exact SameConf.refl _
    | accept r => exact acceptWrites_conf _ _ x hx
    | reset t0 y0 => exact resetWrites_conf _ _ _ x hx
  refine SameConf.trans ?_ h1
  cases e with
  | cut c i =>
    rcases mem_cut (rkMachine sys) s c i with h | h
    · exact hw c _ h
    · simp only [afterEvent]; rw [h]; exact SameConf.refl _
  | call c =>
    cases c with
    | step dt kw =>
      simp only [afterEvent, Machine.after]
      split
      · rename_i r s' h; rw [(keep_ok h).1]; exact SameConf.refl _
      · exact last_write (p := fun x : Base (Vec n) => SameConf x s) _ _ (SameConf.refl _) (hw _)
    | accept r => exact sameConf_accept _ _
    | reset t0 y0 => exact sameConf_reset _ _ _

theorem split_writes_conf (K : Kernels n) (sys : OdeSys n P) (s : ExpSplit n) (c : Call P (Vec n)) :
    ∀ x ∈ (splitMachine K sys).writes s c, SameConf x.base s.base := by
  intro x hx
  cases c with
  | step dt kw => rw [split_writes_base K sys s dt x hx]; exact SameConf.refl _
  | accept r =>
    obtain ⟨b, hb, rfl⟩ := List.mem_map.1 hx
    exact acceptWrites_conf _ _ b hb
  | reset t0 y0 =>
    rcases List.mem_append.1 hx with hx | hx
    · obtain ⟨b, hb, rfl⟩ := List.mem_map.1 hx
      exact resetWrites_conf _ _ _ b hb
    · rw [List.mem_singleton.1 hx]
      exact sameConf_reset _ _ _

theorem split_event_conf (K : Kernels n) (sys : OdeSys n P) (s : ExpSplit n) (e : Event P (Vec n)) :
    SameConf (afterEvent (splitMachine K sys) s e).base s.base := by
  have hw := split_writes_conf K sys s
  cases e with
  | cut c i =>
    rcases mem_cut (splitMachine K sys) s c i with h | h
    · exact hw c _ h
    · simp only [afterEvent]; rw [h]; exact SameConf.refl _
  | call c =>
    cases c with
    | step dt kw =>
      simp only [afterEvent, Machine.after]
      split
      · rename_i r s' h
        rw [split_step_base K sys s s' dt kw r h]
        exact SameConf.refl _
      · exact last_write (p := fun x : ExpSplit n => SameConf x.base s.base) _ _ (SameConf.refl _) (hw _)
    | accept r => exact sameConf_accept _ _
    | reset t0 y0 => exact sameConf_reset _ _ _

theorem split_events_conf (K : Kernels n) (sys : OdeSys n P) (s0 : ExpSplit n) (es : List (Event P (Vec n))) :
    SameConf (runEvents (splitMachine K sys) s0 es).base s0.base := by
  refine events_invariant (splitMachine K sys) (fun s => SameConf s.base s0.base) (fun _ => True) ?_ es (fun _ _ => trivial) s0
    (SameConf.refl _)
  rintro s e - h1
  exact (split_event_conf K sys s e).trans h1

/-- **C114, recovery by reset.**  After any history of calls that returned, raised or were interrupted at any point (also
interrupted resets and accepts), a completed `reset_ic(t1, y1)` makes the object indistinguishable from a new one: Rosenbrock,
Runge-Kutta and splitting classes. -/
theorem C114_reset_recovers (hasRust : Bool) (K : Kernels n) (sys : OdeSys n P) (t0 t1 : ℝ) (y0 y1 : Vec n) (m : String)
    (tol : ℝ) (past : List (Event P (Vec n))) (future : List (Call P (Vec n))) :
    (∀ s0 s1 : ExpRB n, ExpRB.new hasRust t0 y0 m tol = .ok s0 → ExpRB.new hasRust t1 y1 m tol = .ok s1 →
      let M := rbMachine hasRust K sys
      M.trace (M.reset (runEvents M s0 past) t1 y1) future = M.trace s1 future) ∧
    (∀ s0 s1 : Base (Vec n), RK.new t0 y0 m = .ok s0 → RK.new t1 y1 m = .ok s1 →
      let M := rkMachine sys
      M.trace (M.reset (runEvents M s0 past) t1 y1) future = M.trace s1 future) ∧
    (∀ s0 s1 : ExpSplit n, ExpSplit.new t0 y0 m = .ok s0 → ExpSplit.new t1 y1 m = .ok s1 →
      let M := splitMachine K sys
      M.trace (M.reset (runEvents M s0 past) t1 y1) future = M.trace s1 future) := by
  refine ⟨?_, ?_, ?_⟩
  · intro s0 s1 h0 h1 M
    obtain ⟨hconf, htol⟩ := rb_events_conf hasRust K sys s0 past
    have hkey : M.reset (runEvents M s0 past) t1 y1 = s1 := by
      unfold ExpRB.new at h0 h1
      split at h0
      · cases h0
      · rename_i order ho
        simp only [ho] at h1
        split at h0
        · cases h0
        · rename_i hr
          rw [if_neg hr] at h1
          cases hb0 : Base.init t0 y0 order m with
          | error e => rw [hb0] at h0; cases h0
          | ok b0 =>
            cases hb1 : Base.init t1 y1 order m with
            | error e => rw [hb1] at h1; cases h1
            | ok b1 =>
              rw [hb0] at h0; rw [hb1] at h1
              cases h0; cases h1
              have := base_reset_fresh hb0 hb1 hconf
              show ExpRB.mk _ _ = ExpRB.mk _ _
              rw [← this]
              congr 1
    rw [hkey]
  · intro s0 s1 h0 h1 M
    have hconf := rk_events_conf sys s0 past
    have hkey : M.reset (runEvents M s0 past) t1 y1 = s1 := by
      unfold RK.new at h0 h1
      split at h0
      · cases h0
      · rename_i order ho
        simp only [ho] at h1
        exact base_reset_fresh h0 h1 hconf
    rw [hkey]
  · intro s0 s1 h0 h1 M
    have hconf := split_events_conf K sys s0 past
    have hE : CacheEquiv (M.reset (runEvents M s0 past) t1 y1) s1 := by
      unfold ExpSplit.new at h0 h1
      split at h0
      · cases h0
      · rename_i order ho
        simp only [ho] at h1
        obtain ⟨b0, hb0, h0⟩ := bind_ok h0
        obtain ⟨b1, hb1, h1⟩ := bind_ok h1
        cases h0; cases h1
        exact ⟨base_reset_fresh hb0 hb1 hconf, rfl, fun hn => (hn rfl).elim, fun hn => (hn rfl).elim⟩
    exact split_trace_equiv K sys future hE

/-- **C114, repeated reset.**  A `reset_ic` repeated after an interruption at any point gives the object of an uninterrupted one:
all four classes. -/
theorem C114_reset_retry (hasRust : Bool) (K : Kernels n) (o : LejaOpts) (sys : OdeSys n P) (t1 : ℝ) (y1 : Vec n) (i : ℕ) :
    (∀ s : ExpRB n, (afterEvent (rbMachine hasRust K sys) s (.cut (.reset t1 y1) i)).resetIc t1 y1 = s.resetIc t1 y1) ∧
    (∀ s : ExpSplit n, (afterEvent (splitMachine K sys) s (.cut (.reset t1 y1) i)).resetIc t1 y1 = s.resetIc t1 y1) ∧
    (∀ s : Base (Vec n), (afterEvent (rkMachine sys) s (.cut (.reset t1 y1) i)).resetIc t1 y1 = s.resetIc t1 y1) ∧
    (∀ s : ExpLeja n, (afterEvent (lejaMachine o sys) s (.cut (.reset t1 y1) i)).resetIc t1 y1 = s.resetIc t1 y1) := by
  have hb : ∀ (b x : Base (Vec n)), x ∈ b.resetWrites t1 y1 → x.resetIc t1 y1 = b.resetIc t1 y1 := by
    intro b x hx
    simp only [Base.resetWrites, List.mem_cons, List.not_mem_nil, or_false] at hx
    rcases hx with rfl | rfl | rfl | rfl | rfl | rfl <;> rfl
  refine ⟨fun s => ?_, fun s => ?_, fun s => ?_, fun s => ?_⟩
  · rcases mem_cut (rbMachine hasRust K sys) s (.reset t1 y1) i with h | h
    · obtain ⟨b, hb', he⟩ := List.mem_map.1 h
      show ExpRB.resetIc (((rbMachine hasRust K sys).writes s (.reset t1 y1)).getD i s) t1 y1 = _
      rw [← he]
      unfold ExpRB.resetIc
      rw [hb _ _ hb']
    · exact congrArg (fun x => ExpRB.resetIc x t1 y1) h
  · rcases mem_cut (splitMachine K sys) s (.reset t1 y1) i with h | h
    · show ExpSplit.resetIc (((splitMachine K sys).writes s (.reset t1 y1)).getD i s) t1 y1 = _
      rcases List.mem_append.1 h with h | h
      · obtain ⟨b, hb', he⟩ := List.mem_map.1 h
        rw [← he]
        unfold ExpSplit.resetIc
        rw [hb _ _ hb']
      · rw [List.mem_singleton.1 h]
        rfl
    · exact congrArg (fun x => ExpSplit.resetIc x t1 y1) h
  · rcases mem_cut (rkMachine sys) s (.reset t1 y1) i with h | h
    · exact hb _ _ h
    · exact congrArg (fun x => Base.resetIc x t1 y1) h
  · rcases mem_cut (lejaMachine o sys) s (.reset t1 y1) i with h | h
    · obtain ⟨b, hb', he⟩ := List.mem_map.1 h
      show ExpLeja.resetIc (((lejaMachine o sys).writes s (.reset t1 y1)).getD i s) t1 y1 = _
      rw [← he]
      unfold ExpLeja.resetIc
      rw [hb _ _ hb']
    · exact congrArg (fun x => ExpLeja.resetIc x t1 y1) h

/-! ### Steps repeated after an interruption -/

theorem update_retry (K : Kernels n) (sys : OdeSys n P) (s : ExpSplit n) (dt : ℝ) (cks : List (ℝ × List ℕ)) (s' : ExpSplit n)
    (h : s' ∈ updateWrites K sys s dt cks) : updateDensePhiLs K sys s' dt cks = updateDensePhiLs K sys s dt cks := by
  unfold updateWrites at h
  split at h
  · rw [List.mem_singleton.1 h]
  · rename_i hc
    split at h
    · rw [List.mem_singleton.1 h]
    · rename_i y hy
      dsimp only at h
      split at h
      · simp only [List.mem_cons, List.not_mem_nil, or_false] at h
        rcases h with rfl | rfl
        · rfl
        · unfold updateDensePhiLs
          rw [if_neg hc, if_neg hc]
      · rename_i L hL
        simp only [List.mem_append, List.mem_cons, List.not_mem_nil, or_false, List.mem_map] at h
        rcases h with ((rfl | rfl) | ⟨d, _, rfl⟩) | h
        · rfl
        · unfold updateDensePhiLs
          rw [if_neg hc, if_neg hc]
        · unfold updateDensePhiLs
          rw [if_neg hc, if_neg hc]
        · split at h
          · rename_i hdone
            have hs' := List.mem_singleton.1 h
            have hw := fill_writes K dt L cks (fun _ => none) (fun _ => none)
            cases hf : fillPhiLs K dt L cks (fun _ => none) with
            | error e => rw [hf] at hw; rw [hw] at hdone; cases hdone
            | ok d =>
              rw [hf] at hw
              rw [hw.2] at hs'
              have hs : updateDensePhiLs K sys s dt cks = .ok s' := by
                unfold updateDensePhiLs
                rw [if_neg hc]
                simp only [hy, hL, hf, bind, Except.bind, pure, Except.pure]
                rw [hs']
              rw [hs]
              by_cases h0 : cacheHit s'.cachedDt dt
              · unfold updateDensePhiLs
                rw [if_pos h0]
              · unfold updateDensePhiLs
                rw [if_neg h0]
                have hy' : s'.base.yHist.get 0 = .ok y := by rw [hs']; exact hy
                have ht' : s'.base.t = s.base.t := by rw [hs']
                simp only [hy', ht', hL, hf, bind, Except.bind, pure, Except.pure]
                rw [hs']
          · cases h

theorem step_retry (K : Kernels n) (sys : OdeSys n P) (s : ExpSplit n) (dt : ℝ) (kw : Option P) (s' : ExpSplit n)
    (h : s' ∈ s.stepWrites K sys dt) : ExpSplit.step K sys s' dt kw = ExpSplit.step K sys s dt kw := by
  have hb := split_writes_base K sys s dt s' h
  unfold ExpSplit.stepWrites at h
  dsimp only at h
  split at h
  · rename_i hm
    have hu := update_retry K sys s dt _ s' h
    unfold ExpSplit.step
    rcases hm with hm | hm | hm
    · simp [hm, hb]
      unfold stepExp1Dense
      simp [cksOf, hm] at hu
      rw [hb, hu]
    · simp [hm, hb]
      unfold stepExp2Dense
      simp [cksOf, hm] at hu
      rw [hb]
      dsimp only
      rw [hu]
    · simp [hm, hb]
      unfold stepExp3Dense
      simp [cksOf, hm] at hu
      rw [hb]
      dsimp only
      rw [hu]
  · rw [List.mem_singleton.1 h]

/-- **C114, repeated step.**  A step that was interrupted any number of times, at any points, and is then called again with the
same step size returns (or raises) exactly what it would have without the interruptions, and leaves the same object: Rosenbrock,
Runge-Kutta and all splitting methods, including the dense ones with their phi cache and a state-dependent operator. -/
theorem C114_step_retry (hasRust : Bool) (K : Kernels n) (sys : OdeSys n P) (dt : ℝ) (cuts : List (Option P × ℕ)) (kw : Option P) :
    let es : List (Event P (Vec n)) := cuts.map fun p => .cut (.step dt p.1) p.2
    (∀ s : ExpRB n, ExpRB.step hasRust K sys (runEvents (rbMachine hasRust K sys) s es) dt kw = ExpRB.step hasRust K sys s dt kw) ∧
    (∀ s : Base (Vec n), (rkMachine sys).step (runEvents (rkMachine sys) s es) dt kw = (rkMachine sys).step s dt kw) ∧
    (∀ s : ExpSplit n, ExpSplit.step K sys (runEvents (splitMachine K sys) s es) dt kw = ExpSplit.step K sys s dt kw) := by
  intro es
  refine ⟨fun s => ?_, fun s => ?_, fun s => ?_⟩
  · have : runEvents (rbMachine hasRust K sys) s es = s := by
      refine events_invariant (rbMachine hasRust K sys) (fun x => x = s) (fun e => ∃ p i, e = .cut (.step dt p) i) ?_ es ?_ s rfl
      · rintro x e ⟨p, i, rfl⟩ rfl
        rcases mem_cut (rbMachine hasRust K sys) x (.step dt p) i with h | h
        · exact List.mem_singleton.1 (show afterEvent (rbMachine hasRust K sys) x (.cut (.step dt p) i) ∈ [x] from h)
        · exact h
      · intro e he
        obtain ⟨p, _, rfl⟩ := List.mem_map.1 he
        exact ⟨_, _, rfl⟩
    rw [this]
  · have : runEvents (rkMachine sys) s es = s := by
      refine events_invariant (rkMachine sys) (fun x => x = s) (fun e => ∃ p i, e = .cut (.step dt p) i) ?_ es ?_ s rfl
      · rintro x e ⟨p, i, rfl⟩ rfl
        rcases mem_cut (rkMachine sys) x (.step dt p) i with h | h
        · exact List.mem_singleton.1 (show afterEvent (rkMachine sys) x (.cut (.step dt p) i) ∈ [x] from h)
        · exact h
      · intro e he
        obtain ⟨p, _, rfl⟩ := List.mem_map.1 he
        exact ⟨_, _, rfl⟩
    rw [this]
  · refine events_invariant (splitMachine K sys) (fun x => ExpSplit.step K sys x dt kw = ExpSplit.step K sys s dt kw)
      (fun e => ∃ p i, e = .cut (.step dt p) i) ?_ es ?_ s rfl
    · rintro x e ⟨p, i, rfl⟩ hx
      rcases mem_cut (splitMachine K sys) x (.step dt p) i with h | h
      · exact (step_retry K sys x dt kw _ h).trans hx
      · simp only [afterEvent]; rw [h]; exact hx
    · intro e he
      obtain ⟨p, _, rfl⟩ := List.mem_map.1 he
      exact ⟨_, _, rfl⟩

/-! ### Steps of other sizes -/

/-- a step that does not hit the cache does not read it -/
theorem step_miss (K : Kernels n) (sys : OdeSys n P) (s : ExpSplit n) (dt : ℝ) (kw : Option P) (hmiss : ¬ cacheHit s.cachedDt dt)
    (hm : isDense s.base.method) : ExpSplit.step K sys s dt kw = ExpSplit.step K sys (cold s) dt kw := by
  have hu : ∀ cks, updateDensePhiLs K sys s dt cks = updateDensePhiLs K sys (cold s) dt cks := by
    intro cks
    unfold updateDensePhiLs
    have hcold : ¬ cacheHit (cold s).cachedDt dt := id
    rw [if_neg hmiss, if_neg hcold]
    rfl
  unfold ExpSplit.step
  rcases hm with hm | hm | hm
  · simp [hm, show (cold s).base = s.base from rfl]
    unfold stepExp1Dense
    rw [show (cold s).base = s.base from rfl]
    simp only [hu]
  · simp [hm, show (cold s).base = s.base from rfl]
    unfold stepExp2Dense
    rw [show (cold s).base = s.base from rfl]
    simp only [hu]
  · simp [hm, show (cold s).base = s.base from rfl]
    unfold stepExp3Dense
    rw [show (cold s).base = s.base from rfl]
    simp only [hu]

theorem writes_cachedDt (K : Kernels n) (sys : OdeSys n P) (s : ExpSplit n) (dt : ℝ) (s' : ExpSplit n)
    (h : s' ∈ s.stepWrites K sys dt) :
    s'.cachedDt = s.cachedDt ∨
      (¬ cacheHit s.cachedDt dt ∧ updateDensePhiLs K sys s dt (cksOf s.base.method) = .ok s' ∧ s'.cachedDt = some dt) := by
  unfold ExpSplit.stepWrites at h
  dsimp only at h
  split at h
  · unfold updateWrites at h
    split at h
    · rw [List.mem_singleton.1 h]; exact Or.inl rfl
    · rename_i hc
      split at h
      · rw [List.mem_singleton.1 h]; exact Or.inl rfl
      · rename_i y hy
        dsimp only at h
        split at h
        · simp only [List.mem_cons, List.not_mem_nil, or_false] at h
          rcases h with rfl | rfl <;> exact Or.inl rfl
        · rename_i L hL
          simp only [List.mem_append, List.mem_cons, List.not_mem_nil, or_false, List.mem_map] at h
          rcases h with ((rfl | rfl) | ⟨d, _, rfl⟩) | h
          · exact Or.inl rfl
          · exact Or.inl rfl
          · exact Or.inl rfl
          · split at h
            · rename_i hdone
              right
              have hs' := List.mem_singleton.1 h
              have hw := fill_writes K dt L (cksOf s.base.method) (fun _ => none) (fun _ => none)
              cases hf : fillPhiLs K dt L (cksOf s.base.method) (fun _ => none) with
              | error e => rw [hf] at hw; rw [hw] at hdone; cases hdone
              | ok d =>
                rw [hf] at hw
                rw [hw.2] at hs'
                refine ⟨hc, ?_, by rw [hs']⟩
                unfold updateDensePhiLs
                rw [if_neg hc]
                simp only [hy, hL, hf, bind, Except.bind, pure, Except.pure]
                rw [hs']
            · cases h
  · rw [List.mem_singleton.1 h]; exact Or.inl rfl

theorem base_writes_cachedDt (K : Kernels n) (sys : OdeSys n P) (s : ExpSplit n) (c : Call P (Vec n))
    (hc : ∀ dt kw, c ≠ .step dt kw) (x : ExpSplit n) (hx : x ∈ (splitMachine K sys).writes s c) :
    x.cachedDt = s.cachedDt ∧ x.cachedPhiLs = s.cachedPhiLs ∧ x.cachedSysLop = s.cachedSysLop ∨ x.cachedDt = none := by
  cases c with
  | step dt kw => exact absurd rfl (hc dt kw)
  | accept r =>
    obtain ⟨b, hb, rfl⟩ := List.mem_map.1 hx
    exact Or.inl ⟨rfl, rfl, rfl⟩
  | reset t0 y0 =>
    rcases List.mem_append.1 hx with hx | hx
    · obtain ⟨b, hb, rfl⟩ := List.mem_map.1 hx
      exact Or.inl ⟨rfl, rfl, rfl⟩
    · rw [List.mem_singleton.1 hx]
      exact Or.inr rfl

theorem new_dense {t0 : ℝ} {y0 : Vec n} {m : String} {s0 : ExpSplit n} (h0 : ExpSplit.new t0 y0 m = .ok s0) :
    s0.base.method = m ∧ s0.cachedDt = none := by
  unfold ExpSplit.new at h0
  split at h0
  · cases h0
  · obtain ⟨b, hb, h0⟩ := bind_ok h0
    cases h0
    refine ⟨?_, rfl⟩
    unfold Base.init at hb
    split_ifs at hb
    cases hb
    rfl

/-- **C114, a step size not used before.**  Dense splitting methods: after any history of completed, failed and interrupted calls
in which no step of size `dt` was attempted, a step of size `dt` returns what an object with an empty cache returns. -/
theorem C114_new_size (K : Kernels n) (sys : OdeSys n P) (t0 : ℝ) (y0 : Vec n) (m : String) (hm : isDense m) (s0 : ExpSplit n)
    (h0 : ExpSplit.new t0 y0 m = .ok s0) (past : List (Event P (Vec n))) (dt : ℝ) (hp : ∀ e ∈ past, NeverSize dt e)
    (kw : Option P) :
    let s := runEvents (splitMachine K sys) s0 past
    ExpSplit.step K sys s dt kw = ExpSplit.step K sys { s with cachedDt := none } dt kw := by
  intro s
  obtain ⟨hb, hc⟩ := new_dense h0
  have hconf := split_events_conf K sys s0 past
  have hmeth : isDense s.base.method := by
    have := SameConf.method_eq hconf
    show isDense s.base.method
    rw [this, hb]
    exact hm
  have hne : s.cachedDt ≠ some dt := by
    refine events_invariant (splitMachine K sys) (fun x => x.cachedDt ≠ some dt) (NeverSize dt) ?_ past hp s0 (by rw [hc]; simp)
    intro x e he hx
    have hstep : ∀ d, d ≠ dt → ∀ x' ∈ x.stepWrites K sys d, x'.cachedDt ≠ some dt := by
      intro d hd x' hx'
      rcases writes_cachedDt K sys x d x' hx' with h | ⟨_, _, h⟩
      · rw [h]; exact hx
      · rw [h]; simpa using hd
    have hother : ∀ c : Call P (Vec n), (∀ d kw, c ≠ .step d kw) → ∀ x' ∈ (splitMachine K sys).writes x c, x'.cachedDt ≠ some dt := by
      intro c hc x' hx'
      rcases base_writes_cachedDt K sys x c hc x' hx' with h | h
      · rw [h.1]; exact hx
      · rw [h]; simp
    cases e with
    | cut c i =>
      rcases mem_cut (splitMachine K sys) x c i with h | h
      · cases c with
        | step d kw => exact hstep d he _ h
        | accept r => exact hother _ (by intro d kw h; cases h) _ h
        | reset t y => exact hother _ (by intro d kw h; cases h) _ h
      · simp only [afterEvent]; rw [h]; exact hx
    | call c =>
      cases c with
      | step d kw =>
        simp only [afterEvent, Machine.after]
        split
        · rename_i r s' h
          have hl := (split_writes_ends K sys x s' d kw r h).2
          exact hstep d he _ (List.mem_of_getLast? hl)
        · exact last_write (p := fun x' : ExpSplit n => x'.cachedDt ≠ some dt) _ _ hx (hstep d he)
      | accept r => exact hx
      | reset t y => simp [afterEvent, Machine.after, splitMachine, ExpSplit.resetIc]
  refine step_miss K sys s dt kw ?_ hmeth
  intro hit
  cases hd : s.cachedDt with
  | none => rw [hd] at hit; exact hit
  | some c =>
    rw [hd] at hit
    exact hne (by rw [hd, hit.2])

/-- **C114, one step size.**  Dense splitting methods with a constant splitting operator, used with one nonzero step size (as
`integrate` does): after any history of completed, failed and interrupted calls a step returns what an object with an empty cache
returns. -/
theorem C114_one_size (K : Kernels n) (sys : OdeSys n P) (lop : LinOp n) (hL : ∀ t y, sys.fl t y = lop) (t0 : ℝ) (y0 : Vec n)
    (m : String) (hm : isDense m) (s0 : ExpSplit n) (h0 : ExpSplit.new t0 y0 m = .ok s0) (past : List (Event P (Vec n))) (dt : ℝ)
    (hdt : dt ≠ 0) (hp : ∀ e ∈ past, OnlySize dt e) (kw : Option P) :
    let s := runEvents (splitMachine K sys) s0 past
    ExpSplit.step K sys s dt kw = ExpSplit.step K sys { s with cachedDt := none } dt kw := by
  intro s
  obtain ⟨hb, hc⟩ := new_dense h0
  have hconf := split_events_conf K sys s0 past
  have hmeth : isDense s.base.method := by
    have := SameConf.method_eq hconf
    show isDense s.base.method
    rw [this, hb]
    exact hm
  have hco : (s.cachedDt = none ∨ s.cachedDt = some dt) ∧ Coherent K lop s := by
    refine events_invariant (splitMachine K sys) (fun x => (x.cachedDt = none ∨ x.cachedDt = some dt) ∧ Coherent K lop x)
      (OnlySize dt) ?_ past hp s0 ⟨Or.inl hc, fun c h => by rw [hc] at h; cases h⟩
    intro x e he hx
    have hmove : ∀ x' : ExpSplit n, SameConf x'.base x.base →
        (x'.cachedDt = x.cachedDt ∧ x'.cachedPhiLs = x.cachedPhiLs ∧ x'.cachedSysLop = x.cachedSysLop ∨ x'.cachedDt = none) →
        (x'.cachedDt = none ∨ x'.cachedDt = some dt) ∧ Coherent K lop x' := by
      rintro x' hcf (⟨h1, h2, h3⟩ | h)
      · refine ⟨by rw [h1]; exact hx.1, ?_⟩
        intro c hc'
        rw [h1] at hc'
        obtain ⟨g1, L, d, g2, g3, g4⟩ := hx.2 c hc'
        refine ⟨by rw [h3]; exact g1, L, d, g2, ?_, by rw [h2]; exact g4⟩
        rw [SameConf.method_eq hcf]
        exact g3
      · exact ⟨Or.inl h, fun c hc' => by rw [h] at hc'; cases hc'⟩
    have hstep : ∀ x' ∈ x.stepWrites K sys dt, (x'.cachedDt = none ∨ x'.cachedDt = some dt) ∧ Coherent K lop x' := by
      intro x' hx'
      by_cases hit : cacheHit x.cachedDt dt
      · have : x' = x := by
          unfold ExpSplit.stepWrites at hx'
          dsimp only at hx'
          split at hx'
          · unfold updateWrites at hx'
            rw [if_pos hit] at hx'
            exact List.mem_singleton.1 hx'
          · exact List.mem_singleton.1 hx'
        rw [this]
        exact hx
      · have hn : x.cachedDt = none := by
          rcases hx.1 with h | h
          · exact h
          · exact absurd (by rw [h]; exact ⟨hdt, rfl⟩) hit
        rcases writes_cachedDt K sys x dt x' hx' with h | ⟨_, h, h'⟩
        · rw [hn] at h
          exact ⟨Or.inl h, fun c hc' => by rw [h] at hc'; cases hc'⟩
        · exact ⟨Or.inr h', update_coherent K sys lop hL x x' hx.2 dt h⟩
    have hcf := split_event_conf K sys x
    have hother : ∀ c : Call P (Vec n), (∀ d kw, c ≠ .step d kw) → ∀ x' ∈ (splitMachine K sys).writes x c,
        (x'.cachedDt = none ∨ x'.cachedDt = some dt) ∧ Coherent K lop x' := fun c hc' x' hx' =>
      hmove x' (split_writes_conf K sys x c x' hx') (base_writes_cachedDt K sys x c hc' x' hx')
    cases e with
    | cut c i =>
      rcases mem_cut (splitMachine K sys) x c i with h | h
      · cases c with
        | step d kw =>
          have he : d = dt := he
          subst he
          exact hstep _ h
        | accept r => exact hother _ (by intro d kw h; cases h) _ h
        | reset t y => exact hother _ (by intro d kw h; cases h) _ h
      · simp only [afterEvent]; rw [h]; exact hx
    | call c =>
      cases c with
      | step d kw =>
        have he : d = dt := he
        subst he
        simp only [afterEvent, Machine.after]
        split
        · rename_i r s' h
          have hl := (split_writes_ends K sys x s' d kw r h).2
          exact hstep _ (List.mem_of_getLast? hl)
        · exact last_write (p := fun x' : ExpSplit n => (x'.cachedDt = none ∨ x'.cachedDt = some d) ∧ Coherent K lop x') _ _ hx hstep
      | accept r => exact hmove _ (sameConf_accept _ _) (Or.inl ⟨rfl, rfl, rfl⟩)
      | reset t y => exact hmove _ (sameConf_reset _ _ _) (Or.inr rfl)
  exact dense_step_cold K sys lop hL s hco.2 dt kw hmeth

/-! ### The Leja class -/

/-- **C114, Leja.**  After any history of completed, failed and interrupted calls the remembered substep size of a Leja integrator
stays in `(0, 1]`. -/
theorem C114_leja_sane (o : LejaOpts) (sys : OdeSys n P) (t0 : ℝ) (y0 : Vec n) (m : String) (s0 : ExpLeja n)
    (h0 : ExpLeja.new t0 y0 m = .ok s0) (past : List (Event P (Vec n))) :
    0 < (runEvents (lejaMachine o sys) s0 past).substepSize ∧ (runEvents (lejaMachine o sys) s0 past).substepSize ≤ 1 := by
  have hinit : 0 < s0.substepSize ∧ s0.substepSize ≤ 1 := by
    unfold ExpLeja.new at h0
    split at h0
    · cases h0
    · obtain ⟨b, _, h0⟩ := bind_ok h0
      cases h0
      norm_num
  refine events_invariant (lejaMachine o sys) (fun x => 0 < x.substepSize ∧ x.substepSize ≤ 1) (fun _ => True) ?_ past
    (fun _ _ => trivial) s0 hinit
  rintro x e - hx
  have hstep : ∀ dt kw, ∀ x' ∈ x.stepWrites o sys dt kw, 0 < x'.substepSize ∧ x'.substepSize ≤ 1 := by
    intro dt kw x' h
    unfold ExpLeja.stepWrites at h
    dsimp only at h
    split at h
    · split at h
      · rw [List.mem_singleton.1 h]; exact hx
      · simp only [List.mem_append, List.mem_cons, List.not_mem_nil, or_false] at h
        rcases h with (rfl | rfl) | h
        · exact hx
        · exact hx
        · split at h
          · cases h
          · rename_i r s'' hs
            simp only [List.mem_cons, List.not_mem_nil, or_false] at h
            rcases h with rfl | rfl
            · exact hx
            · obtain ⟨_, _, g3, g4⟩ := leja_step_sane o sys x hx dt kw _ hs
              exact ⟨g3, g4⟩
    · rw [List.mem_singleton.1 h]; exact hx
  have hw : ∀ c : Call P (Vec n), ∀ x' ∈ (lejaMachine o sys).writes x c, 0 < x'.substepSize ∧ x'.substepSize ≤ 1 := by
    intro c x' h
    cases c with
    | step dt kw => exact hstep dt kw x' h
    | accept r => obtain ⟨b, _, rfl⟩ := List.mem_map.1 h; exact hx
    | reset t y => obtain ⟨b, _, rfl⟩ := List.mem_map.1 h; exact hx
  cases e with
  | cut c i =>
    rcases mem_cut (lejaMachine o sys) x c i with h | h
    · exact hw c _ h
    · simp only [afterEvent]; rw [h]; exact hx
  | call c =>
    cases c with
    | step dt kw =>
      simp only [afterEvent, Machine.after]
      split
      · rename_i r s' h
        obtain ⟨_, _, g3, g4⟩ := leja_step_sane o sys x hx dt kw _ h
        exact ⟨g3, g4⟩
      · exact last_write (p := fun x' : ExpLeja n => 0 < x'.substepSize ∧ x'.substepSize ≤ 1) _ _ hx (hw _)
    | accept r => exact hx
    | reset t y => exact hx

/-! ### The phi routine of the package returns -/

theorem TotalKernels.phiTotal {K : Kernels n} (hK : TotalKernels K) : PhiTotal K := by
  intro A k hk
  obtain ⟨l, h, hl⟩ := hK.phiSqAll A k hk
  exact ⟨l, h, by omega⟩

/-- Non-vacuity of the hypothesis of C41 and C03: the kernels of the package meet it. -/
theorem realKernels_phiTotal (n : ℕ) (expm : ∀ m, Mat m → Mat m) (tab : Pfd) (rs : Mat n → ℝ → Vec n → ℕ → Vec n) (maxDim iom : ℕ)
    (hm : 1 ≤ maxDim) : PhiTotal (realKernels n expm tab rs maxDim iom) :=
  (realKernels_total n expm tab rs maxDim iom hm).phiTotal

end

/-! ### What an interruption can break -/

/-- the one-dimensional system `y' = y` with the constant splitting operator `L = 1` -/
noncomputable def growthSys : OdeSys 1 (List ℕ) where
  frhs _ _ y := y
  fjac _ _ y := { matvec := 1, dense := .ok 1, fdt := 0, frhsCached := y }
  fl _ _ := matrixLinOp 1

/-- exact first phi function of a number -/
theorem phi1_scalar (c : ℝ) (hc : c ≠ 0) : Spec.phiM 1 (c • (1 : Mat 1)) 0 0 = (Real.exp c - 1) / c := by
  have h := Spec.phiM_recurrence 0 (c • (1 : Mat 1))
  rw [zero_add, Spec.phiM_zero] at h
  have hd : c • (1 : Mat 1) = Matrix.diagonal (fun _ => c) := by
    ext i j
    fin_cases i; fin_cases j
    simp
  have h2 := congrFun (congrFun h 0) 0
  rw [hd, Matrix.exp_diagonal] at h2
  rw [hd, eq_div_iff hc]
  simp [Matrix.mul_apply, Real.exp_eq_exp_ℝ] at h2 ⊢
  linarith

theorem growth_miss (s : ExpSplit 1) (y : Vec 1) (hy : s.base.yHist.get 0 = .ok y) (hm : s.base.method = "exp1_dense") (dt : ℝ)
    (hmiss : ¬ cacheHit s.cachedDt dt) :
    ∃ r, ExpSplit.step (exactDense 1) growthSys s dt none = .ok (r,
        { s with cachedSysLop := some (matrixLinOp 1), cachedDt := some dt, cachedPhiLs := some (Function.update (fun _ => none)
          (1, 1) (some (Spec.phiM 1 (dt • (1 : Mat 1))))) }) ∧
      r.y = y + (dt • Spec.phiM 1 (dt • (1 : Mat 1))) *ᵥ y := by
  unfold ExpSplit.step
  simp only [hm]
  simp only [show ¬ ("exp1_dense" = "exp1") by decide, show ¬ ("exp1_dense" = "exp2") by decide,
    show ¬ ("exp1_dense" = "exp3") by decide, if_false, if_true]
  unfold stepExp1Dense updateDensePhiLs
  rw [if_neg hmiss]
  simp [hy, growthSys, matrixLinOp, fillPhiLs, exactDense, listMax, pyGet, bind, Except.bind, pure, Except.pure,
    optGet, dictGet, List.foldlM]

theorem growth_hit (s : ExpSplit 1) (y : Vec 1) (hy : s.base.yHist.get 0 = .ok y) (hm : s.base.method = "exp1_dense") (dt : ℝ)
    (hhit : cacheHit s.cachedDt dt) (d : PhiDict 1) (hd : s.cachedPhiLs = some d) :
    (∀ X, d (1, 1) = some X → ∃ r, ExpSplit.step (exactDense 1) growthSys s dt none = .ok (r, s) ∧ r.y = y + (dt • X) *ᵥ y) ∧
      (d (1, 1) = none → ExpSplit.step (exactDense 1) growthSys s dt none = .error .key) := by
  unfold ExpSplit.step
  simp only [hm]
  simp only [show ¬ ("exp1_dense" = "exp1") by decide, show ¬ ("exp1_dense" = "exp2") by decide,
    show ¬ ("exp1_dense" = "exp3") by decide, if_false, if_true]
  unfold stepExp1Dense updateDensePhiLs
  rw [if_pos hhit]
  constructor
  · intro X hX
    simp [hy, growthSys, bind, Except.bind, pure, Except.pure, optGet, dictGet, hd, hX]
  · intro hX
    simp [hy, growthSys, bind, Except.bind, pure, Except.pure, optGet, dictGet, hd, hX]

theorem growth_writes (s : ExpSplit 1) (y : Vec 1) (hy : s.base.yHist.get 0 = .ok y) (hm : s.base.method = "exp1_dense") (dt : ℝ)
    (hmiss : ¬ cacheHit s.cachedDt dt) :
    ∃ rest, s.stepWrites (exactDense 1) growthSys dt
      = s :: { s with cachedSysLop := some (matrixLinOp 1) } ::
          { s with cachedSysLop := some (matrixLinOp 1), cachedPhiLs := some fun _ => none } ::
          { s with cachedSysLop := some (matrixLinOp 1), cachedPhiLs := some (Function.update (fun _ => none)
            (1, 1) (some (Spec.phiM 1 (dt • (1 : Mat 1))))) } :: rest := by
  unfold ExpSplit.stepWrites
  dsimp only
  rw [if_pos (Or.inl hm)]
  unfold updateWrites
  rw [if_neg hmiss, hy]
  simp [growthSys, matrixLinOp, cksOf, hm, fillWrites, exactDense, listMax, insertWrites, pyGet]

/-- **C114 is false for the dense splitting methods when the step size changes**, already with a constant operator: after a
completed `step(1)` and a `step(2)` interrupted before its last write, the next `step(1)`, which without the interruption
returns the exact value `e`, silently returns `(e² + 1)/2` (interrupted after the phi matrices were stored: they are those of the
step size 2) or raises `KeyError` (interrupted after the dictionary was emptied). -/
theorem C114_dense_false :
    ∃ (s0 s : ExpSplit 1) (past : List (Event (List ℕ) (Vec 1))) (r r' : StepResult (Vec 1)) (x x' : ExpSplit 1),
      ExpSplit.new 0 (fun _ => 1) "exp1_dense" = .ok s0 ∧
      s = runEvents (splitMachine (exactDense 1) growthSys) s0 past ∧
      ExpSplit.step (exactDense 1) growthSys s 1 none = .ok (r, x) ∧ r.y 0 = Real.exp 1 ∧
      ExpSplit.step (exactDense 1) growthSys
        (afterEvent (splitMachine (exactDense 1) growthSys) s (.cut (.step 2 none) 3)) 1 none = .ok (r', x') ∧
      r'.y 0 = (Real.exp 2 + 1) / 2 ∧ r'.y 0 ≠ r.y 0 ∧
      ExpSplit.step (exactDense 1) growthSys
        (afterEvent (splitMachine (exactDense 1) growthSys) s (.cut (.step 2 none) 2)) 1 none = .error .key := by
  have hnew : ∃ s0 : ExpSplit 1, ExpSplit.new 0 (fun _ => 1) "exp1_dense" = .ok s0 ∧
      s0.base.yHist.get 0 = .ok (fun _ => 1) ∧ s0.base.method = "exp1_dense" ∧ s0.cachedDt = none := ⟨_, rfl, rfl, rfl, rfl⟩
  obtain ⟨s0, h0, hy, hm, hc⟩ := hnew
  obtain ⟨r1, h1, -⟩ := growth_miss s0 _ hy hm 1 (by rw [hc]; exact id)
  set s : ExpSplit 1 := { s0 with cachedSysLop := some (matrixLinOp 1), cachedDt := some 1, cachedPhiLs := some (Function.update
    (fun _ => none) (1, 1) (some (Spec.phiM 1 ((1 : ℝ) • (1 : Mat 1))))) } with hs
  have hrun : s = runEvents (splitMachine (exactDense 1) growthSys) s0 [.call (.step 1 none)] := by
    have : (splitMachine (exactDense 1) growthSys).step s0 1 none = .ok (r1, s) := h1
    simp only [runEvents, List.foldl, afterEvent, Machine.after, this]
  have hys : s.base.yHist.get 0 = .ok fun _ => 1 := hy
  have hms : s.base.method = "exp1_dense" := hm
  have hhit : cacheHit (some (1 : ℝ)) 1 := ⟨one_ne_zero, rfl⟩
  have hmiss : ¬ cacheHit s.cachedDt 2 := by rintro ⟨_, h⟩; norm_num at h
  obtain ⟨rest, hw⟩ := growth_writes s _ hys hms 2 hmiss
  obtain ⟨r, hr, hry⟩ := (growth_hit s _ hys hms 1 hhit _ rfl).1 _ (Function.update_self _ _ _)
  have e3 : afterEvent (splitMachine (exactDense 1) growthSys) s (.cut (.step 2 none) 3)
      = { s with cachedSysLop := some (matrixLinOp 1), cachedPhiLs := some (Function.update (fun _ => none)
            (1, 1) (some (Spec.phiM 1 ((2 : ℝ) • (1 : Mat 1))))) } := by
    show (s.stepWrites (exactDense 1) growthSys 2).getD 3 s = _
    rw [hw]
    rfl
  have e2 : afterEvent (splitMachine (exactDense 1) growthSys) s (.cut (.step 2 none) 2)
      = { s with cachedSysLop := some (matrixLinOp 1), cachedPhiLs := some fun _ => none } := by
    show (s.stepWrites (exactDense 1) growthSys 2).getD 2 s = _
    rw [hw]
    rfl
  obtain ⟨r', hr', hry'⟩ := (growth_hit (afterEvent (splitMachine (exactDense 1) growthSys) s (.cut (.step 2 none) 3)) (fun _ => 1)
    (by rw [e3]; exact hys) (by rw [e3]; exact hms) 1 (by rw [e3]; exact hhit) _ (by rw [e3])).1 _ (Function.update_self _ _ _)
  have hkey := (growth_hit (afterEvent (splitMachine (exactDense 1) growthSys) s (.cut (.step 2 none) 2)) (fun _ => 1)
    (by rw [e2]; exact hys) (by rw [e2]; exact hms) 1 (by rw [e2]; exact hhit) _ (by rw [e2])).2 rfl
  have v : r.y 0 = Real.exp 1 := by
    rw [hry]
    have := phi1_scalar 1 one_ne_zero
    simp only [Pi.add_apply, Matrix.mulVec, dotProduct, Finset.univ_unique, Finset.sum_singleton, Matrix.smul_apply, smul_eq_mul]
    rw [show (default : Fin 1) = 0 from rfl, this]
    ring
  have v' : r'.y 0 = (Real.exp 2 + 1) / 2 := by
    rw [hry']
    have := phi1_scalar 2 two_ne_zero
    simp only [Pi.add_apply, Matrix.mulVec, dotProduct, Finset.univ_unique, Finset.sum_singleton, Matrix.smul_apply, smul_eq_mul]
    rw [show (default : Fin 1) = 0 from rfl, this]
    ring
  refine ⟨s0, s, _, r, r', _, _, h0, hrun, hr, v, hr', v', ?_, hkey⟩
  rw [v, v']
  intro h
  have h2 : Real.exp 2 = Real.exp 1 * Real.exp 1 := by rw [← Real.exp_add]; norm_num
  rw [h2] at h
  have h3 : (Real.exp 1 - 1) * (Real.exp 1 - 1) = 0 := by linarith
  have h4 : Real.exp 1 - 1 = 0 := by simpa using h3
  have h5 : (1 : ℝ) < Real.exp 1 := Real.one_lt_exp_iff.2 one_pos
  linarith

/-- **C114 is false for `accept_step`: it is not atomic.**  An `epi3` object at time 0 whose `accept_step` of a result at time 1
is interrupted after its first write reports time 1 with the state of time 0 as the newest state; interrupted after the second
write and called again it pairs the state of time 0 with the time 1 in its history (so the next third order step uses a wrong
previous time). -/
theorem C114_accept_false (K : Kernels 1) (sys : OdeSys 1 (List ℕ)) (y0 y1 : Vec 1) :
    ∃ s0 : ExpRB 1, ExpRB.new false 0 y0 "epi3" 1e-8 = .ok s0 ∧
      (let M := rbMachine false K sys
       let r : StepResult (Vec 1) := ⟨1, 1, y1, -1⟩
       let s1 := afterEvent M s0 (.cut (.accept r) 1)
       let s2 := runEvents M s0 [.cut (.accept r) 2, .call (.accept r)]
       s1.base.t = 1 ∧ s1.base.yHist.get 0 = .ok y0 ∧
       s2.base.tHist.get 1 = .ok 1 ∧ s2.base.yHist.get 1 = .ok y0 ∧ s2.base.tHist.len ≠ s2.base.yHist.len) := by
  have h : ¬ (hasPfdRs "epi3" ∧ ¬ (false = true)) := by decide
  unfold ExpRB.new
  simp only [show ExpRB.validMethods.lookup "epi3" = some 3 from rfl, if_neg h]
  refine ⟨_, rfl, ?_⟩
  refine ⟨rfl, rfl, rfl, rfl, ?_⟩
  show (3 : ℕ) ≠ 2
  decide

/-- An `accept_step` interrupted before it wrote to a history can simply be repeated. -/
theorem C114_accept_retry {Y : Type} (b : Base Y) (r : StepResult Y) (i : ℕ) (hi : i ≤ 1) :
    ((b.acceptWrites r).getD i b).acceptStep r = b.acceptStep r := by
  rcases i with _ | _ | i
  · rfl
  · rfl
  · omega

/-- Non-vacuity of `C114_one_size` and `C114_new_size`: a history with a completed step, an interrupted step, a failed accept and
an interrupted reset. -/
example : ∃ s0 : ExpSplit 1, ExpSplit.new 0 (fun _ => 1) "exp1_dense" = .ok s0 ∧ isDense "exp1_dense" ∧
    (∀ t y, growthSys.fl t y = matrixLinOp 1) ∧
    (∀ e ∈ ([.call (.step 1 none), .cut (.step 1 none) 2, .cut (.accept ⟨1, 1, fun _ => 2, -1⟩) 1, .cut (.reset 0 fun _ => 1) 3] :
      List (Event (List ℕ) (Vec 1))), OnlySize 1 e ∧ NeverSize 2 e) := by
  refine ⟨_, rfl, Or.inl rfl, fun _ _ => rfl, ?_⟩
  intro e he
  simp only [List.mem_cons, List.not_mem_nil, or_false] at he
  rcases he with rfl | rfl | rfl | rfl <;> simp [OnlySize, NeverSize]

end Ormatex.Props
