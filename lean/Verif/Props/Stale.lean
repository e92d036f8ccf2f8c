import Verif.Props.Trial
import Verif.Props.Steps

/-!
C41: which operator a dense splitting step uses, for every history and every (also state-dependent) splitting operator.
-/

namespace Ormatex.Props
open Matrix
open scoped Classical

section
set_option linter.unusedSectionVars false
variable {n : ℕ} {P : Type} [EmptyCollection P]

/-! ### Specification -/

/-- Specification: where and with which step size the operator was last evaluated: `(dt, t, y)`.  A successful step with the
recorded nonzero size keeps the record, a successful step with another size (or size zero) records the current time and newest
state, a reset clears the record, an accepted step does not change it. -/
noncomputable def recordAfter (M : Machine (ExpSplit n) P (Vec n)) (s : ExpSplit n) (f : Option (ℝ × ℝ × Vec n)) :
    Call P (Vec n) → Option (ℝ × ℝ × Vec n)
  | .step dt kw =>
    match M.step s dt kw, (M.base s).yHist.get 0 with
    | .ok _, .ok y => if f.map Prod.fst = some dt ∧ dt ≠ 0 then f else some (dt, (M.base s).t, y)
    | _, _ => f
  | .accept _ => f
  | .reset _ _ => none

/-- the record after a history of calls -/
noncomputable def recordRun (M : Machine (ExpSplit n) P (Vec n)) :
    ExpSplit n → Option (ℝ × ℝ × Vec n) → List (Call P (Vec n)) → Option (ℝ × ℝ × Vec n)
  | _, f, [] => f
  | s, f, c :: cs => recordRun M (M.after s c) (recordAfter M s f c) cs

/-- Specification: the operator of a step of size `dt` from `(t, y)` with the given record. -/
noncomputable def operatorFor (sys : OdeSys n P) (f : Option (ℝ × ℝ × Vec n)) (dt t : ℝ) (y : Vec n) : LinOp n :=
  match f with
  | some (d, t', y') => if d = dt ∧ dt ≠ 0 then sys.fl t' y' else sys.fl t y
  | none => sys.fl t y

/-- the same system with a constant splitting operator -/
def freezeOp (sys : OdeSys n P) (lop : LinOp n) : OdeSys n P := { sys with fl := fun _ _ => lop }

/-! ### Proof -/

def isDense (m : String) : Prop := m = "exp1_dense" ∨ m = "exp2_dense" ∨ m = "exp3_dense"

theorem update_freeze (K : Kernels n) (sys : OdeSys n P) (lop : LinOp n) (s : ExpSplit n) (dt : ℝ)
    (h : cacheHit s.cachedDt dt ∨ ∀ y, s.base.yHist.get 0 = .ok y → sys.fl s.base.t y = lop) (cks : List (ℝ × List ℕ)) :
    updateDensePhiLs K sys s dt cks = updateDensePhiLs K (freezeOp sys lop) s dt cks := by
  unfold updateDensePhiLs
  split_ifs with hc
  · rfl
  · rcases h with h | h
    · exact absurd h hc
    · cases hy : s.base.yHist.get 0 with
      | error e => rfl
      | ok y =>
        show (do
          let L ← (sys.fl s.base.t y).dense
          let d ← fillPhiLs K dt L cks (fun _ => none)
          pure { s with cachedSysLop := some (sys.fl s.base.t y), cachedPhiLs := some d, cachedDt := some dt }) = _
        rw [h y hy]
        rfl

theorem step_freeze (K : Kernels n) (sys : OdeSys n P) (lop : LinOp n) (s : ExpSplit n) (dt : ℝ) (kw : Option P)
    (hm : isDense s.base.method)
    (h : cacheHit s.cachedDt dt ∨ ∀ y, s.base.yHist.get 0 = .ok y → sys.fl s.base.t y = lop) :
    ExpSplit.step K sys s dt kw = ExpSplit.step K (freezeOp sys lop) s dt kw := by
  have hu := update_freeze K sys lop s dt h
  unfold ExpSplit.step
  rcases hm with hm | hm | hm
  · simp [hm]
    unfold stepExp1Dense
    simp only [hu]
    rfl
  · simp [hm]
    unfold stepExp2Dense
    simp only [hu]
    rfl
  · simp [hm]
    unfold stepExp3Dense
    simp only [hu]
    rfl

/-- after a successful dense step the cache belongs to that step size -/
theorem dense_step_cachedDt (K : Kernels n) (sys : OdeSys n P) (s s' : ExpSplit n) (dt : ℝ) (kw : Option P)
    (r : StepResult (Vec n)) (hm : isDense s.base.method) (h : ExpSplit.step K sys s dt kw = .ok (r, s')) :
    s'.cachedDt = some dt ∧ (∃ y, s.base.yHist.get 0 = .ok y) := by
  have hu : ∀ cks s1, updateDensePhiLs K sys s dt cks = .ok s1 → s1.cachedDt = some dt := by
    intro cks s1 h
    unfold updateDensePhiLs at h
    split_ifs at h with hc
    · cases h
      cases hd : s.cachedDt with
      | none => rw [hd] at hc; exact hc.elim
      | some c => rw [hd] at hc; rw [hc.2]
    · obtain ⟨_, _, h⟩ := bind_ok h
      obtain ⟨_, _, h⟩ := bind_ok h
      obtain ⟨_, _, h⟩ := bind_ok h
      cases h
      rfl
  unfold ExpSplit.step at h
  rcases hm with hm | hm | hm
  · simp [hm] at h
    unfold stepExp1Dense at h
    obtain ⟨y, hy, h⟩ := bind_ok h
    obtain ⟨s1, hu1, h⟩ := bind_ok h
    obtain ⟨_, _, h⟩ := bind_ok h
    obtain ⟨_, _, h⟩ := bind_ok h
    cases h
    exact ⟨hu _ _ hu1, y, hy⟩
  · simp [hm] at h
    unfold stepExp2Dense at h
    obtain ⟨y, hy, h⟩ := bind_ok h
    obtain ⟨s1, hu1, h⟩ := bind_ok h
    obtain ⟨_, _, h⟩ := bind_ok h
    obtain ⟨_, _, h⟩ := bind_ok h
    obtain ⟨_, _, h⟩ := bind_ok h
    obtain ⟨_, _, h⟩ := bind_ok h
    obtain ⟨_, _, h⟩ := bind_ok h
    cases h
    exact ⟨hu _ _ hu1, y, hy⟩
  · simp [hm] at h
    unfold stepExp3Dense at h
    obtain ⟨y, hy, h⟩ := bind_ok h
    obtain ⟨s1, hu1, h⟩ := bind_ok h
    obtain ⟨_, _, h⟩ := bind_ok h
    obtain ⟨_, _, h⟩ := bind_ok h
    obtain ⟨_, _, h⟩ := bind_ok h
    obtain ⟨_, _, h⟩ := bind_ok h
    obtain ⟨_, _, h⟩ := bind_ok h
    obtain ⟨_, _, h⟩ := bind_ok h
    obtain ⟨_, _, h⟩ := bind_ok h
    cases h
    exact ⟨hu _ _ hu1, y, hy⟩

/-- the record describes the cache -/
def Recorded (K : Kernels n) (sys : OdeSys n P) (s : ExpSplit n) : Option (ℝ × ℝ × Vec n) → Prop
  | none => s.cachedDt = none
  | some (d, t, y) => s.cachedDt = some d ∧ Coherent K (sys.fl t y) s

theorem recorded_coherent {K : Kernels n} {sys : OdeSys n P} {s : ExpSplit n} {f : Option (ℝ × ℝ × Vec n)}
    (h : Recorded K sys s f) (dt : ℝ) (y : Vec n) (hy : s.base.yHist.get 0 = .ok y) :
    (cacheHit s.cachedDt dt ∨ ∀ y', s.base.yHist.get 0 = .ok y' → sys.fl s.base.t y' = operatorFor sys f dt s.base.t y) ∧
      (cacheHit s.cachedDt dt → Coherent K (operatorFor sys f dt s.base.t y) s) ∧
      (cacheHit s.cachedDt dt ↔ f.map Prod.fst = some dt ∧ dt ≠ 0) := by
  have hcur : ∀ y', s.base.yHist.get 0 = .ok y' → sys.fl s.base.t y' = sys.fl s.base.t y := by
    intro y' hy'
    rw [hy] at hy'
    cases hy'
    rfl
  match f, h with
  | none, h =>
    have h : s.cachedDt = none := h
    rw [h]
    exact ⟨Or.inr hcur, fun h => h.elim, ⟨fun h => h.elim, fun h => by simp at h⟩⟩
  | some (d, t, y0), h =>
    obtain ⟨h1, h2⟩ := h
    rw [h1]
    by_cases hd : d = dt ∧ dt ≠ 0
    · have e : operatorFor sys (some (d, t, y0)) dt s.base.t y = sys.fl t y0 := if_pos hd
      rw [e]
      refine ⟨Or.inl ⟨hd.1 ▸ hd.2, hd.1⟩, fun _ => h2, ⟨fun _ => ⟨by simp [hd.1], hd.2⟩, fun _ => ⟨hd.1 ▸ hd.2, hd.1⟩⟩⟩
    · have e : operatorFor sys (some (d, t, y0)) dt s.base.t y = sys.fl s.base.t y := if_neg hd
      rw [e]
      have hno : ¬ cacheHit (some d) dt := fun h => hd ⟨h.2, h.2 ▸ h.1⟩
      refine ⟨Or.inr hcur, fun h => absurd h hno, ⟨fun h => absurd h hno, fun h => ?_⟩⟩
      simp only [Option.map_some, Option.some.injEq] at h
      exact absurd h hd

theorem coherent_of_miss {K : Kernels n} {lop : LinOp n} {s : ExpSplit n} : Coherent K lop (cold s) := by
  intro c hc
  cases hc

/-- one step under the record -/
theorem step_recorded (K : Kernels n) (sys : OdeSys n P) (s : ExpSplit n) (hm : isDense s.base.method)
    (f : Option (ℝ × ℝ × Vec n)) (hf : Recorded K sys s f) (y : Vec n) (hy : s.base.yHist.get 0 = .ok y) (dt : ℝ)
    (kw : Option P) :
    ExpSplit.step K sys s dt kw
      = ExpSplit.step K (freezeOp sys (operatorFor sys f dt s.base.t y)) (cold s) dt kw := by
  obtain ⟨h1, h2, _⟩ := recorded_coherent hf dt y hy
  rw [step_freeze K sys _ s dt kw hm h1]
  by_cases hit : cacheHit s.cachedDt dt
  · exact dense_step_cold K (freezeOp sys _) _ (fun _ _ => rfl) s (h2 hit) dt kw hm
  · -- a miss: the cache is not read
    have hu : ∀ cks, updateDensePhiLs K (freezeOp sys (operatorFor sys f dt s.base.t y)) s dt cks
        = updateDensePhiLs K (freezeOp sys (operatorFor sys f dt s.base.t y)) (cold s) dt cks := by
      intro cks
      unfold updateDensePhiLs
      have hcold : ¬ cacheHit (cold s).cachedDt dt := id
      rw [if_neg hit, if_neg hcold]
      rfl
    unfold ExpSplit.step
    rcases hm with hm | hm | hm
    · simp [hm, show (cold s).base = s.base from rfl]
      unfold stepExp1Dense
      rw [show (cold s).base = s.base from rfl]
      simp only [hu]
    · simp [hm, show (cold s).base = s.base from rfl]
      unfold stepExp2Dense
      rw [show (cold s).base = s.base from rfl]
      simp only [hu]
    · simp [hm, show (cold s).base = s.base from rfl]
      unfold stepExp3Dense
      rw [show (cold s).base = s.base from rfl]
      simp only [hu]

/-- a dictionary filled by the update has every key asked for -/
theorem fill_has (K : Kernels n) (dt : ℝ) (L : Mat n) (cks : List (ℝ × List ℕ)) : ∀ (d d' : PhiDict n),
    fillPhiLs K dt L cks d = .ok d' →
      (∀ q, (∃ x, d q = some x) → ∃ x, d' q = some x) ∧ ∀ p ∈ cks, ∀ k ∈ p.2, ∃ x, d' (p.1, k) = some x := by
  have hin : ∀ (c : ℝ) (l : List (Mat n)) (ks : List ℕ) (d d' : PhiDict n),
      ks.foldlM (fun d k => do let x ← pyGet l k; pure (Function.update d (c, k) (some x))) d = .ok d' →
      (∀ q, (∃ x, d q = some x) → ∃ x, d' q = some x) ∧ ∀ k ∈ ks, ∃ x, d' (c, k) = some x := by
    intro c l ks
    induction ks with
    | nil => intro d d' h; cases h; exact ⟨fun q h => h, fun k hk => by cases hk⟩
    | cons k ks ih =>
      intro d d' h
      rw [List.foldlM_cons] at h
      obtain ⟨d1, h1, h⟩ := bind_ok h
      obtain ⟨x, _, h1⟩ := bind_ok h1
      cases h1
      obtain ⟨i1, i2⟩ := ih _ _ h
      refine ⟨fun q hq => i1 q ?_, fun k' hk' => ?_⟩
      · by_cases e : q = (c, k)
        · exact ⟨x, by rw [e, Function.update_self]⟩
        · rw [Function.update_of_ne e]; exact hq
      · rcases List.mem_cons.1 hk' with rfl | hk'
        · exact i1 _ ⟨x, by rw [Function.update_self]⟩
        · exact i2 k' hk'
  induction cks with
  | nil => intro d d' h; cases h; exact ⟨fun q h => h, fun k hk => by cases hk⟩
  | cons p rest ih =>
    obtain ⟨c, ks⟩ := p
    intro d d' h
    unfold fillPhiLs at h
    obtain ⟨l, _, h⟩ := bind_ok h
    obtain ⟨d1, h1, h⟩ := bind_ok h
    obtain ⟨i1, i2⟩ := ih _ _ h
    obtain ⟨j1, j2⟩ := hin c l ks d d1 h1
    refine ⟨fun q hq => i1 q (j1 q hq), fun p hp k hk => ?_⟩
    rcases List.mem_cons.1 hp with rfl | hp
    · exact i1 _ (j2 k hk)
    · exact i2 p hp k hk

theorem dictGet_has {d : PhiDict n} {q : ℝ × ℕ} (h : ∃ x, d q = some x) : ∃ x, dictGet d q = .ok x := by
  obtain ⟨x, hx⟩ := h
  exact ⟨x, by unfold dictGet; rw [hx]⟩

/-- a dense step with an empty cache fails only if the history is empty -/
theorem dense_step_total (K : Kernels n) (hK : PhiTotal K) (sys : OdeSys n P) (hD : ∀ t y, ∃ L, (sys.fl t y).dense = .ok L)
    (s : ExpSplit n) (hm : isDense s.base.method) (hc : s.cachedDt = none) (y : Vec n) (hy : s.base.yHist.get 0 = .ok y)
    (dt : ℝ) (kw : Option P) : ∃ p, ExpSplit.step K sys s dt kw = .ok p := by
  have hmiss : ¬ cacheHit s.cachedDt dt := by rw [hc]; exact id
  have hu : ∀ cks, (∀ p ∈ cks, listMax p.2 ≤ 3) → ∃ d, updateDensePhiLs K sys s dt cks
        = .ok { s with cachedSysLop := some (sys.fl s.base.t y), cachedPhiLs := some d, cachedDt := some dt } ∧
      ∀ p ∈ cks, ∀ k ∈ p.2, ∃ x, dictGet d (p.1, k) = .ok x := by
    intro cks hcks
    cases h : updateDensePhiLs K sys s dt cks with
    | error e =>
      obtain ⟨e', he⟩ := (update_fails K hK sys s dt cks hcks e h).2 y hy
      obtain ⟨L, hL⟩ := hD s.base.t y
      rw [hL] at he
      cases he
    | ok s' =>
      unfold updateDensePhiLs at h
      rw [if_neg hmiss] at h
      obtain ⟨y', hy', h⟩ := bind_ok h
      rw [hy] at hy'
      cases hy'
      obtain ⟨L, hd, h⟩ := bind_ok h
      obtain ⟨d, hf, h⟩ := bind_ok h
      cases h
      exact ⟨d, rfl, fun p hp k hk => dictGet_has ((fill_has K dt L cks _ d hf).2 p hp k hk)⟩
  unfold ExpSplit.step
  rcases hm with hm | hm | hm
  · obtain ⟨d, h1, h2⟩ := hu [(1, [1])] (by simp [listMax])
    obtain ⟨a, ha⟩ := h2 (1, [1]) (by simp) 1 (by simp)
    simp only at ha
    simp [hm]
    unfold stepExp1Dense
    simp [hy, h1, optGet, ha, bind, Except.bind, pure, Except.pure]
  · obtain ⟨d, h1, h2⟩ := hu [((2 : ℝ) / 3, [1]), (1, [1, 2])] (by simp [listMax])
    obtain ⟨a, ha⟩ := h2 ((2 : ℝ) / 3, [1]) (by simp) 1 (by simp)
    obtain ⟨b, hb⟩ := h2 (1, [1, 2]) (by simp) 1 (by simp)
    obtain ⟨c, hc⟩ := h2 (1, [1, 2]) (by simp) 2 (by simp)
    simp only at ha hb hc
    simp [hm]
    unfold stepExp2Dense
    simp [hy, h1, optGet, ha, hb, hc, bind, Except.bind, pure, Except.pure]
  · obtain ⟨d, h1, h2⟩ := hu [((2 : ℝ) / 3, [1]), ((2 : ℝ) / 3, [1, 2]), (1, [1, 2])] (by simp [listMax])
    obtain ⟨a, ha⟩ := h2 ((2 : ℝ) / 3, [1, 2]) (by simp) 1 (by simp)
    obtain ⟨a', ha'⟩ := h2 ((2 : ℝ) / 3, [1, 2]) (by simp) 2 (by simp)
    obtain ⟨b, hb⟩ := h2 (1, [1, 2]) (by simp) 1 (by simp)
    obtain ⟨c, hc⟩ := h2 (1, [1, 2]) (by simp) 2 (by simp)
    simp only at ha ha' hb hc
    simp [hm]
    unfold stepExp3Dense
    simp [hy, h1, optGet, ha, ha', hb, hc, bind, Except.bind, pure, Except.pure]

theorem recorded_after (K : Kernels n) (hK : PhiTotal K) (sys : OdeSys n P) (hD : ∀ t y, ∃ L, (sys.fl t y).dense = .ok L)
    (s : ExpSplit n) (hm : isDense s.base.method)
    (f : Option (ℝ × ℝ × Vec n)) (hf : Recorded K sys s f) (c : Call P (Vec n)) :
    isDense ((splitMachine K sys).after s c).base.method ∧
      Recorded K sys ((splitMachine K sys).after s c) (recordAfter (splitMachine K sys) s f c) := by
  cases c with
  | step dt kw =>
    cases h : ExpSplit.step K sys s dt kw with
    | error e =>
      have hM : (splitMachine K sys).step s dt kw = .error e := h
      have hs : (s.stepWrites K sys dt).getLastD s = s := by
        cases hy : s.base.yHist.get 0 with
        | ok y =>
          obtain ⟨p, hp⟩ := dense_step_total K hK (freezeOp sys (operatorFor sys f dt s.base.t y))
            (fun _ _ => by
              show ∃ L, (operatorFor sys f dt s.base.t y).dense = .ok L
              unfold operatorFor
              split
              · split_ifs
                · exact hD _ _
                · exact hD _ _
              · exact hD _ _) (cold s) hm rfl y hy dt kw
          rw [← step_recorded K sys s hm f hf y hy dt kw, h] at hp
          cases hp
        | error e' =>
          unfold ExpSplit.stepWrites
          dsimp only
          rw [if_pos (show s.base.method = _ ∨ _ from hm)]
          unfold updateWrites
          split
          · rfl
          · rw [hy]
            rfl
      have hM' : (splitMachine K sys).writes s (.step dt kw) = s.stepWrites K sys dt := rfl
      simp only [Machine.after, recordAfter, hM, hM', hs]
      exact ⟨hm, hf⟩
    | ok p =>
      obtain ⟨r, s'⟩ := p
      obtain ⟨hdt, y, hy⟩ := dense_step_cachedDt K sys s s' dt kw r hm h
      have hb := split_step_base K sys s s' dt kw r h
      have hM : (splitMachine K sys).step s dt kw = .ok (r, s') := h
      have hy' : ((splitMachine K sys).base s).yHist.get 0 = .ok y := hy
      simp only [Machine.after, recordAfter, hM, hy']
      refine ⟨by rw [hb]; exact hm, ?_⟩
      have h2 := step_recorded K sys s hm f hf y hy dt kw
      rw [h] at h2
      have hco : Coherent K (operatorFor sys f dt s.base.t y) s' :=
        dense_step_coherent K (freezeOp sys _) _ (fun _ _ => rfl) (cold s) s' coherent_of_miss dt kw r h2.symm
      obtain ⟨_, _, hiff⟩ := recorded_coherent hf dt y hy
      split_ifs with hc
      · match f, hc with
        | some (d, t', y'), hc =>
          have hd : d = dt := by simpa using hc.1
          refine ⟨by rw [hdt, hd], ?_⟩
          rwa [show operatorFor sys (some (d, t', y')) dt s.base.t y = sys.fl t' y' from if_pos ⟨hd, hc.2⟩] at hco
      · refine ⟨hdt, ?_⟩
        have e : operatorFor sys f dt s.base.t y = sys.fl s.base.t y := by
          match f, hc with
          | none, _ => rfl
          | some (d, t', y'), hc =>
            refine if_neg fun hd => hc ⟨by simp [hd.1], hd.2⟩
        rwa [e] at hco
  | accept r =>
    refine ⟨hm, ?_⟩
    match f, hf with
    | none, h => exact h
    | some (d, t, y), h => exact h
  | reset t0 y0 => exact ⟨hm, rfl⟩

theorem run_recorded (K : Kernels n) (hK : PhiTotal K) (sys : OdeSys n P)
    (hD : ∀ t y, ∃ L, (sys.fl t y).dense = .ok L) (cs : List (Call P (Vec n))) : ∀ (s : ExpSplit n)
    (_ : isDense s.base.method) (f : Option (ℝ × ℝ × Vec n)) (_ : Recorded K sys s f),
    isDense ((splitMachine K sys).run s cs).base.method ∧
      Recorded K sys ((splitMachine K sys).run s cs) (recordRun (splitMachine K sys) s f cs) := by
  induction cs with
  | nil => intro s hm f hf; exact ⟨hm, hf⟩
  | cons c cs ih =>
    intro s hm f hf
    obtain ⟨h1, h2⟩ := recorded_after K hK sys hD s hm f hf c
    exact ih _ h1 _ h2

/-- **C41.**  For every system, also with a state-dependent splitting operator, every dense method and every history of
steps, accepts and resets: a step of size `dt` gives exactly the result of a fresh object's computation (empty cache) for the
system whose splitting operator is frozen at the place recorded for `dt`: where the step size last changed, or the current
time and newest state if `dt` differs from the recorded size.  (The phi routine returns its matrices, as the real one does
(`realKernels_total`), and `dense()` of the splitting operator returns a matrix; what happens when it raises is C114.) -/
theorem C41_history (K : Kernels n) (hK : PhiTotal K) (sys : OdeSys n P)
    (hD : ∀ t y, ∃ L, (sys.fl t y).dense = .ok L) (t0 : ℝ) (y0 : Vec n) (m : String) (hm : isDense m)
    (s0 : ExpSplit n) (h0 : ExpSplit.new t0 y0 m = .ok s0) (past : List (Call P (Vec n))) (dt : ℝ) (kw : Option P) (y : Vec n)
    (hy : ((splitMachine K sys).run s0 past).base.yHist.get 0 = .ok y) :
    let s := (splitMachine K sys).run s0 past
    let lop := operatorFor sys (recordRun (splitMachine K sys) s0 none past) dt s.base.t y
    ExpSplit.step K sys s dt kw = ExpSplit.step K (freezeOp sys lop) { s with cachedDt := none } dt kw := by
  intro s lop
  have hb : s0.base.method = m ∧ s0.cachedDt = none := by
    unfold ExpSplit.new at h0
    split at h0
    · cases h0
    · obtain ⟨b, hb, h0⟩ := bind_ok h0
      cases h0
      refine ⟨?_, rfl⟩
      unfold Base.init at hb
      split_ifs at hb
      cases hb
      rfl
  obtain ⟨h1, h2⟩ := run_recorded K hK sys hD past s0 (by rw [hb.1]; exact hm) none hb.2
  exact step_recorded K sys s h1 _ h2 y hy dt kw

/-- Non-vacuity: an object exists and its history is not empty. -/
example (y0 : Vec n) : ∃ s0 : ExpSplit n, ExpSplit.new 0 y0 "exp2_dense" = .ok s0 ∧ s0.base.yHist.get 0 = .ok y0 :=
  ⟨_, rfl, rfl⟩

/-- A successful first step of size `dt ≠ 0` fixes the operator: after it is accepted the next step of the same size still
uses the operator at the initial state. -/
example (K : Kernels n) (sys : OdeSys n P) (y0 : Vec n) (s0 : ExpSplit n) (h0 : ExpSplit.new 0 y0 "exp2_dense" = .ok s0)
    (dt : ℝ) (hdt : dt ≠ 0) (p : StepResult (Vec n) × ExpSplit n) (h : ExpSplit.step K sys s0 dt none = .ok p) (t : ℝ)
    (y : Vec n) :
    operatorFor sys (recordRun (splitMachine K sys) s0 none [.step dt none, .accept p.1]) dt t y = sys.fl 0 y0 := by
  have hM : (splitMachine K sys).step s0 dt none = .ok p := h
  have ht : ((splitMachine K sys).base s0).t = 0 := by cases h0; rfl
  have hy : ((splitMachine K sys).base s0).yHist.get 0 = .ok y0 := by cases h0; rfl
  simp only [recordRun, recordAfter, hM, hy, ht]
  simp [operatorFor, hdt]

end
end Ormatex.Props
