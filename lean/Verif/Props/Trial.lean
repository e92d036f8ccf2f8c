import Verif.Props.Reset
import Verif.Props.History
import Verif.Spec.Phi
import Mathlib.Analysis.Complex.ExponentialBounds

/-!
C03 (trial steps), C40 (epi3 start-up), C41 (dense phi cache).
-/

namespace Ormatex.Props
open Ormatex Matrix
open scoped Classical

variable {n : ℕ} {P : Type} [EmptyCollection P]
set_option linter.unusedSectionVars false

/-- a list of trial steps, as calls -/
def trialCalls (l : List (ℝ × Option P)) : List (Call P (Vec n)) := l.map fun p => Call.step p.1 p.2

/-- **C03 (Rosenbrock).** Any list of trial steps, in any order and whether or not they raise, leaves the whole object
unchanged; so every trial returns what it would return as the first one. -/
theorem C03_trial_pure_rb (hasRust : Bool) (K : Kernels n) (sys : OdeSys n P) (s : ExpRB n)
    (trials : List (ℝ × Option P)) (dt : ℝ) (kw : Option P) :
    let M := rbMachine hasRust K sys
    M.run s (trialCalls trials) = s ∧
      (M.step (M.run s (trialCalls trials)) dt kw).map Prod.fst = (M.step s dt kw).map Prod.fst := by
  intro M
  have key : M.run s (trialCalls trials) = s := by
    induction trials with
    | nil => rfl
    | cons p l ih =>
      have h1 : M.after s (.step p.1 p.2) = s := by
        simp only [Machine.after]
        split
        · rename_i r s' h; exact (keep_ok h).1
        · rfl
      show M.run (M.after s (.step p.1 p.2)) (trialCalls l) = s
      rw [h1, ih]
  exact ⟨key, by rw [key]⟩

/-- **C03 (RK).** -/
theorem C03_trial_pure_rk (sys : OdeSys n P) (s : Base (Vec n)) (trials : List (ℝ × Option P)) (dt : ℝ)
    (kw : Option P) :
    let M := rkMachine sys
    M.run s (trialCalls trials) = s ∧
      (M.step (M.run s (trialCalls trials)) dt kw).map Prod.fst = (M.step s dt kw).map Prod.fst := by
  intro M
  have key : M.run s (trialCalls trials) = s := by
    induction trials with
    | nil => rfl
    | cons p l ih =>
      have h1 : M.after s (.step p.1 p.2) = s := by
        simp only [Machine.after]
        split
        · rename_i r s' h; exact (keep_ok h).1
        · rfl
      show M.run (M.after s (.step p.1 p.2)) (trialCalls l) = s
      rw [h1, ih]
  exact ⟨key, by rw [key]⟩

/-- Time and history are untouched by trial steps of the splitting integrators (all six methods, any `L`). -/
theorem C03_trial_history_split (K : Kernels n) (sys : OdeSys n P) (s : ExpSplit n)
    (trials : List (ℝ × Option P)) :
    ((splitMachine K sys).run s (trialCalls trials)).base = s.base := by
  induction trials generalizing s with
  | nil => rfl
  | cons p l ih =>
    refine (ih ((splitMachine K sys).after s (.step p.1 p.2))).trans ?_
    simp only [Machine.after]
    split
    · rename_i r s' h; exact split_step_base K sys s s' p.1 p.2 r h
    · exact last_write (p := fun x => x.base = s.base) _ _ rfl fun x hx => split_writes_base K sys s p.1 x hx

/-! ### The dense phi cache -/

theorem le_listMax {ks : List ℕ} {k : ℕ} (h : k ∈ ks) : k ≤ listMax ks := by
  unfold listMax
  have : ∀ (ks : List ℕ) (m : ℕ), m ≤ ks.foldl max m ∧ ∀ k ∈ ks, k ≤ ks.foldl max m := by
    intro ks
    induction ks with
    | nil => intro m; exact ⟨le_refl _, fun k hk => by cases hk⟩
    | cons a ks ih =>
      intro m
      obtain ⟨h1, h2⟩ := ih (max m a)
      refine ⟨(le_max_left _ _).trans h1, fun k hk => ?_⟩
      rcases List.mem_cons.1 hk with rfl | hk
      · exact (le_max_right _ _).trans h1
      · exact h2 k hk
  exact (this ks 0).2 k h

/-- the phi routine of the dense methods returns its matrices for the orders it accepts (`k ≤ 3`, C25) -/
def PhiTotal (K : Kernels n) : Prop := ∀ A k, k ≤ 3 → ∃ l, K.phiSqAll A k = .ok l ∧ k < l.length

/-- no dense method asks for more than `φ₂` -/
theorem cksOf_le (m : String) : ∀ p ∈ cksOf m, listMax p.2 ≤ 3 := by
  intro p hp
  unfold cksOf at hp
  split_ifs at hp <;> simp at hp
  · subst hp; decide
  · rcases hp with rfl | rfl <;> simp [listMax]
  · rcases hp with rfl | rfl | rfl <;> simp [listMax]

/-- the inner loop and its writes -/
theorem insert_writes (c : ℝ) (l : List (Mat n)) (ks : List ℕ) : ∀ (d e : PhiDict n),
    match ks.foldlM (fun d k => do let x ← pyGet l k; pure (Function.update d (c, k) (some x))) d with
    | .ok d' => (insertWrites c l ks d).2 = true ∧ (insertWrites c l ks d).1.getLastD e = d'
    | .error _ => (insertWrites c l ks d).2 = false := by
  induction ks with
  | nil => intro d e; exact ⟨rfl, rfl⟩
  | cons k ks ih =>
    intro d e
    rw [List.foldlM_cons]
    cases hk : pyGet l k with
    | error err => simp only [bind, Except.bind, insertWrites, hk]
    | ok x =>
      have := ih (Function.update d (c, k) (some x)) d
      simp only [bind, Except.bind, pure, Except.pure, insertWrites, hk] at this ⊢
      generalize List.foldlM (m := Except PyErr) _ (Function.update d (c, k) (some x)) ks = z at this ⊢
      cases z with
      | error err => exact this
      | ok d' =>
        refine ⟨this.1, ?_⟩
        rw [← this.2]
        exact List.getLastD_cons

/-- the filling of the dictionary and its writes -/
theorem fill_writes (K : Kernels n) (dt : ℝ) (L : Mat n) (cks : List (ℝ × List ℕ)) : ∀ (d e : PhiDict n),
    match fillPhiLs K dt L cks d with
    | .ok d' => (fillWrites K dt L cks d).2 = true ∧ (fillWrites K dt L cks d).1.getLastD e = d'
    | .error _ => (fillWrites K dt L cks d).2 = false := by
  induction cks with
  | nil => intro d e; exact ⟨rfl, rfl⟩
  | cons p rest ih =>
    obtain ⟨c, ks⟩ := p
    intro d e
    unfold fillPhiLs fillWrites
    cases hp : K.phiSqAll ((dt * c) • L) (listMax ks) with
    | error err => rfl
    | ok l =>
      have hi := insert_writes c l ks d d
      show match (ks.foldlM (fun d k => do let x ← pyGet l k; pure (Function.update d (c, k) (some x))) d) >>=
          (fun d' => fillPhiLs K dt L rest d') with
        | .ok _ => _
        | .error _ => _
      cases hf : ks.foldlM (fun d k => do let x ← pyGet l k; pure (Function.update d (c, k) (some x))) d with
      | error err =>
        rw [hf] at hi
        have hi : (insertWrites c l ks d).2 = false := hi
        simp only [bind, Except.bind, hi]
        simp [hi]
      | ok d' =>
        rw [hf] at hi
        obtain ⟨h1, h2⟩ := hi
        have := ih d' ((insertWrites c l ks d).1.getLastD e)
        simp only [bind, Except.bind, h1, h2, if_true]
        cases hg : fillPhiLs K dt L rest d' with
        | error err => rw [hg] at this; exact this
        | ok d'' =>
          rw [hg] at this
          refine ⟨this.1, ?_⟩
          rw [← this.2]
          simp only [List.getLastD_eq_getLast?, List.getLast?_append]
          cases (fillWrites K dt L rest d').1.getLast? <;> simp

/-- a completed update of the cache ends in the last of its writes -/
theorem update_writes (K : Kernels n) (sys : OdeSys n P) (s s' : ExpSplit n) (dt : ℝ) (cks : List (ℝ × List ℕ))
    (h : updateDensePhiLs K sys s dt cks = .ok s') (e : ExpSplit n) : (updateWrites K sys s dt cks).getLastD e = s' := by
  unfold updateDensePhiLs at h
  unfold updateWrites
  split at h
  · rename_i hc
    cases h
    rw [if_pos hc]
    rfl
  · rename_i hc
    rw [if_neg hc]
    obtain ⟨y, hy, h⟩ := bind_ok h
    obtain ⟨L, hd, h⟩ := bind_ok h
    obtain ⟨d, hf, h⟩ := bind_ok h
    have hw := fill_writes K dt L cks (fun _ => none) (fun _ => none)
    rw [hf] at hw
    cases h
    rw [hy]
    dsimp only
    rw [hd]
    dsimp only
    rw [hw.1, hw.2, if_pos rfl, List.getLastD_concat]

/-- an update of the cache with a phi routine that returns fails only because `dense()` (or the history) raises -/
theorem update_fails (K : Kernels n) (hK : PhiTotal K) (sys : OdeSys n P) (s : ExpSplit n) (dt : ℝ) (cks : List (ℝ × List ℕ))
    (hcks : ∀ p ∈ cks, listMax p.2 ≤ 3) (e : PyErr) (h : updateDensePhiLs K sys s dt cks = .error e) :
    ¬ cacheHit s.cachedDt dt ∧ ∀ y, s.base.yHist.get 0 = .ok y → ∃ e', (sys.fl s.base.t y).dense = .error e' := by
  unfold updateDensePhiLs at h
  split at h
  · cases h
  · rename_i hc
    refine ⟨hc, fun y hy => ?_⟩
    rw [hy] at h
    cases hd : (sys.fl s.base.t y).dense with
    | error e' => exact ⟨e', rfl⟩
    | ok L =>
      exfalso
      simp only [bind, Except.bind, hd, pure, Except.pure] at h
      have hfill : ∀ (cks : List (ℝ × List ℕ)) (_ : ∀ p ∈ cks, listMax p.2 ≤ 3) (d : PhiDict n),
          ∃ d', fillPhiLs K dt L cks d = .ok d' := by
        intro cks hcks
        induction cks with
        | nil => intro d; exact ⟨d, rfl⟩
        | cons p rest ih =>
          obtain ⟨c, ks⟩ := p
          intro d
          obtain ⟨l, hl, hlen⟩ := hK ((dt * c) • L) (listMax ks) (hcks (c, ks) (by simp))
          unfold fillPhiLs
          have hks : ∀ k ∈ ks, k < l.length := fun k hk => lt_of_le_of_lt (le_listMax hk) hlen
          have hin : ∀ (ks : List ℕ) (d : PhiDict n), (∀ k ∈ ks, k < l.length) →
              ∃ d', ks.foldlM (fun d k => do let x ← pyGet l k; pure (Function.update d (c, k) (some x))) d = .ok d' := by
            intro ks
            induction ks with
            | nil => intro d _; exact ⟨d, rfl⟩
            | cons k ks ih =>
              intro d hk
              have hg : pyGet l k = .ok (l[k]'(hk k (by simp))) := by
                unfold pyGet
                rw [List.getElem?_eq_getElem (hk k (by simp))]
              rw [List.foldlM_cons, hg]
              exact ih _ fun k' hk' => hk k' (by simp [hk'])
          obtain ⟨d', hd'⟩ := hin ks d hks
          obtain ⟨d'', hd''⟩ := ih (fun p hp => hcks p (by simp [hp])) d'
          rw [hl]
          show ∃ d', (ks.foldlM _ d >>= fun d' => fillPhiLs K dt L rest d') = .ok d'
          rw [hd']
          exact ⟨d'', hd''⟩
      obtain ⟨d, hd⟩ := hfill cks hcks (fun _ => none)
      rw [hd] at h
      cases h

/-- The cache content belongs to the constant operator `lop` and to the recorded step size. -/
def Coherent (K : Kernels n) (lop : LinOp n) (s : ExpSplit n) : Prop :=
  ∀ c, s.cachedDt = some c → s.cachedSysLop = some lop ∧
    ∃ L d, lop.dense = .ok L ∧ fillPhiLs K c L (cksOf s.base.method) (fun _ => none) = .ok d ∧ s.cachedPhiLs = some d

/-- the same object with a cold cache -/
def cold (s : ExpSplit n) : ExpSplit n := { s with cachedDt := none }

theorem update_coherent (K : Kernels n) (sys : OdeSys n P) (lop : LinOp n) (hL : ∀ t y, sys.fl t y = lop)
    (s s' : ExpSplit n) (hs : Coherent K lop s) (dt : ℝ)
    (h : updateDensePhiLs K sys s dt (cksOf s.base.method) = .ok s') : Coherent K lop s' := by
  unfold updateDensePhiLs at h
  split at h
  · cases h; exact hs
  · obtain ⟨y, hy, h⟩ := bind_ok h
    obtain ⟨L, hd, h⟩ := bind_ok h
    obtain ⟨d, hf, h⟩ := bind_ok h
    cases h
    intro c hc
    cases hc
    rw [hL] at hd ⊢
    exact ⟨rfl, L, d, hd, hf, rfl⟩

theorem update_cold (K : Kernels n) (sys : OdeSys n P) (lop : LinOp n) (hL : ∀ t y, sys.fl t y = lop)
    (s : ExpSplit n) (hs : Coherent K lop s) (dt : ℝ) (y : Vec n) (hy : s.base.yHist.get 0 = .ok y) :
    updateDensePhiLs K sys s dt (cksOf s.base.method) = updateDensePhiLs K sys (cold s) dt (cksOf s.base.method) := by
  by_cases hit : cacheHit s.cachedDt dt
  · have hcold : ¬ cacheHit (cold s).cachedDt dt := id
    unfold updateDensePhiLs
    rw [if_pos hit, if_neg hcold]
    cases hc : s.cachedDt with
    | none => rw [hc] at hit; exact hit.elim
    | some c =>
      rw [hc] at hit
      obtain ⟨_, rfl⟩ := hit
      obtain ⟨h1, L, d, h2, h3, h4⟩ := hs c hc
      simp only [cold, hy, hL, h2, h3, bind, Except.bind, pure, Except.pure]
      rw [← h1, ← h4, ← hc]
  · unfold updateDensePhiLs
    have hcold : ¬ cacheHit (cold s).cachedDt dt := id
    rw [if_neg hit, if_neg hcold]
    rfl

/-- the three dense steps, uniformly -/
theorem dense_step_cold (K : Kernels n) (sys : OdeSys n P) (lop : LinOp n) (hL : ∀ t y, sys.fl t y = lop)
    (s : ExpSplit n) (hs : Coherent K lop s) (dt : ℝ) (kw : Option P)
    (hm : s.base.method = "exp1_dense" ∨ s.base.method = "exp2_dense" ∨ s.base.method = "exp3_dense") :
    ExpSplit.step K sys s dt kw = ExpSplit.step K sys (cold s) dt kw := by
  have hu := update_cold K sys lop hL s hs dt
  unfold ExpSplit.step
  rcases hm with hm | hm | hm
  · simp [show (cold s).base = s.base from rfl, hm]
    unfold stepExp1Dense
    rw [show (cold s).base = s.base from rfl]
    cases hy : s.base.yHist.get 0 with
    | error e => rfl
    | ok y =>
      have := hu y hy
      simp only [cksOf, hm] at this
      simp only [bind, Except.bind]
      simp only [if_true] at this
      rw [this]
  · simp [show (cold s).base = s.base from rfl, hm]
    unfold stepExp2Dense
    rw [show (cold s).base = s.base from rfl]
    cases hy : s.base.yHist.get 0 with
    | error e => rfl
    | ok y =>
      have := hu y hy
      simp only [cksOf, hm] at this
      simp only [bind, Except.bind]
      simp only [show ¬ ("exp2_dense" = "exp1_dense") by decide, if_true, if_false] at this
      rw [this]
  · simp [show (cold s).base = s.base from rfl, hm]
    unfold stepExp3Dense
    rw [show (cold s).base = s.base from rfl]
    cases hy : s.base.yHist.get 0 with
    | error e => rfl
    | ok y =>
      have := hu y hy
      simp only [cksOf, hm] at this
      simp only [bind, Except.bind]
      simp only [show ¬ ("exp3_dense" = "exp1_dense") by decide, show ¬ ("exp3_dense" = "exp2_dense") by decide,
        if_false] at this
      rw [this]

theorem dense_step_coherent (K : Kernels n) (sys : OdeSys n P) (lop : LinOp n) (hL : ∀ t y, sys.fl t y = lop)
    (s s' : ExpSplit n) (hs : Coherent K lop s) (dt : ℝ) (kw : Option P) (r : StepResult (Vec n))
    (h : ExpSplit.step K sys s dt kw = .ok (r, s')) : Coherent K lop s' := by
  have hu := update_coherent K sys lop hL s
  unfold ExpSplit.step at h
  simp only at h
  split at h
  · rw [(keep_ok h).1]; exact hs
  · split at h
    · rw [(keep_ok h).1]; exact hs
    · split at h
      · rw [(keep_ok h).1]; exact hs
      · split at h
        · rename_i hm
          unfold stepExp1Dense at h
          obtain ⟨_, _, h⟩ := bind_ok h
          obtain ⟨s1, hu1, h⟩ := bind_ok h
          obtain ⟨_, _, h⟩ := bind_ok h
          obtain ⟨_, _, h⟩ := bind_ok h
          cases h
          exact hu _ hs dt (by simpa [cksOf, hm] using hu1)
        · split at h
          · rename_i hm
            unfold stepExp2Dense at h
            obtain ⟨_, _, h⟩ := bind_ok h
            obtain ⟨s1, hu1, h⟩ := bind_ok h
            obtain ⟨_, _, h⟩ := bind_ok h
            obtain ⟨_, _, h⟩ := bind_ok h
            obtain ⟨_, _, h⟩ := bind_ok h
            obtain ⟨_, _, h⟩ := bind_ok h
            obtain ⟨_, _, h⟩ := bind_ok h
            cases h
            exact hu _ hs dt (by simpa [cksOf, hm] using hu1)
          · split at h
            · rename_i hm
              unfold stepExp3Dense at h
              obtain ⟨_, _, h⟩ := bind_ok h
              obtain ⟨s1, hu1, h⟩ := bind_ok h
              obtain ⟨_, _, h⟩ := bind_ok h
              obtain ⟨_, _, h⟩ := bind_ok h
              obtain ⟨_, _, h⟩ := bind_ok h
              obtain ⟨_, _, h⟩ := bind_ok h
              obtain ⟨_, _, h⟩ := bind_ok h
              obtain ⟨_, _, h⟩ := bind_ok h
              obtain ⟨_, _, h⟩ := bind_ok h
              cases h
              exact hu _ hs dt (by simpa [cksOf, hm] using hu1)
            · cases h

/-- a step that raises keeps the cache coherent -/
theorem failed_coherent (K : Kernels n) (hK : PhiTotal K) (sys : OdeSys n P) (lop : LinOp n) (hL : ∀ t y, sys.fl t y = lop)
    (s : ExpSplit n) (hs : Coherent K lop s) (dt : ℝ) : Coherent K lop ((s.stepWrites K sys dt).getLastD s) := by
  unfold ExpSplit.stepWrites
  dsimp only
  split
  · cases hu : updateDensePhiLs K sys s dt (cksOf s.base.method) with
    | ok s' =>
      rw [update_writes K sys s s' dt _ hu]
      exact update_coherent K sys lop hL s s' hs dt hu
    | error e =>
      obtain ⟨hc, hd⟩ := update_fails K hK sys s dt _ (cksOf_le _) e hu
      unfold updateWrites
      rw [if_neg hc]
      cases hy : s.base.yHist.get 0 with
      | error _ => exact hs
      | ok y =>
        obtain ⟨e', he'⟩ := hd y hy
        dsimp only
        rw [he']
        intro c hc'
        obtain ⟨_, L, _, h2, _⟩ := hs c hc'
        rw [hL, h2] at he'
        cases he'
  · exact hs

theorem run_coherent (K : Kernels n) (hK : PhiTotal K) (sys : OdeSys n P) (lop : LinOp n) (hL : ∀ t y, sys.fl t y = lop)
    (s : ExpSplit n) (hs : Coherent K lop s) (cs : List (Call P (Vec n))) :
    Coherent K lop ((splitMachine K sys).run s cs) := by
  induction cs generalizing s with
  | nil => exact hs
  | cons c cs ih =>
    refine ih _ ?_
    cases c with
    | step dt kw =>
      simp only [Machine.after]
      split
      · rename_i r s' h; exact dense_step_coherent K sys lop hL s s' hs dt kw r h
      · exact failed_coherent K hK sys lop hL s hs dt
    | accept r => exact hs
    | reset t0 y0 => intro c hc; cases hc

theorem new_coherent (K : Kernels n) (lop : LinOp n) {t0 : ℝ} {y0 : Vec n} {m : String} {s : ExpSplit n}
    (h : ExpSplit.new t0 y0 m = .ok s) : Coherent K lop s := by
  unfold ExpSplit.new at h
  split at h
  · cases h
  · obtain ⟨b, _, h⟩ := bind_ok h
    cases h
    intro c hc
    cases hc

/-- **C41 (constant operator).** If the splitting operator is constant (and the phi routine does not raise), the phi cache is transparent: after every history
of steps (with any step sizes), accepts and resets, a step of any of the methods gives the same result, and leaves
the same object, as a step with an empty cache, i.e. with the phi functions of `dt*c*L` computed for the current `dt`. -/
theorem C41_cache_transparent (K : Kernels n) (hK : PhiTotal K) (sys : OdeSys n P) (lop : LinOp n) (hL : ∀ t y, sys.fl t y = lop)
    (t0 : ℝ) (y0 : Vec n) (m : String) (s0 : ExpSplit n) (h0 : ExpSplit.new t0 y0 m = .ok s0)
    (past : List (Call P (Vec n))) (dt : ℝ) (kw : Option P) :
    let s := (splitMachine K sys).run s0 past
    (ExpSplit.step K sys s dt kw).map Prod.fst = (ExpSplit.step K sys { s with cachedDt := none } dt kw).map Prod.fst := by
  intro s
  have hs : Coherent K lop s := run_coherent K hK sys lop hL s0 (new_coherent K lop h0) past
  by_cases hm : s.base.method = "exp1_dense" ∨ s.base.method = "exp2_dense" ∨ s.base.method = "exp3_dense"
  · rw [dense_step_cold K sys lop hL s hs dt kw hm]; rfl
  · push Not at hm
    obtain ⟨m1, m2, m3⟩ := hm
    unfold ExpSplit.step
    have keepE : ∀ {r r' : Py (StepResult (Vec n))} (a b : ExpSplit n), r = r' →
        (keep a r).map Prod.fst = (keep b r').map Prod.fst := by
      intro r r' a b hr
      subst hr
      cases r <;> rfl
    simp only [m1, m2, m3, if_false]
    split
    · exact keepE _ _ rfl
    · split
      · exact keepE _ _ rfl
      · split
        · exact keepE _ _ rfl
        · rfl

/-- **C03 (splitting methods, constant operator).** After any history, any list of trial steps leaves time and history
alone and the next step returns the result it would have returned without the trials. -/
theorem C03_trial_pure_split (K : Kernels n) (hK : PhiTotal K) (sys : OdeSys n P) (lop : LinOp n) (hL : ∀ t y, sys.fl t y = lop)
    (t0 : ℝ) (y0 : Vec n) (m : String) (s0 : ExpSplit n) (h0 : ExpSplit.new t0 y0 m = .ok s0)
    (past : List (Call P (Vec n))) (trials : List (ℝ × Option P)) (dt : ℝ) (kw : Option P) :
    let M := splitMachine K sys
    let s := M.run s0 past
    M.base (M.run s (trialCalls trials)) = M.base s ∧
      (M.step (M.run s (trialCalls trials)) dt kw).map Prod.fst = (M.step s dt kw).map Prod.fst := by
  intro M s
  have hb : (M.run s (trialCalls trials)).base = s.base := C03_trial_history_split K sys s trials
  refine ⟨hb, ?_⟩
  have hrun : M.run s (trialCalls trials) = M.run s0 (past ++ trialCalls trials) := by
    simp only [s, Machine.run, List.foldl_append]
  have h1 := C41_cache_transparent K hK sys lop hL t0 y0 m s0 h0 (past ++ trialCalls trials) dt kw
  have h2 := C41_cache_transparent K hK sys lop hL t0 y0 m s0 h0 past dt kw
  simp only at h1 h2
  have hrun' : (splitMachine K sys).run s0 (past ++ trialCalls trials) = M.run s (trialCalls trials) := hrun.symm
  rw [hrun'] at h1
  show (ExpSplit.step K sys _ dt kw).map Prod.fst = (ExpSplit.step K sys _ dt kw).map Prod.fst
  rw [h1, h2]
  have hE : CacheEquiv ({ M.run s (trialCalls trials) with cachedDt := none } : ExpSplit n)
      ({ s with cachedDt := none } : ExpSplit n) :=
    ⟨hb, rfl, fun hn => (hn rfl).elim, fun hn => (hn rfl).elim⟩
  have := split_step_equiv K sys hE dt kw
  cases hx : ExpSplit.step K sys { M.run s (trialCalls trials) with cachedDt := none } dt kw with
  | error e =>
    cases hx' : ExpSplit.step K sys { s with cachedDt := none } dt kw with
    | error e' => rw [hx, hx'] at this; cases (this : e = e'); rfl
    | ok p => rw [hx, hx'] at this; exact this.elim
  | ok p =>
    cases hx' : ExpSplit.step K sys { s with cachedDt := none } dt kw with
    | error e' => rw [hx, hx'] at this; exact this.elim
    | ok p' =>
      rw [hx, hx'] at this
      obtain ⟨q, _⟩ : p.1 = p'.1 ∧ CacheEquiv p.2 p'.2 := this
      simp only [Except.map, q]

/-- The non-dense methods are pure for every (also state dependent) operator. -/
theorem C03_trial_pure_split_matrix_free (K : Kernels n) (sys : OdeSys n P) (s : ExpSplit n)
    (hm : s.base.method = "exp1" ∨ s.base.method = "exp2" ∨ s.base.method = "exp3")
    (trials : List (ℝ × Option P)) :
    (splitMachine K sys).run s (trialCalls trials) = s := by
  induction trials with
  | nil => rfl
  | cons p l ih =>
    have h1 : (splitMachine K sys).after s (.step p.1 p.2) = s := by
      simp only [Machine.after]
      split
      · rename_i r s' h
        have h : ExpSplit.step K sys s p.1 p.2 = .ok (r, s') := h
        unfold ExpSplit.step at h
        rcases hm with hm | hm | hm <;> simp [hm] at h <;> exact (keep_ok h).1
      · show (s.stepWrites K sys p.1).getLastD s = s
        unfold ExpSplit.stepWrites
        dsimp only
        rw [if_neg (by rcases hm with hm | hm | hm <;> simp [hm])]
        rfl
    show (splitMachine K sys).run ((splitMachine K sys).after s (.step p.1 p.2)) (trialCalls l) = s
    rw [h1, ih]

/-- **C41 (state-dependent operator).** Once a step with size `dt ≠ 0` has filled the cache, every further step with the
same `dt` keeps using the operator evaluated at that fill, however many steps are accepted in between. -/
theorem C41_stale_operator (K : Kernels n) (sys : OdeSys n P) (s : ExpSplit n) (dt : ℝ) (hdt : dt ≠ 0)
    (hfill : s.cachedDt = some dt) (cs : List (Call P (Vec n)))
    (hcs : ∀ c ∈ cs, (∃ r, c = .accept r) ∨ (∃ kw, c = .step dt kw)) :
    let s' := (splitMachine K sys).run s cs
    s'.cachedDt = some dt ∧ s'.cachedSysLop = s.cachedSysLop ∧ s'.cachedPhiLs = s.cachedPhiLs := by
  induction cs generalizing s with
  | nil => exact ⟨hfill, rfl, rfl⟩
  | cons c cs ih =>
    have hstep : let s1 := (splitMachine K sys).after s c
        s1.cachedDt = some dt ∧ s1.cachedSysLop = s.cachedSysLop ∧ s1.cachedPhiLs = s.cachedPhiLs := by
      rcases hcs c (by simp) with ⟨r, rfl⟩ | ⟨kw, rfl⟩
      · exact ⟨hfill, rfl, rfl⟩
      · have hhit : cacheHit s.cachedDt dt := by rw [hfill]; exact ⟨hdt, rfl⟩
        have hup : ∀ cks, updateDensePhiLs K sys s dt cks = .ok s := fun cks => by
          unfold updateDensePhiLs; rw [if_pos hhit]
        simp only [Machine.after]
        split
        · rename_i r s' h
          have h : ExpSplit.step K sys s dt kw = .ok (r, s') := h
          have : s' = s := by
            unfold ExpSplit.step at h
            simp only at h
            split at h
            · exact (keep_ok h).1
            · split at h
              · exact (keep_ok h).1
              · split at h
                · exact (keep_ok h).1
                · split at h
                  · unfold stepExp1Dense at h
                    simp only [hup] at h
                    obtain ⟨_, _, h⟩ := bind_ok h
                    obtain ⟨s1, hu1, h⟩ := bind_ok h
                    obtain ⟨_, _, h⟩ := bind_ok h
                    obtain ⟨_, _, h⟩ := bind_ok h
                    cases hu1; cases h; rfl
                  · split at h
                    · unfold stepExp2Dense at h
                      simp only [hup] at h
                      obtain ⟨_, _, h⟩ := bind_ok h
                      obtain ⟨s1, hu1, h⟩ := bind_ok h
                      obtain ⟨_, _, h⟩ := bind_ok h
                      obtain ⟨_, _, h⟩ := bind_ok h
                      obtain ⟨_, _, h⟩ := bind_ok h
                      obtain ⟨_, _, h⟩ := bind_ok h
                      obtain ⟨_, _, h⟩ := bind_ok h
                      cases hu1; cases h; rfl
                    · split at h
                      · unfold stepExp3Dense at h
                        simp only [hup] at h
                        obtain ⟨_, _, h⟩ := bind_ok h
                        obtain ⟨s1, hu1, h⟩ := bind_ok h
                        obtain ⟨_, _, h⟩ := bind_ok h
                        obtain ⟨_, _, h⟩ := bind_ok h
                        obtain ⟨_, _, h⟩ := bind_ok h
                        obtain ⟨_, _, h⟩ := bind_ok h
                        obtain ⟨_, _, h⟩ := bind_ok h
                        obtain ⟨_, _, h⟩ := bind_ok h
                        obtain ⟨_, _, h⟩ := bind_ok h
                        cases hu1; cases h; rfl
                      · cases h
          rw [this]
          exact ⟨hfill, rfl, rfl⟩
        · have : (s.stepWrites K sys dt).getLastD s = s := by
            unfold ExpSplit.stepWrites updateWrites
            dsimp only
            rw [if_pos hhit]
            split <;> rfl
          show (ExpSplit.cachedDt ((s.stepWrites K sys dt).getLastD s)) = _ ∧ (ExpSplit.cachedSysLop ((s.stepWrites K sys dt).getLastD s)) = _ ∧
            (ExpSplit.cachedPhiLs ((s.stepWrites K sys dt).getLastD s)) = _
          rw [this]
          exact ⟨hfill, rfl, rfl⟩
    obtain ⟨h1, h2, h3⟩ := hstep
    obtain ⟨g1, g2, g3⟩ := ih ((splitMachine K sys).after s c) h1 (fun c hc => hcs c (by simp [hc]))
    exact ⟨g1, g2.trans h2, g3.trans h3⟩

/-! ### C40 -/

/-- **C40.** `epi3` takes an `exprb3` step exactly while fewer than two states are stored, and otherwise the `epi3`
formula, which reads the two newest states and the previous time. -/
theorem C40_epi3_startup (hasRust : Bool) (K : Kernels n) (sys : OdeSys n P) (s : ExpRB n)
    (hm : s.base.method = "epi3") (dt : ℝ) (kw : Option P) :
    (s.base.yHist.len < 2 → ExpRB.step hasRust K sys s dt kw = stepExprb3 K sys s dt (kw.getD ∅)) ∧
    (2 ≤ s.base.yHist.len → ExpRB.step hasRust K sys s dt kw = stepEpi3 K sys s dt (kw.getD ∅)) := by
  unfold ExpRB.step
  simp only [hm]
  constructor
  · intro h
    simp [h]
  · intro h
    simp [h]

/-- the accepts and resets among the calls of a client -/
def opsOf {P Y : Type} : List (Call P Y) → List (Op Y)
  | [] => []
  | .step _ _ :: cs => opsOf cs
  | .accept r :: cs => .accept r :: opsOf cs
  | .reset t0 y0 :: cs => .reset t0 y0 :: opsOf cs

theorem rb_run_base (hasRust : Bool) (K : Kernels n) (sys : OdeSys n P) (s : ExpRB n) (cs : List (Call P (Vec n))) :
    ((rbMachine hasRust K sys).run s cs).base = s.base.run (opsOf cs) := by
  induction cs generalizing s with
  | nil => rfl
  | cons c cs ih =>
    refine (ih ((rbMachine hasRust K sys).after s c)).trans ?_
    cases c with
    | step dt kw =>
      have : (rbMachine hasRust K sys).after s (.step dt kw) = s := by
        simp only [Machine.after]
        split
        · rename_i r s' h; exact (keep_ok h).1
        · rfl
      rw [this]; rfl
    | accept r => rfl
    | reset t0 y0 => rfl

theorem rb_new_ok {hasRust : Bool} {t0 : ℝ} {y0 : Vec n} {m : String} {tol : ℝ} {s : ExpRB n}
    (h : ExpRB.new hasRust t0 y0 m tol = .ok s) :
    ∃ p, ExpRB.validMethods.lookup m = some p ∧ Base.init t0 y0 p m = .ok s.base ∧ s.tolFdt = tol := by
  unfold ExpRB.new at h
  split at h
  · cases h
  · rename_i p hp
    split at h
    · cases h
    · obtain ⟨b, hb, h⟩ := bind_ok h
      cases h
      exact ⟨p, hp, hb, rfl⟩

theorem base_run_method {Y : Type} (b : Base Y) (ops : List (Op Y)) : (b.run ops).method = b.method := by
  induction ops generalizing b with
  | nil => rfl
  | cons o ops ih => cases o <;> exact ih _

/-- **C40.** For an `epi3` integrator and any history of trial steps, accepts and resets: as long as nothing has been
accepted since construction or the last reset a step is an `exprb3` step; afterwards it is the two-step formula
`y + kiops(J, dt, [0, dt F, (2/3) dt R + dt² F_t])` with the remainder
`R = F(t', y') - F(t, y) - J (y' - y) - (t' - t) F_t` at the previously accepted `(t', y')`, where `(t, y)` and
`(t', y')` are the two newest entries of the log of accepted pairs. -/
theorem C40_epi3_history (hasRust : Bool) (K : Kernels n) (sys : OdeSys n P) (t0 : ℝ) (y0 : Vec n) (tol : ℝ)
    (s0 : ExpRB n) (h0 : ExpRB.new hasRust t0 y0 "epi3" tol = .ok s0) (past : List (Call P (Vec n))) (dt : ℝ)
    (kw : Option P) :
    let s := (rbMachine hasRust K sys).run s0 past
    (acceptsSinceReset (opsOf past) = 0 →
      ExpRB.step hasRust K sys s dt kw = stepExprb3 K sys s dt (kw.getD ∅)) ∧
    (acceptsSinceReset (opsOf past) ≠ 0 →
      ∃ t y t' y' rest, acceptedLog (t0, y0) (opsOf past) = (t, y) :: (t', y') :: rest ∧
        ExpRB.step hasRust K sys s dt kw = (do
          let J := sys.fjac (some (kw.getD ∅)) t y
          let R := sys.frhs none t' y' - J.frhsCached - J.matvec (y' - y) - (t' - t) • J.fdt
          let u ← K.kiops J.toLinOp dt [0, dt • J.frhsCached, (dt * (2 / 3)) • R + dt ^ 2 • J.fdt]
          pure { t := t + dt, dt := dt, y := y + u, err := -1 })) := by
  intro s
  obtain ⟨p, hp, hb, htol⟩ := rb_new_ok h0
  have hp3 : p = 3 := by
    have : ExpRB.validMethods.lookup "epi3" = some 3 := rfl
    rw [this] at hp; cases hp; rfl
  subst hp3
  obtain ⟨b, hb', hT, hY, hlT, hlY, hnow⟩ := C01_history_window 3 (by norm_num) t0 y0 "epi3" (opsOf past)
  rw [hb] at hb'
  cases hb'
  have hbase : s.base = s0.base.run (opsOf past) := rb_run_base hasRust K sys s0 past
  rw [← hbase] at hT hY hlT hlY hnow
  have hm : s.base.method = "epi3" := by
    rw [hbase, base_run_method]
    unfold Base.init at hb
    simp only [show 0 < 3 by norm_num, if_true] at hb
    cases hb' : s0.base with
    | mk a b c d e => rw [hb'] at hb; cases hb; rfl
  have hst := C40_epi3_startup hasRust K sys s hm dt kw
  constructor
  · intro hz
    exact hst.1 (by rw [hlY, hz]; norm_num)
  · intro hz
    have hge : 2 ≤ s.base.yHist.len := by rw [hlY]; omega
    have hlog := acceptedLog_length (t0, y0) (opsOf past)
    match hl : acceptedLog (t0, y0) (opsOf past) with
    | [] => rw [hl] at hlog; simp at hlog; omega
    | [_] => rw [hl] at hlog; simp at hlog; omega
    | (t, y) :: (t', y') :: rest =>
      refine ⟨t, y, t', y', rest, rfl, ?_⟩
      rw [hst.2 hge]
      rw [hl] at hT hY hnow
      have hy0 : s.base.yHist.get 0 = .ok y := by unfold Deque.get; rw [hY]; rfl
      have hy1 : s.base.yHist.get 1 = .ok y' := by unfold Deque.get; rw [hY]; rfl
      have ht0 : s.base.tHist.get 0 = .ok t := by unfold Deque.get; rw [hT]; rfl
      have ht1 : s.base.tHist.get 1 = .ok t' := by unfold Deque.get; rw [hT]; rfl
      have ht : s.base.t = t := by
        have : some s.base.t = some t := hnow
        cases this; rfl
      unfold stepEpi3 remf
      simp only [hy0, hy1, ht0, ht1, ht, bind, Except.bind, pure, Except.pure, LinOp.call]

/-- Non-vacuity of C40: after one accept the log has the two entries used. -/
example (y0 y1 : Vec 2) : acceptedLog ((0 : ℝ), y0) (opsOf (P := List ℕ) [.step 1 none, .accept ⟨1, 1, y1, -1⟩, .step 1 none])
    = [(1, y1), (0, y0)] := rfl

/-! ### C03 fails for the dense splitting methods with a state-dependent operator -/

/-- Kernels with exact dense phi functions (the other entries are irrelevant here). -/
noncomputable def exactDense (n : ℕ) : Kernels n where
  phiLinop _ _ _ _ := .error .runtime
  kiops _ _ _ := .error .runtime
  phiSqAll z k := .ok ((List.range (k + 1)).map fun j => Spec.phiM j z)
  phiPfd _ _ _ := .error .runtime
  phikvRs _ _ v _ := v

/-- the one-dimensional system `y' = 1` with the (legal, state-dependent) splitting operator `L(y) = y` -/
noncomputable def stateDepSys : OdeSys 1 (List ℕ) where
  frhs _ _ _ := fun _ => 1
  fjac _ _ _ := { matvec := 0, dense := .ok 0, fdt := 0, frhsCached := fun _ => 1 }
  fl _ y := matrixLinOp (Matrix.of fun _ _ => y 0)

theorem phi1_scalar_one : Spec.phiM 1 (1 : Mat 1) 0 0 = Real.exp 1 - 1 := by
  have h := Spec.phiM_recurrence 0 (1 : Mat 1)
  rw [one_mul, Spec.phiM_zero] at h
  have hd : (1 : Mat 1) = Matrix.diagonal (fun _ => (1 : ℝ)) := by
    simp
  rw [zero_add] at h
  rw [h, hd, Matrix.exp_diagonal]
  simp [Real.exp_eq_exp_ℝ]

theorem exp1_dense_miss (s : ExpSplit 1) (y : Vec 1) (hy : s.base.yHist.get 0 = .ok y)
    (hm : s.base.method = "exp1_dense") (dt : ℝ) (hmiss : ¬ cacheHit s.cachedDt dt) :
    ∃ s' r, ExpSplit.step (exactDense 1) stateDepSys s dt none = .ok (r, s') ∧
      r.y = y + (dt • Spec.phiM 1 (dt • Matrix.of fun _ _ => y 0)) *ᵥ (fun _ => 1) ∧ s'.cachedDt = some dt ∧
      s'.base = s.base ∧ s'.cachedPhiLs = some (Function.update (fun _ => none) (1, 1)
        (some (Spec.phiM 1 (dt • Matrix.of fun _ _ => y 0)))) := by
  unfold ExpSplit.step
  simp only [hm]
  simp only [show ¬ ("exp1_dense" = "exp1") by decide, show ¬ ("exp1_dense" = "exp2") by decide,
    show ¬ ("exp1_dense" = "exp3") by decide, if_false, if_true]
  unfold stepExp1Dense updateDensePhiLs
  rw [if_neg hmiss]
  simp [hy, stateDepSys, matrixLinOp, fillPhiLs, exactDense, listMax, pyGet, bind, Except.bind, pure, Except.pure,
    optGet, dictGet, List.foldlM]

theorem exp1_dense_hit (s : ExpSplit 1) (y : Vec 1) (hy : s.base.yHist.get 0 = .ok y)
    (hm : s.base.method = "exp1_dense") (dt : ℝ) (hhit : cacheHit s.cachedDt dt) (X : Mat 1)
    (hX : s.cachedPhiLs = some (Function.update (fun _ => none) (1, 1) (some X))) :
    ∃ r, ExpSplit.step (exactDense 1) stateDepSys s dt none = .ok (r, s) ∧
      r.y = y + (dt • X) *ᵥ (fun _ => 1) := by
  unfold ExpSplit.step
  simp only [hm]
  simp only [show ¬ ("exp1_dense" = "exp1") by decide, show ¬ ("exp1_dense" = "exp2") by decide,
    show ¬ ("exp1_dense" = "exp3") by decide, if_false, if_true]
  unfold stepExp1Dense updateDensePhiLs
  rw [if_pos hhit]
  simp [hy, stateDepSys, bind, Except.bind, pure, Except.pure, optGet, dictGet, hX]

/-- **C03 is false for `exp1_dense` with a state-dependent operator**: after one accepted step with `dt = 1`, the next
step with `dt = 1` returns 2, but after a (rejected) trial with another step size the same call returns `e`. -/
theorem C03_negation_dense :
    ∃ (s : ExpSplit 1) (r r' : StepResult (Vec 1)) (x x' : ExpSplit 1),
      (∃ s0 past, ExpSplit.new 0 (fun _ => 0) "exp1_dense" = .ok s0 ∧
        s = (splitMachine (exactDense 1) stateDepSys).run s0 past) ∧
      ExpSplit.step (exactDense 1) stateDepSys s 1 none = .ok (r, x) ∧
      ExpSplit.step (exactDense 1) stateDepSys
        ((splitMachine (exactDense 1) stateDepSys).run s (trialCalls [(2, none)])) 1 none = .ok (r', x') ∧
      r.y 0 = 2 ∧ r'.y 0 = Real.exp 1 := by
  set M := splitMachine (exactDense 1) stateDepSys with hM
  have hnew : ∃ s0 : ExpSplit 1, ExpSplit.new 0 (fun _ => 0) "exp1_dense" = .ok s0 ∧
      s0.base.yHist.get 0 = .ok (fun _ => 0) ∧ s0.base.method = "exp1_dense" ∧ s0.cachedDt = none ∧
      s0.base.yHist.maxlen = 1 := ⟨_, rfl, rfl, rfl, rfl, rfl⟩
  obtain ⟨s0, h0, hy0, hm0, hc0, hmax⟩ := hnew
  obtain ⟨s1, r1, h1, hr1, hc1, hb1, hp1⟩ :=
    exp1_dense_miss s0 _ hy0 hm0 1 (by rw [hc0]; exact id)
  set acc : StepResult (Vec 1) := ⟨1, 1, fun _ => 1, -1⟩
  set s := s1.acceptStep acc with hs
  have hrun : s = M.run s0 [.step 1 none, .accept acc] := by
    have : M.step s0 1 none = .ok (r1, s1) := h1
    simp only [Machine.run, List.foldl, Machine.after, this]
    rfl
  have hys : s.base.yHist.get 0 = .ok (fun _ => 1) := by
    show ((s1.base).yHist.appendleft _).get 0 = _
    rw [hb1]
    simp [Deque.appendleft, Deque.get, hmax, acc]
  have hms : s.base.method = "exp1_dense" := by
    show s1.base.method = _
    rw [hb1, hm0]
  obtain ⟨r, hr, hry⟩ := exp1_dense_hit s _ hys hms 1 (by
    show cacheHit s1.cachedDt 1
    rw [hc1]; exact ⟨one_ne_zero, rfl⟩) _ hp1
  obtain ⟨s2, r2, h2, _, hc2, hb2, _⟩ := exp1_dense_miss s _ hys hms 2 (by
    show ¬ cacheHit s1.cachedDt 2
    rw [hc1]; rintro ⟨_, h⟩; norm_num at h)
  have hrun2 : M.run s (trialCalls [(2, none)]) = s2 := by
    have : M.step s 2 none = .ok (r2, s2) := h2
    simp only [Machine.run, trialCalls, List.map, List.foldl, Machine.after, this]
  obtain ⟨s3, r3, h3, hr3, _⟩ := exp1_dense_miss s2 (fun _ => 1) (by rw [hb2]; exact hys) (by rw [hb2]; exact hms) 1 (by
    rw [hc2]; rintro ⟨_, h⟩; norm_num at h)
  refine ⟨s, r, r3, s, s3, ⟨s0, _, h0, hrun⟩, hr, by rw [hrun2]; exact h3, ?_, ?_⟩
  · rw [hry]
    have : (1 : ℝ) • (Matrix.of fun (_ _ : Fin 1) => (0 : ℝ)) = (0 : Mat 1) := by
      ext i j; simp
    rw [this, Spec.phiM_at_zero]
    simp [Matrix.mulVec, dotProduct]
    norm_num
  · rw [hr3]
    have : (1 : ℝ) • (Matrix.of fun (_ _ : Fin 1) => (1 : ℝ)) = (1 : Mat 1) := by
      ext i j
      fin_cases i; fin_cases j; simp
    rw [this]
    simp [Matrix.mulVec, dotProduct, phi1_scalar_one]

end Ormatex.Props
