import Verif.Model.Integrate

/-!
C01 (history window) and C05 (`state` accessor).
-/

namespace Ormatex.Props
open Ormatex
variable {Y : Type}

/-- **Specification.** The log of accepted `(t, y)` pairs since construction or the last reset, newest first, the
initial condition being the oldest entry: an independent description of an operation history. -/
def acceptedLog (ic : ℝ × Y) : List (Op Y) → List (ℝ × Y)
  | [] => [ic]
  | ops => go [ic] ops
where
  /-- process the operations in order -/
  go (log : List (ℝ × Y)) : List (Op Y) → List (ℝ × Y)
    | [] => log
    | .accept s :: ops => go ((s.t, s.y) :: log) ops
    | .reset t0 y0 :: ops => go [(t0, y0)] ops

/-- **Specification.** Number of accepted steps since the last reset. -/
def acceptsSinceReset (ops : List (Op Y)) : ℕ :=
  ((ops.reverse).takeWhile (fun o => match o with | .accept _ => true | .reset _ _ => false)).length

/-- the history deques of `b` hold the newest `b.order` entries of the nonempty list `log`, and the time is the newest -/
structure HoldsLog (p : ℕ) (b : Base Y) (log : List (ℝ × Y)) : Prop where
  tmax : b.tHist.maxlen = p
  ymax : b.yHist.maxlen = p
  times : b.tHist.items = (log.take p).map Prod.fst
  states : b.yHist.items = (log.take p).map Prod.snd
  now : some b.t = log.head?.map Prod.fst

theorem HoldsLog.accept {p : ℕ} {b : Base Y} {log : List (ℝ × Y)} (h : HoldsLog p b log) (s : StepResult Y) :
    HoldsLog p (b.acceptStep s) ((s.t, s.y) :: log) := by
  obtain ⟨h1, h2, h3, h4, h5⟩ := h
  refine ⟨h1, h2, ?_, ?_, rfl⟩
  · simp only [Base.acceptStep, Deque.appendleft, h1, h3]
    cases p with
    | zero => simp
    | succ p => simp [List.take_succ_cons, ← List.map_take, List.take_take]
  · simp only [Base.acceptStep, Deque.appendleft, h2, h4]
    cases p with
    | zero => simp
    | succ p => simp [List.take_succ_cons, ← List.map_take, List.take_take]

theorem HoldsLog.reset {p : ℕ} {b : Base Y} {log : List (ℝ × Y)} (h : HoldsLog p b log) (t0 : ℝ) (y0 : Y) :
    HoldsLog p (b.resetIc t0 y0) [(t0, y0)] := by
  obtain ⟨h1, h2, _, _, _⟩ := h
  refine ⟨h1, h2, ?_, ?_, rfl⟩ <;>
    cases p <;> simp [Base.resetIc, Deque.clear, Deque.appendleft, h1, h2]

theorem HoldsLog.run {p : ℕ} {b : Base Y} {log : List (ℝ × Y)} (h : HoldsLog p b log) (ops : List (Op Y)) :
    HoldsLog p (b.run ops) (acceptedLog.go log ops) := by
  induction ops generalizing b log with
  | nil => simpa [Base.run, acceptedLog.go] using h
  | cons o ops ih =>
    cases o with
    | accept s => simpa [Base.run, Base.apply, acceptedLog.go] using ih (h.accept s)
    | reset t0 y0 => simpa [Base.run, Base.apply, acceptedLog.go] using ih (h.reset t0 y0)

theorem acceptedLog_eq (ic : ℝ × Y) (ops : List (Op Y)) : acceptedLog ic ops = acceptedLog.go [ic] ops := by
  cases ops <;> rfl

/-- length of the log: one (the initial condition) plus the accepts since the last reset -/
theorem go_append_accept (log : List (ℝ × Y)) (ops : List (Op Y)) (o : Op Y) :
    acceptedLog.go log (ops ++ [o]) =
      match o with
      | .accept s => (s.t, s.y) :: acceptedLog.go log ops
      | .reset t0 y0 => [(t0, y0)] := by
  induction ops generalizing log with
  | nil => cases o <;> rfl
  | cons a ops ih => cases a <;> simpa [acceptedLog.go] using ih _

theorem acceptedLog_length (ic : ℝ × Y) (ops : List (Op Y)) :
    (acceptedLog ic ops).length = 1 + acceptsSinceReset ops := by
  rw [acceptedLog_eq]
  induction ops using List.reverseRecOn with
  | nil => rfl
  | append_singleton ops o ih =>
    rw [go_append_accept]
    cases o with
    | accept s => simp [acceptsSinceReset, ih] at ih ⊢; omega
    | reset t0 y0 => simp [acceptsSinceReset]

/-- **C01.** After any sequence of `accept_step`/`reset_ic` calls on a freshly constructed integrator of order `p`, the
time and state histories are the newest `p` entries of the log of accepted pairs since the last reset (hence in
lockstep and newest first), have length `min p (1 + accepts since the last reset)`, and the reported time is the
newest accepted time. -/
theorem C01_history_window (p : ℕ) (hp : 1 ≤ p) (t0 : ℝ) (y0 : Y) (method : String) (ops : List (Op Y)) :
    ∃ b, Base.init t0 y0 p method = .ok b ∧
      (b.run ops).tHist.items = ((acceptedLog (t0, y0) ops).take p).map Prod.fst ∧
      (b.run ops).yHist.items = ((acceptedLog (t0, y0) ops).take p).map Prod.snd ∧
      (b.run ops).tHist.len = min p (1 + acceptsSinceReset ops) ∧
      (b.run ops).yHist.len = min p (1 + acceptsSinceReset ops) ∧
      some (b.run ops).time = (acceptedLog (t0, y0) ops).head?.map Prod.fst := by
  refine ⟨_, if_pos (by omega), ?_⟩
  have hinit : HoldsLog p
      ({ t := t0, order := p, method := method,
         tHist := (Deque.empty p).appendleft t0, yHist := (Deque.empty p).appendleft y0 } : Base Y)
      [(t0, y0)] := by
    obtain ⟨q, rfl⟩ : ∃ q, p = q + 1 := ⟨p - 1, by omega⟩
    exact ⟨rfl, rfl, by simp [Deque.empty, Deque.appendleft], by simp [Deque.empty, Deque.appendleft], rfl⟩
  have h := hinit.run ops
  rw [← acceptedLog_eq] at h
  have hl := acceptedLog_length (t0, y0) ops
  refine ⟨h.times, h.states, ?_, ?_, h.now⟩
  · simp [Deque.len, h.times, hl]
  · simp [Deque.len, h.states, hl]

/-- An order of zero is refused (C01, error branch). -/
theorem C01_order_zero_refused (t0 : ℝ) (y0 : Y) (method : String) :
    Base.init t0 y0 0 method = .error .assertion := rfl

/-- Non-vacuity: order 2, three accepts, a reset and one accept leave the two newest entries. -/
example :
    acceptedLog ((0 : ℝ), 'a') [.accept ⟨1, 1, 'b', -1⟩, .accept ⟨2, 1, 'c', -1⟩, .reset 5 'z', .accept ⟨6, 1, 'd', -1⟩]
      = [(6, 'd'), (5, 'z')] := rfl

/-- **C05 (false of the code).** The `state` accessor never returns the current state: on every constructed integrator
after every history it evaluates to `None`. -/
theorem C05_state_accessor_returns_none (p : ℕ) (hp : 1 ≤ p) (t0 : ℝ) (y0 : Y) (method : String)
    (ops : List (Op Y)) :
    ∃ b, Base.init t0 y0 p method = .ok b ∧ (b.run ops).state = .ok none := by
  obtain ⟨b, hb, _, hy, _, hlen, _⟩ := C01_history_window p hp t0 y0 method ops
  refine ⟨b, hb, ?_⟩
  have hpos : 0 < (b.run ops).yHist.items.length := by
    have := hlen; unfold Deque.len at this; omega
  unfold Base.state Deque.get
  rw [List.getElem?_eq_getElem hpos]
  rfl

/-- The full statement of C05 and its refutation: "`state` returns the newest accepted state". -/
theorem C05_negation :
    ¬ (∀ (p : ℕ) (t0 : ℝ) (y0 : ℕ) (b : Base ℕ), Base.init t0 y0 p "rk4" = .ok b → b.state = .ok (some y0)) := by
  intro h
  obtain ⟨b, hb, hs⟩ := C05_state_accessor_returns_none 4 (by norm_num) 0 (7 : ℕ) "rk4" []
  have h1 := h 4 0 7 b hb
  have h2 : b.state = .ok none := hs
  rw [h1] at h2
  cases h2

/-- **C05, the part that holds.** The newest accepted state is available as `y_hist[0]` after every history. (Missing:
the accessor itself does not return it.) -/
theorem C05_newest_state_partial (p : ℕ) (hp : 1 ≤ p) (t0 : ℝ) (y0 : Y) (method : String) (ops : List (Op Y)) :
    ∃ b y, Base.init t0 y0 p method = .ok b ∧ (b.run ops).yHist.get 0 = .ok y ∧
      (acceptedLog (t0, y0) ops).head?.map Prod.snd = some y := by
  obtain ⟨b, hb, _, hy, _, _, _⟩ := C01_history_window p hp t0 y0 method ops
  have hl := acceptedLog_length (t0, y0) ops
  obtain ⟨q, rfl⟩ : ∃ q, p = q + 1 := ⟨p - 1, by omega⟩
  match hlog : acceptedLog (t0, y0) ops with
  | [] => rw [hlog] at hl; simp at hl; omega
  | (t, y) :: rest =>
    refine ⟨b, y, hb, ?_, rfl⟩
    unfold Deque.get
    rw [hy, hlog]
    rfl

end Ormatex.Props
