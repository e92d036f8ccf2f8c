import Verif.Props.Trial

/-!
C06 (trajectory contract), C07 (callback contract), and the facts about the four integrator classes they use.
-/

namespace Ormatex.Props
open Ormatex Matrix
open scoped Classical

variable {n : ℕ} {σ P Q W Y : Type}
set_option linter.unusedSectionVars false

/-- What `integrate` needs from an integrator class: a step result carries the time of the object plus `dt`, a step leaves
time and history alone, accepting a result prepends it to the history. -/
structure WellBehaved (M : Machine σ P Y) : Prop where
  step_time : ∀ s dt kw r s', M.step s dt kw = .ok (r, s') → r.t = (M.base s).t + dt ∧ r.dt = dt
  step_base : ∀ s dt kw r s', M.step s dt kw = .ok (r, s') → M.base s' = M.base s
  accept_base : ∀ s r, M.base (M.accept s r) = (M.base s).acceptStep r

/-! ### All families are well behaved -/

/-- every value a computation can return satisfies `p` -/
def Ret {α : Type} (p : α → Prop) (x : Py α) : Prop := ∀ a, x = .ok a → p a

theorem Ret.bind {α β : Type} {p : β → Prop} {x : Py α} {f : α → Py β} (h : ∀ a, Ret p (f a)) : Ret p (x >>= f) := by
  intro b hb
  obtain ⟨a, _, ha⟩ := bind_ok hb
  exact h a b ha

theorem Ret.pure {α : Type} {p : α → Prop} {a : α} (h : p a) : Ret p (pure a : Py α) := by
  intro b hb; cases hb; exact h

theorem Ret.err {α : Type} {p : α → Prop} {e : PyErr} : Ret p (.error e : Py α) := by
  intro b hb; cases hb

theorem Ret.ite {α : Type} {p : α → Prop} {c : Prop} [Decidable c] {x y : Py α} (hx : Ret p x) (hy : Ret p y) :
    Ret p (if c then x else y) := by
  split
  · exact hx
  · exact hy

/-- the result carries time `t + dt` and step size `dt` -/
def TimeOk (t dt : ℝ) (r : StepResult Y) : Prop := r.t = t + dt ∧ r.dt = dt

theorem rb_step_time [EmptyCollection P] (hasRust : Bool) (K : Kernels n) (sys : OdeSys n P) (s : ExpRB n) (dt : ℝ)
    (kw : Option P) : Ret (TimeOk s.base.t dt) (ExpRB.step hasRust K sys s dt kw) := by
  unfold ExpRB.step
  refine Ret.ite ?_ (Ret.ite ?_ (Ret.ite ?_ (Ret.ite ?_ (Ret.ite (Ret.ite ?_ ?_) (Ret.ite ?_ (Ret.ite ?_ (Ret.ite ?_
    (Ret.ite ?_ (Ret.ite ?_ Ret.err)))))))))
  · exact Ret.bind fun _ => Ret.bind fun _ => Ret.bind fun _ => Ret.pure ⟨rfl, rfl⟩
  · exact Ret.bind fun _ => Ret.bind fun _ => Ret.bind fun _ => Ret.bind fun _ => Ret.bind fun _ => Ret.pure ⟨rfl, rfl⟩
  · exact Ret.bind fun _ => Ret.bind fun _ => Ret.bind fun _ => Ret.bind fun _ => Ret.pure ⟨rfl, rfl⟩
  · exact Ret.bind fun _ => Ret.bind fun _ => Ret.pure ⟨rfl, rfl⟩
  · exact Ret.bind fun _ => Ret.bind fun _ => Ret.bind fun _ => Ret.bind fun _ => Ret.bind fun _ => Ret.pure ⟨rfl, rfl⟩
  · exact Ret.bind fun _ => Ret.bind fun _ => Ret.bind fun _ => Ret.bind fun _ => Ret.bind fun _ => Ret.pure ⟨rfl, rfl⟩
  · exact Ret.bind fun _ => Ret.bind fun _ => Ret.bind fun _ => Ret.bind fun _ => Ret.bind fun _ => Ret.pure ⟨rfl, rfl⟩
  · exact Ret.bind fun _ => Ret.bind fun _ => Ret.ite
      (Ret.ite (Ret.bind fun _ => Ret.bind fun _ => Ret.pure ⟨rfl, rfl⟩) (Ret.bind fun _ => Ret.bind fun _ => Ret.pure ⟨rfl, rfl⟩))
      (Ret.bind fun _ => Ret.bind fun _ => Ret.pure ⟨rfl, rfl⟩)
  · exact Ret.bind fun _ => Ret.bind fun _ => Ret.bind fun _ => Ret.pure ⟨rfl, rfl⟩
  · exact Ret.bind fun _ => Ret.bind fun _ => Ret.pure ⟨rfl, rfl⟩
  · exact Ret.bind fun _ => Ret.bind fun _ => Ret.pure ⟨rfl, rfl⟩

theorem rb_wellBehaved [EmptyCollection P] (hasRust : Bool) (K : Kernels n) (sys : OdeSys n P) :
    WellBehaved (rbMachine hasRust K sys) where
  step_time s dt kw r s' h := rb_step_time hasRust K sys s dt kw r (keep_ok h).2
  step_base s dt kw r s' h := by rw [(keep_ok h).1]
  accept_base _ _ := rfl

theorem rk_wellBehaved (sys : OdeSys n P) : WellBehaved (rkMachine sys) where
  step_time s dt kw r s' h := by
    have h2 := (keep_ok h).2
    unfold RK.step at h2
    split at h2
    · cases h2
    · split at h2
      · exact (Ret.bind fun _ => Ret.pure ⟨rfl, rfl⟩ : Ret (TimeOk s.t dt) (stepRk4 sys s dt)) r h2
      · cases h2
  step_base s dt kw r s' h := by rw [(keep_ok h).1]
  accept_base _ _ := rfl

theorem keep_ret {α τ : Type} {p : α → Prop} {s : τ} {x : Py α} (h : Ret p x) : Ret (fun q : α × τ => p q.1) (keep s x) := by
  intro q hq
  obtain ⟨a, b⟩ := q
  exact h a (keep_ok hq).2

theorem split_step_time [EmptyCollection P] (K : Kernels n) (sys : OdeSys n P) (s : ExpSplit n) (dt : ℝ)
    (kw : Option P) : Ret (fun q => TimeOk s.base.t dt q.1) (ExpSplit.step K sys s dt kw) := by
  unfold ExpSplit.step
  refine Ret.ite (keep_ret ?_) (Ret.ite (keep_ret ?_) (Ret.ite (keep_ret ?_) (Ret.ite ?_ (Ret.ite ?_ (Ret.ite ?_ Ret.err)))))
  · exact Ret.bind fun _ => Ret.bind fun _ => Ret.pure ⟨rfl, rfl⟩
  · exact Ret.bind fun _ => Ret.bind fun _ => Ret.bind fun _ => Ret.bind fun _ => Ret.pure ⟨rfl, rfl⟩
  · exact Ret.bind fun _ => Ret.bind fun _ => Ret.bind fun _ => Ret.bind fun _ => Ret.bind fun _ => Ret.bind fun _ =>
      Ret.bind fun _ => Ret.pure ⟨rfl, rfl⟩
  · exact Ret.bind fun _ => Ret.bind fun _ => Ret.bind fun _ => Ret.bind fun _ => Ret.pure ⟨rfl, rfl⟩
  · exact Ret.bind fun _ => Ret.bind fun _ => Ret.bind fun _ => Ret.bind fun _ => Ret.bind fun _ => Ret.bind fun _ =>
      Ret.bind fun _ => Ret.pure ⟨rfl, rfl⟩
  · exact Ret.bind fun _ => Ret.bind fun _ => Ret.bind fun _ => Ret.bind fun _ => Ret.bind fun _ => Ret.bind fun _ =>
      Ret.bind fun _ => Ret.bind fun _ => Ret.bind fun _ => Ret.pure ⟨rfl, rfl⟩

theorem split_wellBehaved [EmptyCollection P] (K : Kernels n) (sys : OdeSys n P) :
    WellBehaved (splitMachine K sys) where
  step_time s dt kw r s' h := split_step_time K sys s dt kw (r, s') h
  step_base s dt kw r s' h := split_step_base K sys s s' dt kw r h
  accept_base _ _ := rfl

theorem lejaFinish_ret (s : ExpLeja n) (bk : Option (Vec (n + 2))) (yt u : Vec n) (dt : ℝ) (c : Prop) (mt : ℝ) :
    Ret (fun q => TimeOk s.base.t dt q.1 ∧ q.2.base = s.base) (lejaFinish s bk yt u dt c mt) := by
  intro q hq
  unfold lejaFinish at hq
  split at hq
  · cases hq
  · cases hq; exact ⟨⟨rfl, rfl⟩, rfl⟩

theorem leja_step_ret [EmptyCollection P] (o : LejaOpts) (sys : OdeSys n P) (s : ExpLeja n) (dt : ℝ)
    (kw : Option P) : Ret (fun q => TimeOk s.base.t dt q.1 ∧ q.2.base = s.base) (ExpLeja.step o sys s dt kw) := by
  have him : ∀ b d, Ret (fun q => TimeOk s.base.t dt q.1 ∧ q.2.base = s.base) (stepEpiIm o sys s dt d b) := fun b d =>
    Ret.bind fun _ => Ret.ite
      (Ret.bind fun _ => Ret.bind fun _ => Ret.bind fun _ => Ret.bind fun _ => Ret.bind fun _ => Ret.bind fun _ =>
        Ret.bind fun _ => lejaFinish_ret _ _ _ _ _ _ _)
      (Ret.bind fun _ => Ret.bind fun _ => Ret.bind fun _ => Ret.bind fun _ => lejaFinish_ret _ _ _ _ _ _ _)
  unfold ExpLeja.step
  refine Ret.ite ?_ (Ret.ite (him _ _) (Ret.ite (Ret.ite (him _ _) (him _ _)) Ret.err))
  exact Ret.bind fun _ => Ret.bind fun _ => Ret.bind fun _ => lejaFinish_ret _ _ _ _ _ _ _

theorem leja_wellBehaved [EmptyCollection P] (o : LejaOpts) (sys : OdeSys n P) :
    WellBehaved (lejaMachine o sys) where
  step_time s dt kw r s' h := (leja_step_ret o sys s dt kw (r, s') h).1
  step_base s dt kw r s' h := (leja_step_ret o sys s dt kw (r, s') h).2
  accept_base _ _ := rfl

/-! ### The loop -/

/-- A record of what happened in the first `k` passes of the loop of `integrate`, written as plain recurrences:
`obj i` is the integrator before pass `i`, `tAt i, yAt i` the latest output entries before pass `i`, `w i` the world
before pass `i` and `wm i` the world between the two callbacks of pass `i`. -/
structure Record (I : Stepper σ P Y) (dt : ℝ) (before : Option (W → ℝ → Y → P × W))
    (after : Option (W → ℝ → Y → Q × W)) (k : ℕ) where
  obj : ℕ → σ
  tAt : ℕ → ℝ
  yAt : ℕ → Y
  w : ℕ → W
  wm : ℕ → W
  /-- each pass calls `step` exactly once, with the value of the before-callback at the latest entry (if there is one) -/
  pass : ∀ i < k, ∃ r o', I.step (obj i) dt (before.map fun cb => (cb (w i) (tAt i) (yAt i)).1) = .ok (r, o') ∧
    obj (i + 1) = I.accept o' r ∧ tAt (i + 1) = r.t ∧ yAt (i + 1) = r.y
  /-- the before-callback runs on the world left by the previous pass, the after-callback on the one it leaves -/
  mid : ∀ i < k, wm i = before.elim (w i) fun cb => (cb (w i) (tAt i) (yAt i)).2
  next : ∀ i < k, w (i + 1) = after.elim (wm i) fun cb => (cb (wm i) (tAt (i + 1)) (yAt (i + 1))).2

variable {I : Stepper σ P Y} {dt : ℝ} {before : Option (W → ℝ → Y → P × W)} {after : Option (W → ℝ → Y → Q × W)}

theorem loopN_succ_last (t0 : ℝ) (y0 : Y) (k : ℕ) (l : LoopState σ P Q W Y) :
    loopN I t0 y0 dt before after (k + 1) l
      = (loopN I t0 y0 dt before after k l >>= loopBody I t0 y0 dt before after) := by
  induction k generalizing l with
  | zero =>
    show (loopBody I t0 y0 dt before after l >>= fun l' => Except.ok l') = loopBody I t0 y0 dt before after l
    cases loopBody I t0 y0 dt before after l <;> rfl
  | succ k ih =>
    show (loopBody I t0 y0 dt before after l >>= fun l' => loopN I t0 y0 dt before after (k + 1) l') = _
    show _ = ((loopBody I t0 y0 dt before after l >>= fun l' => loopN I t0 y0 dt before after k l') >>= _)
    cases h : loopBody I t0 y0 dt before after l with
    | error e => rfl
    | ok l' => exact ih l'

/-- what the loop state holds after `k` passes -/
structure Logged (R : Record I dt before after k) (t0 : ℝ) (y0 : Y) (obj0 : σ) (w0 : W)
    (l : LoopState σ P Q W Y) : Prop where
  obj0 : R.obj 0 = obj0
  t0 : R.tAt 0 = t0
  y0 : R.yAt 0 = y0
  w0 : R.w 0 = w0
  obj : l.obj = R.obj k
  world : l.world = R.w k
  tRes : l.tRes = (List.range (k + 1)).map R.tAt
  yRes : l.yRes = (List.range (k + 1)).map R.yAt
  cbB : l.cbBefore = match before with
    | some cb => (List.range k).map fun i => (cb (R.w i) (R.tAt i) (R.yAt i)).1
    | none => []
  cbA : l.cbAfter = match after with
    | some cb => (List.range k).map fun i => (cb (R.wm i) (R.tAt (i + 1)) (R.yAt (i + 1))).1
    | none => []

theorem getLastD_range_map {α : Type} (f : ℕ → α) (k : ℕ) (d : α) :
    ((List.range (k + 1)).map f).getLastD d = f k := by
  rw [List.range_succ, List.map_append]
  simp

theorem loop_logged (t0 : ℝ) (y0 : Y) (obj0 : σ) (w0 : W) (k : ℕ) (l : LoopState σ P Q W Y)
    (h : loopN I t0 y0 dt before after k
      { obj := obj0, tRes := [t0], yRes := [y0], cbBefore := [], cbAfter := [], world := w0 } = .ok l) :
    ∃ R : Record I dt before after k, Logged R t0 y0 obj0 w0 l := by
  induction k generalizing l with
  | zero =>
    cases h
    refine ⟨⟨fun _ => obj0, fun _ => t0, fun _ => y0, fun _ => w0, fun _ => w0, ?_, ?_, ?_⟩, ?_⟩
    · intro i hi; omega
    · intro i hi; omega
    · intro i hi; omega
    · refine ⟨rfl, rfl, rfl, rfl, rfl, rfl, rfl, rfl, ?_, ?_⟩
      · cases before <;> rfl
      · cases after <;> rfl
  | succ k ih =>
    rw [loopN_succ_last] at h
    obtain ⟨l1, h1, h2⟩ := bind_ok h
    obtain ⟨R, L⟩ := ih l1 h1
    unfold loopBody at h2
    have hlt : l1.tRes.getLastD t0 = R.tAt k := by rw [L.tRes]; exact getLastD_range_map _ _ _
    have hly : l1.yRes.getLastD y0 = R.yAt k := by rw [L.yRes]; exact getLastD_range_map _ _ _
    obtain ⟨⟨r, o'⟩, hst, h2⟩ := bind_ok h2
    simp only [hlt, hly, L.world] at hst h2
    have hgt : (l1.tRes ++ [r.t]).getLastD t0 = r.t := by simp
    have hgy : (l1.yRes ++ [r.y]).getLastD y0 = r.y := by simp
    rw [hgt, hgy] at h2
    set kw := (callBefore before (R.w k) (R.tAt k) (R.yAt k) l1.cbBefore).1 with hkwd
    set cbB := (callBefore before (R.w k) (R.tAt k) (R.yAt k) l1.cbBefore).2.1 with hcbBd
    set w1 := (callBefore before (R.w k) (R.tAt k) (R.yAt k) l1.cbBefore).2.2 with hw1d
    set cbA := (callAfter after w1 r.t r.y l1.cbAfter).1 with hcbAd
    set w2 := (callAfter after w1 r.t r.y l1.cbAfter).2 with hw2d
    have hkw : kw = before.map fun cb => (cb (R.w k) (R.tAt k) (R.yAt k)).1 := by
      cases before <;> rfl
    have hcbB : cbB = match before with
        | some cb => (List.range (k + 1)).map fun i => (cb (R.w i) (R.tAt i) (R.yAt i)).1
        | none => [] := by
      have := L.cbB
      cases before with
      | none => exact this
      | some cb =>
        simp only [callBefore] at this hcbBd
        simp only
        rw [hcbBd, this, List.range_succ, List.map_append]; rfl
    have hw1 : w1 = before.elim (R.w k) fun cb => (cb (R.w k) (R.tAt k) (R.yAt k)).2 := by
      cases before <;> rfl
    have hw2 : w2 = after.elim w1 fun cb => (cb w1 r.t r.y).2 := by
      cases after <;> rfl
    cases h2
    let f : ∀ {α : Type}, (ℕ → α) → α → ℕ → α := fun g x i => if i ≤ k then g i else x
    have fle : ∀ {α : Type} (g : ℕ → α) (x : α) {i : ℕ}, i ≤ k → f g x i = g i := fun g x i hi => if_pos hi
    have fgt : ∀ {α : Type} (g : ℕ → α) (x : α), f g x (k + 1) = x := fun g x => if_neg (by omega)
    let fm : ℕ → W := fun i => if i < k then R.wm i else w1
    have fml : ∀ {i : ℕ}, i < k → fm i = R.wm i := fun hi => if_pos hi
    have fmk : fm k = w1 := if_neg (by omega)
    refine ⟨⟨f R.obj (I.accept o' r), f R.tAt r.t, f R.yAt r.y, f R.w w2, fm, ?_, ?_, ?_⟩, ?_⟩
    · intro i hi
      rcases Nat.lt_or_ge i k with hik | hik
      · rw [fle _ _ hik.le, fle _ _ hik.le, fle _ _ hik.le, fle _ _ hik.le, fle _ _ hik, fle _ _ hik, fle _ _ hik]
        exact R.pass i hik
      · have : i = k := by omega
        subst this
        rw [fle _ _ le_rfl, fle _ _ le_rfl, fle _ _ le_rfl, fle _ _ le_rfl, fgt, fgt, fgt]
        refine ⟨r, o', ?_, rfl, rfl, rfl⟩
        rw [← hkw, ← L.obj]
        exact hst
    · intro i hi
      rcases Nat.lt_or_ge i k with hik | hik
      · rw [fml hik, fle _ _ hik.le, fle _ _ hik.le, fle _ _ hik.le]
        exact R.mid i hik
      · have : i = k := by omega
        subst this
        rw [fmk, fle _ _ le_rfl, fle _ _ le_rfl, fle _ _ le_rfl]
        exact hw1
    · intro i hi
      rcases Nat.lt_or_ge i k with hik | hik
      · rw [fml hik, fle _ _ hik, fle _ _ hik, fle _ _ hik]
        exact R.next i hik
      · have : i = k := by omega
        subst this
        rw [fmk, fgt, fgt, fgt]
        exact hw2
    · have hmap : ∀ {α : Type} (g : ℕ → α) (x : α) (l : List α), l = (List.range (k + 1)).map g →
          l ++ [x] = (List.range (k + 1 + 1)).map (f g x) := by
        intro α g x l hl
        rw [List.range_succ (n := k + 1), List.map_append, hl]
        congr 1
        · refine List.map_congr_left fun i hi => ?_
          rw [fle _ _ (by simpa [Nat.lt_succ_iff] using hi)]
        · simp [fgt]
      refine ⟨?_, ?_, ?_, ?_, ?_, ?_, ?_, ?_, ?_, ?_⟩
      · refine (fle R.obj (I.accept o' r) (Nat.zero_le _)).trans ?_; exact L.obj0
      · refine (fle R.tAt r.t (Nat.zero_le _)).trans ?_; exact L.t0
      · refine (fle R.yAt r.y (Nat.zero_le _)).trans ?_; exact L.y0
      · refine (fle R.w w2 (Nat.zero_le _)).trans ?_; exact L.w0
      · exact (fgt R.obj (I.accept o' r)).symm
      · exact (fgt R.w w2).symm
      · exact hmap _ _ _ L.tRes
      · exact hmap _ _ _ L.yRes
      · show cbB = _
        rw [hcbB]
        cases before with
        | none => rfl
        | some cb =>
          refine List.map_congr_left fun i hi => ?_
          have hi : i ≤ k := by simpa [Nat.lt_succ_iff] using hi
          show _ = (cb (f R.w _ i) (f R.tAt _ i) (f R.yAt _ i)).1
          rw [fle _ _ hi, fle _ _ hi, fle _ _ hi]
      · show cbA = _
        cases after with
        | none => exact L.cbA
        | some cb =>
          have := L.cbA
          simp only at this
          simp only [hcbAd, callAfter]
          rw [List.range_succ, List.map_append, this]
          congr 1
          · refine List.map_congr_left fun i hi => ?_
            have hi : i < k := by simpa using hi
            show _ = (cb (fm i) (f R.tAt _ (i + 1)) (f R.yAt _ (i + 1))).1
            rw [fml hi, fle _ _ hi, fle _ _ hi]
          · simp only [List.map_cons, List.map_nil]
            rw [fmk, fgt, fgt]

/-! ### C06, C07 -/

/-- **C06.** If `integrate` with a well-behaved integrator class (all four ORMATEX classes are, `C06_families`) started
at `(t0, y0)` returns, then it returns `nsteps + 1` times and states; the first is `(t0, y0)`; the times are
`t0 + i dt`; and entry `i + 1` is the result of one `step(dt)` of an integrator whose time is entry `i` and whose
history deques hold the newest `p` of the entries `0, ..., i`, newest first (`p` its order). -/
theorem C06_trajectory (M : Machine σ P Y) (hM : WellBehaved M) (obj : σ) (t0 : ℝ) (y0 : Y) (p : ℕ) (m : String)
    (hobj : Base.init t0 y0 p m = .ok (M.base obj)) (dt : ℝ) (nsteps : ℕ)
    (before : Option (W → ℝ → Y → P × W)) (after : Option (W → ℝ → Y → Q × W)) (w : W)
    (l : LoopState σ P Q W Y)
    (h : integrateOrmatex M.toStepper obj y0 t0 dt nsteps before after w = .ok l) :
    l.tRes = (List.range (nsteps + 1)).map (fun i : ℕ => t0 + i * dt) ∧
    l.yRes.length = nsteps + 1 ∧ l.yRes.head? = some y0 ∧
    ∀ i < nsteps, ∃ (o o' : σ) (kw : Option P) (r : StepResult Y), M.step o dt kw = .ok (r, o') ∧
      l.tRes[i + 1]? = some r.t ∧ l.yRes[i + 1]? = some r.y ∧
      l.tRes[i]? = some (M.base o).time ∧
      (M.base o).tHist.items = ((l.tRes.take (i + 1)).reverse).take p ∧
      (M.base o).yHist.items = ((l.yRes.take (i + 1)).reverse).take p := by
  obtain ⟨R, L⟩ := loop_logged t0 y0 obj w nsteps l h
  -- the objects' base state
  have hp : 0 < p := by
    unfold Base.init at hobj
    split at hobj
    · assumption
    · cases hobj
  have hb0 : HoldsLog p (M.base obj) [(t0, y0)] := by
    unfold Base.init at hobj
    rw [if_pos hp] at hobj
    generalize M.base obj = b at hobj
    cases hobj
    obtain ⟨q, rfl⟩ : ∃ q, p = q + 1 := ⟨p - 1, by omega⟩
    exact ⟨rfl, rfl, by simp [Deque.empty, Deque.appendleft], by simp [Deque.empty, Deque.appendleft], rfl⟩
  have hlog : ∀ i ≤ nsteps, HoldsLog p (M.base (R.obj i))
      ((List.range (i + 1)).map fun j => (R.tAt j, R.yAt j)).reverse := by
    intro i
    induction i with
    | zero =>
      intro _
      simp only [List.range_one, List.map_cons, List.map_nil, List.reverse_singleton, L.t0, L.y0, L.obj0, zero_add]
      exact hb0
    | succ i ih =>
      intro hi
      obtain ⟨r, o', h1, h2, h3, h4⟩ := R.pass i (by omega)
      have hih := ih (by omega)
      rw [h2, hM.accept_base, hM.step_base _ _ _ _ _ h1, List.range_succ, List.map_append, List.reverse_append]
      have := hih.accept r
      simpa [h3, h4] using this
  have htime : ∀ i ≤ nsteps, R.tAt i = t0 + i * dt ∧ (M.base (R.obj i)).t = R.tAt i := by
    intro i
    induction i with
    | zero =>
      intro _
      refine ⟨by simp [L.t0], ?_⟩
      have := (hlog 0 (Nat.zero_le _)).now
      simpa using this
    | succ i ih =>
      intro hi
      obtain ⟨r, o', h1, h2, h3, h4⟩ := R.pass i (by omega)
      obtain ⟨g1, g2⟩ := ih (by omega)
      have ht := (hM.step_time _ _ _ _ _ h1).1
      refine ⟨?_, ?_⟩
      · rw [h3, ht, g2, g1]; push_cast; ring
      · rw [h2, hM.accept_base, h3]; rfl
  refine ⟨?_, ?_, ?_, ?_⟩
  · rw [L.tRes]
    refine List.map_congr_left fun i hi => ?_
    exact (htime i (by simpa [Nat.lt_succ_iff] using hi)).1
  · rw [L.yRes]; simp
  · rw [L.yRes, List.range_succ_eq_map]; simp [L.y0]
  · intro i hi
    obtain ⟨r, o', h1, h2, h3, h4⟩ := R.pass i hi
    have hL := hlog i hi.le
    have htake : ∀ {α : Type} (g : ℕ → α), ((List.range (nsteps + 1)).map g).take (i + 1)
        = (List.range (i + 1)).map g := by
      intro α g
      rw [← List.map_take, List.take_range, min_eq_left (by omega)]
    refine ⟨R.obj i, o', _, r, h1, ?_, ?_, ?_, ?_, ?_⟩
    · rw [L.tRes, List.getElem?_map, List.getElem?_range (by omega)]; simp [h3]
    · rw [L.yRes, List.getElem?_map, List.getElem?_range (by omega)]; simp [h4]
    · rw [L.tRes, List.getElem?_map, List.getElem?_range (by omega)]
      simp [Base.time, (htime i hi.le).2]
    · rw [hL.times, L.tRes, htake, ← List.map_reverse, ← List.map_take, ← List.map_reverse, ← List.map_take, List.map_map]
      rfl
    · rw [hL.states, L.yRes, htake, ← List.map_reverse, ← List.map_take, ← List.map_reverse, ← List.map_take, List.map_map]
      rfl

/-- All four ORMATEX integrator classes satisfy the hypothesis of C06, for every system and kernels. -/
theorem C06_families [EmptyCollection P] (hasRust : Bool) (K : Kernels n) (o : LejaOpts) (sys : OdeSys n P) :
    WellBehaved (rbMachine hasRust K sys) ∧ WellBehaved (splitMachine K sys) ∧ WellBehaved (rkMachine sys) ∧
      WellBehaved (lejaMachine o sys) :=
  ⟨rb_wellBehaved _ _ _, split_wellBehaved _ _, rk_wellBehaved _, leja_wellBehaved _ _⟩

/-- **C06, error branch.** If `integrate` raises, some prefix of the run succeeded and the next `step` raised that very
exception: no other operation of the loop can fail. -/
theorem C06_error (I : Stepper σ P Y) (obj : σ) (t0 : ℝ) (y0 : Y) (dt : ℝ) (nsteps : ℕ)
    (before : Option (W → ℝ → Y → P × W)) (after : Option (W → ℝ → Y → Q × W)) (w : W) (e : PyErr)
    (h : integrateOrmatex I obj y0 t0 dt nsteps before after w = .error e) :
    ∃ k < nsteps, ∃ l kw, integrateOrmatex I obj y0 t0 dt k before after w = .ok l ∧ I.step l.obj dt kw = .error e := by
  unfold integrateOrmatex at h
  induction nsteps with
  | zero => cases h
  | succ k ih =>
    rw [loopN_succ_last] at h
    cases hk : loopN I t0 y0 dt before after k
        { obj := obj, tRes := [t0], yRes := [y0], cbBefore := [], cbAfter := [], world := w } with
    | error e' =>
      rw [hk] at h
      cases h
      obtain ⟨j, hj, rest⟩ := ih hk
      exact ⟨j, by omega, rest⟩
    | ok l =>
      rw [hk] at h
      refine ⟨k, by omega, l, (callBefore before l.world (l.tRes.getLastD t0) (l.yRes.getLastD y0) l.cbBefore).1, hk, ?_⟩
      have h' : loopBody I t0 y0 dt before after l = .error e := h
      unfold loopBody at h'
      simp only at h'
      cases hs : I.step l.obj dt (callBefore before l.world (l.tRes.getLastD t0) (l.yRes.getLastD y0) l.cbBefore).1 with
      | error e' => rw [hs] at h'; cases h'; rfl
      | ok ro => rw [hs] at h'; cases h'

/-- **C07.** If `integrate` returns, the whole run is described by the recurrences of `Record`: in pass `i` the
before-callback (if given) is called exactly once, on the latest entry `(t_i, y_i)` and on the world left by pass
`i-1`, its value is appended to its log and is the `frhs_kwargs` of the one `step` call of that pass; the
after-callback (if given) is called exactly once with the new entry `(t_{i+1}, y_{i+1})` and its value is logged; the
logs have length `nsteps`, or 0 without a callback. -/
theorem C07_callbacks (I : Stepper σ P Y) (obj : σ) (t0 : ℝ) (y0 : Y) (dt : ℝ) (nsteps : ℕ)
    (before : Option (W → ℝ → Y → P × W)) (after : Option (W → ℝ → Y → Q × W)) (w : W)
    (l : LoopState σ P Q W Y) (h : integrateOrmatex I obj y0 t0 dt nsteps before after w = .ok l) :
    ∃ R : Record I dt before after nsteps, R.obj 0 = obj ∧ R.w 0 = w ∧ l.world = R.w nsteps ∧
      l.tRes = (List.range (nsteps + 1)).map R.tAt ∧ l.yRes = (List.range (nsteps + 1)).map R.yAt ∧
      R.tAt 0 = t0 ∧ R.yAt 0 = y0 ∧
      (∀ cb, before = some cb → l.cbBefore = (List.range nsteps).map fun i => (cb (R.w i) (R.tAt i) (R.yAt i)).1) ∧
      (∀ cb, after = some cb →
        l.cbAfter = (List.range nsteps).map fun i => (cb (R.wm i) (R.tAt (i + 1)) (R.yAt (i + 1))).1) ∧
      (before = none → l.cbBefore = []) ∧ (after = none → l.cbAfter = []) ∧
      (before ≠ none → l.cbBefore.length = nsteps) ∧ (after ≠ none → l.cbAfter.length = nsteps) := by
  obtain ⟨R, L⟩ := loop_logged t0 y0 obj w nsteps l h
  have hB := L.cbB
  have hA := L.cbA
  refine ⟨R, L.obj0, L.w0, L.world, L.tRes, L.yRes, L.t0, L.y0, ?_, ?_, ?_, ?_, ?_, ?_⟩
  · rintro cb rfl; exact hB
  · rintro cb rfl; exact hA
  · rintro rfl; exact hB
  · rintro rfl; exact hA
  · intro hn
    cases before with
    | none => exact (hn rfl).elim
    | some cb => rw [hB]; simp
  · intro hn
    cases after with
    | none => exact (hn rfl).elim
    | some cb => rw [hA]; simp

/-- a one-line integrator used to show that the hypotheses of C06/C07 can be met -/
def toyMachine : Machine (Base ℕ) ℕ ℕ where
  step b dt kw := .ok (⟨b.t + dt, dt, (b.yHist.items.headD 0) + kw.getD 1, -1⟩, b)
  accept := Base.acceptStep
  reset := Base.resetIc
  base := id
  writes s c := match c with
    | .step _ _ => [s]
    | .accept r => s.acceptWrites r
    | .reset t0 y0 => s.resetWrites t0 y0

theorem toy_wellBehaved : WellBehaved toyMachine where
  step_time s dt kw r s' h := by cases h; exact ⟨rfl, rfl⟩
  step_base s dt kw r s' h := by cases h; rfl
  accept_base _ _ := rfl

/-- Non-vacuity of C06/C07: a run with both callbacks exists, with the logs one expects. -/
example : ∃ (obj : Base ℕ) (l : LoopState (Base ℕ) ℕ ℕ ℕ ℕ), Base.init 0 5 2 "toy" = .ok obj ∧
    integrateOrmatex toyMachine.toStepper obj 5 0 1 3 (some fun w _ y => (y, w + 1)) (some fun w _ y => (y + w, w + 10)) 0
      = .ok l ∧ l.yRes = [5, 10, 20, 40] ∧ l.cbBefore = [5, 10, 20] ∧ l.cbAfter = [11, 32, 63] ∧ l.world = 33 :=
  ⟨_, _, rfl, rfl, rfl, rfl, rfl, rfl⟩

end Ormatex.Props
