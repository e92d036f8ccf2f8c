/-
C129: checkpoint and restart of the Python integrators.
-/
import Verif.Spec.Restart
import Verif.Props.ApproxSplitRun

namespace Ormatex.Props
open Matrix Ormatex.Spec

section generic
variable {σ P Q W Y : Type}

theorem loopN_add (I : Stepper σ P Y) (t0 : ℝ) (y0 : Y) (dt : ℝ) (before : Option (W → ℝ → Y → P × W)) (after : Option (W → ℝ → Y → Q × W))
    (a b : ℕ) : ∀ l : LoopState σ P Q W Y,
    loopN I t0 y0 dt before after (a + b) l = loopN I t0 y0 dt before after a l >>= loopN I t0 y0 dt before after b := by
  induction a with
  | zero => intro l; rw [Nat.zero_add]; rfl
  | succ a ih =>
    intro l
    rw [show a + 1 + b = (a + b) + 1 by omega]
    simp only [loopN, Bind.bind, Except.bind]
    cases loopBody I t0 y0 dt before after l with
    | error e => rfl
    | ok l1 => exact ih l1

/-- relation between the interrupted run and the restarted one -/
structure Follows (pre : Seen P Q W Y) (l l' : LoopState σ P Q W Y) : Prop where
  ne_t : l'.tRes ≠ []
  ne_y : l'.yRes ≠ []
  times : l.tRes = pre.times ++ l'.tRes.tail
  states : l.yRes = pre.states ++ l'.yRes.tail
  bef : l.cbBefore = pre.before ++ l'.cbBefore
  aft : l.cbAfter = pre.after ++ l'.cbAfter
  world : l.world = l'.world
  lastT : ∀ d d', l.tRes.getLastD d = l'.tRes.getLastD d'
  lastY : ∀ d d', l.yRes.getLastD d = l'.yRes.getLastD d'

theorem tail_concat {α : Type} {l : List α} (h : l ≠ []) (x : α) : (l ++ [x]).tail = l.tail ++ [x] := by
  cases l with
  | nil => exact absurd rfl h
  | cons a l => rfl

/-- one pass of the two loops -/
theorem body_follows (I : Stepper σ P Y) (dt : ℝ) (before : Option (W → ℝ → Y → P × W)) (after : Option (W → ℝ → Y → Q × W))
    (Inv : σ → ℝ → Y → Prop)
    (hstep : ∀ o t y kw r p, Inv o t y → I.step o dt kw = .ok (r, p) → Inv (I.accept p r) r.t r.y)
    (hsame : ∀ o o' t y kw, Inv o t y → Inv o' t y → (I.step o dt kw).map Prod.fst = (I.step o' dt kw).map Prod.fst)
    (pre : Seen P Q W Y) (t0 t0' : ℝ) (y0 y0' : Y) (l l' : LoopState σ P Q W Y) (h : Follows pre l l')
    (hi : ∃ t y, Inv l.obj t y ∧ Inv l'.obj t y) :
    (∃ e, loopBody I t0 y0 dt before after l = .error e ∧ loopBody I t0' y0' dt before after l' = .error e) ∨
    ∃ k k', loopBody I t0 y0 dt before after l = .ok k ∧ loopBody I t0' y0' dt before after l' = .ok k' ∧ Follows pre k k' ∧
      ∃ t y, Inv k.obj t y ∧ Inv k'.obj t y := by
  obtain ⟨t, y, i1, i2⟩ := hi
  have hcb : (callBefore before l.world (l.tRes.getLastD t0) (l.yRes.getLastD y0) l.cbBefore).1 =
      (callBefore before l'.world (l'.tRes.getLastD t0') (l'.yRes.getLastD y0') l'.cbBefore).1 ∧
      (callBefore before l.world (l.tRes.getLastD t0) (l.yRes.getLastD y0) l.cbBefore).2.1 =
      pre.before ++ (callBefore before l'.world (l'.tRes.getLastD t0') (l'.yRes.getLastD y0') l'.cbBefore).2.1 ∧
      (callBefore before l.world (l.tRes.getLastD t0) (l.yRes.getLastD y0) l.cbBefore).2.2 =
      (callBefore before l'.world (l'.tRes.getLastD t0') (l'.yRes.getLastD y0') l'.cbBefore).2.2 := by
    rw [h.lastT t0 t0', h.lastY y0 y0', h.world, h.bef]
    cases before with
    | none => exact ⟨rfl, rfl, rfl⟩
    | some cb => exact ⟨rfl, by simp [callBefore], rfl⟩
  obtain ⟨c1, c2, c3⟩ := hcb
  obtain ⟨kw, hkw⟩ : ∃ kw, kw = (callBefore before l'.world (l'.tRes.getLastD t0') (l'.yRes.getLastD y0') l'.cbBefore).1 := ⟨_, rfl⟩
  have hs := hsame _ _ t y kw i1 i2
  unfold loopBody
  simp only [c1, c3, ← hkw]
  cases e1 : I.step l.obj dt kw with
  | error e =>
    cases e2 : I.step l'.obj dt kw with
    | error e' =>
      rw [e1, e2] at hs
      cases hs
      exact Or.inl ⟨e, rfl, rfl⟩
    | ok x => rw [e1, e2] at hs; cases hs
  | ok x =>
    cases e2 : I.step l'.obj dt kw with
    | error e' => rw [e1, e2] at hs; cases hs
    | ok x' =>
      rw [e1, e2] at hs
      obtain ⟨r, p⟩ := x
      obtain ⟨r', p'⟩ := x'
      have hr : r = r' := by injection hs
      subst hr
      right
      refine ⟨_, _, rfl, rfl, ?_, r.t, r.y, hstep _ _ _ _ _ _ i1 e1, hstep _ _ _ _ _ _ i2 e2⟩
      have hca : ∀ (w : W) (s : ℝ) (z : Y), (callAfter after w s z l.cbAfter).1 = pre.after ++ (callAfter after w s z l'.cbAfter).1 ∧
          (callAfter after w s z l.cbAfter).2 = (callAfter after w s z l'.cbAfter).2 := by
        intro w s z
        rw [h.aft]
        cases after with
        | none => exact ⟨rfl, rfl⟩
        | some cb => exact ⟨by simp [callAfter], rfl⟩
      refine Follows.mk (by simp) (by simp) ?_ ?_ ?_ ?_ ?_ ?_ ?_
      · simp only; rw [tail_concat h.ne_t, h.times, List.append_assoc]
      · simp only; rw [tail_concat h.ne_y, h.states, List.append_assoc]
      · exact c2
      · simp only [List.getLastD_concat]; exact (hca _ _ _).1
      · simp only [List.getLastD_concat]; exact (hca _ _ _).2
      · intro d d'; simp only [List.getLastD_concat]
      · intro d d'; simp only [List.getLastD_concat]

theorem loop_follows (I : Stepper σ P Y) (dt : ℝ) (before : Option (W → ℝ → Y → P × W)) (after : Option (W → ℝ → Y → Q × W))
    (Inv : σ → ℝ → Y → Prop)
    (hstep : ∀ o t y kw r p, Inv o t y → I.step o dt kw = .ok (r, p) → Inv (I.accept p r) r.t r.y)
    (hsame : ∀ o o' t y kw, Inv o t y → Inv o' t y → (I.step o dt kw).map Prod.fst = (I.step o' dt kw).map Prod.fst)
    (pre : Seen P Q W Y) (t0 t0' : ℝ) (y0 y0' : Y) (m : ℕ) : ∀ (l l' : LoopState σ P Q W Y), Follows pre l l' →
    (∃ t y, Inv l.obj t y ∧ Inv l'.obj t y) →
    (∃ e, loopN I t0 y0 dt before after m l = .error e ∧ loopN I t0' y0' dt before after m l' = .error e) ∨
    ∃ k k', loopN I t0 y0 dt before after m l = .ok k ∧ loopN I t0' y0' dt before after m l' = .ok k' ∧ Follows pre k k' := by
  induction m with
  | zero => intro l l' h _; exact Or.inr ⟨l, l', rfl, rfl, h⟩
  | succ m ih =>
    intro l l' h hi
    rcases body_follows I dt before after Inv hstep hsame pre t0 t0' y0 y0' l l' h hi with ⟨e, h1, h2⟩ | ⟨k, k', h1, h2, h3, h4⟩
    · left
      refine ⟨e, ?_, ?_⟩
      · simp only [loopN, h1, Bind.bind, Except.bind]
      · simp only [loopN, h2, Bind.bind, Except.bind]
    · rcases ih k k' h3 h4 with ⟨e, g1, g2⟩ | ⟨j, j', g1, g2, g3⟩
      · left
        refine ⟨e, ?_, ?_⟩
        · simp only [loopN, h1, Bind.bind, Except.bind, g1]
        · simp only [loopN, h2, Bind.bind, Except.bind, g2]
      · right
        refine ⟨j, j', ?_, ?_, g3⟩
        · simp only [loopN, h1, Bind.bind, Except.bind, g1]
        · simp only [loopN, h2, Bind.bind, Except.bind, g2]

/-- the object after a run is at the last recorded point -/
theorem loop_at (I : Stepper σ P Y) (dt : ℝ) (before : Option (W → ℝ → Y → P × W)) (after : Option (W → ℝ → Y → Q × W))
    (Inv : σ → ℝ → Y → Prop)
    (hstep : ∀ o t y kw r p, Inv o t y → I.step o dt kw = .ok (r, p) → Inv (I.accept p r) r.t r.y)
    (t0 : ℝ) (y0 : Y) (m : ℕ) : ∀ (l k : LoopState σ P Q W Y), Inv l.obj (l.tRes.getLastD t0) (l.yRes.getLastD y0) →
    l.tRes ≠ [] → l.yRes ≠ [] → loopN I t0 y0 dt before after m l = .ok k →
    Inv k.obj (k.tRes.getLastD t0) (k.yRes.getLastD y0) ∧ k.tRes ≠ [] ∧ k.yRes ≠ [] := by
  induction m with
  | zero => intro l k h h1 h2 he; cases he; exact ⟨h, h1, h2⟩
  | succ m ih =>
    intro l k h h1 h2 he
    simp only [loopN] at he
    obtain ⟨l1, e1, e2⟩ := bind_ok he
    unfold loopBody at e1
    obtain ⟨⟨r, p⟩, f1, f2⟩ := bind_ok e1
    cases f2
    refine ih _ k ?_ (by simp) (by simp) e2
    simp only [List.getLastD_concat]
    exact hstep _ _ _ _ _ _ h f1

/-- a run may be cut in two if the result of a step is a function of the current time and state only -/
theorem restartable_of (I : Stepper σ P Y) (new : ℝ → Y → Py σ) (dt : ℝ) (Inv : σ → ℝ → Y → Prop)
    (hok : ∀ t y, (∃ s, new t y = .ok s) ∨ ∃ e, ∀ t y, new t y = .error e)
    (hnew : ∀ t y s, new t y = .ok s → Inv s t y)
    (hstep : ∀ o t y kw r p, Inv o t y → I.step o dt kw = .ok (r, p) → Inv (I.accept p r) r.t r.y)
    (hsame : ∀ o o' t y kw, Inv o t y → Inv o' t y → (I.step o dt kw).map Prod.fst = (I.step o' dt kw).map Prod.fst) :
    Restartable I new dt := by
  intro Q W before after t0 y0 a b w
  unfold freshRun
  rcases hok t0 y0 with ⟨s, hs⟩ | ⟨e, he⟩
  · rw [hs]
    simp only [Bind.bind, Except.bind, Pure.pure, Except.pure]
    unfold integrateOrmatex
    rw [loopN_add]
    simp only [Bind.bind, Except.bind]
    cases h1 : loopN I t0 y0 dt before after a (LoopState.mk s [t0] [y0] [] [] w) with
    | error e => rfl
    | ok l1 =>
      obtain ⟨g1, g2, g3⟩ := loop_at I dt before after Inv hstep t0 y0 a _ l1 (hnew t0 y0 s hs) (by simp) (by simp) h1
      simp only [seen]
      rcases hok (l1.tRes.getLastD t0) (l1.yRes.getLastD y0) with ⟨s1, hs1⟩ | ⟨e, he⟩
      · rw [hs1]
        simp only
        have hF : Follows (seen l1) l1 (LoopState.mk s1 [l1.tRes.getLastD t0] [l1.yRes.getLastD y0] [] [] l1.world : LoopState σ P Q W Y) := by
          refine Follows.mk (by simp) (by simp) (by simp [seen]) (by simp [seen]) (by simp [seen]) (by simp [seen]) rfl ?_ ?_
          · intro d d'
            obtain ⟨x, xs, hx⟩ := List.exists_cons_of_ne_nil g2
            rw [hx]
            simp only [List.getLastD_cons, List.getLastD_nil]
          · intro d d'
            obtain ⟨x, xs, hx⟩ := List.exists_cons_of_ne_nil g3
            rw [hx]
            simp only [List.getLastD_cons, List.getLastD_nil]
        rcases loop_follows I dt before after Inv hstep hsame (seen l1) t0 (l1.tRes.getLastD t0) y0 (l1.yRes.getLastD y0) b l1 _ hF
          ⟨_, _, g1, hnew _ _ _ hs1⟩ with ⟨e, k1, k2⟩ | ⟨k, k', k1, k2, k3⟩
        · rw [k1, k2]
        · rw [k1, k2]
          simp only [seen, Seen.append]
          rw [k3.times, k3.states, k3.bef, k3.aft, k3.world]
          rfl
      · rw [he] at hs; cases hs
  · rw [he]; rfl

end generic

variable {n : ℕ} {P : Type} [EmptyCollection P]

/-! ### The three families -/

theorem remf_same (sys : OdeSys n P) {b b' : Base (Vec n)} {t : ℝ} {y : Vec n} (h : At b t y) (h' : At b' t y) :
    remf sys b = remf sys b' := by
  funext tr yr F J v
  unfold remf
  rw [h.tNew, h.yNew, h'.tNew, h'.yNew]

theorem remfSplit_same (sys : OdeSys n P) {b b' : Base (Vec n)} {t : ℝ} {y : Vec n} (h : At b t y) (h' : At b' t y) :
    remfSplit sys b = remfSplit sys b' := by
  funext tr yr F J
  unfold remfSplit
  rw [h.yNew, h'.yNew]

theorem base_time_same {b b' : Base (Vec n)} {t : ℝ} {y : Vec n} (h : At b t y) (h' : At b' t y) :
    b.t = b'.t ∧ b.yHist.get 0 = b'.yHist.get 0 :=
  ⟨h.time.trans h'.time.symm, h.yNew.trans h'.yNew.symm⟩

/-- a step of a one-step Rosenbrock method is a function of the current time and state -/
theorem rb_step_same (hasRust : Bool) (K : Kernels n) (sys : OdeSys n P) {s s' : ExpRB n} {t : ℝ} {y : Vec n} (h : At s.base t y)
    (h' : At s'.base t y) (hm : s.base.method = s'.base.method) (hne : s.base.method ≠ "epi3") (htol : s.tolFdt = s'.tolFdt) (dt : ℝ)
    (kw : Option P) : ExpRB.step hasRust K sys s dt kw = ExpRB.step hasRust K sys s' dt kw := by
  obtain ⟨e1, e2⟩ := base_time_same h h'
  have e3 := remf_same sys h h'
  unfold ExpRB.step
  simp only [← hm]
  rw [if_neg hne, if_neg hne]
  simp only [stepExprb2, stepExprb3, stepPexprb4, fUn2, fUn3, stepEpi2, stepExprb2Dense, stepExprb2Pfd, stepExpPfd, stepExprb2PfdRs,
    stepExpPfdRs, e1, e2, e3, htol]

/-- **C129 (Rosenbrock and EPI2 methods).** -/
theorem C129_rosenbrock_partial (hasRust : Bool) (K : Kernels n) (sys : OdeSys n P) (method : String) (hne : method ≠ "epi3") (tol dt : ℝ) :
    Restartable (rbStepper hasRust K sys) (fun t0 y0 => ExpRB.new hasRust t0 y0 method tol) dt := by
  refine restartable_of _ _ dt (fun o t y => At o.base t y ∧ o.base.method = method ∧ o.tolFdt = tol ∧
    (Nonempty2 o.base ∧ 0 < o.base.yHist.maxlen ∧ o.base.tHist.maxlen = o.base.yHist.maxlen)) ?_ ?_ ?_ ?_
  · intro t y
    unfold ExpRB.new
    cases ExpRB.validMethods.lookup method with
    | none => right; exact ⟨_, fun _ _ => rfl⟩
    | some p =>
      by_cases hr : hasPfdRs method ∧ ¬ hasRust = true
      · right; exact ⟨.attribute, fun _ _ => by simp only [if_pos hr]⟩
      · simp only [if_neg hr]
        by_cases hp : 0 < p
        · left; simp only [Base.init, if_pos hp]; exact ⟨_, rfl⟩
        · right; exact ⟨.assertion, fun _ _ => by simp only [Base.init, if_neg hp]; rfl⟩
  · intro t y s hs
    exact rb_new_at hs
  · rintro o t y kw r p ⟨h1, h2, h3, h4⟩ he
    obtain ⟨rfl, -⟩ := keep_ok he
    exact ⟨at_accept h4.2 r, h2, h3, accept_nonempty h4 r⟩
  · rintro o o' t y kw ⟨h1, h2, h3, -⟩ ⟨g1, g2, g3, -⟩
    show (keep o (ExpRB.step hasRust K sys o dt kw)).map Prod.fst = (keep o' (ExpRB.step hasRust K sys o' dt kw)).map Prod.fst
    rw [rb_step_same hasRust K sys h1 g1 (h2.trans g2.symm) (by rw [h2]; exact hne) (h3.trans g3.symm)]
    unfold keep
    cases ExpRB.step hasRust K sys o' dt kw <;> rfl

/-- **C129 (the explicit Runge-Kutta method).** -/
theorem C129_rk (sys : OdeSys n P) (method : String) (dt : ℝ) :
    Restartable (rkStepper sys) (fun t0 y0 => RK.new t0 y0 method) dt := by
  refine restartable_of _ _ dt (fun o t y => At o t y ∧ o.method = method ∧
    (Nonempty2 o ∧ 0 < o.yHist.maxlen ∧ o.tHist.maxlen = o.yHist.maxlen)) ?_ ?_ ?_ ?_
  · intro t y
    unfold RK.new
    cases RK.validMethods.lookup method with
    | none => right; exact ⟨_, fun _ _ => rfl⟩
    | some p =>
      by_cases hp : 0 < p
      · left; simp only [Base.init, if_pos hp]; exact ⟨_, rfl⟩
      · right; exact ⟨.assertion, fun _ _ => by simp only [Base.init, if_neg hp]⟩
  · intro t y s hs
    unfold RK.new at hs
    split at hs
    · cases hs
    · refine ⟨at_init hs, ?_, init_nonempty hs⟩
      unfold Base.init at hs
      split at hs
      · cases hs; rfl
      · cases hs
  · rintro o t y kw r p ⟨h1, h2, h4⟩ he
    obtain ⟨rfl, -⟩ := keep_ok he
    exact ⟨at_accept h4.2 r, h2, accept_nonempty h4 r⟩
  · rintro o o' t y kw ⟨h1, h2, -⟩ ⟨g1, g2, -⟩
    show (keep o (RK.step sys o dt kw)).map Prod.fst = (keep o' (RK.step sys o' dt kw)).map Prod.fst
    obtain ⟨e1, e2⟩ := base_time_same h1 g1
    have : RK.step sys o dt kw = RK.step sys o' dt kw := by
      unfold RK.step stepRk4
      rw [h2, g2, e1, e2]
    rw [this]
    unfold keep
    cases RK.step sys o' dt kw <;> rfl

theorem keep_fst {σ α : Type} (s : σ) (r : Py α) : (keep s r).map Prod.fst = r := by
  unfold keep
  cases r <;> rfl

/-- a cold dense step is a function of the current time and state -/
theorem split_cold_same (K : Kernels n) (sys : OdeSys n P) {s s' : ExpSplit n} {t : ℝ} {y : Vec n} (h : At s.base t y)
    (h' : At s'.base t y) (hm : s.base.method = s'.base.method) (dt : ℝ) (kw : Option P) (hc : s.cachedDt = none) (hc' : s'.cachedDt = none) :
    (ExpSplit.step K sys s dt kw).map Prod.fst = (ExpSplit.step K sys s' dt kw).map Prod.fst := by
  obtain ⟨e1, e2⟩ := base_time_same h h'
  have e3 := remfSplit_same sys h h'
  have n1 : ¬ cacheHit s.cachedDt dt := by rw [hc]; exact id
  have n2 : ¬ cacheHit s'.cachedDt dt := by rw [hc']; exact id
  unfold ExpSplit.step
  simp only [← hm]
  split
  · rw [keep_fst, keep_fst]; simp only [stepExp1, e1, e2]
  · split
    · rw [keep_fst, keep_fst]; simp only [stepExp2, e1, e2, e3]
    · split
      · rw [keep_fst, keep_fst]; simp only [stepExp3, e1, e2, e3]
      · split
        · simp only [stepExp1Dense, updateDensePhiLs, if_neg n1, if_neg n2, e1, e2]
          rw [h'.yNew]
          simp only [Bind.bind, Except.bind, Pure.pure, Except.pure]
          cases (sys.fl s'.base.t y).dense with
          | error e => rfl
          | ok L =>
            simp only
            cases fillPhiLs K dt L [(1, [1])] (fun _ => none) with
            | error e => rfl
            | ok d =>
              simp only [optGet]
              cases dictGet d (1, 1) <;> rfl
        · split
          · simp only [stepExp2Dense, updateDensePhiLs, if_neg n1, if_neg n2, e1, e2]
            rw [h'.yNew]
            simp only [Bind.bind, Except.bind, Pure.pure, Except.pure]
            cases (sys.fl s'.base.t y).dense with
            | error e => rfl
            | ok L =>
              simp only
              cases fillPhiLs K dt L [(2 / 3, [1]), (1, [1, 2])] (fun _ => none) with
              | error e => rfl
              | ok d =>
                simp only [optGet]
                cases dictGet d (2 / 3, 1) with
                | error e => rfl
                | ok m1 =>
                  simp only
                  cases dictGet d (1, 1) with
                  | error e => rfl
                  | ok m2 => simp only; cases dictGet d (1, 2) <;> rfl
          · split
            · simp only [stepExp3Dense, updateDensePhiLs, if_neg n1, if_neg n2, e1, e2]
              rw [h'.yNew]
              simp only [Bind.bind, Except.bind, Pure.pure, Except.pure]
              cases (sys.fl s'.base.t y).dense with
              | error e => rfl
              | ok L =>
                simp only
                cases fillPhiLs K dt L [(2 / 3, [1]), (2 / 3, [1, 2]), (1, [1, 2])] (fun _ => none) with
                | error e => rfl
                | ok d =>
                  simp only [optGet]
                  cases dictGet d (2 / 3, 1) with
                  | error e => rfl
                  | ok m1 =>
                    simp only
                    cases dictGet d (2 / 3, 2) with
                    | error e => rfl
                    | ok m2 =>
                      simp only
                      cases dictGet d (1, 1) with
                      | error e => rfl
                      | ok m3 => simp only; cases dictGet d (1, 2) <;> rfl
            · rfl

/-- **C129 (splitting methods, constant linear part).** -/
theorem C129_split_partial (K : Kernels n) (sys : OdeSys n P) (lop : LinOp n) (hL : ∀ t y, sys.fl t y = lop) (method : String) (dt : ℝ) :
    Restartable (splitStepper K sys) (fun t0 y0 => ExpSplit.new t0 y0 method) dt := by
  refine restartable_of _ _ dt (fun o t y => At o.base t y ∧ o.base.method = method ∧ Coherent K lop o ∧
    (Nonempty2 o.base ∧ 0 < o.base.yHist.maxlen ∧ o.base.tHist.maxlen = o.base.yHist.maxlen)) ?_ ?_ ?_ ?_
  · intro t y
    unfold ExpSplit.new
    cases ExpSplit.validMethods.lookup method with
    | none => right; exact ⟨_, fun _ _ => rfl⟩
    | some p =>
      by_cases hp : 0 < p
      · left; simp only [Base.init, if_pos hp]; exact ⟨_, rfl⟩
      · right; exact ⟨.assertion, fun _ _ => by simp only [Base.init, if_neg hp]; rfl⟩
  · intro t y s hs
    exact split_new_at hs
  · rintro o t y kw r p ⟨h1, h2, h3, h4⟩ he
    have hb : p.base = o.base := split_step_base K sys o p dt kw r he
    have hco : Coherent K lop p := dense_step_coherent K sys lop hL o p h3 dt kw r he
    refine ⟨?_, ?_, ?_, ?_⟩
    · show At (p.base.acceptStep r) r.t r.y
      rw [hb]; exact at_accept h4.2 r
    · show (p.base.acceptStep r).method = method
      rw [hb]; exact h2
    · exact hco
    · show Nonempty2 (p.base.acceptStep r) ∧ 0 < (p.base.acceptStep r).yHist.maxlen ∧ (p.base.acceptStep r).tHist.maxlen = (p.base.acceptStep r).yHist.maxlen
      rw [hb]
      exact accept_nonempty h4 r
  · rintro o o' t y kw ⟨h1, h2, h3, -⟩ ⟨g1, g2, g3, -⟩
    show (ExpSplit.step K sys o dt kw).map Prod.fst = (ExpSplit.step K sys o' dt kw).map Prod.fst
    have hcold : ∀ s : ExpSplit n, Coherent K lop s → ∀ {t : ℝ} {y : Vec n}, At s.base t y →
        (ExpSplit.step K sys s dt kw).map Prod.fst = (ExpSplit.step K sys (cold s) dt kw).map Prod.fst := by
      intro s hs t y hat
      by_cases hm : s.base.method = "exp1_dense" ∨ s.base.method = "exp2_dense" ∨ s.base.method = "exp3_dense"
      · rw [dense_step_cold K sys lop hL s hs dt kw hm]
      · push Not at hm
        obtain ⟨m1, m2, m3⟩ := hm
        unfold ExpSplit.step
        simp only [show (cold s).base = s.base from rfl, if_neg m1, if_neg m2, if_neg m3]
        split
        · rw [keep_fst, keep_fst]; rfl
        · split
          · rw [keep_fst, keep_fst]; rfl
          · split
            · rw [keep_fst, keep_fst]; rfl
            · rfl
    rw [hcold o h3 h1, hcold o' g3 g1]
    exact split_cold_same K sys (s := cold o) (s' := cold o') h1 g1 (h2.trans g2.symm) dt kw rfl rfl

/-! ### `epi3` -/

/-- `y' = t^3` in one component, with the exact Jacobian (zero) and time derivative -/
noncomputable def cubicSys : OdeSys 1 P where
  frhs _ t _ := fun _ => t ^ 3
  fjac _ t u := customJac (fun t _ => fun _ => t ^ 3) t u 0 (some fun _ => 3 * t ^ 2) 1
  fl _ _ := matrixLinOp 0

theorem cubic_matrix (kw : Option P) (t : ℝ) (y : Vec 1) : IsMatrix (cubicSys.fjac kw t y : SysJac 1).toLinOp 0 := fun _ => rfl

theorem cubic_euler (t dt : ℝ) (y : Vec 1) :
    rosEuler 0 y (fun _ => t ^ 3) (fun _ => 3 * t ^ 2) dt 1 = fun i => y i + dt * t ^ 3 + dt ^ 2 * (3 / 2 * t ^ 2) := by
  unfold rosEuler
  rw [smul_zero, phiM_at_zero, phiM_at_zero]
  funext i
  simp only [Matrix.smul_mulVec, Matrix.one_mulVec, Pi.add_apply, Pi.smul_apply, smul_eq_mul, Nat.factorial]
  push_cast
  ring

theorem cubic_exprb3 {K : Kernels 1} (hK : ExactKernels K) {s : ExpRB 1} {t : ℝ} {y : Vec 1} (hb : At s.base t y)
    (dt : ℝ) (kw : P) (hneg : s.tolFdt = 0) :
    stepExprb3 K cubicSys s dt kw = .ok (StepResult.mk (t + dt) dt (fun i => y i + dt * t ^ 3 + dt ^ 2 * (3 / 2 * t ^ 2) + t * dt ^ 3 + dt ^ 4 / 3) (-1)) := by
  rw [exprb3_closed hK cubicSys s hb dt kw 0 (cubic_matrix _ _ _)]
  have he : effFdt s.tolFdt ((cubicSys.fjac (some kw) t y : SysJac 1)).fdt = fun _ => 3 * t ^ 2 := by
    unfold effFdt
    show (if 0 ≤ s.tolFdt ∧ s.tolFdt < ‖(fun _ => 3 * t ^ 2 : Vec 1)‖ then (fun _ => 3 * t ^ 2 : Vec 1) else 0) = _
    rw [hneg]
    by_cases h : (fun _ => 3 * t ^ 2 : Vec 1) = 0
    · rw [h]; simp
    · rw [if_pos ⟨le_refl _, norm_pos_iff.2 h⟩]
  have hF : (cubicSys.fjac (some kw) t y : SysJac 1).frhsCached = fun _ => t ^ 3 := rfl
  simp only [he, hF, cubic_euler]
  congr 2
  rw [smul_zero, phiM_at_zero]
  funext i
  have : (cubicSys : OdeSys 1 P).frhs none (t + dt) (fun i => y i + dt * t ^ 3 + dt ^ 2 * (3 / 2 * t ^ 2)) = fun _ => (t + dt) ^ 3 := rfl
  rw [this]
  simp [Matrix.smul_mulVec, Nat.factorial]
  ring

theorem cubic_epi3 {K : Kernels 1} (hK : ExactKernels K) {s : ExpRB 1} {t tp : ℝ} {y yp : Vec 1} (hb : At s.base t y)
    (htp : s.base.tHist.get 1 = .ok tp) (hyp : s.base.yHist.get 1 = .ok yp) (dt : ℝ) (kw : P) :
    stepEpi3 K cubicSys s dt kw = .ok (StepResult.mk (t + dt) dt
      (fun i => y i + dt * t ^ 3 + dt ^ 2 * (3 / 2 * t ^ 2) + dt / 3 * (tp ^ 3 - t ^ 3 - (tp - t) * (3 * t ^ 2))) (-1)) := by
  rw [epi3_closed hK cubicSys s hb dt kw 0 (cubic_matrix _ _ _) tp yp htp hyp]
  have hd : (cubicSys.fjac (some kw) t y : SysJac 1).fdt = fun _ => 3 * t ^ 2 := rfl
  have hF : (cubicSys.fjac (some kw) t y : SysJac 1).frhsCached = fun _ => t ^ 3 := rfl
  simp only [hd, hF, cubic_euler]
  congr 2
  rw [smul_zero, phiM_at_zero]
  funext i
  have : (cubicSys : OdeSys 1 P).frhs none tp yp = fun _ => tp ^ 3 := rfl
  rw [this]
  simp [Matrix.smul_mulVec, Nat.factorial]
  ring

/-- what `Restartable` says about the second of two steps -/
theorem restart_second {σ P Y : Type} {I : Stepper σ P Y} {new : ℝ → Y → Py σ} {dt : ℝ} (h : Restartable I new dt) {t0 : ℝ} {y0 : Y}
    {s0 s1 : σ} {r1 r2 r' : StepResult Y} {p1 p2 p' : σ} (e0 : new t0 y0 = .ok s0) (e1 : I.step s0 dt none = .ok (r1, p1))
    (e2 : I.step (I.accept p1 r1) dt none = .ok (r2, p2)) (e3 : new r1.t r1.y = .ok s1) (e4 : I.step s1 dt none = .ok (r', p')) :
    r2.y = r'.y := by
  have key := h Unit Unit none none t0 y0 1 1 ()
  have h1 : freshRun I new dt (none : Option (Unit → ℝ → Y → P × Unit)) (none : Option (Unit → ℝ → Y → Unit × Unit)) t0 y0 1 () =
      .ok (Seen.mk [t0, r1.t] [y0, r1.y] [] [] ()) := by
    simp [freshRun, integrateOrmatex, loopN, loopBody, callBefore, callAfter, seen, e0, e1, Bind.bind, Except.bind, Pure.pure, Except.pure]
  have h2 : freshRun I new dt (none : Option (Unit → ℝ → Y → P × Unit)) (none : Option (Unit → ℝ → Y → Unit × Unit)) r1.t r1.y 1 () =
      .ok (Seen.mk [r1.t, r'.t] [r1.y, r'.y] [] [] ()) := by
    simp [freshRun, integrateOrmatex, loopN, loopBody, callBefore, callAfter, seen, e3, e4, Bind.bind, Except.bind, Pure.pure, Except.pure]
  have h3 : freshRun I new dt (none : Option (Unit → ℝ → Y → P × Unit)) (none : Option (Unit → ℝ → Y → Unit × Unit)) t0 y0 (1 + 1) () =
      .ok (Seen.mk [t0, r1.t, r2.t] [y0, r1.y, r2.y] [] [] ()) := by
    simp [freshRun, integrateOrmatex, loopN, loopBody, callBefore, callAfter, seen, e0, e1, e2, Bind.bind, Except.bind, Pure.pure, Except.pure]
  rw [h3, h1] at key
  simp only [Bind.bind, Except.bind, List.getLastD_cons] at key
  have h2' : freshRun I new dt (none : Option (Unit → ℝ → Y → P × Unit)) (none : Option (Unit → ℝ → Y → Unit × Unit))
      ([r1.t].getLastD t0) ([r1.y].getLastD y0) 1 () = .ok (Seen.mk [r1.t, r'.t] [r1.y, r'.y] [] [] ()) := h2
  simp only [List.getLastD_nil, h2, Pure.pure, Except.pure, Seen.append, List.tail_cons, List.cons_append, List.nil_append, Except.ok.injEq, Seen.mk.injEq,
    List.cons.injEq] at key
  exact key.2.1.2.2.1

/-- **C129 is false for `epi3`**: its second step uses the previous point, which a new integrator does not have. -/
theorem C129_epi3_false (hasRust : Bool) {K : Kernels 1} (hK : ExactKernels K) :
    ¬ Restartable (rbStepper hasRust K (cubicSys : OdeSys 1 P)) (fun t0 y0 => ExpRB.new hasRust t0 y0 "epi3" 0) 1 := by
  intro h
  have hnew : ∀ (t : ℝ) (y : Vec 1), ExpRB.new hasRust t y "epi3" 0 = .ok (ExpRB.mk (Base.mk t 3 "epi3" ⟨3, [t]⟩ ⟨3, [y]⟩) 0) := by
    intro t y; cases hasRust <;> rfl
  have hfirst : ∀ (t : ℝ) (y : Vec 1), (rbStepper hasRust K (cubicSys : OdeSys 1 P)).step (ExpRB.mk (Base.mk t 3 "epi3" ⟨3, [t]⟩ ⟨3, [y]⟩) 0) 1 none =
      .ok (StepResult.mk (t + 1) 1 (fun i => y i + 1 * t ^ 3 + 1 ^ 2 * (3 / 2 * t ^ 2) + t * 1 ^ 3 + 1 ^ 4 / 3) (-1),
        ExpRB.mk (Base.mk t 3 "epi3" ⟨3, [t]⟩ ⟨3, [y]⟩) 0) := by
    intro t y
    show keep _ (ExpRB.step hasRust K cubicSys _ 1 none) = _
    unfold ExpRB.step
    simp only [String.reduceEq, if_true, if_false]
    rw [if_neg (by simp [Deque.len]), cubic_exprb3 hK (t := t) (y := y) ⟨rfl, rfl, rfl⟩ 1 _ rfl]
    rfl
  have e2 : ∀ (t tp : ℝ) (y yp : Vec 1), (rbStepper hasRust K (cubicSys : OdeSys 1 P)).step (ExpRB.mk (Base.mk t 3 "epi3" ⟨3, [t, tp]⟩ ⟨3, [y, yp]⟩) 0) 1 none =
      .ok (StepResult.mk (t + 1) 1 (fun i => y i + 1 * t ^ 3 + 1 ^ 2 * (3 / 2 * t ^ 2) + 1 / 3 * (tp ^ 3 - t ^ 3 - (tp - t) * (3 * t ^ 2))) (-1),
        ExpRB.mk (Base.mk t 3 "epi3" ⟨3, [t, tp]⟩ ⟨3, [y, yp]⟩) 0) := by
    intro t tp y yp
    show keep _ (ExpRB.step hasRust K cubicSys _ 1 none) = _
    unfold ExpRB.step
    simp only [String.reduceEq, if_true, if_false]
    rw [if_pos (by simp [Deque.len]), cubic_epi3 hK (t := t) (tp := tp) (y := y) (yp := yp) ⟨rfl, rfl, rfl⟩ rfl rfl 1 _]
    rfl
  have := restart_second h (hnew 0 0) (hfirst 0 0) (e2 (0 + 1) 0 _ 0) (hnew _ _) (hfirst _ _)
  have := congrFun this 0
  norm_num at this

/-- **C129 is false for the dense splitting methods with a state-dependent linear part**: the cached phi functions of the first step are reused. -/
theorem C129_split_dense_false :
    ¬ Restartable (splitStepper (exactDense 1) stateDepSys) (fun t0 y0 => ExpSplit.new t0 y0 "exp1_dense") 1 := by
  intro h
  obtain ⟨s0, h0, hy0, hm0, hc0, hmax⟩ : ∃ s0 : ExpSplit 1, ExpSplit.new 0 (fun _ => 0) "exp1_dense" = .ok s0 ∧
      s0.base.yHist.get 0 = .ok (fun _ => 0) ∧ s0.base.method = "exp1_dense" ∧ s0.cachedDt = none ∧
      s0.base.yHist.maxlen = 1 := ⟨_, rfl, rfl, rfl, rfl, rfl⟩
  obtain ⟨s1, r1, h1, hr1, hc1, hb1, hp1⟩ := exp1_dense_miss s0 _ hy0 hm0 1 (by rw [hc0]; exact id)
  have hone : r1.y = fun _ => 1 := by
    rw [hr1]
    funext i
    have : (1 : ℝ) • (Matrix.of fun _ _ => (0 : ℝ) : Mat 1) = 0 := by rw [one_smul]; ext; rfl
    simp only [this, phiM_at_zero]
    simp [Nat.factorial]
  have hacc : (s1.acceptStep r1).base.yHist.get 0 = .ok r1.y := by
    simp [ExpSplit.acceptStep, Base.acceptStep, Deque.appendleft, Deque.get, hb1, hmax]
  obtain ⟨r2, h2, hr2⟩ := exp1_dense_hit (s1.acceptStep r1) _ hacc (by show s1.base.method = _; rw [hb1]; exact hm0) 1
    (by show cacheHit s1.cachedDt 1; rw [hc1]; exact ⟨one_ne_zero, rfl⟩) _ (by show s1.cachedPhiLs = _; exact hp1)
  obtain ⟨s0', h0', hy0', hm0', hc0'⟩ : ∃ s0' : ExpSplit 1, ExpSplit.new r1.t r1.y "exp1_dense" = .ok s0' ∧
      s0'.base.yHist.get 0 = .ok r1.y ∧ s0'.base.method = "exp1_dense" ∧ s0'.cachedDt = none := ⟨_, rfl, rfl, rfl, rfl⟩
  obtain ⟨s1', r', h3, hr3, -⟩ := exp1_dense_miss s0' _ hy0' hm0' 1 (by rw [hc0']; exact id)
  have key := restart_second h h0 h1 h2 h0' h3
  rw [hr2, hr3, hone] at key
  have k0 := congrFun key 0
  have z1 : (1 : ℝ) • (Matrix.of fun (_ _ : Fin 1) => (0 : ℝ)) = (0 : Mat 1) := by ext i j; simp
  have z2 : (1 : ℝ) • (Matrix.of fun (_ _ : Fin 1) => (1 : ℝ)) = (1 : Mat 1) := by
    ext i j
    fin_cases i; fin_cases j; simp
  rw [z1, z2, Spec.phiM_at_zero] at k0
  simp [Matrix.mulVec, dotProduct, phi1_scalar_one] at k0
  have := Real.exp_one_gt_d9
  norm_num at k0
  linarith

/-- the runs of `C129_rosenbrock_partial` need not raise: a step of `exprb3` on a time-dependent problem -/
example (hasRust : Bool) {K : Kernels 1} (hK : ExactKernels K) :
    Restartable (rbStepper hasRust K (cubicSys : OdeSys 1 P)) (fun t0 y0 => ExpRB.new hasRust t0 y0 "exprb3" 0) 1 ∧
    freshRun (rbStepper hasRust K (cubicSys : OdeSys 1 P)) (fun t0 y0 => ExpRB.new hasRust t0 y0 "exprb3" 0) 1
      (none : Option (Unit → ℝ → Vec 1 → P × Unit)) (none : Option (Unit → ℝ → Vec 1 → Unit × Unit)) 0 0 1 () =
      .ok (Seen.mk [0, 1] [0, fun _ => 1 / 3] [] [] ()) := by
  refine ⟨C129_rosenbrock_partial hasRust K cubicSys "exprb3" (by decide) 0 1, ?_⟩
  have hnew : ExpRB.new hasRust 0 (0 : Vec 1) "exprb3" 0 = .ok (ExpRB.mk (Base.mk 0 3 "exprb3" ⟨3, [0]⟩ ⟨3, [0]⟩) 0) := by
    cases hasRust <;> rfl
  have hfirst : (rbStepper hasRust K (cubicSys : OdeSys 1 P)).step (ExpRB.mk (Base.mk 0 3 "exprb3" ⟨3, [0]⟩ ⟨3, [0]⟩) 0) 1 none =
      .ok (StepResult.mk 1 1 (fun _ => 1 / 3) (-1), ExpRB.mk (Base.mk 0 3 "exprb3" ⟨3, [0]⟩ ⟨3, [0]⟩) 0) := by
    show keep _ (ExpRB.step hasRust K cubicSys _ 1 none) = _
    unfold ExpRB.step
    simp only [String.reduceEq, if_true, if_false]
    rw [cubic_exprb3 hK (t := 0) (y := 0) ⟨rfl, rfl, rfl⟩ 1 _ rfl]
    norm_num [keep]
    rfl
  simp [freshRun, integrateOrmatex, loopN, loopBody, callBefore, callAfter, seen, hnew, hfirst, Bind.bind, Except.bind, Pure.pure, Except.pure]

end Ormatex.Props
