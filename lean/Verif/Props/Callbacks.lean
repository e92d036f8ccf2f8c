import Verif.Props.Total

/-! Callbacks and time window: C10, C11, C12. -/

namespace Ormatex.Props
open Ormatex Matrix

variable {n : ℕ} {P : Type} [EmptyCollection P]
set_option linter.unusedSectionVars false

/-! ### C10 -/

/-- the call returns -/
def Tot {α : Type} (x : Py α) : Prop := ∃ a, x = .ok a

theorem Tot.bind {α β : Type} {x : Py α} {f : α → Py β} (hx : Tot x) (hf : ∀ a, x = .ok a → Tot (f a)) :
    Tot (x >>= f) := by
  obtain ⟨a, ha⟩ := hx
  obtain ⟨b, hb⟩ := hf a ha
  exact ⟨b, by rw [ha]; exact hb⟩

theorem Tot.pure {α : Type} {a : α} : Tot (Pure.pure a : Py α) := ⟨a, rfl⟩
theorem Tot.ok {α : Type} {a : α} : Tot (.ok a : Py α) := ⟨a, rfl⟩

theorem Tot.ite {α : Type} {c : Prop} [Decidable c] {x y : Py α} (hx : Tot x) (hy : Tot y) :
    Tot (if c then x else y) := by
  split <;> assumption

/-- The kernels return (no assumption on what). -/
structure TotalKernels (K : Kernels n) : Prop where
  phiLinop : ∀ A dt v k, Tot (K.phiLinop A dt v k)
  kiops : ∀ A dt b, 2 ≤ b.length → Tot (K.kiops A dt b)
  phiSqAll : ∀ z k, k ≤ 3 → ∃ l, K.phiSqAll z k = .ok l ∧ l.length = k + 1
  phiPfd : ∀ z b k, Tot (K.phiPfd z b k)

/-- both histories are nonempty and of the same length -/
def Nonempty2 {Y : Type} (b : Base Y) : Prop := 0 < b.yHist.items.length ∧ b.tHist.items.length = b.yHist.items.length

theorem get_tot {α : Type} {d : Deque α} {i : ℕ} (h : i < d.items.length) : Tot (d.get i) := by
  unfold Deque.get
  rw [List.getElem?_eq_getElem h]
  exact Tot.ok

theorem pyGet_tot {α : Type} {l : List α} {i : ℕ} (h : i < l.length) : Tot (pyGet l i) := by
  unfold pyGet
  rw [List.getElem?_eq_getElem h]
  exact Tot.ok

section tot
variable {K : Kernels n} (hK : TotalKernels K) {sys : OdeSys n P}
include hK

omit hK in
theorem tot_remf {b : Base (Vec n)} (hb : Nonempty2 b) (tr : ℝ) (yr f : Vec n) (J : LinOp n) (v : Vec n) :
    Tot (remf sys b tr yr f J v) :=
  (get_tot (by have := hb.1; have := hb.2; omega)).bind fun _ _ => (get_tot hb.1).bind fun _ _ => Tot.pure

omit hK in
theorem tot_remfSplit {b : Base (Vec n)} (hb : Nonempty2 b) (tr : ℝ) (yr f : Vec n) (J : LinOp n) :
    Tot (remfSplit sys b tr yr f J) :=
  (get_tot hb.1).bind fun _ _ => Tot.pure

theorem tot_phi2v (tol : ℝ) (jac : SysJac n) (dt c : ℝ) : Tot (phi2vNonauto K tol jac dt c) := by
  unfold phi2vNonauto
  refine Tot.ite ?_ Tot.pure
  refine Tot.ite ?_ Tot.pure
  exact (hK.phiLinop _ _ _ _).bind fun _ _ => Tot.pure

theorem tot_rb_step (hd : ∀ kw t y, Tot (sys.fjac kw t y).dense) (hasRust : Bool) (s : ExpRB n)
    (hb : Nonempty2 s.base) (dt : ℝ) (kw : Option P)
    (hm : s.base.method ∈ ["exprb2", "exprb3", "pexprb4", "epi2", "epi3", "exprb2_dense", "exprb2_pfd", "exp_pfd"] ∨
      hasRust = true ∧ s.base.method ∈ ["exprb2_pfd_rs", "exp_pfd_rs"]) :
    Tot (ExpRB.step hasRust K sys s dt kw) := by
  have h0 : Tot (s.base.yHist.get 0) := get_tot hb.1
  have h3 : ∀ kw, Tot (stepExprb3 K sys s dt kw) := fun kw => by
    unfold stepExprb3
    refine h0.bind fun _ _ => ?_
    refine (tot_phi2v hK _ _ _ _).bind fun _ _ => ?_
    refine (hK.phiLinop _ _ _ _).bind fun _ _ => ?_
    refine (tot_remf hb _ _ _ _ _).bind fun _ _ => ?_
    exact (hK.phiLinop _ _ _ _).bind fun _ _ => Tot.pure
  have h2 : ∀ kw, Tot (stepExprb2 K sys s dt kw) := fun kw => by
    unfold stepExprb2
    refine h0.bind fun _ _ => ?_
    refine (tot_phi2v hK _ _ _ _).bind fun _ _ => ?_
    exact (hK.phiLinop _ _ _ _).bind fun _ _ => Tot.pure
  have h4 : ∀ kw, Tot (stepPexprb4 K sys s dt kw) := fun kw => by
    unfold stepPexprb4 fUn2 fUn3 pexprb4Final
    refine h0.bind fun _ _ => ?_
    refine Tot.bind ?_ fun _ _ => ?_
    · refine (tot_phi2v hK _ _ _ _).bind fun _ _ => ?_
      refine (hK.phiLinop _ _ _ _).bind fun _ _ => ?_
      exact tot_remf hb _ _ _ _ _
    · refine Tot.bind ?_ fun _ _ => ?_
      · refine (tot_phi2v hK _ _ _ _).bind fun _ _ => ?_
        refine (hK.phiLinop _ _ _ _).bind fun _ _ => ?_
        exact (tot_remf hb _ _ _ _ _).bind fun _ _ => Tot.pure
      · exact (hK.kiops _ _ _ (by simp)).bind fun _ _ => Tot.pure
  have he2 : ∀ kw, Tot (stepEpi2 K sys s dt kw) := fun kw => by
    unfold stepEpi2
    refine h0.bind fun _ _ => ?_
    exact (hK.kiops _ _ _ (by simp)).bind fun _ _ => Tot.pure
  have he3 : ∀ kw, s.base.yHist.len ≥ 2 → Tot (stepEpi3 K sys s dt kw) := fun kw hl => by
    have hl : 2 ≤ s.base.yHist.items.length := hl
    unfold stepEpi3
    refine h0.bind fun _ _ => (get_tot (by omega)).bind fun _ _ =>
      (get_tot (by have := hb.2; omega)).bind fun _ _ => ?_
    refine (tot_remf hb _ _ _ _ _).bind fun _ _ => ?_
    exact (hK.kiops _ _ _ (by simp)).bind fun _ _ => Tot.pure
  have hde : Tot (stepExprb2Dense K sys s dt) := by
    unfold stepExprb2Dense
    refine h0.bind fun _ _ => (hd _ _ _).bind fun J _ => ?_
    obtain ⟨l, hl, hlen⟩ := hK.phiSqAll (dt • J) 2 (by norm_num)
    refine Tot.bind ⟨l, hl⟩ fun l' hl' => ?_
    rw [hl] at hl'
    cases hl'
    exact (pyGet_tot (by omega)).bind fun _ _ => (pyGet_tot (by omega)).bind fun _ _ => Tot.pure
  have hpf : ∀ kw, Tot (stepExprb2Pfd K sys s dt kw) := fun kw => by
    unfold stepExprb2Pfd
    refine h0.bind fun _ _ => (hd _ _ _).bind fun _ _ => ?_
    refine Tot.ite (Tot.ite ?_ ?_) ?_
    · exact (hK.phiPfd _ _ _).bind fun _ _ => (hK.phiPfd _ _ _).bind fun _ _ => Tot.pure
    · exact Tot.pure.bind fun _ _ => (hK.phiPfd _ _ _).bind fun _ _ => Tot.pure
    · exact Tot.pure.bind fun _ _ => (hK.phiPfd _ _ _).bind fun _ _ => Tot.pure
  have hep : ∀ kw, Tot (stepExpPfd K sys s dt kw) := fun kw => by
    unfold stepExpPfd
    refine h0.bind fun _ _ => (hd _ _ _).bind fun _ _ => ?_
    exact (hK.phiPfd _ _ _).bind fun _ _ => Tot.pure
  have hprs : Tot (stepExprb2PfdRs K sys s dt) := by
    unfold stepExprb2PfdRs
    exact h0.bind fun _ _ => (hd _ _ _).bind fun _ _ => Tot.pure
  have hers : Tot (stepExpPfdRs K sys s dt) := by
    unfold stepExpPfdRs
    exact h0.bind fun _ _ => (hd _ _ _).bind fun _ _ => Tot.pure
  unfold ExpRB.step
  simp only
  rcases hm with hm | ⟨hr, hm⟩
  · simp only [List.mem_cons, List.not_mem_nil, or_false] at hm
    rcases hm with hm | hm | hm | hm | hm | hm | hm | hm <;> rw [hm] <;>
      simp only [String.reduceEq, if_true, if_false]
    · exact h2 _
    · exact h3 _
    · exact h4 _
    · exact he2 _
    · split
      · exact he3 _ (by assumption)
      · exact h3 _
    · exact hde
    · exact hpf _
    · exact hep _
  · simp only [List.mem_cons, List.not_mem_nil, or_false] at hm
    rcases hm with hm | hm <;> rw [hm] <;>
      simp only [String.reduceEq, hr, if_true, if_false, true_and, false_and]
    · exact hprs
    · exact hers

/-- The dictionary has the entries a coefficient list asks for. -/
def HasKeys (d : PhiDict n) (cks : List (ℝ × List ℕ)) : Prop := ∀ c ks k, (c, ks) ∈ cks → k ∈ ks → ∃ X, d (c, k) = some X

theorem tot_fill (dt : ℝ) (L : Mat n) (cks : List (ℝ × List ℕ)) (hk : ∀ p ∈ cks, listMax p.2 ≤ 3 ∧ ∀ k ∈ p.2, k ≤ listMax p.2)
    (d : PhiDict n) : ∃ d', fillPhiLs K dt L cks d = .ok d' ∧ HasKeys d' cks ∧ ∀ ck, (∃ X, d ck = some X) → ∃ X, d' ck = some X := by
  induction cks generalizing d with
  | nil => exact ⟨d, rfl, by rintro c ks k h; simp at h, fun _ h => h⟩
  | cons c cks ih =>
    obtain ⟨c, ks⟩ := c
    obtain ⟨l, hl, hlen⟩ := hK.phiSqAll ((dt * c) • L) (listMax ks) (hk (c, ks) (by simp)).1
    have key : ∀ (ks' : List ℕ) (hks : ∀ k ∈ ks', k < l.length) (d : PhiDict n), ∃ d' : PhiDict n,
        ks'.foldlM (fun d k => do
          let x ← pyGet l k
          pure (Function.update d (c, k) (some x))) d = (.ok d' : Py (PhiDict n)) ∧
        (∀ k ∈ ks', ∃ X, d' (c, k) = some X) ∧ ∀ ck, (∃ X, d ck = some X) → ∃ X, d' ck = some X := by
      intro ks'
      induction ks' with
      | nil => intro _ d; exact ⟨d, rfl, by simp, fun _ h => h⟩
      | cons k ks' ihk =>
        intro hks d
        obtain ⟨x, hx⟩ := pyGet_tot (hks k (by simp))
        obtain ⟨d', h1, h2, h3⟩ := ihk (fun k hk => hks k (by simp [hk])) (Function.update d (c, k) (some x))
        refine ⟨d', ?_, ?_, ?_⟩
        · rw [List.foldlM_cons, hx]; exact h1
        · intro k' hk'
          rcases List.mem_cons.1 hk' with rfl | hk'
          · exact h3 _ ⟨x, by simp⟩
          · exact h2 _ hk'
        · rintro ck ⟨X, hX⟩
          refine h3 _ ?_
          by_cases h : ck = (c, k)
          · exact ⟨x, by simp [h]⟩
          · exact ⟨X, by simp [Function.update_of_ne h, hX]⟩
    obtain ⟨d1, h1, h2, h3⟩ := key ks (fun k hk' => by
      have := (hk (c, ks) (by simp)).2 k hk'; simp only at this; omega) d
    obtain ⟨d', g1, g2, g3⟩ := ih (fun p hp => hk p (by simp [hp])) d1
    refine ⟨d', ?_, ?_, fun ck h => g3 _ (h3 _ h)⟩
    · unfold fillPhiLs
      rw [hl]
      show ((ks.foldlM (fun d k => do
          let x ← pyGet l k
          pure (Function.update d (c, k) (some x))) d : Py (PhiDict n)) >>= _) = _
      rw [h1]
      exact g1
    · intro c' ks' k hmem hk'
      rcases List.mem_cons.1 hmem with h | h
      · cases h; exact g3 _ (h2 _ hk')
      · exact g2 _ _ _ h hk'

/-- The cache of a splitting integrator is complete for its method. -/
def CacheOk (s : ExpSplit n) : Prop := ∀ c, s.cachedDt = some c →
  (∃ lop, s.cachedSysLop = some lop) ∧ ∃ d, s.cachedPhiLs = some d ∧ HasKeys d (cksOf s.base.method)

theorem tot_update (hd : ∀ t y, Tot (sys.fl t y).dense) (s : ExpSplit n) (hb : Nonempty2 s.base) (hc : CacheOk s) (dt : ℝ) :
    ∃ s', updateDensePhiLs K sys s dt (cksOf s.base.method) = .ok s' ∧ CacheOk s' ∧ s'.base = s.base ∧
      (∃ lop, s'.cachedSysLop = some lop) ∧ ∃ d, s'.cachedPhiLs = some d ∧ HasKeys d (cksOf s.base.method) := by
  unfold updateDensePhiLs
  split
  · rename_i hit
    refine ⟨s, rfl, hc, rfl, ?_⟩
    cases hdt : s.cachedDt with
    | none => rw [hdt] at hit; exact hit.elim
    | some c => exact hc c hdt
  · obtain ⟨y, hy⟩ := get_tot hb.1
    obtain ⟨L, hL⟩ := hd s.base.t y
    have hks : ∀ p ∈ cksOf s.base.method, listMax p.2 ≤ 3 ∧ ∀ k ∈ p.2, k ≤ listMax p.2 := by
      intro p hp
      unfold cksOf at hp
      split at hp
      · simp only [List.mem_singleton] at hp; subst hp; simp [listMax]
      split at hp
      · simp only [List.mem_cons, List.not_mem_nil, or_false] at hp
        rcases hp with rfl | rfl <;> simp [listMax]
      · simp only [List.mem_cons, List.not_mem_nil, or_false] at hp
        rcases hp with rfl | rfl | rfl <;> simp [listMax]
    obtain ⟨d, hf, hkeys, _⟩ := tot_fill hK dt L _ hks (fun _ => none)
    refine ⟨ExpSplit.mk s.base (some dt) (some (sys.fl s.base.t y)) (some d), ?_, ?_, rfl, ⟨_, rfl⟩, ⟨d, rfl, hkeys⟩⟩
    · rw [hy]
      show ((sys.fl s.base.t y).dense >>= _) = _
      rw [hL]
      show (fillPhiLs _ _ _ _ _ >>= _) = _
      rw [hf]
      rfl
    intro c _
    exact ⟨⟨_, rfl⟩, _, rfl, hkeys⟩

omit hK in
theorem dictGet_tot {d : PhiDict n} {cks : List (ℝ × List ℕ)} (h : HasKeys d cks) {c : ℝ} {k : ℕ} {ks : List ℕ}
    (h1 : (c, ks) ∈ cks) (h2 : k ∈ ks) : Tot (dictGet d (c, k)) := by
  obtain ⟨X, hX⟩ := h c ks k h1 h2
  unfold dictGet
  rw [hX]; exact Tot.ok

theorem tot_split_step (hd : ∀ t y, Tot (sys.fl t y).dense) (s : ExpSplit n) (hb : Nonempty2 s.base) (hc : CacheOk s)
    (dt : ℝ) (kw : Option P)
    (hm : s.base.method ∈ ["exp1", "exp2", "exp3", "exp1_dense", "exp2_dense", "exp3_dense"]) :
    ∃ r s', ExpSplit.step K sys s dt kw = .ok (r, s') ∧ CacheOk s' := by
  have h0 : Tot (s.base.yHist.get 0) := get_tot hb.1
  have fromTot : ∀ {x : Py (StepResult (Vec n))}, Tot x → ∃ r s', keep s x = .ok (r, s') ∧ CacheOk s' := by
    rintro x ⟨a, rfl⟩; exact ⟨a, s, rfl, hc⟩
  obtain ⟨s', hu, hcs, hbs, ⟨lop, hlop⟩, d, hd', hkeys⟩ := tot_update hK (sys := sys) hd s hb hc dt
  obtain ⟨y, hy⟩ := h0
  unfold ExpSplit.step
  simp only
  simp only [List.mem_cons, List.not_mem_nil, or_false] at hm
  rcases hm with hm | hm | hm | hm | hm | hm <;> rw [hm] <;>
    simp only [String.reduceEq, if_true, if_false]
  · refine fromTot ?_
    unfold stepExp1
    exact Tot.bind ⟨y, hy⟩ fun _ _ => (hK.phiLinop _ _ _ _).bind fun _ _ => Tot.pure
  · refine fromTot ?_
    unfold stepExp2
    refine Tot.bind ⟨y, hy⟩ fun _ _ => (hK.phiLinop _ _ _ _).bind fun _ _ => ?_
    exact (tot_remfSplit hb _ _ _ _).bind fun _ _ => (hK.phiLinop _ _ _ _).bind fun _ _ => Tot.pure
  · refine fromTot ?_
    unfold stepExp3
    refine Tot.bind ⟨y, hy⟩ fun _ _ => (hK.phiLinop _ _ _ _).bind fun _ _ => ?_
    refine (tot_remfSplit hb _ _ _ _).bind fun _ _ => (hK.phiLinop _ _ _ _).bind fun _ _ => ?_
    refine (tot_remfSplit hb _ _ _ _).bind fun _ _ => (hK.phiLinop _ _ _ _).bind fun _ _ => ?_
    exact (hK.phiLinop _ _ _ _).bind fun _ _ => Tot.pure
  · rw [hm] at hkeys hu
    obtain ⟨X, hX⟩ := hkeys 1 [1] 1 (by simp [cksOf]) (by simp)
    have hu' : updateDensePhiLs K sys s dt [(1, [1])] = .ok s' := by simpa [cksOf] using hu
    unfold stepExp1Dense
    simp [hy, hu', hd', optGet, dictGet, hX, bind, Except.bind, pure, Except.pure]
    exact hcs
  · rw [hm] at hkeys hu
    have hu' : updateDensePhiLs K sys s dt [((2 : ℝ) / 3, [1]), (1, [1, 2])] = .ok s' := by simpa [cksOf] using hu
    obtain ⟨X, hX⟩ := hkeys (2 / 3) [1] 1 (by simp [cksOf]) (by simp)
    obtain ⟨X1, hX1⟩ := hkeys 1 [1, 2] 1 (by simp [cksOf]) (by simp)
    obtain ⟨X2, hX2⟩ := hkeys 1 [1, 2] 2 (by simp [cksOf]) (by simp)
    unfold stepExp2Dense
    simp only [hy, hu', hd', hlop, optGet, dictGet, hX, hX1, hX2, bind, Except.bind, pure, Except.pure]
    exact ⟨_, _, rfl, hcs⟩
  · rw [hm] at hkeys hu
    have hu' : updateDensePhiLs K sys s dt [((2 : ℝ) / 3, [1]), ((2 : ℝ) / 3, [1, 2]), (1, [1, 2])] = .ok s' := by
      simpa [cksOf] using hu
    obtain ⟨X, hX⟩ := hkeys (2 / 3) [1] 1 (by simp [cksOf]) (by simp)
    obtain ⟨Y, hY⟩ := hkeys (2 / 3) [1, 2] 2 (by simp [cksOf]) (by simp)
    obtain ⟨X1, hX1⟩ := hkeys 1 [1, 2] 1 (by simp [cksOf]) (by simp)
    obtain ⟨X2, hX2⟩ := hkeys 1 [1, 2] 2 (by simp [cksOf]) (by simp)
    unfold stepExp3Dense
    simp only [hy, hu', hd', hlop, optGet, dictGet, hX, hY, hX1, hX2, bind, Except.bind, pure, Except.pure]
    exact ⟨_, _, rfl, hcs⟩

end tot

theorem init_nonempty {Y : Type} {t0 : ℝ} {y0 : Y} {p : ℕ} {m : String} {b : Base Y} (h : Base.init t0 y0 p m = .ok b) :
    Nonempty2 b ∧ 0 < b.yHist.maxlen ∧ b.tHist.maxlen = b.yHist.maxlen := by
  unfold Base.init at h
  split at h
  · rename_i hp
    cases h
    obtain ⟨q, rfl⟩ : ∃ q, p = q + 1 := ⟨p - 1, by omega⟩
    simp [Nonempty2, Deque.appendleft, Deque.empty]
  · cases h

theorem accept_nonempty {Y : Type} {b : Base Y} (h : Nonempty2 b ∧ 0 < b.yHist.maxlen ∧ b.tHist.maxlen = b.yHist.maxlen)
    (r : StepResult Y) :
    Nonempty2 (b.acceptStep r) ∧ 0 < (b.acceptStep r).yHist.maxlen ∧
      (b.acceptStep r).tHist.maxlen = (b.acceptStep r).yHist.maxlen := by
  obtain ⟨⟨h1, h2⟩, h3, h4⟩ := h
  refine ⟨⟨?_, ?_⟩, h3, h4⟩
  · simp [Base.acceptStep, Deque.appendleft, h3]
  · simp [Base.acceptStep, Deque.appendleft, h4, h2]

/-- A loop whose step never fails on an invariant set of objects returns. -/
theorem loop_total {σ Q W Y : Type} (I : Stepper σ P Y) (Inv : σ → Prop) (dt : ℝ)
    (hs : ∀ s kw, Inv s → ∃ r s', I.step s dt kw = .ok (r, s') ∧ Inv (I.accept s' r)) (obj : σ) (h0 : Inv obj)
    (t0 : ℝ) (y0 : Y) (nsteps : ℕ) (before : Option (W → ℝ → Y → P × W)) (after : Option (W → ℝ → Y → Q × W)) (w : W) :
    ∃ l, integrateOrmatex I obj y0 t0 dt nsteps before after w = .ok l := by
  have key : ∀ k (l : LoopState σ P Q W Y), Inv l.obj → ∃ l', loopN I t0 y0 dt before after k l = .ok l' := by
    intro k
    induction k with
    | zero => intro l _; exact ⟨l, rfl⟩
    | succ k ih =>
      intro l hl
      obtain ⟨r, s', h1, h2⟩ := hs l.obj
        (callBefore before l.world (l.tRes.getLastD t0) (l.yRes.getLastD y0) l.cbBefore).1 hl
      have hb : ∃ l1, loopBody I t0 y0 dt before after l = .ok l1 ∧ l1.obj = I.accept s' r := by
        unfold loopBody
        simp only [h1]
        exact ⟨_, rfl, rfl⟩
      obtain ⟨l1, hl1, ho⟩ := hb
      obtain ⟨l2, hl2⟩ := ih l1 (by rw [ho]; exact h2)
      refine ⟨l2, ?_⟩
      show (loopBody I t0 y0 dt before after l >>= _) = _
      rw [hl1]
      exact hl2
  exact key _ _ h0

/-- **C10 is false**: `rk4` is a supported ORMATEX method, and for every system, initial condition and number of steps
at least one, supplying `callback_before_step` makes `integrate` raise `TypeError` (`RKIntegrator.step` takes no
`frhs_kwargs`), although without the callback the same call returns. -/
theorem C10_negation {Q W : Type} (sys : OdeSys n P) (t0 : ℝ) (y0 : Vec n) (dt : ℝ) (nsteps : ℕ) (h1 : 1 ≤ nsteps)
    (cb : W → ℝ → Vec n → P × W) (after : Option (W → ℝ → Vec n → Q × W)) (w : W) :
    dispatch false "rk4" = .ok .rk ∧ ∃ s, RK.new t0 y0 "rk4" = .ok s ∧
      integrateOrmatex (rkStepper sys) s y0 t0 dt nsteps (some cb) after w = .error .type ∧
      ∃ l, integrateOrmatex (rkStepper sys) s y0 t0 dt nsteps none after w = .ok l := by
  refine ⟨by decide, ?_⟩
  have hnew : ∃ s : Base (Vec n), RK.new t0 y0 "rk4" = .ok s ∧ s.method = "rk4" ∧
      (Nonempty2 s ∧ 0 < s.yHist.maxlen ∧ s.tHist.maxlen = s.yHist.maxlen) :=
    ⟨_, rfl, rfl, init_nonempty (p := 4) (m := "rk4") rfl⟩
  obtain ⟨s, hs, hm, hb⟩ := hnew
  refine ⟨s, hs, ?_, ?_⟩
  · obtain ⟨k, rfl⟩ : ∃ k, nsteps = k + 1 := ⟨nsteps - 1, by omega⟩
    rfl
  · have key : ∀ k (l : LoopState (Base (Vec n)) P Q W (Vec n)),
        l.obj.method = "rk4" ∧ (Nonempty2 l.obj ∧ 0 < l.obj.yHist.maxlen ∧ l.obj.tHist.maxlen = l.obj.yHist.maxlen) →
        ∃ l', loopN (rkStepper sys) t0 y0 dt none after k l = .ok l' := by
      intro k
      induction k with
      | zero => intro l _; exact ⟨l, rfl⟩
      | succ k ih =>
        intro l ⟨hl, hb⟩
        obtain ⟨y, hy⟩ := get_tot hb.1.1
        have hstep : ∃ r, (rkStepper sys).step l.obj dt none = .ok (r, l.obj) := by
          refine ⟨⟨l.obj.t + dt, dt, rk4Kernel (sys.frhs none) l.obj.t y dt, -1⟩, ?_⟩
          simp [rkStepper, RK.step, hl, stepRk4, hy, keep, bind, Except.bind, pure, Except.pure, Except.map]
        obtain ⟨r, hr⟩ := hstep
        have hbdy : ∃ l1, loopBody (rkStepper sys) t0 y0 dt none after l = .ok l1 ∧ l1.obj = l.obj.acceptStep r := by
          unfold loopBody
          simp only [callBefore, hr]
          exact ⟨_, rfl, rfl⟩
        obtain ⟨l1, hl1, ho⟩ := hbdy
        obtain ⟨l2, hl2⟩ := ih l1 (by rw [ho]; exact ⟨hl, accept_nonempty hb r⟩)
        refine ⟨l2, ?_⟩
        show (loopBody _ t0 y0 dt none after l >>= _) = _
        rw [hl1]
        exact hl2
    exact key _ _ ⟨hm, hb⟩

/-- **C10 for the Rosenbrock and splitting methods.** With kernels and dense forms that return, `integrate` returns for
every advertised method, every number of steps and every choice of callbacks.  (Missing from C10: `rk4`, for which
it is false, `C10_negation`; Leja methods, which may stop with the documented convergence `RuntimeError` but never
with a `TypeError`, `C10_leja_no_type_error`.) -/
theorem C10_callbacks_partial {Q W : Type} (hasRust : Bool) (K : Kernels n) (hK : TotalKernels K) (sys : OdeSys n P)
    (hJ : ∀ kw t y, Tot (sys.fjac kw t y).dense) (hL : ∀ t y, Tot (sys.fl t y).dense) (t0 : ℝ) (y0 : Vec n) (m : String)
    (tol dt : ℝ) (nsteps : ℕ) (before : Option (W → ℝ → Vec n → P × W)) (after : Option (W → ℝ → Vec n → Q × W)) (w : W) :
    (∀ s, ExpRB.new hasRust t0 y0 m tol = .ok s →
      ∃ l, integrateOrmatex (rbStepper hasRust K sys) s y0 t0 dt nsteps before after w = .ok l) ∧
    (∀ s, ExpSplit.new t0 y0 m = .ok s →
      ∃ l, integrateOrmatex (splitStepper K sys) s y0 t0 dt nsteps before after w = .ok l) := by
  constructor
  · intro s hs
    obtain ⟨a1, _, a3⟩ := C09_construct_rb hasRust t0 y0 m tol
    have hm := (a3 s hs)
    have hr := a1.2 ⟨s, hs⟩
    have hmem : m ∈ ["exprb2", "exprb3", "pexprb4", "epi2", "epi3", "exprb2_dense", "exprb2_pfd", "exp_pfd"] ∨
      hasRust = true ∧ m ∈ ["exprb2_pfd_rs", "exp_pfd_rs"] := by
      have := hm.1
      simp only [advertised, List.mem_cons, Prod.mk.injEq, List.not_mem_nil, or_false] at this
      rcases this with h | h | h | h | h | h | h | h | h | h
      all_goals first
        | (left; rw [h.1]; decide)
        | (right; exact ⟨hr.2 (by rw [h.1]; decide), by rw [h.1]; decide⟩)
    have hb : Nonempty2 s.base ∧ 0 < s.base.yHist.maxlen ∧ s.base.tHist.maxlen = s.base.yHist.maxlen := by
      unfold ExpRB.new at hs
      split at hs
      · cases hs
      split at hs
      · cases hs
      · obtain ⟨b, hb, hs⟩ := bind_ok hs
        cases hs
        exact init_nonempty hb
    refine loop_total (rbStepper hasRust K sys) (fun s => s.base.method = m ∧
      (Nonempty2 s.base ∧ 0 < s.base.yHist.maxlen ∧ s.base.tHist.maxlen = s.base.yHist.maxlen)) dt ?_ s
      ⟨hm.2.2.2, hb⟩ _ _ _ _ _ _
    rintro s kw ⟨h1, h2⟩
    obtain ⟨r, hr⟩ := tot_rb_step hK hJ hasRust s h2.1 dt kw (by rw [h1]; exact hmem)
    refine ⟨r, s, ?_, h1, accept_nonempty h2 r⟩
    show keep s _ = _
    rw [hr]; rfl
  · intro s hs
    obtain ⟨b1, b2, _⟩ := C09_construct_others (n := n) t0 y0 m
    have hmem := b1.1 ⟨s, hs⟩
    have hm := (b2 s hs).1
    have hb : (Nonempty2 s.base ∧ 0 < s.base.yHist.maxlen ∧ s.base.tHist.maxlen = s.base.yHist.maxlen) ∧ CacheOk s := by
      unfold ExpSplit.new at hs
      split at hs
      · cases hs
      · obtain ⟨b, hb, hs⟩ := bind_ok hs
        cases hs
        exact ⟨init_nonempty hb, by intro c hc; cases hc⟩
    refine loop_total (splitStepper K sys) (fun s => s.base.method = m ∧
      (Nonempty2 s.base ∧ 0 < s.base.yHist.maxlen ∧ s.base.tHist.maxlen = s.base.yHist.maxlen) ∧ CacheOk s) dt ?_ s
      ⟨hm, hb⟩ _ _ _ _ _ _
    rintro s kw ⟨h1, h2, h3⟩
    obtain ⟨r, s', hr, hc⟩ := tot_split_step hK hL s h2.1 h3 dt kw (by rw [h1]; exact hmem)
    have hbase : s'.base = s.base := split_step_base K sys s s' dt kw r hr
    refine ⟨r, s', hr, ?_, ?_, hc⟩
    · show s'.base.method = m
      rw [hbase, h1]
    · have := accept_nonempty h2 r
      rw [← hbase] at this
      exact this

/-- **C10 for the Leja methods**: whatever happened before, a step with callback parameters never raises `TypeError`. -/
theorem C10_leja_no_type_error (o : LejaOpts) (sys : OdeSys n P) (t0 : ℝ) (y0 : Vec n) (m : String) (s0 : ExpLeja n)
    (h0 : ExpLeja.new t0 y0 m = .ok s0) (cs : List (Call P (Vec n))) (dt : ℝ) (kw : Option P) :
    (lejaMachine o sys).step ((lejaMachine o sys).run s0 cs) dt kw ≠ .error .type := by
  obtain ⟨_, _, b3, b4, _⟩ := C09_construct_others (n := n) t0 y0 m
  refine avoid_leja_step (Or.inr rfl) o sys _ dt kw ?_
  have := (C04_leja_state o sys t0 y0 m s0 h0 cs).2.2.2.2
  rw [this, base_run_method, (b4 s0 h0).1]
  exact b3.1 ⟨s0, h0⟩

/-- Non-vacuity of `C10_callbacks_partial`: exact kernels are total. -/
theorem exactKernels_total (n : ℕ) : TotalKernels (Spec.exactKernels n) :=
  ⟨fun _ _ _ _ => Tot.ok, fun _ _ _ _ => Tot.ok, fun z k _ => ⟨_, rfl, by simp⟩, fun _ _ _ => Tot.ok⟩

/-! ### C11 -/

/-- The system in which the parameters `p` are built into every evaluation. -/
def bake (sys : OdeSys n P) (p : P) : OdeSys n P where
  frhs _ := sys.frhs (some p)
  fjac _ := sys.fjac (some p)
  fl := sys.fl

/-- the one-dimensional system `y' = p` whose right-hand side is its parameter (0 without parameters) -/
noncomputable def paramSys : OdeSys 1 (List ℝ) where
  frhs kw _ _ := fun _ => (kw.getD []).headD 0
  fjac kw _ _ := { matrixLinOp (0 : Mat 1) with fdt := 0, frhsCached := fun _ => (kw.getD []).headD 0 }
  fl _ _ := matrixLinOp 0

/-- **C11 is false.** (a) The nonlinear remainder used by the two-stage methods does not vanish at the linearisation
point when parameters are supplied; (b) one `exprb3` step of `y' = p` with exact kernels, `p = 3`, `dt = 1`, `y = 0`
returns 2 although with the parameters built into the system it returns the exact 3; (c) `exp1` ignores the
parameters altogether. -/
theorem C11_negation :
    ∃ (s : ExpRB 1) (e : ExpSplit 1), ExpRB.new false 0 0 "exprb3" 0 = .ok s ∧ ExpSplit.new 0 0 "exp1" = .ok e ∧
      (∃ r, remf paramSys s.base 0 0 (paramSys.fjac (some [3]) 0 0).frhsCached (paramSys.fjac (some [3]) 0 0).toLinOp 0 = .ok r
        ∧ r 0 = -3) ∧
      (∃ r, ExpRB.step false (Spec.exactKernels 1) paramSys s 1 (some [3]) = .ok r ∧ r.y 0 = 2) ∧
      (∃ r, ExpRB.step false (Spec.exactKernels 1) (bake paramSys [3]) s 1 (some [3]) = .ok r ∧ r.y 0 = 3) ∧
      (∃ r e', ExpSplit.step (Spec.exactKernels 1) paramSys e 1 (some [3]) = .ok (r, e') ∧ r.y 0 = 0) ∧
      (∃ r e', ExpSplit.step (Spec.exactKernels 1) (bake paramSys [3]) e 1 (some [3]) = .ok (r, e') ∧ r.y 0 = 3) := by
  have hz : Spec.opMatrix (matrixLinOp (0 : Mat 1)) = 0 := Spec.opMatrix_eq fun v => rfl
  have hc : ∀ v : Vec 1, (matrixLinOp (0 : Mat 1)).matvec v = 0 := fun v => by simp [matrixLinOp]
  refine ⟨_, _, rfl, rfl, ?_, ?_, ?_, ?_, ?_⟩
  · refine ⟨_, rfl, ?_⟩
    simp [paramSys, hc, LinOp.call]
  · simp [ExpRB.step, stepExprb3, phi2vNonauto, paramSys, Deque.get, Deque.appendleft, Deque.empty, remf, hc, LinOp.call,
      Spec.exactKernels, hz, Spec.phiM_at_zero, bind, Except.bind, pure, Except.pure, Nat.factorial,
      Matrix.smul_mulVec]
    norm_num
  · simp [ExpRB.step, stepExprb3, phi2vNonauto, bake, paramSys, Deque.get, Deque.appendleft, Deque.empty, remf, hc,
      LinOp.call, Spec.exactKernels, hz, Spec.phiM_at_zero, bind, Except.bind, pure, Except.pure, Nat.factorial]
  · refine ⟨_, _, rfl, ?_⟩
    simp [paramSys, hz, Spec.phiM_at_zero]
  · refine ⟨_, _, rfl, ?_⟩
    simp [bake, paramSys, hz, Spec.phiM_at_zero]

/-- **C11 where it holds**: the one-stage Rosenbrock methods use the callback parameters in every evaluation of the
right-hand side and its Jacobian: the step equals the step of the system with the parameters built in.  (Missing:
`exprb3`, `pexprb4`, `epi3`, for which the remainder is evaluated without parameters, and the dense and splitting
methods, which ignore them.) -/
theorem C11_one_stage_partial (hasRust : Bool) (K : Kernels n) (sys : OdeSys n P) (s : ExpRB n) (dt : ℝ) (p : P)
    (hm : s.base.method ∈ ["exprb2", "epi2", "exprb2_pfd", "exp_pfd"]) :
    ExpRB.step hasRust K sys s dt (some p) = ExpRB.step hasRust K (bake sys p) s dt none := by
  simp only [List.mem_cons, List.not_mem_nil, or_false] at hm
  unfold ExpRB.step
  rcases hm with hm | hm | hm | hm <;> rw [hm] <;> simp only [String.reduceEq, if_true, if_false] <;> rfl

/-- **C11, Leja methods of order 2**: same statement. -/
theorem C11_leja_partial (o : LejaOpts) (sys : OdeSys n P) (s : ExpLeja n) (dt : ℝ) (p : P)
    (hm : s.base.method ∈ ["epi2_leja_re", "epi2_leja_im"]) :
    ExpLeja.step o sys s dt (some p) = ExpLeja.step o (bake sys p) s dt none := by
  simp only [List.mem_cons, List.not_mem_nil, or_false] at hm
  unfold ExpLeja.step
  rcases hm with hm | hm <;> rw [hm] <;> simp only [String.reduceEq, if_true, if_false] <;> rfl

/-- **C11, the whole extent of the defect**: for the other methods the step is the one of the system in which only the
Jacobian sees the parameters (`exprb3`, `pexprb4`, `epi3`), or no parameters are seen at all (dense, `_rs`, splitting). -/
theorem C11_scope (hasRust : Bool) (K : Kernels n) (sys : OdeSys n P) (s : ExpRB n) (e : ExpSplit n) (dt : ℝ) (p : P) :
    (s.base.method ∈ ["exprb3", "pexprb4", "epi3"] → ExpRB.step hasRust K sys s dt (some p) =
      ExpRB.step hasRust K (OdeSys.mk (fun _ : Option P => sys.frhs none) (fun _ => sys.fjac (some p)) sys.fl) s dt none) ∧
    (s.base.method ∈ ["exprb2_dense", "exprb2_pfd_rs", "exp_pfd_rs"] →
      ExpRB.step hasRust K sys s dt (some p) = ExpRB.step hasRust K sys s dt none) ∧
    ExpSplit.step K sys e dt (some p) = ExpSplit.step K sys e dt none := by
  refine ⟨?_, ?_, rfl⟩
  · intro hm
    simp only [List.mem_cons, List.not_mem_nil, or_false] at hm
    unfold ExpRB.step
    rcases hm with hm | hm | hm <;> rw [hm] <;> simp only [String.reduceEq, if_true, if_false] <;> rfl
  · intro hm
    simp only [List.mem_cons, List.not_mem_nil, or_false] at hm
    unfold ExpRB.step
    rcases hm with hm | hm | hm <;> rw [hm] <;> simp only [String.reduceEq, if_true, if_false]

/-! ### C12 -/

/-- **C12 is false**: the window handed to diffrax is `[t0, nsteps*dt]`, which is `[t0, t0 + nsteps*dt]` exactly when
`t0 = 0`; e.g. `t0 = 1, dt = 1, nsteps = 1` asks for the empty window `[1, 1]`. -/
theorem C12_negation : ∃ t0 dt : ℝ, ∃ nsteps : ℕ, 0 < dt ∧ 0 < nsteps ∧
    (diffraxCall t0 dt nsteps).t1 ≠ t0 + nsteps * dt ∧ (diffraxCall t0 dt nsteps).t1 = (diffraxCall t0 dt nsteps).t0 :=
  ⟨1, 1, 1, by norm_num, by norm_num, by norm_num [diffraxCall], by norm_num [diffraxCall]⟩

/-- **C12 for `t0 = 0`** (and only then), together with the other arguments. -/
theorem C12_window_partial (t0 dt : ℝ) (nsteps : ℕ) :
    (diffraxCall t0 dt nsteps).t0 = t0 ∧ (diffraxCall t0 dt nsteps).dt0 = dt ∧
      ((diffraxCall t0 dt nsteps).t1 = t0 + nsteps * dt ↔ t0 = 0) := by
  refine ⟨rfl, rfl, ?_⟩
  simp only [diffraxCall]
  constructor
  · intro h; linarith
  · rintro rfl; ring

end Ormatex.Props
