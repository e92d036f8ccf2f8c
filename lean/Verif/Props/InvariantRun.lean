import Verif.Props.Invariant

/-!
C67 continued: the Leja integrator keeps invariant subspaces, and whole runs of every family.
-/

namespace Ormatex.Props
open Matrix Ormatex.Spec
open scoped Classical

section
variable {n : ℕ} {P : Type} [EmptyCollection P]
set_option linter.unusedSectionVars false
set_option linter.unusedVariables false

/-! ### Leja evaluation -/

theorem newton_mem {m : ℕ} {W : Submodule ℝ (Vec m)} {A : LinOp m} (hA : LMaps W A) (dt xs scale : ℝ) {v : Vec m} (hv : v ∈ W) :
    (fun j => (dt * A.matvec v j - xs * v j) / scale) ∈ W :=
  div_mem (W.sub_mem (W.smul_mem dt (hA v hv)) (W.smul_mem xs hv)) scale

theorem realLeja_mem {m : ℕ} {W : Submodule ℝ (Vec m)} {A : LinOp m} (hA : LMaps W A) (dt : ℝ) {u : Vec m} (hu : u ∈ W)
    (shift scale : ℝ) (nL : ℕ) (x c : ℕ → ℝ) (tol at_ : ℝ) : (realLejaExpmv A dt u shift scale nL x c tol at_).pm ∈ W := by
  unfold realLejaExpmv
  simp only
  refine (lejaLoop_inv (fun s => s.vm ∈ W ∧ s.pm ∈ W) ?_ _ _ ⟨hu, W.smul_mem _ hu⟩).2
  rintro s ⟨h1, h2⟩
  have hv := newton_mem hA dt (shift + scale * x (s.i - 1)) scale h1
  exact ⟨hv, W.add_mem h2 (W.smul_mem _ hv)⟩

theorem complexLeja_mem {m : ℕ} {W : Submodule ℝ (Vec m)} {A : LinOp m} (hA : LMaps W A) (dt : ℝ) {u : Vec m} (hu : u ∈ W)
    (shift scale : ℝ) (nL : ℕ) (x : ℕ → ℂ) (nr : ℕ) (c : ℕ → ℂ) (tol at_ : ℝ) :
    (complexConjLejaExpmv A dt u shift scale nL x nr c tol at_).pm ∈ W := by
  unfold complexConjLejaExpmv
  split
  · exact realLeja_mem hA _ hu _ _ _ _ _ _ _
  · simp only
    refine (lejaLoop_inv (fun s => s.vm ∈ W ∧ s.pm ∈ W) ?_ _ _
      (iterate_inv (fun s : LejaState m => s.vm ∈ W ∧ s.pm ∈ W) _ ?_ nr _ ⟨hu, W.smul_mem _ hu⟩)).2
    · rintro s ⟨h1, h2⟩
      have hq := newton_mem hA dt ((shift : ℂ) + (scale : ℂ) * x (s.i - 1)).re scale h1
      have hv := W.add_mem (newton_mem hA dt ((shift : ℂ) + (scale : ℂ) * x (s.i - 1)).re scale hq)
        (W.smul_mem ((((shift : ℂ) + (scale : ℂ) * x (s.i - 1)).im / scale) ^ 2) h1)
      exact ⟨hv, W.add_mem (W.add_mem h2 (W.smul_mem _ hq)) (W.smul_mem _ hv)⟩
    · rintro s ⟨h1, h2⟩
      have hv := newton_mem hA dt ((shift : ℂ) + (scale : ℂ) * x (s.i - 1)).re scale h1
      exact ⟨hv, W.add_mem h2 (W.smul_mem _ hv)⟩

theorem subLoop_mem {m : ℕ} {W : Submodule ℝ (Vec m)} {inner : ℝ → Vec m → Vec m × ℕ × Prop}
    (hi : ∀ d v, v ∈ W → (inner d v).1 ∈ W) : ∀ f (s : SubState m), s.w ∈ W → Rets (subLoop inner f s) (fun s' => s'.w ∈ W)
  | 0, _, _ => Rets.error
  | f + 1, s, h => by
    have hb : (subBody inner s).w ∈ W := by
      unfold subBody
      simp only
      split
      · exact h
      · exact hi _ _ h
    unfold subLoop
    simp only
    split
    · exact Rets.ok hb
    · exact subLoop_mem hi f _ hb

theorem substep_mem {m : ℕ} {W : Submodule ℝ (Vec m)} {inner : ℝ → Vec m → Vec m × ℕ × Prop}
    (hi : ∀ d v, v ∈ W → (inner d v).1 ∈ W) (tau : ℝ) (v : Vec m) (hv : v ∈ W) (sub : Bool) :
    Rets (expmvSubstep inner tau v sub) (fun r => r.1 ∈ W) := by
  unfold expmvSubstep
  split
  · exact Rets.ok (hi _ _ hv)
  · exact Rets.bind _ (subLoop_mem hi _ _ hv) fun s hs => Rets.pure hs

theorem aTilde_mem {V : Submodule ℝ (Vec n)} {A : LinOp n} (hA : LMaps V A) (dt : ℝ) {b0 b1 b2 : Vec n} (h0 : b0 ∈ V)
    (h1 : b1 ∈ V) (h2 : b2 ∈ V) : Rets (buildATilde3 A dt b0 b1 b2) (fun r => LMaps (headSub V 2) r.1 ∧ r.2 ∈ headSub V 2) := by
  have hb : ∀ b ∈ [b0, b1, b2], b ∈ V := by
    intro b hb
    simp only [List.mem_cons, List.not_mem_nil, or_false] at hb
    rcases hb with rfl | rfl | rfl <;> assumption
  unfold buildATilde3 buildATilde
  split
  · exact Rets.error
  · refine Rets.bind _ (aug_lmaps hA dt _ (fun j => augB_mem hb j) _) fun a ha => Rets.pure ⟨ha, ?_⟩
    show headN (concat _ _) ∈ V
    rw [headN_concat]
    exact h0

theorem lejaFinish_mem {V : Submodule ℝ (Vec n)} {y0 yt u : Vec n} (s : ExpLeja n) (bk : Option (Vec (n + 2))) (hy : yt - y0 ∈ V)
    (hu : u ∈ V) (dt : ℝ) (c : Prop) (mt : ℝ) :
    Rets (lejaFinish s bk yt u dt c mt) (fun r => r.1.y - y0 ∈ V ∧ r.2.base = s.base) := by
  unfold lejaFinish
  split
  · exact Rets.error
  · exact Rets.ok ⟨coset_add hy hu, rfl⟩

/-- **C67, Leja methods.** Whatever a step returns lies in the coset, for every divided-difference routine, point set, tolerance,
substep state and heuristic memory. -/
theorem C67_leja_step (o : LejaOpts) {sys : OdeSys n P} {V : Submodule ℝ (Vec n)} {y0 : Vec n} (he : TangentTo sys V y0)
    (s : ExpLeja n) (hs : AllIn s.base V y0) (dt : ℝ) (kw : Option P) :
    Rets (ExpLeja.step o sys s dt kw) (fun r => r.1.y - y0 ∈ V ∧ r.2.base = s.base) := by
  have him : ∀ kw b, Rets (stepEpiIm o sys s dt kw b) (fun r => r.1.y - y0 ∈ V ∧ r.2.base = s.base) := by
    intro kw b
    unfold stepEpiIm
    simp only
    refine Rets.bind _ (hs.get 0) fun y hy => ?_
    have hf := he.jacFdt (some kw) s.base.t y hy
    refine Rets.ite (Rets.bind _ (hs.get 1) fun yp hyp => Rets.bind _ Rets.triv fun tp _ => Rets.bind _ (inv_remf he hs _ hyp
      (he.jacRhs _ _ _ hy) (he.jacMaps _ _ _ hy) hf) fun rn hrn => Rets.bind (· ∈ V) (Rets.pure
      (V.add_mem (V.smul_mem _ hrn) (V.smul_mem _ hf))) ?_) (Rets.bind (· ∈ V) (Rets.pure (V.smul_mem _ hf)) ?_)
    all_goals
      intro b2 hb2
      refine Rets.bind _ (aTilde_mem (he.jacMaps _ _ _ hy) dt V.zero_mem (V.smul_mem _ (he.jacRhs _ _ _ hy)) hb2) ?_
      rintro ⟨aT, v⟩ ⟨h1, h2⟩
      simp only at h1 h2 ⊢
      refine Rets.bind _ Rets.triv fun q _ =>
        Rets.bind _ (substep_mem (fun d v hv => complexLeja_mem h1 _ hv _ _ _ _ _ _ _ _) _ _ h2 _) ?_
      rintro ⟨w, it, c, mt⟩ hw
      exact lejaFinish_mem s _ hy hw dt c mt
  unfold ExpLeja.step
  simp only
  refine Rets.ite ?_ (Rets.ite (him _ _) (Rets.ite (Rets.ite (him _ _) (him _ _)) Rets.error))
  unfold stepEpiRe
  simp only
  refine Rets.bind _ (hs.get 0) fun y hy => ?_
  refine Rets.bind _ (aTilde_mem (he.jacMaps _ _ _ hy) dt V.zero_mem (V.smul_mem _ (he.jacRhs _ _ _ hy))
    (V.smul_mem _ (he.jacFdt _ _ _ hy))) ?_
  rintro ⟨aT, v⟩ ⟨h1, h2⟩
  simp only at h1 h2 ⊢
  refine Rets.bind _ (substep_mem (fun d v hv => realLeja_mem h1 _ hv _ _ _ _ _ _ _) _ _ h2 _) ?_
  rintro ⟨w, it, c, mt⟩ hw
  exact lejaFinish_mem s _ hy hw dt c mt

/-! ### Whole runs -/

/-- A property of states that holds initially and is kept by step and accept holds of every saved state. -/
theorem run_keeps {σ Q W : Type} (I : Stepper σ P (Vec n)) (Inv : σ → Prop) (G : Vec n → Prop) (dt : ℝ)
    (hs : ∀ o kw, Inv o → Rets (I.step o dt kw) (fun r => G r.1.y ∧ Inv (I.accept r.2 r.1)))
    (obj : σ) (y0 : Vec n) (hG : G y0) (t0 : ℝ) (h0 : Inv obj) (nsteps : ℕ) (before : Option (W → ℝ → Vec n → P × W))
    (after : Option (W → ℝ → Vec n → Q × W)) (w : W) :
    Rets (integrateOrmatex I obj y0 t0 dt nsteps before after w) (fun l => ∀ y ∈ l.yRes, G y) := by
  have key : ∀ (k : ℕ) (l : LoopState σ P Q W (Vec n)), Inv l.obj → (∀ y ∈ l.yRes, G y) →
      Rets (loopN I t0 y0 dt before after k l) (fun l => ∀ y ∈ l.yRes, G y) := by
    intro k
    induction k with
    | zero => exact fun l _ h => Rets.ok h
    | succ k ih =>
      intro l h1 h2
      show Rets (loopBody I t0 y0 dt before after l >>= _) _
      refine Rets.bind (fun l' => Inv l'.obj ∧ ∀ y ∈ l'.yRes, G y) ?_ fun l' hl' => ih l' hl'.1 hl'.2
      unfold loopBody
      refine Rets.bind _ (hs l.obj _ h1) ?_
      rintro r ⟨h3, h4⟩
      refine Rets.pure ⟨h4, ?_⟩
      intro y hy
      rcases List.mem_append.1 hy with h | h
      · exact h2 y h
      · rw [List.mem_singleton.1 h]; exact h3
  exact key nsteps _ h0 (by simpa using hG)

/-- **C67, whole runs.** A run of any advertised method other than the linear propagators `exp_pfd(_rs)` on a system tangent to
`V` returns only states in `y0 + V`: with the kernels of the package (any Krylov dimension, orthogonalisation depth, pole
table and matrix exponential), any Leja options and any callbacks. -/
theorem C67_run {Q W : Type} (hasRust : Bool) (expm : ∀ m, Mat m → Mat m) (tab : Pfd)
    (rs : Mat n → ℝ → Vec n → ℕ → Vec n) (V : Submodule ℝ (Vec n)) (hrs : ∀ J dt b k, Maps V J → b ∈ V → rs J dt b k ∈ V)
    (maxDim iom : ℕ) (o : LejaOpts) (sys : OdeSys n P) {y0 : Vec n} (he : TangentTo sys V y0) (t0 : ℝ) (m : String)
    (tol dt : ℝ) (nsteps : ℕ) (before : Option (W → ℝ → Vec n → P × W)) (after : Option (W → ℝ → Vec n → Q × W)) (w : W) :
    (∀ s, ExpRB.new hasRust t0 y0 m tol = .ok s → m ≠ "exp_pfd" → m ≠ "exp_pfd_rs" →
      ∀ l, integrateOrmatex (rbStepper hasRust (realKernels n expm tab rs maxDim iom) sys) s y0 t0 dt nsteps before after w
        = .ok l → ∀ y ∈ l.yRes, y - y0 ∈ V) ∧
    (∀ s, ExpSplit.new t0 y0 m = .ok s →
      ∀ l, integrateOrmatex (splitStepper (realKernels n expm tab rs maxDim iom) sys) s y0 t0 dt nsteps before after w
        = .ok l → ∀ y ∈ l.yRes, y - y0 ∈ V) ∧
    (∀ s, RK.new t0 y0 m = .ok s →
      ∀ l, integrateOrmatex (rkStepper sys) s y0 t0 dt nsteps before after w = .ok l → ∀ y ∈ l.yRes, y - y0 ∈ V) ∧
    (∀ s, ExpLeja.new t0 y0 m = .ok s →
      ∀ l, integrateOrmatex (lejaStepper o sys) s y0 t0 dt nsteps before after w = .ok l → ∀ y ∈ l.yRes, y - y0 ∈ V) := by
  have hK := realKernels_inv (n := n) V expm tab rs hrs maxDim iom
  have h00 : y0 - y0 ∈ V := by rw [sub_self]; exact V.zero_mem
  refine ⟨?_, ?_, ?_, ?_⟩
  · intro s hs h1 h2 l hl
    refine run_keeps (rbStepper hasRust (realKernels n expm tab rs maxDim iom) sys)
      (fun s => AllIn s.base V y0 ∧ s.base.method = m) (fun y => y - y0 ∈ V) dt ?_ s y0 h00 t0 ?_ nsteps before after w l hl
    · rintro s kw ⟨h3, h4⟩
      have := C67_rb_step hK he hasRust s h3 dt kw (by rw [h4]; exact ⟨h1, h2⟩)
      show Rets (keep s _) _
      cases hx : ExpRB.step hasRust (realKernels n expm tab rs maxDim iom) sys s dt kw with
      | error e => exact Rets.error
      | ok r => exact Rets.ok ⟨this r hx, allIn_accept h3 r (this r hx), h4⟩
    · have hm := ((C09_construct_rb hasRust t0 y0 m tol).2.2 s hs).2.2.2
      unfold ExpRB.new at hs
      split at hs
      · cases hs
      · split at hs
        · cases hs
        · rename_i oo _ _
          cases hb : Base.init t0 y0 oo m with
          | error e => rw [hb] at hs; cases hs
          | ok bb => rw [hb] at hs; cases hs; exact ⟨allIn_init V hb, hm⟩
  · intro s hs l hl
    refine run_keeps (splitStepper (realKernels n expm tab rs maxDim iom) sys)
      (fun s => AllIn s.base V y0 ∧ CacheKeeps V s) (fun y => y - y0 ∈ V) dt ?_ s y0 h00 t0 ?_ nsteps before after w l hl
    · rintro s kw ⟨h3, h4⟩
      refine (C67_split_step hK he s h3 h4 dt kw).mono ?_
      rintro ⟨r, s'⟩ ⟨h6, h7, h8⟩
      refine ⟨h6, ?_, h8⟩
      have : AllIn s'.base V y0 := by rw [show s'.base = s.base from h7]; exact h3
      exact allIn_accept this r h6
    · unfold ExpSplit.new at hs
      split at hs
      · cases hs
      · rename_i oo _
        cases hb : Base.init t0 y0 oo m with
        | error e => rw [hb] at hs; cases hs
        | ok bb => rw [hb] at hs; cases hs; exact ⟨allIn_init V hb, fun _ h => (by cases h), fun _ h => (by cases h)⟩
  · intro s hs l hl
    refine run_keeps (rkStepper sys) (fun s => AllIn s V y0) (fun y => y - y0 ∈ V) dt ?_ s y0 h00 t0 ?_ nsteps before after w l hl
    · intro s kw h3
      have := C67_rk_step he s h3 dt kw
      show Rets (keep s _) _
      cases hx : RK.step sys s dt kw with
      | error e => exact Rets.error
      | ok r => exact Rets.ok ⟨this r hx, allIn_accept h3 r (this r hx)⟩
    · unfold RK.new at hs
      split at hs
      · cases hs
      · exact allIn_init V hs
  · intro s hs l hl
    refine run_keeps (lejaStepper o sys) (fun s => AllIn s.base V y0) (fun y => y - y0 ∈ V) dt ?_ s y0 h00 t0 ?_
      nsteps before after w l hl
    · intro s kw h3
      refine (C67_leja_step o he s h3 dt kw).mono ?_
      rintro ⟨r, s'⟩ ⟨h6, h7⟩
      refine ⟨h6, ?_⟩
      have : AllIn s'.base V y0 := by rw [show s'.base = s.base from h7]; exact h3
      exact allIn_accept this r h6
    · unfold ExpLeja.new at hs
      split at hs
      · cases hs
      · rename_i oo _
        cases hb : Base.init t0 y0 oo m with
        | error e => rw [hb] at hs; cases hs
        | ok bb => rw [hb] at hs; cases hs; exact allIn_init V hb

/-! ### conservation laws in the user's terms -/

/-- vectors orthogonal to the weight vector `w` -/
def orth (w : Vec n) : Submodule ℝ (Vec n) where
  carrier := {v | w ⬝ᵥ v = 0}
  add_mem' h1 h2 := by
    show w ⬝ᵥ _ = 0
    rw [dotProduct_add, show w ⬝ᵥ _ = 0 from h1, show w ⬝ᵥ _ = 0 from h2, add_zero]
  zero_mem' := dotProduct_zero w
  smul_mem' c _ h := by
    show w ⬝ᵥ _ = 0
    rw [dotProduct_smul, show w ⬝ᵥ _ = 0 from h, smul_zero]

/-- **C67, linear conservation laws.** If `w · f = 0` for every state, time and parameter (total mass, say), the system uses the
default Jacobian, and the splitting operator and its dense form do not create `w · v` out of nothing, then `w · y` is the same
number at all output times, for every family of methods with the kernels of the package and for arbitrary (also non-smooth)
right-hand sides.  `rs` is the compiled kernel of `exprb2_pfd_rs`, assumed to have the same property. -/
theorem C67_conservation {Q W : Type} (hasRust : Bool) (expm : ∀ m, Mat m → Mat m) (tab : Pfd)
    (maxDim iom : ℕ) (o : LejaOpts) (wt : Vec n) (f : Option P → ℝ → Vec n → Vec n)
    (hf : ∀ kw t y, wt ⬝ᵥ f kw t y = 0) (fl : ℝ → Vec n → LinOp n)
    (hl : ∀ t y v, wt ⬝ᵥ v = 0 → wt ⬝ᵥ (fl t y).matvec v = 0)
    (hd : ∀ t y D, (fl t y).dense = .ok D → ∀ v, wt ⬝ᵥ v = 0 → wt ⬝ᵥ D *ᵥ v = 0)
    (rs : Mat n → ℝ → Vec n → ℕ → Vec n)
    (hrs : ∀ J dt b k, (∀ v, wt ⬝ᵥ v = 0 → wt ⬝ᵥ J *ᵥ v = 0) → wt ⬝ᵥ b = 0 → wt ⬝ᵥ rs J dt b k = 0)
    (y0 : Vec n) (t0 : ℝ) (m : String) (tol dt : ℝ) (nsteps : ℕ) (before : Option (W → ℝ → Vec n → P × W))
    (after : Option (W → ℝ → Vec n → Q × W)) (w : W) :
    (∀ s, ExpRB.new hasRust t0 y0 m tol = .ok s → m ≠ "exp_pfd" → m ≠ "exp_pfd_rs" →
      ∀ l, integrateOrmatex (rbStepper hasRust (realKernels n expm tab rs maxDim iom) (OdeSys.ofFrhs f fl)) s y0
        t0 dt nsteps before after w = .ok l → ∀ y ∈ l.yRes, wt ⬝ᵥ y = wt ⬝ᵥ y0) ∧
    (∀ s, ExpSplit.new t0 y0 m = .ok s →
      ∀ l, integrateOrmatex (splitStepper (realKernels n expm tab rs maxDim iom) (OdeSys.ofFrhs f fl)) s y0 t0 dt nsteps before
        after w = .ok l → ∀ y ∈ l.yRes, wt ⬝ᵥ y = wt ⬝ᵥ y0) ∧
    (∀ s, RK.new t0 y0 m = .ok s →
      ∀ l, integrateOrmatex (rkStepper (OdeSys.ofFrhs f fl)) s y0 t0 dt nsteps before after w = .ok l →
        ∀ y ∈ l.yRes, wt ⬝ᵥ y = wt ⬝ᵥ y0) ∧
    (∀ s, ExpLeja.new t0 y0 m = .ok s →
      ∀ l, integrateOrmatex (lejaStepper o (OdeSys.ofFrhs f fl)) s y0 t0 dt nsteps before after w = .ok l →
        ∀ y ∈ l.yRes, wt ⬝ᵥ y = wt ⬝ᵥ y0) := by
  have he : TangentTo (OdeSys.ofFrhs f fl) (orth wt) y0 := tangent_autodiff (orth wt) f (fun kw t y => hf kw t y) fl
    (fun t y v hv => hl t y v hv) (fun t y D hD v hv => hd t y D hD v hv) y0
  have h := C67_run hasRust expm tab rs (orth wt) (fun J dt b k h1 h2 => hrs J dt b k h1 h2) maxDim iom o _ he t0 m tol dt nsteps
    before after w
  have conv : ∀ y : Vec n, y - y0 ∈ orth wt → wt ⬝ᵥ y = wt ⬝ᵥ y0 := by
    intro y hy
    have : wt ⬝ᵥ (y - y0) = 0 := hy
    rw [dotProduct_sub] at this
    linarith
  exact ⟨fun s hs h1 h2 l hl y hy => conv y (h.1 s hs h1 h2 l hl y hy), fun s hs l hl y hy => conv y (h.2.1 s hs l hl y hy),
    fun s hs l hl y hy => conv y (h.2.2.1 s hs l hl y hy), fun s hs l hl y hy => conv y (h.2.2.2 s hs l hl y hy)⟩

/-- **C67, frozen components.** Components whose right-hand side is identically zero never change: for every entry `d` with
`f(t, y)_d = 0` for all arguments, all output states agree with the initial state at `d`, for every family of methods. -/
theorem C67_frozen {Q W : Type} (hasRust : Bool) (expm : ∀ m, Mat m → Mat m) (tab : Pfd)
    (maxDim iom : ℕ) (o : LejaOpts) (d : Fin n) (f : Option P → ℝ → Vec n → Vec n)
    (hf : ∀ kw t y, f kw t y d = 0) (fl : ℝ → Vec n → LinOp n)
    (hl : ∀ t y v, v d = 0 → (fl t y).matvec v d = 0)
    (hd : ∀ t y D, (fl t y).dense = .ok D → ∀ v, v d = 0 → (D *ᵥ v) d = 0)
    (rs : Mat n → ℝ → Vec n → ℕ → Vec n)
    (hrs : ∀ J dt b k, (∀ v, v d = 0 → (J *ᵥ v) d = 0) → b d = 0 → rs J dt b k d = 0)
    (y0 : Vec n) (t0 : ℝ) (m : String) (tol dt : ℝ) (nsteps : ℕ) (before : Option (W → ℝ → Vec n → P × W))
    (after : Option (W → ℝ → Vec n → Q × W)) (w : W) :
    (∀ s, ExpRB.new hasRust t0 y0 m tol = .ok s → m ≠ "exp_pfd" → m ≠ "exp_pfd_rs" →
      ∀ l, integrateOrmatex (rbStepper hasRust (realKernels n expm tab rs maxDim iom) (OdeSys.ofFrhs f fl)) s y0
        t0 dt nsteps before after w = .ok l → ∀ y ∈ l.yRes, y d = y0 d) ∧
    (∀ s, ExpSplit.new t0 y0 m = .ok s →
      ∀ l, integrateOrmatex (splitStepper (realKernels n expm tab rs maxDim iom) (OdeSys.ofFrhs f fl)) s y0 t0 dt nsteps before
        after w = .ok l → ∀ y ∈ l.yRes, y d = y0 d) ∧
    (∀ s, RK.new t0 y0 m = .ok s →
      ∀ l, integrateOrmatex (rkStepper (OdeSys.ofFrhs f fl)) s y0 t0 dt nsteps before after w = .ok l →
        ∀ y ∈ l.yRes, y d = y0 d) ∧
    (∀ s, ExpLeja.new t0 y0 m = .ok s →
      ∀ l, integrateOrmatex (lejaStepper o (OdeSys.ofFrhs f fl)) s y0 t0 dt nsteps before after w = .ok l →
        ∀ y ∈ l.yRes, y d = y0 d) := by
  have e : ∀ v : Vec n, Pi.single d 1 ⬝ᵥ v = v d := fun v => by simp
  have h := C67_conservation hasRust expm tab maxDim iom o (Pi.single d 1) f (fun kw t y => by rw [e]; exact hf kw t y) fl
    (fun t y v => by rw [e, e]; exact hl t y v) (fun t y D hD v => by rw [e, e]; exact hd t y D hD v) rs
    (fun J dt b k h1 h2 => by
      rw [e] at h2 ⊢
      exact hrs J dt b k (fun v hv => by have := h1 v (by rw [e]; exact hv); rwa [e] at this) h2) y0 t0 m tol dt nsteps before after w
  simpa only [e] using h

/-- A nonlinear exchange `x → z` at rate `x²` keeps the total: the hypotheses of C67 are met by a non-trivial system, with the
splitting operator that moves `x` to `z` linearly. -/
example : ∃ (f : Option (List ℕ) → ℝ → Vec 2 → Vec 2) (fl : ℝ → Vec 2 → LinOp 2), (∀ kw t y, (fun _ => 1) ⬝ᵥ f kw t y = 0) ∧
    (∀ t y v, (fun _ => (1 : ℝ)) ⬝ᵥ v = 0 → (fun _ => 1) ⬝ᵥ (fl t y).matvec v = 0) ∧
    (∀ t y D, (fl t y).dense = .ok D → ∀ v, (fun _ => (1 : ℝ)) ⬝ᵥ v = 0 → (fun _ => 1) ⬝ᵥ D *ᵥ v = 0) ∧
    f none 0 ![1, 0] ≠ 0 := by
  refine ⟨fun _ _ y => ![-(y 0) ^ 2, (y 0) ^ 2], fun _ _ => LinOp.mk (fun v => !![-1, 0; 1, 0] *ᵥ v) (.ok !![-1, 0; 1, 0]),
    ?_, ?_, ?_, ?_⟩
  · intro kw t y
    simp [dotProduct, Fin.sum_univ_two]
  · intro t y v _
    simp [dotProduct, Fin.sum_univ_two, Matrix.mulVec]
  · intro t y D hD v _
    cases hD
    simp [dotProduct, Fin.sum_univ_two, Matrix.mulVec]
  · intro h
    have := congrFun h 0
    simp at this

end
end Ormatex.Props
