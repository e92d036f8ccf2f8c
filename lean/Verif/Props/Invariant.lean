import Verif.Props.Equil
import Mathlib.Analysis.Calculus.LineDeriv.Basic
import Mathlib.LinearAlgebra.FiniteDimensional.Lemmas

/-!
C67: invariant affine subspaces.  If the right-hand side always points into a linear subspace `V`, every integrator (with the
actual, approximate kernels) moves the state inside the coset `y0 + V`: linear conservation laws, frozen components and
Dirichlet data are kept exactly.
-/

namespace Ormatex.Props
open Matrix Ormatex.Spec
open scoped Classical

section
variable {n : ℕ} {P : Type} [EmptyCollection P]
set_option linter.unusedSectionVars false
set_option linter.unusedVariables false

/-- the matrix maps `V` into itself -/
def Maps (V : Submodule ℝ (Vec n)) (X : Mat n) : Prop := ∀ v ∈ V, X *ᵥ v ∈ V
/-- the operator maps `V` into itself -/
def LMaps (V : Submodule ℝ (Vec n)) (A : LinOp n) : Prop := ∀ v ∈ V, A.matvec v ∈ V

section maps
variable {V : Submodule ℝ (Vec n)}

theorem Maps.zero : Maps V 0 := fun v _ => by rw [Matrix.zero_mulVec]; exact V.zero_mem
theorem Maps.one : Maps V 1 := fun v hv => by rw [Matrix.one_mulVec]; exact hv
theorem Maps.add {X Y : Mat n} (hX : Maps V X) (hY : Maps V Y) : Maps V (X + Y) := fun v hv => by
  rw [Matrix.add_mulVec]; exact V.add_mem (hX v hv) (hY v hv)
theorem Maps.smul {X : Mat n} (c : ℝ) (hX : Maps V X) : Maps V (c • X) := fun v hv => by
  rw [Matrix.smul_mulVec]; exact V.smul_mem c (hX v hv)
theorem Maps.mul {X Y : Mat n} (hX : Maps V X) (hY : Maps V Y) : Maps V (X * Y) := fun v hv => by
  rw [← Matrix.mulVec_mulVec]; exact hX _ (hY v hv)

theorem div_mem {v : Vec n} (hv : v ∈ V) (c : ℝ) : (fun i => v i / c) ∈ V := by
  have : (fun i => v i / c) = c⁻¹ • v := by funext i; simp [div_eq_inv_mul]
  rw [this]; exact V.smul_mem _ hv

theorem mulVec_cols_mem {m : ℕ} (Q : Matrix (Fin n) (Fin m) ℝ) (h : ∀ j, (fun i => Q i j) ∈ V) (e : Vec m) : Q *ᵥ e ∈ V := by
  have : Q *ᵥ e = ∑ j, e j • (fun i => Q i j) := by
    funext i
    simp [Matrix.mulVec, dotProduct, Finset.sum_apply, mul_comm]
  rw [this]
  exact V.sum_mem fun j _ => V.smul_mem _ (h j)

end maps

/-- **Specification.** Kernels that keep `V`: applied to operators and vectors that respect `V` they return (if they return)
something that respects `V`.  No accuracy is assumed. -/
structure InvKernels (K : Kernels n) (V : Submodule ℝ (Vec n)) : Prop where
  phiLinop : ∀ A dt v k, LMaps V A → v ∈ V → Rets (K.phiLinop A dt v k) (· ∈ V)
  kiops : ∀ A dt bs, LMaps V A → (∀ b ∈ bs, b ∈ V) → Rets (K.kiops A dt bs) (· ∈ V)
  phiSqAll : ∀ z k, Maps V z → Rets (K.phiSqAll z k) (fun l => ∀ X ∈ l, Maps V X)
  phiPfd : ∀ z b k, Maps V z → b ∈ V → Rets (K.phiPfd z b k) (· ∈ V)
  phikvRs : ∀ J dt b k, Maps V J → b ∈ V → K.phikvRs J dt b k ∈ V

/-! ### the kernels of the package keep every invariant subspace -/

theorem arnoldiMgs_inv {V : Submodule ℝ (Vec n)} {A : LinOp n} (hA : LMaps V A) (scale : ℝ) (m iom : ℕ) (s : ArnState n)
    (hs : ∀ j, s.qs j ∈ V) : ∀ j, (arnoldiMgs A scale m iom s).qs j ∈ V := by
  have hfold : ∀ (l : List ℕ) (o : OrthoState n), o.qv ∈ V → (l.foldl (orthoBody s.qs s.k) o).qv ∈ V := by
    intro l
    induction l with
    | nil => exact fun _ h => h
    | cons i l ih => exact fun o h => ih _ (V.sub_mem h (V.smul_mem _ (hs i)))
  have hq := hfold (List.range' (s.k - iom) (s.k + 1 - (s.k - iom))) (OrthoState.mk s.hs (scale • A.call (s.qs s.k)))
    (V.smul_mem _ (hA _ (hs _)))
  intro j
  unfold arnoldiMgs
  simp only
  split
  · by_cases hj : j = s.k + 1
    · subst hj
      rw [Function.update_self]
      exact div_mem hq _
    · rw [Function.update_of_ne hj]; exact hs j
  · exact hs j

theorem arnoldi_inv {V : Submodule ℝ (Vec n)} {A : LinOp n} (hA : LMaps V A) (scale : ℝ) {b : Vec n} (hb : b ∈ V)
    (m iom : ℕ) (j : Fin (arnoldiLop A scale b m iom).k) : (fun i => (arnoldiLop A scale b m iom).Q i j) ∈ V := by
  have hloop : ∀ f (s : ArnState n), (∀ j, s.qs j ∈ V) → ∀ j, (arnoldiLoop A scale (min n m) iom f s).qs j ∈ V := by
    intro f
    induction f with
    | zero => exact fun s h => h
    | succ f ih =>
      intro s h
      unfold arnoldiLoop
      split
      · exact ih _ (arnoldiMgs_inv hA _ _ _ _ h)
      · exact h
  refine hloop (min n m) (arnoldiInit b) (fun j => ?_) j
  unfold arnoldiInit
  simp only
  by_cases hj : j = 0
  · subst hj
    rw [Function.update_self]
    split
    · exact div_mem hb _
    · exact hb
  · rw [Function.update_of_ne hj]; exact V.zero_mem

theorem phiLinop_inv {V : Submodule ℝ (Vec n)} (appl : DenseAppl) {A : LinOp n} (hA : LMaps V A) (dt : ℝ) {v : Vec n}
    (hv : v ∈ V) (k maxDim iom : ℕ) : Rets (phiLinop appl A dt v k maxDim iom) (· ∈ V) := by
  unfold phiLinop
  simp only
  refine Rets.ite (Rets.ite ?_ Rets.error) (Rets.ok V.zero_mem)
  refine Rets.bind _ Rets.triv fun e _ => Rets.pure ?_
  exact V.smul_mem _ (mulVec_cols_mem _ (fun j => arnoldi_inv hA dt (div_mem hv _) maxDim iom j) e)

/-- vectors of length `n + p` whose first `n` entries form a vector of `V` -/
def headSub (V : Submodule ℝ (Vec n)) (p : ℕ) : Submodule ℝ (Vec (n + p)) where
  carrier := {v | headN v ∈ V}
  add_mem' h1 h2 := V.add_mem h1 h2
  zero_mem' := V.zero_mem
  smul_mem' c _ h := V.smul_mem c h

theorem getD_mem {V : Submodule ℝ (Vec n)} {bs : List (Vec n)} (h : ∀ b ∈ bs, b ∈ V) (i : ℕ) : bs.getD i 0 ∈ V := by
  rw [List.getD_eq_getElem?_getD]
  rcases e : bs[i]? with _ | b
  · exact V.zero_mem
  · exact h b (List.mem_of_getElem? e)

theorem augB_mem {V : Submodule ℝ (Vec n)} {bs : List (Vec n)} (h : ∀ b ∈ bs, b ∈ V) (j : Fin (bs.length - 1)) :
    (fun i => augB bs i j) ∈ V := by
  unfold augB
  exact getD_mem h _

theorem aug_lmaps {V : Submodule ℝ (Vec n)} {A : LinOp n} (hA : LMaps V A) (dt : ℝ) {p r c : ℕ}
    (B : Matrix (Fin n) (Fin p) ℝ) (hB : ∀ j, (fun i => B i j) ∈ V) (K : Matrix (Fin r) (Fin c) ℝ) :
    Rets (augMatrixLinOp A dt B K) (fun a => LMaps (headSub V p) a) := by
  unfold augMatrixLinOp
  split
  · refine Rets.ok fun v hv => ?_
    show headN (concat _ _) ∈ V
    rw [headN_concat]
    exact V.add_mem (V.smul_mem _ (hA _ hv)) (mulVec_cols_mem B hB _)
  · exact Rets.error

theorem kiops_inv {V : Submodule ℝ (Vec n)} (appl : DenseAppl) {A : LinOp n} (hA : LMaps V A) (dt : ℝ) {bs : List (Vec n)}
    (hb : ∀ b ∈ bs, b ∈ V) (maxDim iom ns : ℕ) : Rets (kiopsFixedsteps appl A dt bs maxDim iom ns) (· ∈ V) := by
  unfold kiopsFixedsteps kiopsWith
  simp only
  refine Rets.ite Rets.error (Rets.ite (Rets.ite Rets.error ?_) (Rets.ok V.zero_mem))
  refine Rets.bind _ (aug_lmaps hA dt _ (fun j => ?_) _) fun a ha => ?_
  · exact div_mem (augB_mem hb j) _
  · refine Rets.bind _ (phiLinop_inv (V := headSub V _) appl ha 1 ?_ 0 maxDim iom) fun w hw => Rets.pure (V.smul_mem _ hw)
    show headN (concat _ _) ∈ V
    rw [headN_concat]
    exact div_mem (getD_mem hb 0) _

section sq
variable {V : Submodule ℝ (Vec n)}

theorem polyLoop_maps {z : Mat n} (hz : Maps V z) (k r : ℕ) : Maps V (polyLoop z k r).1 ∧ Maps V (polyLoop z k r).2 := by
  induction r with
  | zero => exact ⟨hz.smul _, (Maps.one.smul _).add (hz.smul _)⟩
  | succ r ih => exact ⟨(hz.mul ih.1).smul _, ih.2.add ((hz.mul ih.1).smul _)⟩

theorem polyDown_maps {z top : Mat n} (hz : Maps V z) (ht : Maps V top) (k d : ℕ) : Maps V (polyDown z k top d).2 := by
  induction d with
  | zero => exact ht
  | succ d ih => exact (Maps.one.smul _).add (hz.mul ih)

theorem getD_maps {l : List (Mat n)} (h : ∀ X ∈ l, Maps V X) (i : ℕ) : Maps V (l.getD i 0) := by
  rw [List.getD_eq_getElem?_getD]
  rcases e : l[i]? with _ | b
  · exact Maps.zero
  · exact h b (List.mem_of_getElem? e)

theorem set_maps {l : List (Mat n)} (h : ∀ X ∈ l, Maps V X) (i : ℕ) {Y : Mat n} (hY : Maps V Y) : ∀ X ∈ l.set i Y, Maps V X := by
  intro X hX
  rcases List.mem_or_eq_of_mem_set hX with h' | rfl
  · exact h X h'
  · exact hY

theorem sqInner_maps (j : ℕ) : ∀ (jj : ℕ) (l : List (Mat n)), (∀ X ∈ l, Maps V X) → ∀ X ∈ sqInner j l jj, Maps V X
  | 0, _, h => h
  | jj + 1, _, h => sqInner_maps j jj _ (set_maps h _ ((getD_maps h _).add ((getD_maps h _).smul _)))

theorem sqOuter_maps : ∀ (j : ℕ) (l : List (Mat n)), (∀ X ∈ l, Maps V X) → ∀ X ∈ sqOuter l j, Maps V X
  | 0, _, h => h
  | j + 1, _, h => sqOuter_maps j _ (sqInner_maps _ _ _
      (set_maps h _ ((((getD_maps h _).mul (getD_maps h _)).add (getD_maps h _)).smul _)))

theorem sqAll_maps {z : Mat n} (hz : Maps V z) (k : ℕ) : Rets (fPhiKSqAll z k) (fun l => ∀ X ∈ l, Maps V X) := by
  unfold fPhiKSqAll
  refine Rets.bind (fun l => ∀ X ∈ l, Maps V X) ?_ fun l hl => Rets.pure ?_
  · unfold fPhiKPolyAll
    refine Rets.ite (Rets.ok ?_) Rets.error
    intro X hX
    obtain ⟨j, -, rfl⟩ := List.mem_map.1 hX
    exact polyDown_maps (hz.smul _) (polyLoop_maps (hz.smul _) _ _).2 _ _
  · exact iterate_inv (fun l : List (Mat n) => ∀ X ∈ l, Maps V X) (sqStep k)
      (fun l h => set_maps (sqOuter_maps k l h) _ ((getD_maps (sqOuter_maps k l h) _).mul (getD_maps (sqOuter_maps k l h) _))) _ _ hl

end sq

/-- The inverse of a matrix keeps every subspace the matrix keeps. -/
theorem inv_maps {𝕜 : Type*} [Field 𝕜] (W : Submodule 𝕜 (Fin n → 𝕜)) (X : Matrix (Fin n) (Fin n) 𝕜)
    (hX : ∀ v ∈ W, X *ᵥ v ∈ W) : ∀ v ∈ W, X⁻¹ *ᵥ v ∈ W := by
  by_cases hdet : IsUnit X.det
  · have hmap : ∀ v ∈ W, Matrix.mulVecLin X v ∈ W := fun v hv => hX v hv
    have hinj : Function.Injective ((Matrix.mulVecLin X).restrict hmap) := by
      intro a b hab
      have h1 : X *ᵥ (a : Fin n → 𝕜) = X *ᵥ (b : Fin n → 𝕜) := congrArg Subtype.val hab
      have h2 := congrArg (fun w => X⁻¹ *ᵥ w) h1
      simp only [Matrix.mulVec_mulVec, Matrix.nonsing_inv_mul X hdet, Matrix.one_mulVec] at h2
      exact Subtype.ext h2
    have hsurj := LinearMap.injective_iff_surjective.1 hinj
    intro v hv
    obtain ⟨u, hu⟩ := hsurj ⟨v, hv⟩
    have h1 : X *ᵥ (u : Fin n → 𝕜) = v := congrArg Subtype.val hu
    rw [← h1, Matrix.mulVec_mulVec, Matrix.nonsing_inv_mul X hdet, Matrix.one_mulVec]
    exact u.2
  · intro v _
    rw [Matrix.nonsing_inv_apply_not_isUnit X hdet, Matrix.zero_mulVec]
    exact W.zero_mem

/-- complex vectors whose real and imaginary parts lie in `V` -/
def complexSub (V : Submodule ℝ (Vec n)) : Submodule ℂ (Fin n → ℂ) where
  carrier := {v | (fun i => (v i).re) ∈ V ∧ (fun i => (v i).im) ∈ V}
  add_mem' h1 h2 := ⟨V.add_mem h1.1 h2.1, V.add_mem h1.2 h2.2⟩
  zero_mem' := ⟨V.zero_mem, V.zero_mem⟩
  smul_mem' c v h := by
    constructor
    · have : (fun i => ((c • v) i).re) = c.re • (fun i => (v i).re) - c.im • fun i => (v i).im := by
        funext i; simp
      rw [this]; exact V.sub_mem (V.smul_mem _ h.1) (V.smul_mem _ h.2)
    · have : (fun i => ((c • v) i).im) = c.re • (fun i => (v i).im) + c.im • fun i => (v i).re := by
        funext i; simp
      rw [this]; exact V.add_mem (V.smul_mem _ h.2) (V.smul_mem _ h.1)

theorem pfdTerm_mem {V : Submodule ℝ (Vec n)} {z : Mat n} (hz : Maps V z) {b : Vec n} (hb : b ∈ V) (k : ℕ) (p c : ℂ) :
    pfdTerm z b k p c ∈ V := by
  have hX : ∀ v ∈ complexSub V, (z.map (algebraMap ℝ ℂ) - p • (1 : Matrix (Fin n) (Fin n) ℂ)) *ᵥ v ∈ complexSub V := by
    intro v hv
    rw [Matrix.sub_mulVec, Matrix.smul_mulVec, Matrix.one_mulVec]
    refine (complexSub V).sub_mem ⟨?_, ?_⟩ ((complexSub V).smul_mem p hv)
    · have : (fun i => ((z.map (algebraMap ℝ ℂ) *ᵥ v) i).re) = z *ᵥ fun i => (v i).re := by
        funext i; simp [Matrix.mulVec, dotProduct]
      rw [this]; exact hz _ hv.1
    · have : (fun i => ((z.map (algebraMap ℝ ℂ) *ᵥ v) i).im) = z *ᵥ fun i => (v i).im := by
        funext i; simp [Matrix.mulVec, dotProduct]
      rw [this]; exact hz _ hv.2
  have hbc : (fun j => (b j : ℂ)) ∈ complexSub V := ⟨by simpa using hb, by
    show (fun i => ((b i : ℂ)).im) ∈ V
    simp only [Complex.ofReal_im]
    exact V.zero_mem⟩
  exact ((complexSub V).smul_mem (2 * c / p ^ k) (inv_maps (complexSub V) _ hX _ hbc)).1

theorem fPhiKPfd_mem {V : Submodule ℝ (Vec n)} (tab : Pfd) {z : Mat n} (hz : Maps V z) {b : Vec n} (hb : b ∈ V) (k : ℕ) :
    fPhiKPfd tab z b k ∈ V := by
  unfold fPhiKPfd
  have : ∀ (l : List (ℂ × ℂ)) (a : Vec n), a ∈ V → l.foldl (fun acc pc => acc + pfdTerm z b k pc.1 pc.2) a ∈ V := by
    intro l
    induction l with
    | nil => exact fun _ h => h
    | cons x l ih => exact fun a h => ih _ (V.add_mem h (pfdTerm_mem hz hb k _ _))
  refine this _ _ ?_
  split
  · exact V.smul_mem _ hb
  · exact V.zero_mem

/-- The kernels of the package keep every subspace, whatever their Krylov dimension, orthogonalisation depth, pole table and
matrix exponential. -/
theorem realKernels_inv (V : Submodule ℝ (Vec n)) (expm : ∀ m, Mat m → Mat m) (tab : Pfd) (rs : Mat n → ℝ → Vec n → ℕ → Vec n)
    (hrs : ∀ J dt b k, Maps V J → b ∈ V → rs J dt b k ∈ V) (maxDim iom : ℕ) :
    InvKernels (realKernels n expm tab rs maxDim iom) V where
  phiLinop A dt v k hA hv := phiLinop_inv _ hA dt hv k maxDim iom
  kiops A dt bs hA hb := kiops_inv _ hA dt hb maxDim iom 1
  phiSqAll z k hz := sqAll_maps hz k
  phiPfd z b k hz hb := Rets.ok (fPhiKPfd_mem tab hz hb k)
  phikvRs := hrs

/-! ### systems tangent to a subspace -/

/-- **Specification.** On the coset `y0 + V` the right-hand side points into `V`, so do the value and time derivative handed out
by the Jacobian operator, and the Jacobian and the splitting operator (and their dense forms) map `V` into `V`. -/
structure TangentTo (sys : OdeSys n P) (V : Submodule ℝ (Vec n)) (y0 : Vec n) : Prop where
  frhs : ∀ kw t y, y - y0 ∈ V → sys.frhs kw t y ∈ V
  jacRhs : ∀ kw t y, y - y0 ∈ V → (sys.fjac kw t y).frhsCached ∈ V
  jacFdt : ∀ kw t y, y - y0 ∈ V → (sys.fjac kw t y).fdt ∈ V
  jacMaps : ∀ kw t y, y - y0 ∈ V → LMaps V (sys.fjac kw t y).toLinOp
  jacDense : ∀ kw t y, y - y0 ∈ V → Rets (sys.fjac kw t y).dense (Maps V)
  flMaps : ∀ t y, y - y0 ∈ V → LMaps V (sys.fl t y)
  flDense : ∀ t y, y - y0 ∈ V → Rets (sys.fl t y).dense (Maps V)

/-- the derivative of a function with values in `V` has values in `V` -/
theorem fderiv_mem {E : Type*} [NormedAddCommGroup E] [NormedSpace ℝ E] (V : Submodule ℝ (Vec n)) (f : E → Vec n)
    (hf : ∀ x, f x ∈ V) (x v : E) : fderiv ℝ f x v ∈ V := by
  by_cases h : DifferentiableAt ℝ f x
  · have hl := (h.hasFDerivAt.hasLineDerivAt v)
    have ht := hasDerivAt_iff_tendsto_slope.1 hl
    refine (Submodule.closed_of_finiteDimensional V).mem_of_tendsto ht (Filter.Eventually.of_forall fun s => ?_)
    rw [slope_def_module]
    exact V.smul_mem _ (V.sub_mem (hf _) (hf _))
  · rw [fderiv_zero_of_not_differentiableAt h]
    exact V.zero_mem

/-- The user's condition: a right-hand side with values in `V`, the default autodiff Jacobian, and any splitting operator that
maps `V` into `V`; no smoothness is needed. -/
theorem tangent_autodiff (V : Submodule ℝ (Vec n)) (f : Option P → ℝ → Vec n → Vec n) (hf : ∀ kw t y, f kw t y ∈ V)
    (fl : ℝ → Vec n → LinOp n) (hl : ∀ t y, LMaps V (fl t y)) (hd : ∀ t y, Rets (fl t y).dense (Maps V)) (y0 : Vec n) :
    TangentTo (OdeSys.ofFrhs f fl) V y0 where
  frhs kw t y _ := hf kw t y
  jacRhs kw t y _ := hf kw t y
  jacFdt kw t y _ := fderiv_mem V (fun p : ℝ × Vec n => f kw p.1 p.2) (fun _ => hf _ _ _) _ _
  jacMaps kw t y _ := fun v _ => fderiv_mem V (fun p : ℝ × Vec n => f kw p.1 p.2) (fun _ => hf _ _ _) _ _
  jacDense kw t y _ := Rets.ok fun v _ => mulVec_cols_mem _
    (fun j => fderiv_mem V (fun p : ℝ × Vec n => f kw p.1 p.2) (fun _ => hf _ _ _) _ _) v
  flMaps t y _ := hl t y
  flDense t y _ := hd t y

/-- every state in the history lies in the coset -/
def AllIn (b : Base (Vec n)) (V : Submodule ℝ (Vec n)) (y0 : Vec n) : Prop := ∀ y ∈ b.yHist.items, y - y0 ∈ V

theorem AllIn.get {b : Base (Vec n)} {V : Submodule ℝ (Vec n)} {y0 : Vec n} (h : AllIn b V y0) (i : ℕ) :
    Rets (b.yHist.get i) (fun y => y - y0 ∈ V) := by
  intro a ha
  unfold Deque.get at ha
  split at ha
  · rename_i x hx
    cases ha
    exact h _ (List.mem_of_getElem? hx)
  · cases ha

theorem allIn_init {t0 : ℝ} {y0 : Vec n} {p : ℕ} {m : String} {b : Base (Vec n)} (V : Submodule ℝ (Vec n))
    (h : Base.init t0 y0 p m = .ok b) : AllIn b V y0 := by
  intro y hy
  rw [allAt_init h y hy, sub_self]
  exact V.zero_mem

theorem allIn_accept {b : Base (Vec n)} {V : Submodule ℝ (Vec n)} {y0 : Vec n} (h : AllIn b V y0) (r : StepResult (Vec n))
    (hr : r.y - y0 ∈ V) : AllIn (b.acceptStep r) V y0 := by
  intro y hy
  have := List.mem_of_mem_take hy
  rcases List.mem_cons.1 this with h' | h'
  · rw [h']; exact hr
  · exact h y h'

theorem coset_add {V : Submodule ℝ (Vec n)} {y y0 v : Vec n} (hy : y - y0 ∈ V) (hv : v ∈ V) : y + v - y0 ∈ V := by
  rw [add_sub_right_comm]; exact V.add_mem hy hv

theorem coset_sub {V : Submodule ℝ (Vec n)} {y y' y0 : Vec n} (hy : y - y0 ∈ V) (hy' : y' - y0 ∈ V) : y - y' ∈ V := by
  have := V.sub_mem hy hy'
  rwa [sub_sub_sub_cancel_right] at this

section rb
variable {V : Submodule ℝ (Vec n)} {y0 : Vec n} {K : Kernels n} (hK : InvKernels K V) {sys : OdeSys n P} (he : TangentTo sys V y0)
include hK he

theorem inv_phi2v (tol dt c : ℝ) (kw : Option P) (t : ℝ) {y : Vec n} (hy : y - y0 ∈ V) :
    Rets (phi2vNonauto K tol (sys.fjac kw t y) dt c) (fun r => r.1 ∈ V ∧ r.2 ∈ V) := by
  unfold phi2vNonauto
  simp only
  refine Rets.ite (Rets.ite ?_ (Rets.pure ⟨V.zero_mem, V.zero_mem⟩)) (Rets.pure ⟨V.zero_mem, V.zero_mem⟩)
  exact Rets.bind _ (hK.phiLinop _ _ _ _ (he.jacMaps kw t y hy) (he.jacFdt kw t y hy)) fun p hp =>
    Rets.pure ⟨V.smul_mem _ hp, he.jacFdt kw t y hy⟩

omit hK in
theorem inv_remf {b : Base (Vec n)} (hb : AllIn b V y0) (tr : ℝ) {yr F : Vec n} (hyr : yr - y0 ∈ V) (hF : F ∈ V) {J : LinOp n}
    (hJ : LMaps V J) {v : Vec n} (hv : v ∈ V) : Rets (remf sys b tr yr F J v) (· ∈ V) := by
  unfold remf
  refine Rets.bind _ Rets.triv fun _ _ => Rets.bind _ (hb.get 0) fun y hy => Rets.pure ?_
  exact V.sub_mem (V.sub_mem (V.sub_mem (he.frhs _ _ _ hyr) hF) (hJ _ (coset_sub hyr hy))) (V.smul_mem _ hv)

/-- **C67, Rosenbrock and EPI methods.** If the history lies in `y0 + V`, so does whatever a step returns: for every method
except the linear propagators `exp_pfd`, `exp_pfd_rs`, every step size, parameter, tolerance and any kernels that keep
`V` (those of the package do). -/
theorem C67_rb_step (hasRust : Bool) (s : ExpRB n) (hs : AllIn s.base V y0) (dt : ℝ) (kw : Option P)
    (hm : s.base.method ≠ "exp_pfd" ∧ s.base.method ≠ "exp_pfd_rs") :
    Rets (ExpRB.step hasRust K sys s dt kw) (fun r => r.y - y0 ∈ V) := by
  have hrb3 : ∀ kw, Rets (stepExprb3 K sys s dt kw) (fun r => r.y - y0 ∈ V) := by
    intro kw
    unfold stepExprb3
    simp only
    refine Rets.bind _ (hs.get 0) fun y hy => Rets.bind _ (inv_phi2v hK he _ _ _ _ _ hy) ?_
    rintro ⟨p2, v⟩ ⟨hp2, hv⟩
    refine Rets.bind _ (hK.phiLinop _ _ _ _ (he.jacMaps _ _ _ hy) (he.jacRhs _ _ _ hy)) fun p1 hp1 => ?_
    have hy2 := coset_add (coset_add hy (V.smul_mem dt hp1)) hp2
    refine Rets.bind _ (inv_remf he hs _ hy2 (he.jacRhs _ _ _ hy) (he.jacMaps _ _ _ hy) hv) fun r2 hr2 => ?_
    refine Rets.bind _ (hK.phiLinop _ _ _ _ (he.jacMaps _ _ _ hy) hr2) fun p3 hp3 => Rets.pure ?_
    exact coset_add hy2 (V.smul_mem _ hp3)
  unfold ExpRB.step
  simp only
  refine Rets.ite ?_ (Rets.ite (hrb3 _) (Rets.ite ?_ (Rets.ite ?_ ?_)))
  · unfold stepExprb2
    simp only
    refine Rets.bind _ (hs.get 0) fun y hy => Rets.bind _ (inv_phi2v hK he _ _ _ _ _ hy) ?_
    rintro ⟨p2, v⟩ ⟨hp2, hv⟩
    refine Rets.bind _ (hK.phiLinop _ _ _ _ (he.jacMaps _ _ _ hy) (V.smul_mem _ (he.jacRhs _ _ _ hy))) fun p hp => Rets.pure ?_
    exact coset_add (coset_add hy hp) hp2
  · unfold stepPexprb4
    simp only
    refine Rets.bind _ (hs.get 0) fun y hy => Rets.bind (· ∈ V) ?_ fun r2 hr2 => ?_
    · unfold fUn2
      simp only
      refine Rets.bind _ (inv_phi2v hK he _ _ _ _ _ hy) ?_
      rintro ⟨p2, v⟩ ⟨hp2, hv⟩
      refine Rets.bind _ (hK.phiLinop _ _ _ _ (he.jacMaps _ _ _ hy) (he.jacRhs _ _ _ hy)) fun p1 hp1 => ?_
      exact inv_remf he hs _ (coset_add (coset_add hy (V.smul_mem _ hp1)) hp2) (he.jacRhs _ _ _ hy) (he.jacMaps _ _ _ hy) hv
    refine Rets.bind (fun r => r.1 - y0 ∈ V ∧ r.2 ∈ V) ?_ ?_
    · unfold fUn3
      simp only
      refine Rets.bind _ (inv_phi2v hK he _ _ _ _ _ hy) ?_
      rintro ⟨p2, v⟩ ⟨hp2, hv⟩
      refine Rets.bind _ (hK.phiLinop _ _ _ _ (he.jacMaps _ _ _ hy) (he.jacRhs _ _ _ hy)) fun p1 hp1 => ?_
      have hy3 := coset_add (coset_add hy (V.smul_mem (1 * dt) hp1)) hp2
      exact Rets.bind _ (inv_remf he hs _ hy3 (he.jacRhs _ _ _ hy) (he.jacMaps _ _ _ hy) hv) fun r3 hr3 => Rets.pure ⟨hy3, hr3⟩
    rintro ⟨y3, r3⟩ ⟨hy3, hr3⟩
    unfold pexprb4Final
    simp only
    refine Rets.bind _ (hK.kiops _ _ _ (he.jacMaps _ _ _ hy) ?_) fun p hp => Rets.pure (coset_add hy3 hp)
    intro b hb
    simp only [List.mem_cons, List.not_mem_nil, or_false] at hb
    rcases hb with rfl | rfl | rfl | rfl | rfl
    · exact V.zero_mem
    · exact V.zero_mem
    · exact V.zero_mem
    · exact V.smul_mem _ (V.sub_mem (V.smul_mem _ hr2) (V.smul_mem _ hr3))
    · exact V.smul_mem _ (V.add_mem (V.smul_mem _ hr2) (V.smul_mem _ hr3))
  · unfold stepEpi2
    simp only
    refine Rets.bind _ (hs.get 0) fun y hy => Rets.bind _ (hK.kiops _ _ _ (he.jacMaps _ _ _ hy) ?_) fun p hp =>
      Rets.pure (coset_add hy hp)
    intro b hb
    simp only [List.mem_cons, List.not_mem_nil, or_false] at hb
    rcases hb with rfl | rfl | rfl
    · exact V.zero_mem
    · exact V.smul_mem _ (he.jacRhs _ _ _ hy)
    · exact V.smul_mem _ (he.jacFdt _ _ _ hy)
  · refine Rets.ite (Rets.ite ?_ (hrb3 _)) (Rets.ite ?_ (Rets.ite ?_ ?_))
    · unfold stepEpi3
      simp only
      refine Rets.bind _ (hs.get 0) fun y hy => Rets.bind _ (hs.get 1) fun yp hyp => Rets.bind _ Rets.triv fun tp _ => ?_
      refine Rets.bind _ (inv_remf he hs _ hyp (he.jacRhs _ _ _ hy) (he.jacMaps _ _ _ hy) (he.jacFdt _ _ _ hy)) fun rn hrn => ?_
      refine Rets.bind _ (hK.kiops _ _ _ (he.jacMaps _ _ _ hy) ?_) fun p hp => Rets.pure (coset_add hy hp)
      intro b hb
      simp only [List.mem_cons, List.not_mem_nil, or_false] at hb
      rcases hb with rfl | rfl | rfl
      · exact V.zero_mem
      · exact V.smul_mem _ (he.jacRhs _ _ _ hy)
      · exact V.add_mem (V.smul_mem _ hrn) (V.smul_mem _ (he.jacFdt _ _ _ hy))
    · unfold stepExprb2Dense
      simp only
      refine Rets.bind _ (hs.get 0) fun y hy => Rets.bind _ (he.jacDense _ _ _ hy) fun J hJ =>
        Rets.bind _ (hK.phiSqAll _ _ (hJ.smul dt)) fun l hl => ?_
      have hget : ∀ i, Rets (pyGet l i) (Maps V) := by
        intro i X hX
        unfold pyGet at hX
        split at hX
        · rename_i x hx; cases hX; exact hl _ (List.mem_of_getElem? hx)
        · cases hX
      refine Rets.bind _ (hget 1) fun p1 hp1 => Rets.bind _ (hget 2) fun p2 hp2 => Rets.pure ?_
      refine coset_add hy (V.smul_mem _ (V.add_mem (hp1 _ (he.jacRhs _ _ _ hy)) ?_))
      exact V.smul_mem _ (hp2 _ (he.jacFdt _ _ _ hy))
    · unfold stepExprb2Pfd
      simp only
      refine Rets.bind _ (hs.get 0) fun y hy => Rets.bind _ (he.jacDense _ _ _ hy) fun J hJ => ?_
      have tail : ∀ x : Vec n, x ∈ V → Rets (K.phiPfd (dt • J) (sys.fjac (some (kw.getD ∅)) s.base.t y).frhsCached 1 >>= fun p => pure
          (StepResult.mk (s.base.t + dt) dt (y + dt • (p + dt • x)) (-1))) (fun r => r.y - y0 ∈ V) := by
        intro x hx
        refine Rets.bind _ (hK.phiPfd _ _ _ (hJ.smul dt) (he.jacRhs _ _ _ hy)) fun p hp => Rets.pure ?_
        exact coset_add hy (V.smul_mem _ (V.add_mem hp (V.smul_mem _ hx)))
      refine Rets.ite (Rets.ite ?_ (tail 0 V.zero_mem)) (tail 0 V.zero_mem)
      exact Rets.bind _ (hK.phiPfd _ _ _ (hJ.smul dt) (he.jacFdt _ _ _ hy)) tail
    · rw [if_neg hm.1]
      refine Rets.ite ?_ ?_
      · unfold stepExprb2PfdRs
        simp only
        refine Rets.bind _ (hs.get 0) fun y hy => Rets.bind _ (he.jacDense _ _ _ hy) fun J hJ => Rets.pure ?_
        refine coset_add hy (V.smul_mem _ (V.add_mem (hK.phikvRs _ _ _ _ hJ (he.jacRhs _ _ _ hy)) (V.smul_mem _ ?_)))
        split
        · split
          · exact hK.phikvRs _ _ _ _ hJ (he.jacFdt _ _ _ hy)
          · exact V.zero_mem
        · exact V.zero_mem
      · rw [if_neg (fun h => hm.2 h.1)]
        exact Rets.error

/-- the cached operator and matrices of the dense splitting methods keep `V` -/
def CacheKeeps (V : Submodule ℝ (Vec n)) (s : ExpSplit n) : Prop :=
  (∀ lop, s.cachedSysLop = some lop → LMaps V lop) ∧ ∀ d, s.cachedPhiLs = some d → ∀ ck X, d ck = some X → Maps V X

theorem inv_fill {L : Mat n} (hL : Maps V L) (dt : ℝ) : ∀ (cks : List (ℝ × List ℕ)) (d : PhiDict n),
    (∀ ck X, d ck = some X → Maps V X) → Rets (fillPhiLs K dt L cks d) (fun d => ∀ ck X, d ck = some X → Maps V X)
  | [], d, h => Rets.ok h
  | (c, ks) :: rest, d, h => by
    unfold fillPhiLs
    refine Rets.bind _ (hK.phiSqAll _ _ (hL.smul _)) fun l hl => ?_
    have hfold : ∀ (ks : List ℕ) (d : PhiDict n), (∀ ck X, d ck = some X → Maps V X) →
        Rets (ks.foldlM (fun d k => do
          let x ← pyGet l k
          pure (Function.update d (c, k) (some x))) d) (fun d => ∀ ck X, d ck = some X → Maps V X) := by
      intro ks
      induction ks with
      | nil => exact fun d h => Rets.pure h
      | cons k ks ih =>
        intro d h
        rw [List.foldlM_cons]
        refine Rets.bind (fun d : PhiDict n => ∀ ck X, d ck = some X → Maps V X) ?_ fun d' h' => ih d' h'
        refine Rets.bind (Maps V) ?_ fun X hX => Rets.pure ?_
        · intro X hX
          unfold pyGet at hX
          split at hX
          · rename_i x hx; cases hX; exact hl _ (List.mem_of_getElem? hx)
          · cases hX
        · intro ck Y hY
          by_cases hck : ck = (c, k)
          · subst hck
            rw [Function.update_self] at hY
            cases hY
            exact hX
          · rw [Function.update_of_ne hck] at hY
            exact h ck Y hY
    exact Rets.bind _ (hfold ks d h) fun d' h' => inv_fill hL dt rest d' h'

theorem inv_update (s : ExpSplit n) (hs : AllIn s.base V y0) (hl : CacheKeeps V s) (dt : ℝ) (cks : List (ℝ × List ℕ)) :
    Rets (updateDensePhiLs K sys s dt cks) (fun s' => s'.base = s.base ∧ CacheKeeps V s') := by
  unfold updateDensePhiLs
  split
  · exact Rets.ok ⟨rfl, hl⟩
  · refine Rets.bind _ (hs.get 0) fun y hy => Rets.bind _ (he.flDense _ _ hy) fun L hL =>
      Rets.bind _ (inv_fill hK he hL dt cks _ (by simp)) fun d hd => Rets.pure ⟨rfl, ?_, ?_⟩
    · intro lop h
      cases h
      exact he.flMaps _ _ hy
    · intro d' h
      cases h
      exact hd

omit hK he in
theorem inv_dictGet {d : PhiDict n} (h : ∀ ck X, d ck = some X → Maps V X) (ck : ℝ × ℕ) : Rets (dictGet d ck) (Maps V) := by
  intro X hX
  unfold dictGet at hX
  split at hX
  · rename_i x hx; cases hX; exact h ck _ hx
  · cases hX

omit hK he in
theorem inv_optGet {α : Type} (o : Option α) : Rets (optGet o) (fun x => o = some x) := by
  unfold optGet
  intro a ha
  split at ha
  · cases ha; rfl
  · cases ha

/-- **C67, splitting methods**, with the invariant on the cache. -/
theorem C67_split_step (s : ExpSplit n) (hs : AllIn s.base V y0) (hl : CacheKeeps V s) (dt : ℝ) (kw : Option P) :
    Rets (ExpSplit.step K sys s dt kw) (fun r => r.1.y - y0 ∈ V ∧ r.2.base = s.base ∧ CacheKeeps V r.2) := by
  have hkeep : ∀ x : Py (StepResult (Vec n)), Rets x (fun r => r.y - y0 ∈ V) →
      Rets (keep s x) (fun r => r.1.y - y0 ∈ V ∧ r.2.base = s.base ∧ CacheKeeps V r.2) := by
    intro x hx
    cases x with
    | error e => exact Rets.error
    | ok a => exact Rets.ok ⟨hx a rfl, rfl, hl⟩
  have hrem : ∀ tr {yr F : Vec n} {L : LinOp n}, yr - y0 ∈ V → F ∈ V → LMaps V L →
      Rets (remfSplit sys s.base tr yr F L) (· ∈ V) := by
    intro tr yr F L h1 h2 h3
    unfold remfSplit
    exact Rets.bind _ (hs.get 0) fun y hy => Rets.pure
      (V.sub_mem (V.sub_mem (he.frhs _ _ _ h1) h2) (h3 _ (coset_sub h1 hy)))
  unfold ExpSplit.step
  simp only
  refine Rets.ite (hkeep _ ?_) (Rets.ite (hkeep _ ?_) (Rets.ite (hkeep _ ?_) (Rets.ite ?_ (Rets.ite ?_ (Rets.ite ?_ Rets.error)))))
  · unfold stepExp1
    simp only
    exact Rets.bind _ (hs.get 0) fun y hy =>
      Rets.bind _ (hK.phiLinop _ _ _ _ (he.flMaps _ _ hy) (V.smul_mem _ (he.frhs _ _ _ hy))) fun p hp => Rets.pure (coset_add hy hp)
  · unfold stepExp2
    simp only
    refine Rets.bind _ (hs.get 0) fun y hy =>
      Rets.bind _ (hK.phiLinop _ _ _ _ (he.flMaps _ _ hy) (V.smul_mem _ (he.frhs _ _ _ hy))) fun p1 hp1 => ?_
    refine Rets.bind _ (hrem _ (coset_add hy hp1) (he.frhs _ _ _ hy) (he.flMaps _ _ hy)) fun r2 hr2 => ?_
    exact Rets.bind _ (hK.phiLinop _ _ _ _ (he.flMaps _ _ hy) (V.smul_mem _ hr2)) fun p2 hp2 =>
      Rets.pure (coset_add (coset_add hy hp1) hp2)
  · unfold stepExp3
    simp only
    refine Rets.bind _ (hs.get 0) fun y hy =>
      Rets.bind _ (hK.phiLinop _ _ _ _ (he.flMaps _ _ hy) (V.smul_mem _ (he.frhs _ _ _ hy))) fun p1 hp1 => ?_
    refine Rets.bind _ (hrem _ (coset_add hy hp1) (he.frhs _ _ _ hy) (he.flMaps _ _ hy)) fun r2 hr2 => ?_
    refine Rets.bind _ (hK.phiLinop _ _ _ _ (he.flMaps _ _ hy) (V.smul_mem _ hr2)) fun p2 hp2 => ?_
    refine Rets.bind _ (hrem _ (coset_add (coset_add hy hp1) hp2) (he.frhs _ _ _ hy) (he.flMaps _ _ hy)) fun r3 hr3 => ?_
    refine Rets.bind _ (hK.phiLinop _ _ _ _ (he.flMaps _ _ hy) (V.smul_mem _ (he.frhs _ _ _ hy))) fun q1 hq1 => ?_
    exact Rets.bind _ (hK.phiLinop _ _ _ _ (he.flMaps _ _ hy) (V.smul_mem _ hr3)) fun q2 hq2 =>
      Rets.pure (coset_add (coset_add hy hq1) hq2)
  · unfold stepExp1Dense
    simp only
    refine Rets.bind _ (hs.get 0) fun y hy => Rets.bind _ (inv_update hK he s hs hl _ _) ?_
    rintro s' ⟨hb, hl'⟩
    refine Rets.bind _ (inv_optGet _) fun d hd => Rets.bind _ (inv_dictGet (hl'.2 d hd) _) fun X hX => Rets.pure ⟨?_, hb, hl'⟩
    exact coset_add hy (hX.smul dt _ (he.frhs _ _ _ hy))
  · unfold stepExp2Dense
    simp only
    refine Rets.bind _ (hs.get 0) fun y hy => Rets.bind _ (inv_update hK he s hs hl _ _) ?_
    rintro s' ⟨hb, hl'⟩
    refine Rets.bind _ (inv_optGet _) fun d hd => Rets.bind _ (inv_optGet _) fun lop hlop =>
      Rets.bind _ (inv_dictGet (hl'.2 d hd) _) fun X hX => Rets.bind _ (inv_dictGet (hl'.2 d hd) _) fun X1 hX1 =>
      Rets.bind _ (inv_dictGet (hl'.2 d hd) _) fun X2 hX2 => Rets.pure ⟨?_, hb, hl'⟩
    have hf := he.frhs none s.base.t y hy
    have hy2 := coset_add hy (hX.smul (2 / 3 * dt) _ hf)
    have hr2 := V.sub_mem (V.sub_mem (he.frhs none (s.base.t + 2 / 3 * dt) _ hy2) hf) (hl'.1 lop hlop _ (coset_sub hy2 hy))
    exact coset_add hy (V.smul_mem dt (V.add_mem (hX1 _ hf) (hX2.smul (1 / (2 / 3)) _ hr2)))
  · unfold stepExp3Dense
    simp only
    refine Rets.bind _ (hs.get 0) fun y hy => Rets.bind _ (inv_update hK he s hs hl _ _) ?_
    rintro s' ⟨hb, hl'⟩
    refine Rets.bind _ (inv_optGet _) fun d hd => Rets.bind _ (inv_optGet _) fun lop hlop =>
      Rets.bind _ (inv_dictGet (hl'.2 d hd) _) fun X hX => Rets.bind _ (inv_dictGet (hl'.2 d hd) _) fun X1 hX1 =>
      Rets.bind _ (inv_dictGet (hl'.2 d hd) _) fun X2 hX2 => Rets.bind _ (inv_dictGet (hl'.2 d hd) _) fun X3 hX3 =>
      Rets.bind _ (inv_dictGet (hl'.2 d hd) _) fun X4 hX4 => Rets.pure ⟨?_, hb, hl'⟩
    have hf := he.frhs none s.base.t y hy
    have hy2 := coset_add hy (hX.smul (2 / 3 * dt) _ hf)
    have hr2 := V.sub_mem (V.sub_mem (he.frhs none (s.base.t + 2 / 3 * dt) _ hy2) hf) (hl'.1 lop hlop _ (coset_sub hy2 hy))
    have hy3 := coset_add hy (V.smul_mem (2 / 3 * dt) (V.add_mem (hX1 _ hf) (hX2.smul (2 / 3 / (2 / 3)) _ hr2)))
    have hr3 := V.sub_mem (V.sub_mem (he.frhs none (s.base.t + 2 / 3 * dt) _ hy3) hf) (hl'.1 lop hlop _ (coset_sub hy3 hy))
    exact coset_add hy (V.smul_mem dt (V.add_mem (hX3 _ hf) (hX4.smul (3 / 2) _ hr3)))

end rb

/-- **C67, RK4.** -/
theorem C67_rk_step {V : Submodule ℝ (Vec n)} {y0 : Vec n} {sys : OdeSys n P} (he : TangentTo sys V y0) (s : Base (Vec n))
    (hs : AllIn s V y0) (dt : ℝ) (kw : Option P) : Rets (RK.step sys s dt kw) (fun r => r.y - y0 ∈ V) := by
  unfold RK.step
  split
  · exact Rets.error
  · refine Rets.ite ?_ Rets.error
    unfold stepRk4
    simp only
    refine Rets.bind _ (hs.get 0) fun y hy => Rets.pure ?_
    have h1 := he.frhs none s.t y hy
    have h2 := he.frhs none (s.t + dt / 2) _ (coset_add hy (V.smul_mem (dt / 2) h1))
    have h3 := he.frhs none (s.t + dt / 2) _ (coset_add hy (V.smul_mem (dt / 2) h2))
    have h4 := he.frhs none (s.t + dt) _ (coset_add hy (V.smul_mem dt h3))
    exact coset_add hy (V.smul_mem _ (V.add_mem (V.add_mem (V.add_mem h1 (V.smul_mem _ h2)) (V.smul_mem _ h3)) h4))

end
end Ormatex.Props
