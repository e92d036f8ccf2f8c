import Verif.Props.RsUnits
import Verif.Spec.KrylovUnits
import Verif.Model.Krylov

/-!
C142: the Krylov products of the Python package in other coordinates and units.
-/

namespace Ormatex.Props
open Matrix Ormatex.Spec
open scoped Classical

section
variable {r : ℕ}

/-- the arrays of the Arnoldi process in the other coordinates -/
def turnArn (T : Vec r → Vec r) (s : ArnState r) : ArnState r := ArnState.mk s.hs (fun c => T (s.qs c)) s.k s.notBreakdown

namespace Turn
variable {T : Vec r → Vec r} (h : Turn T)
include h

theorem divs (v : Vec r) (a : ℝ) : (fun i => T v i / a) = T fun i => v i / a := by
  have e : ∀ w : Vec r, (fun i => w i / a) = a⁻¹ • w := fun w => by
    funext i
    simp [div_eq_inv_mul]
  rw [e, e, h.smul]

theorem foldl_turn (qs : ℕ → Vec r) (k : ℕ) (is : List ℕ) (o : OrthoState r) :
    is.foldl (orthoBody (fun c => T (qs c)) k) (OrthoState.mk o.hs (T o.qv)) =
      OrthoState.mk (is.foldl (orthoBody qs k) o).hs (T (is.foldl (orthoBody qs k) o).qv) := by
  induction is generalizing o with
  | nil => rfl
  | cons i is ih =>
    simp only [List.foldl_cons]
    rw [← ih]
    congr 1
    unfold orthoBody
    simp only [h.dot, h.sub, h.smul]

theorem mgs_turn {A B : LinOp r} (hAB : OpTurn T A B) (scale : ℝ) (m iom : ℕ) (s : ArnState r) :
    arnoldiMgs B scale m iom (turnArn T s) = turnArn T (arnoldiMgs A scale m iom s) := by
  have hf := h.foldl_turn s.qs s.k (List.range' (s.k - iom) (s.k + 1 - (s.k - iom))) (OrthoState.mk s.hs (scale • A.call (s.qs s.k)))
  unfold arnoldiMgs turnArn
  simp only [hAB (s.qs s.k), ← h.smul, hf, h.norm, h.divs]
  congr 1
  split_ifs with h1
  · funext c
    by_cases hc : c = s.k + 1
    · subst hc; simp
    · simp [Function.update_of_ne hc]
  · rfl

theorem pyloop_turn {A B : LinOp r} (hAB : OpTurn T A B) (scale : ℝ) (m iom : ℕ) : ∀ (f : ℕ) (s : ArnState r),
    arnoldiLoop B scale m iom f (turnArn T s) = turnArn T (arnoldiLoop A scale m iom f s)
  | 0, _ => rfl
  | f + 1, s => by
    simp only [arnoldiLoop]
    by_cases hc : s.k < m ∧ s.notBreakdown
    · rw [if_pos hc, if_pos (show (turnArn T s).k < m ∧ (turnArn T s).notBreakdown from hc), h.mgs_turn hAB, pyloop_turn hAB scale m iom f]
    · rw [if_neg hc, if_neg (show ¬((turnArn T s).k < m ∧ (turnArn T s).notBreakdown) from hc)]

theorem init_turn (b : Vec r) : arnoldiInit (T b) = turnArn T (arnoldiInit b) := by
  unfold arnoldiInit turnArn
  simp only [h.norm, h.divs]
  congr 1
  funext c
  by_cases hc : c = 0
  · subst hc
    simp only [Function.update_self]
    split_ifs <;> rfl
  · simp only [Function.update_of_ne hc, h.zero]

/-- the Arnoldi process of the package in the other coordinates: the same size and Hessenberg matrix, and the turned basis -/
theorem lop_turn {A B : LinOp r} (hAB : OpTurn T A B) (scale : ℝ) (b : Vec r) (m iom : ℕ) :
    arnoldiLop B scale (T b) m iom = ArnResult.mk (arnoldiLop A scale b m iom).k
      (Matrix.of fun i j => T (fun l => (arnoldiLop A scale b m iom).Q l j) i) (arnoldiLop A scale b m iom).H := by
  unfold arnoldiLop arnoldiJit
  rw [h.init_turn, h.pyloop_turn hAB]
  rfl

theorem phiLinop_turn (appl : DenseAppl) {A B : LinOp r} (hAB : OpTurn T A B) (dt : ℝ) (v : Vec r) (k m iom : ℕ) :
    phiLinop appl B dt (T v) k m iom = (phiLinop appl A dt v k m iom).map T := by
  have hd : (fun i => T v i / norm2 (T v)) = T fun i => v i / norm2 v := by rw [h.norm, h.divs]
  have hl := (congrArg (fun w => arnoldiLop B dt w m iom) hd).trans (h.lop_turn hAB dt (fun i => v i / norm2 v) m iom)
  unfold phiLinop
  by_cases hv : norm2 v > 0
  · have hv' : norm2 (T v) > 0 := by rwa [h.norm]
    simp only [if_pos hv, if_pos hv']
    generalize arnoldiLop B dt (fun i => T v i / norm2 (T v)) m iom = X at hl ⊢
    subst hl
    dsimp only
    split_ifs
    · cases appl _ (arnoldiLop A dt (fun i => v i / norm2 v) m iom).H (firstUnit _) k with
      | error e => rfl
      | ok e => simp only [bind, Except.bind, pure, Except.pure, Except.map, h.cols_turn, h.smul, h.norm]
    · rfl
  · have hv' : ¬norm2 (T v) > 0 := by rwa [h.norm]
    simp only [if_neg hv, if_neg hv', Except.map, h.zero]

end Turn

theorem phiLinop_scale (appl : DenseAppl) (A : LinOp r) {a : ℝ} (ha : 0 < a) (dt : ℝ) (v : Vec r) (k m iom : ℕ) :
    phiLinop appl A dt (a • v) k m iom = (phiLinop appl A dt v k m iom).map (a • ·) := by
  have hd : (fun i => (a • v) i / norm2 (a • v)) = fun i => v i / norm2 v := by
    funext i
    rw [norm2_scale ha, Pi.smul_apply, smul_eq_mul, mul_div_mul_left _ _ ha.ne']
  unfold phiLinop
  by_cases hv : norm2 v > 0
  · have hv' : norm2 (a • v) > 0 := by
      rw [norm2_scale ha]
      exact mul_pos ha hv
    simp only [if_pos hv, if_pos hv']
    have hl : arnoldiLop A dt (fun i => (a • v) i / norm2 (a • v)) m iom = arnoldiLop A dt (fun i => v i / norm2 v) m iom := by rw [hd]
    generalize arnoldiLop A dt (fun i => (a • v) i / norm2 (a • v)) m iom = X at hl ⊢
    subst hl
    split_ifs
    · cases appl _ (arnoldiLop A dt (fun i => v i / norm2 v) m iom).H (firstUnit _) k with
      | error e => rfl
      | ok e => simp only [bind, Except.bind, pure, Except.pure, Except.map, norm2_scale ha, mul_smul]
    · rfl
  · have hv' : ¬norm2 (a • v) > 0 := by
      rw [norm2_scale ha]
      intro q
      exact hv (pos_of_mul_pos_right q ha.le)
    simp only [if_neg hv, if_neg hv', Except.map, smul_zero]

/-- the part of `kiops_fixedsteps` after the normalization -/
noncomputable def kiopsCore (appl : DenseAppl) (maxDim iom : ℕ) (A : LinOp r) (dt : ℝ) (p : ℕ) (N : ℝ) (B : Matrix (Fin r) (Fin p) ℝ) (v : Vec r) :
    Py (Vec r) := do
  let aTilde ← augMatrixLinOp A dt B (augK p)
  let w ← matexpLinop appl aTilde 1 (concat v (lastUnit p)) maxDim iom
  pure (N • headN w)

theorem kiops_core (appl : DenseAppl) (maxDim iom : ℕ) (A : LinOp r) (dt : ℝ) (vb : List (Vec r)) (p ns : ℕ) (hp : vb.length - 1 = p) (h0 : vb ≠ [])
    (hN : maxNorm vb > 0) (hp0 : p ≠ 0) : kiopsFixedsteps appl A dt vb maxDim iom ns =
      kiopsCore appl maxDim iom A dt p (maxNorm vb) (Matrix.of fun i j => vb.getD (p - j) 0 i / maxNorm vb) (fun i => vb.getD 0 0 i / maxNorm vb) := by
  subst hp
  unfold kiopsFixedsteps kiopsWith kiopsCore
  simp only [if_neg h0, if_pos hN, if_neg hp0]
  rfl

theorem core_turn {T : Vec r → Vec r} (h : Turn T) (appl : DenseAppl) (maxDim iom : ℕ) {A A' : LinOp r} (hA : OpTurn T A A') (dt : ℝ) (p : ℕ) (N : ℝ)
    (B : Matrix (Fin r) (Fin p) ℝ) (v : Vec r) :
    kiopsCore appl maxDim iom A' dt p N (Matrix.of fun i j => T (fun l => B l j) i) (T v) = (kiopsCore appl maxDim iom A dt p N B v).map T := by
  have hd : ∀ (a : Vec r) (b : Vec p) , headN (concat a b) = a ∧ tailP (concat a b) = b := fun a b => by
    constructor <;> funext i <;> simp [headN, tailP, concat]
  have ha : ∀ (L : LinOp r) (C : Matrix (Fin r) (Fin p) ℝ), augMatrixLinOp L dt C (augK p) = .ok (augMatvec L dt C (augK p)) := fun L C => by
    unfold augMatrixLinOp
    rw [dif_pos ⟨rfl, rfl⟩]
    rfl
  have ho : OpTurn (fun w : Vec (r + p) => concat (T (headN w)) (tailP w)) (augMatvec A dt B (augK p))
      (augMatvec A' dt (Matrix.of fun i j => T (fun l => B l j) i) (augK p)) := by
    intro w
    simp only [LinOp.call, augMatvec]
    have hA' : ∀ v, A'.matvec (T v) = T (A.matvec v) := hA
    rw [(hd _ _).1, (hd _ _).2, (hd _ _).1, (hd _ _).2, hA', h.cols_turn, h.add, h.smul]
  have hv : concat (T v) (lastUnit p) = (fun w : Vec (r + p) => concat (T (headN w)) (tailP w)) (concat v (lastUnit p)) := by
    simp only [(hd _ _).1, (hd _ _).2]
  unfold kiopsCore
  simp only [ha, bind, Except.bind]
  rw [hv]
  unfold matexpLinop
  rw [(h.ext p).phiLinop_turn appl ho]
  cases phiLinop appl (augMatvec A dt B (augK p)) 1 (concat v (lastUnit p)) 0 maxDim iom with
  | error e => rfl
  | ok w => simp only [Except.map, pure, Except.pure, (hd _ _).1, h.smul]

theorem maxNorm_units {S : Mat r} (hS : Sᵀ * S = 1) {a : ℝ} (ha : 0 < a) (vb : List (Vec r)) :
    maxNorm (vb.map fun v => (a • S) *ᵥ v) = a * maxNorm vb := by
  have hn : ∀ v : Vec r, norm2 ((a • S) *ᵥ v) = a * norm2 v := fun v => by
    rw [smul_mulVec, norm2_scale ha]
    exact congrArg (a * ·) ((turn_orth hS).norm v)
  have hf : ∀ (l : List (Vec r)) (x : ℝ), ((l.map fun v => (a • S) *ᵥ v).map norm2).foldl max (a * x) = a * (l.map norm2).foldl max x := by
    intro l
    induction l with
    | nil => intro x; rfl
    | cons v l ih =>
      intro x
      simp only [List.map_cons, List.foldl_cons]
      rw [hn, ← mul_max_of_nonneg _ _ ha.le, ih]
  have := hf vb 0
  rw [mul_zero] at this
  exact this

theorem kiops_units (appl : DenseAppl) {S A A' : Mat r} {L L' : LinOp r} (hS : Sᵀ * S = 1) {a : ℝ} (ha : 0 < a) (h1 : ∀ v, L.call v = A *ᵥ v)
    (h2 : ∀ v, L'.call v = A' *ᵥ v) (h3 : A' * S = S * A) (dt : ℝ) (vb : List (Vec r)) (m iom ns : ℕ) :
    kiopsFixedsteps appl L' dt (vb.map fun v => (a • S) *ᵥ v) m iom ns = (kiopsFixedsteps appl L dt vb m iom ns).map fun v => (a • S) *ᵥ v := by
  have ho : OpTurn (fun v => S *ᵥ v) L L' := by
    intro v
    rw [h1 v, h2]
    dsimp only
    rw [mulVec_mulVec, mulVec_mulVec, h3]
  have hM := maxNorm_units hS ha vb
  by_cases h0 : vb = []
  · subst h0
    rfl
  have h0' : (vb.map fun v => (a • S) *ᵥ v) ≠ [] := fun q => h0 (List.map_eq_nil_iff.1 q)
  by_cases hN : maxNorm vb > 0
  · have hN' : maxNorm (vb.map fun v => (a • S) *ᵥ v) > 0 := by
      rw [hM]
      exact mul_pos ha hN
    by_cases hp : vb.length - 1 = 0
    · have hp' : (vb.map fun v => (a • S) *ᵥ v).length - 1 = 0 := by rwa [List.length_map]
      unfold kiopsFixedsteps kiopsWith
      simp only [if_neg h0, if_neg h0', if_pos hN, if_pos hN', if_pos hp, if_pos hp', Except.map]
    · rw [kiops_core appl m iom L' dt _ (vb.length - 1) ns (by rw [List.length_map]) h0' hN' hp, kiops_core appl m iom L dt vb _ ns rfl h0 hN hp, hM]
      have hg : ∀ k, (vb.map fun v => (a • S) *ᵥ v).getD k 0 = (a • S) *ᵥ vb.getD k 0 := fun k => by
        rw [List.getD_eq_getElem?_getD, List.getD_eq_getElem?_getD, List.getElem?_map]
        cases vb[k]? with
        | none => simp only [Option.map_none, Option.getD_none, mulVec_zero]
        | some w => rfl
      have hdv : ∀ (w : Vec r) (i : Fin r), ((a • S) *ᵥ w) i / (a * maxNorm vb) = (S *ᵥ fun l => w l / maxNorm vb) i := fun w i => by
        have e : (fun l => w l / maxNorm vb) = (maxNorm vb)⁻¹ • w := by
          funext l
          simp [div_eq_inv_mul]
        rw [e, mulVec_smul, smul_mulVec, Pi.smul_apply, Pi.smul_apply, smul_eq_mul, smul_eq_mul, mul_div_mul_left _ _ ha.ne', div_eq_inv_mul]
      simp only [hg, hdv]
      have hc := core_turn (turn_orth hS) appl m iom ho dt (vb.length - 1) (a * maxNorm vb)
        (Matrix.of fun i j => vb.getD (vb.length - 1 - j) 0 i / maxNorm vb) (fun i => vb.getD 0 0 i / maxNorm vb)
      refine Eq.trans hc ?_
      unfold kiopsCore
      cases augMatrixLinOp L dt (Matrix.of fun i j => vb.getD (vb.length - 1 - j) 0 i / maxNorm vb) (augK (vb.length - 1)) with
      | error e => rfl
      | ok E =>
        simp only [bind, Except.bind]
        cases matexpLinop appl E 1 (concat (fun i => vb.getD 0 0 i / maxNorm vb) (lastUnit (vb.length - 1))) m iom with
        | error e => rfl
        | ok w =>
          simp only [Except.map, pure, Except.pure, mulVec_smul, smul_mulVec, mul_smul]
          rw [smul_comm a]
  · have hN' : ¬maxNorm (vb.map fun v => (a • S) *ᵥ v) > 0 := by
      rw [hM]
      intro q
      exact hN (pos_of_mul_pos_right q ha.le)
    unfold kiopsFixedsteps kiopsWith
    simp only [if_neg h0, if_neg h0', if_neg hN, if_neg hN', Except.map, mulVec_zero]

theorem phiLinop_units (appl : DenseAppl) {S A A' : Mat r} {L L' : LinOp r} (hS : Sᵀ * S = 1) {a : ℝ} (ha : 0 < a) (h1 : ∀ v, L.call v = A *ᵥ v)
    (h2 : ∀ v, L'.call v = A' *ᵥ v) (h3 : A' * S = S * A) (dt : ℝ) (v : Vec r) (k m iom : ℕ) :
    phiLinop appl L' dt ((a • S) *ᵥ v) k m iom = (phiLinop appl L dt v k m iom).map fun v => (a • S) *ᵥ v := by
  have ho : OpTurn (fun v => S *ᵥ v) L L' := by
    intro v
    rw [h1 v, h2]
    dsimp only
    rw [mulVec_mulVec, mulVec_mulVec, h3]
  rw [smul_mulVec a S v, phiLinop_scale appl _ ha, (turn_orth hS).phiLinop_turn appl ho]
  cases phiLinop appl L dt v k m iom with
  | error e => rfl
  | ok w => simp only [Except.map, smul_mulVec]

end

section steps
set_option linter.unusedSectionVars false
variable {n : ℕ} {P : Type} [EmptyCollection P] {S : Mat n} {a c : ℝ} {sys sys' : OdeSys n P}

theorem deque_get {α β : Type*} (g : α → β) (d : Deque α) (i : ℕ) : (mapDeque g d).get i = (d.get i).map g := by
  unfold Deque.get mapDeque
  rw [List.getElem?_map]
  cases d.items[i]? <;> rfl

theorem call_units (hS : ScaledOde S a c sys sys') (kw : Option P) (t : ℝ) (y v : Vec n) :
    (sys'.fjac kw (t + c) ((a • S) *ᵥ y)).toLinOp.call ((a • S) *ᵥ v) = (a • S) *ᵥ (sys.fjac kw t y).toLinOp.call v := by
  obtain ⟨A, A', h1, h2, h3⟩ := hS.jac kw t y
  rw [h1 v, h2, mulVec_mulVec, mulVec_mulVec, Matrix.mul_smul, Matrix.smul_mul, h3]

theorem fl_units (hS : ScaledOde S a c sys sys') (t : ℝ) (y v : Vec n) :
    (sys'.fl (t + c) ((a • S) *ᵥ y)).call ((a • S) *ᵥ v) = (a • S) *ᵥ (sys.fl t y).call v := by
  obtain ⟨A, A', h1, h2, h3⟩ := hS.lin t y
  rw [h1 v, h2, mulVec_mulVec, mulVec_mulVec, Matrix.mul_smul, Matrix.smul_mul, h3]

/-- the Krylov products of the package with the Jacobians of the two systems -/
def KScaled (S : Mat n) (a c : ℝ) (sys sys' : OdeSys n P) (K : Kernels n) : Prop :=
  (∀ kw t y dt v k, K.phiLinop (sys'.fjac kw (t + c) ((a • S) *ᵥ y)).toLinOp dt ((a • S) *ᵥ v) k =
    (K.phiLinop (sys.fjac kw t y).toLinOp dt v k).map ((a • S) *ᵥ ·)) ∧
  (∀ kw t y dt vb, K.kiops (sys'.fjac kw (t + c) ((a • S) *ᵥ y)).toLinOp dt (vb.map ((a • S) *ᵥ ·)) =
    (K.kiops (sys.fjac kw t y).toLinOp dt vb).map ((a • S) *ᵥ ·)) ∧
  ∀ t y dt v k, K.phiLinop (sys'.fl (t + c) ((a • S) *ᵥ y)) dt ((a • S) *ᵥ v) k = (K.phiLinop (sys.fl t y) dt v k).map ((a • S) *ᵥ ·)

theorem real_scaled (hS : ScaledOde S a c sys sys') (expm : ∀ m, Mat m → Mat m) (tab : Pfd) (rs : Mat n → ℝ → Vec n → ℕ → Vec n) (maxDim iom : ℕ) :
    KScaled S a c sys sys' (realKernels n expm tab rs maxDim iom) := by
  refine ⟨?_, ?_, ?_⟩
  · intro kw t y dt v k
    obtain ⟨A, A', h1, h2, h3⟩ := hS.jac kw t y
    exact phiLinop_units _ hS.orth hS.pos h1 h2 h3 dt v k maxDim iom
  · intro kw t y dt vb
    obtain ⟨A, A', h1, h2, h3⟩ := hS.jac kw t y
    exact kiops_units _ hS.orth hS.pos h1 h2 h3 dt vb maxDim iom 1
  · intro t y dt v k
    obtain ⟨A, A', h1, h2, h3⟩ := hS.lin t y
    exact phiLinop_units _ hS.orth hS.pos h1 h2 h3 dt v k maxDim iom

theorem remfSplit_units (hS : ScaledOde S a c sys sys') (b : Base (Vec n)) (t tr : ℝ) (y yr F : Vec n) :
    remfSplit sys' (scaleBase S a c b) (tr + c) ((a • S) *ᵥ yr) ((a • S) *ᵥ F) (sys'.fl (t + c) ((a • S) *ᵥ y)) =
      (remfSplit sys b tr yr F (sys.fl t y)).map ((a • S) *ᵥ ·) := by
  unfold remfSplit
  simp only [scaleBase, deque_get]
  cases b.yHist.get 0 with
  | error e => rfl
  | ok yt => simp only [Except.map, bind, Except.bind, pure, Except.pure, hS.rhs, ← mulVec_sub, fl_units hS]

theorem exp1_units (hS : ScaledOde S a c sys sys') {K : Kernels n} (hK : KScaled S a c sys sys' K) (s : ExpSplit n) (dt : ℝ) :
    stepExp1 K sys' (scaleSplit S a c s) dt = (stepExp1 K sys s dt).map (scaleStep S a c) := by
  unfold stepExp1
  simp only [scaleSplit, scaleBase, deque_get]
  cases s.base.yHist.get 0 with
  | error e => rfl
  | ok yt =>
    simp only [Except.map, bind, Except.bind, hS.rhs, ← mulVec_smul, hK.2.2]
    cases K.phiLinop (sys.fl s.base.t yt) dt (dt • sys.frhs none s.base.t yt) 1 with
    | error e => rfl
    | ok p =>
      simp only [pure, Except.pure, scaleStep, ← mulVec_add]
      rw [show s.base.t + c + dt = s.base.t + dt + c by ring]

theorem exp2_units (hS : ScaledOde S a c sys sys') {K : Kernels n} (hK : KScaled S a c sys sys' K) (s : ExpSplit n) (dt : ℝ) :
    stepExp2 K sys' (scaleSplit S a c s) dt = (stepExp2 K sys s dt).map (scaleStep S a c) := by
  have sh : ∀ z : ℝ, s.base.t + c + z = s.base.t + z + c := fun z => by ring
  have hr := fun t tr y yr F => remfSplit_units hS s.base t tr y yr F
  unfold stepExp2
  simp only [scaleSplit, deque_get, scaleBase] at hr ⊢
  cases s.base.yHist.get 0 with
  | error e => rfl
  | ok yt =>
    simp only [Except.map, bind, Except.bind, hS.rhs, ← mulVec_smul, hK.2.2, sh]
    cases K.phiLinop (sys.fl s.base.t yt) (1 * dt) ((1 * dt) • sys.frhs none s.base.t yt) 1 with
    | error e => rfl
    | ok p =>
      simp only [Except.map, ← mulVec_add, hr]
      cases remfSplit sys s.base (s.base.t + 1 * dt) (yt + p) (sys.frhs none s.base.t yt) (sys.fl s.base.t yt) with
      | error e => rfl
      | ok r2 =>
        simp only [Except.map, ← mulVec_smul, hK.2.2]
        cases K.phiLinop (sys.fl s.base.t yt) dt ((dt / 1) • r2) 2 with
        | error e => rfl
        | ok p2 => simp only [Except.map, pure, Except.pure, scaleStep, ← mulVec_add]

theorem exp3_units (hS : ScaledOde S a c sys sys') {K : Kernels n} (hK : KScaled S a c sys sys' K) (s : ExpSplit n) (dt : ℝ) :
    stepExp3 K sys' (scaleSplit S a c s) dt = (stepExp3 K sys s dt).map (scaleStep S a c) := by
  have sh : ∀ z : ℝ, s.base.t + c + z = s.base.t + z + c := fun z => by ring
  have hr := fun t tr y yr F => remfSplit_units hS s.base t tr y yr F
  unfold stepExp3
  simp only [scaleSplit, deque_get, scaleBase] at hr ⊢
  cases s.base.yHist.get 0 with
  | error e => rfl
  | ok yt =>
    simp only [Except.map, bind, Except.bind, hS.rhs, ← mulVec_smul, hK.2.2, sh]
    cases K.phiLinop (sys.fl s.base.t yt) (dt * (2 / 3)) ((dt * (2 / 3)) • sys.frhs none s.base.t yt) 1 with
    | error e => rfl
    | ok p =>
      simp only [Except.map, ← mulVec_add, hr]
      cases remfSplit sys s.base (s.base.t + 2 / 3 * dt) (yt + p) (sys.frhs none s.base.t yt) (sys.fl s.base.t yt) with
      | error e => rfl
      | ok r2 =>
        simp only [Except.map, ← mulVec_smul, hK.2.2]
        cases K.phiLinop (sys.fl s.base.t yt) (dt * (2 / 3)) ((dt * (4 / 9 / (2 / 3))) • r2) 2 with
        | error e => rfl
        | ok p2 =>
          simp only [Except.map, ← mulVec_add, hr]
          cases remfSplit sys s.base (s.base.t + 2 / 3 * dt) (yt + p + p2) (sys.frhs none s.base.t yt) (sys.fl s.base.t yt) with
          | error e => rfl
          | ok r3 =>
            simp only
            cases K.phiLinop (sys.fl s.base.t yt) dt (dt • sys.frhs none s.base.t yt) 1 with
            | error e => rfl
            | ok q1 =>
              simp only [Except.map, ← mulVec_smul, hK.2.2]
              cases K.phiLinop (sys.fl s.base.t yt) dt ((dt * (3 / 2)) • r3) 2 with
              | error e => rfl
              | ok q2 => simp only [Except.map, pure, Except.pure, scaleStep, ← mulVec_add]

theorem remf_units (hS : ScaledOde S a c sys sys') (kw : Option P) (b : Base (Vec n)) (t tr : ℝ) (y yr F v : Vec n) :
    remf sys' (scaleBase S a c b) (tr + c) ((a • S) *ᵥ yr) ((a • S) *ᵥ F) (sys'.fjac kw (t + c) ((a • S) *ᵥ y)).toLinOp ((a • S) *ᵥ v) =
      (remf sys b tr yr F (sys.fjac kw t y).toLinOp v).map ((a • S) *ᵥ ·) := by
  unfold remf
  simp only [scaleBase, deque_get]
  cases b.tHist.get 0 with
  | error e => rfl
  | ok tt =>
    cases b.yHist.get 0 with
    | error e => rfl
    | ok yt =>
      simp only [Except.map, bind, Except.bind, pure, Except.pure, hS.rhs, ← mulVec_sub, call_units hS, ← mulVec_smul]
      rw [show tr + c - (tt + c) = tr - tt by ring]

/-- the tolerance for small time derivatives is disabled, or there are none -/
def TolOff (sys : OdeSys n P) (tol : ℝ) : Prop := tol < 0 ∨ ∀ kw t y, (sys.fjac kw t y).fdt = 0

theorem phi2v_units (hS : ScaledOde S a c sys sys') (K : Kernels n) (kw : Option P) (tol : ℝ) (htol : TolOff sys tol) (t : ℝ) (y : Vec n) (dt cc : ℝ) :
    phi2vNonauto K tol (sys.fjac kw t y) dt cc = .ok (0, 0) ∧ phi2vNonauto K tol (sys'.fjac kw (t + c) ((a • S) *ᵥ y)) dt cc = .ok (0, 0) := by
  unfold phi2vNonauto
  by_cases h0 : tol ≥ 0
  · have hz : (sys.fjac kw t y).fdt = 0 := by
      rcases htol with q | q
      · exact absurd q (not_lt.2 h0)
      · exact q kw t y
    have hn : ¬(0 : ℝ) > tol := not_lt.2 h0
    simp only [if_pos h0, hS.fdt, hz, mulVec_zero, norm_zero, if_neg hn, pure, Except.pure, and_self]
  · simp only [if_neg h0, pure, Except.pure, and_self]

theorem exprb2_units (hS : ScaledOde S a c sys sys') {K : Kernels n} (hK : KScaled S a c sys sys' K) (s : ExpRB n) (dt : ℝ) (kw : P)
    (htol : TolOff sys s.tolFdt) : stepExprb2 K sys' (scaleRB S a c s) dt kw = (stepExprb2 K sys s dt kw).map (scaleStep S a c) := by
  have sh : ∀ z : ℝ, s.base.t + c + z = s.base.t + z + c := fun z => by ring
  unfold stepExprb2
  simp only [scaleRB, deque_get, scaleBase]
  cases s.base.yHist.get 0 with
  | error e => rfl
  | ok yt =>
    simp only [Except.map, bind, Except.bind, phi2v_units hS K (some kw) s.tolFdt htol, hS.cached, ← mulVec_smul, hK.1, sh]
    cases K.phiLinop (sys.fjac (some kw) s.base.t yt).toLinOp dt (dt • (sys.fjac (some kw) s.base.t yt).frhsCached) 1 with
    | error e => rfl
    | ok p => simp only [Except.map, pure, Except.pure, scaleStep, add_zero, ← mulVec_add]

theorem exprb3_units (hS : ScaledOde S a c sys sys') {K : Kernels n} (hK : KScaled S a c sys sys' K) (s : ExpRB n) (dt : ℝ) (kw : P)
    (htol : TolOff sys s.tolFdt) : stepExprb3 K sys' (scaleRB S a c s) dt kw = (stepExprb3 K sys s dt kw).map (scaleStep S a c) := by
  have sh : ∀ z : ℝ, s.base.t + c + z = s.base.t + z + c := fun z => by ring
  have hr := fun t tr y yr F => remf_units hS (some kw) s.base t tr y yr F 0
  unfold stepExprb3
  simp only [scaleRB, deque_get, scaleBase, mulVec_zero] at hr ⊢
  cases s.base.yHist.get 0 with
  | error e => rfl
  | ok yt =>
    simp only [Except.map, bind, Except.bind, phi2v_units hS K (some kw) s.tolFdt htol, hS.cached, hK.1, sh]
    cases K.phiLinop (sys.fjac (some kw) s.base.t yt).toLinOp dt (sys.fjac (some kw) s.base.t yt).frhsCached 1 with
    | error e => rfl
    | ok p =>
      simp only [Except.map, add_zero, ← mulVec_smul, ← mulVec_add, hr]
      cases remf sys s.base (s.base.t + dt) (yt + dt • p) (sys.fjac (some kw) s.base.t yt).frhsCached (sys.fjac (some kw) s.base.t yt).toLinOp 0 with
      | error e => rfl
      | ok r2 =>
        simp only [Except.map, hK.1]
        cases K.phiLinop (sys.fjac (some kw) s.base.t yt).toLinOp dt r2 3 with
        | error e => rfl
        | ok p3 => simp only [Except.map, pure, Except.pure, scaleStep, ← mulVec_smul, ← mulVec_add]

theorem epi2_units (hS : ScaledOde S a c sys sys') {K : Kernels n} (hK : KScaled S a c sys sys' K) (s : ExpRB n) (dt : ℝ) (kw : P) :
    stepEpi2 K sys' (scaleRB S a c s) dt kw = (stepEpi2 K sys s dt kw).map (scaleStep S a c) := by
  have sh : ∀ z : ℝ, s.base.t + c + z = s.base.t + z + c := fun z => by ring
  unfold stepEpi2
  simp only [scaleRB, deque_get, scaleBase]
  cases s.base.yHist.get 0 with
  | error e => rfl
  | ok yt =>
    simp only [Except.map, bind, Except.bind, hS.cached, hS.fdt, ← mulVec_smul, sh]
    have hk := hK.2.1 (some kw) s.base.t yt dt
      [0, dt • (sys.fjac (some kw) s.base.t yt).frhsCached, dt ^ 2 • (sys.fjac (some kw) s.base.t yt).fdt]
    simp only [List.map_cons, List.map_nil, mulVec_zero] at hk
    rw [hk]
    cases K.kiops (sys.fjac (some kw) s.base.t yt).toLinOp dt
      [0, dt • (sys.fjac (some kw) s.base.t yt).frhsCached, dt ^ 2 • (sys.fjac (some kw) s.base.t yt).fdt] with
    | error e => rfl
    | ok p => simp only [Except.map, pure, Except.pure, scaleStep, ← mulVec_add]

theorem epi3_units (hS : ScaledOde S a c sys sys') {K : Kernels n} (hK : KScaled S a c sys sys' K) (s : ExpRB n) (dt : ℝ) (kw : P) :
    stepEpi3 K sys' (scaleRB S a c s) dt kw = (stepEpi3 K sys s dt kw).map (scaleStep S a c) := by
  have sh : ∀ z : ℝ, s.base.t + c + z = s.base.t + z + c := fun z => by ring
  have hr := fun t tr y yr F v => remf_units hS (some kw) s.base t tr y yr F v
  unfold stepEpi3
  simp only [scaleRB, deque_get, scaleBase] at hr ⊢
  cases s.base.yHist.get 0 with
  | error e => rfl
  | ok yt =>
    cases s.base.yHist.get 1 with
    | error e => rfl
    | ok yp =>
      cases s.base.tHist.get 1 with
      | error e => rfl
      | ok tp =>
        simp only [Except.map, bind, Except.bind, hS.cached, hS.fdt, sh, hr]
        cases remf sys s.base tp yp (sys.fjac (some kw) s.base.t yt).frhsCached (sys.fjac (some kw) s.base.t yt).toLinOp
          (sys.fjac (some kw) s.base.t yt).fdt with
        | error e => rfl
        | ok rn =>
          simp only [Except.map, ← mulVec_smul, ← mulVec_add]
          have hk := hK.2.1 (some kw) s.base.t yt dt [0, dt • (sys.fjac (some kw) s.base.t yt).frhsCached,
            (dt * (2 / 3)) • rn + dt ^ 2 • (sys.fjac (some kw) s.base.t yt).fdt]
          simp only [List.map_cons, List.map_nil, mulVec_zero] at hk
          rw [hk]
          cases K.kiops (sys.fjac (some kw) s.base.t yt).toLinOp dt [0, dt • (sys.fjac (some kw) s.base.t yt).frhsCached,
            (dt * (2 / 3)) • rn + dt ^ 2 • (sys.fjac (some kw) s.base.t yt).fdt] with
          | error e => rfl
          | ok p => simp only [Except.map, pure, Except.pure, scaleStep, ← mulVec_add]

theorem un2_units (hS : ScaledOde S a c sys sys') {K : Kernels n} (hK : KScaled S a c sys sys' K) (s : ExpRB n) (dt : ℝ) (kw : Option P)
    (htol : TolOff sys s.tolFdt) (yt F : Vec n) :
    fUn2 K sys' (scaleRB S a c s) dt ((a • S) *ᵥ yt) (sys'.fjac kw (s.base.t + c) ((a • S) *ᵥ yt)) ((a • S) *ᵥ F) =
      (fUn2 K sys s dt yt (sys.fjac kw s.base.t yt) F).map ((a • S) *ᵥ ·) := by
  have sh : ∀ z : ℝ, s.base.t + c + z = s.base.t + z + c := fun z => by ring
  have hr := fun t tr y yr F => remf_units hS kw s.base t tr y yr F 0
  unfold fUn2
  simp only [scaleRB, scaleBase, mulVec_zero] at hr ⊢
  simp only [bind, Except.bind, phi2v_units hS K kw s.tolFdt htol, hK.1, sh]
  cases K.phiLinop (sys.fjac kw s.base.t yt).toLinOp (1 / 2 * dt) F 1 with
  | error e => rfl
  | ok p => simp only [Except.map, add_zero, ← mulVec_smul, ← mulVec_add, hr]

theorem un3_units (hS : ScaledOde S a c sys sys') {K : Kernels n} (hK : KScaled S a c sys sys' K) (s : ExpRB n) (dt : ℝ) (kw : Option P)
    (htol : TolOff sys s.tolFdt) (yt F : Vec n) :
    fUn3 K sys' (scaleRB S a c s) dt ((a • S) *ᵥ yt) (sys'.fjac kw (s.base.t + c) ((a • S) *ᵥ yt)) ((a • S) *ᵥ F) =
      (fUn3 K sys s dt yt (sys.fjac kw s.base.t yt) F).map fun p => ((a • S) *ᵥ p.1, (a • S) *ᵥ p.2) := by
  have sh : ∀ z : ℝ, s.base.t + c + z = s.base.t + z + c := fun z => by ring
  have hr := fun t tr y yr F => remf_units hS kw s.base t tr y yr F 0
  unfold fUn3
  simp only [scaleRB, scaleBase, mulVec_zero] at hr ⊢
  simp only [bind, Except.bind, phi2v_units hS K kw s.tolFdt htol, hK.1, sh]
  cases K.phiLinop (sys.fjac kw s.base.t yt).toLinOp (1 * dt) F 1 with
  | error e => rfl
  | ok p =>
    simp only [Except.map, add_zero, ← mulVec_smul, ← mulVec_add, hr]
    cases remf sys s.base (s.base.t + 1 * dt) (yt + (1 * dt) • p) F (sys.fjac kw s.base.t yt).toLinOp 0 with
    | error e => rfl
    | ok r3 => rfl

theorem pexprb4_units (hS : ScaledOde S a c sys sys') {K : Kernels n} (hK : KScaled S a c sys sys' K) (s : ExpRB n) (dt : ℝ) (kw : P)
    (htol : TolOff sys s.tolFdt) : stepPexprb4 K sys' (scaleRB S a c s) dt kw = (stepPexprb4 K sys s dt kw).map (scaleStep S a c) := by
  have h2 := un2_units hS hK s dt (some kw) htol
  have h3 := un3_units hS hK s dt (some kw) htol
  have ht : (scaleRB S a c s).base.t = s.base.t + c := rfl
  have hy : (scaleRB S a c s).base.yHist.get 0 = (s.base.yHist.get 0).map ((a • S) *ᵥ ·) := deque_get _ _ _
  unfold stepPexprb4
  simp only [ht, hy]
  cases s.base.yHist.get 0 with
  | error e => rfl
  | ok yt =>
    simp only [Except.map, bind, Except.bind, hS.cached, h2]
    cases fUn2 K sys s dt yt (sys.fjac (some kw) s.base.t yt) (sys.fjac (some kw) s.base.t yt).frhsCached with
    | error e => rfl
    | ok r2 =>
      simp only [Except.map, h3]
      cases fUn3 K sys s dt yt (sys.fjac (some kw) s.base.t yt) (sys.fjac (some kw) s.base.t yt).frhsCached with
      | error e => rfl
      | ok p =>
        obtain ⟨y3, r3⟩ := p
        simp only [Except.map]
        unfold pexprb4Final
        simp only [bind, Except.bind]
        have hk := hK.2.1 (some kw) s.base.t yt dt [0, 0, 0, dt • ((16 : ℝ) • r2 - (2 : ℝ) • r3), dt • ((-48 : ℝ) • r2 + (12 : ℝ) • r3)]
        simp only [List.map_cons, List.map_nil, mulVec_zero] at hk
        simp only [← mulVec_smul, ← mulVec_sub, ← mulVec_add, hk]
        cases K.kiops (sys.fjac (some kw) s.base.t yt).toLinOp dt
          [0, 0, 0, dt • ((16 : ℝ) • r2 - (2 : ℝ) • r3), dt • ((-48 : ℝ) • r2 + (12 : ℝ) • r3)] with
        | error e => rfl
        | ok b =>
          simp only [Except.map, pure, Except.pure, scaleStep, ← mulVec_add]
          rw [show s.base.t + c + dt = s.base.t + dt + c by ring]

theorem accept_units (b : Base (Vec n)) (x : StepResult (Vec n)) : (scaleBase S a c b).acceptStep (scaleStep S a c x) = scaleBase S a c (b.acceptStep x) := by
  simp [Base.acceptStep, scaleBase, scaleStep, mapDeque, Deque.appendleft, List.map_take]

theorem rbSteps_units (hS : ScaledOde S a c sys sys') {K : Kernels n} (hK : KScaled S a c sys sys' K) (hasRust : Bool) (dt : ℝ) (kw : Option P) :
    ∀ (N : ℕ) (s : ExpRB n), s.base.method ∈ ["exprb2", "exprb3", "pexprb4", "epi2", "epi3"] → TolOff sys s.tolFdt →
      rbSteps hasRust K sys' dt kw N (scaleRB S a c s) = (rbSteps hasRust K sys dt kw N s).map (scaleRB S a c)
  | 0, _, _, _ => rfl
  | N + 1, s, hm, ht => by
    have hst : ExpRB.step hasRust K sys' (scaleRB S a c s) dt kw = (ExpRB.step hasRust K sys s dt kw).map (scaleStep S a c) := by
      have hme : (scaleRB S a c s).base.method = s.base.method := rfl
      unfold ExpRB.step
      simp only [hme]
      simp only [List.mem_cons, List.not_mem_nil, or_false] at hm
      rcases hm with q | q | q | q | q
      · simp only [q, if_true]
        exact exprb2_units hS hK s dt _ ht
      · simp only [q, if_true, String.reduceEq, if_false]
        exact exprb3_units hS hK s dt _ ht
      · simp only [q, if_true, String.reduceEq, if_false]
        exact pexprb4_units hS hK s dt _ ht
      · simp only [q, if_true, String.reduceEq, if_false]
        exact epi2_units hS hK s dt _
      · have hlen : (scaleRB S a c s).base.yHist.len = s.base.yHist.len := by
          simp [scaleRB, scaleBase, mapDeque, Deque.len]
        simp only [q, if_true, String.reduceEq, if_false, hlen]
        by_cases hl : s.base.yHist.len ≥ 2
        · simp only [if_pos hl]
          exact epi3_units hS hK s dt _
        · simp only [if_neg hl]
          exact exprb3_units hS hK s dt _ ht
    simp only [rbSteps, hst]
    cases ExpRB.step hasRust K sys s dt kw with
    | error e => rfl
    | ok x =>
      simp only [Except.map]
      have e : (scaleRB S a c s).acceptStep (scaleStep S a c x) = scaleRB S a c (s.acceptStep x) := by
        simp only [ExpRB.acceptStep, scaleRB, accept_units]
      rw [e]
      exact rbSteps_units hS hK hasRust dt kw N _ hm ht

theorem splitSteps_units (hS : ScaledOde S a c sys sys') {K : Kernels n} (hK : KScaled S a c sys sys' K) (dt : ℝ) (kw : Option P) :
    ∀ (N : ℕ) (s : ExpSplit n), s.base.method ∈ ["exp1", "exp2", "exp3"] →
      splitSteps K sys' dt kw N (scaleSplit S a c s) = (splitSteps K sys dt kw N s).map (scaleSplit S a c)
  | 0, _, _ => rfl
  | N + 1, s, hm => by
    have hst : ∃ w : Py (StepResult (Vec n)), ExpSplit.step K sys s dt kw = keep s w ∧
        ExpSplit.step K sys' (scaleSplit S a c s) dt kw = keep (scaleSplit S a c s) (w.map (scaleStep S a c)) := by
      have hme : (scaleSplit S a c s).base.method = s.base.method := rfl
      unfold ExpSplit.step
      simp only [hme]
      simp only [List.mem_cons, List.not_mem_nil, or_false] at hm
      rcases hm with q | q | q
      · simp only [q, if_true]
        exact ⟨_, rfl, by rw [exp1_units hS hK]⟩
      · simp only [q, if_true, String.reduceEq, if_false]
        exact ⟨_, rfl, by rw [exp2_units hS hK]⟩
      · simp only [q, if_true, String.reduceEq, if_false]
        exact ⟨_, rfl, by rw [exp3_units hS hK]⟩
    obtain ⟨w, w1, w2⟩ := hst
    simp only [splitSteps, w1, w2, keep]
    cases w with
    | error e => rfl
    | ok x =>
      simp only [Except.map]
      have e : (scaleSplit S a c s).acceptStep (scaleStep S a c x) = scaleSplit S a c (s.acceptStep x) := by
        simp only [ExpSplit.acceptStep, scaleSplit, accept_units]
      rw [e]
      exact splitSteps_units hS hK dt kw N _ hm

theorem base_units (t0 : ℝ) (y0 : Vec n) (o : ℕ) (m : String) :
    Base.init (t0 + c) ((a • S) *ᵥ y0) o m = (Base.init t0 y0 o m).map (scaleBase S a c) := by
  unfold Base.init
  split_ifs with h
  · simp [Except.map, scaleBase, mapDeque, Deque.appendleft, Deque.empty, List.map_take]
  · rfl

/-- **C142** for the exponential Rosenbrock methods.  A new integrator of `exprb2`, `exprb3`, `pexprb4`, `epi2` or `epi3` and `N` accepted steps with the Krylov routines of the package, for
every dimension and orthogonalization depth: in other units (a positive factor), orthogonal coordinates and a shifted clock the result is exactly the converted
one (times and whole history), failures included. -/
theorem C142_rosenbrock (hS : ScaledOde S a c sys sys') (expm : ∀ m, Mat m → Mat m) (tab : Pfd) (rs : Mat n → ℝ → Vec n → ℕ → Vec n) (maxDim iom : ℕ)
    (hasRust : Bool) (t0 dt : ℝ) (y0 : Vec n) (method : String) (tol : ℝ) (kw : Option P) (N : ℕ) (hm : method ∈ ["exprb2", "exprb3", "pexprb4", "epi2", "epi3"])
    (ht : tol < 0 ∨ ∀ kw t y, (sys.fjac kw t y).fdt = 0) :
    (ExpRB.new hasRust (t0 + c) ((a • S) *ᵥ y0) method tol >>= rbSteps hasRust (realKernels n expm tab rs maxDim iom) sys' dt kw N) =
      (ExpRB.new hasRust t0 y0 method tol >>= rbSteps hasRust (realKernels n expm tab rs maxDim iom) sys dt kw N).map (scaleRB S a c) := by
  unfold ExpRB.new
  cases ExpRB.validMethods.lookup method with
  | none => rfl
  | some o =>
    dsimp only
    split_ifs with h1
    · rfl
    · rw [base_units]
      cases hb : Base.init t0 y0 o method with
      | error e => rfl
      | ok b =>
        have hbm : b.method = method := by
          unfold Base.init at hb
          split_ifs at hb
          injection hb with hb
          rw [← hb]
        exact rbSteps_units hS (real_scaled hS expm tab rs maxDim iom) hasRust dt kw N (ExpRB.mk b tol) (by rw [← hbm] at hm; exact hm) ht

/-- **C142** for the splitting methods `exp1`, `exp2`, `exp3` -/
theorem C142_split (hS : ScaledOde S a c sys sys') (expm : ∀ m, Mat m → Mat m) (tab : Pfd) (rs : Mat n → ℝ → Vec n → ℕ → Vec n) (maxDim iom : ℕ)
    (t0 dt : ℝ) (y0 : Vec n) (method : String) (kw : Option P) (N : ℕ) (hm : method ∈ ["exp1", "exp2", "exp3"]) :
    (ExpSplit.new (t0 + c) ((a • S) *ᵥ y0) method >>= splitSteps (realKernels n expm tab rs maxDim iom) sys' dt kw N) =
      (ExpSplit.new t0 y0 method >>= splitSteps (realKernels n expm tab rs maxDim iom) sys dt kw N).map (scaleSplit S a c) := by
  unfold ExpSplit.new
  cases ExpSplit.validMethods.lookup method with
  | none => rfl
  | some o =>
    dsimp only
    rw [base_units]
    cases hb : Base.init t0 y0 o method with
    | error e => rfl
    | ok b =>
      have hbm : b.method = method := by
        unfold Base.init at hb
        split_ifs at hb
        injection hb with hb
        rw [← hb]
      exact splitSteps_units hS (real_scaled hS expm tab rs maxDim iom) dt kw N (ExpSplit.mk b none none none) (by rw [← hbm] at hm; exact hm)

/-- a reaction of second order with rate constant `k` in which the second species also decays; the parameters are not read; with the decay as the linear operator of the splitting methods -/
noncomputable def unitsOde (k : ℝ) : OdeSys 2 (Set ℝ) where
  frhs _ _ y := ![-k * (y 0 * y 1), -k * (y 0 * y 1) - y 1]
  fjac _ t y := customJac (fun _ y => ![-k * (y 0 * y 1), -k * (y 0 * y 1) - y 1]) t y !![-k * y 1, -k * y 0; -k * y 1, -k * y 0 - 1] (some 0) 1e-8
  fl _ _ := matrixLinOp !![0, 0; 0, -1]

theorem unitsOde_scaled : ScaledOde (1 : Mat 2) 1000 3 (unitsOde 2) (unitsOde (2 / 1000)) := by
  have hf : ∀ y : Vec 2, (![-(2 / 1000 : ℝ) * ((1000 * y 0) * (1000 * y 1)), -(2 / 1000) * ((1000 * y 0) * (1000 * y 1)) - 1000 * y 1] : Vec 2) =
      (1000 : ℝ) • ![-2 * (y 0 * y 1), -2 * (y 0 * y 1) - y 1] := fun y => by
    funext i
    fin_cases i <;> simp <;> ring
  refine ScaledOde.mk (by simp) (by norm_num) ?_ ?_ ?_ ?_ ?_
  · intro kw t y
    simp only [smul_mulVec, one_mulVec, unitsOde, Pi.smul_apply, smul_eq_mul]
    exact hf y
  · intro kw t y
    simp only [smul_mulVec, one_mulVec, unitsOde, Pi.smul_apply, smul_eq_mul, customJac]
    exact hf y
  · intro kw t y
    simp [unitsOde, customJac]
  · intro kw t y
    refine ⟨_, _, fun v => rfl, fun v => rfl, ?_⟩
    rw [Matrix.mul_one, Matrix.one_mul]
    simp only [smul_mulVec, one_mulVec]
    ext i j
    fin_cases i <;> fin_cases j <;> simp <;> ring
  · intro t y
    exact ⟨_, _, fun v => rfl, fun v => rfl, by rw [Matrix.mul_one, Matrix.one_mul]⟩

/-- the hypotheses are met: concentrations in a unit that is smaller by the factor 1000, with the default tolerance -/
example (expm : ∀ m, Mat m → Mat m) (tab : Pfd) (rs : Mat 2 → ℝ → Vec 2 → ℕ → Vec 2) (y0 : Vec 2) :
    (ExpRB.new true (0 + 3) (((1000 : ℝ) • (1 : Mat 2)) *ᵥ y0) "pexprb4" 1e-8 >>=
      rbSteps true (realKernels 2 expm tab rs 100 2) (unitsOde (2 / 1000)) (1 / 10) none 50) =
    (ExpRB.new true 0 y0 "pexprb4" 1e-8 >>= rbSteps true (realKernels 2 expm tab rs 100 2) (unitsOde 2) (1 / 10) none 50).map (scaleRB 1 1000 3) :=
  C142_rosenbrock unitsOde_scaled expm tab rs 100 2 true 0 (1 / 10) y0 "pexprb4" 1e-8 none 50 (by simp) (Or.inr fun kw t y => by simp [unitsOde, customJac])

end steps
end Ormatex.Props
