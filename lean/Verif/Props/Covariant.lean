import Verif.Spec.Covariant
import Verif.Props.StiffSplit

/-!
C135: runs of linearly related systems are linearly related.
-/

namespace Ormatex.Props
open Matrix Ormatex.Spec
set_option linter.unusedSectionVars false

section phi
open scoped Matrix.Norms.Operator
variable {n m : ℕ}

theorem phi_pull {S : Matrix (Fin m) (Fin n) ℝ} {A : Mat n} {B : Mat m} (h : B * S = S * A) (k : ℕ) (c : ℝ) (v : Vec n) :
    phiM k (c • B) *ᵥ (S *ᵥ v) = S *ᵥ (phiM k (c • A) *ᵥ v) := by
  let ev : (r : ℕ) → (w : Vec r) → Mat r →+ Vec r := fun r w => AddMonoidHom.mk' (fun X => X *ᵥ w) fun X Y => add_mulVec X Y w
  have hev : ∀ r w, Continuous (ev r w) := fun r w => Continuous.matrix_mulVec continuous_id continuous_const
  let ap : Vec n →+ Vec m := AddMonoidHom.mk' (fun x => S *ᵥ x) fun x y => mulVec_add S x y
  have hap : Continuous ap := Continuous.matrix_mulVec continuous_const continuous_id
  have h1 := (phiM_hasSum k (c • B)).map (ev m (S *ᵥ v)) (hev m _)
  have h2 := ((phiM_hasSum k (c • A)).map (ev n v) (hev n _)).map ap hap
  have hp : ∀ j : ℕ, (c • B) ^ j * S = S * (c • A) ^ j := by
    intro j
    induction j with
    | zero => rw [pow_zero, pow_zero, Matrix.one_mul, Matrix.mul_one]
    | succ j ih => rw [pow_succ', Matrix.mul_assoc, ih, ← Matrix.mul_assoc, Matrix.smul_mul, h, pow_succ', ← Matrix.mul_assoc, Matrix.mul_smul]
  refine h1.unique (h2.congr_fun ?_)
  intro j
  show ((Nat.factorial (j + k) : ℝ)⁻¹ • (c • B) ^ j) *ᵥ (S *ᵥ v) = S *ᵥ (((Nat.factorial (j + k) : ℝ)⁻¹ • (c • A) ^ j) *ᵥ v)
  rw [smul_mulVec, smul_mulVec, mulVec_smul, mulVec_mulVec, hp, mulVec_mulVec]

end phi

section maps
variable {n m : ℕ} {f : ℝ → Vec n → Vec n} {g : ℝ → Vec m → Vec m} {S : Matrix (Fin m) (Fin n) ℝ} {c : ℝ}

theorem deriv_intertwine (hS : Maps2 S c f g) (hf : Smooth1 f) (hg : Smooth1 g) (t : ℝ) (y : Vec n) (τ : ℝ) (v : Vec n) :
    fderiv ℝ (fun p : ℝ × Vec m => g p.1 p.2) (t + c, S *ᵥ y) (τ, S *ᵥ v) = S *ᵥ fderiv ℝ (fun p : ℝ × Vec n => f p.1 p.2) (t, y) (τ, v) := by
  let Sl : Vec n →L[ℝ] Vec m := LinearMap.toContinuousLinearMap (Matrix.toLin' S)
  have hin : HasFDerivAt (fun p : ℝ × Vec n => (p.1 + c, Sl p.2)) ((ContinuousLinearMap.fst ℝ ℝ (Vec n)).prod (Sl.comp (ContinuousLinearMap.snd ℝ ℝ (Vec n)))) (t, y) :=
    (hasFDerivAt_fst.add_const c).prodMk (Sl.hasFDerivAt.comp (t, y) hasFDerivAt_snd)
  have hG : HasFDerivAt (fun p : ℝ × Vec m => g p.1 p.2) (fderiv ℝ (fun p : ℝ × Vec m => g p.1 p.2) (t + c, S *ᵥ y)) ((fun p : ℝ × Vec n => (p.1 + c, Sl p.2)) (t, y)) :=
    (hg (t + c, S *ᵥ y)).hasFDerivAt
  have h1 := hG.comp (t, y) hin
  have h2 := Sl.hasFDerivAt.comp (t, y) (hf (t, y)).hasFDerivAt
  have e : (fun p : ℝ × Vec m => g p.1 p.2) ∘ (fun p : ℝ × Vec n => (p.1 + c, Sl p.2)) = Sl ∘ fun p : ℝ × Vec n => f p.1 p.2 := by
    funext p
    exact hS p.1 p.2
  rw [e] at h1
  exact DFunLike.congr_fun (h1.unique h2) (τ, v)

theorem jac_intertwine (hS : Maps2 S c f g) (hf : Smooth1 f) (hg : Smooth1 g) (t : ℝ) (y : Vec n) :
    jacM g (t + c, S *ᵥ y) * S = S * jacM f (t, y) := by
  have hv : ∀ v, (jacM g (t + c, S *ᵥ y) * S) *ᵥ v = (S * jacM f (t, y)) *ᵥ v := by
    intro v
    rw [← mulVec_mulVec, ← mulVec_mulVec]
    unfold jacM
    rw [LinearMap.toMatrix'_mulVec, LinearMap.toMatrix'_mulVec]
    exact deriv_intertwine hS hf hg t y 0 v
  ext i j
  have := congrFun (hv (Pi.single j 1)) i
  simpa using this

theorem dt_intertwine (hS : Maps2 S c f g) (hf : Smooth1 f) (hg : Smooth1 g) (t : ℝ) (y : Vec n) :
    dtM g (t + c, S *ᵥ y) = S *ᵥ dtM f (t, y) := by
  have := deriv_intertwine hS hf hg t y 1 0
  rwa [mulVec_zero] at this

theorem rosEuler_intertwine {A : Mat n} {B : Mat m} (h : B * S = S * A) (y F e : Vec n) (dt cc : ℝ) :
    rosEuler B (S *ᵥ y) (S *ᵥ F) (S *ᵥ e) dt cc = S *ᵥ rosEuler A y F e dt cc := by
  unfold rosEuler
  rw [phi_pull h, phi_pull h, mulVec_add, mulVec_add, mulVec_smul, mulVec_smul]

theorem remainder_intertwine {A : Mat n} {B : Mat m} (h : B * S = S * A) (a b x : Vec n) : S *ᵥ a - S *ᵥ b - B *ᵥ (S *ᵥ x) = S *ᵥ (a - b - A *ᵥ x) := by
  rw [mulVec_mulVec, h, ← mulVec_mulVec, mulVec_sub, mulVec_sub]

theorem maps_shift (hS : Maps2 S c f g) (t s : ℝ) (y : Vec n) : g (t + c + s) (S *ᵥ y) = S *ᵥ f (t + s) y := by
  rw [← hS, show t + c + s = t + s + c by ring]

theorem rbMap_intertwine (hS : Maps2 S c f g) (hf : Smooth1 f) (hg : Smooth1 g) (mth : String) (dt t : ℝ) (y e : Vec n) :
    rbMap mth g (dt, t + c, (S *ᵥ y, S *ᵥ e)) = S *ᵥ rbMap mth f (dt, t, (y, e)) := by
  have hJ := jac_intertwine hS hf hg t y
  have r2 : mapRB2 g (dt, t + c, (S *ᵥ y, S *ᵥ e)) = S *ᵥ mapRB2 f (dt, t, (y, e)) := by
    unfold mapRB2
    simp only
    rw [hS, rosEuler_intertwine hJ]
  have rh : mapRBhalf g (dt, t + c, (S *ᵥ y, S *ᵥ e)) = S *ᵥ mapRBhalf f (dt, t, (y, e)) := by
    unfold mapRBhalf
    simp only
    rw [hS, rosEuler_intertwine hJ]
  have q3 : mapR3 g (dt, t + c, (S *ᵥ y, S *ᵥ e)) = S *ᵥ mapR3 f (dt, t, (y, e)) := by
    unfold mapR3
    simp only
    rw [r2, maps_shift hS, hS, ← mulVec_sub S (mapRB2 _ _), remainder_intertwine hJ, ← mulVec_smul, ← mulVec_sub]
  have q2 : mapR2 g (dt, t + c, (S *ᵥ y, S *ᵥ e)) = S *ᵥ mapR2 f (dt, t, (y, e)) := by
    unfold mapR2
    simp only
    rw [rh, maps_shift hS, hS, ← mulVec_sub S (mapRBhalf _ _), remainder_intertwine hJ, ← mulVec_smul, ← mulVec_sub]
  unfold rbMap
  split_ifs
  · unfold mapRB3
    simp only
    rw [r2, maps_shift hS, hS, ← mulVec_sub S (mapRB2 _ _), remainder_intertwine hJ, ← mulVec_smul S dt, ← mulVec_sub, phi_pull hJ,
      ← mulVec_smul, ← mulVec_add]
  · unfold mapRB4
    simp only
    rw [r2, q2, q3, ← mulVec_smul, ← mulVec_smul, ← mulVec_smul, ← mulVec_smul, ← mulVec_sub, ← mulVec_add, ← mulVec_smul, ← mulVec_smul,
      phi_pull hJ, phi_pull hJ, ← mulVec_add, ← mulVec_add]
  · exact r2

theorem epi3Map_intertwine (hS : Maps2 S c f g) (hf : Smooth1 f) (hg : Smooth1 g) (dt t : ℝ) (y p : Vec n) :
    mapEpi3 g (dt, t + c, (S *ᵥ y, S *ᵥ p)) = S *ᵥ mapEpi3 f (dt, t, (y, p)) := by
  have hJ := jac_intertwine hS hf hg t y
  unfold mapEpi3
  simp only
  rw [hS, dt_intertwine hS hf hg, rosEuler_intertwine hJ, show t + c - dt = t - dt + c by ring, hS, ← mulVec_sub S p, remainder_intertwine hJ,
    show t - dt + c - (t + c) = t - dt - t by ring, ← mulVec_smul S (t - dt - t), ← mulVec_sub, phi_pull hJ, ← mulVec_smul, ← mulVec_add]

theorem split_intertwine (hS : Maps2 S c f g) {A : Mat n} {B : Mat m} (h : B * S = S * A) (mth : String) (dt t : ℝ) (y : Vec n) :
    splitMap mth g B dt (t + c) (S *ᵥ y) = S *ᵥ splitMap mth f A dt t y := by
  have lc : ∀ (a : ℝ) (x w : Vec n), S *ᵥ x + a • (S *ᵥ w) = S *ᵥ (x + a • w) := fun a x w => by rw [mulVec_add, mulVec_smul]
  have rem : ∀ u x : Vec n, S *ᵥ u - B *ᵥ (S *ᵥ x) = S *ᵥ (u - A *ᵥ x) := fun u x => by rw [mulVec_sub, mulVec_mulVec, mulVec_mulVec, h]
  have ph : ∀ k (a : ℝ) (v : Vec n), phiM k (a • B) *ᵥ (S *ᵥ v) = S *ᵥ (phiM k (a • A) *ᵥ v) := fun k a v => phi_pull h k a v
  have e2 : ∀ cc, exp2Update g B (t + c) (S *ᵥ y) dt cc = S *ᵥ exp2Update f A t y dt cc := by
    intro cc
    unfold exp2Update
    simp only [hS t y, maps_shift hS, lc, ← mulVec_sub S, rem, ph]
  unfold splitMap
  split_ifs
  · simp only [hS t y, lc, ph]
  · exact e2 1
  · exact e2 (2 / 3)
  · unfold exp3Update
    simp only [hS t y, maps_shift hS, lc, ← mulVec_sub S, rem, ph]

theorem rk4_intertwine (hS : Maps2 S c f g) (dt t : ℝ) (y : Vec n) : rk4Kernel g (t + c) (S *ᵥ y) dt = S *ᵥ rk4Kernel f t y dt := by
  unfold rk4Kernel
  simp only [hS t y, maps_shift hS, ← mulVec_smul, ← mulVec_add]

theorem iter_intertwine {Φ : ℝ → Vec n → Vec n} {Ψ : ℝ → Vec m → Vec m} (h : ∀ t y, Ψ (t + c) (S *ᵥ y) = S *ᵥ Φ t y) (t0 dt : ℝ) (y0 : Vec n) :
    ∀ k, iterSeq Ψ (t0 + c) dt (S *ᵥ y0) k = S *ᵥ iterSeq Φ t0 dt y0 k
  | 0 => rfl
  | k + 1 => by
    simp only [iterSeq]
    rw [iter_intertwine h t0 dt y0 k, show t0 + c + k * dt = t0 + k * dt + c by ring, h]

/-- when the tolerance for the time derivative does not depend on the coordinates -/
def TolOk (S : Matrix (Fin m) (Fin n) ℝ) (f : ℝ → Vec n → Vec n) (tol : ℝ) : Prop :=
  tol < 0 ∨ (∀ t y, dtM f (t, y) = 0) ∨ ∀ v, ‖S *ᵥ v‖ = ‖v‖

theorem eff_intertwine {tol : ℝ} (h : TolOk S f tol) (t : ℝ) (y : Vec n) : effFdt tol (S *ᵥ dtM f (t, y)) = S *ᵥ effFdt tol (dtM f (t, y)) := by
  unfold effFdt
  rcases h with h | h | h
  · rw [if_neg (fun q => by linarith [q.1]), if_neg (fun q => by linarith [q.1]), mulVec_zero]
  · rw [h, mulVec_zero]; simp
  · rw [h]
    split_ifs
    · rfl
    · rw [mulVec_zero]

theorem epi3Seq_intertwine (hS : Maps2 S c f g) (hf : Smooth1 f) (hg : Smooth1 g) {tol : ℝ} (ht : TolOk S f tol) (t0 dt : ℝ) (y0 : Vec n) :
    ∀ k, (epi3Seq g tol (t0 + c) dt (S *ᵥ y0) k).1 = S *ᵥ (epi3Seq f tol t0 dt y0 k).1 ∧
      (epi3Seq g tol (t0 + c) dt (S *ᵥ y0) k).2 = S *ᵥ (epi3Seq f tol t0 dt y0 k).2
  | 0 => by
    refine ⟨rfl, ?_⟩
    have := rbMap_intertwine hS hf hg "exprb3" dt t0 y0 (effFdt tol (dtM f (t0, y0)))
    simp only [rbMap, if_true] at this
    simp only [epi3Seq]
    rw [dt_intertwine hS hf hg, eff_intertwine ht, this]
  | k + 1 => by
    obtain ⟨h1, h2⟩ := epi3Seq_intertwine hS hf hg ht t0 dt y0 k
    refine ⟨h2, ?_⟩
    simp only [epi3Seq]
    rw [h1, h2, show t0 + c + dt + k * dt = t0 + dt + k * dt + c by ring, epi3Map_intertwine hS hf hg]

end maps

section runs
variable {n : ℕ} {P : Type} [EmptyCollection P]

/-- the values of a run of a one-step Rosenbrock method -/
theorem rb_run {K : Kernels n} (hK : ExactKernels K) (hasRust : Bool) (sys : OdeSys n P) (hj : ExactJacs sys)
    (m : String) (p : ℕ) (hm : (m, p) ∈ rbOrders) (y0 : Vec n) (t0 dt tol : ℝ) (N : ℕ) (s : ExpRB n) (hnew : ExpRB.new hasRust t0 y0 m tol = .ok s)
    {Q W : Type} (before : Option (W → ℝ → Vec n → P × W)) (after : Option (W → ℝ → Vec n → Q × W)) (w : W) :
    ∃ l, integrateOrmatex (rbStepper hasRust K sys) s y0 t0 dt N before after w = .ok l ∧
      l.tRes = (List.range (N + 1)).map (fun i : ℕ => t0 + i * dt) ∧
      l.yRes = (List.range (N + 1)).map (iterSeq (fun t y => rbMap m (sys.frhs none) (dt, t, (y, rbEff m tol (dtM (sys.frhs none) (t, y))))) t0 dt y0) := by
  have hr : m = "exprb2_pfd_rs" → hasRust = true := fun h =>
    ((C09_construct_rb hasRust t0 y0 m tol).1.2 ⟨s, hnew⟩).2 (Or.inl h)
  set f := sys.frhs none with hf
  set u := iterSeq (fun t y => rbMap m f (dt, t, (y, rbEff m tol (dtM f (t, y))))) t0 dt y0 with hu
  exact run_seq (rbStepper hasRust K sys) (fun (o : ExpRB n) k => At o.base (t0 + k * dt) (u k) ∧ o.base.method = m ∧
    o.tolFdt = tol ∧ (Nonempty2 o.base ∧ 0 < o.base.yHist.maxlen ∧ o.base.tHist.maxlen = o.base.yHist.maxlen)) u t0 dt before after
    (by
      rintro o k kw - ⟨g1, g2, g3, g4⟩
      have hst := rb_step_closed hK hasRust sys hj o _ _ g1 kw dt p (by rw [g2]; exact hm) (by rw [g2]; exact hr)
      rw [g2, g3] at hst
      refine ⟨StepResult.mk (t0 + k * dt + dt) dt (u (k + 1)) (-1), o, ?_, rfl, rfl, ?_, g2, g3, accept_nonempty g4 _⟩
      · show keep o (ExpRB.step hasRust K sys o dt kw) = _
        rw [hst]; rfl
      · have := at_accept g4.2 (StepResult.mk (t0 + k * dt + dt) dt (u (k + 1)) (-1))
        have e : t0 + ((k + 1 : ℕ) : ℝ) * dt = t0 + k * dt + dt := by push_cast; ring
        rw [e]
        exact this)
    s (by
      obtain ⟨g1, g2, g3, g4⟩ := rb_new_at hnew
      refine ⟨by simpa [hu, iterSeq] using g1, g2, g3, g4⟩) N w

/-- the values of a run of `epi3` -/
theorem epi3_run {K : Kernels n} (hK : ExactKernels K) (hasRust : Bool) (sys : OdeSys n P) (hj : ExactJacs sys)
    (y0 : Vec n) (t0 dt tol : ℝ) (N : ℕ) (s : ExpRB n) (hnew : ExpRB.new hasRust t0 y0 "epi3" tol = .ok s)
    {Q W : Type} (before : Option (W → ℝ → Vec n → P × W)) (after : Option (W → ℝ → Vec n → Q × W)) (w : W) :
    ∃ l, integrateOrmatex (rbStepper hasRust K sys) s y0 t0 dt N before after w = .ok l ∧
      l.tRes = (List.range (N + 1)).map (fun i : ℕ => t0 + i * dt) ∧
      l.yRes = (List.range (N + 1)).map (fun k => (epi3Seq (sys.frhs none) tol t0 dt y0 k).1) := by
  have hs : s = ExpRB.mk (Base.mk t0 3 "epi3" ⟨3, [t0]⟩ ⟨3, [y0]⟩) tol := by
    have : ExpRB.new hasRust t0 y0 "epi3" tol = .ok (ExpRB.mk (Base.mk t0 3 "epi3" ⟨3, [t0]⟩ ⟨3, [y0]⟩) tol) := by
      cases hasRust <;> rfl
    rw [this] at hnew
    cases hnew
    rfl
  set f := sys.frhs none with hf
  set v := epi3Seq f tol t0 dt y0 with hv
  set u : ℕ → Vec n := fun k => (v k).1 with hu
  exact run_seq (rbStepper hasRust K sys) (fun (o : ExpRB n) k => At o.base (t0 + k * dt) (u k) ∧
    o.base.method = "epi3" ∧ o.tolFdt = tol ∧ o.base.tHist.maxlen = 3 ∧ o.base.yHist.maxlen = 3 ∧
    (k = 0 → o.base.yHist.items.length = 1) ∧
    (0 < k → 2 ≤ o.base.yHist.items.length ∧ o.base.tHist.get 1 = .ok (t0 + k * dt - dt) ∧ o.base.yHist.get 1 = .ok (u (k - 1))))
    u t0 dt before after
    (by
      rintro o k kw - ⟨g1, g2, g3, g4, g5, g6, g7⟩
      have hacc : ∀ y, At (o.acceptStep (StepResult.mk (t0 + k * dt + dt) dt y (-1))).base (t0 + ((k + 1 : ℕ) : ℝ) * dt) y := by
        intro y
        have := at_accept (b := o.base) ⟨by rw [g5]; norm_num, by rw [g4, g5]⟩ (StepResult.mk (t0 + k * dt + dt) dt y (-1))
        have e : t0 + ((k + 1 : ℕ) : ℝ) * dt = t0 + k * dt + dt := by push_cast; ring
        rw [e]
        exact this
      have hget : ∀ y, 2 ≤ (o.acceptStep (StepResult.mk (t0 + k * dt + dt) dt y (-1))).base.yHist.items.length ∧
          (o.acceptStep (StepResult.mk (t0 + k * dt + dt) dt y (-1))).base.tHist.get 1 = .ok (t0 + ((k + 1 : ℕ) : ℝ) * dt - dt) ∧
          (o.acceptStep (StepResult.mk (t0 + k * dt + dt) dt y (-1))).base.yHist.get 1 = .ok (u k) := by
        intro y
        have ht := g1.tNew
        have hy := g1.yNew
        simp only [Deque.get] at ht hy
        have e : t0 + ((k + 1 : ℕ) : ℝ) * dt - dt = t0 + k * dt := by push_cast; ring
        rw [e]
        simp only [ExpRB.acceptStep, Base.acceptStep, Deque.appendleft, g4, g5, Deque.get]
        cases hti : o.base.tHist.items with
        | nil => rw [hti] at ht; cases ht
        | cons a as =>
          cases hyi : o.base.yHist.items with
          | nil => rw [hyi] at hy; cases hy
          | cons b bs =>
            rw [hti] at ht
            rw [hyi] at hy
            simp only [List.getElem?_cons_zero] at ht hy
            refine ⟨by simp, ?_, ?_⟩
            · simpa using ht
            · simpa using hy
      obtain ⟨hj1, hj2⟩ := hj.get (some (kw.getD ∅)) (t0 + k * dt) (u k)
      refine ⟨StepResult.mk (t0 + k * dt + dt) dt (u (k + 1)) (-1), o, ?_, rfl, rfl, hacc _, g2, g3, g4, g5,
        by intro h; omega, fun _ => hget (u (k + 1))⟩
      show keep o (ExpRB.step hasRust K sys o dt kw) = _
      unfold ExpRB.step
      simp only [g2, String.reduceEq, if_true, if_false]
      rcases k with _ | k
      · have hl' : ¬ o.base.yHist.len ≥ 2 := by
          show ¬ o.base.yHist.items.length ≥ 2
          rw [g6 rfl]; omega
        simp only [hl', if_false]
        rw [exprb3_closed hK sys o g1 dt _ _ hj1.mat]
        simp only [hj1.rhs, hj2, g3]
        have e : t0 + ((0 : ℕ) : ℝ) * dt = t0 := by simp
        simp only [e]
        rfl
      · obtain ⟨q1, q2, q3⟩ := g7 (by omega)
        have hl' : o.base.yHist.len ≥ 2 := q1
        simp only [hl', if_true]
        rw [epi3_closed hK sys o g1 dt _ _ hj1.mat _ _ q2 q3]
        simp only [hj1.rhs, hj2]
        have e : t0 + ((k + 1 : ℕ) : ℝ) * dt = t0 + dt + k * dt := by push_cast; ring
        simp only [e]
        rfl)
    s (by
      rw [hs]
      refine ⟨?_, rfl, rfl, rfl, rfl, fun _ => rfl, fun h => absurd h (lt_irrefl 0)⟩
      have e : t0 + ((0 : ℕ) : ℝ) * dt = t0 := by simp
      rw [e]
      exact ⟨rfl, rfl, rfl⟩) N w

/-- the values of a run of `rk4` -/
theorem rk4_run (sys : OdeSys n P) (y0 : Vec n) (t0 dt : ℝ) (N : ℕ) (s : Base (Vec n)) (hnew : RK.new t0 y0 "rk4" = .ok s)
    {Q W : Type} (after : Option (W → ℝ → Vec n → Q × W)) (w : W) :
    ∃ l, integrateOrmatex (rkStepper sys) s y0 t0 dt N none after w = .ok l ∧
      l.tRes = (List.range (N + 1)).map (fun i : ℕ => t0 + i * dt) ∧
      l.yRes = (List.range (N + 1)).map (iterSeq (fun t y => rk4Kernel (sys.frhs none) t y dt) t0 dt y0) := by
  set u := iterSeq (fun t y => rk4Kernel (sys.frhs none) t y dt) t0 dt y0 with hu
  exact run_seq (rkStepper sys) (fun (o : Base (Vec n)) k => At o (t0 + k * dt) (u k) ∧ o.method = "rk4" ∧
    (Nonempty2 o ∧ 0 < o.yHist.maxlen ∧ o.tHist.maxlen = o.yHist.maxlen)) u t0 dt none after
    (by
      rintro o k kw hkw ⟨g1, g2, g4⟩
      rw [hkw rfl]
      refine ⟨StepResult.mk (t0 + k * dt + dt) dt (u (k + 1)) (-1), o, ?_, rfl, rfl, ?_, g2, accept_nonempty g4 _⟩
      · show keep o (RK.step sys o dt none) = _
        unfold RK.step stepRk4
        simp only [g2, if_true, g1.yNew, g1.time, Bind.bind, Except.bind, pure, Except.pure]
        rfl
      · have := at_accept g4.2 (StepResult.mk (t0 + k * dt + dt) dt (u (k + 1)) (-1))
        have e : t0 + ((k + 1 : ℕ) : ℝ) * dt = t0 + k * dt + dt := by push_cast; ring
        rw [e]
        exact this)
    s (by
      have hb : Base.init t0 y0 4 "rk4" = .ok s := hnew
      refine ⟨by simpa [hu, iterSeq] using at_init hb, ?_, init_nonempty hb⟩
      unfold Base.init at hb
      split at hb
      · cases hb; rfl
      · cases hb) N w

end runs

section main
variable {n m : ℕ} {P P' : Type} [EmptyCollection P] [EmptyCollection P'] {S : Matrix (Fin m) (Fin n) ℝ} {c : ℝ}

/-- the result of the second run is the image of the result of the first -/
def Related {σ σ' Q Q' W W' : Type} (S : Matrix (Fin m) (Fin n) ℝ) (c : ℝ) (a : Py (LoopState σ P Q W (Vec n))) (b : Py (LoopState σ' P' Q' W' (Vec m))) : Prop :=
  ∃ l l', a = .ok l ∧ b = .ok l' ∧ l'.tRes = l.tRes.map (fun t => t + c) ∧ l'.yRes = l.yRes.map (fun y => S *ᵥ y)

theorem related_of {σ σ' Q Q' W W' : Type} {a : Py (LoopState σ P Q W (Vec n))} {b : Py (LoopState σ' P' Q' W' (Vec m))} {l l'} {t0 dt : ℝ} {N : ℕ}
    {u : ℕ → Vec n} {v : ℕ → Vec m} (ha : a = .ok l) (hb : b = .ok l') (h1 : l.tRes = (List.range (N + 1)).map (fun i : ℕ => t0 + i * dt))
    (h2 : l'.tRes = (List.range (N + 1)).map (fun i : ℕ => t0 + c + i * dt)) (h3 : l.yRes = (List.range (N + 1)).map u)
    (h4 : l'.yRes = (List.range (N + 1)).map v) (h : ∀ k, v k = S *ᵥ u k) : Related S c a b := by
  refine ⟨l, l', ha, hb, ?_, ?_⟩
  · rw [h1, h2, List.map_map]
    exact List.map_congr_left fun i _ => by simp only [Function.comp]; ring
  · rw [h3, h4, List.map_map]
    exact List.map_congr_left fun i _ => h i

/-- **C135, Rosenbrock methods and epi3.**  If `S` maps the vector field of one differentiable system to that of another with the time axis shifted by `c`,
the run of the second from the image of the initial state is the image of the run of the first: same number of outputs, times shifted by `c`, states mapped
by `S`. -/
theorem C135_rosenbrock {K : Kernels n} {K' : Kernels m} (hK : ExactKernels K) (hK' : ExactKernels K') (hasRust : Bool) (sys : OdeSys n P) (sys' : OdeSys m P')
    (hj : ExactJacs sys) (hj' : ExactJacs sys') (hf : Smooth1 (sys.frhs none)) (hg : Smooth1 (sys'.frhs none))
    (hS : Maps2 S c (sys.frhs none) (sys'.frhs none)) (mth : String) (hm : mth = "epi3" ∨ ∃ p, (mth, p) ∈ rbOrders) (tol : ℝ)
    (htol : mth ∈ alwaysCorrected ∨ tol < 0 ∨ (∀ kw t y, (sys.fjac kw t y).fdt = 0) ∨ ∀ v, ‖S *ᵥ v‖ = ‖v‖) (y0 : Vec n) (t0 dt : ℝ) (N : ℕ)
    (s : ExpRB n) (s' : ExpRB m) (hnew : ExpRB.new hasRust t0 y0 mth tol = .ok s) (hnew' : ExpRB.new hasRust (t0 + c) (S *ᵥ y0) mth tol = .ok s')
    {Q W Q' W' : Type} (before : Option (W → ℝ → Vec n → P × W)) (after : Option (W → ℝ → Vec n → Q × W)) (w : W)
    (before' : Option (W' → ℝ → Vec m → P' × W')) (after' : Option (W' → ℝ → Vec m → Q' × W')) (w' : W') :
    Related S c (integrateOrmatex (rbStepper hasRust K sys) s y0 t0 dt N before after w)
      (integrateOrmatex (rbStepper hasRust K' sys') s' (S *ᵥ y0) (t0 + c) dt N before' after' w') := by
  have ht : mth ∈ alwaysCorrected ∨ TolOk S (sys.frhs none) tol := by
    rcases htol with h | h | h | h
    · exact Or.inl h
    · exact Or.inr (Or.inl h)
    · exact Or.inr (Or.inr (Or.inl fun t y => by rw [← (hj.get none t y).2]; exact h _ _ _))
    · exact Or.inr (Or.inr (Or.inr h))
  rcases hm with rfl | ⟨p, hm⟩
  · obtain ⟨l, a1, a2, a3⟩ := epi3_run hK hasRust sys hj y0 t0 dt tol N s hnew before after w
    obtain ⟨l', b1, b2, b3⟩ := epi3_run hK' hasRust sys' hj' (S *ᵥ y0) (t0 + c) dt tol N s' hnew' before' after' w'
    refine related_of a1 b1 a2 b2 a3 b3 fun k => ?_
    rcases ht with h | h
    · simp [alwaysCorrected] at h
    · exact (epi3Seq_intertwine hS hf hg h t0 dt y0 k).1
  · obtain ⟨l, a1, a2, a3⟩ := rb_run hK hasRust sys hj mth p hm y0 t0 dt tol N s hnew before after w
    obtain ⟨l', b1, b2, b3⟩ := rb_run hK' hasRust sys' hj' mth p hm (S *ᵥ y0) (t0 + c) dt tol N s' hnew' before' after' w'
    refine related_of a1 b1 a2 b2 a3 b3 (iter_intertwine (fun t y => ?_) t0 dt y0)
    have e : rbEff mth tol (dtM (sys'.frhs none) (t + c, S *ᵥ y)) = S *ᵥ rbEff mth tol (dtM (sys.frhs none) (t, y)) := by
      rw [dt_intertwine hS hf hg]
      unfold rbEff
      split_ifs with h
      · rfl
      · exact eff_intertwine (ht.resolve_left h) t y
    rw [e, rbMap_intertwine hS hf hg]

/-- **C135, splitting methods.**  The same for constant linear parts that `S` intertwines; no differentiability is needed. -/
theorem C135_split {K : Kernels n} {K' : Kernels m} (hK : ExactKernels K) (hK' : ExactKernels K') (sys : OdeSys n P) (sys' : OdeSys m P')
    (lop : LinOp n) (lop' : LinOp m) (hl : ∀ t y, sys.fl t y = lop) (hl' : ∀ t y, sys'.fl t y = lop') (L : Mat n) (L' : Mat m) (hd : lop.dense = .ok L)
    (hd' : lop'.dense = .ok L') (hL : IsMatrix lop L) (hL' : IsMatrix lop' L') (hLS : L' * S = S * L)
    (hS : Maps2 S c (sys.frhs none) (sys'.frhs none)) (mth : String) (p : ℕ) (hm : (mth, p) ∈ splitOrders) (y0 : Vec n) (t0 dt : ℝ) (N : ℕ)
    (s : ExpSplit n) (s' : ExpSplit m) (hnew : ExpSplit.new t0 y0 mth = .ok s) (hnew' : ExpSplit.new (t0 + c) (S *ᵥ y0) mth = .ok s')
    {Q W Q' W' : Type} (before : Option (W → ℝ → Vec n → P × W)) (after : Option (W → ℝ → Vec n → Q × W)) (w : W)
    (before' : Option (W' → ℝ → Vec m → P' × W')) (after' : Option (W' → ℝ → Vec m → Q' × W')) (w' : W') :
    Related S c (integrateOrmatex (splitStepper K sys) s y0 t0 dt N before after w)
      (integrateOrmatex (splitStepper K' sys') s' (S *ᵥ y0) (t0 + c) dt N before' after' w') := by
  obtain ⟨l, a1, a2, a3⟩ := split_run hK sys lop hl L hd hL mth p hm y0 t0 dt N s hnew before after w
  obtain ⟨l', b1, b2, b3⟩ := split_run hK' sys' lop' hl' L' hd' hL' mth p hm (S *ᵥ y0) (t0 + c) dt N s' hnew' before' after' w'
  exact related_of a1 b1 a2 b2 a3 b3 (iter_intertwine (fun t y => split_intertwine hS hLS mth dt t y) t0 dt y0)

/-- **C135, rk4.** -/
theorem C135_rk4 (sys : OdeSys n P) (sys' : OdeSys m P') (hS : Maps2 S c (sys.frhs none) (sys'.frhs none)) (y0 : Vec n) (t0 dt : ℝ) (N : ℕ)
    (s : Base (Vec n)) (s' : Base (Vec m)) (hnew : RK.new t0 y0 "rk4" = .ok s) (hnew' : RK.new (t0 + c) (S *ᵥ y0) "rk4" = .ok s')
    {Q W Q' W' : Type} (after : Option (W → ℝ → Vec n → Q × W)) (w : W) (after' : Option (W' → ℝ → Vec m → Q' × W')) (w' : W') :
    Related S c (integrateOrmatex (rkStepper sys) s y0 t0 dt N none after w)
      (integrateOrmatex (rkStepper sys') s' (S *ᵥ y0) (t0 + c) dt N none after' w') := by
  obtain ⟨l, a1, a2, a3⟩ := rk4_run sys y0 t0 dt N s hnew after w
  obtain ⟨l', b1, b2, b3⟩ := rk4_run sys' (S *ᵥ y0) (t0 + c) dt N s' hnew' after' w'
  exact related_of a1 b1 a2 b2 a3 b3 (iter_intertwine (fun t y => rk4_intertwine hS dt t y) t0 dt y0)

/-- a lumping: the total of two species that exchange mass and decay at the same rate, with a time-dependent source, delayed by 3 -/
example : Maps2 (n := 2) (m := 1) !![1, 1] 3 (fun t y => ![-y 0 * y 1 - 2 * y 0 + t, y 0 * y 1 - 2 * y 1]) (fun t z => ![-2 * z 0 + (t - 3)]) ∧
    Smooth1 (n := 2) (fun t y => ![-y 0 * y 1 - 2 * y 0 + t, y 0 * y 1 - 2 * y 1]) ∧ Smooth1 (n := 1) (fun t z => ![-2 * z 0 + (t - 3)]) := by
  refine ⟨?_, ?_, ?_⟩
  · intro t y
    funext i
    fin_cases i
    simp [mulVec, dotProduct, Fin.sum_univ_two]
    ring
  · intro q
    refine differentiableAt_pi.2 fun i => ?_
    fin_cases i <;> simp <;> fun_prop
  · intro q
    refine differentiableAt_pi.2 fun i => ?_
    fin_cases i
    simp
    fun_prop

end main
end Ormatex.Props
