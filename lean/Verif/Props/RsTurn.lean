import Verif.Spec.RsTurn

/-!
C140: runs of the binding in rotated coordinates.
-/

namespace Ormatex.Props
open Matrix Ormatex.Spec Ormatex.Rs
open scoped Classical

section
variable {n : ℕ}

/-- a linear map that preserves the dot product -/
structure Turn {r : ℕ} (T : Vec r → Vec r) : Prop where
  add : ∀ x y, T (x + y) = T x + T y
  smul : ∀ (a : ℝ) x, T (a • x) = a • T x
  dot : ∀ x y, T x ⬝ᵥ T y = x ⬝ᵥ y

/-- a linear map -/
structure Lin {r : ℕ} (T : Vec r → Vec r) : Prop where
  add : ∀ x y, T (x + y) = T x + T y
  smul : ∀ (a : ℝ) x, T (a • x) = a • T x

namespace Lin
variable {r : ℕ} {T : Vec r → Vec r} (h : Lin T)
include h

theorem zero : T 0 = 0 := by
  have := h.smul 0 0
  rwa [zero_smul, zero_smul] at this

theorem sub (x y : Vec r) : T (x - y) = T x - T y := by
  rw [sub_eq_add_neg, sub_eq_add_neg, h.add, ← neg_one_smul ℝ y, h.smul, neg_one_smul]

end Lin

/-- `B` is `A` in the other coordinates -/
def OpTurn {r : ℕ} (T : Vec r → Vec r) (A B : LinOp r) : Prop := ∀ v, B.call (T v) = T (A.call v)

namespace Turn
variable {r : ℕ} {T : Vec r → Vec r} (h : Turn T)
include h

theorem zero : T 0 = 0 := by
  have := h.smul 0 0
  rwa [zero_smul, zero_smul] at this

theorem sub (x y : Vec r) : T (x - y) = T x - T y := by
  rw [sub_eq_add_neg, sub_eq_add_neg, h.add, ← neg_one_smul ℝ y, h.smul, neg_one_smul]

theorem norm (x : Vec r) : norm2 (T x) = norm2 x := by
  unfold norm2
  rw [h.dot]

theorem sum {k : ℕ} (q : Fin k → Vec r) (e : Fin k → ℝ) : T (∑ j, e j • q j) = ∑ j, e j • T (q j) := by
  let L : Vec r →ₗ[ℝ] Vec r := LinearMap.mk (AddHom.mk T h.add) h.smul
  have : T (∑ j, e j • q j) = L (∑ j, e j • q j) := rfl
  rw [this, map_sum]
  exact Finset.sum_congr rfl fun j _ => h.smul _ _

theorem orthLoop_turn (qs : ℕ → Vec r) (k : ℕ) (is : List ℕ) (hs : ℕ → ℕ → ℝ) (qv : Vec r) :
    orthLoop (fun c => T (qs c)) k is hs (T qv) = ((orthLoop qs k is hs qv).1, T (orthLoop qs k is hs qv).2) := by
  induction is generalizing hs qv with
  | nil => rfl
  | cons i is ih =>
    simp only [orthLoop]
    rw [h.dot, ← h.smul, ← h.sub, ih]

theorem inner_turn {A B : LinOp r} (hAB : OpTurn T A B) (scale : ℝ) (k m iom : ℕ) (s : Arn r) :
    arnoldiInner B scale k m iom (Arn.mk s.hs fun c => T (s.qs c)) =
      (Arn.mk (arnoldiInner A scale k m iom s).1.hs fun c => T ((arnoldiInner A scale k m iom s).1.qs c), (arnoldiInner A scale k m iom s).2) := by
  unfold arnoldiInner
  simp only [hAB (s.qs k), ← h.smul, h.orthLoop_turn, h.norm]
  congr 2
  split_ifs with h1
  · funext c
    by_cases hc : c = k + 1
    · simp only [if_pos hc]
    · simp only [if_neg hc]
  · rfl

theorem loop_turn {A B : LinOp r} (hAB : OpTurn T A B) (scale : ℝ) (m iom : ℕ) : ∀ (p k : ℕ) (s : Arn r) (bn : ℕ),
    arnoldiLoopRs B scale m iom p k (Arn.mk s.hs fun c => T (s.qs c)) bn =
      (Arn.mk (arnoldiLoopRs A scale m iom p k s bn).1.hs fun c => T ((arnoldiLoopRs A scale m iom p k s bn).1.qs c),
        (arnoldiLoopRs A scale m iom p k s bn).2)
  | 0, _, _, _ => rfl
  | p + 1, k, s, bn => by
    simp only [arnoldiLoopRs]
    rw [h.inner_turn hAB]
    simp only
    split_ifs
    · rfl
    · exact loop_turn hAB scale m iom p (k + 1) _ (bn + 1)

/-- the result of the Arnoldi process in the other coordinates -/
theorem arnoldi_turn {A B : LinOp r} (hAB : OpTurn T A B) (scale : ℝ) (b : Vec r) (nMax iom : ℕ) :
    arnoldiRs B scale (T b) nMax iom =
      (arnoldiRs A scale b nMax iom).map fun a => ArnResult.mk a.k (Matrix.of fun i j => T (fun l => a.Q l j) i) a.H := by
  have e : (fun c : ℕ => if c = 0 then (1 / norm2 (T b)) • T b else 0) = fun c : ℕ => T (if c = 0 then (1 / norm2 b) • b else 0) := by
    funext c
    split_ifs
    · rw [h.norm, h.smul]
    · rw [h.zero]
  have h3 : arnoldiLoopRs B scale (min nMax r) iom (min nMax r) 0
      (Arn.mk (fun _ _ => 0) fun c : ℕ => if c = 0 then (1 / norm2 (T b)) • T b else 0) 0 = _ :=
    (congrArg (fun q => arnoldiLoopRs B scale (min nMax r) iom (min nMax r) 0 (Arn.mk (fun _ _ => 0) q) 0) e).trans
      (h.loop_turn hAB scale (min nMax r) iom (min nMax r) 0 (Arn.mk (fun _ _ => 0) fun c : ℕ => if c = 0 then (1 / norm2 b) • b else 0) 0)
  unfold arnoldiRs
  by_cases h1 : min nMax r = 0
  · simp only [if_pos h1]; rfl
  · by_cases h2 : norm2 b = 0
    · simp only [if_neg h1, h.norm, if_pos h2]; rfl
    · have h2' : norm2 (T b) ≠ 0 := by rwa [h.norm]
      simp only [if_neg h1, if_neg h2, if_neg h2']
      generalize arnoldiLoopRs B scale (min nMax r) iom (min nMax r) 0
        (Arn.mk (fun _ _ => 0) fun c : ℕ => if c = 0 then (1 / norm2 (T b)) • T b else 0) 0 = X at h3 ⊢
      subst h3
      rfl

theorem cols_turn {k : ℕ} (Q : Matrix (Fin r) (Fin k) ℝ) (e : Vec k) : (Matrix.of fun i j => T (fun l => Q l j) i) *ᵥ e = T (Q *ᵥ e) := by
  have e1 : Q *ᵥ e = ∑ j, e j • fun l => Q l j := by
    funext i
    simp [mulVec, dotProduct, mul_comm]
  rw [e1, h.sum]
  funext i
  simp [mulVec, dotProduct, mul_comm]

theorem phi_turn (K : KrylovExpm) {A B : LinOp r} (hAB : OpTurn T A B) (dt : ℝ) (v : Vec r) (k : ℕ) :
    K.applyPhiLinop B dt (T v) k = (K.applyPhiLinop A dt v k).map T := by
  unfold KrylovExpm.applyPhiLinop
  rw [h.arnoldi_turn hAB, h.norm]
  cases arnoldiRs A 1 v K.krylovDim K.iom with
  | error e => rfl
  | ok a =>
    simp only [Except.map, bind, Except.bind]
    cases K.expmv a.k a.H dt (unitVec a.k) k with
    | error e => rfl
    | ok e => simp only [pure, Except.pure, h.cols_turn, h.smul]

theorem exp_turn (K : KrylovExpm) {A B : LinOp r} (hAB : OpTurn T A B) (dt : ℝ) (v : Vec r) :
    K.applyLinop B dt (T v) = (K.applyLinop A dt v).map T := by
  unfold KrylovExpm.applyLinop
  rw [h.arnoldi_turn hAB, h.norm]
  cases arnoldiRs A dt v K.krylovDim K.iom with
  | error e => rfl
  | ok a =>
    simp only [Except.map, bind, Except.bind]
    cases K.expmv a.k a.H 1 (unitVec a.k) 0 with
    | error e => rfl
    | ok e => simp only [pure, Except.pure, h.cols_turn, h.smul]

/-- the extension that leaves the additional components alone -/
theorem ext (p : ℕ) : Turn (r := r + p) fun w => concat (T (headN w)) (tailP w) := by
  have hd : ∀ (a : Vec r) (b : Vec p) , headN (concat a b) = a ∧ tailP (concat a b) = b := fun a b => by
    constructor <;> funext i <;> simp [headN, tailP, concat]
  refine Turn.mk ?_ ?_ ?_
  · intro x y
    have e1 : headN (x + y) = headN x + headN y := rfl
    have e2 : tailP (x + y) = tailP x + tailP y := rfl
    rw [e1, e2, h.add]
    funext i
    refine Fin.addCases (fun i => ?_) (fun i => ?_) i <;> simp [concat]
  · intro a x
    have e1 : headN (a • x) = a • headN x := rfl
    have e2 : tailP (a • x) = a • tailP x := rfl
    rw [e1, e2, h.smul]
    funext i
    refine Fin.addCases (fun i => ?_) (fun i => ?_) i <;> simp [concat]
  · intro x y
    have h1 := h.dot (headN x) (headN y)
    simp only [dotProduct] at h1 ⊢
    rw [Fin.sum_univ_add, Fin.sum_univ_add]
    simp only [concat, Fin.append_left, Fin.append_right]
    rw [h1]
    rfl

theorem kiops_turn (K : KrylovExpm) {A B : LinOp r} (hAB : OpTurn T A B) (t : ℝ) (a b : Vec r) (dt : ℝ) :
    K.kiops t B [0, T a, T b] dt = (K.kiops t A [0, a, b] dt).map T := by
  have hd : ∀ (a : Vec r) (b : Vec 2) , headN (concat a b) = a ∧ tailP (concat a b) = b := fun a b => by
    constructor <;> funext i <;> simp [headN, tailP, concat]
  have key : ∀ (C : LinOp r) (a b : Vec r), ∃ E : LinOp (r + 2), extendedLinOp t C [0, a, b] = .ok E ∧
      ∀ w : Vec (r + 2), E.call w = concat (t • C.call (headN w) + ((tailP w : Vec 2) 0 • b + (tailP w : Vec 2) 1 • a)) (extK 2 *ᵥ tailP w) := by
    intro C a b
    refine ⟨_, by unfold extendedLinOp; rw [if_neg (by simp)], fun w => ?_⟩
    show concat (t • C.call (headN w) + extB [0, a, b] *ᵥ tailP w) (extK 2 *ᵥ tailP w) = _
    congr 2
    funext i
    show ∑ k : Fin 2, extB [0, a, b] i k * (tailP w : Vec 2) k = _
    rw [Fin.sum_univ_two]
    simp [extB, mul_comm]
  obtain ⟨E, e1, e2⟩ := key A a b
  obtain ⟨F, f1, f2⟩ := key B (T a) (T b)
  have hEF : OpTurn (fun w : Vec (r + 2) => concat (T (headN w)) (tailP w)) E F := by
    intro w
    rw [f2, e2]
    simp only [(hd _ _).1, (hd _ _).2]
    rw [hAB, h.add, h.add, h.smul, h.smul, h.smul]
  have hv : (extV [0, T a, T b] : Vec (r + 2)) = concat (T (headN (extV [0, a, b] : Vec (r + 2)))) (tailP (extV [0, a, b] : Vec (r + 2))) := by
    have z : headN (extV [0, a, b] : Vec (r + 2)) = (0 : Vec r) := by
      funext i
      simp [headN, extV]
    rw [z, h.zero]
    funext i
    refine Fin.addCases (fun i => ?_) (fun i => ?_) i
    · simp [concat, extV]
    · simp [concat, extV, tailP]
  unfold KrylovExpm.kiops
  rw [f1, e1]
  have h3 := (h.ext 2).exp_turn K hEF dt (extV [0, a, b] : Vec (r + 2))
  simp only [← hv] at h3
  show (K.applyLinop F dt (extV [0, T a, T b] : Vec (r + 2)) >>= fun w => pure (headN w)) = _
  rw [h3]
  show _ = Except.map T (K.applyLinop E dt (extV [0, a, b] : Vec (r + 2)) >>= fun w => pure (headN w))
  cases K.applyLinop E dt (extV [0, a, b] : Vec (r + 2)) with
  | error e => rfl
  | ok w =>
    simp only [Except.map, bind, Except.bind, pure, Except.pure, (hd _ _).1]

end Turn

/-- what a run reads of a step -/
def stripRes {r : ℕ} (x : StepRes r) : ℝ × ℝ × Vec r := (x.t, x.dt, x.y)

/-- an exponential integrator in the other coordinates -/
def turnEpirk (T : Vec n → Vec n) (c : ℝ) (s : Epirk n) : Epirk n :=
  Epirk.mk s.order s.method (s.t + c) s.tolFdt (s.yHist.map T) (s.tHist.map (· + c))

/-- a step in the other coordinates -/
def turnStep (T : Vec n → Vec n) (c : ℝ) (x : ℝ × ℝ × Vec n) : ℝ × ℝ × Vec n := (x.1 + c, x.2.1, T x.2.2)

theorem rsGet_map {α β : Type} (g : α → β) (l : List α) (i : ℕ) : rsGet (l.map g) i = (rsGet l i).map g := by
  unfold rsGet
  rw [List.getElem?_map]
  cases l[i]? <;> rfl

/-- when the test of the size of the time derivative does not depend on the coordinates -/
def TolTurn (T : Vec n → Vec n) (f : ℝ → Vec n → Vec n) (tol : ℝ) : Prop :=
  tol < 0 ∨ (∀ t t' y, f t y = f t' y) ∨ ∀ v, ‖T v‖ = ‖v‖

section epirk
variable {T : Vec n → Vec n} (h : Lin T) {c : ℝ} {sys sys' : Sys n} (hf : ∀ t y, sys'.frhs (t + c) (T y) = T (sys.frhs t y))
  (hJ : ∀ t y, OpTurn T (sys.fjac t y) (sys'.fjac (t + c) (T y))) (K : KrylovExpm) (s : Epirk n)
  (hphi : ∀ t y dt v k, K.applyPhiLinop (sys'.fjac (t + c) (T y)) dt (T v) k = (K.applyPhiLinop (sys.fjac t y) dt v k).map T)
  (hki : s.method = "epi3" → ∀ t y e a b d,
    K.kiops e (sys'.fjac (t + c) (T y)) [0, T a, T b] d = (K.kiops e (sys.fjac t y) [0, a, b] d).map T) (htol : TolTurn T sys.frhs s.tolFdt)
include h hf

theorem fdt_turn (y : Vec n) (del : ℝ) (hy : rsGet s.yHist 0 = .ok y) :
    Epirk.frhsFdt sys' (turnEpirk T c s) (T (sys.frhs s.t y)) del = (Epirk.frhsFdt sys s (sys.frhs s.t y) del).map T := by
  unfold Epirk.frhsFdt turnEpirk
  simp only [rsGet_map, hy, Except.map, bind, Except.bind, pure, Except.pure]
  rw [show s.t + c + del = s.t + del + c by ring, hf]
  congr 1
  have e : ∀ a b : Vec n, (fun i => (a i - b i) / del) = (1 / del) • (a - b) := fun a b => by
    funext i
    simp [div_eq_inv_mul]
  rw [e, e, h.smul, h.sub]

theorem remf_turn {A B : LinOp n} (hAB : OpTurn T A B) (tr : ℝ) (yr F v : Vec n) :
    Epirk.remf sys' (turnEpirk T c s) (tr + c) (T yr) (T F) B (some (T v)) = (Epirk.remf sys s tr yr F A (some v)).map T := by
  unfold Epirk.remf turnEpirk
  simp only [rsGet_map]
  cases rsGet s.tHist 0 with
  | error e => rfl
  | ok t =>
    cases rsGet s.yHist 0 with
    | error e => rfl
    | ok y =>
      simp only [Except.map, bind, Except.bind, pure, Except.pure, Option.getD_some, hf]
      rw [← h.sub, ← h.sub, hAB, h.sub _ (_ • v), h.sub _ (A.call _), h.smul, show tr + c - (t + c) = tr - t by ring]

include hphi htol in
theorem fphi2_turn (y : Vec n) (hy : rsGet s.yHist 0 = .ok y) (dt : ℝ) :
    Epirk.fphi2V (K.kern n) sys' (turnEpirk T c s) (T (sys.frhs s.t y)) (sys'.fjac (s.t + c) (T y)) dt =
      (Epirk.fphi2V (K.kern n) sys s (sys.frhs s.t y) (sys.fjac s.t y) dt).map fun x => (T x.1, T x.2) := by
  unfold Epirk.fphi2V
  rw [fdt_turn h hf s y _ hy]
  show (if s.tolFdt < 0 then _ else _) = _
  split_ifs with h1
  · simp [Except.map, h.zero]
  · cases hv : Epirk.frhsFdt sys s (sys.frhs s.t y) 1e-8 with
    | error e => rfl
    | ok v =>
      have hn : ‖T v‖ = ‖v‖ := by
        rcases htol with h2 | h2 | h2
        · exact absurd h2 h1
        · have : v = 0 := by
            unfold Epirk.frhsFdt at hv
            simp only [hy, bind, Except.bind, pure, Except.pure, Except.ok.injEq] at hv
            rw [← hv]
            funext i
            rw [h2 (s.t + 1e-8) s.t y]
            simp
          rw [this, h.zero]
        · exact h2 v
      simp only [Except.map, bind, Except.bind, hn]
      show (if ‖v‖ > s.tolFdt then _ else _) = _
      split_ifs with h3
      · have := hphi s.t y dt v 2
        simp only [KrylovExpm.kern, this]
        cases K.applyPhiLinop (sys.fjac s.t y) dt v 2 with
        | error e => rfl
        | ok p => simp only [Except.map, pure, Except.pure, h.smul]
      · simp only [pure, Except.pure, h.zero]

include hJ hphi hki htol in
/-- one step in the other coordinates -/
theorem epirk_turn (dt : ℝ) : (Epirk.step (K.kern n) sys' (turnEpirk T c s) dt).map stripRes =
    ((Epirk.step (K.kern n) sys s dt).map stripRes).map (turnStep T c) := by
  have e2 : (Epirk.stepOrder2 (K.kern n) sys' (turnEpirk T c s) dt).map stripRes =
      ((Epirk.stepOrder2 (K.kern n) sys s dt).map stripRes).map (turnStep T c) := by
    unfold Epirk.stepOrder2
    have g : rsGet (turnEpirk T c s).yHist 0 = (rsGet s.yHist 0).map T := rsGet_map _ _ _
    have gt : (turnEpirk T c s).t = s.t + c := rfl
    rw [g, gt]
    cases hy : rsGet s.yHist 0 with
    | error e => rfl
    | ok y =>
      simp only [Except.map, bind, Except.bind, hf]
      rw [fphi2_turn h hf K s hphi htol y hy]
      cases Epirk.fphi2V (K.kern n) sys s (sys.frhs s.t y) (sys.fjac s.t y) dt with
      | error e => rfl
      | ok q =>
        have h1 := hphi s.t y dt (dt • sys.frhs s.t y) 1
        rw [h.smul] at h1
        simp only [Except.map, KrylovExpm.kern, h1]
        cases K.applyPhiLinop (sys.fjac s.t y) dt (dt • sys.frhs s.t y) 1 with
        | error e => rfl
        | ok p =>
          simp only [Except.map, pure, Except.pure, stripRes, turnStep, h.add]
          rw [show s.t + c + dt = s.t + dt + c by ring]
  have e32 : (Epirk.stepExprb32 (K.kern n) sys' (turnEpirk T c s) dt).map stripRes =
      ((Epirk.stepExprb32 (K.kern n) sys s dt).map stripRes).map (turnStep T c) := by
    unfold Epirk.stepExprb32
    have g : rsGet (turnEpirk T c s).yHist 0 = (rsGet s.yHist 0).map T := rsGet_map _ _ _
    have gt : (turnEpirk T c s).t = s.t + c := rfl
    rw [g, gt]
    cases hy : rsGet s.yHist 0 with
    | error e => rfl
    | ok y =>
      simp only [Except.map, bind, Except.bind, hf]
      rw [fphi2_turn h hf K s hphi htol y hy]
      cases Epirk.fphi2V (K.kern n) sys s (sys.frhs s.t y) (sys.fjac s.t y) dt with
      | error e => rfl
      | ok q =>
        have h1 := hphi s.t y dt (dt • sys.frhs s.t y) 1
        rw [h.smul] at h1
        simp only [Except.map, KrylovExpm.kern, h1]
        cases K.applyPhiLinop (sys.fjac s.t y) dt (dt • sys.frhs s.t y) 1 with
        | error e => rfl
        | ok p =>
          have h2 := remf_turn h hf s (hJ s.t y) (s.t + dt) (y + q.1 + p) (sys.frhs s.t y) q.2
          rw [h.add, h.add] at h2
          simp only [Except.map]
          rw [show s.t + c + dt = s.t + dt + c by ring, h2]
          cases Epirk.remf sys s (s.t + dt) (y + q.1 + p) (sys.frhs s.t y) (sys.fjac s.t y) (some q.2) with
          | error e => rfl
          | ok r2 =>
            have h3 := hphi s.t y dt r2 3
            simp only [Except.map, h3]
            cases K.applyPhiLinop (sys.fjac s.t y) dt r2 3 with
            | error e => rfl
            | ok p3 => simp only [Except.map, pure, Except.pure, stripRes, turnStep, h.add, h.smul]
  have e3 : s.method = "epi3" → (Epirk.stepOrder3 (K.kern n) sys' (turnEpirk T c s) dt).map stripRes =
      ((Epirk.stepOrder3 (K.kern n) sys s dt).map stripRes).map (turnStep T c) := by
    intro he
    unfold Epirk.stepOrder3
    have g : ∀ i, rsGet (turnEpirk T c s).yHist i = (rsGet s.yHist i).map T := rsGet_map _ _
    have g' : ∀ i, rsGet (turnEpirk T c s).tHist i = (rsGet s.tHist i).map (· + c) := rsGet_map _ _
    have gt : (turnEpirk T c s).t = s.t + c := rfl
    rw [g, g, g', gt]
    cases hy : rsGet s.yHist 0 with
    | error e => rfl
    | ok y =>
      cases hyp : rsGet s.yHist 1 with
      | error e => rfl
      | ok yp =>
        cases htp : rsGet s.tHist 1 with
        | error e => rfl
        | ok tp =>
          simp only [Except.map, bind, Except.bind, hf]
          rw [fphi2_turn h hf K s hphi htol y hy]
          cases Epirk.fphi2V (K.kern n) sys s (sys.frhs s.t y) (sys.fjac s.t y) dt with
          | error e => rfl
          | ok q =>
            simp only [Except.map]
            rw [remf_turn h hf s (hJ s.t y) tp yp (sys.frhs s.t y) q.2]
            cases Epirk.remf sys s tp yp (sys.frhs s.t y) (sys.fjac s.t y) (some q.2) with
            | error e => rfl
            | ok rn =>
              have h3 := hki he s.t y dt (dt • sys.frhs s.t y) ((dt * 2 / 3) • rn) 1
              rw [h.smul, h.smul] at h3
              simp only [Except.map, KrylovExpm.kern, h3]
              cases K.kiops dt (sys.fjac s.t y) [0, dt • sys.frhs s.t y, (dt * 2 / 3) • rn] 1 with
              | error e => rfl
              | ok w =>
                simp only [Except.map, pure, Except.pure, stripRes, turnStep, h.add]
                rw [show s.t + c + dt = s.t + dt + c by ring]
  unfold Epirk.step
  have gm : (turnEpirk T c s).method = s.method := rfl
  have gl : (turnEpirk T c s).yHist.length = s.yHist.length := by simp [turnEpirk]
  rw [gm, gl]
  split_ifs with q1 q2
  · exact e2
  · exact e3 q2
  · exact e2
  · exact e32
  · rfl

end epirk

section bdf
variable {T : Vec n → Vec n} (h : Turn T) {c : ℝ} {gmres gmres' : Gmres n}
  (hg : ∀ A B : LinOp n, OpTurn T A B → ∀ b x iters tol, gmres' B (T b) (T x) iters tol = (gmres A b x iters tol).map T)
include h

include hg in
theorem newton_turn (t t' : ℝ) (f f' : ℝ → Vec n → Vec n) (J J' : ℝ → Vec n → LinOp n) (hf : ∀ x, f' t' (T x) = T (f t x))
    (hJ : ∀ x, OpTurn T (J t x) (J' t' (T x))) (tol tolLin : ℝ) (il : ℕ) : ∀ (it : ℕ) (x a : Vec n),
    newtonLoop gmres' t' f' J' tol tolLin il it (T x) (T a) = (newtonLoop gmres t f J tol tolLin il it x a).map T
  | 0, _, _ => rfl
  | it + 1, x, a => by
    simp only [newtonLoop]
    rw [hf, hg _ _ (hJ x)]
    cases gmres (J t x) (f t x) a il tolLin with
    | error e => rfl
    | ok a' =>
      simp only [Except.map, bind, Except.bind]
      rw [← h.sub, h.norm, h.norm]
      split_ifs
      · rfl
      · exact newton_turn t t' f f' J J' hf hJ tol tolLin il it _ _

theorem shifted_turn {A B : LinOp n} (hAB : OpTurn T A B) (a b : ℝ) : OpTurn T (shiftedLinOp A a (some b)) (shiftedLinOp B a (some b)) := by
  intro v
  show a • B.call (T v) + b • T v = T (a • A.call v + b • v)
  rw [hAB, h.add, h.smul, h.smul]

/-- an implicit integrator in the other coordinates -/
def turnBdf (T : Vec n → Vec n) (c : ℝ) (s : Bdf n) : Bdf n := { s with t := s.t + c, yHist := s.yHist.map T }

variable {sys sys' : Sys n} (hf : ∀ t y, sys'.frhs (t + c) (T y) = T (sys.frhs t y))
  (hJ : ∀ t y, OpTurn T (sys.fjac t y) (sys'.fjac (t + c) (T y))) (s : Bdf n)
include hf

theorem gfn_turn (t : ℝ) (y : Vec n) (dt : ℝ) (o : ℕ) :
    Bdf.nonlinGfn sys' (turnBdf T c s) (t + c) (T y) dt o = (Bdf.nonlinGfn sys s t y dt o).map T := by
  have hft : sys'.frhs (t + c + dt) (T y) = T (sys.frhs (t + dt) y) := by rw [show t + c + dt = t + dt + c by ring, hf]
  unfold Bdf.nonlinGfn
  have g : ∀ i, rsGet (turnBdf T c s).yHist i = (rsGet s.yHist i).map T := rsGet_map _ _
  rw [g]
  cases rsGet s.yHist 0 with
  | error e => rfl
  | ok y0 =>
    match o with
    | 0 => rfl
    | 1 => simp only [Except.map, bind, Except.bind, pure, Except.pure, hft, h.sub, h.smul]
    | 2 =>
      simp only [g]
      cases rsGet s.yHist 1 with
      | error e => rfl
      | ok y1 => simp only [Except.map, bind, Except.bind, pure, Except.pure, hft, h.sub, h.add, h.smul]
    | o + 3 => rfl

include hg hJ in
/-- one step in the other coordinates -/
theorem bdf_turn (dt : ℝ) : (Bdf.step gmres' sys' (turnBdf T c s) dt).map stripRes =
    ((Bdf.step gmres sys s dt).map stripRes).map (turnStep T c) := by
  have g : ∀ i, rsGet (turnBdf T c s).yHist i = (rsGet s.yHist i).map T := rsGet_map _ _
  have gt : (turnBdf T c s).t = s.t + c := rfl
  have go : (turnBdf T c s).order = s.order := rfl
  have hft : ∀ y, sys'.frhs (s.t + c + dt + dt) (T y) = T (sys.frhs (s.t + dt + dt) y) := fun y => by
    rw [show s.t + c + dt + dt = s.t + dt + dt + c by ring, hf]
  have hft1 : ∀ y, sys'.frhs (s.t + c + dt) (T y) = T (sys.frhs (s.t + dt) y) := fun y => by
    rw [show s.t + c + dt = s.t + dt + c by ring, hf]
  have hJt : ∀ y a, OpTurn T (sys.fjacShifted (s.t + dt + dt) y a (some 1)) (sys'.fjacShifted (s.t + c + dt + dt) (T y) a (some 1)) := fun y a => by
    rw [show s.t + c + dt + dt = s.t + dt + dt + c by ring]
    exact shifted_turn h (hJ _ y) a 1
  have hneg : ∀ v, T (-v) = -T v := fun v => by rw [← neg_one_smul ℝ v, h.smul, neg_one_smul]
  have fin : ∀ z : RsM (Vec n), ((z.map T).bind fun y => (Except.ok (StepRes.mk (s.t + c + dt) dt y none) : RsM (StepRes n))).map stripRes =
      ((z.bind fun y => (Except.ok (StepRes.mk (s.t + dt) dt y none) : RsM (StepRes n))).map stripRes).map (turnStep T c) := by
    intro z
    cases z with
    | error e => rfl
    | ok y =>
      simp only [Except.map, Except.bind, stripRes, turnStep]
      rw [show s.t + c + dt = s.t + dt + c by ring]
  have e1 : (Bdf.stepOrder1 gmres' sys' (turnBdf T c s) dt).map stripRes =
      ((Bdf.stepOrder1 gmres sys s dt).map stripRes).map (turnStep T c) := by
    unfold Bdf.stepOrder1
    rw [g, gt]
    cases rsGet s.yHist 0 with
    | error e => rfl
    | ok y0 =>
      have hn := newton_turn h hg (s.t + dt) (s.t + c + dt) (fun t y => -(dt • sys.frhs (t + dt) y) - y0 + y)
        (fun t y => -(dt • sys'.frhs (t + dt) y) - T y0 + y) (fun t y => sys.fjacShifted (t + dt) y (-dt) (some 1))
        (fun t y => sys'.fjacShifted (t + dt) y (-dt) (some 1)) (fun x => by simp only [hft, h.add, h.sub, hneg, h.smul]) (fun x => hJt x _)
        1e-6 1e-8 1000 100 y0 0
      rw [h.zero] at hn
      simp only [Except.map, bind, Except.bind, pure, Except.pure, jacNewton]
      have := fin (newtonLoop gmres (s.t + dt) (fun t y => -(dt • sys.frhs (t + dt) y) - y0 + y)
        (fun t y => sys.fjacShifted (t + dt) y (-dt) (some 1)) 1e-6 1e-8 1000 100 y0 0)
      rw [← hn] at this
      exact this
  have e3 : (Bdf.stepCn gmres' sys' (turnBdf T c s) dt).map stripRes =
      ((Bdf.stepCn gmres sys s dt).map stripRes).map (turnStep T c) := by
    unfold Bdf.stepCn
    rw [g, gt]
    cases rsGet s.yHist 0 with
    | error e => rfl
    | ok y0 =>
      have hn := newton_turn h hg (s.t + dt) (s.t + c + dt) (fun t y => -((dt * 0.5) • sys.frhs (t + dt) y) - (dt * 0.5) • sys.frhs t y0 - y0 + y)
        (fun t y => -((dt * 0.5) • sys'.frhs (t + dt) y) - (dt * 0.5) • sys'.frhs t (T y0) - T y0 + y)
        (fun t y => sys.fjacShifted (t + dt) y (-0.5 * dt) (some 1))
        (fun t y => sys'.fjacShifted (t + dt) y (-0.5 * dt) (some 1)) (fun x => by simp only [hft, hft1, h.add, h.sub, hneg, h.smul]) (fun x => hJt x _)
        1e-6 1e-8 1000 100 y0 0
      rw [h.zero] at hn
      simp only [Except.map, bind, Except.bind, pure, Except.pure, jacNewton]
      have := fin (newtonLoop gmres (s.t + dt) (fun t y => -((dt * 0.5) • sys.frhs (t + dt) y) - (dt * 0.5) • sys.frhs t y0 - y0 + y)
        (fun t y => sys.fjacShifted (t + dt) y (-0.5 * dt) (some 1)) 1e-6 1e-8 1000 100 y0 0)
      rw [← hn] at this
      exact this
  have e2 : (Bdf.stepOrder2 gmres' sys' (turnBdf T c s) dt).map stripRes =
      ((Bdf.stepOrder2 gmres sys s dt).map stripRes).map (turnStep T c) := by
    unfold Bdf.stepOrder2
    rw [g, gt, go]
    cases rsGet s.yHist 0 with
    | error e => rfl
    | ok y0 =>
      have hgt : ∀ y, Bdf.nonlinGfn sys' (turnBdf T c s) (s.t + c + dt) (T y) dt s.order = (Bdf.nonlinGfn sys s (s.t + dt) y dt s.order).map T := fun y => by
        rw [show s.t + c + dt = s.t + dt + c by ring, gfn_turn h hf]
      simp only [Except.map, bind, Except.bind]
      rw [hgt]
      cases Bdf.nonlinGfn sys s (s.t + dt) y0 dt s.order with
      | error e => rfl
      | ok q =>
        simp only [Except.map]
        cases Bdf.nonlinScale dt s.order with
        | error e => rfl
        | ok sc =>
          have hn := newton_turn h hg (s.t + dt) (s.t + c + dt)
            (fun t y => match Bdf.nonlinGfn sys s t y dt s.order with | .ok g => g | .error _ => 0)
            (fun t y => match Bdf.nonlinGfn sys' (turnBdf T c s) t y dt s.order with | .ok g => g | .error _ => 0)
            (fun t y => sys.fjacShifted (t + dt) y sc (some 1))
            (fun t y => sys'.fjacShifted (t + dt) y sc (some 1))
            (fun x => by
              simp only [hgt]
              cases Bdf.nonlinGfn sys s (s.t + dt) x dt s.order with
              | error e => exact h.zero.symm
              | ok g => rfl) (fun x => hJt x _)
            1e-6 1e-8 1000 100 y0 0
          rw [h.zero] at hn
          simp only [pure, Except.pure, jacNewton]
          have := fin (newtonLoop gmres (s.t + dt) (fun t y => match Bdf.nonlinGfn sys s t y dt s.order with | .ok g => g | .error _ => 0)
            (fun t y => sys.fjacShifted (t + dt) y sc (some 1)) 1e-6 1e-8 1000 100 y0 0)
          rw [← hn] at this
          exact this
  unfold Bdf.step
  have gl : (turnBdf T c s).yHist.length = s.yHist.length := by simp [turnBdf]
  rw [go, gl]
  split
  · exact e1
  · split_ifs
    · exact e2
    · exact e1
  · exact e3
  · rfl

end bdf

/-- the loop of the binding in the other coordinates -/
theorem outLoop_turn {σ : Type} (I I' : Integrator σ n) (T : Vec n → Vec n) (c dt : ℝ) (g : σ → σ) (P : σ → Prop)
    (hst : ∀ s, I'.state (g s) = (I.state s).map T) (htm : ∀ s, I'.time (g s) = I.time s + c)
    (hstep : ∀ s, P s → (I'.step (g s) dt).map stripRes = ((I.step s dt).map stripRes).map (turnStep T c))
    (hacc : ∀ s r r', stripRes r' = turnStep T c (stripRes r) → I'.accept (g s) r' = g (I.accept s r))
    (hP : ∀ s r, P s → P (I.accept s r)) (os : ℕ) : ∀ (k i : ℕ) (s : σ) (ys : List (Vec n)) (ts : List ℝ), P s →
    outLoop I' dt os k i (g s) (ys.map T) (ts.map (· + c)) = (outLoop I dt os k i s ys ts).map fun p => (p.1.map T, p.2.map (· + c))
  | 0, i, s, ys, ts, _ => by
    simp only [outLoop]
    rw [hst, htm]
    cases I.state s with
    | error e => rfl
    | ok y => simp [Except.map, bind, Except.bind, pure, Except.pure]
  | k + 1, i, s, ys, ts, hs => by
    simp only [outLoop]
    by_cases ho : os = 0
    · simp only [if_pos ho]; rfl
    · simp only [if_neg ho]
      have cont : ∀ (ys' : List (Vec n)) (ts' : List ℝ),
          (match I'.step (g s) dt with
            | .ok res => outLoop I' dt os k (i + 1) (I'.accept (g s) res) (ys'.map T) (ts'.map (· + c))
            | .error .nan => .error .nan
            | .error _ => .error .panic) =
          (match I.step s dt with
            | .ok res => outLoop I dt os k (i + 1) (I.accept s res) ys' ts'
            | .error .nan => .error .nan
            | .error _ => .error .panic : RsM (List (Vec n) × List ℝ)).map fun p => (p.1.map T, p.2.map (· + c)) := by
        intro ys' ts'
        have h1 := hstep s hs
        cases h2 : I.step s dt with
        | error e =>
          rw [h2] at h1
          cases h3 : I'.step (g s) dt with
          | error e' =>
            rw [h3] at h1
            simp only [Except.map, Except.error.injEq] at h1
            subst h1
            cases e' <;> rfl
          | ok r' => rw [h3] at h1; simp [Except.map] at h1
        | ok r =>
          rw [h2] at h1
          cases h3 : I'.step (g s) dt with
          | error e' => rw [h3] at h1; simp [Except.map] at h1
          | ok r' =>
            rw [h3] at h1
            simp only [Except.map, Except.ok.injEq] at h1
            simp only
            rw [hacc s r r' h1]
            exact outLoop_turn I I' T c dt g P hst htm hstep hacc hP os k (i + 1) _ ys' ts' (hP s r hs)
      by_cases hm : i % os = 0
      · simp only [if_pos hm]
        rw [hst, htm]
        cases I.state s with
        | error e => rfl
        | ok y =>
          have := cont (ys ++ [y]) (ts ++ [I.time s])
          simp only [List.map_append, List.map_cons, List.map_nil] at this
          exact this
      · simp only [if_neg hm]
        exact cont ys ts

theorem turn_orth {S : Mat n} (hS : Sᵀ * S = 1) : Turn fun v => S *ᵥ v :=
  Turn.mk (fun x y => mulVec_add S x y) (fun a x => mulVec_smul S a x) fun x y => by
    show S *ᵥ x ⬝ᵥ S *ᵥ y = _
    rw [dotProduct_mulVec, ← vecMul_transpose S x, vecMul_vecMul, hS, vecMul_one]

/-- **C140.**  A change to orthogonal coordinates and a shift of the time axis: the call on the turned system returns exactly the turned result of the call
on the original system - the output states multiplied by `S`, the output times shifted, or the same failure - for every option, every step size and every
dimension of the Krylov spaces.  The implicit methods need a linear solver that turns with the coordinates; the exponential methods, if they test the size
of the time derivative of a non-autonomous system, need an `S` that keeps the largest entry. -/
theorem C140_turned {S : Mat n} {c : ℝ} {sys sys' : Sys n} (hS : TurnedSys S c sys sys') (gmres gmres' : Gmres n) (split : ℕ → Option (Split ℕ))
    (y0 : Vec n) (t0 dt : ℝ) (N : ℕ) (kd : Kwds)
    (hg : ∀ o, parseOpts kd = .ok o → o.method ∈ ["bdf1", "backeuler", "bdf2", "cn"] → TurnedGmres S gmres gmres')
    (htol : ∀ o, parseOpts kd = .ok o → o.method ∈ ["bdf1", "backeuler", "bdf2", "cn"] ∨ o.tolFdt < 0 ∨ (∀ t t' y, sys.frhs t y = sys.frhs t' y) ∨
      ∀ v, ‖S *ᵥ v‖ = ‖v‖) :
    integrateWrapperRs gmres' split sys' (S *ᵥ y0) (t0 + c) dt N kd = turnRun S c (integrateWrapperRs gmres split sys y0 t0 dt N kd) := by
  have h := turn_orth hS.orth
  have hJ : ∀ t y, OpTurn (fun v => S *ᵥ v) (sys.fjac t y) (sys'.fjac (t + c) (S *ᵥ y)) := fun t y v => hS.jac t y v
  have tr : ∀ z : RsM (List (Vec n) × List ℝ), turnRun S c z = z.map fun p => (p.1.map fun v => S *ᵥ v, p.2.map (· + c)) := fun z => by
    cases z <;> rfl
  rw [tr]
  unfold integrateWrapperRs
  cases hp : parseOpts kd with
  | error e => rfl
  | ok o =>
    simp only [bind, Except.bind]
    let tS : Solver n → Solver n := fun s => match s with
      | .bdf b => .bdf (turnBdf (fun v => S *ᵥ v) c b)
      | .epirk K e => .epirk K (turnEpirk (fun v => S *ᵥ v) c e)
    let P : Solver n → Prop := fun s => match s with
      | .bdf _ => TurnedGmres S gmres gmres'
      | .epirk _ e => TolTurn (fun v => S *ᵥ v) sys.frhs e.tolFdt
    have loop := fun (s : Solver n) (hs : P s) => outLoop_turn (solverIntegrator gmres sys) (solverIntegrator gmres' sys') (fun v => S *ᵥ v) c dt tS P
      (by rintro (b | ⟨K, e⟩) <;> exact rsGet_map _ _ _)
      (by rintro (b | ⟨K, e⟩) <;> rfl)
      (by
        rintro (b | ⟨K, e⟩) hs
        · exact bdf_turn h hs hS.rhs hJ b dt
        · exact epirk_turn ⟨h.add, h.smul⟩ hS.rhs hJ K e (fun t y => h.phi_turn K (hJ t y)) (fun _ t y => h.kiops_turn K (hJ t y)) hs dt)
      (by
        rintro (b | ⟨K, e⟩) r r' hr
        · simp only [stripRes, turnStep, Prod.mk.injEq] at hr
          obtain ⟨a1, a2, a3⟩ := hr
          simp only [solverIntegrator, Bdf.integrator, tS, turnBdf, a1, a3, List.map_cons]
        · simp only [stripRes, turnStep, Prod.mk.injEq] at hr
          obtain ⟨a1, a2, a3⟩ := hr
          simp only [solverIntegrator, Epirk.integrator, tS, turnEpirk, a1, a3, List.map_cons])
      (by rintro (b | ⟨K, e⟩) r hs <;> exact hs)
      o.osteps N 0 s [] [] hs
    have hb : ∀ ord, o.method ∈ ["bdf1", "backeuler", "bdf2", "cn"] →
        outLoop (solverIntegrator gmres' sys') dt o.osteps N 0 (.bdf (Bdf.new (t0 + c) (S *ᵥ y0) ord)) [] [] =
        (outLoop (solverIntegrator gmres sys) dt o.osteps N 0 (.bdf (Bdf.new t0 y0 ord)) [] []).map fun p => (p.1.map fun v => S *ᵥ v, p.2.map (· + c)) :=
      fun ord hm => loop (.bdf (Bdf.new t0 y0 ord)) (hg o hp hm)
    unfold selectSolver
    by_cases m1 : o.method = "bdf1" ∨ o.method = "backeuler"
    · simp only [if_pos m1]
      exact hb 1 (by rcases m1 with q | q <;> simp [q])
    simp only [if_neg m1]
    by_cases m2 : o.method = "bdf2"
    · simp only [if_pos m2]
      exact hb 2 (by simp [m2])
    simp only [if_neg m2]
    by_cases m3 : o.method = "cn"
    · simp only [if_pos m3]
      exact hb 3 (by simp [m3])
    simp only [if_neg m3, bind, Except.bind]
    have ht : TolTurn (fun v => S *ᵥ v) sys.frhs o.tolFdt := by
      rcases htol o hp with q | q
      · exfalso
        push Not at m1
        simp [m1.1, m1.2, m2, m3] at q
      · exact q
    cases selectExpmv split o.expmvMethod with
    | error e => rfl
    | ok ev =>
      cases hK : KrylovExpm.new ev o.krylovDim (some o.iom) with
      | error e => simp only [hK]; rfl
      | ok K =>
        have l := fun ord => loop (.epirk K (Epirk.mk ord o.method t0 o.tolFdt [y0] [t0])) ht
        simp only [hK, Epirk.new, bind, Except.bind, pure, Except.pure]
        by_cases p1 : o.method = "epi2" ∨ o.method = "exprb2"
        · simp only [if_pos p1]
          exact l 2
        simp only [if_neg p1]
        by_cases p2 : o.method = "epi3" ∨ o.method = "exprb3"
        · simp only [if_pos p2]
          exact l 3
        simp only [if_neg p2]
        rfl

/-- the systems of the example: a force towards the origin that grows with the distance and with a start of the clock at `-c` -/
noncomputable def radialSys (n : ℕ) (c : ℝ) : Sys n where
  frhs t y := (t - c - y ⬝ᵥ y) • y
  fjac t y := LinOp.mk (fun v => (t - c - y ⬝ᵥ y) • v - (2 * (y ⬝ᵥ v)) • y) (.error .notImplemented)

/-- the hypotheses are met: a nonlinear non-autonomous system seen from a coordinate system turned by `S` with another start of the clock, with Krylov spaces
of dimension 3 in dimension `n`, and with an incomplete linear solver for the implicit method -/
example {S : Mat n} (hS : Sᵀ * S = 1) (split : ℕ → Option (Split ℕ)) (y0 : Vec n) (gmres : Gmres n) (m : String)
    (hm : m = "epi3" ∨ m = "exprb3" ∨ m = "epi2") :
    integrateWrapperRs gmres split (radialSys n 5) (S *ᵥ y0) (0 + 5) (1 / 10) 20
      (fun k => if k = "method" then some (.str m) else if k = "max_krylov_dim" then some (.int 3) else if k = "tol" then some (.float (-1)) else none) =
    turnRun S 5 (integrateWrapperRs gmres split (radialSys n 0) y0 0 (1 / 10) 20
      (fun k => if k = "method" then some (.str m) else if k = "max_krylov_dim" then some (.int 3) else if k = "tol" then some (.float (-1)) else none)) := by
  have hd := (turn_orth hS).dot
  have ho : ∀ o, parseOpts (fun k => if k = "method" then some (.str m) else if k = "max_krylov_dim" then some (.int 3) else
      if k = "tol" then some (.float (-1)) else none) = .ok o → o = RunOpts.mk m "pade" 3 2 (-1) (-1) 1 := fun o h => by
    simp [parseOpts, getValOrDefault, PyVal.asString, PyVal.asUsize, PyVal.asF64, bind, Except.bind, pure, Except.pure] at h
    exact h.symm
  refine C140_turned (TurnedSys.mk hS ?_ ?_) gmres gmres split y0 0 (1 / 10) 20 _ ?_ ?_
  · intro t y
    show (t + 5 - 5 - S *ᵥ y ⬝ᵥ S *ᵥ y) • S *ᵥ y = S *ᵥ ((t - 0 - y ⬝ᵥ y) • y)
    rw [mulVec_smul, hd]
    congr 1
    ring
  · intro t y v
    show (t + 5 - 5 - S *ᵥ y ⬝ᵥ S *ᵥ y) • S *ᵥ v - (2 * (S *ᵥ y ⬝ᵥ S *ᵥ v)) • S *ᵥ y = S *ᵥ ((t - 0 - y ⬝ᵥ y) • v - (2 * (y ⬝ᵥ v)) • y)
    rw [mulVec_sub, mulVec_smul, mulVec_smul, hd, hd]
    congr 2
    ring
  · intro o h1 h2
    rw [ho o h1] at h2
    rcases hm with q | q | q <;> subst q <;> simp at h2
  · intro o h1
    rw [ho o h1]
    exact Or.inr (Or.inl (by norm_num))

/-- a linear solver that turns with the coordinates: one step of Richardson's iteration -/
example (S : Mat n) : TurnedGmres S (fun A b x _ _ => .ok (x + (b - A.call x))) (fun A b x _ _ => .ok (x + (b - A.call x))) := by
  intro A B h b x _ _
  simp only [Except.map, mulVec_add, mulVec_sub, h]

end
end Ormatex.Props
