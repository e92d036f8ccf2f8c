import Verif.Model.RsWrapper
import Verif.Spec.RsExact
import Verif.Props.Invariant
import Verif.Props.RsArnoldi

/-!
C109: the integrators of the Rust crate keep linear conservation laws and frozen components.
-/

namespace Ormatex.Props
open Matrix Ormatex.Spec Ormatex.Rs
open scoped Classical
variable {n : ℕ}

/-- a result, if there is one, satisfies `p` -/
def RRets {α : Type} (x : RsM α) (p : α → Prop) : Prop := ∀ a, x = .ok a → p a

theorem RRets.bind {α β : Type} {x : RsM α} {f : α → RsM β} {p : β → Prop} (q : α → Prop) (hx : RRets x q)
    (hf : ∀ a, q a → RRets (f a) p) : RRets (x >>= f) p := by
  intro b hb
  cases x with
  | error e => cases hb
  | ok a => exact hf a (hx a rfl) b hb

theorem RRets.ok {α : Type} {a : α} {p : α → Prop} (h : p a) : RRets (.ok a) p := by
  intro b hb
  cases hb
  exact h

theorem RRets.pure {α : Type} {a : α} {p : α → Prop} (h : p a) : RRets (Pure.pure a) p := RRets.ok h

theorem RRets.error {α : Type} {e : RsErr} {p : α → Prop} : RRets (.error e : RsM α) p := by
  intro b hb
  cases hb

theorem RRets.triv {α : Type} {x : RsM α} : RRets x fun _ => True := fun _ _ => trivial

theorem RRets.mono {α : Type} {x : RsM α} {p q : α → Prop} (h : RRets x p) (hpq : ∀ a, p a → q a) : RRets x q :=
  fun a ha => hpq a (h a ha)

theorem RRets.ite {α : Type} {c : Prop} [Decidable c] {x y : RsM α} {p : α → Prop} (hx : RRets x p) (hy : RRets y p) :
    RRets (if c then x else y) p := by
  split_ifs
  · exact hx
  · exact hy

/-! ### Specification -/

/-- On the affine space `y0 + V` the right-hand side lies in `V` and the Jacobian operator maps `V` to `V`. -/
structure RsTangent (sys : Sys n) (V : Submodule ℝ (Vec n)) (y0 : Vec n) : Prop where
  rhs : ∀ t y, y - y0 ∈ V → sys.frhs t y ∈ V
  jac : ∀ t y, y - y0 ∈ V → LMaps V (sys.fjac t y)

/-- The linear solver does not leave `V` on the operators of the implicit methods: true of every Krylov method, whatever its
tolerance and iteration limit, and of every exact solver (`exact_keeps`). -/
def SolverKeeps (gmres : Gmres n) (sys : Sys n) (V : Submodule ℝ (Vec n)) (y0 : Vec n) : Prop :=
  ∀ t y scale b g it tol, y - y0 ∈ V → b ∈ V → g ∈ V → RRets (gmres (sys.fjacShifted t y scale (some 1)) b g it tol) (· ∈ V)

theorem shifted_lmaps {V : Submodule ℝ (Vec n)} {A : LinOp n} (hA : LMaps V A) (scale : ℝ) (g : Option ℝ) :
    LMaps V (shiftedLinOp A scale g) := by
  intro v hv
  unfold shiftedLinOp
  cases g with
  | none => exact V.smul_mem _ (hA v hv)
  | some g => exact V.add_mem (V.smul_mem _ (hA v hv)) (V.smul_mem _ hv)

/-! ### The crate's Krylov products -/

private theorem orth_mem {V : Submodule ℝ (Vec n)} (qs : ℕ → Vec n) (hq : ∀ j, qs j ∈ V) (k : ℕ) (l : List ℕ) :
    ∀ (hs : ℕ → ℕ → ℝ) (qv : Vec n), qv ∈ V → (orthLoop qs k l hs qv).2 ∈ V := by
  induction l with
  | nil => intro hs qv h; exact h
  | cons i l ih =>
    intro hs qv h
    exact ih _ _ (V.sub_mem h (V.smul_mem _ (hq i)))

private theorem inner_mem {V : Submodule ℝ (Vec n)} {A : LinOp n} (hA : LMaps V A) (scale : ℝ) (k m iom : ℕ) (s : Arn n)
    (hq : ∀ j, s.qs j ∈ V) : ∀ j, (arnoldiInner A scale k m iom s).1.qs j ∈ V := by
  intro j
  have h := orth_mem s.qs hq k (List.range' (max ((k : ℤ) - iom) 0).toNat (k + 1 - (max ((k : ℤ) - iom) 0).toNat)) s.hs
    (scale • A.call (s.qs k)) (V.smul_mem _ (hA _ (hq k)))
  unfold arnoldiInner
  simp only
  split_ifs
  · by_cases hj : j = k + 1
    · simp only [hj, if_true]
      exact V.smul_mem _ h
    · simp only [hj, if_false]
      exact hq j
  · exact hq j

private theorem loop_mem {V : Submodule ℝ (Vec n)} {A : LinOp n} (hA : LMaps V A) (scale : ℝ) (m iom : ℕ) (r : ℕ) :
    ∀ (k : ℕ) (s : Arn n) (bn : ℕ), (∀ j, s.qs j ∈ V) → ∀ j, (arnoldiLoopRs A scale m iom r k s bn).1.qs j ∈ V := by
  induction r with
  | zero => intro k s bn h; exact h
  | succ r ih =>
    intro k s bn h
    rw [arnoldiLoopRs]
    simp only
    split_ifs
    · exact inner_mem hA scale k m iom s h
    · exact ih _ _ _ (inner_mem hA scale k m iom s h)

/-- the basis stays in every invariant subspace that contains the start vector -/
theorem arnoldiRs_mem {V : Submodule ℝ (Vec n)} {A : LinOp n} (hA : LMaps V A) (scale : ℝ) {b : Vec n} (hb : b ∈ V) (m iom : ℕ) :
    RRets (arnoldiRs A scale b m iom) fun R => ∀ j, (fun i => R.Q i j) ∈ V := by
  unfold arnoldiRs
  simp only
  refine RRets.ite RRets.error (RRets.ite RRets.error (RRets.ok fun j => ?_))
  refine loop_mem hA scale _ iom _ 0 _ 0 (fun j => ?_) j
  simp only
  split_ifs
  · exact V.smul_mem _ hb
  · exact V.zero_mem

theorem applyPhi_mem {V : Submodule ℝ (Vec n)} (K : KrylovExpm) {A : LinOp n} (hA : LMaps V A) (dt : ℝ) {v : Vec n} (hv : v ∈ V)
    (k : ℕ) : RRets (K.applyPhiLinop A dt v k) (· ∈ V) := by
  unfold KrylovExpm.applyPhiLinop
  exact RRets.bind _ (arnoldiRs_mem hA 1 hv _ _) fun R hR => RRets.bind _ RRets.triv fun e _ =>
    RRets.pure (V.smul_mem _ (mulVec_cols_mem _ hR e))

theorem applyLinop_mem {V : Submodule ℝ (Vec n)} (K : KrylovExpm) {A : LinOp n} (hA : LMaps V A) (dt : ℝ) {v : Vec n}
    (hv : v ∈ V) : RRets (K.applyLinop A dt v) (· ∈ V) := by
  unfold KrylovExpm.applyLinop
  exact RRets.bind _ (arnoldiRs_mem hA dt hv _ _) fun R hR => RRets.bind _ RRets.triv fun e _ =>
    RRets.pure (V.smul_mem _ (mulVec_cols_mem _ hR e))

theorem kiopsRs_mem {V : Submodule ℝ (Vec n)} (K : KrylovExpm) {A : LinOp n} (hA : LMaps V A) (t dt : ℝ) {vb : List (Vec n)}
    (hv : ∀ b ∈ vb, b ∈ V) : RRets (K.kiops t A vb dt) (· ∈ V) := by
  unfold KrylovExpm.kiops
  refine RRets.bind (fun ext => LMaps (headSub V (vb.length - 1)) ext) ?_ fun ext he => ?_
  · unfold extendedLinOp
    refine RRets.ite RRets.error (RRets.ok fun v hv' => ?_)
    show headN (concat _ _) ∈ V
    rw [headN_concat]
    refine V.add_mem (V.smul_mem _ (hA _ hv')) (mulVec_cols_mem _ (fun j => ?_) _)
    unfold extB
    exact getD_mem hv _
  · refine RRets.bind _ (applyLinop_mem (V := headSub V (vb.length - 1)) K he dt ?_) fun w hw => RRets.pure hw
    show headN (extV vb) ∈ V
    have e : headN (extV vb) = vb.getD 0 0 := by
      funext i
      show extV vb (Fin.castAdd _ i) = _
      unfold extV
      rw [dif_pos (by simp)]
      rfl
    rw [e]
    exact getD_mem hv 0

/-- Products that keep invariant subspaces: what the exponential integrators need. -/
structure KernKeeps (K : Kern n) (V : Submodule ℝ (Vec n)) : Prop where
  phi : ∀ A dt v k, LMaps V A → v ∈ V → RRets (K.phi A dt v k) (· ∈ V)
  kiops : ∀ t A vb dt, LMaps V A → (∀ b ∈ vb, b ∈ V) → RRets (K.kiops t A vb dt) (· ∈ V)

/-- **C109 (products).** Every product of the crate keeps every invariant subspace, whatever the Krylov dimension, the depth and
the dense kernel, right or wrong. -/
theorem C109_kern (K : KrylovExpm) (V : Submodule ℝ (Vec n)) : KernKeeps (K.kern n) V where
  phi _ dt _ k hA hv := applyPhi_mem K hA dt hv k
  kiops t _ _ dt hA hv := kiopsRs_mem K hA t dt hv

/-! ### Steps -/

section
variable {sys : Sys n} {V : Submodule ℝ (Vec n)} {y0 : Vec n}

private theorem rsGet_mem {l : List (Vec n)} (h : ∀ y ∈ l, y - y0 ∈ V) (i : ℕ) : RRets (rsGet l i) (fun y => y - y0 ∈ V) := by
  unfold rsGet
  cases e : l[i]? with
  | none => exact RRets.error
  | some x => exact RRets.ok (h x (List.mem_of_getElem? e))

private theorem rsGet_in {α : Type} {l : List α} {p : α → Prop} (h : ∀ y ∈ l, p y) (i : ℕ) : RRets (rsGet l i) p := by
  unfold rsGet
  cases e : l[i]? with
  | none => exact RRets.error
  | some x => exact RRets.ok (h x (List.mem_of_getElem? e))

private theorem newton_mem (gmres : Gmres n) (t : ℝ) (f : ℝ → Vec n → Vec n) (J : ℝ → Vec n → LinOp n)
    (hf : ∀ x, x - y0 ∈ V → f t x ∈ V)
    (hg : ∀ x b g it tol, x - y0 ∈ V → b ∈ V → g ∈ V → RRets (gmres (J t x) b g it tol) (· ∈ V)) (tol tolLin : ℝ) (itl : ℕ)
    (it : ℕ) : ∀ x a, x - y0 ∈ V → a ∈ V → RRets (newtonLoop gmres t f J tol tolLin itl it x a) (fun x => x - y0 ∈ V) := by
  induction it with
  | zero => intro x a _ _; exact RRets.error
  | succ it ih =>
    intro x a hx ha
    rw [newtonLoop]
    refine RRets.bind _ (hg x _ a itl tolLin hx (hf x hx) ha) fun a' ha' => ?_
    have hx' : x - a' - y0 ∈ V := by
      have : x - a' - y0 = (x - y0) - a' := by abel
      rw [this]
      exact V.sub_mem hx ha'
    exact RRets.ite (RRets.pure hx') (ih _ _ hx' ha')

/-- **C109 (implicit steps).** One step of any of the implicit methods, converged or not. -/
theorem C109_bdf_step (he : RsTangent sys V y0) (gmres : Gmres n) (hg : SolverKeeps gmres sys V y0) (s : Bdf n)
    (hs : ∀ y ∈ s.yHist, y - y0 ∈ V) (dt : ℝ) : RRets (Bdf.step gmres sys s dt) (fun r => r.y - y0 ∈ V) := by
  have h1 : RRets (Bdf.stepOrder1 gmres sys s dt) (fun r => r.y - y0 ∈ V) := by
    unfold Bdf.stepOrder1 jacNewton
    refine RRets.bind _ (rsGet_mem hs 0) fun y hy => RRets.bind (fun x => x - y0 ∈ V) ?_ fun x hx => RRets.pure hx
    refine newton_mem gmres _ _ _ (fun x hx => ?_) (fun x b g it tol hx hb hg' => hg _ x _ b g it tol hx hb hg') _ _ _ _ _ _ hy
      V.zero_mem
    have : -(dt • sys.frhs (s.t + dt + dt) x) - y + x = (x - y0) - (y - y0) - dt • sys.frhs (s.t + dt + dt) x := by abel
    rw [this]
    exact V.sub_mem (V.sub_mem hx hy) (V.smul_mem _ (he.rhs _ _ hx))
  have h2 : RRets (Bdf.stepOrder2 gmres sys s dt) (fun r => r.y - y0 ∈ V) := by
    unfold Bdf.stepOrder2 jacNewton
    refine RRets.bind _ (rsGet_mem hs 0) fun y hy => RRets.bind _ RRets.triv fun _ _ => RRets.bind _ RRets.triv fun sc _ =>
      RRets.bind (fun x => x - y0 ∈ V) ?_ fun x hx => RRets.pure hx
    refine newton_mem gmres _ _ _ (fun x hx => ?_) (fun x b g it tol hx hb hg' => hg _ x _ b g it tol hx hb hg') _ _ _ _ _ _ hy
      V.zero_mem
    have key : RRets (Bdf.nonlinGfn sys s (s.t + dt) x dt s.order) (· ∈ V) := by
      unfold Bdf.nonlinGfn
      refine RRets.bind _ (rsGet_mem hs 0) fun z hz => ?_
      split
      · refine RRets.pure ?_
        have : x - z - dt • sys.frhs (s.t + dt + dt) x = (x - y0) - (z - y0) - dt • sys.frhs (s.t + dt + dt) x := by abel
        rw [this]
        exact V.sub_mem (V.sub_mem hx hz) (V.smul_mem _ (he.rhs _ _ hx))
      · refine RRets.bind _ (rsGet_mem hs 1) fun z1 hz1 => RRets.pure ?_
        have : x - (4 / 3 : ℝ) • z + (1 / 3 : ℝ) • z1 - (2 * dt / 3) • sys.frhs (s.t + dt + dt) x
            = (x - y0) - (4 / 3 : ℝ) • (z - y0) + (1 / 3 : ℝ) • (z1 - y0) - (2 * dt / 3) • sys.frhs (s.t + dt + dt) x := by
          module
        rw [this]
        exact V.sub_mem (V.add_mem (V.sub_mem hx (V.smul_mem _ hz)) (V.smul_mem _ hz1)) (V.smul_mem _ (he.rhs _ _ hx))
      · exact RRets.error
    cases e : Bdf.nonlinGfn sys s (s.t + dt) x dt s.order with
    | error _ => exact V.zero_mem
    | ok g => exact key g e
  have h3 : RRets (Bdf.stepCn gmres sys s dt) (fun r => r.y - y0 ∈ V) := by
    unfold Bdf.stepCn jacNewton
    refine RRets.bind _ (rsGet_mem hs 0) fun y hy => RRets.bind (fun x => x - y0 ∈ V) ?_ fun x hx => RRets.pure hx
    refine newton_mem gmres _ _ _ (fun x hx => ?_) (fun x b g it tol hx hb hg' => hg _ x _ b g it tol hx hb hg') _ _ _ _ _ _ hy
      V.zero_mem
    have : -((dt * 0.5) • sys.frhs (s.t + dt + dt) x) - (dt * 0.5) • sys.frhs (s.t + dt) y - y + x
        = (x - y0) - (y - y0) - (dt * 0.5) • sys.frhs (s.t + dt + dt) x - (dt * 0.5) • sys.frhs (s.t + dt) y := by abel
    rw [this]
    exact V.sub_mem (V.sub_mem (V.sub_mem hx hy) (V.smul_mem _ (he.rhs _ _ hx))) (V.smul_mem _ (he.rhs _ _ hy))
  unfold Bdf.step
  split
  · exact h1
  · exact RRets.ite h2 h1
  · exact h3
  · exact RRets.error

private theorem stageArg_mem (bt : BT) (dt : ℝ) (k : List (Vec n)) (hk : ∀ x ∈ k, x ∈ V) (i : ℕ) (js : List ℕ) :
    ∀ y, y - y0 ∈ V → RRets (Rk.stageArg bt dt k i js y) (fun x => x - y0 ∈ V) := by
  induction js with
  | nil => intro y hy; exact RRets.ok hy
  | cons j js ih =>
    intro y hy
    rw [Rk.stageArg]
    refine RRets.bind _ RRets.triv fun _ _ => RRets.bind _ RRets.triv fun _ _ => RRets.bind _ (rsGet_in hk j) fun kj hkj => ?_
    exact ih _ (coset_add hy (V.smul_mem _ hkj))

private theorem stages_mem (he : RsTangent sys V y0) (bt : BT) (t dt : ℝ) (y : Vec n) (hy : y - y0 ∈ V) (is : List ℕ) :
    ∀ k : List (Vec n), (∀ x ∈ k, x ∈ V) → RRets (Rk.stages sys bt t dt y is k) (fun k => ∀ x ∈ k, x ∈ V) := by
  induction is with
  | nil => intro k hk; exact RRets.ok hk
  | cons i is ih =>
    intro k hk
    rw [Rk.stages]
    refine RRets.bind _ (stageArg_mem bt dt k hk i _ y hy) fun yd hyd => RRets.bind _ RRets.triv fun _ _ => ih _ fun x hx => ?_
    rcases List.mem_append.mp hx with h | h
    · exact hk x h
    · rw [List.mem_singleton] at h
      rw [h]
      exact he.rhs _ _ hyd

private theorem combine_mem (bt : BT) (dt : ℝ) (k : List (Vec n)) (hk : ∀ x ∈ k, x ∈ V) (is : List ℕ) :
    ∀ y, y - y0 ∈ V → RRets (Rk.combine bt dt k is y) (fun x => x - y0 ∈ V) := by
  induction is with
  | nil => intro y hy; exact RRets.ok hy
  | cons i is ih =>
    intro y hy
    rw [Rk.combine]
    refine RRets.bind _ RRets.triv fun _ _ => RRets.bind _ (rsGet_in hk i) fun kj hkj => ?_
    exact ih _ (coset_add hy (V.smul_mem _ hkj))

/-- **C109 (explicit Runge-Kutta steps).** -/
theorem C109_rk_step (he : RsTangent sys V y0) (s : Rk n) (hs : ∀ y ∈ s.yHist, y - y0 ∈ V) (dt : ℝ) :
    RRets (Rk.step sys s dt) (fun r => r.y - y0 ∈ V) := by
  unfold Rk.step
  refine RRets.bind _ (rsGet_mem hs 0) fun y hy => RRets.bind _ (stages_mem he _ _ _ y hy _ _ fun x hx => ?_) fun k hk =>
    RRets.bind _ (combine_mem _ _ k hk _ y hy) fun x hx => RRets.pure hx
  rw [List.mem_singleton] at hx
  rw [hx]
  exact he.rhs _ _ hy

private theorem fphi2V_mem (he : RsTangent sys V y0) (K : Kern n) (hK : KernKeeps K V) (s : Epirk n)
    (hs : ∀ y ∈ s.yHist, y - y0 ∈ V) {fy0 : Vec n} (hf : fy0 ∈ V) {J : LinOp n} (hJ : LMaps V J) (dt : ℝ) :
    RRets (Epirk.fphi2V K sys s fy0 J dt) (fun p => p.1 ∈ V ∧ p.2 ∈ V) := by
  unfold Epirk.fphi2V
  refine RRets.ite (RRets.ok ⟨V.zero_mem, V.zero_mem⟩) (RRets.bind (· ∈ V) ?_ fun v hv => RRets.ite
    (RRets.bind _ (hK.phi J dt v 2 hJ hv) fun p hp => RRets.pure ⟨V.smul_mem _ hp, hv⟩) (RRets.pure ⟨V.zero_mem, hv⟩))
  unfold Epirk.frhsFdt
  refine RRets.bind _ (rsGet_mem hs 0) fun y hy => RRets.pure ?_
  exact div_mem (V.sub_mem (he.rhs _ _ hy) hf) _

private theorem remf_mem (he : RsTangent sys V y0) (s : Epirk n) (hs : ∀ y ∈ s.yHist, y - y0 ∈ V) (tr : ℝ) {yr fy0 : Vec n}
    (hyr : yr - y0 ∈ V) (hf : fy0 ∈ V) {J : LinOp n} (hJ : LMaps V J) {v : Vec n} (hv : v ∈ V) :
    RRets (Epirk.remf sys s tr yr fy0 J (some v)) (· ∈ V) := by
  unfold Epirk.remf
  refine RRets.bind _ RRets.triv fun t _ => RRets.bind _ (rsGet_mem hs 0) fun y hy => RRets.pure ?_
  exact V.sub_mem (V.sub_mem (V.sub_mem (he.rhs _ _ hyr) hf) (hJ _ (coset_sub hyr hy))) (V.smul_mem _ hv)

/-- **C109 (exponential steps).** -/
theorem C109_epirk_step (he : RsTangent sys V y0) (K : Kern n) (hK : KernKeeps K V) (s : Epirk n)
    (hs : ∀ y ∈ s.yHist, y - y0 ∈ V) (dt : ℝ) : RRets (Epirk.step K sys s dt) (fun r => r.y - y0 ∈ V) := by
  have h2 : RRets (Epirk.stepOrder2 K sys s dt) (fun r => r.y - y0 ∈ V) := by
    unfold Epirk.stepOrder2
    refine RRets.bind _ (rsGet_mem hs 0) fun y hy => ?_
    have hJ := he.jac s.t y hy
    have hf := he.rhs s.t y hy
    refine RRets.bind _ (fphi2V_mem he K hK s hs hf hJ dt) fun p hp => RRets.bind _ (hK.phi _ dt _ 1 hJ (V.smul_mem _ hf))
      fun q hq => RRets.pure ?_
    exact coset_add (coset_add hy hp.1) hq
  have h3 : RRets (Epirk.stepOrder3 K sys s dt) (fun r => r.y - y0 ∈ V) := by
    unfold Epirk.stepOrder3
    refine RRets.bind _ (rsGet_mem hs 0) fun y hy => RRets.bind _ (rsGet_mem hs 1) fun yp hyp => RRets.bind _ RRets.triv fun tp _ => ?_
    have hJ := he.jac s.t y hy
    have hf := he.rhs s.t y hy
    refine RRets.bind _ (fphi2V_mem he K hK s hs hf hJ dt) fun p hp => RRets.bind _ (remf_mem he s hs tp hyp hf hJ hp.2)
      fun rn hrn => RRets.bind _ (hK.kiops dt _ _ 1 hJ ?_) fun w hw => RRets.pure (coset_add (coset_add hy hw) hp.1)
    intro b hb
    simp only [List.mem_cons, List.not_mem_nil, or_false] at hb
    rcases hb with rfl | rfl | rfl
    · exact V.zero_mem
    · exact V.smul_mem _ hf
    · exact V.smul_mem _ hrn
  have h4 : RRets (Epirk.stepExprb32 K sys s dt) (fun r => r.y - y0 ∈ V) := by
    unfold Epirk.stepExprb32
    refine RRets.bind _ (rsGet_mem hs 0) fun y hy => ?_
    have hJ := he.jac s.t y hy
    have hf := he.rhs s.t y hy
    refine RRets.bind _ (fphi2V_mem he K hK s hs hf hJ dt) fun p hp => RRets.bind _ (hK.phi _ dt _ 1 hJ (V.smul_mem _ hf))
      fun q hq => ?_
    have hy2 := coset_add (coset_add hy hp.1) hq
    refine RRets.bind _ (remf_mem he s hs (s.t + dt) hy2 hf hJ hp.2) fun r2 hr2 => RRets.bind _ (hK.phi _ dt _ 3 hJ hr2)
      fun p3 hp3 => RRets.pure (coset_add hy2 (V.smul_mem _ hp3))
  unfold Epirk.step
  exact RRets.ite h2 (RRets.ite (RRets.ite h3 h2) (RRets.ite h4 RRets.error))

/-! ### Runs -/

private theorem outLoop_mem {σ : Type} (I : Integrator σ n) (Inv : σ → Prop) (P : Vec n → Prop) (dt : ℝ) (osteps : ℕ)
    (hst : ∀ s, Inv s → RRets (I.state s) P) (hstep : ∀ s, Inv s → RRets (I.step s dt) fun r => Inv (I.accept s r)) (r : ℕ) :
    ∀ i s ys ts, Inv s → (∀ y ∈ ys, P y) → RRets (outLoop I dt osteps r i s ys ts) fun o => ∀ y ∈ o.1, P y := by
  have happ : ∀ (ys : List (Vec n)) (y : Vec n), (∀ y ∈ ys, P y) → P y → ∀ z ∈ ys ++ [y], P z := by
    intro ys y h1 h2 z hz
    rcases List.mem_append.mp hz with h | h
    · exact h1 z h
    · rw [List.mem_singleton] at h
      rw [h]
      exact h2
  induction r with
  | zero =>
    intro i s ys ts hs hy
    rw [outLoop]
    exact RRets.bind _ (hst s hs) fun y hy' => RRets.pure (happ ys y hy hy')
  | succ r ih =>
    intro i s ys ts hs hy
    rw [outLoop]
    refine RRets.ite RRets.error ?_
    have key : ∀ o : List (Vec n) × List ℝ, (∀ y ∈ o.1, P y) → RRets (match I.step s dt with
        | .ok res => outLoop I dt osteps r (i + 1) (I.accept s res) o.1 o.2
        | .error .nan => .error .nan
        | .error _ => .error .panic) fun o => ∀ y ∈ o.1, P y := by
      intro o ho
      cases e : I.step s dt with
      | error x => cases x <;> exact RRets.error
      | ok res => exact ih (i + 1) _ _ _ (hstep s hs res e) ho
    refine RRets.ite ?_ (key (ys, ts) hy)
    exact RRets.bind P (hst s hs) fun y hy' => key (ys ++ [y], ts ++ [I.time s]) (happ ys y hy hy')

/-- what the run keeps about the solver object -/
private def SolverIn (V : Submodule ℝ (Vec n)) (y0 : Vec n) : Solver n → Prop
  | .bdf b => ∀ y ∈ b.yHist, y - y0 ∈ V
  | .epirk _ e => ∀ y ∈ e.yHist, y - y0 ∈ V

/-- **C109 (runs).** Every state returned by `integrate_wrapper_rs`, for any method, evaluator, keyword values and schedule of the
parallel reductions, differs from `y0` by an element of `V`. -/
theorem C109_run (he : RsTangent sys V y0) (gmres : Gmres n) (hg : SolverKeeps gmres sys V y0) (split : ℕ → Option (Split ℕ))
    (t0 dt : ℝ) (nsteps : ℕ) (kd : Kwds) :
    RRets (integrateWrapperRs gmres split sys y0 t0 dt nsteps kd) fun o => ∀ y ∈ o.1, y - y0 ∈ V := by
  have h00 : ∀ y ∈ [y0], y - y0 ∈ V := by
    intro y hy
    rw [List.mem_singleton] at hy
    rw [hy, sub_self]
    exact V.zero_mem
  unfold integrateWrapperRs
  refine RRets.bind _ RRets.triv fun o _ => RRets.bind (SolverIn V y0) ?_ fun s hs => ?_
  · unfold selectSolver
    refine RRets.ite (RRets.ok h00) (RRets.ite (RRets.ok h00) (RRets.ite (RRets.ok h00) ?_))
    refine RRets.bind _ RRets.triv fun _ _ => RRets.bind _ RRets.triv fun _ _ =>
      RRets.bind (fun e : Epirk n => ∀ y ∈ e.yHist, y - y0 ∈ V) ?_ fun e he' =>
      RRets.bind (fun e : Epirk n => ∀ y ∈ e.yHist, y - y0 ∈ V) ?_ fun e he' => RRets.pure he'
    · unfold Epirk.new
      intro e h
      dsimp only at h
      split_ifs at h <;> cases h <;> exact h00
    · unfold Epirk.withOpt
      exact RRets.ite (RRets.ok he') RRets.error
  · refine outLoop_mem _ (SolverIn V y0) (fun y => y - y0 ∈ V) dt o.osteps ?_ ?_ nsteps 0 s [] [] hs (by simp)
    · intro s hs
      cases s with
      | bdf b => exact rsGet_mem hs 0
      | epirk K e => exact rsGet_mem hs 0
    · intro s hs
      cases s with
      | bdf b =>
        refine (C109_bdf_step he gmres hg b hs dt).mono fun r hr => ?_
        intro y hy
        rcases List.mem_cons.mp hy with h | h
        · rw [h]; exact hr
        · exact hs y h
      | epirk K e =>
        refine (C109_epirk_step he _ (C109_kern K V) e hs dt).mono fun r hr => ?_
        intro y hy
        rcases List.mem_cons.mp hy with h | h
        · rw [h]; exact hr
        · exact hs y h

/-- **C109 (runs of the explicit integrator).** -/
theorem C109_rk_run (he : RsTangent sys V y0) (t0 : ℝ) (order : ℕ) (dt : ℝ) (osteps nsteps : ℕ) :
    RRets (Rk.new t0 y0 order >>= fun s => outLoop (Rk.integrator sys) dt osteps nsteps 0 s [] []) fun o =>
      ∀ y ∈ o.1, y - y0 ∈ V := by
  refine RRets.bind (fun s : Rk n => ∀ y ∈ s.yHist, y - y0 ∈ V) ?_ fun s hs => ?_
  · have h00 : ∀ y ∈ [y0], y - y0 ∈ V := by
      intro y hy
      rw [List.mem_singleton] at hy
      rw [hy, sub_self]
      exact V.zero_mem
    unfold Rk.new
    split
    all_goals first | exact RRets.ok h00 | exact RRets.error
  · refine outLoop_mem _ (fun s : Rk n => ∀ y ∈ s.yHist, y - y0 ∈ V) (fun y => y - y0 ∈ V) dt osteps ?_ ?_ nsteps 0 s [] [] hs (by simp)
    · intro s hs
      exact rsGet_mem hs 0
    · intro s hs
      refine (C109_rk_step he s hs dt).mono fun r hr => ?_
      intro y hy
      rcases List.mem_cons.mp hy with h | h
      · rw [h]; exact hr
      · exact hs y h

/-! ### Conservation laws in the user's terms -/

end

/-- a solver that stays in every subspace, whatever its accuracy: `it` steps of a residual iteration -/
noncomputable def richardson (n : ℕ) : Gmres n := fun op b g it _ =>
  .ok ((fun x => x + (b - op.matvec x))^[it] g)

theorem richardson_keeps {sys : Sys n} {V : Submodule ℝ (Vec n)} {y0 : Vec n} (he : RsTangent sys V y0) :
    SolverKeeps (richardson n) sys V y0 := by
  intro t y scale b g it tol hy hb hg
  refine RRets.ok ?_
  induction it with
  | zero => exact hg
  | succ it ih =>
    rw [Function.iterate_succ_apply']
    exact V.add_mem ih (V.sub_mem hb (shifted_lmaps (he.jac t y hy) scale (some 1) _ ih))

/-- an exact solver stays in every subspace too -/
theorem exact_keeps {sys : Sys n} {V : Submodule ℝ (Vec n)} {y0 : Vec n} (he : RsTangent sys V y0)
    (hJ : ∀ t y, ∃ M, IsMatrix (sys.fjac t y) M) : SolverKeeps (exactGmres n) sys V y0 := by
  intro t y scale b g it tol hy hb hg
  obtain ⟨M, hM⟩ := hJ t y
  refine RRets.ok ?_
  have hS : IsMatrix (sys.fjacShifted t y scale (some 1)) (scale • M + 1) := by
    intro v
    show scale • (sys.fjac t y).matvec v + (1 : ℝ) • v = _
    rw [show (sys.fjac t y).matvec v = M *ᵥ v from hM v, Matrix.add_mulVec, Matrix.smul_mulVec, Matrix.one_mulVec, one_smul]
  rw [opMatrix_eq hS]
  refine inv_maps V _ (fun v hv => ?_) b hb
  rw [← hS v]
  exact shifted_lmaps (he.jac t y hy) scale (some 1) v hv

/-- **C109 (conservation).** If `w · f = 0` for every state and time and the Jacobian operator does not create `w · v` out of
nothing (`w · v = 0` implies `w · J v = 0`), then `w · y` is the same number at all outputs of `integrate_wrapper_rs`. -/
theorem C109_conservation (sys : Sys n) (w : Vec n) (hf : ∀ t y, w ⬝ᵥ sys.frhs t y = 0)
    (hJ : ∀ t y v, w ⬝ᵥ v = 0 → w ⬝ᵥ (sys.fjac t y).matvec v = 0) (gmres : Gmres n) (y0 : Vec n)
    (hg : ∀ t y scale b g it tol, w ⬝ᵥ b = 0 → w ⬝ᵥ g = 0 →
      RRets (gmres (sys.fjacShifted t y scale (some 1)) b g it tol) (fun x => w ⬝ᵥ x = 0))
    (split : ℕ → Option (Split ℕ)) (t0 dt : ℝ) (nsteps : ℕ) (kd : Kwds) (ys : List (Vec n)) (ts : List ℝ)
    (h : integrateWrapperRs gmres split sys y0 t0 dt nsteps kd = .ok (ys, ts)) : ∀ y ∈ ys, w ⬝ᵥ y = w ⬝ᵥ y0 := by
  let V : Submodule ℝ (Vec n) :=
    { carrier := {v | w ⬝ᵥ v = 0}
      add_mem' := fun {a b} ha hb => by
        show w ⬝ᵥ (a + b) = 0
        rw [dotProduct_add, show w ⬝ᵥ a = 0 from ha, show w ⬝ᵥ b = 0 from hb, add_zero]
      zero_mem' := dotProduct_zero w
      smul_mem' := fun c a ha => by
        show w ⬝ᵥ (c • a) = 0
        rw [dotProduct_smul, show w ⬝ᵥ a = 0 from ha, smul_zero] }
  have he : RsTangent sys V y0 := ⟨fun t y _ => hf t y, fun t y _ v hv => hJ t y v hv⟩
  have hg' : SolverKeeps gmres sys V y0 := fun t y scale b g it tol _ hb hg'' => hg t y scale b g it tol hb hg''
  have key := C109_run he gmres hg' split t0 dt nsteps kd (ys, ts) h
  intro y hy
  have := key y hy
  have h2 : w ⬝ᵥ (y - y0) = 0 := this
  rwa [dotProduct_sub, sub_eq_zero] at h2

/-- The difference operator of the crate never leaves a subspace that contains the right-hand sides: conservation does not
depend on an exact Jacobian. -/
theorem C109_fd_jac (V : Submodule ℝ (Vec n)) (f : ℝ → Vec n → Vec n) (hf : ∀ t y, f t y ∈ V) (t : ℝ) (x v : Vec n) :
    RRets ((getFdJac f t x).apply v) (· ∈ V) := by
  unfold FdJac.apply
  refine RRets.ite RRets.error (RRets.ok ?_)
  exact V.smul_mem _ (V.sub_mem (hf _ _) (hf _ _))

end Ormatex.Props
