import Verif.Model.Sem
import Verif.Props.Gll
import Verif.Props.Dirichlet
import Verif.Props.BatemanFlow
import Mathlib.Analysis.Calculus.Deriv.Polynomial
import Mathlib.Topology.Algebra.Polynomial
import Mathlib.MeasureTheory.Integral.IntervalIntegral.FundThmCalculus

/-!
C118: the assembled advection-diffusion systems.
-/

namespace Ormatex.Props
open Matrix Ormatex.Spec Polynomial

noncomputable section
variable {ne N q : ℕ}

/-! ### the quadrature as functions -/

/-- what `C62_exact` says about `semQuad` -/
structure GoodQuad {r : ℕ} (Q : Quad (r + 2)) : Prop where
  inj : Function.Injective Q.x
  x0 : Q.x 0 = 0
  x1 : Q.x 1 = 1
  wpos : ∀ k, 0 < Q.w k
  exact : ∀ p : ℝ[X], p.natDegree ≤ 2 * (r + 1) - 1 → ∑ k, Q.w k * p.eval (Q.x k) = ∫ x in (0 : ℝ)..1, p.eval x

theorem gll_zip_sum (X W : List ℝ) (m : ℕ) (hX : X.length = m) (hW : W.length = m) (f : ℝ → ℝ) :
    quadSum X W f = ∑ k : Fin m, W.getD k 0 * f (X.getD k 0) := by
  subst hX
  unfold quadSum
  induction X generalizing W with
  | nil => simp
  | cons x X ih =>
    cases W with
    | nil => simp at hW
    | cons w W =>
      rw [List.zip_cons_cons, List.map_cons, List.sum_cons, ih W (by simpa using hW)]
      rw [show (x :: X).length = X.length + 1 from rfl, Fin.sum_univ_succ]
      simp

theorem goodQuad {r : ℕ} {Q : Quad (r + 2)} (h : semQuad (r + 1) = .ok Q) : GoodQuad Q := by
  unfold semQuad at h
  cases hq : gllQuad (r + 1 + 1) with
  | error e => rw [hq] at h; cases h
  | ok XW =>
    obtain ⟨X, W⟩ := XW
    rw [hq] at h
    cases h
    obtain ⟨h1, h2, h3, h4, h5, h6, h7, h8⟩ := C62_exact hq
    refine ⟨?_, ?_, ?_, ?_, ?_⟩
    · intro a b hab
      have ha : (a : ℕ) < X.length := by rw [h1]; exact a.2
      have hb : (b : ℕ) < X.length := by rw [h1]; exact b.2
      simp only [List.getD_eq_getElem?_getD, List.getElem?_eq_getElem ha, List.getElem?_eq_getElem hb, Option.getD_some] at hab
      exact Fin.ext ((List.Nodup.getElem_inj_iff h3).1 hab)
    · show X.getD ((0 : Fin (r + 2)) : ℕ) 0 = 0
      rw [List.getD_eq_getElem?_getD]
      show (X[0]?).getD 0 = 0
      rw [h4]; rfl
    · show X.getD ((1 : Fin (r + 2)) : ℕ) 0 = 1
      rw [List.getD_eq_getElem?_getD, show ((1 : Fin (r + 2)) : ℕ) = 1 from rfl, h5]; rfl
    · intro k
      have hk : (k : ℕ) < W.length := by rw [h2]; exact k.2
      show 0 < W.getD k 0
      rw [List.getD_eq_getElem?_getD, List.getElem?_eq_getElem hk]
      exact h7 _ (List.getElem_mem hk)
    · intro p hp
      rw [← h8 p (by omega), gll_zip_sum X W _ h1 h2]

/-- **The quadrature exists exactly for the orders 1 to 4** -/
theorem semQuad_iff (p : ℕ) : (∃ Q, semQuad p = .ok Q) ↔ 1 ≤ p ∧ p ≤ 4 := by
  constructor
  · rintro ⟨Q, h⟩
    by_contra hc
    have := (C62_sizes (p + 1)).2 (by omega)
    unfold semQuad at h
    rw [this] at h
    cases h
  · rintro ⟨h1, h2⟩
    obtain ⟨⟨X, W⟩, h⟩ := (C62_sizes (p + 1)).1 (by omega)
    unfold semQuad
    rw [h]
    exact ⟨_, rfl⟩

/-! ### finite element functions -/

/-- **Specification.** The finite element function with nodal values `g`, on element `e`, as a polynomial on `[0, 1]`. -/
def onElem (m : LineMesh ne N q) (Q : Quad q) (g : Vec N) (e : Fin ne) : ℝ[X] := ∑ a, C (g (m.dof e a)) * shape Q a

theorem onElem_eval (m : LineMesh ne N q) (Q : Quad q) (g : Vec N) (e : Fin ne) (x : ℝ) :
    (onElem m Q g e).eval x = ∑ a, g (m.dof e a) * (shape Q a).eval x := by
  simp [onElem, eval_finsetSum]

theorem onElem_deriv (m : LineMesh ne N q) (Q : Quad q) (g : Vec N) (e : Fin ne) (x : ℝ) :
    (derivative (onElem m Q g e)).eval x = ∑ a, g (m.dof e a) * (derivative (shape Q a)).eval x := by
  simp [onElem, eval_finsetSum]

theorem assemble_pair (m : LineMesh ne N q) (Q : Quad q) (form : Fin ne → Fin q → Jet → Jet → ℝ) (g u : Vec N) :
    g ⬝ᵥ (assembleForm m Q form *ᵥ u) = ∑ e, ∑ a, ∑ b, g (m.dof e a) * u (m.dof e b) *
      ∑ k, Q.w k * m.h e * form e k (jetOf m Q e k b) (jetOf m Q e k a) := by
  unfold dotProduct Matrix.mulVec dotProduct assembleForm
  simp only [Finset.sum_mul, Finset.mul_sum]
  have e1 : ∀ (i j : Fin N) (e : Fin ne) (a b : Fin q), g i * ((if m.dof e a = i ∧ m.dof e b = j then
      ∑ k, Q.w k * m.h e * form e k (jetOf m Q e k b) (jetOf m Q e k a) else 0) * u j)
      = if m.dof e a = i then (if m.dof e b = j then g i * u j *
        (∑ k, Q.w k * m.h e * form e k (jetOf m Q e k b) (jetOf m Q e k a)) else 0) else 0 := by
    intro i j e a b
    by_cases h1 : m.dof e a = i <;> by_cases h2 : m.dof e b = j <;> simp [h1, h2]
    ring
  simp only [e1]
  calc _ = ∑ i, ∑ e, ∑ a, ∑ b, ∑ j, (if m.dof e a = i then (if m.dof e b = j then g i * u j *
        (∑ k, Q.w k * m.h e * form e k (jetOf m Q e k b) (jetOf m Q e k a)) else 0) else 0) := by
        refine Finset.sum_congr rfl fun i _ => ?_
        rw [Finset.sum_comm]
        refine Finset.sum_congr rfl fun e _ => ?_
        rw [Finset.sum_comm]
        refine Finset.sum_congr rfl fun a _ => ?_
        rw [Finset.sum_comm]
    _ = ∑ e, ∑ a, ∑ b, ∑ i, ∑ j, (if m.dof e a = i then (if m.dof e b = j then g i * u j *
        (∑ k, Q.w k * m.h e * form e k (jetOf m Q e k b) (jetOf m Q e k a)) else 0) else 0) := by
        rw [Finset.sum_comm]
        refine Finset.sum_congr rfl fun e _ => ?_
        rw [Finset.sum_comm]
        refine Finset.sum_congr rfl fun a _ => ?_
        rw [Finset.sum_comm]
    _ = _ := by
        refine Finset.sum_congr rfl fun e _ => Finset.sum_congr rfl fun a _ => Finset.sum_congr rfl fun b _ => ?_
        have : ∀ i, (∑ j, if m.dof e a = i then (if m.dof e b = j then g i * u j *
            (∑ k, Q.w k * m.h e * form e k (jetOf m Q e k b) (jetOf m Q e k a)) else 0) else 0)
            = if m.dof e a = i then g i * u (m.dof e b) * (∑ k, Q.w k * m.h e * form e k (jetOf m Q e k b) (jetOf m Q e k a)) else 0 := by
          intro i
          by_cases h : m.dof e a = i
          · simp [h]
          · simp [h]
        simp only [this]
        rw [Finset.sum_ite_eq]
        simp [Finset.mul_sum]

/-- **The assembled matrices are the quadrature sums of the weak form.** -/
theorem assemble_form (m : LineMesh ne N q) (Q : Quad q) (form : Fin ne → Fin q → Jet → Jet → ℝ) (α β γ : Fin ne → Fin q → ℝ)
    (hform : ∀ e k u v, form e k u v = α e k * (u.grad * v.grad) + β e k * (u.val * v.grad) + γ e k * (u.val * v.val)) (g u : Vec N) :
    g ⬝ᵥ (assembleForm m Q form *ᵥ u) = ∑ e, ∑ k, Q.w k * m.h e *
      (α e k * ((derivative (onElem m Q u e)).eval (Q.x k) / m.h e * ((derivative (onElem m Q g e)).eval (Q.x k) / m.h e))
        + β e k * ((onElem m Q u e).eval (Q.x k) * ((derivative (onElem m Q g e)).eval (Q.x k) / m.h e))
        + γ e k * ((onElem m Q u e).eval (Q.x k) * (onElem m Q g e).eval (Q.x k))) := by
  rw [assemble_pair]
  refine Finset.sum_congr rfl fun e _ => ?_
  simp only [hform, jetOf]
  have hs : ∀ (x y : Fin q → ℝ) (c d : ℝ), (∑ b, u (m.dof e b) * x b) / c * ((∑ a, g (m.dof e a) * y a) / d)
      = ∑ a, ∑ b, g (m.dof e a) * u (m.dof e b) * (x b / c * (y a / d)) := by
    intro x y c d
    rw [Finset.sum_div, Finset.sum_div, Finset.sum_mul_sum, Finset.sum_comm]
    refine Finset.sum_congr rfl fun a _ => Finset.sum_congr rfl fun b _ => by ring
  have hs1 : ∀ (x y : Fin q → ℝ) (d : ℝ), (∑ b, u (m.dof e b) * x b) * ((∑ a, g (m.dof e a) * y a) / d)
      = ∑ a, ∑ b, g (m.dof e a) * u (m.dof e b) * (x b * (y a / d)) := by
    intro x y d
    simpa using hs x y 1 d
  have hs2 : ∀ (x y : Fin q → ℝ), (∑ b, u (m.dof e b) * x b) * (∑ a, g (m.dof e a) * y a)
      = ∑ a, ∑ b, g (m.dof e a) * u (m.dof e b) * (x b * y a) := by
    intro x y
    simpa using hs x y 1 1
  simp only [onElem_eval, onElem_deriv, hs, hs1, hs2]
  have hk : ∀ (T : Fin q → Fin q → Fin q → ℝ), (∑ a, ∑ b, g (m.dof e a) * u (m.dof e b) * ∑ k, T k a b)
      = ∑ k, ∑ a, ∑ b, g (m.dof e a) * u (m.dof e b) * T k a b := by
    intro T
    simp only [Finset.mul_sum]
    rw [show (∑ k, ∑ a, ∑ b, g (m.dof e a) * u (m.dof e b) * T k a b)
      = ∑ a, ∑ k, ∑ b, g (m.dof e a) * u (m.dof e b) * T k a b from Finset.sum_comm]
    exact Finset.sum_congr rfl fun a _ => Finset.sum_comm
  rw [hk]
  refine Finset.sum_congr rfl fun k _ => ?_
  simp only [Finset.mul_sum, ← Finset.sum_add_distrib]
  refine Finset.sum_congr rfl fun a _ => Finset.sum_congr rfl fun b _ => ?_
  ring

/-! ### the weak form -/

theorem shape_natDegree {r : ℕ} {Q : Quad (r + 2)} (hQ : GoodQuad Q) (a : Fin (r + 2)) : (shape Q a).natDegree ≤ r + 1 := by
  refine natDegree_le_of_degree_le ?_
  rw [shape, Lagrange.degree_basis (hQ.inj.injOn) (Finset.mem_univ a)]
  simp

theorem onElem_natDegree {r : ℕ} (m : LineMesh ne N (r + 2)) {Q : Quad (r + 2)} (hQ : GoodQuad Q) (g : Vec N) (e : Fin ne) :
    (onElem m Q g e).natDegree ≤ r + 1 :=
  natDegree_sum_le_of_forall_le _ _ fun a _ => (natDegree_C_mul_le _ _).trans (shape_natDegree hQ a)

theorem onElem_node {r : ℕ} (m : LineMesh ne N (r + 2)) {Q : Quad (r + 2)} (hQ : GoodQuad Q) (g : Vec N) (e : Fin ne)
    (k : Fin (r + 2)) : (onElem m Q g e).eval (Q.x k) = g (m.dof e k) := by
  rw [onElem_eval, Finset.sum_eq_single k]
  · rw [shape, Lagrange.eval_basis_self (hQ.inj.injOn) (Finset.mem_univ k), mul_one]
  · intro a _ hak
    rw [shape, Lagrange.eval_basis_of_ne hak (Finset.mem_univ k), mul_zero]
  · intro h; exact absurd (Finset.mem_univ k) h

theorem onElem_const {r : ℕ} (m : LineMesh ne N (r + 2)) {Q : Quad (r + 2)} (hQ : GoodQuad Q) (c : ℝ) (e : Fin ne) :
    onElem m Q (fun _ => c) e = C c := by
  unfold onElem shape
  rw [← Finset.mul_sum, Lagrange.sum_basis (hQ.inj.injOn) Finset.univ_nonempty, mul_one]

theorem stiff_pair (m : LineMesh ne N q) (Q : Quad q) (F : SemFields ne q) (hv : ∀ e k, F.vel e k ≠ 0) (g u : Vec N) :
    g ⬝ᵥ (semStiff m Q F none *ᵥ u) = ∑ e, ∑ k, Q.w k * m.h e *
      ((F.nu e k + F.tau e k * m.h e * F.vel e k / 2) *
          ((derivative (onElem m Q u e)).eval (Q.x k) / m.h e * ((derivative (onElem m Q g e)).eval (Q.x k) / m.h e))
        + -F.vel e k * ((onElem m Q u e).eval (Q.x k) * ((derivative (onElem m Q g e)).eval (Q.x k) / m.h e))
        + 0 * ((onElem m Q u e).eval (Q.x k) * (onElem m Q g e).eval (Q.x k))) := by
  unfold semStiff
  refine assemble_form m Q _ (fun e k => F.nu e k + F.tau e k * m.h e * F.vel e k / 2) (fun e k => -F.vel e k) (fun _ _ => 0) ?_ g u
  intro e k u v
  unfold advDiffConsSupg tauUpwind
  have := hv e k
  field_simp
  ring

theorem mass_pair (m : LineMesh ne N q) (Q : Quad q) (F : SemFields ne q) (hv : ∀ e k, F.vel e k ≠ 0) (g u : Vec N) :
    g ⬝ᵥ (semMass m Q F *ᵥ u) = ∑ e, ∑ k, Q.w k * m.h e *
      (0 * ((derivative (onElem m Q u e)).eval (Q.x k) / m.h e * ((derivative (onElem m Q g e)).eval (Q.x k) / m.h e))
        + F.tau e k * m.h e / 2 * ((onElem m Q u e).eval (Q.x k) * ((derivative (onElem m Q g e)).eval (Q.x k) / m.h e))
        + 1 * ((onElem m Q u e).eval (Q.x k) * (onElem m Q g e).eval (Q.x k))) := by
  unfold semMass
  refine assemble_form m Q _ (fun _ _ => 0) (fun e k => F.tau e k * m.h e / 2) (fun _ _ => 1) ?_ g u
  intro e k u v
  unfold massSupg tauUpwind
  have := hv e k
  field_simp
  ring

/-- **Specification.** The weak form of `u_t + (vel u - (nu + tau h vel / 2) u_x)_x = 0` inside the domain, with a test function
`g`, element by element in the reference coordinate. -/
def weakForm (m : LineMesh ne N q) (Q : Quad q) (nu vel tau : Fin ne → ℝ) (g u : Vec N) : ℝ :=
  ∑ e, ((nu e + tau e * m.h e * vel e / 2) / m.h e
      * (∫ x in (0 : ℝ)..1, (derivative (onElem m Q u e)).eval x * (derivative (onElem m Q g e)).eval x)
    - vel e * ∫ x in (0 : ℝ)..1, (onElem m Q u e).eval x * (derivative (onElem m Q g e)).eval x)

/-- parameters that are constant on each element -/
def elemFields (nu vel tau : Fin ne → ℝ) : SemFields ne q := SemFields.mk (fun e _ => nu e) (fun e _ => vel e) (fun e _ => tau e)

theorem stiff_weak {r : ℕ} (m : LineMesh ne N (r + 2)) {Q : Quad (r + 2)} (hQ : GoodQuad Q) (hh : ∀ e, 0 < m.h e)
    (nu vel tau : Fin ne → ℝ) (hv : ∀ e, vel e ≠ 0) (g u : Vec N) :
    g ⬝ᵥ (semStiff m Q (elemFields nu vel tau) none *ᵥ u) = weakForm m Q nu vel tau g u := by
  rw [stiff_pair m Q _ (fun e _ => hv e), weakForm]
  refine Finset.sum_congr rfl fun e _ => ?_
  have h1 := hQ.exact (derivative (onElem m Q u e) * derivative (onElem m Q g e)) (by
    have a1 := (natDegree_derivative_le (onElem m Q u e)).trans (Nat.sub_le_sub_right (onElem_natDegree m hQ u e) 1)
    have a2 := (natDegree_derivative_le (onElem m Q g e)).trans (Nat.sub_le_sub_right (onElem_natDegree m hQ g e) 1)
    have := natDegree_mul_le (p := derivative (onElem m Q u e)) (q := derivative (onElem m Q g e))
    omega)
  have h2 := hQ.exact (onElem m Q u e * derivative (onElem m Q g e)) (by
    have a1 := onElem_natDegree m hQ u e
    have a2 := (natDegree_derivative_le (onElem m Q g e)).trans (Nat.sub_le_sub_right (onElem_natDegree m hQ g e) 1)
    have := natDegree_mul_le (p := onElem m Q u e) (q := derivative (onElem m Q g e))
    omega)
  simp only [eval_mul] at h1 h2
  rw [← h1, ← h2, Finset.mul_sum, Finset.mul_sum, ← Finset.sum_sub_distrib]
  refine Finset.sum_congr rfl fun k _ => ?_
  have := (hh e).ne'
  show Q.w k * m.h e * ((nu e + tau e * m.h e * vel e / 2) * _ + -vel e * _ + _) = _
  field_simp
  ring

/-! ### boundary rows -/

theorem robin_pair (b : Ends N) (g u : Vec N) :
    g ⬝ᵥ (robinMat b *ᵥ u) = b.velR * u b.right * g b.right - b.velL * u b.left * g b.left := by
  have h : robinMat b *ᵥ u = fun i => (if i = b.left then -b.velL * u b.left else 0) + (if i = b.right then b.velR * u b.right else 0) := by
    funext i
    unfold robinMat Matrix.mulVec dotProduct
    simp only [add_mul, Finset.sum_add_distrib]
    congr 1
    · by_cases hi : i = b.left <;> simp [hi]
    · by_cases hi : i = b.right <;> simp [hi]
  rw [h]
  unfold dotProduct
  simp only [mul_add, Finset.sum_add_distrib]
  simp
  ring

theorem enforce_row (A : Mat N) (D : List (Fin N)) (u : Vec N) (i : Fin N) :
    (enforceMat A D *ᵥ u) i = if i ∈ D then u i else (A *ᵥ u) i := by
  unfold enforceMat Matrix.mulVec dotProduct
  by_cases hi : i ∈ D <;> simp [hi]

theorem enforce_pair (A : Mat N) (D : List (Fin N)) (g u : Vec N) (hg : ∀ d ∈ D, g d = 0) :
    g ⬝ᵥ (enforceMat A D *ᵥ u) = g ⬝ᵥ (A *ᵥ u) := by
  unfold dotProduct
  refine Finset.sum_congr rfl fun i _ => ?_
  rw [enforce_row]
  by_cases hi : i ∈ D
  · rw [hg i hi]; simp
  · rw [if_neg hi]

theorem semLoadVec_zero (m : LineMesh ne N q) (Q : Quad q) (F : SemFields ne q) : semLoadVec m Q F = 0 := by
  funext i
  unfold semLoadVec assembleLoad rhsSupg srcF
  simp

/-- what `semAssemble` returns -/
theorem semAssemble_some {m : LineMesh ne N q} {Q : Quad q} {F : SemFields ne q} {bd : Option (Ends N)} {A : Mat N} {Ml b : Vec N}
    (h : semAssemble m Q F bd = some (A, Ml, b)) :
    (∀ e k, F.vel e k ≠ 0) ∧ A = enforceMat (semStiff m Q F bd) (dirichletBd bd) ∧
      Ml = enforceMat (semMass m Q F) (dirichletBd bd) *ᵥ (fun _ => 1) ∧ b = 0 := by
  unfold semAssemble at h
  split at h
  · cases h
  · rename_i hv
    simp only [Option.some.injEq, Prod.mk.injEq] at h
    obtain ⟨h1, h2, h3⟩ := h
    refine ⟨fun e k hk => hv ⟨e, k, hk⟩, h1.symm, h2.symm, ?_⟩
    rw [← h3, semLoadVec_zero]
    funext i
    unfold enforceVec
    simp

/-- **Specification.** What leaves through the right end of a mesh that is not periodic. -/
def outflow (bd : Option (Ends N)) (g u : Vec N) : ℝ :=
  match bd with
  | none => 0
  | some b => b.velR * u b.right * g b.right

theorem stiff_bd (m : LineMesh ne N q) (Q : Quad q) (F : SemFields ne q) (bd : Option (Ends N)) (g u : Vec N)
    (hg : ∀ d ∈ dirichletBd bd, g d = 0) :
    g ⬝ᵥ (semStiff m Q F bd *ᵥ u) = g ⬝ᵥ (semStiff m Q F none *ᵥ u) + outflow bd g u := by
  cases bd with
  | none => simp [outflow]
  | some b =>
    show g ⬝ᵥ ((semStiff m Q F none + robinMat b) *ᵥ u) = _
    rw [Matrix.add_mulVec, dotProduct_add, robin_pair, hg b.left (by simp [dirichletBd])]
    simp [outflow]

theorem massOne_pair {r : ℕ} (m : LineMesh ne N (r + 2)) {Q : Quad (r + 2)} (hQ : GoodQuad Q) (hh : ∀ e, 0 < m.h e)
    (nu vel tau : Fin ne → ℝ) (hv : ∀ e, vel e ≠ 0) (g : Vec N) :
    g ⬝ᵥ (semMass m Q (elemFields nu vel tau) *ᵥ (fun _ => 1))
      = ∑ e, m.h e * (∑ k, Q.w k * g (m.dof e k) + tau e / 2 * (g (m.dof e 1) - g (m.dof e 0))) := by
  rw [mass_pair m Q _ (fun e _ => hv e)]
  refine Finset.sum_congr rfl fun e _ => ?_
  have hi := hQ.exact (derivative (onElem m Q g e)) (by
    have a2 := (natDegree_derivative_le (onElem m Q g e)).trans (Nat.sub_le_sub_right (onElem_natDegree m hQ g e) 1)
    omega)
  have hd : ∫ x in (0 : ℝ)..1, (derivative (onElem m Q g e)).eval x = g (m.dof e 1) - g (m.dof e 0) := by
    rw [intervalIntegral.integral_eq_sub_of_hasDerivAt (fun x _ => (onElem m Q g e).hasDerivAt x)
      ((derivative (onElem m Q g e)).continuous.intervalIntegrable _ _)]
    have h0 := onElem_node m hQ g e 0
    have h1 := onElem_node m hQ g e 1
    rw [hQ.x0] at h0
    rw [hQ.x1] at h1
    rw [h0, h1]
  rw [← hd, ← hi, mul_add, Finset.mul_sum, Finset.mul_sum, Finset.mul_sum, ← Finset.sum_add_distrib]
  refine Finset.sum_congr rfl fun k _ => ?_
  rw [onElem_const m hQ, onElem_node m hQ]
  have := (hh e).ne'
  simp only [elemFields, eval_C, derivative_C, eval_zero]
  field_simp
  ring

/-- **C118, the assembled system.** Whatever the mesh (element lengths, numbering), the order and the parameters of the elements:
the matrix is the weak form with exact integrals for every test function that vanishes at the inflow end, with natural outflow at
the other end; the rows of the inflow end are rows of the identity; the lumped masses are the quadrature weights times the element
lengths plus the stabilization; the load is zero. -/
theorem C118_weak {r : ℕ} {m : LineMesh ne N (r + 2)} {Q : Quad (r + 2)} (hq : semQuad (r + 1) = .ok Q) (hh : ∀ e, 0 < m.h e)
    {nu vel tau : Fin ne → ℝ} {bd : Option (Ends N)} {A : Mat N} {Ml b : Vec N}
    (h : semAssemble m Q (elemFields nu vel tau) bd = some (A, Ml, b)) :
    b = 0 ∧
    (∀ g u : Vec N, (∀ d ∈ dirichletBd bd, g d = 0) → g ⬝ᵥ (A *ᵥ u) = weakForm m Q nu vel tau g u + outflow bd g u) ∧
    (∀ d ∈ dirichletBd bd, Ml d = 1 ∧ ∀ u, (A *ᵥ u) d = u d) ∧
    (∀ i ∉ dirichletBd bd, Ml i = ∑ e, m.h e * (∑ k, Q.w k * (if m.dof e k = i then 1 else 0)
      + tau e / 2 * ((if m.dof e 1 = i then 1 else 0) - (if m.dof e 0 = i then 1 else 0)))) := by
  have hQ := goodQuad hq
  obtain ⟨hv, hA, hM, hb⟩ := semAssemble_some h
  have hv' : ∀ e, vel e ≠ 0 := fun e => hv e 0
  refine ⟨hb, fun g u hg => ?_, fun d hd => ⟨?_, fun u => ?_⟩, fun i hi => ?_⟩
  · rw [hA, enforce_pair _ _ _ _ hg, stiff_bd m Q _ bd g u hg, stiff_weak m hQ hh nu vel tau hv']
  · rw [hM, enforce_row, if_pos hd]
  · rw [hA, enforce_row, if_pos hd]
  · rw [hM, enforce_row, if_neg hi]
    have := massOne_pair m hQ hh nu vel tau hv' (Pi.single i 1)
    rw [single_one_dotProduct] at this
    rw [this]
    refine Finset.sum_congr rfl fun e _ => ?_
    simp only [Pi.single_apply]

end
end Ormatex.Props
