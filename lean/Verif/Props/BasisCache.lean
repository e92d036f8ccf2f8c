import Verif.Model.Progression

/-!
C64: the basis cache of `ElementLinePp_nodal`.
-/

namespace Ormatex.Props
open Polynomial

variable {m : ℕ}

/-- **Specification.** The values and derivatives at the points `X` of the `i`-th polynomial of degree `< m` that is 1 at node `i`
and 0 at the other nodes. -/
def IsBasisAt (nodes : Fin m → ℝ) (i : Fin m) (X : List ℝ) (r : List ℝ × List ℝ) : Prop :=
  ∀ p : ℝ[X], p.degree < m → (∀ j, p.eval (nodes j) = if j = i then 1 else 0) →
    r.1 = X.map (fun x => p.eval x) ∧ r.2 = X.map (fun x => (derivative p).eval x)

/-- the object after a sequence of calls -/
noncomputable def cacheAfter (nodes : Fin m → ℝ) (c : BasisCache) (calls : List (List ℝ × ℕ)) : BasisCache :=
  calls.foldl (fun c q => (lbasis nodes c q.1 q.2).2) c

theorem basis_unique {nodes : Fin m → ℝ} (hn : Function.Injective nodes) (i : Fin m) {p : ℝ[X]} (hp : p.degree < m)
    (h : ∀ j, p.eval (nodes j) = if j = i then 1 else 0) : p = Lagrange.basis Finset.univ nodes i := by
  refine Polynomial.eq_of_degrees_lt_of_eval_index_eq (Finset.univ : Finset (Fin m)) hn.injOn (by simpa using hp) ?_ ?_
  · rw [Lagrange.degree_basis hn.injOn (Finset.mem_univ i)]
    have : 0 < m := i.pos
    simp only [Finset.card_univ, Fintype.card_fin]
    exact_mod_cast Nat.sub_lt this one_pos
  · intro j _
    rw [h j]
    split
    · rename_i e; rw [e, Lagrange.eval_basis_self hn.injOn (Finset.mem_univ i)]
    · rename_i e; rw [Lagrange.eval_basis_of_ne (fun h => e h.symm) (Finset.mem_univ j)]

theorem basis_spec {nodes : Fin m → ℝ} (hn : Function.Injective nodes) (i : Fin m) (X : List ℝ) :
    IsBasisAt nodes i X (X.map (fun x => (Lagrange.basis Finset.univ nodes i).eval x),
      X.map (fun x => (derivative (Lagrange.basis Finset.univ nodes i)).eval x)) := by
  intro p hp h
  rw [basis_unique hn i hp h]
  exact ⟨rfl, rfl⟩

/-- The specification determines the answer: such a polynomial exists. -/
theorem isBasisAt_unique {nodes : Fin m → ℝ} (hn : Function.Injective nodes) (i : Fin m) (X : List ℝ) {r : List ℝ × List ℝ}
    (h : IsBasisAt nodes i X r) : r = (X.map (fun x => (Lagrange.basis Finset.univ nodes i).eval x),
      X.map (fun x => (derivative (Lagrange.basis Finset.univ nodes i)).eval x)) := by
  have := h (Lagrange.basis Finset.univ nodes i) (by
    rw [Lagrange.degree_basis hn.injOn (Finset.mem_univ i)]
    have : 0 < m := i.pos
    simp only [Finset.card_univ, Fintype.card_fin]
    exact_mod_cast Nat.sub_lt this one_pos) (fun j => by
      split
      · rename_i e; rw [e, Lagrange.eval_basis_self hn.injOn (Finset.mem_univ i)]
      · rename_i e; rw [Lagrange.eval_basis_of_ne (fun h => e h.symm) (Finset.mem_univ j)])
  exact Prod.ext this.1 this.2

/-- after a sequence of calls the cache is the initial one, or holds the basis at the points of one of the calls -/
theorem cacheAfter_spec (nodes : Fin m → ℝ) (calls : List (List ℝ × ℕ)) :
    cacheAfter nodes BasisCache.init calls = BasisCache.init ∨
    ∃ q ∈ calls, cacheAfter nodes BasisCache.init calls = revalBasis nodes q.1 := by
  induction calls using List.reverseRecOn with
  | nil => exact Or.inl rfl
  | append_singleton l q ih =>
    have e : cacheAfter nodes BasisCache.init (l ++ [q]) = (lbasis nodes (cacheAfter nodes BasisCache.init l) q.1 q.2).2 := by
      unfold cacheAfter; rw [List.foldl_append]; rfl
    rw [e]
    show (if (cacheAfter nodes BasisCache.init l).cols ≠ q.1.length then _ else _) = _ ∨ ∃ _, _
    by_cases h : (cacheAfter nodes BasisCache.init l).cols ≠ q.1.length
    · right
      refine ⟨q, by simp, ?_⟩
      unfold lbasis
      simp only
      rw [if_pos h]
    · have e2 : (lbasis nodes (cacheAfter nodes BasisCache.init l) q.1 q.2).2 = cacheAfter nodes BasisCache.init l := by
        unfold lbasis
        simp only
        rw [if_neg h]
      rw [if_neg h, e2]
      rcases ih with ih | ⟨r, hr, ih⟩
      · exact Or.inl ih
      · exact Or.inr ⟨r, by simp [hr], ih⟩

theorem lbasis_hit (nodes : Fin m → ℝ) (X : List ℝ) (i : Fin m) :
    (match (revalBasis nodes X).P[(i : ℕ)]?, (revalBasis nodes X).dP[(i : ℕ)]? with
      | some r, some d => (.ok (r, d) : Py (List ℝ × List ℝ))
      | _, _ => .error .index) = .ok (X.map (fun x => (Lagrange.basis Finset.univ nodes i).eval x),
        X.map (fun x => (derivative (Lagrange.basis Finset.univ nodes i)).eval x)) := by
  unfold revalBasis
  simp

/-- **C64, what holds.** If every earlier call with the same number of points used the same points, the call returns the basis
function and its derivative at the points it was given; and an empty set of points was never the first call. What is missing from C64: this must hold for *every*
sequence of calls; it does not (`C64_false`). -/
theorem C64_partial {nodes : Fin m → ℝ} (hn : Function.Injective nodes) (calls : List (List ℝ × ℕ)) (X : List ℝ) (hX : X ≠ [])
    (i : Fin m) (h : ∀ q ∈ calls, q.1.length = X.length → q.1 = X) :
    ∃ r, (lbasis nodes (cacheAfter nodes BasisCache.init calls) X i).1 = .ok r ∧ IsBasisAt nodes i X r := by
  refine ⟨_, ?_, basis_spec hn i X⟩
  unfold lbasis
  simp only
  by_cases hc : (cacheAfter nodes BasisCache.init calls).cols ≠ X.length
  · rw [if_pos hc]
    exact lbasis_hit nodes X i
  · rw [if_neg hc]
    push Not at hc
    rcases cacheAfter_spec nodes calls with hs | ⟨q, hq, hs⟩
    · rw [hs] at hc
      exact absurd (List.length_eq_zero_iff.1 hc.symm) hX
    · have : q.1.length = X.length := by rw [← hc, hs]; rfl
      rw [hs, h q hq this]
      exact lbasis_hit nodes X i

/-- **C64 is false:** for every element with at least two nodes, evaluating at one point and then at another returns the values of the
first point. -/
theorem C64_false {nodes : Fin m → ℝ} (hn : Function.Injective nodes) {i j : Fin m} (hij : i ≠ j) :
    ∃ X X' : List ℝ, ∀ r, (lbasis nodes (cacheAfter nodes BasisCache.init [(X, i)]) X' i).1 = .ok r → ¬ IsBasisAt nodes i X' r := by
  refine ⟨[nodes i], [nodes j], ?_⟩
  intro r hr hb
  have h1 : cacheAfter nodes BasisCache.init [([nodes i], (i : ℕ))] = revalBasis nodes [nodes i] := by
    unfold cacheAfter
    simp only [List.foldl_cons, List.foldl_nil]
    unfold lbasis
    simp only
    rw [if_pos (by simp [BasisCache.init])]
  rw [h1] at hr
  have h2 : (lbasis nodes (revalBasis nodes [nodes i]) [nodes j] i).1 = .ok ([nodes i].map
      (fun x => (Lagrange.basis Finset.univ nodes i).eval x),
        [nodes i].map (fun x => (derivative (Lagrange.basis Finset.univ nodes i)).eval x)) := by
    unfold lbasis
    simp only
    rw [if_neg (by simp [revalBasis])]
    exact lbasis_hit nodes [nodes i] i
  rw [h2] at hr
  cases hr
  have h3 := congrArg Prod.fst (isBasisAt_unique hn i _ hb)
  simp only [List.map_cons, List.map_nil, List.cons.injEq, and_true] at h3
  rw [Lagrange.eval_basis_self hn.injOn (Finset.mem_univ i), Lagrange.eval_basis_of_ne hij (Finset.mem_univ j)] at h3
  exact one_ne_zero h3

/-- A fresh element asked for an empty set of points has nothing cached and raises `IndexError`. -/
theorem C64_empty (nodes : Fin m → ℝ) (i : ℕ) : (lbasis nodes BasisCache.init [] i).1 = .error .index := by
  unfold lbasis BasisCache.init
  simp

/-- The hypothesis of `C64_partial` is met by alternating between two point sets of different sizes. -/
example : ∃ r, (lbasis ![0, 1, 1 / 2] (cacheAfter ![0, 1, 1 / 2] BasisCache.init [([0, 1], 0), ([1 / 3], 2), ([0, 1], 1)])
    [1 / 3] 1).1 = .ok r ∧ IsBasisAt ![0, 1, 1 / 2] 1 [1 / 3] r := by
  refine C64_partial ?_ _ _ (by simp) 1 ?_
  · intro a b h
    fin_cases a <;> fin_cases b <;> simp_all
  · intro q hq h
    simp only [List.mem_cons, List.not_mem_nil, or_false] at hq
    rcases hq with rfl | rfl | rfl <;> simp_all

end Ormatex.Props
