import Verif.Props.Arnoldi
import Verif.Spec.Exact
import Verif.Model.Leja

/-!
C52 (Leja reordering) and C53 (interval of the Leja points, power iteration).
-/

namespace Ormatex.Props
open Matrix
open scoped Classical

/-! ### argmax -/

theorem argmax_go_spec : ∀ (t : List ℝ) (best : ℝ) (bi i : ℕ),
    (argmax.go best bi i t = bi ∧ ∀ b ∈ t, b ≤ best) ∨
    ∃ j, ∃ h : j < t.length, argmax.go best bi i t = i + j ∧ best < t[j] ∧ (∀ b ∈ t, b ≤ t[j]) ∧
      ∀ k, ∀ hk : k < j, t[k] < t[j] := by
  intro t
  induction t with
  | nil => intro best bi i; left; simp [argmax.go]
  | cons b t ih =>
    intro best bi i
    unfold argmax.go
    by_cases h : best < b
    · rw [if_pos h]
      right
      rcases ih b i (i + 1) with ⟨h1, h2⟩ | ⟨j, hj, h1, h2, h3, h4⟩
      · refine ⟨0, by simp, by simpa using h1, by simpa using h, ?_, by simp⟩
        intro x hx
        rcases List.mem_cons.1 hx with rfl | hx
        · simp
        · simpa using h2 x hx
      · refine ⟨j + 1, by simpa using hj, by rw [h1]; ring, by simpa using h.trans h2, ?_, ?_⟩
        · intro x hx
          rcases List.mem_cons.1 hx with rfl | hx
          · simpa using h2.le
          · simpa using h3 x hx
        · intro k hk
          rcases k with _ | k
          · simpa using h2
          · simpa using h4 k (by omega)
    · rw [if_neg h]
      push Not at h
      rcases ih best bi (i + 1) with ⟨h1, h2⟩ | ⟨j, hj, h1, h2, h3, h4⟩
      · left
        refine ⟨h1, ?_⟩
        intro x hx
        rcases List.mem_cons.1 hx with rfl | hx
        · exact h
        · exact h2 x hx
      · right
        refine ⟨j + 1, by simpa using hj, by rw [h1]; ring, by simpa using h2, ?_, ?_⟩
        · intro x hx
          rcases List.mem_cons.1 hx with rfl | hx
          · simpa using h.trans h2.le
          · simpa using h3 x hx
        · intro k hk
          rcases k with _ | k
          · simpa using h.trans_lt h2
          · simpa using h4 k (by omega)

/-- `argmax` is an index of the list, at which the list is maximal, and the first such index. -/
theorem argmax_spec (l : List ℝ) (hl : l ≠ []) :
    ∃ h : argmax l < l.length, (∀ b ∈ l, b ≤ l[argmax l]) ∧ ∀ k, ∀ hk : k < argmax l, l[k] < l[argmax l] := by
  rcases l with _ | ⟨a, t⟩
  · exact absurd rfl hl
  · rcases argmax_go_spec t a 0 1 with ⟨h1, h2⟩ | ⟨j, hj, h1, h2, h3, h4⟩
    · have e : argmax (a :: t) = 0 := h1
      refine ⟨by rw [e]; simp, ?_, ?_⟩
      · intro b hb
        simp only [e]
        rcases List.mem_cons.1 hb with rfl | hb
        · simp
        · simpa using h2 b hb
      · intro k hk; omega
    · have e : argmax (a :: t) = j + 1 := by rw [Nat.add_comm]; exact h1
      refine ⟨by rw [e]; simpa using hj, ?_, ?_⟩
      · intro b hb
        simp only [e]
        rcases List.mem_cons.1 hb with rfl | hb
        · simpa using h2.le
        · simpa using h3 b hb
      · intro k hk
        simp only [e]
        rcases k with _ | k
        · simpa using h2
        · simpa using h4 k (by omega)

/-! ### reordering -/

section
variable {α : Type*}

/-- **Specification.**  Every element after the first maximises, among itself and its successors, the product of the distances
to its predecessors. -/
def IsLejaOrdered (dist : α → α → ℝ) (z : List α) : Prop :=
  ∀ l₁ a l₂, z = l₁ ++ a :: l₂ → l₁ ≠ [] → ∀ b ∈ l₂, (l₁.map fun q => dist q b).prod ≤ (l₁.map fun q => dist q a).prod

theorem reorderLoop_spec (dist : α → α → ℝ) : ∀ (f : ℕ) (z xi : List α), z ≠ [] → xi.length ≤ f →
    (∀ l₁ a l₂, z = l₁ ++ a :: l₂ → l₁ ≠ [] → ∀ b ∈ l₂ ++ xi,
      (l₁.map fun q => dist q b).prod ≤ (l₁.map fun q => dist q a).prod) →
    ∃ y, reorderLoop dist f z xi = z ++ y ∧ y.Perm xi ∧ IsLejaOrdered dist (z ++ y) := by
  intro f
  induction f with
  | zero =>
    intro z xi _ hf hz
    obtain rfl : xi = [] := List.length_eq_zero_iff.1 (by omega)
    refine ⟨[], by simp [reorderLoop], List.Perm.refl _, ?_⟩
    simpa [IsLejaOrdered] using hz
  | succ f ih =>
    intro z xi hne hf hz
    rcases xi with _ | ⟨a, xi'⟩
    · refine ⟨[], by simp [reorderLoop], List.Perm.refl _, ?_⟩
      simpa [IsLejaOrdered] using hz
    · unfold reorderLoop
      simp only
      set xi := a :: xi' with hxi
      set ni := argmax (distProds dist z xi) with hni
      obtain ⟨hlt, hmax, _⟩ := argmax_spec (distProds dist z xi) (by simp [distProds, hxi])
      have hlen : (distProds dist z xi).length = xi.length := by simp [distProds]
      have hlt' : ni < xi.length := hlen ▸ hlt
      have hget : xi.getD ni a = xi[ni] := by simp [hlt']
      rw [hget]
      have hperm : (xi[ni] :: xi.eraseIdx ni).Perm xi := List.getElem_cons_eraseIdx_perm hlt'
      have hbest : ∀ b ∈ xi, (z.map fun q => dist q b).prod ≤ (z.map fun q => dist q xi[ni]).prod := by
        intro b hb
        have := hmax _ (List.mem_map.2 ⟨b, hb, rfl⟩ : (z.map fun q => dist q b).prod ∈ distProds dist z xi)
        refine this.trans (le_of_eq ?_)
        exact List.getElem_map _
      obtain ⟨y, h1, h2, h3⟩ := ih (z ++ [xi[ni]]) (xi.eraseIdx ni) (by simp) (by
          rw [List.length_eraseIdx_of_lt hlt']; omega) (by
        intro l₁ c l₂ he hl b hb
        rcases List.eq_nil_or_concat l₂ with rfl | ⟨l₂', d, rfl⟩
        · have h5 := List.append_inj' he (by simp)
          obtain ⟨rfl, h6⟩ := h5
          obtain rfl : xi[ni] = c := by simpa using h6
          refine hbest b ?_
          rw [List.nil_append] at hb
          exact List.mem_of_mem_eraseIdx hb
        · rw [List.concat_eq_append, ← List.cons_append, ← List.append_assoc] at he
          have h5 := List.append_inj' he (by simp)
          obtain ⟨rfl, h6⟩ := h5
          obtain rfl : xi[ni] = d := by simpa using h6
          refine hz l₁ c l₂' rfl hl b ?_
          rw [List.concat_eq_append, List.append_assoc] at hb
          rcases List.mem_append.1 hb with hb | hb
          · exact List.mem_append_left _ hb
          · exact List.mem_append_right _ (hperm.mem_iff.1 (by simpa using hb)))
      refine ⟨xi[ni] :: y, ?_, (h2.cons _).trans hperm, ?_⟩
      · rw [h1]; simp
      · simpa using h3

/-- **C52.**  `leja_seq_reordering` of a nonempty list returns a permutation of it whose first element is maximal in numpy's
order and in which every further element maximises the product of distances to its predecessors among the remaining points;
an empty list is refused. -/
theorem C52_reorder (key : α → ℝ) (dist : α → α → ℝ) (x : List α) :
    (x = [] → lejaSeqReordering key dist x = .error .value) ∧
    (x ≠ [] → ∃ a y, lejaSeqReordering key dist x = .ok (a :: y) ∧ (a :: y).Perm x ∧ (∀ b ∈ x, key b ≤ key a) ∧
      IsLejaOrdered dist (a :: y)) := by
  refine ⟨fun h => by rw [h]; rfl, fun h => ?_⟩
  rcases x with _ | ⟨a, t⟩
  · exact absurd rfl h
  unfold lejaSeqReordering
  simp only
  set x := a :: t with hx
  obtain ⟨hlt, hmax, _⟩ := argmax_spec (x.map key) (by simp [hx])
  set i0 := argmax (x.map key) with hi0
  have hlt' : i0 < x.length := by simpa using hlt
  have hget : x.getD i0 a = x[i0] := by simp [hlt']
  rw [hget]
  have hperm : (x[i0] :: x.eraseIdx i0).Perm x := List.getElem_cons_eraseIdx_perm hlt'
  obtain ⟨y, h1, h2, h3⟩ := reorderLoop_spec dist x.length [x[i0]] (x.eraseIdx i0) (by simp) (by
      rw [List.length_eraseIdx_of_lt hlt']; omega) (by
    intro l₁ c l₂ he hl
    have := congrArg List.length he
    simp at this
    exact absurd (List.length_eq_zero_iff.1 (by omega)) hl)
  refine ⟨x[i0], y, by rw [h1]; rfl, (h2.cons _).trans hperm, ?_, by simpa using h3⟩
  intro b hb
  simpa using hmax (key b) (List.mem_map.2 ⟨b, hb, rfl⟩)

/-- In particular, for real points the result starts with the largest point, and the second one is the smallest. -/
theorem C52_second (x : List ℝ) (a b : ℝ) (y : List ℝ)
    (h : lejaSeqReordering id (fun p q => |p - q|) x = .ok (a :: b :: y)) : ∀ c ∈ x, b ≤ c ∧ c ≤ a := by
  rcases x with _ | ⟨d, t⟩
  · cases h
  obtain ⟨a', y', h1, h2, h3, h4⟩ := (C52_reorder id (fun p q : ℝ => |p - q|) (d :: t)).2 (by simp)
  rw [h] at h1
  injection h1 with h1
  rw [List.cons.injEq] at h1
  obtain ⟨rfl, rfl⟩ := h1
  intro c hc
  have hca : c ≤ a := h3 c hc
  refine ⟨?_, hca⟩
  have hba : b ≤ a := h3 b (h2.mem_iff.1 (by simp))
  rcases List.mem_cons.1 (h2.mem_iff.2 hc) with rfl | hc'
  · exact hba
  · rcases List.mem_cons.1 hc' with rfl | hc''
    · exact le_rfl
    · have := h4 [a] b y rfl (by simp) c hc''
      simp only [List.map_cons, List.map_nil, List.prod_cons, List.prod_nil, mul_one] at this
      rw [abs_of_nonneg (by linarith), abs_of_nonneg (by linarith)] at this
      linarith

end

/-! ### interval and power iteration -/

section
variable {n : ℕ}

/-- **C53, interval.**  `leja_shift_scale` returns a shift and a scale that map the reference interval `[-2, 2]` onto the interval
between `0` and the scaled eigenvalue estimate it also returns. -/
theorem C53_interval (A : LinOp n) (maxIter : ℕ) (b0 : Option (Vec n)) (bRand : Vec n) (sf : ℝ) :
    let r := lejaShiftScale A maxIter b0 bRand sf
    (fun x => r.1 + r.2.1 * x) '' Set.Icc (-2) 2 = Set.uIcc 0 r.2.2.1 ∧
      r.2.2.1 = (powerIter A (b0.getD bRand) maxIter powerTol).1 * sf ∧
      r.2.2.2 = (powerIter A (b0.getD bRand) maxIter powerTol).2 := by
  intro r
  refine ⟨?_, rfl, rfl⟩
  set α := r.2.2.1 with hα
  have h1 : r.1 = (α - 0) / 2 := rfl
  have h2 : r.2.1 = |0 - α| / 4 := rfl
  rw [h1, h2, zero_sub, abs_neg, sub_zero]
  ext y
  simp only [Set.mem_image, Set.mem_Icc, Set.mem_uIcc]
  rcases le_or_gt 0 α with h0 | h0
  · rw [abs_of_nonneg h0]
    constructor
    · rintro ⟨x, ⟨a1, a2⟩, rfl⟩
      left
      constructor <;> nlinarith
    · intro hy
      have hy : 0 ≤ y ∧ y ≤ α := by
        rcases hy with h | h
        · exact h
        · constructor <;> linarith
      rcases h0.eq_or_lt with h | h
      · refine ⟨0, by norm_num, ?_⟩
        rw [← h] at hy ⊢
        linarith
      · refine ⟨(y - α / 2) / (α / 4), ⟨?_, ?_⟩, ?_⟩
        · rw [le_div_iff₀ (by linarith)]; linarith
        · rw [div_le_iff₀ (by linarith)]; linarith
        · field_simp; ring
  · rw [abs_of_neg h0]
    constructor
    · rintro ⟨x, ⟨a1, a2⟩, rfl⟩
      right
      constructor <;> nlinarith
    · intro hy
      have hy : α ≤ y ∧ y ≤ 0 := by
        rcases hy with h | h
        · constructor <;> linarith
        · exact h
      refine ⟨(y - α / 2) / (-α / 4), ⟨?_, ?_⟩, ?_⟩
      · rw [le_div_iff₀ (by linarith)]; linarith
      · rw [div_le_iff₀ (by linarith)]; linarith
      · have := h0.ne
        field_simp; ring

theorem powerLoop_zero (A : LinOp n) (iter : ℕ) (tol : ℝ) (f : ℕ) (s : PowerState n) (h : ¬ powerCond iter tol s) :
    powerLoop A iter tol f s = s := by
  cases f with
  | zero => rfl
  | succ f => unfold powerLoop; rw [if_neg h]

/-- the loop ends because its condition fails, if the fuel covers the passes left -/
theorem powerLoop_done (A : LinOp n) (iter : ℕ) (tol : ℝ) : ∀ (f : ℕ) (s : PowerState n), iter ≤ s.i + f →
    ¬ powerCond iter tol (powerLoop A iter tol f s) := by
  intro f
  induction f with
  | zero =>
    intro s h hc
    unfold powerLoop at hc
    exact absurd hc.2 (by omega)
  | succ f ih =>
    intro s h
    unfold powerLoop
    split
    · exact ih _ (by simp [powerBody]; omega)
    · assumption

/-- the loop is an iterate of the body -/
theorem powerLoop_iterate (A : LinOp n) (iter : ℕ) (tol : ℝ) : ∀ (f : ℕ) (s : PowerState n), s.i ≤ iter →
    ∃ k, powerLoop A iter tol f s = (powerBody A)^[k] s ∧ s.i + k ≤ iter ∧ (powerCond iter tol s → 1 ≤ f → 1 ≤ k) := by
  intro f
  induction f with
  | zero => intro s hs; exact ⟨0, rfl, by omega, by omega⟩
  | succ f ih =>
    intro s hs
    unfold powerLoop
    split
    · rename_i hc
      obtain ⟨k, h1, h2, _⟩ := ih (powerBody A s) (by have := hc.2; simp [powerBody]; omega)
      refine ⟨k + 1, ?_, by simp only [powerBody] at h2; omega, by omega⟩
      rw [h1, Function.iterate_succ_apply]
    · rename_i hc
      exact ⟨0, rfl, by omega, fun h => absurd h hc⟩

/-- **C53, power iteration.**  For a matrix none of whose first `iter` powers kills the start vector, `power_iter` performs
`k` iterations with `1 ≤ k ≤ iter`; the eigenvalue estimate is the Rayleigh quotient of `A^(k-1) b0`, the returned vector is
`A^k b0` normalised; it stops early only if the last two estimates differ by at most the tolerance. -/
theorem C53_power (A : LinOp n) (M : Mat n) (hA : Spec.IsMatrix A M) (b0 : Vec n) (iter : ℕ) (hi : 1 ≤ iter) (tol : ℝ)
    (htol : tol < 1e20 - 1) (hb : (M ^ iter) *ᵥ b0 ≠ 0) :
    ∃ k, (powerIter A b0 iter tol).2.2 = k ∧ 1 ≤ k ∧ k ≤ iter ∧
      (let w := (M ^ (k - 1)) *ᵥ b0
       (powerIter A b0 iter tol).1 = (w ⬝ᵥ (M *ᵥ w)) / (w ⬝ᵥ w)) ∧
      (powerIter A b0 iter tol).2.1 = (norm2 ((M ^ k) *ᵥ b0))⁻¹ • ((M ^ k) *ᵥ b0) ∧
      (k = iter ∨ ∃ e, |(powerIter A b0 iter tol).1 - e| ≤ tol ∧
        (2 ≤ k → e = ((M ^ (k - 2)) *ᵥ b0 ⬝ᵥ (M *ᵥ ((M ^ (k - 2)) *ᵥ b0))) / ((M ^ (k - 2)) *ᵥ b0 ⬝ᵥ (M ^ (k - 2)) *ᵥ b0))) := by
  set s0 : PowerState n := { i := 0, b := b0, eigNew := 1e20, eigOld := 1 } with hs0
  obtain ⟨k, h1, h2, h3⟩ := powerLoop_iterate A iter tol iter s0 (by simp [s0])
  have hdone := powerLoop_done A iter tol iter s0 (by simp [s0])
  have hc0 : powerCond iter tol s0 := by
    refine ⟨?_, by simp [s0]; omega⟩
    simp only [s0]
    rw [abs_of_pos (by norm_num)]
    exact htol
  have hk : 1 ≤ k := h3 hc0 hi
  have hki : k ≤ iter := by simpa [s0] using h2
  have hnz : ∀ j ≤ iter, (M ^ j) *ᵥ b0 ≠ 0 := by
    intro j hj h
    apply hb
    obtain ⟨d, rfl⟩ := Nat.exists_eq_add_of_le hj
    rw [Nat.add_comm, pow_add, ← Matrix.mulVec_mulVec, h, Matrix.mulVec_zero]
  set ray : ℕ → ℝ := fun j => ((M ^ j) *ᵥ b0 ⬝ᵥ (M *ᵥ ((M ^ j) *ᵥ b0))) / ((M ^ j) *ᵥ b0 ⬝ᵥ (M ^ j) *ᵥ b0) with hray
  have hinv : ∀ j ≤ iter, ((powerBody A)^[j] s0).i = j ∧
      (∃ c : ℝ, c ≠ 0 ∧ ((powerBody A)^[j] s0).b = c • ((M ^ j) *ᵥ b0)) ∧
      (1 ≤ j → ((powerBody A)^[j] s0).b = (norm2 ((M ^ j) *ᵥ b0))⁻¹ • ((M ^ j) *ᵥ b0)) ∧
      (1 ≤ j → ((powerBody A)^[j] s0).eigNew = ray (j - 1)) ∧
      (2 ≤ j → ((powerBody A)^[j] s0).eigOld = ray (j - 2)) := by
    intro j
    induction j with
    | zero => intro _; exact ⟨rfl, ⟨1, one_ne_zero, by simp [s0]⟩, by omega, by omega, by omega⟩
    | succ j ih =>
      intro hj
      obtain ⟨i1, ⟨c, hc, i2⟩, i3, i4, i5⟩ := ih (by omega)
      rw [Function.iterate_succ_apply']
      set s := (powerBody A)^[j] s0 with hs
      have hAb : A.matvec s.b = c • ((M ^ (j + 1)) *ᵥ b0) := by
        rw [hA, i2, Matrix.mulVec_smul, Matrix.mulVec_mulVec, ← pow_succ']
      -- the first iterate keeps the sign of `c`; later iterates have `c > 0`
      have hcpos : 0 < c := by
        rcases Nat.eq_zero_or_pos j with rfl | hj0
        · have : s.b = b0 := by rw [hs]; rfl
          rw [this] at i2
          have h0 : c = 1 := by
            simp only [pow_zero, Matrix.one_mulVec] at i2
            have : (1 - c) • b0 = 0 := by rw [sub_smul, one_smul, ← i2, sub_self]
            rcases smul_eq_zero.1 this with h | h
            · linarith
            · exact absurd (by simpa using h) (hnz 0 (by omega))
          rw [h0]; norm_num
        · have h6 := i3 hj0
          rw [i2] at h6
          have hp := norm2_pos (hnz j (by omega))
          have : (c - (norm2 ((M ^ j) *ᵥ b0))⁻¹) • ((M ^ j) *ᵥ b0) = 0 := by rw [sub_smul, h6, sub_self]
          rcases smul_eq_zero.1 this with h | h
          · rw [sub_eq_zero.1 h]; positivity
          · exact absurd h (hnz j (by omega))
      have hp := norm2_pos (hnz (j + 1) hj)
      have hb1 : (powerBody A s).b = (norm2 ((M ^ (j + 1)) *ᵥ b0))⁻¹ • ((M ^ (j + 1)) *ᵥ b0) := by
        simp only [powerBody]
        rw [hAb, norm2_smul, abs_of_pos hcpos]
        funext q
        simp only [Pi.smul_apply, smul_eq_mul]
        field_simp
      refine ⟨by simp [powerBody, i1], ⟨_, inv_ne_zero hp.ne', hb1⟩, fun _ => hb1, ?_, ?_⟩
      · intro _
        simp only [powerBody, Nat.add_sub_cancel]
        rw [hAb, i2, hray]
        simp only
        rw [Matrix.mulVec_mulVec, ← pow_succ', smul_dotProduct, smul_dotProduct, dotProduct_smul, dotProduct_smul,
          smul_eq_mul, smul_eq_mul, smul_eq_mul, smul_eq_mul, ← mul_assoc, ← mul_assoc]
        exact mul_div_mul_left _ _ (mul_ne_zero hc hc)
      · intro h
        simp only [powerBody]
        rw [i4 (by omega)]
        congr 1
  obtain ⟨j1, _, j3, j4, j5⟩ := hinv k hki
  have e1 : powerIter A b0 iter tol = (((powerBody A)^[k] s0).eigNew, ((powerBody A)^[k] s0).b, ((powerBody A)^[k] s0).i) := by
    unfold powerIter
    simp only
    rw [← hs0, h1]
  rw [h1] at hdone
  refine ⟨k, by rw [e1]; exact j1, hk, hki, ?_, ?_, ?_⟩
  · rw [e1]; exact j4 hk
  · rw [e1]; exact j3 hk
  · by_cases hlt : k < iter
    · right
      refine ⟨((powerBody A)^[k] s0).eigOld, ?_, fun h => j5 h⟩
      rw [e1]
      by_contra hcon
      exact hdone ⟨not_le.1 hcon, by rw [j1]; exact hlt⟩
    · left; omega

/-- **C53, exactness on eigenvectors.**  Started from an eigenvector of a nonzero eigenvalue, the estimate is that eigenvalue. -/
theorem C53_eigenvector (A : LinOp n) (M : Mat n) (hA : Spec.IsMatrix A M) (b0 : Vec n) (lam : ℝ) (hlam : lam ≠ 0) (hb : b0 ≠ 0)
    (he : M *ᵥ b0 = lam • b0) (iter : ℕ) (hi : 1 ≤ iter) (tol : ℝ) (htol : tol < 1e20 - 1) :
    (powerIter A b0 iter tol).1 = lam := by
  have hp : ∀ j, (M ^ j) *ᵥ b0 = lam ^ j • b0 := by
    intro j
    induction j with
    | zero => simp
    | succ j ih => rw [pow_succ', ← Matrix.mulVec_mulVec, ih, Matrix.mulVec_smul, he, smul_smul, pow_succ]
  obtain ⟨k, _, _, _, h4, _⟩ := C53_power A M hA b0 iter hi tol htol (by
    rw [hp]; exact smul_ne_zero (pow_ne_zero _ hlam) hb)
  rw [h4, hp, Matrix.mulVec_smul, he, smul_comm, dotProduct_smul, smul_eq_mul]
  refine mul_div_cancel_right₀ _ ?_
  rw [smul_dotProduct, dotProduct_smul, smul_eq_mul, smul_eq_mul, ← mul_assoc]
  refine mul_ne_zero (mul_ne_zero (pow_ne_zero _ hlam) (pow_ne_zero _ hlam)) ?_
  intro h
  exact hb (dotProduct_self_eq_zero.1 h)

/-- **C53, no iterations.**  With `iter = 0` the start value `1e20` comes back as the "eigenvalue". -/
theorem C53_zero_iter (A : LinOp n) (b0 : Vec n) (tol : ℝ) : powerIter A b0 0 tol = (1e20, b0, 0) := by
  unfold powerIter
  simp only [powerLoop]

/-- The hypotheses are met by a nonsymmetric matrix and a start vector that is not an eigenvector. -/
example : ∃ (M : Mat 2) (b0 : Vec 2), (∀ iter, (M ^ iter) *ᵥ b0 ≠ 0) ∧ ¬ ∃ lam : ℝ, M *ᵥ b0 = lam • b0 := by
  refine ⟨!![1, 1; 0, 1], ![0, 1], ?_, ?_⟩
  · intro iter h
    have : ∀ j, (((!![1, 1; 0, 1] : Mat 2) ^ j) *ᵥ ![0, 1]) 1 = 1 := by
      intro j
      induction j with
      | zero => simp
      | succ j ih =>
        rw [pow_succ', ← Matrix.mulVec_mulVec]
        simp [Matrix.mulVec, dotProduct, Fin.sum_univ_two] at ih ⊢
        exact ih
    have h2 := this iter
    rw [h] at h2
    simp at h2
  · rintro ⟨lam, h⟩
    have h0 := congrFun h 0
    simp [Matrix.mulVec, dotProduct, Fin.sum_univ_two] at h0

end
end Ormatex.Props
