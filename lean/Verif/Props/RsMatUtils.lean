import Verif.Model.RsMatUtils
import Verif.Props.ArnDecomp
import Mathlib.LinearAlgebra.Matrix.Block
import Mathlib.LinearAlgebra.Matrix.Rank
import Mathlib.LinearAlgebra.Matrix.ToLinearEquiv
import Mathlib.LinearAlgebra.Dimension.Constructions

/-!
C108: the matrix Arnoldi iterations and sparse helpers of `mat_utils.rs`.
-/

namespace Ormatex.Props
open Matrix Ormatex.Spec Ormatex.Rs
open scoped Classical
variable {n : ℕ}

/-! ### Triplets -/

/-- sum of the triplets at one position -/
private noncomputable def tsum (ts : List Triplet) (i j : ℕ) : ℝ :=
  ((ts.filter fun t => t.row = i ∧ t.col = j).map Triplet.val).sum

private theorem tsum_append (a b : List Triplet) (i j : ℕ) : tsum (a ++ b) i j = tsum a i j + tsum b i j := by
  simp [tsum]

private theorem tsum_col (h : List ℝ) (o c i j : ℕ) :
    tsum ((h.zipIdx o).map fun e => (⟨e.2, c, e.1⟩ : Triplet)) i j
      = if j = c ∧ o ≤ i then h.getD (i - o) 0 else 0 := by
  induction h generalizing o with
  | nil => simp [tsum]
  | cons x l ih =>
    rw [List.zipIdx_cons, List.map_cons, ← List.singleton_append, tsum_append, ih]
    by_cases hj : j = c
    · by_cases hi : o = i
      · subst hi
        simp [tsum, hj]
      · by_cases h2 : o ≤ i
        · have e : i - o = (i - (o + 1)) + 1 := by omega
          rw [e]
          simp [tsum, hj, hi, show o + 1 ≤ i by omega, h2]
        · simp [tsum, hj, hi, show ¬ o + 1 ≤ i by omega, h2]
    · simp [tsum, hj, Ne.symm hj]

private theorem tsum_cols (hs : List (List ℝ)) (o i j : ℕ) :
    tsum ((hs.zipIdx o).flatMap fun p => p.1.zipIdx.map fun e => (⟨e.2, p.2, e.1⟩ : Triplet)) i j
      = if o ≤ j then (hs.getD (j - o) []).getD i 0 else 0 := by
  induction hs generalizing o with
  | nil => simp [tsum]
  | cons x l ih =>
    rw [List.zipIdx_cons, List.flatMap_cons, tsum_append, ih]
    rw [tsum_col]
    by_cases h : j = o
    · subst h
      simp
    · by_cases h2 : o ≤ j
      · have e : j - o = (j - (o + 1)) + 1 := by omega
        rw [e]
        simp [h, h2, show o + 1 ≤ j by omega]
      · simp [h, h2, show ¬ o + 1 ≤ j by omega]

/-- entry `(i, j)` of the columns collected so far -/
def hsF (hs : List (List ℝ)) (i j : ℕ) : ℝ := (hs.getD j []).getD i 0

/-- basis vector `i` -/
def qsF (vs : List (Vec n)) (i : ℕ) : Vec n := vs.getD i 0

/-- the assembly succeeds and is square when column `j` has at most `K` entries and the last one exactly `K` -/
private theorem assemble_ok (square : Bool) (hs : List (List ℝ)) (vs : List (Vec n)) (K : ℕ) (hK : 0 < K) (h1 : hs.length = K)
    (h2 : vs.length = K) (h3 : ∀ h ∈ hs, h.length ≤ K) (h4 : (hs.getD (K - 1) []).length = K) :
    assembleQH square hs vs = .ok ⟨K, Matrix.of fun i j => qsF vs j i, K, K, Matrix.of fun i j => hsF hs i j⟩ := by
  have e1 : ((hs.map List.length).getLast?).getD 0 = K := by
    rw [List.getLast?_eq_getElem?, List.length_map, h1, List.getElem?_map]
    rw [List.getD_eq_getElem?_getD, List.getElem?_eq_getElem (by omega)] at h4
    rw [List.getElem?_eq_getElem (by omega)]
    simpa using h4
  have e2 : fromTriplets K K (hs.zipIdx.flatMap fun p => p.1.zipIdx.map fun e => (⟨e.2, p.2, e.1⟩ : Triplet))
      = .ok (Matrix.of fun i j => hsF hs i j) := by
    unfold fromTriplets
    rw [if_pos]
    · congr 1
      ext i j
      have := tsum_cols hs 0 i j
      rw [if_pos (Nat.zero_le _), Nat.sub_zero] at this
      exact this
    · intro t ht
      rw [List.mem_flatMap] at ht
      obtain ⟨⟨h, c⟩, hp, ht⟩ := ht
      rw [List.mem_map] at ht
      obtain ⟨⟨x, r⟩, he, rfl⟩ := ht
      have a1 := List.mem_zipIdx hp
      have a2 := List.mem_zipIdx he
      simp only at a1 a2 ⊢
      have := h3 h (by rw [a1.2.2]; exact List.getElem_mem _)
      omega
  unfold assembleQH
  generalize ((hs.map List.length).getLast?).getD 0 = r at e1 ⊢
  subst e1
  generalize hs.length = c at h1 ⊢
  subst h1
  simp only
  rw [e2]
  subst h2
  show (if _ then _ else _) = _
  rw [if_neg]
  · rfl
  · rintro ⟨_, h⟩
    exact h ⟨hK, hK, trivial⟩

/-- **C108 (`dense_to_sprs`).** The sparse matrix holds exactly the entries of the dense one. -/
theorem C108_dense_to_sprs {r c : ℕ} (a : Matrix (Fin r) (Fin c) ℝ) : denseToSprs a = .ok a := by
  unfold denseToSprs fromTriplets
  rw [if_pos]
  · congr 1
    ext i j
    show tsum _ i j = a i j
    have hrow : ∀ (p : Fin r) (l : List (Fin c)), l.Nodup →
        tsum (l.filterMap fun q => if |a p q| ≠ 0 then some (⟨p, q, a p q⟩ : Triplet) else none) i j
          = if p = i ∧ j ∈ l then a i j else 0 := by
      intro p l hl
      induction l with
      | nil => simp [tsum]
      | cons q l ih =>
        have hq := List.nodup_cons.mp hl
        rw [List.filterMap_cons]
        have ih' := ih hq.2
        by_cases h0 : a p q = 0
        · simp only [h0, abs_zero, ne_eq, not_true_eq_false, if_false]
          rw [ih']
          by_cases hp : p = i
          · subst hp
            by_cases hj : j = q
            · subst hj
              simp [h0]
            · simp [hj]
          · simp [hp]
        · simp only [abs_ne_zero.mpr h0, ne_eq, not_false_eq_true, if_true]
          rw [← List.singleton_append, tsum_append, ih']
          by_cases hp : p = i
          · subst hp
            by_cases hj : j = q
            · subst hj
              simp [tsum, hq.1]
            · have : (q : ℕ) ≠ j := fun h => hj (Fin.ext h.symm)
              simp [tsum, hj, this]
          · have : (p : ℕ) ≠ i := fun h => hp (Fin.ext h)
            simp [tsum, hp, this]
    have hall : ∀ l : List (Fin r), l.Nodup →
        tsum (l.flatMap fun p => (List.finRange c).filterMap fun q =>
          if |a p q| ≠ 0 then some (⟨p, q, a p q⟩ : Triplet) else none) i j = if i ∈ l then a i j else 0 := by
      intro l hl
      induction l with
      | nil => simp [tsum]
      | cons p l ih =>
        have hp := List.nodup_cons.mp hl
        rw [List.flatMap_cons, tsum_append, ih hp.2, hrow p _ (List.nodup_finRange c)]
        by_cases h : p = i
        · subst h
          simp [hp.1]
        · simp [h, Ne.symm h]
    rw [hall _ (List.nodup_finRange r), if_pos (List.mem_finRange i)]
  · intro t ht
    rw [List.mem_flatMap] at ht
    obtain ⟨i, _, ht⟩ := ht
    rw [List.mem_filterMap] at ht
    obtain ⟨j, _, ht⟩ := ht
    split_ifs at ht
    cases ht
    exact ⟨i.2, j.2⟩

/-- **C108 (`sparse_ident`).** -/
theorem C108_sparse_ident (d : ℕ) : sparseIdent d = .ok 1 := by
  unfold sparseIdent fromTriplets
  rw [if_pos]
  · congr 1
    ext i j
    show tsum _ i j = (1 : Mat d) i j
    have h : ∀ N, tsum ((List.range N).map fun q => (⟨q, q, 1⟩ : Triplet)) i j = if (i : ℕ) = j ∧ (i : ℕ) < N then 1 else 0 := by
      intro N
      induction N with
      | zero => simp [tsum]
      | succ N ih =>
        rw [List.range_succ, List.map_append, tsum_append, ih]
        have e : tsum ([N].map fun q => (⟨q, q, 1⟩ : Triplet)) i j = if N = (i : ℕ) ∧ N = (j : ℕ) then 1 else 0 := by
          by_cases h4 : N = (i : ℕ) ∧ N = (j : ℕ)
          · obtain ⟨rfl, h5⟩ := h4
            simp [tsum, ← h5]
          · rw [if_neg h4]
            simp only [tsum, List.map_cons, List.map_nil, List.filter_cons, h4, decide_false]
            simp
        rw [e]
        by_cases h1 : (i : ℕ) = j ∧ (i : ℕ) < N
        · rw [if_pos h1, if_neg (by omega), if_pos (by omega), add_zero]
        · by_cases h3 : N = (i : ℕ) ∧ N = (j : ℕ)
          · rw [if_neg h1, if_pos h3, if_pos (by omega), zero_add]
          · rw [if_neg h1, if_neg h3, if_neg (by omega), add_zero]
    rw [h d, Matrix.one_apply]
    by_cases hij : i = j
    · subst hij
      simp
    · have : (i : ℕ) ≠ j := fun h => hij (Fin.ext h)
      simp [hij, this]
  · intro t ht
    rw [List.mem_map] at ht
    obtain ⟨i, hi, rfl⟩ := ht
    exact ⟨List.mem_range.mp hi, List.mem_range.mp hi⟩

/-! ### One pass -/

private theorem gs_spec (q : List (Vec n)) (k : ℕ) (c : ℕ) : ∀ (a : ℕ) (h : List ℝ) (hs : ℕ → ℕ → ℝ) (qv : Vec n), h.length = a →
    (∀ i < a, h.getD i 0 = hs i k) →
    let o := (List.range' a c).foldl (orthoBody (qsF q) k) ⟨hs, qv⟩
    let g := gsLoop q (List.range' a c) h qv
    g.2 = o.qv ∧ g.1.length = a + c ∧ ∀ i < a + c, g.1.getD i 0 = o.hs i k := by
  induction c with
  | zero => intro a h hs qv h1 h2; exact ⟨rfl, h1, h2⟩
  | succ c ih =>
    intro a h hs qv h1 h2
    simp only [List.range'_succ, List.foldl_cons, gsLoop]
    have key := ih (a + 1) (h ++ [qv ⬝ᵥ q.getD a 0])
      (Function.update hs a (Function.update (hs a) k (qv ⬝ᵥ qsF q a))) (qv - (qv ⬝ᵥ q.getD a 0) • q.getD a 0) (by simp [h1]) ?_
    · refine ⟨key.1, by rw [key.2.1]; omega, fun i hi => key.2.2 i (by omega)⟩
    · intro i hi
      by_cases hia : i = a
      · subst hia
        rw [Function.update_self, Function.update_self, List.getD_eq_getElem?_getD, List.getElem?_append_right (by omega)]
        simp [h1, qsF]
      · rw [Function.update_of_ne hia, List.getD_eq_getElem?_getD, List.getElem?_append_left (by omega),
          ← List.getD_eq_getElem?_getD]
        exact h2 i (by omega)

private theorem hsF_old (hs : List (List ℝ)) (x : List ℝ) (i j : ℕ) (hj : j ≠ hs.length) : hsF (hs ++ [x]) i j = hsF hs i j := by
  unfold hsF
  congr 1
  simp only [List.getD_eq_getElem?_getD]
  rcases Nat.lt_or_gt_of_ne hj with h | h
  · rw [List.getElem?_append_left h]
  · rw [List.getElem?_eq_none (by simp; omega), List.getElem?_eq_none (by omega)]

private theorem hsF_new (hs : List (List ℝ)) (x : List ℝ) (i : ℕ) : hsF (hs ++ [x]) i hs.length = x.getD i 0 := by
  unfold hsF
  congr 1
  simp

/-- one pass: what the orthogonalisation leaves, whether the process stops or goes on -/
private theorem pass (f : Vec n → Vec n) (M k : ℕ) (hk : k < M) (hs : List (List ℝ)) (vs : List (Vec n)) (h1 : hs.length = k)
    (h2 : vs.length = k + 1) (core : ArnCore f M (hsF hs) (qsF vs) k (k + 1)) :
    let g := gsLoop vs (List.range (k + 1)) [] (f (vs.getD k 0))
    g.1.length = k + 1
      ∧ (ArnCore f M (hsF (hs ++ [g.1])) (qsF vs) (k + 1) (k + 1) ∧ resid f (hsF (hs ++ [g.1])) (qsF vs) k = g.2
        ∧ ∀ j < k, resid f (hsF (hs ++ [g.1])) (qsF vs) j = resid f (hsF hs) (qsF vs) j)
      ∧ (norm2 g.2 ≠ 0 →
        ArnCore f M (hsF (hs ++ [g.1 ++ [norm2 g.2]])) (qsF (vs ++ [(1 / norm2 g.2) • g.2])) (k + 1) (k + 2)
        ∧ resid f (hsF (hs ++ [g.1 ++ [norm2 g.2]])) (qsF (vs ++ [(1 / norm2 g.2) • g.2])) k = g.2
        ∧ ∀ j < k, resid f (hsF (hs ++ [g.1 ++ [norm2 g.2]])) (qsF (vs ++ [(1 / norm2 g.2) • g.2])) j
            = resid f (hsF hs) (qsF vs) j) := by
  intro g
  have hk0 : k - M = 0 := by omega
  set o := (List.range' 0 (k + 1)).foldl (orthoBody (qsF vs) k) ⟨hsF hs, f (qsF vs k)⟩ with ho
  obtain ⟨g1, g2, g3⟩ := gs_spec vs k (k + 1) 0 [] (hsF hs) (f (qsF vs k)) rfl (by intro i hi; omega)
  rw [← List.range_eq_range'] at g1 g2 g3
  rw [List.range_eq_range', ← ho] at g1 g3
  rw [← List.range_eq_range'] at g1 g3
  change g.2 = o.qv at g1
  change g.1.length = _ at g2
  change ∀ i < 0 + (k + 1), g.1.getD i 0 = o.hs i k at g3
  obtain ⟨_, of⟩ := ortho_fold (qsF vs) k 0 (k + 1) ⟨hsF hs, f (qsF vs k)⟩
  rw [← ho] at of
  simp only at of
  have ho' : o = (List.range' (k - M) (k + 1 - (k - M))).foldl (orthoBody (qsF vs) k) ⟨hsF hs, f (qsF vs k)⟩ := by
    rw [hk0]; exact ho
  have hlen : g.1.length = k + 1 := by omega
  refine ⟨hlen, ?_, ?_⟩
  · have := core.step o ho' (hsF (hs ++ [g.1])) (qsF vs) False ?_ (fun _ _ => rfl) (fun h => h.elim)
    · rw [if_neg (fun h => h), ← g1] at this
      exact this
    · intro i j hij
      by_cases hj : j = k
      · subst hj
        rw [← h1, hsF_new, h1]
        rcases Nat.lt_or_ge i (j + 1) with hi | hi
        · exact g3 i (by omega)
        · rw [of i j (by omega), core.fresh i j (le_refl _), List.getD_eq_getElem?_getD, List.getElem?_eq_none (by omega)]
          rfl
      · rw [hsF_old _ _ _ _ (by omega), of i j (Or.inl hj)]
  · intro hne
    have := core.step o ho' (hsF (hs ++ [g.1 ++ [norm2 g.2]])) (qsF (vs ++ [(1 / norm2 g.2) • g.2])) True ?_ ?_ ?_
    · rw [if_pos trivial, ← g1] at this
      exact this
    · intro i j hij
      by_cases hj : j = k
      · subst hj
        rw [← h1, hsF_new, h1]
        rcases Nat.lt_or_ge i (j + 1) with hi | hi
        · rw [← g3 i (by omega), List.getD_eq_getElem?_getD, List.getElem?_append_left (by omega),
            ← List.getD_eq_getElem?_getD]
        · rw [of i j (by omega), core.fresh i j (le_refl _), List.getD_eq_getElem?_getD,
            List.getElem?_eq_none (by simp; omega)]
          rfl
      · rw [hsF_old _ _ _ _ (by omega), of i j (Or.inl hj)]
    · intro j hj
      unfold qsF
      rw [List.getD_eq_getElem?_getD, List.getElem?_append_left (by omega), ← List.getD_eq_getElem?_getD]
    · intro _
      rw [← g1]
      refine ⟨hne, ?_, ?_⟩
      · rw [← h1, hsF_new, List.getD_eq_getElem?_getD, List.getElem?_append_right (by omega)]
        simp [hlen, h1]
      · unfold qsF
        rw [List.getD_eq_getElem?_getD, List.getElem?_append_right (by omega)]
        simp [h2]

/-! ### The loops -/

/-- what a finished iteration leaves behind -/
private structure Fin' (f : Vec n → Vec n) (m : ℕ) (hs : List (List ℝ)) (vs : List (Vec n)) (K : ℕ) : Prop where
  pos : 0 < K
  hlen : hs.length = K
  vlen : vs.length = K
  cols : ∀ h ∈ hs, h.length ≤ K
  last : (hs.getD (K - 1) []).length = K
  core : ArnCore f m (hsF hs) (qsF vs) K K

private theorem lo_loop (A : MatrixLinOp n) (t scale : ℝ) (v0 : Vec n) (m : ℕ) (r : ℕ) : ∀ (k : ℕ) (hs : List (List ℝ))
    (vs : List (Vec n)), k + r = m → 0 < r → hs.length = k → vs.length = k + 1 → (∀ h ∈ hs, h.length ≤ k + 1) →
    ArnCore (fun x => A.apply t v0 x (some scale)) m (hsF hs) (qsF vs) k (k + 1) →
    (∀ j < k, 1e-14 ≤ norm2 (resid (fun x => A.apply t v0 x (some scale)) (hsF hs) (qsF vs) j)) →
    ∃ hs' vs' bn K, arnoldiLoLoop A t scale v0 m r k hs vs = (hs', vs', bn)
      ∧ Fin' (fun x => A.apply t v0 x (some scale)) m hs' vs' K ∧ K ≤ m ∧ qsF vs' 0 = qsF vs 0
      ∧ (bn = -1 ∧ K = m ∧ 1e-14 ≤ norm2 (resid (fun x => A.apply t v0 x (some scale)) (hsF hs') (qsF vs') (K - 1))
        ∨ bn = (K : ℤ) - 1 ∧ norm2 (resid (fun x => A.apply t v0 x (some scale)) (hsF hs') (qsF vs') (K - 1)) < 1e-14)
      ∧ ∀ j, j + 1 < K → 1e-14 ≤ norm2 (resid (fun x => A.apply t v0 x (some scale)) (hsF hs') (qsF vs') j) := by
  induction r with
  | zero => intro k hs vs _ h; omega
  | succ r ih =>
    intro k hs vs hkm _ h1 h2 h3 core hbig
    obtain ⟨g1, ⟨g2, g3, g3'⟩, g4⟩ := pass _ m k (by omega) hs vs h1 h2 core
    rw [arnoldiLoLoop]
    unfold arnoldiInnerLo
    simp only
    set g := gsLoop vs (List.range (k + 1)) [] (A.apply t v0 (vs.getD k 0) (some scale)) with hg
    have htol : loBreakdownTol = 1e-14 := rfl
    have fin : Fin' (fun x => A.apply t v0 x (some scale)) m (hs ++ [g.1]) vs (k + 1) := by
      refine ⟨by omega, by simp [h1], h2, ?_, ?_, g2⟩
      · intro h hh
        rcases List.mem_append.mp hh with hh | hh
        · exact h3 h hh
        · rw [List.mem_singleton] at hh
          rw [hh, g1]
      · rw [Nat.add_sub_cancel, ← h1]
        simp [g1, h1]
    by_cases hb : norm2 g.2 < loBreakdownTol
    · have hgo : ¬ (k + 1 < m ∧ loBreakdownTol ≤ norm2 g.2) := fun h => absurd hb (not_lt.mpr h.2)
      rw [if_pos hb, if_neg hgo]
      refine ⟨_, _, _, k + 1, rfl, fin, by omega, rfl, Or.inr ⟨by push_cast; ring, ?_⟩, fun j hj => ?_⟩
      · rw [Nat.add_sub_cancel, g3]
        exact hb
      · rw [g3' j (by omega)]
        exact hbig j (by omega)
    · rw [if_neg hb]
      have hle : loBreakdownTol ≤ norm2 g.2 := not_lt.mp hb
      rcases Nat.eq_zero_or_pos r with rfl | hr
      · have hgo : ¬ (k + 1 < m ∧ loBreakdownTol ≤ norm2 g.2) := fun h => by omega
        rw [if_neg hgo, if_neg hgo]
        simp only
        rw [arnoldiLoLoop, if_neg (by omega)]
        refine ⟨_, _, _, k + 1, rfl, fin, by omega, rfl, Or.inl ⟨rfl, by omega, ?_⟩, fun j hj => ?_⟩
        · rw [Nat.add_sub_cancel, g3]
          exact hle
        · rw [g3' j (by omega)]
          exact hbig j (by omega)
      · have hgo : (k + 1 < m ∧ loBreakdownTol ≤ norm2 g.2) := ⟨by omega, hle⟩
        rw [if_pos hgo, if_pos hgo]
        simp only
        rw [if_pos hgo.1]
        have hne : norm2 g.2 ≠ 0 := by
          rw [htol] at hle
          have : (0 : ℝ) < 1e-14 := by norm_num
          exact (lt_of_lt_of_le this hle).ne'
        obtain ⟨c1, c2, c3⟩ := g4 hne
        obtain ⟨hs', vs', bn, K, e, p1, p2, p3, p4, p5⟩ := ih (k + 1) (hs ++ [g.1 ++ [norm2 g.2]])
          (vs ++ [(1 / norm2 g.2) • g.2]) (by omega) hr (by simp [h1]) (by simp [h2]) (by
            intro h hh
            rcases List.mem_append.mp hh with hh | hh
            · have := h3 h hh; omega
            · rw [List.mem_singleton] at hh
              rw [hh, List.length_append, g1]
              simp) c1 (by
            intro j hj
            by_cases hjk : j = k
            · subst hjk
              rw [c2]
              exact hle
            · rw [c3 j (by omega)]
              exact hbig j (by omega))
        refine ⟨hs', vs', bn, K, e, p1, p2, ?_, p4, p5⟩
        rw [p3]
        unfold qsF
        rw [List.getD_eq_getElem?_getD, List.getElem?_append_left (by omega), ← List.getD_eq_getElem?_getD]

private theorem mat_loop (a : Mat n) (m : ℕ) (r : ℕ) : ∀ (k : ℕ) (hs : List (List ℝ))
    (vs : List (Vec n)), k + r = m → 0 < r → hs.length = k → vs.length = k + 1 → (∀ h ∈ hs, h.length ≤ k + 1) →
    ArnCore (fun x => a *ᵥ x) m (hsF hs) (qsF vs) k (k + 1) →
    (∀ j < k, resid (fun x => a *ᵥ x) (hsF hs) (qsF vs) j ≠ 0) →
    (∃ hs' vs', arnoldiMatLoop a m r k hs vs = .ok (hs', vs')
      ∧ Fin' (fun x => a *ᵥ x) m hs' vs' m ∧ qsF vs' 0 = qsF vs 0
      ∧ ∀ j, j + 1 < m → resid (fun x => a *ᵥ x) (hsF hs') (qsF vs') j ≠ 0)
    ∨ (arnoldiMatLoop a m r k hs vs = .error .nan ∧ ∃ hs' vs' K, K < m
      ∧ Fin' (fun x => a *ᵥ x) m hs' vs' K ∧ qsF vs' 0 = qsF vs 0
      ∧ resid (fun x => a *ᵥ x) (hsF hs') (qsF vs') (K - 1) = 0) := by
  induction r with
  | zero => intro k hs vs _ h; omega
  | succ r ih =>
    intro k hs vs hkm _ h1 h2 h3 core hbig
    obtain ⟨g1, ⟨g2, g3, g3'⟩, g4⟩ := pass _ m k (by omega) hs vs h1 h2 core
    rw [arnoldiMatLoop]
    unfold arnoldiInnerMat
    simp only
    set g := gsLoop vs (List.range (k + 1)) [] (a *ᵥ vs.getD k 0) with hg
    have fin : Fin' (fun x => a *ᵥ x) m (hs ++ [g.1]) vs (k + 1) := by
      refine ⟨by omega, by simp [h1], h2, ?_, ?_, g2⟩
      · intro h hh
        rcases List.mem_append.mp hh with hh | hh
        · exact h3 h hh
        · rw [List.mem_singleton] at hh
          rw [hh, g1]
      · rw [Nat.add_sub_cancel, ← h1]
        simp [g1, h1]
    rcases Nat.eq_zero_or_pos r with rfl | hr
    · left
      rw [if_neg (by omega)]
      have hm : k + 1 = m := by omega
      refine ⟨hs ++ [g.1], vs, ?_, ?_, rfl, fun j hj => ?_⟩
      · show arnoldiMatLoop a m 0 (k + 1) (hs ++ [g.1]) (if k + 1 < m then vs ++ [g.2] else vs) = _
        rw [arnoldiMatLoop, if_neg (by omega)]
      · rw [hm] at fin
        exact fin
      · rw [g3' j (by omega)]
        exact hbig j (by omega)
    · rw [if_pos (by omega)]
      by_cases hz : norm2 g.2 = 0
      · right
        rw [if_pos hz]
        refine ⟨rfl, hs ++ [g.1], vs, k + 1, by omega, fin, rfl, ?_⟩
        rw [Nat.add_sub_cancel, g3]
        exact norm2_eq_zero.mp hz
      · rw [if_neg hz]
        obtain ⟨c1, c2, c3⟩ := g4 hz
        have key := ih (k + 1) (hs ++ [g.1 ++ [norm2 g.2]])
          (vs ++ [(1 / norm2 g.2) • g.2]) (by omega) hr (by simp [h1]) (by simp [h2]) (by
            intro h hh
            rcases List.mem_append.mp hh with hh | hh
            · have := h3 h hh; omega
            · rw [List.mem_singleton] at hh
              rw [hh, List.length_append, g1]
              simp) c1 (by
            intro j hj
            by_cases hjk : j = k
            · subst hjk
              rw [c2]
              exact fun h => hz (norm2_eq_zero.mpr h)
            · rw [c3 j (by omega)]
              exact hbig j (by omega))
        have hq0 : qsF (vs ++ [(1 / norm2 g.2) • g.2]) 0 = qsF vs 0 := by
          unfold qsF
          rw [List.getD_eq_getElem?_getD, List.getElem?_append_left (by omega), ← List.getD_eq_getElem?_getD]
        rw [hq0] at key
        have e : (Bind.bind (Except.ok (g.1 ++ [norm2 g.2], (1 / norm2 g.2) • g.2) : RsM (List ℝ × Vec n)) fun p =>
            arnoldiMatLoop a m r (k + 1) (hs ++ [p.1]) (if k + 1 < m then vs ++ [p.2] else vs))
            = arnoldiMatLoop a m r (k + 1) (hs ++ [g.1 ++ [norm2 g.2]]) (vs ++ [(1 / norm2 g.2) • g.2]) := by
          show arnoldiMatLoop a m r (k + 1) (hs ++ [g.1 ++ [norm2 g.2]])
            (if k + 1 < m then vs ++ [(1 / norm2 g.2) • g.2] else vs) = _
          rw [if_pos (by omega)]
        rw [← e] at key
        exact key

/-! ### The results -/

/-- An Arnoldi factorisation of `Z` started at `b`: orthonormal columns, the first along `b`, a Hessenberg matrix which is the
projection of `Z`, and a residual in the last column that is orthogonal to all columns. -/
structure ArnoldiFact (Z : Mat n) (b : Vec n) (K : ℕ) (Q : Matrix (Fin n) (Fin K) ℝ) (H : Mat K) (r : Vec n) : Prop where
  orthonormal : Qᵀ * Q = 1
  start : norm2 b • (Q *ᵥ firstUnit K) = b
  hessenberg : ∀ i j : Fin K, (j : ℕ) + 1 < i → H i j = 0
  relation : Z * Q = Q * H + Matrix.of fun i (j : Fin K) => if (j : ℕ) + 1 = K then r i else 0
  residual : Qᵀ *ᵥ r = 0
  projected : H = Qᵀ * Z * Q

private theorem fin_fact {Z : Mat n} {f : Vec n → Vec n} (hf : ∀ x, f x = Z *ᵥ x) {m K : ℕ} {hs : List (List ℝ)} {vs : List (Vec n)}
    (F : Fin' f m hs vs K) (hKm : K ≤ m) (b : Vec n) (hb : norm2 b ≠ 0) (hq : qsF vs 0 = (1 / norm2 b) • b) :
    ArnoldiFact Z b K (Matrix.of fun i j => qsF vs j i) (Matrix.of fun i j => hsF hs i j) (resid f (hsF hs) (qsF vs) (K - 1)) := by
  have D := F.core.decomp hf F.pos
  have ho : (Matrix.of fun i (j : Fin K) => qsF vs j i)ᵀ * (Matrix.of fun i (j : Fin K) => qsF vs j i) = 1 := by
    ext i j
    rw [Matrix.mul_apply, Matrix.one_apply]
    show qsF vs i ⬝ᵥ qsF vs j = _
    by_cases hij : i = j
    · subst hij
      rw [if_pos rfl, ← norm2_sq, F.core.unit i i.2, one_mul]
    · rw [if_neg hij]
      have hne : (i : ℕ) ≠ j := fun h => hij (Fin.ext h)
      rcases Nat.lt_or_gt_of_ne hne with hlt | hlt
      · exact F.core.orth i j hlt j.2 (by omega)
      · rw [dotProduct_comm]
        exact F.core.orth j i hlt i.2 (by omega)
  have hr : (Matrix.of fun i (j : Fin K) => qsF vs j i)ᵀ *ᵥ resid f (hsF hs) (qsF vs) (K - 1) = 0 := by
    funext i
    show qsF vs i ⬝ᵥ _ = 0
    rw [dotProduct_comm]
    have := i.2
    exact F.core.resOrth i (K - 1) (by omega) (by have := F.pos; omega) (by omega)
  have hrel : Z * (Matrix.of fun i (j : Fin K) => qsF vs j i) = (Matrix.of fun i (j : Fin K) => qsF vs j i)
      * (Matrix.of fun (i j : Fin K) => hsF hs i j)
      + Matrix.of fun i (j : Fin K) => if (j : ℕ) + 1 = K then resid f (hsF hs) (qsF vs) (K - 1) i else 0 := by
    ext i j
    have := congrFun (D.rel j) i
    rw [Matrix.add_apply, Matrix.mul_apply, Matrix.mul_apply]
    rw [Pi.add_apply] at this
    refine this.trans ?_
    congr 1
    show _ = (if (j : ℕ) + 1 = K then resid f (hsF hs) (qsF vs) (K - 1) i else 0)
    split_ifs <;> rfl
  refine ⟨ho, ?_, D.hess, hrel, hr, ?_⟩
  · rw [mulVec_firstUnit F.pos]
    show norm2 b • qsF vs 0 = b
    rw [hq, smul_smul, mul_one_div_cancel hb, one_smul]
  · rw [Matrix.mul_assoc, hrel, Matrix.mul_add, ← Matrix.mul_assoc, ho, Matrix.one_mul]
    have : (Matrix.of fun i (j : Fin K) => qsF vs j i)ᵀ
        * (Matrix.of fun i (j : Fin K) => if (j : ℕ) + 1 = K then resid f (hsF hs) (qsF vs) (K - 1) i else 0) = 0 := by
      ext i j
      by_cases hj : (j : ℕ) + 1 = K
      · have := congrFun hr i
        rw [Matrix.mul_apply]
        simp only [Matrix.of_apply, hj, if_true]
        exact this
      · rw [Matrix.mul_apply]
        simp [hj]
    rw [this, add_zero]

theorem ArnoldiFact.dim_le {Z : Mat n} {b : Vec n} {K : ℕ} {Q : Matrix (Fin n) (Fin K) ℝ} {H : Mat K} {r : Vec n}
    (F : ArnoldiFact Z b K Q H r) : K ≤ n := by
  have h1 : (Qᵀ * Q).rank ≤ Q.rank := Matrix.rank_mul_le_right _ _
  rw [F.orthonormal, Matrix.rank_one, Fintype.card_fin] at h1
  exact h1.trans ((Matrix.rank_le_card_height Q).trans (by rw [Fintype.card_fin]))

/-- the entry `j` of `H^j e_1` is a product of subdiagonal entries -/
private theorem hess_lead {K : ℕ} (H : Mat K) (hH : ∀ i j : Fin K, (j : ℕ) + 1 < i → H i j = 0)
    (hsub : ∀ i j : Fin K, (i : ℕ) = j + 1 → H i j ≠ 0) (j : ℕ) (hj : j < K) : (H ^ j *ᵥ firstUnit K) ⟨j, hj⟩ ≠ 0 := by
  induction j with
  | zero =>
    rw [pow_zero, Matrix.one_mulVec]
    unfold firstUnit
    simp
  | succ j ih =>
    rw [pow_succ', ← Matrix.mulVec_mulVec]
    show ∑ q, H ⟨j + 1, hj⟩ q * (H ^ j *ᵥ firstUnit K) q ≠ 0
    rw [Finset.sum_eq_single ⟨j, by omega⟩]
    · exact mul_ne_zero (hsub _ _ rfl) (ih (by omega))
    · intro q _ hq
      have hne : (q : ℕ) ≠ j := fun h => hq (Fin.ext h)
      rcases Nat.lt_or_gt_of_ne hne with hlt | hlt
      · rw [hH ⟨j + 1, hj⟩ q (by simp only; omega), zero_mul]
      · rw [hess_support H hH j q hlt, mul_zero]
    · intro h
      exact absurd (Finset.mem_univ _) h

/-- **C108 (`arnoldi_lo`).** For every operator that acts as a matrix `M` at `(t, b)`, every scale, nonzero `b` and `m ≥ 1`, the
call returns an Arnoldi factorisation of `scale M` with `K ≤ min n m` columns.  The flag is `-1` exactly when all `m` columns
were built and the last residual is at least `1e-14`, otherwise it is the index of the last column, whose residual is below
`1e-14`; all subdiagonal entries are at least `1e-14`. -/
theorem C108_arnoldi_lo (A : MatrixLinOp n) (t scale : ℝ) (b : Vec n) (hb : b ≠ 0) (m : ℕ) (hm : 0 < m) (M : Mat n)
    (hA : ∀ w s, A.apply t b w (some s) = s • (M *ᵥ w)) :
    ∃ (K : ℕ) (Q : Matrix (Fin n) (Fin K) ℝ) (H : Mat K) (bn : ℤ) (r : Vec n),
      arnoldiLo A t scale b m = .ok (⟨K, Q, K, K, H⟩, bn)
      ∧ 0 < K ∧ K ≤ min n m
      ∧ ArnoldiFact (scale • M) b K Q H r
      ∧ (bn = -1 ∧ K = m ∧ 1e-14 ≤ norm2 r ∨ bn = (K : ℤ) - 1 ∧ norm2 r < 1e-14)
      ∧ ∀ i j : Fin K, (i : ℕ) = j + 1 → 1e-14 ≤ |H i j| := by
  have hb0 : norm2 b ≠ 0 := (norm2_pos hb).ne'
  have hq0 : qsF [(1 / norm2 b) • b] 0 = (1 / norm2 b) • b := rfl
  have hcore : ArnCore (fun x => A.apply t b x (some scale)) m (hsF []) (qsF [(1 / norm2 b) • b]) 0 1 := by
    have := ArnCore.init (fun x => A.apply t b x (some scale)) m (qsF [(1 / norm2 b) • b]) (by
      rw [hq0, norm2_smul, abs_of_pos (by have := norm2_pos hb; positivity)]
      exact one_div_mul_cancel hb0)
    have e : hsF [] = fun _ _ => (0 : ℝ) := by
      funext i j
      simp [hsF]
    rw [e]
    exact this
  obtain ⟨hs, vs, bn, K, e, F, hK, hst, hflag, hsub⟩ := lo_loop A t scale b m m 0 [] [(1 / norm2 b) • b] (by omega) hm rfl rfl
    (by simp) hcore (by intro j hj; omega)
  have hf : ∀ x, (fun x => A.apply t b x (some scale)) x = (scale • M) *ᵥ x := by
    intro x
    simp only
    rw [hA, Matrix.smul_mulVec]
  have fact := fin_fact hf F hK b hb0 (hst.trans hq0)
  refine ⟨K, _, _, bn, _, ?_, F.pos, le_min fact.dim_le hK, fact, hflag, ?_⟩
  · unfold arnoldiLo
    rw [if_neg hb0]
    simp only [e]
    rw [assemble_ok true hs vs K F.pos F.hlen F.vlen F.cols F.last]
    rfl
  · intro i j hij
    have hi := i.2
    have h1 := hsub j (by omega)
    rw [F.core.next j (by omega) (by omega), norm2_smul, F.core.unit _ (by omega), mul_one] at h1
    show 1e-14 ≤ |hsF hs i j|
    rw [hij]
    exact h1

/-- **C108 (`arnoldi_lo` refuses).** The zero vector gives NaN and `m = 0` fails an assertion. -/
theorem C108_arnoldi_lo_refuses (A : MatrixLinOp n) (t scale : ℝ) (b : Vec n) :
    (∀ m, arnoldiLo A t scale (0 : Vec n) m = .error .nan) ∧ (b ≠ 0 → arnoldiLo A t scale b 0 = .error .panic) := by
  refine ⟨fun m => ?_, fun hb => ?_⟩
  · unfold arnoldiLo
    rw [if_pos norm2_zero]
  · unfold arnoldiLo
    rw [if_neg (norm2_pos hb).ne']
    simp only [arnoldiLoLoop]
    unfold assembleQH fromTriplets
    simp
    rfl

/-- **C108 (`arnoldi`).** For every matrix, nonzero `b` and `m ≥ 1` the result is finite exactly when the first `m` Krylov
vectors `b, A b, …, A^(m-1) b` are linearly independent, and then it is an Arnoldi factorisation with `m` columns. -/
theorem C108_arnoldi (a : Mat n) (b : Vec n) (hb : b ≠ 0) (m : ℕ) (hm : 0 < m) :
    (LinearIndependent ℝ (fun j : Fin m => a ^ (j : ℕ) *ᵥ b) →
      ∃ (Q : Matrix (Fin n) (Fin m) ℝ) (H : Mat m) (r : Vec n), arnoldiMat a b m = .ok ⟨m, Q, m, m, H⟩
        ∧ ArnoldiFact a b m Q H r ∧ ∀ i j : Fin m, (i : ℕ) = j + 1 → H i j ≠ 0)
    ∧ (¬ LinearIndependent ℝ (fun j : Fin m => a ^ (j : ℕ) *ᵥ b) → arnoldiMat a b m = .error .nan) := by
  have hb0 : norm2 b ≠ 0 := (norm2_pos hb).ne'
  have hq0 : qsF [(1 / norm2 b) • b] 0 = (1 / norm2 b) • b := rfl
  have hcore : ArnCore (fun x => a *ᵥ x) m (hsF []) (qsF [(1 / norm2 b) • b]) 0 1 := by
    have := ArnCore.init (fun x => a *ᵥ x) m (qsF [(1 / norm2 b) • b]) (by
      rw [hq0, norm2_smul, abs_of_pos (by have := norm2_pos hb; positivity)]
      exact one_div_mul_cancel hb0)
    have e : hsF [] = fun _ _ => (0 : ℝ) := by
      funext i j
      simp [hsF]
    rw [e]
    exact this
  have hstart : ∀ {K : ℕ} {Q : Matrix (Fin n) (Fin K) ℝ}, norm2 b • (Q *ᵥ firstUnit K) = b → ∀ j : ℕ,
      a ^ j *ᵥ b = norm2 b • (a ^ j *ᵥ (Q *ᵥ firstUnit K)) := by
    intro K Q h j
    rw [← Matrix.mulVec_smul, h]
  rcases mat_loop a m m 0 [] [(1 / norm2 b) • b] (by omega) hm rfl rfl (by simp) hcore (by intro j hj; omega) with
    ⟨hs, vs, e, F, hst, hsub⟩ | ⟨e, hs, vs, K, hK, F, hst, hres⟩
  · have fact := fin_fact (Z := a) (fun _ => rfl) F (le_refl m) b hb0 (hst.trans hq0)
    have D := F.core.decomp (Z := a) (fun _ => rfl) F.pos
    have hsub' : ∀ i j : Fin m, (i : ℕ) = j + 1 → (Matrix.of fun (i j : Fin m) => hsF hs i j) i j ≠ 0 := by
      intro i j hij h0
      have hi := i.2
      refine hsub j (by omega) ?_
      rw [F.core.next j (by omega) (by omega)]
      have : hsF hs i j = 0 := h0
      rw [hij] at this
      rw [this, zero_smul]
    have hok : arnoldiMat a b m = .ok ⟨m, Matrix.of fun i j => qsF vs j i, m, m, Matrix.of fun i j => hsF hs i j⟩ := by
      unfold arnoldiMat
      rw [if_neg hb0, e]
      exact assemble_ok false hs vs m F.pos F.hlen F.vlen F.cols F.last
    refine ⟨fun _ => ⟨_, _, _, hok, fact, hsub'⟩, fun hdep => absurd ?_ hdep⟩
    set Q : Matrix (Fin n) (Fin m) ℝ := Matrix.of fun i j => qsF vs j i with hQ
    set H : Mat m := Matrix.of fun i j => hsF hs i j with hH
    rw [Fintype.linearIndependent_iff]
    intro c hc
    set G : Mat m := Matrix.of fun i j : Fin m => (H ^ (j : ℕ) *ᵥ firstUnit m) i with hG
    have hdet : G.det ≠ 0 := by
      rw [Matrix.det_of_isUpperTriangular]
      · exact Finset.prod_ne_zero_iff.mpr fun i _ => hess_lead H fact.hessenberg hsub' i i.2
      · intro i j hij
        exact hess_support H fact.hessenberg j i hij
    have hGc : G *ᵥ c = 0 := by
      have h1 : Q *ᵥ (G *ᵥ c) = 0 := by
        have h2 : ∑ j, c j • (Q *ᵥ (H ^ (j : ℕ) *ᵥ firstUnit m)) = 0 := by
          have h3 : norm2 b • ∑ j, c j • (Q *ᵥ (H ^ (j : ℕ) *ᵥ firstUnit m)) = 0 := by
            rw [← hc, Finset.smul_sum]
            refine Finset.sum_congr rfl fun j _ => ?_
            rw [hstart fact.start, ← D.polynomial j j.2, smul_comm]
          exact (smul_eq_zero.mp h3).resolve_left hb0
        have h4 : G *ᵥ c = ∑ j, c j • (H ^ (j : ℕ) *ᵥ firstUnit m) := by
          funext i
          rw [Finset.sum_apply]
          simp only [Matrix.mulVec, dotProduct, Pi.smul_apply, smul_eq_mul, hG, Matrix.of_apply]
          exact Finset.sum_congr rfl fun _ _ => mul_comm _ _
        rw [h4, Matrix.mulVec_sum]
        simpa only [Matrix.mulVec_smul] using h2
      have h5 : Qᵀ *ᵥ (Q *ᵥ (G *ᵥ c)) = G *ᵥ c := by
        rw [Matrix.mulVec_mulVec, fact.orthonormal, Matrix.one_mulVec]
      rw [← h5, h1, Matrix.mulVec_zero]
    exact fun i => congrFun (Matrix.eq_zero_of_mulVec_eq_zero hdet hGc) i
  · have hno : ¬ LinearIndependent ℝ (fun j : Fin m => a ^ (j : ℕ) *ᵥ b) := by
      intro hli
      have D := F.core.decomp (Z := a) (fun _ => rfl) F.pos
      have fact := fin_fact (Z := a) (fun _ => rfl) F (by omega) b hb0 (hst.trans hq0)
      set Q : Matrix (Fin n) (Fin K) ℝ := Matrix.of fun i j => qsF vs j i with hQ
      set H : Mat K := Matrix.of fun i j => hsF hs i j with hH
      have hrel : a * Q = Q * H := by
        rw [fact.relation, hres]
        convert add_zero _
        ext i j
        simp
      have hpow : ∀ j : ℕ, a ^ j *ᵥ (Q *ᵥ firstUnit K) = Q *ᵥ (H ^ j *ᵥ firstUnit K) := by
        intro j
        induction j with
        | zero => simp
        | succ j ih =>
          rw [pow_succ', ← Matrix.mulVec_mulVec, ih, Matrix.mulVec_mulVec, hrel, ← Matrix.mulVec_mulVec, pow_succ',
            ← Matrix.mulVec_mulVec]
      have h1 : (fun j : Fin m => a ^ (j : ℕ) *ᵥ b)
          = Q.mulVecLin ∘ fun j : Fin m => norm2 b • (H ^ (j : ℕ) *ᵥ firstUnit K) := by
        funext j
        show _ = Q *ᵥ _
        rw [hstart fact.start, hpow, Matrix.mulVec_smul]
      rw [h1] at hli
      have h2 := (LinearIndependent.of_comp _ hli).fintype_card_le_finrank
      rw [Module.finrank_fin_fun, Fintype.card_fin] at h2
      omega
    refine ⟨fun h => absurd h hno, fun _ => ?_⟩
    unfold arnoldiMat
    rw [if_neg hb0, e]
    rfl

/-- **C108 (`arnoldi` cannot exceed the dimension).** More columns than the dimension are never returned: the result is NaN. -/
theorem C108_arnoldi_too_long (a : Mat n) (b : Vec n) (m : ℕ) (hm : n < m) : arnoldiMat a b m = .error .nan := by
  by_cases hb : b = 0
  · unfold arnoldiMat
    rw [if_pos (by rw [hb, norm2_zero])]
  · refine (C108_arnoldi a b hb m (by omega)).2 fun h => ?_
    have h2 := h.fintype_card_le_finrank
    rw [Module.finrank_fin_fun, Fintype.card_fin] at h2
    omega

/-! ### Non-vacuity -/

/-- the operator of `test_arnoldi_breakdown`: `arnoldi_lo` stops after one column, `arnoldi` returns NaN -/
example (b : Vec 5) (hb : b ≠ 0) : arnoldiMat ((2 : ℝ) • (1 : Mat 5)) b 5 = .error .nan := by
  refine (C108_arnoldi _ b hb 5 (by norm_num)).2 fun h => ?_
  have h2 := h.injective.ne (show (0 : Fin 5) ≠ 1 by decide)
  have h3 := Fintype.linearIndependent_iff.mp h (fun j => if j = 0 then 2 else if j = 1 then -1 else 0) (by
    rw [Fin.sum_univ_five]
    simp [Matrix.smul_mulVec])
  have := h3 0
  simp at this

/-- the operators of the crate satisfy the hypothesis of `C108_arnoldi_lo` -/
example (a : Mat n) (f : ℝ → Vec n → Mat n) (t : ℝ) (b : Vec n) :
    (∀ w s, (MatrixLinOp.matLop a).apply t b w (some s) = s • (a *ᵥ w))
    ∧ (∀ w s, (MatrixLinOp.fMatLop f).apply t b w (some s) = s • (f t b *ᵥ w))
    ∧ (∀ w s, (jacobianMatLinOp a).apply t b w (some s) = s • (a *ᵥ w)) :=
  ⟨fun _ _ => rfl, fun _ _ => rfl, fun _ _ => rfl⟩

/-- a two dimensional case in which `arnoldi` succeeds with two columns -/
example : LinearIndependent ℝ (fun j : Fin 2 => (!![0, 1; 1, 0] : Mat 2) ^ (j : ℕ) *ᵥ ![1, 0]) := by
  rw [Fintype.linearIndependent_iff]
  intro c hc
  rw [Fin.sum_univ_two] at hc
  have h0 := congrFun hc 0
  have h1 := congrFun hc 1
  simp at h0 h1
  intro i
  fin_cases i
  · exact h0
  · exact h1

end Ormatex.Props
