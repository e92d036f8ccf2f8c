import Verif.Props.LejaReorder

/-!
C51: fast Leja points on an interval.
-/

namespace Ormatex.Props
open Finset
open scoped Classical

/-- **Specification.**  The `p`-th and `q`-th of the first `m` points of `z` are neighbours: no other one lies between them. -/
def Neighbours (z : ℕ → ℝ) (m p q : ℕ) : Prop :=
  p < m ∧ q < m ∧ z p < z q ∧ ∀ k < m, ¬ (z p < z k ∧ z k < z q)

/-- Invariant with `m` points and `m - 1` candidates; `σ = ±1` is the orientation of the gaps. -/
structure FastInv (a b σ : ℝ) (m : ℕ) (s : FastState) : Prop where
  bnd : ∀ k < m, a ≤ s.zt k ∧ s.zt k ≤ b
  inj : ∀ k < m, ∀ l < m, s.zt k = s.zt l → k = l
  idx : ∀ j, j + 1 < m → s.idx0 j < m ∧ s.idx1 j < m
  mid : ∀ j, j + 1 < m → s.zs j = (s.zt (s.idx0 j) + s.zt (s.idx1 j)) / 2
  ord : ∀ j, j + 1 < m → σ * s.zt (s.idx0 j) < σ * s.zt (s.idx1 j)
  gap : ∀ j, j + 1 < m → ∀ k < m, ¬ (σ * s.zt (s.idx0 j) < σ * s.zt k ∧ σ * s.zt k < σ * s.zt (s.idx1 j))
  dis : ∀ j, j + 1 < m → ∀ j', j' + 1 < m → j ≠ j' →
    σ * s.zt (s.idx1 j) ≤ σ * s.zt (s.idx0 j') ∨ σ * s.zt (s.idx1 j') ≤ σ * s.zt (s.idx0 j)
  cov : ∀ x, a ≤ x → x ≤ b → (∃ k < m, s.zt k = x) ∨
    ∃ j, j + 1 < m ∧ σ * s.zt (s.idx0 j) < σ * x ∧ σ * x < σ * s.zt (s.idx1 j)
  zer : ∀ j, m ≤ j + 1 → s.zprod j = 0
  nz : ∃ j, j + 1 < m ∧ s.zprod j ≠ 0

/-- the slot chosen by a step holds a nonzero product that is maximal -/
theorem fast_argmax {a b σ : ℝ} {m : ℕ} {s : FastState} (h : FastInv a b σ m s) (n : ℕ) (hm : m ≤ n) :
    let mi := argmax ((List.range n).map fun j => |s.zprod j|)
    mi + 1 < m ∧ s.zprod mi ≠ 0 ∧ ∀ j < n, |s.zprod j| ≤ |s.zprod mi| := by
  intro mi
  obtain ⟨j, hj, hz⟩ := h.nz
  obtain ⟨hlt, hmax, _⟩ := argmax_spec ((List.range n).map fun j => |s.zprod j|) (by
    intro he
    have := congrArg List.length he
    simp at this
    omega)
  have hmx : ∀ j < n, |s.zprod j| ≤ |s.zprod mi| := by
    intro j hj
    have := hmax (|s.zprod j|) (List.mem_map.2 ⟨j, List.mem_range.2 hj, rfl⟩)
    refine this.trans (le_of_eq ?_)
    rw [List.getElem_map, List.getElem_range]
  have hne : s.zprod mi ≠ 0 := by
    intro h0
    have := hmx j (by omega)
    rw [h0, abs_zero] at this
    exact hz (abs_nonpos_iff.1 this)
  refine ⟨?_, hne, hmx⟩
  by_contra hcon
  exact hne (h.zer mi (by omega))

theorem mid_lt {σ p q : ℝ} (h : σ * p < σ * q) : σ * p < σ * ((p + q) / 2) ∧ σ * ((p + q) / 2) < σ * q := by
  constructor <;> nlinarith

/-- the step keeps the earlier points and puts the chosen candidate last -/
theorem fastStep_zt (n : ℕ) (s : FastState) (i : ℕ) :
    (∀ k, k ≠ i → (fastStep n s i).zt k = s.zt k) ∧
    (fastStep n s i).zt i = s.zs (argmax ((List.range n).map fun j => |s.zprod j|)) := by
  unfold fastStep
  simp only
  exact ⟨fun k hk => Function.update_of_ne hk _ _, Function.update_self _ _ _⟩

theorem fastStep_inv {a b σ : ℝ} (hσ : σ = 1 ∨ σ = -1) {m n : ℕ} {s : FastState} (h : FastInv a b σ m s) (hm2 : 2 ≤ m)
    (hm : m < n) : FastInv a b σ (m + 1) (fastStep n s m) := by
  have hσ0 : σ ≠ 0 := by rcases hσ with rfl | rfl <;> norm_num
  obtain ⟨hmi, hne, hmax⟩ := fast_argmax h n hm.le
  obtain ⟨hkeep, hnew⟩ := fastStep_zt n s m
  set mi := argmax ((List.range n).map fun j => |s.zprod j|) with hmidef
  set s' := fastStep n s m with hs'
  set x := s.zs mi with hx
  have hmid := h.mid mi hmi
  have hidx := h.idx mi hmi
  have hml := mid_lt (h.ord mi hmi)
  rw [← hmid] at hml
  have hk : ∀ k < m, s'.zt k = s.zt k := fun k hk => hkeep k (by omega)
  have hold : ∀ j, j + 1 < m → j ≠ mi → s'.idx0 j = s.idx0 j ∧ s'.idx1 j = s.idx1 j ∧ s'.zs j = s.zs j := by
    intro j hj hjm
    have h1 : j ≠ m - 1 := by omega
    rw [hs']
    unfold fastStep
    simp only [← hmidef]
    simp [Function.update_of_ne, h1, hjm]
  have hmm : mi ≠ m - 1 := by omega
  have hI0 : s'.idx0 mi = s.idx0 mi := by
    rw [hs']; unfold fastStep; simp only; simp [Function.update_of_ne, hmm]
  have hI1 : s'.idx1 mi = m := by
    rw [hs']; unfold fastStep; simp only [← hmidef]; simp
  have hJ0 : s'.idx0 (m - 1) = m := by
    rw [hs']; unfold fastStep; simp only [← hmidef]; simp
  have hJ1 : s'.idx1 (m - 1) = s.idx1 mi := by
    rw [hs']; unfold fastStep; simp only [← hmidef]; simp [Function.update_of_ne, hmm.symm]
  have hZ : s'.zs mi = (s'.zt (s'.idx0 mi) + s'.zt (s'.idx1 mi)) / 2 := by
    rw [hs']; unfold fastStep; simp only [← hmidef]; rw [Function.update_of_ne hmm, Function.update_self]
  have hZ1 : s'.zs (m - 1) = (s'.zt (s'.idx0 (m - 1)) + s'.zt (s'.idx1 (m - 1))) / 2 := by
    rw [hs']; unfold fastStep; simp only [← hmidef]; rw [Function.update_self]
  -- end points of the gaps in the new state
  have glo : ∀ j, j + 1 < m → j ≠ mi → s'.zt (s'.idx0 j) = s.zt (s.idx0 j) ∧ s'.zt (s'.idx1 j) = s.zt (s.idx1 j) := by
    intro j hj hjm
    obtain ⟨a1, a2, _⟩ := hold j hj hjm
    rw [a1, a2, hk _ (h.idx j hj).1, hk _ (h.idx j hj).2]
    exact ⟨rfl, rfl⟩
  have gI0 : s'.zt (s'.idx0 mi) = s.zt (s.idx0 mi) := by rw [hI0, hk _ hidx.1]
  have gI1 : s'.zt (s'.idx1 mi) = x := by rw [hI1, hnew]
  have gJ0 : s'.zt (s'.idx0 (m - 1)) = x := by rw [hJ0, hnew]
  have gJ1 : s'.zt (s'.idx1 (m - 1)) = s.zt (s.idx1 mi) := by rw [hJ1, hk _ hidx.2]
  -- every new slot is old, or one of the two halves
  have slots : ∀ j, j + 1 < m + 1 → (j + 1 < m ∧ j ≠ mi) ∨ j = mi ∨ j = m - 1 := by intro j hj; omega
  have hnotpt : ∀ k < m, s.zt k ≠ x := by
    intro k hkm he
    refine h.gap mi hmi k hkm ?_
    rw [he]; exact hml
  have hxb : a ≤ x ∧ x ≤ b := by
    have b0 := h.bnd _ hidx.1
    have b1 := h.bnd _ hidx.2
    rw [hx, hmid]
    constructor <;> linarith
  have hord : ∀ j, j + 1 < m + 1 → σ * s'.zt (s'.idx0 j) < σ * s'.zt (s'.idx1 j) := by
    intro j hj
    rcases slots j hj with ⟨h1, h2⟩ | rfl | rfl
    · rw [(glo j h1 h2).1, (glo j h1 h2).2]; exact h.ord j h1
    · rw [gI0, gI1]; exact hml.1
    · rw [gJ0, gJ1]; exact hml.2
  have hgap : ∀ j, j + 1 < m + 1 → ∀ k < m + 1,
      ¬ (σ * s'.zt (s'.idx0 j) < σ * s'.zt k ∧ σ * s'.zt k < σ * s'.zt (s'.idx1 j)) := by
    intro j hj k hkm
    have hkk : (k < m ∧ s'.zt k = s.zt k) ∨ s'.zt k = x := by
      by_cases h1 : k < m
      · exact Or.inl ⟨h1, hk k h1⟩
      · right
        obtain rfl : k = m := by omega
        exact hnew
    rcases slots j hj with ⟨h1, h2⟩ | rfl | rfl
    · rw [(glo j h1 h2).1, (glo j h1 h2).2]
      rcases hkk with ⟨h3, h4⟩ | h4 <;> rw [h4]
      · exact h.gap j h1 k h3
      · rintro ⟨c1, c2⟩
        rcases h.dis j h1 mi hmi h2 with d | d <;> linarith [hml.1, hml.2]
    · rw [gI0, gI1]
      rcases hkk with ⟨h3, h4⟩ | h4 <;> rw [h4]
      · rintro ⟨c1, c2⟩
        exact h.gap mi hmi k h3 ⟨c1, c2.trans hml.2⟩
      · rintro ⟨_, c2⟩; exact lt_irrefl _ c2
    · rw [gJ0, gJ1]
      rcases hkk with ⟨h3, h4⟩ | h4 <;> rw [h4]
      · rintro ⟨c1, c2⟩
        exact h.gap mi hmi k h3 ⟨hml.1.trans c1, c2⟩
      · rintro ⟨c2, _⟩; exact lt_irrefl _ c2
  have hmid' : ∀ j, j + 1 < m + 1 → s'.zs j = (s'.zt (s'.idx0 j) + s'.zt (s'.idx1 j)) / 2 := by
    intro j hj
    rcases slots j hj with ⟨h1, h2⟩ | rfl | rfl
    · rw [(hold j h1 h2).2.2, (glo j h1 h2).1, (glo j h1 h2).2]; exact h.mid j h1
    · exact hZ
    · exact hZ1
  -- a candidate differs from every point
  have hcand : ∀ j, j + 1 < m + 1 → ∀ k < m + 1, s'.zs j ≠ s'.zt k := by
    intro j hj k hkm he
    have h1 := mid_lt (hord j hj)
    rw [← hmid' j hj, he] at h1
    exact hgap j hj k hkm h1
  have hprod : ∀ j, s'.zprod j = (if j = m - 1 then ∏ k ∈ range m, (s'.zs (m - 1) - s'.zt k)
      else if j = mi then ∏ k ∈ range m, (s'.zs mi - s'.zt k) else s.zprod j) * (s'.zs j - s'.zt m) := by
    intro j
    rw [hs']
    unfold fastStep
    simp only [← hmidef]
    by_cases h1 : j = m - 1
    · subst h1; rw [if_pos rfl, Function.update_self]
    · rw [if_neg h1, Function.update_of_ne h1]
      by_cases h2 : j = mi
      · subst h2; rw [if_pos rfl, Function.update_self]
      · rw [if_neg h2, Function.update_of_ne h2]
  refine ⟨?_, ?_, ?_, hmid', hord, hgap, ?_, ?_, ?_, ?_⟩
  · intro k hkm
    by_cases h1 : k < m
    · rw [hk k h1]; exact h.bnd k h1
    · obtain rfl : k = m := by omega
      rw [hnew]; exact hxb
  · intro k hkm l hlm he
    by_cases h1 : k < m <;> by_cases h2 : l < m
    · rw [hk k h1, hk l h2] at he; exact h.inj k h1 l h2 he
    · obtain rfl : l = m := by omega
      rw [hk k h1, hnew] at he
      exact absurd he (hnotpt k h1)
    · obtain rfl : k = m := by omega
      rw [hk l h2, hnew] at he
      exact absurd he.symm (hnotpt l h2)
    · omega
  · intro j hj
    rcases slots j hj with ⟨h1, h2⟩ | rfl | rfl
    · obtain ⟨a1, a2, _⟩ := hold j h1 h2
      have := h.idx j h1
      rw [a1, a2]; omega
    · rw [hI0, hI1]; omega
    · rw [hJ0, hJ1]; omega
  · intro j hj j' hj' hjj
    rcases slots j hj with ⟨h1, h2⟩ | rfl | rfl
    · rw [(glo j h1 h2).1, (glo j h1 h2).2]
      rcases slots j' hj' with ⟨h1', h2'⟩ | rfl | rfl
      · rw [(glo j' h1' h2').1, (glo j' h1' h2').2]; exact h.dis j h1 j' h1' hjj
      · rw [gI0, gI1]
        rcases h.dis j h1 mi hmi h2 with d | d
        · left; exact d
        · right; linarith [hml.2]
      · rw [gJ0, gJ1]
        rcases h.dis j h1 mi hmi h2 with d | d
        · left; linarith [hml.1]
        · right; exact d
    · rw [gI0, gI1]
      rcases slots j' hj' with ⟨h1', h2'⟩ | rfl | rfl
      · rw [(glo j' h1' h2').1, (glo j' h1' h2').2]
        rcases h.dis mi hmi j' h1' (Ne.symm h2') with d | d
        · left; linarith [hml.2]
        · right; exact d
      · exact absurd rfl hjj
      · rw [gJ0, gJ1]; left; exact le_rfl
    · rw [gJ0, gJ1]
      rcases slots j' hj' with ⟨h1', h2'⟩ | rfl | rfl
      · rw [(glo j' h1' h2').1, (glo j' h1' h2').2]
        rcases h.dis mi hmi j' h1' (Ne.symm h2') with d | d
        · left; exact d
        · right; linarith [hml.1]
      · rw [gI0, gI1]; right; exact le_rfl
      · exact absurd rfl hjj
  · intro y hya hyb
    rcases h.cov y hya hyb with ⟨k, h1, h2⟩ | ⟨j, h1, h2, h3⟩
    · left; exact ⟨k, by omega, by rw [hk k h1]; exact h2⟩
    · by_cases hjm : j = mi
      · subst hjm
        rcases lt_trichotomy (σ * y) (σ * x) with c | c | c
        · right; exact ⟨mi, by omega, by rw [gI0]; exact h2, by rw [gI1]; exact c⟩
        · left; exact ⟨m, by omega, by rw [hnew]; exact (mul_left_cancel₀ hσ0 c).symm⟩
        · right; exact ⟨m - 1, by omega, by rw [gJ0]; exact c, by rw [gJ1]; exact h3⟩
      · right
        exact ⟨j, by omega, by rw [(glo j h1 hjm).1]; exact h2, by rw [(glo j h1 hjm).2]; exact h3⟩
  · intro j hj
    rw [hprod, if_neg (by omega), if_neg (by omega), h.zer j (by omega), zero_mul]
  · refine ⟨m - 1, by omega, ?_⟩
    rw [hprod, if_pos rfl]
    refine mul_ne_zero (prod_ne_zero_iff.2 fun k hkm => ?_) ?_
    · exact sub_ne_zero.2 (hcand (m - 1) (by omega) k (by rw [mem_range] at hkm; omega))
    · exact sub_ne_zero.2 (hcand (m - 1) (by omega) m (by omega))

/-- orientation of the gaps -/
noncomputable def fastSign (a b : ℝ) : ℝ := if |a| > |b| then -1 else 1

theorem fastInit_inv (a b : ℝ) (hab : a < b) (n : ℕ) : FastInv a b (fastSign a b) 3 (fastInit a b n) := by
  unfold fastSign
  set zt := (fastInit a b n).zt with hzt
  have key : ∀ j, j + 1 < 3 → j = 0 ∨ j = 1 := by intro j hj; omega
  have key3 : ∀ k, k < 3 → k = 0 ∨ k = 1 ∨ k = 2 := by intro k hk; omega
  -- the part that does not depend on the order of the end points
  have hnz : ∃ j, j + 1 < 3 ∧ (fastInit a b n).zprod j ≠ 0 := by
    by_contra hcon
    push Not at hcon
    have p0 := hcon 0 (by norm_num)
    have p1 := hcon 1 (by norm_num)
    simp only [fastInit] at p0 p1
    norm_num at p0 p1
    obtain ⟨k0, hk0, e0⟩ := prod_eq_zero_iff.1 p0
    obtain ⟨k1, hk1, e1⟩ := prod_eq_zero_iff.1 p1
    split_ifs at e0 e1 <;> linarith
  by_cases hs : |a| > |b|
  · rw [if_pos hs]
    have e0 : (fastInit a b n).zt 0 = a := by simp [fastInit, hs]
    have e1 : (fastInit a b n).zt 1 = b := by simp [fastInit, hs]
    have e2 : (fastInit a b n).zt 2 = (a + b) / 2 := by simp [fastInit, hs]
    have i00 : (fastInit a b n).idx0 0 = 1 := by simp [fastInit]
    have i10 : (fastInit a b n).idx1 0 = 2 := by simp [fastInit]
    have i01 : (fastInit a b n).idx0 1 = 2 := by simp [fastInit]
    have i11 : (fastInit a b n).idx1 1 = 0 := by simp [fastInit]
    refine ⟨?_, ?_, ?_, ?_, ?_, ?_, ?_, ?_, ?_, hnz⟩
    · intro k hk; rcases key3 k hk with rfl | rfl | rfl <;> simp only [e0, e1, e2] <;> constructor <;> linarith
    · intro k hk l hl h
      rcases key3 k hk with rfl | rfl | rfl <;> rcases key3 l hl with rfl | rfl | rfl <;>
        first | rfl | (exfalso; simp only [e0, e1, e2] at h; linarith)
    · intro j hj; rcases key j hj with rfl | rfl <;> simp [i00, i01, i10, i11]
    · intro j hj; rcases key j hj with rfl | rfl
      · simp only [i00, i10, e1, e2]; simp [fastInit, hs]
      · simp only [i01, i11, e0, e2]; simp [fastInit, hs]
    · intro j hj; rcases key j hj with rfl | rfl <;> simp only [i00, i01, i10, i11, e0, e1, e2] <;> linarith
    · intro j hj k hk
      rcases key j hj with rfl | rfl <;> rcases key3 k hk with rfl | rfl | rfl <;>
        simp only [i00, i01, i10, i11, e0, e1, e2] <;> rintro ⟨c1, c2⟩ <;> linarith
    · intro j hj j' hj' hne
      rcases key j hj with rfl | rfl <;> rcases key j' hj' with rfl | rfl <;>
        simp only [i00, i01, i10, i11, e0, e1, e2]
      · exact absurd rfl hne
      · left; linarith
      · right; linarith
      · exact absurd rfl hne
    · intro x ha hb
      rcases lt_trichotomy x ((a + b) / 2) with c | c | c
      · rcases ha.eq_or_lt with h | h
        · left; exact ⟨0, by norm_num, by rw [e0]; exact h⟩
        · right; exact ⟨1, by norm_num, by simp only [i01, e2]; linarith, by simp only [i11, e0]; linarith⟩
      · left; exact ⟨2, by norm_num, by rw [e2]; exact c.symm⟩
      · rcases hb.eq_or_lt with h | h
        · left; exact ⟨1, by norm_num, by rw [e1]; exact h.symm⟩
        · right; exact ⟨0, by norm_num, by simp only [i00, e1]; linarith, by simp only [i10, e2]; linarith⟩
    · intro j hj
      simp only [fastInit]
      rw [if_neg (by omega), if_neg (by omega)]
  · rw [if_neg hs]
    have e0 : (fastInit a b n).zt 0 = b := by simp [fastInit, hs]
    have e1 : (fastInit a b n).zt 1 = a := by simp [fastInit, hs]
    have e2 : (fastInit a b n).zt 2 = (a + b) / 2 := by simp [fastInit, hs]
    have i00 : (fastInit a b n).idx0 0 = 1 := by simp [fastInit]
    have i10 : (fastInit a b n).idx1 0 = 2 := by simp [fastInit]
    have i01 : (fastInit a b n).idx0 1 = 2 := by simp [fastInit]
    have i11 : (fastInit a b n).idx1 1 = 0 := by simp [fastInit]
    refine ⟨?_, ?_, ?_, ?_, ?_, ?_, ?_, ?_, ?_, hnz⟩
    · intro k hk; rcases key3 k hk with rfl | rfl | rfl <;> simp only [e0, e1, e2] <;> constructor <;> linarith
    · intro k hk l hl h
      rcases key3 k hk with rfl | rfl | rfl <;> rcases key3 l hl with rfl | rfl | rfl <;>
        first | rfl | (exfalso; simp only [e0, e1, e2] at h; linarith)
    · intro j hj; rcases key j hj with rfl | rfl <;> simp [i00, i01, i10, i11]
    · intro j hj; rcases key j hj with rfl | rfl
      · simp only [i00, i10, e1, e2]; simp [fastInit, hs]
      · simp only [i01, i11, e0, e2]; simp [fastInit, hs]
    · intro j hj; rcases key j hj with rfl | rfl <;> simp only [i00, i01, i10, i11, e0, e1, e2] <;> linarith
    · intro j hj k hk
      rcases key j hj with rfl | rfl <;> rcases key3 k hk with rfl | rfl | rfl <;>
        simp only [i00, i01, i10, i11, e0, e1, e2] <;> rintro ⟨c1, c2⟩ <;> linarith
    · intro j hj j' hj' hne
      rcases key j hj with rfl | rfl <;> rcases key j' hj' with rfl | rfl <;>
        simp only [i00, i01, i10, i11, e0, e1, e2]
      · exact absurd rfl hne
      · left; linarith
      · right; linarith
      · exact absurd rfl hne
    · intro x ha hb
      rcases lt_trichotomy x ((a + b) / 2) with c | c | c
      · rcases ha.eq_or_lt with h | h
        · left; exact ⟨1, by norm_num, by rw [e1]; exact h⟩
        · right; exact ⟨0, by norm_num, by simp only [i00, e1]; linarith, by simp only [i10, e2]; linarith⟩
      · left; exact ⟨2, by norm_num, by rw [e2]; exact c.symm⟩
      · rcases hb.eq_or_lt with h | h
        · left; exact ⟨0, by norm_num, by rw [e0]; exact h.symm⟩
        · right; exact ⟨1, by norm_num, by simp only [i01, e2]; linarith, by simp only [i11, e0]; linarith⟩
    · intro j hj
      simp only [fastInit]
      rw [if_neg (by omega), if_neg (by omega)]

theorem fastSign_cases (a b : ℝ) : fastSign a b = 1 ∨ fastSign a b = -1 := by
  unfold fastSign; split_ifs <;> simp

/-- the state with `m` points -/
noncomputable def fastState (a b : ℝ) (n m : ℕ) : FastState := (List.range' 3 (m - 3)).foldl (fastStep n) (fastInit a b n)

theorem fastState_succ (a b : ℝ) (n m : ℕ) (hm : 3 ≤ m) : fastState a b n (m + 1) = fastStep n (fastState a b n m) m := by
  unfold fastState
  rw [show m + 1 - 3 = m - 3 + 1 by omega, List.range'_1_concat, List.foldl_append, List.foldl_cons, List.foldl_nil,
    show 3 + (m - 3) = m by omega]

theorem fastState_inv (a b : ℝ) (hab : a < b) (n : ℕ) (m : ℕ) (h3 : 3 ≤ m) (hmn : m ≤ n) :
    FastInv a b (fastSign a b) m (fastState a b n m) := by
  induction m, h3 using Nat.le_induction with
  | base => exact fastInit_inv a b hab n
  | succ m h3 ih =>
    rw [fastState_succ a b n m h3]
    exact fastStep_inv (fastSign_cases a b) (ih (by omega)) (by omega) (by omega)

theorem fastState_prefix (a b : ℝ) (n m k : ℕ) (h3 : 3 ≤ m) (hk : k < m) (d : ℕ) :
    (fastState a b n (m + d)).zt k = (fastState a b n m).zt k := by
  induction d with
  | zero => rfl
  | succ d ih => rw [← Nat.add_assoc, fastState_succ a b n (m + d) (by omega), (fastStep_zt n _ _).1 k (by omega), ih]

/-- gaps of the invariant are neighbours and conversely -/
theorem gap_neighbours {a b σ : ℝ} (hσ : σ = 1 ∨ σ = -1) {m : ℕ} {s : FastState} (h : FastInv a b σ m s) (j : ℕ) (hj : j + 1 < m) :
    ∃ p q, Neighbours s.zt m p q ∧ s.zs j = (s.zt p + s.zt q) / 2 := by
  have ho := h.ord j hj
  have hg := h.gap j hj
  have hi := h.idx j hj
  rcases hσ with rfl | rfl
  · refine ⟨s.idx0 j, s.idx1 j, ⟨hi.1, hi.2, by linarith, fun k hk => ?_⟩, h.mid j hj⟩
    have := hg k hk
    simpa using this
  · refine ⟨s.idx1 j, s.idx0 j, ⟨hi.2, hi.1, by linarith, fun k hk => ?_⟩, by rw [h.mid j hj]; ring⟩
    rintro ⟨c1, c2⟩
    exact hg k hk ⟨by linarith, by linarith⟩

theorem neighbours_gap {a b σ : ℝ} (hσ : σ = 1 ∨ σ = -1) {m : ℕ} {s : FastState} (h : FastInv a b σ m s) (p q : ℕ)
    (hpq : Neighbours s.zt m p q) : ∃ j, j + 1 < m ∧ s.zs j = (s.zt p + s.zt q) / 2 := by
  obtain ⟨hp, hq, hlt, hno⟩ := hpq
  have hx : s.zt p < (s.zt p + s.zt q) / 2 ∧ (s.zt p + s.zt q) / 2 < s.zt q := by constructor <;> linarith
  rcases h.cov ((s.zt p + s.zt q) / 2) (by linarith [(h.bnd p hp).1]) (by linarith [(h.bnd q hq).2]) with
    ⟨k, hk, he⟩ | ⟨j, hj, c1, c2⟩
  · exact absurd (he ▸ hx) (hno k hk)
  · refine ⟨j, hj, ?_⟩
    have hg := h.gap j hj
    have hi := h.idx j hj
    have n0 := hno _ hi.1
    have n1 := hno _ hi.2
    have gp := hg p hp
    have gq := hg q hq
    rw [h.mid j hj]
    rcases hσ with rfl | rfl
    · simp only [one_mul] at *
      push Not at n0 n1 gp gq
      have a1 : s.zt (s.idx0 j) ≤ s.zt p := by
        by_contra hc; push Not at hc; have := n0 hc; linarith
      have a2 : s.zt q ≤ s.zt (s.idx1 j) := by
        by_contra hc; push Not at hc; have := n1 (by linarith); linarith
      have a3 : s.zt (s.idx0 j) = s.zt p := by
        by_contra hc; have := gp (lt_of_le_of_ne a1 hc); linarith
      have a4 : s.zt (s.idx1 j) = s.zt q := by
        by_contra hc
        have : s.zt q < s.zt (s.idx1 j) := lt_of_le_of_ne a2 (Ne.symm hc)
        have := gq (by linarith); linarith
      rw [a3, a4]
    · simp only [neg_mul, one_mul, neg_lt_neg_iff] at *
      push Not at n0 n1 gp gq
      have a1 : s.zt (s.idx1 j) ≤ s.zt p := by
        by_contra hc; push Not at hc; have := n1 hc; linarith
      have a2 : s.zt q ≤ s.zt (s.idx0 j) := by
        by_contra hc; push Not at hc; have := n0 (by linarith); linarith
      have a3 : s.zt (s.idx1 j) = s.zt p := by
        by_contra hc
        have h5 : s.zt (s.idx1 j) < s.zt p := lt_of_le_of_ne a1 hc
        have := gp (by linarith); linarith
      have a4 : s.zt (s.idx0 j) = s.zt q := by
        by_contra hc
        have h5 : s.zt q < s.zt (s.idx0 j) := lt_of_le_of_ne a2 (Ne.symm hc)
        have := gq h5; linarith
      rw [a3, a4, add_comm]

/-- **C51.**  `gen_leja_fast(a, b, n)` with `a < b`, `n ≥ 3` returns `n` pairwise distinct points of `[a, b]`, the first two of which
are the end points (the one of larger modulus first) and the third the midpoint; each further point is the midpoint of two
neighbouring earlier points.  Fewer than three points are refused. -/
theorem C51_fast (a b : ℝ) (hab : a < b) (n : ℕ) :
    (n < 3 → genLejaFast a b n = .error .value) ∧
    (3 ≤ n → ∃ z, genLejaFast a b n = .ok z ∧ (∀ k < n, a ≤ z k ∧ z k ≤ b) ∧ Set.InjOn z (Finset.range n) ∧
      (z 0, z 1) = (if |a| > |b| then (a, b) else (b, a)) ∧ z 2 = (a + b) / 2 ∧
      ∀ i, 3 ≤ i → i < n → ∃ p q, Neighbours z i p q ∧ z i = (z p + z q) / 2) := by
  refine ⟨fun h => by unfold genLejaFast; rw [if_pos h], fun hn => ?_⟩
  have hinv := fastState_inv a b hab n n hn le_rfl
  refine ⟨(fastState a b n n).zt, by unfold genLejaFast; rw [if_neg (by omega)]; rfl, hinv.bnd, ?_, ?_, ?_, ?_⟩
  · intro i hi j hj h
    simp only [Finset.coe_range, Set.mem_Iio] at hi hj
    exact hinv.inj i hi j hj h
  · obtain ⟨d, hd⟩ := Nat.exists_eq_add_of_le hn
    have p0 := fastState_prefix a b n 3 0 le_rfl (by norm_num) d
    have p1 := fastState_prefix a b n 3 1 le_rfl (by norm_num) d
    rw [← hd] at p0 p1
    rw [p0, p1]
    unfold fastState fastInit
    simp only [Nat.sub_self, List.range'_zero, List.foldl_nil]
    by_cases h : |a| > |b| <;> simp [h]
  · obtain ⟨d, hd⟩ := Nat.exists_eq_add_of_le hn
    have p0 := fastState_prefix a b n 3 2 le_rfl (by norm_num) d
    rw [← hd] at p0
    rw [p0]
    unfold fastState fastInit
    simp only [Nat.sub_self, List.range'_zero, List.foldl_nil]
    by_cases h : |a| > |b| <;> simp [h]
  · intro i h3 hi
    have hinv' := fastState_inv a b hab n i h3 hi.le
    obtain ⟨d, hd⟩ := Nat.exists_eq_add_of_le hi
    have pre : ∀ k < i + 1, (fastState a b n n).zt k = (fastState a b n (i + 1)).zt k := by
      intro k hk
      have := fastState_prefix a b n (i + 1) k (by omega) hk d
      rw [← hd] at this
      exact this
    have pre' : ∀ k < i, (fastState a b n n).zt k = (fastState a b n i).zt k := by
      intro k hk
      rw [pre k (by omega)]
      exact fastState_prefix a b n i k h3 hk 1
    obtain ⟨hmi, _, _⟩ := fast_argmax hinv' n hi.le
    obtain ⟨p, q, hpq, hz⟩ := gap_neighbours (fastSign_cases a b) hinv' _ hmi
    refine ⟨p, q, ⟨hpq.1, hpq.2.1, ?_, ?_⟩, ?_⟩
    · rw [pre' p hpq.1, pre' q hpq.2.1]; exact hpq.2.2.1
    · intro k hk
      rw [pre' p hpq.1, pre' q hpq.2.1, pre' k hk]; exact hpq.2.2.2 k hk
    · rw [pre i (by omega), fastState_succ a b n i h3, (fastStep_zt n _ _).2, hz, pre' p hpq.1, pre' q hpq.2.1]

/-! ### greedy choice on the reference interval -/

/-- the stored products are the products of distances -/
def FastProd (m : ℕ) (s : FastState) : Prop := ∀ j, j + 1 < m → |s.zprod j| = ∏ k ∈ range m, |s.zs j - s.zt k|

theorem fastStep_prod {a b σ : ℝ} {m n : ℕ} {s : FastState} (h : FastInv a b σ m s) (hp : FastProd m s) (hm2 : 2 ≤ m)
    (hm : m < n) : FastProd (m + 1) (fastStep n s m) := by
  obtain ⟨hmi, -, -⟩ := fast_argmax h n hm.le
  intro j hj
  obtain ⟨hkeep, -⟩ := fastStep_zt n s m
  have hzz : ∀ k ∈ range m, (fastStep n s m).zt k = s.zt k := fun k hk => hkeep k (by rw [mem_range] at hk; omega)
  rw [prod_range_succ]
  unfold fastStep at *
  simp only at *
  set mi := argmax ((List.range n).map fun j => |s.zprod j|) with hmidef
  have hmm : mi ≠ m - 1 := by omega
  by_cases h1 : j = m - 1
  · subst h1
    rw [Function.update_self, abs_mul, abs_prod]
  · rw [Function.update_of_ne h1]
    by_cases h2 : j = mi
    · subst h2
      rw [Function.update_self, abs_mul, abs_prod]
    · rw [Function.update_of_ne h2, abs_mul, hp j (by omega)]
      congr 1
      refine prod_congr rfl fun k hk => ?_
      rw [hzz k hk, Function.update_of_ne h1, Function.update_of_ne h2]

/-- **C51, greedy choice.**  On the interval `[-2, 2]` used by the integrators, every point after the third maximises the product of
distances to its predecessors among the midpoints of all neighbouring predecessors. -/
theorem C51_greedy (n : ℕ) (hn : 3 ≤ n) : ∃ z, genLejaFast (-2) 2 n = .ok z ∧
    ∀ i, 3 ≤ i → i < n → ∀ p q, Neighbours z i p q →
      ∏ k ∈ range i, |(z p + z q) / 2 - z k| ≤ ∏ k ∈ range i, |z i - z k| := by
  refine ⟨(fastState (-2) 2 n n).zt, by unfold genLejaFast; rw [if_neg (by omega)]; rfl, ?_⟩
  intro i h3 hi p q hpq
  have hab : (-2 : ℝ) < 2 := by norm_num
  have hprod : ∀ m, 3 ≤ m → m ≤ n → FastProd m (fastState (-2) 2 n m) := by
    intro m h3
    induction m, h3 using Nat.le_induction with
    | base =>
      intro _ j hj
      have hz : ∀ x : ℝ, |x| = 1 → ∏ k ∈ range n, |x - (fastInit (-2) 2 n).zt k| = ∏ k ∈ range 3, |x - (fastInit (-2) 2 n).zt k| := by
        intro x hx
        obtain ⟨d, rfl⟩ := Nat.exists_eq_add_of_le hn
        rw [prod_range_add]
        have : ∀ k ∈ range d, |x - (fastInit (-2) 2 (3 + d)).zt (3 + k)| = 1 := by
          intro k _
          have : (fastInit (-2) 2 (3 + d)).zt (3 + k) = 0 := by
            simp only [fastInit]
            norm_num
            omega
          rw [this, sub_zero, hx]
        rw [prod_congr rfl this, prod_const_one, mul_one]
      have hj : j = 0 ∨ j = 1 := by omega
      have hst : fastState (-2) 2 n 3 = fastInit (-2) 2 n := by simp [fastState]
      rw [hst]
      have s0 : (fastInit (-2) 2 n).zs 0 = -1 := by simp [fastInit]
      have s1 : (fastInit (-2) 2 n).zs 1 = 1 := by simp [fastInit]
      rcases hj with rfl | rfl
      · rw [s0, ← hz (-1) (by norm_num), ← abs_prod, ← s0]
        rfl
      · rw [s1, ← hz 1 (by norm_num), ← abs_prod, ← s1]
        rfl
    | succ m h3 ih =>
      intro hmn
      rw [fastState_succ _ _ n m h3]
      exact fastStep_prod (fastState_inv (-2) 2 hab n m h3 (by omega)) (ih (by omega)) (by omega) (by omega)
  have hinv' := fastState_inv (-2) 2 hab n i h3 hi.le
  obtain ⟨d, hd⟩ := Nat.exists_eq_add_of_le hi
  have pre : ∀ k < i + 1, (fastState (-2) 2 n n).zt k = (fastState (-2) 2 n (i + 1)).zt k := by
    intro k hk
    have := fastState_prefix (-2) 2 n (i + 1) k (by omega) hk d
    rw [← hd] at this
    exact this
  have pre' : ∀ k < i, (fastState (-2) 2 n n).zt k = (fastState (-2) 2 n i).zt k := by
    intro k hk
    rw [pre k (by omega)]
    exact fastState_prefix (-2) 2 n i k h3 hk 1
  obtain ⟨hmi, _, hmax⟩ := fast_argmax hinv' n hi.le
  have hnb : Neighbours (fastState (-2) 2 n i).zt i p q := by
    refine ⟨hpq.1, hpq.2.1, ?_, ?_⟩
    · have := hpq.2.2.1
      rwa [pre' p hpq.1, pre' q hpq.2.1] at this
    · intro k hk
      have := hpq.2.2.2 k hk
      rwa [pre' p hpq.1, pre' q hpq.2.1, pre' k hk] at this
  obtain ⟨j, hj, hz⟩ := neighbours_gap (fastSign_cases _ _) hinv' p q hnb
  have h1 := hmax j (by omega)
  rw [hprod i h3 hi.le j hj, hprod i h3 hi.le _ hmi, hz] at h1
  rw [prod_congr rfl (fun k hk => by rw [pre' p hpq.1, pre' q hpq.2.1, pre' k (mem_range.1 hk)])]
  refine h1.trans (le_of_eq (prod_congr rfl fun k hk => ?_))
  rw [pre i (by omega), fastState_succ _ _ n i h3, (fastStep_zt n _ _).2, pre' k (mem_range.1 hk)]

/-- **C51, other intervals are sampled badly.**  The products that start the selection run over the zero-initialised rest of the
array, so a first candidate equal to `0` is never chosen: `gen_leja_fast(-3, 1, n)` leaves `(-1, 1)` empty for every `n ≥ 4`. -/
theorem C51_blind_interval (n : ℕ) (hn : 4 ≤ n) : ∃ z, genLejaFast (-3) 1 n = .ok z ∧ ∀ k < n, ¬ (-1 < z k ∧ z k < 1) := by
  have hab : (-3 : ℝ) < 1 := by norm_num
  have hσ : fastSign (-3) 1 = -1 := by unfold fastSign; norm_num
  refine ⟨(fastState (-3) 1 n n).zt, by unfold genLejaFast; rw [if_neg (by omega)]; rfl, ?_⟩
  have key : ∀ m, 3 ≤ m → m ≤ n → (fastState (-3) 1 n m).zprod 0 = 0 ∧ (fastState (-3) 1 n m).idx0 0 = 1 ∧
      (fastState (-3) 1 n m).idx1 0 = 2 ∧ (fastState (-3) 1 n m).zt 1 = 1 ∧ (fastState (-3) 1 n m).zt 2 = -1 := by
    intro m h3
    induction m, h3 using Nat.le_induction with
    | base =>
      intro _
      have hst : fastState (-3) 1 n 3 = fastInit (-3) 1 n := by simp [fastState]
      rw [hst]
      refine ⟨?_, by simp [fastInit], by simp [fastInit], by simp [fastInit], by simp [fastInit]; norm_num⟩
      simp only [fastInit]
      norm_num
      refine prod_eq_zero (mem_range.2 (by omega : 3 < n)) ?_
      norm_num
    | succ m h3 ih =>
      intro hmn
      obtain ⟨c1, c2, c3, c4, c5⟩ := ih (by omega)
      rw [fastState_succ _ _ n m h3]
      obtain ⟨hmi, hne, -⟩ := fast_argmax (fastState_inv (-3) 1 hab n m h3 (by omega)) n (by omega)
      obtain ⟨hkeep, -⟩ := fastStep_zt n (fastState (-3) 1 n m) m
      refine ⟨?_, ?_, ?_, by rw [hkeep 1 (by omega), c4], by rw [hkeep 2 (by omega), c5]⟩ <;>
        unfold fastStep <;> simp only at hmi hne ⊢ <;>
        set mi := argmax ((List.range n).map fun j => |(fastState (-3) 1 n m).zprod j|) with hmidef <;>
        have hmi0 : (0 : ℕ) ≠ mi := (by intro h; rw [← h] at hne; exact hne c1) <;>
        have hm10 : (0 : ℕ) ≠ m - 1 := (by omega)
      · rw [Function.update_of_ne hm10, Function.update_of_ne hmi0, c1, zero_mul]
      · rw [Function.update_of_ne hm10, c2]
      · rw [Function.update_of_ne hmi0, Function.update_of_ne hm10, c3]
  obtain ⟨_, c2, c3, c4, c5⟩ := key n (by omega) le_rfl
  have hinv := fastState_inv (-3) 1 hab n n (by omega) le_rfl
  intro k hk hcon
  have := hinv.gap 0 (by omega) k hk
  rw [c2, c3, c4, c5, hσ] at this
  exact this ⟨by linarith [hcon.2], by linarith [hcon.1]⟩

end Ormatex.Props
