import Verif.Props.OrderRBStep

/-!
C38: order of consistency of one step of the splitting integrators, for any linear part.
-/

namespace Ormatex.Props
open Matrix Ormatex.Spec Filter Asymptotics Topology
open scoped Classical

section
variable {n : ℕ}

section asym
variable {f : ℝ → Vec n → Vec n} {t : ℝ} {Y : ℝ → Vec n} {L : Mat n}

/-- For a `C^1` map, `f p - f q = O(p - q)` when `p`, `q` tend to the point. -/
theorem lip_isBigO {X Z : Type*} [NormedAddCommGroup X] [NormedSpace ℝ X] [NormedAddCommGroup Z] [NormedSpace ℝ Z]
    {f : X → Z} {p0 : X} (hf : ContDiffAt ℝ (1 : ℕ) f p0) {p q : ℝ → X}
    (hp : Tendsto p (𝓝 0) (𝓝 p0)) (hq : Tendsto q (𝓝 0) (𝓝 p0)) :
    (fun h => f (p h) - f (q h)) =O[𝓝 0] fun h : ℝ => p h - q h := by
  obtain ⟨K, t, ht, hK⟩ := hf.exists_lipschitzOnWith
  refine IsBigO.of_bound K ?_
  filter_upwards [hp ht, hq ht] with h h1 h2
  have := hK.dist_le_mul _ h1 _ h2
  rwa [dist_eq_norm, dist_eq_norm] at this

theorem path_tendsto {p : ℝ → Vec n} {y : Vec n} (h : (fun s => p s - y) =O[𝓝 0] fun s : ℝ => s) : Tendsto p (𝓝 0) (𝓝 y) := by
  have := h.trans_tendsto tendsto_id
  simpa using this.add_const y

/-- value of the remainder at an approximate stage, for an arbitrary linear part -/
theorem stage_split (h : SmoothIVP f 1 t Y) (L : Mat n) (c : ℝ) {q : ℕ} (hq : 1 ≤ q)
    {z : ℝ → Vec n} (hz : (fun s => z s - Y (t + c * s)) =O[𝓝 0] fun s => s ^ q) :
    (fun s => (f (t + c * s) (z s) - f t (Y t) - L *ᵥ (z s - Y t)) - remAt f t Y L 0 (c * s))
      =O[𝓝 0] fun s => s ^ q := by
  have hzq : (fun s => z s - Y (t + c * s)) =O[𝓝 0] fun s => s := by
    simpa using isBigO_weaken hz hq
  have hpath := h.path_isBigO c
  have ht : Tendsto (fun s : ℝ => t + c * s) (𝓝 0) (𝓝 t) := by
    have : Continuous (fun s : ℝ => t + c * s) := by fun_prop
    simpa using this.tendsto 0
  have h1 : Tendsto z (𝓝 0) (𝓝 (Y t)) := path_tendsto ((hzq.add hpath).congr_left fun s => by abel)
  have h2 : Tendsto (fun s => Y (t + c * s)) (𝓝 0) (𝓝 (Y t)) := path_tendsto hpath
  have key := lip_isBigO h.smooth (ht.prodMk_nhds h1) (ht.prodMk_nhds h2)
  have hn : (fun s : ℝ => ((t + c * s, z s) : ℝ × Vec n) - (t + c * s, Y (t + c * s))) =O[𝓝 0] fun s => s ^ q := by
    refine IsBigO.trans (IsBigO.of_bound 1 (Eventually.of_forall fun s => ?_)) hz
    rw [one_mul, Prod.mk_sub_mk, sub_self, Prod.norm_mk, norm_zero, max_eq_right (norm_nonneg _)]
  refine ((key.trans hn).sub (mulVec_isBigO L hz)).congr_left fun s => ?_
  unfold remAt
  simp only [Matrix.mulVec_sub, smul_zero]
  abel

theorem rem_first {m : ℕ} (h : SmoothIVP f m t Y) (L : Mat n) :
    ∃ a : ℕ → Vec n, a 0 = 0 ∧
      (fun s => remAt f t Y L 0 s - ∑ i ∈ Finset.range m, s ^ i • a i) =O[𝓝 0] fun s => s ^ m := by
  obtain ⟨a, h0, _, h2⟩ := h.rem_expand L 0
  exact ⟨a, h0, h2⟩

theorem exp1_order (h : SmoothIVP f 1 t Y) (L : Mat n) (c : ℝ) :
    (fun s => (Y t + (c * s) • (phiM 1 ((c * s) • L) *ᵥ f t (Y t))) - Y (t + c * s)) =O[𝓝 0] fun s => s ^ 2 := by
  obtain ⟨a, a0, ha⟩ := rem_first h L
  have h1 := isBigO_scale (c := c) (rosEuler_expand h ha)
  refine h1.neg_left.congr_left fun s => ?_
  simp [a0, rosEuler]

theorem exp2_order (h : SmoothIVP f 2 t Y) (L : Mat n) (c : ℝ) (hc : c ≠ 0) :
    (fun s => exp2Update f L t (Y t) s c - Y (t + s)) =O[𝓝 0] fun s => s ^ 3 := by
  obtain ⟨a, a0, ha⟩ := rem_first h L
  have h1 := rosEuler_expand h ha
  have hst := stage_split (h.mono (by norm_num)) L c (by norm_num : 1 ≤ 2) (exp1_order (h.mono (by norm_num)) L c)
  have hr := hst.add (isBigO_scale (c := c) ha)
  have h2 := smul_isBigO (1 / c) (phi_isBigO' 2 L hr) (rfl : 3 = 2 + 1)
  refine (h2.sub h1).congr_left fun s => ?_
  unfold exp2Update rosEuler
  simp only [Finset.sum_range_succ, Finset.sum_range_zero, a0, Matrix.mulVec_zero, smul_zero, add_zero, zero_add, pow_one,
    one_mul, Nat.factorial]
  generalize f (t + c * s) _ - f t (Y t) - _ = X
  generalize remAt f t Y L 0 (c * s) = Z
  simp only [Matrix.mulVec_add, Matrix.mulVec_sub, Matrix.mulVec_smul, smul_add, smul_sub, smul_smul]
  match_scalars <;> field_simp <;> push_cast <;> ring

theorem exp3_order (h : SmoothIVP f 3 t Y) (L : Mat n) :
    (fun s => exp3Update f L t (Y t) s - Y (t + s)) =O[𝓝 0] fun s => s ^ 4 := by
  obtain ⟨a, a0, ha⟩ := rem_first h L
  have h1 := rosEuler_expand h ha
  have hy3 := isBigO_scale (c := 2 / 3) (exp2_order (h.mono (by norm_num)) L 1 one_ne_zero)
  have hst := stage_split (h.mono (by norm_num)) L (2 / 3) (by norm_num : 1 ≤ 3) hy3
  have hr := hst.add (isBigO_scale (c := 2 / 3) ha)
  have h2 := smul_isBigO (3 / 2) (phi_isBigO' 2 L hr) (rfl : 4 = 3 + 1)
  have hc : (fun _ : ℝ => a 2) =O[𝓝 0] fun s : ℝ => (1 : ℝ) := isBigO_const_const _ one_ne_zero _
  have h3 := (phi_sub_isBigO' 2 L hc).const_smul_left (2 / 3 : ℝ)
  have h4 := (phi_sub_isBigO' 3 L hc).const_smul_left (2 : ℝ)
  have h5 : (fun s : ℝ => s ^ 3 • ((2 / 3 : ℝ) • (phiM 2 (s • L) *ᵥ a 2 - ((Nat.factorial 2 : ℝ)⁻¹) • a 2)
      - (2 : ℝ) • (phiM 3 (s • L) *ᵥ a 2 - ((Nat.factorial 3 : ℝ)⁻¹) • a 2))) =O[𝓝 0] fun s : ℝ => s ^ 4 := by
    refine ((isBigO_refl (fun s : ℝ => s ^ 3) (𝓝 0)).smul (h3.sub h4)).congr_right fun s => ?_
    rw [smul_eq_mul]; ring
  refine ((h2.add h5).sub h1).congr_left fun s => ?_
  unfold exp3Update exp2Update rosEuler
  simp only [Finset.sum_range_succ, Finset.sum_range_zero, a0, Matrix.mulVec_zero, smul_zero, add_zero, zero_add, pow_one,
    one_mul, div_one, Nat.factorial]
  generalize f (t + 2 / 3 * s) _ - f t (Y t) - _ = X
  generalize remAt f t Y L 0 (2 / 3 * s) = Z
  simp only [Matrix.mulVec_add, Matrix.mulVec_sub, Matrix.mulVec_smul, smul_add, smul_sub, smul_smul]
  push_cast
  module

end asym

variable {P : Type} [EmptyCollection P]
set_option linter.unusedSectionVars false

/-- order of each splitting method -/
def splitOrders : List (String × ℕ) :=
  [("exp1", 1), ("exp2", 2), ("exp3", 3), ("exp1_dense", 1), ("exp2_dense", 2), ("exp3_dense", 3)]

/-- **C38.**  Every splitting method has, for a right-hand side of class `C^p` and **any** linear part `L` (it need not be
related to the Jacobian), local error `O(dt^(p+1))` with the order `p` of its name, with exact phi kernels.  For the
methods without cache only the operator handed out at the current point matters; the dense ones need it constant, and
`hco` holds after every history of calls (`run_coherent`). -/
theorem C38_order {K : Kernels n} (hK : ExactKernels K) (sys : OdeSys n P) (s : ExpSplit n) (t : ℝ)
    (Y : ℝ → Vec n) (hs : At s.base t (Y t)) (kw : Option P) (p : ℕ) (hm : (s.base.method, p) ∈ splitOrders)
    (hY : SmoothIVP (sys.frhs none) p t Y) (L : Mat n) (hL : IsMatrix (sys.fl t (Y t)) L)
    (hdense : s.base.method ∈ ["exp1_dense", "exp2_dense", "exp3_dense"] →
      ∃ lop, (∀ t y, sys.fl t y = lop) ∧ lop.dense = .ok L ∧ Coherent K lop s) :
    LocalOrder p (fun dt => Except.map Prod.fst (ExpSplit.step K sys s dt kw)) t Y := by
  have h1 : SmoothIVP (sys.frhs none) 1 t Y → (fun dt => (Y t + dt • (phiM 1 (dt • L) *ᵥ sys.frhs none t (Y t))) - Y (t + dt))
      =O[𝓝 0] fun dt => dt ^ (1 + 1) := fun h => by
    simpa only [one_mul] using exp1_order h L 1
  unfold LocalOrder ExpSplit.step
  simp only
  simp only [splitOrders, List.mem_cons, List.not_mem_nil, or_false, Prod.mk.injEq] at hm
  rcases hm with ⟨hm, rfl⟩ | ⟨hm, rfl⟩ | ⟨hm, rfl⟩ | ⟨hm, rfl⟩ | ⟨hm, rfl⟩ | ⟨hm, rfl⟩ <;>
    rw [hm] at hdense ⊢ <;> simp only [String.reduceEq, if_true, if_false]
  · refine ⟨_, fun dt => by rw [exp1_closed hK sys s hs dt L hL]; rfl, fun _ => rfl, ?_⟩
    exact h1 hY
  · refine ⟨_, fun dt => by rw [exp2_closed hK sys s hs dt L hL]; rfl, fun _ => rfl, ?_⟩
    exact exp2_order hY L 1 one_ne_zero
  · refine ⟨_, fun dt => by rw [exp3_closed hK sys s hs dt L hL]; rfl, fun _ => rfl, ?_⟩
    exact exp3_order hY L
  · obtain ⟨lop, hl, hd, hco⟩ := hdense (by simp)
    refine ⟨_, fun dt => by
      obtain ⟨s', h, _⟩ := exp1Dense_closed hK sys s hs dt L lop hl hd hco hm
      rw [h]; rfl, fun _ => rfl, ?_⟩
    exact h1 hY
  · obtain ⟨lop, hl, hd, hco⟩ := hdense (by simp)
    have hL' : IsMatrix lop L := by rw [← hl t (Y t)]; exact hL
    refine ⟨_, fun dt => by
      obtain ⟨s', h, _⟩ := exp2Dense_closed hK sys s hs dt L lop hl hd hL' hco hm
      rw [h]; rfl, fun _ => rfl, ?_⟩
    exact exp2_order hY L (2 / 3) (by norm_num)
  · obtain ⟨lop, hl, hd, hco⟩ := hdense (by simp)
    have hL' : IsMatrix lop L := by rw [← hl t (Y t)]; exact hL
    refine ⟨_, fun dt => by
      obtain ⟨s', h, _⟩ := exp3Dense_closed hK sys s hs dt L lop hl hd hL' hco hm
      rw [h]; rfl, fun _ => rfl, ?_⟩
    exact exp3_order hY L

/-- The hypotheses are met by `y0' = t, y1' = y1^2` with the (unrelated) linear part `!![1, 2; 0, -1]`, and all methods. -/
example (m : String) (p : ℕ) (hm : (m, p) ∈ splitOrders) : ∃ s : ExpSplit 2, ExpSplit.new 0 (demoY 0) m = .ok s ∧
    LocalOrder p (fun dt => Except.map Prod.fst (ExpSplit.step (exactKernels 2)
      (OdeSys.ofFrhs demoF fun _ _ => LinOp.mk (fun v => !![1, 2; 0, -1] *ᵥ v) (.ok !![1, 2; 0, -1])) s dt none)) 0 demoY := by
  have hnew : ∃ s : ExpSplit 2, ExpSplit.new 0 (demoY 0) m = .ok s ∧ At s.base 0 (demoY 0) ∧ s.base.method = m := by
    simp only [splitOrders, List.mem_cons, List.not_mem_nil, or_false, Prod.mk.injEq] at hm
    rcases hm with ⟨rfl, rfl⟩ | ⟨rfl, rfl⟩ | ⟨rfl, rfl⟩ | ⟨rfl, rfl⟩ | ⟨rfl, rfl⟩ | ⟨rfl, rfl⟩ <;>
      exact ⟨_, rfl, ⟨rfl, rfl, rfl⟩, rfl⟩
  obtain ⟨s, h1, h2, h3⟩ := hnew
  refine ⟨s, h1, C38_order (exactKernels_exact 2) _ s 0 demoY h2 none p (by rw [h3]; exact hm) (demo_smooth p)
    !![1, 2; 0, -1] (fun _ => rfl) fun _ => ⟨_, fun _ _ => rfl, rfl, new_coherent _ _ h1⟩⟩

end
end Ormatex.Props
