import Verif.Props.ApproxStep

/-!
C103: convergence of a whole run whose steps are a smooth step map with perturbed auxiliary arguments, the perturbation being
under control only as long as the run stays near the solution.
-/

namespace Ormatex.Props
open Filter Asymptotics Topology Matrix Ormatex.Spec
open scoped Classical

section
variable {n : ℕ}

/-- A loop whose steps are controlled while the values so far are good, and whose controlled values are good. -/
theorem run_tube {P σ Q W : Type} (I : Stepper σ P (Vec n)) (Inv : σ → ℕ → (ℕ → Vec n) → Prop) (Rel Good : ℕ → (ℕ → Vec n) → Prop)
    (t0 dt : ℝ) (y0 : Vec n) (N : ℕ) (before : Option (W → ℝ → Vec n → P × W)) (after : Option (W → ℝ → Vec n → Q × W))
    (hRel : ∀ k u u', (∀ i ≤ k + 1, u' i = u i) → Rel k u → Rel k u')
    (hgood : ∀ k ≤ N, ∀ u : ℕ → Vec n, u 0 = y0 → (∀ j < k, Rel j u) → Good k u)
    (hs : ∀ o k u kw, k < N → Good k u → Inv o k u → ∃ r o', I.step o dt kw = .ok (r, o') ∧ r.t = t0 + k * dt + dt ∧
      ∀ u' : ℕ → Vec n, (∀ i ≤ k, u' i = u i) → u' (k + 1) = r.y → Rel k u' ∧ Inv (I.accept o' r) (k + 1) u')
    (obj : σ) (h0 : ∀ u : ℕ → Vec n, u 0 = y0 → Inv obj 0 u) (w : W) :
    ∃ l u, integrateOrmatex I obj y0 t0 dt N before after w = .ok l ∧
      l.tRes = (List.range (N + 1)).map (fun i : ℕ => t0 + i * dt) ∧
      l.yRes = (List.range (N + 1)).map u ∧ u 0 = y0 ∧ ∀ j < N, Rel j u := by
  have key : ∀ (k j : ℕ) (l : LoopState σ P Q W (Vec n)) (u : ℕ → Vec n), j + k = N → u 0 = y0 → Inv l.obj j u →
      (∀ i < j, Rel i u) →
      l.tRes = (List.range (j + 1)).map (fun i : ℕ => t0 + i * dt) →
      l.yRes = (List.range (j + 1)).map u →
      ∃ l' u', loopN I t0 y0 dt before after k l = .ok l' ∧
        l'.tRes = (List.range (j + k + 1)).map (fun i : ℕ => t0 + i * dt) ∧
        l'.yRes = (List.range (j + k + 1)).map u' ∧ u' 0 = y0 ∧ ∀ i < j + k, Rel i u' := by
    intro k
    induction k with
    | zero => intro j l u _ h3 _ h4 h1 h2; exact ⟨l, u, rfl, h1, h2, h3, h4⟩
    | succ k ih =>
      intro j l u hjk hu0 hl hrel h1 h2
      obtain ⟨r, o', e1, e2, e3⟩ := hs l.obj j u
        (callBefore before l.world (l.tRes.getLastD t0) (l.yRes.getLastD y0) l.cbBefore).1
        (by omega) (hgood j (by omega) u hu0 hrel) hl
      have hj : t0 + (j : ℝ) * dt + dt = t0 + ((j + 1 : ℕ) : ℝ) * dt := by push_cast; ring
      rw [hj] at e2
      have hb : ∃ l1, loopBody I t0 y0 dt before after l = .ok l1 ∧ l1.obj = I.accept o' r ∧
          l1.tRes = l.tRes ++ [r.t] ∧ l1.yRes = l.yRes ++ [r.y] := by
        unfold loopBody
        simp only [e1]
        exact ⟨_, rfl, rfl, rfl, rfl⟩
      obtain ⟨l1, hl1, ho, ht, hy⟩ := hb
      set u' : ℕ → Vec n := fun i => if i ≤ j then u i else r.y with hu'
      have a1 : ∀ i ≤ j, u' i = u i := fun i hi => by simp [hu', hi]
      have a2 : u' (j + 1) = r.y := by simp [hu']
      obtain ⟨b1, b2⟩ := e3 u' a1 a2
      obtain ⟨l2, u2, hl2, g1, g2, g3, g4⟩ := ih (j + 1) l1 u' (by omega) (by rw [a1 0 (by omega), hu0]) (by rw [ho]; exact b2)
        (by
          intro i hi
          rcases Nat.lt_succ_iff_lt_or_eq.1 hi with h | h
          · exact hRel i u u' (fun x hx => a1 x (by omega)) (hrel i h)
          · rw [h]; exact b1)
        (by rw [ht, h1, e2, List.range_succ (n := j + 1), List.map_append]; rfl)
        (by
          rw [hy, h2, List.range_succ (n := j + 1), List.map_append]
          congr 1
          · exact List.map_congr_left fun i hi => (a1 i (by have := List.mem_range.1 hi; omega)).symm
          · simp [a2])
      refine ⟨l2, u2, ?_, ?_, ?_, g3, ?_⟩
      · show (loopBody I t0 y0 dt before after l >>= _) = _
        rw [hl1]
        exact hl2
      · rw [g1, show j + 1 + k + 1 = j + (k + 1) + 1 by ring]
      · rw [g2, show j + 1 + k + 1 = j + (k + 1) + 1 by ring]
      · intro i hi; exact g4 i (by omega)
  obtain ⟨l, u, h1, h2, h3, h4, h5⟩ := key N 0
    { obj := obj, tRes := [t0], yRes := [y0], cbBefore := [], cbAfter := [], world := w } (fun _ => y0) (by omega) rfl
    (h0 _ rfl) (by intro i hi; omega) (by simp) (by simp)
  rw [zero_add] at h2 h3 h5
  exact ⟨l, u, h1, h2, h3, h4, h5⟩

/-- A run whose steps are a smooth step map of order `p` with auxiliary arguments that are, near the solution, within
`K (largest error so far) + ε` of the right ones, is accurate to `C (dt^p + ε)`. -/
theorem converge_run {A : Type*} [NormedAddCommGroup A] [NormedSpace ℝ A] {S : ℝ × ℝ × (Vec n × A) → Vec n} {Y : ℝ → Vec n} {a : ℝ → A}
    {t0 T : ℝ} (p : ℕ) (hp : 1 ≤ p)
    (hS : ∀ t ∈ Set.Icc t0 T, ContDiffAt ℝ 2 S (0, t, (Y t, a t))) (hS0 : ∀ t x, S (0, t, x) = x.1)
    (hY : ∀ t ∈ Set.Icc t0 T, ContinuousAt Y t) (ha : ∀ t ∈ Set.Icc t0 T, ContinuousAt a t)
    (K C0 r1 : ℝ) (hK : 0 ≤ K) (hC0 : 0 ≤ C0) (hr1 : 0 < r1) :
    ∃ C δ : ℝ, 0 ≤ C ∧ 0 < δ ∧ ∀ (dt ε : ℝ) (N : ℕ) (b : ℕ → A), 0 < dt → dt ≤ δ → 0 ≤ ε → ε ≤ δ →
      t0 + N * dt ≤ T →
      (∀ k < N, ‖b k - a (t0 + k * dt)‖ ≤ δ) →
      (∀ k < N, ‖S (dt, t0 + k * dt, (Y (t0 + k * dt), b k)) - Y (t0 + (k + 1 : ℕ) * dt)‖ ≤ C0 * dt ^ (p + 1)) →
      ∀ {P σ Q W : Type} (I : Stepper σ P (Vec n)) (Inv : σ → ℕ → (ℕ → Vec n) → Prop)
        (before : Option (W → ℝ → Vec n → P × W)) (after : Option (W → ℝ → Vec n → Q × W)) (obj : σ) (w : W),
      (∀ u : ℕ → Vec n, u 0 = Y t0 → Inv obj 0 u) →
      (∀ o k (u : ℕ → Vec n) kw, k < N → u 0 = Y t0 → (∀ j ≤ k, ‖u j - Y (t0 + j * dt)‖ < r1) → Inv o k u → ∃ r o' al, I.step o dt kw = .ok (r, o') ∧
        r.t = t0 + k * dt + dt ∧ r.y = S (dt, t0 + k * dt, (u k, al)) ∧
        ‖al - b k‖ ≤ K * maxErr (fun j => ‖u j - Y (t0 + j * dt)‖) k + ε ∧
        ∀ u' : ℕ → Vec n, (∀ i ≤ k, u' i = u i) → u' (k + 1) = r.y → Inv (I.accept o' r) (k + 1) u') →
      ∃ l, integrateOrmatex I obj (Y t0) t0 dt N before after w = .ok l ∧ RunAccurate l t0 dt N Y (C * (dt ^ p + ε)) := by
  obtain ⟨C, δ, hC, hδ, hmain⟩ := converge_abstract p hp hS hS0 hY ha K C0 r1 hK hC0 hr1
  refine ⟨C, min (min δ 1) (r1 / (4 * (C + 1))), hC, by positivity, ?_⟩
  intro dt ε N b hdt hdtδ hε hεδ hN hb hd P σ Q W I Inv before after obj w h0 hs
  have d1 : dt ≤ δ := hdtδ.trans ((min_le_left _ _).trans (min_le_left _ _))
  have d2 : dt ≤ 1 := hdtδ.trans ((min_le_left _ _).trans (min_le_right _ _))
  have d3 : dt * (4 * (C + 1)) ≤ r1 := by
    have := hdtδ.trans (min_le_right _ _)
    rwa [le_div_iff₀ (by positivity)] at this
  have e1 : ε ≤ δ := hεδ.trans ((min_le_left _ _).trans (min_le_left _ _))
  have e3 : ε * (4 * (C + 1)) ≤ r1 := by
    have := hεδ.trans (min_le_right _ _)
    rwa [le_div_iff₀ (by positivity)] at this
  have hdp : dt ^ p ≤ dt := by
    calc dt ^ p ≤ dt ^ 1 := pow_le_pow_of_le_one hdt.le d2 hp
      _ = dt := pow_one dt
  have hdp0 : 0 ≤ dt ^ p := by positivity
  have hsmall : C * (dt ^ p + ε) < r1 := by nlinarith [mul_nonneg hC hε, mul_nonneg hC hdt.le, mul_le_mul_of_nonneg_left hdp hC]
  set Rel : ℕ → (ℕ → Vec n) → Prop := fun k u => ∃ al, u (k + 1) = S (dt, t0 + k * dt, (u k, al)) ∧
    ‖al - b k‖ ≤ K * maxErr (fun j => ‖u j - Y (t0 + j * dt)‖) k + ε with hRel
  have hmaxc : ∀ (k : ℕ) (u u' : ℕ → Vec n), (∀ i ≤ k, u' i = u i) →
      maxErr (fun j => ‖u' j - Y (t0 + j * dt)‖) k = maxErr (fun j => ‖u j - Y (t0 + j * dt)‖) k := by
    intro k u u' h
    induction k with
    | zero => simp only [maxErr]; rw [h 0 le_rfl]
    | succ k ih => simp only [maxErr]; rw [ih fun i hi => h i (by omega), h (k + 1) le_rfl]
  have hbound : ∀ k ≤ N, ∀ u : ℕ → Vec n, u 0 = Y t0 → (∀ j < k, Rel j u) → ∀ j ≤ k, ‖u j - Y (t0 + j * dt)‖ ≤ C * (dt ^ p + ε) := by
    intro k hk u hu0 hr
    have hkT : t0 + (k : ℝ) * dt ≤ T := by
      have h1 : (k : ℝ) ≤ N := by exact_mod_cast hk
      have h2 := mul_le_mul_of_nonneg_right h1 hdt.le
      linarith
    have := hmain t0 dt ε 0 k u (fun j => if h : j < k then (hr j h).choose else 0) b hdt d1 hε e1 le_rfl hδ.le le_rfl hkT
      (by simp [hu0])
      (by
        intro j hj
        simp only [hj, dif_pos]
        exact (hr j hj).choose_spec.1)
      (by
        intro j hj _
        simp only [hj, dif_pos]
        exact (hr j hj).choose_spec.2)
      (fun j hj => (hb j (by omega)).trans ((min_le_left _ _).trans (min_le_left _ _)))
      (fun j hj => hd j (by omega))
    intro j hj
    have h := this j hj
    rwa [add_zero] at h
  obtain ⟨l, u, g1, g2, g3, g4, g5⟩ := run_tube I Inv Rel (fun k u => u 0 = Y t0 ∧ ∀ j ≤ k, ‖u j - Y (t0 + j * dt)‖ < r1) t0 dt (Y t0) N before after
    (by
      rintro k u u' h ⟨al, h1, h2⟩
      refine ⟨al, ?_, ?_⟩
      · rw [h (k + 1) le_rfl, h k (by omega), h1]
      · rw [hmaxc k u u' fun i hi => h i (by omega)]; exact h2)
    (fun k hk u hu0 hr => ⟨hu0, fun j hj => (hbound k hk u hu0 hr j hj).trans_lt hsmall⟩)
    (by
      rintro o k u kw hk ⟨hu0, hg⟩ hi
      obtain ⟨r, o', al, h1, h2, h3, h4, h5⟩ := hs o k u kw hk hu0 hg hi
      refine ⟨r, o', h1, h2, fun u' ha hn => ⟨⟨al, ?_, ?_⟩, h5 u' ha hn⟩⟩
      · rw [hn, h3, ha k le_rfl]
      · rw [hmaxc k u u' ha]; exact h4)
    obj h0 w
  exact ⟨l, g1, runAccurate_of g2 g3 (hbound N le_rfl u g4 g5)⟩

end
end Ormatex.Props
