import Verif.Props.Pfd
import Verif.Spec.Phi
import Mathlib.Analysis.SpecialFunctions.Exp
import Mathlib.Analysis.Complex.Exponential
import Mathlib.Analysis.Complex.ExponentialBounds
import Mathlib.Tactic.LinearCombination
import Mathlib.Tactic.Positivity
import Mathlib.Tactic.FieldSimp
import Mathlib.Tactic.NormNum.BigOperators

/-!
A verified checker for `|r(x) - phi_k(x)| ≤ ε` on an interval, where `r` is a rational function given by partial fractions with
decimal coefficients.  The checker computes with integer polynomials; it is evaluated by the kernel in `Props/PfdCert.lean`.
-/

namespace Ormatex.Props.Cert
open Ormatex Ormatex.Spec

/-! ### integer polynomials -/

/-- hand the evaluated number on (keeps the kernel from evaluating a subterm twice) -/
def forceN {α : Type} (n : ℕ) (f : ℕ → α) : α := match n with | 0 => f 0 | k + 1 => f (k + 1)

theorem forceN_eq {α : Type} (n : ℕ) (f : ℕ → α) : forceN n f = f n := by cases n <;> rfl

def forceZ {α : Type} (a : ℤ) (f : ℤ → α) : α :=
  match a with
  | .ofNat n => forceN n fun m => f (.ofNat m)
  | .negSucc n => forceN n fun m => f (.negSucc m)

theorem forceZ_eq {α : Type} (a : ℤ) (f : ℤ → α) : forceZ a f = f a := by
  cases a <;> simp only [forceZ, forceN_eq]

def forceL {α : Type} : List ℤ → (List ℤ → α) → α
  | [], f => f []
  | a :: l, f => forceZ a fun b => forceL l fun l' => f (b :: l')

theorem forceL_eq {α : Type} (l : List ℤ) (f : List ℤ → α) : forceL l f = f l := by
  induction l generalizing f with
  | nil => rfl
  | cons a l ih => simp only [forceL, forceZ_eq, ih]

def addP : List ℤ → List ℤ → List ℤ
  | [], q => q
  | a :: p, [] => a :: p
  | a :: p, b :: q => (a + b) :: addP p q

def smulP (c : ℤ) : List ℤ → List ℤ
  | [] => []
  | a :: p => (c * a) :: smulP c p

def mulP : List ℤ → List ℤ → List ℤ
  | [], _ => []
  | a :: p, q => forceL (mulP p q) fun r => addP (smulP a q) (0 :: r)

/-- value of the polynomial with coefficients `p`, constant term first -/
noncomputable def evP : List ℤ → ℝ → ℝ
  | [], _ => 0
  | a :: p, x => a + x * evP p x

/-- bound of the polynomial on `[-h, h]` -/
def absP (h : ℕ) : List ℤ → ℕ
  | [] => 0
  | a :: p => forceN (absP h p) fun s => a.natAbs + h * s

theorem evP_add (p q : List ℤ) (x : ℝ) : evP (addP p q) x = evP p x + evP q x := by
  induction p generalizing q with
  | nil => simp [addP, evP]
  | cons a p ih =>
    cases q with
    | nil => simp [addP, evP]
    | cons b q => simp only [addP, evP, ih]; push_cast; ring

theorem evP_smul (c : ℤ) (p : List ℤ) (x : ℝ) : evP (smulP c p) x = c * evP p x := by
  induction p with
  | nil => simp [smulP, evP]
  | cons a p ih => simp only [smulP, evP, ih]; push_cast; ring

theorem evP_mul (p q : List ℤ) (x : ℝ) : evP (mulP p q) x = evP p x * evP q x := by
  induction p with
  | nil => simp [mulP, evP]
  | cons a p ih =>
    rw [mulP, forceL_eq, evP_add, evP_smul, evP, evP, ih]
    push_cast
    ring

theorem abs_evP_le (h : ℕ) (p : List ℤ) (x : ℝ) (hx : |x| ≤ h) : |evP p x| ≤ absP h p := by
  induction p with
  | nil => simp [evP, absP]
  | cons a p ih =>
    rw [evP, absP, forceN_eq]
    push_cast
    refine (abs_add_le _ _).trans (add_le_add ?_ ?_)
    · rw [← Int.cast_abs, Nat.cast_natAbs]
    · rw [abs_mul]
      exact mul_le_mul hx ih (abs_nonneg _) (Nat.cast_nonneg _)

/-- lower bound of the polynomial on `[-h, h]` -/
theorem evP_ge (h : ℕ) (a : ℤ) (p : List ℤ) (x : ℝ) (hx : |x| ≤ h) : (a : ℝ) - h * absP h p ≤ evP (a :: p) x := by
  rw [evP]
  have h1 : |x * evP p x| ≤ h * absP h p := by
    rw [abs_mul]
    exact mul_le_mul hx (abs_evP_le h p x hx) (abs_nonneg _) (Nat.cast_nonneg _)
  linarith [(abs_le.1 h1).1]

/-! ### rational functions -/

/-- one partial fraction: pole `(pr + i pi)/D`, coefficient `(wr + i wi)/D`, denominator `den` -/
structure RTerm where
  pr : ℤ
  pi : ℤ
  wr : ℤ
  wi : ℤ
  den : ℤ

/-- `Re (2 w/(x - p)) / den` for real `x`, in real arithmetic -/
noncomputable def RTerm.val (D : ℤ) (e : RTerm) (x : ℝ) : ℝ :=
  2 * ((e.wr / D : ℝ) * (x - e.pr / D) - (e.wi / D : ℝ) * (e.pi / D)) / (((x - e.pr / D) ^ 2 + (e.pi / D : ℝ) ^ 2) * e.den)

/-- `c0 + ∑ Re (2 w/(x - p))/den` -/
noncomputable def rVal (D C0 : ℤ) (tab : List RTerm) (x : ℝ) : ℝ := C0 / D + (tab.map fun e => e.val D x).sum

/-- numerator and denominator as polynomials in `τ`, `x = (A + τ)/M` -/
def nq {α : Type} (D C0 M A : ℤ) : List RTerm → (List ℤ → List ℤ → α) → α
  | [], f => f [C0] [D]
  | e :: r, f => nq D C0 M A r fun N Q =>
    forceZ (D * A - M * e.pr) fun u =>
    forceL [(u * u + M * e.pi * (M * e.pi)) * e.den, 2 * D * u * e.den, D * D * e.den] fun q =>
    forceL [2 * M * (e.wr * u - e.wi * M * e.pi), 2 * M * e.wr * D] fun n =>
    forceL (addP (mulP q N) (mulP n Q)) fun N' =>
    forceL (mulP q Q) fun Q' => f N' Q'

def TabOk (tab : List RTerm) : Prop := ∀ e ∈ tab, e.pi ≠ 0 ∧ 0 < e.den

theorem nq_spec {α : Type} (D C0 M A : ℤ) (hD : 0 < D) (hM : 0 < M) (tab : List RTerm) (ht : TabOk tab) :
    ∃ N Q : List ℤ, (∀ f : List ℤ → List ℤ → α, nq D C0 M A tab f = f N Q) ∧
      ∀ τ : ℝ, 0 < evP Q τ ∧ evP N τ / evP Q τ = rVal D C0 tab ((A + τ) / M) := by
  have hD' : (0 : ℝ) < D := by exact_mod_cast hD
  have hM' : (0 : ℝ) < M := by exact_mod_cast hM
  induction tab with
  | nil =>
    refine ⟨[C0], [D], fun f => rfl, fun τ => ?_⟩
    simp [evP, rVal, hD]
  | cons e r ih =>
    obtain ⟨N, Q, h1, h2⟩ := ih (fun e he => ht e (List.mem_cons_of_mem _ he))
    obtain ⟨he1, he2⟩ := ht e (by simp)
    have he1' : (e.pi : ℝ) ≠ 0 := by exact_mod_cast he1
    have he2' : (0 : ℝ) < e.den := by exact_mod_cast he2
    set u := D * A - M * e.pr with hu
    set q : List ℤ := [(u * u + M * e.pi * (M * e.pi)) * e.den, 2 * D * u * e.den, D * D * e.den] with hq
    set n : List ℤ := [2 * M * (e.wr * u - e.wi * M * e.pi), 2 * M * e.wr * D] with hn
    refine ⟨addP (mulP q N) (mulP n Q), mulP q Q, fun f => ?_, fun τ => ?_⟩
    · rw [nq, h1]
      simp only [forceZ_eq, forceL_eq]
      rfl
    · obtain ⟨h3, h4⟩ := h2 τ
      have eu : (u : ℝ) = D * A - M * e.pr := by rw [hu]; push_cast; ring
      have eq : evP q τ = ((u + D * τ) ^ 2 + (M * e.pi) ^ 2) * e.den := by
        simp only [hq, evP]; push_cast; ring
      have en : evP n τ = 2 * M * (e.wr * (u + D * τ) - e.wi * M * e.pi) := by
        simp only [hn, evP]; push_cast; ring
      have hqp : 0 < evP q τ := by
        rw [eq]
        have : 0 < ((M : ℝ) * e.pi) ^ 2 := by positivity
        exact mul_pos (by nlinarith [sq_nonneg ((u : ℝ) + D * τ)]) he2'
      refine ⟨by rw [evP_mul]; positivity, ?_⟩
      rw [evP_add, evP_mul, evP_mul, evP_mul]
      have e1 : (evP q τ * evP N τ + evP n τ * evP Q τ) / (evP q τ * evP Q τ) = evP n τ / evP q τ + evP N τ / evP Q τ := by
        field_simp
        ring
      rw [e1, h4, rVal, rVal, List.map_cons, List.sum_cons]
      have e2 : evP n τ / evP q τ = e.val D ((A + τ) / M) := by
        have ex : ((A + τ) / M : ℝ) - e.pr / D = (u + D * τ) / (M * D) := by
          rw [eu]; field_simp; ring
        have epi : (e.pi / D : ℝ) = (M * e.pi) / (M * D) := by field_simp
        rw [en, eq, RTerm.val, ex, epi]
        have hpos : (0 : ℝ) < (u + D * τ) ^ 2 + (M * e.pi) ^ 2 := by
          have : 0 < ((M : ℝ) * e.pi) ^ 2 := by positivity
          nlinarith [sq_nonneg ((u : ℝ) + D * τ)]
        rw [div_pow, div_pow, ← add_div]
        field_simp
      rw [e2]; ring

/-- numerator and denominator in `v = A + τ`, `x = -M/v` -/
def nqT {α : Type} (D C0 M A : ℤ) : List RTerm → (List ℤ → List ℤ → α) → α
  | [], f => f [C0] [D]
  | e :: r, f => nqT D C0 M A r fun N Q =>
    forceZ (D * M + e.pr * A) fun u =>
    forceZ (e.wr * e.pr + e.wi * e.pi) fun g =>
    forceL [(u * u + e.pi * A * (e.pi * A)) * e.den, (2 * e.pr * u + 2 * e.pi * (e.pi * A)) * e.den, (e.pr * e.pr + e.pi * e.pi) * e.den] fun q =>
    forceL [-2 * A * (e.wr * D * M + g * A), -2 * (e.wr * D * M + g * A) - 2 * A * g, -2 * g] fun n =>
    forceL (addP (mulP q N) (mulP n Q)) fun N' =>
    forceL (mulP q Q) fun Q' => f N' Q'

theorem nqT_spec {α : Type} (D C0 M A : ℤ) (hD : 0 < D) (hM : 0 < M) (tab : List RTerm) (ht : TabOk tab) :
    ∃ N Q : List ℤ, (∀ f : List ℤ → List ℤ → α, nqT D C0 M A tab f = f N Q) ∧
      ∀ τ : ℝ, (A : ℝ) + τ ≠ 0 → 0 < evP Q τ ∧ evP N τ / evP Q τ = rVal D C0 tab (-(M / (A + τ))) := by
  have hD' : (0 : ℝ) < D := by exact_mod_cast hD
  have hM' : (0 : ℝ) < M := by exact_mod_cast hM
  induction tab with
  | nil =>
    refine ⟨[C0], [D], fun f => rfl, fun τ _ => ?_⟩
    simp [evP, rVal, hD]
  | cons e r ih =>
    obtain ⟨N, Q, h1, h2⟩ := ih (fun e he => ht e (List.mem_cons_of_mem _ he))
    obtain ⟨he1, he2⟩ := ht e (by simp)
    have he1' : (e.pi : ℝ) ≠ 0 := by exact_mod_cast he1
    have he2' : (0 : ℝ) < e.den := by exact_mod_cast he2
    set u := D * M + e.pr * A with hu
    set g := e.wr * e.pr + e.wi * e.pi with hg
    set q : List ℤ := [(u * u + e.pi * A * (e.pi * A)) * e.den, (2 * e.pr * u + 2 * e.pi * (e.pi * A)) * e.den, (e.pr * e.pr + e.pi * e.pi) * e.den] with hq
    set n : List ℤ := [-2 * A * (e.wr * D * M + g * A), -2 * (e.wr * D * M + g * A) - 2 * A * g, -2 * g] with hn
    refine ⟨addP (mulP q N) (mulP n Q), mulP q Q, fun f => ?_, fun τ hτ => ?_⟩
    · rw [nqT, h1]
      simp only [forceZ_eq, forceL_eq]
      rfl
    · obtain ⟨h3, h4⟩ := h2 τ hτ
      set v : ℝ := A + τ with hv
      have eq : evP q τ = ((D * M + e.pr * v) ^ 2 + (e.pi * v) ^ 2) * e.den := by
        simp only [hq, evP, hu, hv]; push_cast; ring
      have en : evP n τ = -2 * v * (e.wr * D * M + (e.wr * e.pr + e.wi * e.pi) * v) := by
        simp only [hn, evP, hg, hv]; push_cast; ring
      have hpos : (0 : ℝ) < (D * M + e.pr * v) ^ 2 + (e.pi * v) ^ 2 := by
        have : 0 < ((e.pi : ℝ) * v) ^ 2 := by positivity
        nlinarith [sq_nonneg ((D : ℝ) * M + e.pr * v)]
      have hqp : 0 < evP q τ := by rw [eq]; exact mul_pos hpos he2'
      refine ⟨by rw [evP_mul]; positivity, ?_⟩
      rw [evP_add, evP_mul, evP_mul, evP_mul]
      have e1 : (evP q τ * evP N τ + evP n τ * evP Q τ) / (evP q τ * evP Q τ) = evP n τ / evP q τ + evP N τ / evP Q τ := by
        field_simp
        ring
      rw [e1, h4, rVal, rVal, List.map_cons, List.sum_cons]
      have e2 : evP n τ / evP q τ = e.val D (-(M / v)) := by
        have ex : -(M / v : ℝ) - e.pr / D = -(D * M + e.pr * v) / (D * v) := by
          field_simp; ring
        have epi : (e.pi / D : ℝ) = (e.pi * v) / (D * v) := by field_simp
        rw [en, eq, RTerm.val, ex, epi, div_pow, div_pow, ← add_div, neg_sq]
        field_simp
        ring
      rw [e2]; ring

/-! ### Taylor polynomials -/

/-- numerator polynomial and scale of `∑_{i<m} v^i k!/(M^i (i+k)!)`, `v = s + τ` (Horner) -/
def hor {α : Type} (M s : ℤ) : ℕ → ℕ → (List ℤ → ℤ → α) → α
  | _, 0, f => f [] 1
  | k, m + 1, f => hor M s (k + 1) m fun P c =>
    forceZ (c * M * ((k : ℤ) + 1)) fun c' => forceL (addP [c'] (mulP [s, 1] P)) fun P' => f P' c'

theorem hor_spec {α : Type} (M s : ℤ) (hM : 0 < M) (k m : ℕ) :
    ∃ (P : List ℤ) (c : ℤ), (∀ f : List ℤ → ℤ → α, hor M s k m f = f P c) ∧ 0 < c ∧
      ∀ τ : ℝ, evP P τ / c = ∑ i ∈ Finset.range m, (k.factorial : ℝ) / ((i + k).factorial : ℝ) * ((s + τ) / M) ^ i := by
  have hM' : (0 : ℝ) < M := by exact_mod_cast hM
  induction m generalizing k with
  | zero => exact ⟨[], 1, fun f => rfl, one_pos, fun τ => by simp [evP]⟩
  | succ m ih =>
    obtain ⟨P, c, h1, h2, h3⟩ := ih (k + 1)
    have h2' : (0 : ℝ) < c := by exact_mod_cast h2
    have hk : (0 : ℝ) < (k : ℝ) + 1 := by positivity
    refine ⟨addP [c * M * ((k : ℤ) + 1)] (mulP [s, 1] P), c * M * ((k : ℤ) + 1), fun f => ?_, by positivity, fun τ => ?_⟩
    · rw [hor, h1]; simp only [forceZ_eq, forceL_eq]
    · rw [evP_add, evP_mul, Finset.sum_range_succ']
      have h4 := h3 τ
      rw [div_eq_iff h2'.ne'] at h4
      simp only [evP, h4]
      have e : ∀ i, ((k + 1).factorial : ℝ) / ((i + (k + 1)).factorial : ℝ) * ((s + τ) / M) ^ i
          = ((k : ℝ) + 1) * ((k.factorial : ℝ) / ((i + 1 + k).factorial : ℝ) * ((s + τ) / M) ^ i) := by
        intro i
        rw [show i + 1 + k = i + (k + 1) by ring, Nat.factorial_succ k]
        push_cast
        ring
      rw [Finset.sum_congr rfl fun i _ => e i, ← Finset.mul_sum]
      have e' : ∀ i, (k.factorial : ℝ) / ((i + 1 + k).factorial : ℝ) * ((s + τ) / M) ^ (i + 1)
          = ((s + τ) / M) * ((k.factorial : ℝ) / ((i + 1 + k).factorial : ℝ) * ((s + τ) / M) ^ i) := fun i => by ring
      rw [Finset.sum_congr rfl fun i _ => e' i, ← Finset.mul_sum]
      generalize (∑ i ∈ Finset.range m, (k.factorial : ℝ) / ((i + 1 + k).factorial : ℝ) * ((s + τ) / M) ^ i) = X
      have hkf : (k.factorial : ℝ) ≠ 0 := by exact_mod_cast k.factorial_ne_zero
      push_cast
      rw [Nat.zero_add, pow_zero, mul_one, div_self hkf]
      field_simp
      ring

/-- truncation error of the series of `phi_k` for `|x| ≤ 1` -/
theorem phi_trunc (k m : ℕ) (x : ℝ) (hx : |x| ≤ 1) :
    |phi k x - ∑ i ∈ Finset.range m, ((i + k).factorial : ℝ)⁻¹ * x ^ i| ≤ 3 / m.factorial := by
  have hs : HasSum (fun j : ℕ => ((j + k).factorial : ℝ)⁻¹ * x ^ j) (phi k x) := by
    have := phi_hasSum k x
    simpa [smul_eq_mul] using this
  have hs2 := (hasSum_nat_add_iff' m).2 hs
  have hb : ∀ j : ℕ, ‖((j + m + k).factorial : ℝ)⁻¹ * x ^ (j + m)‖ ≤ (m.factorial : ℝ)⁻¹ * ((j.factorial : ℝ)⁻¹) := by
    intro j
    rw [norm_mul, norm_inv, Real.norm_natCast, Real.norm_eq_abs, abs_pow, ← mul_inv]
    have h1 : |x| ^ (j + m) ≤ 1 := pow_le_one₀ (abs_nonneg _) hx
    have h2 : m.factorial * j.factorial ≤ (j + m + k).factorial := by
      refine le_trans ?_ (Nat.factorial_le (Nat.le_add_right (j + m) k))
      rw [mul_comm]
      exact Nat.le_of_dvd (Nat.factorial_pos _) (Nat.factorial_mul_factorial_dvd_factorial_add j m)
    have h3 : (0 : ℝ) < (m.factorial : ℝ) * j.factorial := by positivity
    calc ((j + m + k).factorial : ℝ)⁻¹ * |x| ^ (j + m) ≤ ((j + m + k).factorial : ℝ)⁻¹ * 1 :=
          mul_le_mul_of_nonneg_left h1 (by positivity)
      _ ≤ ((m.factorial : ℝ) * j.factorial)⁻¹ := by
          rw [mul_one]
          exact inv_anti₀ h3 (by exact_mod_cast h2)
  have he : HasSum (fun j : ℕ => (m.factorial : ℝ)⁻¹ * ((j.factorial : ℝ)⁻¹)) ((m.factorial : ℝ)⁻¹ * Real.exp 1) := by
    refine HasSum.mul_left _ ?_
    have := NormedSpace.expSeries_div_hasSum_exp (𝔸 := ℝ) (1 : ℝ)
    rw [← Real.exp_eq_exp_ℝ] at this
    simpa using this
  have h4 : |phi k x - ∑ i ∈ Finset.range m, ((i + k).factorial : ℝ)⁻¹ * x ^ i| ≤ (m.factorial : ℝ)⁻¹ * Real.exp 1 := by
    rw [← Real.norm_eq_abs, ← hs2.tsum_eq]
    exact tsum_of_norm_bounded he hb
  refine h4.trans ?_
  have h5 : Real.exp 1 ≤ 3 := by linarith [Real.exp_one_lt_d9]
  rw [inv_mul_eq_div]
  exact div_le_div_of_nonneg_right h5 (by positivity)

/-! ### one piece -/

/-- compare `N/Q` with `T/S` on `[-H, H]` with tolerance `en/ed` -/
def cmp (en ed : ℕ) (H : ℕ) (N Q T : List ℤ) (S : ℤ) : Bool :=
  match Q with
  | [] => false
  | q0 :: Q' => decide (((absP H (addP (smulP S N) (smulP (-1) (mulP T Q))) : ℕ) : ℤ) * (ed : ℤ)
      ≤ (en : ℤ) * S * (q0 - (H : ℤ) * (absP H Q' : ℕ)))

theorem cmp_sound {en ed H : ℕ} {N Q T : List ℤ} {S : ℤ} (hed : 0 < ed) (hS : 0 < S) (h : cmp en ed H N Q T S = true) (τ : ℝ)
    (hτ : |τ| ≤ H) (hQ : 0 < evP Q τ) : |evP N τ / evP Q τ - evP T τ / S| ≤ en / ed := by
  unfold cmp at h
  cases Q with
  | nil => simp at h
  | cons q0 Q' =>
    simp only [decide_eq_true_eq] at h
    have h1 := abs_evP_le H (addP (smulP S N) (smulP (-1) (mulP T (q0 :: Q')))) τ hτ
    rw [evP_add, evP_smul, evP_smul, evP_mul] at h1
    have h2 := evP_ge H q0 Q' τ hτ
    generalize evP (q0 :: Q') τ = Qv at *
    generalize absP H (addP (smulP S N) (smulP (-1) (mulP T (q0 :: Q')))) = B at *
    generalize absP H Q' = C at *
    have hS' : (0 : ℝ) < S := by exact_mod_cast hS
    have hed' : (0 : ℝ) < ed := by exact_mod_cast hed
    have h3 : (B : ℝ) * ed ≤ en * S * (q0 - H * C) := by exact_mod_cast h
    have e : evP N τ / Qv - evP T τ / S = (S * evP N τ + ((-1 : ℤ) : ℝ) * (evP T τ * Qv)) / (S * Qv) := by
      push_cast
      field_simp
      ring
    rw [e, abs_div, abs_of_pos (mul_pos hS' hQ), div_le_div_iff₀ (mul_pos hS' hQ) hed']
    have h4 : (en : ℝ) * S * (q0 - H * C) ≤ en * S * Qv := mul_le_mul_of_nonneg_left h2 (by positivity)
    calc _ ≤ (B : ℝ) * ed := mul_le_mul_of_nonneg_right h1 hed'.le
      _ ≤ en * (S * Qv) := by nlinarith

/-! ### Kronecker substitution: polynomials as values at one large integer `X` -/

def evZ : List ℤ → ℤ → ℤ
  | [], _ => 0
  | a :: p, x => a + x * evZ p x

/-- sum of the absolute values of the coefficients -/
def nrm : List ℤ → ℤ
  | [] => 0
  | a :: p => |a| + nrm p

theorem nrm_nonneg (p : List ℤ) : 0 ≤ nrm p := by
  induction p with
  | nil => exact le_rfl
  | cons a p ih => rw [nrm]; positivity

theorem evZ_add (p q : List ℤ) (x : ℤ) : evZ (addP p q) x = evZ p x + evZ q x := by
  induction p generalizing q with
  | nil => simp [addP, evZ]
  | cons a p ih =>
    cases q with
    | nil => simp [addP, evZ]
    | cons b q => simp only [addP, evZ, ih]; ring

theorem evZ_smul (c : ℤ) (p : List ℤ) (x : ℤ) : evZ (smulP c p) x = c * evZ p x := by
  induction p with
  | nil => simp [smulP, evZ]
  | cons a p ih => simp only [smulP, evZ, ih]; ring

theorem evZ_mul (p q : List ℤ) (x : ℤ) : evZ (mulP p q) x = evZ p x * evZ q x := by
  induction p with
  | nil => simp [mulP, evZ]
  | cons a p ih =>
    rw [mulP, forceL_eq, evZ_add, evZ_smul, evZ, evZ, ih]
    ring

theorem nrm_add (p q : List ℤ) : nrm (addP p q) ≤ nrm p + nrm q := by
  induction p generalizing q with
  | nil => simp [addP, nrm]
  | cons a p ih =>
    cases q with
    | nil => simp [addP, nrm]
    | cons b q =>
      simp only [addP, nrm]
      have := ih q
      have := abs_add_le a b
      linarith

theorem nrm_smul (c : ℤ) (p : List ℤ) : nrm (smulP c p) = |c| * nrm p := by
  induction p with
  | nil => simp [smulP, nrm]
  | cons a p ih => simp only [smulP, nrm, ih, abs_mul]; ring

theorem nrm_mul (p q : List ℤ) : nrm (mulP p q) ≤ nrm p * nrm q := by
  induction p with
  | nil => simp [mulP, nrm]
  | cons a p ih =>
    rw [mulP, forceL_eq]
    refine (nrm_add _ _).trans ?_
    rw [nrm_smul, nrm, nrm, abs_zero, zero_add, add_mul]
    linarith

theorem length_addP (p q : List ℤ) : (addP p q).length = max p.length q.length := by
  induction p generalizing q with
  | nil => simp [addP]
  | cons a p ih =>
    cases q with
    | nil => simp [addP]
    | cons b q => simp only [addP, List.length_cons, ih]; omega

theorem length_smulP (c : ℤ) (p : List ℤ) : (smulP c p).length = p.length := by
  induction p with
  | nil => rfl
  | cons a p ih => simp [smulP, ih]

theorem length_mulP (p q : List ℤ) : (mulP p q).length ≤ p.length + q.length := by
  induction p with
  | nil => simp [mulP]
  | cons a p ih =>
    rw [mulP, forceL_eq, length_addP, length_smulP]
    simp only [List.length_cons]
    omega

/-- the balanced digit of `v` in base `X` -/
def dig (X v : ℤ) : ℤ := (v + X / 2) % X - X / 2

theorem dig_eq (X c v : ℤ) (hc : 2 * |c| < X) : dig X (c + X * v) = c := by
  unfold dig
  have h1 := abs_lt.1 (show |c| < X / 2 + 1 by omega)
  have h2 := abs_nonneg c
  have h3 := le_abs_self c
  have h4 := neg_abs_le c
  rw [show c + X * v + X / 2 = (c + X / 2) + X * v by ring, Int.add_mul_emod_self_left,
    Int.emod_eq_of_lt (by omega) (by omega)]
  ring

/-- `absP` of the polynomial whose value at `X` is `v` -/
def absK (h : ℕ) (X : ℤ) : ℕ → ℤ → ℕ
  | 0, _ => 0
  | f + 1, v => forceZ (dig X v) fun d => forceZ ((v - d) / X) fun v' => forceN (absK h X f v') fun s => d.natAbs + h * s

theorem absK_eq (h : ℕ) (X : ℤ) (hX : 0 < X) (f : ℕ) (p : List ℤ) (hp : 2 * nrm p < X) (hf : p.length ≤ f) :
    absK h X f (evZ p X) = absP h p := by
  induction f generalizing p with
  | zero =>
    cases p with
    | nil => rfl
    | cons a p => simp at hf
  | succ f ih =>
    cases p with
    | nil =>
      have h0 := ih [] hp (by simp)
      rw [absP] at h0 ⊢
      rw [absK, forceZ_eq, forceZ_eq, forceN_eq]
      have e : evZ [] X = 0 := rfl
      rw [e] at h0 ⊢
      have ed : dig X 0 = 0 := by simpa using dig_eq X 0 0 (by simpa using hX)
      rw [ed]
      simp [h0]
    | cons a p =>
      rw [absK, forceZ_eq, forceZ_eq, forceN_eq, absP, forceN_eq]
      have hn := nrm_nonneg p
      rw [nrm] at hp
      have ha := abs_nonneg a
      have ed : dig X (evZ (a :: p) X) = a := dig_eq X a (evZ p X) (by omega)
      rw [ed]
      have e2 : (evZ (a :: p) X - a) / X = evZ p X := by
        rw [evZ, add_sub_cancel_left, Int.mul_ediv_cancel_left _ hX.ne']
      rw [e2, ih p (by omega) (by simpa using hf)]

/-- a polynomial known by its value at `X` and a bound of its coefficients -/
def Kron (X : ℤ) (len : ℕ) (p : List ℤ) (v b : ℤ) : Prop := evZ p X = v ∧ nrm p ≤ b ∧ p.length ≤ len

theorem Kron.nonneg {X : ℤ} {len : ℕ} {p : List ℤ} {v b : ℤ} (h : Kron X len p v b) : 0 ≤ b := (nrm_nonneg p).trans h.2.1

theorem Kron.add {X : ℤ} {l l' : ℕ} {p q : List ℤ} {v b w d : ℤ} (h : Kron X l p v b) (h' : Kron X l' q w d) :
    Kron X (max l l') (addP p q) (v + w) (b + d) :=
  ⟨by rw [evZ_add, h.1, h'.1], (nrm_add _ _).trans (add_le_add h.2.1 h'.2.1),
    by rw [length_addP]; exact max_le_max h.2.2 h'.2.2⟩

theorem Kron.mul {X : ℤ} {l l' : ℕ} {p q : List ℤ} {v b w d : ℤ} (h : Kron X l p v b) (h' : Kron X l' q w d) :
    Kron X (l + l') (mulP p q) (v * w) (b * d) :=
  ⟨by rw [evZ_mul, h.1, h'.1], (nrm_mul _ _).trans (mul_le_mul h.2.1 h'.2.1 (nrm_nonneg _) h.nonneg),
    (length_mulP _ _).trans (add_le_add h.2.2 h'.2.2)⟩

theorem Kron.smul {X : ℤ} {l : ℕ} {p : List ℤ} {v b : ℤ} (c : ℤ) (h : Kron X l p v b) :
    Kron X l (smulP c p) (c * v) (|c| * b) :=
  ⟨by rw [evZ_smul, h.1], by rw [nrm_smul]; exact mul_le_mul_of_nonneg_left h.2.1 (abs_nonneg _), by rw [length_smulP]; exact h.2.2⟩

theorem Kron.mono {X : ℤ} {l l' : ℕ} {p : List ℤ} {v b : ℤ} (h : Kron X l p v b) (hl : l ≤ l') : Kron X l' p v b :=
  ⟨h.1, h.2.1, h.2.2.trans hl⟩

theorem kron3 (X a b c : ℤ) : Kron X 3 [a, b, c] (a + X * (b + X * c)) (|a| + |b| + |c|) :=
  ⟨by simp [evZ], by simp [nrm]; linarith, by simp⟩

theorem kron2 (X a b : ℤ) : Kron X 2 [a, b] (a + X * b) (|a| + |b|) :=
  ⟨by simp [evZ], by simp [nrm], by simp⟩

theorem kron1 (X a : ℤ) : Kron X 1 [a] a |a| := ⟨by simp [evZ], by simp [nrm], by simp⟩

/-- absolute value that the kernel evaluates directly -/
def zabs (a : ℤ) : ℤ := (a.natAbs : ℤ)

theorem zabs_eq (a : ℤ) : zabs a = |a| := Int.natCast_natAbs a

/-- one step of the combination of partial fractions -/
def stepK {α : Type} (X q0 q1 q2 n0 n1 n2 Nv Nb Qv Qb : ℤ) (f : ℤ → ℤ → ℤ → ℤ → α) : α :=
  forceZ q0 fun q0 => forceZ q1 fun q1 => forceZ q2 fun q2 => forceZ n0 fun n0 => forceZ n1 fun n1 => forceZ n2 fun n2 =>
  forceZ (q0 + X * (q1 + X * q2)) fun qv => forceZ (n0 + X * (n1 + X * n2)) fun nv =>
  forceZ (zabs q0 + zabs q1 + zabs q2) fun qb => forceZ (zabs n0 + zabs n1 + zabs n2) fun nb =>
  forceZ (qv * Nv + nv * Qv) fun Nv' => forceZ (qb * Nb + nb * Qb) fun Nb' => forceZ (qv * Qv) fun Qv' => forceZ (qb * Qb) fun Qb' =>
  f Nv' Nb' Qv' Qb'

/-- `nq` by values -/
def nqK {α : Type} (X D C0 M A : ℤ) : List RTerm → (ℤ → ℤ → ℤ → ℤ → α) → α
  | [], f => f C0 (zabs C0) D (zabs D)
  | e :: r, f => nqK X D C0 M A r fun Nv Nb Qv Qb =>
    forceZ (D * A - M * e.pr) fun u =>
    stepK X ((u * u + M * e.pi * (M * e.pi)) * e.den) (2 * D * u * e.den) (D * D * e.den)
      (2 * M * (e.wr * u - e.wi * M * e.pi)) (2 * M * e.wr * D) 0 Nv Nb Qv Qb f

/-- `nqT` by values -/
def nqTK {α : Type} (X D C0 M A : ℤ) : List RTerm → (ℤ → ℤ → ℤ → ℤ → α) → α
  | [], f => f C0 (zabs C0) D (zabs D)
  | e :: r, f => nqTK X D C0 M A r fun Nv Nb Qv Qb =>
    forceZ (D * M + e.pr * A) fun u =>
    forceZ (e.wr * e.pr + e.wi * e.pi) fun g =>
    stepK X ((u * u + e.pi * A * (e.pi * A)) * e.den) ((2 * e.pr * u + 2 * e.pi * (e.pi * A)) * e.den)
      ((e.pr * e.pr + e.pi * e.pi) * e.den)
      (-2 * A * (e.wr * D * M + g * A)) (-2 * (e.wr * D * M + g * A) - 2 * A * g) (-2 * g) Nv Nb Qv Qb f

/-- Kronecker data of numerator and denominator -/
def KronNQ (X : ℤ) (len : ℕ) (N Q : List ℤ) (Nv Nb Qv Qb : ℤ) : Prop := Kron X len N Nv Nb ∧ Kron X len Q Qv Qb

theorem stepK_spec {α : Type} {X q0 q1 q2 n0 n1 n2 Nv Nb Qv Qb : ℤ} {len : ℕ} {N Q : List ℤ} (h : KronNQ X len N Q Nv Nb Qv Qb)
    (n : List ℤ) (hn : Kron X 3 n (n0 + X * (n1 + X * n2)) (|n0| + |n1| + |n2|)) :
    ∃ Nv' Nb' Qv' Qb', (∀ f : ℤ → ℤ → ℤ → ℤ → α, stepK X q0 q1 q2 n0 n1 n2 Nv Nb Qv Qb f = f Nv' Nb' Qv' Qb') ∧
      KronNQ X (len + 3) (addP (mulP [q0, q1, q2] N) (mulP n Q)) (mulP [q0, q1, q2] Q) Nv' Nb' Qv' Qb' := by
  refine ⟨(q0 + X * (q1 + X * q2)) * Nv + (n0 + X * (n1 + X * n2)) * Qv, (|q0| + |q1| + |q2|) * Nb + (|n0| + |n1| + |n2|) * Qb,
    (q0 + X * (q1 + X * q2)) * Qv, (|q0| + |q1| + |q2|) * Qb, fun f => ?_, ?_, ?_⟩
  rotate_left
  · exact (((kron3 X q0 q1 q2).mul h.1).add (hn.mul h.2)).mono (by omega)
  · exact ((kron3 X q0 q1 q2).mul h.2).mono (by omega)
  · unfold stepK
    simp only [forceZ_eq, zabs_eq]

theorem nqK_spec {α : Type} (X D C0 M A : ℤ) (hD : 0 < D) (hM : 0 < M) (tab : List RTerm) (ht : TabOk tab) :
    ∃ (N Q : List ℤ) (Nv Nb Qv Qb : ℤ), (∀ f : ℤ → ℤ → ℤ → ℤ → α, nqK X D C0 M A tab f = f Nv Nb Qv Qb) ∧
      KronNQ X (3 * tab.length + 1) N Q Nv Nb Qv Qb ∧
      ∀ τ : ℝ, 0 < evP Q τ ∧ evP N τ / evP Q τ = rVal D C0 tab ((A + τ) / M) := by
  obtain ⟨N, Q, h1, h2⟩ := nq_spec (α := List ℤ × List ℤ) D C0 M A hD hM tab ht
  suffices ∃ (Nv Nb Qv Qb : ℤ), (∀ f : ℤ → ℤ → ℤ → ℤ → α, nqK X D C0 M A tab f = f Nv Nb Qv Qb) ∧
      KronNQ X (3 * tab.length + 1) (nq D C0 M A tab Prod.mk).1 (nq D C0 M A tab Prod.mk).2 Nv Nb Qv Qb by
    obtain ⟨a, b, c, d, e, g⟩ := this
    rw [h1] at g
    exact ⟨N, Q, a, b, c, d, e, g, h2⟩
  clear h1 h2 N Q
  induction tab with
  | nil => exact ⟨_, _, _, _, fun f => rfl, by rw [zabs_eq]; exact (kron1 X C0).mono (by simp), by rw [zabs_eq]; exact (kron1 X D).mono (by simp)⟩
  | cons e r ih =>
    obtain ⟨a, b, c, d, h3, h4⟩ := ih (fun e he => ht e (List.mem_cons_of_mem _ he))
    obtain ⟨N, Q, h1, _⟩ := nq_spec (α := List ℤ × List ℤ) D C0 M A hD hM r (fun e he => ht e (List.mem_cons_of_mem _ he))
    rw [h1] at h4
    have hn := kron2 X (2 * M * (e.wr * (D * A - M * e.pr) - e.wi * M * e.pi)) (2 * M * e.wr * D)
    obtain ⟨a', b', c', d', h5, h6⟩ := stepK_spec (α := α) (q0 := ((D * A - M * e.pr) * (D * A - M * e.pr) + M * e.pi * (M * e.pi)) * e.den)
      (q1 := 2 * D * (D * A - M * e.pr) * e.den) (q2 := D * D * e.den) h4
      [2 * M * (e.wr * (D * A - M * e.pr) - e.wi * M * e.pi), 2 * M * e.wr * D]
      (n0 := 2 * M * (e.wr * (D * A - M * e.pr) - e.wi * M * e.pi)) (n1 := 2 * M * e.wr * D) (n2 := 0)
      (by simpa using hn.mono (by norm_num : 2 ≤ 3))
    refine ⟨a', b', c', d', fun f => ?_, ?_⟩
    · rw [nqK, h3, forceZ_eq, h5]
    · rw [nq, h1]
      simp only [forceZ_eq, forceL_eq]
      rw [List.length_cons, show 3 * (r.length + 1) + 1 = 3 * r.length + 1 + 3 by ring]
      exact h6

theorem nqTK_spec {α : Type} (X D C0 M A : ℤ) (hD : 0 < D) (hM : 0 < M) (tab : List RTerm) (ht : TabOk tab) :
    ∃ (N Q : List ℤ) (Nv Nb Qv Qb : ℤ), (∀ f : ℤ → ℤ → ℤ → ℤ → α, nqTK X D C0 M A tab f = f Nv Nb Qv Qb) ∧
      KronNQ X (3 * tab.length + 1) N Q Nv Nb Qv Qb ∧
      ∀ τ : ℝ, (A : ℝ) + τ ≠ 0 → 0 < evP Q τ ∧ evP N τ / evP Q τ = rVal D C0 tab (-(M / (A + τ))) := by
  obtain ⟨N, Q, h1, h2⟩ := nqT_spec (α := List ℤ × List ℤ) D C0 M A hD hM tab ht
  suffices ∃ (Nv Nb Qv Qb : ℤ), (∀ f : ℤ → ℤ → ℤ → ℤ → α, nqTK X D C0 M A tab f = f Nv Nb Qv Qb) ∧
      KronNQ X (3 * tab.length + 1) (nqT D C0 M A tab Prod.mk).1 (nqT D C0 M A tab Prod.mk).2 Nv Nb Qv Qb by
    obtain ⟨a, b, c, d, e, g⟩ := this
    rw [h1] at g
    exact ⟨N, Q, a, b, c, d, e, g, h2⟩
  clear h1 h2 N Q
  induction tab with
  | nil => exact ⟨_, _, _, _, fun f => rfl, by rw [zabs_eq]; exact (kron1 X C0).mono (by simp), by rw [zabs_eq]; exact (kron1 X D).mono (by simp)⟩
  | cons e r ih =>
    obtain ⟨a, b, c, d, h3, h4⟩ := ih (fun e he => ht e (List.mem_cons_of_mem _ he))
    obtain ⟨N, Q, h1, _⟩ := nqT_spec (α := List ℤ × List ℤ) D C0 M A hD hM r (fun e he => ht e (List.mem_cons_of_mem _ he))
    rw [h1] at h4
    obtain ⟨a', b', c', d', h5, h6⟩ := stepK_spec (α := α)
      (q0 := ((D * M + e.pr * A) * (D * M + e.pr * A) + e.pi * A * (e.pi * A)) * e.den)
      (q1 := (2 * e.pr * (D * M + e.pr * A) + 2 * e.pi * (e.pi * A)) * e.den) (q2 := (e.pr * e.pr + e.pi * e.pi) * e.den) h4 _
      (kron3 X (-2 * A * (e.wr * D * M + (e.wr * e.pr + e.wi * e.pi) * A))
        (-2 * (e.wr * D * M + (e.wr * e.pr + e.wi * e.pi) * A) - 2 * A * (e.wr * e.pr + e.wi * e.pi)) (-2 * (e.wr * e.pr + e.wi * e.pi)))
    refine ⟨a', b', c', d', fun f => ?_, ?_⟩
    · rw [nqTK, h3, forceZ_eq, forceZ_eq, h5]
    · rw [nqT, h1]
      simp only [forceZ_eq, forceL_eq]
      rw [List.length_cons, show 3 * (r.length + 1) + 1 = 3 * r.length + 1 + 3 by ring]
      exact h6

/-- `hor` by values -/
def horK {α : Type} (X M s : ℤ) : ℕ → ℕ → (ℤ → ℤ → ℤ → α) → α
  | _, 0, f => f 0 0 1
  | k, m + 1, f => horK X M s (k + 1) m fun Pv Pb c =>
    forceZ (c * M * ((k : ℤ) + 1)) fun c' => forceZ (c' + (s + X) * Pv) fun Pv' => forceZ (c' + (zabs s + 1) * Pb) fun Pb' => f Pv' Pb' c'

theorem horK_spec {α : Type} (X M s : ℤ) (hM : 0 < M) (k m : ℕ) :
    ∃ (P : List ℤ) (Pv Pb c : ℤ), (∀ f : ℤ → ℤ → ℤ → α, horK X M s k m f = f Pv Pb c) ∧ Kron X (3 * m) P Pv Pb ∧ 0 < c ∧
      ∀ τ : ℝ, evP P τ / c = ∑ i ∈ Finset.range m, (k.factorial : ℝ) / ((i + k).factorial : ℝ) * ((s + τ) / M) ^ i := by
  obtain ⟨P, c, h1, h2, h3⟩ := hor_spec (α := List ℤ × ℤ) M s hM k m
  suffices ∃ (Pv Pb : ℤ), (∀ f : ℤ → ℤ → ℤ → α, horK X M s k m f = f Pv Pb (hor M s k m Prod.mk).2) ∧
      Kron X (3 * m) (hor M s k m Prod.mk).1 Pv Pb by
    obtain ⟨a, b, e, g⟩ := this
    rw [h1] at e g
    exact ⟨P, a, b, c, e, g, h2, h3⟩
  clear h1 h2 h3 P c
  induction m generalizing k with
  | zero => exact ⟨0, 0, fun f => rfl, by simp [hor, Kron, evZ, nrm]⟩
  | succ m ih =>
    obtain ⟨a, b, h3, h4⟩ := ih (k + 1)
    obtain ⟨P, c, h1, h2, _⟩ := hor_spec (α := List ℤ × ℤ) M s hM (k + 1) m
    rw [h1] at h3 h4
    refine ⟨c * M * ((k : ℤ) + 1) + (s + X * 1) * a, |c * M * ((k : ℤ) + 1)| + (|s| + |1|) * b, fun f => ?_, ?_⟩
    rotate_left
    · rw [hor, h1]
      simp only [forceZ_eq, forceL_eq]
      exact ((kron1 X (c * M * ((k : ℤ) + 1))).add ((kron2 X s 1).mul h4)).mono (by omega)
    · rw [horK, h3, hor, h1]
      simp only [forceZ_eq, forceL_eq, zabs_eq]
      congr 1
      · ring
      · rw [abs_of_pos (by positivity : 0 < c * M * ((k : ℤ) + 1)), abs_one]

/-- hand on `a` if `v = 0`, else `b` -/
def stopZ {α : Type} (v : ℤ) (a b : α) : α := match v with | .ofNat 0 => a | _ => b

theorem stopZ_zero {α : Type} (a b : α) : stopZ 0 a b = a := rfl

theorem stopZ_ne {α : Type} {v : ℤ} (h : v ≠ 0) (a b : α) : stopZ v a b = b := by
  unfold stopZ
  split
  · exact absurd rfl h
  · rfl

/-- `absK`, stopping at zero -/
def absF (h : ℕ) (X : ℤ) (f : ℕ) (v : ℤ) : ℕ :=
  Nat.rec (motive := fun _ => ℤ → ℕ) (fun _ => 0)
    (fun _ ih v => stopZ v 0 (forceZ (dig X v) fun d => forceZ ((v - d) / X) fun v' => forceN (ih v') fun s => d.natAbs + h * s)) f v

theorem absK_zero (h : ℕ) (X : ℤ) (hX : 0 < X) (f : ℕ) : absK h X f 0 = 0 := by
  have ed : dig X 0 = 0 := by simpa using dig_eq X 0 0 (by simpa using hX)
  induction f with
  | zero => rfl
  | succ f ih => rw [absK, forceZ_eq, forceZ_eq, forceN_eq, ed]; simp [ih]

theorem absF_eq (h : ℕ) (X : ℤ) (hX : 0 < X) (f : ℕ) (v : ℤ) : absF h X f v = absK h X f v := by
  induction f generalizing v with
  | zero => rfl
  | succ f ih =>
    have e : absF h X (f + 1) v
        = stopZ v 0 (forceZ (dig X v) fun d => forceZ ((v - d) / X) fun v' => forceN (absF h X f v') fun s => d.natAbs + h * s) := rfl
    rw [e]
    by_cases hv : v = 0
    · rw [hv, stopZ_zero, absK_zero h X hX]
    · rw [stopZ_ne hv, absK]
      simp only [forceZ_eq, forceN_eq, ih]

/-- `cmp` by values -/
def cmpK (en ed : ℕ) (H : ℕ) (X Nv Nb Qv Qb Tv Tb S : ℤ) : Bool :=
  decide (2 * (S * Nb + Tb * Qb) < X) && decide (2 * Qb < X) &&
  (forceZ (S * Nv - Tv * Qv) fun Dv => forceZ (dig X Qv) fun q0 => forceZ ((Qv - q0) / X) fun Q1 =>
    decide (((absF H X 128 Dv : ℕ) : ℤ) * (ed : ℤ) ≤ (en : ℤ) * S * (q0 - (H : ℤ) * (absF H X 64 Q1 : ℕ))))

theorem cmpK_spec {en ed H : ℕ} {X Nv Nb Qv Qb Tv Tb S : ℤ} {N Q T : List ℤ} (hNQ : KronNQ X 49 N Q Nv Nb Qv Qb)
    (hT : Kron X 72 T Tv Tb) (hS : 0 < S) (hQ : Q ≠ []) (h : cmpK en ed H X Nv Nb Qv Qb Tv Tb S = true) : cmp en ed H N Q T S = true := by
  unfold cmpK at h
  simp only [Bool.and_eq_true, decide_eq_true_eq, forceZ_eq] at h
  obtain ⟨⟨h1, h2⟩, h3⟩ := h
  have hK := (hNQ.1.smul S).add ((hT.mul hNQ.2).smul (-1))
  obtain ⟨hN, hQK⟩ := hNQ
  have hX : 0 < X := by have := hQK.nonneg; omega
  rw [abs_of_pos hS, abs_neg, abs_one, one_mul] at hK
  cases Q with
  | nil => exact absurd rfl hQ
  | cons q0 Q' =>
    have hnn := nrm_nonneg Q'
    have hq := hQK.2.1
    rw [nrm] at hq
    have hqa := abs_nonneg q0
    have e0 : dig X Qv = q0 := by rw [← hQK.1, evZ]; exact dig_eq X q0 _ (by omega)
    have e1 : (Qv - q0) / X = evZ Q' X := by rw [← hQK.1, evZ, add_sub_cancel_left, Int.mul_ediv_cancel_left _ hX.ne']
    have hl := hQK.2.2
    rw [List.length_cons] at hl
    rw [absF_eq H X hX, absF_eq H X hX, e0, e1, absK_eq H X hX 64 Q' (by omega) (by omega)] at h3
    have e2 : S * Nv - Tv * Qv = S * Nv + -1 * (Tv * Qv) := by ring
    rw [e2, ← hK.1, absK_eq H X hX 128 _ (by have := hK.2.1; omega) (hK.2.2.trans (by norm_num))] at h3
    simp only [cmp, decide_eq_true_eq]
    exact h3

theorem ne_nil_of_pos {Q : List ℤ} {τ : ℝ} (h : 0 < evP Q τ) : Q ≠ [] := by
  rintro rfl
  simp [evP] at h

/-! ### values of the exponential -/

/-- `e^{-1}`, `e^{-1/63}`, `e^{-1/3969}` in units of `2^{-120}`, rounded down -/
def expE1 : ℕ := 488995652278791141083010649602151673
def expE2 : ℕ := 1308295707474850779094626215860869682
def expE3 : ℕ := 1328893135477886229066367245954794412

theorem expE1_spec : |Real.exp (-1) - expE1 / 2 ^ 120| ≤ 1 / 2 ^ 118 := by
  have h := Real.exp_bound (x := -1) (by norm_num) (n := 36) (by norm_num)
  have h2 : |(∑ m ∈ Finset.range 36, (-1 : ℝ) ^ m / m.factorial) - expE1 / 2 ^ 120| ≤ 1 / 2 ^ 119 := by
    rw [expE1]
    norm_num [Finset.sum_range_succ, Nat.factorial, abs_le]
  have h3 : |(-1 : ℝ)| ^ 36 * ((Nat.succ 36 : ℕ) / ((Nat.factorial 36 : ℕ) * (36 : ℕ))) ≤ 1 / 2 ^ 119 := by
    norm_num [Nat.factorial]
  have := abs_sub_le (Real.exp (-1)) (∑ m ∈ Finset.range 36, (-1 : ℝ) ^ m / m.factorial) (expE1 / 2 ^ 120)
  linarith [h.trans h3]

theorem expE2_spec : |Real.exp (-(1 / 63)) - expE2 / 2 ^ 120| ≤ 1 / 2 ^ 118 := by
  have h := Real.exp_bound (x := -(1 / 63)) (by norm_num [abs_le]) (n := 20) (by norm_num)
  have h2 : |(∑ m ∈ Finset.range 20, (-(1 / 63) : ℝ) ^ m / m.factorial) - expE2 / 2 ^ 120| ≤ 1 / 2 ^ 119 := by
    rw [expE2]
    norm_num [Finset.sum_range_succ, Nat.factorial, abs_le]
  have h3 : |(-(1 / 63) : ℝ)| ^ 20 * ((Nat.succ 20 : ℕ) / ((Nat.factorial 20 : ℕ) * (20 : ℕ))) ≤ 1 / 2 ^ 119 := by
    rw [abs_neg, abs_of_pos (by norm_num)]
    norm_num [Nat.factorial]
  have := abs_sub_le (Real.exp (-(1 / 63))) (∑ m ∈ Finset.range 20, (-(1 / 63) : ℝ) ^ m / m.factorial) (expE2 / 2 ^ 120)
  linarith [h.trans h3]

theorem expE3_spec : |Real.exp (-(1 / 3969)) - expE3 / 2 ^ 120| ≤ 1 / 2 ^ 118 := by
  have h := Real.exp_bound (x := -(1 / 3969)) (by norm_num [abs_le]) (n := 12) (by norm_num)
  have h2 : |(∑ m ∈ Finset.range 12, (-(1 / 3969) : ℝ) ^ m / m.factorial) - expE3 / 2 ^ 120| ≤ 1 / 2 ^ 119 := by
    rw [expE3]
    norm_num [Finset.sum_range_succ, Nat.factorial, abs_le]
  have h3 : |(-(1 / 3969) : ℝ)| ^ 12 * ((Nat.succ 12 : ℕ) / ((Nat.factorial 12 : ℕ) * (12 : ℕ))) ≤ 1 / 2 ^ 119 := by
    rw [abs_neg, abs_of_pos (by norm_num)]
    norm_num [Nat.factorial]
  have := abs_sub_le (Real.exp (-(1 / 3969))) (∑ m ∈ Finset.range 12, (-(1 / 3969) : ℝ) ^ m / m.factorial) (expE3 / 2 ^ 120)
  linarith [h.trans h3]

theorem mul_close {x y x' y' a b : ℝ} (hx : |x| ≤ 1) (hy' : |y'| ≤ 1) (h1 : |x - x'| ≤ a) (h2 : |y - y'| ≤ b) :
    |x * y - x' * y'| ≤ a + b := by
  have e : x * y - x' * y' = x * (y - y') + (x - x') * y' := by ring
  rw [e]
  refine (abs_add_le _ _).trans ?_
  rw [abs_mul, abs_mul]
  have := mul_le_mul hx h2 (abs_nonneg _) zero_le_one
  have := mul_le_mul h1 hy' (abs_nonneg _) ((abs_nonneg _).trans h1)
  linarith

theorem pow_close {x x' a : ℝ} (hx : |x| ≤ 1) (hx' : |x'| ≤ 1) (h1 : |x - x'| ≤ a) (i : ℕ) : |x ^ i - x' ^ i| ≤ i * a := by
  induction i with
  | zero => simp
  | succ i ih =>
    rw [pow_succ, pow_succ]
    have := mul_close (x := x ^ i) (y := x) (x' := x' ^ i) (y' := x') (by rw [abs_pow]; exact pow_le_one₀ (abs_nonneg _) hx) hx' ih h1
    push_cast
    linarith

/-- `e^{-m/3969}` in units of `2^{-120}` -/
def expA (m : ℕ) : ℕ :=
  2 ^ 120 * (expE1 ^ (m / 3969) * expE2 ^ (m % 3969 / 63) * expE3 ^ (m % 63)) / 2 ^ (120 * (m / 3969 + m % 3969 / 63 + m % 63))

theorem expA_spec (m : ℕ) (hm : m ≤ 2 ^ 18) : |Real.exp (-(m / 3969 : ℝ)) - expA m / 2 ^ 120| ≤ 1 / 2 ^ 100 := by
  set i := m / 3969 with hi
  set j := m % 3969 / 63 with hj
  set k := m % 63 with hk
  have hi' : i ≤ 68 := by omega
  have hj' : j < 63 := by omega
  have hk' : k < 63 := by omega
  have hmk : m = 3969 * i + 63 * j + k := by omega
  have e1 : Real.exp (-(m / 3969 : ℝ)) = Real.exp (-1) ^ i * Real.exp (-(1 / 63)) ^ j * Real.exp (-(1 / 3969)) ^ k := by
    rw [← Real.exp_nat_mul, ← Real.exp_nat_mul, ← Real.exp_nat_mul, ← Real.exp_add, ← Real.exp_add]
    congr 1
    rw [hmk]; push_cast; ring
  have hle : ∀ x : ℝ, 0 ≤ x → |Real.exp (-x)| ≤ 1 := fun x hx => by
    rw [abs_of_pos (Real.exp_pos _)]; exact Real.exp_le_one_iff.2 (by linarith)
  have b1 : |(expE1 / 2 ^ 120 : ℝ)| ≤ 1 := by rw [expE1]; norm_num [abs_le]
  have b2 : |(expE2 / 2 ^ 120 : ℝ)| ≤ 1 := by rw [expE2]; norm_num [abs_le]
  have b3 : |(expE3 / 2 ^ 120 : ℝ)| ≤ 1 := by rw [expE3]; norm_num [abs_le]
  have p1 := pow_close (hle 1 (by norm_num)) b1 expE1_spec i
  have p2 := pow_close (hle (1 / 63) (by norm_num)) b2 expE2_spec j
  have p3 := pow_close (hle (1 / 3969) (by norm_num)) b3 expE3_spec k
  have pw : ∀ (x : ℝ) (i : ℕ), |x| ≤ 1 → |x ^ i| ≤ 1 := fun x i hx => by rw [abs_pow]; exact pow_le_one₀ (abs_nonneg _) hx
  have p12 := mul_close (pw _ i (hle 1 (by norm_num))) (pw _ j b2) p1 p2
  have p123 := mul_close (x := Real.exp (-1) ^ i * Real.exp (-(1 / 63)) ^ j)
    (by rw [abs_mul]; exact mul_le_one₀ (pw _ i (hle 1 (by norm_num))) (abs_nonneg _) (pw _ j (hle (1 / 63) (by norm_num))))
    (pw _ k b3) p12 p3
  rw [← e1] at p123
  set G := expE1 ^ i * expE2 ^ j * expE3 ^ k with hG
  set c := 2 ^ (120 * (i + j + k)) with hc
  have hcp : 0 < c := by positivity
  have e2 : ((expE1 / 2 ^ 120 : ℝ) ^ i * (expE2 / 2 ^ 120) ^ j * (expE3 / 2 ^ 120) ^ k) = (G : ℝ) / c := by
    rw [hG, hc]
    push_cast
    rw [div_pow, div_pow, div_pow, ← pow_mul, ← pow_mul, ← pow_mul, mul_add, mul_add, pow_add, pow_add]
    field_simp
  have e3 : expA m = 2 ^ 120 * G / c := rfl
  have hcp' : (0 : ℝ) < c := by exact_mod_cast hcp
  have d1 : ((expA m : ℕ) : ℝ) ≤ 2 ^ 120 * G / c := by
    rw [e3]
    refine (Nat.cast_div_le).trans (le_of_eq ?_)
    push_cast; norm_num
  have d2 : (2 ^ 120 * G / c : ℝ) ≤ expA m + 1 := by
    rw [div_le_iff₀ hcp', e3]
    have := Nat.lt_div_mul_add (a := 2 ^ 120 * G) hcp
    have h' : 2 ^ 120 * G ≤ (2 ^ 120 * G / c + 1) * c := by rw [add_mul, one_mul]; exact this.le
    exact_mod_cast h'
  have d3 : |(G : ℝ) / c - expA m / 2 ^ 120| ≤ 1 / 2 ^ 120 := by
    have e4 : (G : ℝ) / c - expA m / 2 ^ 120 = (2 ^ 120 * G / c - expA m) / 2 ^ 120 := by field_simp
    rw [e4, abs_div, abs_of_pos (by positivity : (0 : ℝ) < 2 ^ 120)]
    refine div_le_div_of_nonneg_right ?_ (by positivity)
    rw [abs_le]; constructor <;> linarith
  rw [e2] at p123
  have := abs_sub_le (Real.exp (-(m / 3969 : ℝ))) (G / c) (expA m / 2 ^ 120)
  have hi2 : (i : ℝ) ≤ 68 := by exact_mod_cast hi'
  have hj2 : (j : ℝ) ≤ 63 := by exact_mod_cast hj'.le
  have hk2 : (k : ℝ) ≤ 63 := by exact_mod_cast hk'.le
  have hu : (0 : ℝ) ≤ 1 / 2 ^ 118 := by positivity
  have h5 : (i : ℝ) * (1 / 2 ^ 118) + j * (1 / 2 ^ 118) + k * (1 / 2 ^ 118) ≤ 200 * (1 / 2 ^ 118) := by nlinarith
  have h6 : (200 : ℝ) * (1 / 2 ^ 118) + 1 / 2 ^ 120 ≤ 1 / 2 ^ 100 := by norm_num
  linarith

/-! ### pieces -/

/-- the exponential on `[-(m+H)/3969, -(m-H)/3969]` -/
def pieceE (X D C0 : ℤ) (tab : List RTerm) (en ed m H : ℕ) : Bool :=
  forceZ (-m) fun a => nqK X D C0 3969 a tab fun Nv Nb Qv Qb => horK X 3969 0 0 24 fun Pv Pb c => forceN (expA m) fun E =>
    forceZ (E * Pv) fun Tv => forceZ (E * Pb) fun Tb => forceZ (c * ((2 ^ 120 : ℕ) : ℤ)) fun S => cmpK en ed H X Nv Nb Qv Qb Tv Tb S

theorem pieceE_sound {X D C0 : ℤ} {tab : List RTerm} {en ed m H : ℕ} (hD : 0 < D) (ht : TabOk tab) (hlen : tab.length ≤ 16) (hed : 0 < ed)
    (hm : m ≤ 2 ^ 18) (hH : H ≤ 3969) (h : pieceE X D C0 tab en ed m H = true) (x : ℝ) (hx : |3969 * x + m| ≤ H) :
    |rVal D C0 tab x - Real.exp x| ≤ en / ed + 1 / 10 ^ 23 := by
  obtain ⟨N, Q, Nv, Nb, Qv, Qb, h1, hNQ, h2⟩ := nqK_spec (α := Bool) X D C0 3969 (-m) hD (by norm_num) tab ht
  obtain ⟨P, Pv, Pb, c, h3, hP, hc, h4⟩ := horK_spec (α := Bool) X 3969 0 (by norm_num) 0 24
  rw [pieceE, forceZ_eq, h1, h3, forceN_eq, forceZ_eq, forceZ_eq, forceZ_eq] at h
  set τ := 3969 * x + m with hτ
  obtain ⟨hQ, h5⟩ := h2 τ
  have hT := hP.smul ((expA m : ℕ) : ℤ)
  rw [Nat.abs_cast] at hT
  replace h := cmpK_spec ⟨hNQ.1.mono (by omega), hNQ.2.mono (by omega)⟩ hT (by positivity) (ne_nil_of_pos hQ) h
  have ex : ((((-m : ℤ) : ℝ) + τ) / ((3969 : ℤ) : ℝ)) = x := by rw [hτ]; push_cast; ring
  rw [ex] at h5
  have h6 := cmp_sound hed (by positivity) h τ hx hQ
  rw [h5, evP_smul] at h6
  have hc' : (0 : ℝ) < c := by exact_mod_cast hc
  have e1 : (((expA m : ℕ) : ℤ) : ℝ) * evP P τ / ((c * ((2 ^ 120 : ℕ) : ℤ) : ℤ) : ℝ) = (expA m / 2 ^ 120 : ℝ) * (evP P τ / c) := by
    push_cast; field_simp; norm_num
  rw [e1, h4] at h6
  set v : ℝ := (((0 : ℤ) : ℝ) + τ) / ((3969 : ℤ) : ℝ) with hv
  have hv' : v = τ / 3969 := by rw [hv]; push_cast; ring
  have hv1 : |v| ≤ 1 := by
    rw [hv', abs_div, abs_of_pos (by norm_num : (0 : ℝ) < 3969), div_le_one (by norm_num)]
    exact hx.trans (by exact_mod_cast hH)
  have h7 := phi_trunc 0 24 v hv1
  rw [phi_zero, ← Real.exp_eq_exp_ℝ] at h7
  have e2 : ∑ i ∈ Finset.range 24, ((Nat.factorial 0 : ℕ) : ℝ) / ((i + 0).factorial : ℝ) * v ^ i
      = ∑ i ∈ Finset.range 24, ((i + 0).factorial : ℝ)⁻¹ * v ^ i := by
    refine Finset.sum_congr rfl fun i _ => ?_
    simp
  rw [e2] at h6
  set S := ∑ i ∈ Finset.range 24, ((i + 0).factorial : ℝ)⁻¹ * v ^ i with hS
  have e3 : Real.exp x = Real.exp (-(m / 3969 : ℝ)) * Real.exp v := by
    rw [← Real.exp_add]; congr 1; rw [hv', hτ]; ring
  have h8 := expA_spec m hm
  have h9 : Real.exp (-(m / 3969 : ℝ)) ≤ 1 := Real.exp_le_one_iff.2 (by have : (0 : ℝ) ≤ m := Nat.cast_nonneg m; linarith [div_nonneg this (by norm_num : (0 : ℝ) ≤ 3969)])
  have hSb : |S| ≤ 4 := by
    have : Real.exp v ≤ 3 := by
      have := Real.exp_le_exp.2 (abs_le.1 hv1).2
      linarith [Real.exp_one_lt_d9]
    have h0 := Real.exp_pos v
    have h10 : (3 : ℝ) / (24 : ℕ).factorial ≤ 1 := by norm_num [Nat.factorial]
    have := (abs_le.1 (h7.trans h10))
    rw [abs_le]; constructor <;> linarith
  have h11 : |Real.exp x - expA m / 2 ^ 120 * S| ≤ 1 / 10 ^ 23 := by
    have e4 : Real.exp x - expA m / 2 ^ 120 * S = Real.exp (-(m / 3969 : ℝ)) * (Real.exp v - S)
        + (Real.exp (-(m / 3969 : ℝ)) - expA m / 2 ^ 120) * S := by rw [e3]; ring
    rw [e4]
    refine (abs_add_le _ _).trans ?_
    rw [abs_mul, abs_mul, abs_of_pos (Real.exp_pos _)]
    have t1 := mul_le_mul h9 h7 (abs_nonneg _) zero_le_one
    have t2 := mul_le_mul h8 hSb (abs_nonneg _) (by positivity)
    have t3 : (1 : ℝ) * (3 / (24 : ℕ).factorial) + 1 / 2 ^ 100 * 4 ≤ 1 / 10 ^ 23 := by norm_num [Nat.factorial]
    linarith
  have := abs_sub_le (rVal D C0 tab x) (expA m / 2 ^ 120 * S) (Real.exp x)
  rw [abs_sub_comm (expA m / 2 ^ 120 * S)] at this
  linarith

/-- `phi_k` on `[-(m+H)/3969, -(m-H)/3969]`, close to zero -/
def pieceP (X D C0 : ℤ) (tab : List RTerm) (k en ed m H : ℕ) : Bool :=
  forceZ (-m) fun a => nqK X D C0 3969 a tab fun Nv Nb Qv Qb => horK X 3969 a k 24 fun Pv Pb c =>
    forceZ (c * k.factorial) fun S => cmpK en ed H X Nv Nb Qv Qb Pv Pb S

theorem pieceP_sound {X D C0 : ℤ} {tab : List RTerm} {k en ed m H : ℕ} (hD : 0 < D) (ht : TabOk tab) (hlen : tab.length ≤ 16) (hed : 0 < ed)
    (h : pieceP X D C0 tab k en ed m H = true) (x : ℝ) (hx : |3969 * x + m| ≤ H) (hx1 : |x| ≤ 1) :
    |rVal D C0 tab x - phi k x| ≤ en / ed + 1 / 10 ^ 23 := by
  obtain ⟨N, Q, Nv, Nb, Qv, Qb, h1, hNQ, h2⟩ := nqK_spec (α := Bool) X D C0 3969 (-m) hD (by norm_num) tab ht
  obtain ⟨P, Pv, Pb, c, h3, hP, hc, h4⟩ := horK_spec (α := Bool) X 3969 (-m) (by norm_num) k 24
  rw [pieceP, forceZ_eq, h1, h3, forceZ_eq] at h
  set τ := 3969 * x + m with hτ
  obtain ⟨hQ, h5⟩ := h2 τ
  replace h := cmpK_spec ⟨hNQ.1.mono (by omega), hNQ.2.mono (by omega)⟩ hP (by positivity) (ne_nil_of_pos hQ) h
  have ex : ((((-m : ℤ) : ℝ) + τ) / ((3969 : ℤ) : ℝ)) = x := by rw [hτ]; push_cast; ring
  rw [ex] at h5
  have h6 := cmp_sound hed (by positivity) h τ hx hQ
  have hc' : (0 : ℝ) < c := by exact_mod_cast hc
  have hk : (0 : ℝ) < k.factorial := by positivity
  have e1 : evP P τ / ((c * k.factorial : ℤ) : ℝ) = (k.factorial : ℝ)⁻¹ * (evP P τ / c) := by
    push_cast; field_simp
  rw [h5, e1, h4, ex, Finset.mul_sum] at h6
  have h7 := phi_trunc k 24 x hx1
  have e2 : ∑ i ∈ Finset.range 24, (k.factorial : ℝ)⁻¹ * ((k.factorial : ℝ) / ((i + k).factorial : ℝ) * x ^ i)
      = ∑ i ∈ Finset.range 24, ((i + k).factorial : ℝ)⁻¹ * x ^ i := by
    refine Finset.sum_congr rfl fun i _ => ?_
    field_simp
  rw [e2] at h6
  have t3 : (3 : ℝ) / (24 : ℕ).factorial ≤ 1 / 10 ^ 23 := by norm_num [Nat.factorial]
  have := abs_sub_le (rVal D C0 tab x) (∑ i ∈ Finset.range 24, ((i + k).factorial : ℝ)⁻¹ * x ^ i) (phi k x)
  have hcm := abs_sub_comm (∑ i ∈ Finset.range 24, ((i + k).factorial : ℝ)⁻¹ * x ^ i) (phi k x)
  linarith

/-! ### the tail -/

/-- `|r(x)| ≤ en/ed` for `x = -65536/v`, `v` in `[m-H, m+H]` (in the variable `-v`) -/
def pieceT (X D C0 : ℤ) (tab : List RTerm) (en ed m H : ℕ) : Bool :=
  nqTK X D C0 65536 m tab fun Nv Nb Qv Qb => cmpK en ed H X Nv Nb Qv Qb 0 0 1

theorem pieceT_sound {X D C0 : ℤ} {tab : List RTerm} {en ed m H : ℕ} (hD : 0 < D) (ht : TabOk tab) (hlen : tab.length ≤ 16) (hed : 0 < ed)
    (h : pieceT X D C0 tab en ed m H = true) (x : ℝ) (hx0 : x < 0) (hx : |65536 / x + m| ≤ H) : |rVal D C0 tab x| ≤ en / ed := by
  obtain ⟨N, Q, Nv, Nb, Qv, Qb, h1, hNQ, h2⟩ := nqTK_spec (α := Bool) X D C0 65536 m hD (by norm_num) tab ht
  rw [pieceT, h1] at h
  set τ : ℝ := -(65536 / x + m) with hτ
  have hA : ((m : ℤ) : ℝ) + τ = -(65536 / x) := by rw [hτ]; push_cast; ring
  have hne : ((m : ℤ) : ℝ) + τ ≠ 0 := by
    rw [hA, neg_ne_zero]; exact div_ne_zero (by norm_num) hx0.ne
  obtain ⟨hQ, h5⟩ := h2 τ hne
  have ex : -(((65536 : ℤ) : ℝ) / (((m : ℤ) : ℝ) + τ)) = x := by
    rw [hA]; push_cast; field_simp
  rw [ex] at h5
  replace h := cmpK_spec (T := []) ⟨hNQ.1.mono (by omega), hNQ.2.mono (by omega)⟩ (by simp [Kron, evZ, nrm]) one_pos (ne_nil_of_pos hQ) h
  have h6 := cmp_sound hed one_pos h τ (by rw [hτ, abs_neg]; exact hx) hQ
  rw [h5] at h6
  simpa [evP] using h6

/-! ### the whole half line -/

/-- `[-b, -a]` is covered by pieces accepted by `f` -/
def Covered (f : ℕ → ℕ → Bool) (a b : ℕ) : Prop :=
  ∀ y : ℝ, y ≤ -a → -(b : ℝ) < y → ∃ m H, f m H = true ∧ |y + m| ≤ H ∧ m ≤ b

theorem Covered.piece {f : ℕ → ℕ → Bool} {a b m : ℕ} (H : ℕ) (h : f m H = true)
    (hs : (decide (a + H = m) && decide (a + 2 * H = b)) = true) : Covered f a b := by
  simp only [Bool.and_eq_true, decide_eq_true_eq] at hs
  obtain ⟨rfl, rfl⟩ := hs
  intro y h1 h2
  refine ⟨a + H, H, h, ?_, by omega⟩
  push_cast at h2 ⊢
  rw [abs_le]; constructor <;> linarith

theorem Covered.trans {f : ℕ → ℕ → Bool} {a b c : ℕ} (h : Covered f a b) (h' : Covered f b c) (hbc : b ≤ c) : Covered f a c := by
  intro y h1 h2
  by_cases hy : y ≤ -(b : ℝ)
  · exact h' y hy h2
  · push Not at hy
    obtain ⟨m, H, e1, e2, e4⟩ := h y h1 hy
    exact ⟨m, H, e1, e2, e4.trans hbc⟩

/-- `pieceE`, with `X = 2 ^ bits` -/
def pcE (bits : ℕ) (D C0 : ℤ) (tab : List RTerm) (en ed m H : ℕ) : Bool :=
  decide (H ≤ 3969) && forceN (2 ^ bits) fun X => pieceE X D C0 tab en ed m H
/-- `pieceT`, with `X = 2 ^ bits` -/
def pcT (bits : ℕ) (D C0 : ℤ) (tab : List RTerm) (en ed m H : ℕ) : Bool := forceN (2 ^ bits) fun X => pieceT X D C0 tab en ed m H
/-- `pieceP`, with `X = 2 ^ bits` -/
def pcP (bits : ℕ) (D C0 : ℤ) (tab : List RTerm) (k en ed m H : ℕ) : Bool := forceN (2 ^ bits) fun X => pieceP X D C0 tab k en ed m H

/-- side conditions on a table -/
def sideTab (D : ℤ) (tab : List RTerm) : Bool :=
  decide (0 < D) && tab.all (fun e => decide (e.pi ≠ 0) && decide (0 < e.den)) && decide (tab.length ≤ 16)

/-- side conditions of the bound: pieces reach `-L/3969`; tail pieces reach `-65536/W` -/
def sideE (en ed ten L W : ℕ) : Bool :=
  decide (0 < ed) && decide (L ≤ 2 ^ 18) && decide (3969 * 65536 < W * L) &&
  decide ((expA L + 2 ^ 20) * ed + ten * 2 ^ 120 ≤ en * 2 ^ 120)

theorem exp_sound {bits : ℕ} {D C0 : ℤ} {tab : List RTerm} {en ed ten L W : ℕ} (hside : sideTab D tab = true)
    (hse : sideE en ed ten L W = true) (hE : Covered (pcE bits D C0 tab en ed) 0 L) (hT : Covered (pcT bits D C0 tab ten ed) 0 W)
    (x : ℝ) (hx : x ≤ 0) : |rVal D C0 tab x - Real.exp x| ≤ en / ed + 1 / 10 ^ 23 := by
  unfold sideTab at hside
  unfold sideE at hse
  simp only [Bool.and_eq_true, decide_eq_true_eq, List.all_eq_true] at hside hse
  obtain ⟨⟨hD, ht⟩, hlen⟩ := hside
  obtain ⟨⟨⟨hed, hL⟩, hcov⟩, hexp⟩ := hse
  have ht' : TabOk tab := ht
  have hed' : (0 : ℝ) < ed := by exact_mod_cast hed
  by_cases hxL : -(L : ℝ) < 3969 * x
  · obtain ⟨m, H, h1, h2, h4⟩ := hE (3969 * x) (by push_cast; linarith) hxL
    rw [pcE, forceN_eq, Bool.and_eq_true, decide_eq_true_eq] at h1
    obtain ⟨h3, h1⟩ := h1
    exact pieceE_sound hD ht' hlen hed (h4.trans hL) h3 h1 x h2
  · push Not at hxL
    have hLpos : 0 < L := by
      rcases Nat.eq_zero_or_pos L with h0 | h0
      · rw [h0] at hcov; simp at hcov
      · exact h0
    have hLp' : (0 : ℝ) < L := by exact_mod_cast hLpos
    have hx0 : x < 0 := by nlinarith
    have hc' : (3969 : ℝ) * 65536 < W * L := by exact_mod_cast hcov
    have h5 : -((W : ℕ) : ℝ) < 65536 / x := by
      rw [lt_div_iff_of_neg hx0]
      have : (0 : ℝ) ≤ W := Nat.cast_nonneg _
      nlinarith
    obtain ⟨m, H, h1, h2, _⟩ := hT (65536 / x) (by
      simp only [Nat.cast_zero, neg_zero]; exact div_nonpos_of_nonneg_of_nonpos (by norm_num) hx) h5
    rw [pcT, forceN_eq] at h1
    have h6 := pieceT_sound hD ht' hlen hed h1 x hx0 h2
    have h7 : Real.exp x ≤ Real.exp (-(L / 3969 : ℝ)) := Real.exp_le_exp.2 (by linarith)
    have h8 := (abs_le.1 (expA_spec L hL)).2
    have h9 : (((expA L : ℕ) : ℝ) + 2 ^ 20) * ed + ten * 2 ^ 120 ≤ en * 2 ^ 120 := by exact_mod_cast hexp
    have h10 : ((expA L : ℕ) : ℝ) / 2 ^ 120 + 1 / 2 ^ 100 ≤ en / ed - ten / ed := by
      rw [← sub_div, le_div_iff₀ hed']
      have : (((expA L : ℕ) : ℝ) / 2 ^ 120 + 1 / 2 ^ 100) = ((expA L : ℝ) + 2 ^ 20) / 2 ^ 120 := by ring
      rw [this, div_mul_eq_mul_div, div_le_iff₀ (by positivity)]
      linarith
    have h11 := abs_sub (rVal D C0 tab x) (Real.exp x)
    rw [abs_of_pos (Real.exp_pos x)] at h11
    have : (0 : ℝ) ≤ 1 / 10 ^ 23 := by positivity
    linarith

/-- pass from the coefficients of `r_k` to those of `r_(k+1)`: divide every coefficient by its pole -/
def divPole (D : ℤ) (e : RTerm) : RTerm :=
  ⟨e.pr, e.pi, (e.wr * e.pr + e.wi * e.pi) * D, (e.wi * e.pr - e.wr * e.pi) * D, e.den * (e.pr * e.pr + e.pi * e.pi)⟩

/-- evaluated list of entries -/
def forceT {α : Type} : List RTerm → (List RTerm → α) → α
  | [], f => f []
  | e :: l, f => forceZ e.pr fun a => forceZ e.pi fun b => forceZ e.wr fun c => forceZ e.wi fun d => forceZ e.den fun g =>
    forceT l fun l' => f (⟨a, b, c, d, g⟩ :: l')

theorem forceT_eq {α : Type} (l : List RTerm) (f : List RTerm → α) : forceT l f = f l := by
  induction l generalizing f with
  | nil => rfl
  | cons e l ih => simp only [forceT, forceZ_eq, ih]

/-- the coefficients divided `k` times by their poles -/
def divTab (D : ℤ) (tab : List RTerm) (k : ℕ) : List RTerm := ((fun t => t.map (divPole D))^[k]) tab

/-- `pcP` for the coefficients divided `k` times -/
def pcPF (bits : ℕ) (D : ℤ) (tab : List RTerm) (k en ed m H : ℕ) : Bool :=
  forceT (divTab D tab k) fun t => pcP bits D 0 t k en ed m H

theorem sideTab_divPole {D : ℤ} {tab : List RTerm} (h : sideTab D tab = true) : sideTab D (tab.map (divPole D)) = true := by
  unfold sideTab at h ⊢
  simp only [Bool.and_eq_true, decide_eq_true_eq, List.all_eq_true, List.length_map] at h ⊢
  refine ⟨⟨h.1.1, fun e he => ?_⟩, h.2⟩
  obtain ⟨e', he', rfl⟩ := List.mem_map.1 he
  obtain ⟨h1, h2⟩ := h.1.2 e' he'
  refine ⟨h1, mul_pos h2 ?_⟩
  have : 0 < e'.pi * e'.pi := mul_self_pos.2 h1
  nlinarith [mul_self_nonneg e'.pr]

theorem sideTab_divTab {D : ℤ} {tab : List RTerm} (h : sideTab D tab = true) (k : ℕ) : sideTab D (divTab D tab k) = true := by
  unfold divTab
  induction k with
  | zero => exact h
  | succ k ih => rw [Function.iterate_succ_apply']; exact sideTab_divPole ih

theorem phi_sound {bits : ℕ} {D : ℤ} {tab : List RTerm} {k en ed L : ℕ} (hside : sideTab D tab = true) (hed : 0 < ed)
    (hL : 3969 < L) (hP : Covered (pcPF bits D tab k en ed) 0 L) (x : ℝ) (hx : x ≤ 0) (hx1 : -1 ≤ x) :
    |rVal D 0 (divTab D tab k) x - phi k x| ≤ en / ed + 1 / 10 ^ 23 := by
  have hs := sideTab_divTab hside k
  unfold sideTab at hs
  simp only [Bool.and_eq_true, decide_eq_true_eq, List.all_eq_true] at hs
  obtain ⟨⟨hD, ht⟩, hlen⟩ := hs
  have hL' : (3969 : ℝ) < L := by exact_mod_cast hL
  obtain ⟨m, H, h1, h2, _⟩ := hP (3969 * x) (by push_cast; linarith) (by linarith)
  rw [pcPF, forceT_eq, pcP, forceN_eq] at h1
  exact pieceP_sound hD ht hlen hed h1 x h2 (abs_le.2 ⟨hx1, by linarith⟩)

end Ormatex.Props.Cert
