import Verif.Model.Bateman

/-!
C55: structure of the Bateman matrix.
-/

namespace Ormatex.Props
open Matrix

/-! ### specification -/

/-- **Specification.** The decay branches listed for a species, in either format of the library. -/
def branchList : LibEntry → List (String × ℝ)
  | .single c l => [(c, l)]
  | .branches bs => bs

/-- **Specification.** The branches of the species named `k`. -/
def branchesOf (lib : BatemanLib) (k : String) : List (String × ℝ) :=
  match lib k with
  | none => []
  | some e => branchList e

/-- **Specification.** Total decay constant from species `k` into the product named `c`. -/
noncomputable def rateTo (lib : BatemanLib) (k c : String) : ℝ :=
  (((branchesOf lib k).filter (fun b => b.1 = c)).map Prod.snd).sum

/-- **Specification.** Total decay constant of species `k`. -/
noncomputable def totalRate (lib : BatemanLib) (k : String) : ℝ := ((branchesOf lib k).map Prod.snd).sum

/-! ### the key dictionary -/

theorem keydict_fold (keymap : List String) (l : List (Fin keymap.length)) (D : String → Option (Fin keymap.length))
    (hD : ∀ c r, D c = some r → keymap.get r = c) :
    (∀ c r, (l.foldl (fun D i => Function.update D (keymap.get i) (some i)) D) c = some r → keymap.get r = c) ∧
    (∀ c, ((l.foldl (fun D i => Function.update D (keymap.get i) (some i)) D) c = none) ↔
      D c = none ∧ ∀ i ∈ l, keymap.get i ≠ c) := by
  induction l generalizing D with
  | nil => simp; exact fun c r => by simpa using hD c r
  | cons i l ih =>
    have hD' : ∀ c r, (Function.update D (keymap.get i) (some i)) c = some r → keymap.get r = c := by
      intro c r h
      by_cases hc : c = keymap.get i
      · subst hc
        rw [Function.update_self] at h
        cases h
        rfl
      · rw [Function.update_of_ne hc] at h
        exact hD c r h
    obtain ⟨h1, h2⟩ := ih _ hD'
    refine ⟨h1, fun c => ?_⟩
    rw [List.foldl_cons, h2 c]
    by_cases hc : c = keymap.get i
    · subst hc
      rw [Function.update_self]
      simp
    · rw [Function.update_of_ne hc]
      simp only [List.mem_cons, forall_eq_or_imp]
      constructor
      · rintro ⟨a, b⟩; exact ⟨a, fun h => hc h.symm, b⟩
      · rintro ⟨a, _, b⟩; exact ⟨a, b⟩

theorem keydict_some {keymap : List String} {c : String} {r : Fin keymap.length} (h : keydict keymap c = some r) :
    keymap.get r = c :=
  (keydict_fold keymap _ _ (by simp)).1 c r h

theorem keydict_none {keymap : List String} {c : String} : keydict keymap c = none ↔ c ∉ keymap := by
  unfold keydict
  rw [(keydict_fold keymap _ _ (by simp)).2 c, List.mem_iff_get]
  simp

theorem keydict_nodup {keymap : List String} (hn : keymap.Nodup) {c : String} {r : Fin keymap.length} :
    keydict keymap c = some r ↔ keymap.get r = c := by
  refine ⟨keydict_some, fun h => ?_⟩
  rcases e : keydict keymap c with _ | r'
  · exact absurd (h ▸ List.get_mem keymap r) (keydict_none.1 e)
  · have := keydict_some e
    rw [← h] at this
    rw [List.Nodup.injective_get hn this]

/-! ### contributions -/

/-- contribution of one branch of species `i` -/
noncomputable def contrib (keymap : List String) (i : Fin keymap.length) (b : String × ℝ) : Mat keymap.length :=
  fun r c => if c = i then (if b.1 ≠ "none" ∧ keydict keymap b.1 = some r then b.2 else 0) - (if r = i then b.2 else 0)
    else 0

def branchOk (keymap : List String) (b : String × ℝ) : Prop := b.1 = "none" ∨ b.1 ∈ keymap

theorem addBranch_spec (keymap : List String) (i : Fin keymap.length) (M : Mat keymap.length) (b : String × ℝ) :
    (branchOk keymap b → addBranch keymap i M b = .ok (M + contrib keymap i b)) ∧
    (¬ branchOk keymap b → addBranch keymap i M b = .error .key) := by
  unfold addBranch branchOk
  by_cases hn : b.1 = "none"
  · refine ⟨fun _ => ?_, fun h => absurd (Or.inl hn) h⟩
    simp only [hn, if_true]
    congr 1
    funext r c
    simp only [matAdd, Matrix.add_apply, contrib, hn]
    by_cases h1 : r = i <;> by_cases h2 : c = i <;> simp [h1, h2, sub_eq_add_neg]
  · simp only [hn, if_false, false_or]
    rcases e : keydict keymap b.1 with _ | dest
    · refine ⟨fun h => absurd h (keydict_none.1 e), fun _ => rfl⟩
    · refine ⟨fun _ => ?_, fun h => absurd ?_ h⟩
      · simp only
        congr 1
        funext r c
        simp only [matAdd, Matrix.add_apply, contrib, e, Option.some.injEq, hn, ne_eq, not_false_eq_true, true_and]
        have hcomm : (dest = r) ↔ (r = dest) := eq_comm
        split_ifs <;> first | ring1 | (exfalso; tauto)
      · rw [← keydict_some e]
        exact List.get_mem _ _

theorem addBranches_spec (keymap : List String) (i : Fin keymap.length) (bs : List (String × ℝ)) (M : Mat keymap.length) :
    ((∀ b ∈ bs, branchOk keymap b) →
      bs.foldlM (addBranch keymap i) M = .ok (M + (bs.map (contrib keymap i)).sum)) ∧
    ((¬ ∀ b ∈ bs, branchOk keymap b) → bs.foldlM (addBranch keymap i) M = .error .key) := by
  induction bs generalizing M with
  | nil => simp [pure, Except.pure]
  | cons b bs ih =>
    rw [List.foldlM_cons]
    by_cases hb : branchOk keymap b
    · rw [(addBranch_spec keymap i M b).1 hb]
      simp only [List.mem_cons, forall_eq_or_imp, hb, true_and, List.map_cons, List.sum_cons]
      rw [← add_assoc]
      exact ih (M + contrib keymap i b)
    · rw [(addBranch_spec keymap i M b).2 hb]
      refine ⟨fun h => absurd (h b (by simp)) hb, fun _ => rfl⟩

/-- what a species needs: an entry, at least one branch, and known products -/
def speciesOk (keymap : List String) (lib : BatemanLib) (k : String) : Prop :=
  branchesOf lib k ≠ [] ∧ ∀ b ∈ branchesOf lib k, branchOk keymap b

theorem addSpecies_spec (keymap : List String) (lib : BatemanLib) (M : Mat keymap.length) (i : Fin keymap.length) :
    (speciesOk keymap lib (keymap.get i) →
      addSpecies keymap lib M i = .ok (M + ((branchesOf lib (keymap.get i)).map (contrib keymap i)).sum)) ∧
    (¬ speciesOk keymap lib (keymap.get i) →
      addSpecies keymap lib M i = .error .key ∨ addSpecies keymap lib M i = .error .index) := by
  unfold addSpecies speciesOk branchesOf
  rcases lib (keymap.get i) with _ | ⟨c, l⟩ | ⟨_ | ⟨b, bs⟩⟩
  · simp
  · simp only [branchList, List.mem_singleton, forall_eq, ne_eq, List.cons_ne_nil, not_false_eq_true, true_and,
      List.map_cons, List.map_nil, List.sum_cons, List.sum_nil, add_zero]
    exact ⟨fun h => (addBranch_spec keymap i M (c, l)).1 h, fun h => Or.inl ((addBranch_spec keymap i M (c, l)).2 h)⟩
  · simp [branchList]
  · simp only [branchList, ne_eq, List.cons_ne_nil, not_false_eq_true, true_and]
    exact ⟨fun h => (addBranches_spec keymap i (b :: bs) M).1 h,
      fun h => Or.inl ((addBranches_spec keymap i (b :: bs) M).2 h)⟩

theorem gen_fold (keymap : List String) (lib : BatemanLib) (is : List (Fin keymap.length)) (M : Mat keymap.length) :
    ((∀ i ∈ is, speciesOk keymap lib (keymap.get i)) → is.foldlM (addSpecies keymap lib) M =
      .ok (M + (is.map fun i => ((branchesOf lib (keymap.get i)).map (contrib keymap i)).sum).sum)) ∧
    ((¬ ∀ i ∈ is, speciesOk keymap lib (keymap.get i)) → is.foldlM (addSpecies keymap lib) M = .error .key ∨
      is.foldlM (addSpecies keymap lib) M = .error .index) := by
  induction is generalizing M with
  | nil => simp [pure, Except.pure]
  | cons i is ih =>
    rw [List.foldlM_cons]
    by_cases hb : speciesOk keymap lib (keymap.get i)
    · rw [(addSpecies_spec keymap lib M i).1 hb]
      simp only [List.mem_cons, forall_eq_or_imp, hb, true_and, List.map_cons, List.sum_cons]
      rw [← add_assoc]
      exact ih _
    · refine ⟨fun h => absurd (h i (by simp)) hb, fun _ => ?_⟩
      rcases (addSpecies_spec keymap lib M i).2 hb with h | h <;> rw [h]
      · exact Or.inl rfl
      · exact Or.inr rfl

theorem sum_contrib_apply (keymap : List String) (i : Fin keymap.length) (bs : List (String × ℝ)) (r c : Fin keymap.length) :
    ((bs.map (contrib keymap i)).sum) r c = if c = i then
      ((bs.filter (fun b => b.1 ≠ "none" ∧ keydict keymap b.1 = some r)).map Prod.snd).sum -
        (if r = i then (bs.map Prod.snd).sum else 0) else 0 := by
  induction bs with
  | nil => simp
  | cons b bs ih =>
    rw [List.map_cons, List.sum_cons, Matrix.add_apply, ih]
    by_cases hc : c = i
    · rw [List.filter_cons]
      by_cases hp : b.1 ≠ "none" ∧ keydict keymap b.1 = some r
      · rw [decide_eq_true hp, contrib, if_pos hc, if_pos hc, if_pos hp, if_pos rfl, if_pos hc]
        by_cases hr : r = i
        · simp only [if_pos hr, List.map_cons, List.sum_cons]; ring
        · simp only [if_neg hr, List.map_cons, List.sum_cons]; ring
      · rw [decide_eq_false hp, contrib, if_pos hc, if_pos hc, if_neg hp, if_neg Bool.false_ne_true, if_pos hc]
        by_cases hr : r = i
        · simp only [if_pos hr, List.map_cons, List.sum_cons]; ring
        · simp only [if_neg hr]; ring
    · simp [contrib, hc]

theorem gen_entries {keymap : List String} {lib : BatemanLib} {M : Mat keymap.length}
    (h : genBatemanMatrix keymap lib = .ok M) (r c : Fin keymap.length) :
    M r c = ((((branchesOf lib (keymap.get c)).filter (fun b => b.1 ≠ "none" ∧ keydict keymap b.1 = some r)).map
      Prod.snd).sum) - (if r = c then totalRate lib (keymap.get c) else 0) := by
  have hok : ∀ i ∈ List.finRange keymap.length, speciesOk keymap lib (keymap.get i) := by
    by_contra hno
    rcases (gen_fold keymap lib (List.finRange keymap.length) 0).2 hno with e | e <;>
      rw [genBatemanMatrix, e] at h <;> cases h
  rw [genBatemanMatrix, (gen_fold keymap lib (List.finRange keymap.length) 0).1 hok] at h
  injection h with h
  rw [← h, zero_add, ← List.ofFn_eq_map, List.sum_ofFn, Matrix.sum_apply]
  simp only [sum_contrib_apply]
  rw [Finset.sum_ite_eq Finset.univ c]
  simp [totalRate]

/-- **C55.** For a list of distinct species, the matrix has in row `i`, column `j` the total decay constant of the branches
from `j` into `i`, and on the diagonal additionally minus the total decay constant of the species (products named
`"none"` leave the system). -/
theorem C55_entries {keymap : List String} (hn : keymap.Nodup) {lib : BatemanLib} {M : Mat keymap.length}
    (h : genBatemanMatrix keymap lib = .ok M) (i j : Fin keymap.length) :
    M i j = (if keymap.get i = "none" then 0 else rateTo lib (keymap.get j) (keymap.get i))
      - (if i = j then totalRate lib (keymap.get j) else 0) := by
  rw [gen_entries h]
  congr 1
  have hp : (fun b : String × ℝ => decide (b.1 ≠ "none" ∧ keydict keymap b.1 = some i)) =
      fun b => decide (b.1 ≠ "none" ∧ b.1 = keymap.get i) := by
    funext b
    congr 1
    rw [keydict_nodup hn, eq_comm (a := keymap.get i)]
  rw [hp]
  by_cases hi : keymap.get i = "none"
  · rw [if_pos hi, List.filter_eq_nil_iff.2]
    · simp
    · intro b _
      simp only [decide_eq_true_eq, not_and]
      intro h1 h2
      exact h1 (h2.trans hi)
  · rw [if_neg hi, rateTo]
    congr 2
    refine List.filter_congr (fun b _ => ?_)
    simp only [decide_eq_decide]
    exact ⟨fun h => h.2, fun h => ⟨fun h' => hi (h ▸ h'), h⟩⟩

/-- **C55, column sums.** Whatever the (possibly repeated) species list, column `j` sums to minus the decay constant of species
`j` into `"none"`: everything else that leaves `j` arrives somewhere. -/
theorem C55_column_sum {keymap : List String} {lib : BatemanLib} {M : Mat keymap.length}
    (h : genBatemanMatrix keymap lib = .ok M) (j : Fin keymap.length) :
    ∑ i, M i j = - rateTo lib (keymap.get j) "none" := by
  have hok : ∀ b ∈ branchesOf lib (keymap.get j), branchOk keymap b := by
    by_contra hno
    have : ¬ ∀ i ∈ List.finRange keymap.length, speciesOk keymap lib (keymap.get i) := fun hall =>
      hno (hall j (List.mem_finRange j)).2
    rcases (gen_fold keymap lib (List.finRange keymap.length) 0).2 this with e | e <;>
      rw [genBatemanMatrix, e] at h <;> cases h
  simp only [gen_entries h, Finset.sum_sub_distrib, Finset.sum_ite_eq', Finset.mem_univ, if_true, totalRate, rateTo]
  generalize branchesOf lib (keymap.get j) = bs at *
  induction bs with
  | nil => simp
  | cons b bs ih =>
    have ih' := ih (fun b' hb' => hok b' (by simp [hb']))
    have hb := hok b (by simp)
    by_cases hn : b.1 = "none"
    · simp only [List.filter_cons, hn, ne_eq, not_true_eq_false, false_and, decide_false, Bool.false_eq_true, if_false,
        List.map_cons, List.sum_cons, decide_true, if_true] at *
      linarith
    · have hmem : b.1 ∈ keymap := by rcases hb with hb | hb; exacts [absurd hb hn, hb]
      obtain ⟨dest, hd⟩ : ∃ d, keydict keymap b.1 = some d := by
        rcases e : keydict keymap b.1 with _ | d
        · exact absurd hmem (keydict_none.1 e)
        · exact ⟨d, rfl⟩
      have hs : ∀ x : Fin keymap.length, ((((b :: bs).filter (fun b => b.1 ≠ "none" ∧ keydict keymap b.1 = some x)).map
          Prod.snd).sum) = (if dest = x then b.2 else 0) +
          (((bs.filter (fun b => b.1 ≠ "none" ∧ keydict keymap b.1 = some x)).map Prod.snd).sum) := by
        intro x
        rw [List.filter_cons]
        by_cases hx : dest = x
        · simp [hn, hd, hx]
        · simp [hn, hd, hx]
      simp only [hs, Finset.sum_add_distrib, Finset.sum_ite_eq, Finset.mem_univ, if_true]
      have hf : decide (b.1 = "none") = false := decide_eq_false hn
      rw [List.filter_cons, hf]
      simp only [List.map_cons, List.sum_cons, Bool.false_eq_true, if_false] at *
      linarith

/-- **C55, refusal.** The matrix is produced exactly when every species of the list has a library entry with at least one branch
and every product is `"none"` or in the list; otherwise the call raises `KeyError` (or `IndexError` for an empty
tuple of branches). -/
theorem C55_refusal (keymap : List String) (lib : BatemanLib) :
    ((∃ M, genBatemanMatrix keymap lib = .ok M) ↔
      ∀ k ∈ keymap, branchesOf lib k ≠ [] ∧ ∀ b ∈ branchesOf lib k, b.1 = "none" ∨ b.1 ∈ keymap) ∧
    (∀ e, genBatemanMatrix keymap lib = .error e → e = .key ∨ e = .index) := by
  have key : (∀ i ∈ List.finRange keymap.length, speciesOk keymap lib (keymap.get i)) ↔
      ∀ k ∈ keymap, branchesOf lib k ≠ [] ∧ ∀ b ∈ branchesOf lib k, b.1 = "none" ∨ b.1 ∈ keymap := by
    constructor
    · intro h k hk
      obtain ⟨i, rfl⟩ := List.mem_iff_get.1 hk
      exact h i (List.mem_finRange i)
    · intro h i _
      exact h _ (List.get_mem _ _)
  rw [← key]
  by_cases hok : ∀ i ∈ List.finRange keymap.length, speciesOk keymap lib (keymap.get i)
  · have e := (gen_fold keymap lib (List.finRange keymap.length) 0).1 hok
    refine ⟨⟨fun _ => hok, fun _ => ⟨_, e⟩⟩, fun e' h => ?_⟩
    rw [genBatemanMatrix, e] at h
    cases h
  · have e := (gen_fold keymap lib (List.finRange keymap.length) 0).2 hok
    refine ⟨⟨fun ⟨M, h⟩ => ?_, fun h => absurd h hok⟩, fun e' h => ?_⟩
    · rw [genBatemanMatrix] at h
      rcases e with e | e <;> rw [e] at h <;> cases h
    · rw [genBatemanMatrix] at h
      rcases e with e | e <;> rw [e] at h <;> cases h <;> simp

/-- **C55, transmutation.** `gen_transmute_matrix(keymap, lib, phi)` is `-phi` times the decay matrix of the same library and
refuses the same inputs. -/
theorem C55_transmute (keymap : List String) (lib : BatemanLib) (phi : ℝ) :
    (∀ M, genBatemanMatrix keymap lib = .ok M → genTransmuteMatrix keymap lib phi = .ok ((-phi) • M)) ∧
    (∀ e, genBatemanMatrix keymap lib = .error e → genTransmuteMatrix keymap lib phi = .error e) := by
  constructor
  · intro M h; rw [genTransmuteMatrix, h]; rfl
  · intro e h; rw [genTransmuteMatrix, h]; rfl

/-- Non-vacuity: a library with a branching species (part of `xe_135_v` in bateman_nonlin_sys.py:38). -/
noncomputable def exLib : BatemanLib := fun k =>
  if k = "xe" then some (.branches [("cs", 2), ("none", 3)])
  else if k = "cs" then some (.single "none" 5) else none

example : ∃ M, genBatemanMatrix ["xe", "cs"] exLib = .ok M ∧ M 1 0 = 2 ∧ M 0 0 = -5 ∧ M 1 1 = -5 ∧ M 0 1 = 0 := by
  obtain ⟨M, h⟩ := (C55_refusal ["xe", "cs"] exLib).1.2 (by
    simp [branchesOf, exLib, branchList]
    rintro a b (⟨rfl, _⟩ | ⟨rfl, _⟩) <;> simp)
  have hn : ["xe", "cs"].Nodup := by simp
  refine ⟨M, h, ?_, ?_, ?_, ?_⟩
  · rw [C55_entries hn h]; simp [rateTo, branchesOf, exLib, branchList, List.filter_cons]
  · rw [C55_entries hn h]; simp [rateTo, totalRate, branchesOf, exLib, branchList, List.filter_cons]; norm_num
  · rw [C55_entries hn h]; simp [rateTo, totalRate, branchesOf, exLib, branchList, List.filter_cons]
  · rw [C55_entries hn h]; simp [rateTo, branchesOf, exLib, branchList, List.filter_cons]

/-- An unknown product is refused. -/
example : ∀ M, genBatemanMatrix ["xe"] exLib ≠ .ok M := by
  intro M h
  have := (C55_refusal ["xe"] exLib).1.1 ⟨M, h⟩ "xe" (by simp)
  simp [branchesOf, exLib, branchList] at this

end Ormatex.Props
