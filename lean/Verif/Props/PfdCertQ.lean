import Verif.Props.PfdPoly

/-!
Certificates for the shipped Pade tables on `[-1, 0]` (checked by the kernel with the verified checker of `Props/PfdPoly.lean`):
integer numerators of the tables, the subdivision of the interval, and the resulting bounds.
-/

namespace Ormatex.Props.Cert
open Ormatex Ormatex.Spec

/-- the pieces of the exponential alone, on `[-1, 0]` -/
theorem exp_near {bits : ℕ} {D C0 : ℤ} {tab : List RTerm} {en ed L : ℕ} (hside : sideTab D tab = true) (hed : 0 < ed)
    (hL : 3969 < L) (hL2 : L ≤ 2 ^ 18) (hE : Covered (pcE bits D C0 tab en ed) 0 L) (x : ℝ) (hx : x ≤ 0) (hx1 : -1 ≤ x) :
    |rVal D C0 tab x - Real.exp x| ≤ en / ed + 1 / 10 ^ 23 := by
  unfold sideTab at hside
  simp only [Bool.and_eq_true, decide_eq_true_eq, List.all_eq_true] at hside
  obtain ⟨⟨hD, ht⟩, hlen⟩ := hside
  have hL' : (3969 : ℝ) < L := by exact_mod_cast hL
  obtain ⟨m, H, h1, h2, h4⟩ := hE (3969 * x) (by push_cast; linarith) (by linarith)
  rw [pcE, forceN_eq, Bool.and_eq_true, decide_eq_true_eq] at h1
  exact pieceE_sound hD ht hlen hed (h4.trans hL2) h1.1 h1.2 x h2


/-! ### `pade_2_2` -/

def p2_2D : ℤ := 100000000000000
def p2_2C0 : ℤ := 100000000000000
def p2_2Tab : List RTerm := [
  ⟨300000000000000, -173205080756888, 600000000000001, 1039230484541330, 1⟩]

theorem p2_2_side : sideTab p2_2D p2_2Tab = true := by decide +kernel
theorem p2_2_E_0 : pcE 657 p2_2D p2_2C0 p2_2Tab 61 100000 1674 1674 = true := by decide +kernel
theorem p2_2_E_1 : pcE 657 p2_2D p2_2C0 p2_2Tab 61 100000 3645 297 = true := by decide +kernel
theorem p2_2_E_2 : pcE 657 p2_2D p2_2C0 p2_2Tab 61 100000 3990 48 = true := by decide +kernel
theorem p2_2_E_c0 : Covered (pcE 657 p2_2D p2_2C0 p2_2Tab 61 100000) 0 3348 :=
  Covered.piece 1674 p2_2_E_0 (by decide +kernel)
theorem p2_2_E_c1 : Covered (pcE 657 p2_2D p2_2C0 p2_2Tab 61 100000) 0 3942 :=
  p2_2_E_c0.trans (Covered.piece 297 p2_2_E_1 (by decide +kernel)) (by decide)
theorem p2_2_E_c2 : Covered (pcE 657 p2_2D p2_2C0 p2_2Tab 61 100000) 0 4038 :=
  p2_2_E_c1.trans (Covered.piece 48 p2_2_E_2 (by decide +kernel)) (by decide)
theorem p2_2_exp (x : ℝ) (hx : x ≤ 0) (hx1 : -1 ≤ x) :
    |rVal p2_2D p2_2C0 p2_2Tab x - Real.exp x| ≤ (61 : ℕ) / (100000 : ℕ) + 1 / 10 ^ 23 :=
  exp_near p2_2_side (by norm_num) (by norm_num) (by norm_num) p2_2_E_c2 x hx hx1
theorem p2_2_P1_0 : pcPF 639 p2_2D p2_2Tab 1 61 100000 1674 1674 = true := by decide +kernel
theorem p2_2_P1_1 : pcPF 639 p2_2D p2_2Tab 1 61 100000 3645 297 = true := by decide +kernel
theorem p2_2_P1_2 : pcPF 639 p2_2D p2_2Tab 1 61 100000 4007 65 = true := by decide +kernel
theorem p2_2_P1_c0 : Covered (pcPF 639 p2_2D p2_2Tab 1 61 100000) 0 3348 :=
  Covered.piece 1674 p2_2_P1_0 (by decide +kernel)
theorem p2_2_P1_c1 : Covered (pcPF 639 p2_2D p2_2Tab 1 61 100000) 0 3942 :=
  p2_2_P1_c0.trans (Covered.piece 297 p2_2_P1_1 (by decide +kernel)) (by decide)
theorem p2_2_P1_c2 : Covered (pcPF 639 p2_2D p2_2Tab 1 61 100000) 0 4072 :=
  p2_2_P1_c1.trans (Covered.piece 65 p2_2_P1_2 (by decide +kernel)) (by decide)
theorem p2_2_phi1 (x : ℝ) (hx : x ≤ 0) (hx1 : -1 ≤ x) :
    |rVal p2_2D 0 (divTab p2_2D p2_2Tab 1) x - phi 1 x| ≤ (61 : ℕ) / (100000 : ℕ) + 1 / 10 ^ 23 :=
  phi_sound p2_2_side (by norm_num) (by norm_num) p2_2_P1_c2 x hx hx1
theorem p2_2_P2_0 : pcPF 739 p2_2D p2_2Tab 2 61 100000 1674 1674 = true := by decide +kernel
theorem p2_2_P2_1 : pcPF 739 p2_2D p2_2Tab 2 61 100000 3645 297 = true := by decide +kernel
theorem p2_2_P2_2 : pcPF 739 p2_2D p2_2Tab 2 61 100000 4029 87 = true := by decide +kernel
theorem p2_2_P2_c0 : Covered (pcPF 739 p2_2D p2_2Tab 2 61 100000) 0 3348 :=
  Covered.piece 1674 p2_2_P2_0 (by decide +kernel)
theorem p2_2_P2_c1 : Covered (pcPF 739 p2_2D p2_2Tab 2 61 100000) 0 3942 :=
  p2_2_P2_c0.trans (Covered.piece 297 p2_2_P2_1 (by decide +kernel)) (by decide)
theorem p2_2_P2_c2 : Covered (pcPF 739 p2_2D p2_2Tab 2 61 100000) 0 4116 :=
  p2_2_P2_c1.trans (Covered.piece 87 p2_2_P2_2 (by decide +kernel)) (by decide)
theorem p2_2_phi2 (x : ℝ) (hx : x ≤ 0) (hx1 : -1 ≤ x) :
    |rVal p2_2D 0 (divTab p2_2D p2_2Tab 2) x - phi 2 x| ≤ (61 : ℕ) / (100000 : ℕ) + 1 / 10 ^ 23 :=
  phi_sound p2_2_side (by norm_num) (by norm_num) p2_2_P2_c2 x hx hx1

/-! ### `pade_4_4` -/

def p4_4D : ℤ := 100000000000000
def p4_4C0 : ℤ := 100000000000000
def p4_4Tab : List RTerm := [
  ⟨420757879435925, -531483608371350, -4631994732752190, -1689045476424480, 1⟩,
  ⟨579242120564075, -173446825786901, 6631994732752220, 17325872408570600, 1⟩]

theorem p4_4_side : sideTab p4_4D p4_4Tab = true := by decide +kernel
theorem p4_4_E_0 : pcE 784 p4_4D p4_4C0 p4_4Tab 17 1000000000 1674 1674 = true := by decide +kernel
theorem p4_4_E_1 : pcE 784 p4_4D p4_4C0 p4_4Tab 17 1000000000 3645 297 = true := by decide +kernel
theorem p4_4_E_2 : pcE 784 p4_4D p4_4C0 p4_4Tab 17 1000000000 3978 36 = true := by decide +kernel
theorem p4_4_E_c0 : Covered (pcE 784 p4_4D p4_4C0 p4_4Tab 17 1000000000) 0 3348 :=
  Covered.piece 1674 p4_4_E_0 (by decide +kernel)
theorem p4_4_E_c1 : Covered (pcE 784 p4_4D p4_4C0 p4_4Tab 17 1000000000) 0 3942 :=
  p4_4_E_c0.trans (Covered.piece 297 p4_4_E_1 (by decide +kernel)) (by decide)
theorem p4_4_E_c2 : Covered (pcE 784 p4_4D p4_4C0 p4_4Tab 17 1000000000) 0 4014 :=
  p4_4_E_c1.trans (Covered.piece 36 p4_4_E_2 (by decide +kernel)) (by decide)
theorem p4_4_exp (x : ℝ) (hx : x ≤ 0) (hx1 : -1 ≤ x) :
    |rVal p4_4D p4_4C0 p4_4Tab x - Real.exp x| ≤ (17 : ℕ) / (1000000000 : ℕ) + 1 / 10 ^ 23 :=
  exp_near p4_4_side (by norm_num) (by norm_num) (by norm_num) p4_4_E_c2 x hx hx1
theorem p4_4_P1_0 : pcPF 864 p4_4D p4_4Tab 1 17 1000000000 1674 1674 = true := by decide +kernel
theorem p4_4_P1_1 : pcPF 864 p4_4D p4_4Tab 1 17 1000000000 3645 297 = true := by decide +kernel
theorem p4_4_P1_2 : pcPF 864 p4_4D p4_4Tab 1 17 1000000000 3978 36 = true := by decide +kernel
theorem p4_4_P1_c0 : Covered (pcPF 864 p4_4D p4_4Tab 1 17 1000000000) 0 3348 :=
  Covered.piece 1674 p4_4_P1_0 (by decide +kernel)
theorem p4_4_P1_c1 : Covered (pcPF 864 p4_4D p4_4Tab 1 17 1000000000) 0 3942 :=
  p4_4_P1_c0.trans (Covered.piece 297 p4_4_P1_1 (by decide +kernel)) (by decide)
theorem p4_4_P1_c2 : Covered (pcPF 864 p4_4D p4_4Tab 1 17 1000000000) 0 4014 :=
  p4_4_P1_c1.trans (Covered.piece 36 p4_4_P1_2 (by decide +kernel)) (by decide)
theorem p4_4_phi1 (x : ℝ) (hx : x ≤ 0) (hx1 : -1 ≤ x) :
    |rVal p4_4D 0 (divTab p4_4D p4_4Tab 1) x - phi 1 x| ≤ (17 : ℕ) / (1000000000 : ℕ) + 1 / 10 ^ 23 :=
  phi_sound p4_4_side (by norm_num) (by norm_num) p4_4_P1_c2 x hx hx1
theorem p4_4_P2_0 : pcPF 1064 p4_4D p4_4Tab 2 17 1000000000 1674 1674 = true := by decide +kernel
theorem p4_4_P2_1 : pcPF 1064 p4_4D p4_4Tab 2 17 1000000000 3645 297 = true := by decide +kernel
theorem p4_4_P2_2 : pcPF 1064 p4_4D p4_4Tab 2 17 1000000000 3990 48 = true := by decide +kernel
theorem p4_4_P2_c0 : Covered (pcPF 1064 p4_4D p4_4Tab 2 17 1000000000) 0 3348 :=
  Covered.piece 1674 p4_4_P2_0 (by decide +kernel)
theorem p4_4_P2_c1 : Covered (pcPF 1064 p4_4D p4_4Tab 2 17 1000000000) 0 3942 :=
  p4_4_P2_c0.trans (Covered.piece 297 p4_4_P2_1 (by decide +kernel)) (by decide)
theorem p4_4_P2_c2 : Covered (pcPF 1064 p4_4D p4_4Tab 2 17 1000000000) 0 4038 :=
  p4_4_P2_c1.trans (Covered.piece 48 p4_4_P2_2 (by decide +kernel)) (by decide)
theorem p4_4_phi2 (x : ℝ) (hx : x ≤ 0) (hx1 : -1 ≤ x) :
    |rVal p4_4D 0 (divTab p4_4D p4_4Tab 2) x - phi 2 x| ≤ (17 : ℕ) / (1000000000 : ℕ) + 1 / 10 ^ 23 :=
  phi_sound p4_4_side (by norm_num) (by norm_num) p4_4_P2_c2 x hx hx1

/-! ### `pade_6_6` -/

def p6_6D : ℤ := 100000000000000
def p6_6C0 : ℤ := 100000000000000
def p6_6Tab : List RTerm := [
  ⟨503186449562165, -898534590730785, 12433940680089400, -3641672483882700, 1⟩,
  ⟨747141671265165, -525254462289436, -90209543065392300, -62670124521693900, 1⟩,
  ⟨849671879172674, -173501934646256, 81975602385310900, 261209107117835000, 1⟩]

theorem p6_6_side : sideTab p6_6D p6_6Tab = true := by decide +kernel
theorem p6_6_E_0 : pcE 913 p6_6D p6_6C0 p6_6Tab 3 125000000000 528 528 = true := by decide +kernel
theorem p6_6_E_1 : pcE 913 p6_6D p6_6C0 p6_6Tab 3 125000000000 1724 668 = true := by decide +kernel
theorem p6_6_E_2 : pcE 913 p6_6D p6_6C0 p6_6Tab 3 125000000000 3237 845 = true := by decide +kernel
theorem p6_6_E_c0 : Covered (pcE 913 p6_6D p6_6C0 p6_6Tab 3 125000000000) 0 1056 :=
  Covered.piece 528 p6_6_E_0 (by decide +kernel)
theorem p6_6_E_c1 : Covered (pcE 913 p6_6D p6_6C0 p6_6Tab 3 125000000000) 0 2392 :=
  p6_6_E_c0.trans (Covered.piece 668 p6_6_E_1 (by decide +kernel)) (by decide)
theorem p6_6_E_c2 : Covered (pcE 913 p6_6D p6_6C0 p6_6Tab 3 125000000000) 0 4082 :=
  p6_6_E_c1.trans (Covered.piece 845 p6_6_E_2 (by decide +kernel)) (by decide)
theorem p6_6_exp (x : ℝ) (hx : x ≤ 0) (hx1 : -1 ≤ x) :
    |rVal p6_6D p6_6C0 p6_6Tab x - Real.exp x| ≤ (3 : ℕ) / (125000000000 : ℕ) + 1 / 10 ^ 23 :=
  exp_near p6_6_side (by norm_num) (by norm_num) (by norm_num) p6_6_E_c2 x hx hx1
theorem p6_6_P1_0 : pcPF 1092 p6_6D p6_6Tab 1 29 10000000000000 528 528 = true := by decide +kernel
theorem p6_6_P1_1 : pcPF 1092 p6_6D p6_6Tab 1 29 10000000000000 1724 668 = true := by decide +kernel
theorem p6_6_P1_2 : pcPF 1092 p6_6D p6_6Tab 1 29 10000000000000 3025 633 = true := by decide +kernel
theorem p6_6_P1_3 : pcPF 1092 p6_6D p6_6Tab 1 29 10000000000000 4108 450 = true := by decide +kernel
theorem p6_6_P1_c0 : Covered (pcPF 1092 p6_6D p6_6Tab 1 29 10000000000000) 0 1056 :=
  Covered.piece 528 p6_6_P1_0 (by decide +kernel)
theorem p6_6_P1_c1 : Covered (pcPF 1092 p6_6D p6_6Tab 1 29 10000000000000) 0 2392 :=
  p6_6_P1_c0.trans (Covered.piece 668 p6_6_P1_1 (by decide +kernel)) (by decide)
theorem p6_6_P1_c2 : Covered (pcPF 1092 p6_6D p6_6Tab 1 29 10000000000000) 0 3658 :=
  p6_6_P1_c1.trans (Covered.piece 633 p6_6_P1_2 (by decide +kernel)) (by decide)
theorem p6_6_P1_c3 : Covered (pcPF 1092 p6_6D p6_6Tab 1 29 10000000000000) 0 4558 :=
  p6_6_P1_c2.trans (Covered.piece 450 p6_6_P1_3 (by decide +kernel)) (by decide)
theorem p6_6_phi1 (x : ℝ) (hx : x ≤ 0) (hx1 : -1 ≤ x) :
    |rVal p6_6D 0 (divTab p6_6D p6_6Tab 1) x - phi 1 x| ≤ (29 : ℕ) / (10000000000000 : ℕ) + 1 / 10 ^ 23 :=
  phi_sound p6_6_side (by norm_num) (by norm_num) p6_6_P1_c3 x hx hx1
theorem p6_6_P2_0 : pcPF 1394 p6_6D p6_6Tab 2 1 3125000000000 528 528 = true := by decide +kernel
theorem p6_6_P2_1 : pcPF 1394 p6_6D p6_6Tab 2 1 3125000000000 1724 668 = true := by decide +kernel
theorem p6_6_P2_2 : pcPF 1394 p6_6D p6_6Tab 2 1 3125000000000 3025 633 = true := by decide +kernel
theorem p6_6_P2_3 : pcPF 1394 p6_6D p6_6Tab 2 1 3125000000000 3995 337 = true := by decide +kernel
theorem p6_6_P2_c0 : Covered (pcPF 1394 p6_6D p6_6Tab 2 1 3125000000000) 0 1056 :=
  Covered.piece 528 p6_6_P2_0 (by decide +kernel)
theorem p6_6_P2_c1 : Covered (pcPF 1394 p6_6D p6_6Tab 2 1 3125000000000) 0 2392 :=
  p6_6_P2_c0.trans (Covered.piece 668 p6_6_P2_1 (by decide +kernel)) (by decide)
theorem p6_6_P2_c2 : Covered (pcPF 1394 p6_6D p6_6Tab 2 1 3125000000000) 0 3658 :=
  p6_6_P2_c1.trans (Covered.piece 633 p6_6_P2_2 (by decide +kernel)) (by decide)
theorem p6_6_P2_c3 : Covered (pcPF 1394 p6_6D p6_6Tab 2 1 3125000000000) 0 4332 :=
  p6_6_P2_c2.trans (Covered.piece 337 p6_6_P2_3 (by decide +kernel)) (by decide)
theorem p6_6_phi2 (x : ℝ) (hx : x ≤ 0) (hx1 : -1 ≤ x) :
    |rVal p6_6D 0 (divTab p6_6D p6_6Tab 2) x - phi 2 x| ≤ (1 : ℕ) / (3125000000000 : ℕ) + 1 / 10 ^ 23 :=
  phi_sound p6_6_side (by norm_num) (by norm_num) p6_6_P2_c3 x hx hx1

/-! ### `pade_8_8` -/

def p8_8D : ℤ := 100000000000000
def p8_8C0 : ℤ := 100000000000000
def p8_8Tab : List RTerm := [
  ⟨567796789779517, -1270782259720970, -16519307254501000, 21915799533528500, 1⟩,
  ⟨873657843440534, -882888500094338, 426599883763478000, 21987946411705200, 1⟩,
  ⟨1040968158127320, -523235030528453, -1467265021797050000, -1308355465365430000, 1⟩,
  ⟨1117577208652640, -173522889070665, 1064384445288690000, 3824716993985770000, 1⟩]

theorem p8_8_side : sideTab p8_8D p8_8Tab = true := by decide +kernel
theorem p8_8_E_0 : pcE 1044 p8_8D p8_8C0 p8_8Tab 3 2000000000 705 705 = true := by decide +kernel
theorem p8_8_E_1 : pcE 1044 p8_8D p8_8C0 p8_8Tab 3 2000000000 2078 668 = true := by decide +kernel
theorem p8_8_E_2 : pcE 1044 p8_8D p8_8C0 p8_8Tab 3 2000000000 3591 845 = true := by decide +kernel
theorem p8_8_E_c0 : Covered (pcE 1044 p8_8D p8_8C0 p8_8Tab 3 2000000000) 0 1410 :=
  Covered.piece 705 p8_8_E_0 (by decide +kernel)
theorem p8_8_E_c1 : Covered (pcE 1044 p8_8D p8_8C0 p8_8Tab 3 2000000000) 0 2746 :=
  p8_8_E_c0.trans (Covered.piece 668 p8_8_E_1 (by decide +kernel)) (by decide)
theorem p8_8_E_c2 : Covered (pcE 1044 p8_8D p8_8C0 p8_8Tab 3 2000000000) 0 4436 :=
  p8_8_E_c1.trans (Covered.piece 845 p8_8_E_2 (by decide +kernel)) (by decide)
theorem p8_8_exp (x : ℝ) (hx : x ≤ 0) (hx1 : -1 ≤ x) :
    |rVal p8_8D p8_8C0 p8_8Tab x - Real.exp x| ≤ (3 : ℕ) / (2000000000 : ℕ) + 1 / 10 ^ 23 :=
  exp_near p8_8_side (by norm_num) (by norm_num) (by norm_num) p8_8_E_c2 x hx hx1
theorem p8_8_P1_0 : pcPF 1323 p8_8D p8_8Tab 1 7 50000000000 705 705 = true := by decide +kernel
theorem p8_8_P1_1 : pcPF 1323 p8_8D p8_8Tab 1 7 50000000000 2078 668 = true := by decide +kernel
theorem p8_8_P1_2 : pcPF 1323 p8_8D p8_8Tab 1 7 50000000000 3591 845 = true := by decide +kernel
theorem p8_8_P1_c0 : Covered (pcPF 1323 p8_8D p8_8Tab 1 7 50000000000) 0 1410 :=
  Covered.piece 705 p8_8_P1_0 (by decide +kernel)
theorem p8_8_P1_c1 : Covered (pcPF 1323 p8_8D p8_8Tab 1 7 50000000000) 0 2746 :=
  p8_8_P1_c0.trans (Covered.piece 668 p8_8_P1_1 (by decide +kernel)) (by decide)
theorem p8_8_P1_c2 : Covered (pcPF 1323 p8_8D p8_8Tab 1 7 50000000000) 0 4436 :=
  p8_8_P1_c1.trans (Covered.piece 845 p8_8_P1_2 (by decide +kernel)) (by decide)
theorem p8_8_phi1 (x : ℝ) (hx : x ≤ 0) (hx1 : -1 ≤ x) :
    |rVal p8_8D 0 (divTab p8_8D p8_8Tab 1) x - phi 1 x| ≤ (7 : ℕ) / (50000000000 : ℕ) + 1 / 10 ^ 23 :=
  phi_sound p8_8_side (by norm_num) (by norm_num) p8_8_P1_c2 x hx hx1
theorem p8_8_P2_0 : pcPF 1728 p8_8D p8_8Tab 2 3 250000000000 705 705 = true := by decide +kernel
theorem p8_8_P2_1 : pcPF 1728 p8_8D p8_8Tab 2 3 250000000000 2078 668 = true := by decide +kernel
theorem p8_8_P2_2 : pcPF 1728 p8_8D p8_8Tab 2 3 250000000000 3591 845 = true := by decide +kernel
theorem p8_8_P2_c0 : Covered (pcPF 1728 p8_8D p8_8Tab 2 3 250000000000) 0 1410 :=
  Covered.piece 705 p8_8_P2_0 (by decide +kernel)
theorem p8_8_P2_c1 : Covered (pcPF 1728 p8_8D p8_8Tab 2 3 250000000000) 0 2746 :=
  p8_8_P2_c0.trans (Covered.piece 668 p8_8_P2_1 (by decide +kernel)) (by decide)
theorem p8_8_P2_c2 : Covered (pcPF 1728 p8_8D p8_8Tab 2 3 250000000000) 0 4436 :=
  p8_8_P2_c1.trans (Covered.piece 845 p8_8_P2_2 (by decide +kernel)) (by decide)
theorem p8_8_phi2 (x : ℝ) (hx : x ≤ 0) (hx1 : -1 ≤ x) :
    |rVal p8_8D 0 (divTab p8_8D p8_8Tab 2) x - phi 2 x| ≤ (3 : ℕ) / (250000000000 : ℕ) + 1 / 10 ^ 23 :=
  phi_sound p8_8_side (by norm_num) (by norm_num) p8_8_P2_c2 x hx hx1

/-! ### `pade_10_10` -/

def p10_10D : ℤ := 100000000000000
def p10_10C0 : ℤ := 100000000000000
def p10_10Tab : List RTerm := [
  ⟨621783246729821, -1646539891814750, -428439839038208, -51106575524947700, 1⟩,
  ⟨977243913371641, -1244997096494110, -1139607931605960000, 630112461260688000, 1⟩,
  ⟨1193505665718260, -876989437788469, 9411905891674950000, 2075995141758650000, 1⟩,
  ⟨1323058193094220, -522313584161276, -22451067128693200000, -23085060886674400000, 1⟩,
  ⟨1384408981086060, -173533039087163, 14190197608863700000, 55306387540685200000, 1⟩]

theorem p10_10_side : sideTab p10_10D p10_10Tab = true := by decide +kernel
theorem p10_10_E_0 : pcE 1175 p10_10D p10_10C0 p10_10Tab 17 20000000 528 528 = true := by decide +kernel
theorem p10_10_E_1 : pcE 1175 p10_10D p10_10C0 p10_10Tab 17 20000000 1557 501 = true := by decide +kernel
theorem p10_10_E_2 : pcE 1175 p10_10D p10_10C0 p10_10Tab 17 20000000 2691 633 = true := by decide +kernel
theorem p10_10_E_3 : pcE 1175 p10_10D p10_10C0 p10_10Tab 17 20000000 4125 801 = true := by decide +kernel
theorem p10_10_E_c0 : Covered (pcE 1175 p10_10D p10_10C0 p10_10Tab 17 20000000) 0 1056 :=
  Covered.piece 528 p10_10_E_0 (by decide +kernel)
theorem p10_10_E_c1 : Covered (pcE 1175 p10_10D p10_10C0 p10_10Tab 17 20000000) 0 2058 :=
  p10_10_E_c0.trans (Covered.piece 501 p10_10_E_1 (by decide +kernel)) (by decide)
theorem p10_10_E_c2 : Covered (pcE 1175 p10_10D p10_10C0 p10_10Tab 17 20000000) 0 3324 :=
  p10_10_E_c1.trans (Covered.piece 633 p10_10_E_2 (by decide +kernel)) (by decide)
theorem p10_10_E_c3 : Covered (pcE 1175 p10_10D p10_10C0 p10_10Tab 17 20000000) 0 4926 :=
  p10_10_E_c2.trans (Covered.piece 801 p10_10_E_3 (by decide +kernel)) (by decide)
theorem p10_10_exp (x : ℝ) (hx : x ≤ 0) (hx1 : -1 ≤ x) :
    |rVal p10_10D p10_10C0 p10_10Tab x - Real.exp x| ≤ (17 : ℕ) / (20000000 : ℕ) + 1 / 10 ^ 23 :=
  exp_near p10_10_side (by norm_num) (by norm_num) (by norm_num) p10_10_E_c3 x hx hx1
theorem p10_10_P1_0 : pcPF 1557 p10_10D p10_10Tab 1 9 125000000 528 528 = true := by decide +kernel
theorem p10_10_P1_1 : pcPF 1557 p10_10D p10_10Tab 1 9 125000000 1557 501 = true := by decide +kernel
theorem p10_10_P1_2 : pcPF 1557 p10_10D p10_10Tab 1 9 125000000 2691 633 = true := by decide +kernel
theorem p10_10_P1_3 : pcPF 1557 p10_10D p10_10Tab 1 9 125000000 4125 801 = true := by decide +kernel
theorem p10_10_P1_c0 : Covered (pcPF 1557 p10_10D p10_10Tab 1 9 125000000) 0 1056 :=
  Covered.piece 528 p10_10_P1_0 (by decide +kernel)
theorem p10_10_P1_c1 : Covered (pcPF 1557 p10_10D p10_10Tab 1 9 125000000) 0 2058 :=
  p10_10_P1_c0.trans (Covered.piece 501 p10_10_P1_1 (by decide +kernel)) (by decide)
theorem p10_10_P1_c2 : Covered (pcPF 1557 p10_10D p10_10Tab 1 9 125000000) 0 3324 :=
  p10_10_P1_c1.trans (Covered.piece 633 p10_10_P1_2 (by decide +kernel)) (by decide)
theorem p10_10_P1_c3 : Covered (pcPF 1557 p10_10D p10_10Tab 1 9 125000000) 0 4926 :=
  p10_10_P1_c2.trans (Covered.piece 801 p10_10_P1_3 (by decide +kernel)) (by decide)
theorem p10_10_phi1 (x : ℝ) (hx : x ≤ 0) (hx1 : -1 ≤ x) :
    |rVal p10_10D 0 (divTab p10_10D p10_10Tab 1) x - phi 1 x| ≤ (9 : ℕ) / (125000000 : ℕ) + 1 / 10 ^ 23 :=
  phi_sound p10_10_side (by norm_num) (by norm_num) p10_10_P1_c3 x hx hx1
theorem p10_10_P2_0 : pcPF 2065 p10_10D p10_10Tab 2 57 10000000000 528 528 = true := by decide +kernel
theorem p10_10_P2_1 : pcPF 2065 p10_10D p10_10Tab 2 57 10000000000 1557 501 = true := by decide +kernel
theorem p10_10_P2_2 : pcPF 2065 p10_10D p10_10Tab 2 57 10000000000 2691 633 = true := by decide +kernel
theorem p10_10_P2_3 : pcPF 2065 p10_10D p10_10Tab 2 57 10000000000 4125 801 = true := by decide +kernel
theorem p10_10_P2_c0 : Covered (pcPF 2065 p10_10D p10_10Tab 2 57 10000000000) 0 1056 :=
  Covered.piece 528 p10_10_P2_0 (by decide +kernel)
theorem p10_10_P2_c1 : Covered (pcPF 2065 p10_10D p10_10Tab 2 57 10000000000) 0 2058 :=
  p10_10_P2_c0.trans (Covered.piece 501 p10_10_P2_1 (by decide +kernel)) (by decide)
theorem p10_10_P2_c2 : Covered (pcPF 2065 p10_10D p10_10Tab 2 57 10000000000) 0 3324 :=
  p10_10_P2_c1.trans (Covered.piece 633 p10_10_P2_2 (by decide +kernel)) (by decide)
theorem p10_10_P2_c3 : Covered (pcPF 2065 p10_10D p10_10Tab 2 57 10000000000) 0 4926 :=
  p10_10_P2_c2.trans (Covered.piece 801 p10_10_P2_3 (by decide +kernel)) (by decide)
theorem p10_10_phi2 (x : ℝ) (hx : x ≤ 0) (hx1 : -1 ≤ x) :
    |rVal p10_10D 0 (divTab p10_10D p10_10Tab 2) x - phi 2 x| ≤ (57 : ℕ) / (10000000000 : ℕ) + 1 / 10 ^ 23 :=
  phi_sound p10_10_side (by norm_num) (by norm_num) p10_10_P2_c3 x hx hx1

/-! ### `pade_12_12` -/

def p12_12D : ℤ := 100000000000000
def p12_12C0 : ℤ := 100000000000000
def p12_12Tab : List RTerm := [
  ⟨668604661560532, -2024859361448450, 54691182575248500, 68036069924345600, 1⟩,
  ⟨1065941718173550, -1610581372849050, 1613377341958010000, -2970188129163090000, 1⟩,
  ⟨1322200850000480, -1234306998614220, -35472840504343900000, 10751669993884300000, 1⟩,
  ⟨1493114248047600, -874033918662028, 175603924662652000000, 57789060367369100000, 1⟩,
  ⟨1599454119949280, -521813307392645, -334000394047559000000, -377334398690651000000, 1⟩,
  ⟨1650684402268560, -173538714406579, 192216841199923000000, 794549540651937000000, 1⟩]

theorem p12_12_side : sideTab p12_12D p12_12Tab = true := by decide +kernel
theorem p12_12_E_0 : pcE 1307 p12_12D p12_12C0 p12_12Tab 29 100000 528 528 = true := by decide +kernel
theorem p12_12_E_1 : pcE 1307 p12_12D p12_12C0 p12_12Tab 29 100000 1724 668 = true := by decide +kernel
theorem p12_12_E_2 : pcE 1307 p12_12D p12_12C0 p12_12Tab 29 100000 3025 633 = true := by decide +kernel
theorem p12_12_E_3 : pcE 1307 p12_12D p12_12C0 p12_12Tab 29 100000 4459 801 = true := by decide +kernel
theorem p12_12_E_c0 : Covered (pcE 1307 p12_12D p12_12C0 p12_12Tab 29 100000) 0 1056 :=
  Covered.piece 528 p12_12_E_0 (by decide +kernel)
theorem p12_12_E_c1 : Covered (pcE 1307 p12_12D p12_12C0 p12_12Tab 29 100000) 0 2392 :=
  p12_12_E_c0.trans (Covered.piece 668 p12_12_E_1 (by decide +kernel)) (by decide)
theorem p12_12_E_c2 : Covered (pcE 1307 p12_12D p12_12C0 p12_12Tab 29 100000) 0 3658 :=
  p12_12_E_c1.trans (Covered.piece 633 p12_12_E_2 (by decide +kernel)) (by decide)
theorem p12_12_E_c3 : Covered (pcE 1307 p12_12D p12_12C0 p12_12Tab 29 100000) 0 5260 :=
  p12_12_E_c2.trans (Covered.piece 801 p12_12_E_3 (by decide +kernel)) (by decide)
theorem p12_12_exp (x : ℝ) (hx : x ≤ 0) (hx1 : -1 ≤ x) :
    |rVal p12_12D p12_12C0 p12_12Tab x - Real.exp x| ≤ (29 : ℕ) / (100000 : ℕ) + 1 / 10 ^ 23 :=
  exp_near p12_12_side (by norm_num) (by norm_num) (by norm_num) p12_12_E_c3 x hx hx1
theorem p12_12_P1_0 : pcPF 1794 p12_12D p12_12Tab 1 21 1000000 528 528 = true := by decide +kernel
theorem p12_12_P1_1 : pcPF 1794 p12_12D p12_12Tab 1 21 1000000 1724 668 = true := by decide +kernel
theorem p12_12_P1_2 : pcPF 1794 p12_12D p12_12Tab 1 21 1000000 3025 633 = true := by decide +kernel
theorem p12_12_P1_3 : pcPF 1794 p12_12D p12_12Tab 1 21 1000000 4459 801 = true := by decide +kernel
theorem p12_12_P1_c0 : Covered (pcPF 1794 p12_12D p12_12Tab 1 21 1000000) 0 1056 :=
  Covered.piece 528 p12_12_P1_0 (by decide +kernel)
theorem p12_12_P1_c1 : Covered (pcPF 1794 p12_12D p12_12Tab 1 21 1000000) 0 2392 :=
  p12_12_P1_c0.trans (Covered.piece 668 p12_12_P1_1 (by decide +kernel)) (by decide)
theorem p12_12_P1_c2 : Covered (pcPF 1794 p12_12D p12_12Tab 1 21 1000000) 0 3658 :=
  p12_12_P1_c1.trans (Covered.piece 633 p12_12_P1_2 (by decide +kernel)) (by decide)
theorem p12_12_P1_c3 : Covered (pcPF 1794 p12_12D p12_12Tab 1 21 1000000) 0 5260 :=
  p12_12_P1_c2.trans (Covered.piece 801 p12_12_P1_3 (by decide +kernel)) (by decide)
theorem p12_12_phi1 (x : ℝ) (hx : x ≤ 0) (hx1 : -1 ≤ x) :
    |rVal p12_12D 0 (divTab p12_12D p12_12Tab 1) x - phi 1 x| ≤ (21 : ℕ) / (1000000 : ℕ) + 1 / 10 ^ 23 :=
  phi_sound p12_12_side (by norm_num) (by norm_num) p12_12_P1_c3 x hx hx1
theorem p12_12_P2_0 : pcPF 2403 p12_12D p12_12Tab 2 7 5000000 528 528 = true := by decide +kernel
theorem p12_12_P2_1 : pcPF 2403 p12_12D p12_12Tab 2 7 5000000 1724 668 = true := by decide +kernel
theorem p12_12_P2_2 : pcPF 2403 p12_12D p12_12Tab 2 7 5000000 3237 845 = true := by decide +kernel
theorem p12_12_P2_c0 : Covered (pcPF 2403 p12_12D p12_12Tab 2 7 5000000) 0 1056 :=
  Covered.piece 528 p12_12_P2_0 (by decide +kernel)
theorem p12_12_P2_c1 : Covered (pcPF 2403 p12_12D p12_12Tab 2 7 5000000) 0 2392 :=
  p12_12_P2_c0.trans (Covered.piece 668 p12_12_P2_1 (by decide +kernel)) (by decide)
theorem p12_12_P2_c2 : Covered (pcPF 2403 p12_12D p12_12Tab 2 7 5000000) 0 4082 :=
  p12_12_P2_c1.trans (Covered.piece 845 p12_12_P2_2 (by decide +kernel)) (by decide)
theorem p12_12_phi2 (x : ℝ) (hx : x ≤ 0) (hx1 : -1 ≤ x) :
    |rVal p12_12D 0 (divTab p12_12D p12_12Tab 2) x - phi 2 x| ≤ (7 : ℕ) / (5000000 : ℕ) + 1 / 10 ^ 23 :=
  phi_sound p12_12_side (by norm_num) (by norm_num) p12_12_P2_c2 x hx hx1

/-! ### `pade_14_14` -/

def p14_14D : ℤ := 100000000000000
def p14_14C0 : ℤ := 100000000000000
def p14_14Tab : List RTerm := [
  ⟨710217376676230, -2405147606450210, -136924413898026000, -29484207310323700, 1⟩,
  ⟨1144070476772630, -1978941519505040, 659319538601401000, 7792736802733290000, 1⟩,
  ⟨1434479192381030, -1594643470830660, 82484586911729500000, -87508826065508200000, 1⟩,
  ⟨1639769394105610, -1228608214229870, -828511843071903000000, 136992091801833000000, 1⟩,
  ⟨1782200111088490, -872320835790319, 3008470331954250000000, 1223384946313990000000, 1⟩,
  ⟨1872629170058150, -521510664988429, -4893776784685900000000, -5914465319450410000000, 1⟩,
  ⟨1916634278917840, -173542205224497, 2630832303224160000000, 11371166792789500000000, 1⟩]

theorem p14_14_side : sideTab p14_14D p14_14Tab = true := by decide +kernel
theorem p14_14_E_0 : pcE 1439 p14_14D p14_14C0 p14_14Tab 7 500 528 528 = true := by decide +kernel
theorem p14_14_E_1 : pcE 1439 p14_14D p14_14C0 p14_14Tab 7 500 1724 668 = true := by decide +kernel
theorem p14_14_E_2 : pcE 1439 p14_14D p14_14C0 p14_14Tab 7 500 3025 633 = true := by decide +kernel
theorem p14_14_E_3 : pcE 1439 p14_14D p14_14C0 p14_14Tab 7 500 4459 801 = true := by decide +kernel
theorem p14_14_E_c0 : Covered (pcE 1439 p14_14D p14_14C0 p14_14Tab 7 500) 0 1056 :=
  Covered.piece 528 p14_14_E_0 (by decide +kernel)
theorem p14_14_E_c1 : Covered (pcE 1439 p14_14D p14_14C0 p14_14Tab 7 500) 0 2392 :=
  p14_14_E_c0.trans (Covered.piece 668 p14_14_E_1 (by decide +kernel)) (by decide)
theorem p14_14_E_c2 : Covered (pcE 1439 p14_14D p14_14C0 p14_14Tab 7 500) 0 3658 :=
  p14_14_E_c1.trans (Covered.piece 633 p14_14_E_2 (by decide +kernel)) (by decide)
theorem p14_14_E_c3 : Covered (pcE 1439 p14_14D p14_14C0 p14_14Tab 7 500) 0 5260 :=
  p14_14_E_c2.trans (Covered.piece 801 p14_14_E_3 (by decide +kernel)) (by decide)
theorem p14_14_exp (x : ℝ) (hx : x ≤ 0) (hx1 : -1 ≤ x) :
    |rVal p14_14D p14_14C0 p14_14Tab x - Real.exp x| ≤ (7 : ℕ) / (500 : ℕ) + 1 / 10 ^ 23 :=
  exp_near p14_14_side (by norm_num) (by norm_num) (by norm_num) p14_14_E_c3 x hx hx1
theorem p14_14_P1_0 : pcPF 2030 p14_14D p14_14Tab 1 2 3125 396 396 = true := by decide +kernel
theorem p14_14_P1_1 : pcPF 2030 p14_14D p14_14Tab 1 2 3125 1293 501 = true := by decide +kernel
theorem p14_14_P1_2 : pcPF 2030 p14_14D p14_14Tab 1 2 3125 2268 474 = true := by decide +kernel
theorem p14_14_P1_3 : pcPF 2030 p14_14D p14_14Tab 1 2 3125 3341 599 = true := by decide +kernel
theorem p14_14_P1_4 : pcPF 2030 p14_14D p14_14Tab 1 2 3125 4507 567 = true := by decide +kernel
theorem p14_14_P1_c0 : Covered (pcPF 2030 p14_14D p14_14Tab 1 2 3125) 0 792 :=
  Covered.piece 396 p14_14_P1_0 (by decide +kernel)
theorem p14_14_P1_c1 : Covered (pcPF 2030 p14_14D p14_14Tab 1 2 3125) 0 1794 :=
  p14_14_P1_c0.trans (Covered.piece 501 p14_14_P1_1 (by decide +kernel)) (by decide)
theorem p14_14_P1_c2 : Covered (pcPF 2030 p14_14D p14_14Tab 1 2 3125) 0 2742 :=
  p14_14_P1_c1.trans (Covered.piece 474 p14_14_P1_2 (by decide +kernel)) (by decide)
theorem p14_14_P1_c3 : Covered (pcPF 2030 p14_14D p14_14Tab 1 2 3125) 0 3940 :=
  p14_14_P1_c2.trans (Covered.piece 599 p14_14_P1_3 (by decide +kernel)) (by decide)
theorem p14_14_P1_c4 : Covered (pcPF 2030 p14_14D p14_14Tab 1 2 3125) 0 5074 :=
  p14_14_P1_c3.trans (Covered.piece 567 p14_14_P1_4 (by decide +kernel)) (by decide)
theorem p14_14_phi1 (x : ℝ) (hx : x ≤ 0) (hx1 : -1 ≤ x) :
    |rVal p14_14D 0 (divTab p14_14D p14_14Tab 1) x - phi 1 x| ≤ (2 : ℕ) / (3125 : ℕ) + 1 / 10 ^ 23 :=
  phi_sound p14_14_side (by norm_num) (by norm_num) p14_14_P1_c4 x hx hx1
theorem p14_14_P2_0 : pcPF 2743 p14_14D p14_14Tab 2 1 40000 528 528 = true := by decide +kernel
theorem p14_14_P2_1 : pcPF 2743 p14_14D p14_14Tab 2 1 40000 1557 501 = true := by decide +kernel
theorem p14_14_P2_2 : pcPF 2743 p14_14D p14_14Tab 2 1 40000 2691 633 = true := by decide +kernel
theorem p14_14_P2_3 : pcPF 2743 p14_14D p14_14Tab 2 1 40000 3924 600 = true := by decide +kernel
theorem p14_14_P2_c0 : Covered (pcPF 2743 p14_14D p14_14Tab 2 1 40000) 0 1056 :=
  Covered.piece 528 p14_14_P2_0 (by decide +kernel)
theorem p14_14_P2_c1 : Covered (pcPF 2743 p14_14D p14_14Tab 2 1 40000) 0 2058 :=
  p14_14_P2_c0.trans (Covered.piece 501 p14_14_P2_1 (by decide +kernel)) (by decide)
theorem p14_14_P2_c2 : Covered (pcPF 2743 p14_14D p14_14Tab 2 1 40000) 0 3324 :=
  p14_14_P2_c1.trans (Covered.piece 633 p14_14_P2_2 (by decide +kernel)) (by decide)
theorem p14_14_P2_c3 : Covered (pcPF 2743 p14_14D p14_14Tab 2 1 40000) 0 4524 :=
  p14_14_P2_c2.trans (Covered.piece 600 p14_14_P2_3 (by decide +kernel)) (by decide)
theorem p14_14_phi2 (x : ℝ) (hx : x ≤ 0) (hx1 : -1 ≤ x) :
    |rVal p14_14D 0 (divTab p14_14D p14_14Tab 2) x - phi 2 x| ≤ (1 : ℕ) / (40000 : ℕ) + 1 / 10 ^ 23 :=
  phi_sound p14_14_side (by norm_num) (by norm_num) p14_14_P2_c3 x hx hx1

/-! ### `pade_16_16` -/

def p16_16D : ℤ := 100000000000000
def p16_16C0 : ℤ := 100000000000000
def p16_16Tab : List RTerm := [
  ⟨747846359434389, -2787005695164530, 190008725832969000, -99109856405379000, 1⟩,
  ⟨1214248276530800, -2349574987683700, -10434314255891400000, -12898920220802500000, 1⟩,
  ⟨1534648158468130, -1957539487592330, -76044670808222400000, 335225211392260000000, 1⟩,
  ⟨1769593638873480, -1585754571831050, 2553082441715250000000, -1954473054106870000000, 1⟩,
  ⟨1942465265130300, -1225152177284430, -16699937199858700000000, 1244326480048690000000, 1⟩,
  ⟨2065023926715950, -871232672952572, 49019401901302800000000, 22818710548226600000000, 1⟩,
  ⟨2143797154205980, -521313415919739, -71051510889330100000000, -90357103848738300000000, 1⟩,
  ⟨2182377220640980, -173544479521009, 36265295333327200000000, 162341769071525000000000, 1⟩]

theorem p16_16_side : sideTab p16_16D p16_16Tab = true := by decide +kernel
theorem p16_16_E_0 : pcE 1571 p16_16D p16_16C0 p16_16Tab 19 1 528 528 = true := by decide +kernel
theorem p16_16_E_1 : pcE 1571 p16_16D p16_16C0 p16_16Tab 19 1 1724 668 = true := by decide +kernel
theorem p16_16_E_2 : pcE 1571 p16_16D p16_16C0 p16_16Tab 19 1 3025 633 = true := by decide +kernel
theorem p16_16_E_3 : pcE 1571 p16_16D p16_16C0 p16_16Tab 19 1 4459 801 = true := by decide +kernel
theorem p16_16_E_c0 : Covered (pcE 1571 p16_16D p16_16C0 p16_16Tab 19 1) 0 1056 :=
  Covered.piece 528 p16_16_E_0 (by decide +kernel)
theorem p16_16_E_c1 : Covered (pcE 1571 p16_16D p16_16C0 p16_16Tab 19 1) 0 2392 :=
  p16_16_E_c0.trans (Covered.piece 668 p16_16_E_1 (by decide +kernel)) (by decide)
theorem p16_16_E_c2 : Covered (pcE 1571 p16_16D p16_16C0 p16_16Tab 19 1) 0 3658 :=
  p16_16_E_c1.trans (Covered.piece 633 p16_16_E_2 (by decide +kernel)) (by decide)
theorem p16_16_E_c3 : Covered (pcE 1571 p16_16D p16_16C0 p16_16Tab 19 1) 0 5260 :=
  p16_16_E_c2.trans (Covered.piece 801 p16_16_E_3 (by decide +kernel)) (by decide)
theorem p16_16_exp (x : ℝ) (hx : x ≤ 0) (hx1 : -1 ≤ x) :
    |rVal p16_16D p16_16C0 p16_16Tab x - Real.exp x| ≤ (19 : ℕ) / (1 : ℕ) + 1 / 10 ^ 23 :=
  exp_near p16_16_side (by norm_num) (by norm_num) (by norm_num) p16_16_E_c3 x hx hx1
theorem p16_16_P1_0 : pcPF 2268 p16_16D p16_16Tab 1 19 20 396 396 = true := by decide +kernel
theorem p16_16_P1_1 : pcPF 2268 p16_16D p16_16Tab 1 19 20 1293 501 = true := by decide +kernel
theorem p16_16_P1_2 : pcPF 2268 p16_16D p16_16Tab 1 19 20 2268 474 = true := by decide +kernel
theorem p16_16_P1_3 : pcPF 2268 p16_16D p16_16Tab 1 19 20 3341 599 = true := by decide +kernel
theorem p16_16_P1_4 : pcPF 2268 p16_16D p16_16Tab 1 19 20 4507 567 = true := by decide +kernel
theorem p16_16_P1_c0 : Covered (pcPF 2268 p16_16D p16_16Tab 1 19 20) 0 792 :=
  Covered.piece 396 p16_16_P1_0 (by decide +kernel)
theorem p16_16_P1_c1 : Covered (pcPF 2268 p16_16D p16_16Tab 1 19 20) 0 1794 :=
  p16_16_P1_c0.trans (Covered.piece 501 p16_16_P1_1 (by decide +kernel)) (by decide)
theorem p16_16_P1_c2 : Covered (pcPF 2268 p16_16D p16_16Tab 1 19 20) 0 2742 :=
  p16_16_P1_c1.trans (Covered.piece 474 p16_16_P1_2 (by decide +kernel)) (by decide)
theorem p16_16_P1_c3 : Covered (pcPF 2268 p16_16D p16_16Tab 1 19 20) 0 3940 :=
  p16_16_P1_c2.trans (Covered.piece 599 p16_16_P1_3 (by decide +kernel)) (by decide)
theorem p16_16_P1_c4 : Covered (pcPF 2268 p16_16D p16_16Tab 1 19 20) 0 5074 :=
  p16_16_P1_c3.trans (Covered.piece 567 p16_16_P1_4 (by decide +kernel)) (by decide)
theorem p16_16_phi1 (x : ℝ) (hx : x ≤ 0) (hx1 : -1 ≤ x) :
    |rVal p16_16D 0 (divTab p16_16D p16_16Tab 1) x - phi 1 x| ≤ (19 : ℕ) / (20 : ℕ) + 1 / 10 ^ 23 :=
  phi_sound p16_16_side (by norm_num) (by norm_num) p16_16_P1_c4 x hx hx1
theorem p16_16_P2_0 : pcPF 3083 p16_16D p16_16Tab 2 6 125 528 528 = true := by decide +kernel
theorem p16_16_P2_1 : pcPF 3083 p16_16D p16_16Tab 2 6 125 1557 501 = true := by decide +kernel
theorem p16_16_P2_2 : pcPF 3083 p16_16D p16_16Tab 2 6 125 2691 633 = true := by decide +kernel
theorem p16_16_P2_3 : pcPF 3083 p16_16D p16_16Tab 2 6 125 3924 600 = true := by decide +kernel
theorem p16_16_P2_c0 : Covered (pcPF 3083 p16_16D p16_16Tab 2 6 125) 0 1056 :=
  Covered.piece 528 p16_16_P2_0 (by decide +kernel)
theorem p16_16_P2_c1 : Covered (pcPF 3083 p16_16D p16_16Tab 2 6 125) 0 2058 :=
  p16_16_P2_c0.trans (Covered.piece 501 p16_16_P2_1 (by decide +kernel)) (by decide)
theorem p16_16_P2_c2 : Covered (pcPF 3083 p16_16D p16_16Tab 2 6 125) 0 3324 :=
  p16_16_P2_c1.trans (Covered.piece 633 p16_16_P2_2 (by decide +kernel)) (by decide)
theorem p16_16_P2_c3 : Covered (pcPF 3083 p16_16D p16_16Tab 2 6 125) 0 4524 :=
  p16_16_P2_c2.trans (Covered.piece 600 p16_16_P2_3 (by decide +kernel)) (by decide)
theorem p16_16_phi2 (x : ℝ) (hx : x ≤ 0) (hx1 : -1 ≤ x) :
    |rVal p16_16D 0 (divTab p16_16D p16_16Tab 2) x - phi 2 x| ≤ (6 : ℕ) / (125 : ℕ) + 1 / 10 ^ 23 :=
  phi_sound p16_16_side (by norm_num) (by norm_num) p16_16_P2_c3 x hx hx1

/-! ### `pade_1_2` -/

def p1_2D : ℤ := 100000000000000
def p1_2C0 : ℤ := 0
def p1_2Tab : List RTerm := [
  ⟨200000000000000, -141421356237309, 100000000000000, 353553390593274, 1⟩]

theorem p1_2_side : sideTab p1_2D p1_2Tab = true := by decide +kernel
theorem p1_2_E_0 : pcE 655 p1_2D p1_2C0 p1_2Tab 3 625 1674 1674 = true := by decide +kernel
theorem p1_2_E_1 : pcE 655 p1_2D p1_2C0 p1_2Tab 3 625 3645 297 = true := by decide +kernel
theorem p1_2_E_2 : pcE 655 p1_2D p1_2C0 p1_2Tab 3 625 4007 65 = true := by decide +kernel
theorem p1_2_E_c0 : Covered (pcE 655 p1_2D p1_2C0 p1_2Tab 3 625) 0 3348 :=
  Covered.piece 1674 p1_2_E_0 (by decide +kernel)
theorem p1_2_E_c1 : Covered (pcE 655 p1_2D p1_2C0 p1_2Tab 3 625) 0 3942 :=
  p1_2_E_c0.trans (Covered.piece 297 p1_2_E_1 (by decide +kernel)) (by decide)
theorem p1_2_E_c2 : Covered (pcE 655 p1_2D p1_2C0 p1_2Tab 3 625) 0 4072 :=
  p1_2_E_c1.trans (Covered.piece 65 p1_2_E_2 (by decide +kernel)) (by decide)
theorem p1_2_exp (x : ℝ) (hx : x ≤ 0) (hx1 : -1 ≤ x) :
    |rVal p1_2D p1_2C0 p1_2Tab x - Real.exp x| ≤ (3 : ℕ) / (625 : ℕ) + 1 / 10 ^ 23 :=
  exp_near p1_2_side (by norm_num) (by norm_num) (by norm_num) p1_2_E_c2 x hx hx1
theorem p1_2_P1_0 : pcPF 637 p1_2D p1_2Tab 1 3 625 1255 1255 = true := by decide +kernel
theorem p1_2_P1_1 : pcPF 637 p1_2D p1_2Tab 1 3 625 3038 528 = true := by decide +kernel
theorem p1_2_P1_2 : pcPF 637 p1_2D p1_2Tab 1 3 625 3776 210 = true := by decide +kernel
theorem p1_2_P1_c0 : Covered (pcPF 637 p1_2D p1_2Tab 1 3 625) 0 2510 :=
  Covered.piece 1255 p1_2_P1_0 (by decide +kernel)
theorem p1_2_P1_c1 : Covered (pcPF 637 p1_2D p1_2Tab 1 3 625) 0 3566 :=
  p1_2_P1_c0.trans (Covered.piece 528 p1_2_P1_1 (by decide +kernel)) (by decide)
theorem p1_2_P1_c2 : Covered (pcPF 637 p1_2D p1_2Tab 1 3 625) 0 3986 :=
  p1_2_P1_c1.trans (Covered.piece 210 p1_2_P1_2 (by decide +kernel)) (by decide)
theorem p1_2_phi1 (x : ℝ) (hx : x ≤ 0) (hx1 : -1 ≤ x) :
    |rVal p1_2D 0 (divTab p1_2D p1_2Tab 1) x - phi 1 x| ≤ (3 : ℕ) / (625 : ℕ) + 1 / 10 ^ 23 :=
  phi_sound p1_2_side (by norm_num) (by norm_num) p1_2_P1_c2 x hx hx1
theorem p1_2_P2_0 : pcPF 736 p1_2D p1_2Tab 2 3 625 1255 1255 = true := by decide +kernel
theorem p1_2_P2_1 : pcPF 736 p1_2D p1_2Tab 2 3 625 3038 528 = true := by decide +kernel
theorem p1_2_P2_2 : pcPF 736 p1_2D p1_2Tab 2 3 625 3847 281 = true := by decide +kernel
theorem p1_2_P2_c0 : Covered (pcPF 736 p1_2D p1_2Tab 2 3 625) 0 2510 :=
  Covered.piece 1255 p1_2_P2_0 (by decide +kernel)
theorem p1_2_P2_c1 : Covered (pcPF 736 p1_2D p1_2Tab 2 3 625) 0 3566 :=
  p1_2_P2_c0.trans (Covered.piece 528 p1_2_P2_1 (by decide +kernel)) (by decide)
theorem p1_2_P2_c2 : Covered (pcPF 736 p1_2D p1_2Tab 2 3 625) 0 4128 :=
  p1_2_P2_c1.trans (Covered.piece 281 p1_2_P2_2 (by decide +kernel)) (by decide)
theorem p1_2_phi2 (x : ℝ) (hx : x ≤ 0) (hx1 : -1 ≤ x) :
    |rVal p1_2D 0 (divTab p1_2D p1_2Tab 2) x - phi 2 x| ≤ (3 : ℕ) / (625 : ℕ) + 1 / 10 ^ 23 :=
  phi_sound p1_2_side (by norm_num) (by norm_num) p1_2_P2_c2 x hx hx1

/-! ### `pade_3_4` -/

def p3_4D : ℤ := 100000000000000
def p3_4C0 : ℤ := 0
def p3_4Tab : List RTerm := [
  ⟨321280689687153, -477308743327664, -1130153999597150, -1247167585025030, 1⟩,
  ⟨478719310312847, -156747641689521, 1330153999597160, 6007173273704740, 1⟩]

theorem p3_4_side : sideTab p3_4D p3_4Tab = true := by decide +kernel
theorem p3_4_E_0 : pcE 781 p3_4D p3_4C0 p3_4Tab 27 100000000 1674 1674 = true := by decide +kernel
theorem p3_4_E_1 : pcE 781 p3_4D p3_4C0 p3_4Tab 27 100000000 3645 297 = true := by decide +kernel
theorem p3_4_E_2 : pcE 781 p3_4D p3_4C0 p3_4Tab 27 100000000 3978 36 = true := by decide +kernel
theorem p3_4_E_c0 : Covered (pcE 781 p3_4D p3_4C0 p3_4Tab 27 100000000) 0 3348 :=
  Covered.piece 1674 p3_4_E_0 (by decide +kernel)
theorem p3_4_E_c1 : Covered (pcE 781 p3_4D p3_4C0 p3_4Tab 27 100000000) 0 3942 :=
  p3_4_E_c0.trans (Covered.piece 297 p3_4_E_1 (by decide +kernel)) (by decide)
theorem p3_4_E_c2 : Covered (pcE 781 p3_4D p3_4C0 p3_4Tab 27 100000000) 0 4014 :=
  p3_4_E_c1.trans (Covered.piece 36 p3_4_E_2 (by decide +kernel)) (by decide)
theorem p3_4_exp (x : ℝ) (hx : x ≤ 0) (hx1 : -1 ≤ x) :
    |rVal p3_4D p3_4C0 p3_4Tab x - Real.exp x| ≤ (27 : ℕ) / (100000000 : ℕ) + 1 / 10 ^ 23 :=
  exp_near p3_4_side (by norm_num) (by norm_num) (by norm_num) p3_4_E_c2 x hx hx1
theorem p3_4_P1_0 : pcPF 862 p3_4D p3_4Tab 1 27 100000000 1674 1674 = true := by decide +kernel
theorem p3_4_P1_1 : pcPF 862 p3_4D p3_4Tab 1 27 100000000 3645 297 = true := by decide +kernel
theorem p3_4_P1_2 : pcPF 862 p3_4D p3_4Tab 1 27 100000000 3990 48 = true := by decide +kernel
theorem p3_4_P1_c0 : Covered (pcPF 862 p3_4D p3_4Tab 1 27 100000000) 0 3348 :=
  Covered.piece 1674 p3_4_P1_0 (by decide +kernel)
theorem p3_4_P1_c1 : Covered (pcPF 862 p3_4D p3_4Tab 1 27 100000000) 0 3942 :=
  p3_4_P1_c0.trans (Covered.piece 297 p3_4_P1_1 (by decide +kernel)) (by decide)
theorem p3_4_P1_c2 : Covered (pcPF 862 p3_4D p3_4Tab 1 27 100000000) 0 4038 :=
  p3_4_P1_c1.trans (Covered.piece 48 p3_4_P1_2 (by decide +kernel)) (by decide)
theorem p3_4_phi1 (x : ℝ) (hx : x ≤ 0) (hx1 : -1 ≤ x) :
    |rVal p3_4D 0 (divTab p3_4D p3_4Tab 1) x - phi 1 x| ≤ (27 : ℕ) / (100000000 : ℕ) + 1 / 10 ^ 23 :=
  phi_sound p3_4_side (by norm_num) (by norm_num) p3_4_P1_c2 x hx hx1
theorem p3_4_P2_0 : pcPF 1061 p3_4D p3_4Tab 2 27 100000000 1674 1674 = true := by decide +kernel
theorem p3_4_P2_1 : pcPF 1061 p3_4D p3_4Tab 2 27 100000000 3645 297 = true := by decide +kernel
theorem p3_4_P2_2 : pcPF 1061 p3_4D p3_4Tab 2 27 100000000 3990 48 = true := by decide +kernel
theorem p3_4_P2_c0 : Covered (pcPF 1061 p3_4D p3_4Tab 2 27 100000000) 0 3348 :=
  Covered.piece 1674 p3_4_P2_0 (by decide +kernel)
theorem p3_4_P2_c1 : Covered (pcPF 1061 p3_4D p3_4Tab 2 27 100000000) 0 3942 :=
  p3_4_P2_c0.trans (Covered.piece 297 p3_4_P2_1 (by decide +kernel)) (by decide)
theorem p3_4_P2_c2 : Covered (pcPF 1061 p3_4D p3_4Tab 2 27 100000000) 0 4038 :=
  p3_4_P2_c1.trans (Covered.piece 48 p3_4_P2_2 (by decide +kernel)) (by decide)
theorem p3_4_phi2 (x : ℝ) (hx : x ≤ 0) (hx1 : -1 ≤ x) :
    |rVal p3_4D 0 (divTab p3_4D p3_4Tab 2) x - phi 2 x| ≤ (27 : ℕ) / (100000000 : ℕ) + 1 / 10 ^ 23 :=
  phi_sound p3_4_side (by norm_num) (by norm_num) p3_4_P2_c2 x hx hx1

/-! ### `pade_5_6` -/

def p5_6D : ℤ := 100000000000000
def p5_6C0 : ℤ := 0
def p5_6Tab : List RTerm := [
  ⟨403884753448880, -834560041487222, 4351553303607370, 1401530621564040, 1⟩,
  ⟨647051493670153, -490012114742143, -22606041189361400, -30510335904504200, 1⟩,
  ⟨749063752880966, -162150238877822, 18554487885754600, 91779236486386900, 1⟩]

theorem p5_6_side : sideTab p5_6D p5_6Tab = true := by decide +kernel
theorem p5_6_E_0 : pcE 908 p5_6D p5_6C0 p5_6Tab 37 10000000000000 1674 1674 = true := by decide +kernel
theorem p5_6_E_1 : pcE 908 p5_6D p5_6C0 p5_6Tab 37 10000000000000 3645 297 = true := by decide +kernel
theorem p5_6_E_2 : pcE 908 p5_6D p5_6C0 p5_6Tab 37 10000000000000 3990 48 = true := by decide +kernel
theorem p5_6_E_c0 : Covered (pcE 908 p5_6D p5_6C0 p5_6Tab 37 10000000000000) 0 3348 :=
  Covered.piece 1674 p5_6_E_0 (by decide +kernel)
theorem p5_6_E_c1 : Covered (pcE 908 p5_6D p5_6C0 p5_6Tab 37 10000000000000) 0 3942 :=
  p5_6_E_c0.trans (Covered.piece 297 p5_6_E_1 (by decide +kernel)) (by decide)
theorem p5_6_E_c2 : Covered (pcE 908 p5_6D p5_6C0 p5_6Tab 37 10000000000000) 0 4038 :=
  p5_6_E_c1.trans (Covered.piece 48 p5_6_E_2 (by decide +kernel)) (by decide)
theorem p5_6_exp (x : ℝ) (hx : x ≤ 0) (hx1 : -1 ≤ x) :
    |rVal p5_6D p5_6C0 p5_6Tab x - Real.exp x| ≤ (37 : ℕ) / (10000000000000 : ℕ) + 1 / 10 ^ 23 :=
  exp_near p5_6_side (by norm_num) (by norm_num) (by norm_num) p5_6_E_c2 x hx hx1
theorem p5_6_P1_0 : pcPF 1091 p5_6D p5_6Tab 1 1 625000000000 1674 1674 = true := by decide +kernel
theorem p5_6_P1_1 : pcPF 1091 p5_6D p5_6Tab 1 1 625000000000 3645 297 = true := by decide +kernel
theorem p5_6_P1_2 : pcPF 1091 p5_6D p5_6Tab 1 1 625000000000 3978 36 = true := by decide +kernel
theorem p5_6_P1_c0 : Covered (pcPF 1091 p5_6D p5_6Tab 1 1 625000000000) 0 3348 :=
  Covered.piece 1674 p5_6_P1_0 (by decide +kernel)
theorem p5_6_P1_c1 : Covered (pcPF 1091 p5_6D p5_6Tab 1 1 625000000000) 0 3942 :=
  p5_6_P1_c0.trans (Covered.piece 297 p5_6_P1_1 (by decide +kernel)) (by decide)
theorem p5_6_P1_c2 : Covered (pcPF 1091 p5_6D p5_6Tab 1 1 625000000000) 0 4014 :=
  p5_6_P1_c1.trans (Covered.piece 36 p5_6_P1_2 (by decide +kernel)) (by decide)
theorem p5_6_phi1 (x : ℝ) (hx : x ≤ 0) (hx1 : -1 ≤ x) :
    |rVal p5_6D 0 (divTab p5_6D p5_6Tab 1) x - phi 1 x| ≤ (1 : ℕ) / (625000000000 : ℕ) + 1 / 10 ^ 23 :=
  phi_sound p5_6_side (by norm_num) (by norm_num) p5_6_P1_c2 x hx hx1
theorem p5_6_P2_0 : pcPF 1391 p5_6D p5_6Tab 2 9 5000000000000 1674 1674 = true := by decide +kernel
theorem p5_6_P2_1 : pcPF 1391 p5_6D p5_6Tab 2 9 5000000000000 3645 297 = true := by decide +kernel
theorem p5_6_P2_2 : pcPF 1391 p5_6D p5_6Tab 2 9 5000000000000 3978 36 = true := by decide +kernel
theorem p5_6_P2_c0 : Covered (pcPF 1391 p5_6D p5_6Tab 2 9 5000000000000) 0 3348 :=
  Covered.piece 1674 p5_6_P2_0 (by decide +kernel)
theorem p5_6_P2_c1 : Covered (pcPF 1391 p5_6D p5_6Tab 2 9 5000000000000) 0 3942 :=
  p5_6_P2_c0.trans (Covered.piece 297 p5_6_P2_1 (by decide +kernel)) (by decide)
theorem p5_6_P2_c2 : Covered (pcPF 1391 p5_6D p5_6Tab 2 9 5000000000000) 0 4014 :=
  p5_6_P2_c1.trans (Covered.piece 36 p5_6_P2_2 (by decide +kernel)) (by decide)
theorem p5_6_phi2 (x : ℝ) (hx : x ≤ 0) (hx1 : -1 ≤ x) :
    |rVal p5_6D 0 (divTab p5_6D p5_6Tab 2) x - phi 2 x| ≤ (9 : ℕ) / (5000000000000 : ℕ) + 1 / 10 ^ 23 :=
  phi_sound p5_6_side (by norm_num) (by norm_num) p5_6_P2_c2 x hx hx1

/-! ### `pade_7_8` -/

def p7_8D : ℤ := 100000000000000
def p7_8C0 : ℤ := 0
def p7_8Tab : List RTerm := [
  ⟨468549463282126, -1201057859981400, -9494116889077490, 2547666248178570, 1⟩,
  ⟨773868814683028, -837087930623761, 133486473746002000, 70243101049878800, 1⟩,
  ⟨940637121369067, -496921728762378, -384854441543743000, -569031543380038000, 1⟩,
  ⟨1016944600665780, -164920179682108, 261262084686885000, 1354906014744200000, 1⟩]

theorem p7_8_side : sideTab p7_8D p7_8Tab = true := by decide +kernel
theorem p7_8_E_0 : pcE 1040 p7_8D p7_8C0 p7_8Tab 57 1000000000000 528 528 = true := by decide +kernel
theorem p7_8_E_1 : pcE 1040 p7_8D p7_8C0 p7_8Tab 57 1000000000000 1947 891 = true := by decide +kernel
theorem p7_8_E_2 : pcE 1040 p7_8D p7_8C0 p7_8Tab 57 1000000000000 3965 1127 = true := by decide +kernel
theorem p7_8_E_c0 : Covered (pcE 1040 p7_8D p7_8C0 p7_8Tab 57 1000000000000) 0 1056 :=
  Covered.piece 528 p7_8_E_0 (by decide +kernel)
theorem p7_8_E_c1 : Covered (pcE 1040 p7_8D p7_8C0 p7_8Tab 57 1000000000000) 0 2838 :=
  p7_8_E_c0.trans (Covered.piece 891 p7_8_E_1 (by decide +kernel)) (by decide)
theorem p7_8_E_c2 : Covered (pcE 1040 p7_8D p7_8C0 p7_8Tab 57 1000000000000) 0 5092 :=
  p7_8_E_c1.trans (Covered.piece 1127 p7_8_E_2 (by decide +kernel)) (by decide)
theorem p7_8_exp (x : ℝ) (hx : x ≤ 0) (hx1 : -1 ≤ x) :
    |rVal p7_8D p7_8C0 p7_8Tab x - Real.exp x| ≤ (57 : ℕ) / (1000000000000 : ℕ) + 1 / 10 ^ 23 :=
  exp_near p7_8_side (by norm_num) (by norm_num) (by norm_num) p7_8_E_c2 x hx hx1
theorem p7_8_P1_0 : pcPF 1322 p7_8D p7_8Tab 1 11 1000000000000 528 528 = true := by decide +kernel
theorem p7_8_P1_1 : pcPF 1322 p7_8D p7_8Tab 1 11 1000000000000 1557 501 = true := by decide +kernel
theorem p7_8_P1_2 : pcPF 1322 p7_8D p7_8Tab 1 11 1000000000000 2691 633 = true := by decide +kernel
theorem p7_8_P1_3 : pcPF 1322 p7_8D p7_8Tab 1 11 1000000000000 3924 600 = true := by decide +kernel
theorem p7_8_P1_c0 : Covered (pcPF 1322 p7_8D p7_8Tab 1 11 1000000000000) 0 1056 :=
  Covered.piece 528 p7_8_P1_0 (by decide +kernel)
theorem p7_8_P1_c1 : Covered (pcPF 1322 p7_8D p7_8Tab 1 11 1000000000000) 0 2058 :=
  p7_8_P1_c0.trans (Covered.piece 501 p7_8_P1_1 (by decide +kernel)) (by decide)
theorem p7_8_P1_c2 : Covered (pcPF 1322 p7_8D p7_8Tab 1 11 1000000000000) 0 3324 :=
  p7_8_P1_c1.trans (Covered.piece 633 p7_8_P1_2 (by decide +kernel)) (by decide)
theorem p7_8_P1_c3 : Covered (pcPF 1322 p7_8D p7_8Tab 1 11 1000000000000) 0 4524 :=
  p7_8_P1_c2.trans (Covered.piece 600 p7_8_P1_3 (by decide +kernel)) (by decide)
theorem p7_8_phi1 (x : ℝ) (hx : x ≤ 0) (hx1 : -1 ≤ x) :
    |rVal p7_8D 0 (divTab p7_8D p7_8Tab 1) x - phi 1 x| ≤ (11 : ℕ) / (1000000000000 : ℕ) + 1 / 10 ^ 23 :=
  phi_sound p7_8_side (by norm_num) (by norm_num) p7_8_P1_c3 x hx hx1
theorem p7_8_P2_0 : pcPF 1725 p7_8D p7_8Tab 2 3 25000000000000 1255 1255 = true := by decide +kernel
theorem p7_8_P2_1 : pcPF 1725 p7_8D p7_8Tab 2 3 25000000000000 3451 941 = true := by decide +kernel
theorem p7_8_P2_c0 : Covered (pcPF 1725 p7_8D p7_8Tab 2 3 25000000000000) 0 2510 :=
  Covered.piece 1255 p7_8_P2_0 (by decide +kernel)
theorem p7_8_P2_c1 : Covered (pcPF 1725 p7_8D p7_8Tab 2 3 25000000000000) 0 4392 :=
  p7_8_P2_c0.trans (Covered.piece 941 p7_8_P2_1 (by decide +kernel)) (by decide)
theorem p7_8_phi2 (x : ℝ) (hx : x ≤ 0) (hx1 : -1 ≤ x) :
    |rVal p7_8D 0 (divTab p7_8D p7_8Tab 2) x - phi 2 x| ≤ (3 : ℕ) / (25000000000000 : ℕ) + 1 / 10 ^ 23 :=
  phi_sound p7_8_side (by norm_num) (by norm_num) p7_8_P2_c1 x hx hx1

/-! ### `pade_9_10` -/

def p9_10D : ℤ := 100000000000000
def p9_10C0 : ℤ := 0
def p9_10Tab : List RTerm := [
  ⟨522545336734417, -1572952904563890, 11874140189998900, -14130369232167900, 1⟩,
  ⟨877643464008579, -1192185389830260, -465536084639950000, -190177301373340, 1⟩,
  ⟨1093430343058640, -840967299600432, 2891657227002810000, 1816918510034420000, 1⟩,
  ⟨1222613148418690, -501271926366086, -6127699970768060000, -9540859890730730000, 1⟩,
  ⟨1283767707779680, -166606258419856, 3690204687695660000, 19699046352893700000, 1⟩]

theorem p9_10_side : sideTab p9_10D p9_10Tab = true := by decide +kernel
theorem p9_10_E_0 : pcE 1171 p9_10D p9_10C0 p9_10Tab 11 10000000 705 705 = true := by decide +kernel
theorem p9_10_E_1 : pcE 1171 p9_10D p9_10C0 p9_10Tab 11 10000000 2301 891 = true := by decide +kernel
theorem p9_10_E_2 : pcE 1171 p9_10D p9_10C0 p9_10Tab 11 10000000 4037 845 = true := by decide +kernel
theorem p9_10_E_c0 : Covered (pcE 1171 p9_10D p9_10C0 p9_10Tab 11 10000000) 0 1410 :=
  Covered.piece 705 p9_10_E_0 (by decide +kernel)
theorem p9_10_E_c1 : Covered (pcE 1171 p9_10D p9_10C0 p9_10Tab 11 10000000) 0 3192 :=
  p9_10_E_c0.trans (Covered.piece 891 p9_10_E_1 (by decide +kernel)) (by decide)
theorem p9_10_E_c2 : Covered (pcE 1171 p9_10D p9_10C0 p9_10Tab 11 10000000) 0 4882 :=
  p9_10_E_c1.trans (Covered.piece 845 p9_10_E_2 (by decide +kernel)) (by decide)
theorem p9_10_exp (x : ℝ) (hx : x ≤ 0) (hx1 : -1 ≤ x) :
    |rVal p9_10D p9_10C0 p9_10Tab x - Real.exp x| ≤ (11 : ℕ) / (10000000 : ℕ) + 1 / 10 ^ 23 :=
  exp_near p9_10_side (by norm_num) (by norm_num) (by norm_num) p9_10_E_c2 x hx hx1
theorem p9_10_P1_0 : pcPF 1555 p9_10D p9_10Tab 1 83 1000000000 396 396 = true := by decide +kernel
theorem p9_10_P1_1 : pcPF 1555 p9_10D p9_10Tab 1 83 1000000000 1293 501 = true := by decide +kernel
theorem p9_10_P1_2 : pcPF 1555 p9_10D p9_10Tab 1 83 1000000000 2427 633 = true := by decide +kernel
theorem p9_10_P1_3 : pcPF 1555 p9_10D p9_10Tab 1 83 1000000000 3660 600 = true := by decide +kernel
theorem p9_10_P1_c0 : Covered (pcPF 1555 p9_10D p9_10Tab 1 83 1000000000) 0 792 :=
  Covered.piece 396 p9_10_P1_0 (by decide +kernel)
theorem p9_10_P1_c1 : Covered (pcPF 1555 p9_10D p9_10Tab 1 83 1000000000) 0 1794 :=
  p9_10_P1_c0.trans (Covered.piece 501 p9_10_P1_1 (by decide +kernel)) (by decide)
theorem p9_10_P1_c2 : Covered (pcPF 1555 p9_10D p9_10Tab 1 83 1000000000) 0 3060 :=
  p9_10_P1_c1.trans (Covered.piece 633 p9_10_P1_2 (by decide +kernel)) (by decide)
theorem p9_10_P1_c3 : Covered (pcPF 1555 p9_10D p9_10Tab 1 83 1000000000) 0 4260 :=
  p9_10_P1_c2.trans (Covered.piece 600 p9_10_P1_3 (by decide +kernel)) (by decide)
theorem p9_10_phi1 (x : ℝ) (hx : x ≤ 0) (hx1 : -1 ≤ x) :
    |rVal p9_10D 0 (divTab p9_10D p9_10Tab 1) x - phi 1 x| ≤ (83 : ℕ) / (1000000000 : ℕ) + 1 / 10 ^ 23 :=
  phi_sound p9_10_side (by norm_num) (by norm_num) p9_10_P1_c3 x hx hx1
theorem p9_10_P2_0 : pcPF 2061 p9_10D p9_10Tab 2 13 2000000000 528 528 = true := by decide +kernel
theorem p9_10_P2_1 : pcPF 2061 p9_10D p9_10Tab 2 13 2000000000 1557 501 = true := by decide +kernel
theorem p9_10_P2_2 : pcPF 2061 p9_10D p9_10Tab 2 13 2000000000 2691 633 = true := by decide +kernel
theorem p9_10_P2_3 : pcPF 2061 p9_10D p9_10Tab 2 13 2000000000 3924 600 = true := by decide +kernel
theorem p9_10_P2_c0 : Covered (pcPF 2061 p9_10D p9_10Tab 2 13 2000000000) 0 1056 :=
  Covered.piece 528 p9_10_P2_0 (by decide +kernel)
theorem p9_10_P2_c1 : Covered (pcPF 2061 p9_10D p9_10Tab 2 13 2000000000) 0 2058 :=
  p9_10_P2_c0.trans (Covered.piece 501 p9_10_P2_1 (by decide +kernel)) (by decide)
theorem p9_10_P2_c2 : Covered (pcPF 2061 p9_10D p9_10Tab 2 13 2000000000) 0 3324 :=
  p9_10_P2_c1.trans (Covered.piece 633 p9_10_P2_2 (by decide +kernel)) (by decide)
theorem p9_10_P2_c3 : Covered (pcPF 2061 p9_10D p9_10Tab 2 13 2000000000) 0 4524 :=
  p9_10_P2_c2.trans (Covered.piece 600 p9_10_P2_3 (by decide +kernel)) (by decide)
theorem p9_10_phi2 (x : ℝ) (hx : x ≤ 0) (hx1 : -1 ≤ x) :
    |rVal p9_10D 0 (divTab p9_10D p9_10Tab 2) x - phi 2 x| ≤ (13 : ℕ) / (2000000000 : ℕ) + 1 / 10 ^ 23 :=
  phi_sound p9_10_side (by norm_num) (by norm_num) p9_10_P2_c3 x hx hx1

/-! ### `pade_11_12` -/

def p11_12D : ℤ := 100000000000000
def p11_12C0 : ℤ := 0
def p11_12Tab : List RTerm := [
  ⟨569357760582991, -1948462936829760, -1977041708471330, 31622617553636400, 1⟩,
  ⟨966460291604750, -1552698872597260, 1060119866547800000, -599471349030070000, 1⟩,
  ⟨1222322798009810, -1191337085382690, -13163021573483500000, -1580244636080020000, 1⟩,
  ⟨1392872030467000, -844249696597909, 54087591562745500000, 37347094606709000000, 1⟩,
  ⟨1498947208497450, -504267301327654, -94173318460520700000, -151555073365930000000, 1⟩,
  ⟨1550039910837990, -167740907543385, 52191205686081000000, 284094757356084000000, 1⟩]

theorem p11_12_side : sideTab p11_12D p11_12Tab = true := by decide +kernel
theorem p11_12_E_0 : pcE 1303 p11_12D p11_12C0 p11_12Tab 11 200000 396 396 = true := by decide +kernel
theorem p11_12_E_1 : pcE 1303 p11_12D p11_12C0 p11_12Tab 11 200000 1293 501 = true := by decide +kernel
theorem p11_12_E_2 : pcE 1303 p11_12D p11_12C0 p11_12Tab 11 200000 2268 474 = true := by decide +kernel
theorem p11_12_E_3 : pcE 1303 p11_12D p11_12C0 p11_12Tab 11 200000 3341 599 = true := by decide +kernel
theorem p11_12_E_4 : pcE 1303 p11_12D p11_12C0 p11_12Tab 11 200000 4507 567 = true := by decide +kernel
theorem p11_12_E_c0 : Covered (pcE 1303 p11_12D p11_12C0 p11_12Tab 11 200000) 0 792 :=
  Covered.piece 396 p11_12_E_0 (by decide +kernel)
theorem p11_12_E_c1 : Covered (pcE 1303 p11_12D p11_12C0 p11_12Tab 11 200000) 0 1794 :=
  p11_12_E_c0.trans (Covered.piece 501 p11_12_E_1 (by decide +kernel)) (by decide)
theorem p11_12_E_c2 : Covered (pcE 1303 p11_12D p11_12C0 p11_12Tab 11 200000) 0 2742 :=
  p11_12_E_c1.trans (Covered.piece 474 p11_12_E_2 (by decide +kernel)) (by decide)
theorem p11_12_E_c3 : Covered (pcE 1303 p11_12D p11_12C0 p11_12Tab 11 200000) 0 3940 :=
  p11_12_E_c2.trans (Covered.piece 599 p11_12_E_3 (by decide +kernel)) (by decide)
theorem p11_12_E_c4 : Covered (pcE 1303 p11_12D p11_12C0 p11_12Tab 11 200000) 0 5074 :=
  p11_12_E_c3.trans (Covered.piece 567 p11_12_E_4 (by decide +kernel)) (by decide)
theorem p11_12_exp (x : ℝ) (hx : x ≤ 0) (hx1 : -1 ≤ x) :
    |rVal p11_12D p11_12C0 p11_12Tab x - Real.exp x| ≤ (11 : ℕ) / (200000 : ℕ) + 1 / 10 ^ 23 :=
  exp_near p11_12_side (by norm_num) (by norm_num) (by norm_num) p11_12_E_c4 x hx hx1
theorem p11_12_P1_0 : pcPF 1789 p11_12D p11_12Tab 1 1 312500 396 396 = true := by decide +kernel
theorem p11_12_P1_1 : pcPF 1789 p11_12D p11_12Tab 1 1 312500 1293 501 = true := by decide +kernel
theorem p11_12_P1_2 : pcPF 1789 p11_12D p11_12Tab 1 1 312500 2268 474 = true := by decide +kernel
theorem p11_12_P1_3 : pcPF 1789 p11_12D p11_12Tab 1 1 312500 3341 599 = true := by decide +kernel
theorem p11_12_P1_4 : pcPF 1789 p11_12D p11_12Tab 1 1 312500 4507 567 = true := by decide +kernel
theorem p11_12_P1_c0 : Covered (pcPF 1789 p11_12D p11_12Tab 1 1 312500) 0 792 :=
  Covered.piece 396 p11_12_P1_0 (by decide +kernel)
theorem p11_12_P1_c1 : Covered (pcPF 1789 p11_12D p11_12Tab 1 1 312500) 0 1794 :=
  p11_12_P1_c0.trans (Covered.piece 501 p11_12_P1_1 (by decide +kernel)) (by decide)
theorem p11_12_P1_c2 : Covered (pcPF 1789 p11_12D p11_12Tab 1 1 312500) 0 2742 :=
  p11_12_P1_c1.trans (Covered.piece 474 p11_12_P1_2 (by decide +kernel)) (by decide)
theorem p11_12_P1_c3 : Covered (pcPF 1789 p11_12D p11_12Tab 1 1 312500) 0 3940 :=
  p11_12_P1_c2.trans (Covered.piece 599 p11_12_P1_3 (by decide +kernel)) (by decide)
theorem p11_12_P1_c4 : Covered (pcPF 1789 p11_12D p11_12Tab 1 1 312500) 0 5074 :=
  p11_12_P1_c3.trans (Covered.piece 567 p11_12_P1_4 (by decide +kernel)) (by decide)
theorem p11_12_phi1 (x : ℝ) (hx : x ≤ 0) (hx1 : -1 ≤ x) :
    |rVal p11_12D 0 (divTab p11_12D p11_12Tab 1) x - phi 1 x| ≤ (1 : ℕ) / (312500 : ℕ) + 1 / 10 ^ 23 :=
  phi_sound p11_12_side (by norm_num) (by norm_num) p11_12_P1_c4 x hx hx1
theorem p11_12_P2_0 : pcPF 2400 p11_12D p11_12Tab 2 9 50000000 396 396 = true := by decide +kernel
theorem p11_12_P2_1 : pcPF 2400 p11_12D p11_12Tab 2 9 50000000 1293 501 = true := by decide +kernel
theorem p11_12_P2_2 : pcPF 2400 p11_12D p11_12Tab 2 9 50000000 2268 474 = true := by decide +kernel
theorem p11_12_P2_3 : pcPF 2400 p11_12D p11_12Tab 2 9 50000000 3341 599 = true := by decide +kernel
theorem p11_12_P2_4 : pcPF 2400 p11_12D p11_12Tab 2 9 50000000 4507 567 = true := by decide +kernel
theorem p11_12_P2_c0 : Covered (pcPF 2400 p11_12D p11_12Tab 2 9 50000000) 0 792 :=
  Covered.piece 396 p11_12_P2_0 (by decide +kernel)
theorem p11_12_P2_c1 : Covered (pcPF 2400 p11_12D p11_12Tab 2 9 50000000) 0 1794 :=
  p11_12_P2_c0.trans (Covered.piece 501 p11_12_P2_1 (by decide +kernel)) (by decide)
theorem p11_12_P2_c2 : Covered (pcPF 2400 p11_12D p11_12Tab 2 9 50000000) 0 2742 :=
  p11_12_P2_c1.trans (Covered.piece 474 p11_12_P2_2 (by decide +kernel)) (by decide)
theorem p11_12_P2_c3 : Covered (pcPF 2400 p11_12D p11_12Tab 2 9 50000000) 0 3940 :=
  p11_12_P2_c2.trans (Covered.piece 599 p11_12_P2_3 (by decide +kernel)) (by decide)
theorem p11_12_P2_c4 : Covered (pcPF 2400 p11_12D p11_12Tab 2 9 50000000) 0 5074 :=
  p11_12_P2_c3.trans (Covered.piece 567 p11_12_P2_4 (by decide +kernel)) (by decide)
theorem p11_12_phi2 (x : ℝ) (hx : x ≤ 0) (hx1 : -1 ≤ x) :
    |rVal p11_12D 0 (divTab p11_12D p11_12Tab 2) x - phi 2 x| ≤ (9 : ℕ) / (50000000 : ℕ) + 1 / 10 ^ 23 :=
  phi_sound p11_12_side (by norm_num) (by norm_num) p11_12_P2_c4 x hx hx1

/-! ### `pade_13_14` -/

def p13_14D : ℤ := 100000000000000
def p13_14C0 : ℤ := 0
def p13_14Tab : List RTerm := [
  ⟨610953706591465, -2326597325064010, -28570144704860400, -42257377032522800, 1⟩,
  ⟨1044665324692070, -1917183856587760, -1395067965096460000, 2465494725350320000, 1⟩,
  ⟨1334748601883060, -1546393613263110, 40708888946013400000, -14745486211901400000, 1⟩,
  ⟨1539704064771070, -1192243399858980, -295428486119008000000, -56198891968062600000, 1⟩,
  ⟨1681854191823970, -846894658249756, 934405927211906000000, 684178627383522000000, 1⟩,
  ⟨1772085352769660, -506457474988492, -1416895544745450000000, -2332917387150780000000, 1⟩,
  ⟨1815988757468690, -168556744377056, 738633554605862000000, 4077478001089610000000, 1⟩]

theorem p13_14_side : sideTab p13_14D p13_14Tab = true := by decide +kernel
theorem p13_14_E_0 : pcE 1436 p13_14D p13_14C0 p13_14Tab 29 10000 396 396 = true := by decide +kernel
theorem p13_14_E_1 : pcE 1436 p13_14D p13_14C0 p13_14Tab 29 10000 1293 501 = true := by decide +kernel
theorem p13_14_E_2 : pcE 1436 p13_14D p13_14C0 p13_14Tab 29 10000 2427 633 = true := by decide +kernel
theorem p13_14_E_3 : pcE 1436 p13_14D p13_14C0 p13_14Tab 29 10000 3660 600 = true := by decide +kernel
theorem p13_14_E_c0 : Covered (pcE 1436 p13_14D p13_14C0 p13_14Tab 29 10000) 0 792 :=
  Covered.piece 396 p13_14_E_0 (by decide +kernel)
theorem p13_14_E_c1 : Covered (pcE 1436 p13_14D p13_14C0 p13_14Tab 29 10000) 0 1794 :=
  p13_14_E_c0.trans (Covered.piece 501 p13_14_E_1 (by decide +kernel)) (by decide)
theorem p13_14_E_c2 : Covered (pcE 1436 p13_14D p13_14C0 p13_14Tab 29 10000) 0 3060 :=
  p13_14_E_c1.trans (Covered.piece 633 p13_14_E_2 (by decide +kernel)) (by decide)
theorem p13_14_E_c3 : Covered (pcE 1436 p13_14D p13_14C0 p13_14Tab 29 10000) 0 4260 :=
  p13_14_E_c2.trans (Covered.piece 600 p13_14_E_3 (by decide +kernel)) (by decide)
theorem p13_14_exp (x : ℝ) (hx : x ≤ 0) (hx1 : -1 ≤ x) :
    |rVal p13_14D p13_14C0 p13_14Tab x - Real.exp x| ≤ (29 : ℕ) / (10000 : ℕ) + 1 / 10 ^ 23 :=
  exp_near p13_14_side (by norm_num) (by norm_num) (by norm_num) p13_14_E_c3 x hx hx1
theorem p13_14_P1_0 : pcPF 2023 p13_14D p13_14Tab 1 21 100000 396 396 = true := by decide +kernel
theorem p13_14_P1_1 : pcPF 2023 p13_14D p13_14Tab 1 21 100000 1293 501 = true := by decide +kernel
theorem p13_14_P1_2 : pcPF 2023 p13_14D p13_14Tab 1 21 100000 2427 633 = true := by decide +kernel
theorem p13_14_P1_3 : pcPF 2023 p13_14D p13_14Tab 1 21 100000 3660 600 = true := by decide +kernel
theorem p13_14_P1_c0 : Covered (pcPF 2023 p13_14D p13_14Tab 1 21 100000) 0 792 :=
  Covered.piece 396 p13_14_P1_0 (by decide +kernel)
theorem p13_14_P1_c1 : Covered (pcPF 2023 p13_14D p13_14Tab 1 21 100000) 0 1794 :=
  p13_14_P1_c0.trans (Covered.piece 501 p13_14_P1_1 (by decide +kernel)) (by decide)
theorem p13_14_P1_c2 : Covered (pcPF 2023 p13_14D p13_14Tab 1 21 100000) 0 3060 :=
  p13_14_P1_c1.trans (Covered.piece 633 p13_14_P1_2 (by decide +kernel)) (by decide)
theorem p13_14_P1_c3 : Covered (pcPF 2023 p13_14D p13_14Tab 1 21 100000) 0 4260 :=
  p13_14_P1_c2.trans (Covered.piece 600 p13_14_P1_3 (by decide +kernel)) (by decide)
theorem p13_14_phi1 (x : ℝ) (hx : x ≤ 0) (hx1 : -1 ≤ x) :
    |rVal p13_14D 0 (divTab p13_14D p13_14Tab 1) x - phi 1 x| ≤ (21 : ℕ) / (100000 : ℕ) + 1 / 10 ^ 23 :=
  phi_sound p13_14_side (by norm_num) (by norm_num) p13_14_P1_c3 x hx hx1
theorem p13_14_P2_0 : pcPF 2740 p13_14D p13_14Tab 2 3 200000 528 528 = true := by decide +kernel
theorem p13_14_P2_1 : pcPF 2740 p13_14D p13_14Tab 2 3 200000 1557 501 = true := by decide +kernel
theorem p13_14_P2_2 : pcPF 2740 p13_14D p13_14Tab 2 3 200000 2691 633 = true := by decide +kernel
theorem p13_14_P2_3 : pcPF 2740 p13_14D p13_14Tab 2 3 200000 3924 600 = true := by decide +kernel
theorem p13_14_P2_c0 : Covered (pcPF 2740 p13_14D p13_14Tab 2 3 200000) 0 1056 :=
  Covered.piece 528 p13_14_P2_0 (by decide +kernel)
theorem p13_14_P2_c1 : Covered (pcPF 2740 p13_14D p13_14Tab 2 3 200000) 0 2058 :=
  p13_14_P2_c0.trans (Covered.piece 501 p13_14_P2_1 (by decide +kernel)) (by decide)
theorem p13_14_P2_c2 : Covered (pcPF 2740 p13_14D p13_14Tab 2 3 200000) 0 3324 :=
  p13_14_P2_c1.trans (Covered.piece 633 p13_14_P2_2 (by decide +kernel)) (by decide)
theorem p13_14_P2_c3 : Covered (pcPF 2740 p13_14D p13_14Tab 2 3 200000) 0 4524 :=
  p13_14_P2_c2.trans (Covered.piece 600 p13_14_P2_3 (by decide +kernel)) (by decide)
theorem p13_14_phi2 (x : ℝ) (hx : x ≤ 0) (hx1 : -1 ≤ x) :
    |rVal p13_14D 0 (divTab p13_14D p13_14Tab 2) x - phi 2 x| ≤ (3 : ℕ) / (200000 : ℕ) + 1 / 10 ^ 23 :=
  phi_sound p13_14_side (by norm_num) (by norm_num) p13_14_P2_c3 x hx hx1

/-! ### `pade_15_16` -/

def p15_16D : ℤ := 100000000000000
def p15_16C0 : ℤ := 0
def p15_16Tab : List RTerm := [
  ⟨648562832446504, -2706741018024660, 74667512190395200, 23341871488433200, 1⟩,
  ⟨1114892355552440, -2284738950343940, -291507593718632000, -6025331425954520000, 1⟩,
  ⟨1435027629395320, -1905108736378850, -83234330581981400000, 92399952438209900000, 1⟩,
  ⟨1669674162493380, -1544208087436590, 1121872573852820000000, -285904191440928000000, 1⟩,
  ⟨1842271890320950, -1193572500472560, -5843963901811350000000, -1382716643423950000000, 1⟩,
  ⟨1964609729943850, -849034450829802, 15373996117330200000000, 11715019155269700000000, 1⟩,
  ⟨2043229785453940, -508129521532765, -21025727057844300000000, -35200923207028400000000, 1⟩,
  ⟨2081731614393580, -169171657421277, 10457268687470400000000, 58341545660885100000000, 1⟩]

theorem p15_16_side : sideTab p15_16D p15_16Tab = true := by decide +kernel
theorem p15_16_E_0 : pcE 1568 p15_16D p15_16C0 p15_16Tab 36 5 396 396 = true := by decide +kernel
theorem p15_16_E_1 : pcE 1568 p15_16D p15_16C0 p15_16Tab 36 5 1293 501 = true := by decide +kernel
theorem p15_16_E_2 : pcE 1568 p15_16D p15_16C0 p15_16Tab 36 5 2268 474 = true := by decide +kernel
theorem p15_16_E_3 : pcE 1568 p15_16D p15_16C0 p15_16Tab 36 5 3341 599 = true := by decide +kernel
theorem p15_16_E_4 : pcE 1568 p15_16D p15_16C0 p15_16Tab 36 5 4507 567 = true := by decide +kernel
theorem p15_16_E_c0 : Covered (pcE 1568 p15_16D p15_16C0 p15_16Tab 36 5) 0 792 :=
  Covered.piece 396 p15_16_E_0 (by decide +kernel)
theorem p15_16_E_c1 : Covered (pcE 1568 p15_16D p15_16C0 p15_16Tab 36 5) 0 1794 :=
  p15_16_E_c0.trans (Covered.piece 501 p15_16_E_1 (by decide +kernel)) (by decide)
theorem p15_16_E_c2 : Covered (pcE 1568 p15_16D p15_16C0 p15_16Tab 36 5) 0 2742 :=
  p15_16_E_c1.trans (Covered.piece 474 p15_16_E_2 (by decide +kernel)) (by decide)
theorem p15_16_E_c3 : Covered (pcE 1568 p15_16D p15_16C0 p15_16Tab 36 5) 0 3940 :=
  p15_16_E_c2.trans (Covered.piece 599 p15_16_E_3 (by decide +kernel)) (by decide)
theorem p15_16_E_c4 : Covered (pcE 1568 p15_16D p15_16C0 p15_16Tab 36 5) 0 5074 :=
  p15_16_E_c3.trans (Covered.piece 567 p15_16_E_4 (by decide +kernel)) (by decide)
theorem p15_16_exp (x : ℝ) (hx : x ≤ 0) (hx1 : -1 ≤ x) :
    |rVal p15_16D p15_16C0 p15_16Tab x - Real.exp x| ≤ (36 : ℕ) / (5 : ℕ) + 1 / 10 ^ 23 :=
  exp_near p15_16_side (by norm_num) (by norm_num) (by norm_num) p15_16_E_c4 x hx hx1
theorem p15_16_P1_0 : pcPF 2263 p15_16D p15_16Tab 1 2 5 528 528 = true := by decide +kernel
theorem p15_16_P1_1 : pcPF 2263 p15_16D p15_16Tab 1 2 5 1557 501 = true := by decide +kernel
theorem p15_16_P1_2 : pcPF 2263 p15_16D p15_16Tab 1 2 5 2691 633 = true := by decide +kernel
theorem p15_16_P1_3 : pcPF 2263 p15_16D p15_16Tab 1 2 5 3924 600 = true := by decide +kernel
theorem p15_16_P1_c0 : Covered (pcPF 2263 p15_16D p15_16Tab 1 2 5) 0 1056 :=
  Covered.piece 528 p15_16_P1_0 (by decide +kernel)
theorem p15_16_P1_c1 : Covered (pcPF 2263 p15_16D p15_16Tab 1 2 5) 0 2058 :=
  p15_16_P1_c0.trans (Covered.piece 501 p15_16_P1_1 (by decide +kernel)) (by decide)
theorem p15_16_P1_c2 : Covered (pcPF 2263 p15_16D p15_16Tab 1 2 5) 0 3324 :=
  p15_16_P1_c1.trans (Covered.piece 633 p15_16_P1_2 (by decide +kernel)) (by decide)
theorem p15_16_P1_c3 : Covered (pcPF 2263 p15_16D p15_16Tab 1 2 5) 0 4524 :=
  p15_16_P1_c2.trans (Covered.piece 600 p15_16_P1_3 (by decide +kernel)) (by decide)
theorem p15_16_phi1 (x : ℝ) (hx : x ≤ 0) (hx1 : -1 ≤ x) :
    |rVal p15_16D 0 (divTab p15_16D p15_16Tab 1) x - phi 1 x| ≤ (2 : ℕ) / (5 : ℕ) + 1 / 10 ^ 23 :=
  phi_sound p15_16_side (by norm_num) (by norm_num) p15_16_P1_c3 x hx hx1
theorem p15_16_P2_0 : pcPF 3081 p15_16D p15_16Tab 2 21 1000 528 528 = true := by decide +kernel
theorem p15_16_P2_1 : pcPF 3081 p15_16D p15_16Tab 2 21 1000 1557 501 = true := by decide +kernel
theorem p15_16_P2_2 : pcPF 3081 p15_16D p15_16Tab 2 21 1000 2691 633 = true := by decide +kernel
theorem p15_16_P2_3 : pcPF 3081 p15_16D p15_16Tab 2 21 1000 3924 600 = true := by decide +kernel
theorem p15_16_P2_c0 : Covered (pcPF 3081 p15_16D p15_16Tab 2 21 1000) 0 1056 :=
  Covered.piece 528 p15_16_P2_0 (by decide +kernel)
theorem p15_16_P2_c1 : Covered (pcPF 3081 p15_16D p15_16Tab 2 21 1000) 0 2058 :=
  p15_16_P2_c0.trans (Covered.piece 501 p15_16_P2_1 (by decide +kernel)) (by decide)
theorem p15_16_P2_c2 : Covered (pcPF 3081 p15_16D p15_16Tab 2 21 1000) 0 3324 :=
  p15_16_P2_c1.trans (Covered.piece 633 p15_16_P2_2 (by decide +kernel)) (by decide)
theorem p15_16_P2_c3 : Covered (pcPF 3081 p15_16D p15_16Tab 2 21 1000) 0 4524 :=
  p15_16_P2_c2.trans (Covered.piece 600 p15_16_P2_3 (by decide +kernel)) (by decide)
theorem p15_16_phi2 (x : ℝ) (hx : x ≤ 0) (hx1 : -1 ≤ x) :
    |rVal p15_16D 0 (divTab p15_16D p15_16Tab 2) x - phi 2 x| ≤ (21 : ℕ) / (1000 : ℕ) + 1 / 10 ^ 23 :=
  phi_sound p15_16_side (by norm_num) (by norm_num) p15_16_P2_c3 x hx hx1

/-! ### `pade_0_2` -/

def p0_2D : ℤ := 1000000000000000000000000000000
def p0_2C0 : ℤ := 0
def p0_2Tab : List RTerm := [
  ⟨1000000000000000000000000000000, -1000000000000000000000000000000, -222044604925031, 1000000000000000000000000000000, 1⟩]

theorem p0_2_side : sideTab p0_2D p0_2Tab = true := by decide +kernel
theorem p0_2_E_0 : pcE 813 p0_2D p0_2C0 p0_2Tab 9 250 1255 1255 = true := by decide +kernel
theorem p0_2_E_1 : pcE 813 p0_2D p0_2C0 p0_2Tab 9 250 3038 528 = true := by decide +kernel
theorem p0_2_E_2 : pcE 813 p0_2D p0_2C0 p0_2Tab 9 250 3776 210 = true := by decide +kernel
theorem p0_2_E_c0 : Covered (pcE 813 p0_2D p0_2C0 p0_2Tab 9 250) 0 2510 :=
  Covered.piece 1255 p0_2_E_0 (by decide +kernel)
theorem p0_2_E_c1 : Covered (pcE 813 p0_2D p0_2C0 p0_2Tab 9 250) 0 3566 :=
  p0_2_E_c0.trans (Covered.piece 528 p0_2_E_1 (by decide +kernel)) (by decide)
theorem p0_2_E_c2 : Covered (pcE 813 p0_2D p0_2C0 p0_2Tab 9 250) 0 3986 :=
  p0_2_E_c1.trans (Covered.piece 210 p0_2_E_2 (by decide +kernel)) (by decide)
theorem p0_2_exp (x : ℝ) (hx : x ≤ 0) (hx1 : -1 ≤ x) :
    |rVal p0_2D p0_2C0 p0_2Tab x - Real.exp x| ≤ (9 : ℕ) / (250 : ℕ) + 1 / 10 ^ 23 :=
  exp_near p0_2_side (by norm_num) (by norm_num) (by norm_num) p0_2_E_c2 x hx hx1
theorem p0_2_P1_0 : pcPF 900 p0_2D p0_2Tab 1 9 250 941 941 = true := by decide +kernel
theorem p0_2_P1_1 : pcPF 900 p0_2D p0_2Tab 1 9 250 2383 501 = true := by decide +kernel
theorem p0_2_P1_2 : pcPF 900 p0_2D p0_2Tab 1 9 250 3239 355 = true := by decide +kernel
theorem p0_2_P1_3 : pcPF 900 p0_2D p0_2Tab 1 9 250 3783 189 = true := by decide +kernel
theorem p0_2_P1_c0 : Covered (pcPF 900 p0_2D p0_2Tab 1 9 250) 0 1882 :=
  Covered.piece 941 p0_2_P1_0 (by decide +kernel)
theorem p0_2_P1_c1 : Covered (pcPF 900 p0_2D p0_2Tab 1 9 250) 0 2884 :=
  p0_2_P1_c0.trans (Covered.piece 501 p0_2_P1_1 (by decide +kernel)) (by decide)
theorem p0_2_P1_c2 : Covered (pcPF 900 p0_2D p0_2Tab 1 9 250) 0 3594 :=
  p0_2_P1_c1.trans (Covered.piece 355 p0_2_P1_2 (by decide +kernel)) (by decide)
theorem p0_2_P1_c3 : Covered (pcPF 900 p0_2D p0_2Tab 1 9 250) 0 3972 :=
  p0_2_P1_c2.trans (Covered.piece 189 p0_2_P1_3 (by decide +kernel)) (by decide)
theorem p0_2_phi1 (x : ℝ) (hx : x ≤ 0) (hx1 : -1 ≤ x) :
    |rVal p0_2D 0 (divTab p0_2D p0_2Tab 1) x - phi 1 x| ≤ (9 : ℕ) / (250 : ℕ) + 1 / 10 ^ 23 :=
  phi_sound p0_2_side (by norm_num) (by norm_num) p0_2_P1_c3 x hx hx1
theorem p0_2_P2_0 : pcPF 1104 p0_2D p0_2Tab 2 41 1000 528 528 = true := by decide +kernel
theorem p0_2_P2_1 : pcPF 1104 p0_2D p0_2Tab 2 41 1000 1337 281 = true := by decide +kernel
theorem p0_2_P2_2 : pcPF 1104 p0_2D p0_2Tab 2 41 1000 1817 199 = true := by decide +kernel
theorem p0_2_P2_3 : pcPF 1104 p0_2D p0_2Tab 2 41 1000 2267 251 = true := by decide +kernel
theorem p0_2_P2_4 : pcPF 1104 p0_2D p0_2Tab 2 41 1000 2835 317 = true := by decide +kernel
theorem p0_2_P2_5 : pcPF 1104 p0_2D p0_2Tab 2 41 1000 3686 534 = true := by decide +kernel
theorem p0_2_P2_c0 : Covered (pcPF 1104 p0_2D p0_2Tab 2 41 1000) 0 1056 :=
  Covered.piece 528 p0_2_P2_0 (by decide +kernel)
theorem p0_2_P2_c1 : Covered (pcPF 1104 p0_2D p0_2Tab 2 41 1000) 0 1618 :=
  p0_2_P2_c0.trans (Covered.piece 281 p0_2_P2_1 (by decide +kernel)) (by decide)
theorem p0_2_P2_c2 : Covered (pcPF 1104 p0_2D p0_2Tab 2 41 1000) 0 2016 :=
  p0_2_P2_c1.trans (Covered.piece 199 p0_2_P2_2 (by decide +kernel)) (by decide)
theorem p0_2_P2_c3 : Covered (pcPF 1104 p0_2D p0_2Tab 2 41 1000) 0 2518 :=
  p0_2_P2_c2.trans (Covered.piece 251 p0_2_P2_3 (by decide +kernel)) (by decide)
theorem p0_2_P2_c4 : Covered (pcPF 1104 p0_2D p0_2Tab 2 41 1000) 0 3152 :=
  p0_2_P2_c3.trans (Covered.piece 317 p0_2_P2_4 (by decide +kernel)) (by decide)
theorem p0_2_P2_c5 : Covered (pcPF 1104 p0_2D p0_2Tab 2 41 1000) 0 4220 :=
  p0_2_P2_c4.trans (Covered.piece 534 p0_2_P2_5 (by decide +kernel)) (by decide)
theorem p0_2_phi2 (x : ℝ) (hx : x ≤ 0) (hx1 : -1 ≤ x) :
    |rVal p0_2D 0 (divTab p0_2D p0_2Tab 2) x - phi 2 x| ≤ (41 : ℕ) / (1000 : ℕ) + 1 / 10 ^ 23 :=
  phi_sound p0_2_side (by norm_num) (by norm_num) p0_2_P2_c5 x hx hx1

/-! ### `pade_2_4` -/

def p2_4D : ℤ := 100000000000000
def p2_4C0 : ℤ := 0
def p2_4Tab : List RTerm := [
  ⟨222098003298981, -416039144550693, -112847937220907, -555441581893795, 1⟩,
  ⟨377901996701019, -138017652427285, 112847937220902, 1981654350025080, 1⟩]

theorem p2_4_side : sideTab p2_4D p2_4Tab = true := by decide +kernel
theorem p2_4_E_0 : pcE 780 p2_4D p2_4C0 p2_4Tab 43 10000000 1674 1674 = true := by decide +kernel
theorem p2_4_E_1 : pcE 780 p2_4D p2_4C0 p2_4Tab 43 10000000 3645 297 = true := by decide +kernel
theorem p2_4_E_2 : pcE 780 p2_4D p2_4C0 p2_4Tab 43 10000000 3990 48 = true := by decide +kernel
theorem p2_4_E_c0 : Covered (pcE 780 p2_4D p2_4C0 p2_4Tab 43 10000000) 0 3348 :=
  Covered.piece 1674 p2_4_E_0 (by decide +kernel)
theorem p2_4_E_c1 : Covered (pcE 780 p2_4D p2_4C0 p2_4Tab 43 10000000) 0 3942 :=
  p2_4_E_c0.trans (Covered.piece 297 p2_4_E_1 (by decide +kernel)) (by decide)
theorem p2_4_E_c2 : Covered (pcE 780 p2_4D p2_4C0 p2_4Tab 43 10000000) 0 4038 :=
  p2_4_E_c1.trans (Covered.piece 48 p2_4_E_2 (by decide +kernel)) (by decide)
theorem p2_4_exp (x : ℝ) (hx : x ≤ 0) (hx1 : -1 ≤ x) :
    |rVal p2_4D p2_4C0 p2_4Tab x - Real.exp x| ≤ (43 : ℕ) / (10000000 : ℕ) + 1 / 10 ^ 23 :=
  exp_near p2_4_side (by norm_num) (by norm_num) (by norm_num) p2_4_E_c2 x hx hx1
theorem p2_4_P1_0 : pcPF 859 p2_4D p2_4Tab 1 43 10000000 1674 1674 = true := by decide +kernel
theorem p2_4_P1_1 : pcPF 859 p2_4D p2_4Tab 1 43 10000000 3645 297 = true := by decide +kernel
theorem p2_4_P1_2 : pcPF 859 p2_4D p2_4Tab 1 43 10000000 3990 48 = true := by decide +kernel
theorem p2_4_P1_c0 : Covered (pcPF 859 p2_4D p2_4Tab 1 43 10000000) 0 3348 :=
  Covered.piece 1674 p2_4_P1_0 (by decide +kernel)
theorem p2_4_P1_c1 : Covered (pcPF 859 p2_4D p2_4Tab 1 43 10000000) 0 3942 :=
  p2_4_P1_c0.trans (Covered.piece 297 p2_4_P1_1 (by decide +kernel)) (by decide)
theorem p2_4_P1_c2 : Covered (pcPF 859 p2_4D p2_4Tab 1 43 10000000) 0 4038 :=
  p2_4_P1_c1.trans (Covered.piece 48 p2_4_P1_2 (by decide +kernel)) (by decide)
theorem p2_4_phi1 (x : ℝ) (hx : x ≤ 0) (hx1 : -1 ≤ x) :
    |rVal p2_4D 0 (divTab p2_4D p2_4Tab 1) x - phi 1 x| ≤ (43 : ℕ) / (10000000 : ℕ) + 1 / 10 ^ 23 :=
  phi_sound p2_4_side (by norm_num) (by norm_num) p2_4_P1_c2 x hx hx1
theorem p2_4_P2_0 : pcPF 1057 p2_4D p2_4Tab 2 43 10000000 1674 1674 = true := by decide +kernel
theorem p2_4_P2_1 : pcPF 1057 p2_4D p2_4Tab 2 43 10000000 3645 297 = true := by decide +kernel
theorem p2_4_P2_2 : pcPF 1057 p2_4D p2_4Tab 2 43 10000000 4007 65 = true := by decide +kernel
theorem p2_4_P2_c0 : Covered (pcPF 1057 p2_4D p2_4Tab 2 43 10000000) 0 3348 :=
  Covered.piece 1674 p2_4_P2_0 (by decide +kernel)
theorem p2_4_P2_c1 : Covered (pcPF 1057 p2_4D p2_4Tab 2 43 10000000) 0 3942 :=
  p2_4_P2_c0.trans (Covered.piece 297 p2_4_P2_1 (by decide +kernel)) (by decide)
theorem p2_4_P2_c2 : Covered (pcPF 1057 p2_4D p2_4Tab 2 43 10000000) 0 4072 :=
  p2_4_P2_c1.trans (Covered.piece 65 p2_4_P2_2 (by decide +kernel)) (by decide)
theorem p2_4_phi2 (x : ℝ) (hx : x ≤ 0) (hx1 : -1 ≤ x) :
    |rVal p2_4D 0 (divTab p2_4D p2_4Tab 2) x - phi 2 x| ≤ (43 : ℕ) / (10000000 : ℕ) + 1 / 10 ^ 23 :=
  phi_sound p2_4_side (by norm_num) (by norm_num) p2_4_P2_c2 x hx hx1

/-! ### `pade_4_6` -/

def p4_6D : ℤ := 100000000000000
def p4_6C0 : ℤ := 0
def p4_6Tab : List RTerm := [
  ⟨304820604352082, -765179101975736, 931576610791283, 1310787094104730, 1⟩,
  ⟨546925946457495, -451993080329624, -3715697614715640, -12463383049156000, 1⟩,
  ⟨648253449190422, -149931062048593, 2784121003925980, 31506530968582500, 1⟩]

theorem p4_6_side : sideTab p4_6D p4_6Tab = true := by decide +kernel
theorem p4_6_E_0 : pcE 908 p4_6D p4_6C0 p4_6Tab 37 1000000000000 1674 1674 = true := by decide +kernel
theorem p4_6_E_1 : pcE 908 p4_6D p4_6C0 p4_6Tab 37 1000000000000 3645 297 = true := by decide +kernel
theorem p4_6_E_2 : pcE 908 p4_6D p4_6C0 p4_6Tab 37 1000000000000 3969 27 = true := by decide +kernel
theorem p4_6_E_c0 : Covered (pcE 908 p4_6D p4_6C0 p4_6Tab 37 1000000000000) 0 3348 :=
  Covered.piece 1674 p4_6_E_0 (by decide +kernel)
theorem p4_6_E_c1 : Covered (pcE 908 p4_6D p4_6C0 p4_6Tab 37 1000000000000) 0 3942 :=
  p4_6_E_c0.trans (Covered.piece 297 p4_6_E_1 (by decide +kernel)) (by decide)
theorem p4_6_E_c2 : Covered (pcE 908 p4_6D p4_6C0 p4_6Tab 37 1000000000000) 0 3996 :=
  p4_6_E_c1.trans (Covered.piece 27 p4_6_E_2 (by decide +kernel)) (by decide)
theorem p4_6_exp (x : ℝ) (hx : x ≤ 0) (hx1 : -1 ≤ x) :
    |rVal p4_6D p4_6C0 p4_6Tab x - Real.exp x| ≤ (37 : ℕ) / (1000000000000 : ℕ) + 1 / 10 ^ 23 :=
  exp_near p4_6_side (by norm_num) (by norm_num) (by norm_num) p4_6_E_c2 x hx hx1
theorem p4_6_P1_0 : pcPF 1088 p4_6D p4_6Tab 1 43 1000000000000 1674 1674 = true := by decide +kernel
theorem p4_6_P1_1 : pcPF 1088 p4_6D p4_6Tab 1 43 1000000000000 3645 297 = true := by decide +kernel
theorem p4_6_P1_2 : pcPF 1088 p4_6D p4_6Tab 1 43 1000000000000 3978 36 = true := by decide +kernel
theorem p4_6_P1_c0 : Covered (pcPF 1088 p4_6D p4_6Tab 1 43 1000000000000) 0 3348 :=
  Covered.piece 1674 p4_6_P1_0 (by decide +kernel)
theorem p4_6_P1_c1 : Covered (pcPF 1088 p4_6D p4_6Tab 1 43 1000000000000) 0 3942 :=
  p4_6_P1_c0.trans (Covered.piece 297 p4_6_P1_1 (by decide +kernel)) (by decide)
theorem p4_6_P1_c2 : Covered (pcPF 1088 p4_6D p4_6Tab 1 43 1000000000000) 0 4014 :=
  p4_6_P1_c1.trans (Covered.piece 36 p4_6_P1_2 (by decide +kernel)) (by decide)
theorem p4_6_phi1 (x : ℝ) (hx : x ≤ 0) (hx1 : -1 ≤ x) :
    |rVal p4_6D 0 (divTab p4_6D p4_6Tab 1) x - phi 1 x| ≤ (43 : ℕ) / (1000000000000 : ℕ) + 1 / 10 ^ 23 :=
  phi_sound p4_6_side (by norm_num) (by norm_num) p4_6_P1_c2 x hx hx1
theorem p4_6_P2_0 : pcPF 1387 p4_6D p4_6Tab 2 21 500000000000 1674 1674 = true := by decide +kernel
theorem p4_6_P2_1 : pcPF 1387 p4_6D p4_6Tab 2 21 500000000000 3645 297 = true := by decide +kernel
theorem p4_6_P2_2 : pcPF 1387 p4_6D p4_6Tab 2 21 500000000000 3978 36 = true := by decide +kernel
theorem p4_6_P2_c0 : Covered (pcPF 1387 p4_6D p4_6Tab 2 21 500000000000) 0 3348 :=
  Covered.piece 1674 p4_6_P2_0 (by decide +kernel)
theorem p4_6_P2_c1 : Covered (pcPF 1387 p4_6D p4_6Tab 2 21 500000000000) 0 3942 :=
  p4_6_P2_c0.trans (Covered.piece 297 p4_6_P2_1 (by decide +kernel)) (by decide)
theorem p4_6_P2_c2 : Covered (pcPF 1387 p4_6D p4_6Tab 2 21 500000000000) 0 4014 :=
  p4_6_P2_c1.trans (Covered.piece 36 p4_6_P2_2 (by decide +kernel)) (by decide)
theorem p4_6_phi2 (x : ℝ) (hx : x ≤ 0) (hx1 : -1 ≤ x) :
    |rVal p4_6D 0 (divTab p4_6D p4_6Tab 2) x - phi 2 x| ≤ (21 : ℕ) / (500000000000 : ℕ) + 1 / 10 ^ 23 :=
  phi_sound p4_6_side (by norm_num) (by norm_num) p4_6_P2_c2 x hx hx1

/-! ### `pade_6_8` -/

def p6_8D : ℤ := 100000000000000
def p6_8C0 : ℤ := 0
def p6_8Tab : List RTerm := [
  ⟨369485632938675, -1126969930009690, -3184872630659190, -1495281866237620, 1⟩,
  ⟨674126181787975, -788594968948569, 31281797603375600, 42859461337487700, 1⟩,
  ⟨840225298514781, -469116275605494, -78268480848182600, -225394054615805000, 1⟩,
  ⟨916162886758569, -155837739405967, 50171555876160900, 473499730980113000, 1⟩]

theorem p6_8_side : sideTab p6_8D p6_8Tab = true := by decide +kernel
theorem p6_8_E_0 : pcE 1037 p6_8D p6_8C0 p6_8Tab 1 500000000 528 528 = true := by decide +kernel
theorem p6_8_E_1 : pcE 1037 p6_8D p6_8C0 p6_8Tab 1 500000000 1724 668 = true := by decide +kernel
theorem p6_8_E_2 : pcE 1037 p6_8D p6_8C0 p6_8Tab 1 500000000 3237 845 = true := by decide +kernel
theorem p6_8_E_c0 : Covered (pcE 1037 p6_8D p6_8C0 p6_8Tab 1 500000000) 0 1056 :=
  Covered.piece 528 p6_8_E_0 (by decide +kernel)
theorem p6_8_E_c1 : Covered (pcE 1037 p6_8D p6_8C0 p6_8Tab 1 500000000) 0 2392 :=
  p6_8_E_c0.trans (Covered.piece 668 p6_8_E_1 (by decide +kernel)) (by decide)
theorem p6_8_E_c2 : Covered (pcE 1037 p6_8D p6_8C0 p6_8Tab 1 500000000) 0 4082 :=
  p6_8_E_c1.trans (Covered.piece 845 p6_8_E_2 (by decide +kernel)) (by decide)
theorem p6_8_exp (x : ℝ) (hx : x ≤ 0) (hx1 : -1 ≤ x) :
    |rVal p6_8D p6_8C0 p6_8Tab x - Real.exp x| ≤ (1 : ℕ) / (500000000 : ℕ) + 1 / 10 ^ 23 :=
  exp_near p6_8_side (by norm_num) (by norm_num) (by norm_num) p6_8_E_c2 x hx hx1
theorem p6_8_P1_0 : pcPF 1320 p6_8D p6_8Tab 1 21 100000000000 396 396 = true := by decide +kernel
theorem p6_8_P1_1 : pcPF 1320 p6_8D p6_8Tab 1 21 100000000000 1293 501 = true := by decide +kernel
theorem p6_8_P1_2 : pcPF 1320 p6_8D p6_8Tab 1 21 100000000000 2427 633 = true := by decide +kernel
theorem p6_8_P1_3 : pcPF 1320 p6_8D p6_8Tab 1 21 100000000000 3660 600 = true := by decide +kernel
theorem p6_8_P1_c0 : Covered (pcPF 1320 p6_8D p6_8Tab 1 21 100000000000) 0 792 :=
  Covered.piece 396 p6_8_P1_0 (by decide +kernel)
theorem p6_8_P1_c1 : Covered (pcPF 1320 p6_8D p6_8Tab 1 21 100000000000) 0 1794 :=
  p6_8_P1_c0.trans (Covered.piece 501 p6_8_P1_1 (by decide +kernel)) (by decide)
theorem p6_8_P1_c2 : Covered (pcPF 1320 p6_8D p6_8Tab 1 21 100000000000) 0 3060 :=
  p6_8_P1_c1.trans (Covered.piece 633 p6_8_P1_2 (by decide +kernel)) (by decide)
theorem p6_8_P1_c3 : Covered (pcPF 1320 p6_8D p6_8Tab 1 21 100000000000) 0 4260 :=
  p6_8_P1_c2.trans (Covered.piece 600 p6_8_P1_3 (by decide +kernel)) (by decide)
theorem p6_8_phi1 (x : ℝ) (hx : x ≤ 0) (hx1 : -1 ≤ x) :
    |rVal p6_8D 0 (divTab p6_8D p6_8Tab 1) x - phi 1 x| ≤ (21 : ℕ) / (100000000000 : ℕ) + 1 / 10 ^ 23 :=
  phi_sound p6_8_side (by norm_num) (by norm_num) p6_8_P1_c3 x hx hx1
theorem p6_8_P2_0 : pcPF 1721 p6_8D p6_8Tab 2 21 1000000000000 396 396 = true := by decide +kernel
theorem p6_8_P2_1 : pcPF 1721 p6_8D p6_8Tab 2 21 1000000000000 1293 501 = true := by decide +kernel
theorem p6_8_P2_2 : pcPF 1721 p6_8D p6_8Tab 2 21 1000000000000 2268 474 = true := by decide +kernel
theorem p6_8_P2_3 : pcPF 1721 p6_8D p6_8Tab 2 21 1000000000000 3341 599 = true := by decide +kernel
theorem p6_8_P2_4 : pcPF 1721 p6_8D p6_8Tab 2 21 1000000000000 4697 757 = true := by decide +kernel
theorem p6_8_P2_c0 : Covered (pcPF 1721 p6_8D p6_8Tab 2 21 1000000000000) 0 792 :=
  Covered.piece 396 p6_8_P2_0 (by decide +kernel)
theorem p6_8_P2_c1 : Covered (pcPF 1721 p6_8D p6_8Tab 2 21 1000000000000) 0 1794 :=
  p6_8_P2_c0.trans (Covered.piece 501 p6_8_P2_1 (by decide +kernel)) (by decide)
theorem p6_8_P2_c2 : Covered (pcPF 1721 p6_8D p6_8Tab 2 21 1000000000000) 0 2742 :=
  p6_8_P2_c1.trans (Covered.piece 474 p6_8_P2_2 (by decide +kernel)) (by decide)
theorem p6_8_P2_c3 : Covered (pcPF 1721 p6_8D p6_8Tab 2 21 1000000000000) 0 3940 :=
  p6_8_P2_c2.trans (Covered.piece 599 p6_8_P2_3 (by decide +kernel)) (by decide)
theorem p6_8_P2_c4 : Covered (pcPF 1721 p6_8D p6_8Tab 2 21 1000000000000) 0 5454 :=
  p6_8_P2_c3.trans (Covered.piece 757 p6_8_P2_4 (by decide +kernel)) (by decide)
theorem p6_8_phi2 (x : ℝ) (hx : x ≤ 0) (hx1 : -1 ≤ x) :
    |rVal p6_8D 0 (divTab p6_8D p6_8Tab 2) x - phi 2 x| ≤ (21 : ℕ) / (1000000000000 : ℕ) + 1 / 10 ^ 23 :=
  phi_sound p6_8_side (by norm_num) (by norm_num) p6_8_P2_c4 x hx hx1

/-! ### `pade_8_10` -/

def p8_10D : ℤ := 100000000000000
def p8_10C0 : ℤ := 0
def p8_10Tab : List RTerm := [
  ⟨423452249479674, -1495704378128120, 6608297062375510, -873837399434558, 1⟩,
  ⟨778114626446633, -1136889164905070, -143520908051772000, -83705474203950500, 1⟩,
  ⟨993338372217297, -803310633426764, 731487012615475000, 959090409250811000, 1⟩,
  ⟨1122085377939300, -479296416756328, -1408905585645570000, -3717879118633220000, 1⟩,
  ⟨1183009373917100, -159375300588419, 814331184019458000, 6953735577587650000, 1⟩]

theorem p8_10_side : sideTab p8_10D p8_10Tab = true := by decide +kernel
theorem p8_10_E_0 : pcE 1166 p8_10D p8_10C0 p8_10Tab 11 2500000000 528 528 = true := by decide +kernel
theorem p8_10_E_1 : pcE 1166 p8_10D p8_10C0 p8_10Tab 11 2500000000 1724 668 = true := by decide +kernel
theorem p8_10_E_2 : pcE 1166 p8_10D p8_10C0 p8_10Tab 11 2500000000 3237 845 = true := by decide +kernel
theorem p8_10_E_c0 : Covered (pcE 1166 p8_10D p8_10C0 p8_10Tab 11 2500000000) 0 1056 :=
  Covered.piece 528 p8_10_E_0 (by decide +kernel)
theorem p8_10_E_c1 : Covered (pcE 1166 p8_10D p8_10C0 p8_10Tab 11 2500000000) 0 2392 :=
  p8_10_E_c0.trans (Covered.piece 668 p8_10_E_1 (by decide +kernel)) (by decide)
theorem p8_10_E_c2 : Covered (pcE 1166 p8_10D p8_10C0 p8_10Tab 11 2500000000) 0 4082 :=
  p8_10_E_c1.trans (Covered.piece 845 p8_10_E_2 (by decide +kernel)) (by decide)
theorem p8_10_exp (x : ℝ) (hx : x ≤ 0) (hx1 : -1 ≤ x) :
    |rVal p8_10D p8_10C0 p8_10Tab x - Real.exp x| ≤ (11 : ℕ) / (2500000000 : ℕ) + 1 / 10 ^ 23 :=
  exp_near p8_10_side (by norm_num) (by norm_num) (by norm_num) p8_10_E_c2 x hx hx1
theorem p8_10_P1_0 : pcPF 1553 p8_10D p8_10Tab 1 27 50000000000 396 396 = true := by decide +kernel
theorem p8_10_P1_1 : pcPF 1553 p8_10D p8_10Tab 1 27 50000000000 1293 501 = true := by decide +kernel
theorem p8_10_P1_2 : pcPF 1553 p8_10D p8_10Tab 1 27 50000000000 2268 474 = true := by decide +kernel
theorem p8_10_P1_3 : pcPF 1553 p8_10D p8_10Tab 1 27 50000000000 3341 599 = true := by decide +kernel
theorem p8_10_P1_4 : pcPF 1553 p8_10D p8_10Tab 1 27 50000000000 4697 757 = true := by decide +kernel
theorem p8_10_P1_c0 : Covered (pcPF 1553 p8_10D p8_10Tab 1 27 50000000000) 0 792 :=
  Covered.piece 396 p8_10_P1_0 (by decide +kernel)
theorem p8_10_P1_c1 : Covered (pcPF 1553 p8_10D p8_10Tab 1 27 50000000000) 0 1794 :=
  p8_10_P1_c0.trans (Covered.piece 501 p8_10_P1_1 (by decide +kernel)) (by decide)
theorem p8_10_P1_c2 : Covered (pcPF 1553 p8_10D p8_10Tab 1 27 50000000000) 0 2742 :=
  p8_10_P1_c1.trans (Covered.piece 474 p8_10_P1_2 (by decide +kernel)) (by decide)
theorem p8_10_P1_c3 : Covered (pcPF 1553 p8_10D p8_10Tab 1 27 50000000000) 0 3940 :=
  p8_10_P1_c2.trans (Covered.piece 599 p8_10_P1_3 (by decide +kernel)) (by decide)
theorem p8_10_P1_c4 : Covered (pcPF 1553 p8_10D p8_10Tab 1 27 50000000000) 0 5454 :=
  p8_10_P1_c3.trans (Covered.piece 757 p8_10_P1_4 (by decide +kernel)) (by decide)
theorem p8_10_phi1 (x : ℝ) (hx : x ≤ 0) (hx1 : -1 ≤ x) :
    |rVal p8_10D 0 (divTab p8_10D p8_10Tab 1) x - phi 1 x| ≤ (27 : ℕ) / (50000000000 : ℕ) + 1 / 10 ^ 23 :=
  phi_sound p8_10_side (by norm_num) (by norm_num) p8_10_P1_c4 x hx hx1
theorem p8_10_P2_0 : pcPF 2057 p8_10D p8_10Tab 2 21 500000000000 396 396 = true := by decide +kernel
theorem p8_10_P2_1 : pcPF 2057 p8_10D p8_10Tab 2 21 500000000000 1167 375 = true := by decide +kernel
theorem p8_10_P2_2 : pcPF 2057 p8_10D p8_10Tab 2 21 500000000000 2016 474 = true := by decide +kernel
theorem p8_10_P2_3 : pcPF 2057 p8_10D p8_10Tab 2 21 500000000000 2939 449 = true := by decide +kernel
theorem p8_10_P2_4 : pcPF 2057 p8_10D p8_10Tab 2 21 500000000000 3955 567 = true := by decide +kernel
theorem p8_10_P2_c0 : Covered (pcPF 2057 p8_10D p8_10Tab 2 21 500000000000) 0 792 :=
  Covered.piece 396 p8_10_P2_0 (by decide +kernel)
theorem p8_10_P2_c1 : Covered (pcPF 2057 p8_10D p8_10Tab 2 21 500000000000) 0 1542 :=
  p8_10_P2_c0.trans (Covered.piece 375 p8_10_P2_1 (by decide +kernel)) (by decide)
theorem p8_10_P2_c2 : Covered (pcPF 2057 p8_10D p8_10Tab 2 21 500000000000) 0 2490 :=
  p8_10_P2_c1.trans (Covered.piece 474 p8_10_P2_2 (by decide +kernel)) (by decide)
theorem p8_10_P2_c3 : Covered (pcPF 2057 p8_10D p8_10Tab 2 21 500000000000) 0 3388 :=
  p8_10_P2_c2.trans (Covered.piece 449 p8_10_P2_3 (by decide +kernel)) (by decide)
theorem p8_10_P2_c4 : Covered (pcPF 2057 p8_10D p8_10Tab 2 21 500000000000) 0 4522 :=
  p8_10_P2_c3.trans (Covered.piece 567 p8_10_P2_4 (by decide +kernel)) (by decide)
theorem p8_10_phi2 (x : ℝ) (hx : x ≤ 0) (hx1 : -1 ≤ x) :
    |rVal p8_10D 0 (divTab p8_10D p8_10Tab 2) x - phi 2 x| ≤ (21 : ℕ) / (500000000000 : ℕ) + 1 / 10 ^ 23 :=
  phi_sound p8_10_side (by norm_num) (by norm_num) p8_10_P2_c4 x hx hx1

/-! ### `pade_10_12` -/

def p10_12D : ℤ := 100000000000000
def p10_12C0 : ℤ := 0
def p10_12Tab : List RTerm := [
  ⟨470228142811029, -1868909424200890, -8498328318802360, 7753678604539990, 1⟩,
  ⟨867056097339053, -1492542730783170, 437578428468484000, 28320143438903200, 1⟩,
  ⟨1122460683391950, -1146737034267010, -4040453776908100000, -2465869572140720000, 1⟩,
  ⟨1292591727915020, -813362237863904, 14478483497279100000, 18266996646145000000, 1⟩,
  ⟨1398363923112610, -486081102719189, -23461895809771500000, -58447320518736800000, 1⟩,
  ⟨1449299425430340, -161733100604584, 12594785985449600000, 100930377761925000000, 1⟩]

theorem p10_12_side : sideTab p10_12D p10_12Tab = true := by decide +kernel
theorem p10_12_E_0 : pcE 1299 p10_12D p10_12C0 p10_12Tab 3 250000 705 705 = true := by decide +kernel
theorem p10_12_E_1 : pcE 1299 p10_12D p10_12C0 p10_12Tab 3 250000 2078 668 = true := by decide +kernel
theorem p10_12_E_2 : pcE 1299 p10_12D p10_12C0 p10_12Tab 3 250000 3591 845 = true := by decide +kernel
theorem p10_12_E_c0 : Covered (pcE 1299 p10_12D p10_12C0 p10_12Tab 3 250000) 0 1410 :=
  Covered.piece 705 p10_12_E_0 (by decide +kernel)
theorem p10_12_E_c1 : Covered (pcE 1299 p10_12D p10_12C0 p10_12Tab 3 250000) 0 2746 :=
  p10_12_E_c0.trans (Covered.piece 668 p10_12_E_1 (by decide +kernel)) (by decide)
theorem p10_12_E_c2 : Covered (pcE 1299 p10_12D p10_12C0 p10_12Tab 3 250000) 0 4436 :=
  p10_12_E_c1.trans (Covered.piece 845 p10_12_E_2 (by decide +kernel)) (by decide)
theorem p10_12_exp (x : ℝ) (hx : x ≤ 0) (hx1 : -1 ≤ x) :
    |rVal p10_12D p10_12C0 p10_12Tab x - Real.exp x| ≤ (3 : ℕ) / (250000 : ℕ) + 1 / 10 ^ 23 :=
  exp_near p10_12_side (by norm_num) (by norm_num) (by norm_num) p10_12_E_c2 x hx hx1
theorem p10_12_P1_0 : pcPF 1788 p10_12D p10_12Tab 1 3 2500000 705 705 = true := by decide +kernel
theorem p10_12_P1_1 : pcPF 1788 p10_12D p10_12Tab 1 3 2500000 2078 668 = true := by decide +kernel
theorem p10_12_P1_2 : pcPF 1788 p10_12D p10_12Tab 1 3 2500000 3591 845 = true := by decide +kernel
theorem p10_12_P1_c0 : Covered (pcPF 1788 p10_12D p10_12Tab 1 3 2500000) 0 1410 :=
  Covered.piece 705 p10_12_P1_0 (by decide +kernel)
theorem p10_12_P1_c1 : Covered (pcPF 1788 p10_12D p10_12Tab 1 3 2500000) 0 2746 :=
  p10_12_P1_c0.trans (Covered.piece 668 p10_12_P1_1 (by decide +kernel)) (by decide)
theorem p10_12_P1_c2 : Covered (pcPF 1788 p10_12D p10_12Tab 1 3 2500000) 0 4436 :=
  p10_12_P1_c1.trans (Covered.piece 845 p10_12_P1_2 (by decide +kernel)) (by decide)
theorem p10_12_phi1 (x : ℝ) (hx : x ≤ 0) (hx1 : -1 ≤ x) :
    |rVal p10_12D 0 (divTab p10_12D p10_12Tab 1) x - phi 1 x| ≤ (3 : ℕ) / (2500000 : ℕ) + 1 / 10 ^ 23 :=
  phi_sound p10_12_side (by norm_num) (by norm_num) p10_12_P1_c2 x hx hx1
theorem p10_12_P2_0 : pcPF 2396 p10_12D p10_12Tab 2 3 31250000 396 396 = true := by decide +kernel
theorem p10_12_P2_1 : pcPF 2396 p10_12D p10_12Tab 2 3 31250000 1293 501 = true := by decide +kernel
theorem p10_12_P2_2 : pcPF 2396 p10_12D p10_12Tab 2 3 31250000 2268 474 = true := by decide +kernel
theorem p10_12_P2_3 : pcPF 2396 p10_12D p10_12Tab 2 3 31250000 3341 599 = true := by decide +kernel
theorem p10_12_P2_4 : pcPF 2396 p10_12D p10_12Tab 2 3 31250000 4697 757 = true := by decide +kernel
theorem p10_12_P2_c0 : Covered (pcPF 2396 p10_12D p10_12Tab 2 3 31250000) 0 792 :=
  Covered.piece 396 p10_12_P2_0 (by decide +kernel)
theorem p10_12_P2_c1 : Covered (pcPF 2396 p10_12D p10_12Tab 2 3 31250000) 0 1794 :=
  p10_12_P2_c0.trans (Covered.piece 501 p10_12_P2_1 (by decide +kernel)) (by decide)
theorem p10_12_P2_c2 : Covered (pcPF 2396 p10_12D p10_12Tab 2 3 31250000) 0 2742 :=
  p10_12_P2_c1.trans (Covered.piece 474 p10_12_P2_2 (by decide +kernel)) (by decide)
theorem p10_12_P2_c3 : Covered (pcPF 2396 p10_12D p10_12Tab 2 3 31250000) 0 3940 :=
  p10_12_P2_c2.trans (Covered.piece 599 p10_12_P2_3 (by decide +kernel)) (by decide)
theorem p10_12_P2_c4 : Covered (pcPF 2396 p10_12D p10_12Tab 2 3 31250000) 0 5454 :=
  p10_12_P2_c3.trans (Covered.piece 757 p10_12_P2_4 (by decide +kernel)) (by decide)
theorem p10_12_phi2 (x : ℝ) (hx : x ≤ 0) (hx1 : -1 ≤ x) :
    |rVal p10_12D 0 (divTab p10_12D p10_12Tab 2) x - phi 2 x| ≤ (3 : ℕ) / (31250000 : ℕ) + 1 / 10 ^ 23 :=
  phi_sound p10_12_side (by norm_num) (by norm_num) p10_12_P2_c4 x hx hx1

/-! ### `pade_12_14` -/

def p12_14D : ℤ := 100000000000000
def p12_14C0 : ℤ := 0
def p12_14Tab : List RTerm := [
  ⟨511787189461895, -2245270182315940, 3614430148318730, -18229525572624300, 1⟩,
  ⟨945335791648157, -1853341976027680, -929367610371230000, 434390374321708000, 1⟩,
  ⟨1235050436355010, -1496568426269990, 15433200451409500000, 2086551320319410000, 1⟩,
  ⟨1439628584290220, -1154719656612770, -91639803446828300000, -56236354771765500000, 1⟩,
  ⟨1581463383653840, -820671881319247, 260965182162727000000, 318944066032174000000, 1⟩,
  ⟨1671472578836420, -490937805514902, -373564354639738000000, -893145939977566000000, 1⟩,
  ⟨1715262035754480, -163417615340624, 189731526905100000000, 1455055054336510000000, 1⟩]

theorem p12_14_side : sideTab p12_14D p12_14Tab = true := by decide +kernel
theorem p12_14_E_0 : pcE 1432 p12_14D p12_14C0 p12_14Tab 3 1000 396 396 = true := by decide +kernel
theorem p12_14_E_1 : pcE 1432 p12_14D p12_14C0 p12_14Tab 3 1000 1293 501 = true := by decide +kernel
theorem p12_14_E_2 : pcE 1432 p12_14D p12_14C0 p12_14Tab 3 1000 2268 474 = true := by decide +kernel
theorem p12_14_E_3 : pcE 1432 p12_14D p12_14C0 p12_14Tab 3 1000 3341 599 = true := by decide +kernel
theorem p12_14_E_4 : pcE 1432 p12_14D p12_14C0 p12_14Tab 3 1000 4507 567 = true := by decide +kernel
theorem p12_14_E_c0 : Covered (pcE 1432 p12_14D p12_14C0 p12_14Tab 3 1000) 0 792 :=
  Covered.piece 396 p12_14_E_0 (by decide +kernel)
theorem p12_14_E_c1 : Covered (pcE 1432 p12_14D p12_14C0 p12_14Tab 3 1000) 0 1794 :=
  p12_14_E_c0.trans (Covered.piece 501 p12_14_E_1 (by decide +kernel)) (by decide)
theorem p12_14_E_c2 : Covered (pcE 1432 p12_14D p12_14C0 p12_14Tab 3 1000) 0 2742 :=
  p12_14_E_c1.trans (Covered.piece 474 p12_14_E_2 (by decide +kernel)) (by decide)
theorem p12_14_E_c3 : Covered (pcE 1432 p12_14D p12_14C0 p12_14Tab 3 1000) 0 3940 :=
  p12_14_E_c2.trans (Covered.piece 599 p12_14_E_3 (by decide +kernel)) (by decide)
theorem p12_14_E_c4 : Covered (pcE 1432 p12_14D p12_14C0 p12_14Tab 3 1000) 0 5074 :=
  p12_14_E_c3.trans (Covered.piece 567 p12_14_E_4 (by decide +kernel)) (by decide)
theorem p12_14_exp (x : ℝ) (hx : x ≤ 0) (hx1 : -1 ≤ x) :
    |rVal p12_14D p12_14C0 p12_14Tab x - Real.exp x| ≤ (3 : ℕ) / (1000 : ℕ) + 1 / 10 ^ 23 :=
  exp_near p12_14_side (by norm_num) (by norm_num) (by norm_num) p12_14_E_c4 x hx hx1
theorem p12_14_P1_0 : pcPF 2023 p12_14D p12_14Tab 1 21 100000 528 528 = true := by decide +kernel
theorem p12_14_P1_1 : pcPF 2023 p12_14D p12_14Tab 1 21 100000 1557 501 = true := by decide +kernel
theorem p12_14_P1_2 : pcPF 2023 p12_14D p12_14Tab 1 21 100000 2691 633 = true := by decide +kernel
theorem p12_14_P1_3 : pcPF 2023 p12_14D p12_14Tab 1 21 100000 3924 600 = true := by decide +kernel
theorem p12_14_P1_c0 : Covered (pcPF 2023 p12_14D p12_14Tab 1 21 100000) 0 1056 :=
  Covered.piece 528 p12_14_P1_0 (by decide +kernel)
theorem p12_14_P1_c1 : Covered (pcPF 2023 p12_14D p12_14Tab 1 21 100000) 0 2058 :=
  p12_14_P1_c0.trans (Covered.piece 501 p12_14_P1_1 (by decide +kernel)) (by decide)
theorem p12_14_P1_c2 : Covered (pcPF 2023 p12_14D p12_14Tab 1 21 100000) 0 3324 :=
  p12_14_P1_c1.trans (Covered.piece 633 p12_14_P1_2 (by decide +kernel)) (by decide)
theorem p12_14_P1_c3 : Covered (pcPF 2023 p12_14D p12_14Tab 1 21 100000) 0 4524 :=
  p12_14_P1_c2.trans (Covered.piece 600 p12_14_P1_3 (by decide +kernel)) (by decide)
theorem p12_14_phi1 (x : ℝ) (hx : x ≤ 0) (hx1 : -1 ≤ x) :
    |rVal p12_14D 0 (divTab p12_14D p12_14Tab 1) x - phi 1 x| ≤ (21 : ℕ) / (100000 : ℕ) + 1 / 10 ^ 23 :=
  phi_sound p12_14_side (by norm_num) (by norm_num) p12_14_P1_c3 x hx hx1
theorem p12_14_P2_0 : pcPF 2736 p12_14D p12_14Tab 2 13 1000000 396 396 = true := by decide +kernel
theorem p12_14_P2_1 : pcPF 2736 p12_14D p12_14Tab 2 13 1000000 1293 501 = true := by decide +kernel
theorem p12_14_P2_2 : pcPF 2736 p12_14D p12_14Tab 2 13 1000000 2268 474 = true := by decide +kernel
theorem p12_14_P2_3 : pcPF 2736 p12_14D p12_14Tab 2 13 1000000 3341 599 = true := by decide +kernel
theorem p12_14_P2_4 : pcPF 2736 p12_14D p12_14Tab 2 13 1000000 4507 567 = true := by decide +kernel
theorem p12_14_P2_c0 : Covered (pcPF 2736 p12_14D p12_14Tab 2 13 1000000) 0 792 :=
  Covered.piece 396 p12_14_P2_0 (by decide +kernel)
theorem p12_14_P2_c1 : Covered (pcPF 2736 p12_14D p12_14Tab 2 13 1000000) 0 1794 :=
  p12_14_P2_c0.trans (Covered.piece 501 p12_14_P2_1 (by decide +kernel)) (by decide)
theorem p12_14_P2_c2 : Covered (pcPF 2736 p12_14D p12_14Tab 2 13 1000000) 0 2742 :=
  p12_14_P2_c1.trans (Covered.piece 474 p12_14_P2_2 (by decide +kernel)) (by decide)
theorem p12_14_P2_c3 : Covered (pcPF 2736 p12_14D p12_14Tab 2 13 1000000) 0 3940 :=
  p12_14_P2_c2.trans (Covered.piece 599 p12_14_P2_3 (by decide +kernel)) (by decide)
theorem p12_14_P2_c4 : Covered (pcPF 2736 p12_14D p12_14Tab 2 13 1000000) 0 5074 :=
  p12_14_P2_c3.trans (Covered.piece 567 p12_14_P2_4 (by decide +kernel)) (by decide)
theorem p12_14_phi2 (x : ℝ) (hx : x ≤ 0) (hx1 : -1 ≤ x) :
    |rVal p12_14D 0 (divTab p12_14D p12_14Tab 2) x - phi 2 x| ≤ (13 : ℕ) / (1000000 : ℕ) + 1 / 10 ^ 23 :=
  phi_sound p12_14_side (by norm_num) (by norm_num) p12_14_P2_c4 x hx hx1

/-! ### `pade_14_16` -/

def p14_16D : ℤ := 100000000000000
def p14_16C0 : ℤ := 0
def p14_16Tab : List RTerm := [
  ⟨549361318603890, -2623996550494600, 12698129266485800, 25593009469791000, 1⟩,
  ⟨1015607815167150, -2217983762574540, 1241137436727130000, -1808442880179390000, 1⟩,
  ⟨1335447600106110, -1851173976846580, -42779328486008000000, 13861310342477000000, 1⟩,
  ⟨1569761834362540, -1501497891355700, 410778976637045000000, 68433075608604800000, 1⟩,
  ⟨1742055935551980, -1161123967521700, -1836633411061430000000, -1118612189967920000000, 1⟩,
  ⟨1864149511801190, -826233278072527, 4436330257759700000000, 5281460140312240000000, 1⟩,
  ⟨1942600239273840, -494590541832561, -5781779595836720000000, -13403134468854800000000, 1⟩,
  ⟨1981015745133280, -164681446196597, 2812830177413300000000, 20887146721848300000000, 1⟩]

theorem p14_16_side : sideTab p14_16D p14_16Tab = true := by decide +kernel
theorem p14_16_E_0 : pcE 1565 p14_16D p14_16C0 p14_16Tab 11 10 396 396 = true := by decide +kernel
theorem p14_16_E_1 : pcE 1565 p14_16D p14_16C0 p14_16Tab 11 10 1293 501 = true := by decide +kernel
theorem p14_16_E_2 : pcE 1565 p14_16D p14_16C0 p14_16Tab 11 10 2268 474 = true := by decide +kernel
theorem p14_16_E_3 : pcE 1565 p14_16D p14_16C0 p14_16Tab 11 10 3341 599 = true := by decide +kernel
theorem p14_16_E_4 : pcE 1565 p14_16D p14_16C0 p14_16Tab 11 10 4507 567 = true := by decide +kernel
theorem p14_16_E_c0 : Covered (pcE 1565 p14_16D p14_16C0 p14_16Tab 11 10) 0 792 :=
  Covered.piece 396 p14_16_E_0 (by decide +kernel)
theorem p14_16_E_c1 : Covered (pcE 1565 p14_16D p14_16C0 p14_16Tab 11 10) 0 1794 :=
  p14_16_E_c0.trans (Covered.piece 501 p14_16_E_1 (by decide +kernel)) (by decide)
theorem p14_16_E_c2 : Covered (pcE 1565 p14_16D p14_16C0 p14_16Tab 11 10) 0 2742 :=
  p14_16_E_c1.trans (Covered.piece 474 p14_16_E_2 (by decide +kernel)) (by decide)
theorem p14_16_E_c3 : Covered (pcE 1565 p14_16D p14_16C0 p14_16Tab 11 10) 0 3940 :=
  p14_16_E_c2.trans (Covered.piece 599 p14_16_E_3 (by decide +kernel)) (by decide)
theorem p14_16_E_c4 : Covered (pcE 1565 p14_16D p14_16C0 p14_16Tab 11 10) 0 5074 :=
  p14_16_E_c3.trans (Covered.piece 567 p14_16_E_4 (by decide +kernel)) (by decide)
theorem p14_16_exp (x : ℝ) (hx : x ≤ 0) (hx1 : -1 ≤ x) :
    |rVal p14_16D p14_16C0 p14_16Tab x - Real.exp x| ≤ (11 : ℕ) / (10 : ℕ) + 1 / 10 ^ 23 :=
  exp_near p14_16_side (by norm_num) (by norm_num) (by norm_num) p14_16_E_c4 x hx hx1
theorem p14_16_P1_0 : pcPF 2260 p14_16D p14_16Tab 1 7 125 396 396 = true := by decide +kernel
theorem p14_16_P1_1 : pcPF 2260 p14_16D p14_16Tab 1 7 125 1293 501 = true := by decide +kernel
theorem p14_16_P1_2 : pcPF 2260 p14_16D p14_16Tab 1 7 125 2268 474 = true := by decide +kernel
theorem p14_16_P1_3 : pcPF 2260 p14_16D p14_16Tab 1 7 125 3341 599 = true := by decide +kernel
theorem p14_16_P1_4 : pcPF 2260 p14_16D p14_16Tab 1 7 125 4507 567 = true := by decide +kernel
theorem p14_16_P1_c0 : Covered (pcPF 2260 p14_16D p14_16Tab 1 7 125) 0 792 :=
  Covered.piece 396 p14_16_P1_0 (by decide +kernel)
theorem p14_16_P1_c1 : Covered (pcPF 2260 p14_16D p14_16Tab 1 7 125) 0 1794 :=
  p14_16_P1_c0.trans (Covered.piece 501 p14_16_P1_1 (by decide +kernel)) (by decide)
theorem p14_16_P1_c2 : Covered (pcPF 2260 p14_16D p14_16Tab 1 7 125) 0 2742 :=
  p14_16_P1_c1.trans (Covered.piece 474 p14_16_P1_2 (by decide +kernel)) (by decide)
theorem p14_16_P1_c3 : Covered (pcPF 2260 p14_16D p14_16Tab 1 7 125) 0 3940 :=
  p14_16_P1_c2.trans (Covered.piece 599 p14_16_P1_3 (by decide +kernel)) (by decide)
theorem p14_16_P1_c4 : Covered (pcPF 2260 p14_16D p14_16Tab 1 7 125) 0 5074 :=
  p14_16_P1_c3.trans (Covered.piece 567 p14_16_P1_4 (by decide +kernel)) (by decide)
theorem p14_16_phi1 (x : ℝ) (hx : x ≤ 0) (hx1 : -1 ≤ x) :
    |rVal p14_16D 0 (divTab p14_16D p14_16Tab 1) x - phi 1 x| ≤ (7 : ℕ) / (125 : ℕ) + 1 / 10 ^ 23 :=
  phi_sound p14_16_side (by norm_num) (by norm_num) p14_16_P1_c4 x hx hx1
theorem p14_16_P2_0 : pcPF 3078 p14_16D p14_16Tab 2 7 2500 528 528 = true := by decide +kernel
theorem p14_16_P2_1 : pcPF 3078 p14_16D p14_16Tab 2 7 2500 1557 501 = true := by decide +kernel
theorem p14_16_P2_2 : pcPF 3078 p14_16D p14_16Tab 2 7 2500 2691 633 = true := by decide +kernel
theorem p14_16_P2_3 : pcPF 3078 p14_16D p14_16Tab 2 7 2500 3924 600 = true := by decide +kernel
theorem p14_16_P2_c0 : Covered (pcPF 3078 p14_16D p14_16Tab 2 7 2500) 0 1056 :=
  Covered.piece 528 p14_16_P2_0 (by decide +kernel)
theorem p14_16_P2_c1 : Covered (pcPF 3078 p14_16D p14_16Tab 2 7 2500) 0 2058 :=
  p14_16_P2_c0.trans (Covered.piece 501 p14_16_P2_1 (by decide +kernel)) (by decide)
theorem p14_16_P2_c2 : Covered (pcPF 3078 p14_16D p14_16Tab 2 7 2500) 0 3324 :=
  p14_16_P2_c1.trans (Covered.piece 633 p14_16_P2_2 (by decide +kernel)) (by decide)
theorem p14_16_P2_c3 : Covered (pcPF 3078 p14_16D p14_16Tab 2 7 2500) 0 4524 :=
  p14_16_P2_c2.trans (Covered.piece 600 p14_16_P2_3 (by decide +kernel)) (by decide)
theorem p14_16_phi2 (x : ℝ) (hx : x ≤ 0) (hx1 : -1 ≤ x) :
    |rVal p14_16D 0 (divTab p14_16D p14_16Tab 2) x - phi 2 x| ≤ (7 : ℕ) / (2500 : ℕ) + 1 / 10 ^ 23 :=
  phi_sound p14_16_side (by norm_num) (by norm_num) p14_16_P2_c3 x hx hx1

/-! ### `pade_0_4` -/

def p0_4D : ℤ := 1000000000000000
def p0_4C0 : ℤ := 0
def p0_4Tab : List RTerm := [
  ⟨270555768932294, -2504775904362430, 541413348429157, -248562520866118, 1⟩,
  ⟨1729444231067700, -888974376121866, -541413348429161, 1588859182223280, 1⟩]

theorem p0_4_side : sideTab p0_4D p0_4Tab = true := by decide +kernel
theorem p0_4_E_0 : pcE 792 p0_4D p0_4C0 p0_4Tab 1 625 1255 1255 = true := by decide +kernel
theorem p0_4_E_1 : pcE 792 p0_4D p0_4C0 p0_4Tab 1 625 3038 528 = true := by decide +kernel
theorem p0_4_E_2 : pcE 792 p0_4D p0_4C0 p0_4Tab 1 625 3776 210 = true := by decide +kernel
theorem p0_4_E_c0 : Covered (pcE 792 p0_4D p0_4C0 p0_4Tab 1 625) 0 2510 :=
  Covered.piece 1255 p0_4_E_0 (by decide +kernel)
theorem p0_4_E_c1 : Covered (pcE 792 p0_4D p0_4C0 p0_4Tab 1 625) 0 3566 :=
  p0_4_E_c0.trans (Covered.piece 528 p0_4_E_1 (by decide +kernel)) (by decide)
theorem p0_4_E_c2 : Covered (pcE 792 p0_4D p0_4C0 p0_4Tab 1 625) 0 3986 :=
  p0_4_E_c1.trans (Covered.piece 210 p0_4_E_2 (by decide +kernel)) (by decide)
theorem p0_4_exp (x : ℝ) (hx : x ≤ 0) (hx1 : -1 ≤ x) :
    |rVal p0_4D p0_4C0 p0_4Tab x - Real.exp x| ≤ (1 : ℕ) / (625 : ℕ) + 1 / 10 ^ 23 :=
  exp_near p0_4_side (by norm_num) (by norm_num) (by norm_num) p0_4_E_c2 x hx hx1
theorem p0_4_P1_0 : pcPF 881 p0_4D p0_4Tab 1 1 625 1255 1255 = true := by decide +kernel
theorem p0_4_P1_1 : pcPF 881 p0_4D p0_4Tab 1 1 625 3038 528 = true := by decide +kernel
theorem p0_4_P1_2 : pcPF 881 p0_4D p0_4Tab 1 1 625 3776 210 = true := by decide +kernel
theorem p0_4_P1_c0 : Covered (pcPF 881 p0_4D p0_4Tab 1 1 625) 0 2510 :=
  Covered.piece 1255 p0_4_P1_0 (by decide +kernel)
theorem p0_4_P1_c1 : Covered (pcPF 881 p0_4D p0_4Tab 1 1 625) 0 3566 :=
  p0_4_P1_c0.trans (Covered.piece 528 p0_4_P1_1 (by decide +kernel)) (by decide)
theorem p0_4_P1_c2 : Covered (pcPF 881 p0_4D p0_4Tab 1 1 625) 0 3986 :=
  p0_4_P1_c1.trans (Covered.piece 210 p0_4_P1_2 (by decide +kernel)) (by decide)
theorem p0_4_phi1 (x : ℝ) (hx : x ≤ 0) (hx1 : -1 ≤ x) :
    |rVal p0_4D 0 (divTab p0_4D p0_4Tab 1) x - phi 1 x| ≤ (1 : ℕ) / (625 : ℕ) + 1 / 10 ^ 23 :=
  phi_sound p0_4_side (by norm_num) (by norm_num) p0_4_P1_c2 x hx hx1
theorem p0_4_P2_0 : pcPF 1089 p0_4D p0_4Tab 2 1 625 1255 1255 = true := by decide +kernel
theorem p0_4_P2_1 : pcPF 1089 p0_4D p0_4Tab 2 1 625 3038 528 = true := by decide +kernel
theorem p0_4_P2_2 : pcPF 1089 p0_4D p0_4Tab 2 1 625 3776 210 = true := by decide +kernel
theorem p0_4_P2_c0 : Covered (pcPF 1089 p0_4D p0_4Tab 2 1 625) 0 2510 :=
  Covered.piece 1255 p0_4_P2_0 (by decide +kernel)
theorem p0_4_P2_c1 : Covered (pcPF 1089 p0_4D p0_4Tab 2 1 625) 0 3566 :=
  p0_4_P2_c0.trans (Covered.piece 528 p0_4_P2_1 (by decide +kernel)) (by decide)
theorem p0_4_P2_c2 : Covered (pcPF 1089 p0_4D p0_4Tab 2 1 625) 0 3986 :=
  p0_4_P2_c1.trans (Covered.piece 210 p0_4_P2_2 (by decide +kernel)) (by decide)
theorem p0_4_phi2 (x : ℝ) (hx : x ≤ 0) (hx1 : -1 ≤ x) :
    |rVal p0_4D 0 (divTab p0_4D p0_4Tab 2) x - phi 2 x| ≤ (1 : ℕ) / (625 : ℕ) + 1 / 10 ^ 23 :=
  phi_sound p0_4_side (by norm_num) (by norm_num) p0_4_P2_c2 x hx hx1

/-! ### `pade_0_6` -/

def p0_6D : ℤ := 10000000000000000
def p0_6C0 : ℤ := 0
def p0_6Tab : List RTerm := [
  ⟨-8036115710318470, -36977017536291500, -693778561443808, -2352350580506980, 1⟩,
  ⟨14418013905495400, -24345226818083800, 14001477941203400, -932961814214537, 1⟩,
  ⟨23618101804823000, -8383502779179650, -13307699379759900, 25830478218801000, 1⟩]

theorem p0_6_side : sideTab p0_6D p0_6Tab = true := by decide +kernel
theorem p0_6_E_0 : pcE 944 p0_6D p0_6C0 p0_6Tab 7 200000 1255 1255 = true := by decide +kernel
theorem p0_6_E_1 : pcE 944 p0_6D p0_6C0 p0_6Tab 7 200000 3038 528 = true := by decide +kernel
theorem p0_6_E_2 : pcE 944 p0_6D p0_6C0 p0_6Tab 7 200000 3776 210 = true := by decide +kernel
theorem p0_6_E_c0 : Covered (pcE 944 p0_6D p0_6C0 p0_6Tab 7 200000) 0 2510 :=
  Covered.piece 1255 p0_6_E_0 (by decide +kernel)
theorem p0_6_E_c1 : Covered (pcE 944 p0_6D p0_6C0 p0_6Tab 7 200000) 0 3566 :=
  p0_6_E_c0.trans (Covered.piece 528 p0_6_E_1 (by decide +kernel)) (by decide)
theorem p0_6_E_c2 : Covered (pcE 944 p0_6D p0_6C0 p0_6Tab 7 200000) 0 3986 :=
  p0_6_E_c1.trans (Covered.piece 210 p0_6_E_2 (by decide +kernel)) (by decide)
theorem p0_6_exp (x : ℝ) (hx : x ≤ 0) (hx1 : -1 ≤ x) :
    |rVal p0_6D p0_6C0 p0_6Tab x - Real.exp x| ≤ (7 : ℕ) / (200000 : ℕ) + 1 / 10 ^ 23 :=
  exp_near p0_6_side (by norm_num) (by norm_num) (by norm_num) p0_6_E_c2 x hx hx1
theorem p0_6_P1_0 : pcPF 1157 p0_6D p0_6Tab 1 7 200000 1255 1255 = true := by decide +kernel
theorem p0_6_P1_1 : pcPF 1157 p0_6D p0_6Tab 1 7 200000 3038 528 = true := by decide +kernel
theorem p0_6_P1_2 : pcPF 1157 p0_6D p0_6Tab 1 7 200000 3776 210 = true := by decide +kernel
theorem p0_6_P1_c0 : Covered (pcPF 1157 p0_6D p0_6Tab 1 7 200000) 0 2510 :=
  Covered.piece 1255 p0_6_P1_0 (by decide +kernel)
theorem p0_6_P1_c1 : Covered (pcPF 1157 p0_6D p0_6Tab 1 7 200000) 0 3566 :=
  p0_6_P1_c0.trans (Covered.piece 528 p0_6_P1_1 (by decide +kernel)) (by decide)
theorem p0_6_P1_c2 : Covered (pcPF 1157 p0_6D p0_6Tab 1 7 200000) 0 3986 :=
  p0_6_P1_c1.trans (Covered.piece 210 p0_6_P1_2 (by decide +kernel)) (by decide)
theorem p0_6_phi1 (x : ℝ) (hx : x ≤ 0) (hx1 : -1 ≤ x) :
    |rVal p0_6D 0 (divTab p0_6D p0_6Tab 1) x - phi 1 x| ≤ (7 : ℕ) / (200000 : ℕ) + 1 / 10 ^ 23 :=
  phi_sound p0_6_side (by norm_num) (by norm_num) p0_6_P1_c2 x hx hx1
theorem p0_6_P2_0 : pcPF 1489 p0_6D p0_6Tab 2 7 200000 1255 1255 = true := by decide +kernel
theorem p0_6_P2_1 : pcPF 1489 p0_6D p0_6Tab 2 7 200000 3038 528 = true := by decide +kernel
theorem p0_6_P2_2 : pcPF 1489 p0_6D p0_6Tab 2 7 200000 3776 210 = true := by decide +kernel
theorem p0_6_P2_c0 : Covered (pcPF 1489 p0_6D p0_6Tab 2 7 200000) 0 2510 :=
  Covered.piece 1255 p0_6_P2_0 (by decide +kernel)
theorem p0_6_P2_c1 : Covered (pcPF 1489 p0_6D p0_6Tab 2 7 200000) 0 3566 :=
  p0_6_P2_c0.trans (Covered.piece 528 p0_6_P2_1 (by decide +kernel)) (by decide)
theorem p0_6_P2_c2 : Covered (pcPF 1489 p0_6D p0_6Tab 2 7 200000) 0 3986 :=
  p0_6_P2_c1.trans (Covered.piece 210 p0_6_P2_2 (by decide +kernel)) (by decide)
theorem p0_6_phi2 (x : ℝ) (hx : x ≤ 0) (hx1 : -1 ≤ x) :
    |rVal p0_6D 0 (divTab p0_6D p0_6Tab 2) x - phi 2 x| ≤ (7 : ℕ) / (200000 : ℕ) + 1 / 10 ^ 23 :=
  phi_sound p0_6_side (by norm_num) (by norm_num) p0_6_P2_c2 x hx hx1

/-! ### `pade_0_8` -/

def p0_8D : ℤ := 10000000000000000
def p0_8C0 : ℤ := 0
def p0_8Tab : List RTerm := [
  ⟨-20398224097191600, -47186148839235800, -820552427903143, -101155007136702, 1⟩,
  ⟨7887936203876250, -37718107839502000, -650104001054763, -8268418796681420, 1⟩,
  ⟨22864292841711700, -23777116677939700, 28409153211289200, 4484111472108600, 1⟩,
  ⟨29645995051603600, -8088783273135090, -26938496782330800, 42957819999928600, 1⟩]

theorem p0_8_side : sideTab p0_8D p0_8Tab = true := by decide +kernel
theorem p0_8_E_0 : pcE 1081 p0_8D p0_8C0 p0_8Tab 47 100000000 1674 1674 = true := by decide +kernel
theorem p0_8_E_1 : pcE 1081 p0_8D p0_8C0 p0_8Tab 47 100000000 3645 297 = true := by decide +kernel
theorem p0_8_E_2 : pcE 1081 p0_8D p0_8C0 p0_8Tab 47 100000000 3978 36 = true := by decide +kernel
theorem p0_8_E_c0 : Covered (pcE 1081 p0_8D p0_8C0 p0_8Tab 47 100000000) 0 3348 :=
  Covered.piece 1674 p0_8_E_0 (by decide +kernel)
theorem p0_8_E_c1 : Covered (pcE 1081 p0_8D p0_8C0 p0_8Tab 47 100000000) 0 3942 :=
  p0_8_E_c0.trans (Covered.piece 297 p0_8_E_1 (by decide +kernel)) (by decide)
theorem p0_8_E_c2 : Covered (pcE 1081 p0_8D p0_8C0 p0_8Tab 47 100000000) 0 4014 :=
  p0_8_E_c1.trans (Covered.piece 36 p0_8_E_2 (by decide +kernel)) (by decide)
theorem p0_8_exp (x : ℝ) (hx : x ≤ 0) (hx1 : -1 ≤ x) :
    |rVal p0_8D p0_8C0 p0_8Tab x - Real.exp x| ≤ (47 : ℕ) / (100000000 : ℕ) + 1 / 10 ^ 23 :=
  exp_near p0_8_side (by norm_num) (by norm_num) (by norm_num) p0_8_E_c2 x hx hx1
theorem p0_8_P1_0 : pcPF 1406 p0_8D p0_8Tab 1 47 100000000 1674 1674 = true := by decide +kernel
theorem p0_8_P1_1 : pcPF 1406 p0_8D p0_8Tab 1 47 100000000 3645 297 = true := by decide +kernel
theorem p0_8_P1_2 : pcPF 1406 p0_8D p0_8Tab 1 47 100000000 3978 36 = true := by decide +kernel
theorem p0_8_P1_c0 : Covered (pcPF 1406 p0_8D p0_8Tab 1 47 100000000) 0 3348 :=
  Covered.piece 1674 p0_8_P1_0 (by decide +kernel)
theorem p0_8_P1_c1 : Covered (pcPF 1406 p0_8D p0_8Tab 1 47 100000000) 0 3942 :=
  p0_8_P1_c0.trans (Covered.piece 297 p0_8_P1_1 (by decide +kernel)) (by decide)
theorem p0_8_P1_c2 : Covered (pcPF 1406 p0_8D p0_8Tab 1 47 100000000) 0 4014 :=
  p0_8_P1_c1.trans (Covered.piece 36 p0_8_P1_2 (by decide +kernel)) (by decide)
theorem p0_8_phi1 (x : ℝ) (hx : x ≤ 0) (hx1 : -1 ≤ x) :
    |rVal p0_8D 0 (divTab p0_8D p0_8Tab 1) x - phi 1 x| ≤ (47 : ℕ) / (100000000 : ℕ) + 1 / 10 ^ 23 :=
  phi_sound p0_8_side (by norm_num) (by norm_num) p0_8_P1_c2 x hx hx1
theorem p0_8_P2_0 : pcPF 1850 p0_8D p0_8Tab 2 47 100000000 1255 1255 = true := by decide +kernel
theorem p0_8_P2_1 : pcPF 1850 p0_8D p0_8Tab 2 47 100000000 3038 528 = true := by decide +kernel
theorem p0_8_P2_2 : pcPF 1850 p0_8D p0_8Tab 2 47 100000000 3723 157 = true := by decide +kernel
theorem p0_8_P2_3 : pcPF 1850 p0_8D p0_8Tab 2 47 100000000 3942 62 = true := by decide +kernel
theorem p0_8_P2_c0 : Covered (pcPF 1850 p0_8D p0_8Tab 2 47 100000000) 0 2510 :=
  Covered.piece 1255 p0_8_P2_0 (by decide +kernel)
theorem p0_8_P2_c1 : Covered (pcPF 1850 p0_8D p0_8Tab 2 47 100000000) 0 3566 :=
  p0_8_P2_c0.trans (Covered.piece 528 p0_8_P2_1 (by decide +kernel)) (by decide)
theorem p0_8_P2_c2 : Covered (pcPF 1850 p0_8D p0_8Tab 2 47 100000000) 0 3880 :=
  p0_8_P2_c1.trans (Covered.piece 157 p0_8_P2_2 (by decide +kernel)) (by decide)
theorem p0_8_P2_c3 : Covered (pcPF 1850 p0_8D p0_8Tab 2 47 100000000) 0 4004 :=
  p0_8_P2_c2.trans (Covered.piece 62 p0_8_P2_3 (by decide +kernel)) (by decide)
theorem p0_8_phi2 (x : ℝ) (hx : x ≤ 0) (hx1 : -1 ≤ x) :
    |rVal p0_8D 0 (divTab p0_8D p0_8Tab 2) x - phi 2 x| ≤ (47 : ℕ) / (100000000 : ℕ) + 1 / 10 ^ 23 :=
  phi_sound p0_8_side (by norm_num) (by norm_num) p0_8_P2_c3 x hx hx1

/-! ### `pade_0_10` -/

def p0_10D : ℤ := 10000000000000000
def p0_10C0 : ℤ := 0
def p0_10Tab : List RTerm := [
  ⟨-33748702284721500, -56260201796982300, -156520698763973, 189322037375803, 1⟩,
  ⟨-662015463014981, -49676793704043500, -3926218185700630, -526313658859047, 1⟩,
  ⟨18716600104194900, -37701902314099500, 2167324425401990, -20672053262800200, 1⟩,
  ⟨30155357704259500, -23352238577506300, 53119950388267500, 16790628389206100, 1⟩,
  ⟨35538759939282100, -7894220828949590, -51204535929201600, 72485852243100700, 1⟩]

theorem p0_10_side : sideTab p0_10D p0_10Tab = true := by decide +kernel
theorem p0_10_E_0 : pcE 1218 p0_10D p0_10C0 p0_10Tab 21 5000000000 1674 1674 = true := by decide +kernel
theorem p0_10_E_1 : pcE 1218 p0_10D p0_10C0 p0_10Tab 21 5000000000 3645 297 = true := by decide +kernel
theorem p0_10_E_2 : pcE 1218 p0_10D p0_10C0 p0_10Tab 21 5000000000 3978 36 = true := by decide +kernel
theorem p0_10_E_c0 : Covered (pcE 1218 p0_10D p0_10C0 p0_10Tab 21 5000000000) 0 3348 :=
  Covered.piece 1674 p0_10_E_0 (by decide +kernel)
theorem p0_10_E_c1 : Covered (pcE 1218 p0_10D p0_10C0 p0_10Tab 21 5000000000) 0 3942 :=
  p0_10_E_c0.trans (Covered.piece 297 p0_10_E_1 (by decide +kernel)) (by decide)
theorem p0_10_E_c2 : Covered (pcE 1218 p0_10D p0_10C0 p0_10Tab 21 5000000000) 0 4014 :=
  p0_10_E_c1.trans (Covered.piece 36 p0_10_E_2 (by decide +kernel)) (by decide)
theorem p0_10_exp (x : ℝ) (hx : x ≤ 0) (hx1 : -1 ≤ x) :
    |rVal p0_10D p0_10C0 p0_10Tab x - Real.exp x| ≤ (21 : ℕ) / (5000000000 : ℕ) + 1 / 10 ^ 23 :=
  exp_near p0_10_side (by norm_num) (by norm_num) (by norm_num) p0_10_E_c2 x hx hx1
theorem p0_10_P1_0 : pcPF 1655 p0_10D p0_10Tab 1 21 5000000000 1674 1674 = true := by decide +kernel
theorem p0_10_P1_1 : pcPF 1655 p0_10D p0_10Tab 1 21 5000000000 3645 297 = true := by decide +kernel
theorem p0_10_P1_2 : pcPF 1655 p0_10D p0_10Tab 1 21 5000000000 3978 36 = true := by decide +kernel
theorem p0_10_P1_c0 : Covered (pcPF 1655 p0_10D p0_10Tab 1 21 5000000000) 0 3348 :=
  Covered.piece 1674 p0_10_P1_0 (by decide +kernel)
theorem p0_10_P1_c1 : Covered (pcPF 1655 p0_10D p0_10Tab 1 21 5000000000) 0 3942 :=
  p0_10_P1_c0.trans (Covered.piece 297 p0_10_P1_1 (by decide +kernel)) (by decide)
theorem p0_10_P1_c2 : Covered (pcPF 1655 p0_10D p0_10Tab 1 21 5000000000) 0 4014 :=
  p0_10_P1_c1.trans (Covered.piece 36 p0_10_P1_2 (by decide +kernel)) (by decide)
theorem p0_10_phi1 (x : ℝ) (hx : x ≤ 0) (hx1 : -1 ≤ x) :
    |rVal p0_10D 0 (divTab p0_10D p0_10Tab 1) x - phi 1 x| ≤ (21 : ℕ) / (5000000000 : ℕ) + 1 / 10 ^ 23 :=
  phi_sound p0_10_side (by norm_num) (by norm_num) p0_10_P1_c2 x hx hx1
theorem p0_10_P2_0 : pcPF 2212 p0_10D p0_10Tab 2 21 5000000000 1674 1674 = true := by decide +kernel
theorem p0_10_P2_1 : pcPF 2212 p0_10D p0_10Tab 2 21 5000000000 3645 297 = true := by decide +kernel
theorem p0_10_P2_2 : pcPF 2212 p0_10D p0_10Tab 2 21 5000000000 3978 36 = true := by decide +kernel
theorem p0_10_P2_c0 : Covered (pcPF 2212 p0_10D p0_10Tab 2 21 5000000000) 0 3348 :=
  Covered.piece 1674 p0_10_P2_0 (by decide +kernel)
theorem p0_10_P2_c1 : Covered (pcPF 2212 p0_10D p0_10Tab 2 21 5000000000) 0 3942 :=
  p0_10_P2_c0.trans (Covered.piece 297 p0_10_P2_1 (by decide +kernel)) (by decide)
theorem p0_10_P2_c2 : Covered (pcPF 2212 p0_10D p0_10Tab 2 21 5000000000) 0 4014 :=
  p0_10_P2_c1.trans (Covered.piece 36 p0_10_P2_2 (by decide +kernel)) (by decide)
theorem p0_10_phi2 (x : ℝ) (hx : x ≤ 0) (hx1 : -1 ≤ x) :
    |rVal p0_10D 0 (divTab p0_10D p0_10Tab 2) x - phi 2 x| ≤ (21 : ℕ) / (5000000000 : ℕ) + 1 / 10 ^ 23 :=
  phi_sound p0_10_side (by norm_num) (by norm_num) p0_10_P2_c2 x hx hx1

/-! ### `pade_0_12` -/

def p0_12D : ℤ := 100000000000000000
def p0_12C0 : ℤ := 0
def p0_12Tab : List RTerm := [
  ⟨-477819607660492000, -645117633742040000, 135373864938572, 654563472611298, 1⟩,
  ⟨-105342363965627000, -605949143386437000, -7762747598830270, 14389585775497900, 1⟩,
  ⟨124912514335839000, -504955510728409000, -118791589294929000, -28006443417358200, 1⟩,
  ⟨275798923119196000, -375254838235373000, 113102534164352000, -446148910130248000, 1⟩,
  ⟨368889710244616000, -230275714924704000, 959115507214772000, 420796998228030000, 1⟩,
  ⟨413560823926466000, -77554204911020500, -945799078350185000, 1234622024367020000, 1⟩]

theorem p0_12_side : sideTab p0_12D p0_12Tab = true := by decide +kernel
theorem p0_12_E_0 : pcE 1399 p0_12D p0_12C0 p0_12Tab 13 500000000000 1674 1674 = true := by decide +kernel
theorem p0_12_E_1 : pcE 1399 p0_12D p0_12C0 p0_12Tab 13 500000000000 3645 297 = true := by decide +kernel
theorem p0_12_E_2 : pcE 1399 p0_12D p0_12C0 p0_12Tab 13 500000000000 3969 27 = true := by decide +kernel
theorem p0_12_E_c0 : Covered (pcE 1399 p0_12D p0_12C0 p0_12Tab 13 500000000000) 0 3348 :=
  Covered.piece 1674 p0_12_E_0 (by decide +kernel)
theorem p0_12_E_c1 : Covered (pcE 1399 p0_12D p0_12C0 p0_12Tab 13 500000000000) 0 3942 :=
  p0_12_E_c0.trans (Covered.piece 297 p0_12_E_1 (by decide +kernel)) (by decide)
theorem p0_12_E_c2 : Covered (pcE 1399 p0_12D p0_12C0 p0_12Tab 13 500000000000) 0 3996 :=
  p0_12_E_c1.trans (Covered.piece 27 p0_12_E_2 (by decide +kernel)) (by decide)
theorem p0_12_exp (x : ℝ) (hx : x ≤ 0) (hx1 : -1 ≤ x) :
    |rVal p0_12D p0_12C0 p0_12Tab x - Real.exp x| ≤ (13 : ℕ) / (500000000000 : ℕ) + 1 / 10 ^ 23 :=
  exp_near p0_12_side (by norm_num) (by norm_num) (by norm_num) p0_12_E_c2 x hx hx1
theorem p0_12_P1_0 : pcPF 1989 p0_12D p0_12Tab 1 27 1000000000000 1674 1674 = true := by decide +kernel
theorem p0_12_P1_1 : pcPF 1989 p0_12D p0_12Tab 1 27 1000000000000 3645 297 = true := by decide +kernel
theorem p0_12_P1_2 : pcPF 1989 p0_12D p0_12Tab 1 27 1000000000000 3978 36 = true := by decide +kernel
theorem p0_12_P1_c0 : Covered (pcPF 1989 p0_12D p0_12Tab 1 27 1000000000000) 0 3348 :=
  Covered.piece 1674 p0_12_P1_0 (by decide +kernel)
theorem p0_12_P1_c1 : Covered (pcPF 1989 p0_12D p0_12Tab 1 27 1000000000000) 0 3942 :=
  p0_12_P1_c0.trans (Covered.piece 297 p0_12_P1_1 (by decide +kernel)) (by decide)
theorem p0_12_P1_c2 : Covered (pcPF 1989 p0_12D p0_12Tab 1 27 1000000000000) 0 4014 :=
  p0_12_P1_c1.trans (Covered.piece 36 p0_12_P1_2 (by decide +kernel)) (by decide)
theorem p0_12_phi1 (x : ℝ) (hx : x ≤ 0) (hx1 : -1 ≤ x) :
    |rVal p0_12D 0 (divTab p0_12D p0_12Tab 1) x - phi 1 x| ≤ (27 : ℕ) / (1000000000000 : ℕ) + 1 / 10 ^ 23 :=
  phi_sound p0_12_side (by norm_num) (by norm_num) p0_12_P1_c2 x hx hx1
theorem p0_12_P2_0 : pcPF 2699 p0_12D p0_12Tab 2 27 1000000000000 1674 1674 = true := by decide +kernel
theorem p0_12_P2_1 : pcPF 2699 p0_12D p0_12Tab 2 27 1000000000000 3645 297 = true := by decide +kernel
theorem p0_12_P2_2 : pcPF 2699 p0_12D p0_12Tab 2 27 1000000000000 3978 36 = true := by decide +kernel
theorem p0_12_P2_c0 : Covered (pcPF 2699 p0_12D p0_12Tab 2 27 1000000000000) 0 3348 :=
  Covered.piece 1674 p0_12_P2_0 (by decide +kernel)
theorem p0_12_P2_c1 : Covered (pcPF 2699 p0_12D p0_12Tab 2 27 1000000000000) 0 3942 :=
  p0_12_P2_c0.trans (Covered.piece 297 p0_12_P2_1 (by decide +kernel)) (by decide)
theorem p0_12_P2_c2 : Covered (pcPF 2699 p0_12D p0_12Tab 2 27 1000000000000) 0 4014 :=
  p0_12_P2_c1.trans (Covered.piece 36 p0_12_P2_2 (by decide +kernel)) (by decide)
theorem p0_12_phi2 (x : ℝ) (hx : x ≤ 0) (hx1 : -1 ≤ x) :
    |rVal p0_12D 0 (divTab p0_12D p0_12Tab 2) x - phi 2 x| ≤ (27 : ℕ) / (1000000000000 : ℕ) + 1 / 10 ^ 23 :=
  phi_sound p0_12_side (by norm_num) (by norm_num) p0_12_P2_c2 x hx hx1

/-! ### `pade_0_14` -/

def p0_14D : ℤ := 1000000000000000000
def p0_14C0 : ℤ := 0
def p0_14Tab : List RTerm := [
  ⟨-6232309033917050000, -7213148361604830000, 1451385410850200, 892468642956945, 1⟩,
  ⟨-2135677467731860000, -7070567935765090000, 34511330719439700, 49837851176926300, 1⟩,
  ⟨483158563940126000, -6239149283404990000, -289849462555210000, 544987960103308000, 1⟩,
  ⟨2297698411869320000, -5078392425805310000, -2946210993499840000, -1024908023323280000, 1⟩,
  ⟨3543834464412610000, -3731922592644810000, 3375115981680980000, -8917011640801770000, 1⟩,
  ⟨4330708233773710000, -2277235933932420000, 17024757227042100000, 9173484906655180000, 1⟩,
  ⟨4712586827653130000, -765102664662369000, -17199775468794200000, 21161652886706800000, 1⟩]

theorem p0_14_side : sideTab p0_14D p0_14Tab = true := by decide +kernel
theorem p0_14_E_0 : pcE 1594 p0_14D p0_14C0 p0_14Tab 9 5000000000000 297 297 = true := by decide +kernel
theorem p0_14_E_1 : pcE 1594 p0_14D p0_14C0 p0_14Tab 9 5000000000000 969 375 = true := by decide +kernel
theorem p0_14_E_2 : pcE 1594 p0_14D p0_14C0 p0_14Tab 9 5000000000000 1699 355 = true := by decide +kernel
theorem p0_14_E_3 : pcE 1594 p0_14D p0_14C0 p0_14Tab 9 5000000000000 2502 448 = true := by decide +kernel
theorem p0_14_E_4 : pcE 1594 p0_14D p0_14C0 p0_14Tab 9 5000000000000 3375 425 = true := by decide +kernel
theorem p0_14_E_5 : pcE 1594 p0_14D p0_14C0 p0_14Tab 9 5000000000000 4202 402 = true := by decide +kernel
theorem p0_14_E_c0 : Covered (pcE 1594 p0_14D p0_14C0 p0_14Tab 9 5000000000000) 0 594 :=
  Covered.piece 297 p0_14_E_0 (by decide +kernel)
theorem p0_14_E_c1 : Covered (pcE 1594 p0_14D p0_14C0 p0_14Tab 9 5000000000000) 0 1344 :=
  p0_14_E_c0.trans (Covered.piece 375 p0_14_E_1 (by decide +kernel)) (by decide)
theorem p0_14_E_c2 : Covered (pcE 1594 p0_14D p0_14C0 p0_14Tab 9 5000000000000) 0 2054 :=
  p0_14_E_c1.trans (Covered.piece 355 p0_14_E_2 (by decide +kernel)) (by decide)
theorem p0_14_E_c3 : Covered (pcE 1594 p0_14D p0_14C0 p0_14Tab 9 5000000000000) 0 2950 :=
  p0_14_E_c2.trans (Covered.piece 448 p0_14_E_3 (by decide +kernel)) (by decide)
theorem p0_14_E_c4 : Covered (pcE 1594 p0_14D p0_14C0 p0_14Tab 9 5000000000000) 0 3800 :=
  p0_14_E_c3.trans (Covered.piece 425 p0_14_E_4 (by decide +kernel)) (by decide)
theorem p0_14_E_c5 : Covered (pcE 1594 p0_14D p0_14C0 p0_14Tab 9 5000000000000) 0 4604 :=
  p0_14_E_c4.trans (Covered.piece 402 p0_14_E_5 (by decide +kernel)) (by decide)
theorem p0_14_exp (x : ℝ) (hx : x ≤ 0) (hx1 : -1 ≤ x) :
    |rVal p0_14D p0_14C0 p0_14Tab x - Real.exp x| ≤ (9 : ℕ) / (5000000000000 : ℕ) + 1 / 10 ^ 23 :=
  exp_near p0_14_side (by norm_num) (by norm_num) (by norm_num) p0_14_E_c5 x hx hx1
theorem p0_14_P1_0 : pcPF 2351 p0_14D p0_14Tab 1 7 20000000000000 705 705 = true := by decide +kernel
theorem p0_14_P1_1 : pcPF 2351 p0_14D p0_14Tab 1 7 20000000000000 2078 668 = true := by decide +kernel
theorem p0_14_P1_2 : pcPF 2351 p0_14D p0_14Tab 1 7 20000000000000 3220 474 = true := by decide +kernel
theorem p0_14_P1_3 : pcPF 2351 p0_14D p0_14Tab 1 7 20000000000000 3835 141 = true := by decide +kernel
theorem p0_14_P1_c0 : Covered (pcPF 2351 p0_14D p0_14Tab 1 7 20000000000000) 0 1410 :=
  Covered.piece 705 p0_14_P1_0 (by decide +kernel)
theorem p0_14_P1_c1 : Covered (pcPF 2351 p0_14D p0_14Tab 1 7 20000000000000) 0 2746 :=
  p0_14_P1_c0.trans (Covered.piece 668 p0_14_P1_1 (by decide +kernel)) (by decide)
theorem p0_14_P1_c2 : Covered (pcPF 2351 p0_14D p0_14Tab 1 7 20000000000000) 0 3694 :=
  p0_14_P1_c1.trans (Covered.piece 474 p0_14_P1_2 (by decide +kernel)) (by decide)
theorem p0_14_P1_c3 : Covered (pcPF 2351 p0_14D p0_14Tab 1 7 20000000000000) 0 3976 :=
  p0_14_P1_c2.trans (Covered.piece 141 p0_14_P1_3 (by decide +kernel)) (by decide)
theorem p0_14_phi1 (x : ℝ) (hx : x ≤ 0) (hx1 : -1 ≤ x) :
    |rVal p0_14D 0 (divTab p0_14D p0_14Tab 1) x - phi 1 x| ≤ (7 : ℕ) / (20000000000000 : ℕ) + 1 / 10 ^ 23 :=
  phi_sound p0_14_side (by norm_num) (by norm_num) p0_14_P1_c3 x hx hx1
theorem p0_14_P2_0 : pcPF 3227 p0_14D p0_14Tab 2 49 500000000000000 1255 1255 = true := by decide +kernel
theorem p0_14_P2_1 : pcPF 3227 p0_14D p0_14Tab 2 49 500000000000000 3038 528 = true := by decide +kernel
theorem p0_14_P2_2 : pcPF 3227 p0_14D p0_14Tab 2 49 500000000000000 3723 157 = true := by decide +kernel
theorem p0_14_P2_3 : pcPF 3227 p0_14D p0_14Tab 2 49 500000000000000 3926 46 = true := by decide +kernel
theorem p0_14_P2_c0 : Covered (pcPF 3227 p0_14D p0_14Tab 2 49 500000000000000) 0 2510 :=
  Covered.piece 1255 p0_14_P2_0 (by decide +kernel)
theorem p0_14_P2_c1 : Covered (pcPF 3227 p0_14D p0_14Tab 2 49 500000000000000) 0 3566 :=
  p0_14_P2_c0.trans (Covered.piece 528 p0_14_P2_1 (by decide +kernel)) (by decide)
theorem p0_14_P2_c2 : Covered (pcPF 3227 p0_14D p0_14Tab 2 49 500000000000000) 0 3880 :=
  p0_14_P2_c1.trans (Covered.piece 157 p0_14_P2_2 (by decide +kernel)) (by decide)
theorem p0_14_P2_c3 : Covered (pcPF 3227 p0_14D p0_14Tab 2 49 500000000000000) 0 3972 :=
  p0_14_P2_c2.trans (Covered.piece 46 p0_14_P2_3 (by decide +kernel)) (by decide)
theorem p0_14_phi2 (x : ℝ) (hx : x ≤ 0) (hx1 : -1 ≤ x) :
    |rVal p0_14D 0 (divTab p0_14D p0_14Tab 2) x - phi 2 x| ≤ (49 : ℕ) / (500000000000000 : ℕ) + 1 / 10 ^ 23 :=
  phi_sound p0_14_side (by norm_num) (by norm_num) p0_14_P2_c3 x hx hx1

/-! ### `pade_0_16` -/

def p0_16D : ℤ := 10000000000000000000
def p0_16C0 : ℤ := 0
def p0_16Tab : List RTerm := [
  ⟨-32904247642544100000, -80166191102690500000, 206654601729528000, -10644015808574100, 1⟩,
  ⟨-77261021966530400000, -79245918750735000000, 4043530420241900, -831916866099119, 1⟩,
  ⟨-3892933570901520000, -73554460597239700000, 1847766700983680000, 2086584716390940000, 1⟩,
  ⟨16915471777292200000, -63274391080590900000, -9266838279951890000, 15716130560019300000, 1⟩,
  ⟨32047496645265400000, -50858848385756800000, -65450600116478900000, -29885921732385300000, 1⟩,
  ⟨42704242898753300000, -37119335555954900000, 83001404825025700000, -170445424925996000000, 1⟩,
  ⟨49527813820832300000, -22566623844820400000, 299491641500991000000, 186642092156143000000, 1⟩,
  ⟨52863178037832800000, -7569436204818800000, -309834072762723000000, 364312103860810000000, 1⟩]

theorem p0_16_side : sideTab p0_16D p0_16Tab = true := by decide +kernel
theorem p0_16_E_0 : pcE 1803 p0_16D p0_16C0 p0_16Tab 1 400000000000 297 297 = true := by decide +kernel
theorem p0_16_E_1 : pcE 1803 p0_16D p0_16C0 p0_16Tab 1 400000000000 875 281 = true := by decide +kernel
theorem p0_16_E_2 : pcE 1803 p0_16D p0_16C0 p0_16Tab 1 400000000000 1511 355 = true := by decide +kernel
theorem p0_16_E_3 : pcE 1803 p0_16D p0_16C0 p0_16Tab 1 400000000000 2314 448 = true := by decide +kernel
theorem p0_16_E_4 : pcE 1803 p0_16D p0_16C0 p0_16Tab 1 400000000000 3329 567 = true := by decide +kernel
theorem p0_16_E_5 : pcE 1803 p0_16D p0_16C0 p0_16Tab 1 400000000000 4433 537 = true := by decide +kernel
theorem p0_16_E_c0 : Covered (pcE 1803 p0_16D p0_16C0 p0_16Tab 1 400000000000) 0 594 :=
  Covered.piece 297 p0_16_E_0 (by decide +kernel)
theorem p0_16_E_c1 : Covered (pcE 1803 p0_16D p0_16C0 p0_16Tab 1 400000000000) 0 1156 :=
  p0_16_E_c0.trans (Covered.piece 281 p0_16_E_1 (by decide +kernel)) (by decide)
theorem p0_16_E_c2 : Covered (pcE 1803 p0_16D p0_16C0 p0_16Tab 1 400000000000) 0 1866 :=
  p0_16_E_c1.trans (Covered.piece 355 p0_16_E_2 (by decide +kernel)) (by decide)
theorem p0_16_E_c3 : Covered (pcE 1803 p0_16D p0_16C0 p0_16Tab 1 400000000000) 0 2762 :=
  p0_16_E_c2.trans (Covered.piece 448 p0_16_E_3 (by decide +kernel)) (by decide)
theorem p0_16_E_c4 : Covered (pcE 1803 p0_16D p0_16C0 p0_16Tab 1 400000000000) 0 3896 :=
  p0_16_E_c3.trans (Covered.piece 567 p0_16_E_4 (by decide +kernel)) (by decide)
theorem p0_16_E_c5 : Covered (pcE 1803 p0_16D p0_16C0 p0_16Tab 1 400000000000) 0 4970 :=
  p0_16_E_c4.trans (Covered.piece 537 p0_16_E_5 (by decide +kernel)) (by decide)
theorem p0_16_exp (x : ℝ) (hx : x ≤ 0) (hx1 : -1 ≤ x) :
    |rVal p0_16D p0_16C0 p0_16Tab x - Real.exp x| ≤ (1 : ℕ) / (400000000000 : ℕ) + 1 / 10 ^ 23 :=
  exp_near p0_16_side (by norm_num) (by norm_num) (by norm_num) p0_16_E_c5 x hx hx1
theorem p0_16_P1_0 : pcPF 2740 p0_16D p0_16Tab 1 47 100000000000000 222 222 = true := by decide +kernel
theorem p0_16_P1_1 : pcPF 2740 p0_16D p0_16Tab 1 47 100000000000000 724 280 = true := by decide +kernel
theorem p0_16_P1_2 : pcPF 2740 p0_16D p0_16Tab 1 47 100000000000000 1269 265 = true := by decide +kernel
theorem p0_16_P1_3 : pcPF 2740 p0_16D p0_16Tab 1 47 100000000000000 1869 335 = true := by decide +kernel
theorem p0_16_P1_4 : pcPF 2740 p0_16D p0_16Tab 1 47 100000000000000 2521 317 = true := by decide +kernel
theorem p0_16_P1_5 : pcPF 2740 p0_16D p0_16Tab 1 47 100000000000000 3238 400 = true := by decide +kernel
theorem p0_16_P1_6 : pcPF 2740 p0_16D p0_16Tab 1 47 100000000000000 4017 379 = true := by decide +kernel
theorem p0_16_P1_c0 : Covered (pcPF 2740 p0_16D p0_16Tab 1 47 100000000000000) 0 444 :=
  Covered.piece 222 p0_16_P1_0 (by decide +kernel)
theorem p0_16_P1_c1 : Covered (pcPF 2740 p0_16D p0_16Tab 1 47 100000000000000) 0 1004 :=
  p0_16_P1_c0.trans (Covered.piece 280 p0_16_P1_1 (by decide +kernel)) (by decide)
theorem p0_16_P1_c2 : Covered (pcPF 2740 p0_16D p0_16Tab 1 47 100000000000000) 0 1534 :=
  p0_16_P1_c1.trans (Covered.piece 265 p0_16_P1_2 (by decide +kernel)) (by decide)
theorem p0_16_P1_c3 : Covered (pcPF 2740 p0_16D p0_16Tab 1 47 100000000000000) 0 2204 :=
  p0_16_P1_c2.trans (Covered.piece 335 p0_16_P1_3 (by decide +kernel)) (by decide)
theorem p0_16_P1_c4 : Covered (pcPF 2740 p0_16D p0_16Tab 1 47 100000000000000) 0 2838 :=
  p0_16_P1_c3.trans (Covered.piece 317 p0_16_P1_4 (by decide +kernel)) (by decide)
theorem p0_16_P1_c5 : Covered (pcPF 2740 p0_16D p0_16Tab 1 47 100000000000000) 0 3638 :=
  p0_16_P1_c4.trans (Covered.piece 400 p0_16_P1_5 (by decide +kernel)) (by decide)
theorem p0_16_P1_c6 : Covered (pcPF 2740 p0_16D p0_16Tab 1 47 100000000000000) 0 4396 :=
  p0_16_P1_c5.trans (Covered.piece 379 p0_16_P1_6 (by decide +kernel)) (by decide)
theorem p0_16_phi1 (x : ℝ) (hx : x ≤ 0) (hx1 : -1 ≤ x) :
    |rVal p0_16D 0 (divTab p0_16D p0_16Tab 1) x - phi 1 x| ≤ (47 : ℕ) / (100000000000000 : ℕ) + 1 / 10 ^ 23 :=
  phi_sound p0_16_side (by norm_num) (by norm_num) p0_16_P1_c6 x hx hx1
theorem p0_16_P2_0 : pcPF 3796 p0_16D p0_16Tab 2 9 200000000000000 222 222 = true := by decide +kernel
theorem p0_16_P2_1 : pcPF 3796 p0_16D p0_16Tab 2 9 200000000000000 654 210 = true := by decide +kernel
theorem p0_16_P2_2 : pcPF 3796 p0_16D p0_16Tab 2 9 200000000000000 1129 265 = true := by decide +kernel
theorem p0_16_P2_3 : pcPF 3796 p0_16D p0_16Tab 2 9 200000000000000 1645 251 = true := by decide +kernel
theorem p0_16_P2_4 : pcPF 3796 p0_16D p0_16Tab 2 9 200000000000000 2133 237 = true := by decide +kernel
theorem p0_16_P2_5 : pcPF 3796 p0_16D p0_16Tab 2 9 200000000000000 2594 224 = true := by decide +kernel
theorem p0_16_P2_6 : pcPF 3796 p0_16D p0_16Tab 2 9 200000000000000 3030 212 = true := by decide +kernel
theorem p0_16_P2_7 : pcPF 3796 p0_16D p0_16Tab 2 9 200000000000000 3442 200 = true := by decide +kernel
theorem p0_16_P2_8 : pcPF 3796 p0_16D p0_16Tab 2 9 200000000000000 3831 189 = true := by decide +kernel
theorem p0_16_P2_c0 : Covered (pcPF 3796 p0_16D p0_16Tab 2 9 200000000000000) 0 444 :=
  Covered.piece 222 p0_16_P2_0 (by decide +kernel)
theorem p0_16_P2_c1 : Covered (pcPF 3796 p0_16D p0_16Tab 2 9 200000000000000) 0 864 :=
  p0_16_P2_c0.trans (Covered.piece 210 p0_16_P2_1 (by decide +kernel)) (by decide)
theorem p0_16_P2_c2 : Covered (pcPF 3796 p0_16D p0_16Tab 2 9 200000000000000) 0 1394 :=
  p0_16_P2_c1.trans (Covered.piece 265 p0_16_P2_2 (by decide +kernel)) (by decide)
theorem p0_16_P2_c3 : Covered (pcPF 3796 p0_16D p0_16Tab 2 9 200000000000000) 0 1896 :=
  p0_16_P2_c2.trans (Covered.piece 251 p0_16_P2_3 (by decide +kernel)) (by decide)
theorem p0_16_P2_c4 : Covered (pcPF 3796 p0_16D p0_16Tab 2 9 200000000000000) 0 2370 :=
  p0_16_P2_c3.trans (Covered.piece 237 p0_16_P2_4 (by decide +kernel)) (by decide)
theorem p0_16_P2_c5 : Covered (pcPF 3796 p0_16D p0_16Tab 2 9 200000000000000) 0 2818 :=
  p0_16_P2_c4.trans (Covered.piece 224 p0_16_P2_5 (by decide +kernel)) (by decide)
theorem p0_16_P2_c6 : Covered (pcPF 3796 p0_16D p0_16Tab 2 9 200000000000000) 0 3242 :=
  p0_16_P2_c5.trans (Covered.piece 212 p0_16_P2_6 (by decide +kernel)) (by decide)
theorem p0_16_P2_c7 : Covered (pcPF 3796 p0_16D p0_16Tab 2 9 200000000000000) 0 3642 :=
  p0_16_P2_c6.trans (Covered.piece 200 p0_16_P2_7 (by decide +kernel)) (by decide)
theorem p0_16_P2_c8 : Covered (pcPF 3796 p0_16D p0_16Tab 2 9 200000000000000) 0 4020 :=
  p0_16_P2_c7.trans (Covered.piece 189 p0_16_P2_8 (by decide +kernel)) (by decide)
theorem p0_16_phi2 (x : ℝ) (hx : x ≤ 0) (hx1 : -1 ≤ x) :
    |rVal p0_16D 0 (divTab p0_16D p0_16Tab 2) x - phi 2 x| ≤ (9 : ℕ) / (200000000000000 : ℕ) + 1 / 10 ^ 23 :=
  phi_sound p0_16_side (by norm_num) (by norm_num) p0_16_P2_c8 x hx hx1

end Ormatex.Props.Cert
