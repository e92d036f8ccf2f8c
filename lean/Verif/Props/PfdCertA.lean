import Verif.Props.PfdPoly

/-!
Certificates for the shipped CRAM tables (checked by the kernel with the verified checker of `Props/PfdPoly.lean`): integer
numerators of the tables, the subdivision of the half line, and the resulting bounds.
-/

namespace Ormatex.Props.Cert
open Ormatex Ormatex.Spec


/-! ### `cram_2` -/

def cram2D : ℤ := 100000000000000000
def cram2C0 : ℤ := 739031488596509
def cram2Tab : List RTerm := [
  ⟨58505156065512500, -118584725172368000, 16915263361154100, 80980111154451800, 1⟩]

theorem cram2_side : sideTab cram2D cram2Tab = true := by decide +kernel
theorem cram2_E_0 : pcE 684 cram2D cram2C0 cram2Tab 40 5000 222 222 = true := by decide +kernel
theorem cram2_E_1 : pcE 684 cram2D cram2C0 cram2Tab 40 5000 601 157 = true := by decide +kernel
theorem cram2_E_2 : pcE 684 cram2D cram2C0 cram2Tab 40 5000 869 111 = true := by decide +kernel
theorem cram2_E_3 : pcE 684 cram2D cram2C0 cram2Tab 40 5000 1166 186 = true := by decide +kernel
theorem cram2_E_4 : pcE 684 cram2D cram2C0 cram2Tab 40 5000 1770 418 = true := by decide +kernel
theorem cram2_E_5 : pcE 684 cram2D cram2C0 cram2Tab 40 5000 2716 528 = true := by decide +kernel
theorem cram2_E_6 : pcE 684 cram2D cram2C0 cram2Tab 40 5000 3454 210 = true := by decide +kernel
theorem cram2_E_7 : pcE 684 cram2D cram2C0 cram2Tab 40 5000 3812 148 = true := by decide +kernel
theorem cram2_E_8 : pcE 684 cram2D cram2C0 cram2Tab 40 5000 4099 139 = true := by decide +kernel
theorem cram2_E_9 : pcE 684 cram2D cram2C0 cram2Tab 40 5000 4413 175 = true := by decide +kernel
theorem cram2_E_10 : pcE 684 cram2D cram2C0 cram2Tab 40 5000 4981 393 = true := by decide +kernel
theorem cram2_E_11 : pcE 684 cram2D cram2C0 cram2Tab 40 5000 6258 884 = true := by decide +kernel
theorem cram2_E_12 : pcE 684 cram2D cram2C0 cram2Tab 40 5000 8260 1118 = true := by decide +kernel
theorem cram2_E_13 : pcE 684 cram2D cram2C0 cram2Tab 40 5000 9906 528 = true := by decide +kernel
theorem cram2_E_14 : pcE 684 cram2D cram2C0 cram2Tab 40 5000 10809 375 = true := by decide +kernel
theorem cram2_E_15 : pcE 684 cram2D cram2C0 cram2Tab 40 5000 11539 355 = true := by decide +kernel
theorem cram2_E_16 : pcE 684 cram2D cram2C0 cram2Tab 40 5000 12146 252 = true := by decide +kernel
theorem cram2_E_17 : pcE 684 cram2D cram2C0 cram2Tab 40 5000 12716 318 = true := by decide +kernel
theorem cram2_E_18 : pcE 684 cram2D cram2C0 cram2Tab 40 5000 13570 536 = true := by decide +kernel
theorem cram2_E_19 : pcE 684 cram2D cram2C0 cram2Tab 40 5000 15714 1608 = true := by decide +kernel
theorem cram2_E_20 : pcE 684 cram2D cram2C0 cram2Tab 40 5000 21291 3969 = true := by decide +kernel
theorem cram2_E_21 : pcE 684 cram2D cram2C0 cram2Tab 40 5000 27492 2232 = true := by decide +kernel
theorem cram2_E_22 : pcE 684 cram2D cram2C0 cram2Tab 40 5000 31398 1674 = true := by decide +kernel
theorem cram2_E_23 : pcE 684 cram2D cram2C0 cram2Tab 40 5000 34327 1255 = true := by decide +kernel
theorem cram2_E_24 : pcE 684 cram2D cram2C0 cram2Tab 40 5000 36523 941 = true := by decide +kernel
theorem cram2_E_c0 : Covered (pcE 684 cram2D cram2C0 cram2Tab 40 5000) 0 444 :=
  Covered.piece 222 cram2_E_0 (by decide +kernel)
theorem cram2_E_c1 : Covered (pcE 684 cram2D cram2C0 cram2Tab 40 5000) 0 758 :=
  cram2_E_c0.trans (Covered.piece 157 cram2_E_1 (by decide +kernel)) (by decide)
theorem cram2_E_c2 : Covered (pcE 684 cram2D cram2C0 cram2Tab 40 5000) 0 980 :=
  cram2_E_c1.trans (Covered.piece 111 cram2_E_2 (by decide +kernel)) (by decide)
theorem cram2_E_c3 : Covered (pcE 684 cram2D cram2C0 cram2Tab 40 5000) 0 1352 :=
  cram2_E_c2.trans (Covered.piece 186 cram2_E_3 (by decide +kernel)) (by decide)
theorem cram2_E_c4 : Covered (pcE 684 cram2D cram2C0 cram2Tab 40 5000) 0 2188 :=
  cram2_E_c3.trans (Covered.piece 418 cram2_E_4 (by decide +kernel)) (by decide)
theorem cram2_E_c5 : Covered (pcE 684 cram2D cram2C0 cram2Tab 40 5000) 0 3244 :=
  cram2_E_c4.trans (Covered.piece 528 cram2_E_5 (by decide +kernel)) (by decide)
theorem cram2_E_c6 : Covered (pcE 684 cram2D cram2C0 cram2Tab 40 5000) 0 3664 :=
  cram2_E_c5.trans (Covered.piece 210 cram2_E_6 (by decide +kernel)) (by decide)
theorem cram2_E_c7 : Covered (pcE 684 cram2D cram2C0 cram2Tab 40 5000) 0 3960 :=
  cram2_E_c6.trans (Covered.piece 148 cram2_E_7 (by decide +kernel)) (by decide)
theorem cram2_E_c8 : Covered (pcE 684 cram2D cram2C0 cram2Tab 40 5000) 0 4238 :=
  cram2_E_c7.trans (Covered.piece 139 cram2_E_8 (by decide +kernel)) (by decide)
theorem cram2_E_c9 : Covered (pcE 684 cram2D cram2C0 cram2Tab 40 5000) 0 4588 :=
  cram2_E_c8.trans (Covered.piece 175 cram2_E_9 (by decide +kernel)) (by decide)
theorem cram2_E_c10 : Covered (pcE 684 cram2D cram2C0 cram2Tab 40 5000) 0 5374 :=
  cram2_E_c9.trans (Covered.piece 393 cram2_E_10 (by decide +kernel)) (by decide)
theorem cram2_E_c11 : Covered (pcE 684 cram2D cram2C0 cram2Tab 40 5000) 0 7142 :=
  cram2_E_c10.trans (Covered.piece 884 cram2_E_11 (by decide +kernel)) (by decide)
theorem cram2_E_c12 : Covered (pcE 684 cram2D cram2C0 cram2Tab 40 5000) 0 9378 :=
  cram2_E_c11.trans (Covered.piece 1118 cram2_E_12 (by decide +kernel)) (by decide)
theorem cram2_E_c13 : Covered (pcE 684 cram2D cram2C0 cram2Tab 40 5000) 0 10434 :=
  cram2_E_c12.trans (Covered.piece 528 cram2_E_13 (by decide +kernel)) (by decide)
theorem cram2_E_c14 : Covered (pcE 684 cram2D cram2C0 cram2Tab 40 5000) 0 11184 :=
  cram2_E_c13.trans (Covered.piece 375 cram2_E_14 (by decide +kernel)) (by decide)
theorem cram2_E_c15 : Covered (pcE 684 cram2D cram2C0 cram2Tab 40 5000) 0 11894 :=
  cram2_E_c14.trans (Covered.piece 355 cram2_E_15 (by decide +kernel)) (by decide)
theorem cram2_E_c16 : Covered (pcE 684 cram2D cram2C0 cram2Tab 40 5000) 0 12398 :=
  cram2_E_c15.trans (Covered.piece 252 cram2_E_16 (by decide +kernel)) (by decide)
theorem cram2_E_c17 : Covered (pcE 684 cram2D cram2C0 cram2Tab 40 5000) 0 13034 :=
  cram2_E_c16.trans (Covered.piece 318 cram2_E_17 (by decide +kernel)) (by decide)
theorem cram2_E_c18 : Covered (pcE 684 cram2D cram2C0 cram2Tab 40 5000) 0 14106 :=
  cram2_E_c17.trans (Covered.piece 536 cram2_E_18 (by decide +kernel)) (by decide)
theorem cram2_E_c19 : Covered (pcE 684 cram2D cram2C0 cram2Tab 40 5000) 0 17322 :=
  cram2_E_c18.trans (Covered.piece 1608 cram2_E_19 (by decide +kernel)) (by decide)
theorem cram2_E_c20 : Covered (pcE 684 cram2D cram2C0 cram2Tab 40 5000) 0 25260 :=
  cram2_E_c19.trans (Covered.piece 3969 cram2_E_20 (by decide +kernel)) (by decide)
theorem cram2_E_c21 : Covered (pcE 684 cram2D cram2C0 cram2Tab 40 5000) 0 29724 :=
  cram2_E_c20.trans (Covered.piece 2232 cram2_E_21 (by decide +kernel)) (by decide)
theorem cram2_E_c22 : Covered (pcE 684 cram2D cram2C0 cram2Tab 40 5000) 0 33072 :=
  cram2_E_c21.trans (Covered.piece 1674 cram2_E_22 (by decide +kernel)) (by decide)
theorem cram2_E_c23 : Covered (pcE 684 cram2D cram2C0 cram2Tab 40 5000) 0 35582 :=
  cram2_E_c22.trans (Covered.piece 1255 cram2_E_23 (by decide +kernel)) (by decide)
theorem cram2_E_c24 : Covered (pcE 684 cram2D cram2C0 cram2Tab 40 5000) 0 37464 :=
  cram2_E_c23.trans (Covered.piece 941 cram2_E_24 (by decide +kernel)) (by decide)
theorem cram2_T_0 : pcT 684 cram2D cram2C0 cram2Tab 39 5000 1556 1556 = true := by decide +kernel
theorem cram2_T_1 : pcT 684 cram2D cram2C0 cram2Tab 39 5000 3942 830 = true := by decide +kernel
theorem cram2_T_2 : pcT 684 cram2D cram2C0 cram2Tab 39 5000 5362 590 = true := by decide +kernel
theorem cram2_T_3 : pcT 684 cram2D cram2C0 cram2Tab 39 5000 6698 746 = true := by decide +kernel
theorem cram2_T_c0 : Covered (pcT 684 cram2D cram2C0 cram2Tab 39 5000) 0 3112 :=
  Covered.piece 1556 cram2_T_0 (by decide +kernel)
theorem cram2_T_c1 : Covered (pcT 684 cram2D cram2C0 cram2Tab 39 5000) 0 4772 :=
  cram2_T_c0.trans (Covered.piece 830 cram2_T_1 (by decide +kernel)) (by decide)
theorem cram2_T_c2 : Covered (pcT 684 cram2D cram2C0 cram2Tab 39 5000) 0 5952 :=
  cram2_T_c1.trans (Covered.piece 590 cram2_T_2 (by decide +kernel)) (by decide)
theorem cram2_T_c3 : Covered (pcT 684 cram2D cram2C0 cram2Tab 39 5000) 0 7444 :=
  cram2_T_c2.trans (Covered.piece 746 cram2_T_3 (by decide +kernel)) (by decide)
theorem cram2_sideE : sideE 40 5000 39 37464 7444 = true := by decide +kernel
theorem cram2_exp (x : ℝ) (hx : x ≤ 0) :
    |rVal cram2D cram2C0 cram2Tab x - Real.exp x| ≤ (40 : ℕ) / (5000 : ℕ) + 1 / 10 ^ 23 :=
  exp_sound cram2_side cram2_sideE cram2_E_c24 cram2_T_c3 x hx
theorem cram2_P1_0 : pcPF 684 cram2D cram2Tab 1 4 25 941 941 = true := by decide +kernel
theorem cram2_P1_1 : pcPF 684 cram2D cram2Tab 1 4 25 4705 2823 = true := by decide +kernel
theorem cram2_P1_c0 : Covered (pcPF 684 cram2D cram2Tab 1 4 25) 0 1882 :=
  Covered.piece 941 cram2_P1_0 (by decide +kernel)
theorem cram2_P1_c1 : Covered (pcPF 684 cram2D cram2Tab 1 4 25) 0 7528 :=
  cram2_P1_c0.trans (Covered.piece 2823 cram2_P1_1 (by decide +kernel)) (by decide)
theorem cram2_phi1 (x : ℝ) (hx : x ≤ 0) (hx1 : -1 ≤ x) :
    |rVal cram2D 0 (divTab cram2D cram2Tab 1) x - phi 1 x| ≤ (4 : ℕ) / (25 : ℕ) + 1 / 10 ^ 23 :=
  phi_sound cram2_side (by norm_num) (by norm_num) cram2_P1_c1 x hx hx1
theorem cram2_P2_0 : pcPF 801 cram2D cram2Tab 2 3 5 1255 1255 = true := by decide +kernel
theorem cram2_P2_1 : pcPF 801 cram2D cram2Tab 2 3 5 5486 2976 = true := by decide +kernel
theorem cram2_P2_c0 : Covered (pcPF 801 cram2D cram2Tab 2 3 5) 0 2510 :=
  Covered.piece 1255 cram2_P2_0 (by decide +kernel)
theorem cram2_P2_c1 : Covered (pcPF 801 cram2D cram2Tab 2 3 5) 0 8462 :=
  cram2_P2_c0.trans (Covered.piece 2976 cram2_P2_1 (by decide +kernel)) (by decide)
theorem cram2_phi2 (x : ℝ) (hx : x ≤ 0) (hx1 : -1 ≤ x) :
    |rVal cram2D 0 (divTab cram2D cram2Tab 2) x - phi 2 x| ≤ (3 : ℕ) / (5 : ℕ) + 1 / 10 ^ 23 :=
  phi_sound cram2_side (by norm_num) (by norm_num) cram2_P2_c1 x hx hx1

/-! ### `cram_4` -/

def cram4D : ℤ := 10000000000000000000
def cram4C0 : ℤ := 864785397253764
def cram4Tab : List RTerm := [
  ⟨-3678383143997920000, -36581332720633500000, 733924192341467000, -4500049158538280000, 1⟩,
  ⟨15484005705394700000, -11918258539276300000, -616835225549377000, 19050594559800200000, 1⟩]

theorem cram4_side : sideTab cram4D cram4Tab = true := by decide +kernel
theorem cram4_E_0 : pcE 863 cram4D cram4C0 cram4Tab 50 500000 124 124 = true := by decide +kernel
theorem cram4_E_1 : pcE 863 cram4D cram4C0 cram4Tab 50 500000 335 87 = true := by decide +kernel
theorem cram4_E_2 : pcE 863 cram4D cram4C0 cram4Tab 50 500000 568 146 = true := by decide +kernel
theorem cram4_E_3 : pcE 863 cram4D cram4C0 cram4Tab 50 500000 960 246 = true := by decide +kernel
theorem cram4_E_4 : pcE 863 cram4D cram4C0 cram4Tab 50 500000 1516 310 = true := by decide +kernel
theorem cram4_E_5 : pcE 863 cram4D cram4C0 cram4Tab 50 500000 1990 164 = true := by decide +kernel
theorem cram4_E_6 : pcE 863 cram4D cram4C0 cram4Tab 50 500000 2430 276 = true := by decide +kernel
theorem cram4_E_7 : pcE 863 cram4D cram4C0 cram4Tab 50 500000 3327 621 = true := by decide +kernel
theorem cram4_E_8 : pcE 863 cram4D cram4C0 cram4Tab 50 500000 4278 330 = true := by decide +kernel
theorem cram4_E_9 : pcE 863 cram4D cram4C0 cram4Tab 50 500000 4842 234 = true := by decide +kernel
theorem cram4_E_10 : pcE 863 cram4D cram4C0 cram4Tab 50 500000 5470 394 = true := by decide +kernel
theorem cram4_E_11 : pcE 863 cram4D cram4C0 cram4Tab 50 500000 6528 664 = true := by decide +kernel
theorem cram4_E_12 : pcE 863 cram4D cram4C0 cram4Tab 50 500000 7822 630 = true := by decide +kernel
theorem cram4_E_13 : pcE 863 cram4D cram4C0 cram4Tab 50 500000 8899 447 = true := by decide +kernel
theorem cram4_E_14 : pcE 863 cram4D cram4C0 cram4Tab 50 500000 9663 317 = true := by decide +kernel
theorem cram4_E_15 : pcE 863 cram4D cram4C0 cram4Tab 50 500000 10514 534 = true := by decide +kernel
theorem cram4_E_16 : pcE 863 cram4D cram4C0 cram4Tab 50 500000 11948 900 = true := by decide +kernel
theorem cram4_E_17 : pcE 863 cram4D cram4C0 cram4Tab 50 500000 13986 1138 = true := by decide +kernel
theorem cram4_E_18 : pcE 863 cram4D cram4C0 cram4Tab 50 500000 15652 528 = true := by decide +kernel
theorem cram4_E_19 : pcE 863 cram4D cram4C0 cram4Tab 50 500000 16555 375 = true := by decide +kernel
theorem cram4_E_20 : pcE 863 cram4D cram4C0 cram4Tab 50 500000 17285 355 = true := by decide +kernel
theorem cram4_E_21 : pcE 863 cram4D cram4C0 cram4Tab 50 500000 18238 598 = true := by decide +kernel
theorem cram4_E_22 : pcE 863 cram4D cram4C0 cram4Tab 50 500000 20181 1345 = true := by decide +kernel
theorem cram4_E_23 : pcE 863 cram4D cram4C0 cram4Tab 50 500000 23200 1674 = true := by decide +kernel
theorem cram4_E_24 : pcE 863 cram4D cram4C0 cram4Tab 50 500000 26129 1255 = true := by decide +kernel
theorem cram4_E_25 : pcE 863 cram4D cram4C0 cram4Tab 50 500000 28089 705 = true := by decide +kernel
theorem cram4_E_26 : pcE 863 cram4D cram4C0 cram4Tab 50 500000 29295 501 = true := by decide +kernel
theorem cram4_E_27 : pcE 863 cram4D cram4C0 cram4Tab 50 500000 30270 474 = true := by decide +kernel
theorem cram4_E_28 : pcE 863 cram4D cram4C0 cram4Tab 50 500000 31343 599 = true := by decide +kernel
theorem cram4_E_29 : pcE 863 cram4D cram4C0 cram4Tab 50 500000 32952 1010 = true := by decide +kernel
theorem cram4_E_30 : pcE 863 cram4D cram4C0 cram4Tab 50 500000 36194 2232 = true := by decide +kernel
theorem cram4_E_31 : pcE 863 cram4D cram4C0 cram4Tab 50 500000 42395 3969 = true := by decide +kernel
theorem cram4_E_32 : pcE 863 cram4D cram4C0 cram4Tab 50 500000 48596 2232 = true := by decide +kernel
theorem cram4_E_33 : pcE 863 cram4D cram4C0 cram4Tab 50 500000 52502 1674 = true := by decide +kernel
theorem cram4_E_34 : pcE 863 cram4D cram4C0 cram4Tab 50 500000 55431 1255 = true := by decide +kernel
theorem cram4_E_c0 : Covered (pcE 863 cram4D cram4C0 cram4Tab 50 500000) 0 248 :=
  Covered.piece 124 cram4_E_0 (by decide +kernel)
theorem cram4_E_c1 : Covered (pcE 863 cram4D cram4C0 cram4Tab 50 500000) 0 422 :=
  cram4_E_c0.trans (Covered.piece 87 cram4_E_1 (by decide +kernel)) (by decide)
theorem cram4_E_c2 : Covered (pcE 863 cram4D cram4C0 cram4Tab 50 500000) 0 714 :=
  cram4_E_c1.trans (Covered.piece 146 cram4_E_2 (by decide +kernel)) (by decide)
theorem cram4_E_c3 : Covered (pcE 863 cram4D cram4C0 cram4Tab 50 500000) 0 1206 :=
  cram4_E_c2.trans (Covered.piece 246 cram4_E_3 (by decide +kernel)) (by decide)
theorem cram4_E_c4 : Covered (pcE 863 cram4D cram4C0 cram4Tab 50 500000) 0 1826 :=
  cram4_E_c3.trans (Covered.piece 310 cram4_E_4 (by decide +kernel)) (by decide)
theorem cram4_E_c5 : Covered (pcE 863 cram4D cram4C0 cram4Tab 50 500000) 0 2154 :=
  cram4_E_c4.trans (Covered.piece 164 cram4_E_5 (by decide +kernel)) (by decide)
theorem cram4_E_c6 : Covered (pcE 863 cram4D cram4C0 cram4Tab 50 500000) 0 2706 :=
  cram4_E_c5.trans (Covered.piece 276 cram4_E_6 (by decide +kernel)) (by decide)
theorem cram4_E_c7 : Covered (pcE 863 cram4D cram4C0 cram4Tab 50 500000) 0 3948 :=
  cram4_E_c6.trans (Covered.piece 621 cram4_E_7 (by decide +kernel)) (by decide)
theorem cram4_E_c8 : Covered (pcE 863 cram4D cram4C0 cram4Tab 50 500000) 0 4608 :=
  cram4_E_c7.trans (Covered.piece 330 cram4_E_8 (by decide +kernel)) (by decide)
theorem cram4_E_c9 : Covered (pcE 863 cram4D cram4C0 cram4Tab 50 500000) 0 5076 :=
  cram4_E_c8.trans (Covered.piece 234 cram4_E_9 (by decide +kernel)) (by decide)
theorem cram4_E_c10 : Covered (pcE 863 cram4D cram4C0 cram4Tab 50 500000) 0 5864 :=
  cram4_E_c9.trans (Covered.piece 394 cram4_E_10 (by decide +kernel)) (by decide)
theorem cram4_E_c11 : Covered (pcE 863 cram4D cram4C0 cram4Tab 50 500000) 0 7192 :=
  cram4_E_c10.trans (Covered.piece 664 cram4_E_11 (by decide +kernel)) (by decide)
theorem cram4_E_c12 : Covered (pcE 863 cram4D cram4C0 cram4Tab 50 500000) 0 8452 :=
  cram4_E_c11.trans (Covered.piece 630 cram4_E_12 (by decide +kernel)) (by decide)
theorem cram4_E_c13 : Covered (pcE 863 cram4D cram4C0 cram4Tab 50 500000) 0 9346 :=
  cram4_E_c12.trans (Covered.piece 447 cram4_E_13 (by decide +kernel)) (by decide)
theorem cram4_E_c14 : Covered (pcE 863 cram4D cram4C0 cram4Tab 50 500000) 0 9980 :=
  cram4_E_c13.trans (Covered.piece 317 cram4_E_14 (by decide +kernel)) (by decide)
theorem cram4_E_c15 : Covered (pcE 863 cram4D cram4C0 cram4Tab 50 500000) 0 11048 :=
  cram4_E_c14.trans (Covered.piece 534 cram4_E_15 (by decide +kernel)) (by decide)
theorem cram4_E_c16 : Covered (pcE 863 cram4D cram4C0 cram4Tab 50 500000) 0 12848 :=
  cram4_E_c15.trans (Covered.piece 900 cram4_E_16 (by decide +kernel)) (by decide)
theorem cram4_E_c17 : Covered (pcE 863 cram4D cram4C0 cram4Tab 50 500000) 0 15124 :=
  cram4_E_c16.trans (Covered.piece 1138 cram4_E_17 (by decide +kernel)) (by decide)
theorem cram4_E_c18 : Covered (pcE 863 cram4D cram4C0 cram4Tab 50 500000) 0 16180 :=
  cram4_E_c17.trans (Covered.piece 528 cram4_E_18 (by decide +kernel)) (by decide)
theorem cram4_E_c19 : Covered (pcE 863 cram4D cram4C0 cram4Tab 50 500000) 0 16930 :=
  cram4_E_c18.trans (Covered.piece 375 cram4_E_19 (by decide +kernel)) (by decide)
theorem cram4_E_c20 : Covered (pcE 863 cram4D cram4C0 cram4Tab 50 500000) 0 17640 :=
  cram4_E_c19.trans (Covered.piece 355 cram4_E_20 (by decide +kernel)) (by decide)
theorem cram4_E_c21 : Covered (pcE 863 cram4D cram4C0 cram4Tab 50 500000) 0 18836 :=
  cram4_E_c20.trans (Covered.piece 598 cram4_E_21 (by decide +kernel)) (by decide)
theorem cram4_E_c22 : Covered (pcE 863 cram4D cram4C0 cram4Tab 50 500000) 0 21526 :=
  cram4_E_c21.trans (Covered.piece 1345 cram4_E_22 (by decide +kernel)) (by decide)
theorem cram4_E_c23 : Covered (pcE 863 cram4D cram4C0 cram4Tab 50 500000) 0 24874 :=
  cram4_E_c22.trans (Covered.piece 1674 cram4_E_23 (by decide +kernel)) (by decide)
theorem cram4_E_c24 : Covered (pcE 863 cram4D cram4C0 cram4Tab 50 500000) 0 27384 :=
  cram4_E_c23.trans (Covered.piece 1255 cram4_E_24 (by decide +kernel)) (by decide)
theorem cram4_E_c25 : Covered (pcE 863 cram4D cram4C0 cram4Tab 50 500000) 0 28794 :=
  cram4_E_c24.trans (Covered.piece 705 cram4_E_25 (by decide +kernel)) (by decide)
theorem cram4_E_c26 : Covered (pcE 863 cram4D cram4C0 cram4Tab 50 500000) 0 29796 :=
  cram4_E_c25.trans (Covered.piece 501 cram4_E_26 (by decide +kernel)) (by decide)
theorem cram4_E_c27 : Covered (pcE 863 cram4D cram4C0 cram4Tab 50 500000) 0 30744 :=
  cram4_E_c26.trans (Covered.piece 474 cram4_E_27 (by decide +kernel)) (by decide)
theorem cram4_E_c28 : Covered (pcE 863 cram4D cram4C0 cram4Tab 50 500000) 0 31942 :=
  cram4_E_c27.trans (Covered.piece 599 cram4_E_28 (by decide +kernel)) (by decide)
theorem cram4_E_c29 : Covered (pcE 863 cram4D cram4C0 cram4Tab 50 500000) 0 33962 :=
  cram4_E_c28.trans (Covered.piece 1010 cram4_E_29 (by decide +kernel)) (by decide)
theorem cram4_E_c30 : Covered (pcE 863 cram4D cram4C0 cram4Tab 50 500000) 0 38426 :=
  cram4_E_c29.trans (Covered.piece 2232 cram4_E_30 (by decide +kernel)) (by decide)
theorem cram4_E_c31 : Covered (pcE 863 cram4D cram4C0 cram4Tab 50 500000) 0 46364 :=
  cram4_E_c30.trans (Covered.piece 3969 cram4_E_31 (by decide +kernel)) (by decide)
theorem cram4_E_c32 : Covered (pcE 863 cram4D cram4C0 cram4Tab 50 500000) 0 50828 :=
  cram4_E_c31.trans (Covered.piece 2232 cram4_E_32 (by decide +kernel)) (by decide)
theorem cram4_E_c33 : Covered (pcE 863 cram4D cram4C0 cram4Tab 50 500000) 0 54176 :=
  cram4_E_c32.trans (Covered.piece 1674 cram4_E_33 (by decide +kernel)) (by decide)
theorem cram4_E_c34 : Covered (pcE 863 cram4D cram4C0 cram4Tab 50 500000) 0 56686 :=
  cram4_E_c33.trans (Covered.piece 1255 cram4_E_34 (by decide +kernel)) (by decide)
theorem cram4_T_0 : pcT 863 cram4D cram4C0 cram4Tab 49 500000 276 276 = true := by decide +kernel
theorem cram4_T_1 : pcT 863 cram4D cram4C0 cram4Tab 49 500000 747 195 = true := by decide +kernel
theorem cram4_T_2 : pcT 863 cram4D cram4C0 cram4Tab 49 500000 1188 246 = true := by decide +kernel
theorem cram4_T_3 : pcT 863 cram4D cram4C0 cram4Tab 49 500000 1848 414 = true := by decide +kernel
theorem cram4_T_4 : pcT 863 cram4D cram4C0 cram4Tab 49 500000 2785 523 = true := by decide +kernel
theorem cram4_T_5 : pcT 863 cram4D cram4C0 cram4Tab 49 500000 3586 278 = true := by decide +kernel
theorem cram4_T_6 : pcT 863 cram4D cram4C0 cram4Tab 49 500000 4215 351 = true := by decide +kernel
theorem cram4_T_7 : pcT 863 cram4D cram4C0 cram4Tab 49 500000 5157 591 = true := by decide +kernel
theorem cram4_T_c0 : Covered (pcT 863 cram4D cram4C0 cram4Tab 49 500000) 0 552 :=
  Covered.piece 276 cram4_T_0 (by decide +kernel)
theorem cram4_T_c1 : Covered (pcT 863 cram4D cram4C0 cram4Tab 49 500000) 0 942 :=
  cram4_T_c0.trans (Covered.piece 195 cram4_T_1 (by decide +kernel)) (by decide)
theorem cram4_T_c2 : Covered (pcT 863 cram4D cram4C0 cram4Tab 49 500000) 0 1434 :=
  cram4_T_c1.trans (Covered.piece 246 cram4_T_2 (by decide +kernel)) (by decide)
theorem cram4_T_c3 : Covered (pcT 863 cram4D cram4C0 cram4Tab 49 500000) 0 2262 :=
  cram4_T_c2.trans (Covered.piece 414 cram4_T_3 (by decide +kernel)) (by decide)
theorem cram4_T_c4 : Covered (pcT 863 cram4D cram4C0 cram4Tab 49 500000) 0 3308 :=
  cram4_T_c3.trans (Covered.piece 523 cram4_T_4 (by decide +kernel)) (by decide)
theorem cram4_T_c5 : Covered (pcT 863 cram4D cram4C0 cram4Tab 49 500000) 0 3864 :=
  cram4_T_c4.trans (Covered.piece 278 cram4_T_5 (by decide +kernel)) (by decide)
theorem cram4_T_c6 : Covered (pcT 863 cram4D cram4C0 cram4Tab 49 500000) 0 4566 :=
  cram4_T_c5.trans (Covered.piece 351 cram4_T_6 (by decide +kernel)) (by decide)
theorem cram4_T_c7 : Covered (pcT 863 cram4D cram4C0 cram4Tab 49 500000) 0 5748 :=
  cram4_T_c6.trans (Covered.piece 591 cram4_T_7 (by decide +kernel)) (by decide)
theorem cram4_sideE : sideE 50 500000 49 56686 5748 = true := by decide +kernel
theorem cram4_exp (x : ℝ) (hx : x ≤ 0) :
    |rVal cram4D cram4C0 cram4Tab x - Real.exp x| ≤ (50 : ℕ) / (500000 : ℕ) + 1 / 10 ^ 23 :=
  exp_sound cram4_side cram4_sideE cram4_E_c34 cram4_T_c7 x hx
theorem cram4_P1_0 : pcPF 1004 cram4D cram4Tab 1 1 250 1674 1674 = true := by decide +kernel
theorem cram4_P1_1 : pcPF 1004 cram4D cram4Tab 1 1 250 6324 2976 = true := by decide +kernel
theorem cram4_P1_c0 : Covered (pcPF 1004 cram4D cram4Tab 1 1 250) 0 3348 :=
  Covered.piece 1674 cram4_P1_0 (by decide +kernel)
theorem cram4_P1_c1 : Covered (pcPF 1004 cram4D cram4Tab 1 1 250) 0 9300 :=
  cram4_P1_c0.trans (Covered.piece 2976 cram4_P1_1 (by decide +kernel)) (by decide)
theorem cram4_phi1 (x : ℝ) (hx : x ≤ 0) (hx1 : -1 ≤ x) :
    |rVal cram4D 0 (divTab cram4D cram4Tab 1) x - phi 1 x| ≤ (1 : ℕ) / (250 : ℕ) + 1 / 10 ^ 23 :=
  phi_sound cram4_side (by norm_num) (by norm_num) cram4_P1_c1 x hx hx1
theorem cram4_P2_0 : pcPF 1265 cram4D cram4Tab 2 1 40 1674 1674 = true := by decide +kernel
theorem cram4_P2_1 : pcPF 1265 cram4D cram4Tab 2 1 40 6324 2976 = true := by decide +kernel
theorem cram4_P2_c0 : Covered (pcPF 1265 cram4D cram4Tab 2 1 40) 0 3348 :=
  Covered.piece 1674 cram4_P2_0 (by decide +kernel)
theorem cram4_P2_c1 : Covered (pcPF 1265 cram4D cram4Tab 2 1 40) 0 9300 :=
  cram4_P2_c0.trans (Covered.piece 2976 cram4_P2_1 (by decide +kernel)) (by decide)
theorem cram4_phi2 (x : ℝ) (hx : x ≤ 0) (hx1 : -1 ≤ x) :
    |rVal cram4D 0 (divTab cram4D cram4Tab 2) x - phi 2 x| ≤ (1 : ℕ) / (40 : ℕ) + 1 / 10 ^ 23 :=
  phi_sound cram4_side (by norm_num) (by norm_num) cram4_P2_c1 x hx hx1

/-! ### `cram_6` -/

def cram6D : ℤ := 100000000000000000000
def cram6C0 : ℤ := 100850092521476
def cram6Tab : List RTerm := [
  ⟨-178198827592310000000, -619651246734642000000, -8358161715618480000, 10642926074762500000, 1⟩,
  ⟨115855257171770000000, -361477260081914000000, 66300687052761400000, -145141291990008000000, 1⟩,
  ⟨240060293893180000000, -119312930840193000000, -57901300403022400000, 428688856457518000000, 1⟩]

theorem cram6_side : sideTab cram6D cram6Tab = true := by decide +kernel
theorem cram6_E_0 : pcE 1049 cram6D cram6C0 cram6Tab 120 100000000 93 93 = true := by decide +kernel
theorem cram6_E_1 : pcE 1049 cram6D cram6C0 cram6Tab 120 100000000 251 65 = true := by decide +kernel
theorem cram6_E_2 : pcE 1049 cram6D cram6C0 cram6Tab 120 100000000 425 109 = true := by decide +kernel
theorem cram6_E_3 : pcE 1049 cram6D cram6C0 cram6Tab 120 100000000 861 327 = true := by decide +kernel
theorem cram6_E_4 : pcE 1049 cram6D cram6C0 cram6Tab 120 100000000 1317 129 = true := by decide +kernel
theorem cram6_E_5 : pcE 1049 cram6D cram6C0 cram6Tab 120 100000000 1663 217 = true := by decide +kernel
theorem cram6_E_6 : pcE 1049 cram6D cram6C0 cram6Tab 120 100000000 2368 488 = true := by decide +kernel
theorem cram6_E_7 : pcE 1049 cram6D cram6C0 cram6Tab 120 100000000 3050 194 = true := by decide +kernel
theorem cram6_E_8 : pcE 1049 cram6D cram6C0 cram6Tab 120 100000000 3571 327 = true := by decide +kernel
theorem cram6_E_9 : pcE 1049 cram6D cram6C0 cram6Tab 120 100000000 4311 413 = true := by decide +kernel
theorem cram6_E_10 : pcE 1049 cram6D cram6C0 cram6Tab 120 100000000 5246 522 = true := by decide +kernel
theorem cram6_E_11 : pcE 1049 cram6D cram6C0 cram6Tab 120 100000000 6046 278 = true := by decide +kernel
theorem cram6_E_12 : pcE 1049 cram6D cram6C0 cram6Tab 120 100000000 6675 351 = true := by decide +kernel
theorem cram6_E_13 : pcE 1049 cram6D cram6C0 cram6Tab 120 100000000 7617 591 = true := by decide +kernel
theorem cram6_E_14 : pcE 1049 cram6D cram6C0 cram6Tab 120 100000000 8768 560 = true := by decide +kernel
theorem cram6_E_15 : pcE 1049 cram6D cram6C0 cram6Tab 120 100000000 9626 298 = true := by decide +kernel
theorem cram6_E_16 : pcE 1049 cram6D cram6C0 cram6Tab 120 100000000 10206 282 = true := by decide +kernel
theorem cram6_E_17 : pcE 1049 cram6D cram6C0 cram6Tab 120 100000000 10963 475 = true := by decide +kernel
theorem cram6_E_18 : pcE 1049 cram6D cram6C0 cram6Tab 120 100000000 12239 801 = true := by decide +kernel
theorem cram6_E_19 : pcE 1049 cram6D cram6C0 cram6Tab 120 100000000 13799 759 = true := by decide +kernel
theorem cram6_E_20 : pcE 1049 cram6D cram6C0 cram6Tab 120 100000000 14963 405 = true := by decide +kernel
theorem cram6_E_21 : pcE 1049 cram6D cram6C0 cram6Tab 120 100000000 15752 384 = true := by decide +kernel
theorem cram6_E_22 : pcE 1049 cram6D cram6C0 cram6Tab 120 100000000 16784 648 = true := by decide +kernel
theorem cram6_E_23 : pcE 1049 cram6D cram6C0 cram6Tab 120 100000000 18525 1093 = true := by decide +kernel
theorem cram6_E_24 : pcE 1049 cram6D cram6C0 cram6Tab 120 100000000 20559 941 = true := by decide +kernel
theorem cram6_E_25 : pcE 1049 cram6D cram6C0 cram6Tab 120 100000000 22001 501 = true := by decide +kernel
theorem cram6_E_26 : pcE 1049 cram6D cram6C0 cram6Tab 120 100000000 22976 474 = true := by decide +kernel
theorem cram6_E_27 : pcE 1049 cram6D cram6C0 cram6Tab 120 100000000 24249 799 = true := by decide +kernel
theorem cram6_E_28 : pcE 1049 cram6D cram6C0 cram6Tab 120 100000000 26395 1347 = true := by decide +kernel
theorem cram6_E_29 : pcE 1049 cram6D cram6C0 cram6Tab 120 100000000 28997 1255 = true := by decide +kernel
theorem cram6_E_30 : pcE 1049 cram6D cram6C0 cram6Tab 120 100000000 30957 705 = true := by decide +kernel
theorem cram6_E_31 : pcE 1049 cram6D cram6C0 cram6Tab 120 100000000 32330 668 = true := by decide +kernel
theorem cram6_E_32 : pcE 1049 cram6D cram6C0 cram6Tab 120 100000000 33472 474 = true := by decide +kernel
theorem cram6_E_33 : pcE 1049 cram6D cram6C0 cram6Tab 120 100000000 34545 599 = true := by decide +kernel
theorem cram6_E_34 : pcE 1049 cram6D cram6C0 cram6Tab 120 100000000 36491 1347 = true := by decide +kernel
theorem cram6_E_35 : pcE 1049 cram6D cram6C0 cram6Tab 120 100000000 40070 2232 = true := by decide +kernel
theorem cram6_E_36 : pcE 1049 cram6D cram6C0 cram6Tab 120 100000000 43976 1674 = true := by decide +kernel
theorem cram6_E_37 : pcE 1049 cram6D cram6C0 cram6Tab 120 100000000 46591 941 = true := by decide +kernel
theorem cram6_E_38 : pcE 1049 cram6D cram6C0 cram6Tab 120 100000000 48424 892 = true := by decide +kernel
theorem cram6_E_39 : pcE 1049 cram6D cram6C0 cram6Tab 120 100000000 49950 634 = true := by decide +kernel
theorem cram6_E_40 : pcE 1049 cram6D cram6C0 cram6Tab 120 100000000 51385 801 = true := by decide +kernel
theorem cram6_E_41 : pcE 1049 cram6D cram6C0 cram6Tab 120 100000000 53199 1013 = true := by decide +kernel
theorem cram6_E_42 : pcE 1049 cram6D cram6C0 cram6Tab 120 100000000 56444 2232 = true := by decide +kernel
theorem cram6_E_43 : pcE 1049 cram6D cram6C0 cram6Tab 120 100000000 62645 3969 = true := by decide +kernel
theorem cram6_E_44 : pcE 1049 cram6D cram6C0 cram6Tab 120 100000000 69590 2976 = true := by decide +kernel
theorem cram6_E_45 : pcE 1049 cram6D cram6C0 cram6Tab 120 100000000 74240 1674 = true := by decide +kernel
theorem cram6_E_46 : pcE 1049 cram6D cram6C0 cram6Tab 120 100000000 77169 1255 = true := by decide +kernel
theorem cram6_E_47 : pcE 1049 cram6D cram6C0 cram6Tab 120 100000000 79679 1255 = true := by decide +kernel
theorem cram6_E_c0 : Covered (pcE 1049 cram6D cram6C0 cram6Tab 120 100000000) 0 186 :=
  Covered.piece 93 cram6_E_0 (by decide +kernel)
theorem cram6_E_c1 : Covered (pcE 1049 cram6D cram6C0 cram6Tab 120 100000000) 0 316 :=
  cram6_E_c0.trans (Covered.piece 65 cram6_E_1 (by decide +kernel)) (by decide)
theorem cram6_E_c2 : Covered (pcE 1049 cram6D cram6C0 cram6Tab 120 100000000) 0 534 :=
  cram6_E_c1.trans (Covered.piece 109 cram6_E_2 (by decide +kernel)) (by decide)
theorem cram6_E_c3 : Covered (pcE 1049 cram6D cram6C0 cram6Tab 120 100000000) 0 1188 :=
  cram6_E_c2.trans (Covered.piece 327 cram6_E_3 (by decide +kernel)) (by decide)
theorem cram6_E_c4 : Covered (pcE 1049 cram6D cram6C0 cram6Tab 120 100000000) 0 1446 :=
  cram6_E_c3.trans (Covered.piece 129 cram6_E_4 (by decide +kernel)) (by decide)
theorem cram6_E_c5 : Covered (pcE 1049 cram6D cram6C0 cram6Tab 120 100000000) 0 1880 :=
  cram6_E_c4.trans (Covered.piece 217 cram6_E_5 (by decide +kernel)) (by decide)
theorem cram6_E_c6 : Covered (pcE 1049 cram6D cram6C0 cram6Tab 120 100000000) 0 2856 :=
  cram6_E_c5.trans (Covered.piece 488 cram6_E_6 (by decide +kernel)) (by decide)
theorem cram6_E_c7 : Covered (pcE 1049 cram6D cram6C0 cram6Tab 120 100000000) 0 3244 :=
  cram6_E_c6.trans (Covered.piece 194 cram6_E_7 (by decide +kernel)) (by decide)
theorem cram6_E_c8 : Covered (pcE 1049 cram6D cram6C0 cram6Tab 120 100000000) 0 3898 :=
  cram6_E_c7.trans (Covered.piece 327 cram6_E_8 (by decide +kernel)) (by decide)
theorem cram6_E_c9 : Covered (pcE 1049 cram6D cram6C0 cram6Tab 120 100000000) 0 4724 :=
  cram6_E_c8.trans (Covered.piece 413 cram6_E_9 (by decide +kernel)) (by decide)
theorem cram6_E_c10 : Covered (pcE 1049 cram6D cram6C0 cram6Tab 120 100000000) 0 5768 :=
  cram6_E_c9.trans (Covered.piece 522 cram6_E_10 (by decide +kernel)) (by decide)
theorem cram6_E_c11 : Covered (pcE 1049 cram6D cram6C0 cram6Tab 120 100000000) 0 6324 :=
  cram6_E_c10.trans (Covered.piece 278 cram6_E_11 (by decide +kernel)) (by decide)
theorem cram6_E_c12 : Covered (pcE 1049 cram6D cram6C0 cram6Tab 120 100000000) 0 7026 :=
  cram6_E_c11.trans (Covered.piece 351 cram6_E_12 (by decide +kernel)) (by decide)
theorem cram6_E_c13 : Covered (pcE 1049 cram6D cram6C0 cram6Tab 120 100000000) 0 8208 :=
  cram6_E_c12.trans (Covered.piece 591 cram6_E_13 (by decide +kernel)) (by decide)
theorem cram6_E_c14 : Covered (pcE 1049 cram6D cram6C0 cram6Tab 120 100000000) 0 9328 :=
  cram6_E_c13.trans (Covered.piece 560 cram6_E_14 (by decide +kernel)) (by decide)
theorem cram6_E_c15 : Covered (pcE 1049 cram6D cram6C0 cram6Tab 120 100000000) 0 9924 :=
  cram6_E_c14.trans (Covered.piece 298 cram6_E_15 (by decide +kernel)) (by decide)
theorem cram6_E_c16 : Covered (pcE 1049 cram6D cram6C0 cram6Tab 120 100000000) 0 10488 :=
  cram6_E_c15.trans (Covered.piece 282 cram6_E_16 (by decide +kernel)) (by decide)
theorem cram6_E_c17 : Covered (pcE 1049 cram6D cram6C0 cram6Tab 120 100000000) 0 11438 :=
  cram6_E_c16.trans (Covered.piece 475 cram6_E_17 (by decide +kernel)) (by decide)
theorem cram6_E_c18 : Covered (pcE 1049 cram6D cram6C0 cram6Tab 120 100000000) 0 13040 :=
  cram6_E_c17.trans (Covered.piece 801 cram6_E_18 (by decide +kernel)) (by decide)
theorem cram6_E_c19 : Covered (pcE 1049 cram6D cram6C0 cram6Tab 120 100000000) 0 14558 :=
  cram6_E_c18.trans (Covered.piece 759 cram6_E_19 (by decide +kernel)) (by decide)
theorem cram6_E_c20 : Covered (pcE 1049 cram6D cram6C0 cram6Tab 120 100000000) 0 15368 :=
  cram6_E_c19.trans (Covered.piece 405 cram6_E_20 (by decide +kernel)) (by decide)
theorem cram6_E_c21 : Covered (pcE 1049 cram6D cram6C0 cram6Tab 120 100000000) 0 16136 :=
  cram6_E_c20.trans (Covered.piece 384 cram6_E_21 (by decide +kernel)) (by decide)
theorem cram6_E_c22 : Covered (pcE 1049 cram6D cram6C0 cram6Tab 120 100000000) 0 17432 :=
  cram6_E_c21.trans (Covered.piece 648 cram6_E_22 (by decide +kernel)) (by decide)
theorem cram6_E_c23 : Covered (pcE 1049 cram6D cram6C0 cram6Tab 120 100000000) 0 19618 :=
  cram6_E_c22.trans (Covered.piece 1093 cram6_E_23 (by decide +kernel)) (by decide)
theorem cram6_E_c24 : Covered (pcE 1049 cram6D cram6C0 cram6Tab 120 100000000) 0 21500 :=
  cram6_E_c23.trans (Covered.piece 941 cram6_E_24 (by decide +kernel)) (by decide)
theorem cram6_E_c25 : Covered (pcE 1049 cram6D cram6C0 cram6Tab 120 100000000) 0 22502 :=
  cram6_E_c24.trans (Covered.piece 501 cram6_E_25 (by decide +kernel)) (by decide)
theorem cram6_E_c26 : Covered (pcE 1049 cram6D cram6C0 cram6Tab 120 100000000) 0 23450 :=
  cram6_E_c25.trans (Covered.piece 474 cram6_E_26 (by decide +kernel)) (by decide)
theorem cram6_E_c27 : Covered (pcE 1049 cram6D cram6C0 cram6Tab 120 100000000) 0 25048 :=
  cram6_E_c26.trans (Covered.piece 799 cram6_E_27 (by decide +kernel)) (by decide)
theorem cram6_E_c28 : Covered (pcE 1049 cram6D cram6C0 cram6Tab 120 100000000) 0 27742 :=
  cram6_E_c27.trans (Covered.piece 1347 cram6_E_28 (by decide +kernel)) (by decide)
theorem cram6_E_c29 : Covered (pcE 1049 cram6D cram6C0 cram6Tab 120 100000000) 0 30252 :=
  cram6_E_c28.trans (Covered.piece 1255 cram6_E_29 (by decide +kernel)) (by decide)
theorem cram6_E_c30 : Covered (pcE 1049 cram6D cram6C0 cram6Tab 120 100000000) 0 31662 :=
  cram6_E_c29.trans (Covered.piece 705 cram6_E_30 (by decide +kernel)) (by decide)
theorem cram6_E_c31 : Covered (pcE 1049 cram6D cram6C0 cram6Tab 120 100000000) 0 32998 :=
  cram6_E_c30.trans (Covered.piece 668 cram6_E_31 (by decide +kernel)) (by decide)
theorem cram6_E_c32 : Covered (pcE 1049 cram6D cram6C0 cram6Tab 120 100000000) 0 33946 :=
  cram6_E_c31.trans (Covered.piece 474 cram6_E_32 (by decide +kernel)) (by decide)
theorem cram6_E_c33 : Covered (pcE 1049 cram6D cram6C0 cram6Tab 120 100000000) 0 35144 :=
  cram6_E_c32.trans (Covered.piece 599 cram6_E_33 (by decide +kernel)) (by decide)
theorem cram6_E_c34 : Covered (pcE 1049 cram6D cram6C0 cram6Tab 120 100000000) 0 37838 :=
  cram6_E_c33.trans (Covered.piece 1347 cram6_E_34 (by decide +kernel)) (by decide)
theorem cram6_E_c35 : Covered (pcE 1049 cram6D cram6C0 cram6Tab 120 100000000) 0 42302 :=
  cram6_E_c34.trans (Covered.piece 2232 cram6_E_35 (by decide +kernel)) (by decide)
theorem cram6_E_c36 : Covered (pcE 1049 cram6D cram6C0 cram6Tab 120 100000000) 0 45650 :=
  cram6_E_c35.trans (Covered.piece 1674 cram6_E_36 (by decide +kernel)) (by decide)
theorem cram6_E_c37 : Covered (pcE 1049 cram6D cram6C0 cram6Tab 120 100000000) 0 47532 :=
  cram6_E_c36.trans (Covered.piece 941 cram6_E_37 (by decide +kernel)) (by decide)
theorem cram6_E_c38 : Covered (pcE 1049 cram6D cram6C0 cram6Tab 120 100000000) 0 49316 :=
  cram6_E_c37.trans (Covered.piece 892 cram6_E_38 (by decide +kernel)) (by decide)
theorem cram6_E_c39 : Covered (pcE 1049 cram6D cram6C0 cram6Tab 120 100000000) 0 50584 :=
  cram6_E_c38.trans (Covered.piece 634 cram6_E_39 (by decide +kernel)) (by decide)
theorem cram6_E_c40 : Covered (pcE 1049 cram6D cram6C0 cram6Tab 120 100000000) 0 52186 :=
  cram6_E_c39.trans (Covered.piece 801 cram6_E_40 (by decide +kernel)) (by decide)
theorem cram6_E_c41 : Covered (pcE 1049 cram6D cram6C0 cram6Tab 120 100000000) 0 54212 :=
  cram6_E_c40.trans (Covered.piece 1013 cram6_E_41 (by decide +kernel)) (by decide)
theorem cram6_E_c42 : Covered (pcE 1049 cram6D cram6C0 cram6Tab 120 100000000) 0 58676 :=
  cram6_E_c41.trans (Covered.piece 2232 cram6_E_42 (by decide +kernel)) (by decide)
theorem cram6_E_c43 : Covered (pcE 1049 cram6D cram6C0 cram6Tab 120 100000000) 0 66614 :=
  cram6_E_c42.trans (Covered.piece 3969 cram6_E_43 (by decide +kernel)) (by decide)
theorem cram6_E_c44 : Covered (pcE 1049 cram6D cram6C0 cram6Tab 120 100000000) 0 72566 :=
  cram6_E_c43.trans (Covered.piece 2976 cram6_E_44 (by decide +kernel)) (by decide)
theorem cram6_E_c45 : Covered (pcE 1049 cram6D cram6C0 cram6Tab 120 100000000) 0 75914 :=
  cram6_E_c44.trans (Covered.piece 1674 cram6_E_45 (by decide +kernel)) (by decide)
theorem cram6_E_c46 : Covered (pcE 1049 cram6D cram6C0 cram6Tab 120 100000000) 0 78424 :=
  cram6_E_c45.trans (Covered.piece 1255 cram6_E_46 (by decide +kernel)) (by decide)
theorem cram6_E_c47 : Covered (pcE 1049 cram6D cram6C0 cram6Tab 120 100000000) 0 80934 :=
  cram6_E_c46.trans (Covered.piece 1255 cram6_E_47 (by decide +kernel)) (by decide)
theorem cram6_T_0 : pcT 1049 cram6D cram6C0 cram6Tab 119 100000000 87 87 = true := by decide +kernel
theorem cram6_T_1 : pcT 1049 cram6D cram6C0 cram6Tab 119 100000000 255 81 = true := by decide +kernel
theorem cram6_T_2 : pcT 1049 cram6D cram6C0 cram6Tab 119 100000000 438 102 = true := by decide +kernel
theorem cram6_T_3 : pcT 1049 cram6D cram6C0 cram6Tab 119 100000000 846 306 = true := by decide +kernel
theorem cram6_T_4 : pcT 1049 cram6D cram6C0 cram6Tab 119 100000000 1314 162 = true := by decide +kernel
theorem cram6_T_5 : pcT 1049 cram6D cram6C0 cram6Tab 119 100000000 1629 153 = true := by decide +kernel
theorem cram6_T_6 : pcT 1049 cram6D cram6C0 cram6Tab 119 100000000 2241 459 = true := by decide +kernel
theorem cram6_T_7 : pcT 1049 cram6D cram6C0 cram6Tab 119 100000000 2883 183 = true := by decide +kernel
theorem cram6_T_8 : pcT 1049 cram6D cram6C0 cram6Tab 119 100000000 3297 231 = true := by decide +kernel
theorem cram6_T_c0 : Covered (pcT 1049 cram6D cram6C0 cram6Tab 119 100000000) 0 174 :=
  Covered.piece 87 cram6_T_0 (by decide +kernel)
theorem cram6_T_c1 : Covered (pcT 1049 cram6D cram6C0 cram6Tab 119 100000000) 0 336 :=
  cram6_T_c0.trans (Covered.piece 81 cram6_T_1 (by decide +kernel)) (by decide)
theorem cram6_T_c2 : Covered (pcT 1049 cram6D cram6C0 cram6Tab 119 100000000) 0 540 :=
  cram6_T_c1.trans (Covered.piece 102 cram6_T_2 (by decide +kernel)) (by decide)
theorem cram6_T_c3 : Covered (pcT 1049 cram6D cram6C0 cram6Tab 119 100000000) 0 1152 :=
  cram6_T_c2.trans (Covered.piece 306 cram6_T_3 (by decide +kernel)) (by decide)
theorem cram6_T_c4 : Covered (pcT 1049 cram6D cram6C0 cram6Tab 119 100000000) 0 1476 :=
  cram6_T_c3.trans (Covered.piece 162 cram6_T_4 (by decide +kernel)) (by decide)
theorem cram6_T_c5 : Covered (pcT 1049 cram6D cram6C0 cram6Tab 119 100000000) 0 1782 :=
  cram6_T_c4.trans (Covered.piece 153 cram6_T_5 (by decide +kernel)) (by decide)
theorem cram6_T_c6 : Covered (pcT 1049 cram6D cram6C0 cram6Tab 119 100000000) 0 2700 :=
  cram6_T_c5.trans (Covered.piece 459 cram6_T_6 (by decide +kernel)) (by decide)
theorem cram6_T_c7 : Covered (pcT 1049 cram6D cram6C0 cram6Tab 119 100000000) 0 3066 :=
  cram6_T_c6.trans (Covered.piece 183 cram6_T_7 (by decide +kernel)) (by decide)
theorem cram6_T_c8 : Covered (pcT 1049 cram6D cram6C0 cram6Tab 119 100000000) 0 3528 :=
  cram6_T_c7.trans (Covered.piece 231 cram6_T_8 (by decide +kernel)) (by decide)
theorem cram6_sideE : sideE 120 100000000 119 80934 3528 = true := by decide +kernel
theorem cram6_exp (x : ℝ) (hx : x ≤ 0) :
    |rVal cram6D cram6C0 cram6Tab x - Real.exp x| ≤ (120 : ℕ) / (100000000 : ℕ) + 1 / 10 ^ 23 :=
  exp_sound cram6_side cram6_sideE cram6_E_c47 cram6_T_c8 x hx
theorem cram6_P1_0 : pcPF 1336 cram6D cram6Tab 1 3 50000 1255 1255 = true := by decide +kernel
theorem cram6_P1_1 : pcPF 1336 cram6D cram6Tab 1 3 50000 5486 2976 = true := by decide +kernel
theorem cram6_P1_c0 : Covered (pcPF 1336 cram6D cram6Tab 1 3 50000) 0 2510 :=
  Covered.piece 1255 cram6_P1_0 (by decide +kernel)
theorem cram6_P1_c1 : Covered (pcPF 1336 cram6D cram6Tab 1 3 50000) 0 8462 :=
  cram6_P1_c0.trans (Covered.piece 2976 cram6_P1_1 (by decide +kernel)) (by decide)
theorem cram6_phi1 (x : ℝ) (hx : x ≤ 0) (hx1 : -1 ≤ x) :
    |rVal cram6D 0 (divTab cram6D cram6Tab 1) x - phi 1 x| ≤ (3 : ℕ) / (50000 : ℕ) + 1 / 10 ^ 23 :=
  phi_sound cram6_side (by norm_num) (by norm_num) cram6_P1_c1 x hx hx1
theorem cram6_P2_0 : pcPF 1750 cram6D cram6Tab 2 3 5000 1674 1674 = true := by decide +kernel
theorem cram6_P2_1 : pcPF 1750 cram6D cram6Tab 2 3 5000 6324 2976 = true := by decide +kernel
theorem cram6_P2_c0 : Covered (pcPF 1750 cram6D cram6Tab 2 3 5000) 0 3348 :=
  Covered.piece 1674 cram6_P2_0 (by decide +kernel)
theorem cram6_P2_c1 : Covered (pcPF 1750 cram6D cram6Tab 2 3 5000) 0 9300 :=
  cram6_P2_c0.trans (Covered.piece 2976 cram6_P2_1 (by decide +kernel)) (by decide)
theorem cram6_phi2 (x : ℝ) (hx : x ≤ 0) (hx1 : -1 ≤ x) :
    |rVal cram6D 0 (divTab cram6D cram6Tab 2) x - phi 2 x| ≤ (3 : ℕ) / (5000 : ℕ) + 1 / 10 ^ 23 :=
  phi_sound cram6_side (by norm_num) (by norm_num) cram6_P2_c1 x hx hx1

/-! ### `cram_8` -/

def cram8D : ℤ := 10000000000000000000000
def cram8C0 : ℤ := 117226087170685
def cram8Tab : List RTerm := [
  ⟨-34085395016248800000000, -87730345642906900000000, 281297571584993000000, -115773845637344000000, 1⟩,
  ⟨2694909872113160000000, -60820325926065000000000, -6325880536703480000000, 4439231025753210000000, 1⟩,
  ⟨22922491476785600000000, -36007714960158900000000, 24362407327439400000000, -37167556401734700000000, 1⟩,
  ⟨32209452449204300000000, -11936196053982700000000, -18317717105109700000000, 95256081284804800000000, 1⟩]

theorem cram8_side : sideTab cram8D cram8Tab = true := by decide +kernel
theorem cram8_E_0 : pcE 1279 cram8D cram8C0 cram8Tab 140 10000000000 69 69 = true := by decide +kernel
theorem cram8_E_1 : pcE 1279 cram8D cram8C0 cram8Tab 140 10000000000 186 48 = true := by decide +kernel
theorem cram8_E_2 : pcE 1279 cram8D cram8C0 cram8Tab 140 10000000000 315 81 = true := by decide +kernel
theorem cram8_E_3 : pcE 1279 cram8D cram8C0 cram8Tab 140 10000000000 639 243 = true := by decide +kernel
theorem cram8_E_4 : pcE 1279 cram8D cram8C0 cram8Tab 140 10000000000 1010 128 = true := by decide +kernel
theorem cram8_E_5 : pcE 1279 cram8D cram8C0 cram8Tab 140 10000000000 1300 162 = true := by decide +kernel
theorem cram8_E_6 : pcE 1279 cram8D cram8C0 cram8Tab 140 10000000000 1826 364 = true := by decide +kernel
theorem cram8_E_7 : pcE 1279 cram8D cram8C0 cram8Tab 140 10000000000 2383 193 = true := by decide +kernel
theorem cram8_E_8 : pcE 1279 cram8D cram8C0 cram8Tab 140 10000000000 2819 243 = true := by decide +kernel
theorem cram8_E_9 : pcE 1279 cram8D cram8C0 cram8Tab 140 10000000000 3608 546 = true := by decide +kernel
theorem cram8_E_10 : pcE 1279 cram8D cram8C0 cram8Tab 140 10000000000 4371 217 = true := by decide +kernel
theorem cram8_E_11 : pcE 1279 cram8D cram8C0 cram8Tab 140 10000000000 4862 274 = true := by decide +kernel
theorem cram8_E_12 : pcE 1279 cram8D cram8C0 cram8Tab 140 10000000000 5598 462 = true := by decide +kernel
theorem cram8_E_13 : pcE 1279 cram8D cram8C0 cram8Tab 140 10000000000 6498 438 = true := by decide +kernel
theorem cram8_E_14 : pcE 1279 cram8D cram8C0 cram8Tab 140 10000000000 7168 232 = true := by decide +kernel
theorem cram8_E_15 : pcE 1279 cram8D cram8C0 cram8Tab 140 10000000000 7791 391 = true := by decide +kernel
theorem cram8_E_16 : pcE 1279 cram8D cram8C0 cram8Tab 140 10000000000 8841 659 = true := by decide +kernel
theorem cram8_E_17 : pcE 1279 cram8D cram8C0 cram8Tab 140 10000000000 9968 468 = true := by decide +kernel
theorem cram8_E_18 : pcE 1279 cram8D cram8C0 cram8Tab 140 10000000000 10768 332 = true := by decide +kernel
theorem cram8_E_19 : pcE 1279 cram8D cram8C0 cram8Tab 140 10000000000 11520 420 = true := by decide +kernel
theorem cram8_E_20 : pcE 1279 cram8D cram8C0 cram8Tab 140 10000000000 12648 708 = true := by decide +kernel
theorem cram8_E_21 : pcE 1279 cram8D cram8C0 cram8Tab 140 10000000000 14027 671 = true := by decide +kernel
theorem cram8_E_22 : pcE 1279 cram8D cram8C0 cram8Tab 140 10000000000 15055 357 = true := by decide +kernel
theorem cram8_E_23 : pcE 1279 cram8D cram8C0 cram8Tab 140 10000000000 15750 338 = true := by decide +kernel
theorem cram8_E_24 : pcE 1279 cram8D cram8C0 cram8Tab 140 10000000000 16658 570 = true := by decide +kernel
theorem cram8_E_25 : pcE 1279 cram8D cram8C0 cram8Tab 140 10000000000 18189 961 = true := by decide +kernel
theorem cram8_E_26 : pcE 1279 cram8D cram8C0 cram8Tab 140 10000000000 19833 683 = true := by decide +kernel
theorem cram8_E_27 : pcE 1279 cram8D cram8C0 cram8Tab 140 10000000000 20880 364 = true := by decide +kernel
theorem cram8_E_28 : pcE 1279 cram8D cram8C0 cram8Tab 140 10000000000 21704 460 = true := by decide +kernel
theorem cram8_E_29 : pcE 1279 cram8D cram8C0 cram8Tab 140 10000000000 22940 776 = true := by decide +kernel
theorem cram8_E_30 : pcE 1279 cram8D cram8C0 cram8Tab 140 10000000000 25025 1309 = true := by decide +kernel
theorem cram8_E_31 : pcE 1279 cram8D cram8C0 cram8Tab 140 10000000000 27039 705 = true := by decide +kernel
theorem cram8_E_32 : pcE 1279 cram8D cram8C0 cram8Tab 140 10000000000 28119 375 = true := by decide +kernel
theorem cram8_E_33 : pcE 1279 cram8D cram8C0 cram8Tab 140 10000000000 28968 474 = true := by decide +kernel
theorem cram8_E_34 : pcE 1279 cram8D cram8C0 cram8Tab 140 10000000000 30241 799 = true := by decide +kernel
theorem cram8_E_35 : pcE 1279 cram8D cram8C0 cram8Tab 140 10000000000 32387 1347 = true := by decide +kernel
theorem cram8_E_36 : pcE 1279 cram8D cram8C0 cram8Tab 140 10000000000 34989 1255 = true := by decide +kernel
theorem cram8_E_37 : pcE 1279 cram8D cram8C0 cram8Tab 140 10000000000 36772 528 = true := by decide +kernel
theorem cram8_E_38 : pcE 1279 cram8D cram8C0 cram8Tab 140 10000000000 37801 501 = true := by decide +kernel
theorem cram8_E_39 : pcE 1279 cram8D cram8C0 cram8Tab 140 10000000000 38776 474 = true := by decide +kernel
theorem cram8_E_40 : pcE 1279 cram8D cram8C0 cram8Tab 140 10000000000 40316 1066 = true := by decide +kernel
theorem cram8_E_41 : pcE 1279 cram8D cram8C0 cram8Tab 140 10000000000 43056 1674 = true := by decide +kernel
theorem cram8_E_42 : pcE 1279 cram8D cram8C0 cram8Tab 140 10000000000 46404 1674 = true := by decide +kernel
theorem cram8_E_43 : pcE 1279 cram8D cram8C0 cram8Tab 140 10000000000 49019 941 = true := by decide +kernel
theorem cram8_E_44 : pcE 1279 cram8D cram8C0 cram8Tab 140 10000000000 50629 669 = true := by decide +kernel
theorem cram8_E_45 : pcE 1279 cram8D cram8C0 cram8Tab 140 10000000000 51932 634 = true := by decide +kernel
theorem cram8_E_46 : pcE 1279 cram8D cram8C0 cram8Tab 140 10000000000 53367 801 = true := by decide +kernel
theorem cram8_E_47 : pcE 1279 cram8D cram8C0 cram8Tab 140 10000000000 55970 1802 = true := by decide +kernel
theorem cram8_E_48 : pcE 1279 cram8D cram8C0 cram8Tab 140 10000000000 60748 2976 = true := by decide +kernel
theorem cram8_E_49 : pcE 1279 cram8D cram8C0 cram8Tab 140 10000000000 65398 1674 = true := by decide +kernel
theorem cram8_E_50 : pcE 1279 cram8D cram8C0 cram8Tab 140 10000000000 68013 941 = true := by decide +kernel
theorem cram8_E_51 : pcE 1279 cram8D cram8C0 cram8Tab 140 10000000000 69846 892 = true := by decide +kernel
theorem cram8_E_52 : pcE 1279 cram8D cram8C0 cram8Tab 140 10000000000 71584 846 = true := by decide +kernel
theorem cram8_E_53 : pcE 1279 cram8D cram8C0 cram8Tab 140 10000000000 73232 802 = true := by decide +kernel
theorem cram8_E_54 : pcE 1279 cram8D cram8C0 cram8Tab 140 10000000000 75387 1353 = true := by decide +kernel
theorem cram8_E_55 : pcE 1279 cram8D cram8C0 cram8Tab 140 10000000000 79716 2976 = true := by decide +kernel
theorem cram8_E_56 : pcE 1279 cram8D cram8C0 cram8Tab 140 10000000000 86661 3969 = true := by decide +kernel
theorem cram8_E_57 : pcE 1279 cram8D cram8C0 cram8Tab 140 10000000000 92862 2232 = true := by decide +kernel
theorem cram8_E_58 : pcE 1279 cram8D cram8C0 cram8Tab 140 10000000000 96768 1674 = true := by decide +kernel
theorem cram8_E_59 : pcE 1279 cram8D cram8C0 cram8Tab 140 10000000000 99697 1255 = true := by decide +kernel
theorem cram8_E_60 : pcE 1279 cram8D cram8C0 cram8Tab 140 10000000000 102207 1255 = true := by decide +kernel
theorem cram8_E_c0 : Covered (pcE 1279 cram8D cram8C0 cram8Tab 140 10000000000) 0 138 :=
  Covered.piece 69 cram8_E_0 (by decide +kernel)
theorem cram8_E_c1 : Covered (pcE 1279 cram8D cram8C0 cram8Tab 140 10000000000) 0 234 :=
  cram8_E_c0.trans (Covered.piece 48 cram8_E_1 (by decide +kernel)) (by decide)
theorem cram8_E_c2 : Covered (pcE 1279 cram8D cram8C0 cram8Tab 140 10000000000) 0 396 :=
  cram8_E_c1.trans (Covered.piece 81 cram8_E_2 (by decide +kernel)) (by decide)
theorem cram8_E_c3 : Covered (pcE 1279 cram8D cram8C0 cram8Tab 140 10000000000) 0 882 :=
  cram8_E_c2.trans (Covered.piece 243 cram8_E_3 (by decide +kernel)) (by decide)
theorem cram8_E_c4 : Covered (pcE 1279 cram8D cram8C0 cram8Tab 140 10000000000) 0 1138 :=
  cram8_E_c3.trans (Covered.piece 128 cram8_E_4 (by decide +kernel)) (by decide)
theorem cram8_E_c5 : Covered (pcE 1279 cram8D cram8C0 cram8Tab 140 10000000000) 0 1462 :=
  cram8_E_c4.trans (Covered.piece 162 cram8_E_5 (by decide +kernel)) (by decide)
theorem cram8_E_c6 : Covered (pcE 1279 cram8D cram8C0 cram8Tab 140 10000000000) 0 2190 :=
  cram8_E_c5.trans (Covered.piece 364 cram8_E_6 (by decide +kernel)) (by decide)
theorem cram8_E_c7 : Covered (pcE 1279 cram8D cram8C0 cram8Tab 140 10000000000) 0 2576 :=
  cram8_E_c6.trans (Covered.piece 193 cram8_E_7 (by decide +kernel)) (by decide)
theorem cram8_E_c8 : Covered (pcE 1279 cram8D cram8C0 cram8Tab 140 10000000000) 0 3062 :=
  cram8_E_c7.trans (Covered.piece 243 cram8_E_8 (by decide +kernel)) (by decide)
theorem cram8_E_c9 : Covered (pcE 1279 cram8D cram8C0 cram8Tab 140 10000000000) 0 4154 :=
  cram8_E_c8.trans (Covered.piece 546 cram8_E_9 (by decide +kernel)) (by decide)
theorem cram8_E_c10 : Covered (pcE 1279 cram8D cram8C0 cram8Tab 140 10000000000) 0 4588 :=
  cram8_E_c9.trans (Covered.piece 217 cram8_E_10 (by decide +kernel)) (by decide)
theorem cram8_E_c11 : Covered (pcE 1279 cram8D cram8C0 cram8Tab 140 10000000000) 0 5136 :=
  cram8_E_c10.trans (Covered.piece 274 cram8_E_11 (by decide +kernel)) (by decide)
theorem cram8_E_c12 : Covered (pcE 1279 cram8D cram8C0 cram8Tab 140 10000000000) 0 6060 :=
  cram8_E_c11.trans (Covered.piece 462 cram8_E_12 (by decide +kernel)) (by decide)
theorem cram8_E_c13 : Covered (pcE 1279 cram8D cram8C0 cram8Tab 140 10000000000) 0 6936 :=
  cram8_E_c12.trans (Covered.piece 438 cram8_E_13 (by decide +kernel)) (by decide)
theorem cram8_E_c14 : Covered (pcE 1279 cram8D cram8C0 cram8Tab 140 10000000000) 0 7400 :=
  cram8_E_c13.trans (Covered.piece 232 cram8_E_14 (by decide +kernel)) (by decide)
theorem cram8_E_c15 : Covered (pcE 1279 cram8D cram8C0 cram8Tab 140 10000000000) 0 8182 :=
  cram8_E_c14.trans (Covered.piece 391 cram8_E_15 (by decide +kernel)) (by decide)
theorem cram8_E_c16 : Covered (pcE 1279 cram8D cram8C0 cram8Tab 140 10000000000) 0 9500 :=
  cram8_E_c15.trans (Covered.piece 659 cram8_E_16 (by decide +kernel)) (by decide)
theorem cram8_E_c17 : Covered (pcE 1279 cram8D cram8C0 cram8Tab 140 10000000000) 0 10436 :=
  cram8_E_c16.trans (Covered.piece 468 cram8_E_17 (by decide +kernel)) (by decide)
theorem cram8_E_c18 : Covered (pcE 1279 cram8D cram8C0 cram8Tab 140 10000000000) 0 11100 :=
  cram8_E_c17.trans (Covered.piece 332 cram8_E_18 (by decide +kernel)) (by decide)
theorem cram8_E_c19 : Covered (pcE 1279 cram8D cram8C0 cram8Tab 140 10000000000) 0 11940 :=
  cram8_E_c18.trans (Covered.piece 420 cram8_E_19 (by decide +kernel)) (by decide)
theorem cram8_E_c20 : Covered (pcE 1279 cram8D cram8C0 cram8Tab 140 10000000000) 0 13356 :=
  cram8_E_c19.trans (Covered.piece 708 cram8_E_20 (by decide +kernel)) (by decide)
theorem cram8_E_c21 : Covered (pcE 1279 cram8D cram8C0 cram8Tab 140 10000000000) 0 14698 :=
  cram8_E_c20.trans (Covered.piece 671 cram8_E_21 (by decide +kernel)) (by decide)
theorem cram8_E_c22 : Covered (pcE 1279 cram8D cram8C0 cram8Tab 140 10000000000) 0 15412 :=
  cram8_E_c21.trans (Covered.piece 357 cram8_E_22 (by decide +kernel)) (by decide)
theorem cram8_E_c23 : Covered (pcE 1279 cram8D cram8C0 cram8Tab 140 10000000000) 0 16088 :=
  cram8_E_c22.trans (Covered.piece 338 cram8_E_23 (by decide +kernel)) (by decide)
theorem cram8_E_c24 : Covered (pcE 1279 cram8D cram8C0 cram8Tab 140 10000000000) 0 17228 :=
  cram8_E_c23.trans (Covered.piece 570 cram8_E_24 (by decide +kernel)) (by decide)
theorem cram8_E_c25 : Covered (pcE 1279 cram8D cram8C0 cram8Tab 140 10000000000) 0 19150 :=
  cram8_E_c24.trans (Covered.piece 961 cram8_E_25 (by decide +kernel)) (by decide)
theorem cram8_E_c26 : Covered (pcE 1279 cram8D cram8C0 cram8Tab 140 10000000000) 0 20516 :=
  cram8_E_c25.trans (Covered.piece 683 cram8_E_26 (by decide +kernel)) (by decide)
theorem cram8_E_c27 : Covered (pcE 1279 cram8D cram8C0 cram8Tab 140 10000000000) 0 21244 :=
  cram8_E_c26.trans (Covered.piece 364 cram8_E_27 (by decide +kernel)) (by decide)
theorem cram8_E_c28 : Covered (pcE 1279 cram8D cram8C0 cram8Tab 140 10000000000) 0 22164 :=
  cram8_E_c27.trans (Covered.piece 460 cram8_E_28 (by decide +kernel)) (by decide)
theorem cram8_E_c29 : Covered (pcE 1279 cram8D cram8C0 cram8Tab 140 10000000000) 0 23716 :=
  cram8_E_c28.trans (Covered.piece 776 cram8_E_29 (by decide +kernel)) (by decide)
theorem cram8_E_c30 : Covered (pcE 1279 cram8D cram8C0 cram8Tab 140 10000000000) 0 26334 :=
  cram8_E_c29.trans (Covered.piece 1309 cram8_E_30 (by decide +kernel)) (by decide)
theorem cram8_E_c31 : Covered (pcE 1279 cram8D cram8C0 cram8Tab 140 10000000000) 0 27744 :=
  cram8_E_c30.trans (Covered.piece 705 cram8_E_31 (by decide +kernel)) (by decide)
theorem cram8_E_c32 : Covered (pcE 1279 cram8D cram8C0 cram8Tab 140 10000000000) 0 28494 :=
  cram8_E_c31.trans (Covered.piece 375 cram8_E_32 (by decide +kernel)) (by decide)
theorem cram8_E_c33 : Covered (pcE 1279 cram8D cram8C0 cram8Tab 140 10000000000) 0 29442 :=
  cram8_E_c32.trans (Covered.piece 474 cram8_E_33 (by decide +kernel)) (by decide)
theorem cram8_E_c34 : Covered (pcE 1279 cram8D cram8C0 cram8Tab 140 10000000000) 0 31040 :=
  cram8_E_c33.trans (Covered.piece 799 cram8_E_34 (by decide +kernel)) (by decide)
theorem cram8_E_c35 : Covered (pcE 1279 cram8D cram8C0 cram8Tab 140 10000000000) 0 33734 :=
  cram8_E_c34.trans (Covered.piece 1347 cram8_E_35 (by decide +kernel)) (by decide)
theorem cram8_E_c36 : Covered (pcE 1279 cram8D cram8C0 cram8Tab 140 10000000000) 0 36244 :=
  cram8_E_c35.trans (Covered.piece 1255 cram8_E_36 (by decide +kernel)) (by decide)
theorem cram8_E_c37 : Covered (pcE 1279 cram8D cram8C0 cram8Tab 140 10000000000) 0 37300 :=
  cram8_E_c36.trans (Covered.piece 528 cram8_E_37 (by decide +kernel)) (by decide)
theorem cram8_E_c38 : Covered (pcE 1279 cram8D cram8C0 cram8Tab 140 10000000000) 0 38302 :=
  cram8_E_c37.trans (Covered.piece 501 cram8_E_38 (by decide +kernel)) (by decide)
theorem cram8_E_c39 : Covered (pcE 1279 cram8D cram8C0 cram8Tab 140 10000000000) 0 39250 :=
  cram8_E_c38.trans (Covered.piece 474 cram8_E_39 (by decide +kernel)) (by decide)
theorem cram8_E_c40 : Covered (pcE 1279 cram8D cram8C0 cram8Tab 140 10000000000) 0 41382 :=
  cram8_E_c39.trans (Covered.piece 1066 cram8_E_40 (by decide +kernel)) (by decide)
theorem cram8_E_c41 : Covered (pcE 1279 cram8D cram8C0 cram8Tab 140 10000000000) 0 44730 :=
  cram8_E_c40.trans (Covered.piece 1674 cram8_E_41 (by decide +kernel)) (by decide)
theorem cram8_E_c42 : Covered (pcE 1279 cram8D cram8C0 cram8Tab 140 10000000000) 0 48078 :=
  cram8_E_c41.trans (Covered.piece 1674 cram8_E_42 (by decide +kernel)) (by decide)
theorem cram8_E_c43 : Covered (pcE 1279 cram8D cram8C0 cram8Tab 140 10000000000) 0 49960 :=
  cram8_E_c42.trans (Covered.piece 941 cram8_E_43 (by decide +kernel)) (by decide)
theorem cram8_E_c44 : Covered (pcE 1279 cram8D cram8C0 cram8Tab 140 10000000000) 0 51298 :=
  cram8_E_c43.trans (Covered.piece 669 cram8_E_44 (by decide +kernel)) (by decide)
theorem cram8_E_c45 : Covered (pcE 1279 cram8D cram8C0 cram8Tab 140 10000000000) 0 52566 :=
  cram8_E_c44.trans (Covered.piece 634 cram8_E_45 (by decide +kernel)) (by decide)
theorem cram8_E_c46 : Covered (pcE 1279 cram8D cram8C0 cram8Tab 140 10000000000) 0 54168 :=
  cram8_E_c45.trans (Covered.piece 801 cram8_E_46 (by decide +kernel)) (by decide)
theorem cram8_E_c47 : Covered (pcE 1279 cram8D cram8C0 cram8Tab 140 10000000000) 0 57772 :=
  cram8_E_c46.trans (Covered.piece 1802 cram8_E_47 (by decide +kernel)) (by decide)
theorem cram8_E_c48 : Covered (pcE 1279 cram8D cram8C0 cram8Tab 140 10000000000) 0 63724 :=
  cram8_E_c47.trans (Covered.piece 2976 cram8_E_48 (by decide +kernel)) (by decide)
theorem cram8_E_c49 : Covered (pcE 1279 cram8D cram8C0 cram8Tab 140 10000000000) 0 67072 :=
  cram8_E_c48.trans (Covered.piece 1674 cram8_E_49 (by decide +kernel)) (by decide)
theorem cram8_E_c50 : Covered (pcE 1279 cram8D cram8C0 cram8Tab 140 10000000000) 0 68954 :=
  cram8_E_c49.trans (Covered.piece 941 cram8_E_50 (by decide +kernel)) (by decide)
theorem cram8_E_c51 : Covered (pcE 1279 cram8D cram8C0 cram8Tab 140 10000000000) 0 70738 :=
  cram8_E_c50.trans (Covered.piece 892 cram8_E_51 (by decide +kernel)) (by decide)
theorem cram8_E_c52 : Covered (pcE 1279 cram8D cram8C0 cram8Tab 140 10000000000) 0 72430 :=
  cram8_E_c51.trans (Covered.piece 846 cram8_E_52 (by decide +kernel)) (by decide)
theorem cram8_E_c53 : Covered (pcE 1279 cram8D cram8C0 cram8Tab 140 10000000000) 0 74034 :=
  cram8_E_c52.trans (Covered.piece 802 cram8_E_53 (by decide +kernel)) (by decide)
theorem cram8_E_c54 : Covered (pcE 1279 cram8D cram8C0 cram8Tab 140 10000000000) 0 76740 :=
  cram8_E_c53.trans (Covered.piece 1353 cram8_E_54 (by decide +kernel)) (by decide)
theorem cram8_E_c55 : Covered (pcE 1279 cram8D cram8C0 cram8Tab 140 10000000000) 0 82692 :=
  cram8_E_c54.trans (Covered.piece 2976 cram8_E_55 (by decide +kernel)) (by decide)
theorem cram8_E_c56 : Covered (pcE 1279 cram8D cram8C0 cram8Tab 140 10000000000) 0 90630 :=
  cram8_E_c55.trans (Covered.piece 3969 cram8_E_56 (by decide +kernel)) (by decide)
theorem cram8_E_c57 : Covered (pcE 1279 cram8D cram8C0 cram8Tab 140 10000000000) 0 95094 :=
  cram8_E_c56.trans (Covered.piece 2232 cram8_E_57 (by decide +kernel)) (by decide)
theorem cram8_E_c58 : Covered (pcE 1279 cram8D cram8C0 cram8Tab 140 10000000000) 0 98442 :=
  cram8_E_c57.trans (Covered.piece 1674 cram8_E_58 (by decide +kernel)) (by decide)
theorem cram8_E_c59 : Covered (pcE 1279 cram8D cram8C0 cram8Tab 140 10000000000) 0 100952 :=
  cram8_E_c58.trans (Covered.piece 1255 cram8_E_59 (by decide +kernel)) (by decide)
theorem cram8_E_c60 : Covered (pcE 1279 cram8D cram8C0 cram8Tab 140 10000000000) 0 103462 :=
  cram8_E_c59.trans (Covered.piece 1255 cram8_E_60 (by decide +kernel)) (by decide)
theorem cram8_T_0 : pcT 1279 cram8D cram8C0 cram8Tab 139 10000000000 48 48 = true := by decide +kernel
theorem cram8_T_1 : pcT 1279 cram8D cram8C0 cram8Tab 139 10000000000 129 33 = true := by decide +kernel
theorem cram8_T_2 : pcT 1279 cram8D cram8C0 cram8Tab 139 10000000000 203 41 = true := by decide +kernel
theorem cram8_T_3 : pcT 1279 cram8D cram8C0 cram8Tab 139 10000000000 367 123 = true := by decide +kernel
theorem cram8_T_4 : pcT 1279 cram8D cram8C0 cram8Tab 139 10000000000 555 65 = true := by decide +kernel
theorem cram8_T_5 : pcT 1279 cram8D cram8C0 cram8Tab 139 10000000000 701 81 = true := by decide +kernel
theorem cram8_T_6 : pcT 1279 cram8D cram8C0 cram8Tab 139 10000000000 964 182 = true := by decide +kernel
theorem cram8_T_7 : pcT 1279 cram8D cram8C0 cram8Tab 139 10000000000 1242 96 = true := by decide +kernel
theorem cram8_T_8 : pcT 1279 cram8D cram8C0 cram8Tab 139 10000000000 1459 121 = true := by decide +kernel
theorem cram8_T_9 : pcT 1279 cram8D cram8C0 cram8Tab 139 10000000000 1733 153 = true := by decide +kernel
theorem cram8_T_10 : pcT 1279 cram8D cram8C0 cram8Tab 139 10000000000 2079 193 = true := by decide +kernel
theorem cram8_T_11 : pcT 1279 cram8D cram8C0 cram8Tab 139 10000000000 2408 136 = true := by decide +kernel
theorem cram8_T_c0 : Covered (pcT 1279 cram8D cram8C0 cram8Tab 139 10000000000) 0 96 :=
  Covered.piece 48 cram8_T_0 (by decide +kernel)
theorem cram8_T_c1 : Covered (pcT 1279 cram8D cram8C0 cram8Tab 139 10000000000) 0 162 :=
  cram8_T_c0.trans (Covered.piece 33 cram8_T_1 (by decide +kernel)) (by decide)
theorem cram8_T_c2 : Covered (pcT 1279 cram8D cram8C0 cram8Tab 139 10000000000) 0 244 :=
  cram8_T_c1.trans (Covered.piece 41 cram8_T_2 (by decide +kernel)) (by decide)
theorem cram8_T_c3 : Covered (pcT 1279 cram8D cram8C0 cram8Tab 139 10000000000) 0 490 :=
  cram8_T_c2.trans (Covered.piece 123 cram8_T_3 (by decide +kernel)) (by decide)
theorem cram8_T_c4 : Covered (pcT 1279 cram8D cram8C0 cram8Tab 139 10000000000) 0 620 :=
  cram8_T_c3.trans (Covered.piece 65 cram8_T_4 (by decide +kernel)) (by decide)
theorem cram8_T_c5 : Covered (pcT 1279 cram8D cram8C0 cram8Tab 139 10000000000) 0 782 :=
  cram8_T_c4.trans (Covered.piece 81 cram8_T_5 (by decide +kernel)) (by decide)
theorem cram8_T_c6 : Covered (pcT 1279 cram8D cram8C0 cram8Tab 139 10000000000) 0 1146 :=
  cram8_T_c5.trans (Covered.piece 182 cram8_T_6 (by decide +kernel)) (by decide)
theorem cram8_T_c7 : Covered (pcT 1279 cram8D cram8C0 cram8Tab 139 10000000000) 0 1338 :=
  cram8_T_c6.trans (Covered.piece 96 cram8_T_7 (by decide +kernel)) (by decide)
theorem cram8_T_c8 : Covered (pcT 1279 cram8D cram8C0 cram8Tab 139 10000000000) 0 1580 :=
  cram8_T_c7.trans (Covered.piece 121 cram8_T_8 (by decide +kernel)) (by decide)
theorem cram8_T_c9 : Covered (pcT 1279 cram8D cram8C0 cram8Tab 139 10000000000) 0 1886 :=
  cram8_T_c8.trans (Covered.piece 153 cram8_T_9 (by decide +kernel)) (by decide)
theorem cram8_T_c10 : Covered (pcT 1279 cram8D cram8C0 cram8Tab 139 10000000000) 0 2272 :=
  cram8_T_c9.trans (Covered.piece 193 cram8_T_10 (by decide +kernel)) (by decide)
theorem cram8_T_c11 : Covered (pcT 1279 cram8D cram8C0 cram8Tab 139 10000000000) 0 2544 :=
  cram8_T_c10.trans (Covered.piece 136 cram8_T_11 (by decide +kernel)) (by decide)
theorem cram8_sideE : sideE 140 10000000000 139 103462 2544 = true := by decide +kernel
theorem cram8_exp (x : ℝ) (hx : x ≤ 0) :
    |rVal cram8D cram8C0 cram8Tab x - Real.exp x| ≤ (140 : ℕ) / (10000000000 : ℕ) + 1 / 10 ^ 23 :=
  exp_sound cram8_side cram8_sideE cram8_E_c60 cram8_T_c11 x hx
theorem cram8_P1_0 : pcPF 1753 cram8D cram8Tab 1 1 1000000 1255 1255 = true := by decide +kernel
theorem cram8_P1_1 : pcPF 1753 cram8D cram8Tab 1 1 1000000 5486 2976 = true := by decide +kernel
theorem cram8_P1_c0 : Covered (pcPF 1753 cram8D cram8Tab 1 1 1000000) 0 2510 :=
  Covered.piece 1255 cram8_P1_0 (by decide +kernel)
theorem cram8_P1_c1 : Covered (pcPF 1753 cram8D cram8Tab 1 1 1000000) 0 8462 :=
  cram8_P1_c0.trans (Covered.piece 2976 cram8_P1_1 (by decide +kernel)) (by decide)
theorem cram8_phi1 (x : ℝ) (hx : x ≤ 0) (hx1 : -1 ≤ x) :
    |rVal cram8D 0 (divTab cram8D cram8Tab 1) x - phi 1 x| ≤ (1 : ℕ) / (1000000 : ℕ) + 1 / 10 ^ 23 :=
  phi_sound cram8_side (by norm_num) (by norm_num) cram8_P1_c1 x hx hx1
theorem cram8_P2_0 : pcPF 2361 cram8D cram8Tab 2 3 250000 1674 1674 = true := by decide +kernel
theorem cram8_P2_1 : pcPF 2361 cram8D cram8Tab 2 3 250000 6324 2976 = true := by decide +kernel
theorem cram8_P2_c0 : Covered (pcPF 2361 cram8D cram8Tab 2 3 250000) 0 3348 :=
  Covered.piece 1674 cram8_P2_0 (by decide +kernel)
theorem cram8_P2_c1 : Covered (pcPF 2361 cram8D cram8Tab 2 3 250000) 0 9300 :=
  cram8_P2_c0.trans (Covered.piece 2976 cram8_P2_1 (by decide +kernel)) (by decide)
theorem cram8_phi2 (x : ℝ) (hx : x ≤ 0) (hx1 : -1 ≤ x) :
    |rVal cram8D 0 (divTab cram8D cram8Tab 2) x - phi 2 x| ≤ (3 : ℕ) / (250000 : ℕ) + 1 / 10 ^ 23 :=
  phi_sound cram8_side (by norm_num) (by norm_num) cram8_P2_c1 x hx hx1

/-! ### `cram_10` -/

def cram10D : ℤ := 1000000000000000000000000
def cram10C0 : ℤ := 136124944649652
def cram10Tab : List RTerm := [
  ⟨-5161191243029790000000000, -11375156268688300000000000, -5784904034645850000000, -685850638879159000000, 1⟩,
  ⟨-894404676017285000000000, -8582756910372350000000000, 272586987175861000000000, -14211730312034400000000, 1⟩,
  ⟨1715406039605190000000000, -6038934933782980000000000, -2565585008238660000000000, 1216385754410930000000000, 1⟩,
  ⟨3283752905650890000000000, -3594386777541660000000000, 7117165232514720000000000, -8819533393801040000000000, 1⟩,
  ⟨4027732489048780000000000, -1193856068244340000000000, -4818382072565940000000000, 21054597728183200000000000, 1⟩]

theorem cram10_side : sideTab cram10D cram10Tab = true := by decide +kernel
theorem cram10_E_0 : pcE 1534 cram10D cram10C0 cram10Tab 160 1000000000000 51 51 = true := by decide +kernel
theorem cram10_E_1 : pcE 1534 cram10D cram10C0 cram10Tab 160 1000000000000 149 47 = true := by decide +kernel
theorem cram10_E_2 : pcE 1534 cram10D cram10C0 cram10Tab 160 1000000000000 254 58 = true := by decide +kernel
theorem cram10_E_3 : pcE 1534 cram10D cram10C0 cram10Tab 160 1000000000000 486 174 = true := by decide +kernel
theorem cram10_E_4 : pcE 1534 cram10D cram10C0 cram10Tab 160 1000000000000 752 92 = true := by decide +kernel
theorem cram10_E_5 : pcE 1534 cram10D cram10C0 cram10Tab 160 1000000000000 960 116 = true := by decide +kernel
theorem cram10_E_6 : pcE 1534 cram10D cram10C0 cram10Tab 160 1000000000000 1271 195 = true := by decide +kernel
theorem cram10_E_7 : pcE 1534 cram10D cram10C0 cram10Tab 160 1000000000000 1650 184 = true := by decide +kernel
theorem cram10_E_8 : pcE 1534 cram10D cram10C0 cram10Tab 160 1000000000000 1964 130 = true := by decide +kernel
theorem cram10_E_9 : pcE 1534 cram10D cram10C0 cram10Tab 160 1000000000000 2258 164 = true := by decide +kernel
theorem cram10_E_10 : pcE 1534 cram10D cram10C0 cram10Tab 160 1000000000000 2791 369 = true := by decide +kernel
theorem cram10_E_11 : pcE 1534 cram10D cram10C0 cram10Tab 160 1000000000000 3355 195 = true := by decide +kernel
theorem cram10_E_12 : pcE 1534 cram10D cram10C0 cram10Tab 160 1000000000000 3734 184 = true := by decide +kernel
theorem cram10_E_13 : pcE 1534 cram10D cram10C0 cram10Tab 160 1000000000000 4150 232 = true := by decide +kernel
theorem cram10_E_14 : pcE 1534 cram10D cram10C0 cram10Tab 160 1000000000000 4904 522 = true := by decide +kernel
theorem cram10_E_15 : pcE 1534 cram10D cram10C0 cram10Tab 160 1000000000000 5634 208 = true := by decide +kernel
theorem cram10_E_16 : pcE 1534 cram10D cram10C0 cram10Tab 160 1000000000000 6105 263 = true := by decide +kernel
theorem cram10_E_17 : pcE 1534 cram10D cram10C0 cram10Tab 160 1000000000000 6700 332 = true := by decide +kernel
theorem cram10_E_18 : pcE 1534 cram10D cram10C0 cram10Tab 160 1000000000000 7592 560 = true := by decide +kernel
theorem cram10_E_19 : pcE 1534 cram10D cram10C0 cram10Tab 160 1000000000000 8375 223 = true := by decide +kernel
theorem cram10_E_20 : pcE 1534 cram10D cram10C0 cram10Tab 160 1000000000000 8973 375 = true := by decide +kernel
theorem cram10_E_21 : pcE 1534 cram10D cram10C0 cram10Tab 160 1000000000000 9822 474 = true := by decide +kernel
theorem cram10_E_22 : pcE 1534 cram10D cram10C0 cram10Tab 160 1000000000000 10895 599 = true := by decide +kernel
theorem cram10_E_23 : pcE 1534 cram10D cram10C0 cram10Tab 160 1000000000000 11732 238 = true := by decide +kernel
theorem cram10_E_24 : pcE 1534 cram10D cram10C0 cram10Tab 160 1000000000000 12270 300 = true := by decide +kernel
theorem cram10_E_25 : pcE 1534 cram10D cram10C0 cram10Tab 160 1000000000000 13076 506 = true := by decide +kernel
theorem cram10_E_26 : pcE 1534 cram10D cram10C0 cram10Tab 160 1000000000000 14435 853 = true := by decide +kernel
theorem cram10_E_27 : pcE 1534 cram10D cram10C0 cram10Tab 160 1000000000000 15628 340 = true := by decide +kernel
theorem cram10_E_28 : pcE 1534 cram10D cram10C0 cram10Tab 160 1000000000000 16289 321 = true := by decide +kernel
theorem cram10_E_29 : pcE 1534 cram10D cram10C0 cram10Tab 160 1000000000000 17151 541 = true := by decide +kernel
theorem cram10_E_30 : pcE 1534 cram10D cram10C0 cram10Tab 160 1000000000000 18604 912 = true := by decide +kernel
theorem cram10_E_31 : pcE 1534 cram10D cram10C0 cram10Tab 160 1000000000000 20002 486 = true := by decide +kernel
theorem cram10_E_32 : pcE 1534 cram10D cram10C0 cram10Tab 160 1000000000000 20833 345 = true := by decide +kernel
theorem cram10_E_33 : pcE 1534 cram10D cram10C0 cram10Tab 160 1000000000000 21614 436 = true := by decide +kernel
theorem cram10_E_34 : pcE 1534 cram10D cram10C0 cram10Tab 160 1000000000000 22785 735 = true := by decide +kernel
theorem cram10_E_35 : pcE 1534 cram10D cram10C0 cram10Tab 160 1000000000000 24449 929 = true := by decide +kernel
theorem cram10_E_36 : pcE 1534 cram10D cram10C0 cram10Tab 160 1000000000000 25873 495 = true := by decide +kernel
theorem cram10_E_37 : pcE 1534 cram10D cram10C0 cram10Tab 160 1000000000000 26719 351 = true := by decide +kernel
theorem cram10_E_38 : pcE 1534 cram10D cram10C0 cram10Tab 160 1000000000000 27402 332 = true := by decide +kernel
theorem cram10_E_39 : pcE 1534 cram10D cram10C0 cram10Tab 160 1000000000000 28481 747 = true := by decide +kernel
theorem cram10_E_40 : pcE 1534 cram10D cram10C0 cram10Tab 160 1000000000000 30488 1260 = true := by decide +kernel
theorem cram10_E_41 : pcE 1534 cram10D cram10C0 cram10Tab 160 1000000000000 32453 705 = true := by decide +kernel
theorem cram10_E_42 : pcE 1534 cram10D cram10C0 cram10Tab 160 1000000000000 33659 501 = true := by decide +kernel
theorem cram10_E_43 : pcE 1534 cram10D cram10C0 cram10Tab 160 1000000000000 34515 355 = true := by decide +kernel
theorem cram10_E_44 : pcE 1534 cram10D cram10C0 cram10Tab 160 1000000000000 35468 598 = true := by decide +kernel
theorem cram10_E_45 : pcE 1534 cram10D cram10C0 cram10Tab 160 1000000000000 37074 1008 = true := by decide +kernel
theorem cram10_E_46 : pcE 1534 cram10D cram10C0 cram10Tab 160 1000000000000 39337 1255 = true := by decide +kernel
theorem cram10_E_47 : pcE 1534 cram10D cram10C0 cram10Tab 160 1000000000000 41297 705 = true := by decide +kernel
theorem cram10_E_48 : pcE 1534 cram10D cram10C0 cram10Tab 160 1000000000000 42503 501 = true := by decide +kernel
theorem cram10_E_49 : pcE 1534 cram10D cram10C0 cram10Tab 160 1000000000000 43478 474 = true := by decide +kernel
theorem cram10_E_50 : pcE 1534 cram10D cram10C0 cram10Tab 160 1000000000000 44551 599 = true := by decide +kernel
theorem cram10_E_51 : pcE 1534 cram10D cram10C0 cram10Tab 160 1000000000000 46160 1010 = true := by decide +kernel
theorem cram10_E_52 : pcE 1534 cram10D cram10C0 cram10Tab 160 1000000000000 48844 1674 = true := by decide +kernel
theorem cram10_E_53 : pcE 1534 cram10D cram10C0 cram10Tab 160 1000000000000 51459 941 = true := by decide +kernel
theorem cram10_E_54 : pcE 1534 cram10D cram10C0 cram10Tab 160 1000000000000 53069 669 = true := by decide +kernel
theorem cram10_E_55 : pcE 1534 cram10D cram10C0 cram10Tab 160 1000000000000 54213 475 = true := by decide +kernel
theorem cram10_E_56 : pcE 1534 cram10D cram10C0 cram10Tab 160 1000000000000 55138 450 = true := by decide +kernel
theorem cram10_E_57 : pcE 1534 cram10D cram10C0 cram10Tab 160 1000000000000 56157 569 = true := by decide +kernel
theorem cram10_E_58 : pcE 1534 cram10D cram10C0 cram10Tab 160 1000000000000 58006 1280 = true := by decide +kernel
theorem cram10_E_59 : pcE 1534 cram10D cram10C0 cram10Tab 160 1000000000000 61518 2232 = true := by decide +kernel
theorem cram10_E_60 : pcE 1534 cram10D cram10C0 cram10Tab 160 1000000000000 65424 1674 = true := by decide +kernel
theorem cram10_E_61 : pcE 1534 cram10D cram10C0 cram10Tab 160 1000000000000 68039 941 = true := by decide +kernel
theorem cram10_E_62 : pcE 1534 cram10D cram10C0 cram10Tab 160 1000000000000 69649 669 = true := by decide +kernel
theorem cram10_E_63 : pcE 1534 cram10D cram10C0 cram10Tab 160 1000000000000 70952 634 = true := by decide +kernel
theorem cram10_E_64 : pcE 1534 cram10D cram10C0 cram10Tab 160 1000000000000 72387 801 = true := by decide +kernel
theorem cram10_E_65 : pcE 1534 cram10D cram10C0 cram10Tab 160 1000000000000 74990 1802 = true := by decide +kernel
theorem cram10_E_66 : pcE 1534 cram10D cram10C0 cram10Tab 160 1000000000000 79768 2976 = true := by decide +kernel
theorem cram10_E_67 : pcE 1534 cram10D cram10C0 cram10Tab 160 1000000000000 84418 1674 = true := by decide +kernel
theorem cram10_E_68 : pcE 1534 cram10D cram10C0 cram10Tab 160 1000000000000 87347 1255 = true := by decide +kernel
theorem cram10_E_69 : pcE 1534 cram10D cram10C0 cram10Tab 160 1000000000000 89543 941 = true := by decide +kernel
theorem cram10_E_70 : pcE 1534 cram10D cram10C0 cram10Tab 160 1000000000000 91153 669 = true := by decide +kernel
theorem cram10_E_71 : pcE 1534 cram10D cram10C0 cram10Tab 160 1000000000000 92456 634 = true := by decide +kernel
theorem cram10_E_72 : pcE 1534 cram10D cram10C0 cram10Tab 160 1000000000000 93891 801 = true := by decide +kernel
theorem cram10_E_73 : pcE 1534 cram10D cram10C0 cram10Tab 160 1000000000000 95705 1013 = true := by decide +kernel
theorem cram10_E_74 : pcE 1534 cram10D cram10C0 cram10Tab 160 1000000000000 98392 1674 = true := by decide +kernel
theorem cram10_E_75 : pcE 1534 cram10D cram10C0 cram10Tab 160 1000000000000 103042 2976 = true := by decide +kernel
theorem cram10_E_76 : pcE 1534 cram10D cram10C0 cram10Tab 160 1000000000000 109987 3969 = true := by decide +kernel
theorem cram10_E_c0 : Covered (pcE 1534 cram10D cram10C0 cram10Tab 160 1000000000000) 0 102 :=
  Covered.piece 51 cram10_E_0 (by decide +kernel)
theorem cram10_E_c1 : Covered (pcE 1534 cram10D cram10C0 cram10Tab 160 1000000000000) 0 196 :=
  cram10_E_c0.trans (Covered.piece 47 cram10_E_1 (by decide +kernel)) (by decide)
theorem cram10_E_c2 : Covered (pcE 1534 cram10D cram10C0 cram10Tab 160 1000000000000) 0 312 :=
  cram10_E_c1.trans (Covered.piece 58 cram10_E_2 (by decide +kernel)) (by decide)
theorem cram10_E_c3 : Covered (pcE 1534 cram10D cram10C0 cram10Tab 160 1000000000000) 0 660 :=
  cram10_E_c2.trans (Covered.piece 174 cram10_E_3 (by decide +kernel)) (by decide)
theorem cram10_E_c4 : Covered (pcE 1534 cram10D cram10C0 cram10Tab 160 1000000000000) 0 844 :=
  cram10_E_c3.trans (Covered.piece 92 cram10_E_4 (by decide +kernel)) (by decide)
theorem cram10_E_c5 : Covered (pcE 1534 cram10D cram10C0 cram10Tab 160 1000000000000) 0 1076 :=
  cram10_E_c4.trans (Covered.piece 116 cram10_E_5 (by decide +kernel)) (by decide)
theorem cram10_E_c6 : Covered (pcE 1534 cram10D cram10C0 cram10Tab 160 1000000000000) 0 1466 :=
  cram10_E_c5.trans (Covered.piece 195 cram10_E_6 (by decide +kernel)) (by decide)
theorem cram10_E_c7 : Covered (pcE 1534 cram10D cram10C0 cram10Tab 160 1000000000000) 0 1834 :=
  cram10_E_c6.trans (Covered.piece 184 cram10_E_7 (by decide +kernel)) (by decide)
theorem cram10_E_c8 : Covered (pcE 1534 cram10D cram10C0 cram10Tab 160 1000000000000) 0 2094 :=
  cram10_E_c7.trans (Covered.piece 130 cram10_E_8 (by decide +kernel)) (by decide)
theorem cram10_E_c9 : Covered (pcE 1534 cram10D cram10C0 cram10Tab 160 1000000000000) 0 2422 :=
  cram10_E_c8.trans (Covered.piece 164 cram10_E_9 (by decide +kernel)) (by decide)
theorem cram10_E_c10 : Covered (pcE 1534 cram10D cram10C0 cram10Tab 160 1000000000000) 0 3160 :=
  cram10_E_c9.trans (Covered.piece 369 cram10_E_10 (by decide +kernel)) (by decide)
theorem cram10_E_c11 : Covered (pcE 1534 cram10D cram10C0 cram10Tab 160 1000000000000) 0 3550 :=
  cram10_E_c10.trans (Covered.piece 195 cram10_E_11 (by decide +kernel)) (by decide)
theorem cram10_E_c12 : Covered (pcE 1534 cram10D cram10C0 cram10Tab 160 1000000000000) 0 3918 :=
  cram10_E_c11.trans (Covered.piece 184 cram10_E_12 (by decide +kernel)) (by decide)
theorem cram10_E_c13 : Covered (pcE 1534 cram10D cram10C0 cram10Tab 160 1000000000000) 0 4382 :=
  cram10_E_c12.trans (Covered.piece 232 cram10_E_13 (by decide +kernel)) (by decide)
theorem cram10_E_c14 : Covered (pcE 1534 cram10D cram10C0 cram10Tab 160 1000000000000) 0 5426 :=
  cram10_E_c13.trans (Covered.piece 522 cram10_E_14 (by decide +kernel)) (by decide)
theorem cram10_E_c15 : Covered (pcE 1534 cram10D cram10C0 cram10Tab 160 1000000000000) 0 5842 :=
  cram10_E_c14.trans (Covered.piece 208 cram10_E_15 (by decide +kernel)) (by decide)
theorem cram10_E_c16 : Covered (pcE 1534 cram10D cram10C0 cram10Tab 160 1000000000000) 0 6368 :=
  cram10_E_c15.trans (Covered.piece 263 cram10_E_16 (by decide +kernel)) (by decide)
theorem cram10_E_c17 : Covered (pcE 1534 cram10D cram10C0 cram10Tab 160 1000000000000) 0 7032 :=
  cram10_E_c16.trans (Covered.piece 332 cram10_E_17 (by decide +kernel)) (by decide)
theorem cram10_E_c18 : Covered (pcE 1534 cram10D cram10C0 cram10Tab 160 1000000000000) 0 8152 :=
  cram10_E_c17.trans (Covered.piece 560 cram10_E_18 (by decide +kernel)) (by decide)
theorem cram10_E_c19 : Covered (pcE 1534 cram10D cram10C0 cram10Tab 160 1000000000000) 0 8598 :=
  cram10_E_c18.trans (Covered.piece 223 cram10_E_19 (by decide +kernel)) (by decide)
theorem cram10_E_c20 : Covered (pcE 1534 cram10D cram10C0 cram10Tab 160 1000000000000) 0 9348 :=
  cram10_E_c19.trans (Covered.piece 375 cram10_E_20 (by decide +kernel)) (by decide)
theorem cram10_E_c21 : Covered (pcE 1534 cram10D cram10C0 cram10Tab 160 1000000000000) 0 10296 :=
  cram10_E_c20.trans (Covered.piece 474 cram10_E_21 (by decide +kernel)) (by decide)
theorem cram10_E_c22 : Covered (pcE 1534 cram10D cram10C0 cram10Tab 160 1000000000000) 0 11494 :=
  cram10_E_c21.trans (Covered.piece 599 cram10_E_22 (by decide +kernel)) (by decide)
theorem cram10_E_c23 : Covered (pcE 1534 cram10D cram10C0 cram10Tab 160 1000000000000) 0 11970 :=
  cram10_E_c22.trans (Covered.piece 238 cram10_E_23 (by decide +kernel)) (by decide)
theorem cram10_E_c24 : Covered (pcE 1534 cram10D cram10C0 cram10Tab 160 1000000000000) 0 12570 :=
  cram10_E_c23.trans (Covered.piece 300 cram10_E_24 (by decide +kernel)) (by decide)
theorem cram10_E_c25 : Covered (pcE 1534 cram10D cram10C0 cram10Tab 160 1000000000000) 0 13582 :=
  cram10_E_c24.trans (Covered.piece 506 cram10_E_25 (by decide +kernel)) (by decide)
theorem cram10_E_c26 : Covered (pcE 1534 cram10D cram10C0 cram10Tab 160 1000000000000) 0 15288 :=
  cram10_E_c25.trans (Covered.piece 853 cram10_E_26 (by decide +kernel)) (by decide)
theorem cram10_E_c27 : Covered (pcE 1534 cram10D cram10C0 cram10Tab 160 1000000000000) 0 15968 :=
  cram10_E_c26.trans (Covered.piece 340 cram10_E_27 (by decide +kernel)) (by decide)
theorem cram10_E_c28 : Covered (pcE 1534 cram10D cram10C0 cram10Tab 160 1000000000000) 0 16610 :=
  cram10_E_c27.trans (Covered.piece 321 cram10_E_28 (by decide +kernel)) (by decide)
theorem cram10_E_c29 : Covered (pcE 1534 cram10D cram10C0 cram10Tab 160 1000000000000) 0 17692 :=
  cram10_E_c28.trans (Covered.piece 541 cram10_E_29 (by decide +kernel)) (by decide)
theorem cram10_E_c30 : Covered (pcE 1534 cram10D cram10C0 cram10Tab 160 1000000000000) 0 19516 :=
  cram10_E_c29.trans (Covered.piece 912 cram10_E_30 (by decide +kernel)) (by decide)
theorem cram10_E_c31 : Covered (pcE 1534 cram10D cram10C0 cram10Tab 160 1000000000000) 0 20488 :=
  cram10_E_c30.trans (Covered.piece 486 cram10_E_31 (by decide +kernel)) (by decide)
theorem cram10_E_c32 : Covered (pcE 1534 cram10D cram10C0 cram10Tab 160 1000000000000) 0 21178 :=
  cram10_E_c31.trans (Covered.piece 345 cram10_E_32 (by decide +kernel)) (by decide)
theorem cram10_E_c33 : Covered (pcE 1534 cram10D cram10C0 cram10Tab 160 1000000000000) 0 22050 :=
  cram10_E_c32.trans (Covered.piece 436 cram10_E_33 (by decide +kernel)) (by decide)
theorem cram10_E_c34 : Covered (pcE 1534 cram10D cram10C0 cram10Tab 160 1000000000000) 0 23520 :=
  cram10_E_c33.trans (Covered.piece 735 cram10_E_34 (by decide +kernel)) (by decide)
theorem cram10_E_c35 : Covered (pcE 1534 cram10D cram10C0 cram10Tab 160 1000000000000) 0 25378 :=
  cram10_E_c34.trans (Covered.piece 929 cram10_E_35 (by decide +kernel)) (by decide)
theorem cram10_E_c36 : Covered (pcE 1534 cram10D cram10C0 cram10Tab 160 1000000000000) 0 26368 :=
  cram10_E_c35.trans (Covered.piece 495 cram10_E_36 (by decide +kernel)) (by decide)
theorem cram10_E_c37 : Covered (pcE 1534 cram10D cram10C0 cram10Tab 160 1000000000000) 0 27070 :=
  cram10_E_c36.trans (Covered.piece 351 cram10_E_37 (by decide +kernel)) (by decide)
theorem cram10_E_c38 : Covered (pcE 1534 cram10D cram10C0 cram10Tab 160 1000000000000) 0 27734 :=
  cram10_E_c37.trans (Covered.piece 332 cram10_E_38 (by decide +kernel)) (by decide)
theorem cram10_E_c39 : Covered (pcE 1534 cram10D cram10C0 cram10Tab 160 1000000000000) 0 29228 :=
  cram10_E_c38.trans (Covered.piece 747 cram10_E_39 (by decide +kernel)) (by decide)
theorem cram10_E_c40 : Covered (pcE 1534 cram10D cram10C0 cram10Tab 160 1000000000000) 0 31748 :=
  cram10_E_c39.trans (Covered.piece 1260 cram10_E_40 (by decide +kernel)) (by decide)
theorem cram10_E_c41 : Covered (pcE 1534 cram10D cram10C0 cram10Tab 160 1000000000000) 0 33158 :=
  cram10_E_c40.trans (Covered.piece 705 cram10_E_41 (by decide +kernel)) (by decide)
theorem cram10_E_c42 : Covered (pcE 1534 cram10D cram10C0 cram10Tab 160 1000000000000) 0 34160 :=
  cram10_E_c41.trans (Covered.piece 501 cram10_E_42 (by decide +kernel)) (by decide)
theorem cram10_E_c43 : Covered (pcE 1534 cram10D cram10C0 cram10Tab 160 1000000000000) 0 34870 :=
  cram10_E_c42.trans (Covered.piece 355 cram10_E_43 (by decide +kernel)) (by decide)
theorem cram10_E_c44 : Covered (pcE 1534 cram10D cram10C0 cram10Tab 160 1000000000000) 0 36066 :=
  cram10_E_c43.trans (Covered.piece 598 cram10_E_44 (by decide +kernel)) (by decide)
theorem cram10_E_c45 : Covered (pcE 1534 cram10D cram10C0 cram10Tab 160 1000000000000) 0 38082 :=
  cram10_E_c44.trans (Covered.piece 1008 cram10_E_45 (by decide +kernel)) (by decide)
theorem cram10_E_c46 : Covered (pcE 1534 cram10D cram10C0 cram10Tab 160 1000000000000) 0 40592 :=
  cram10_E_c45.trans (Covered.piece 1255 cram10_E_46 (by decide +kernel)) (by decide)
theorem cram10_E_c47 : Covered (pcE 1534 cram10D cram10C0 cram10Tab 160 1000000000000) 0 42002 :=
  cram10_E_c46.trans (Covered.piece 705 cram10_E_47 (by decide +kernel)) (by decide)
theorem cram10_E_c48 : Covered (pcE 1534 cram10D cram10C0 cram10Tab 160 1000000000000) 0 43004 :=
  cram10_E_c47.trans (Covered.piece 501 cram10_E_48 (by decide +kernel)) (by decide)
theorem cram10_E_c49 : Covered (pcE 1534 cram10D cram10C0 cram10Tab 160 1000000000000) 0 43952 :=
  cram10_E_c48.trans (Covered.piece 474 cram10_E_49 (by decide +kernel)) (by decide)
theorem cram10_E_c50 : Covered (pcE 1534 cram10D cram10C0 cram10Tab 160 1000000000000) 0 45150 :=
  cram10_E_c49.trans (Covered.piece 599 cram10_E_50 (by decide +kernel)) (by decide)
theorem cram10_E_c51 : Covered (pcE 1534 cram10D cram10C0 cram10Tab 160 1000000000000) 0 47170 :=
  cram10_E_c50.trans (Covered.piece 1010 cram10_E_51 (by decide +kernel)) (by decide)
theorem cram10_E_c52 : Covered (pcE 1534 cram10D cram10C0 cram10Tab 160 1000000000000) 0 50518 :=
  cram10_E_c51.trans (Covered.piece 1674 cram10_E_52 (by decide +kernel)) (by decide)
theorem cram10_E_c53 : Covered (pcE 1534 cram10D cram10C0 cram10Tab 160 1000000000000) 0 52400 :=
  cram10_E_c52.trans (Covered.piece 941 cram10_E_53 (by decide +kernel)) (by decide)
theorem cram10_E_c54 : Covered (pcE 1534 cram10D cram10C0 cram10Tab 160 1000000000000) 0 53738 :=
  cram10_E_c53.trans (Covered.piece 669 cram10_E_54 (by decide +kernel)) (by decide)
theorem cram10_E_c55 : Covered (pcE 1534 cram10D cram10C0 cram10Tab 160 1000000000000) 0 54688 :=
  cram10_E_c54.trans (Covered.piece 475 cram10_E_55 (by decide +kernel)) (by decide)
theorem cram10_E_c56 : Covered (pcE 1534 cram10D cram10C0 cram10Tab 160 1000000000000) 0 55588 :=
  cram10_E_c55.trans (Covered.piece 450 cram10_E_56 (by decide +kernel)) (by decide)
theorem cram10_E_c57 : Covered (pcE 1534 cram10D cram10C0 cram10Tab 160 1000000000000) 0 56726 :=
  cram10_E_c56.trans (Covered.piece 569 cram10_E_57 (by decide +kernel)) (by decide)
theorem cram10_E_c58 : Covered (pcE 1534 cram10D cram10C0 cram10Tab 160 1000000000000) 0 59286 :=
  cram10_E_c57.trans (Covered.piece 1280 cram10_E_58 (by decide +kernel)) (by decide)
theorem cram10_E_c59 : Covered (pcE 1534 cram10D cram10C0 cram10Tab 160 1000000000000) 0 63750 :=
  cram10_E_c58.trans (Covered.piece 2232 cram10_E_59 (by decide +kernel)) (by decide)
theorem cram10_E_c60 : Covered (pcE 1534 cram10D cram10C0 cram10Tab 160 1000000000000) 0 67098 :=
  cram10_E_c59.trans (Covered.piece 1674 cram10_E_60 (by decide +kernel)) (by decide)
theorem cram10_E_c61 : Covered (pcE 1534 cram10D cram10C0 cram10Tab 160 1000000000000) 0 68980 :=
  cram10_E_c60.trans (Covered.piece 941 cram10_E_61 (by decide +kernel)) (by decide)
theorem cram10_E_c62 : Covered (pcE 1534 cram10D cram10C0 cram10Tab 160 1000000000000) 0 70318 :=
  cram10_E_c61.trans (Covered.piece 669 cram10_E_62 (by decide +kernel)) (by decide)
theorem cram10_E_c63 : Covered (pcE 1534 cram10D cram10C0 cram10Tab 160 1000000000000) 0 71586 :=
  cram10_E_c62.trans (Covered.piece 634 cram10_E_63 (by decide +kernel)) (by decide)
theorem cram10_E_c64 : Covered (pcE 1534 cram10D cram10C0 cram10Tab 160 1000000000000) 0 73188 :=
  cram10_E_c63.trans (Covered.piece 801 cram10_E_64 (by decide +kernel)) (by decide)
theorem cram10_E_c65 : Covered (pcE 1534 cram10D cram10C0 cram10Tab 160 1000000000000) 0 76792 :=
  cram10_E_c64.trans (Covered.piece 1802 cram10_E_65 (by decide +kernel)) (by decide)
theorem cram10_E_c66 : Covered (pcE 1534 cram10D cram10C0 cram10Tab 160 1000000000000) 0 82744 :=
  cram10_E_c65.trans (Covered.piece 2976 cram10_E_66 (by decide +kernel)) (by decide)
theorem cram10_E_c67 : Covered (pcE 1534 cram10D cram10C0 cram10Tab 160 1000000000000) 0 86092 :=
  cram10_E_c66.trans (Covered.piece 1674 cram10_E_67 (by decide +kernel)) (by decide)
theorem cram10_E_c68 : Covered (pcE 1534 cram10D cram10C0 cram10Tab 160 1000000000000) 0 88602 :=
  cram10_E_c67.trans (Covered.piece 1255 cram10_E_68 (by decide +kernel)) (by decide)
theorem cram10_E_c69 : Covered (pcE 1534 cram10D cram10C0 cram10Tab 160 1000000000000) 0 90484 :=
  cram10_E_c68.trans (Covered.piece 941 cram10_E_69 (by decide +kernel)) (by decide)
theorem cram10_E_c70 : Covered (pcE 1534 cram10D cram10C0 cram10Tab 160 1000000000000) 0 91822 :=
  cram10_E_c69.trans (Covered.piece 669 cram10_E_70 (by decide +kernel)) (by decide)
theorem cram10_E_c71 : Covered (pcE 1534 cram10D cram10C0 cram10Tab 160 1000000000000) 0 93090 :=
  cram10_E_c70.trans (Covered.piece 634 cram10_E_71 (by decide +kernel)) (by decide)
theorem cram10_E_c72 : Covered (pcE 1534 cram10D cram10C0 cram10Tab 160 1000000000000) 0 94692 :=
  cram10_E_c71.trans (Covered.piece 801 cram10_E_72 (by decide +kernel)) (by decide)
theorem cram10_E_c73 : Covered (pcE 1534 cram10D cram10C0 cram10Tab 160 1000000000000) 0 96718 :=
  cram10_E_c72.trans (Covered.piece 1013 cram10_E_73 (by decide +kernel)) (by decide)
theorem cram10_E_c74 : Covered (pcE 1534 cram10D cram10C0 cram10Tab 160 1000000000000) 0 100066 :=
  cram10_E_c73.trans (Covered.piece 1674 cram10_E_74 (by decide +kernel)) (by decide)
theorem cram10_E_c75 : Covered (pcE 1534 cram10D cram10C0 cram10Tab 160 1000000000000) 0 106018 :=
  cram10_E_c74.trans (Covered.piece 2976 cram10_E_75 (by decide +kernel)) (by decide)
theorem cram10_E_c76 : Covered (pcE 1534 cram10D cram10C0 cram10Tab 160 1000000000000) 0 113956 :=
  cram10_E_c75.trans (Covered.piece 3969 cram10_E_76 (by decide +kernel)) (by decide)
theorem cram10_T_0 : pcT 1534 cram10D cram10C0 cram10Tab 159 1000000000000 20 20 = true := by decide +kernel
theorem cram10_T_1 : pcT 1534 cram10D cram10C0 cram10Tab 159 1000000000000 58 18 = true := by decide +kernel
theorem cram10_T_2 : pcT 1534 cram10D cram10C0 cram10Tab 159 1000000000000 98 22 = true := by decide +kernel
theorem cram10_T_3 : pcT 1534 cram10D cram10C0 cram10Tab 159 1000000000000 186 66 = true := by decide +kernel
theorem cram10_T_4 : pcT 1534 cram10D cram10C0 cram10Tab 159 1000000000000 286 34 = true := by decide +kernel
theorem cram10_T_5 : pcT 1534 cram10D cram10C0 cram10Tab 159 1000000000000 362 42 = true := by decide +kernel
theorem cram10_T_6 : pcT 1534 cram10D cram10C0 cram10Tab 159 1000000000000 474 70 = true := by decide +kernel
theorem cram10_T_7 : pcT 1534 cram10D cram10C0 cram10Tab 159 1000000000000 631 87 = true := by decide +kernel
theorem cram10_T_8 : pcT 1534 cram10D cram10C0 cram10Tab 159 1000000000000 799 81 = true := by decide +kernel
theorem cram10_T_9 : pcT 1534 cram10D cram10C0 cram10Tab 159 1000000000000 1016 136 = true := by decide +kernel
theorem cram10_T_10 : pcT 1534 cram10D cram10C0 cram10Tab 159 1000000000000 1224 72 = true := by decide +kernel
theorem cram10_T_11 : pcT 1534 cram10D cram10C0 cram10Tab 159 1000000000000 1363 67 = true := by decide +kernel
theorem cram10_T_12 : pcT 1534 cram10D cram10C0 cram10Tab 159 1000000000000 1542 112 = true := by decide +kernel
theorem cram10_T_13 : pcT 1534 cram10D cram10C0 cram10Tab 159 1000000000000 1759 105 = true := by decide +kernel
theorem cram10_T_14 : pcT 1534 cram10D cram10C0 cram10Tab 159 1000000000000 1938 74 = true := by decide +kernel
theorem cram10_T_15 : pcT 1534 cram10D cram10C0 cram10Tab 159 1000000000000 2081 69 = true := by decide +kernel
theorem cram10_T_16 : pcT 1534 cram10D cram10C0 cram10Tab 159 1000000000000 2305 155 = true := by decide +kernel
theorem cram10_T_c0 : Covered (pcT 1534 cram10D cram10C0 cram10Tab 159 1000000000000) 0 40 :=
  Covered.piece 20 cram10_T_0 (by decide +kernel)
theorem cram10_T_c1 : Covered (pcT 1534 cram10D cram10C0 cram10Tab 159 1000000000000) 0 76 :=
  cram10_T_c0.trans (Covered.piece 18 cram10_T_1 (by decide +kernel)) (by decide)
theorem cram10_T_c2 : Covered (pcT 1534 cram10D cram10C0 cram10Tab 159 1000000000000) 0 120 :=
  cram10_T_c1.trans (Covered.piece 22 cram10_T_2 (by decide +kernel)) (by decide)
theorem cram10_T_c3 : Covered (pcT 1534 cram10D cram10C0 cram10Tab 159 1000000000000) 0 252 :=
  cram10_T_c2.trans (Covered.piece 66 cram10_T_3 (by decide +kernel)) (by decide)
theorem cram10_T_c4 : Covered (pcT 1534 cram10D cram10C0 cram10Tab 159 1000000000000) 0 320 :=
  cram10_T_c3.trans (Covered.piece 34 cram10_T_4 (by decide +kernel)) (by decide)
theorem cram10_T_c5 : Covered (pcT 1534 cram10D cram10C0 cram10Tab 159 1000000000000) 0 404 :=
  cram10_T_c4.trans (Covered.piece 42 cram10_T_5 (by decide +kernel)) (by decide)
theorem cram10_T_c6 : Covered (pcT 1534 cram10D cram10C0 cram10Tab 159 1000000000000) 0 544 :=
  cram10_T_c5.trans (Covered.piece 70 cram10_T_6 (by decide +kernel)) (by decide)
theorem cram10_T_c7 : Covered (pcT 1534 cram10D cram10C0 cram10Tab 159 1000000000000) 0 718 :=
  cram10_T_c6.trans (Covered.piece 87 cram10_T_7 (by decide +kernel)) (by decide)
theorem cram10_T_c8 : Covered (pcT 1534 cram10D cram10C0 cram10Tab 159 1000000000000) 0 880 :=
  cram10_T_c7.trans (Covered.piece 81 cram10_T_8 (by decide +kernel)) (by decide)
theorem cram10_T_c9 : Covered (pcT 1534 cram10D cram10C0 cram10Tab 159 1000000000000) 0 1152 :=
  cram10_T_c8.trans (Covered.piece 136 cram10_T_9 (by decide +kernel)) (by decide)
theorem cram10_T_c10 : Covered (pcT 1534 cram10D cram10C0 cram10Tab 159 1000000000000) 0 1296 :=
  cram10_T_c9.trans (Covered.piece 72 cram10_T_10 (by decide +kernel)) (by decide)
theorem cram10_T_c11 : Covered (pcT 1534 cram10D cram10C0 cram10Tab 159 1000000000000) 0 1430 :=
  cram10_T_c10.trans (Covered.piece 67 cram10_T_11 (by decide +kernel)) (by decide)
theorem cram10_T_c12 : Covered (pcT 1534 cram10D cram10C0 cram10Tab 159 1000000000000) 0 1654 :=
  cram10_T_c11.trans (Covered.piece 112 cram10_T_12 (by decide +kernel)) (by decide)
theorem cram10_T_c13 : Covered (pcT 1534 cram10D cram10C0 cram10Tab 159 1000000000000) 0 1864 :=
  cram10_T_c12.trans (Covered.piece 105 cram10_T_13 (by decide +kernel)) (by decide)
theorem cram10_T_c14 : Covered (pcT 1534 cram10D cram10C0 cram10Tab 159 1000000000000) 0 2012 :=
  cram10_T_c13.trans (Covered.piece 74 cram10_T_14 (by decide +kernel)) (by decide)
theorem cram10_T_c15 : Covered (pcT 1534 cram10D cram10C0 cram10Tab 159 1000000000000) 0 2150 :=
  cram10_T_c14.trans (Covered.piece 69 cram10_T_15 (by decide +kernel)) (by decide)
theorem cram10_T_c16 : Covered (pcT 1534 cram10D cram10C0 cram10Tab 159 1000000000000) 0 2460 :=
  cram10_T_c15.trans (Covered.piece 155 cram10_T_16 (by decide +kernel)) (by decide)
theorem cram10_sideE : sideE 160 1000000000000 159 113956 2460 = true := by decide +kernel
theorem cram10_exp (x : ℝ) (hx : x ≤ 0) :
    |rVal cram10D cram10C0 cram10Tab x - Real.exp x| ≤ (160 : ℕ) / (1000000000000 : ℕ) + 1 / 10 ^ 23 :=
  exp_sound cram10_side cram10_sideE cram10_E_c76 cram10_T_c16 x hx
theorem cram10_P1_0 : pcPF 2225 cram10D cram10Tab 1 3 200000000 941 941 = true := by decide +kernel
theorem cram10_P1_1 : pcPF 2225 cram10D cram10Tab 1 3 200000000 4705 2823 = true := by decide +kernel
theorem cram10_P1_c0 : Covered (pcPF 2225 cram10D cram10Tab 1 3 200000000) 0 1882 :=
  Covered.piece 941 cram10_P1_0 (by decide +kernel)
theorem cram10_P1_c1 : Covered (pcPF 2225 cram10D cram10Tab 1 3 200000000) 0 7528 :=
  cram10_P1_c0.trans (Covered.piece 2823 cram10_P1_1 (by decide +kernel)) (by decide)
theorem cram10_phi1 (x : ℝ) (hx : x ≤ 0) (hx1 : -1 ≤ x) :
    |rVal cram10D 0 (divTab cram10D cram10Tab 1) x - phi 1 x| ≤ (3 : ℕ) / (200000000 : ℕ) + 1 / 10 ^ 23 :=
  phi_sound cram10_side (by norm_num) (by norm_num) cram10_P1_c1 x hx hx1
theorem cram10_P2_0 : pcPF 3053 cram10D cram10Tab 2 1 5000000 1674 1674 = true := by decide +kernel
theorem cram10_P2_1 : pcPF 3053 cram10D cram10Tab 2 1 5000000 6324 2976 = true := by decide +kernel
theorem cram10_P2_c0 : Covered (pcPF 3053 cram10D cram10Tab 2 1 5000000) 0 3348 :=
  Covered.piece 1674 cram10_P2_0 (by decide +kernel)
theorem cram10_P2_c1 : Covered (pcPF 3053 cram10D cram10Tab 2 1 5000000) 0 9300 :=
  cram10_P2_c0.trans (Covered.piece 2976 cram10_P2_1 (by decide +kernel)) (by decide)
theorem cram10_phi2 (x : ℝ) (hx : x ≤ 0) (hx1 : -1 ≤ x) :
    |rVal cram10D 0 (divTab cram10D cram10Tab 2) x - phi 2 x| ≤ (1 : ℕ) / (5000000 : ℕ) + 1 / 10 ^ 23 :=
  phi_sound cram10_side (by norm_num) (by norm_num) cram10_P2_c1 x hx hx1

end Ormatex.Props.Cert
