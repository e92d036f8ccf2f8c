import Verif.Props.PfdPoly

/-!
Certificates for the parabolic contour of the crate with 24 nodes, rounded to 16 digits (checked by the kernel with the verified checker of `Props/PfdPoly.lean`): integer
numerators of the tables, the subdivision of the half line, and the resulting bounds.
-/

namespace Ormatex.Props.Cert
open Ormatex Ormatex.Spec


def parD : ℤ := 10000000000000000
def parC0 : ℤ := 0
def parTab : List RTerm := [
  ⟨30924987181045804, 7853981633974483, -34077727665974605, -43817371595244400, 1⟩,
  ⟨26996884629412240, 23561944901923449, 36159385519778618, -16432023779318799, 1⟩,
  ⟨19140679526145110, 39269908169872415, 4492834952324031, 19480262802774035, 1⟩,
  ⟨7356371871244416, 54977871437821382, -6917781274661582, 460210684090743, 1⟩,
  ⟨-8356038335289843, 70685834705770348, 96059876740002, -1629111829051766, 1⟩,
  ⟨-27996551093457667, 86393797973719314, 255437723376417, 40367522230469, 1⟩,
  ⟨-51565166403259055, 102101761241668280, -6370563597988, 26741372925810, 1⟩,
  ⟨-79061884264694008, 117809724509617246, -1872962276054, -570272514004, 1⟩,
  ⟨-110486704677762526, 133517687777566213, 31654327549, -87898611223, 1⟩,
  ⟨-145839627642464608, 149225651045515179, 2767264975, 1127730876, 1⟩,
  ⟨-185120653158800256, 164933614313464145, -26229446, 58497086, 1⟩,
  ⟨-228329781226769468, 180641577581413111, -830905, -402141, 1⟩]

theorem par_side : sideTab parD parTab = true := by decide +kernel
theorem par_E_0 : pcE 2218 parD parC0 parTab 28 1000000000000 51 51 = true := by decide +kernel
theorem par_E_1 : pcE 2218 parD parC0 parTab 28 1000000000000 149 47 = true := by decide +kernel
theorem par_E_2 : pcE 2218 parD parC0 parTab 28 1000000000000 274 78 = true := by decide +kernel
theorem par_E_3 : pcE 2218 parD parC0 parTab 28 1000000000000 483 131 = true := by decide +kernel
theorem par_E_4 : pcE 2218 parD parC0 parTab 28 1000000000000 779 165 = true := by decide +kernel
theorem par_E_5 : pcE 2218 parD parC0 parTab 28 1000000000000 1222 278 = true := by decide +kernel
theorem par_E_6 : pcE 2218 parD parC0 parTab 28 1000000000000 1851 351 = true := by decide +kernel
theorem par_E_7 : pcE 2218 parD parC0 parTab 28 1000000000000 2645 443 = true := by decide +kernel
theorem par_E_8 : pcE 2218 parD parC0 parTab 28 1000000000000 3835 747 = true := by decide +kernel
theorem par_E_9 : pcE 2218 parD parC0 parTab 28 1000000000000 5842 1260 = true := by decide +kernel
theorem par_E_10 : pcE 2218 parD parC0 parTab 28 1000000000000 8776 1674 = true := by decide +kernel
theorem par_E_11 : pcE 2218 parD parC0 parTab 28 1000000000000 12682 2232 = true := by decide +kernel
theorem par_E_12 : pcE 2218 parD parC0 parTab 28 1000000000000 17890 2976 = true := by decide +kernel
theorem par_E_13 : pcE 2218 parD parC0 parTab 28 1000000000000 23842 2976 = true := by decide +kernel
theorem par_E_14 : pcE 2218 parD parC0 parTab 28 1000000000000 29794 2976 = true := by decide +kernel
theorem par_E_15 : pcE 2218 parD parC0 parTab 28 1000000000000 35746 2976 = true := by decide +kernel
theorem par_E_16 : pcE 2218 parD parC0 parTab 28 1000000000000 41698 2976 = true := by decide +kernel
theorem par_E_17 : pcE 2218 parD parC0 parTab 28 1000000000000 47650 2976 = true := by decide +kernel
theorem par_E_18 : pcE 2218 parD parC0 parTab 28 1000000000000 53602 2976 = true := by decide +kernel
theorem par_E_19 : pcE 2218 parD parC0 parTab 28 1000000000000 59554 2976 = true := by decide +kernel
theorem par_E_20 : pcE 2218 parD parC0 parTab 28 1000000000000 65506 2976 = true := by decide +kernel
theorem par_E_21 : pcE 2218 parD parC0 parTab 28 1000000000000 71458 2976 = true := by decide +kernel
theorem par_E_22 : pcE 2218 parD parC0 parTab 28 1000000000000 77410 2976 = true := by decide +kernel
theorem par_E_23 : pcE 2218 parD parC0 parTab 28 1000000000000 83362 2976 = true := by decide +kernel
theorem par_E_24 : pcE 2218 parD parC0 parTab 28 1000000000000 89314 2976 = true := by decide +kernel
theorem par_E_25 : pcE 2218 parD parC0 parTab 28 1000000000000 95266 2976 = true := by decide +kernel
theorem par_E_26 : pcE 2218 parD parC0 parTab 28 1000000000000 101218 2976 = true := by decide +kernel
theorem par_E_27 : pcE 2218 parD parC0 parTab 28 1000000000000 107170 2976 = true := by decide +kernel
theorem par_E_28 : pcE 2218 parD parC0 parTab 28 1000000000000 113122 2976 = true := by decide +kernel
theorem par_E_29 : pcE 2218 parD parC0 parTab 28 1000000000000 119074 2976 = true := by decide +kernel
theorem par_E_30 : pcE 2218 parD parC0 parTab 28 1000000000000 125026 2976 = true := by decide +kernel
theorem par_E_c0 : Covered (pcE 2218 parD parC0 parTab 28 1000000000000) 0 102 :=
  Covered.piece 51 par_E_0 (by decide +kernel)
theorem par_E_c1 : Covered (pcE 2218 parD parC0 parTab 28 1000000000000) 0 196 :=
  par_E_c0.trans (Covered.piece 47 par_E_1 (by decide +kernel)) (by decide)
theorem par_E_c2 : Covered (pcE 2218 parD parC0 parTab 28 1000000000000) 0 352 :=
  par_E_c1.trans (Covered.piece 78 par_E_2 (by decide +kernel)) (by decide)
theorem par_E_c3 : Covered (pcE 2218 parD parC0 parTab 28 1000000000000) 0 614 :=
  par_E_c2.trans (Covered.piece 131 par_E_3 (by decide +kernel)) (by decide)
theorem par_E_c4 : Covered (pcE 2218 parD parC0 parTab 28 1000000000000) 0 944 :=
  par_E_c3.trans (Covered.piece 165 par_E_4 (by decide +kernel)) (by decide)
theorem par_E_c5 : Covered (pcE 2218 parD parC0 parTab 28 1000000000000) 0 1500 :=
  par_E_c4.trans (Covered.piece 278 par_E_5 (by decide +kernel)) (by decide)
theorem par_E_c6 : Covered (pcE 2218 parD parC0 parTab 28 1000000000000) 0 2202 :=
  par_E_c5.trans (Covered.piece 351 par_E_6 (by decide +kernel)) (by decide)
theorem par_E_c7 : Covered (pcE 2218 parD parC0 parTab 28 1000000000000) 0 3088 :=
  par_E_c6.trans (Covered.piece 443 par_E_7 (by decide +kernel)) (by decide)
theorem par_E_c8 : Covered (pcE 2218 parD parC0 parTab 28 1000000000000) 0 4582 :=
  par_E_c7.trans (Covered.piece 747 par_E_8 (by decide +kernel)) (by decide)
theorem par_E_c9 : Covered (pcE 2218 parD parC0 parTab 28 1000000000000) 0 7102 :=
  par_E_c8.trans (Covered.piece 1260 par_E_9 (by decide +kernel)) (by decide)
theorem par_E_c10 : Covered (pcE 2218 parD parC0 parTab 28 1000000000000) 0 10450 :=
  par_E_c9.trans (Covered.piece 1674 par_E_10 (by decide +kernel)) (by decide)
theorem par_E_c11 : Covered (pcE 2218 parD parC0 parTab 28 1000000000000) 0 14914 :=
  par_E_c10.trans (Covered.piece 2232 par_E_11 (by decide +kernel)) (by decide)
theorem par_E_c12 : Covered (pcE 2218 parD parC0 parTab 28 1000000000000) 0 20866 :=
  par_E_c11.trans (Covered.piece 2976 par_E_12 (by decide +kernel)) (by decide)
theorem par_E_c13 : Covered (pcE 2218 parD parC0 parTab 28 1000000000000) 0 26818 :=
  par_E_c12.trans (Covered.piece 2976 par_E_13 (by decide +kernel)) (by decide)
theorem par_E_c14 : Covered (pcE 2218 parD parC0 parTab 28 1000000000000) 0 32770 :=
  par_E_c13.trans (Covered.piece 2976 par_E_14 (by decide +kernel)) (by decide)
theorem par_E_c15 : Covered (pcE 2218 parD parC0 parTab 28 1000000000000) 0 38722 :=
  par_E_c14.trans (Covered.piece 2976 par_E_15 (by decide +kernel)) (by decide)
theorem par_E_c16 : Covered (pcE 2218 parD parC0 parTab 28 1000000000000) 0 44674 :=
  par_E_c15.trans (Covered.piece 2976 par_E_16 (by decide +kernel)) (by decide)
theorem par_E_c17 : Covered (pcE 2218 parD parC0 parTab 28 1000000000000) 0 50626 :=
  par_E_c16.trans (Covered.piece 2976 par_E_17 (by decide +kernel)) (by decide)
theorem par_E_c18 : Covered (pcE 2218 parD parC0 parTab 28 1000000000000) 0 56578 :=
  par_E_c17.trans (Covered.piece 2976 par_E_18 (by decide +kernel)) (by decide)
theorem par_E_c19 : Covered (pcE 2218 parD parC0 parTab 28 1000000000000) 0 62530 :=
  par_E_c18.trans (Covered.piece 2976 par_E_19 (by decide +kernel)) (by decide)
theorem par_E_c20 : Covered (pcE 2218 parD parC0 parTab 28 1000000000000) 0 68482 :=
  par_E_c19.trans (Covered.piece 2976 par_E_20 (by decide +kernel)) (by decide)
theorem par_E_c21 : Covered (pcE 2218 parD parC0 parTab 28 1000000000000) 0 74434 :=
  par_E_c20.trans (Covered.piece 2976 par_E_21 (by decide +kernel)) (by decide)
theorem par_E_c22 : Covered (pcE 2218 parD parC0 parTab 28 1000000000000) 0 80386 :=
  par_E_c21.trans (Covered.piece 2976 par_E_22 (by decide +kernel)) (by decide)
theorem par_E_c23 : Covered (pcE 2218 parD parC0 parTab 28 1000000000000) 0 86338 :=
  par_E_c22.trans (Covered.piece 2976 par_E_23 (by decide +kernel)) (by decide)
theorem par_E_c24 : Covered (pcE 2218 parD parC0 parTab 28 1000000000000) 0 92290 :=
  par_E_c23.trans (Covered.piece 2976 par_E_24 (by decide +kernel)) (by decide)
theorem par_E_c25 : Covered (pcE 2218 parD parC0 parTab 28 1000000000000) 0 98242 :=
  par_E_c24.trans (Covered.piece 2976 par_E_25 (by decide +kernel)) (by decide)
theorem par_E_c26 : Covered (pcE 2218 parD parC0 parTab 28 1000000000000) 0 104194 :=
  par_E_c25.trans (Covered.piece 2976 par_E_26 (by decide +kernel)) (by decide)
theorem par_E_c27 : Covered (pcE 2218 parD parC0 parTab 28 1000000000000) 0 110146 :=
  par_E_c26.trans (Covered.piece 2976 par_E_27 (by decide +kernel)) (by decide)
theorem par_E_c28 : Covered (pcE 2218 parD parC0 parTab 28 1000000000000) 0 116098 :=
  par_E_c27.trans (Covered.piece 2976 par_E_28 (by decide +kernel)) (by decide)
theorem par_E_c29 : Covered (pcE 2218 parD parC0 parTab 28 1000000000000) 0 122050 :=
  par_E_c28.trans (Covered.piece 2976 par_E_29 (by decide +kernel)) (by decide)
theorem par_E_c30 : Covered (pcE 2218 parD parC0 parTab 28 1000000000000) 0 128002 :=
  par_E_c29.trans (Covered.piece 2976 par_E_30 (by decide +kernel)) (by decide)
theorem par_T_0 : pcT 2218 parD parC0 parTab 27 1000000000000 276 276 = true := by decide +kernel
theorem par_T_1 : pcT 2218 parD parC0 parTab 27 1000000000000 813 261 = true := by decide +kernel
theorem par_T_2 : pcT 2218 parD parC0 parTab 27 1000000000000 1514 440 = true := by decide +kernel
theorem par_T_3 : pcT 2218 parD parC0 parTab 27 1000000000000 2266 312 = true := by decide +kernel
theorem par_T_c0 : Covered (pcT 2218 parD parC0 parTab 27 1000000000000) 0 552 :=
  Covered.piece 276 par_T_0 (by decide +kernel)
theorem par_T_c1 : Covered (pcT 2218 parD parC0 parTab 27 1000000000000) 0 1074 :=
  par_T_c0.trans (Covered.piece 261 par_T_1 (by decide +kernel)) (by decide)
theorem par_T_c2 : Covered (pcT 2218 parD parC0 parTab 27 1000000000000) 0 1954 :=
  par_T_c1.trans (Covered.piece 440 par_T_2 (by decide +kernel)) (by decide)
theorem par_T_c3 : Covered (pcT 2218 parD parC0 parTab 27 1000000000000) 0 2578 :=
  par_T_c2.trans (Covered.piece 312 par_T_3 (by decide +kernel)) (by decide)
theorem par_sideE : sideE 28 1000000000000 27 128002 2578 = true := by decide +kernel
theorem par_exp (x : ℝ) (hx : x ≤ 0) :
    |rVal parD parC0 parTab x - Real.exp x| ≤ (28 : ℕ) / (1000000000000 : ℕ) + 1 / 10 ^ 23 :=
  exp_sound par_side par_sideE par_E_c30 par_T_c3 x hx
theorem par_P1_0 : pcPF 3425 parD parTab 1 13 5000000000 705 705 = true := by decide +kernel
theorem par_P1_1 : pcPF 3425 parD parTab 1 13 5000000000 3525 2115 = true := by decide +kernel
theorem par_P1_c0 : Covered (pcPF 3425 parD parTab 1 13 5000000000) 0 1410 :=
  Covered.piece 705 par_P1_0 (by decide +kernel)
theorem par_P1_c1 : Covered (pcPF 3425 parD parTab 1 13 5000000000) 0 5640 :=
  par_P1_c0.trans (Covered.piece 2115 par_P1_1 (by decide +kernel)) (by decide)
theorem par_phi1 (x : ℝ) (hx : x ≤ 0) (hx1 : -1 ≤ x) :
    |rVal parD 0 (divTab parD parTab 1) x - phi 1 x| ≤ (13 : ℕ) / (5000000000 : ℕ) + 1 / 10 ^ 23 :=
  phi_sound par_side (by norm_num) (by norm_num) par_P1_c1 x hx hx1
theorem par_P2_0 : pcPF 4783 parD parTab 2 23 500000000 941 941 = true := by decide +kernel
theorem par_P2_1 : pcPF 4783 parD parTab 2 23 500000000 4705 2823 = true := by decide +kernel
theorem par_P2_c0 : Covered (pcPF 4783 parD parTab 2 23 500000000) 0 1882 :=
  Covered.piece 941 par_P2_0 (by decide +kernel)
theorem par_P2_c1 : Covered (pcPF 4783 parD parTab 2 23 500000000) 0 7528 :=
  par_P2_c0.trans (Covered.piece 2823 par_P2_1 (by decide +kernel)) (by decide)
theorem par_phi2 (x : ℝ) (hx : x ≤ 0) (hx1 : -1 ≤ x) :
    |rVal parD 0 (divTab parD parTab 2) x - phi 2 x| ≤ (23 : ℕ) / (500000000 : ℕ) + 1 / 10 ^ 23 :=
  phi_sound par_side (by norm_num) (by norm_num) par_P2_c1 x hx hx1

end Ormatex.Props.Cert
