import Verif.Props.PfdPoly

/-!
Certificates for the shipped CRAM tables (checked by the kernel with the verified checker of `Props/PfdPoly.lean`): integer
numerators of the tables, the subdivision of the half line, and the resulting bounds.
-/

namespace Ormatex.Props.Cert
open Ormatex Ormatex.Spec


/-! ### `cram_12` -/

def cram12D : ℤ := 100000000000000000000000000
def cram12C0 : ℤ := 158534296801349
def cram12Tab : List RTerm := [
  ⟨-699868690151660000000000000, -1399591648398120000000000000, 81843427013157400000000, 58135427800834500000000, 1⟩,
  ⟨-223596710911723000000000000, -1110929617750390000000000000, -6857157116235620000000000, -3841912859856860000000000, 1⟩,
  ⟨85170826465183200000000000, -850383285616425000000000000, 131941306332260000000000000, 18352373724425000000000000, 1⟩,
  ⟨291786968505903000000000000, -601734600213627000000000000, -823826500781163000000000000, 279619498384434000000000000, 1⟩,
  ⟨420612529541059000000000000, -359092083438831000000000000, 1878599686678110000000000000, -2023730829543510000000000000, 1⟩,
  ⟨482749450801486000000000000, -119398802186977000000000000, -1179939178080080000000000000, 4641168563626370000000000000, 1⟩]

theorem cram12_side : sideTab cram12D cram12Tab = true := by decide +kernel
theorem cram12_E_0 : pcE 1817 cram12D cram12C0 cram12Tab 20 10000000000000 51 51 = true := by decide +kernel
theorem cram12_E_1 : pcE 1817 cram12D cram12C0 cram12Tab 20 10000000000000 149 47 = true := by decide +kernel
theorem cram12_E_2 : pcE 1817 cram12D cram12C0 cram12Tab 20 10000000000000 254 58 = true := by decide +kernel
theorem cram12_E_3 : pcE 1817 cram12D cram12C0 cram12Tab 20 10000000000000 442 130 = true := by decide +kernel
theorem cram12_E_4 : pcE 1817 cram12D cram12C0 cram12Tab 20 10000000000000 664 92 = true := by decide +kernel
theorem cram12_E_5 : pcE 1817 cram12D cram12C0 cram12Tab 20 10000000000000 872 116 = true := by decide +kernel
theorem cram12_E_6 : pcE 1817 cram12D cram12C0 cram12Tab 20 10000000000000 1249 261 = true := by decide +kernel
theorem cram12_E_7 : pcE 1817 cram12D cram12C0 cram12Tab 20 10000000000000 1648 138 = true := by decide +kernel
theorem cram12_E_8 : pcE 1817 cram12D cram12C0 cram12Tab 20 10000000000000 1960 174 = true := by decide +kernel
theorem cram12_E_9 : pcE 1817 cram12D cram12C0 cram12Tab 20 10000000000000 2427 293 = true := by decide +kernel
theorem cram12_E_10 : pcE 1817 cram12D cram12C0 cram12Tab 20 10000000000000 2927 207 = true := by decide +kernel
theorem cram12_E_11 : pcE 1817 cram12D cram12C0 cram12Tab 20 10000000000000 3395 261 = true := by decide +kernel
theorem cram12_E_12 : pcE 1817 cram12D cram12C0 cram12Tab 20 10000000000000 4096 440 = true := by decide +kernel
theorem cram12_E_13 : pcE 1817 cram12D cram12C0 cram12Tab 20 10000000000000 4770 234 = true := by decide +kernel
theorem cram12_E_14 : pcE 1817 cram12D cram12C0 cram12Tab 20 10000000000000 5299 295 = true := by decide +kernel
theorem cram12_E_15 : pcE 1817 cram12D cram12C0 cram12Tab 20 10000000000000 6091 497 = true := by decide +kernel
theorem cram12_E_16 : pcE 1817 cram12D cram12C0 cram12Tab 20 10000000000000 6852 264 = true := by decide +kernel
theorem cram12_E_17 : pcE 1817 cram12D cram12C0 cram12Tab 20 10000000000000 7449 333 = true := by decide +kernel
theorem cram12_E_18 : pcE 1817 cram12D cram12C0 cram12Tab 20 10000000000000 8343 561 = true := by decide +kernel
theorem cram12_E_19 : pcE 1817 cram12D cram12C0 cram12Tab 20 10000000000000 9302 398 = true := by decide +kernel
theorem cram12_E_20 : pcE 1817 cram12D cram12C0 cram12Tab 20 10000000000000 10077 377 = true := by decide +kernel
theorem cram12_E_21 : pcE 1817 cram12D cram12C0 cram12Tab 20 10000000000000 10931 477 = true := by decide +kernel
theorem cram12_E_22 : pcE 1817 cram12D cram12C0 cram12Tab 20 10000000000000 12011 603 = true := by decide +kernel
theorem cram12_E_23 : pcE 1817 cram12D cram12C0 cram12Tab 20 10000000000000 12935 321 = true := by decide +kernel
theorem cram12_E_24 : pcE 1817 cram12D cram12C0 cram12Tab 20 10000000000000 13797 541 = true := by decide +kernel
theorem cram12_E_25 : pcE 1817 cram12D cram12C0 cram12Tab 20 10000000000000 15250 912 = true := by decide +kernel
theorem cram12_E_26 : pcE 1817 cram12D cram12C0 cram12Tab 20 10000000000000 16526 364 = true := by decide +kernel
theorem cram12_E_27 : pcE 1817 cram12D cram12C0 cram12Tab 20 10000000000000 17350 460 = true := by decide +kernel
theorem cram12_E_28 : pcE 1817 cram12D cram12C0 cram12Tab 20 10000000000000 18392 582 = true := by decide +kernel
theorem cram12_E_29 : pcE 1817 cram12D cram12C0 cram12Tab 20 10000000000000 19709 735 = true := by decide +kernel
theorem cram12_E_30 : pcE 1817 cram12D cram12C0 cram12Tab 20 10000000000000 20966 522 = true := by decide +kernel
theorem cram12_E_31 : pcE 1817 cram12D cram12C0 cram12Tab 20 10000000000000 22148 660 = true := by decide +kernel
theorem cram12_E_32 : pcE 1817 cram12D cram12C0 cram12Tab 20 10000000000000 23642 834 = true := by decide +kernel
theorem cram12_E_33 : pcE 1817 cram12D cram12C0 cram12Tab 20 10000000000000 25267 791 = true := by decide +kernel
theorem cram12_E_34 : pcE 1817 cram12D cram12C0 cram12Tab 20 10000000000000 26479 421 = true := by decide +kernel
theorem cram12_E_35 : pcE 1817 cram12D cram12C0 cram12Tab 20 10000000000000 27610 710 = true := by decide +kernel
theorem cram12_E_36 : pcE 1817 cram12D cram12C0 cram12Tab 20 10000000000000 29217 897 = true := by decide +kernel
theorem cram12_E_37 : pcE 1817 cram12D cram12C0 cram12Tab 20 10000000000000 30964 850 = true := by decide +kernel
theorem cram12_E_38 : pcE 1817 cram12D cram12C0 cram12Tab 20 10000000000000 32418 604 = true := by decide +kernel
theorem cram12_E_39 : pcE 1817 cram12D cram12C0 cram12Tab 20 10000000000000 33786 764 = true := by decide +kernel
theorem cram12_E_40 : pcE 1817 cram12D cram12C0 cram12Tab 20 10000000000000 35516 966 = true := by decide +kernel
theorem cram12_E_41 : pcE 1817 cram12D cram12C0 cram12Tab 20 10000000000000 37703 1221 = true := by decide +kernel
theorem cram12_E_42 : pcE 1817 cram12D cram12C0 cram12Tab 20 10000000000000 39452 528 = true := by decide +kernel
theorem cram12_E_43 : pcE 1817 cram12D cram12C0 cram12Tab 20 10000000000000 40481 501 = true := by decide +kernel
theorem cram12_E_44 : pcE 1817 cram12D cram12C0 cram12Tab 20 10000000000000 41827 845 = true := by decide +kernel
theorem cram12_E_45 : pcE 1817 cram12D cram12C0 cram12Tab 20 10000000000000 44097 1425 = true := by decide +kernel
theorem cram12_E_46 : pcE 1817 cram12D cram12C0 cram12Tab 20 10000000000000 46463 941 = true := by decide +kernel
theorem cram12_E_47 : pcE 1817 cram12D cram12C0 cram12Tab 20 10000000000000 48073 669 = true := by decide +kernel
theorem cram12_E_48 : pcE 1817 cram12D cram12C0 cram12Tab 20 10000000000000 49376 634 = true := by decide +kernel
theorem cram12_E_49 : pcE 1817 cram12D cram12C0 cram12Tab 20 10000000000000 51079 1069 = true := by decide +kernel
theorem cram12_E_50 : pcE 1817 cram12D cram12C0 cram12Tab 20 10000000000000 53822 1674 = true := by decide +kernel
theorem cram12_E_51 : pcE 1817 cram12D cram12C0 cram12Tab 20 10000000000000 56751 1255 = true := by decide +kernel
theorem cram12_E_52 : pcE 1817 cram12D cram12C0 cram12Tab 20 10000000000000 58711 705 = true := by decide +kernel
theorem cram12_E_53 : pcE 1817 cram12D cram12C0 cram12Tab 20 10000000000000 60084 668 = true := by decide +kernel
theorem cram12_E_54 : pcE 1817 cram12D cram12C0 cram12Tab 20 10000000000000 62255 1503 = true := by decide +kernel
theorem cram12_E_55 : pcE 1817 cram12D cram12C0 cram12Tab 20 10000000000000 65990 2232 = true := by decide +kernel
theorem cram12_E_56 : pcE 1817 cram12D cram12C0 cram12Tab 20 10000000000000 69477 1255 = true := by decide +kernel
theorem cram12_E_57 : pcE 1817 cram12D cram12C0 cram12Tab 20 10000000000000 71673 941 = true := by decide +kernel
theorem cram12_E_58 : pcE 1817 cram12D cram12C0 cram12Tab 20 10000000000000 73283 669 = true := by decide +kernel
theorem cram12_E_59 : pcE 1817 cram12D cram12C0 cram12Tab 20 10000000000000 75080 1128 = true := by decide +kernel
theorem cram12_E_60 : pcE 1817 cram12D cram12C0 cram12Tab 20 10000000000000 77882 1674 = true := by decide +kernel
theorem cram12_E_61 : pcE 1817 cram12D cram12C0 cram12Tab 20 10000000000000 81788 2232 = true := by decide +kernel
theorem cram12_E_62 : pcE 1817 cram12D cram12C0 cram12Tab 20 10000000000000 85694 1674 = true := by decide +kernel
theorem cram12_E_63 : pcE 1817 cram12D cram12C0 cram12Tab 20 10000000000000 88309 941 = true := by decide +kernel
theorem cram12_E_64 : pcE 1817 cram12D cram12C0 cram12Tab 20 10000000000000 90142 892 = true := by decide +kernel
theorem cram12_E_65 : pcE 1817 cram12D cram12C0 cram12Tab 20 10000000000000 91880 846 = true := by decide +kernel
theorem cram12_E_66 : pcE 1817 cram12D cram12C0 cram12Tab 20 10000000000000 94629 1903 = true := by decide +kernel
theorem cram12_E_67 : pcE 1817 cram12D cram12C0 cram12Tab 20 10000000000000 99508 2976 = true := by decide +kernel
theorem cram12_E_68 : pcE 1817 cram12D cram12C0 cram12Tab 20 10000000000000 104716 2232 = true := by decide +kernel
theorem cram12_E_69 : pcE 1817 cram12D cram12C0 cram12Tab 20 10000000000000 108622 1674 = true := by decide +kernel
theorem cram12_E_70 : pcE 1817 cram12D cram12C0 cram12Tab 20 10000000000000 111551 1255 = true := by decide +kernel
theorem cram12_E_71 : pcE 1817 cram12D cram12C0 cram12Tab 20 10000000000000 113747 941 = true := by decide +kernel
theorem cram12_E_72 : pcE 1817 cram12D cram12C0 cram12Tab 20 10000000000000 115878 1190 = true := by decide +kernel
theorem cram12_E_73 : pcE 1817 cram12D cram12C0 cram12Tab 20 10000000000000 118742 1674 = true := by decide +kernel
theorem cram12_E_74 : pcE 1817 cram12D cram12C0 cram12Tab 20 10000000000000 123392 2976 = true := by decide +kernel
theorem cram12_E_75 : pcE 1817 cram12D cram12C0 cram12Tab 20 10000000000000 130337 3969 = true := by decide +kernel
theorem cram12_E_c0 : Covered (pcE 1817 cram12D cram12C0 cram12Tab 20 10000000000000) 0 102 :=
  Covered.piece 51 cram12_E_0 (by decide +kernel)
theorem cram12_E_c1 : Covered (pcE 1817 cram12D cram12C0 cram12Tab 20 10000000000000) 0 196 :=
  cram12_E_c0.trans (Covered.piece 47 cram12_E_1 (by decide +kernel)) (by decide)
theorem cram12_E_c2 : Covered (pcE 1817 cram12D cram12C0 cram12Tab 20 10000000000000) 0 312 :=
  cram12_E_c1.trans (Covered.piece 58 cram12_E_2 (by decide +kernel)) (by decide)
theorem cram12_E_c3 : Covered (pcE 1817 cram12D cram12C0 cram12Tab 20 10000000000000) 0 572 :=
  cram12_E_c2.trans (Covered.piece 130 cram12_E_3 (by decide +kernel)) (by decide)
theorem cram12_E_c4 : Covered (pcE 1817 cram12D cram12C0 cram12Tab 20 10000000000000) 0 756 :=
  cram12_E_c3.trans (Covered.piece 92 cram12_E_4 (by decide +kernel)) (by decide)
theorem cram12_E_c5 : Covered (pcE 1817 cram12D cram12C0 cram12Tab 20 10000000000000) 0 988 :=
  cram12_E_c4.trans (Covered.piece 116 cram12_E_5 (by decide +kernel)) (by decide)
theorem cram12_E_c6 : Covered (pcE 1817 cram12D cram12C0 cram12Tab 20 10000000000000) 0 1510 :=
  cram12_E_c5.trans (Covered.piece 261 cram12_E_6 (by decide +kernel)) (by decide)
theorem cram12_E_c7 : Covered (pcE 1817 cram12D cram12C0 cram12Tab 20 10000000000000) 0 1786 :=
  cram12_E_c6.trans (Covered.piece 138 cram12_E_7 (by decide +kernel)) (by decide)
theorem cram12_E_c8 : Covered (pcE 1817 cram12D cram12C0 cram12Tab 20 10000000000000) 0 2134 :=
  cram12_E_c7.trans (Covered.piece 174 cram12_E_8 (by decide +kernel)) (by decide)
theorem cram12_E_c9 : Covered (pcE 1817 cram12D cram12C0 cram12Tab 20 10000000000000) 0 2720 :=
  cram12_E_c8.trans (Covered.piece 293 cram12_E_9 (by decide +kernel)) (by decide)
theorem cram12_E_c10 : Covered (pcE 1817 cram12D cram12C0 cram12Tab 20 10000000000000) 0 3134 :=
  cram12_E_c9.trans (Covered.piece 207 cram12_E_10 (by decide +kernel)) (by decide)
theorem cram12_E_c11 : Covered (pcE 1817 cram12D cram12C0 cram12Tab 20 10000000000000) 0 3656 :=
  cram12_E_c10.trans (Covered.piece 261 cram12_E_11 (by decide +kernel)) (by decide)
theorem cram12_E_c12 : Covered (pcE 1817 cram12D cram12C0 cram12Tab 20 10000000000000) 0 4536 :=
  cram12_E_c11.trans (Covered.piece 440 cram12_E_12 (by decide +kernel)) (by decide)
theorem cram12_E_c13 : Covered (pcE 1817 cram12D cram12C0 cram12Tab 20 10000000000000) 0 5004 :=
  cram12_E_c12.trans (Covered.piece 234 cram12_E_13 (by decide +kernel)) (by decide)
theorem cram12_E_c14 : Covered (pcE 1817 cram12D cram12C0 cram12Tab 20 10000000000000) 0 5594 :=
  cram12_E_c13.trans (Covered.piece 295 cram12_E_14 (by decide +kernel)) (by decide)
theorem cram12_E_c15 : Covered (pcE 1817 cram12D cram12C0 cram12Tab 20 10000000000000) 0 6588 :=
  cram12_E_c14.trans (Covered.piece 497 cram12_E_15 (by decide +kernel)) (by decide)
theorem cram12_E_c16 : Covered (pcE 1817 cram12D cram12C0 cram12Tab 20 10000000000000) 0 7116 :=
  cram12_E_c15.trans (Covered.piece 264 cram12_E_16 (by decide +kernel)) (by decide)
theorem cram12_E_c17 : Covered (pcE 1817 cram12D cram12C0 cram12Tab 20 10000000000000) 0 7782 :=
  cram12_E_c16.trans (Covered.piece 333 cram12_E_17 (by decide +kernel)) (by decide)
theorem cram12_E_c18 : Covered (pcE 1817 cram12D cram12C0 cram12Tab 20 10000000000000) 0 8904 :=
  cram12_E_c17.trans (Covered.piece 561 cram12_E_18 (by decide +kernel)) (by decide)
theorem cram12_E_c19 : Covered (pcE 1817 cram12D cram12C0 cram12Tab 20 10000000000000) 0 9700 :=
  cram12_E_c18.trans (Covered.piece 398 cram12_E_19 (by decide +kernel)) (by decide)
theorem cram12_E_c20 : Covered (pcE 1817 cram12D cram12C0 cram12Tab 20 10000000000000) 0 10454 :=
  cram12_E_c19.trans (Covered.piece 377 cram12_E_20 (by decide +kernel)) (by decide)
theorem cram12_E_c21 : Covered (pcE 1817 cram12D cram12C0 cram12Tab 20 10000000000000) 0 11408 :=
  cram12_E_c20.trans (Covered.piece 477 cram12_E_21 (by decide +kernel)) (by decide)
theorem cram12_E_c22 : Covered (pcE 1817 cram12D cram12C0 cram12Tab 20 10000000000000) 0 12614 :=
  cram12_E_c21.trans (Covered.piece 603 cram12_E_22 (by decide +kernel)) (by decide)
theorem cram12_E_c23 : Covered (pcE 1817 cram12D cram12C0 cram12Tab 20 10000000000000) 0 13256 :=
  cram12_E_c22.trans (Covered.piece 321 cram12_E_23 (by decide +kernel)) (by decide)
theorem cram12_E_c24 : Covered (pcE 1817 cram12D cram12C0 cram12Tab 20 10000000000000) 0 14338 :=
  cram12_E_c23.trans (Covered.piece 541 cram12_E_24 (by decide +kernel)) (by decide)
theorem cram12_E_c25 : Covered (pcE 1817 cram12D cram12C0 cram12Tab 20 10000000000000) 0 16162 :=
  cram12_E_c24.trans (Covered.piece 912 cram12_E_25 (by decide +kernel)) (by decide)
theorem cram12_E_c26 : Covered (pcE 1817 cram12D cram12C0 cram12Tab 20 10000000000000) 0 16890 :=
  cram12_E_c25.trans (Covered.piece 364 cram12_E_26 (by decide +kernel)) (by decide)
theorem cram12_E_c27 : Covered (pcE 1817 cram12D cram12C0 cram12Tab 20 10000000000000) 0 17810 :=
  cram12_E_c26.trans (Covered.piece 460 cram12_E_27 (by decide +kernel)) (by decide)
theorem cram12_E_c28 : Covered (pcE 1817 cram12D cram12C0 cram12Tab 20 10000000000000) 0 18974 :=
  cram12_E_c27.trans (Covered.piece 582 cram12_E_28 (by decide +kernel)) (by decide)
theorem cram12_E_c29 : Covered (pcE 1817 cram12D cram12C0 cram12Tab 20 10000000000000) 0 20444 :=
  cram12_E_c28.trans (Covered.piece 735 cram12_E_29 (by decide +kernel)) (by decide)
theorem cram12_E_c30 : Covered (pcE 1817 cram12D cram12C0 cram12Tab 20 10000000000000) 0 21488 :=
  cram12_E_c29.trans (Covered.piece 522 cram12_E_30 (by decide +kernel)) (by decide)
theorem cram12_E_c31 : Covered (pcE 1817 cram12D cram12C0 cram12Tab 20 10000000000000) 0 22808 :=
  cram12_E_c30.trans (Covered.piece 660 cram12_E_31 (by decide +kernel)) (by decide)
theorem cram12_E_c32 : Covered (pcE 1817 cram12D cram12C0 cram12Tab 20 10000000000000) 0 24476 :=
  cram12_E_c31.trans (Covered.piece 834 cram12_E_32 (by decide +kernel)) (by decide)
theorem cram12_E_c33 : Covered (pcE 1817 cram12D cram12C0 cram12Tab 20 10000000000000) 0 26058 :=
  cram12_E_c32.trans (Covered.piece 791 cram12_E_33 (by decide +kernel)) (by decide)
theorem cram12_E_c34 : Covered (pcE 1817 cram12D cram12C0 cram12Tab 20 10000000000000) 0 26900 :=
  cram12_E_c33.trans (Covered.piece 421 cram12_E_34 (by decide +kernel)) (by decide)
theorem cram12_E_c35 : Covered (pcE 1817 cram12D cram12C0 cram12Tab 20 10000000000000) 0 28320 :=
  cram12_E_c34.trans (Covered.piece 710 cram12_E_35 (by decide +kernel)) (by decide)
theorem cram12_E_c36 : Covered (pcE 1817 cram12D cram12C0 cram12Tab 20 10000000000000) 0 30114 :=
  cram12_E_c35.trans (Covered.piece 897 cram12_E_36 (by decide +kernel)) (by decide)
theorem cram12_E_c37 : Covered (pcE 1817 cram12D cram12C0 cram12Tab 20 10000000000000) 0 31814 :=
  cram12_E_c36.trans (Covered.piece 850 cram12_E_37 (by decide +kernel)) (by decide)
theorem cram12_E_c38 : Covered (pcE 1817 cram12D cram12C0 cram12Tab 20 10000000000000) 0 33022 :=
  cram12_E_c37.trans (Covered.piece 604 cram12_E_38 (by decide +kernel)) (by decide)
theorem cram12_E_c39 : Covered (pcE 1817 cram12D cram12C0 cram12Tab 20 10000000000000) 0 34550 :=
  cram12_E_c38.trans (Covered.piece 764 cram12_E_39 (by decide +kernel)) (by decide)
theorem cram12_E_c40 : Covered (pcE 1817 cram12D cram12C0 cram12Tab 20 10000000000000) 0 36482 :=
  cram12_E_c39.trans (Covered.piece 966 cram12_E_40 (by decide +kernel)) (by decide)
theorem cram12_E_c41 : Covered (pcE 1817 cram12D cram12C0 cram12Tab 20 10000000000000) 0 38924 :=
  cram12_E_c40.trans (Covered.piece 1221 cram12_E_41 (by decide +kernel)) (by decide)
theorem cram12_E_c42 : Covered (pcE 1817 cram12D cram12C0 cram12Tab 20 10000000000000) 0 39980 :=
  cram12_E_c41.trans (Covered.piece 528 cram12_E_42 (by decide +kernel)) (by decide)
theorem cram12_E_c43 : Covered (pcE 1817 cram12D cram12C0 cram12Tab 20 10000000000000) 0 40982 :=
  cram12_E_c42.trans (Covered.piece 501 cram12_E_43 (by decide +kernel)) (by decide)
theorem cram12_E_c44 : Covered (pcE 1817 cram12D cram12C0 cram12Tab 20 10000000000000) 0 42672 :=
  cram12_E_c43.trans (Covered.piece 845 cram12_E_44 (by decide +kernel)) (by decide)
theorem cram12_E_c45 : Covered (pcE 1817 cram12D cram12C0 cram12Tab 20 10000000000000) 0 45522 :=
  cram12_E_c44.trans (Covered.piece 1425 cram12_E_45 (by decide +kernel)) (by decide)
theorem cram12_E_c46 : Covered (pcE 1817 cram12D cram12C0 cram12Tab 20 10000000000000) 0 47404 :=
  cram12_E_c45.trans (Covered.piece 941 cram12_E_46 (by decide +kernel)) (by decide)
theorem cram12_E_c47 : Covered (pcE 1817 cram12D cram12C0 cram12Tab 20 10000000000000) 0 48742 :=
  cram12_E_c46.trans (Covered.piece 669 cram12_E_47 (by decide +kernel)) (by decide)
theorem cram12_E_c48 : Covered (pcE 1817 cram12D cram12C0 cram12Tab 20 10000000000000) 0 50010 :=
  cram12_E_c47.trans (Covered.piece 634 cram12_E_48 (by decide +kernel)) (by decide)
theorem cram12_E_c49 : Covered (pcE 1817 cram12D cram12C0 cram12Tab 20 10000000000000) 0 52148 :=
  cram12_E_c48.trans (Covered.piece 1069 cram12_E_49 (by decide +kernel)) (by decide)
theorem cram12_E_c50 : Covered (pcE 1817 cram12D cram12C0 cram12Tab 20 10000000000000) 0 55496 :=
  cram12_E_c49.trans (Covered.piece 1674 cram12_E_50 (by decide +kernel)) (by decide)
theorem cram12_E_c51 : Covered (pcE 1817 cram12D cram12C0 cram12Tab 20 10000000000000) 0 58006 :=
  cram12_E_c50.trans (Covered.piece 1255 cram12_E_51 (by decide +kernel)) (by decide)
theorem cram12_E_c52 : Covered (pcE 1817 cram12D cram12C0 cram12Tab 20 10000000000000) 0 59416 :=
  cram12_E_c51.trans (Covered.piece 705 cram12_E_52 (by decide +kernel)) (by decide)
theorem cram12_E_c53 : Covered (pcE 1817 cram12D cram12C0 cram12Tab 20 10000000000000) 0 60752 :=
  cram12_E_c52.trans (Covered.piece 668 cram12_E_53 (by decide +kernel)) (by decide)
theorem cram12_E_c54 : Covered (pcE 1817 cram12D cram12C0 cram12Tab 20 10000000000000) 0 63758 :=
  cram12_E_c53.trans (Covered.piece 1503 cram12_E_54 (by decide +kernel)) (by decide)
theorem cram12_E_c55 : Covered (pcE 1817 cram12D cram12C0 cram12Tab 20 10000000000000) 0 68222 :=
  cram12_E_c54.trans (Covered.piece 2232 cram12_E_55 (by decide +kernel)) (by decide)
theorem cram12_E_c56 : Covered (pcE 1817 cram12D cram12C0 cram12Tab 20 10000000000000) 0 70732 :=
  cram12_E_c55.trans (Covered.piece 1255 cram12_E_56 (by decide +kernel)) (by decide)
theorem cram12_E_c57 : Covered (pcE 1817 cram12D cram12C0 cram12Tab 20 10000000000000) 0 72614 :=
  cram12_E_c56.trans (Covered.piece 941 cram12_E_57 (by decide +kernel)) (by decide)
theorem cram12_E_c58 : Covered (pcE 1817 cram12D cram12C0 cram12Tab 20 10000000000000) 0 73952 :=
  cram12_E_c57.trans (Covered.piece 669 cram12_E_58 (by decide +kernel)) (by decide)
theorem cram12_E_c59 : Covered (pcE 1817 cram12D cram12C0 cram12Tab 20 10000000000000) 0 76208 :=
  cram12_E_c58.trans (Covered.piece 1128 cram12_E_59 (by decide +kernel)) (by decide)
theorem cram12_E_c60 : Covered (pcE 1817 cram12D cram12C0 cram12Tab 20 10000000000000) 0 79556 :=
  cram12_E_c59.trans (Covered.piece 1674 cram12_E_60 (by decide +kernel)) (by decide)
theorem cram12_E_c61 : Covered (pcE 1817 cram12D cram12C0 cram12Tab 20 10000000000000) 0 84020 :=
  cram12_E_c60.trans (Covered.piece 2232 cram12_E_61 (by decide +kernel)) (by decide)
theorem cram12_E_c62 : Covered (pcE 1817 cram12D cram12C0 cram12Tab 20 10000000000000) 0 87368 :=
  cram12_E_c61.trans (Covered.piece 1674 cram12_E_62 (by decide +kernel)) (by decide)
theorem cram12_E_c63 : Covered (pcE 1817 cram12D cram12C0 cram12Tab 20 10000000000000) 0 89250 :=
  cram12_E_c62.trans (Covered.piece 941 cram12_E_63 (by decide +kernel)) (by decide)
theorem cram12_E_c64 : Covered (pcE 1817 cram12D cram12C0 cram12Tab 20 10000000000000) 0 91034 :=
  cram12_E_c63.trans (Covered.piece 892 cram12_E_64 (by decide +kernel)) (by decide)
theorem cram12_E_c65 : Covered (pcE 1817 cram12D cram12C0 cram12Tab 20 10000000000000) 0 92726 :=
  cram12_E_c64.trans (Covered.piece 846 cram12_E_65 (by decide +kernel)) (by decide)
theorem cram12_E_c66 : Covered (pcE 1817 cram12D cram12C0 cram12Tab 20 10000000000000) 0 96532 :=
  cram12_E_c65.trans (Covered.piece 1903 cram12_E_66 (by decide +kernel)) (by decide)
theorem cram12_E_c67 : Covered (pcE 1817 cram12D cram12C0 cram12Tab 20 10000000000000) 0 102484 :=
  cram12_E_c66.trans (Covered.piece 2976 cram12_E_67 (by decide +kernel)) (by decide)
theorem cram12_E_c68 : Covered (pcE 1817 cram12D cram12C0 cram12Tab 20 10000000000000) 0 106948 :=
  cram12_E_c67.trans (Covered.piece 2232 cram12_E_68 (by decide +kernel)) (by decide)
theorem cram12_E_c69 : Covered (pcE 1817 cram12D cram12C0 cram12Tab 20 10000000000000) 0 110296 :=
  cram12_E_c68.trans (Covered.piece 1674 cram12_E_69 (by decide +kernel)) (by decide)
theorem cram12_E_c70 : Covered (pcE 1817 cram12D cram12C0 cram12Tab 20 10000000000000) 0 112806 :=
  cram12_E_c69.trans (Covered.piece 1255 cram12_E_70 (by decide +kernel)) (by decide)
theorem cram12_E_c71 : Covered (pcE 1817 cram12D cram12C0 cram12Tab 20 10000000000000) 0 114688 :=
  cram12_E_c70.trans (Covered.piece 941 cram12_E_71 (by decide +kernel)) (by decide)
theorem cram12_E_c72 : Covered (pcE 1817 cram12D cram12C0 cram12Tab 20 10000000000000) 0 117068 :=
  cram12_E_c71.trans (Covered.piece 1190 cram12_E_72 (by decide +kernel)) (by decide)
theorem cram12_E_c73 : Covered (pcE 1817 cram12D cram12C0 cram12Tab 20 10000000000000) 0 120416 :=
  cram12_E_c72.trans (Covered.piece 1674 cram12_E_73 (by decide +kernel)) (by decide)
theorem cram12_E_c74 : Covered (pcE 1817 cram12D cram12C0 cram12Tab 20 10000000000000) 0 126368 :=
  cram12_E_c73.trans (Covered.piece 2976 cram12_E_74 (by decide +kernel)) (by decide)
theorem cram12_E_c75 : Covered (pcE 1817 cram12D cram12C0 cram12Tab 20 10000000000000) 0 134306 :=
  cram12_E_c74.trans (Covered.piece 3969 cram12_E_75 (by decide +kernel)) (by decide)
theorem cram12_T_0 : pcT 1817 cram12D cram12C0 cram12Tab 19 10000000000000 15 15 = true := by decide +kernel
theorem cram12_T_1 : pcT 1817 cram12D cram12C0 cram12Tab 19 10000000000000 43 13 = true := by decide +kernel
theorem cram12_T_2 : pcT 1817 cram12D cram12C0 cram12Tab 19 10000000000000 71 15 = true := by decide +kernel
theorem cram12_T_3 : pcT 1817 cram12D cram12C0 cram12Tab 19 10000000000000 119 33 = true := by decide +kernel
theorem cram12_T_4 : pcT 1817 cram12D cram12C0 cram12Tab 19 10000000000000 174 22 = true := by decide +kernel
theorem cram12_T_5 : pcT 1817 cram12D cram12C0 cram12Tab 19 10000000000000 223 27 = true := by decide +kernel
theorem cram12_T_6 : pcT 1817 cram12D cram12C0 cram12Tab 19 10000000000000 310 60 = true := by decide +kernel
theorem cram12_T_7 : pcT 1817 cram12D cram12C0 cram12Tab 19 10000000000000 412 42 = true := by decide +kernel
theorem cram12_T_8 : pcT 1817 cram12D cram12C0 cram12Tab 19 10000000000000 493 39 = true := by decide +kernel
theorem cram12_T_9 : pcT 1817 cram12D cram12C0 cram12Tab 19 10000000000000 619 87 = true := by decide +kernel
theorem cram12_T_10 : pcT 1817 cram12D cram12C0 cram12Tab 19 10000000000000 751 45 = true := by decide +kernel
theorem cram12_T_11 : pcT 1817 cram12D cram12C0 cram12Tab 19 10000000000000 852 56 = true := by decide +kernel
theorem cram12_T_12 : pcT 1817 cram12D cram12C0 cram12Tab 19 10000000000000 1002 94 = true := by decide +kernel
theorem cram12_T_13 : pcT 1817 cram12D cram12C0 cram12Tab 19 10000000000000 1145 49 = true := by decide +kernel
theorem cram12_T_14 : pcT 1817 cram12D cram12C0 cram12Tab 19 10000000000000 1255 61 = true := by decide +kernel
theorem cram12_T_15 : pcT 1817 cram12D cram12C0 cram12Tab 19 10000000000000 1418 102 = true := by decide +kernel
theorem cram12_T_16 : pcT 1817 cram12D cram12C0 cram12Tab 19 10000000000000 1592 72 = true := by decide +kernel
theorem cram12_T_17 : pcT 1817 cram12D cram12C0 cram12Tab 19 10000000000000 1731 67 = true := by decide +kernel
theorem cram12_T_18 : pcT 1817 cram12D cram12C0 cram12Tab 19 10000000000000 1882 84 = true := by decide +kernel
theorem cram12_T_c0 : Covered (pcT 1817 cram12D cram12C0 cram12Tab 19 10000000000000) 0 30 :=
  Covered.piece 15 cram12_T_0 (by decide +kernel)
theorem cram12_T_c1 : Covered (pcT 1817 cram12D cram12C0 cram12Tab 19 10000000000000) 0 56 :=
  cram12_T_c0.trans (Covered.piece 13 cram12_T_1 (by decide +kernel)) (by decide)
theorem cram12_T_c2 : Covered (pcT 1817 cram12D cram12C0 cram12Tab 19 10000000000000) 0 86 :=
  cram12_T_c1.trans (Covered.piece 15 cram12_T_2 (by decide +kernel)) (by decide)
theorem cram12_T_c3 : Covered (pcT 1817 cram12D cram12C0 cram12Tab 19 10000000000000) 0 152 :=
  cram12_T_c2.trans (Covered.piece 33 cram12_T_3 (by decide +kernel)) (by decide)
theorem cram12_T_c4 : Covered (pcT 1817 cram12D cram12C0 cram12Tab 19 10000000000000) 0 196 :=
  cram12_T_c3.trans (Covered.piece 22 cram12_T_4 (by decide +kernel)) (by decide)
theorem cram12_T_c5 : Covered (pcT 1817 cram12D cram12C0 cram12Tab 19 10000000000000) 0 250 :=
  cram12_T_c4.trans (Covered.piece 27 cram12_T_5 (by decide +kernel)) (by decide)
theorem cram12_T_c6 : Covered (pcT 1817 cram12D cram12C0 cram12Tab 19 10000000000000) 0 370 :=
  cram12_T_c5.trans (Covered.piece 60 cram12_T_6 (by decide +kernel)) (by decide)
theorem cram12_T_c7 : Covered (pcT 1817 cram12D cram12C0 cram12Tab 19 10000000000000) 0 454 :=
  cram12_T_c6.trans (Covered.piece 42 cram12_T_7 (by decide +kernel)) (by decide)
theorem cram12_T_c8 : Covered (pcT 1817 cram12D cram12C0 cram12Tab 19 10000000000000) 0 532 :=
  cram12_T_c7.trans (Covered.piece 39 cram12_T_8 (by decide +kernel)) (by decide)
theorem cram12_T_c9 : Covered (pcT 1817 cram12D cram12C0 cram12Tab 19 10000000000000) 0 706 :=
  cram12_T_c8.trans (Covered.piece 87 cram12_T_9 (by decide +kernel)) (by decide)
theorem cram12_T_c10 : Covered (pcT 1817 cram12D cram12C0 cram12Tab 19 10000000000000) 0 796 :=
  cram12_T_c9.trans (Covered.piece 45 cram12_T_10 (by decide +kernel)) (by decide)
theorem cram12_T_c11 : Covered (pcT 1817 cram12D cram12C0 cram12Tab 19 10000000000000) 0 908 :=
  cram12_T_c10.trans (Covered.piece 56 cram12_T_11 (by decide +kernel)) (by decide)
theorem cram12_T_c12 : Covered (pcT 1817 cram12D cram12C0 cram12Tab 19 10000000000000) 0 1096 :=
  cram12_T_c11.trans (Covered.piece 94 cram12_T_12 (by decide +kernel)) (by decide)
theorem cram12_T_c13 : Covered (pcT 1817 cram12D cram12C0 cram12Tab 19 10000000000000) 0 1194 :=
  cram12_T_c12.trans (Covered.piece 49 cram12_T_13 (by decide +kernel)) (by decide)
theorem cram12_T_c14 : Covered (pcT 1817 cram12D cram12C0 cram12Tab 19 10000000000000) 0 1316 :=
  cram12_T_c13.trans (Covered.piece 61 cram12_T_14 (by decide +kernel)) (by decide)
theorem cram12_T_c15 : Covered (pcT 1817 cram12D cram12C0 cram12Tab 19 10000000000000) 0 1520 :=
  cram12_T_c14.trans (Covered.piece 102 cram12_T_15 (by decide +kernel)) (by decide)
theorem cram12_T_c16 : Covered (pcT 1817 cram12D cram12C0 cram12Tab 19 10000000000000) 0 1664 :=
  cram12_T_c15.trans (Covered.piece 72 cram12_T_16 (by decide +kernel)) (by decide)
theorem cram12_T_c17 : Covered (pcT 1817 cram12D cram12C0 cram12Tab 19 10000000000000) 0 1798 :=
  cram12_T_c16.trans (Covered.piece 67 cram12_T_17 (by decide +kernel)) (by decide)
theorem cram12_T_c18 : Covered (pcT 1817 cram12D cram12C0 cram12Tab 19 10000000000000) 0 1966 :=
  cram12_T_c17.trans (Covered.piece 84 cram12_T_18 (by decide +kernel)) (by decide)
theorem cram12_sideE : sideE 20 10000000000000 19 134306 1966 = true := by decide +kernel
theorem cram12_exp (x : ℝ) (hx : x ≤ 0) :
    |rVal cram12D cram12C0 cram12Tab x - Real.exp x| ≤ (20 : ℕ) / (10000000000000 : ℕ) + 1 / 10 ^ 23 :=
  exp_sound cram12_side cram12_sideE cram12_E_c75 cram12_T_c18 x hx
theorem cram12_P1_0 : pcPF 2752 cram12D cram12Tab 1 1 5000000000 941 941 = true := by decide +kernel
theorem cram12_P1_1 : pcPF 2752 cram12D cram12Tab 1 1 5000000000 3999 2117 = true := by decide +kernel
theorem cram12_P1_c0 : Covered (pcPF 2752 cram12D cram12Tab 1 1 5000000000) 0 1882 :=
  Covered.piece 941 cram12_P1_0 (by decide +kernel)
theorem cram12_P1_c1 : Covered (pcPF 2752 cram12D cram12Tab 1 1 5000000000) 0 6116 :=
  cram12_P1_c0.trans (Covered.piece 2117 cram12_P1_1 (by decide +kernel)) (by decide)
theorem cram12_phi1 (x : ℝ) (hx : x ≤ 0) (hx1 : -1 ≤ x) :
    |rVal cram12D 0 (divTab cram12D cram12Tab 1) x - phi 1 x| ≤ (1 : ℕ) / (5000000000 : ℕ) + 1 / 10 ^ 23 :=
  phi_sound cram12_side (by norm_num) (by norm_num) cram12_P1_c1 x hx hx1
theorem cram12_P2_0 : pcPF 3828 cram12D cram12Tab 2 7 2000000000 1674 1674 = true := by decide +kernel
theorem cram12_P2_1 : pcPF 3828 cram12D cram12Tab 2 7 2000000000 6324 2976 = true := by decide +kernel
theorem cram12_P2_c0 : Covered (pcPF 3828 cram12D cram12Tab 2 7 2000000000) 0 3348 :=
  Covered.piece 1674 cram12_P2_0 (by decide +kernel)
theorem cram12_P2_c1 : Covered (pcPF 3828 cram12D cram12Tab 2 7 2000000000) 0 9300 :=
  cram12_P2_c0.trans (Covered.piece 2976 cram12_P2_1 (by decide +kernel)) (by decide)
theorem cram12_phi2 (x : ℝ) (hx : x ≤ 0) (hx1 : -1 ≤ x) :
    |rVal cram12D 0 (divTab cram12D cram12Tab 2) x - phi 2 x| ≤ (7 : ℕ) / (2000000000 : ℕ) + 1 / 10 ^ 23 :=
  phi_sound cram12_side (by norm_num) (by norm_num) cram12_P2_c1 x hx hx1

/-! ### `cram_14` -/

def cram14D : ℤ := 10000000000000000000000000000
def cram14C0 : ℤ := 289768209427166
def cram14Tab : List RTerm := [
  ⟨-88977633555938600000000000000, -166310424891922000000000000000, -715521523238176000000000, -1436080076597260000000000, 1⟩,
  ⟨-37032586553928800000000000000, -136564192417010000000000000000, 94399867202536000000000000, 171846681983437000000000000, 1⟩,
  ⟨-2087403395226440000000000000, -109912980673354000000000000000, -3763796394264430000000000000, -3351767310885700000000000000, 1⟩,
  ⟨22698030981227800000000000000, -84617661059734800000000000000, 48072510067446700000000000000, 13208802784278500000000000000, 1⟩,
  ⟨39933898478624900000000000000, -60048510549737200000000000000, -234986639171858000000000000000, 58089192055776500000000000000, 1⟩,
  ⟨50893659064499900000000000000, -35888353800486700000000000000, 469339098639509000000000000000, -456452343927213000000000000000, 1⟩,
  ⟨56231638127945900000000000000, -11940727794683400000000000000, -278754857485678000000000000000, 1021499238363640000000000000000, 1⟩]

theorem cram14_side : sideTab cram14D cram14Tab = true := by decide +kernel
theorem cram14_E_0 : pcE 2127 cram14D cram14C0 cram14Tab 60 1000000000000000 166 166 = true := by decide +kernel
theorem cram14_E_1 : pcE 2127 cram14D cram14C0 cram14Tab 60 1000000000000000 488 156 = true := by decide +kernel
theorem cram14_E_2 : pcE 2127 cram14D cram14C0 cram14Tab 60 1000000000000000 907 263 = true := by decide +kernel
theorem cram14_E_3 : pcE 2127 cram14D cram14C0 cram14Tab 60 1000000000000000 1613 443 = true := by decide +kernel
theorem cram14_E_4 : pcE 2127 cram14D cram14C0 cram14Tab 60 1000000000000000 2371 315 = true := by decide +kernel
theorem cram14_E_5 : pcE 2127 cram14D cram14C0 cram14Tab 60 1000000000000000 3084 398 = true := by decide +kernel
theorem cram14_E_6 : pcE 2127 cram14D cram14C0 cram14Tab 60 1000000000000000 4377 895 = true := by decide +kernel
theorem cram14_E_7 : pcE 2127 cram14D cram14C0 cram14Tab 60 1000000000000000 5749 477 = true := by decide +kernel
theorem cram14_E_8 : pcE 2127 cram14D cram14C0 cram14Tab 60 1000000000000000 6829 603 = true := by decide +kernel
theorem cram14_E_9 : pcE 2127 cram14D cram14C0 cram14Tab 60 1000000000000000 8788 1356 = true := by decide +kernel
theorem cram14_E_10 : pcE 2127 cram14D cram14C0 cram14Tab 60 1000000000000000 10849 705 = true := by decide +kernel
theorem cram14_E_11 : pcE 2127 cram14D cram14C0 cram14Tab 60 1000000000000000 12445 891 = true := by decide +kernel
theorem cram14_E_12 : pcE 2127 cram14D cram14C0 cram14Tab 60 1000000000000000 14839 1503 = true := by decide +kernel
theorem cram14_E_13 : pcE 2127 cram14D cram14C0 cram14Tab 60 1000000000000000 17283 941 = true := by decide +kernel
theorem cram14_E_14 : pcE 2127 cram14D cram14C0 cram14Tab 60 1000000000000000 19414 1190 = true := by decide +kernel
theorem cram14_E_15 : pcE 2127 cram14D cram14C0 cram14Tab 60 1000000000000000 22278 1674 = true := by decide +kernel
theorem cram14_E_16 : pcE 2127 cram14D cram14C0 cram14Tab 60 1000000000000000 25207 1255 = true := by decide +kernel
theorem cram14_E_17 : pcE 2127 cram14D cram14C0 cram14Tab 60 1000000000000000 27717 1255 = true := by decide +kernel
theorem cram14_E_18 : pcE 2127 cram14D cram14C0 cram14Tab 60 1000000000000000 31204 2232 = true := by decide +kernel
theorem cram14_E_19 : pcE 2127 cram14D cram14C0 cram14Tab 60 1000000000000000 35110 1674 = true := by decide +kernel
theorem cram14_E_20 : pcE 2127 cram14D cram14C0 cram14Tab 60 1000000000000000 38039 1255 = true := by decide +kernel
theorem cram14_E_21 : pcE 2127 cram14D cram14C0 cram14Tab 60 1000000000000000 40968 1674 = true := by decide +kernel
theorem cram14_E_22 : pcE 2127 cram14D cram14C0 cram14Tab 60 1000000000000000 44874 2232 = true := by decide +kernel
theorem cram14_E_23 : pcE 2127 cram14D cram14C0 cram14Tab 60 1000000000000000 49338 2232 = true := by decide +kernel
theorem cram14_E_24 : pcE 2127 cram14D cram14C0 cram14Tab 60 1000000000000000 53244 1674 = true := by decide +kernel
theorem cram14_E_25 : pcE 2127 cram14D cram14C0 cram14Tab 60 1000000000000000 57150 2232 = true := by decide +kernel
theorem cram14_E_26 : pcE 2127 cram14D cram14C0 cram14Tab 60 1000000000000000 62358 2976 = true := by decide +kernel
theorem cram14_E_27 : pcE 2127 cram14D cram14C0 cram14Tab 60 1000000000000000 68310 2976 = true := by decide +kernel
theorem cram14_E_28 : pcE 2127 cram14D cram14C0 cram14Tab 60 1000000000000000 73518 2232 = true := by decide +kernel
theorem cram14_E_29 : pcE 2127 cram14D cram14C0 cram14Tab 60 1000000000000000 78726 2976 = true := by decide +kernel
theorem cram14_E_30 : pcE 2127 cram14D cram14C0 cram14Tab 60 1000000000000000 84678 2976 = true := by decide +kernel
theorem cram14_E_31 : pcE 2127 cram14D cram14C0 cram14Tab 60 1000000000000000 90630 2976 = true := by decide +kernel
theorem cram14_E_32 : pcE 2127 cram14D cram14C0 cram14Tab 60 1000000000000000 97575 3969 = true := by decide +kernel
theorem cram14_E_33 : pcE 2127 cram14D cram14C0 cram14Tab 60 1000000000000000 104520 2976 = true := by decide +kernel
theorem cram14_E_34 : pcE 2127 cram14D cram14C0 cram14Tab 60 1000000000000000 110472 2976 = true := by decide +kernel
theorem cram14_E_35 : pcE 2127 cram14D cram14C0 cram14Tab 60 1000000000000000 117417 3969 = true := by decide +kernel
theorem cram14_E_36 : pcE 2127 cram14D cram14C0 cram14Tab 60 1000000000000000 125355 3969 = true := by decide +kernel
theorem cram14_E_37 : pcE 2127 cram14D cram14C0 cram14Tab 60 1000000000000000 133293 3969 = true := by decide +kernel
theorem cram14_E_38 : pcE 2127 cram14D cram14C0 cram14Tab 60 1000000000000000 141231 3969 = true := by decide +kernel
theorem cram14_E_c0 : Covered (pcE 2127 cram14D cram14C0 cram14Tab 60 1000000000000000) 0 332 :=
  Covered.piece 166 cram14_E_0 (by decide +kernel)
theorem cram14_E_c1 : Covered (pcE 2127 cram14D cram14C0 cram14Tab 60 1000000000000000) 0 644 :=
  cram14_E_c0.trans (Covered.piece 156 cram14_E_1 (by decide +kernel)) (by decide)
theorem cram14_E_c2 : Covered (pcE 2127 cram14D cram14C0 cram14Tab 60 1000000000000000) 0 1170 :=
  cram14_E_c1.trans (Covered.piece 263 cram14_E_2 (by decide +kernel)) (by decide)
theorem cram14_E_c3 : Covered (pcE 2127 cram14D cram14C0 cram14Tab 60 1000000000000000) 0 2056 :=
  cram14_E_c2.trans (Covered.piece 443 cram14_E_3 (by decide +kernel)) (by decide)
theorem cram14_E_c4 : Covered (pcE 2127 cram14D cram14C0 cram14Tab 60 1000000000000000) 0 2686 :=
  cram14_E_c3.trans (Covered.piece 315 cram14_E_4 (by decide +kernel)) (by decide)
theorem cram14_E_c5 : Covered (pcE 2127 cram14D cram14C0 cram14Tab 60 1000000000000000) 0 3482 :=
  cram14_E_c4.trans (Covered.piece 398 cram14_E_5 (by decide +kernel)) (by decide)
theorem cram14_E_c6 : Covered (pcE 2127 cram14D cram14C0 cram14Tab 60 1000000000000000) 0 5272 :=
  cram14_E_c5.trans (Covered.piece 895 cram14_E_6 (by decide +kernel)) (by decide)
theorem cram14_E_c7 : Covered (pcE 2127 cram14D cram14C0 cram14Tab 60 1000000000000000) 0 6226 :=
  cram14_E_c6.trans (Covered.piece 477 cram14_E_7 (by decide +kernel)) (by decide)
theorem cram14_E_c8 : Covered (pcE 2127 cram14D cram14C0 cram14Tab 60 1000000000000000) 0 7432 :=
  cram14_E_c7.trans (Covered.piece 603 cram14_E_8 (by decide +kernel)) (by decide)
theorem cram14_E_c9 : Covered (pcE 2127 cram14D cram14C0 cram14Tab 60 1000000000000000) 0 10144 :=
  cram14_E_c8.trans (Covered.piece 1356 cram14_E_9 (by decide +kernel)) (by decide)
theorem cram14_E_c10 : Covered (pcE 2127 cram14D cram14C0 cram14Tab 60 1000000000000000) 0 11554 :=
  cram14_E_c9.trans (Covered.piece 705 cram14_E_10 (by decide +kernel)) (by decide)
theorem cram14_E_c11 : Covered (pcE 2127 cram14D cram14C0 cram14Tab 60 1000000000000000) 0 13336 :=
  cram14_E_c10.trans (Covered.piece 891 cram14_E_11 (by decide +kernel)) (by decide)
theorem cram14_E_c12 : Covered (pcE 2127 cram14D cram14C0 cram14Tab 60 1000000000000000) 0 16342 :=
  cram14_E_c11.trans (Covered.piece 1503 cram14_E_12 (by decide +kernel)) (by decide)
theorem cram14_E_c13 : Covered (pcE 2127 cram14D cram14C0 cram14Tab 60 1000000000000000) 0 18224 :=
  cram14_E_c12.trans (Covered.piece 941 cram14_E_13 (by decide +kernel)) (by decide)
theorem cram14_E_c14 : Covered (pcE 2127 cram14D cram14C0 cram14Tab 60 1000000000000000) 0 20604 :=
  cram14_E_c13.trans (Covered.piece 1190 cram14_E_14 (by decide +kernel)) (by decide)
theorem cram14_E_c15 : Covered (pcE 2127 cram14D cram14C0 cram14Tab 60 1000000000000000) 0 23952 :=
  cram14_E_c14.trans (Covered.piece 1674 cram14_E_15 (by decide +kernel)) (by decide)
theorem cram14_E_c16 : Covered (pcE 2127 cram14D cram14C0 cram14Tab 60 1000000000000000) 0 26462 :=
  cram14_E_c15.trans (Covered.piece 1255 cram14_E_16 (by decide +kernel)) (by decide)
theorem cram14_E_c17 : Covered (pcE 2127 cram14D cram14C0 cram14Tab 60 1000000000000000) 0 28972 :=
  cram14_E_c16.trans (Covered.piece 1255 cram14_E_17 (by decide +kernel)) (by decide)
theorem cram14_E_c18 : Covered (pcE 2127 cram14D cram14C0 cram14Tab 60 1000000000000000) 0 33436 :=
  cram14_E_c17.trans (Covered.piece 2232 cram14_E_18 (by decide +kernel)) (by decide)
theorem cram14_E_c19 : Covered (pcE 2127 cram14D cram14C0 cram14Tab 60 1000000000000000) 0 36784 :=
  cram14_E_c18.trans (Covered.piece 1674 cram14_E_19 (by decide +kernel)) (by decide)
theorem cram14_E_c20 : Covered (pcE 2127 cram14D cram14C0 cram14Tab 60 1000000000000000) 0 39294 :=
  cram14_E_c19.trans (Covered.piece 1255 cram14_E_20 (by decide +kernel)) (by decide)
theorem cram14_E_c21 : Covered (pcE 2127 cram14D cram14C0 cram14Tab 60 1000000000000000) 0 42642 :=
  cram14_E_c20.trans (Covered.piece 1674 cram14_E_21 (by decide +kernel)) (by decide)
theorem cram14_E_c22 : Covered (pcE 2127 cram14D cram14C0 cram14Tab 60 1000000000000000) 0 47106 :=
  cram14_E_c21.trans (Covered.piece 2232 cram14_E_22 (by decide +kernel)) (by decide)
theorem cram14_E_c23 : Covered (pcE 2127 cram14D cram14C0 cram14Tab 60 1000000000000000) 0 51570 :=
  cram14_E_c22.trans (Covered.piece 2232 cram14_E_23 (by decide +kernel)) (by decide)
theorem cram14_E_c24 : Covered (pcE 2127 cram14D cram14C0 cram14Tab 60 1000000000000000) 0 54918 :=
  cram14_E_c23.trans (Covered.piece 1674 cram14_E_24 (by decide +kernel)) (by decide)
theorem cram14_E_c25 : Covered (pcE 2127 cram14D cram14C0 cram14Tab 60 1000000000000000) 0 59382 :=
  cram14_E_c24.trans (Covered.piece 2232 cram14_E_25 (by decide +kernel)) (by decide)
theorem cram14_E_c26 : Covered (pcE 2127 cram14D cram14C0 cram14Tab 60 1000000000000000) 0 65334 :=
  cram14_E_c25.trans (Covered.piece 2976 cram14_E_26 (by decide +kernel)) (by decide)
theorem cram14_E_c27 : Covered (pcE 2127 cram14D cram14C0 cram14Tab 60 1000000000000000) 0 71286 :=
  cram14_E_c26.trans (Covered.piece 2976 cram14_E_27 (by decide +kernel)) (by decide)
theorem cram14_E_c28 : Covered (pcE 2127 cram14D cram14C0 cram14Tab 60 1000000000000000) 0 75750 :=
  cram14_E_c27.trans (Covered.piece 2232 cram14_E_28 (by decide +kernel)) (by decide)
theorem cram14_E_c29 : Covered (pcE 2127 cram14D cram14C0 cram14Tab 60 1000000000000000) 0 81702 :=
  cram14_E_c28.trans (Covered.piece 2976 cram14_E_29 (by decide +kernel)) (by decide)
theorem cram14_E_c30 : Covered (pcE 2127 cram14D cram14C0 cram14Tab 60 1000000000000000) 0 87654 :=
  cram14_E_c29.trans (Covered.piece 2976 cram14_E_30 (by decide +kernel)) (by decide)
theorem cram14_E_c31 : Covered (pcE 2127 cram14D cram14C0 cram14Tab 60 1000000000000000) 0 93606 :=
  cram14_E_c30.trans (Covered.piece 2976 cram14_E_31 (by decide +kernel)) (by decide)
theorem cram14_E_c32 : Covered (pcE 2127 cram14D cram14C0 cram14Tab 60 1000000000000000) 0 101544 :=
  cram14_E_c31.trans (Covered.piece 3969 cram14_E_32 (by decide +kernel)) (by decide)
theorem cram14_E_c33 : Covered (pcE 2127 cram14D cram14C0 cram14Tab 60 1000000000000000) 0 107496 :=
  cram14_E_c32.trans (Covered.piece 2976 cram14_E_33 (by decide +kernel)) (by decide)
theorem cram14_E_c34 : Covered (pcE 2127 cram14D cram14C0 cram14Tab 60 1000000000000000) 0 113448 :=
  cram14_E_c33.trans (Covered.piece 2976 cram14_E_34 (by decide +kernel)) (by decide)
theorem cram14_E_c35 : Covered (pcE 2127 cram14D cram14C0 cram14Tab 60 1000000000000000) 0 121386 :=
  cram14_E_c34.trans (Covered.piece 3969 cram14_E_35 (by decide +kernel)) (by decide)
theorem cram14_E_c36 : Covered (pcE 2127 cram14D cram14C0 cram14Tab 60 1000000000000000) 0 129324 :=
  cram14_E_c35.trans (Covered.piece 3969 cram14_E_36 (by decide +kernel)) (by decide)
theorem cram14_E_c37 : Covered (pcE 2127 cram14D cram14C0 cram14Tab 60 1000000000000000) 0 137262 :=
  cram14_E_c36.trans (Covered.piece 3969 cram14_E_37 (by decide +kernel)) (by decide)
theorem cram14_E_c38 : Covered (pcE 2127 cram14D cram14C0 cram14Tab 60 1000000000000000) 0 145200 :=
  cram14_E_c37.trans (Covered.piece 3969 cram14_E_38 (by decide +kernel)) (by decide)
theorem cram14_T_0 : pcT 2127 cram14D cram14C0 cram14Tab 59 1000000000000000 36 36 = true := by decide +kernel
theorem cram14_T_1 : pcT 2127 cram14D cram14C0 cram14Tab 59 1000000000000000 132 60 = true := by decide +kernel
theorem cram14_T_2 : pcT 2127 cram14D cram14C0 cram14Tab 59 1000000000000000 293 101 = true := by decide +kernel
theorem cram14_T_3 : pcT 2127 cram14D cram14C0 cram14Tab 59 1000000000000000 489 95 = true := by decide +kernel
theorem cram14_T_4 : pcT 2127 cram14D cram14C0 cram14Tab 59 1000000000000000 703 119 = true := by decide +kernel
theorem cram14_T_5 : pcT 2127 cram14D cram14C0 cram14Tab 59 1000000000000000 972 150 = true := by decide +kernel
theorem cram14_T_6 : pcT 2127 cram14D cram14C0 cram14Tab 59 1000000000000000 1263 141 = true := by decide +kernel
theorem cram14_T_7 : pcT 2127 cram14D cram14C0 cram14Tab 59 1000000000000000 1581 177 = true := by decide +kernel
theorem cram14_T_8 : pcT 2127 cram14D cram14C0 cram14Tab 59 1000000000000000 1925 167 = true := by decide +kernel
theorem cram14_T_c0 : Covered (pcT 2127 cram14D cram14C0 cram14Tab 59 1000000000000000) 0 72 :=
  Covered.piece 36 cram14_T_0 (by decide +kernel)
theorem cram14_T_c1 : Covered (pcT 2127 cram14D cram14C0 cram14Tab 59 1000000000000000) 0 192 :=
  cram14_T_c0.trans (Covered.piece 60 cram14_T_1 (by decide +kernel)) (by decide)
theorem cram14_T_c2 : Covered (pcT 2127 cram14D cram14C0 cram14Tab 59 1000000000000000) 0 394 :=
  cram14_T_c1.trans (Covered.piece 101 cram14_T_2 (by decide +kernel)) (by decide)
theorem cram14_T_c3 : Covered (pcT 2127 cram14D cram14C0 cram14Tab 59 1000000000000000) 0 584 :=
  cram14_T_c2.trans (Covered.piece 95 cram14_T_3 (by decide +kernel)) (by decide)
theorem cram14_T_c4 : Covered (pcT 2127 cram14D cram14C0 cram14Tab 59 1000000000000000) 0 822 :=
  cram14_T_c3.trans (Covered.piece 119 cram14_T_4 (by decide +kernel)) (by decide)
theorem cram14_T_c5 : Covered (pcT 2127 cram14D cram14C0 cram14Tab 59 1000000000000000) 0 1122 :=
  cram14_T_c4.trans (Covered.piece 150 cram14_T_5 (by decide +kernel)) (by decide)
theorem cram14_T_c6 : Covered (pcT 2127 cram14D cram14C0 cram14Tab 59 1000000000000000) 0 1404 :=
  cram14_T_c5.trans (Covered.piece 141 cram14_T_6 (by decide +kernel)) (by decide)
theorem cram14_T_c7 : Covered (pcT 2127 cram14D cram14C0 cram14Tab 59 1000000000000000) 0 1758 :=
  cram14_T_c6.trans (Covered.piece 177 cram14_T_7 (by decide +kernel)) (by decide)
theorem cram14_T_c8 : Covered (pcT 2127 cram14D cram14C0 cram14Tab 59 1000000000000000) 0 2092 :=
  cram14_T_c7.trans (Covered.piece 167 cram14_T_8 (by decide +kernel)) (by decide)
theorem cram14_sideE : sideE 60 1000000000000000 59 145200 2092 = true := by decide +kernel
theorem cram14_exp (x : ℝ) (hx : x ≤ 0) :
    |rVal cram14D cram14C0 cram14Tab x - Real.exp x| ≤ (60 : ℕ) / (1000000000000000 : ℕ) + 1 / 10 ^ 23 :=
  exp_sound cram14_side cram14_sideE cram14_E_c38 cram14_T_c8 x hx
theorem cram14_P1_0 : pcPF 3333 cram14D cram14Tab 1 3 1000000000000 941 941 = true := by decide +kernel
theorem cram14_P1_1 : pcPF 3333 cram14D cram14Tab 1 3 1000000000000 3999 2117 = true := by decide +kernel
theorem cram14_P1_c0 : Covered (pcPF 3333 cram14D cram14Tab 1 3 1000000000000) 0 1882 :=
  Covered.piece 941 cram14_P1_0 (by decide +kernel)
theorem cram14_P1_c1 : Covered (pcPF 3333 cram14D cram14Tab 1 3 1000000000000) 0 6116 :=
  cram14_P1_c0.trans (Covered.piece 2117 cram14_P1_1 (by decide +kernel)) (by decide)
theorem cram14_phi1 (x : ℝ) (hx : x ≤ 0) (hx1 : -1 ≤ x) :
    |rVal cram14D 0 (divTab cram14D cram14Tab 1) x - phi 1 x| ≤ (3 : ℕ) / (1000000000000 : ℕ) + 1 / 10 ^ 23 :=
  phi_sound cram14_side (by norm_num) (by norm_num) cram14_P1_c1 x hx hx1
theorem cram14_P2_0 : pcPF 4683 cram14D cram14Tab 2 1 20000000000 1674 1674 = true := by decide +kernel
theorem cram14_P2_1 : pcPF 4683 cram14D cram14Tab 2 1 20000000000 6324 2976 = true := by decide +kernel
theorem cram14_P2_c0 : Covered (pcPF 4683 cram14D cram14Tab 2 1 20000000000) 0 3348 :=
  Covered.piece 1674 cram14_P2_0 (by decide +kernel)
theorem cram14_P2_c1 : Covered (pcPF 4683 cram14D cram14Tab 2 1 20000000000) 0 9300 :=
  cram14_P2_c0.trans (Covered.piece 2976 cram14_P2_1 (by decide +kernel)) (by decide)
theorem cram14_phi2 (x : ℝ) (hx : x ≤ 0) (hx1 : -1 ≤ x) :
    |rVal cram14D 0 (divTab cram14D cram14Tab 2) x - phi 2 x| ≤ (1 : ℕ) / (20000000000 : ℕ) + 1 / 10 ^ 23 :=
  phi_sound cram14_side (by norm_num) (by norm_num) cram14_P2_c1 x hx hx1

end Ormatex.Props.Cert
