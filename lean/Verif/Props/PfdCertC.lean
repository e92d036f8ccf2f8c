import Verif.Props.PfdPoly

/-!
Certificates for the shipped CRAM tables (checked by the kernel with the verified checker of `Props/PfdPoly.lean`): integer
numerators of the tables, the subdivision of the half line, and the resulting bounds.
-/

namespace Ormatex.Props.Cert
open Ormatex Ormatex.Spec


/-! ### `cram_16` -/

def cram16D : ℤ := 100000000000000000000000000000000000
def cram16C0 : ℤ := 21248537104952237488
def cram16Tab : List RTerm := [
  ⟨-1084391707869698802600000000000000000, 1927744616718165228400000000000000000, -50901521865224915650000000000, -2422001765285228797000000000000, 1⟩,
  ⟨-526497134344264688950000000000000000, 1622022147316792730500000000000000000, 21151742182466030907000000000000, 438929696473806739180000000000000, 1⟩,
  ⟨594815226895117748080000000000000000, 358745736201832228290000000000000000, 11339775178483930527000000000000000000, 10194721704215856450000000000000000000, 1⟩,
  ⟨350910360841491809740000000000000000, 843619898588437508260000000000000000, 1505958527002346752800000000000000000, -575140527764218199790000000000000000, 1⟩,
  ⟨641617769909943419230000000000000000, 119412239337013868740000000000000000, -6450087802553964659500000000000000000, -22459440762652096056000000000000000000, 1⟩,
  ⟨141937589718566597860000000000000000, 1092536348449672258500000000000000000, -147930071135579997180000000000000000, 176865883237829379060000000000000000, 1⟩,
  ⟨499317473771799639910000000000000000, 599688171360394222600000000000000000, -6251839246320791889200000000000000000, -1119039109428322848000000000000000000, 1⟩,
  ⟨-141392846248888621140000000000000000, 1349772569889274538900000000000000000, 4102313683541002127300000000000000, -15743466173455468191000000000000000, 1⟩]

theorem cram16_side : sideTab cram16D cram16Tab = true := by decide +kernel
theorem cram16_E_0 : pcE 2746 cram16D cram16C0 cram16Tab 40 100000000000000000 51 51 = true := by decide +kernel
theorem cram16_E_1 : pcE 2746 cram16D cram16C0 cram16Tab 40 100000000000000000 187 85 = true := by decide +kernel
theorem cram16_E_2 : pcE 2746 cram16D cram16C0 cram16Tab 40 100000000000000000 415 143 = true := by decide +kernel
theorem cram16_E_3 : pcE 2746 cram16D cram16C0 cram16Tab 40 100000000000000000 738 180 = true := by decide +kernel
theorem cram16_E_4 : pcE 2746 cram16D cram16C0 cram16Tab 40 100000000000000000 1145 227 = true := by decide +kernel
theorem cram16_E_5 : pcE 2746 cram16D cram16C0 cram16Tab 40 100000000000000000 1658 286 = true := by decide +kernel
theorem cram16_E_6 : pcE 2746 cram16D cram16C0 cram16Tab 40 100000000000000000 2214 270 = true := by decide +kernel
theorem cram16_E_7 : pcE 2746 cram16D cram16C0 cram16Tab 40 100000000000000000 2939 455 = true := by decide +kernel
theorem cram16_E_8 : pcE 2746 cram16D cram16C0 cram16Tab 40 100000000000000000 3825 431 = true := by decide +kernel
theorem cram16_E_9 : pcE 2746 cram16D cram16C0 cram16Tab 40 100000000000000000 4800 544 = true := by decide +kernel
theorem cram16_E_10 : pcE 2746 cram16D cram16C0 cram16Tab 40 100000000000000000 5860 516 = true := by decide +kernel
theorem cram16_E_11 : pcE 2746 cram16D cram16C0 cram16Tab 40 100000000000000000 6865 489 = true := by decide +kernel
theorem cram16_E_12 : pcE 2746 cram16D cram16C0 cram16Tab 40 100000000000000000 7972 618 = true := by decide +kernel
theorem cram16_E_13 : pcE 2746 cram16D cram16C0 cram16Tab 40 100000000000000000 9175 585 = true := by decide +kernel
theorem cram16_E_14 : pcE 2746 cram16D cram16C0 cram16Tab 40 100000000000000000 10315 555 = true := by decide +kernel
theorem cram16_E_15 : pcE 2746 cram16D cram16C0 cram16Tab 40 100000000000000000 11572 702 = true := by decide +kernel
theorem cram16_E_16 : pcE 2746 cram16D cram16C0 cram16Tab 40 100000000000000000 12940 666 = true := by decide +kernel
theorem cram16_E_17 : pcE 2746 cram16D cram16C0 cram16Tab 40 100000000000000000 14448 842 = true := by decide +kernel
theorem cram16_E_18 : pcE 2746 cram16D cram16C0 cram16Tab 40 100000000000000000 16088 798 = true := by decide +kernel
theorem cram16_E_19 : pcE 2746 cram16D cram16C0 cram16Tab 40 100000000000000000 17895 1009 = true := by decide +kernel
theorem cram16_E_20 : pcE 2746 cram16D cram16C0 cram16Tab 40 100000000000000000 19845 941 = true := by decide +kernel
theorem cram16_E_21 : pcE 2746 cram16D cram16C0 cram16Tab 40 100000000000000000 21678 892 = true := by decide +kernel
theorem cram16_E_22 : pcE 2746 cram16D cram16C0 cram16Tab 40 100000000000000000 23698 1128 = true := by decide +kernel
theorem cram16_E_23 : pcE 2746 cram16D cram16C0 cram16Tab 40 100000000000000000 26081 1255 = true := by decide +kernel
theorem cram16_E_24 : pcE 2746 cram16D cram16C0 cram16Tab 40 100000000000000000 28277 941 = true := by decide +kernel
theorem cram16_E_25 : pcE 2746 cram16D cram16C0 cram16Tab 40 100000000000000000 30408 1190 = true := by decide +kernel
theorem cram16_E_26 : pcE 2746 cram16D cram16C0 cram16Tab 40 100000000000000000 32539 941 = true := by decide +kernel
theorem cram16_E_27 : pcE 2746 cram16D cram16C0 cram16Tab 40 100000000000000000 34670 1190 = true := by decide +kernel
theorem cram16_E_28 : pcE 2746 cram16D cram16C0 cram16Tab 40 100000000000000000 37115 1255 = true := by decide +kernel
theorem cram16_E_29 : pcE 2746 cram16D cram16C0 cram16Tab 40 100000000000000000 39625 1255 = true := by decide +kernel
theorem cram16_E_30 : pcE 2746 cram16D cram16C0 cram16Tab 40 100000000000000000 42135 1255 = true := by decide +kernel
theorem cram16_E_31 : pcE 2746 cram16D cram16C0 cram16Tab 40 100000000000000000 44645 1255 = true := by decide +kernel
theorem cram16_E_32 : pcE 2746 cram16D cram16C0 cram16Tab 40 100000000000000000 47574 1674 = true := by decide +kernel
theorem cram16_E_33 : pcE 2746 cram16D cram16C0 cram16Tab 40 100000000000000000 50503 1255 = true := by decide +kernel
theorem cram16_E_34 : pcE 2746 cram16D cram16C0 cram16Tab 40 100000000000000000 53432 1674 = true := by decide +kernel
theorem cram16_E_35 : pcE 2746 cram16D cram16C0 cram16Tab 40 100000000000000000 56780 1674 = true := by decide +kernel
theorem cram16_E_36 : pcE 2746 cram16D cram16C0 cram16Tab 40 100000000000000000 59709 1255 = true := by decide +kernel
theorem cram16_E_37 : pcE 2746 cram16D cram16C0 cram16Tab 40 100000000000000000 62638 1674 = true := by decide +kernel
theorem cram16_E_38 : pcE 2746 cram16D cram16C0 cram16Tab 40 100000000000000000 65986 1674 = true := by decide +kernel
theorem cram16_E_39 : pcE 2746 cram16D cram16C0 cram16Tab 40 100000000000000000 68915 1255 = true := by decide +kernel
theorem cram16_E_40 : pcE 2746 cram16D cram16C0 cram16Tab 40 100000000000000000 71844 1674 = true := by decide +kernel
theorem cram16_E_41 : pcE 2746 cram16D cram16C0 cram16Tab 40 100000000000000000 75750 2232 = true := by decide +kernel
theorem cram16_E_42 : pcE 2746 cram16D cram16C0 cram16Tab 40 100000000000000000 79656 1674 = true := by decide +kernel
theorem cram16_E_43 : pcE 2746 cram16D cram16C0 cram16Tab 40 100000000000000000 83562 2232 = true := by decide +kernel
theorem cram16_E_44 : pcE 2746 cram16D cram16C0 cram16Tab 40 100000000000000000 88026 2232 = true := by decide +kernel
theorem cram16_E_45 : pcE 2746 cram16D cram16C0 cram16Tab 40 100000000000000000 91932 1674 = true := by decide +kernel
theorem cram16_E_46 : pcE 2746 cram16D cram16C0 cram16Tab 40 100000000000000000 95280 1674 = true := by decide +kernel
theorem cram16_E_47 : pcE 2746 cram16D cram16C0 cram16Tab 40 100000000000000000 99186 2232 = true := by decide +kernel
theorem cram16_E_48 : pcE 2746 cram16D cram16C0 cram16Tab 40 100000000000000000 104394 2976 = true := by decide +kernel
theorem cram16_E_49 : pcE 2746 cram16D cram16C0 cram16Tab 40 100000000000000000 109044 1674 = true := by decide +kernel
theorem cram16_E_50 : pcE 2746 cram16D cram16C0 cram16Tab 40 100000000000000000 112950 2232 = true := by decide +kernel
theorem cram16_E_51 : pcE 2746 cram16D cram16C0 cram16Tab 40 100000000000000000 118158 2976 = true := by decide +kernel
theorem cram16_E_52 : pcE 2746 cram16D cram16C0 cram16Tab 40 100000000000000000 124110 2976 = true := by decide +kernel
theorem cram16_E_53 : pcE 2746 cram16D cram16C0 cram16Tab 40 100000000000000000 129318 2232 = true := by decide +kernel
theorem cram16_E_54 : pcE 2746 cram16D cram16C0 cram16Tab 40 100000000000000000 133782 2232 = true := by decide +kernel
theorem cram16_E_55 : pcE 2746 cram16D cram16C0 cram16Tab 40 100000000000000000 139983 3969 = true := by decide +kernel
theorem cram16_E_56 : pcE 2746 cram16D cram16C0 cram16Tab 40 100000000000000000 147921 3969 = true := by decide +kernel
theorem cram16_E_57 : pcE 2746 cram16D cram16C0 cram16Tab 40 100000000000000000 154122 2232 = true := by decide +kernel
theorem cram16_E_58 : pcE 2746 cram16D cram16C0 cram16Tab 40 100000000000000000 159330 2976 = true := by decide +kernel
theorem cram16_E_c0 : Covered (pcE 2746 cram16D cram16C0 cram16Tab 40 100000000000000000) 0 102 :=
  Covered.piece 51 cram16_E_0 (by decide +kernel)
theorem cram16_E_c1 : Covered (pcE 2746 cram16D cram16C0 cram16Tab 40 100000000000000000) 0 272 :=
  cram16_E_c0.trans (Covered.piece 85 cram16_E_1 (by decide +kernel)) (by decide)
theorem cram16_E_c2 : Covered (pcE 2746 cram16D cram16C0 cram16Tab 40 100000000000000000) 0 558 :=
  cram16_E_c1.trans (Covered.piece 143 cram16_E_2 (by decide +kernel)) (by decide)
theorem cram16_E_c3 : Covered (pcE 2746 cram16D cram16C0 cram16Tab 40 100000000000000000) 0 918 :=
  cram16_E_c2.trans (Covered.piece 180 cram16_E_3 (by decide +kernel)) (by decide)
theorem cram16_E_c4 : Covered (pcE 2746 cram16D cram16C0 cram16Tab 40 100000000000000000) 0 1372 :=
  cram16_E_c3.trans (Covered.piece 227 cram16_E_4 (by decide +kernel)) (by decide)
theorem cram16_E_c5 : Covered (pcE 2746 cram16D cram16C0 cram16Tab 40 100000000000000000) 0 1944 :=
  cram16_E_c4.trans (Covered.piece 286 cram16_E_5 (by decide +kernel)) (by decide)
theorem cram16_E_c6 : Covered (pcE 2746 cram16D cram16C0 cram16Tab 40 100000000000000000) 0 2484 :=
  cram16_E_c5.trans (Covered.piece 270 cram16_E_6 (by decide +kernel)) (by decide)
theorem cram16_E_c7 : Covered (pcE 2746 cram16D cram16C0 cram16Tab 40 100000000000000000) 0 3394 :=
  cram16_E_c6.trans (Covered.piece 455 cram16_E_7 (by decide +kernel)) (by decide)
theorem cram16_E_c8 : Covered (pcE 2746 cram16D cram16C0 cram16Tab 40 100000000000000000) 0 4256 :=
  cram16_E_c7.trans (Covered.piece 431 cram16_E_8 (by decide +kernel)) (by decide)
theorem cram16_E_c9 : Covered (pcE 2746 cram16D cram16C0 cram16Tab 40 100000000000000000) 0 5344 :=
  cram16_E_c8.trans (Covered.piece 544 cram16_E_9 (by decide +kernel)) (by decide)
theorem cram16_E_c10 : Covered (pcE 2746 cram16D cram16C0 cram16Tab 40 100000000000000000) 0 6376 :=
  cram16_E_c9.trans (Covered.piece 516 cram16_E_10 (by decide +kernel)) (by decide)
theorem cram16_E_c11 : Covered (pcE 2746 cram16D cram16C0 cram16Tab 40 100000000000000000) 0 7354 :=
  cram16_E_c10.trans (Covered.piece 489 cram16_E_11 (by decide +kernel)) (by decide)
theorem cram16_E_c12 : Covered (pcE 2746 cram16D cram16C0 cram16Tab 40 100000000000000000) 0 8590 :=
  cram16_E_c11.trans (Covered.piece 618 cram16_E_12 (by decide +kernel)) (by decide)
theorem cram16_E_c13 : Covered (pcE 2746 cram16D cram16C0 cram16Tab 40 100000000000000000) 0 9760 :=
  cram16_E_c12.trans (Covered.piece 585 cram16_E_13 (by decide +kernel)) (by decide)
theorem cram16_E_c14 : Covered (pcE 2746 cram16D cram16C0 cram16Tab 40 100000000000000000) 0 10870 :=
  cram16_E_c13.trans (Covered.piece 555 cram16_E_14 (by decide +kernel)) (by decide)
theorem cram16_E_c15 : Covered (pcE 2746 cram16D cram16C0 cram16Tab 40 100000000000000000) 0 12274 :=
  cram16_E_c14.trans (Covered.piece 702 cram16_E_15 (by decide +kernel)) (by decide)
theorem cram16_E_c16 : Covered (pcE 2746 cram16D cram16C0 cram16Tab 40 100000000000000000) 0 13606 :=
  cram16_E_c15.trans (Covered.piece 666 cram16_E_16 (by decide +kernel)) (by decide)
theorem cram16_E_c17 : Covered (pcE 2746 cram16D cram16C0 cram16Tab 40 100000000000000000) 0 15290 :=
  cram16_E_c16.trans (Covered.piece 842 cram16_E_17 (by decide +kernel)) (by decide)
theorem cram16_E_c18 : Covered (pcE 2746 cram16D cram16C0 cram16Tab 40 100000000000000000) 0 16886 :=
  cram16_E_c17.trans (Covered.piece 798 cram16_E_18 (by decide +kernel)) (by decide)
theorem cram16_E_c19 : Covered (pcE 2746 cram16D cram16C0 cram16Tab 40 100000000000000000) 0 18904 :=
  cram16_E_c18.trans (Covered.piece 1009 cram16_E_19 (by decide +kernel)) (by decide)
theorem cram16_E_c20 : Covered (pcE 2746 cram16D cram16C0 cram16Tab 40 100000000000000000) 0 20786 :=
  cram16_E_c19.trans (Covered.piece 941 cram16_E_20 (by decide +kernel)) (by decide)
theorem cram16_E_c21 : Covered (pcE 2746 cram16D cram16C0 cram16Tab 40 100000000000000000) 0 22570 :=
  cram16_E_c20.trans (Covered.piece 892 cram16_E_21 (by decide +kernel)) (by decide)
theorem cram16_E_c22 : Covered (pcE 2746 cram16D cram16C0 cram16Tab 40 100000000000000000) 0 24826 :=
  cram16_E_c21.trans (Covered.piece 1128 cram16_E_22 (by decide +kernel)) (by decide)
theorem cram16_E_c23 : Covered (pcE 2746 cram16D cram16C0 cram16Tab 40 100000000000000000) 0 27336 :=
  cram16_E_c22.trans (Covered.piece 1255 cram16_E_23 (by decide +kernel)) (by decide)
theorem cram16_E_c24 : Covered (pcE 2746 cram16D cram16C0 cram16Tab 40 100000000000000000) 0 29218 :=
  cram16_E_c23.trans (Covered.piece 941 cram16_E_24 (by decide +kernel)) (by decide)
theorem cram16_E_c25 : Covered (pcE 2746 cram16D cram16C0 cram16Tab 40 100000000000000000) 0 31598 :=
  cram16_E_c24.trans (Covered.piece 1190 cram16_E_25 (by decide +kernel)) (by decide)
theorem cram16_E_c26 : Covered (pcE 2746 cram16D cram16C0 cram16Tab 40 100000000000000000) 0 33480 :=
  cram16_E_c25.trans (Covered.piece 941 cram16_E_26 (by decide +kernel)) (by decide)
theorem cram16_E_c27 : Covered (pcE 2746 cram16D cram16C0 cram16Tab 40 100000000000000000) 0 35860 :=
  cram16_E_c26.trans (Covered.piece 1190 cram16_E_27 (by decide +kernel)) (by decide)
theorem cram16_E_c28 : Covered (pcE 2746 cram16D cram16C0 cram16Tab 40 100000000000000000) 0 38370 :=
  cram16_E_c27.trans (Covered.piece 1255 cram16_E_28 (by decide +kernel)) (by decide)
theorem cram16_E_c29 : Covered (pcE 2746 cram16D cram16C0 cram16Tab 40 100000000000000000) 0 40880 :=
  cram16_E_c28.trans (Covered.piece 1255 cram16_E_29 (by decide +kernel)) (by decide)
theorem cram16_E_c30 : Covered (pcE 2746 cram16D cram16C0 cram16Tab 40 100000000000000000) 0 43390 :=
  cram16_E_c29.trans (Covered.piece 1255 cram16_E_30 (by decide +kernel)) (by decide)
theorem cram16_E_c31 : Covered (pcE 2746 cram16D cram16C0 cram16Tab 40 100000000000000000) 0 45900 :=
  cram16_E_c30.trans (Covered.piece 1255 cram16_E_31 (by decide +kernel)) (by decide)
theorem cram16_E_c32 : Covered (pcE 2746 cram16D cram16C0 cram16Tab 40 100000000000000000) 0 49248 :=
  cram16_E_c31.trans (Covered.piece 1674 cram16_E_32 (by decide +kernel)) (by decide)
theorem cram16_E_c33 : Covered (pcE 2746 cram16D cram16C0 cram16Tab 40 100000000000000000) 0 51758 :=
  cram16_E_c32.trans (Covered.piece 1255 cram16_E_33 (by decide +kernel)) (by decide)
theorem cram16_E_c34 : Covered (pcE 2746 cram16D cram16C0 cram16Tab 40 100000000000000000) 0 55106 :=
  cram16_E_c33.trans (Covered.piece 1674 cram16_E_34 (by decide +kernel)) (by decide)
theorem cram16_E_c35 : Covered (pcE 2746 cram16D cram16C0 cram16Tab 40 100000000000000000) 0 58454 :=
  cram16_E_c34.trans (Covered.piece 1674 cram16_E_35 (by decide +kernel)) (by decide)
theorem cram16_E_c36 : Covered (pcE 2746 cram16D cram16C0 cram16Tab 40 100000000000000000) 0 60964 :=
  cram16_E_c35.trans (Covered.piece 1255 cram16_E_36 (by decide +kernel)) (by decide)
theorem cram16_E_c37 : Covered (pcE 2746 cram16D cram16C0 cram16Tab 40 100000000000000000) 0 64312 :=
  cram16_E_c36.trans (Covered.piece 1674 cram16_E_37 (by decide +kernel)) (by decide)
theorem cram16_E_c38 : Covered (pcE 2746 cram16D cram16C0 cram16Tab 40 100000000000000000) 0 67660 :=
  cram16_E_c37.trans (Covered.piece 1674 cram16_E_38 (by decide +kernel)) (by decide)
theorem cram16_E_c39 : Covered (pcE 2746 cram16D cram16C0 cram16Tab 40 100000000000000000) 0 70170 :=
  cram16_E_c38.trans (Covered.piece 1255 cram16_E_39 (by decide +kernel)) (by decide)
theorem cram16_E_c40 : Covered (pcE 2746 cram16D cram16C0 cram16Tab 40 100000000000000000) 0 73518 :=
  cram16_E_c39.trans (Covered.piece 1674 cram16_E_40 (by decide +kernel)) (by decide)
theorem cram16_E_c41 : Covered (pcE 2746 cram16D cram16C0 cram16Tab 40 100000000000000000) 0 77982 :=
  cram16_E_c40.trans (Covered.piece 2232 cram16_E_41 (by decide +kernel)) (by decide)
theorem cram16_E_c42 : Covered (pcE 2746 cram16D cram16C0 cram16Tab 40 100000000000000000) 0 81330 :=
  cram16_E_c41.trans (Covered.piece 1674 cram16_E_42 (by decide +kernel)) (by decide)
theorem cram16_E_c43 : Covered (pcE 2746 cram16D cram16C0 cram16Tab 40 100000000000000000) 0 85794 :=
  cram16_E_c42.trans (Covered.piece 2232 cram16_E_43 (by decide +kernel)) (by decide)
theorem cram16_E_c44 : Covered (pcE 2746 cram16D cram16C0 cram16Tab 40 100000000000000000) 0 90258 :=
  cram16_E_c43.trans (Covered.piece 2232 cram16_E_44 (by decide +kernel)) (by decide)
theorem cram16_E_c45 : Covered (pcE 2746 cram16D cram16C0 cram16Tab 40 100000000000000000) 0 93606 :=
  cram16_E_c44.trans (Covered.piece 1674 cram16_E_45 (by decide +kernel)) (by decide)
theorem cram16_E_c46 : Covered (pcE 2746 cram16D cram16C0 cram16Tab 40 100000000000000000) 0 96954 :=
  cram16_E_c45.trans (Covered.piece 1674 cram16_E_46 (by decide +kernel)) (by decide)
theorem cram16_E_c47 : Covered (pcE 2746 cram16D cram16C0 cram16Tab 40 100000000000000000) 0 101418 :=
  cram16_E_c46.trans (Covered.piece 2232 cram16_E_47 (by decide +kernel)) (by decide)
theorem cram16_E_c48 : Covered (pcE 2746 cram16D cram16C0 cram16Tab 40 100000000000000000) 0 107370 :=
  cram16_E_c47.trans (Covered.piece 2976 cram16_E_48 (by decide +kernel)) (by decide)
theorem cram16_E_c49 : Covered (pcE 2746 cram16D cram16C0 cram16Tab 40 100000000000000000) 0 110718 :=
  cram16_E_c48.trans (Covered.piece 1674 cram16_E_49 (by decide +kernel)) (by decide)
theorem cram16_E_c50 : Covered (pcE 2746 cram16D cram16C0 cram16Tab 40 100000000000000000) 0 115182 :=
  cram16_E_c49.trans (Covered.piece 2232 cram16_E_50 (by decide +kernel)) (by decide)
theorem cram16_E_c51 : Covered (pcE 2746 cram16D cram16C0 cram16Tab 40 100000000000000000) 0 121134 :=
  cram16_E_c50.trans (Covered.piece 2976 cram16_E_51 (by decide +kernel)) (by decide)
theorem cram16_E_c52 : Covered (pcE 2746 cram16D cram16C0 cram16Tab 40 100000000000000000) 0 127086 :=
  cram16_E_c51.trans (Covered.piece 2976 cram16_E_52 (by decide +kernel)) (by decide)
theorem cram16_E_c53 : Covered (pcE 2746 cram16D cram16C0 cram16Tab 40 100000000000000000) 0 131550 :=
  cram16_E_c52.trans (Covered.piece 2232 cram16_E_53 (by decide +kernel)) (by decide)
theorem cram16_E_c54 : Covered (pcE 2746 cram16D cram16C0 cram16Tab 40 100000000000000000) 0 136014 :=
  cram16_E_c53.trans (Covered.piece 2232 cram16_E_54 (by decide +kernel)) (by decide)
theorem cram16_E_c55 : Covered (pcE 2746 cram16D cram16C0 cram16Tab 40 100000000000000000) 0 143952 :=
  cram16_E_c54.trans (Covered.piece 3969 cram16_E_55 (by decide +kernel)) (by decide)
theorem cram16_E_c56 : Covered (pcE 2746 cram16D cram16C0 cram16Tab 40 100000000000000000) 0 151890 :=
  cram16_E_c55.trans (Covered.piece 3969 cram16_E_56 (by decide +kernel)) (by decide)
theorem cram16_E_c57 : Covered (pcE 2746 cram16D cram16C0 cram16Tab 40 100000000000000000) 0 156354 :=
  cram16_E_c56.trans (Covered.piece 2232 cram16_E_57 (by decide +kernel)) (by decide)
theorem cram16_E_c58 : Covered (pcE 2746 cram16D cram16C0 cram16Tab 40 100000000000000000) 0 162306 :=
  cram16_E_c57.trans (Covered.piece 2976 cram16_E_58 (by decide +kernel)) (by decide)
theorem cram16_T_0 : pcT 2746 cram16D cram16C0 cram16Tab 39 100000000000000000 8 8 = true := by decide +kernel
theorem cram16_T_1 : pcT 2746 cram16D cram16C0 cram16Tab 39 100000000000000000 29 13 = true := by decide +kernel
theorem cram16_T_2 : pcT 2746 cram16D cram16C0 cram16Tab 39 100000000000000000 63 21 = true := by decide +kernel
theorem cram16_T_3 : pcT 2746 cram16D cram16C0 cram16Tab 39 100000000000000000 110 26 = true := by decide +kernel
theorem cram16_T_4 : pcT 2746 cram16D cram16C0 cram16Tab 39 100000000000000000 168 32 = true := by decide +kernel
theorem cram16_T_5 : pcT 2746 cram16D cram16C0 cram16Tab 39 100000000000000000 240 40 = true := by decide +kernel
theorem cram16_T_6 : pcT 2746 cram16D cram16C0 cram16Tab 39 100000000000000000 317 37 = true := by decide +kernel
theorem cram16_T_7 : pcT 2746 cram16D cram16C0 cram16Tab 39 100000000000000000 400 46 = true := by decide +kernel
theorem cram16_T_8 : pcT 2746 cram16D cram16C0 cram16Tab 39 100000000000000000 503 57 = true := by decide +kernel
theorem cram16_T_9 : pcT 2746 cram16D cram16C0 cram16Tab 39 100000000000000000 614 54 = true := by decide +kernel
theorem cram16_T_10 : pcT 2746 cram16D cram16C0 cram16Tab 39 100000000000000000 735 67 = true := by decide +kernel
theorem cram16_T_11 : pcT 2746 cram16D cram16C0 cram16Tab 39 100000000000000000 886 84 = true := by decide +kernel
theorem cram16_T_12 : pcT 2746 cram16D cram16C0 cram16Tab 39 100000000000000000 1048 78 = true := by decide +kernel
theorem cram16_T_13 : pcT 2746 cram16D cram16C0 cram16Tab 39 100000000000000000 1199 73 = true := by decide +kernel
theorem cram16_T_14 : pcT 2746 cram16D cram16C0 cram16Tab 39 100000000000000000 1341 69 = true := by decide +kernel
theorem cram16_T_15 : pcT 2746 cram16D cram16C0 cram16Tab 39 100000000000000000 1497 87 = true := by decide +kernel
theorem cram16_T_16 : pcT 2746 cram16D cram16C0 cram16Tab 39 100000000000000000 1665 81 = true := by decide +kernel
theorem cram16_T_c0 : Covered (pcT 2746 cram16D cram16C0 cram16Tab 39 100000000000000000) 0 16 :=
  Covered.piece 8 cram16_T_0 (by decide +kernel)
theorem cram16_T_c1 : Covered (pcT 2746 cram16D cram16C0 cram16Tab 39 100000000000000000) 0 42 :=
  cram16_T_c0.trans (Covered.piece 13 cram16_T_1 (by decide +kernel)) (by decide)
theorem cram16_T_c2 : Covered (pcT 2746 cram16D cram16C0 cram16Tab 39 100000000000000000) 0 84 :=
  cram16_T_c1.trans (Covered.piece 21 cram16_T_2 (by decide +kernel)) (by decide)
theorem cram16_T_c3 : Covered (pcT 2746 cram16D cram16C0 cram16Tab 39 100000000000000000) 0 136 :=
  cram16_T_c2.trans (Covered.piece 26 cram16_T_3 (by decide +kernel)) (by decide)
theorem cram16_T_c4 : Covered (pcT 2746 cram16D cram16C0 cram16Tab 39 100000000000000000) 0 200 :=
  cram16_T_c3.trans (Covered.piece 32 cram16_T_4 (by decide +kernel)) (by decide)
theorem cram16_T_c5 : Covered (pcT 2746 cram16D cram16C0 cram16Tab 39 100000000000000000) 0 280 :=
  cram16_T_c4.trans (Covered.piece 40 cram16_T_5 (by decide +kernel)) (by decide)
theorem cram16_T_c6 : Covered (pcT 2746 cram16D cram16C0 cram16Tab 39 100000000000000000) 0 354 :=
  cram16_T_c5.trans (Covered.piece 37 cram16_T_6 (by decide +kernel)) (by decide)
theorem cram16_T_c7 : Covered (pcT 2746 cram16D cram16C0 cram16Tab 39 100000000000000000) 0 446 :=
  cram16_T_c6.trans (Covered.piece 46 cram16_T_7 (by decide +kernel)) (by decide)
theorem cram16_T_c8 : Covered (pcT 2746 cram16D cram16C0 cram16Tab 39 100000000000000000) 0 560 :=
  cram16_T_c7.trans (Covered.piece 57 cram16_T_8 (by decide +kernel)) (by decide)
theorem cram16_T_c9 : Covered (pcT 2746 cram16D cram16C0 cram16Tab 39 100000000000000000) 0 668 :=
  cram16_T_c8.trans (Covered.piece 54 cram16_T_9 (by decide +kernel)) (by decide)
theorem cram16_T_c10 : Covered (pcT 2746 cram16D cram16C0 cram16Tab 39 100000000000000000) 0 802 :=
  cram16_T_c9.trans (Covered.piece 67 cram16_T_10 (by decide +kernel)) (by decide)
theorem cram16_T_c11 : Covered (pcT 2746 cram16D cram16C0 cram16Tab 39 100000000000000000) 0 970 :=
  cram16_T_c10.trans (Covered.piece 84 cram16_T_11 (by decide +kernel)) (by decide)
theorem cram16_T_c12 : Covered (pcT 2746 cram16D cram16C0 cram16Tab 39 100000000000000000) 0 1126 :=
  cram16_T_c11.trans (Covered.piece 78 cram16_T_12 (by decide +kernel)) (by decide)
theorem cram16_T_c13 : Covered (pcT 2746 cram16D cram16C0 cram16Tab 39 100000000000000000) 0 1272 :=
  cram16_T_c12.trans (Covered.piece 73 cram16_T_13 (by decide +kernel)) (by decide)
theorem cram16_T_c14 : Covered (pcT 2746 cram16D cram16C0 cram16Tab 39 100000000000000000) 0 1410 :=
  cram16_T_c13.trans (Covered.piece 69 cram16_T_14 (by decide +kernel)) (by decide)
theorem cram16_T_c15 : Covered (pcT 2746 cram16D cram16C0 cram16Tab 39 100000000000000000) 0 1584 :=
  cram16_T_c14.trans (Covered.piece 87 cram16_T_15 (by decide +kernel)) (by decide)
theorem cram16_T_c16 : Covered (pcT 2746 cram16D cram16C0 cram16Tab 39 100000000000000000) 0 1746 :=
  cram16_T_c15.trans (Covered.piece 81 cram16_T_16 (by decide +kernel)) (by decide)
theorem cram16_sideE : sideE 40 100000000000000000 39 162306 1746 = true := by decide +kernel
theorem cram16_exp (x : ℝ) (hx : x ≤ 0) :
    |rVal cram16D cram16C0 cram16Tab x - Real.exp x| ≤ (40 : ℕ) / (100000000000000000 : ℕ) + 1 / 10 ^ 23 :=
  exp_sound cram16_side cram16_sideE cram16_E_c58 cram16_T_c16 x hx
theorem cram16_P1_0 : pcPF 4516 cram16D cram16Tab 1 1 25000000000000 705 705 = true := by decide +kernel
theorem cram16_P1_1 : pcPF 4516 cram16D cram16Tab 1 1 25000000000000 3525 2115 = true := by decide +kernel
theorem cram16_P1_c0 : Covered (pcPF 4516 cram16D cram16Tab 1 1 25000000000000) 0 1410 :=
  Covered.piece 705 cram16_P1_0 (by decide +kernel)
theorem cram16_P1_c1 : Covered (pcPF 4516 cram16D cram16Tab 1 1 25000000000000) 0 5640 :=
  cram16_P1_c0.trans (Covered.piece 2115 cram16_P1_1 (by decide +kernel)) (by decide)
theorem cram16_phi1 (x : ℝ) (hx : x ≤ 0) (hx1 : -1 ≤ x) :
    |rVal cram16D 0 (divTab cram16D cram16Tab 1) x - phi 1 x| ≤ (1 : ℕ) / (25000000000000 : ℕ) + 1 / 10 ^ 23 :=
  phi_sound cram16_side (by norm_num) (by norm_num) cram16_P1_c1 x hx hx1
theorem cram16_P2_0 : pcPF 6434 cram16D cram16Tab 2 1 1250000000000 1674 1674 = true := by decide +kernel
theorem cram16_P2_1 : pcPF 6434 cram16D cram16Tab 2 1 1250000000000 6324 2976 = true := by decide +kernel
theorem cram16_P2_c0 : Covered (pcPF 6434 cram16D cram16Tab 2 1 1250000000000) 0 3348 :=
  Covered.piece 1674 cram16_P2_0 (by decide +kernel)
theorem cram16_P2_c1 : Covered (pcPF 6434 cram16D cram16Tab 2 1 1250000000000) 0 9300 :=
  cram16_P2_c0.trans (Covered.piece 2976 cram16_P2_1 (by decide +kernel)) (by decide)
theorem cram16_phi2 (x : ℝ) (hx : x ≤ 0) (hx1 : -1 ≤ x) :
    |rVal cram16D 0 (divTab cram16D cram16Tab 2) x - phi 2 x| ≤ (1 : ℕ) / (1250000000000 : ℕ) + 1 / 10 ^ 23 :=
  phi_sound cram16_side (by norm_num) (by norm_num) cram16_P2_c1 x hx hx1

end Ormatex.Props.Cert
