import Verif.Props.PfdCertQ

/-!
Certificates for the damping of the shipped Pade tables with denominator of higher degree: the rational function is at most `1/2`
on `(-∞, -1]` (checked by the kernel with the verified checker of `Props/PfdPoly.lean`).
-/

namespace Ormatex.Props.Cert
open Ormatex Ormatex.Spec

/-- the pieces of the tail alone, on `(-∞, -1]` -/
theorem tail_sound {bits : ℕ} {D C0 : ℤ} {tab : List RTerm} {en ed W : ℕ} (hside : sideTab D tab = true) (hed : 0 < ed)
    (hW : 65536 < W) (hT : Covered (pcT bits D C0 tab en ed) 0 W) (x : ℝ) (hx : x ≤ -1) : |rVal D C0 tab x| ≤ en / ed := by
  unfold sideTab at hside
  simp only [Bool.and_eq_true, decide_eq_true_eq, List.all_eq_true] at hside
  obtain ⟨⟨hD, ht⟩, hlen⟩ := hside
  have hW' : (65536 : ℝ) < W := by exact_mod_cast hW
  have hx0 : x < 0 := by linarith
  obtain ⟨m, H, h1, h2, _⟩ := hT (65536 / x) (by
    simp only [Nat.cast_zero, neg_zero]; exact div_nonpos_of_nonneg_of_nonpos (by norm_num) hx0.le) (by
    rw [lt_div_iff_of_neg hx0]; nlinarith)
  rw [pcT, forceN_eq] at h1
  exact pieceT_sound hD ht hlen hed h1 x hx0 h2

theorem p1_2_T_0 : pcT 177 p1_2D p1_2C0 p1_2Tab 1 2 8748 8748 = true := by decide +kernel
theorem p1_2_T_1 : pcT 177 p1_2D p1_2C0 p1_2Tab 1 2 28567 11071 = true := by decide +kernel
theorem p1_2_T_2 : pcT 177 p1_2D p1_2C0 p1_2Tab 1 2 47518 7880 = true := by decide +kernel
theorem p1_2_T_3 : pcT 177 p1_2D p1_2C0 p1_2Tab 1 2 61007 5609 = true := by decide +kernel
theorem p1_2_T_c0 : Covered (pcT 177 p1_2D p1_2C0 p1_2Tab 1 2) 0 17496 :=
  Covered.piece 8748 p1_2_T_0 (by decide +kernel)
theorem p1_2_T_c1 : Covered (pcT 177 p1_2D p1_2C0 p1_2Tab 1 2) 0 39638 :=
  p1_2_T_c0.trans (Covered.piece 11071 p1_2_T_1 (by decide +kernel)) (by decide)
theorem p1_2_T_c2 : Covered (pcT 177 p1_2D p1_2C0 p1_2Tab 1 2) 0 55398 :=
  p1_2_T_c1.trans (Covered.piece 7880 p1_2_T_2 (by decide +kernel)) (by decide)
theorem p1_2_T_c3 : Covered (pcT 177 p1_2D p1_2C0 p1_2Tab 1 2) 0 66616 :=
  p1_2_T_c2.trans (Covered.piece 5609 p1_2_T_3 (by decide +kernel)) (by decide)
theorem p1_2_tail (x : ℝ) (hx : x ≤ -1) : |rVal p1_2D p1_2C0 p1_2Tab x| ≤ (1 : ℕ) / (2 : ℕ) :=
  tail_sound p1_2_side (by norm_num) (by norm_num) p1_2_T_c3 x hx
theorem p3_4_T_0 : pcT 310 p3_4D p3_4C0 p3_4Tab 1 2 2075 2075 = true := by decide +kernel
theorem p3_4_T_1 : pcT 310 p3_4D p3_4C0 p3_4Tab 1 2 7651 3501 = true := by decide +kernel
theorem p3_4_T_2 : pcT 310 p3_4D p3_4C0 p3_4Tab 1 2 15582 4430 = true := by decide +kernel
theorem p3_4_T_3 : pcT 310 p3_4D p3_4C0 p3_4Tab 1 2 24216 4204 = true := by decide +kernel
theorem p3_4_T_4 : pcT 310 p3_4D p3_4C0 p3_4Tab 1 2 32410 3990 = true := by decide +kernel
theorem p3_4_T_5 : pcT 310 p3_4D p3_4C0 p3_4Tab 1 2 40186 3786 = true := by decide +kernel
theorem p3_4_T_6 : pcT 310 p3_4D p3_4C0 p3_4Tab 1 2 47565 3593 = true := by decide +kernel
theorem p3_4_T_7 : pcT 310 p3_4D p3_4C0 p3_4Tab 1 2 53715 2557 = true := by decide +kernel
theorem p3_4_T_8 : pcT 310 p3_4D p3_4C0 p3_4Tab 1 2 58698 2426 = true := by decide +kernel
theorem p3_4_T_9 : pcT 310 p3_4D p3_4C0 p3_4Tab 1 2 63425 2301 = true := by decide +kernel
theorem p3_4_T_c0 : Covered (pcT 310 p3_4D p3_4C0 p3_4Tab 1 2) 0 4150 :=
  Covered.piece 2075 p3_4_T_0 (by decide +kernel)
theorem p3_4_T_c1 : Covered (pcT 310 p3_4D p3_4C0 p3_4Tab 1 2) 0 11152 :=
  p3_4_T_c0.trans (Covered.piece 3501 p3_4_T_1 (by decide +kernel)) (by decide)
theorem p3_4_T_c2 : Covered (pcT 310 p3_4D p3_4C0 p3_4Tab 1 2) 0 20012 :=
  p3_4_T_c1.trans (Covered.piece 4430 p3_4_T_2 (by decide +kernel)) (by decide)
theorem p3_4_T_c3 : Covered (pcT 310 p3_4D p3_4C0 p3_4Tab 1 2) 0 28420 :=
  p3_4_T_c2.trans (Covered.piece 4204 p3_4_T_3 (by decide +kernel)) (by decide)
theorem p3_4_T_c4 : Covered (pcT 310 p3_4D p3_4C0 p3_4Tab 1 2) 0 36400 :=
  p3_4_T_c3.trans (Covered.piece 3990 p3_4_T_4 (by decide +kernel)) (by decide)
theorem p3_4_T_c5 : Covered (pcT 310 p3_4D p3_4C0 p3_4Tab 1 2) 0 43972 :=
  p3_4_T_c4.trans (Covered.piece 3786 p3_4_T_5 (by decide +kernel)) (by decide)
theorem p3_4_T_c6 : Covered (pcT 310 p3_4D p3_4C0 p3_4Tab 1 2) 0 51158 :=
  p3_4_T_c5.trans (Covered.piece 3593 p3_4_T_6 (by decide +kernel)) (by decide)
theorem p3_4_T_c7 : Covered (pcT 310 p3_4D p3_4C0 p3_4Tab 1 2) 0 56272 :=
  p3_4_T_c6.trans (Covered.piece 2557 p3_4_T_7 (by decide +kernel)) (by decide)
theorem p3_4_T_c8 : Covered (pcT 310 p3_4D p3_4C0 p3_4Tab 1 2) 0 61124 :=
  p3_4_T_c7.trans (Covered.piece 2426 p3_4_T_8 (by decide +kernel)) (by decide)
theorem p3_4_T_c9 : Covered (pcT 310 p3_4D p3_4C0 p3_4Tab 1 2) 0 65726 :=
  p3_4_T_c8.trans (Covered.piece 2301 p3_4_T_9 (by decide +kernel)) (by decide)
theorem p3_4_tail (x : ℝ) (hx : x ≤ -1) : |rVal p3_4D p3_4C0 p3_4Tab x| ≤ (1 : ℕ) / (2 : ℕ) :=
  tail_sound p3_4_side (by norm_num) (by norm_num) p3_4_T_c9 x hx
theorem p5_6_T_0 : pcT 446 p5_6D p5_6C0 p5_6Tab 1 2 1167 1167 = true := by decide +kernel
theorem p5_6_T_1 : pcT 446 p5_6D p5_6C0 p5_6Tab 1 2 3810 1476 = true := by decide +kernel
theorem p5_6_T_2 : pcT 446 p5_6D p5_6C0 p5_6Tab 1 2 6686 1400 = true := by decide +kernel
theorem p5_6_T_3 : pcT 446 p5_6D p5_6C0 p5_6Tab 1 2 9857 1771 = true := by decide +kernel
theorem p5_6_T_4 : pcT 446 p5_6D p5_6C0 p5_6Tab 1 2 13869 2241 = true := by decide +kernel
theorem p5_6_T_5 : pcT 446 p5_6D p5_6C0 p5_6Tab 1 2 18236 2126 = true := by decide +kernel
theorem p5_6_T_6 : pcT 446 p5_6D p5_6C0 p5_6Tab 1 2 23052 2690 = true := by decide +kernel
theorem p5_6_T_7 : pcT 446 p5_6D p5_6C0 p5_6Tab 1 2 28295 2553 = true := by decide +kernel
theorem p5_6_T_8 : pcT 446 p5_6D p5_6C0 p5_6Tab 1 2 33271 2423 = true := by decide +kernel
theorem p5_6_T_9 : pcT 446 p5_6D p5_6C0 p5_6Tab 1 2 37993 2299 = true := by decide +kernel
theorem p5_6_T_10 : pcT 446 p5_6D p5_6C0 p5_6Tab 1 2 42473 2181 = true := by decide +kernel
theorem p5_6_T_11 : pcT 446 p5_6D p5_6C0 p5_6Tab 1 2 46724 2070 = true := by decide +kernel
theorem p5_6_T_12 : pcT 446 p5_6D p5_6C0 p5_6Tab 1 2 50758 1964 = true := by decide +kernel
theorem p5_6_T_13 : pcT 446 p5_6D p5_6C0 p5_6Tab 1 2 54585 1863 = true := by decide +kernel
theorem p5_6_T_14 : pcT 446 p5_6D p5_6C0 p5_6Tab 1 2 58215 1767 = true := by decide +kernel
theorem p5_6_T_15 : pcT 446 p5_6D p5_6C0 p5_6Tab 1 2 61658 1676 = true := by decide +kernel
theorem p5_6_T_16 : pcT 446 p5_6D p5_6C0 p5_6Tab 1 2 64924 1590 = true := by decide +kernel
theorem p5_6_T_c0 : Covered (pcT 446 p5_6D p5_6C0 p5_6Tab 1 2) 0 2334 :=
  Covered.piece 1167 p5_6_T_0 (by decide +kernel)
theorem p5_6_T_c1 : Covered (pcT 446 p5_6D p5_6C0 p5_6Tab 1 2) 0 5286 :=
  p5_6_T_c0.trans (Covered.piece 1476 p5_6_T_1 (by decide +kernel)) (by decide)
theorem p5_6_T_c2 : Covered (pcT 446 p5_6D p5_6C0 p5_6Tab 1 2) 0 8086 :=
  p5_6_T_c1.trans (Covered.piece 1400 p5_6_T_2 (by decide +kernel)) (by decide)
theorem p5_6_T_c3 : Covered (pcT 446 p5_6D p5_6C0 p5_6Tab 1 2) 0 11628 :=
  p5_6_T_c2.trans (Covered.piece 1771 p5_6_T_3 (by decide +kernel)) (by decide)
theorem p5_6_T_c4 : Covered (pcT 446 p5_6D p5_6C0 p5_6Tab 1 2) 0 16110 :=
  p5_6_T_c3.trans (Covered.piece 2241 p5_6_T_4 (by decide +kernel)) (by decide)
theorem p5_6_T_c5 : Covered (pcT 446 p5_6D p5_6C0 p5_6Tab 1 2) 0 20362 :=
  p5_6_T_c4.trans (Covered.piece 2126 p5_6_T_5 (by decide +kernel)) (by decide)
theorem p5_6_T_c6 : Covered (pcT 446 p5_6D p5_6C0 p5_6Tab 1 2) 0 25742 :=
  p5_6_T_c5.trans (Covered.piece 2690 p5_6_T_6 (by decide +kernel)) (by decide)
theorem p5_6_T_c7 : Covered (pcT 446 p5_6D p5_6C0 p5_6Tab 1 2) 0 30848 :=
  p5_6_T_c6.trans (Covered.piece 2553 p5_6_T_7 (by decide +kernel)) (by decide)
theorem p5_6_T_c8 : Covered (pcT 446 p5_6D p5_6C0 p5_6Tab 1 2) 0 35694 :=
  p5_6_T_c7.trans (Covered.piece 2423 p5_6_T_8 (by decide +kernel)) (by decide)
theorem p5_6_T_c9 : Covered (pcT 446 p5_6D p5_6C0 p5_6Tab 1 2) 0 40292 :=
  p5_6_T_c8.trans (Covered.piece 2299 p5_6_T_9 (by decide +kernel)) (by decide)
theorem p5_6_T_c10 : Covered (pcT 446 p5_6D p5_6C0 p5_6Tab 1 2) 0 44654 :=
  p5_6_T_c9.trans (Covered.piece 2181 p5_6_T_10 (by decide +kernel)) (by decide)
theorem p5_6_T_c11 : Covered (pcT 446 p5_6D p5_6C0 p5_6Tab 1 2) 0 48794 :=
  p5_6_T_c10.trans (Covered.piece 2070 p5_6_T_11 (by decide +kernel)) (by decide)
theorem p5_6_T_c12 : Covered (pcT 446 p5_6D p5_6C0 p5_6Tab 1 2) 0 52722 :=
  p5_6_T_c11.trans (Covered.piece 1964 p5_6_T_12 (by decide +kernel)) (by decide)
theorem p5_6_T_c13 : Covered (pcT 446 p5_6D p5_6C0 p5_6Tab 1 2) 0 56448 :=
  p5_6_T_c12.trans (Covered.piece 1863 p5_6_T_13 (by decide +kernel)) (by decide)
theorem p5_6_T_c14 : Covered (pcT 446 p5_6D p5_6C0 p5_6Tab 1 2) 0 59982 :=
  p5_6_T_c13.trans (Covered.piece 1767 p5_6_T_14 (by decide +kernel)) (by decide)
theorem p5_6_T_c15 : Covered (pcT 446 p5_6D p5_6C0 p5_6Tab 1 2) 0 63334 :=
  p5_6_T_c14.trans (Covered.piece 1676 p5_6_T_15 (by decide +kernel)) (by decide)
theorem p5_6_T_c16 : Covered (pcT 446 p5_6D p5_6C0 p5_6Tab 1 2) 0 66514 :=
  p5_6_T_c15.trans (Covered.piece 1590 p5_6_T_16 (by decide +kernel)) (by decide)
theorem p5_6_tail (x : ℝ) (hx : x ≤ -1) : |rVal p5_6D p5_6C0 p5_6Tab x| ≤ (1 : ℕ) / (2 : ℕ) :=
  tail_sound p5_6_side (by norm_num) (by norm_num) p5_6_T_c16 x hx
theorem p7_8_T_0 : pcT 586 p7_8D p7_8C0 p7_8Tab 1 2 656 656 = true := by decide +kernel
theorem p7_8_T_1 : pcT 586 p7_8D p7_8C0 p7_8Tab 1 2 1934 622 = true := by decide +kernel
theorem p7_8_T_2 : pcT 586 p7_8D p7_8C0 p7_8Tab 1 2 3342 786 = true := by decide +kernel
theorem p7_8_T_3 : pcT 586 p7_8D p7_8C0 p7_8Tab 1 2 4873 745 = true := by decide +kernel
theorem p7_8_T_4 : pcT 586 p7_8D p7_8C0 p7_8Tab 1 2 6560 942 = true := by decide +kernel
theorem p7_8_T_5 : pcT 586 p7_8D p7_8C0 p7_8Tab 1 2 8693 1191 = true := by decide +kernel
theorem p7_8_T_6 : pcT 586 p7_8D p7_8C0 p7_8Tab 1 2 11013 1129 = true := by decide +kernel
theorem p7_8_T_7 : pcT 586 p7_8D p7_8C0 p7_8Tab 1 2 13570 1428 = true := by decide +kernel
theorem p7_8_T_8 : pcT 586 p7_8D p7_8C0 p7_8Tab 1 2 16352 1354 = true := by decide +kernel
theorem p7_8_T_9 : pcT 586 p7_8D p7_8C0 p7_8Tab 1 2 19419 1713 = true := by decide +kernel
theorem p7_8_T_10 : pcT 586 p7_8D p7_8C0 p7_8Tab 1 2 22757 1625 = true := by decide +kernel
theorem p7_8_T_11 : pcT 586 p7_8D p7_8C0 p7_8Tab 1 2 25924 1542 = true := by decide +kernel
theorem p7_8_T_12 : pcT 586 p7_8D p7_8C0 p7_8Tab 1 2 29416 1950 = true := by decide +kernel
theorem p7_8_T_13 : pcT 586 p7_8D p7_8C0 p7_8Tab 1 2 33216 1850 = true := by decide +kernel
theorem p7_8_T_14 : pcT 586 p7_8D p7_8C0 p7_8Tab 1 2 36821 1755 = true := by decide +kernel
theorem p7_8_T_15 : pcT 586 p7_8D p7_8C0 p7_8Tab 1 2 40241 1665 = true := by decide +kernel
theorem p7_8_T_16 : pcT 586 p7_8D p7_8C0 p7_8Tab 1 2 43485 1579 = true := by decide +kernel
theorem p7_8_T_17 : pcT 586 p7_8D p7_8C0 p7_8Tab 1 2 46562 1498 = true := by decide +kernel
theorem p7_8_T_18 : pcT 586 p7_8D p7_8C0 p7_8Tab 1 2 49481 1421 = true := by decide +kernel
theorem p7_8_T_19 : pcT 586 p7_8D p7_8C0 p7_8Tab 1 2 52249 1347 = true := by decide +kernel
theorem p7_8_T_20 : pcT 586 p7_8D p7_8C0 p7_8Tab 1 2 54874 1278 = true := by decide +kernel
theorem p7_8_T_21 : pcT 586 p7_8D p7_8C0 p7_8Tab 1 2 57364 1212 = true := by decide +kernel
theorem p7_8_T_22 : pcT 586 p7_8D p7_8C0 p7_8Tab 1 2 59725 1149 = true := by decide +kernel
theorem p7_8_T_23 : pcT 586 p7_8D p7_8C0 p7_8Tab 1 2 61963 1089 = true := by decide +kernel
theorem p7_8_T_24 : pcT 586 p7_8D p7_8C0 p7_8Tab 1 2 64084 1032 = true := by decide +kernel
theorem p7_8_T_25 : pcT 586 p7_8D p7_8C0 p7_8Tab 1 2 66094 978 = true := by decide +kernel
theorem p7_8_T_c0 : Covered (pcT 586 p7_8D p7_8C0 p7_8Tab 1 2) 0 1312 :=
  Covered.piece 656 p7_8_T_0 (by decide +kernel)
theorem p7_8_T_c1 : Covered (pcT 586 p7_8D p7_8C0 p7_8Tab 1 2) 0 2556 :=
  p7_8_T_c0.trans (Covered.piece 622 p7_8_T_1 (by decide +kernel)) (by decide)
theorem p7_8_T_c2 : Covered (pcT 586 p7_8D p7_8C0 p7_8Tab 1 2) 0 4128 :=
  p7_8_T_c1.trans (Covered.piece 786 p7_8_T_2 (by decide +kernel)) (by decide)
theorem p7_8_T_c3 : Covered (pcT 586 p7_8D p7_8C0 p7_8Tab 1 2) 0 5618 :=
  p7_8_T_c2.trans (Covered.piece 745 p7_8_T_3 (by decide +kernel)) (by decide)
theorem p7_8_T_c4 : Covered (pcT 586 p7_8D p7_8C0 p7_8Tab 1 2) 0 7502 :=
  p7_8_T_c3.trans (Covered.piece 942 p7_8_T_4 (by decide +kernel)) (by decide)
theorem p7_8_T_c5 : Covered (pcT 586 p7_8D p7_8C0 p7_8Tab 1 2) 0 9884 :=
  p7_8_T_c4.trans (Covered.piece 1191 p7_8_T_5 (by decide +kernel)) (by decide)
theorem p7_8_T_c6 : Covered (pcT 586 p7_8D p7_8C0 p7_8Tab 1 2) 0 12142 :=
  p7_8_T_c5.trans (Covered.piece 1129 p7_8_T_6 (by decide +kernel)) (by decide)
theorem p7_8_T_c7 : Covered (pcT 586 p7_8D p7_8C0 p7_8Tab 1 2) 0 14998 :=
  p7_8_T_c6.trans (Covered.piece 1428 p7_8_T_7 (by decide +kernel)) (by decide)
theorem p7_8_T_c8 : Covered (pcT 586 p7_8D p7_8C0 p7_8Tab 1 2) 0 17706 :=
  p7_8_T_c7.trans (Covered.piece 1354 p7_8_T_8 (by decide +kernel)) (by decide)
theorem p7_8_T_c9 : Covered (pcT 586 p7_8D p7_8C0 p7_8Tab 1 2) 0 21132 :=
  p7_8_T_c8.trans (Covered.piece 1713 p7_8_T_9 (by decide +kernel)) (by decide)
theorem p7_8_T_c10 : Covered (pcT 586 p7_8D p7_8C0 p7_8Tab 1 2) 0 24382 :=
  p7_8_T_c9.trans (Covered.piece 1625 p7_8_T_10 (by decide +kernel)) (by decide)
theorem p7_8_T_c11 : Covered (pcT 586 p7_8D p7_8C0 p7_8Tab 1 2) 0 27466 :=
  p7_8_T_c10.trans (Covered.piece 1542 p7_8_T_11 (by decide +kernel)) (by decide)
theorem p7_8_T_c12 : Covered (pcT 586 p7_8D p7_8C0 p7_8Tab 1 2) 0 31366 :=
  p7_8_T_c11.trans (Covered.piece 1950 p7_8_T_12 (by decide +kernel)) (by decide)
theorem p7_8_T_c13 : Covered (pcT 586 p7_8D p7_8C0 p7_8Tab 1 2) 0 35066 :=
  p7_8_T_c12.trans (Covered.piece 1850 p7_8_T_13 (by decide +kernel)) (by decide)
theorem p7_8_T_c14 : Covered (pcT 586 p7_8D p7_8C0 p7_8Tab 1 2) 0 38576 :=
  p7_8_T_c13.trans (Covered.piece 1755 p7_8_T_14 (by decide +kernel)) (by decide)
theorem p7_8_T_c15 : Covered (pcT 586 p7_8D p7_8C0 p7_8Tab 1 2) 0 41906 :=
  p7_8_T_c14.trans (Covered.piece 1665 p7_8_T_15 (by decide +kernel)) (by decide)
theorem p7_8_T_c16 : Covered (pcT 586 p7_8D p7_8C0 p7_8Tab 1 2) 0 45064 :=
  p7_8_T_c15.trans (Covered.piece 1579 p7_8_T_16 (by decide +kernel)) (by decide)
theorem p7_8_T_c17 : Covered (pcT 586 p7_8D p7_8C0 p7_8Tab 1 2) 0 48060 :=
  p7_8_T_c16.trans (Covered.piece 1498 p7_8_T_17 (by decide +kernel)) (by decide)
theorem p7_8_T_c18 : Covered (pcT 586 p7_8D p7_8C0 p7_8Tab 1 2) 0 50902 :=
  p7_8_T_c17.trans (Covered.piece 1421 p7_8_T_18 (by decide +kernel)) (by decide)
theorem p7_8_T_c19 : Covered (pcT 586 p7_8D p7_8C0 p7_8Tab 1 2) 0 53596 :=
  p7_8_T_c18.trans (Covered.piece 1347 p7_8_T_19 (by decide +kernel)) (by decide)
theorem p7_8_T_c20 : Covered (pcT 586 p7_8D p7_8C0 p7_8Tab 1 2) 0 56152 :=
  p7_8_T_c19.trans (Covered.piece 1278 p7_8_T_20 (by decide +kernel)) (by decide)
theorem p7_8_T_c21 : Covered (pcT 586 p7_8D p7_8C0 p7_8Tab 1 2) 0 58576 :=
  p7_8_T_c20.trans (Covered.piece 1212 p7_8_T_21 (by decide +kernel)) (by decide)
theorem p7_8_T_c22 : Covered (pcT 586 p7_8D p7_8C0 p7_8Tab 1 2) 0 60874 :=
  p7_8_T_c21.trans (Covered.piece 1149 p7_8_T_22 (by decide +kernel)) (by decide)
theorem p7_8_T_c23 : Covered (pcT 586 p7_8D p7_8C0 p7_8Tab 1 2) 0 63052 :=
  p7_8_T_c22.trans (Covered.piece 1089 p7_8_T_23 (by decide +kernel)) (by decide)
theorem p7_8_T_c24 : Covered (pcT 586 p7_8D p7_8C0 p7_8Tab 1 2) 0 65116 :=
  p7_8_T_c23.trans (Covered.piece 1032 p7_8_T_24 (by decide +kernel)) (by decide)
theorem p7_8_T_c25 : Covered (pcT 586 p7_8D p7_8C0 p7_8Tab 1 2) 0 67072 :=
  p7_8_T_c24.trans (Covered.piece 978 p7_8_T_25 (by decide +kernel)) (by decide)
theorem p7_8_tail (x : ℝ) (hx : x ≤ -1) : |rVal p7_8D p7_8C0 p7_8Tab x| ≤ (1 : ℕ) / (2 : ℕ) :=
  tail_sound p7_8_side (by norm_num) (by norm_num) p7_8_T_c25 x hx
theorem p9_10_T_0 : pcT 726 p9_10D p9_10C0 p9_10Tab 1 2 369 369 = true := by decide +kernel
theorem p9_10_T_1 : pcT 726 p9_10D p9_10C0 p9_10Tab 1 2 1204 466 = true := by decide +kernel
theorem p9_10_T_2 : pcT 726 p9_10D p9_10C0 p9_10Tab 1 2 2111 441 = true := by decide +kernel
theorem p9_10_T_3 : pcT 726 p9_10D p9_10C0 p9_10Tab 1 2 3110 558 = true := by decide +kernel
theorem p9_10_T_4 : pcT 726 p9_10D p9_10C0 p9_10Tab 1 2 4196 528 = true := by decide +kernel
theorem p9_10_T_5 : pcT 726 p9_10D p9_10C0 p9_10Tab 1 2 5392 668 = true := by decide +kernel
theorem p9_10_T_6 : pcT 726 p9_10D p9_10C0 p9_10Tab 1 2 6693 633 = true := by decide +kernel
theorem p9_10_T_7 : pcT 726 p9_10D p9_10C0 p9_10Tab 1 2 8127 801 = true := by decide +kernel
theorem p9_10_T_8 : pcT 726 p9_10D p9_10C0 p9_10Tab 1 2 9687 759 = true := by decide +kernel
theorem p9_10_T_9 : pcT 726 p9_10D p9_10C0 p9_10Tab 1 2 11406 960 = true := by decide +kernel
theorem p9_10_T_10 : pcT 726 p9_10D p9_10C0 p9_10Tab 1 2 13277 911 = true := by decide +kernel
theorem p9_10_T_11 : pcT 726 p9_10D p9_10C0 p9_10Tab 1 2 15340 1152 = true := by decide +kernel
theorem p9_10_T_12 : pcT 726 p9_10D p9_10C0 p9_10Tab 1 2 17585 1093 = true := by decide +kernel
theorem p9_10_T_13 : pcT 726 p9_10D p9_10C0 p9_10Tab 1 2 20061 1383 = true := by decide +kernel
theorem p9_10_T_14 : pcT 726 p9_10D p9_10C0 p9_10Tab 1 2 22755 1311 = true := by decide +kernel
theorem p9_10_T_15 : pcT 726 p9_10D p9_10C0 p9_10Tab 1 2 25309 1243 = true := by decide +kernel
theorem p9_10_T_16 : pcT 726 p9_10D p9_10C0 p9_10Tab 1 2 28124 1572 = true := by decide +kernel
theorem p9_10_T_17 : pcT 726 p9_10D p9_10C0 p9_10Tab 1 2 31187 1491 = true := by decide +kernel
theorem p9_10_T_18 : pcT 726 p9_10D p9_10C0 p9_10Tab 1 2 34092 1414 = true := by decide +kernel
theorem p9_10_T_19 : pcT 726 p9_10D p9_10C0 p9_10Tab 1 2 36847 1341 = true := by decide +kernel
theorem p9_10_T_20 : pcT 726 p9_10D p9_10C0 p9_10Tab 1 2 39460 1272 = true := by decide +kernel
theorem p9_10_T_21 : pcT 726 p9_10D p9_10C0 p9_10Tab 1 2 41938 1206 = true := by decide +kernel
theorem p9_10_T_22 : pcT 726 p9_10D p9_10C0 p9_10Tab 1 2 44287 1143 = true := by decide +kernel
theorem p9_10_T_23 : pcT 726 p9_10D p9_10C0 p9_10Tab 1 2 46514 1084 = true := by decide +kernel
theorem p9_10_T_24 : pcT 726 p9_10D p9_10C0 p9_10Tab 1 2 48969 1371 = true := by decide +kernel
theorem p9_10_T_25 : pcT 726 p9_10D p9_10C0 p9_10Tab 1 2 51640 1300 = true := by decide +kernel
theorem p9_10_T_26 : pcT 726 p9_10D p9_10C0 p9_10Tab 1 2 54173 1233 = true := by decide +kernel
theorem p9_10_T_27 : pcT 726 p9_10D p9_10C0 p9_10Tab 1 2 56576 1170 = true := by decide +kernel
theorem p9_10_T_28 : pcT 726 p9_10D p9_10C0 p9_10Tab 1 2 58856 1110 = true := by decide +kernel
theorem p9_10_T_29 : pcT 726 p9_10D p9_10C0 p9_10Tab 1 2 61019 1053 = true := by decide +kernel
theorem p9_10_T_30 : pcT 726 p9_10D p9_10C0 p9_10Tab 1 2 63071 999 = true := by decide +kernel
theorem p9_10_T_31 : pcT 726 p9_10D p9_10C0 p9_10Tab 1 2 65017 947 = true := by decide +kernel
theorem p9_10_T_c0 : Covered (pcT 726 p9_10D p9_10C0 p9_10Tab 1 2) 0 738 :=
  Covered.piece 369 p9_10_T_0 (by decide +kernel)
theorem p9_10_T_c1 : Covered (pcT 726 p9_10D p9_10C0 p9_10Tab 1 2) 0 1670 :=
  p9_10_T_c0.trans (Covered.piece 466 p9_10_T_1 (by decide +kernel)) (by decide)
theorem p9_10_T_c2 : Covered (pcT 726 p9_10D p9_10C0 p9_10Tab 1 2) 0 2552 :=
  p9_10_T_c1.trans (Covered.piece 441 p9_10_T_2 (by decide +kernel)) (by decide)
theorem p9_10_T_c3 : Covered (pcT 726 p9_10D p9_10C0 p9_10Tab 1 2) 0 3668 :=
  p9_10_T_c2.trans (Covered.piece 558 p9_10_T_3 (by decide +kernel)) (by decide)
theorem p9_10_T_c4 : Covered (pcT 726 p9_10D p9_10C0 p9_10Tab 1 2) 0 4724 :=
  p9_10_T_c3.trans (Covered.piece 528 p9_10_T_4 (by decide +kernel)) (by decide)
theorem p9_10_T_c5 : Covered (pcT 726 p9_10D p9_10C0 p9_10Tab 1 2) 0 6060 :=
  p9_10_T_c4.trans (Covered.piece 668 p9_10_T_5 (by decide +kernel)) (by decide)
theorem p9_10_T_c6 : Covered (pcT 726 p9_10D p9_10C0 p9_10Tab 1 2) 0 7326 :=
  p9_10_T_c5.trans (Covered.piece 633 p9_10_T_6 (by decide +kernel)) (by decide)
theorem p9_10_T_c7 : Covered (pcT 726 p9_10D p9_10C0 p9_10Tab 1 2) 0 8928 :=
  p9_10_T_c6.trans (Covered.piece 801 p9_10_T_7 (by decide +kernel)) (by decide)
theorem p9_10_T_c8 : Covered (pcT 726 p9_10D p9_10C0 p9_10Tab 1 2) 0 10446 :=
  p9_10_T_c7.trans (Covered.piece 759 p9_10_T_8 (by decide +kernel)) (by decide)
theorem p9_10_T_c9 : Covered (pcT 726 p9_10D p9_10C0 p9_10Tab 1 2) 0 12366 :=
  p9_10_T_c8.trans (Covered.piece 960 p9_10_T_9 (by decide +kernel)) (by decide)
theorem p9_10_T_c10 : Covered (pcT 726 p9_10D p9_10C0 p9_10Tab 1 2) 0 14188 :=
  p9_10_T_c9.trans (Covered.piece 911 p9_10_T_10 (by decide +kernel)) (by decide)
theorem p9_10_T_c11 : Covered (pcT 726 p9_10D p9_10C0 p9_10Tab 1 2) 0 16492 :=
  p9_10_T_c10.trans (Covered.piece 1152 p9_10_T_11 (by decide +kernel)) (by decide)
theorem p9_10_T_c12 : Covered (pcT 726 p9_10D p9_10C0 p9_10Tab 1 2) 0 18678 :=
  p9_10_T_c11.trans (Covered.piece 1093 p9_10_T_12 (by decide +kernel)) (by decide)
theorem p9_10_T_c13 : Covered (pcT 726 p9_10D p9_10C0 p9_10Tab 1 2) 0 21444 :=
  p9_10_T_c12.trans (Covered.piece 1383 p9_10_T_13 (by decide +kernel)) (by decide)
theorem p9_10_T_c14 : Covered (pcT 726 p9_10D p9_10C0 p9_10Tab 1 2) 0 24066 :=
  p9_10_T_c13.trans (Covered.piece 1311 p9_10_T_14 (by decide +kernel)) (by decide)
theorem p9_10_T_c15 : Covered (pcT 726 p9_10D p9_10C0 p9_10Tab 1 2) 0 26552 :=
  p9_10_T_c14.trans (Covered.piece 1243 p9_10_T_15 (by decide +kernel)) (by decide)
theorem p9_10_T_c16 : Covered (pcT 726 p9_10D p9_10C0 p9_10Tab 1 2) 0 29696 :=
  p9_10_T_c15.trans (Covered.piece 1572 p9_10_T_16 (by decide +kernel)) (by decide)
theorem p9_10_T_c17 : Covered (pcT 726 p9_10D p9_10C0 p9_10Tab 1 2) 0 32678 :=
  p9_10_T_c16.trans (Covered.piece 1491 p9_10_T_17 (by decide +kernel)) (by decide)
theorem p9_10_T_c18 : Covered (pcT 726 p9_10D p9_10C0 p9_10Tab 1 2) 0 35506 :=
  p9_10_T_c17.trans (Covered.piece 1414 p9_10_T_18 (by decide +kernel)) (by decide)
theorem p9_10_T_c19 : Covered (pcT 726 p9_10D p9_10C0 p9_10Tab 1 2) 0 38188 :=
  p9_10_T_c18.trans (Covered.piece 1341 p9_10_T_19 (by decide +kernel)) (by decide)
theorem p9_10_T_c20 : Covered (pcT 726 p9_10D p9_10C0 p9_10Tab 1 2) 0 40732 :=
  p9_10_T_c19.trans (Covered.piece 1272 p9_10_T_20 (by decide +kernel)) (by decide)
theorem p9_10_T_c21 : Covered (pcT 726 p9_10D p9_10C0 p9_10Tab 1 2) 0 43144 :=
  p9_10_T_c20.trans (Covered.piece 1206 p9_10_T_21 (by decide +kernel)) (by decide)
theorem p9_10_T_c22 : Covered (pcT 726 p9_10D p9_10C0 p9_10Tab 1 2) 0 45430 :=
  p9_10_T_c21.trans (Covered.piece 1143 p9_10_T_22 (by decide +kernel)) (by decide)
theorem p9_10_T_c23 : Covered (pcT 726 p9_10D p9_10C0 p9_10Tab 1 2) 0 47598 :=
  p9_10_T_c22.trans (Covered.piece 1084 p9_10_T_23 (by decide +kernel)) (by decide)
theorem p9_10_T_c24 : Covered (pcT 726 p9_10D p9_10C0 p9_10Tab 1 2) 0 50340 :=
  p9_10_T_c23.trans (Covered.piece 1371 p9_10_T_24 (by decide +kernel)) (by decide)
theorem p9_10_T_c25 : Covered (pcT 726 p9_10D p9_10C0 p9_10Tab 1 2) 0 52940 :=
  p9_10_T_c24.trans (Covered.piece 1300 p9_10_T_25 (by decide +kernel)) (by decide)
theorem p9_10_T_c26 : Covered (pcT 726 p9_10D p9_10C0 p9_10Tab 1 2) 0 55406 :=
  p9_10_T_c25.trans (Covered.piece 1233 p9_10_T_26 (by decide +kernel)) (by decide)
theorem p9_10_T_c27 : Covered (pcT 726 p9_10D p9_10C0 p9_10Tab 1 2) 0 57746 :=
  p9_10_T_c26.trans (Covered.piece 1170 p9_10_T_27 (by decide +kernel)) (by decide)
theorem p9_10_T_c28 : Covered (pcT 726 p9_10D p9_10C0 p9_10Tab 1 2) 0 59966 :=
  p9_10_T_c27.trans (Covered.piece 1110 p9_10_T_28 (by decide +kernel)) (by decide)
theorem p9_10_T_c29 : Covered (pcT 726 p9_10D p9_10C0 p9_10Tab 1 2) 0 62072 :=
  p9_10_T_c28.trans (Covered.piece 1053 p9_10_T_29 (by decide +kernel)) (by decide)
theorem p9_10_T_c30 : Covered (pcT 726 p9_10D p9_10C0 p9_10Tab 1 2) 0 64070 :=
  p9_10_T_c29.trans (Covered.piece 999 p9_10_T_30 (by decide +kernel)) (by decide)
theorem p9_10_T_c31 : Covered (pcT 726 p9_10D p9_10C0 p9_10Tab 1 2) 0 65964 :=
  p9_10_T_c30.trans (Covered.piece 947 p9_10_T_31 (by decide +kernel)) (by decide)
theorem p9_10_tail (x : ℝ) (hx : x ≤ -1) : |rVal p9_10D p9_10C0 p9_10Tab x| ≤ (1 : ℕ) / (2 : ℕ) :=
  tail_sound p9_10_side (by norm_num) (by norm_num) p9_10_T_c31 x hx
theorem p11_12_T_0 : pcT 866 p11_12D p11_12C0 p11_12Tab 1 2 276 276 = true := by decide +kernel
theorem p11_12_T_1 : pcT 866 p11_12D p11_12C0 p11_12Tab 1 2 813 261 = true := by decide +kernel
theorem p11_12_T_2 : pcT 866 p11_12D p11_12C0 p11_12Tab 1 2 1404 330 = true := by decide +kernel
theorem p11_12_T_3 : pcT 866 p11_12D p11_12C0 p11_12Tab 1 2 2046 312 = true := by decide +kernel
theorem p11_12_T_4 : pcT 866 p11_12D p11_12C0 p11_12Tab 1 2 2752 394 = true := by decide +kernel
theorem p11_12_T_5 : pcT 866 p11_12D p11_12C0 p11_12Tab 1 2 3519 373 = true := by decide +kernel
theorem p11_12_T_6 : pcT 866 p11_12D p11_12C0 p11_12Tab 1 2 4363 471 = true := by decide +kernel
theorem p11_12_T_7 : pcT 866 p11_12D p11_12C0 p11_12Tab 1 2 5280 446 = true := by decide +kernel
theorem p11_12_T_8 : pcT 866 p11_12D p11_12C0 p11_12Tab 1 2 6290 564 = true := by decide +kernel
theorem p11_12_T_9 : pcT 866 p11_12D p11_12C0 p11_12Tab 1 2 7388 534 = true := by decide +kernel
theorem p11_12_T_10 : pcT 866 p11_12D p11_12C0 p11_12Tab 1 2 8597 675 = true := by decide +kernel
theorem p11_12_T_11 : pcT 866 p11_12D p11_12C0 p11_12Tab 1 2 9911 639 = true := by decide +kernel
theorem p11_12_T_12 : pcT 866 p11_12D p11_12C0 p11_12Tab 1 2 11357 807 = true := by decide +kernel
theorem p11_12_T_13 : pcT 866 p11_12D p11_12C0 p11_12Tab 1 2 12929 765 = true := by decide +kernel
theorem p11_12_T_14 : pcT 866 p11_12D p11_12C0 p11_12Tab 1 2 14661 967 = true := by decide +kernel
theorem p11_12_T_15 : pcT 866 p11_12D p11_12C0 p11_12Tab 1 2 16545 917 = true := by decide +kernel
theorem p11_12_T_16 : pcT 866 p11_12D p11_12C0 p11_12Tab 1 2 18332 870 = true := by decide +kernel
theorem p11_12_T_17 : pcT 866 p11_12D p11_12C0 p11_12Tab 1 2 20302 1100 = true := by decide +kernel
theorem p11_12_T_18 : pcT 866 p11_12D p11_12C0 p11_12Tab 1 2 22446 1044 = true := by decide +kernel
theorem p11_12_T_19 : pcT 866 p11_12D p11_12C0 p11_12Tab 1 2 24480 990 = true := by decide +kernel
theorem p11_12_T_20 : pcT 866 p11_12D p11_12C0 p11_12Tab 1 2 26722 1252 = true := by decide +kernel
theorem p11_12_T_21 : pcT 866 p11_12D p11_12C0 p11_12Tab 1 2 29162 1188 = true := by decide +kernel
theorem p11_12_T_22 : pcT 866 p11_12D p11_12C0 p11_12Tab 1 2 31477 1127 = true := by decide +kernel
theorem p11_12_T_23 : pcT 866 p11_12D p11_12C0 p11_12Tab 1 2 33672 1068 = true := by decide +kernel
theorem p11_12_T_24 : pcT 866 p11_12D p11_12C0 p11_12Tab 1 2 35753 1013 = true := by decide +kernel
theorem p11_12_T_25 : pcT 866 p11_12D p11_12C0 p11_12Tab 1 2 38047 1281 = true := by decide +kernel
theorem p11_12_T_26 : pcT 866 p11_12D p11_12C0 p11_12Tab 1 2 40543 1215 = true := by decide +kernel
theorem p11_12_T_27 : pcT 866 p11_12D p11_12C0 p11_12Tab 1 2 42910 1152 = true := by decide +kernel
theorem p11_12_T_28 : pcT 866 p11_12D p11_12C0 p11_12Tab 1 2 45155 1093 = true := by decide +kernel
theorem p11_12_T_29 : pcT 866 p11_12D p11_12C0 p11_12Tab 1 2 47285 1037 = true := by decide +kernel
theorem p11_12_T_30 : pcT 866 p11_12D p11_12C0 p11_12Tab 1 2 49305 983 = true := by decide +kernel
theorem p11_12_T_31 : pcT 866 p11_12D p11_12C0 p11_12Tab 1 2 51220 932 = true := by decide +kernel
theorem p11_12_T_32 : pcT 866 p11_12D p11_12C0 p11_12Tab 1 2 53036 884 = true := by decide +kernel
theorem p11_12_T_33 : pcT 866 p11_12D p11_12C0 p11_12Tab 1 2 54758 838 = true := by decide +kernel
theorem p11_12_T_34 : pcT 866 p11_12D p11_12C0 p11_12Tab 1 2 56390 794 = true := by decide +kernel
theorem p11_12_T_35 : pcT 866 p11_12D p11_12C0 p11_12Tab 1 2 57937 753 = true := by decide +kernel
theorem p11_12_T_36 : pcT 866 p11_12D p11_12C0 p11_12Tab 1 2 59404 714 = true := by decide +kernel
theorem p11_12_T_37 : pcT 866 p11_12D p11_12C0 p11_12Tab 1 2 60795 677 = true := by decide +kernel
theorem p11_12_T_38 : pcT 866 p11_12D p11_12C0 p11_12Tab 1 2 62328 856 = true := by decide +kernel
theorem p11_12_T_39 : pcT 866 p11_12D p11_12C0 p11_12Tab 1 2 63996 812 = true := by decide +kernel
theorem p11_12_T_40 : pcT 866 p11_12D p11_12C0 p11_12Tab 1 2 65578 770 = true := by decide +kernel
theorem p11_12_T_c0 : Covered (pcT 866 p11_12D p11_12C0 p11_12Tab 1 2) 0 552 :=
  Covered.piece 276 p11_12_T_0 (by decide +kernel)
theorem p11_12_T_c1 : Covered (pcT 866 p11_12D p11_12C0 p11_12Tab 1 2) 0 1074 :=
  p11_12_T_c0.trans (Covered.piece 261 p11_12_T_1 (by decide +kernel)) (by decide)
theorem p11_12_T_c2 : Covered (pcT 866 p11_12D p11_12C0 p11_12Tab 1 2) 0 1734 :=
  p11_12_T_c1.trans (Covered.piece 330 p11_12_T_2 (by decide +kernel)) (by decide)
theorem p11_12_T_c3 : Covered (pcT 866 p11_12D p11_12C0 p11_12Tab 1 2) 0 2358 :=
  p11_12_T_c2.trans (Covered.piece 312 p11_12_T_3 (by decide +kernel)) (by decide)
theorem p11_12_T_c4 : Covered (pcT 866 p11_12D p11_12C0 p11_12Tab 1 2) 0 3146 :=
  p11_12_T_c3.trans (Covered.piece 394 p11_12_T_4 (by decide +kernel)) (by decide)
theorem p11_12_T_c5 : Covered (pcT 866 p11_12D p11_12C0 p11_12Tab 1 2) 0 3892 :=
  p11_12_T_c4.trans (Covered.piece 373 p11_12_T_5 (by decide +kernel)) (by decide)
theorem p11_12_T_c6 : Covered (pcT 866 p11_12D p11_12C0 p11_12Tab 1 2) 0 4834 :=
  p11_12_T_c5.trans (Covered.piece 471 p11_12_T_6 (by decide +kernel)) (by decide)
theorem p11_12_T_c7 : Covered (pcT 866 p11_12D p11_12C0 p11_12Tab 1 2) 0 5726 :=
  p11_12_T_c6.trans (Covered.piece 446 p11_12_T_7 (by decide +kernel)) (by decide)
theorem p11_12_T_c8 : Covered (pcT 866 p11_12D p11_12C0 p11_12Tab 1 2) 0 6854 :=
  p11_12_T_c7.trans (Covered.piece 564 p11_12_T_8 (by decide +kernel)) (by decide)
theorem p11_12_T_c9 : Covered (pcT 866 p11_12D p11_12C0 p11_12Tab 1 2) 0 7922 :=
  p11_12_T_c8.trans (Covered.piece 534 p11_12_T_9 (by decide +kernel)) (by decide)
theorem p11_12_T_c10 : Covered (pcT 866 p11_12D p11_12C0 p11_12Tab 1 2) 0 9272 :=
  p11_12_T_c9.trans (Covered.piece 675 p11_12_T_10 (by decide +kernel)) (by decide)
theorem p11_12_T_c11 : Covered (pcT 866 p11_12D p11_12C0 p11_12Tab 1 2) 0 10550 :=
  p11_12_T_c10.trans (Covered.piece 639 p11_12_T_11 (by decide +kernel)) (by decide)
theorem p11_12_T_c12 : Covered (pcT 866 p11_12D p11_12C0 p11_12Tab 1 2) 0 12164 :=
  p11_12_T_c11.trans (Covered.piece 807 p11_12_T_12 (by decide +kernel)) (by decide)
theorem p11_12_T_c13 : Covered (pcT 866 p11_12D p11_12C0 p11_12Tab 1 2) 0 13694 :=
  p11_12_T_c12.trans (Covered.piece 765 p11_12_T_13 (by decide +kernel)) (by decide)
theorem p11_12_T_c14 : Covered (pcT 866 p11_12D p11_12C0 p11_12Tab 1 2) 0 15628 :=
  p11_12_T_c13.trans (Covered.piece 967 p11_12_T_14 (by decide +kernel)) (by decide)
theorem p11_12_T_c15 : Covered (pcT 866 p11_12D p11_12C0 p11_12Tab 1 2) 0 17462 :=
  p11_12_T_c14.trans (Covered.piece 917 p11_12_T_15 (by decide +kernel)) (by decide)
theorem p11_12_T_c16 : Covered (pcT 866 p11_12D p11_12C0 p11_12Tab 1 2) 0 19202 :=
  p11_12_T_c15.trans (Covered.piece 870 p11_12_T_16 (by decide +kernel)) (by decide)
theorem p11_12_T_c17 : Covered (pcT 866 p11_12D p11_12C0 p11_12Tab 1 2) 0 21402 :=
  p11_12_T_c16.trans (Covered.piece 1100 p11_12_T_17 (by decide +kernel)) (by decide)
theorem p11_12_T_c18 : Covered (pcT 866 p11_12D p11_12C0 p11_12Tab 1 2) 0 23490 :=
  p11_12_T_c17.trans (Covered.piece 1044 p11_12_T_18 (by decide +kernel)) (by decide)
theorem p11_12_T_c19 : Covered (pcT 866 p11_12D p11_12C0 p11_12Tab 1 2) 0 25470 :=
  p11_12_T_c18.trans (Covered.piece 990 p11_12_T_19 (by decide +kernel)) (by decide)
theorem p11_12_T_c20 : Covered (pcT 866 p11_12D p11_12C0 p11_12Tab 1 2) 0 27974 :=
  p11_12_T_c19.trans (Covered.piece 1252 p11_12_T_20 (by decide +kernel)) (by decide)
theorem p11_12_T_c21 : Covered (pcT 866 p11_12D p11_12C0 p11_12Tab 1 2) 0 30350 :=
  p11_12_T_c20.trans (Covered.piece 1188 p11_12_T_21 (by decide +kernel)) (by decide)
theorem p11_12_T_c22 : Covered (pcT 866 p11_12D p11_12C0 p11_12Tab 1 2) 0 32604 :=
  p11_12_T_c21.trans (Covered.piece 1127 p11_12_T_22 (by decide +kernel)) (by decide)
theorem p11_12_T_c23 : Covered (pcT 866 p11_12D p11_12C0 p11_12Tab 1 2) 0 34740 :=
  p11_12_T_c22.trans (Covered.piece 1068 p11_12_T_23 (by decide +kernel)) (by decide)
theorem p11_12_T_c24 : Covered (pcT 866 p11_12D p11_12C0 p11_12Tab 1 2) 0 36766 :=
  p11_12_T_c23.trans (Covered.piece 1013 p11_12_T_24 (by decide +kernel)) (by decide)
theorem p11_12_T_c25 : Covered (pcT 866 p11_12D p11_12C0 p11_12Tab 1 2) 0 39328 :=
  p11_12_T_c24.trans (Covered.piece 1281 p11_12_T_25 (by decide +kernel)) (by decide)
theorem p11_12_T_c26 : Covered (pcT 866 p11_12D p11_12C0 p11_12Tab 1 2) 0 41758 :=
  p11_12_T_c25.trans (Covered.piece 1215 p11_12_T_26 (by decide +kernel)) (by decide)
theorem p11_12_T_c27 : Covered (pcT 866 p11_12D p11_12C0 p11_12Tab 1 2) 0 44062 :=
  p11_12_T_c26.trans (Covered.piece 1152 p11_12_T_27 (by decide +kernel)) (by decide)
theorem p11_12_T_c28 : Covered (pcT 866 p11_12D p11_12C0 p11_12Tab 1 2) 0 46248 :=
  p11_12_T_c27.trans (Covered.piece 1093 p11_12_T_28 (by decide +kernel)) (by decide)
theorem p11_12_T_c29 : Covered (pcT 866 p11_12D p11_12C0 p11_12Tab 1 2) 0 48322 :=
  p11_12_T_c28.trans (Covered.piece 1037 p11_12_T_29 (by decide +kernel)) (by decide)
theorem p11_12_T_c30 : Covered (pcT 866 p11_12D p11_12C0 p11_12Tab 1 2) 0 50288 :=
  p11_12_T_c29.trans (Covered.piece 983 p11_12_T_30 (by decide +kernel)) (by decide)
theorem p11_12_T_c31 : Covered (pcT 866 p11_12D p11_12C0 p11_12Tab 1 2) 0 52152 :=
  p11_12_T_c30.trans (Covered.piece 932 p11_12_T_31 (by decide +kernel)) (by decide)
theorem p11_12_T_c32 : Covered (pcT 866 p11_12D p11_12C0 p11_12Tab 1 2) 0 53920 :=
  p11_12_T_c31.trans (Covered.piece 884 p11_12_T_32 (by decide +kernel)) (by decide)
theorem p11_12_T_c33 : Covered (pcT 866 p11_12D p11_12C0 p11_12Tab 1 2) 0 55596 :=
  p11_12_T_c32.trans (Covered.piece 838 p11_12_T_33 (by decide +kernel)) (by decide)
theorem p11_12_T_c34 : Covered (pcT 866 p11_12D p11_12C0 p11_12Tab 1 2) 0 57184 :=
  p11_12_T_c33.trans (Covered.piece 794 p11_12_T_34 (by decide +kernel)) (by decide)
theorem p11_12_T_c35 : Covered (pcT 866 p11_12D p11_12C0 p11_12Tab 1 2) 0 58690 :=
  p11_12_T_c34.trans (Covered.piece 753 p11_12_T_35 (by decide +kernel)) (by decide)
theorem p11_12_T_c36 : Covered (pcT 866 p11_12D p11_12C0 p11_12Tab 1 2) 0 60118 :=
  p11_12_T_c35.trans (Covered.piece 714 p11_12_T_36 (by decide +kernel)) (by decide)
theorem p11_12_T_c37 : Covered (pcT 866 p11_12D p11_12C0 p11_12Tab 1 2) 0 61472 :=
  p11_12_T_c36.trans (Covered.piece 677 p11_12_T_37 (by decide +kernel)) (by decide)
theorem p11_12_T_c38 : Covered (pcT 866 p11_12D p11_12C0 p11_12Tab 1 2) 0 63184 :=
  p11_12_T_c37.trans (Covered.piece 856 p11_12_T_38 (by decide +kernel)) (by decide)
theorem p11_12_T_c39 : Covered (pcT 866 p11_12D p11_12C0 p11_12Tab 1 2) 0 64808 :=
  p11_12_T_c38.trans (Covered.piece 812 p11_12_T_39 (by decide +kernel)) (by decide)
theorem p11_12_T_c40 : Covered (pcT 866 p11_12D p11_12C0 p11_12Tab 1 2) 0 66348 :=
  p11_12_T_c39.trans (Covered.piece 770 p11_12_T_40 (by decide +kernel)) (by decide)
theorem p11_12_tail (x : ℝ) (hx : x ≤ -1) : |rVal p11_12D p11_12C0 p11_12Tab x| ≤ (1 : ℕ) / (2 : ℕ) :=
  tail_sound p11_12_side (by norm_num) (by norm_num) p11_12_T_c40 x hx
theorem p13_14_T_0 : pcT 1006 p13_14D p13_14C0 p13_14Tab 1 2 207 207 = true := by decide +kernel
theorem p13_14_T_1 : pcT 1006 p13_14D p13_14C0 p13_14Tab 1 2 609 195 = true := by decide +kernel
theorem p13_14_T_2 : pcT 1006 p13_14D p13_14C0 p13_14Tab 1 2 1050 246 = true := by decide +kernel
theorem p13_14_T_3 : pcT 1006 p13_14D p13_14C0 p13_14Tab 1 2 1528 232 = true := by decide +kernel
theorem p13_14_T_4 : pcT 1006 p13_14D p13_14C0 p13_14Tab 1 2 1979 219 = true := by decide +kernel
theorem p13_14_T_5 : pcT 1006 p13_14D p13_14C0 p13_14Tab 1 2 2474 276 = true := by decide +kernel
theorem p13_14_T_6 : pcT 1006 p13_14D p13_14C0 p13_14Tab 1 2 3011 261 = true := by decide +kernel
theorem p13_14_T_7 : pcT 1006 p13_14D p13_14C0 p13_14Tab 1 2 3602 330 = true := by decide +kernel
theorem p13_14_T_8 : pcT 1006 p13_14D p13_14C0 p13_14Tab 1 2 4244 312 = true := by decide +kernel
theorem p13_14_T_9 : pcT 1006 p13_14D p13_14C0 p13_14Tab 1 2 4950 394 = true := by decide +kernel
theorem p13_14_T_10 : pcT 1006 p13_14D p13_14C0 p13_14Tab 1 2 5717 373 = true := by decide +kernel
theorem p13_14_T_11 : pcT 1006 p13_14D p13_14C0 p13_14Tab 1 2 6561 471 = true := by decide +kernel
theorem p13_14_T_12 : pcT 1006 p13_14D p13_14C0 p13_14Tab 1 2 7478 446 = true := by decide +kernel
theorem p13_14_T_13 : pcT 1006 p13_14D p13_14C0 p13_14Tab 1 2 8488 564 = true := by decide +kernel
theorem p13_14_T_14 : pcT 1006 p13_14D p13_14C0 p13_14Tab 1 2 9586 534 = true := by decide +kernel
theorem p13_14_T_15 : pcT 1006 p13_14D p13_14C0 p13_14Tab 1 2 10795 675 = true := by decide +kernel
theorem p13_14_T_16 : pcT 1006 p13_14D p13_14C0 p13_14Tab 1 2 12109 639 = true := by decide +kernel
theorem p13_14_T_17 : pcT 1006 p13_14D p13_14C0 p13_14Tab 1 2 13353 605 = true := by decide +kernel
theorem p13_14_T_18 : pcT 1006 p13_14D p13_14C0 p13_14Tab 1 2 14723 765 = true := by decide +kernel
theorem p13_14_T_19 : pcT 1006 p13_14D p13_14C0 p13_14Tab 1 2 16213 725 = true := by decide +kernel
theorem p13_14_T_20 : pcT 1006 p13_14D p13_14C0 p13_14Tab 1 2 17855 917 = true := by decide +kernel
theorem p13_14_T_21 : pcT 1006 p13_14D p13_14C0 p13_14Tab 1 2 19642 870 = true := by decide +kernel
theorem p13_14_T_22 : pcT 1006 p13_14D p13_14C0 p13_14Tab 1 2 21337 825 = true := by decide +kernel
theorem p13_14_T_23 : pcT 1006 p13_14D p13_14C0 p13_14Tab 1 2 23206 1044 = true := by decide +kernel
theorem p13_14_T_24 : pcT 1006 p13_14D p13_14C0 p13_14Tab 1 2 25240 990 = true := by decide +kernel
theorem p13_14_T_25 : pcT 1006 p13_14D p13_14C0 p13_14Tab 1 2 27169 939 = true := by decide +kernel
theorem p13_14_T_26 : pcT 1006 p13_14D p13_14C0 p13_14Tab 1 2 28999 891 = true := by decide +kernel
theorem p13_14_T_27 : pcT 1006 p13_14D p13_14C0 p13_14Tab 1 2 31017 1127 = true := by decide +kernel
theorem p13_14_T_28 : pcT 1006 p13_14D p13_14C0 p13_14Tab 1 2 33212 1068 = true := by decide +kernel
theorem p13_14_T_29 : pcT 1006 p13_14D p13_14C0 p13_14Tab 1 2 35293 1013 = true := by decide +kernel
theorem p13_14_T_30 : pcT 1006 p13_14D p13_14C0 p13_14Tab 1 2 37266 960 = true := by decide +kernel
theorem p13_14_T_31 : pcT 1006 p13_14D p13_14C0 p13_14Tab 1 2 39137 911 = true := by decide +kernel
theorem p13_14_T_32 : pcT 1006 p13_14D p13_14C0 p13_14Tab 1 2 40912 864 = true := by decide +kernel
theorem p13_14_T_33 : pcT 1006 p13_14D p13_14C0 p13_14Tab 1 2 42595 819 = true := by decide +kernel
theorem p13_14_T_34 : pcT 1006 p13_14D p13_14C0 p13_14Tab 1 2 44449 1035 = true := by decide +kernel
theorem p13_14_T_35 : pcT 1006 p13_14D p13_14C0 p13_14Tab 1 2 46465 981 = true := by decide +kernel
theorem p13_14_T_36 : pcT 1006 p13_14D p13_14C0 p13_14Tab 1 2 48376 930 = true := by decide +kernel
theorem p13_14_T_37 : pcT 1006 p13_14D p13_14C0 p13_14Tab 1 2 50188 882 = true := by decide +kernel
theorem p13_14_T_38 : pcT 1006 p13_14D p13_14C0 p13_14Tab 1 2 51907 837 = true := by decide +kernel
theorem p13_14_T_39 : pcT 1006 p13_14D p13_14C0 p13_14Tab 1 2 53538 794 = true := by decide +kernel
theorem p13_14_T_40 : pcT 1006 p13_14D p13_14C0 p13_14Tab 1 2 55085 753 = true := by decide +kernel
theorem p13_14_T_41 : pcT 1006 p13_14D p13_14C0 p13_14Tab 1 2 56552 714 = true := by decide +kernel
theorem p13_14_T_42 : pcT 1006 p13_14D p13_14C0 p13_14Tab 1 2 57943 677 = true := by decide +kernel
theorem p13_14_T_43 : pcT 1006 p13_14D p13_14C0 p13_14Tab 1 2 59262 642 = true := by decide +kernel
theorem p13_14_T_44 : pcT 1006 p13_14D p13_14C0 p13_14Tab 1 2 60513 609 = true := by decide +kernel
theorem p13_14_T_45 : pcT 1006 p13_14D p13_14C0 p13_14Tab 1 2 61699 577 = true := by decide +kernel
theorem p13_14_T_46 : pcT 1006 p13_14D p13_14C0 p13_14Tab 1 2 63005 729 = true := by decide +kernel
theorem p13_14_T_47 : pcT 1006 p13_14D p13_14C0 p13_14Tab 1 2 64425 691 = true := by decide +kernel
theorem p13_14_T_48 : pcT 1006 p13_14D p13_14C0 p13_14Tab 1 2 65770 654 = true := by decide +kernel
theorem p13_14_T_c0 : Covered (pcT 1006 p13_14D p13_14C0 p13_14Tab 1 2) 0 414 :=
  Covered.piece 207 p13_14_T_0 (by decide +kernel)
theorem p13_14_T_c1 : Covered (pcT 1006 p13_14D p13_14C0 p13_14Tab 1 2) 0 804 :=
  p13_14_T_c0.trans (Covered.piece 195 p13_14_T_1 (by decide +kernel)) (by decide)
theorem p13_14_T_c2 : Covered (pcT 1006 p13_14D p13_14C0 p13_14Tab 1 2) 0 1296 :=
  p13_14_T_c1.trans (Covered.piece 246 p13_14_T_2 (by decide +kernel)) (by decide)
theorem p13_14_T_c3 : Covered (pcT 1006 p13_14D p13_14C0 p13_14Tab 1 2) 0 1760 :=
  p13_14_T_c2.trans (Covered.piece 232 p13_14_T_3 (by decide +kernel)) (by decide)
theorem p13_14_T_c4 : Covered (pcT 1006 p13_14D p13_14C0 p13_14Tab 1 2) 0 2198 :=
  p13_14_T_c3.trans (Covered.piece 219 p13_14_T_4 (by decide +kernel)) (by decide)
theorem p13_14_T_c5 : Covered (pcT 1006 p13_14D p13_14C0 p13_14Tab 1 2) 0 2750 :=
  p13_14_T_c4.trans (Covered.piece 276 p13_14_T_5 (by decide +kernel)) (by decide)
theorem p13_14_T_c6 : Covered (pcT 1006 p13_14D p13_14C0 p13_14Tab 1 2) 0 3272 :=
  p13_14_T_c5.trans (Covered.piece 261 p13_14_T_6 (by decide +kernel)) (by decide)
theorem p13_14_T_c7 : Covered (pcT 1006 p13_14D p13_14C0 p13_14Tab 1 2) 0 3932 :=
  p13_14_T_c6.trans (Covered.piece 330 p13_14_T_7 (by decide +kernel)) (by decide)
theorem p13_14_T_c8 : Covered (pcT 1006 p13_14D p13_14C0 p13_14Tab 1 2) 0 4556 :=
  p13_14_T_c7.trans (Covered.piece 312 p13_14_T_8 (by decide +kernel)) (by decide)
theorem p13_14_T_c9 : Covered (pcT 1006 p13_14D p13_14C0 p13_14Tab 1 2) 0 5344 :=
  p13_14_T_c8.trans (Covered.piece 394 p13_14_T_9 (by decide +kernel)) (by decide)
theorem p13_14_T_c10 : Covered (pcT 1006 p13_14D p13_14C0 p13_14Tab 1 2) 0 6090 :=
  p13_14_T_c9.trans (Covered.piece 373 p13_14_T_10 (by decide +kernel)) (by decide)
theorem p13_14_T_c11 : Covered (pcT 1006 p13_14D p13_14C0 p13_14Tab 1 2) 0 7032 :=
  p13_14_T_c10.trans (Covered.piece 471 p13_14_T_11 (by decide +kernel)) (by decide)
theorem p13_14_T_c12 : Covered (pcT 1006 p13_14D p13_14C0 p13_14Tab 1 2) 0 7924 :=
  p13_14_T_c11.trans (Covered.piece 446 p13_14_T_12 (by decide +kernel)) (by decide)
theorem p13_14_T_c13 : Covered (pcT 1006 p13_14D p13_14C0 p13_14Tab 1 2) 0 9052 :=
  p13_14_T_c12.trans (Covered.piece 564 p13_14_T_13 (by decide +kernel)) (by decide)
theorem p13_14_T_c14 : Covered (pcT 1006 p13_14D p13_14C0 p13_14Tab 1 2) 0 10120 :=
  p13_14_T_c13.trans (Covered.piece 534 p13_14_T_14 (by decide +kernel)) (by decide)
theorem p13_14_T_c15 : Covered (pcT 1006 p13_14D p13_14C0 p13_14Tab 1 2) 0 11470 :=
  p13_14_T_c14.trans (Covered.piece 675 p13_14_T_15 (by decide +kernel)) (by decide)
theorem p13_14_T_c16 : Covered (pcT 1006 p13_14D p13_14C0 p13_14Tab 1 2) 0 12748 :=
  p13_14_T_c15.trans (Covered.piece 639 p13_14_T_16 (by decide +kernel)) (by decide)
theorem p13_14_T_c17 : Covered (pcT 1006 p13_14D p13_14C0 p13_14Tab 1 2) 0 13958 :=
  p13_14_T_c16.trans (Covered.piece 605 p13_14_T_17 (by decide +kernel)) (by decide)
theorem p13_14_T_c18 : Covered (pcT 1006 p13_14D p13_14C0 p13_14Tab 1 2) 0 15488 :=
  p13_14_T_c17.trans (Covered.piece 765 p13_14_T_18 (by decide +kernel)) (by decide)
theorem p13_14_T_c19 : Covered (pcT 1006 p13_14D p13_14C0 p13_14Tab 1 2) 0 16938 :=
  p13_14_T_c18.trans (Covered.piece 725 p13_14_T_19 (by decide +kernel)) (by decide)
theorem p13_14_T_c20 : Covered (pcT 1006 p13_14D p13_14C0 p13_14Tab 1 2) 0 18772 :=
  p13_14_T_c19.trans (Covered.piece 917 p13_14_T_20 (by decide +kernel)) (by decide)
theorem p13_14_T_c21 : Covered (pcT 1006 p13_14D p13_14C0 p13_14Tab 1 2) 0 20512 :=
  p13_14_T_c20.trans (Covered.piece 870 p13_14_T_21 (by decide +kernel)) (by decide)
theorem p13_14_T_c22 : Covered (pcT 1006 p13_14D p13_14C0 p13_14Tab 1 2) 0 22162 :=
  p13_14_T_c21.trans (Covered.piece 825 p13_14_T_22 (by decide +kernel)) (by decide)
theorem p13_14_T_c23 : Covered (pcT 1006 p13_14D p13_14C0 p13_14Tab 1 2) 0 24250 :=
  p13_14_T_c22.trans (Covered.piece 1044 p13_14_T_23 (by decide +kernel)) (by decide)
theorem p13_14_T_c24 : Covered (pcT 1006 p13_14D p13_14C0 p13_14Tab 1 2) 0 26230 :=
  p13_14_T_c23.trans (Covered.piece 990 p13_14_T_24 (by decide +kernel)) (by decide)
theorem p13_14_T_c25 : Covered (pcT 1006 p13_14D p13_14C0 p13_14Tab 1 2) 0 28108 :=
  p13_14_T_c24.trans (Covered.piece 939 p13_14_T_25 (by decide +kernel)) (by decide)
theorem p13_14_T_c26 : Covered (pcT 1006 p13_14D p13_14C0 p13_14Tab 1 2) 0 29890 :=
  p13_14_T_c25.trans (Covered.piece 891 p13_14_T_26 (by decide +kernel)) (by decide)
theorem p13_14_T_c27 : Covered (pcT 1006 p13_14D p13_14C0 p13_14Tab 1 2) 0 32144 :=
  p13_14_T_c26.trans (Covered.piece 1127 p13_14_T_27 (by decide +kernel)) (by decide)
theorem p13_14_T_c28 : Covered (pcT 1006 p13_14D p13_14C0 p13_14Tab 1 2) 0 34280 :=
  p13_14_T_c27.trans (Covered.piece 1068 p13_14_T_28 (by decide +kernel)) (by decide)
theorem p13_14_T_c29 : Covered (pcT 1006 p13_14D p13_14C0 p13_14Tab 1 2) 0 36306 :=
  p13_14_T_c28.trans (Covered.piece 1013 p13_14_T_29 (by decide +kernel)) (by decide)
theorem p13_14_T_c30 : Covered (pcT 1006 p13_14D p13_14C0 p13_14Tab 1 2) 0 38226 :=
  p13_14_T_c29.trans (Covered.piece 960 p13_14_T_30 (by decide +kernel)) (by decide)
theorem p13_14_T_c31 : Covered (pcT 1006 p13_14D p13_14C0 p13_14Tab 1 2) 0 40048 :=
  p13_14_T_c30.trans (Covered.piece 911 p13_14_T_31 (by decide +kernel)) (by decide)
theorem p13_14_T_c32 : Covered (pcT 1006 p13_14D p13_14C0 p13_14Tab 1 2) 0 41776 :=
  p13_14_T_c31.trans (Covered.piece 864 p13_14_T_32 (by decide +kernel)) (by decide)
theorem p13_14_T_c33 : Covered (pcT 1006 p13_14D p13_14C0 p13_14Tab 1 2) 0 43414 :=
  p13_14_T_c32.trans (Covered.piece 819 p13_14_T_33 (by decide +kernel)) (by decide)
theorem p13_14_T_c34 : Covered (pcT 1006 p13_14D p13_14C0 p13_14Tab 1 2) 0 45484 :=
  p13_14_T_c33.trans (Covered.piece 1035 p13_14_T_34 (by decide +kernel)) (by decide)
theorem p13_14_T_c35 : Covered (pcT 1006 p13_14D p13_14C0 p13_14Tab 1 2) 0 47446 :=
  p13_14_T_c34.trans (Covered.piece 981 p13_14_T_35 (by decide +kernel)) (by decide)
theorem p13_14_T_c36 : Covered (pcT 1006 p13_14D p13_14C0 p13_14Tab 1 2) 0 49306 :=
  p13_14_T_c35.trans (Covered.piece 930 p13_14_T_36 (by decide +kernel)) (by decide)
theorem p13_14_T_c37 : Covered (pcT 1006 p13_14D p13_14C0 p13_14Tab 1 2) 0 51070 :=
  p13_14_T_c36.trans (Covered.piece 882 p13_14_T_37 (by decide +kernel)) (by decide)
theorem p13_14_T_c38 : Covered (pcT 1006 p13_14D p13_14C0 p13_14Tab 1 2) 0 52744 :=
  p13_14_T_c37.trans (Covered.piece 837 p13_14_T_38 (by decide +kernel)) (by decide)
theorem p13_14_T_c39 : Covered (pcT 1006 p13_14D p13_14C0 p13_14Tab 1 2) 0 54332 :=
  p13_14_T_c38.trans (Covered.piece 794 p13_14_T_39 (by decide +kernel)) (by decide)
theorem p13_14_T_c40 : Covered (pcT 1006 p13_14D p13_14C0 p13_14Tab 1 2) 0 55838 :=
  p13_14_T_c39.trans (Covered.piece 753 p13_14_T_40 (by decide +kernel)) (by decide)
theorem p13_14_T_c41 : Covered (pcT 1006 p13_14D p13_14C0 p13_14Tab 1 2) 0 57266 :=
  p13_14_T_c40.trans (Covered.piece 714 p13_14_T_41 (by decide +kernel)) (by decide)
theorem p13_14_T_c42 : Covered (pcT 1006 p13_14D p13_14C0 p13_14Tab 1 2) 0 58620 :=
  p13_14_T_c41.trans (Covered.piece 677 p13_14_T_42 (by decide +kernel)) (by decide)
theorem p13_14_T_c43 : Covered (pcT 1006 p13_14D p13_14C0 p13_14Tab 1 2) 0 59904 :=
  p13_14_T_c42.trans (Covered.piece 642 p13_14_T_43 (by decide +kernel)) (by decide)
theorem p13_14_T_c44 : Covered (pcT 1006 p13_14D p13_14C0 p13_14Tab 1 2) 0 61122 :=
  p13_14_T_c43.trans (Covered.piece 609 p13_14_T_44 (by decide +kernel)) (by decide)
theorem p13_14_T_c45 : Covered (pcT 1006 p13_14D p13_14C0 p13_14Tab 1 2) 0 62276 :=
  p13_14_T_c44.trans (Covered.piece 577 p13_14_T_45 (by decide +kernel)) (by decide)
theorem p13_14_T_c46 : Covered (pcT 1006 p13_14D p13_14C0 p13_14Tab 1 2) 0 63734 :=
  p13_14_T_c45.trans (Covered.piece 729 p13_14_T_46 (by decide +kernel)) (by decide)
theorem p13_14_T_c47 : Covered (pcT 1006 p13_14D p13_14C0 p13_14Tab 1 2) 0 65116 :=
  p13_14_T_c46.trans (Covered.piece 691 p13_14_T_47 (by decide +kernel)) (by decide)
theorem p13_14_T_c48 : Covered (pcT 1006 p13_14D p13_14C0 p13_14Tab 1 2) 0 66424 :=
  p13_14_T_c47.trans (Covered.piece 654 p13_14_T_48 (by decide +kernel)) (by decide)
theorem p13_14_tail (x : ℝ) (hx : x ≤ -1) : |rVal p13_14D p13_14C0 p13_14Tab x| ≤ (1 : ℕ) / (2 : ℕ) :=
  tail_sound p13_14_side (by norm_num) (by norm_num) p13_14_T_c48 x hx
theorem p0_2_T_0 : pcT 336 p0_2D p0_2C0 p0_2Tab 1 2 11664 11664 = true := by decide +kernel
theorem p0_2_T_1 : pcT 336 p0_2D p0_2C0 p0_2Tab 1 2 31631 8303 = true := by decide +kernel
theorem p0_2_T_2 : pcT 336 p0_2D p0_2C0 p0_2Tab 1 2 47814 7880 = true := by decide +kernel
theorem p0_2_T_3 : pcT 336 p0_2D p0_2C0 p0_2Tab 1 2 59900 4206 = true := by decide +kernel
theorem p0_2_T_4 : pcT 336 p0_2D p0_2C0 p0_2Tab 1 2 68097 3991 = true := by decide +kernel
theorem p0_2_T_c0 : Covered (pcT 336 p0_2D p0_2C0 p0_2Tab 1 2) 0 23328 :=
  Covered.piece 11664 p0_2_T_0 (by decide +kernel)
theorem p0_2_T_c1 : Covered (pcT 336 p0_2D p0_2C0 p0_2Tab 1 2) 0 39934 :=
  p0_2_T_c0.trans (Covered.piece 8303 p0_2_T_1 (by decide +kernel)) (by decide)
theorem p0_2_T_c2 : Covered (pcT 336 p0_2D p0_2C0 p0_2Tab 1 2) 0 55694 :=
  p0_2_T_c1.trans (Covered.piece 7880 p0_2_T_2 (by decide +kernel)) (by decide)
theorem p0_2_T_c3 : Covered (pcT 336 p0_2D p0_2C0 p0_2Tab 1 2) 0 64106 :=
  p0_2_T_c2.trans (Covered.piece 4206 p0_2_T_3 (by decide +kernel)) (by decide)
theorem p0_2_T_c4 : Covered (pcT 336 p0_2D p0_2C0 p0_2Tab 1 2) 0 72088 :=
  p0_2_T_c3.trans (Covered.piece 3991 p0_2_T_4 (by decide +kernel)) (by decide)
theorem p0_2_tail (x : ℝ) (hx : x ≤ -1) : |rVal p0_2D p0_2C0 p0_2Tab x| ≤ (1 : ℕ) / (2 : ℕ) :=
  tail_sound p0_2_side (by norm_num) (by norm_num) p0_2_T_c4 x hx
theorem p2_4_T_0 : pcT 310 p2_4D p2_4C0 p2_4Tab 1 2 3690 3690 = true := by decide +kernel
theorem p2_4_T_1 : pcT 310 p2_4D p2_4C0 p2_4Tab 1 2 12049 4669 = true := by decide +kernel
theorem p2_4_T_2 : pcT 310 p2_4D p2_4C0 p2_4Tab 1 2 21149 4431 = true := by decide +kernel
theorem p2_4_T_3 : pcT 310 p2_4D p2_4C0 p2_4Tab 1 2 29785 4205 = true := by decide +kernel
theorem p2_4_T_4 : pcT 310 p2_4D p2_4C0 p2_4Tab 1 2 37980 3990 = true := by decide +kernel
theorem p2_4_T_5 : pcT 310 p2_4D p2_4C0 p2_4Tab 1 2 45756 3786 = true := by decide +kernel
theorem p2_4_T_6 : pcT 310 p2_4D p2_4C0 p2_4Tab 1 2 52236 2694 = true := by decide +kernel
theorem p2_4_T_7 : pcT 310 p2_4D p2_4C0 p2_4Tab 1 2 57486 2556 = true := by decide +kernel
theorem p2_4_T_8 : pcT 310 p2_4D p2_4C0 p2_4Tab 1 2 62467 2425 = true := by decide +kernel
theorem p2_4_T_9 : pcT 310 p2_4D p2_4C0 p2_4Tab 1 2 67193 2301 = true := by decide +kernel
theorem p2_4_T_c0 : Covered (pcT 310 p2_4D p2_4C0 p2_4Tab 1 2) 0 7380 :=
  Covered.piece 3690 p2_4_T_0 (by decide +kernel)
theorem p2_4_T_c1 : Covered (pcT 310 p2_4D p2_4C0 p2_4Tab 1 2) 0 16718 :=
  p2_4_T_c0.trans (Covered.piece 4669 p2_4_T_1 (by decide +kernel)) (by decide)
theorem p2_4_T_c2 : Covered (pcT 310 p2_4D p2_4C0 p2_4Tab 1 2) 0 25580 :=
  p2_4_T_c1.trans (Covered.piece 4431 p2_4_T_2 (by decide +kernel)) (by decide)
theorem p2_4_T_c3 : Covered (pcT 310 p2_4D p2_4C0 p2_4Tab 1 2) 0 33990 :=
  p2_4_T_c2.trans (Covered.piece 4205 p2_4_T_3 (by decide +kernel)) (by decide)
theorem p2_4_T_c4 : Covered (pcT 310 p2_4D p2_4C0 p2_4Tab 1 2) 0 41970 :=
  p2_4_T_c3.trans (Covered.piece 3990 p2_4_T_4 (by decide +kernel)) (by decide)
theorem p2_4_T_c5 : Covered (pcT 310 p2_4D p2_4C0 p2_4Tab 1 2) 0 49542 :=
  p2_4_T_c4.trans (Covered.piece 3786 p2_4_T_5 (by decide +kernel)) (by decide)
theorem p2_4_T_c6 : Covered (pcT 310 p2_4D p2_4C0 p2_4Tab 1 2) 0 54930 :=
  p2_4_T_c5.trans (Covered.piece 2694 p2_4_T_6 (by decide +kernel)) (by decide)
theorem p2_4_T_c7 : Covered (pcT 310 p2_4D p2_4C0 p2_4Tab 1 2) 0 60042 :=
  p2_4_T_c6.trans (Covered.piece 2556 p2_4_T_7 (by decide +kernel)) (by decide)
theorem p2_4_T_c8 : Covered (pcT 310 p2_4D p2_4C0 p2_4Tab 1 2) 0 64892 :=
  p2_4_T_c7.trans (Covered.piece 2425 p2_4_T_8 (by decide +kernel)) (by decide)
theorem p2_4_T_c9 : Covered (pcT 310 p2_4D p2_4C0 p2_4Tab 1 2) 0 69494 :=
  p2_4_T_c8.trans (Covered.piece 2301 p2_4_T_9 (by decide +kernel)) (by decide)
theorem p2_4_tail (x : ℝ) (hx : x ≤ -1) : |rVal p2_4D p2_4C0 p2_4Tab x| ≤ (1 : ℕ) / (2 : ℕ) :=
  tail_sound p2_4_side (by norm_num) (by norm_num) p2_4_T_c9 x hx
theorem p4_6_T_0 : pcT 446 p4_6D p4_6C0 p4_6Tab 1 2 1167 1167 = true := by decide +kernel
theorem p4_6_T_1 : pcT 446 p4_6D p4_6C0 p4_6Tab 1 2 3810 1476 = true := by decide +kernel
theorem p4_6_T_2 : pcT 446 p4_6D p4_6C0 p4_6Tab 1 2 7153 1867 = true := by decide +kernel
theorem p4_6_T_3 : pcT 446 p4_6D p4_6C0 p4_6Tab 1 2 10791 1771 = true := by decide +kernel
theorem p4_6_T_4 : pcT 446 p4_6D p4_6C0 p4_6Tab 1 2 14803 2241 = true := by decide +kernel
theorem p4_6_T_5 : pcT 446 p4_6D p4_6C0 p4_6Tab 1 2 19170 2126 = true := by decide +kernel
theorem p4_6_T_6 : pcT 446 p4_6D p4_6C0 p4_6Tab 1 2 23986 2690 = true := by decide +kernel
theorem p4_6_T_7 : pcT 446 p4_6D p4_6C0 p4_6Tab 1 2 29229 2553 = true := by decide +kernel
theorem p4_6_T_8 : pcT 446 p4_6D p4_6C0 p4_6Tab 1 2 34205 2423 = true := by decide +kernel
theorem p4_6_T_9 : pcT 446 p4_6D p4_6C0 p4_6Tab 1 2 38927 2299 = true := by decide +kernel
theorem p4_6_T_10 : pcT 446 p4_6D p4_6C0 p4_6Tab 1 2 43407 2181 = true := by decide +kernel
theorem p4_6_T_11 : pcT 446 p4_6D p4_6C0 p4_6Tab 1 2 47658 2070 = true := by decide +kernel
theorem p4_6_T_12 : pcT 446 p4_6D p4_6C0 p4_6Tab 1 2 51692 1964 = true := by decide +kernel
theorem p4_6_T_13 : pcT 446 p4_6D p4_6C0 p4_6Tab 1 2 55519 1863 = true := by decide +kernel
theorem p4_6_T_14 : pcT 446 p4_6D p4_6C0 p4_6Tab 1 2 59149 1767 = true := by decide +kernel
theorem p4_6_T_15 : pcT 446 p4_6D p4_6C0 p4_6Tab 1 2 62592 1676 = true := by decide +kernel
theorem p4_6_T_16 : pcT 446 p4_6D p4_6C0 p4_6Tab 1 2 65460 1192 = true := by decide +kernel
theorem p4_6_T_c0 : Covered (pcT 446 p4_6D p4_6C0 p4_6Tab 1 2) 0 2334 :=
  Covered.piece 1167 p4_6_T_0 (by decide +kernel)
theorem p4_6_T_c1 : Covered (pcT 446 p4_6D p4_6C0 p4_6Tab 1 2) 0 5286 :=
  p4_6_T_c0.trans (Covered.piece 1476 p4_6_T_1 (by decide +kernel)) (by decide)
theorem p4_6_T_c2 : Covered (pcT 446 p4_6D p4_6C0 p4_6Tab 1 2) 0 9020 :=
  p4_6_T_c1.trans (Covered.piece 1867 p4_6_T_2 (by decide +kernel)) (by decide)
theorem p4_6_T_c3 : Covered (pcT 446 p4_6D p4_6C0 p4_6Tab 1 2) 0 12562 :=
  p4_6_T_c2.trans (Covered.piece 1771 p4_6_T_3 (by decide +kernel)) (by decide)
theorem p4_6_T_c4 : Covered (pcT 446 p4_6D p4_6C0 p4_6Tab 1 2) 0 17044 :=
  p4_6_T_c3.trans (Covered.piece 2241 p4_6_T_4 (by decide +kernel)) (by decide)
theorem p4_6_T_c5 : Covered (pcT 446 p4_6D p4_6C0 p4_6Tab 1 2) 0 21296 :=
  p4_6_T_c4.trans (Covered.piece 2126 p4_6_T_5 (by decide +kernel)) (by decide)
theorem p4_6_T_c6 : Covered (pcT 446 p4_6D p4_6C0 p4_6Tab 1 2) 0 26676 :=
  p4_6_T_c5.trans (Covered.piece 2690 p4_6_T_6 (by decide +kernel)) (by decide)
theorem p4_6_T_c7 : Covered (pcT 446 p4_6D p4_6C0 p4_6Tab 1 2) 0 31782 :=
  p4_6_T_c6.trans (Covered.piece 2553 p4_6_T_7 (by decide +kernel)) (by decide)
theorem p4_6_T_c8 : Covered (pcT 446 p4_6D p4_6C0 p4_6Tab 1 2) 0 36628 :=
  p4_6_T_c7.trans (Covered.piece 2423 p4_6_T_8 (by decide +kernel)) (by decide)
theorem p4_6_T_c9 : Covered (pcT 446 p4_6D p4_6C0 p4_6Tab 1 2) 0 41226 :=
  p4_6_T_c8.trans (Covered.piece 2299 p4_6_T_9 (by decide +kernel)) (by decide)
theorem p4_6_T_c10 : Covered (pcT 446 p4_6D p4_6C0 p4_6Tab 1 2) 0 45588 :=
  p4_6_T_c9.trans (Covered.piece 2181 p4_6_T_10 (by decide +kernel)) (by decide)
theorem p4_6_T_c11 : Covered (pcT 446 p4_6D p4_6C0 p4_6Tab 1 2) 0 49728 :=
  p4_6_T_c10.trans (Covered.piece 2070 p4_6_T_11 (by decide +kernel)) (by decide)
theorem p4_6_T_c12 : Covered (pcT 446 p4_6D p4_6C0 p4_6Tab 1 2) 0 53656 :=
  p4_6_T_c11.trans (Covered.piece 1964 p4_6_T_12 (by decide +kernel)) (by decide)
theorem p4_6_T_c13 : Covered (pcT 446 p4_6D p4_6C0 p4_6Tab 1 2) 0 57382 :=
  p4_6_T_c12.trans (Covered.piece 1863 p4_6_T_13 (by decide +kernel)) (by decide)
theorem p4_6_T_c14 : Covered (pcT 446 p4_6D p4_6C0 p4_6Tab 1 2) 0 60916 :=
  p4_6_T_c13.trans (Covered.piece 1767 p4_6_T_14 (by decide +kernel)) (by decide)
theorem p4_6_T_c15 : Covered (pcT 446 p4_6D p4_6C0 p4_6Tab 1 2) 0 64268 :=
  p4_6_T_c14.trans (Covered.piece 1676 p4_6_T_15 (by decide +kernel)) (by decide)
theorem p4_6_T_c16 : Covered (pcT 446 p4_6D p4_6C0 p4_6Tab 1 2) 0 66652 :=
  p4_6_T_c15.trans (Covered.piece 1192 p4_6_T_16 (by decide +kernel)) (by decide)
theorem p4_6_tail (x : ℝ) (hx : x ≤ -1) : |rVal p4_6D p4_6C0 p4_6Tab x| ≤ (1 : ℕ) / (2 : ℕ) :=
  tail_sound p4_6_side (by norm_num) (by norm_num) p4_6_T_c16 x hx
theorem p6_8_T_0 : pcT 584 p6_8D p6_8C0 p6_8Tab 1 2 656 656 = true := by decide +kernel
theorem p6_8_T_1 : pcT 584 p6_8D p6_8C0 p6_8Tab 1 2 2142 830 = true := by decide +kernel
theorem p6_8_T_2 : pcT 584 p6_8D p6_8C0 p6_8Tab 1 2 3759 787 = true := by decide +kernel
theorem p6_8_T_3 : pcT 584 p6_8D p6_8C0 p6_8Tab 1 2 5541 995 = true := by decide +kernel
theorem p6_8_T_4 : pcT 584 p6_8D p6_8C0 p6_8Tab 1 2 7479 943 = true := by decide +kernel
theorem p6_8_T_5 : pcT 584 p6_8D p6_8C0 p6_8Tab 1 2 9614 1192 = true := by decide +kernel
theorem p6_8_T_6 : pcT 584 p6_8D p6_8C0 p6_8Tab 1 2 12314 1508 = true := by decide +kernel
theorem p6_8_T_7 : pcT 584 p6_8D p6_8C0 p6_8Tab 1 2 15253 1431 = true := by decide +kernel
theorem p6_8_T_8 : pcT 584 p6_8D p6_8C0 p6_8Tab 1 2 18494 1810 = true := by decide +kernel
theorem p6_8_T_9 : pcT 584 p6_8D p6_8C0 p6_8Tab 1 2 22021 1717 = true := by decide +kernel
theorem p6_8_T_10 : pcT 584 p6_8D p6_8C0 p6_8Tab 1 2 25367 1629 = true := by decide +kernel
theorem p6_8_T_11 : pcT 584 p6_8D p6_8C0 p6_8Tab 1 2 29057 2061 = true := by decide +kernel
theorem p6_8_T_12 : pcT 584 p6_8D p6_8C0 p6_8Tab 1 2 33073 1955 = true := by decide +kernel
theorem p6_8_T_13 : pcT 584 p6_8D p6_8C0 p6_8Tab 1 2 36882 1854 = true := by decide +kernel
theorem p6_8_T_14 : pcT 584 p6_8D p6_8C0 p6_8Tab 1 2 40495 1759 = true := by decide +kernel
theorem p6_8_T_15 : pcT 584 p6_8D p6_8C0 p6_8Tab 1 2 43922 1668 = true := by decide +kernel
theorem p6_8_T_16 : pcT 584 p6_8D p6_8C0 p6_8Tab 1 2 47172 1582 = true := by decide +kernel
theorem p6_8_T_17 : pcT 584 p6_8D p6_8C0 p6_8Tab 1 2 50254 1500 = true := by decide +kernel
theorem p6_8_T_18 : pcT 584 p6_8D p6_8C0 p6_8Tab 1 2 53177 1423 = true := by decide +kernel
theorem p6_8_T_19 : pcT 584 p6_8D p6_8C0 p6_8Tab 1 2 55950 1350 = true := by decide +kernel
theorem p6_8_T_20 : pcT 584 p6_8D p6_8C0 p6_8Tab 1 2 58580 1280 = true := by decide +kernel
theorem p6_8_T_21 : pcT 584 p6_8D p6_8C0 p6_8Tab 1 2 61075 1215 = true := by decide +kernel
theorem p6_8_T_22 : pcT 584 p6_8D p6_8C0 p6_8Tab 1 2 63442 1152 = true := by decide +kernel
theorem p6_8_T_23 : pcT 584 p6_8D p6_8C0 p6_8Tab 1 2 65687 1093 = true := by decide +kernel
theorem p6_8_T_c0 : Covered (pcT 584 p6_8D p6_8C0 p6_8Tab 1 2) 0 1312 :=
  Covered.piece 656 p6_8_T_0 (by decide +kernel)
theorem p6_8_T_c1 : Covered (pcT 584 p6_8D p6_8C0 p6_8Tab 1 2) 0 2972 :=
  p6_8_T_c0.trans (Covered.piece 830 p6_8_T_1 (by decide +kernel)) (by decide)
theorem p6_8_T_c2 : Covered (pcT 584 p6_8D p6_8C0 p6_8Tab 1 2) 0 4546 :=
  p6_8_T_c1.trans (Covered.piece 787 p6_8_T_2 (by decide +kernel)) (by decide)
theorem p6_8_T_c3 : Covered (pcT 584 p6_8D p6_8C0 p6_8Tab 1 2) 0 6536 :=
  p6_8_T_c2.trans (Covered.piece 995 p6_8_T_3 (by decide +kernel)) (by decide)
theorem p6_8_T_c4 : Covered (pcT 584 p6_8D p6_8C0 p6_8Tab 1 2) 0 8422 :=
  p6_8_T_c3.trans (Covered.piece 943 p6_8_T_4 (by decide +kernel)) (by decide)
theorem p6_8_T_c5 : Covered (pcT 584 p6_8D p6_8C0 p6_8Tab 1 2) 0 10806 :=
  p6_8_T_c4.trans (Covered.piece 1192 p6_8_T_5 (by decide +kernel)) (by decide)
theorem p6_8_T_c6 : Covered (pcT 584 p6_8D p6_8C0 p6_8Tab 1 2) 0 13822 :=
  p6_8_T_c5.trans (Covered.piece 1508 p6_8_T_6 (by decide +kernel)) (by decide)
theorem p6_8_T_c7 : Covered (pcT 584 p6_8D p6_8C0 p6_8Tab 1 2) 0 16684 :=
  p6_8_T_c6.trans (Covered.piece 1431 p6_8_T_7 (by decide +kernel)) (by decide)
theorem p6_8_T_c8 : Covered (pcT 584 p6_8D p6_8C0 p6_8Tab 1 2) 0 20304 :=
  p6_8_T_c7.trans (Covered.piece 1810 p6_8_T_8 (by decide +kernel)) (by decide)
theorem p6_8_T_c9 : Covered (pcT 584 p6_8D p6_8C0 p6_8Tab 1 2) 0 23738 :=
  p6_8_T_c8.trans (Covered.piece 1717 p6_8_T_9 (by decide +kernel)) (by decide)
theorem p6_8_T_c10 : Covered (pcT 584 p6_8D p6_8C0 p6_8Tab 1 2) 0 26996 :=
  p6_8_T_c9.trans (Covered.piece 1629 p6_8_T_10 (by decide +kernel)) (by decide)
theorem p6_8_T_c11 : Covered (pcT 584 p6_8D p6_8C0 p6_8Tab 1 2) 0 31118 :=
  p6_8_T_c10.trans (Covered.piece 2061 p6_8_T_11 (by decide +kernel)) (by decide)
theorem p6_8_T_c12 : Covered (pcT 584 p6_8D p6_8C0 p6_8Tab 1 2) 0 35028 :=
  p6_8_T_c11.trans (Covered.piece 1955 p6_8_T_12 (by decide +kernel)) (by decide)
theorem p6_8_T_c13 : Covered (pcT 584 p6_8D p6_8C0 p6_8Tab 1 2) 0 38736 :=
  p6_8_T_c12.trans (Covered.piece 1854 p6_8_T_13 (by decide +kernel)) (by decide)
theorem p6_8_T_c14 : Covered (pcT 584 p6_8D p6_8C0 p6_8Tab 1 2) 0 42254 :=
  p6_8_T_c13.trans (Covered.piece 1759 p6_8_T_14 (by decide +kernel)) (by decide)
theorem p6_8_T_c15 : Covered (pcT 584 p6_8D p6_8C0 p6_8Tab 1 2) 0 45590 :=
  p6_8_T_c14.trans (Covered.piece 1668 p6_8_T_15 (by decide +kernel)) (by decide)
theorem p6_8_T_c16 : Covered (pcT 584 p6_8D p6_8C0 p6_8Tab 1 2) 0 48754 :=
  p6_8_T_c15.trans (Covered.piece 1582 p6_8_T_16 (by decide +kernel)) (by decide)
theorem p6_8_T_c17 : Covered (pcT 584 p6_8D p6_8C0 p6_8Tab 1 2) 0 51754 :=
  p6_8_T_c16.trans (Covered.piece 1500 p6_8_T_17 (by decide +kernel)) (by decide)
theorem p6_8_T_c18 : Covered (pcT 584 p6_8D p6_8C0 p6_8Tab 1 2) 0 54600 :=
  p6_8_T_c17.trans (Covered.piece 1423 p6_8_T_18 (by decide +kernel)) (by decide)
theorem p6_8_T_c19 : Covered (pcT 584 p6_8D p6_8C0 p6_8Tab 1 2) 0 57300 :=
  p6_8_T_c18.trans (Covered.piece 1350 p6_8_T_19 (by decide +kernel)) (by decide)
theorem p6_8_T_c20 : Covered (pcT 584 p6_8D p6_8C0 p6_8Tab 1 2) 0 59860 :=
  p6_8_T_c19.trans (Covered.piece 1280 p6_8_T_20 (by decide +kernel)) (by decide)
theorem p6_8_T_c21 : Covered (pcT 584 p6_8D p6_8C0 p6_8Tab 1 2) 0 62290 :=
  p6_8_T_c20.trans (Covered.piece 1215 p6_8_T_21 (by decide +kernel)) (by decide)
theorem p6_8_T_c22 : Covered (pcT 584 p6_8D p6_8C0 p6_8Tab 1 2) 0 64594 :=
  p6_8_T_c21.trans (Covered.piece 1152 p6_8_T_22 (by decide +kernel)) (by decide)
theorem p6_8_T_c23 : Covered (pcT 584 p6_8D p6_8C0 p6_8Tab 1 2) 0 66780 :=
  p6_8_T_c22.trans (Covered.piece 1093 p6_8_T_23 (by decide +kernel)) (by decide)
theorem p6_8_tail (x : ℝ) (hx : x ≤ -1) : |rVal p6_8D p6_8C0 p6_8Tab x| ≤ (1 : ℕ) / (2 : ℕ) :=
  tail_sound p6_8_side (by norm_num) (by norm_num) p6_8_T_c23 x hx
theorem p8_10_T_0 : pcT 720 p8_10D p8_10C0 p8_10Tab 1 2 492 492 = true := by decide +kernel
theorem p8_10_T_1 : pcT 720 p8_10D p8_10C0 p8_10Tab 1 2 1450 466 = true := by decide +kernel
theorem p8_10_T_2 : pcT 720 p8_10D p8_10C0 p8_10Tab 1 2 2357 441 = true := by decide +kernel
theorem p8_10_T_3 : pcT 720 p8_10D p8_10C0 p8_10Tab 1 2 3356 558 = true := by decide +kernel
theorem p8_10_T_4 : pcT 720 p8_10D p8_10C0 p8_10Tab 1 2 4442 528 = true := by decide +kernel
theorem p8_10_T_5 : pcT 720 p8_10D p8_10C0 p8_10Tab 1 2 5638 668 = true := by decide +kernel
theorem p8_10_T_6 : pcT 720 p8_10D p8_10C0 p8_10Tab 1 2 6939 633 = true := by decide +kernel
theorem p8_10_T_7 : pcT 720 p8_10D p8_10C0 p8_10Tab 1 2 8373 801 = true := by decide +kernel
theorem p8_10_T_8 : pcT 720 p8_10D p8_10C0 p8_10Tab 1 2 10187 1013 = true := by decide +kernel
theorem p8_10_T_9 : pcT 720 p8_10D p8_10C0 p8_10Tab 1 2 12160 960 = true := by decide +kernel
theorem p8_10_T_10 : pcT 720 p8_10D p8_10C0 p8_10Tab 1 2 14335 1215 = true := by decide +kernel
theorem p8_10_T_11 : pcT 720 p8_10D p8_10C0 p8_10Tab 1 2 16702 1152 = true := by decide +kernel
theorem p8_10_T_12 : pcT 720 p8_10D p8_10C0 p8_10Tab 1 2 19312 1458 = true := by decide +kernel
theorem p8_10_T_13 : pcT 720 p8_10D p8_10C0 p8_10Tab 1 2 22153 1383 = true := by decide +kernel
theorem p8_10_T_14 : pcT 720 p8_10D p8_10C0 p8_10Tab 1 2 24847 1311 = true := by decide +kernel
theorem p8_10_T_15 : pcT 720 p8_10D p8_10C0 p8_10Tab 1 2 27401 1243 = true := by decide +kernel
theorem p8_10_T_16 : pcT 720 p8_10D p8_10C0 p8_10Tab 1 2 30216 1572 = true := by decide +kernel
theorem p8_10_T_17 : pcT 720 p8_10D p8_10C0 p8_10Tab 1 2 33279 1491 = true := by decide +kernel
theorem p8_10_T_18 : pcT 720 p8_10D p8_10C0 p8_10Tab 1 2 36184 1414 = true := by decide +kernel
theorem p8_10_T_19 : pcT 720 p8_10D p8_10C0 p8_10Tab 1 2 38939 1341 = true := by decide +kernel
theorem p8_10_T_20 : pcT 720 p8_10D p8_10C0 p8_10Tab 1 2 41552 1272 = true := by decide +kernel
theorem p8_10_T_21 : pcT 720 p8_10D p8_10C0 p8_10Tab 1 2 44030 1206 = true := by decide +kernel
theorem p8_10_T_22 : pcT 720 p8_10D p8_10C0 p8_10Tab 1 2 46379 1143 = true := by decide +kernel
theorem p8_10_T_23 : pcT 720 p8_10D p8_10C0 p8_10Tab 1 2 48606 1084 = true := by decide +kernel
theorem p8_10_T_24 : pcT 720 p8_10D p8_10C0 p8_10Tab 1 2 50718 1028 = true := by decide +kernel
theorem p8_10_T_25 : pcT 720 p8_10D p8_10C0 p8_10Tab 1 2 52721 975 = true := by decide +kernel
theorem p8_10_T_26 : pcT 720 p8_10D p8_10C0 p8_10Tab 1 2 54929 1233 = true := by decide +kernel
theorem p8_10_T_27 : pcT 720 p8_10D p8_10C0 p8_10Tab 1 2 57332 1170 = true := by decide +kernel
theorem p8_10_T_28 : pcT 720 p8_10D p8_10C0 p8_10Tab 1 2 59612 1110 = true := by decide +kernel
theorem p8_10_T_29 : pcT 720 p8_10D p8_10C0 p8_10Tab 1 2 61775 1053 = true := by decide +kernel
theorem p8_10_T_30 : pcT 720 p8_10D p8_10C0 p8_10Tab 1 2 63577 749 = true := by decide +kernel
theorem p8_10_T_31 : pcT 720 p8_10D p8_10C0 p8_10Tab 1 2 65273 947 = true := by decide +kernel
theorem p8_10_T_c0 : Covered (pcT 720 p8_10D p8_10C0 p8_10Tab 1 2) 0 984 :=
  Covered.piece 492 p8_10_T_0 (by decide +kernel)
theorem p8_10_T_c1 : Covered (pcT 720 p8_10D p8_10C0 p8_10Tab 1 2) 0 1916 :=
  p8_10_T_c0.trans (Covered.piece 466 p8_10_T_1 (by decide +kernel)) (by decide)
theorem p8_10_T_c2 : Covered (pcT 720 p8_10D p8_10C0 p8_10Tab 1 2) 0 2798 :=
  p8_10_T_c1.trans (Covered.piece 441 p8_10_T_2 (by decide +kernel)) (by decide)
theorem p8_10_T_c3 : Covered (pcT 720 p8_10D p8_10C0 p8_10Tab 1 2) 0 3914 :=
  p8_10_T_c2.trans (Covered.piece 558 p8_10_T_3 (by decide +kernel)) (by decide)
theorem p8_10_T_c4 : Covered (pcT 720 p8_10D p8_10C0 p8_10Tab 1 2) 0 4970 :=
  p8_10_T_c3.trans (Covered.piece 528 p8_10_T_4 (by decide +kernel)) (by decide)
theorem p8_10_T_c5 : Covered (pcT 720 p8_10D p8_10C0 p8_10Tab 1 2) 0 6306 :=
  p8_10_T_c4.trans (Covered.piece 668 p8_10_T_5 (by decide +kernel)) (by decide)
theorem p8_10_T_c6 : Covered (pcT 720 p8_10D p8_10C0 p8_10Tab 1 2) 0 7572 :=
  p8_10_T_c5.trans (Covered.piece 633 p8_10_T_6 (by decide +kernel)) (by decide)
theorem p8_10_T_c7 : Covered (pcT 720 p8_10D p8_10C0 p8_10Tab 1 2) 0 9174 :=
  p8_10_T_c6.trans (Covered.piece 801 p8_10_T_7 (by decide +kernel)) (by decide)
theorem p8_10_T_c8 : Covered (pcT 720 p8_10D p8_10C0 p8_10Tab 1 2) 0 11200 :=
  p8_10_T_c7.trans (Covered.piece 1013 p8_10_T_8 (by decide +kernel)) (by decide)
theorem p8_10_T_c9 : Covered (pcT 720 p8_10D p8_10C0 p8_10Tab 1 2) 0 13120 :=
  p8_10_T_c8.trans (Covered.piece 960 p8_10_T_9 (by decide +kernel)) (by decide)
theorem p8_10_T_c10 : Covered (pcT 720 p8_10D p8_10C0 p8_10Tab 1 2) 0 15550 :=
  p8_10_T_c9.trans (Covered.piece 1215 p8_10_T_10 (by decide +kernel)) (by decide)
theorem p8_10_T_c11 : Covered (pcT 720 p8_10D p8_10C0 p8_10Tab 1 2) 0 17854 :=
  p8_10_T_c10.trans (Covered.piece 1152 p8_10_T_11 (by decide +kernel)) (by decide)
theorem p8_10_T_c12 : Covered (pcT 720 p8_10D p8_10C0 p8_10Tab 1 2) 0 20770 :=
  p8_10_T_c11.trans (Covered.piece 1458 p8_10_T_12 (by decide +kernel)) (by decide)
theorem p8_10_T_c13 : Covered (pcT 720 p8_10D p8_10C0 p8_10Tab 1 2) 0 23536 :=
  p8_10_T_c12.trans (Covered.piece 1383 p8_10_T_13 (by decide +kernel)) (by decide)
theorem p8_10_T_c14 : Covered (pcT 720 p8_10D p8_10C0 p8_10Tab 1 2) 0 26158 :=
  p8_10_T_c13.trans (Covered.piece 1311 p8_10_T_14 (by decide +kernel)) (by decide)
theorem p8_10_T_c15 : Covered (pcT 720 p8_10D p8_10C0 p8_10Tab 1 2) 0 28644 :=
  p8_10_T_c14.trans (Covered.piece 1243 p8_10_T_15 (by decide +kernel)) (by decide)
theorem p8_10_T_c16 : Covered (pcT 720 p8_10D p8_10C0 p8_10Tab 1 2) 0 31788 :=
  p8_10_T_c15.trans (Covered.piece 1572 p8_10_T_16 (by decide +kernel)) (by decide)
theorem p8_10_T_c17 : Covered (pcT 720 p8_10D p8_10C0 p8_10Tab 1 2) 0 34770 :=
  p8_10_T_c16.trans (Covered.piece 1491 p8_10_T_17 (by decide +kernel)) (by decide)
theorem p8_10_T_c18 : Covered (pcT 720 p8_10D p8_10C0 p8_10Tab 1 2) 0 37598 :=
  p8_10_T_c17.trans (Covered.piece 1414 p8_10_T_18 (by decide +kernel)) (by decide)
theorem p8_10_T_c19 : Covered (pcT 720 p8_10D p8_10C0 p8_10Tab 1 2) 0 40280 :=
  p8_10_T_c18.trans (Covered.piece 1341 p8_10_T_19 (by decide +kernel)) (by decide)
theorem p8_10_T_c20 : Covered (pcT 720 p8_10D p8_10C0 p8_10Tab 1 2) 0 42824 :=
  p8_10_T_c19.trans (Covered.piece 1272 p8_10_T_20 (by decide +kernel)) (by decide)
theorem p8_10_T_c21 : Covered (pcT 720 p8_10D p8_10C0 p8_10Tab 1 2) 0 45236 :=
  p8_10_T_c20.trans (Covered.piece 1206 p8_10_T_21 (by decide +kernel)) (by decide)
theorem p8_10_T_c22 : Covered (pcT 720 p8_10D p8_10C0 p8_10Tab 1 2) 0 47522 :=
  p8_10_T_c21.trans (Covered.piece 1143 p8_10_T_22 (by decide +kernel)) (by decide)
theorem p8_10_T_c23 : Covered (pcT 720 p8_10D p8_10C0 p8_10Tab 1 2) 0 49690 :=
  p8_10_T_c22.trans (Covered.piece 1084 p8_10_T_23 (by decide +kernel)) (by decide)
theorem p8_10_T_c24 : Covered (pcT 720 p8_10D p8_10C0 p8_10Tab 1 2) 0 51746 :=
  p8_10_T_c23.trans (Covered.piece 1028 p8_10_T_24 (by decide +kernel)) (by decide)
theorem p8_10_T_c25 : Covered (pcT 720 p8_10D p8_10C0 p8_10Tab 1 2) 0 53696 :=
  p8_10_T_c24.trans (Covered.piece 975 p8_10_T_25 (by decide +kernel)) (by decide)
theorem p8_10_T_c26 : Covered (pcT 720 p8_10D p8_10C0 p8_10Tab 1 2) 0 56162 :=
  p8_10_T_c25.trans (Covered.piece 1233 p8_10_T_26 (by decide +kernel)) (by decide)
theorem p8_10_T_c27 : Covered (pcT 720 p8_10D p8_10C0 p8_10Tab 1 2) 0 58502 :=
  p8_10_T_c26.trans (Covered.piece 1170 p8_10_T_27 (by decide +kernel)) (by decide)
theorem p8_10_T_c28 : Covered (pcT 720 p8_10D p8_10C0 p8_10Tab 1 2) 0 60722 :=
  p8_10_T_c27.trans (Covered.piece 1110 p8_10_T_28 (by decide +kernel)) (by decide)
theorem p8_10_T_c29 : Covered (pcT 720 p8_10D p8_10C0 p8_10Tab 1 2) 0 62828 :=
  p8_10_T_c28.trans (Covered.piece 1053 p8_10_T_29 (by decide +kernel)) (by decide)
theorem p8_10_T_c30 : Covered (pcT 720 p8_10D p8_10C0 p8_10Tab 1 2) 0 64326 :=
  p8_10_T_c29.trans (Covered.piece 749 p8_10_T_30 (by decide +kernel)) (by decide)
theorem p8_10_T_c31 : Covered (pcT 720 p8_10D p8_10C0 p8_10Tab 1 2) 0 66220 :=
  p8_10_T_c30.trans (Covered.piece 947 p8_10_T_31 (by decide +kernel)) (by decide)
theorem p8_10_tail (x : ℝ) (hx : x ≤ -1) : |rVal p8_10D p8_10C0 p8_10Tab x| ≤ (1 : ℕ) / (2 : ℕ) :=
  tail_sound p8_10_side (by norm_num) (by norm_num) p8_10_T_c31 x hx
theorem p10_12_T_0 : pcT 862 p10_12D p10_12C0 p10_12Tab 1 2 276 276 = true := by decide +kernel
theorem p10_12_T_1 : pcT 862 p10_12D p10_12C0 p10_12Tab 1 2 900 348 = true := by decide +kernel
theorem p10_12_T_2 : pcT 862 p10_12D p10_12C0 p10_12Tab 1 2 1578 330 = true := by decide +kernel
theorem p10_12_T_3 : pcT 862 p10_12D p10_12C0 p10_12Tab 1 2 2220 312 = true := by decide +kernel
theorem p10_12_T_4 : pcT 862 p10_12D p10_12C0 p10_12Tab 1 2 2926 394 = true := by decide +kernel
theorem p10_12_T_5 : pcT 862 p10_12D p10_12C0 p10_12Tab 1 2 3693 373 = true := by decide +kernel
theorem p10_12_T_6 : pcT 862 p10_12D p10_12C0 p10_12Tab 1 2 4537 471 = true := by decide +kernel
theorem p10_12_T_7 : pcT 862 p10_12D p10_12C0 p10_12Tab 1 2 5454 446 = true := by decide +kernel
theorem p10_12_T_8 : pcT 862 p10_12D p10_12C0 p10_12Tab 1 2 6464 564 = true := by decide +kernel
theorem p10_12_T_9 : pcT 862 p10_12D p10_12C0 p10_12Tab 1 2 7562 534 = true := by decide +kernel
theorem p10_12_T_10 : pcT 862 p10_12D p10_12C0 p10_12Tab 1 2 8771 675 = true := by decide +kernel
theorem p10_12_T_11 : pcT 862 p10_12D p10_12C0 p10_12Tab 1 2 10085 639 = true := by decide +kernel
theorem p10_12_T_12 : pcT 862 p10_12D p10_12C0 p10_12Tab 1 2 11531 807 = true := by decide +kernel
theorem p10_12_T_13 : pcT 862 p10_12D p10_12C0 p10_12Tab 1 2 13103 765 = true := by decide +kernel
theorem p10_12_T_14 : pcT 862 p10_12D p10_12C0 p10_12Tab 1 2 14835 967 = true := by decide +kernel
theorem p10_12_T_15 : pcT 862 p10_12D p10_12C0 p10_12Tab 1 2 16719 917 = true := by decide +kernel
theorem p10_12_T_16 : pcT 862 p10_12D p10_12C0 p10_12Tab 1 2 18796 1160 = true := by decide +kernel
theorem p10_12_T_17 : pcT 862 p10_12D p10_12C0 p10_12Tab 1 2 21056 1100 = true := by decide +kernel
theorem p10_12_T_18 : pcT 862 p10_12D p10_12C0 p10_12Tab 1 2 23200 1044 = true := by decide +kernel
theorem p10_12_T_19 : pcT 862 p10_12D p10_12C0 p10_12Tab 1 2 25234 990 = true := by decide +kernel
theorem p10_12_T_20 : pcT 862 p10_12D p10_12C0 p10_12Tab 1 2 27476 1252 = true := by decide +kernel
theorem p10_12_T_21 : pcT 862 p10_12D p10_12C0 p10_12Tab 1 2 29916 1188 = true := by decide +kernel
theorem p10_12_T_22 : pcT 862 p10_12D p10_12C0 p10_12Tab 1 2 32231 1127 = true := by decide +kernel
theorem p10_12_T_23 : pcT 862 p10_12D p10_12C0 p10_12Tab 1 2 34426 1068 = true := by decide +kernel
theorem p10_12_T_24 : pcT 862 p10_12D p10_12C0 p10_12Tab 1 2 36507 1013 = true := by decide +kernel
theorem p10_12_T_25 : pcT 862 p10_12D p10_12C0 p10_12Tab 1 2 38801 1281 = true := by decide +kernel
theorem p10_12_T_26 : pcT 862 p10_12D p10_12C0 p10_12Tab 1 2 41297 1215 = true := by decide +kernel
theorem p10_12_T_27 : pcT 862 p10_12D p10_12C0 p10_12Tab 1 2 43664 1152 = true := by decide +kernel
theorem p10_12_T_28 : pcT 862 p10_12D p10_12C0 p10_12Tab 1 2 45909 1093 = true := by decide +kernel
theorem p10_12_T_29 : pcT 862 p10_12D p10_12C0 p10_12Tab 1 2 48039 1037 = true := by decide +kernel
theorem p10_12_T_30 : pcT 862 p10_12D p10_12C0 p10_12Tab 1 2 50059 983 = true := by decide +kernel
theorem p10_12_T_31 : pcT 862 p10_12D p10_12C0 p10_12Tab 1 2 51974 932 = true := by decide +kernel
theorem p10_12_T_32 : pcT 862 p10_12D p10_12C0 p10_12Tab 1 2 53790 884 = true := by decide +kernel
theorem p10_12_T_33 : pcT 862 p10_12D p10_12C0 p10_12Tab 1 2 55512 838 = true := by decide +kernel
theorem p10_12_T_34 : pcT 862 p10_12D p10_12C0 p10_12Tab 1 2 57144 794 = true := by decide +kernel
theorem p10_12_T_35 : pcT 862 p10_12D p10_12C0 p10_12Tab 1 2 58691 753 = true := by decide +kernel
theorem p10_12_T_36 : pcT 862 p10_12D p10_12C0 p10_12Tab 1 2 60158 714 = true := by decide +kernel
theorem p10_12_T_37 : pcT 862 p10_12D p10_12C0 p10_12Tab 1 2 61549 677 = true := by decide +kernel
theorem p10_12_T_38 : pcT 862 p10_12D p10_12C0 p10_12Tab 1 2 62868 642 = true := by decide +kernel
theorem p10_12_T_39 : pcT 862 p10_12D p10_12C0 p10_12Tab 1 2 64322 812 = true := by decide +kernel
theorem p10_12_T_40 : pcT 862 p10_12D p10_12C0 p10_12Tab 1 2 65904 770 = true := by decide +kernel
theorem p10_12_T_c0 : Covered (pcT 862 p10_12D p10_12C0 p10_12Tab 1 2) 0 552 :=
  Covered.piece 276 p10_12_T_0 (by decide +kernel)
theorem p10_12_T_c1 : Covered (pcT 862 p10_12D p10_12C0 p10_12Tab 1 2) 0 1248 :=
  p10_12_T_c0.trans (Covered.piece 348 p10_12_T_1 (by decide +kernel)) (by decide)
theorem p10_12_T_c2 : Covered (pcT 862 p10_12D p10_12C0 p10_12Tab 1 2) 0 1908 :=
  p10_12_T_c1.trans (Covered.piece 330 p10_12_T_2 (by decide +kernel)) (by decide)
theorem p10_12_T_c3 : Covered (pcT 862 p10_12D p10_12C0 p10_12Tab 1 2) 0 2532 :=
  p10_12_T_c2.trans (Covered.piece 312 p10_12_T_3 (by decide +kernel)) (by decide)
theorem p10_12_T_c4 : Covered (pcT 862 p10_12D p10_12C0 p10_12Tab 1 2) 0 3320 :=
  p10_12_T_c3.trans (Covered.piece 394 p10_12_T_4 (by decide +kernel)) (by decide)
theorem p10_12_T_c5 : Covered (pcT 862 p10_12D p10_12C0 p10_12Tab 1 2) 0 4066 :=
  p10_12_T_c4.trans (Covered.piece 373 p10_12_T_5 (by decide +kernel)) (by decide)
theorem p10_12_T_c6 : Covered (pcT 862 p10_12D p10_12C0 p10_12Tab 1 2) 0 5008 :=
  p10_12_T_c5.trans (Covered.piece 471 p10_12_T_6 (by decide +kernel)) (by decide)
theorem p10_12_T_c7 : Covered (pcT 862 p10_12D p10_12C0 p10_12Tab 1 2) 0 5900 :=
  p10_12_T_c6.trans (Covered.piece 446 p10_12_T_7 (by decide +kernel)) (by decide)
theorem p10_12_T_c8 : Covered (pcT 862 p10_12D p10_12C0 p10_12Tab 1 2) 0 7028 :=
  p10_12_T_c7.trans (Covered.piece 564 p10_12_T_8 (by decide +kernel)) (by decide)
theorem p10_12_T_c9 : Covered (pcT 862 p10_12D p10_12C0 p10_12Tab 1 2) 0 8096 :=
  p10_12_T_c8.trans (Covered.piece 534 p10_12_T_9 (by decide +kernel)) (by decide)
theorem p10_12_T_c10 : Covered (pcT 862 p10_12D p10_12C0 p10_12Tab 1 2) 0 9446 :=
  p10_12_T_c9.trans (Covered.piece 675 p10_12_T_10 (by decide +kernel)) (by decide)
theorem p10_12_T_c11 : Covered (pcT 862 p10_12D p10_12C0 p10_12Tab 1 2) 0 10724 :=
  p10_12_T_c10.trans (Covered.piece 639 p10_12_T_11 (by decide +kernel)) (by decide)
theorem p10_12_T_c12 : Covered (pcT 862 p10_12D p10_12C0 p10_12Tab 1 2) 0 12338 :=
  p10_12_T_c11.trans (Covered.piece 807 p10_12_T_12 (by decide +kernel)) (by decide)
theorem p10_12_T_c13 : Covered (pcT 862 p10_12D p10_12C0 p10_12Tab 1 2) 0 13868 :=
  p10_12_T_c12.trans (Covered.piece 765 p10_12_T_13 (by decide +kernel)) (by decide)
theorem p10_12_T_c14 : Covered (pcT 862 p10_12D p10_12C0 p10_12Tab 1 2) 0 15802 :=
  p10_12_T_c13.trans (Covered.piece 967 p10_12_T_14 (by decide +kernel)) (by decide)
theorem p10_12_T_c15 : Covered (pcT 862 p10_12D p10_12C0 p10_12Tab 1 2) 0 17636 :=
  p10_12_T_c14.trans (Covered.piece 917 p10_12_T_15 (by decide +kernel)) (by decide)
theorem p10_12_T_c16 : Covered (pcT 862 p10_12D p10_12C0 p10_12Tab 1 2) 0 19956 :=
  p10_12_T_c15.trans (Covered.piece 1160 p10_12_T_16 (by decide +kernel)) (by decide)
theorem p10_12_T_c17 : Covered (pcT 862 p10_12D p10_12C0 p10_12Tab 1 2) 0 22156 :=
  p10_12_T_c16.trans (Covered.piece 1100 p10_12_T_17 (by decide +kernel)) (by decide)
theorem p10_12_T_c18 : Covered (pcT 862 p10_12D p10_12C0 p10_12Tab 1 2) 0 24244 :=
  p10_12_T_c17.trans (Covered.piece 1044 p10_12_T_18 (by decide +kernel)) (by decide)
theorem p10_12_T_c19 : Covered (pcT 862 p10_12D p10_12C0 p10_12Tab 1 2) 0 26224 :=
  p10_12_T_c18.trans (Covered.piece 990 p10_12_T_19 (by decide +kernel)) (by decide)
theorem p10_12_T_c20 : Covered (pcT 862 p10_12D p10_12C0 p10_12Tab 1 2) 0 28728 :=
  p10_12_T_c19.trans (Covered.piece 1252 p10_12_T_20 (by decide +kernel)) (by decide)
theorem p10_12_T_c21 : Covered (pcT 862 p10_12D p10_12C0 p10_12Tab 1 2) 0 31104 :=
  p10_12_T_c20.trans (Covered.piece 1188 p10_12_T_21 (by decide +kernel)) (by decide)
theorem p10_12_T_c22 : Covered (pcT 862 p10_12D p10_12C0 p10_12Tab 1 2) 0 33358 :=
  p10_12_T_c21.trans (Covered.piece 1127 p10_12_T_22 (by decide +kernel)) (by decide)
theorem p10_12_T_c23 : Covered (pcT 862 p10_12D p10_12C0 p10_12Tab 1 2) 0 35494 :=
  p10_12_T_c22.trans (Covered.piece 1068 p10_12_T_23 (by decide +kernel)) (by decide)
theorem p10_12_T_c24 : Covered (pcT 862 p10_12D p10_12C0 p10_12Tab 1 2) 0 37520 :=
  p10_12_T_c23.trans (Covered.piece 1013 p10_12_T_24 (by decide +kernel)) (by decide)
theorem p10_12_T_c25 : Covered (pcT 862 p10_12D p10_12C0 p10_12Tab 1 2) 0 40082 :=
  p10_12_T_c24.trans (Covered.piece 1281 p10_12_T_25 (by decide +kernel)) (by decide)
theorem p10_12_T_c26 : Covered (pcT 862 p10_12D p10_12C0 p10_12Tab 1 2) 0 42512 :=
  p10_12_T_c25.trans (Covered.piece 1215 p10_12_T_26 (by decide +kernel)) (by decide)
theorem p10_12_T_c27 : Covered (pcT 862 p10_12D p10_12C0 p10_12Tab 1 2) 0 44816 :=
  p10_12_T_c26.trans (Covered.piece 1152 p10_12_T_27 (by decide +kernel)) (by decide)
theorem p10_12_T_c28 : Covered (pcT 862 p10_12D p10_12C0 p10_12Tab 1 2) 0 47002 :=
  p10_12_T_c27.trans (Covered.piece 1093 p10_12_T_28 (by decide +kernel)) (by decide)
theorem p10_12_T_c29 : Covered (pcT 862 p10_12D p10_12C0 p10_12Tab 1 2) 0 49076 :=
  p10_12_T_c28.trans (Covered.piece 1037 p10_12_T_29 (by decide +kernel)) (by decide)
theorem p10_12_T_c30 : Covered (pcT 862 p10_12D p10_12C0 p10_12Tab 1 2) 0 51042 :=
  p10_12_T_c29.trans (Covered.piece 983 p10_12_T_30 (by decide +kernel)) (by decide)
theorem p10_12_T_c31 : Covered (pcT 862 p10_12D p10_12C0 p10_12Tab 1 2) 0 52906 :=
  p10_12_T_c30.trans (Covered.piece 932 p10_12_T_31 (by decide +kernel)) (by decide)
theorem p10_12_T_c32 : Covered (pcT 862 p10_12D p10_12C0 p10_12Tab 1 2) 0 54674 :=
  p10_12_T_c31.trans (Covered.piece 884 p10_12_T_32 (by decide +kernel)) (by decide)
theorem p10_12_T_c33 : Covered (pcT 862 p10_12D p10_12C0 p10_12Tab 1 2) 0 56350 :=
  p10_12_T_c32.trans (Covered.piece 838 p10_12_T_33 (by decide +kernel)) (by decide)
theorem p10_12_T_c34 : Covered (pcT 862 p10_12D p10_12C0 p10_12Tab 1 2) 0 57938 :=
  p10_12_T_c33.trans (Covered.piece 794 p10_12_T_34 (by decide +kernel)) (by decide)
theorem p10_12_T_c35 : Covered (pcT 862 p10_12D p10_12C0 p10_12Tab 1 2) 0 59444 :=
  p10_12_T_c34.trans (Covered.piece 753 p10_12_T_35 (by decide +kernel)) (by decide)
theorem p10_12_T_c36 : Covered (pcT 862 p10_12D p10_12C0 p10_12Tab 1 2) 0 60872 :=
  p10_12_T_c35.trans (Covered.piece 714 p10_12_T_36 (by decide +kernel)) (by decide)
theorem p10_12_T_c37 : Covered (pcT 862 p10_12D p10_12C0 p10_12Tab 1 2) 0 62226 :=
  p10_12_T_c36.trans (Covered.piece 677 p10_12_T_37 (by decide +kernel)) (by decide)
theorem p10_12_T_c38 : Covered (pcT 862 p10_12D p10_12C0 p10_12Tab 1 2) 0 63510 :=
  p10_12_T_c37.trans (Covered.piece 642 p10_12_T_38 (by decide +kernel)) (by decide)
theorem p10_12_T_c39 : Covered (pcT 862 p10_12D p10_12C0 p10_12Tab 1 2) 0 65134 :=
  p10_12_T_c38.trans (Covered.piece 812 p10_12_T_39 (by decide +kernel)) (by decide)
theorem p10_12_T_c40 : Covered (pcT 862 p10_12D p10_12C0 p10_12Tab 1 2) 0 66674 :=
  p10_12_T_c39.trans (Covered.piece 770 p10_12_T_40 (by decide +kernel)) (by decide)
theorem p10_12_tail (x : ℝ) (hx : x ≤ -1) : |rVal p10_12D p10_12C0 p10_12Tab x| ≤ (1 : ℕ) / (2 : ℕ) :=
  tail_sound p10_12_side (by norm_num) (by norm_num) p10_12_T_c40 x hx
theorem p12_14_T_0 : pcT 1003 p12_14D p12_14C0 p12_14Tab 1 2 207 207 = true := by decide +kernel
theorem p12_14_T_1 : pcT 1003 p12_14D p12_14C0 p12_14Tab 1 2 609 195 = true := by decide +kernel
theorem p12_14_T_2 : pcT 1003 p12_14D p12_14C0 p12_14Tab 1 2 1050 246 = true := by decide +kernel
theorem p12_14_T_3 : pcT 1003 p12_14D p12_14C0 p12_14Tab 1 2 1528 232 = true := by decide +kernel
theorem p12_14_T_4 : pcT 1003 p12_14D p12_14C0 p12_14Tab 1 2 1979 219 = true := by decide +kernel
theorem p12_14_T_5 : pcT 1003 p12_14D p12_14C0 p12_14Tab 1 2 2474 276 = true := by decide +kernel
theorem p12_14_T_6 : pcT 1003 p12_14D p12_14C0 p12_14Tab 1 2 3011 261 = true := by decide +kernel
theorem p12_14_T_7 : pcT 1003 p12_14D p12_14C0 p12_14Tab 1 2 3602 330 = true := by decide +kernel
theorem p12_14_T_8 : pcT 1003 p12_14D p12_14C0 p12_14Tab 1 2 4244 312 = true := by decide +kernel
theorem p12_14_T_9 : pcT 1003 p12_14D p12_14C0 p12_14Tab 1 2 4950 394 = true := by decide +kernel
theorem p12_14_T_10 : pcT 1003 p12_14D p12_14C0 p12_14Tab 1 2 5717 373 = true := by decide +kernel
theorem p12_14_T_11 : pcT 1003 p12_14D p12_14C0 p12_14Tab 1 2 6561 471 = true := by decide +kernel
theorem p12_14_T_12 : pcT 1003 p12_14D p12_14C0 p12_14Tab 1 2 7478 446 = true := by decide +kernel
theorem p12_14_T_13 : pcT 1003 p12_14D p12_14C0 p12_14Tab 1 2 8488 564 = true := by decide +kernel
theorem p12_14_T_14 : pcT 1003 p12_14D p12_14C0 p12_14Tab 1 2 9586 534 = true := by decide +kernel
theorem p12_14_T_15 : pcT 1003 p12_14D p12_14C0 p12_14Tab 1 2 10795 675 = true := by decide +kernel
theorem p12_14_T_16 : pcT 1003 p12_14D p12_14C0 p12_14Tab 1 2 12109 639 = true := by decide +kernel
theorem p12_14_T_17 : pcT 1003 p12_14D p12_14C0 p12_14Tab 1 2 13353 605 = true := by decide +kernel
theorem p12_14_T_18 : pcT 1003 p12_14D p12_14C0 p12_14Tab 1 2 14723 765 = true := by decide +kernel
theorem p12_14_T_19 : pcT 1003 p12_14D p12_14C0 p12_14Tab 1 2 16213 725 = true := by decide +kernel
theorem p12_14_T_20 : pcT 1003 p12_14D p12_14C0 p12_14Tab 1 2 17855 917 = true := by decide +kernel
theorem p12_14_T_21 : pcT 1003 p12_14D p12_14C0 p12_14Tab 1 2 19642 870 = true := by decide +kernel
theorem p12_14_T_22 : pcT 1003 p12_14D p12_14C0 p12_14Tab 1 2 21337 825 = true := by decide +kernel
theorem p12_14_T_23 : pcT 1003 p12_14D p12_14C0 p12_14Tab 1 2 23206 1044 = true := by decide +kernel
theorem p12_14_T_24 : pcT 1003 p12_14D p12_14C0 p12_14Tab 1 2 25240 990 = true := by decide +kernel
theorem p12_14_T_25 : pcT 1003 p12_14D p12_14C0 p12_14Tab 1 2 27169 939 = true := by decide +kernel
theorem p12_14_T_26 : pcT 1003 p12_14D p12_14C0 p12_14Tab 1 2 28999 891 = true := by decide +kernel
theorem p12_14_T_27 : pcT 1003 p12_14D p12_14C0 p12_14Tab 1 2 30735 845 = true := by decide +kernel
theorem p12_14_T_28 : pcT 1003 p12_14D p12_14C0 p12_14Tab 1 2 32648 1068 = true := by decide +kernel
theorem p12_14_T_29 : pcT 1003 p12_14D p12_14C0 p12_14Tab 1 2 34729 1013 = true := by decide +kernel
theorem p12_14_T_30 : pcT 1003 p12_14D p12_14C0 p12_14Tab 1 2 36702 960 = true := by decide +kernel
theorem p12_14_T_31 : pcT 1003 p12_14D p12_14C0 p12_14Tab 1 2 38573 911 = true := by decide +kernel
theorem p12_14_T_32 : pcT 1003 p12_14D p12_14C0 p12_14Tab 1 2 40348 864 = true := by decide +kernel
theorem p12_14_T_33 : pcT 1003 p12_14D p12_14C0 p12_14Tab 1 2 42031 819 = true := by decide +kernel
theorem p12_14_T_34 : pcT 1003 p12_14D p12_14C0 p12_14Tab 1 2 43626 776 = true := by decide +kernel
theorem p12_14_T_35 : pcT 1003 p12_14D p12_14C0 p12_14Tab 1 2 45383 981 = true := by decide +kernel
theorem p12_14_T_36 : pcT 1003 p12_14D p12_14C0 p12_14Tab 1 2 47294 930 = true := by decide +kernel
theorem p12_14_T_37 : pcT 1003 p12_14D p12_14C0 p12_14Tab 1 2 49106 882 = true := by decide +kernel
theorem p12_14_T_38 : pcT 1003 p12_14D p12_14C0 p12_14Tab 1 2 50825 837 = true := by decide +kernel
theorem p12_14_T_39 : pcT 1003 p12_14D p12_14C0 p12_14Tab 1 2 52456 794 = true := by decide +kernel
theorem p12_14_T_40 : pcT 1003 p12_14D p12_14C0 p12_14Tab 1 2 54003 753 = true := by decide +kernel
theorem p12_14_T_41 : pcT 1003 p12_14D p12_14C0 p12_14Tab 1 2 55470 714 = true := by decide +kernel
theorem p12_14_T_42 : pcT 1003 p12_14D p12_14C0 p12_14Tab 1 2 56861 677 = true := by decide +kernel
theorem p12_14_T_43 : pcT 1003 p12_14D p12_14C0 p12_14Tab 1 2 58180 642 = true := by decide +kernel
theorem p12_14_T_44 : pcT 1003 p12_14D p12_14C0 p12_14Tab 1 2 59431 609 = true := by decide +kernel
theorem p12_14_T_45 : pcT 1003 p12_14D p12_14C0 p12_14Tab 1 2 60617 577 = true := by decide +kernel
theorem p12_14_T_46 : pcT 1003 p12_14D p12_14C0 p12_14Tab 1 2 61923 729 = true := by decide +kernel
theorem p12_14_T_47 : pcT 1003 p12_14D p12_14C0 p12_14Tab 1 2 63343 691 = true := by decide +kernel
theorem p12_14_T_48 : pcT 1003 p12_14D p12_14C0 p12_14Tab 1 2 64688 654 = true := by decide +kernel
theorem p12_14_T_49 : pcT 1003 p12_14D p12_14C0 p12_14Tab 1 2 65962 620 = true := by decide +kernel
theorem p12_14_T_c0 : Covered (pcT 1003 p12_14D p12_14C0 p12_14Tab 1 2) 0 414 :=
  Covered.piece 207 p12_14_T_0 (by decide +kernel)
theorem p12_14_T_c1 : Covered (pcT 1003 p12_14D p12_14C0 p12_14Tab 1 2) 0 804 :=
  p12_14_T_c0.trans (Covered.piece 195 p12_14_T_1 (by decide +kernel)) (by decide)
theorem p12_14_T_c2 : Covered (pcT 1003 p12_14D p12_14C0 p12_14Tab 1 2) 0 1296 :=
  p12_14_T_c1.trans (Covered.piece 246 p12_14_T_2 (by decide +kernel)) (by decide)
theorem p12_14_T_c3 : Covered (pcT 1003 p12_14D p12_14C0 p12_14Tab 1 2) 0 1760 :=
  p12_14_T_c2.trans (Covered.piece 232 p12_14_T_3 (by decide +kernel)) (by decide)
theorem p12_14_T_c4 : Covered (pcT 1003 p12_14D p12_14C0 p12_14Tab 1 2) 0 2198 :=
  p12_14_T_c3.trans (Covered.piece 219 p12_14_T_4 (by decide +kernel)) (by decide)
theorem p12_14_T_c5 : Covered (pcT 1003 p12_14D p12_14C0 p12_14Tab 1 2) 0 2750 :=
  p12_14_T_c4.trans (Covered.piece 276 p12_14_T_5 (by decide +kernel)) (by decide)
theorem p12_14_T_c6 : Covered (pcT 1003 p12_14D p12_14C0 p12_14Tab 1 2) 0 3272 :=
  p12_14_T_c5.trans (Covered.piece 261 p12_14_T_6 (by decide +kernel)) (by decide)
theorem p12_14_T_c7 : Covered (pcT 1003 p12_14D p12_14C0 p12_14Tab 1 2) 0 3932 :=
  p12_14_T_c6.trans (Covered.piece 330 p12_14_T_7 (by decide +kernel)) (by decide)
theorem p12_14_T_c8 : Covered (pcT 1003 p12_14D p12_14C0 p12_14Tab 1 2) 0 4556 :=
  p12_14_T_c7.trans (Covered.piece 312 p12_14_T_8 (by decide +kernel)) (by decide)
theorem p12_14_T_c9 : Covered (pcT 1003 p12_14D p12_14C0 p12_14Tab 1 2) 0 5344 :=
  p12_14_T_c8.trans (Covered.piece 394 p12_14_T_9 (by decide +kernel)) (by decide)
theorem p12_14_T_c10 : Covered (pcT 1003 p12_14D p12_14C0 p12_14Tab 1 2) 0 6090 :=
  p12_14_T_c9.trans (Covered.piece 373 p12_14_T_10 (by decide +kernel)) (by decide)
theorem p12_14_T_c11 : Covered (pcT 1003 p12_14D p12_14C0 p12_14Tab 1 2) 0 7032 :=
  p12_14_T_c10.trans (Covered.piece 471 p12_14_T_11 (by decide +kernel)) (by decide)
theorem p12_14_T_c12 : Covered (pcT 1003 p12_14D p12_14C0 p12_14Tab 1 2) 0 7924 :=
  p12_14_T_c11.trans (Covered.piece 446 p12_14_T_12 (by decide +kernel)) (by decide)
theorem p12_14_T_c13 : Covered (pcT 1003 p12_14D p12_14C0 p12_14Tab 1 2) 0 9052 :=
  p12_14_T_c12.trans (Covered.piece 564 p12_14_T_13 (by decide +kernel)) (by decide)
theorem p12_14_T_c14 : Covered (pcT 1003 p12_14D p12_14C0 p12_14Tab 1 2) 0 10120 :=
  p12_14_T_c13.trans (Covered.piece 534 p12_14_T_14 (by decide +kernel)) (by decide)
theorem p12_14_T_c15 : Covered (pcT 1003 p12_14D p12_14C0 p12_14Tab 1 2) 0 11470 :=
  p12_14_T_c14.trans (Covered.piece 675 p12_14_T_15 (by decide +kernel)) (by decide)
theorem p12_14_T_c16 : Covered (pcT 1003 p12_14D p12_14C0 p12_14Tab 1 2) 0 12748 :=
  p12_14_T_c15.trans (Covered.piece 639 p12_14_T_16 (by decide +kernel)) (by decide)
theorem p12_14_T_c17 : Covered (pcT 1003 p12_14D p12_14C0 p12_14Tab 1 2) 0 13958 :=
  p12_14_T_c16.trans (Covered.piece 605 p12_14_T_17 (by decide +kernel)) (by decide)
theorem p12_14_T_c18 : Covered (pcT 1003 p12_14D p12_14C0 p12_14Tab 1 2) 0 15488 :=
  p12_14_T_c17.trans (Covered.piece 765 p12_14_T_18 (by decide +kernel)) (by decide)
theorem p12_14_T_c19 : Covered (pcT 1003 p12_14D p12_14C0 p12_14Tab 1 2) 0 16938 :=
  p12_14_T_c18.trans (Covered.piece 725 p12_14_T_19 (by decide +kernel)) (by decide)
theorem p12_14_T_c20 : Covered (pcT 1003 p12_14D p12_14C0 p12_14Tab 1 2) 0 18772 :=
  p12_14_T_c19.trans (Covered.piece 917 p12_14_T_20 (by decide +kernel)) (by decide)
theorem p12_14_T_c21 : Covered (pcT 1003 p12_14D p12_14C0 p12_14Tab 1 2) 0 20512 :=
  p12_14_T_c20.trans (Covered.piece 870 p12_14_T_21 (by decide +kernel)) (by decide)
theorem p12_14_T_c22 : Covered (pcT 1003 p12_14D p12_14C0 p12_14Tab 1 2) 0 22162 :=
  p12_14_T_c21.trans (Covered.piece 825 p12_14_T_22 (by decide +kernel)) (by decide)
theorem p12_14_T_c23 : Covered (pcT 1003 p12_14D p12_14C0 p12_14Tab 1 2) 0 24250 :=
  p12_14_T_c22.trans (Covered.piece 1044 p12_14_T_23 (by decide +kernel)) (by decide)
theorem p12_14_T_c24 : Covered (pcT 1003 p12_14D p12_14C0 p12_14Tab 1 2) 0 26230 :=
  p12_14_T_c23.trans (Covered.piece 990 p12_14_T_24 (by decide +kernel)) (by decide)
theorem p12_14_T_c25 : Covered (pcT 1003 p12_14D p12_14C0 p12_14Tab 1 2) 0 28108 :=
  p12_14_T_c24.trans (Covered.piece 939 p12_14_T_25 (by decide +kernel)) (by decide)
theorem p12_14_T_c26 : Covered (pcT 1003 p12_14D p12_14C0 p12_14Tab 1 2) 0 29890 :=
  p12_14_T_c25.trans (Covered.piece 891 p12_14_T_26 (by decide +kernel)) (by decide)
theorem p12_14_T_c27 : Covered (pcT 1003 p12_14D p12_14C0 p12_14Tab 1 2) 0 31580 :=
  p12_14_T_c26.trans (Covered.piece 845 p12_14_T_27 (by decide +kernel)) (by decide)
theorem p12_14_T_c28 : Covered (pcT 1003 p12_14D p12_14C0 p12_14Tab 1 2) 0 33716 :=
  p12_14_T_c27.trans (Covered.piece 1068 p12_14_T_28 (by decide +kernel)) (by decide)
theorem p12_14_T_c29 : Covered (pcT 1003 p12_14D p12_14C0 p12_14Tab 1 2) 0 35742 :=
  p12_14_T_c28.trans (Covered.piece 1013 p12_14_T_29 (by decide +kernel)) (by decide)
theorem p12_14_T_c30 : Covered (pcT 1003 p12_14D p12_14C0 p12_14Tab 1 2) 0 37662 :=
  p12_14_T_c29.trans (Covered.piece 960 p12_14_T_30 (by decide +kernel)) (by decide)
theorem p12_14_T_c31 : Covered (pcT 1003 p12_14D p12_14C0 p12_14Tab 1 2) 0 39484 :=
  p12_14_T_c30.trans (Covered.piece 911 p12_14_T_31 (by decide +kernel)) (by decide)
theorem p12_14_T_c32 : Covered (pcT 1003 p12_14D p12_14C0 p12_14Tab 1 2) 0 41212 :=
  p12_14_T_c31.trans (Covered.piece 864 p12_14_T_32 (by decide +kernel)) (by decide)
theorem p12_14_T_c33 : Covered (pcT 1003 p12_14D p12_14C0 p12_14Tab 1 2) 0 42850 :=
  p12_14_T_c32.trans (Covered.piece 819 p12_14_T_33 (by decide +kernel)) (by decide)
theorem p12_14_T_c34 : Covered (pcT 1003 p12_14D p12_14C0 p12_14Tab 1 2) 0 44402 :=
  p12_14_T_c33.trans (Covered.piece 776 p12_14_T_34 (by decide +kernel)) (by decide)
theorem p12_14_T_c35 : Covered (pcT 1003 p12_14D p12_14C0 p12_14Tab 1 2) 0 46364 :=
  p12_14_T_c34.trans (Covered.piece 981 p12_14_T_35 (by decide +kernel)) (by decide)
theorem p12_14_T_c36 : Covered (pcT 1003 p12_14D p12_14C0 p12_14Tab 1 2) 0 48224 :=
  p12_14_T_c35.trans (Covered.piece 930 p12_14_T_36 (by decide +kernel)) (by decide)
theorem p12_14_T_c37 : Covered (pcT 1003 p12_14D p12_14C0 p12_14Tab 1 2) 0 49988 :=
  p12_14_T_c36.trans (Covered.piece 882 p12_14_T_37 (by decide +kernel)) (by decide)
theorem p12_14_T_c38 : Covered (pcT 1003 p12_14D p12_14C0 p12_14Tab 1 2) 0 51662 :=
  p12_14_T_c37.trans (Covered.piece 837 p12_14_T_38 (by decide +kernel)) (by decide)
theorem p12_14_T_c39 : Covered (pcT 1003 p12_14D p12_14C0 p12_14Tab 1 2) 0 53250 :=
  p12_14_T_c38.trans (Covered.piece 794 p12_14_T_39 (by decide +kernel)) (by decide)
theorem p12_14_T_c40 : Covered (pcT 1003 p12_14D p12_14C0 p12_14Tab 1 2) 0 54756 :=
  p12_14_T_c39.trans (Covered.piece 753 p12_14_T_40 (by decide +kernel)) (by decide)
theorem p12_14_T_c41 : Covered (pcT 1003 p12_14D p12_14C0 p12_14Tab 1 2) 0 56184 :=
  p12_14_T_c40.trans (Covered.piece 714 p12_14_T_41 (by decide +kernel)) (by decide)
theorem p12_14_T_c42 : Covered (pcT 1003 p12_14D p12_14C0 p12_14Tab 1 2) 0 57538 :=
  p12_14_T_c41.trans (Covered.piece 677 p12_14_T_42 (by decide +kernel)) (by decide)
theorem p12_14_T_c43 : Covered (pcT 1003 p12_14D p12_14C0 p12_14Tab 1 2) 0 58822 :=
  p12_14_T_c42.trans (Covered.piece 642 p12_14_T_43 (by decide +kernel)) (by decide)
theorem p12_14_T_c44 : Covered (pcT 1003 p12_14D p12_14C0 p12_14Tab 1 2) 0 60040 :=
  p12_14_T_c43.trans (Covered.piece 609 p12_14_T_44 (by decide +kernel)) (by decide)
theorem p12_14_T_c45 : Covered (pcT 1003 p12_14D p12_14C0 p12_14Tab 1 2) 0 61194 :=
  p12_14_T_c44.trans (Covered.piece 577 p12_14_T_45 (by decide +kernel)) (by decide)
theorem p12_14_T_c46 : Covered (pcT 1003 p12_14D p12_14C0 p12_14Tab 1 2) 0 62652 :=
  p12_14_T_c45.trans (Covered.piece 729 p12_14_T_46 (by decide +kernel)) (by decide)
theorem p12_14_T_c47 : Covered (pcT 1003 p12_14D p12_14C0 p12_14Tab 1 2) 0 64034 :=
  p12_14_T_c46.trans (Covered.piece 691 p12_14_T_47 (by decide +kernel)) (by decide)
theorem p12_14_T_c48 : Covered (pcT 1003 p12_14D p12_14C0 p12_14Tab 1 2) 0 65342 :=
  p12_14_T_c47.trans (Covered.piece 654 p12_14_T_48 (by decide +kernel)) (by decide)
theorem p12_14_T_c49 : Covered (pcT 1003 p12_14D p12_14C0 p12_14Tab 1 2) 0 66582 :=
  p12_14_T_c48.trans (Covered.piece 620 p12_14_T_49 (by decide +kernel)) (by decide)
theorem p12_14_tail (x : ℝ) (hx : x ≤ -1) : |rVal p12_14D p12_14C0 p12_14Tab x| ≤ (1 : ℕ) / (2 : ℕ) :=
  tail_sound p12_14_side (by norm_num) (by norm_num) p12_14_T_c49 x hx
theorem p0_4_T_0 : pcT 322 p0_4D p0_4C0 p0_4Tab 1 2 6561 6561 = true := by decide +kernel
theorem p0_4_T_1 : pcT 322 p0_4D p0_4C0 p0_4Tab 1 2 19349 6227 = true := by decide +kernel
theorem p0_4_T_2 : pcT 322 p0_4D p0_4C0 p0_4Tab 1 2 30008 4432 = true := by decide +kernel
theorem p0_4_T_3 : pcT 322 p0_4D p0_4C0 p0_4Tab 1 2 38646 4206 = true := by decide +kernel
theorem p0_4_T_4 : pcT 322 p0_4D p0_4C0 p0_4Tab 1 2 46843 3991 = true := by decide +kernel
theorem p0_4_T_5 : pcT 322 p0_4D p0_4C0 p0_4Tab 1 2 53674 2840 = true := by decide +kernel
theorem p0_4_T_6 : pcT 322 p0_4D p0_4C0 p0_4Tab 1 2 59209 2695 = true := by decide +kernel
theorem p0_4_T_7 : pcT 322 p0_4D p0_4C0 p0_4Tab 1 2 64461 2557 = true := by decide +kernel
theorem p0_4_T_c0 : Covered (pcT 322 p0_4D p0_4C0 p0_4Tab 1 2) 0 13122 :=
  Covered.piece 6561 p0_4_T_0 (by decide +kernel)
theorem p0_4_T_c1 : Covered (pcT 322 p0_4D p0_4C0 p0_4Tab 1 2) 0 25576 :=
  p0_4_T_c0.trans (Covered.piece 6227 p0_4_T_1 (by decide +kernel)) (by decide)
theorem p0_4_T_c2 : Covered (pcT 322 p0_4D p0_4C0 p0_4Tab 1 2) 0 34440 :=
  p0_4_T_c1.trans (Covered.piece 4432 p0_4_T_2 (by decide +kernel)) (by decide)
theorem p0_4_T_c3 : Covered (pcT 322 p0_4D p0_4C0 p0_4Tab 1 2) 0 42852 :=
  p0_4_T_c2.trans (Covered.piece 4206 p0_4_T_3 (by decide +kernel)) (by decide)
theorem p0_4_T_c4 : Covered (pcT 322 p0_4D p0_4C0 p0_4Tab 1 2) 0 50834 :=
  p0_4_T_c3.trans (Covered.piece 3991 p0_4_T_4 (by decide +kernel)) (by decide)
theorem p0_4_T_c5 : Covered (pcT 322 p0_4D p0_4C0 p0_4Tab 1 2) 0 56514 :=
  p0_4_T_c4.trans (Covered.piece 2840 p0_4_T_5 (by decide +kernel)) (by decide)
theorem p0_4_T_c6 : Covered (pcT 322 p0_4D p0_4C0 p0_4Tab 1 2) 0 61904 :=
  p0_4_T_c5.trans (Covered.piece 2695 p0_4_T_6 (by decide +kernel)) (by decide)
theorem p0_4_T_c7 : Covered (pcT 322 p0_4D p0_4C0 p0_4Tab 1 2) 0 67018 :=
  p0_4_T_c6.trans (Covered.piece 2557 p0_4_T_7 (by decide +kernel)) (by decide)
theorem p0_4_tail (x : ℝ) (hx : x ≤ -1) : |rVal p0_4D p0_4C0 p0_4Tab x| ≤ (1 : ℕ) / (2 : ℕ) :=
  tail_sound p0_4_side (by norm_num) (by norm_num) p0_4_T_c7 x hx
theorem p0_6_T_0 : pcT 483 p0_6D p0_6C0 p0_6Tab 1 2 4920 4920 = true := by decide +kernel
theorem p0_6_T_1 : pcT 483 p0_6D p0_6C0 p0_6Tab 1 2 13341 3501 = true := by decide +kernel
theorem p0_6_T_2 : pcT 483 p0_6D p0_6C0 p0_6Tab 1 2 20164 3322 = true := by decide +kernel
theorem p0_6_T_3 : pcT 483 p0_6D p0_6C0 p0_6Tab 1 2 26638 3152 = true := by decide +kernel
theorem p0_6_T_4 : pcT 483 p0_6D p0_6C0 p0_6Tab 1 2 32781 2991 = true := by decide +kernel
theorem p0_6_T_5 : pcT 483 p0_6D p0_6C0 p0_6Tab 1 2 38610 2838 = true := by decide +kernel
theorem p0_6_T_6 : pcT 483 p0_6D p0_6C0 p0_6Tab 1 2 44141 2693 = true := by decide +kernel
theorem p0_6_T_7 : pcT 483 p0_6D p0_6C0 p0_6Tab 1 2 49390 2556 = true := by decide +kernel
theorem p0_6_T_8 : pcT 483 p0_6D p0_6C0 p0_6Tab 1 2 53764 1818 = true := by decide +kernel
theorem p0_6_T_9 : pcT 483 p0_6D p0_6C0 p0_6Tab 1 2 57307 1725 = true := by decide +kernel
theorem p0_6_T_10 : pcT 483 p0_6D p0_6C0 p0_6Tab 1 2 60668 1636 = true := by decide +kernel
theorem p0_6_T_11 : pcT 483 p0_6D p0_6C0 p0_6Tab 1 2 63856 1552 = true := by decide +kernel
theorem p0_6_T_12 : pcT 483 p0_6D p0_6C0 p0_6Tab 1 2 66881 1473 = true := by decide +kernel
theorem p0_6_T_c0 : Covered (pcT 483 p0_6D p0_6C0 p0_6Tab 1 2) 0 9840 :=
  Covered.piece 4920 p0_6_T_0 (by decide +kernel)
theorem p0_6_T_c1 : Covered (pcT 483 p0_6D p0_6C0 p0_6Tab 1 2) 0 16842 :=
  p0_6_T_c0.trans (Covered.piece 3501 p0_6_T_1 (by decide +kernel)) (by decide)
theorem p0_6_T_c2 : Covered (pcT 483 p0_6D p0_6C0 p0_6Tab 1 2) 0 23486 :=
  p0_6_T_c1.trans (Covered.piece 3322 p0_6_T_2 (by decide +kernel)) (by decide)
theorem p0_6_T_c3 : Covered (pcT 483 p0_6D p0_6C0 p0_6Tab 1 2) 0 29790 :=
  p0_6_T_c2.trans (Covered.piece 3152 p0_6_T_3 (by decide +kernel)) (by decide)
theorem p0_6_T_c4 : Covered (pcT 483 p0_6D p0_6C0 p0_6Tab 1 2) 0 35772 :=
  p0_6_T_c3.trans (Covered.piece 2991 p0_6_T_4 (by decide +kernel)) (by decide)
theorem p0_6_T_c5 : Covered (pcT 483 p0_6D p0_6C0 p0_6Tab 1 2) 0 41448 :=
  p0_6_T_c4.trans (Covered.piece 2838 p0_6_T_5 (by decide +kernel)) (by decide)
theorem p0_6_T_c6 : Covered (pcT 483 p0_6D p0_6C0 p0_6Tab 1 2) 0 46834 :=
  p0_6_T_c5.trans (Covered.piece 2693 p0_6_T_6 (by decide +kernel)) (by decide)
theorem p0_6_T_c7 : Covered (pcT 483 p0_6D p0_6C0 p0_6Tab 1 2) 0 51946 :=
  p0_6_T_c6.trans (Covered.piece 2556 p0_6_T_7 (by decide +kernel)) (by decide)
theorem p0_6_T_c8 : Covered (pcT 483 p0_6D p0_6C0 p0_6Tab 1 2) 0 55582 :=
  p0_6_T_c7.trans (Covered.piece 1818 p0_6_T_8 (by decide +kernel)) (by decide)
theorem p0_6_T_c9 : Covered (pcT 483 p0_6D p0_6C0 p0_6Tab 1 2) 0 59032 :=
  p0_6_T_c8.trans (Covered.piece 1725 p0_6_T_9 (by decide +kernel)) (by decide)
theorem p0_6_T_c10 : Covered (pcT 483 p0_6D p0_6C0 p0_6Tab 1 2) 0 62304 :=
  p0_6_T_c9.trans (Covered.piece 1636 p0_6_T_10 (by decide +kernel)) (by decide)
theorem p0_6_T_c11 : Covered (pcT 483 p0_6D p0_6C0 p0_6Tab 1 2) 0 65408 :=
  p0_6_T_c10.trans (Covered.piece 1552 p0_6_T_11 (by decide +kernel)) (by decide)
theorem p0_6_T_c12 : Covered (pcT 483 p0_6D p0_6C0 p0_6Tab 1 2) 0 68354 :=
  p0_6_T_c11.trans (Covered.piece 1473 p0_6_T_12 (by decide +kernel)) (by decide)
theorem p0_6_tail (x : ℝ) (hx : x ≤ -1) : |rVal p0_6D p0_6C0 p0_6Tab x| ≤ (1 : ℕ) / (2 : ℕ) :=
  tail_sound p0_6_side (by norm_num) (by norm_num) p0_6_T_c12 x hx
theorem p0_8_T_0 : pcT 627 p0_8D p0_8C0 p0_8Tab 1 2 2767 2767 = true := by decide +kernel
theorem p0_8_T_1 : pcT 627 p0_8D p0_8C0 p0_8Tab 1 2 8159 2625 = true := by decide +kernel
theorem p0_8_T_2 : pcT 627 p0_8D p0_8C0 p0_8Tab 1 2 13274 2490 = true := by decide +kernel
theorem p0_8_T_3 : pcT 627 p0_8D p0_8C0 p0_8Tab 1 2 18126 2362 = true := by decide +kernel
theorem p0_8_T_4 : pcT 627 p0_8D p0_8C0 p0_8Tab 1 2 22729 2241 = true := by decide +kernel
theorem p0_8_T_5 : pcT 627 p0_8D p0_8C0 p0_8Tab 1 2 27096 2126 = true := by decide +kernel
theorem p0_8_T_6 : pcT 627 p0_8D p0_8C0 p0_8Tab 1 2 31239 2017 = true := by decide +kernel
theorem p0_8_T_7 : pcT 627 p0_8D p0_8C0 p0_8Tab 1 2 35170 1914 = true := by decide +kernel
theorem p0_8_T_8 : pcT 627 p0_8D p0_8C0 p0_8Tab 1 2 38899 1815 = true := by decide +kernel
theorem p0_8_T_9 : pcT 627 p0_8D p0_8C0 p0_8Tab 1 2 42436 1722 = true := by decide +kernel
theorem p0_8_T_10 : pcT 627 p0_8D p0_8C0 p0_8Tab 1 2 45791 1633 = true := by decide +kernel
theorem p0_8_T_11 : pcT 627 p0_8D p0_8C0 p0_8Tab 1 2 48973 1549 = true := by decide +kernel
theorem p0_8_T_12 : pcT 627 p0_8D p0_8C0 p0_8Tab 1 2 51991 1469 = true := by decide +kernel
theorem p0_8_T_13 : pcT 627 p0_8D p0_8C0 p0_8Tab 1 2 54853 1393 = true := by decide +kernel
theorem p0_8_T_14 : pcT 627 p0_8D p0_8C0 p0_8Tab 1 2 57567 1321 = true := by decide +kernel
theorem p0_8_T_15 : pcT 627 p0_8D p0_8C0 p0_8Tab 1 2 60141 1253 = true := by decide +kernel
theorem p0_8_T_16 : pcT 627 p0_8D p0_8C0 p0_8Tab 1 2 62582 1188 = true := by decide +kernel
theorem p0_8_T_17 : pcT 627 p0_8D p0_8C0 p0_8Tab 1 2 64897 1127 = true := by decide +kernel
theorem p0_8_T_c0 : Covered (pcT 627 p0_8D p0_8C0 p0_8Tab 1 2) 0 5534 :=
  Covered.piece 2767 p0_8_T_0 (by decide +kernel)
theorem p0_8_T_c1 : Covered (pcT 627 p0_8D p0_8C0 p0_8Tab 1 2) 0 10784 :=
  p0_8_T_c0.trans (Covered.piece 2625 p0_8_T_1 (by decide +kernel)) (by decide)
theorem p0_8_T_c2 : Covered (pcT 627 p0_8D p0_8C0 p0_8Tab 1 2) 0 15764 :=
  p0_8_T_c1.trans (Covered.piece 2490 p0_8_T_2 (by decide +kernel)) (by decide)
theorem p0_8_T_c3 : Covered (pcT 627 p0_8D p0_8C0 p0_8Tab 1 2) 0 20488 :=
  p0_8_T_c2.trans (Covered.piece 2362 p0_8_T_3 (by decide +kernel)) (by decide)
theorem p0_8_T_c4 : Covered (pcT 627 p0_8D p0_8C0 p0_8Tab 1 2) 0 24970 :=
  p0_8_T_c3.trans (Covered.piece 2241 p0_8_T_4 (by decide +kernel)) (by decide)
theorem p0_8_T_c5 : Covered (pcT 627 p0_8D p0_8C0 p0_8Tab 1 2) 0 29222 :=
  p0_8_T_c4.trans (Covered.piece 2126 p0_8_T_5 (by decide +kernel)) (by decide)
theorem p0_8_T_c6 : Covered (pcT 627 p0_8D p0_8C0 p0_8Tab 1 2) 0 33256 :=
  p0_8_T_c5.trans (Covered.piece 2017 p0_8_T_6 (by decide +kernel)) (by decide)
theorem p0_8_T_c7 : Covered (pcT 627 p0_8D p0_8C0 p0_8Tab 1 2) 0 37084 :=
  p0_8_T_c6.trans (Covered.piece 1914 p0_8_T_7 (by decide +kernel)) (by decide)
theorem p0_8_T_c8 : Covered (pcT 627 p0_8D p0_8C0 p0_8Tab 1 2) 0 40714 :=
  p0_8_T_c7.trans (Covered.piece 1815 p0_8_T_8 (by decide +kernel)) (by decide)
theorem p0_8_T_c9 : Covered (pcT 627 p0_8D p0_8C0 p0_8Tab 1 2) 0 44158 :=
  p0_8_T_c8.trans (Covered.piece 1722 p0_8_T_9 (by decide +kernel)) (by decide)
theorem p0_8_T_c10 : Covered (pcT 627 p0_8D p0_8C0 p0_8Tab 1 2) 0 47424 :=
  p0_8_T_c9.trans (Covered.piece 1633 p0_8_T_10 (by decide +kernel)) (by decide)
theorem p0_8_T_c11 : Covered (pcT 627 p0_8D p0_8C0 p0_8Tab 1 2) 0 50522 :=
  p0_8_T_c10.trans (Covered.piece 1549 p0_8_T_11 (by decide +kernel)) (by decide)
theorem p0_8_T_c12 : Covered (pcT 627 p0_8D p0_8C0 p0_8Tab 1 2) 0 53460 :=
  p0_8_T_c11.trans (Covered.piece 1469 p0_8_T_12 (by decide +kernel)) (by decide)
theorem p0_8_T_c13 : Covered (pcT 627 p0_8D p0_8C0 p0_8Tab 1 2) 0 56246 :=
  p0_8_T_c12.trans (Covered.piece 1393 p0_8_T_13 (by decide +kernel)) (by decide)
theorem p0_8_T_c14 : Covered (pcT 627 p0_8D p0_8C0 p0_8Tab 1 2) 0 58888 :=
  p0_8_T_c13.trans (Covered.piece 1321 p0_8_T_14 (by decide +kernel)) (by decide)
theorem p0_8_T_c15 : Covered (pcT 627 p0_8D p0_8C0 p0_8Tab 1 2) 0 61394 :=
  p0_8_T_c14.trans (Covered.piece 1253 p0_8_T_15 (by decide +kernel)) (by decide)
theorem p0_8_T_c16 : Covered (pcT 627 p0_8D p0_8C0 p0_8Tab 1 2) 0 63770 :=
  p0_8_T_c15.trans (Covered.piece 1188 p0_8_T_16 (by decide +kernel)) (by decide)
theorem p0_8_T_c17 : Covered (pcT 627 p0_8D p0_8C0 p0_8Tab 1 2) 0 66024 :=
  p0_8_T_c16.trans (Covered.piece 1127 p0_8_T_17 (by decide +kernel)) (by decide)
theorem p0_8_tail (x : ℝ) (hx : x ≤ -1) : |rVal p0_8D p0_8C0 p0_8Tab x| ≤ (1 : ℕ) / (2 : ℕ) :=
  tail_sound p0_8_side (by norm_num) (by norm_num) p0_8_T_c17 x hx
theorem p0_10_T_0 : pcT 773 p0_10D p0_10C0 p0_10Tab 1 2 2075 2075 = true := by decide +kernel
theorem p0_10_T_1 : pcT 773 p0_10D p0_10C0 p0_10Tab 1 2 6118 1968 = true := by decide +kernel
theorem p0_10_T_2 : pcT 773 p0_10D p0_10C0 p0_10Tab 1 2 9486 1400 = true := by decide +kernel
theorem p0_10_T_3 : pcT 773 p0_10D p0_10C0 p0_10Tab 1 2 12214 1328 = true := by decide +kernel
theorem p0_10_T_4 : pcT 773 p0_10D p0_10C0 p0_10Tab 1 2 15222 1680 = true := by decide +kernel
theorem p0_10_T_5 : pcT 773 p0_10D p0_10C0 p0_10Tab 1 2 18496 1594 = true := by decide +kernel
theorem p0_10_T_6 : pcT 773 p0_10D p0_10C0 p0_10Tab 1 2 21602 1512 = true := by decide +kernel
theorem p0_10_T_7 : pcT 773 p0_10D p0_10C0 p0_10Tab 1 2 24548 1434 = true := by decide +kernel
theorem p0_10_T_8 : pcT 773 p0_10D p0_10C0 p0_10Tab 1 2 27796 1814 = true := by decide +kernel
theorem p0_10_T_9 : pcT 773 p0_10D p0_10C0 p0_10Tab 1 2 31331 1721 = true := by decide +kernel
theorem p0_10_T_10 : pcT 773 p0_10D p0_10C0 p0_10Tab 1 2 34685 1633 = true := by decide +kernel
theorem p0_10_T_11 : pcT 773 p0_10D p0_10C0 p0_10Tab 1 2 37867 1549 = true := by decide +kernel
theorem p0_10_T_12 : pcT 773 p0_10D p0_10C0 p0_10Tab 1 2 40885 1469 = true := by decide +kernel
theorem p0_10_T_13 : pcT 773 p0_10D p0_10C0 p0_10Tab 1 2 43747 1393 = true := by decide +kernel
theorem p0_10_T_14 : pcT 773 p0_10D p0_10C0 p0_10Tab 1 2 46461 1321 = true := by decide +kernel
theorem p0_10_T_15 : pcT 773 p0_10D p0_10C0 p0_10Tab 1 2 49035 1253 = true := by decide +kernel
theorem p0_10_T_16 : pcT 773 p0_10D p0_10C0 p0_10Tab 1 2 51476 1188 = true := by decide +kernel
theorem p0_10_T_17 : pcT 773 p0_10D p0_10C0 p0_10Tab 1 2 53791 1127 = true := by decide +kernel
theorem p0_10_T_18 : pcT 773 p0_10D p0_10C0 p0_10Tab 1 2 55986 1068 = true := by decide +kernel
theorem p0_10_T_19 : pcT 773 p0_10D p0_10C0 p0_10Tab 1 2 58067 1013 = true := by decide +kernel
theorem p0_10_T_20 : pcT 773 p0_10D p0_10C0 p0_10Tab 1 2 60040 960 = true := by decide +kernel
theorem p0_10_T_21 : pcT 773 p0_10D p0_10C0 p0_10Tab 1 2 61911 911 = true := by decide +kernel
theorem p0_10_T_22 : pcT 773 p0_10D p0_10C0 p0_10Tab 1 2 63686 864 = true := by decide +kernel
theorem p0_10_T_23 : pcT 773 p0_10D p0_10C0 p0_10Tab 1 2 65369 819 = true := by decide +kernel
theorem p0_10_T_c0 : Covered (pcT 773 p0_10D p0_10C0 p0_10Tab 1 2) 0 4150 :=
  Covered.piece 2075 p0_10_T_0 (by decide +kernel)
theorem p0_10_T_c1 : Covered (pcT 773 p0_10D p0_10C0 p0_10Tab 1 2) 0 8086 :=
  p0_10_T_c0.trans (Covered.piece 1968 p0_10_T_1 (by decide +kernel)) (by decide)
theorem p0_10_T_c2 : Covered (pcT 773 p0_10D p0_10C0 p0_10Tab 1 2) 0 10886 :=
  p0_10_T_c1.trans (Covered.piece 1400 p0_10_T_2 (by decide +kernel)) (by decide)
theorem p0_10_T_c3 : Covered (pcT 773 p0_10D p0_10C0 p0_10Tab 1 2) 0 13542 :=
  p0_10_T_c2.trans (Covered.piece 1328 p0_10_T_3 (by decide +kernel)) (by decide)
theorem p0_10_T_c4 : Covered (pcT 773 p0_10D p0_10C0 p0_10Tab 1 2) 0 16902 :=
  p0_10_T_c3.trans (Covered.piece 1680 p0_10_T_4 (by decide +kernel)) (by decide)
theorem p0_10_T_c5 : Covered (pcT 773 p0_10D p0_10C0 p0_10Tab 1 2) 0 20090 :=
  p0_10_T_c4.trans (Covered.piece 1594 p0_10_T_5 (by decide +kernel)) (by decide)
theorem p0_10_T_c6 : Covered (pcT 773 p0_10D p0_10C0 p0_10Tab 1 2) 0 23114 :=
  p0_10_T_c5.trans (Covered.piece 1512 p0_10_T_6 (by decide +kernel)) (by decide)
theorem p0_10_T_c7 : Covered (pcT 773 p0_10D p0_10C0 p0_10Tab 1 2) 0 25982 :=
  p0_10_T_c6.trans (Covered.piece 1434 p0_10_T_7 (by decide +kernel)) (by decide)
theorem p0_10_T_c8 : Covered (pcT 773 p0_10D p0_10C0 p0_10Tab 1 2) 0 29610 :=
  p0_10_T_c7.trans (Covered.piece 1814 p0_10_T_8 (by decide +kernel)) (by decide)
theorem p0_10_T_c9 : Covered (pcT 773 p0_10D p0_10C0 p0_10Tab 1 2) 0 33052 :=
  p0_10_T_c8.trans (Covered.piece 1721 p0_10_T_9 (by decide +kernel)) (by decide)
theorem p0_10_T_c10 : Covered (pcT 773 p0_10D p0_10C0 p0_10Tab 1 2) 0 36318 :=
  p0_10_T_c9.trans (Covered.piece 1633 p0_10_T_10 (by decide +kernel)) (by decide)
theorem p0_10_T_c11 : Covered (pcT 773 p0_10D p0_10C0 p0_10Tab 1 2) 0 39416 :=
  p0_10_T_c10.trans (Covered.piece 1549 p0_10_T_11 (by decide +kernel)) (by decide)
theorem p0_10_T_c12 : Covered (pcT 773 p0_10D p0_10C0 p0_10Tab 1 2) 0 42354 :=
  p0_10_T_c11.trans (Covered.piece 1469 p0_10_T_12 (by decide +kernel)) (by decide)
theorem p0_10_T_c13 : Covered (pcT 773 p0_10D p0_10C0 p0_10Tab 1 2) 0 45140 :=
  p0_10_T_c12.trans (Covered.piece 1393 p0_10_T_13 (by decide +kernel)) (by decide)
theorem p0_10_T_c14 : Covered (pcT 773 p0_10D p0_10C0 p0_10Tab 1 2) 0 47782 :=
  p0_10_T_c13.trans (Covered.piece 1321 p0_10_T_14 (by decide +kernel)) (by decide)
theorem p0_10_T_c15 : Covered (pcT 773 p0_10D p0_10C0 p0_10Tab 1 2) 0 50288 :=
  p0_10_T_c14.trans (Covered.piece 1253 p0_10_T_15 (by decide +kernel)) (by decide)
theorem p0_10_T_c16 : Covered (pcT 773 p0_10D p0_10C0 p0_10Tab 1 2) 0 52664 :=
  p0_10_T_c15.trans (Covered.piece 1188 p0_10_T_16 (by decide +kernel)) (by decide)
theorem p0_10_T_c17 : Covered (pcT 773 p0_10D p0_10C0 p0_10Tab 1 2) 0 54918 :=
  p0_10_T_c16.trans (Covered.piece 1127 p0_10_T_17 (by decide +kernel)) (by decide)
theorem p0_10_T_c18 : Covered (pcT 773 p0_10D p0_10C0 p0_10Tab 1 2) 0 57054 :=
  p0_10_T_c17.trans (Covered.piece 1068 p0_10_T_18 (by decide +kernel)) (by decide)
theorem p0_10_T_c19 : Covered (pcT 773 p0_10D p0_10C0 p0_10Tab 1 2) 0 59080 :=
  p0_10_T_c18.trans (Covered.piece 1013 p0_10_T_19 (by decide +kernel)) (by decide)
theorem p0_10_T_c20 : Covered (pcT 773 p0_10D p0_10C0 p0_10Tab 1 2) 0 61000 :=
  p0_10_T_c19.trans (Covered.piece 960 p0_10_T_20 (by decide +kernel)) (by decide)
theorem p0_10_T_c21 : Covered (pcT 773 p0_10D p0_10C0 p0_10Tab 1 2) 0 62822 :=
  p0_10_T_c20.trans (Covered.piece 911 p0_10_T_21 (by decide +kernel)) (by decide)
theorem p0_10_T_c22 : Covered (pcT 773 p0_10D p0_10C0 p0_10Tab 1 2) 0 64550 :=
  p0_10_T_c21.trans (Covered.piece 864 p0_10_T_22 (by decide +kernel)) (by decide)
theorem p0_10_T_c23 : Covered (pcT 773 p0_10D p0_10C0 p0_10Tab 1 2) 0 66188 :=
  p0_10_T_c22.trans (Covered.piece 819 p0_10_T_23 (by decide +kernel)) (by decide)
theorem p0_10_tail (x : ℝ) (hx : x ≤ -1) : |rVal p0_10D p0_10C0 p0_10Tab x| ≤ (1 : ℕ) / (2 : ℕ) :=
  tail_sound p0_10_side (by norm_num) (by norm_num) p0_10_T_c23 x hx
theorem p0_12_T_0 : pcT 962 p0_12D p0_12C0 p0_12Tab 1 2 2075 2075 = true := by decide +kernel
theorem p0_12_T_1 : pcT 962 p0_12D p0_12C0 p0_12Tab 1 2 5257 1107 = true := by decide +kernel
theorem p0_12_T_2 : pcT 962 p0_12D p0_12C0 p0_12Tab 1 2 7414 1050 = true := by decide +kernel
theorem p0_12_T_3 : pcT 962 p0_12D p0_12C0 p0_12Tab 1 2 9460 996 = true := by decide +kernel
theorem p0_12_T_4 : pcT 962 p0_12D p0_12C0 p0_12Tab 1 2 11401 945 = true := by decide +kernel
theorem p0_12_T_5 : pcT 962 p0_12D p0_12C0 p0_12Tab 1 2 13541 1195 = true := by decide +kernel
theorem p0_12_T_6 : pcT 962 p0_12D p0_12C0 p0_12Tab 1 2 15870 1134 = true := by decide +kernel
theorem p0_12_T_7 : pcT 962 p0_12D p0_12C0 p0_12Tab 1 2 18079 1075 = true := by decide +kernel
theorem p0_12_T_8 : pcT 962 p0_12D p0_12C0 p0_12Tab 1 2 20513 1359 = true := by decide +kernel
theorem p0_12_T_9 : pcT 962 p0_12D p0_12C0 p0_12Tab 1 2 23161 1289 = true := by decide +kernel
theorem p0_12_T_10 : pcT 962 p0_12D p0_12C0 p0_12Tab 1 2 25673 1223 = true := by decide +kernel
theorem p0_12_T_11 : pcT 962 p0_12D p0_12C0 p0_12Tab 1 2 28056 1160 = true := by decide +kernel
theorem p0_12_T_12 : pcT 962 p0_12D p0_12C0 p0_12Tab 1 2 30316 1100 = true := by decide +kernel
theorem p0_12_T_13 : pcT 962 p0_12D p0_12C0 p0_12Tab 1 2 32808 1392 = true := by decide +kernel
theorem p0_12_T_14 : pcT 962 p0_12D p0_12C0 p0_12Tab 1 2 35520 1320 = true := by decide +kernel
theorem p0_12_T_15 : pcT 962 p0_12D p0_12C0 p0_12Tab 1 2 38092 1252 = true := by decide +kernel
theorem p0_12_T_16 : pcT 962 p0_12D p0_12C0 p0_12Tab 1 2 40532 1188 = true := by decide +kernel
theorem p0_12_T_17 : pcT 962 p0_12D p0_12C0 p0_12Tab 1 2 42847 1127 = true := by decide +kernel
theorem p0_12_T_18 : pcT 962 p0_12D p0_12C0 p0_12Tab 1 2 45042 1068 = true := by decide +kernel
theorem p0_12_T_19 : pcT 962 p0_12D p0_12C0 p0_12Tab 1 2 47123 1013 = true := by decide +kernel
theorem p0_12_T_20 : pcT 962 p0_12D p0_12C0 p0_12Tab 1 2 49096 960 = true := by decide +kernel
theorem p0_12_T_21 : pcT 962 p0_12D p0_12C0 p0_12Tab 1 2 50967 911 = true := by decide +kernel
theorem p0_12_T_22 : pcT 962 p0_12D p0_12C0 p0_12Tab 1 2 52742 864 = true := by decide +kernel
theorem p0_12_T_23 : pcT 962 p0_12D p0_12C0 p0_12Tab 1 2 54425 819 = true := by decide +kernel
theorem p0_12_T_24 : pcT 962 p0_12D p0_12C0 p0_12Tab 1 2 56279 1035 = true := by decide +kernel
theorem p0_12_T_25 : pcT 962 p0_12D p0_12C0 p0_12Tab 1 2 58295 981 = true := by decide +kernel
theorem p0_12_T_26 : pcT 962 p0_12D p0_12C0 p0_12Tab 1 2 60206 930 = true := by decide +kernel
theorem p0_12_T_27 : pcT 962 p0_12D p0_12C0 p0_12Tab 1 2 62018 882 = true := by decide +kernel
theorem p0_12_T_28 : pcT 962 p0_12D p0_12C0 p0_12Tab 1 2 63737 837 = true := by decide +kernel
theorem p0_12_T_29 : pcT 962 p0_12D p0_12C0 p0_12Tab 1 2 65368 794 = true := by decide +kernel
theorem p0_12_T_c0 : Covered (pcT 962 p0_12D p0_12C0 p0_12Tab 1 2) 0 4150 :=
  Covered.piece 2075 p0_12_T_0 (by decide +kernel)
theorem p0_12_T_c1 : Covered (pcT 962 p0_12D p0_12C0 p0_12Tab 1 2) 0 6364 :=
  p0_12_T_c0.trans (Covered.piece 1107 p0_12_T_1 (by decide +kernel)) (by decide)
theorem p0_12_T_c2 : Covered (pcT 962 p0_12D p0_12C0 p0_12Tab 1 2) 0 8464 :=
  p0_12_T_c1.trans (Covered.piece 1050 p0_12_T_2 (by decide +kernel)) (by decide)
theorem p0_12_T_c3 : Covered (pcT 962 p0_12D p0_12C0 p0_12Tab 1 2) 0 10456 :=
  p0_12_T_c2.trans (Covered.piece 996 p0_12_T_3 (by decide +kernel)) (by decide)
theorem p0_12_T_c4 : Covered (pcT 962 p0_12D p0_12C0 p0_12Tab 1 2) 0 12346 :=
  p0_12_T_c3.trans (Covered.piece 945 p0_12_T_4 (by decide +kernel)) (by decide)
theorem p0_12_T_c5 : Covered (pcT 962 p0_12D p0_12C0 p0_12Tab 1 2) 0 14736 :=
  p0_12_T_c4.trans (Covered.piece 1195 p0_12_T_5 (by decide +kernel)) (by decide)
theorem p0_12_T_c6 : Covered (pcT 962 p0_12D p0_12C0 p0_12Tab 1 2) 0 17004 :=
  p0_12_T_c5.trans (Covered.piece 1134 p0_12_T_6 (by decide +kernel)) (by decide)
theorem p0_12_T_c7 : Covered (pcT 962 p0_12D p0_12C0 p0_12Tab 1 2) 0 19154 :=
  p0_12_T_c6.trans (Covered.piece 1075 p0_12_T_7 (by decide +kernel)) (by decide)
theorem p0_12_T_c8 : Covered (pcT 962 p0_12D p0_12C0 p0_12Tab 1 2) 0 21872 :=
  p0_12_T_c7.trans (Covered.piece 1359 p0_12_T_8 (by decide +kernel)) (by decide)
theorem p0_12_T_c9 : Covered (pcT 962 p0_12D p0_12C0 p0_12Tab 1 2) 0 24450 :=
  p0_12_T_c8.trans (Covered.piece 1289 p0_12_T_9 (by decide +kernel)) (by decide)
theorem p0_12_T_c10 : Covered (pcT 962 p0_12D p0_12C0 p0_12Tab 1 2) 0 26896 :=
  p0_12_T_c9.trans (Covered.piece 1223 p0_12_T_10 (by decide +kernel)) (by decide)
theorem p0_12_T_c11 : Covered (pcT 962 p0_12D p0_12C0 p0_12Tab 1 2) 0 29216 :=
  p0_12_T_c10.trans (Covered.piece 1160 p0_12_T_11 (by decide +kernel)) (by decide)
theorem p0_12_T_c12 : Covered (pcT 962 p0_12D p0_12C0 p0_12Tab 1 2) 0 31416 :=
  p0_12_T_c11.trans (Covered.piece 1100 p0_12_T_12 (by decide +kernel)) (by decide)
theorem p0_12_T_c13 : Covered (pcT 962 p0_12D p0_12C0 p0_12Tab 1 2) 0 34200 :=
  p0_12_T_c12.trans (Covered.piece 1392 p0_12_T_13 (by decide +kernel)) (by decide)
theorem p0_12_T_c14 : Covered (pcT 962 p0_12D p0_12C0 p0_12Tab 1 2) 0 36840 :=
  p0_12_T_c13.trans (Covered.piece 1320 p0_12_T_14 (by decide +kernel)) (by decide)
theorem p0_12_T_c15 : Covered (pcT 962 p0_12D p0_12C0 p0_12Tab 1 2) 0 39344 :=
  p0_12_T_c14.trans (Covered.piece 1252 p0_12_T_15 (by decide +kernel)) (by decide)
theorem p0_12_T_c16 : Covered (pcT 962 p0_12D p0_12C0 p0_12Tab 1 2) 0 41720 :=
  p0_12_T_c15.trans (Covered.piece 1188 p0_12_T_16 (by decide +kernel)) (by decide)
theorem p0_12_T_c17 : Covered (pcT 962 p0_12D p0_12C0 p0_12Tab 1 2) 0 43974 :=
  p0_12_T_c16.trans (Covered.piece 1127 p0_12_T_17 (by decide +kernel)) (by decide)
theorem p0_12_T_c18 : Covered (pcT 962 p0_12D p0_12C0 p0_12Tab 1 2) 0 46110 :=
  p0_12_T_c17.trans (Covered.piece 1068 p0_12_T_18 (by decide +kernel)) (by decide)
theorem p0_12_T_c19 : Covered (pcT 962 p0_12D p0_12C0 p0_12Tab 1 2) 0 48136 :=
  p0_12_T_c18.trans (Covered.piece 1013 p0_12_T_19 (by decide +kernel)) (by decide)
theorem p0_12_T_c20 : Covered (pcT 962 p0_12D p0_12C0 p0_12Tab 1 2) 0 50056 :=
  p0_12_T_c19.trans (Covered.piece 960 p0_12_T_20 (by decide +kernel)) (by decide)
theorem p0_12_T_c21 : Covered (pcT 962 p0_12D p0_12C0 p0_12Tab 1 2) 0 51878 :=
  p0_12_T_c20.trans (Covered.piece 911 p0_12_T_21 (by decide +kernel)) (by decide)
theorem p0_12_T_c22 : Covered (pcT 962 p0_12D p0_12C0 p0_12Tab 1 2) 0 53606 :=
  p0_12_T_c21.trans (Covered.piece 864 p0_12_T_22 (by decide +kernel)) (by decide)
theorem p0_12_T_c23 : Covered (pcT 962 p0_12D p0_12C0 p0_12Tab 1 2) 0 55244 :=
  p0_12_T_c22.trans (Covered.piece 819 p0_12_T_23 (by decide +kernel)) (by decide)
theorem p0_12_T_c24 : Covered (pcT 962 p0_12D p0_12C0 p0_12Tab 1 2) 0 57314 :=
  p0_12_T_c23.trans (Covered.piece 1035 p0_12_T_24 (by decide +kernel)) (by decide)
theorem p0_12_T_c25 : Covered (pcT 962 p0_12D p0_12C0 p0_12Tab 1 2) 0 59276 :=
  p0_12_T_c24.trans (Covered.piece 981 p0_12_T_25 (by decide +kernel)) (by decide)
theorem p0_12_T_c26 : Covered (pcT 962 p0_12D p0_12C0 p0_12Tab 1 2) 0 61136 :=
  p0_12_T_c25.trans (Covered.piece 930 p0_12_T_26 (by decide +kernel)) (by decide)
theorem p0_12_T_c27 : Covered (pcT 962 p0_12D p0_12C0 p0_12Tab 1 2) 0 62900 :=
  p0_12_T_c26.trans (Covered.piece 882 p0_12_T_27 (by decide +kernel)) (by decide)
theorem p0_12_T_c28 : Covered (pcT 962 p0_12D p0_12C0 p0_12Tab 1 2) 0 64574 :=
  p0_12_T_c27.trans (Covered.piece 837 p0_12_T_28 (by decide +kernel)) (by decide)
theorem p0_12_T_c29 : Covered (pcT 962 p0_12D p0_12C0 p0_12Tab 1 2) 0 66162 :=
  p0_12_T_c28.trans (Covered.piece 794 p0_12_T_29 (by decide +kernel)) (by decide)
theorem p0_12_tail (x : ℝ) (hx : x ≤ -1) : |rVal p0_12D p0_12C0 p0_12Tab x| ≤ (1 : ℕ) / (2 : ℕ) :=
  tail_sound p0_12_side (by norm_num) (by norm_num) p0_12_T_c29 x hx
theorem p0_14_T_0 : pcT 1165 p0_14D p0_14C0 p0_14Tab 1 2 1556 1556 = true := by decide +kernel
theorem p0_14_T_1 : pcT 1165 p0_14D p0_14C0 p0_14Tab 1 2 4219 1107 = true := by decide +kernel
theorem p0_14_T_2 : pcT 1165 p0_14D p0_14C0 p0_14Tab 1 2 6113 787 = true := by decide +kernel
theorem p0_14_T_3 : pcT 1165 p0_14D p0_14C0 p0_14Tab 1 2 7646 746 = true := by decide +kernel
theorem p0_14_T_4 : pcT 1165 p0_14D p0_14C0 p0_14Tab 1 2 9099 707 = true := by decide +kernel
theorem p0_14_T_5 : pcT 1165 p0_14D p0_14C0 p0_14Tab 1 2 10700 894 = true := by decide +kernel
theorem p0_14_T_6 : pcT 1165 p0_14D p0_14C0 p0_14Tab 1 2 12442 848 = true := by decide +kernel
theorem p0_14_T_7 : pcT 1165 p0_14D p0_14C0 p0_14Tab 1 2 14094 804 = true := by decide +kernel
theorem p0_14_T_8 : pcT 1165 p0_14D p0_14C0 p0_14Tab 1 2 15915 1017 = true := by decide +kernel
theorem p0_14_T_9 : pcT 1165 p0_14D p0_14C0 p0_14Tab 1 2 17897 965 = true := by decide +kernel
theorem p0_14_T_10 : pcT 1165 p0_14D p0_14C0 p0_14Tab 1 2 19777 915 = true := by decide +kernel
theorem p0_14_T_11 : pcT 1165 p0_14D p0_14C0 p0_14Tab 1 2 21849 1157 = true := by decide +kernel
theorem p0_14_T_12 : pcT 1165 p0_14D p0_14C0 p0_14Tab 1 2 24104 1098 = true := by decide +kernel
theorem p0_14_T_13 : pcT 1165 p0_14D p0_14C0 p0_14Tab 1 2 26243 1041 = true := by decide +kernel
theorem p0_14_T_14 : pcT 1165 p0_14D p0_14C0 p0_14Tab 1 2 28271 987 = true := by decide +kernel
theorem p0_14_T_15 : pcT 1165 p0_14D p0_14C0 p0_14Tab 1 2 30194 936 = true := by decide +kernel
theorem p0_14_T_16 : pcT 1165 p0_14D p0_14C0 p0_14Tab 1 2 32314 1184 = true := by decide +kernel
theorem p0_14_T_17 : pcT 1165 p0_14D p0_14C0 p0_14Tab 1 2 34621 1123 = true := by decide +kernel
theorem p0_14_T_18 : pcT 1165 p0_14D p0_14C0 p0_14Tab 1 2 36809 1065 = true := by decide +kernel
theorem p0_14_T_19 : pcT 1165 p0_14D p0_14C0 p0_14Tab 1 2 38884 1010 = true := by decide +kernel
theorem p0_14_T_20 : pcT 1165 p0_14D p0_14C0 p0_14Tab 1 2 40852 958 = true := by decide +kernel
theorem p0_14_T_21 : pcT 1165 p0_14D p0_14C0 p0_14Tab 1 2 42719 909 = true := by decide +kernel
theorem p0_14_T_22 : pcT 1165 p0_14D p0_14C0 p0_14Tab 1 2 44489 861 = true := by decide +kernel
theorem p0_14_T_23 : pcT 1165 p0_14D p0_14C0 p0_14Tab 1 2 46166 816 = true := by decide +kernel
theorem p0_14_T_24 : pcT 1165 p0_14D p0_14C0 p0_14Tab 1 2 48014 1032 = true := by decide +kernel
theorem p0_14_T_25 : pcT 1165 p0_14D p0_14C0 p0_14Tab 1 2 50024 978 = true := by decide +kernel
theorem p0_14_T_26 : pcT 1165 p0_14D p0_14C0 p0_14Tab 1 2 51929 927 = true := by decide +kernel
theorem p0_14_T_27 : pcT 1165 p0_14D p0_14C0 p0_14Tab 1 2 53735 879 = true := by decide +kernel
theorem p0_14_T_28 : pcT 1165 p0_14D p0_14C0 p0_14Tab 1 2 55447 833 = true := by decide +kernel
theorem p0_14_T_29 : pcT 1165 p0_14D p0_14C0 p0_14Tab 1 2 57069 789 = true := by decide +kernel
theorem p0_14_T_30 : pcT 1165 p0_14D p0_14C0 p0_14Tab 1 2 58606 748 = true := by decide +kernel
theorem p0_14_T_31 : pcT 1165 p0_14D p0_14C0 p0_14Tab 1 2 60063 709 = true := by decide +kernel
theorem p0_14_T_32 : pcT 1165 p0_14D p0_14C0 p0_14Tab 1 2 61444 672 = true := by decide +kernel
theorem p0_14_T_33 : pcT 1165 p0_14D p0_14C0 p0_14Tab 1 2 62753 637 = true := by decide +kernel
theorem p0_14_T_34 : pcT 1165 p0_14D p0_14C0 p0_14Tab 1 2 63993 603 = true := by decide +kernel
theorem p0_14_T_35 : pcT 1165 p0_14D p0_14C0 p0_14Tab 1 2 65167 571 = true := by decide +kernel
theorem p0_14_T_c0 : Covered (pcT 1165 p0_14D p0_14C0 p0_14Tab 1 2) 0 3112 :=
  Covered.piece 1556 p0_14_T_0 (by decide +kernel)
theorem p0_14_T_c1 : Covered (pcT 1165 p0_14D p0_14C0 p0_14Tab 1 2) 0 5326 :=
  p0_14_T_c0.trans (Covered.piece 1107 p0_14_T_1 (by decide +kernel)) (by decide)
theorem p0_14_T_c2 : Covered (pcT 1165 p0_14D p0_14C0 p0_14Tab 1 2) 0 6900 :=
  p0_14_T_c1.trans (Covered.piece 787 p0_14_T_2 (by decide +kernel)) (by decide)
theorem p0_14_T_c3 : Covered (pcT 1165 p0_14D p0_14C0 p0_14Tab 1 2) 0 8392 :=
  p0_14_T_c2.trans (Covered.piece 746 p0_14_T_3 (by decide +kernel)) (by decide)
theorem p0_14_T_c4 : Covered (pcT 1165 p0_14D p0_14C0 p0_14Tab 1 2) 0 9806 :=
  p0_14_T_c3.trans (Covered.piece 707 p0_14_T_4 (by decide +kernel)) (by decide)
theorem p0_14_T_c5 : Covered (pcT 1165 p0_14D p0_14C0 p0_14Tab 1 2) 0 11594 :=
  p0_14_T_c4.trans (Covered.piece 894 p0_14_T_5 (by decide +kernel)) (by decide)
theorem p0_14_T_c6 : Covered (pcT 1165 p0_14D p0_14C0 p0_14Tab 1 2) 0 13290 :=
  p0_14_T_c5.trans (Covered.piece 848 p0_14_T_6 (by decide +kernel)) (by decide)
theorem p0_14_T_c7 : Covered (pcT 1165 p0_14D p0_14C0 p0_14Tab 1 2) 0 14898 :=
  p0_14_T_c6.trans (Covered.piece 804 p0_14_T_7 (by decide +kernel)) (by decide)
theorem p0_14_T_c8 : Covered (pcT 1165 p0_14D p0_14C0 p0_14Tab 1 2) 0 16932 :=
  p0_14_T_c7.trans (Covered.piece 1017 p0_14_T_8 (by decide +kernel)) (by decide)
theorem p0_14_T_c9 : Covered (pcT 1165 p0_14D p0_14C0 p0_14Tab 1 2) 0 18862 :=
  p0_14_T_c8.trans (Covered.piece 965 p0_14_T_9 (by decide +kernel)) (by decide)
theorem p0_14_T_c10 : Covered (pcT 1165 p0_14D p0_14C0 p0_14Tab 1 2) 0 20692 :=
  p0_14_T_c9.trans (Covered.piece 915 p0_14_T_10 (by decide +kernel)) (by decide)
theorem p0_14_T_c11 : Covered (pcT 1165 p0_14D p0_14C0 p0_14Tab 1 2) 0 23006 :=
  p0_14_T_c10.trans (Covered.piece 1157 p0_14_T_11 (by decide +kernel)) (by decide)
theorem p0_14_T_c12 : Covered (pcT 1165 p0_14D p0_14C0 p0_14Tab 1 2) 0 25202 :=
  p0_14_T_c11.trans (Covered.piece 1098 p0_14_T_12 (by decide +kernel)) (by decide)
theorem p0_14_T_c13 : Covered (pcT 1165 p0_14D p0_14C0 p0_14Tab 1 2) 0 27284 :=
  p0_14_T_c12.trans (Covered.piece 1041 p0_14_T_13 (by decide +kernel)) (by decide)
theorem p0_14_T_c14 : Covered (pcT 1165 p0_14D p0_14C0 p0_14Tab 1 2) 0 29258 :=
  p0_14_T_c13.trans (Covered.piece 987 p0_14_T_14 (by decide +kernel)) (by decide)
theorem p0_14_T_c15 : Covered (pcT 1165 p0_14D p0_14C0 p0_14Tab 1 2) 0 31130 :=
  p0_14_T_c14.trans (Covered.piece 936 p0_14_T_15 (by decide +kernel)) (by decide)
theorem p0_14_T_c16 : Covered (pcT 1165 p0_14D p0_14C0 p0_14Tab 1 2) 0 33498 :=
  p0_14_T_c15.trans (Covered.piece 1184 p0_14_T_16 (by decide +kernel)) (by decide)
theorem p0_14_T_c17 : Covered (pcT 1165 p0_14D p0_14C0 p0_14Tab 1 2) 0 35744 :=
  p0_14_T_c16.trans (Covered.piece 1123 p0_14_T_17 (by decide +kernel)) (by decide)
theorem p0_14_T_c18 : Covered (pcT 1165 p0_14D p0_14C0 p0_14Tab 1 2) 0 37874 :=
  p0_14_T_c17.trans (Covered.piece 1065 p0_14_T_18 (by decide +kernel)) (by decide)
theorem p0_14_T_c19 : Covered (pcT 1165 p0_14D p0_14C0 p0_14Tab 1 2) 0 39894 :=
  p0_14_T_c18.trans (Covered.piece 1010 p0_14_T_19 (by decide +kernel)) (by decide)
theorem p0_14_T_c20 : Covered (pcT 1165 p0_14D p0_14C0 p0_14Tab 1 2) 0 41810 :=
  p0_14_T_c19.trans (Covered.piece 958 p0_14_T_20 (by decide +kernel)) (by decide)
theorem p0_14_T_c21 : Covered (pcT 1165 p0_14D p0_14C0 p0_14Tab 1 2) 0 43628 :=
  p0_14_T_c20.trans (Covered.piece 909 p0_14_T_21 (by decide +kernel)) (by decide)
theorem p0_14_T_c22 : Covered (pcT 1165 p0_14D p0_14C0 p0_14Tab 1 2) 0 45350 :=
  p0_14_T_c21.trans (Covered.piece 861 p0_14_T_22 (by decide +kernel)) (by decide)
theorem p0_14_T_c23 : Covered (pcT 1165 p0_14D p0_14C0 p0_14Tab 1 2) 0 46982 :=
  p0_14_T_c22.trans (Covered.piece 816 p0_14_T_23 (by decide +kernel)) (by decide)
theorem p0_14_T_c24 : Covered (pcT 1165 p0_14D p0_14C0 p0_14Tab 1 2) 0 49046 :=
  p0_14_T_c23.trans (Covered.piece 1032 p0_14_T_24 (by decide +kernel)) (by decide)
theorem p0_14_T_c25 : Covered (pcT 1165 p0_14D p0_14C0 p0_14Tab 1 2) 0 51002 :=
  p0_14_T_c24.trans (Covered.piece 978 p0_14_T_25 (by decide +kernel)) (by decide)
theorem p0_14_T_c26 : Covered (pcT 1165 p0_14D p0_14C0 p0_14Tab 1 2) 0 52856 :=
  p0_14_T_c25.trans (Covered.piece 927 p0_14_T_26 (by decide +kernel)) (by decide)
theorem p0_14_T_c27 : Covered (pcT 1165 p0_14D p0_14C0 p0_14Tab 1 2) 0 54614 :=
  p0_14_T_c26.trans (Covered.piece 879 p0_14_T_27 (by decide +kernel)) (by decide)
theorem p0_14_T_c28 : Covered (pcT 1165 p0_14D p0_14C0 p0_14Tab 1 2) 0 56280 :=
  p0_14_T_c27.trans (Covered.piece 833 p0_14_T_28 (by decide +kernel)) (by decide)
theorem p0_14_T_c29 : Covered (pcT 1165 p0_14D p0_14C0 p0_14Tab 1 2) 0 57858 :=
  p0_14_T_c28.trans (Covered.piece 789 p0_14_T_29 (by decide +kernel)) (by decide)
theorem p0_14_T_c30 : Covered (pcT 1165 p0_14D p0_14C0 p0_14Tab 1 2) 0 59354 :=
  p0_14_T_c29.trans (Covered.piece 748 p0_14_T_30 (by decide +kernel)) (by decide)
theorem p0_14_T_c31 : Covered (pcT 1165 p0_14D p0_14C0 p0_14Tab 1 2) 0 60772 :=
  p0_14_T_c30.trans (Covered.piece 709 p0_14_T_31 (by decide +kernel)) (by decide)
theorem p0_14_T_c32 : Covered (pcT 1165 p0_14D p0_14C0 p0_14Tab 1 2) 0 62116 :=
  p0_14_T_c31.trans (Covered.piece 672 p0_14_T_32 (by decide +kernel)) (by decide)
theorem p0_14_T_c33 : Covered (pcT 1165 p0_14D p0_14C0 p0_14Tab 1 2) 0 63390 :=
  p0_14_T_c32.trans (Covered.piece 637 p0_14_T_33 (by decide +kernel)) (by decide)
theorem p0_14_T_c34 : Covered (pcT 1165 p0_14D p0_14C0 p0_14Tab 1 2) 0 64596 :=
  p0_14_T_c33.trans (Covered.piece 603 p0_14_T_34 (by decide +kernel)) (by decide)
theorem p0_14_T_c35 : Covered (pcT 1165 p0_14D p0_14C0 p0_14Tab 1 2) 0 65738 :=
  p0_14_T_c34.trans (Covered.piece 571 p0_14_T_35 (by decide +kernel)) (by decide)
theorem p0_14_tail (x : ℝ) (hx : x ≤ -1) : |rVal p0_14D p0_14C0 p0_14Tab x| ≤ (1 : ℕ) / (2 : ℕ) :=
  tail_sound p0_14_side (by norm_num) (by norm_num) p0_14_T_c35 x hx
theorem p0_16_T_0 : pcT 1382 p0_16D p0_16C0 p0_16Tab 1 2 1556 1556 = true := by decide +kernel
theorem p0_16_T_1 : pcT 1382 p0_16D p0_16C0 p0_16Tab 1 2 3942 830 = true := by decide +kernel
theorem p0_16_T_2 : pcT 1382 p0_16D p0_16C0 p0_16Tab 1 2 5362 590 = true := by decide +kernel
theorem p0_16_T_3 : pcT 1382 p0_16D p0_16C0 p0_16Tab 1 2 6511 559 = true := by decide +kernel
theorem p0_16_T_4 : pcT 1382 p0_16D p0_16C0 p0_16Tab 1 2 7599 529 = true := by decide +kernel
theorem p0_16_T_5 : pcT 1382 p0_16D p0_16C0 p0_16Tab 1 2 8797 669 = true := by decide +kernel
theorem p0_16_T_6 : pcT 1382 p0_16D p0_16C0 p0_16Tab 1 2 10100 634 = true := by decide +kernel
theorem p0_16_T_7 : pcT 1382 p0_16D p0_16C0 p0_16Tab 1 2 11334 600 = true := by decide +kernel
theorem p0_16_T_8 : pcT 1382 p0_16D p0_16C0 p0_16Tab 1 2 12693 759 = true := by decide +kernel
theorem p0_16_T_9 : pcT 1382 p0_16D p0_16C0 p0_16Tab 1 2 14172 720 = true := by decide +kernel
theorem p0_16_T_10 : pcT 1382 p0_16D p0_16C0 p0_16Tab 1 2 15575 683 = true := by decide +kernel
theorem p0_16_T_11 : pcT 1382 p0_16D p0_16C0 p0_16Tab 1 2 17122 864 = true := by decide +kernel
theorem p0_16_T_12 : pcT 1382 p0_16D p0_16C0 p0_16Tab 1 2 18805 819 = true := by decide +kernel
theorem p0_16_T_13 : pcT 1382 p0_16D p0_16C0 p0_16Tab 1 2 20400 776 = true := by decide +kernel
theorem p0_16_T_14 : pcT 1382 p0_16D p0_16C0 p0_16Tab 1 2 22157 981 = true := by decide +kernel
theorem p0_16_T_15 : pcT 1382 p0_16D p0_16C0 p0_16Tab 1 2 24068 930 = true := by decide +kernel
theorem p0_16_T_16 : pcT 1382 p0_16D p0_16C0 p0_16Tab 1 2 25880 882 = true := by decide +kernel
theorem p0_16_T_17 : pcT 1382 p0_16D p0_16C0 p0_16Tab 1 2 27599 837 = true := by decide +kernel
theorem p0_16_T_18 : pcT 1382 p0_16D p0_16C0 p0_16Tab 1 2 29230 794 = true := by decide +kernel
theorem p0_16_T_19 : pcT 1382 p0_16D p0_16C0 p0_16Tab 1 2 31028 1004 = true := by decide +kernel
theorem p0_16_T_20 : pcT 1382 p0_16D p0_16C0 p0_16Tab 1 2 32984 952 = true := by decide +kernel
theorem p0_16_T_21 : pcT 1382 p0_16D p0_16C0 p0_16Tab 1 2 34839 903 = true := by decide +kernel
theorem p0_16_T_22 : pcT 1382 p0_16D p0_16C0 p0_16Tab 1 2 36598 856 = true := by decide +kernel
theorem p0_16_T_23 : pcT 1382 p0_16D p0_16C0 p0_16Tab 1 2 38266 812 = true := by decide +kernel
theorem p0_16_T_24 : pcT 1382 p0_16D p0_16C0 p0_16Tab 1 2 39848 770 = true := by decide +kernel
theorem p0_16_T_25 : pcT 1382 p0_16D p0_16C0 p0_16Tab 1 2 41592 974 = true := by decide +kernel
theorem p0_16_T_26 : pcT 1382 p0_16D p0_16C0 p0_16Tab 1 2 43490 924 = true := by decide +kernel
theorem p0_16_T_27 : pcT 1382 p0_16D p0_16C0 p0_16Tab 1 2 45290 876 = true := by decide +kernel
theorem p0_16_T_28 : pcT 1382 p0_16D p0_16C0 p0_16Tab 1 2 46997 831 = true := by decide +kernel
theorem p0_16_T_29 : pcT 1382 p0_16D p0_16C0 p0_16Tab 1 2 48615 787 = true := by decide +kernel
theorem p0_16_T_30 : pcT 1382 p0_16D p0_16C0 p0_16Tab 1 2 50148 746 = true := by decide +kernel
theorem p0_16_T_31 : pcT 1382 p0_16D p0_16C0 p0_16Tab 1 2 51601 707 = true := by decide +kernel
theorem p0_16_T_32 : pcT 1382 p0_16D p0_16C0 p0_16Tab 1 2 52978 670 = true := by decide +kernel
theorem p0_16_T_33 : pcT 1382 p0_16D p0_16C0 p0_16Tab 1 2 54283 635 = true := by decide +kernel
theorem p0_16_T_34 : pcT 1382 p0_16D p0_16C0 p0_16Tab 1 2 55520 602 = true := by decide +kernel
theorem p0_16_T_35 : pcT 1382 p0_16D p0_16C0 p0_16Tab 1 2 56883 761 = true := by decide +kernel
theorem p0_16_T_36 : pcT 1382 p0_16D p0_16C0 p0_16Tab 1 2 58366 722 = true := by decide +kernel
theorem p0_16_T_37 : pcT 1382 p0_16D p0_16C0 p0_16Tab 1 2 59772 684 = true := by decide +kernel
theorem p0_16_T_38 : pcT 1382 p0_16D p0_16C0 p0_16Tab 1 2 61104 648 = true := by decide +kernel
theorem p0_16_T_39 : pcT 1382 p0_16D p0_16C0 p0_16Tab 1 2 62366 614 = true := by decide +kernel
theorem p0_16_T_40 : pcT 1382 p0_16D p0_16C0 p0_16Tab 1 2 63562 582 = true := by decide +kernel
theorem p0_16_T_41 : pcT 1382 p0_16D p0_16C0 p0_16Tab 1 2 64695 551 = true := by decide +kernel
theorem p0_16_T_42 : pcT 1382 p0_16D p0_16C0 p0_16Tab 1 2 65768 522 = true := by decide +kernel
theorem p0_16_T_c0 : Covered (pcT 1382 p0_16D p0_16C0 p0_16Tab 1 2) 0 3112 :=
  Covered.piece 1556 p0_16_T_0 (by decide +kernel)
theorem p0_16_T_c1 : Covered (pcT 1382 p0_16D p0_16C0 p0_16Tab 1 2) 0 4772 :=
  p0_16_T_c0.trans (Covered.piece 830 p0_16_T_1 (by decide +kernel)) (by decide)
theorem p0_16_T_c2 : Covered (pcT 1382 p0_16D p0_16C0 p0_16Tab 1 2) 0 5952 :=
  p0_16_T_c1.trans (Covered.piece 590 p0_16_T_2 (by decide +kernel)) (by decide)
theorem p0_16_T_c3 : Covered (pcT 1382 p0_16D p0_16C0 p0_16Tab 1 2) 0 7070 :=
  p0_16_T_c2.trans (Covered.piece 559 p0_16_T_3 (by decide +kernel)) (by decide)
theorem p0_16_T_c4 : Covered (pcT 1382 p0_16D p0_16C0 p0_16Tab 1 2) 0 8128 :=
  p0_16_T_c3.trans (Covered.piece 529 p0_16_T_4 (by decide +kernel)) (by decide)
theorem p0_16_T_c5 : Covered (pcT 1382 p0_16D p0_16C0 p0_16Tab 1 2) 0 9466 :=
  p0_16_T_c4.trans (Covered.piece 669 p0_16_T_5 (by decide +kernel)) (by decide)
theorem p0_16_T_c6 : Covered (pcT 1382 p0_16D p0_16C0 p0_16Tab 1 2) 0 10734 :=
  p0_16_T_c5.trans (Covered.piece 634 p0_16_T_6 (by decide +kernel)) (by decide)
theorem p0_16_T_c7 : Covered (pcT 1382 p0_16D p0_16C0 p0_16Tab 1 2) 0 11934 :=
  p0_16_T_c6.trans (Covered.piece 600 p0_16_T_7 (by decide +kernel)) (by decide)
theorem p0_16_T_c8 : Covered (pcT 1382 p0_16D p0_16C0 p0_16Tab 1 2) 0 13452 :=
  p0_16_T_c7.trans (Covered.piece 759 p0_16_T_8 (by decide +kernel)) (by decide)
theorem p0_16_T_c9 : Covered (pcT 1382 p0_16D p0_16C0 p0_16Tab 1 2) 0 14892 :=
  p0_16_T_c8.trans (Covered.piece 720 p0_16_T_9 (by decide +kernel)) (by decide)
theorem p0_16_T_c10 : Covered (pcT 1382 p0_16D p0_16C0 p0_16Tab 1 2) 0 16258 :=
  p0_16_T_c9.trans (Covered.piece 683 p0_16_T_10 (by decide +kernel)) (by decide)
theorem p0_16_T_c11 : Covered (pcT 1382 p0_16D p0_16C0 p0_16Tab 1 2) 0 17986 :=
  p0_16_T_c10.trans (Covered.piece 864 p0_16_T_11 (by decide +kernel)) (by decide)
theorem p0_16_T_c12 : Covered (pcT 1382 p0_16D p0_16C0 p0_16Tab 1 2) 0 19624 :=
  p0_16_T_c11.trans (Covered.piece 819 p0_16_T_12 (by decide +kernel)) (by decide)
theorem p0_16_T_c13 : Covered (pcT 1382 p0_16D p0_16C0 p0_16Tab 1 2) 0 21176 :=
  p0_16_T_c12.trans (Covered.piece 776 p0_16_T_13 (by decide +kernel)) (by decide)
theorem p0_16_T_c14 : Covered (pcT 1382 p0_16D p0_16C0 p0_16Tab 1 2) 0 23138 :=
  p0_16_T_c13.trans (Covered.piece 981 p0_16_T_14 (by decide +kernel)) (by decide)
theorem p0_16_T_c15 : Covered (pcT 1382 p0_16D p0_16C0 p0_16Tab 1 2) 0 24998 :=
  p0_16_T_c14.trans (Covered.piece 930 p0_16_T_15 (by decide +kernel)) (by decide)
theorem p0_16_T_c16 : Covered (pcT 1382 p0_16D p0_16C0 p0_16Tab 1 2) 0 26762 :=
  p0_16_T_c15.trans (Covered.piece 882 p0_16_T_16 (by decide +kernel)) (by decide)
theorem p0_16_T_c17 : Covered (pcT 1382 p0_16D p0_16C0 p0_16Tab 1 2) 0 28436 :=
  p0_16_T_c16.trans (Covered.piece 837 p0_16_T_17 (by decide +kernel)) (by decide)
theorem p0_16_T_c18 : Covered (pcT 1382 p0_16D p0_16C0 p0_16Tab 1 2) 0 30024 :=
  p0_16_T_c17.trans (Covered.piece 794 p0_16_T_18 (by decide +kernel)) (by decide)
theorem p0_16_T_c19 : Covered (pcT 1382 p0_16D p0_16C0 p0_16Tab 1 2) 0 32032 :=
  p0_16_T_c18.trans (Covered.piece 1004 p0_16_T_19 (by decide +kernel)) (by decide)
theorem p0_16_T_c20 : Covered (pcT 1382 p0_16D p0_16C0 p0_16Tab 1 2) 0 33936 :=
  p0_16_T_c19.trans (Covered.piece 952 p0_16_T_20 (by decide +kernel)) (by decide)
theorem p0_16_T_c21 : Covered (pcT 1382 p0_16D p0_16C0 p0_16Tab 1 2) 0 35742 :=
  p0_16_T_c20.trans (Covered.piece 903 p0_16_T_21 (by decide +kernel)) (by decide)
theorem p0_16_T_c22 : Covered (pcT 1382 p0_16D p0_16C0 p0_16Tab 1 2) 0 37454 :=
  p0_16_T_c21.trans (Covered.piece 856 p0_16_T_22 (by decide +kernel)) (by decide)
theorem p0_16_T_c23 : Covered (pcT 1382 p0_16D p0_16C0 p0_16Tab 1 2) 0 39078 :=
  p0_16_T_c22.trans (Covered.piece 812 p0_16_T_23 (by decide +kernel)) (by decide)
theorem p0_16_T_c24 : Covered (pcT 1382 p0_16D p0_16C0 p0_16Tab 1 2) 0 40618 :=
  p0_16_T_c23.trans (Covered.piece 770 p0_16_T_24 (by decide +kernel)) (by decide)
theorem p0_16_T_c25 : Covered (pcT 1382 p0_16D p0_16C0 p0_16Tab 1 2) 0 42566 :=
  p0_16_T_c24.trans (Covered.piece 974 p0_16_T_25 (by decide +kernel)) (by decide)
theorem p0_16_T_c26 : Covered (pcT 1382 p0_16D p0_16C0 p0_16Tab 1 2) 0 44414 :=
  p0_16_T_c25.trans (Covered.piece 924 p0_16_T_26 (by decide +kernel)) (by decide)
theorem p0_16_T_c27 : Covered (pcT 1382 p0_16D p0_16C0 p0_16Tab 1 2) 0 46166 :=
  p0_16_T_c26.trans (Covered.piece 876 p0_16_T_27 (by decide +kernel)) (by decide)
theorem p0_16_T_c28 : Covered (pcT 1382 p0_16D p0_16C0 p0_16Tab 1 2) 0 47828 :=
  p0_16_T_c27.trans (Covered.piece 831 p0_16_T_28 (by decide +kernel)) (by decide)
theorem p0_16_T_c29 : Covered (pcT 1382 p0_16D p0_16C0 p0_16Tab 1 2) 0 49402 :=
  p0_16_T_c28.trans (Covered.piece 787 p0_16_T_29 (by decide +kernel)) (by decide)
theorem p0_16_T_c30 : Covered (pcT 1382 p0_16D p0_16C0 p0_16Tab 1 2) 0 50894 :=
  p0_16_T_c29.trans (Covered.piece 746 p0_16_T_30 (by decide +kernel)) (by decide)
theorem p0_16_T_c31 : Covered (pcT 1382 p0_16D p0_16C0 p0_16Tab 1 2) 0 52308 :=
  p0_16_T_c30.trans (Covered.piece 707 p0_16_T_31 (by decide +kernel)) (by decide)
theorem p0_16_T_c32 : Covered (pcT 1382 p0_16D p0_16C0 p0_16Tab 1 2) 0 53648 :=
  p0_16_T_c31.trans (Covered.piece 670 p0_16_T_32 (by decide +kernel)) (by decide)
theorem p0_16_T_c33 : Covered (pcT 1382 p0_16D p0_16C0 p0_16Tab 1 2) 0 54918 :=
  p0_16_T_c32.trans (Covered.piece 635 p0_16_T_33 (by decide +kernel)) (by decide)
theorem p0_16_T_c34 : Covered (pcT 1382 p0_16D p0_16C0 p0_16Tab 1 2) 0 56122 :=
  p0_16_T_c33.trans (Covered.piece 602 p0_16_T_34 (by decide +kernel)) (by decide)
theorem p0_16_T_c35 : Covered (pcT 1382 p0_16D p0_16C0 p0_16Tab 1 2) 0 57644 :=
  p0_16_T_c34.trans (Covered.piece 761 p0_16_T_35 (by decide +kernel)) (by decide)
theorem p0_16_T_c36 : Covered (pcT 1382 p0_16D p0_16C0 p0_16Tab 1 2) 0 59088 :=
  p0_16_T_c35.trans (Covered.piece 722 p0_16_T_36 (by decide +kernel)) (by decide)
theorem p0_16_T_c37 : Covered (pcT 1382 p0_16D p0_16C0 p0_16Tab 1 2) 0 60456 :=
  p0_16_T_c36.trans (Covered.piece 684 p0_16_T_37 (by decide +kernel)) (by decide)
theorem p0_16_T_c38 : Covered (pcT 1382 p0_16D p0_16C0 p0_16Tab 1 2) 0 61752 :=
  p0_16_T_c37.trans (Covered.piece 648 p0_16_T_38 (by decide +kernel)) (by decide)
theorem p0_16_T_c39 : Covered (pcT 1382 p0_16D p0_16C0 p0_16Tab 1 2) 0 62980 :=
  p0_16_T_c38.trans (Covered.piece 614 p0_16_T_39 (by decide +kernel)) (by decide)
theorem p0_16_T_c40 : Covered (pcT 1382 p0_16D p0_16C0 p0_16Tab 1 2) 0 64144 :=
  p0_16_T_c39.trans (Covered.piece 582 p0_16_T_40 (by decide +kernel)) (by decide)
theorem p0_16_T_c41 : Covered (pcT 1382 p0_16D p0_16C0 p0_16Tab 1 2) 0 65246 :=
  p0_16_T_c40.trans (Covered.piece 551 p0_16_T_41 (by decide +kernel)) (by decide)
theorem p0_16_T_c42 : Covered (pcT 1382 p0_16D p0_16C0 p0_16Tab 1 2) 0 66290 :=
  p0_16_T_c41.trans (Covered.piece 522 p0_16_T_42 (by decide +kernel)) (by decide)
theorem p0_16_tail (x : ℝ) (hx : x ≤ -1) : |rVal p0_16D p0_16C0 p0_16Tab x| ≤ (1 : ℕ) / (2 : ℕ) :=
  tail_sound p0_16_side (by norm_num) (by norm_num) p0_16_T_c42 x hx

end Ormatex.Props.Cert
