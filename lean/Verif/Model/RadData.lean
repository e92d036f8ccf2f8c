import Verif.Model.Bateman
import Verif.Model.Progression

/-!
The species lists and libraries of the reaction systems in `/repo/ormatex_py/progression`.
-/

namespace Ormatex

/-- a Python dict literal with string keys (all keys below are different) -/
def libOf (l : List (String × LibEntry)) : BatemanLib := fun k => l.lookup k

noncomputable section

/-- the species list of `rad_1d_2s.py:86` -/
abbrev keymap2 : List String := ["u_0", "u_1"]

/-- `decay_lib`, rad_1d_2s.py:49-53 -/
def decayLib2 : BatemanLib := libOf [("u_0", .single "u_1" (3 / 1000)), ("u_1", .single "none" (3 / 100))]

/-- `keymap`, rad_1d_3s.py:39 -/
abbrev keymap3 : List String := ["c_0", "c_1", "c_2"]

/-- `decay_lib`, rad_1d_3s.py:40-44 -/
def decayLib3 : BatemanLib := libOf [("c_0", .single "c_1" (1 / 10 * 10)), ("c_1", .single "c_2" (10 * 10)), ("c_2", .single "none" (1 / 1000 * 10))]

/-- `keymap`, rad_1d_9s.py:40-49 and bateman_nonlin_sys.py:39-48 -/
abbrev keymap9 : List String :=
  ["c_0_a", "c_1_a", "c_2_a", "te_135_a", "i_135_a", "xe_135_a", "cs_135_a", "xe_135_v", "cs_135_v"]

/-- `decay_lib`, rad_1d_9s.py:51-63 (the entry of `xe_135_v` is a one-element tuple of pairs) -/
def decayLib9 : BatemanLib := libOf [
  ("c_0_a", .single "none" 3), ("c_1_a", .single "none" (3 / 10)), ("c_2_a", .single "none" (3 / 100)),
  ("te_135_a", .single "i_135_a" (Real.log 2 / 19)), ("i_135_a", .single "xe_135_a" (Real.log 2 / (657 / 100 * 3600))),
  ("xe_135_a", .single "cs_135_a" (Real.log 2 / (914 / 100 * 3600))),
  ("cs_135_a", .single "none" (Real.log 2 / (1330000 * 365 * 24 * 3600))),
  ("xe_135_v", .branches [("cs_135_v", Real.log 2 / (914 / 100 * 3600))]),
  ("cs_135_v", .single "none" (Real.log 2 / (1330000 * 365 * 24 * 3600)))]

/-- `transmute_lib`, rad_1d_9s.py:66-78 (`sigma = 9.0e-3`) and bateman_nonlin_sys.py:54-66 (`sigma = 1.0e-9`) -/
def transmuteLib (sigma : ℝ) : BatemanLib := libOf [
  ("c_0_a", .single "none" 0), ("c_1_a", .single "none" 0), ("c_2_a", .single "none" 0), ("te_135_a", .single "none" 0),
  ("i_135_a", .single "none" 0), ("xe_135_a", .single "none" (-sigma)), ("cs_135_a", .single "none" 0),
  ("xe_135_v", .single "none" (-sigma)), ("cs_135_v", .single "none" 0)]

/-- `fission_lib`: rad_1d_9s.py:83-95 with `sigma_f = 1e-4` and yields `0.01, 0.03, 0.02, 0.18, 0.15`, bateman_nonlin_sys.py:71-83
with `sigma_f = 1.0e-9` and yields `0.03, 0.02, 0.01, 0.20, 0.01`. -/
def fissionLib (sigma y0 y1 y2 y3 y4 : ℝ) : BatemanLib := libOf [
  ("c_0_a", .single "none" (y0 * sigma)), ("c_1_a", .single "none" (y1 * sigma)), ("c_2_a", .single "none" (y2 * sigma)),
  ("te_135_a", .single "none" (y3 * sigma)), ("i_135_a", .single "none" (y4 * sigma)), ("xe_135_a", .single "none" 0),
  ("cs_135_a", .single "none" 0), ("xe_135_v", .single "none" 0), ("cs_135_v", .single "none" 0)]

/-- the fission library of rad_1d_9s.py:83-95 -/
def fissionLib9 : BatemanLib := fissionLib (1 / 10000) (1 / 100) (3 / 100) (2 / 100) (18 / 100) (15 / 100)

/-- the fission library of bateman_nonlin_sys.py:71-83 -/
def fissionLibTank : BatemanLib := fissionLib (1 / 1000000000) (3 / 100) (2 / 100) (1 / 100) (20 / 100) (1 / 100)

/-- `decay_lib`, bateman_nonlin_sys.py:25-38 (`gas_purify_lambda` is `log(2)/1.0`) -/
def decayLibTank : BatemanLib := libOf [
  ("c_0_a", .single "none" 3), ("c_1_a", .single "none" (3 / 10)), ("c_2_a", .single "none" (3 / 100)),
  ("te_135_a", .single "i_135_a" (Real.log 2 / 19)), ("i_135_a", .single "xe_135_a" (Real.log 2 / (657 / 100 * 3600))),
  ("xe_135_a", .single "cs_135_a" (Real.log 2 / (914 / 100 * 3600))),
  ("cs_135_a", .single "none" (Real.log 2 / (1330000 * 365 * 24 * 3600))),
  ("xe_135_v", .branches [("cs_135_v", Real.log 2 / (914 / 100 * 3600)), ("none", Real.log 2 / 1)]),
  ("cs_135_v", .single "none" (Real.log 2 / (1330000 * 365 * 24 * 3600) + Real.log 2 / 1))]

end
end Ormatex
