import Mathlib.Data.Rat.Defs

/-!
# Specification: the water vapour lines at 22 and 183 GHz, by name of the quantity

A record of the entries of the lines at 22 and 183 GHz in the tables shipped in /repo: frequency (GHz), strength
(Hz cm²) at the reference temperature, its temperature coefficient, half-widths for air and vapour (GHz/mbar) with their
temperature exponents, shifts (as a fraction of the width `sr`, or in GHz/mbar), and speed dependence.

The numbers were extracted from those same tables by a script with its own list of column numbers, and were not compared with
any publication. The record therefore fixes which column and unit each attribute is loaded from; it cannot detect a wrong
number in the shipped tables.
-/

namespace Verif.Spec

/-- Model, then for every quantity the values at 22 and 183 GHz. -/
def recordedWater : List (String × List (String × ℚ × ℚ)) := [
  ("R98", [
    ("fl", 22.2351, 183.3101), ("s1", 1.31e-14, 2.273e-12), ("b2", 2.144, 0.668), ("w0", 0.00281, 0.00281),
    ("x", 0.69, 0.64), ("w0s", 0.01349, 0.01491), ("xs", 0.61, 0.85)]),
  ("R03", [
    ("fl", 22.2351, 183.3101), ("s1", 1.314e-14, 2.279e-12), ("b2", 2.144, 0.668), ("w0", 0.00281, 0.00287),
    ("x", 0.69, 0.64), ("w0s", 0.01349, 0.01491), ("xs", 0.61, 0.85), ("sr", 0, -0.017)]),
  ("R16", [
    ("fl", 22.23508, 183.310087), ("s1", 1.317e-14, 2.334e-12), ("b2", 2.144, 0.668), ("w0", 0.002665, 0.002936),
    ("x", 0.76, 0.77), ("w0s", 0.0136, 0.01476), ("xs", 1, 0.85), ("sr", -0.0088, -0.024)]),
  ("R17", [
    ("fl", 22.23508, 183.310087), ("s1", 1.317e-14, 2.334e-12), ("b2", 2.144, 0.668), ("w0", 0.002665, 0.002936),
    ("x", 0.76, 0.77), ("w0s", 0.0136, 0.01476), ("xs", 1, 0.85), ("sr", -0.0088, -0.024)]),
  ("R18", [
    ("fl", 22.23508, 183.310087), ("s1", 1.335e-14, 2.319e-12), ("b2", 2.172, 0.677), ("w0", 0.002699, 0.002945),
    ("x", 0.76, 0.77), ("w0s", 0.01329, 0.01478), ("xs", 1.2, 0.78), ("sh", -0.000033, -0.000072), ("xh", 2.6, 0.77),
    ("shs", 0.000814, 0.000173), ("xhs", 1.2, 0.78)]),
  ("R19", [
    ("fl", 22.23508, 183.310087), ("s1", 1.335e-14, 2.319e-12), ("b2", 2.172, 0.677), ("w0", 0.002699, 0.002952),
    ("x", 0.76, 0.57), ("w0s", 0.01329, 0.01479), ("xs", 1.2, 0.82), ("sh", -0.000033, -0.000073), ("xh", 2.6, 2),
    ("shs", 0.000814, 0.000112), ("xhs", 1.2, 1.43), ("aair", 0, 0), ("aself", 0, 18.3)]),
  ("R19SD", [
    ("fl", 22.23508, 183.310087), ("s1", 1.335e-14, 2.319e-12), ("b2", 2.172, 0.677), ("w0", 0.00274, 0.003028),
    ("x", 0.76, 0.55), ("w0s", 0.01363, 0.01501), ("xs", 1.2, 0.79), ("sh", -0.000033, -0.000073), ("xh", 2.6, 2),
    ("shs", 0.000814, 0.000112), ("xhs", 1.2, 1.43), ("aair", 0, 0), ("aself", 0, 18.3), ("w2", 0, 0.000406),
    ("w2s", 0, 0.001499)]),
  ("R20", [
    ("fl", 22.23508, 183.310087), ("s1", 1.335e-14, 2.319e-12), ("b2", 2.172, 0.677), ("w0", 0.002699, 0.002959),
    ("x", 0.76, 0.63), ("w0s", 0.01329, 0.01481), ("xs", 1.2, 0.83), ("sh", -0.000033, -0.000072), ("xh", 2.6, 1.8),
    ("shs", 0.000814, 0.000108), ("xhs", 1.2, 1.25), ("aair", 0, 0), ("aself", 0, 17.3)]),
  ("R20SD", [
    ("fl", 22.23508, 183.310087), ("s1", 1.335e-14, 2.319e-12), ("b2", 2.172, 0.677), ("w0", 0.00274, 0.003033),
    ("x", 0.76, 0.62), ("w0s", 0.01363, 0.01501), ("xs", 1.2, 0.82), ("sh", -0.000033, -0.000074), ("xh", 2.6, 1.8),
    ("shs", 0.000814, 0.000136), ("xhs", 1.2, 0.98), ("aair", 0, 0), ("aself", 0, 12.6), ("w2", 0.000435, 0.000413),
    ("w2s", 0.00191, 0.00148)]),
  ("R21SD", [
    ("fl", 22.23508, 183.310087), ("s1", 1.335e-14, 2.319e-12), ("b2", 2.172, 0.677), ("w0", 0.00274, 0.003033),
    ("x", 0.76, 0.62), ("w0s", 0.01363, 0.01501), ("xs", 1.2, 0.82), ("sh", -0.000033, -0.000074), ("xh", 2.6, 1.8),
    ("shs", 0.000814, 0.000136), ("xhs", 0, 0.98), ("aair", 0, 0), ("aself", 0, 12.6), ("w2", 0.000435, 0.000407),
    ("xw2", 0, 0.412), ("w2s", 0.00191, 0.00146), ("xw2s", 0, 0.571), ("d2", 0, -0.000016), ("d2s", 0, 0.00016)]),
  ("R22SD", [
    ("fl", 22.23508, 183.310087), ("s1", 1.334e-14, 2.319e-12), ("b2", 2.172, 0.677), ("w0", 0.00274, 0.003033),
    ("x", 0.76, 0.62), ("w0s", 0.01363, 0.01501), ("xs", 1.2, 0.82), ("sh", -0.000033, -0.000074), ("xh", 2.6, 1.8),
    ("shs", 0.000814, 0.000136), ("xhs", 0, 0.98), ("aair", 0, 0), ("aself", 0, 12.6), ("w2", 0.000435, 0.000407),
    ("xw2", 0, 0.412), ("w2s", 0.00191, 0.00146), ("xw2s", 0, 0.571), ("d2", 0, -0.000016), ("d2s", 0, 0.00016)]),
  ("R23SD", [
    ("fl", 22.23508, 183.310087), ("s1", 1.334e-14, 2.319e-12), ("b2", 2.172, 0.677), ("w0", 0.00274, 0.003033),
    ("x", 0.76, 0.62), ("w0s", 0.01363, 0.01501), ("xs", 1.2, 0.82), ("sh", -0.000033, -0.000074), ("xh", 2.6, 1.8),
    ("shs", 0.000814, 0.000136), ("xhs", 0, 0.98), ("aair", 0, 0), ("aself", 0, 12.6), ("w2", 0.000435, 0.000407),
    ("xw2", 0, 0.412), ("w2s", 0.00191, 0.00146), ("xw2s", 0, 0.571), ("d2", 0, -0.000016), ("d2s", 0, 0.00016)]),
  ("R24", [
    ("fl", 22.23508, 183.310087), ("s1", 1.334e-14, 2.319e-12), ("b2", 2.172, 0.677), ("w0", 0.00274, 0.003033),
    ("x", 0.76, 0.62), ("w0s", 0.01363, 0.01501), ("xs", 1.2, 0.82), ("sh", -0.000033, -0.000074), ("xh", 2.6, 1.8),
    ("shs", 0.000814, 0.000136), ("xhs", 0, 0.98), ("aair", 0, 0), ("aself", 0, 12.6), ("w2", 0.000435, 0.000407),
    ("xw2", 0, 0.412), ("w2s", 0.00191, 0.00146), ("xw2s", 0, 0.571), ("d2", 0, -0.000016), ("d2s", 0, 0.00016)]),
  ("MWL24", [
    ("fl", 22.23508, 183.310087), ("s1", 1.334e-14, 2.319e-12), ("b2", 2.172, 0.677), ("w0", 0.00274, 0.003033),
    ("x", 0.76, 0.62), ("w0s", 0.01363, 0.01501), ("xs", 1.2, 0.82), ("sh", -0.000033, -0.000074), ("xh", 2.6, 1.8),
    ("shs", 0.000814, 0.000136), ("xhs", 0, 0.98), ("aair", 0, 0), ("aself", 0, 12.6), ("w2", 0.000435, 0.000407),
    ("xw2", 0, 0.412), ("w2s", 0.00191, 0.00146), ("xw2s", 0, 0.571), ("d2", 0, -0.000016), ("d2s", 0, 0.00016)])
  ]

end Verif.Spec
