import Verif.Spec.WaterFormula

/-!
# Specification: the columns of a water vapour line list in a run with a dictionary of parameters

`q k` is the value under the name `k` (a number is the constant sequence), `c` the columns of the model's own list.
-/

namespace Verif.Spec

/-- What the formula of a run uses in place of column `a`: strengths, exponents and centres from the dictionary, widths
and shifts from MHz/mbar to GHz/mbar.  Models after R17 (`late`) have shifts of their own, the others the shift-to-width
ratio and the two factors of the continuum. -/
noncomputable def withParams (late : Bool) (q c : String → ℕ → ℝ) (a : String) : ℕ → ℝ :=
  if a = "s1" then q "S"
  else if a = "b2" then q "B2"
  else if a = "fl" then q "FL"
  else if a = "w0" then fun i => q "gamma_a" i / 1000
  else if a = "w0s" then fun i => q "gamma_w" i / 1000
  else if a = "x" then q "n_a"
  else if a = "xs" then q "n_w"
  else if a = "xcf" then q "con_Xf"
  else if a = "xcs" then q "con_Xs"
  else if a = "cf" then fun i => q "con_Cf" i * if late then 1 else q "con_Cf_factr" i
  else if a = "cs" then fun i => q "con_Cs" i * if late then 1 else q "con_Cs_factr" i
  else if a = "sr" ∧ !late then q "SR"
  else if a = "sh" ∧ late then fun i => q "delta_a" i / 1000
  else if a = "shs" ∧ late then fun i => q "delta_w" i / 1000
  else if a = "xh" ∧ late then q "n_da"
  else if a = "xhs" ∧ late then q "n_dw"
  else c a

end Verif.Spec
