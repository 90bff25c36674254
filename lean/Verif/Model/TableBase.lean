import Verif.Model.Simulator

/-!
# Representation of the line tables shipped with the package

`pyrtlib/_lineshape/*.nc`.
-/

namespace Verif.Model

/-- A column of numbers `digits[k] · 10^(-scale)`. -/
structure Col where
  digits : List ℤ
  scale : ℕ

/-- Entry `k` of a column.  Beyond the end (where Python raises `IndexError`) the value is 0; the routines only index
below the number of lines, which is the length of every column (`waterGroups_lengths` etc.). -/
noncomputable def Col.val (c : Col) : Val := fun k => ((c.digits.getD k 0 : ℤ) : ℝ) / 10 ^ c.scale

/-- A group of `h2o_lineshape.nc` or `o3_lineshape.nc`: the matrix `mtx` by columns, `ctr`, `reftline`, and
`(d2air, d2self)` where present. -/
structure RawTable where
  rows : ℕ
  cols : List Col
  ctr : Col
  reftline : Col
  extra : Col

end Verif.Model
