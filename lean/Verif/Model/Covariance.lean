import Verif.Model.TablesCovariance
import Mathlib.Algebra.BigOperators.Group.Finset.Basic
import Verif.Py.Err
import Verif.Py.Num

/-!
# Covariance of simulated brightness temperatures

`pyrtlib/uncertainty/covariance_matrix/__init__.py`, and the computation that
`docs/script_examples/uncertainty_tutorial.py` makes with the matrices.
-/

namespace Verif.Model

open Verif.Py

/-- Entry of a table of integers, zero outside. -/
def tableAt (T : List (List ℤ)) (i j : ℕ) : ℤ := (T.getD i []).getD j 0

/-- A square matrix. -/
structure Cov where
  size : ℕ
  at' : ℕ → ℕ → ℝ

/-- `np.asarray(nc.variables['Cov_p'][:])`, put together from the oxygen parameters (0 to 104) and the others. -/
noncomputable def covFile (n : ℕ) (W : List (List ℤ)) : Cov :=
  ⟨n, fun i j =>
    if i < 105 ∧ j < 105 then (tableAt covOxygen i j : ℝ) / 2 ^ 50
    else if 105 ≤ i ∧ 105 ≤ j then (tableAt W (i - 105) (j - 105) : ℝ) / 2 ^ 158
    else 0⟩

/-- `covariance_matrix.R17_111`, covariance_matrix/__init__.py:31-34. -/
noncomputable def covR17_111 : Cov := covFile 111 covWater111

/-- `covariance_matrix.R17_112`, covariance_matrix/__init__.py:36-39. -/
noncomputable def covR17_112 : Cov := covFile 112 covWater112

/-- `covariance_matrix.R19`, covariance_matrix/__init__.py:90-93. -/
noncomputable def covR19 : Cov := covFile 135 covWater135

/-- `np.matmul(np.matmul(Kp, C), Kp.T)`, uncertainty_tutorial.py:164, 173: `Kp` has a row for each frequency and
`cols` columns.  `np.matmul` raises `ValueError` when the sizes do not fit. -/
noncomputable def covTb (C : Cov) (cols : ℕ) (K : ℕ → ℕ → ℝ) : Except PyErr (ℕ → ℕ → ℝ) :=
  if cols = C.size then
    .ok fun r r' => ∑ j ∈ Finset.range C.size, (∑ i ∈ Finset.range C.size, K r i * C.at' i j) * K r' j
  else .error .valueError

/-- `np.sqrt(np.diag(covtb))`, uncertainty_tutorial.py:165, 174; `none`: nan. -/
noncomputable def sigmaTb (C : Cov) (cols : ℕ) (K : ℕ → ℕ → ℝ) : Except PyErr (ℕ → Option ℝ) := do
  let V ← covTb C cols K
  return fun r => npSqrt (V r r)

/-- The parameters in the order of the loops, uncertainty_tutorial.py:37-54, 137-138: the name and the index. -/
def tutorialColumns : List (String × Option ℕ) :=
  let range (n : ℕ) : List (Option ℕ) := (List.range n).map some
  let o2 : List (String × List (Option ℕ)) := [("O2S", range 1), ("X05", [none]), ("WB300", [none]),
    ("O2gamma", range 34), ("Y300", range 34), ("O2_V", range 34)]
  let h2o : List (String × List (Option ℕ)) := [("con_Cf_factr", [none]), ("con_Cs_factr", [none]), ("gamma_a", range 1),
    ("S", range 1), ("con_Xf", [none]), ("SR", range 1), ("con_Xs", [none])]
  (o2 ++ h2o).flatMap fun e => e.2.map fun i => (e.1, i)

end Verif.Model
