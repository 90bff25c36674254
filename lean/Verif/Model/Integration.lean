import Verif.Py.Loop
import Verif.Py.Err
import Mathlib.Analysis.SpecialFunctions.Log.Basic

/-!
# `exponential_integration` and `cloud_integrated_density`

`pyrtlib/rt_equation.py:245-290` and `:342-366`.
-/

namespace Verif.Model

open Verif.Py

/-- The layer value of rt_equation.py:269-282 for the lower level value `a = x[i-1]` and the upper
one `b = x[i]`; `none`: the branch that warns and returns early (`a < 0` or `b < 0`). -/
noncomputable def layerValue (zeroflg : Bool) (a b : ℝ) : Option ℝ :=
  if a < 0.0 ∨ b < 0.0 then none
  else if |b - a| < 1e-09 then some b
  else if a = 0.0 ∨ b = 0.0 then
    if !zeroflg then some 0.0 else some ((b + a) * 0.5)
  else some ((b - a) / Real.log (b / a))

/-- `x[i - 1]` for an array of length `nl`: Python wraps `x[-1]` to the last element. -/
def prevEntry (x : ℕ → ℝ) (nl i : ℕ) : ℝ := if i = 0 then x (nl - 1) else x (i - 1)

/-- Loop body, rt_equation.py:267-285.  Inner `Except.error`: `x[i]` beyond the array. The outer
`Except.error` ends the loop: either that exception or the early `return sxds, xds` (line 271). -/
noncomputable def expIntBody (zeroflg : Bool) (nl : ℕ) (x ds : ℕ → ℝ) (i : ℕ) (s : ℝ × (ℕ → ℝ)) :
    Except (Except PyErr (ℝ × (ℕ → ℝ))) (ℝ × (ℕ → ℝ)) :=
  if nl ≤ i then .error (.error .indexError)
  else match layerValue zeroflg (prevEntry x nl i) (x i) with
    | none => .error (.ok s)
    | some xlayer =>
      let xds := Function.update s.2 i (xlayer * ds i)
      .ok (s.1 + xds i, xds)

/-- `RTEquation.exponential_integration(zeroflg, x, ds, ibeg, iend, factor)`, rt_equation.py:264-290,
for `x` and `ds` of the same length `nl`.  `xds.reshape(iend)` raises unless `iend = nl`. -/
noncomputable def expInt (zeroflg : Bool) (nl : ℕ) (x ds : ℕ → ℝ) (ibeg iend : ℕ) (factor : ℝ) :
    Except PyErr (ℝ × (ℕ → ℝ)) :=
  match forRangeE ibeg iend (expIntBody zeroflg nl x ds) (0.0, fun _ => 0) with
  | .error r => r
  | .ok (sxds, xds) => if iend = nl then .ok (sxds * factor, xds) else .error .valueError

/-- `RTEquation.cloud_integrated_density(dencld, ds, lbase, ltop)`, rt_equation.py:356-366, the clouds
given as list of (base level, top level) pairs (`int(lbase[i])`, `int(ltop[i])`, non-negative because
they are level numbers; tops are `≤` array length so that no index leaves the arrays). -/
noncomputable def cloudDensity (dencld ds : ℕ → ℝ) (clouds : List (ℕ × ℕ)) : ℝ :=
  let scld := clouds.foldl (fun scld c =>
    forRange (c.1 + 1) c.2 (fun j scld => scld + ds j * (0.5 * (dencld j + dencld (j - 1)))) scld) 0.0
  scld * 0.1

end Verif.Model
