import Verif.Py.Err
import Verif.Model.Constants
import Mathlib.Analysis.SpecialFunctions.Log.Base
import Mathlib.Analysis.SpecialFunctions.Pow.Real

/-!
# `vapor`, `refractivity` and the Goff-Gratch utilities

`pyrtlib/rt_equation.py:26-81`, `:105-147`, `pyrtlib/utils.py:448-515`.
All formulas assume `t ≠ 0` (theorems carry `0 < t`).
-/

namespace Verif.Model

open Verif.Py Real

/-- Exponent of the Goff-Gratch formula as written in `vapor`, rt_equation.py:62-65. -/
noncomputable def vaporExponent (t : ℝ) : ℝ :=
  let y := (373.16:ℝ) / t;
  -7.90298 * (y - 1.0) + 5.02808 * logb 10 y
    - 1.3816e-07 * ((10:ℝ) ^ (11.344 * (1.0 - 1.0 / y)) - 1.0)
    + 0.0081328 * ((10:ℝ) ^ (-3.49149 * (y - 1.0)) - 1.0) + logb 10 (1013.246)

/-- `RTEquation.vapor(t, rh, ice)`, rt_equation.py:43-81, for profiles `t`, `rh` (elementwise).
With `ice=True` the code evaluates `t(indx)`: an array is not callable, `TypeError` (line 69). -/
noncomputable def vapor (t rh : ℕ → ℝ) (ice : Bool) : Except PyErr ((ℕ → ℝ) × (ℕ → ℝ)) :=
  let rvap := cRwatvap * 1e-05
  if ice then .error .typeError
  else
    let es := fun i => (10.0:ℝ) ^ vaporExponent (t i)
    let e := fun i => rh i * es i
    let rho := fun i => e i / (rvap * t i)
    .ok (e, rho)

/-- `eswat_goffgratch(t)`, utils.py:465-484. -/
noncomputable def eswat (t : ℝ) : ℝ :=
  let t_sat := (373.16:ℝ)
  let t_ratio := t_sat / t
  let rt_ratio := 1.0 / t_ratio
  let sl_pressure := (1013.246:ℝ)
  let c1 := (7.90298:ℝ)
  let c2 := (5.02808:ℝ)
  let c3 := (1.3816e-07:ℝ)
  let c4 := (11.344:ℝ)
  let c5 := (0.0081328:ℝ)
  let c6 := (3.49149:ℝ)
  let tmp := (-1.0 * c1 * (t_ratio - 1.0)) + (c2 * logb 10 t_ratio)
    - (c3 * ((10.0:ℝ) ^ (c4 * (1.0 - rt_ratio)) - 1.0))
    + (c5 * ((10.0:ℝ) ^ (-1.0 * c6 * (t_ratio - 1.0)) - 1.0)) + logb 10 sl_pressure
  (10.0:ℝ) ^ tmp

/-- `esice_goffgratch(t)`, utils.py:504-515. -/
noncomputable def esice (t : ℝ) : ℝ :=
  let ewi := (6.1071:ℝ)
  let c1 := (9.09718:ℝ)
  let c2 := (3.56654:ℝ)
  let c3 := (0.876793:ℝ)
  let ratio := 273.15 / t
  let tmp := (-c1 * (ratio - 1.0)) - (c2 * logb 10 ratio) + (c3 * (1.0 - 1.0 / ratio)) + logb 10 ewi
  (10.0:ℝ) ^ tmp

/-- One level of `RTEquation.refractivity`, rt_equation.py:132-145: `(dryn, wetn, refindx)`. -/
noncomputable def refractivity1 (p t e : ℝ) : ℝ × ℝ × ℝ :=
  let pa := p - e
  let tc := t - 273.16
  let tk2 := t * t
  let tc2 := tc * tc
  let rza := 1.0 + pa * (5.79e-07 * (1.0 + 0.52 / t) - 0.00094611 * tc / tk2)
  let rzw := 1.0 + (1650.0 * (e / (t * tk2))) *
    (1.0 - 0.01317 * tc + 0.000175 * tc2 + 1.44e-06 * (tc2 * tc))
  let wetn := (64.79 * (e / t) + 377600.0 * (e / tk2)) * rzw
  let dryn := (77.6036 * (pa / t)) * rza
  (dryn, wetn, 1.0 + (dryn + wetn) * 1e-06)

end Verif.Model
