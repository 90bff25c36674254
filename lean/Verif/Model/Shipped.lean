import Verif.Model.Simulator
import Verif.Model.AbsLiquid
import Verif.Model.AbsNitrogen
import Verif.Model.AbsWater
import Verif.Model.AbsOxygen
import Verif.Model.AbsOzone
import Verif.Model.LineLists

/-!
# The simulator with the absorption routines and line tables that ship with the package

`pyrtlib/absorption_model.py`, `pyrtlib/rt_equation.py:499-501, 547-563`.
-/

namespace Verif.Model

open Verif.Py

/-- A value that is not finite ends the modelled computation. -/
def finite {α : Type*} : Except PyErr (Option α) → Except PyErr α
  | .ok (some a) => .ok a
  | .ok none => .error .notFinite
  | .error x => .error x

/-- `H2OAbsModel().h2o_absorption`, `O2AbsModel().o2_absorption`, `N2AbsModel.n2_absorption`,
`O3AbsModel().o3_absorption`, `LiqAbsModel.liquid_water_absorption` and the line-list files read by `set_ll`
(absorption_model.py:307-312, 708-713), as called in rt_equation.py:499-501, 547-563. -/
noncomputable def shipped : AbsRoutines where
  h2o m ll p vx e f := finite (h2oAbsorption m ll p vx e f)
  o2 m ll p vx e f := finite (o2Absorption m ll p vx e f)
  n2 m t p f := finite (n2Absorption m t p f)
  o3 m ll t p f d := finite (o3Absorption m ll t p f d)
  liq m w f t := finite (liquidAbs m w f t)
  h2oFile := waterFile
  o2File := oxygenFile

end Verif.Model
