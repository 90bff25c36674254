import Verif.Model.Planck

/-!
# `cloud_radiating_temperature`, `vapor`, `refractivity`

`pyrtlib/rt_equation.py:292-340`, `:26-81`, `:105-147`.
-/

namespace Verif.Model

open Verif.Py Real

/-- `RTEquation.cloud_radiating_temperature`, rt_equation.py:317-340, `ibase`/`itop` already converted by
`int(...)`.  `none`: the function returns `None`; `some none`: it returns a non-finite number. -/
noncomputable def cloudTemp (ibase itop : ℕ) (hvk : ℝ) (tauprof boftatm : ℕ → ℝ) : Option (Option ℝ) :=
  if tauprof ibase > expmax then none
  else
    let batmcld := boftatm itop - boftatm ibase
    let taucld := tauprof itop - tauprof ibase
    let boftcld : Option ℝ :=
      if taucld > expmax then some (batmcld * exp (tauprof ibase))
      else npDiv (batmcld * exp (tauprof ibase)) (1.0 - exp (-taucld))
    some (boftcld.bind fun b => bright hvk b)

end Verif.Model
