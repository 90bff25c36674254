import Verif.Py.Err
import Verif.Py.Num
import Mathlib.Analysis.SpecialFunctions.Pow.Real
import Mathlib.Analysis.SpecialFunctions.Complex.Log

/-!
# Absorption by cloud liquid water

`pyrtlib/absorption_model.py:121-176` and `dilec12`, `pyrtlib/utils.py:536-589`.  Scalars; `none`: not a finite number
(numpy) or `ZeroDivisionError` (Python complex division).
-/

namespace Verif.Model

open Verif.Py

/-- Division of complex numbers; no finite result when the divisor is 0. -/
noncomputable def cDiv (a b : ℂ) : Option ℂ := if b = 0 then none else some (a / b)

/-- `np.log` of a complex number: principal branch; no finite result at 0. -/
noncomputable def cLog (a : ℂ) : Option ℂ := if a = 0 then none else some (Complex.log a)

/-- The relaxation frequency `fp`, absorption_model.py:160-162. -/
noncomputable def debyeFp (r03 : Bool) (theta1 : ℝ) : ℝ :=
  let fp := (316.0 * theta1 + 146.4) * theta1 + 20.2
  if r03 then 20.1 * Real.exp (7.88 * theta1) else fp

/-- Double-Debye dielectric constant, absorption_model.py:155-165. -/
noncomputable def debyeEps (r03 : Bool) (freq temp : ℝ) : Option ℂ := do
  let q ← npDiv 300.0 temp
  let theta1 := 1.0 - q
  let eps0 := 77.66 - 103.3 * theta1
  let eps1 := 0.0671 * eps0
  let eps2 : ℝ := 3.52
  let fp := debyeFp r03 theta1
  let fs := 39.8 * fp
  let u ← npDiv freq fp
  let w ← npDiv freq fs
  let a ← cDiv ((eps0 - eps1 : ℝ) : ℂ) ⟨1.0, u⟩
  let b ← cDiv ((eps1 - eps2 : ℝ) : ℂ) ⟨1.0, w⟩
  return a + b + (eps2 : ℂ)

/-- `dilec12(f, t)`, utils.py:560-589.  For `t ≤ 0` the real powers of `theta` are not finite. -/
noncomputable def dilec12 (f t : ℝ) : Option ℂ :=
  if 0 < t then do
    let tc := t - 273.15
    let z : ℂ := ⟨0.0, f⟩
    let theta := 300.0 / t
    let kappa0 : ℝ := -43.7527 * theta ^ (0.05 : ℝ) + 299.504 * theta ^ (1.47 : ℝ) - 399.364 * theta ^ (2.11 : ℝ)
      + 221.327 * theta ^ (2.31 : ℝ)
    let delta1 := 80.69715 * Real.exp (-tc / 226.45)
    let sdq ← npDiv (-651.4728) (tc + 133.07)
    let sd := 1164.023 * Real.exp sdq
    let deb ← cDiv ((delta1 : ℂ) * z) ((sd : ℂ) + z)
    let kappa : ℂ := (kappa0 : ℂ) - deb
    let delta := 4.008724 * Real.exp (-tc / 103.05)
    let hdelta := delta / 2.0
    let f1 : ℝ := 10.46012 + (0.1454962 * tc) + (0.063267156 * tc ^ 2) + (0.00093786645 * tc ^ 3)
    let z1 : ℂ := ⟨-0.75, 1.0⟩ * (f1 : ℂ)
    let z2 : ℂ := ⟨-4500.0, 2000.0⟩
    let r ← cDiv z2 z1
    let cnorm ← cLog r
    let rp ← cDiv (z - z2) (z - z1)
    let lp ← cLog rp
    let chip ← cDiv ((hdelta : ℂ) * lp) cnorm
    let rj ← cDiv (z - (starRingEnd ℂ) z2) (z - (starRingEnd ℂ) z1)
    let lj ← cLog rj
    let chij ← cDiv ((hdelta : ℂ) * lj) ((starRingEnd ℂ) cnorm)
    return kappa + (chip + chij - (delta : ℂ))
  else none

/-- The names handled by the double-Debye branch, absorption_model.py:155. -/
def liqDebye : List String := ["R03", "R98"]

/-- The names handled by `dilec12`, absorption_model.py:166. -/
def liqDilec : List String := ["R17", "R16", "R19", "R20", "R19SD", "R22SD", "R23", "R23SD", "R24"]

/-- The dielectric constant chosen by the model name, absorption_model.py:155-170. -/
noncomputable def liquidEps (model : String) (freq temp : ℝ) : Except PyErr (Option ℂ) :=
  if model ∈ liqDebye then .ok (debyeEps (decide (model = "R03")) freq temp)
  else if model ∈ liqDilec then .ok (dilec12 freq temp)
  else .error .valueError

/-- `LiqAbsModel.liquid_water_absorption(water, freq, temp)`, absorption_model.py:151-176. -/
noncomputable def liquidAbs (model : String) (water freq temp : ℝ) : Except PyErr (Option ℝ) :=
  if water ≤ 0 then .ok (some 0)
  else (liquidEps model freq temp).map fun eps => do
    let eps ← eps
    let re ← cDiv (eps - 1.0) (eps + 2.0)
    return -0.06286 * re.im * freq * water

end Verif.Model
