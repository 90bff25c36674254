import Mathlib.Data.Real.Basic

/-!
# Refractivity of moist air

Thayer, An improved equation for the radio refractive index of air, Radio Science 9 (1974), with the compressibility factors given
there.  Pressures in hPa, temperatures in kelvin; refractivity in units of `10⁻⁶`.
-/

namespace Verif.Spec

/-- Inverse compressibility of dry air at partial pressure `a`. -/
noncomputable def dryFactor (a T : ℝ) : ℝ := 1 + a * (57.9e-8 * (1 + 0.52 / T) - 9.4611e-4 * (T - 273.16) / T ^ 2)

/-- Inverse compressibility of water vapour at partial pressure `e`, `x` degrees Celsius. -/
noncomputable def wetPoly (x : ℝ) : ℝ := 1 - 0.01317 * x + 1.75e-4 * x ^ 2 + 1.44e-6 * x ^ 3

noncomputable def wetFactor (e T : ℝ) : ℝ := 1 + 1650 * (e / T ^ 3) * wetPoly (T - 273.16)

/-- Refractivity of dry air. -/
noncomputable def dryN (a T : ℝ) : ℝ := 77.6036 * (a / T) * dryFactor a T

/-- Refractivity of water vapour. -/
noncomputable def wetN (e T : ℝ) : ℝ := (64.79 * (e / T) + 377600 * (e / T ^ 2)) * wetFactor e T

/-- Refractivity of moist air at total pressure `p` and vapour pressure `e`. -/
noncomputable def airN (p e T : ℝ) : ℝ := dryN (p - e) T + wetN e T

end Verif.Spec
