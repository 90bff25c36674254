import Mathlib.Analysis.SpecialFunctions.Pow.Real
import Mathlib.Analysis.SpecialFunctions.Pow.Complex
import Verif.Spec.Water

/-!
# Specification: absorption by water vapour in closed form

Closed forms worked out from the code, with the columns `c` of a line list: `c a i` is the entry of line `i` in the
column called `a`.  Pressures in mbar, density in g/m³, frequencies in GHz, absorption in Np/km.
-/

namespace Verif.Spec

open Real

/-- Density of water vapour of partial pressure `e` kPa: an ideal gas of molar mass 18.01528. -/
noncomputable def vapourDensity (T e : ℝ) : ℝ := 10 * e * 18.01528 / (0.0831451 * T)

/-- Vapour pressure in mbar recovered from the density, with the gas constant the model was fitted with. -/
noncomputable def vapourPressure (m : String) (T e : ℝ) : ℝ :=
  vapourDensity T e * T *
    (if m = "R98" ∨ m = "R03" ∨ m = "R16" ∨ m = "R17" then 1 / 217
    else if m = "R18" ∨ m = "R19" ∨ m = "R19SD" ∨ m = "R20" ∨ m = "R20SD" ∨ m = "R21SD" then 1 / 216.68
    else 461.52 / 100000)

/-- Pressure of the dry air in mbar: total minus vapour. -/
noncomputable def dryPressure (m : String) (T p e : ℝ) : ℝ := 10 * p + 10 * e - vapourPressure m T e

/-- Half-width of line `i` at the inverse temperature `θ`. -/
noncomputable def halfWidth (c : String → ℕ → ℝ) (θ pd pv : ℝ) (i : ℕ) : ℝ :=
  c "w0" i * θ ^ c "x" i * pd + c "w0s" i * θ ^ c "xs" i * pv

/-- Shift of the centre of line `i`. -/
noncomputable def lineShift (m : String) (c : String → ℕ → ℝ) (θ pd pv : ℝ) (i : ℕ) : ℝ :=
  if m = "R98" then 0
  else if m = "R03" then c "sr" i * halfWidth c θ pd pv i
  else if m = "R16" ∨ m = "R17" then c "sr" i * (c "w0" i * θ ^ c "x" i * pd)
  else if m = "R18" then c "sh" i * θ ^ c "xh" i * pd + c "shs" i * θ ^ c "xhs" i * pv
  else c "sh" i * θ ^ c "xh" i * (1 - c "aair" i * log θ) * pd
    + c "shs" i * θ ^ c "xhs" i * (1 - c "aself" i * log θ) * pv

/-- Speed dependence of the half-width of line `i`; `0` for a line without. -/
noncomputable def speedWidth (m : String) (c : String → ℕ → ℝ) (θ pd pv : ℝ) (i : ℕ) : ℝ :=
  if m = "R19SD" ∨ m = "R20SD" then c "w2" i * pd + c "w2s" i * pv
  else if m = "R21SD" ∨ m = "R22SD" ∨ m = "R23SD" ∨ m = "R24" ∨ m = "MWL24" then
    if 0 < c "w2" i then c "w2" i * θ ^ c "xw2" i * pd + c "w2s" i * θ ^ c "xw2s" i * pv else 0
  else 0

/-- Speed dependence of the shift of line `i`. -/
noncomputable def speedShift (m : String) (c : String → ℕ → ℝ) (pd pv : ℝ) (i : ℕ) : ℝ :=
  if m = "R20SD" then if i = 1 then c "d2air" 0 * pd + c "d2self" 0 * pv else 0
  else if m = "R21SD" ∨ m = "R22SD" ∨ m = "R23SD" ∨ m = "R24" ∨ m = "MWL24" then c "d2" i * pd + c "d2s" i * pv
  else 0

/-- Strength of line `i`. -/
noncomputable def strength (c : String → ℕ → ℝ) (θ : ℝ) (i : ℕ) : ℝ :=
  c "s1" i * θ ^ (5 / 2 : ℝ) * exp (c "b2" i * (1 - θ))

/-- Clough's local line: Lorentz profile minus its value at the cut-off, where positive. -/
noncomputable def localProfile (w d : ℝ) : ℝ := max 0 (lorentz w d - lorentz w 750)

/-- The rational approximation of `exp(z²) erfc(z)` by Hui, Armstrong and Wray. -/
noncomputable def hui (z : ℂ) : ℂ :=
  (122.607931777104326 + 214.382388694706425 * z + 181.928533092181549 * z ^ 2 + 93.155580458138441 * z ^ 3
    + 30.180142196210589 * z ^ 4 + 5.912626209773153 * z ^ 5 + 0.564189583562615 * z ^ 6)
  / (122.607931773875350 + 352.730625110963558 * z + 457.334478783897737 * z ^ 2 + 348.703917719495792 * z ^ 3
    + 170.354001821091472 * z ^ 4 + 53.992906912940207 * z ^ 5 + 10.479857114260399 * z ^ 6 + z ^ 7)

/-- Speed-dependent profile (Boone et al.) `d` off the centre. -/
noncomputable def speedProfile (w w2 d2 d : ℝ) : ℝ :=
  let q : ℂ := ⟨w2, -d2⟩
  let z : ℂ := ((⟨w - 3 / 2 * w2, d + 3 / 2 * d2⟩ : ℂ) / q) ^ (1 / 2 : ℂ)
  (2 * (1 - 1.77245385090551603 * z * hui z) / q).re

/-- Both resonances of line `i`: the speed-dependent profile within ten half-widths of a line that has one. -/
noncomputable def resonances (m : String) (c : String → ℕ → ℝ) (θ pd pv f : ℝ) (i : ℕ) : ℝ :=
  let w := halfWidth c θ pd pv i
  let centre := c "fl" i + lineShift m c θ pd pv i
  let w2 := speedWidth m c θ pd pv i
  open Classical in
  (if 0 < w2 ∧ |f - centre| < 10 * w then speedProfile w w2 (speedShift m c pd pv i) (f - centre) - lorentz w 750
    else localProfile w (f - centre))
  + localProfile w (f + centre)

/-- Sum over the first `n` lines of the list. -/
noncomputable def lineSum (m : String) (c : String → ℕ → ℝ) (n : ℕ) (T pd pv f : ℝ) : ℝ :=
  ∑ i ∈ Finset.range n, strength c (c "reftline" 0 / T) i * (f / c "fl" i) ^ 2
    * resonances m c (c "reftline" 0 / T) pd pv f i

/-- Line absorption from the line sum. -/
noncomputable def lineAbsorption (m : String) (rho sum : ℝ) : ℝ :=
  if m = "R22SD" ∨ m = "R23SD" ∨ m = "R24" then 1e-10 * (rho / 2.9915075e-23) * sum / π
  else if m = "R98" ∨ m = "R03" ∨ m = "R16" then 3.1831e-5 * 3.335e16 * rho * sum
  else 3.1831e-5 * 3.344e16 * rho * sum

/-- Continuum with a foreign and a self term. -/
noncomputable def continuum (cf xf cs xs θ pd pv f : ℝ) : ℝ := (cf * θ ^ xf * pd + cs * θ ^ xs * pv) * pv * f ^ 2

end Verif.Spec
