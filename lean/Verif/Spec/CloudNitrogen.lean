import Mathlib.Analysis.SpecialFunctions.Pow.Real
import Mathlib.Analysis.SpecialFunctions.Complex.Log

/-!
# Specification: absorption by nitrogen and by cloud droplets in closed form

Pressure `p` of dry air in mbar, temperature `T` in K, frequency `ν` in GHz, liquid water `w` in g/m³, absorption in Np/km.
-/

namespace Verif.Spec

open Real

/-- Roll-off of collision-induced absorption with frequency: from 1 to 1/2, half way at 450 GHz. -/
noncomputable def rollOff (ν : ℝ) : ℝ := 1 / 2 * (1 + 450 ^ 2 / (450 ^ 2 + ν ^ 2))

/-- Rosenkranz: `C` at 300 K per (mbar GHz)², exponent `x` of the inverse temperature. -/
noncomputable def collision (C x T p ν : ℝ) : ℝ := C * (p * ν) ^ 2 * (300 / T) ^ x

/-- A Lorentz-like bump of height 1 at `c` with half-width `b`. -/
noncomputable def bump (c b ν : ℝ) : ℝ := b ^ 2 / (b ^ 2 + (ν - c) ^ 2)

/-- Serov et al. (2024): absorption by pairs of nitrogen molecules in 1/cm.  Pressure in Torr, depth of the pair
potential 108 1/cm. -/
noncomputable def nitrogenPairs (T p ν : ℝ) : ℝ :=
  let u (T : ℝ) := 108 / (0.6950354549 * T)
  let bound (T : ℝ) := exp (u T) - 1 - u T
  let n := 1.4359 + ν * (-0.0005385 + ν * (1.6182e-7 + ν * 1.8845e-10))
  let q := 0.07988 + ν * (-0.0005165 + ν * (1.131e-6 + ν * (-5.738e-10)))
  0.877e-18 * (1 + 1.033 * (1 + 0.1510 * bump 358 127 ν) * bump 44 568 ν + 0.1420 * exp (-((ν - 92) / 92) ^ 2)) *
    exp (log (300 / T) * (n + q * log (300 / T))) * (bound T / bound 300) * (0.7500616827 * p * ν) ^ 2

/-- Absorption by droplets much smaller than the wavelength, from the real part `ε₁` and the loss `ε₂` of the dielectric
constant of water. -/
noncomputable def dropletAbsorption (ε₁ ε₂ w ν : ℝ) : ℝ := 0.18858 * ν * w * ε₂ / ((ε₁ + 2) ^ 2 + ε₂ ^ 2)

/-- A Debye relaxation of strength `s` at the frequency `r`: dispersion. -/
noncomputable def debyeRe (s r ν : ℝ) : ℝ := s * r ^ 2 / (r ^ 2 + ν ^ 2)

/-- A Debye relaxation of strength `s` at the frequency `r`: what is missing from its static value. -/
noncomputable def debyeAbove (s r ν : ℝ) : ℝ := s * ν ^ 2 / (r ^ 2 + ν ^ 2)

/-- A Debye relaxation of strength `s` at the frequency `r`: loss. -/
noncomputable def debyeLoss (s r ν : ℝ) : ℝ := s * r * ν / (r ^ 2 + ν ^ 2)

/-- Static dielectric constant of Liebe et al. -/
noncomputable def liebeStatic (T : ℝ) : ℝ := 77.66 + 103.3 * (300 / T - 1)

/-- First relaxation frequency: MPM93 for `true`, Liebe et al. (1991) for `false`. -/
noncomputable def liebeRelax (exponential : Bool) (T : ℝ) : ℝ :=
  if exponential then 20.1 * exp (7.88 * (1 - 300 / T))
  else 20.2 - 146.4 * (300 / T - 1) + 316 * (300 / T - 1) ^ 2

/-- Static dielectric constant of Patek et al. (2009). -/
noncomputable def patekStatic (T : ℝ) : ℝ :=
  let θ := 300 / T
  221.327 * θ ^ (2.31 : ℝ) - 399.364 * θ ^ (2.11 : ℝ) + 299.504 * θ ^ (1.47 : ℝ) - 43.7527 * θ ^ (0.05 : ℝ)

/-- Debye strength and frequency of Ellison (2007), `c` in degrees Celsius. -/
noncomputable def ellisonStrength (c : ℝ) : ℝ := 80.69715 * exp (-(c / 226.45))
noncomputable def ellisonFreq (c : ℝ) : ℝ := 1164.023 * exp (-(651.4728 / (c + 133.07)))

/-- Rosenkranz (2015): the band `B`, an average over relaxations along the line from `z₁` to `z₂` and its mirror image. -/
noncomputable def bandB (c ν : ℝ) : ℂ :=
  let s : ℂ := ((4.008724 * exp (-(c / 103.05)) : ℝ) : ℂ)
  let f₁ : ℂ := ((10.46012 + 0.1454962 * c + 0.063267156 * c ^ 2 + 0.00093786645 * c ^ 3 : ℝ) : ℂ)
  let z₁ : ℂ := (-3 / 4 + Complex.I) * f₁
  let z₂ : ℂ := -4500 + 2000 * Complex.I
  let y₁ : ℂ := (-3 / 4 - Complex.I) * f₁
  let y₂ : ℂ := -4500 - 2000 * Complex.I
  let x : ℂ := ν * Complex.I
  s * ((Complex.log ((z₂ - x) / (z₁ - x)) / Complex.log (z₂ / z₁) +
    Complex.log ((y₂ - x) / (y₁ - x)) / Complex.log (y₂ / y₁)) / 2 - 1)

end Verif.Spec
