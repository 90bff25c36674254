import Verif.Spec.WaterFormula

/-!
# Specification: absorption by oxygen in closed form

With the columns `c` of a line list.  Pressures in mbar, frequencies in GHz, `θ = 300/T`, absorption in Np/km.
-/

namespace Verif.Spec

open Real

/-- Vapour pressure as the model recovers it from the density. -/
noncomputable def oxyVapour (m : String) (T e : ℝ) : ℝ :=
  vapourDensity T e * T *
    (if m = "R98" ∨ m = "R03" ∨ m = "R16" ∨ m = "R17" ∨ m = "R18" then 1 / 217
    else if m = "R19" ∨ m = "R19SD" ∨ m = "R20" ∨ m = "R20SD" then 1 / 216.68
    else 4.615228e-3)

/-- Effective pressure (in bar) for the widths: water molecules count 1.1 or 1.2 times. -/
noncomputable def broadening (m : String) (x θ pd pv : ℝ) : ℝ :=
  if m = "R98" then (pd * θ + 1.1 * pv * θ) / 1000
  else if m = "R03" then (pd * θ ^ (0.9 : ℝ) + 1.1 * pv * θ) / 1000
  else if m = "R16" then (pd * θ ^ x + 1.1 * pv * θ) / 1000
  else (pd * θ ^ x + 1.2 * pv * θ) / 1000

/-- A line with first-order mixing `y` and second-order mixing `g`: both resonances. -/
noncomputable def mixedLine (w g y centre f : ℝ) : ℝ :=
  (w * g + y * (f - centre)) / ((f - centre) ^ 2 + w ^ 2) + (w * g - y * (f + centre)) / ((f + centre) ^ 2 + w ^ 2)

/-- First-order mixing coefficient of line `k`, `P` the total pressure, `d` the effective pressure. -/
noncomputable def mixing (m : String) (c : String → ℕ → ℝ) (θ P d : ℝ) (k : ℕ) : ℝ :=
  if m = "R98" ∨ m = "R03" then P / 1000 * θ ^ c "x" 0 * (c "y300" k + c "v" k * (θ - 1))
  else if m = "R17" ∨ m = "R18" ∨ m = "R19" ∨ m = "R19SD" then d * (c "y300" k + c "v" k * (θ - 1))
  else d * (c "y0" k + c "y1" k * (θ - 1))

/-- The models with second-order mixing and a shift of the centres. -/
def secondOrder (m : String) : Prop := m = "R16" ∨ m = "R20" ∨ m = "R20SD" ∨ m = "R22"

/-- Second-order mixing factor. -/
noncomputable def mixing2 (m : String) (c : String → ℕ → ℝ) (θ d : ℝ) (k : ℕ) : ℝ :=
  open Classical in if secondOrder m then 1 + d ^ 2 * (c "g0" k + c "g1" k * (θ - 1)) else 1

/-- Centre of line `k`. -/
noncomputable def oxyCentre (m : String) (c : String → ℕ → ℝ) (θ d : ℝ) (k : ℕ) : ℝ :=
  open Classical in if secondOrder m then c "f" k + d ^ 2 * (c "dnu0" k + c "dnu1" k * (θ - 1)) else c "f" k

/-- Strength of line `k` relative to 300 K. -/
noncomputable def oxyStrength (c : String → ℕ → ℝ) (θ : ℝ) (k : ℕ) : ℝ := c "s300" k * exp (c "be" k * (1 - θ))

/-- Debye spectrum of the zero-frequency band, half-width `w`. -/
noncomputable def debye (s θ w f : ℝ) : ℝ := s * f ^ 2 * w / (θ * (f ^ 2 + w ^ 2))

/-- Sum over the first `n` lines. -/
noncomputable def oxyLines (m : String) (c : String → ℕ → ℝ) (n : ℕ) (θ P d f : ℝ) : ℝ :=
  ∑ k ∈ Finset.range n, oxyStrength c θ k * (f / c "f" k) ^ 2
    * mixedLine (c "w300" k * d) (mixing2 m c θ d k) (mixing m c θ P d k) (oxyCentre m c θ d k) f

/-- Abundance, `0.20946/(π k·300 K)` in the units used: the older models have rounded it differently. -/
noncomputable def oxyUnits (m : String) : ℝ := if m = "R98" ∨ m = "R03" then 5.034e11 / 3.14159 else 1.6097e11

/-- The models that report the zero-frequency band separately. -/
def separateBand (m : String) : Prop := m = "R98" ∨ m = "R03" ∨ m = "R16" ∨ m = "R17" ∨ m = "R18"

/-- What the model does to the sum: nothing, cut off below zero, or that and a correction of 0.4 per cent. -/
noncomputable def oxyFinish (m : String) (a : ℝ) : ℝ :=
  if m = "R98" then a else if m = "R20" ∨ m = "R20SD" ∨ m = "R22" then 1.004 * max 0 a else max 0 a

/-- The 118.75 GHz line of the newest models: speed-dependent profile with first-order mixing within ten half-widths. -/
noncomputable def speedMixed (w y d : ℝ) : ℝ :=
  let w2 : ℝ := 0.076 * w
  let z : ℂ := ((⟨w - 3 / 2 * w2, d⟩ : ℂ) / w2) ^ (1 / 2 : ℂ)
  (2 * ⟨1, y⟩ * (1 - 1.77245385090551603 * z * hui z) / w2).re

/-- Line `k` of the newest models. -/
noncomputable def newLine (k : ℕ) (w g y centre f : ℝ) : ℝ :=
  open Classical in if k = 0 ∧ |f - centre| < 10 * w then
    speedMixed w y (f - centre) + (w * g - y * (f + centre)) / ((f + centre) ^ 2 + w ^ 2)
  else mixedLine w g y centre f

end Verif.Spec
