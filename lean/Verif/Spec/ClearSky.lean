import Mathlib.Analysis.SpecialFunctions.Log.Base
import Verif.Spec.WaterFormula
import Verif.Spec.OxygenFormula
import Verif.Spec.CloudNitrogen
import Verif.Spec.Radiance

/-!
# Specification: absorption of clear air, and a clear-sky simulation, in closed form

Temperature `T` in K, total pressure `p` and vapour pressure `e` in hPa, frequency `ν` in GHz, absorption in Np/km.  `c` are
the columns of a line list and `n` its number of lines.
-/

namespace Verif.Spec

open Real

/-- Water vapour, models with a continuum of two power laws. -/
noncomputable def waterAbsorption (m : String) (c : String → ℕ → ℝ) (n : ℕ) (T p e ν : ℝ) : ℝ :=
  let pv := vapourPressure m T (e / 10)
  lineAbsorption m (vapourDensity T (e / 10)) (lineSum m c n T (p - pv) pv ν) +
    if m = "R98" ∨ m = "R03" then continuum 5.43e-10 3 1.8e-8 7.5 (c "reftcon" 0 / T) (p - pv) pv ν
    else continuum (c "cf" 0) (c "xcf" 0) (c "cs" 0) (c "xcs" 0) (c "reftcon" 0 / T) (p - pv) pv ν

open Classical in
/-- Oxygen, models up to R22: lines with mixing and the zero-frequency band. -/
noncomputable def oxygenAbsorption (m : String) (c : String → ℕ → ℝ) (n : ℕ) (T p e ν : ℝ) : ℝ :=
  let pv := oxyVapour m T (e / 10)
  let d := broadening m (c "x" 0) (300 / T) (p - pv) pv
  let units := oxyUnits m * (p - pv) * (300 / T) ^ 3
  let lines := oxyLines m c n (300 / T) p d ν
  if m = "R98" ∨ m = "R03" then oxyFinish m (units * lines) + units * debye 1.6e-17 (300 / T) (c "wb300" 0 * d) ν
  else if separateBand m then oxyFinish m (units * lines) + units * debye 1.584e-17 (300 / T) (c "wb300" 0 * d) ν
  else oxyFinish m (units * (lines + debye 1.584e-17 (300 / T) (c "wb300" 0 * d) ν))

/-- Nitrogen, from the pressure `pd` of dry air; nothing if no model is named. -/
noncomputable def nitrogenAbsorption (m : String) (T pd ν : ℝ) : ℝ :=
  if m = "" then 0
  else if m = "R98" then collision 6.4e-14 3.55 T pd ν
  else if m = "R03" then 1.29 * rollOff ν * collision 6.5e-14 3.6 T pd ν
  else if m = "R16" ∨ m = "R17" ∨ m = "R18" ∨ m = "R19" ∨ m = "R19SD" then 1.34 * rollOff ν * collision 6.5e-14 3.6 T pd ν
  else if m = "MWL24" then 0.84e5 * nitrogenPairs T pd ν
  else rollOff ν * collision 9.95e-14 3.22 T pd ν

/-! ## A simulation -/

/-- Saturation pressure over water in hPa (Goff and Gratch). -/
noncomputable def saturation (T : ℝ) : ℝ :=
  let y := 373.16 / T
  1013.246 * 10 ^ (-7.90298 * (y - 1) + 5.02808 * logb 10 y - 1.3816e-7 * (10 ^ (11.344 * (1 - 1 / y)) - 1) +
    8.1328e-3 * (10 ^ (-3.49149 * (y - 1)) - 1))

/-- Mean over a layer of a coefficient with end values `a` and `b`: exponential between them; the arithmetic mean if one of
them vanishes. -/
noncomputable def layerMean (a b : ℝ) : ℝ :=
  if |b - a| < 1e-9 then b else if a = 0 ∨ b = 0 then (a + b) / 2 else (b - a) / log (b / a)

/-- Levels `0 … top`: height in km, pressure in hPa, temperature in K, relative humidity as a fraction. -/
structure Scene where
  top : ℕ
  z : ℕ → ℝ
  p : ℕ → ℝ
  T : ℕ → ℝ
  rh : ℕ → ℝ

/-- Vapour pressure of a level in hPa. -/
noncomputable def Scene.vapour (s : Scene) (i : ℕ) : ℝ := s.rh i * saturation (s.T i)

/-- Three models, two of them with a line list. -/
structure Gases where
  water : String
  waterList : String → ℕ → ℝ
  waterLines : ℕ
  oxygen : String
  oxygenList : String → ℕ → ℝ
  oxygenLines : ℕ
  nitrogen : String

/-- Absorption of water vapour at a level, in Np/km. -/
noncomputable def Scene.wet (s : Scene) (G : Gases) (ν : ℝ) (i : ℕ) : ℝ :=
  waterAbsorption G.water G.waterList G.waterLines (s.T i) (s.p i) (s.vapour i) ν

/-- Absorption of dry air at a level, in Np/km. -/
noncomputable def Scene.dry (s : Scene) (G : Gases) (ν : ℝ) (i : ℕ) : ℝ :=
  oxygenAbsorption G.oxygen G.oxygenList G.oxygenLines (s.T i) (s.p i) (s.vapour i) ν +
    nitrogenAbsorption G.nitrogen (s.T i) (s.p i - s.vapour i) ν

/-- Opacity of layer `i` for the coefficient `a` along a path of elevation `θ` degrees. -/
noncomputable def Scene.slab (s : Scene) (θ : ℝ) (a : ℕ → ℝ) (i : ℕ) : ℝ :=
  layerMean (a (i - 1)) (a i) * ((s.z i - s.z (i - 1)) / sin (θ * π / 180))

/-- Opacity of layer `i`. -/
noncomputable def Scene.opacity (s : Scene) (G : Gases) (ν θ : ℝ) (i : ℕ) : ℝ :=
  s.slab θ (s.wet G ν) i + s.slab θ (s.dry G ν) i

/-- `hν/k` in K. -/
noncomputable def quantum (ν : ℝ) : ℝ := ν * 1e9 * 6.626075499999999e-34 / 1.3806579999999998e-23

/-- Radiance of a black body, in units of `2hν³/c²`. -/
noncomputable def blackBody (ν T : ℝ) : ℝ := 1 / (exp (quantum ν / T) - 1)

/-- Temperature of the black body with radiance `b`. -/
noncomputable def temperature (ν b : ℝ) : ℝ := if b = 0 then 0 else quantum ν / log (1 + 1 / b)

/-- Radiance of the air seen from the ground. -/
noncomputable def Scene.airDown (s : Scene) (G : Gases) (ν θ : ℝ) : ℝ :=
  skyRadiance (fun i => blackBody ν (s.T i)) (s.opacity G ν θ) s.top

/-- Radiance of the air seen from above. -/
noncomputable def Scene.airUp (s : Scene) (G : Gases) (ν θ : ℝ) : ℝ :=
  upRadiance (fun i => blackBody ν (s.T i)) (s.opacity G ν θ) s.top 0

/-- What is left of a background of radiance `b` behind the opacity `τ`; nothing from 125 Np on. -/
noncomputable def behind (b τ : ℝ) : ℝ := if τ < 125 then b * exp (-τ) else 0

/-- Mean radiating temperature of air with radiance `b` and opacity `τ`, if there is one. -/
noncomputable def meanTemperature (ν b τ : ℝ) : Option ℝ :=
  if τ = 0 then none else some (temperature ν (if τ < 125 then b / (1 - exp (-τ)) else b))

end Verif.Spec
