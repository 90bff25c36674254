import Verif.Spec.ClearSky

/-!
# Specification: what a radiometer measures, from absorption coefficients at levels

Four absorbers (water vapour, dry air, liquid, ice), lengths of the path through the layers, temperatures of the levels.
-/

namespace Verif.Spec

open Real

/-- Mean over a layer of the absorption by cloud: as `layerMean`, but nothing if it vanishes at one end. -/
noncomputable def cloudMean (a b : ℝ) : ℝ :=
  if |b - a| < 1e-9 then b else if a = 0 ∨ b = 0 then 0 else (b - a) / log (b / a)

/-- Levels `0 … top`: temperature, absorption coefficients in Np/km, and the length in km of layer `i` below level `i`. -/
structure Sky where
  top : ℕ
  T : ℕ → ℝ
  wet : ℕ → ℝ
  dry : ℕ → ℝ
  liq : ℕ → ℝ
  ice : ℕ → ℝ
  len : ℕ → ℝ

namespace Sky

/-- Opacity of layer `i` for a gas. -/
noncomputable def gas (X : Sky) (a : ℕ → ℝ) (i : ℕ) : ℝ := layerMean (a (i - 1)) (a i) * X.len i

/-- Opacity of layer `i` for cloud particles. -/
noncomputable def cloud (X : Sky) (a : ℕ → ℝ) (i : ℕ) : ℝ := cloudMean (a (i - 1)) (a i) * X.len i

/-- Opacity of layer `i`. -/
noncomputable def layer (X : Sky) (i : ℕ) : ℝ := X.gas X.wet i + X.gas X.dry i + X.cloud X.liq i + X.cloud X.ice i

/-- Opacity of everything. -/
noncomputable def opacity (X : Sky) : ℝ := opacityBelow X.layer X.top

/-- Radiance emitted by the air towards the observer. -/
noncomputable def air (X : Sky) (fromAbove : Bool) (ν : ℝ) : ℝ :=
  if fromAbove then upRadiance (fun i => blackBody ν (X.T i)) X.layer X.top 0
  else skyRadiance (fun i => blackBody ν (X.T i)) X.layer X.top

/-- Background: the surface of emissivity `ε` at the temperature of the lowest level, or the cosmic background. -/
noncomputable def background (X : Sky) (fromAbove : Bool) (ε ν : ℝ) : ℝ :=
  if fromAbove then ε * blackBody ν (X.T 0) else blackBody ν 2.728

/-- Layers `b + 1 … t` by themselves. -/
def part (f : ℕ → ℝ) (b : ℕ) (i : ℕ) : ℝ := f (b + i)

/-- Opacity of the layers between the levels `b` and `t`. -/
noncomputable def between (X : Sky) (b t : ℕ) : ℝ := opacityBelow (part X.layer b) (t - b)

/-- Radiance of the layers between the levels `b` and `t`, on the side of the observer. -/
noncomputable def emission (X : Sky) (fromAbove : Bool) (ν : ℝ) (b t : ℕ) : ℝ :=
  if fromAbove then upRadiance (part (fun i => blackBody ν (X.T i)) b) (part X.layer b) (t - b) 0
  else skyRadiance (part (fun i => blackBody ν (X.T i)) b) (part X.layer b) (t - b)

/-- Mean radiating temperature of a cloud between the levels `b` and `t`; none if its base is behind more than 125 Np, or if
it has no opacity. -/
noncomputable def cloudTemperature (X : Sky) (fromAbove : Bool) (ν : ℝ) (b t : ℕ) : Option ℝ :=
  if 125 < (if fromAbove then X.between b X.top else X.between 0 b) then none
  else if X.between b t = 0 then none
  else some (temperature ν (if 125 < X.between b t then X.emission fromAbove ν b t
    else X.emission fromAbove ν b t / (1 - exp (-X.between b t))))

end Sky

end Verif.Spec
