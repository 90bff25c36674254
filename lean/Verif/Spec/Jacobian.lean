import Verif.Spec.Radiance
import Verif.Spec.Sensitivity

/-!
# Independent specification of the response of a radiance to the temperature of a level
-/

namespace Verif.Spec

open Finset Real

/-- Share of level `j` of `0 … n` in what is received at level 0: as far side of the layer below it and near side of the
layer above it. -/
noncomputable def shareBelow (τ : ℕ → ℝ) (n j : ℕ) : ℝ :=
  (if j = 0 then 0 else exp (-τ j) / (1 + exp (-τ j)) * (transDown τ (j - 1) - transDown τ j)) +
    if j < n then 1 / (1 + exp (-τ (j + 1))) * (transDown τ j - transDown τ (j + 1)) else 0

/-- Share of level `j` in what is received at the top; level 0 is also the surface of emissivity `es`. -/
noncomputable def shareAbove (es : ℝ) (τ : ℕ → ℝ) (n j : ℕ) : ℝ :=
  (if j = 0 then es * exp (-opacityBelow τ n) else 1 / (1 + exp (-τ j)) * (transUp τ n j - transUp τ n (j - 1))) +
    if j < n then exp (-τ (j + 1)) / (1 + exp (-τ (j + 1))) * (transUp τ n (j + 1) - transUp τ n j) else 0

/-- Both. -/
noncomputable def share (satellite : Bool) (es : ℝ) (τ : ℕ → ℝ) (n j : ℕ) : ℝ :=
  if satellite then shareAbove es τ n j else shareBelow τ n j

/-- Slope of Planck's law in temperature. -/
noncomputable def planckSlope (hvk T : ℝ) : ℝ := planckW (hvk / T) / hvk

end Verif.Spec
