import Mathlib.Analysis.SpecialFunctions.Exp
import Mathlib.Algebra.BigOperators.Intervals

/-!
# Independent specification of slab radiances

Levels `0, 1, …, n`; layer `i` lies between level `i-1` and level `i` and has opacity `τ i`.
`B i` is the black-body radiance of level `i`.  Nothing here refers to the model of the code.
-/

namespace Verif.Spec

open Finset Real

/-- Opacity between level 0 and level `i`. -/
noncomputable def opacityBelow (τ : ℕ → ℝ) (i : ℕ) : ℝ := ∑ j ∈ Icc 1 i, τ j

/-- Opacity between level `i` and the top level `n`. -/
noncomputable def opacityAbove (τ : ℕ → ℝ) (n i : ℕ) : ℝ := ∑ j ∈ Icc (i + 1) n, τ j

/-- Transmittance from level `i` to an observer at level 0. -/
noncomputable def transDown (τ : ℕ → ℝ) (i : ℕ) : ℝ := exp (-opacityBelow τ i)

/-- Transmittance from level `i` to an observer at the top level `n`. -/
noncomputable def transUp (τ : ℕ → ℝ) (n i : ℕ) : ℝ := exp (-opacityAbove τ n i)

/-- Effective source of a layer: average of the radiances of its near and far boundary,
the far one weighted by the layer's transmittance. -/
noncomputable def layerSource (near far τ : ℝ) : ℝ := (near + far * exp (-τ)) / (1 + exp (-τ))

/-- Radiance emitted by layers `1 … n` and received at level 0: every layer contributes its source
times the transmittance lost across it. -/
noncomputable def skyRadiance (B τ : ℕ → ℝ) (n : ℕ) : ℝ :=
  ∑ i ∈ Icc 1 n, layerSource (B (i - 1)) (B i) (τ i) * (transDown τ (i - 1) - transDown τ i)

/-- Radiance emitted by layers `m+1 … n` and received at level `n`. -/
noncomputable def upRadiance (B τ : ℕ → ℝ) (n m : ℕ) : ℝ :=
  ∑ i ∈ Icc (m + 1) n, layerSource (B i) (B (i - 1)) (τ i) * (transUp τ n i - transUp τ n (i - 1))

end Verif.Spec
