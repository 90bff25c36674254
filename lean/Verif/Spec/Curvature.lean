import Mathlib.Analysis.Convex.Function
import Mathlib.Analysis.SpecialFunctions.Log.Basic

/-!
# Profiles that are nearly exponential

Nothing here refers to the model of the code.
-/

namespace Verif.Spec

/-- On `[0, L]` the profile is positive and its logarithm bends by at most `K`: the second derivative, where there is one, lies in
`[-K, K]`. `K = 0`: an exponential. -/
structure LogCurved (K L : ℝ) (α : ℝ → ℝ) : Prop where
  pos : ∀ u ∈ Set.Icc 0 L, 0 < α u
  below : ConvexOn ℝ (Set.Icc 0 L) fun u => Real.log (α u) + K / 2 * u ^ 2
  above : ConcaveOn ℝ (Set.Icc 0 L) fun u => Real.log (α u) - K / 2 * u ^ 2

/-- On `[0, L]` the function bends by at most `K`. -/
structure Curved (K L : ℝ) (b : ℝ → ℝ) : Prop where
  below : ConvexOn ℝ (Set.Icc 0 L) fun u => b u + K / 2 * u ^ 2
  above : ConcaveOn ℝ (Set.Icc 0 L) fun u => b u - K / 2 * u ^ 2

/-- On `[0, L]` the profile changes by at most a factor `exp (G d)` over a distance `d`. -/
def LogLipschitz (G L : ℝ) (α : ℝ → ℝ) : Prop :=
  ∀ u ∈ Set.Icc 0 L, ∀ v ∈ Set.Icc 0 L, α u ≤ Real.exp (G * |u - v|) * α v

end Verif.Spec
