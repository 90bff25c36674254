import Mathlib.Analysis.SpecialFunctions.Trigonometric.Basic

/-!
# Straight rays in a spherical atmosphere
-/

namespace Verif.Spec

open Real

/-- Squared distance from the Earth's centre of the point reached after walking the distance `d` along a
straight ray that leaves radius `r0` with elevation `θ0` (law of cosines). -/
noncomputable def radiusSqAlong (r0 θ0 d : ℝ) : ℝ := r0 ^ 2 + d ^ 2 + 2 * r0 * d * sin θ0

end Verif.Spec
