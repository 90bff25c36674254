import Verif.Spec.Jacobian

/-!
# Independent specification of the response of a radiance to the opacity of a layer
-/

namespace Verif.Spec

open Finset Real

/-- Radiance that reaches level `k` from above, `b` being the radiance that enters at level `k + d`. -/
noncomputable def fromAbove (B τ : ℕ → ℝ) (b : ℝ) (k d : ℕ) : ℝ :=
  skyRadiance (fun i => B (i + k)) (fun i => τ (i + k)) d + b * transDown (fun i => τ (i + k)) d

/-- Radiance that reaches level `k` from below, `b` being the radiance that enters at level 0. -/
noncomputable def fromBelow (B τ : ℕ → ℝ) (b : ℝ) (k : ℕ) : ℝ := upRadiance B τ k 0 + b * transUp τ k 0

/-- What a little more opacity emits in a layer with radiances `near` and `far` at its boundaries: the far radiance plus a
multiple of the difference, from one half (a transparent layer, hence the mean of the two) up to two (an opaque one). -/
noncomputable def addedSource (near far τ : ℝ) : ℝ := far + 2 / (1 + exp (-τ)) ^ 2 * (near - far)

end Verif.Spec
