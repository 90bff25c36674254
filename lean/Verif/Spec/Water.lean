import Mathlib.Data.Real.Basic

/-!
# Specification: line shapes
-/

namespace Verif.Spec

/-- Lorentz profile of half-width `w`, `d` off the centre (without the factor 1/π). -/
noncomputable def lorentz (w d : ℝ) : ℝ := w / (d ^ 2 + w ^ 2)

end Verif.Spec
