import Mathlib.Analysis.SpecialFunctions.Pow.Real
import Mathlib.MeasureTheory.Integral.IntervalIntegral.Basic

/-!
# Independent specification for path integrals
-/

namespace Verif.Spec

open MeasureTheory

/-- Mean over a layer of the profile that decays/grows exponentially from `a` to `b`:
at relative height `u ∈ [0,1]` the profile is `a * (b/a)^u`. -/
noncomputable def expProfileMean (a b : ℝ) : ℝ := ∫ u in (0:ℝ)..1, a * (b / a) ^ u

/-- Trapezoidal integral of `f` over the layers `l, l+1, …, u-1` with path increments `ds`
(layer `j` joins level `j-1` to level `j`). -/
noncomputable def trapezoid (f ds : ℕ → ℝ) (l u : ℕ) : ℝ :=
  ∑ j ∈ Finset.Ico l u, ds j * ((f j + f (j - 1)) / 2)

end Verif.Spec
