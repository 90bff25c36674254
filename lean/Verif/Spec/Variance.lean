import Mathlib.Algebra.BigOperators.Group.Finset.Basic
import Mathlib.Data.Real.Basic

/-!
# Specification: variance of a combination of parameters
-/

namespace Verif.Spec

/-- Variance of `∑ k i · p i` when the parameters `p 0, ..., p (n-1)` have the covariances `C`. -/
noncomputable def variance (n : ℕ) (C : ℕ → ℕ → ℝ) (k : ℕ → ℝ) : ℝ :=
  ∑ i ∈ Finset.range n, ∑ j ∈ Finset.range n, k i * C i j * k j

/-- The same if the parameters were not correlated. -/
noncomputable def uncorrelated (n : ℕ) (C : ℕ → ℕ → ℝ) (k : ℕ → ℝ) : ℝ := ∑ i ∈ Finset.range n, C i i * k i ^ 2

end Verif.Spec
