import Mathlib.Analysis.SpecialFunctions.Exp
import Mathlib.Algebra.BigOperators.Intervals

/-!
# Errors of temperature and opacity

Nothing here refers to the model of the code.
-/

namespace Verif.Spec

open Finset Real

/-- Two scenes of which the second is nowhere more than `δ` warmer. -/
def AtMostWarmer (nl : ℕ) (δ : ℝ) (t t' : ℕ → ℝ) : Prop := ∀ i < nl, 0 < t i ∧ 0 < t' i ∧ t' i ≤ t i + δ

/-- Two scenes nowhere more than `δ` apart. -/
def Close (nl : ℕ) (δ : ℝ) (t t' : ℕ → ℝ) : Prop := ∀ i < nl, 0 < t i ∧ 0 < t' i ∧ |t' i - t i| ≤ δ

/-- Sum of the errors of the opacities of layers `1 … n`. -/
noncomputable def opacityError (n : ℕ) (τ τ' : ℕ → ℝ) : ℝ := ∑ i ∈ Icc 1 n, |τ' i - τ i|

/-- Slope of the black-body radiance over temperature in units of its limit for low frequencies, `x = hν/kT`. -/
noncomputable def planckW (x : ℝ) : ℝ := x ^ 2 * exp x / (exp x - 1) ^ 2

end Verif.Spec
