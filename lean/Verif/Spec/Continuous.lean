import Mathlib.MeasureTheory.Integral.IntervalIntegral.Basic
import Mathlib.Analysis.SpecialFunctions.Exp

/-!
# The radiative transfer equation along a path

Path coordinate from 0 (bottom) to `L` (top); `α` is the absorption coefficient, `b` the black-body radiance at each
point.  Nothing here refers to the model of the code, and there are no layers.
-/

namespace Verif.Spec

open MeasureTheory Real

/-- Opacity of the stretch of path from `a` to `c`. -/
noncomputable def pathOpacity (α : ℝ → ℝ) (a c : ℝ) : ℝ := ∫ s in a..c, α s

/-- Radiance emitted by the path and arriving at its bottom: every element `ds` emits `α b ds`, weakened by the
opacity between it and the bottom. -/
noncomputable def downwelling (α b : ℝ → ℝ) (L : ℝ) : ℝ := ∫ s in (0:ℝ)..L, α s * exp (-pathOpacity α 0 s) * b s

/-- Radiance emitted by the path and arriving at its top. -/
noncomputable def upwelling (α b : ℝ → ℝ) (L : ℝ) : ℝ := ∫ s in (0:ℝ)..L, α s * exp (-pathOpacity α s L) * b s

/-- Levels `0 … n` of a path of length `L`, in order. -/
structure Levels (n : ℕ) (L : ℝ) (s : ℕ → ℝ) : Prop where
  bottom : s 0 = 0
  top : s n = L
  order : ∀ i < n, s i ≤ s (i + 1)

/-- Within layer `i` no two values of `f` differ by more than `ω i`. -/
def Swing (n : ℕ) (s : ℕ → ℝ) (f : ℝ → ℝ) (ω : ℕ → ℝ) : Prop :=
  ∀ i, 1 ≤ i → i ≤ n → ∀ u ∈ Set.Icc (s (i - 1)) (s i), ∀ v ∈ Set.Icc (s (i - 1)) (s i), |f u - f v| ≤ ω i

/-- No layer is thicker than `δ`. -/
def FinerThan (n : ℕ) (s : ℕ → ℝ) (δ : ℝ) : Prop := ∀ i, 1 ≤ i → i ≤ n → s i - s (i - 1) ≤ δ

end Verif.Spec
