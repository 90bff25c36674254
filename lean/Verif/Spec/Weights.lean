import Verif.Spec.Sky

/-!
# Specification: weighting functions and their integrals
-/

namespace Verif.Spec

open Real

namespace Sky

/-- Transmittance of the air between level `i` and the observer. -/
noncomputable def transmittance (X : Sky) (fromAbove : Bool) (i : ℕ) : ℝ :=
  if fromAbove then transUp X.layer X.top i else transDown X.layer i

/-- Weighting function of the gases at level `i`: what is absorbed there per km, as far as the observer sees it. -/
noncomputable def weight (X : Sky) (fromAbove : Bool) (i : ℕ) : ℝ := X.transmittance fromAbove i * (X.wet i + X.dry i)

/-- Integral along the path by the trapezoidal rule. -/
noncomputable def alongPath (X : Sky) (f : ℕ → ℝ) : ℝ := ∑ i ∈ Finset.Icc 1 X.top, (f (i - 1) + f i) / 2 * X.len i

/-- Opacity that the trapezoidal rule assigns to layer `i`. -/
noncomputable def trapezoid (X : Sky) (i : ℕ) : ℝ := (X.wet (i - 1) + X.dry (i - 1) + (X.wet i + X.dry i)) / 2 * X.len i

/-- How far layer `i` can be off when the weighting function is integrated by the trapezoidal rule; `b` is the quantity
weighted, `t` the transmittance from the near side of the layer. -/
noncomputable def layerError (X : Sky) (b : ℕ → ℝ) (t : ℝ) (i : ℕ) : ℝ :=
  t * (max (b (i - 1)) (b i) * (|X.trapezoid i - X.layer i| + X.layer i ^ 3 / 12) +
    |X.wet i + X.dry i - (X.wet (i - 1) + X.dry (i - 1))| * X.len i / 4 *
      (|b i - b (i - 1)| + X.layer i * max (b (i - 1)) (b i)))

end Sky

end Verif.Spec
