import Mathlib.Analysis.SpecialFunctions.Trigonometric.Inverse
import Mathlib.Analysis.SpecialFunctions.Log.Basic

/-!
# Rays through spherical shells of air

Elevation angles by Snell's law for spherical shells (`n r cos θ` is constant along a ray), and the length of a
path between two spheres.  Bean and Dutton, Radio Meteorology, chapter 3.
-/

namespace Verif.Spec

open Real

/-- Distance from the centre of the Earth of a level `z` km above an antenna at height `z0`. -/
noncomputable def radius (z0 z : ℝ) : ℝ := 6370.949 + z + z0

/-- Degrees to radians. -/
noncomputable def rad (α : ℝ) : ℝ := α * (π / 180)

/-- Elevation at radius `r` (index `n`) of a ray that leaves radius `r0` (index `n0`) with elevation `θ0`. -/
noncomputable def snell (n0 r0 θ0 n r : ℝ) : ℝ := arccos (n0 * r0 * cos θ0 / (n * r))

/-- Distance of two points at radii `r`, `r'` seen from the centre under the angle `φ`. -/
noncomputable def chord (r r' φ : ℝ) : ℝ := √((r - r') ^ 2 + 4 * r * r' * sin (φ / 2) ^ 2)

/-- Arc over chord for an arc that turns by `b`. -/
noncomputable def arcOverChord (b : ℝ) : ℝ := if b = 0 then 1 else |b| / (2 * sin (|b| / 2))

/-- Logarithmic mean of the refractivities, as an index; the arithmetic mean where it is not defined. -/
noncomputable def meanIndex (n n' : ℝ) : ℝ :=
  if n = n' ∨ n = 1 ∨ n' = 1 then (n + n') / 2 else 1 + (n' - n) / log ((n' - 1) / (n - 1))

end Verif.Spec
