import Verif.Py.Loop
import Verif.Py.Num
import Verif.Model.Constants
import Mathlib.Analysis.SpecialFunctions.Trigonometric.Inverse

/-!
# `ray_tracing`

`pyrtlib/rt_equation.py:149-243`.  Path increments are `Option ℝ`; `none` stands for a non-finite number
(arcsin of a number outside [-1,1], division by zero).  Once a layer is non-finite, the accumulated
quantities are non-finite too and so are all later increments.  `re + z[i] + z0 = 0` (centre of the Earth)
is excluded by hypothesis in the theorems; an empty profile (IndexError) is excluded by `1 ≤ nl`.
-/

namespace Verif.Model

open Verif.Py Real

/-- `np.arcsin`. -/
noncomputable def npArcsin (x : ℝ) : Option ℝ := if -1 ≤ x ∧ x ≤ 1 then some (arcsin x) else none

/-- `np.tan`; undefined where the cosine vanishes (idealisation: floats never hit the pole). -/
noncomputable def npTan (x : ℝ) : Option ℝ := npDiv (sin x) (cos x)

/-- Loop variables of the layer below, rt_equation.py:238-241. -/
structure RayLow where
  phil : ℝ
  taul : ℝ
  rl : ℝ
  tanthl : ℝ

/-- Mutable state of the loop.  `dtau` is a ghost array that records the bending of each layer. -/
structure RayState where
  ds : ℕ → Option ℝ
  low : Option RayLow
  dtau : ℕ → Option ℝ

/-- Inputs and loop constants, rt_equation.py:168-192. -/
structure RayIn where
  nl : ℕ
  z : ℕ → ℝ
  refindx : ℕ → ℝ
  angle : ℝ
  z0 : ℝ

namespace RayIn
variable (I : RayIn)
/-- `theta0 = angle * pi / 180`, line 188 -/
noncomputable def theta0 : ℝ := I.angle * (π / 180)
/-- `rs = re + z[0] + z0`, line 189 -/
noncomputable def rs : ℝ := cEarthRadius + I.z 0 + I.z0
/-- `r = re + z[i] + z0`, line 201 -/
noncomputable def r (i : ℕ) : ℝ := cEarthRadius + I.z i + I.z0
/-- `sina = sin(theta0 * 0.5)`, line 191 -/
noncomputable def sina : ℝ := sin (I.theta0 * 0.5)
/-- `a0 = 2 * sina ** 2`, line 192 -/
noncomputable def a0 : ℝ := 2.0 * I.sina ^ 2
/-- line 207 -/
noncomputable def argdth (i : ℕ) : ℝ :=
  I.z i / I.rs - ((I.refindx 0 - I.refindx i) * cos I.theta0) / I.refindx i
/-- line 209 -/
noncomputable def argth (i : ℕ) : ℝ := 0.5 * (I.a0 + I.argdth i) / I.r i
/-- lines 202-206 -/
noncomputable def refbar (i : ℕ) : Option ℝ :=
  if I.refindx i = I.refindx (i - 1) ∨ I.refindx i = 1.0 ∨ I.refindx (i - 1) = 1.0 then
    some ((I.refindx i + I.refindx (i - 1)) * 0.5)
  else do
    let q ← npDiv (I.refindx (i - 1) - 1.0) (I.refindx i - 1.0)
    let l ← npLog q
    let d ← npDiv (I.refindx (i - 1) - I.refindx i) l
    return 1.0 + d
/-- lines 215-224: `(theta, dtheta)` -/
noncomputable def thetas (i : ℕ) : Option (ℝ × ℝ) := do
  let sint ← npSqrt (I.r i * I.argth i)
  let asn ← npArcsin sint
  let theta := 2.0 * asn
  if theta - 2.0 * I.theta0 ≤ 0.0 then
    let dendth := (2.0 * (sint + I.sina)) * cos ((theta + I.theta0) * 0.25)
    let sind4 ← npDiv (0.5 * I.argdth i - I.z i * I.argth i) dendth
    let a ← npArcsin sind4
    let dtheta := 4.0 * a
    return (I.theta0 + dtheta, dtheta)
  else
    return (theta, theta - I.theta0)
end RayIn

/-- What one layer computes after the ducting test, lines 215-241:
path increment, next lower boundary, bending. -/
noncomputable def rayLayer (I : RayIn) (i : ℕ) (L : RayLow) : Option (ℝ × RayLow × ℝ) := do
  let refbar ← I.refbar i
  let (theta, dtheta) ← I.thetas i
  let tanth ← npTan theta
  let c1 ← npDiv 1.0 tanth
  let c2 ← npDiv 1.0 L.tanthl
  let cthbar := (c1 + c2) * 0.5
  let dtau ← npDiv (cthbar * (I.refindx (i - 1) - I.refindx i)) refbar
  let tau := L.taul + dtau
  let phi := dtheta + tau
  let d ← npSqrt ((I.z i - I.z (i - 1)) ^ 2 + ((4.0 * I.r i) * L.rl) * (sin ((phi - L.phil) * 0.5)) ^ 2)
  let d' ← if dtau ≠ 0.0 then do
      let dtaua := |tau - L.taul|
      let f ← npDiv dtaua (2.0 * sin (dtaua * 0.5))
      pure (d * f)
    else pure d
  return (d', ⟨phi, tau, I.r i, tanth⟩, dtau)

/-- Loop body, lines 200-241; `Except.error`: `return ds` because of ducting (line 213). -/
noncomputable def rayBody (I : RayIn) (i : ℕ) (s : RayState) : Except RayState RayState :=
  if I.argth i ≤ 0 then .error s
  else
    let new := s.low.bind (rayLayer I i)
    .ok { ds := Function.update s.ds i (new.map (·.1))
          low := new.map (·.2.1)
          dtau := Function.update s.dtau i (new.map (·.2.2)) }

/-- Initial state, lines 170 and 193-198. -/
noncomputable def rayInit (I : RayIn) : RayState :=
  { ds := fun _ => some 0
    low := (npTan I.theta0).map fun tn => ⟨0.0, 0.0, I.rs, tn⟩
    dtau := fun _ => some 0 }

/-- Final state of the non-zenith branch, lines 186-243 (with the ghost array). -/
noncomputable def raySlant (I : RayIn) : RayState :=
  match forRangeE 1 I.nl (rayBody I) (rayInit I) with
  | .error s => s
  | .ok s => s

/-- The zenith test, line 180. -/
def nearZenith (angle : ℝ) : Prop := (angle ≥ 89 ∧ angle ≤ 91) ∨ (angle ≥ -91 ∧ angle ≤ -89)

open Classical in
/-- `RTEquation.ray_tracing(z, refindx, angle, z0)`, rt_equation.py:168-243. `none`: returns `None`. -/
noncomputable def rayTracing (I : RayIn) : Option (ℕ → Option ℝ) :=
  if ∃ i < I.nl, I.refindx i < 1 then none
  else if nearZenith I.angle then
    some (forRange 1 I.nl (fun i ds => Function.update ds i (some (I.z i - I.z (i - 1)))) (fun _ => some 0))
  else some (raySlant I).ds

end Verif.Model
