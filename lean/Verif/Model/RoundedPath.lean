import Verif.Model.RoundedInt
import Verif.Model.Simulator

/-!
# Plane-parallel path lengths in inexact arithmetic

The lines of `TbCloudRTE.execute` that turn heights and an elevation angle into path lengths, over an
arbitrary arithmetic.
-/

namespace Verif.Model

/-- An arithmetic with a sine and a value for `np.pi`. -/
structure Trig where
  ar : Arith
  sin : ℝ → ℝ
  pi : ℝ

/-- Real arithmetic. -/
noncomputable def Trig.exact : Trig := ⟨Arith.exact, Real.sin, Real.pi⟩

/-- Relative error `u` of every operation, of the sine and of `np.pi`.  (`np.sin` is accurate to one unit
in the last place; `np.pi` is the double next to `π`, relative error `4·10⁻¹⁷`.) -/
structure Trig.Accurate (G : Trig) (u : ℝ) : Prop where
  ar : G.ar.Accurate u
  sin : ∀ a, |G.sin a - Real.sin a| ≤ u * |Real.sin a|
  pi : |G.pi - Real.pi| ≤ u * Real.pi

namespace Trig

open Classical in
/-- `amass`, tb_spectrum.py:328.  `none`: the sine comes out as zero. -/
noncomputable def amass (G : Trig) (angle : ℝ) : Option ℝ :=
  let s := G.sin (G.ar.div (G.ar.mul angle G.pi) 180)
  if s = 0 then none else some (G.ar.div 1 s)

/-- `ds`, tb_spectrum.py:329. -/
noncomputable def path (G : Trig) (z : ℕ → ℝ) (angle : ℝ) : Option (ℕ → ℝ) :=
  (G.amass angle).map fun m i => if i = 0 then 0 else G.ar.mul (G.ar.sub (z i) (z (i - 1))) m

/-- From heights, angle and absorption profiles to the brightness temperature, tb_spectrum.py:328-380. -/
noncomputable def tbSlant (G : Trig) (fromSat : Bool) (emissivity frq : ℝ) (nl : ℕ) (z t : ℕ → ℝ)
    (a : Arith.Profiles) (angle : ℝ) : Option ℝ :=
  (G.path z angle).bind fun ds => G.ar.tbProfile fromSat emissivity frq nl t a ds

end Trig

end Verif.Model
