import Verif.Model.Rounded
import Verif.Model.Integration

/-!
# The layer integration in inexact arithmetic

`exponential_integration` (`pyrtlib/rt_equation.py:245-290`) over an arbitrary arithmetic, as
`Model/Rounded.lean` does for the radiance code.
-/

namespace Verif.Model.Arith

open Verif.Py

open Classical in
/-- The layer value of rt_equation.py:269-282.  Inner `none`: the branch that warns and returns early;
outer `none`: the quotient of line 282 is not finite, because the logarithm comes out as zero. -/
noncomputable def layerValue (F : Arith) (zeroflg : Bool) (a b : ℝ) : Option (Option ℝ) :=
  if a < 0 ∨ b < 0 then some none
  else if |F.sub b a| < F.lit 1e-09 then some (some b)
  else if a = 0 ∨ b = 0 then
    if !zeroflg then some (some 0) else some (some (F.mul (F.add b a) 0.5))
  else if F.log (F.div b a) = 0 then none
  else some (some (F.div (F.sub b a) (F.log (F.div b a))))

/-- Loop body, rt_equation.py:267-285, as `Model.expIntBody`.  The error `none` ends the loop: a layer
value that is not finite. -/
noncomputable def expIntBody (F : Arith) (zeroflg : Bool) (nl : ℕ) (x ds : ℕ → ℝ) (i : ℕ)
    (s : ℝ × (ℕ → ℝ)) : Except (Option (Except PyErr (ℝ × (ℕ → ℝ)))) (ℝ × (ℕ → ℝ)) :=
  if nl ≤ i then .error (some (.error .indexError))
  else match F.layerValue zeroflg (prevEntry x nl i) (x i) with
    | none => .error none
    | some none => .error (some (.ok s))
    | some (some xlayer) =>
      let xds := Function.update s.2 i (F.mul xlayer (ds i))
      .ok (F.add s.1 (xds i), xds)

/-- `RTEquation.exponential_integration`, rt_equation.py:264-290, as `Model.expInt`; `none`: some layer
value is not finite. -/
noncomputable def expInt (F : Arith) (zeroflg : Bool) (nl : ℕ) (x ds : ℕ → ℝ) (ibeg iend : ℕ)
    (factor : ℝ) : Option (Except PyErr (ℝ × (ℕ → ℝ))) :=
  match forRangeE ibeg iend (F.expIntBody zeroflg nl x ds) (0, fun _ => 0) with
  | .error r => r
  | .ok (sxds, xds) =>
    some (if iend = nl then .ok (F.mul sxds factor, xds) else .error .valueError)

/-- Absorption profiles in Np/km: `awet`, `adry`, `aice`, `aliq` of tb_spectrum.py:347-360. -/
structure Profiles where
  wet : ℕ → ℝ
  dry : ℕ → ℝ
  ice : ℕ → ℝ
  liq : ℕ → ℝ

/-- `ptaulay`, tb_spectrum.py:347-371: the four integrations and their sum, in the order of the code.
In a clear run the arrays of ice and liquid are zeros, which is what the integration of the zero
profile returns.  `none`: an exception or a value that is not finite. -/
noncomputable def opacities (F : Arith) (nl : ℕ) (a : Profiles) (ds : ℕ → ℝ) : Option (ℕ → ℝ) :=
  match F.expInt true nl a.wet ds 1 nl 1, F.expInt true nl a.dry ds 1 nl 1,
      F.expInt false nl a.ice ds 1 nl 1, F.expInt false nl a.liq ds 1 nl 1 with
  | some (.ok w), some (.ok d), some (.ok i), some (.ok l) =>
    some fun k => F.add (F.add (F.add (w.2 k) (d.2 k)) (i.2 k)) (l.2 k)
  | _, _, _, _ => none

/-- From absorption profiles and path lengths to the brightness temperature, tb_spectrum.py:347-380. -/
noncomputable def tbProfile (F : Arith) (fromSat : Bool) (emissivity frq : ℝ) (nl : ℕ) (t : ℕ → ℝ)
    (a : Profiles) (ds : ℕ → ℝ) : Option ℝ :=
  (F.opacities nl a ds).bind fun taulay => F.tbtotal fromSat emissivity frq nl t taulay

end Verif.Model.Arith
