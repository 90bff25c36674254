import Verif.Py.Err
import Verif.Py.Num
import Verif.Py.Loop
import Mathlib.Analysis.SpecialFunctions.Pow.Real

/-!
# Collision-induced absorption by nitrogen

`pyrtlib/absorption_model.py:179-283`.  Scalars; `none`: not a finite number.  For `t ≤ 0` the powers of `300/t` are not
finite.
-/

namespace Verif.Model

open Verif.Py Real

/-- The coefficients `(a_e[i], b_e[i])`, absorption_model.py:214-215. -/
noncomputable def mwlCoeff : ℕ → ℝ × ℝ
  | 0 => (1.4359, 0.07988)
  | 1 => (-0.0005385, -0.0005165)
  | 2 => (1.6182e-7, 1.131e-6)
  | _ => (1.8845e-10, -5.738e-10)

/-- The exponents `(m0, aa)`, absorption_model.py:219-220, :228-230. -/
noncomputable def mwlExponents (f : ℝ) : ℝ × ℝ :=
  forRange 0 4 (fun i s => (s.1 + (mwlCoeff i).1 * f ^ i, s.2 + (mwlCoeff i).2 * f ^ i)) (0, 0)

/-- `N2AbsModel.n2_absorption_mwl24(t, p, f)`, absorption_model.py:204-234, for `0 < t`. -/
noncomputable def n2Mwl24 (t p f : ℝ) : ℝ :=
  let t0 := (300 : ℝ)
  let ti := t0 / t
  let p_torr := p * 0.7500616827
  let kbcm := (0.6950354549 : ℝ)
  let d0 := 108 / (kbcm * t)
  let d_ref := 108 / (kbcm * 300)
  let potential := (exp d0 - (1 + d0)) / (exp d_ref - (1 + d_ref))
  let t2 := 0.1420 * exp (-(f / 92 - 1) ^ 2)
  let t1_denom := 1 + ((f - 44) / 568) ^ 2
  let t1_num_denom := 1 + ((f - 358) / 127) ^ 2
  let t1_num := 1 + 0.1510 / t1_num_denom
  let spec_fun := 1.754e-18 * 0.5 * (1 + 1.033 * t1_num / t1_denom + t2)
  let t_dep := ti ^ ((mwlExponents f).1 + (mwlExponents f).2 * log ti)
  spec_fun * t_dep * potential * p_torr ^ 2 * f ^ 2

/-- The coefficients `(l, m, n, fdepen)` of a model name, absorption_model.py:260-274. -/
noncomputable def n2Coeff (model : String) (f : ℝ) : Except PyErr (ℝ × ℝ × ℝ × ℝ) :=
  let fdepen := 0.5 + 0.5 / (1.0 + (f / 450.0) ^ 2)
  if model ∈ ["R16", "R17", "R18", "R19", "R19SD"] then .ok (6.5e-14, 3.6, 1.34, fdepen)
  else if model ∈ ["R20", "R20SD", "R21SD", "R22", "R22SD", "R23", "R23SD", "R24"] then
    .ok (9.95e-14, 3.22, 1, fdepen)
  else if model = "R03" then .ok (6.5e-14, 3.6, 1.29, fdepen)
  else if model = "MWL24" then .ok (9.95e-14, 3.22, 0.84, fdepen)
  else if model ∈ ["R98"] then .ok (6.4e-14, 3.55, 1, 1)
  else .error .valueError

/-- `N2AbsModel.n2_absorption(t, p, f)`, absorption_model.py:259-283. -/
noncomputable def n2Absorption (model : String) (t p f : ℝ) : Except PyErr (Option ℝ) :=
  (n2Coeff model f).map fun c =>
    if 0 < t then
      let th := 300.0 / t
      let bf := if model = "MWL24" then n2Mwl24 t p f * 1e5 else c.1 * c.2.2.2 * p * p * f * f * th ^ c.2.1
      some (c.2.2.1 * bf)
    else none

end Verif.Model
