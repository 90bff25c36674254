import Verif.Model.AbsWater

/-!
# Ozone absorption

`O3AbsModel.o3_absorption`, `pyrtlib/absorption_model.py:1039-1104`, without `amu` (whose effect on the line list is part
of `amuApply`).
-/

namespace Verif.Model

open Verif.Py Real

/-- The loops at absorption_model.py:1075-1086 and 1088-1102: `break` above `f + 1`, a contribution from `f - 1` on.  The
state is the sum and whether the loop was left. -/
noncomputable def o3Loop (n : ℕ) (fl : ℕ → ℝ) (f : ℝ) (term : ℕ → Option ℝ) : Option ℝ :=
  (forRange 0 n (fun k st =>
    if st.2 then st
    else if f + 1.0 < fl k then (st.1, true)
    else if f - 1.0 ≤ fl k then ((do
      let s ← st.1
      let c ← term k
      return s + c), false)
    else st) ((some 0, false) : Option ℝ × Bool)).1

/-- One line in R22, R22SD: Voigt profile, absorption_model.py:1079-1084. -/
noncomputable def o3Voigt (fl s1 b w x t p ti f : ℝ) : Option ℝ := do
  let tx ← fpow ti x
  let widthc := w * p * tx
  let st ← npSqrt t
  let betad := 0.62065e-7 * fl * st
  let arg1 ← npDiv (fl - f) betad
  let arg2 ← npDiv widthc betad
  let s := s1 * exp (b * (1.0 - ti))
  let er ← dcerror arg1 arg2
  npDiv (s * er.re) betad

/-- One line in the other models, absorption_model.py:1092-1100. -/
noncomputable def o3Lorentz (fl s1 b w x t p ti f : ℝ) : Option ℝ := do
  let tx ← fpow ti x
  let widthc := w * p * tx
  let betad2 := 3.85e-15 * t * fl ^ 2
  let rt ← npSqrt (0.2166 * widthc * widthc + 0.6931 * betad2)
  let width := 0.5346 * widthc + rt
  let s := s1 * exp (b * (1.0 - ti))
  let q ← npDiv f fl
  let shape ← npDiv (q ^ 2 * width) ((f - fl) ^ 2 + width * width)
  return s * shape

open Classical in
/-- `O3AbsModel().o3_absorption(t, p, f, o3n)` (Np/km) for the selected model and loaded line list,
absorption_model.py:1062-1104.  `o3n.any() <= 0` holds for `o3n = 0` only. -/
noncomputable def o3Absorption (m : String) (ll : LineList) (t p f o3n : ℝ) : Except PyErr (Option ℝ) :=
  if o3n = 0 then .ok (some 0)
  else do
    let reft ← attr ll "reftline"
    let n ← attr ll "len(fl)"
    let fl ← attr ll "fl"
    let s1 ← attr ll "s1"
    let b ← attr ll "b"
    let w ← attr ll "w"
    let x ← attr ll "x"
    let den := 1e-06 * o3n
    return do
      let ti ← npDiv (reft 0) t
      let ti2 ← fpow ti 2.5
      let qe ← npDiv (-1008.0) t
      let qvinv := 1.0 - exp qe
      if m ∈ ["R22", "R22SD"] then
        let summ ← o3Loop (numLines n) fl f (fun k => o3Voigt (fl k) (s1 k) (b k) (w k) (x k) t p ti f)
        return 0.56419e-4 * summ * qvinv * ti2 * den
      else
        let summ ← o3Loop (numLines n) fl f (fun k => o3Lorentz (fl k) (s1 k) (b k) (w k) (x k) t p ti f)
        return 3.183e-05 * summ * qvinv * ti2 * den

end Verif.Model
