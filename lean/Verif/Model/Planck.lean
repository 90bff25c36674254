import Verif.Py.Loop
import Verif.Py.Num
import Verif.Model.Constants
import Mathlib.Analysis.SpecialFunctions.Exp

/-!
# Radiance: `tk2b_mod`, `bright`, `planck`

`pyrtlib/utils.py:518-533`, `pyrtlib/rt_equation.py:83-103` and `:368-463`.

Arrays of `nl` levels are functions `ℕ → ℝ` of which only the entries `< nl` are used.
-/

namespace Verif.Model

open Verif.Py Real

/-- `tk2b_mod(hvk, t)`, utils.py:531.  (`t = 0` or `hvk = 0` makes numpy divide by zero; every
theorem carries the guards `0 < hvk`, `0 < t`.) -/
noncomputable def tk2b (hvk t : ℝ) : ℝ := 1.0 / (exp (hvk / t) - 1.0)

/-- `RTEquation.bright(hvk, boft)`, rt_equation.py:98-103.  `none` where numpy takes the logarithm
of a non-positive number (`-1 ≤ boft < 0`; at `boft = -1` exactly numpy would give `-0.0`). -/
noncomputable def bright (hvk boft : ℝ) : Option ℝ :=
  if boft ≠ 0 then
    (npLog (1.0 + 1.0 / boft)).bind fun l => npDiv hvk l
  else some 0

/-- `hvk = np.dot(np.dot(frq, 1e9), h) / k`, rt_equation.py:397-401. -/
noncomputable def hvkOf (frq : ℝ) : ℝ := frq * 1e9 * cPlanck / cBoltzmann

/-- `expmax`, rt_equation.py:403 and :318. -/
noncomputable def expmax : ℝ := 125.0

/-- The three arrays filled by `planck`, rt_equation.py:405-407. -/
structure PlanckArrays where
  tauprof : ℕ → ℝ
  boftatm : ℕ → ℝ
  boft : ℕ → ℝ

/-- `np.zeros(...)` for all three arrays, rt_equation.py:405-407. -/
def PlanckArrays.zeros : PlanckArrays := ⟨fun _ => 0, fun _ => 0, fun _ => 0⟩

/-- Return value of `planck`, rt_equation.py:463.  `boftmr` is `none` when the code divides by
zero (`1 - exp(-tau) = 0`). -/
structure PlanckOut where
  boftotl : ℝ
  boftatm : ℕ → ℝ
  boftmr : Option ℝ
  tauprof : ℕ → ℝ
  hvk : ℝ
  boft : ℕ → ℝ
  bakgrnd : ℝ

/-- Loop body of the ground branch, rt_equation.py:443-449. -/
noncomputable def groundBody (hvk : ℝ) (t taulay : ℕ → ℝ) (i : ℕ) (a : PlanckArrays) : PlanckArrays :=
  let boft := Function.update a.boft i (tk2b hvk (t i))
  let boftlay := (boft (i - 1) + boft i * exp (-taulay i)) / (1.0 + exp (-taulay i))
  let batmlay := boftlay * exp (-a.tauprof (i - 1)) * (1.0 - exp (-taulay i))
  let boftatm := Function.update a.boftatm i (a.boftatm (i - 1) + batmlay)
  let tauprof := Function.update a.tauprof i (a.tauprof (i - 1) + taulay i)
  ⟨tauprof, boftatm, boft⟩

/-- The loop of the ground branch, rt_equation.py:441-449. -/
noncomputable def groundArrays (hvk : ℝ) (nl : ℕ) (t taulay : ℕ → ℝ) : PlanckArrays :=
  let a0 : PlanckArrays :=
    { PlanckArrays.zeros with boft := Function.update (fun _ => 0) 0 (tk2b hvk (t 0)) }
  forRange 1 nl (groundBody hvk t taulay) a0

/-- Loop body of the satellite branch, rt_equation.py:419-425. -/
noncomputable def satBody (hvk : ℝ) (t taulay : ℕ → ℝ) (i : ℕ) (a : PlanckArrays) : PlanckArrays :=
  let boft := Function.update a.boft i (tk2b hvk (t i))
  let boftlay := (boft (i + 1) + boft i * exp (-taulay (i + 1))) / (1.0 + exp (-taulay (i + 1)))
  let batmlay := boftlay * exp (-a.tauprof (i + 1)) * (1.0 - exp (-taulay (i + 1)))
  let boftatm := Function.update a.boftatm i (a.boftatm (i + 1) + batmlay)
  let tauprof := Function.update a.tauprof i (a.tauprof (i + 1) + taulay (i + 1))
  ⟨tauprof, boftatm, boft⟩

/-- The loop of the satellite branch (`range(nl - 2, -1, -1)`), rt_equation.py:417-425. -/
noncomputable def satArrays (hvk : ℝ) (nl : ℕ) (t taulay : ℕ → ℝ) : PlanckArrays :=
  let a0 : PlanckArrays :=
    { PlanckArrays.zeros with boft := Function.update (fun _ => 0) (nl - 1) (tk2b hvk (t (nl - 1))) }
  forDown (nl - 1) (satBody hvk t taulay) a0

/-- `RTEquation.planck(frq, t, taulay)`, rt_equation.py:396-463, with the class attributes
`_from_sat` and `_emissivity` as explicit arguments.  `none`: `IndexError` of `t[0]` on an empty
profile. -/
noncomputable def planck (fromSat : Bool) (emissivity frq : ℝ) (nl : ℕ) (t taulay : ℕ → ℝ) :
    Option PlanckOut :=
  if nl = 0 then none else
  let Tc := cTcosmicbkg
  let hvk := hvkOf frq
  if fromSat then
    let boftotl0 : ℝ := 0.0
    let Ts := t 0
    let a := satArrays hvk nl t taulay
    if a.tauprof 0 < expmax then
      let boftbg := emissivity * tk2b hvk Ts + (1 - emissivity) * boftotl0
      let bakgrnd := boftbg * exp (-a.tauprof 0)
      some { boftotl := bakgrnd + a.boftatm 0
             boftatm := a.boftatm
             boftmr := npDiv (a.boftatm 0) (1.0 - exp (-a.tauprof 0))
             tauprof := a.tauprof, hvk := hvk, boft := a.boft, bakgrnd := bakgrnd }
    else
      some { boftotl := a.boftatm 0
             boftatm := a.boftatm
             boftmr := some (a.boftatm 0)
             tauprof := a.tauprof, hvk := hvk, boft := a.boft, bakgrnd := 0.0 }
  else
    let a := groundArrays hvk nl t taulay
    if a.tauprof (nl - 1) < expmax then
      let boftbg := tk2b hvk Tc
      let bakgrnd := boftbg * exp (-a.tauprof (nl - 1))
      some { boftotl := bakgrnd + a.boftatm (nl - 1)
             boftatm := a.boftatm
             boftmr := npDiv (a.boftatm (nl - 1)) (1.0 - exp (-a.tauprof (nl - 1)))
             tauprof := a.tauprof, hvk := hvk, boft := a.boft, bakgrnd := bakgrnd }
    else
      some { boftotl := a.boftatm (nl - 1)
             boftatm := a.boftatm
             boftmr := some (a.boftatm (nl - 1))
             tauprof := a.tauprof, hvk := hvk, boft := a.boft, bakgrnd := 0.0 }

end Verif.Model
