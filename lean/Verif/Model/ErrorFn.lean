import Verif.Model.AbsLiquid

/-!
# The complex error function

`_dcerror`, `pyrtlib/utils.py:592-644`.
-/

namespace Verif.Model

/-- Horner sum `asum`, utils.py:616-620, 632-633. -/
noncomputable def errA (z : ℂ) : ℂ :=
  (((((0.564189583562615 * z + 5.912626209773153) * z + 30.180142196210589) * z + 93.155580458138441) * z
    + 181.928533092181549) * z + 214.382388694706425) * z + 122.607931777104326

/-- Horner sum `bsum`, utils.py:622-626, 634-636. -/
noncomputable def errB (z : ℂ) : ℂ :=
  ((((((z + 10.479857114260399) * z + 53.992906912940207) * z + 170.354001821091472) * z + 348.703917719495792) * z
    + 457.334478783897737) * z + 352.730625110963558) * z + 122.607931773875350

/-- `_dcerror(x, y)`, utils.py:631-644; `none`: division by zero. -/
noncomputable def dcerror (x y : ℝ) : Option ℂ := do
  let zh : ℂ := ⟨|y|, -x⟩
  let w ← cDiv (errA zh) (errB zh)
  if 0 ≤ y then return w
  else return 2.0 * Complex.exp (-(⟨x, y⟩ : ℂ) ^ 2) - w

/-- `np.sqrt` of a complex number (principal branch). -/
noncomputable def cSqrt (z : ℂ) : ℂ := z ^ (1 / 2 : ℂ)

end Verif.Model
