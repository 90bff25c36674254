import Verif.Model.ParamAlias

/-!
# The oxygen line list as references to arrays

`pyrtlib/_lineshape/o2ll.py:36-56`: each `d.variables[a][:].data` is a new array, `wb300` and `x` are numbers
(`.item()`).  The dictionary made from it is `Verif.Model.oxygenParams`.
-/

namespace Verif.Model

open Verif.Py

/-- The variables read with `.item()`, o2ll.py:41-42. -/
def oxygenItems : List String := ["wb300", "x"]

/-- `O2AbsModel.set_ll()` for model `m` with the variables `T` of its group: the array of the `i`-th name read is placed
at `base + i`; attributes that the module body does not assign keep what they referred to (`importlib.reload`,
utils.py:40-48).  (`len(f)` stands for the length of the array `f`.) -/
noncomputable def loadOxygen (m : String) (T : List (String × Col)) (base : ℕ) (old : Refs) : Refs := fun a =>
  if a = "len(f)" then (T.lookup "f").map fun c => .num (c.digits.length : ℝ)
  else if a ∈ oxygenAssign m then
    if a ∈ oxygenItems then (T.lookup a).map fun c => .num (c.val 0)
    else some (.arr (base + (oxygenAssign m).idxOf a))
  else old a

/-- Memory after the arrays read have been placed at `base` and above. -/
noncomputable def placedOxygen (m : String) (T : List (String × Col)) (base : ℕ) (h : Mem) : Mem := fun b =>
  if b < base then h b else
  match ((oxygenAssign m)[b - base]?).bind fun a => T.lookup a with
  | some c => c.val
  | none => h b

/-- `O2AbsModel().o2_absorption(pdrykpa, vx, ekpa, frq)` without parameters, on the line list as it is now. -/
noncomputable def o2Now (m : String) (ll : Refs) (h : Mem) (pdrykpa vx ekpa frq : ℝ) : Except PyErr (Option (ℝ × ℝ)) :=
  o2Absorption m (ll.view h) pdrykpa vx ekpa frq

end Verif.Model
