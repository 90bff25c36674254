import Verif.Model.Parameters
import Verif.Model.LineLists

/-!
# Parameter dictionaries as references to the arrays of the loaded line list

`pyrtlib/_lineshape/h2oll.py:56-104` and `pyrtlib/uncertainty/absmod_uncertainty.py:105-144`.  `mtx[:, c]` is a numpy
view: it is the array with address `base + 2 c`.  `mtx[:, c] / 1000.0` is a new array, address `base + 2 c + 1`.
`ctr[c]`, `reftline`, `d2air` and `d2self` are numbers (numpy scalars, which cannot be changed in place).
-/

namespace Verif.Model

open Verif.Py

/-- What an assignment of the module body stores, when the matrix of table `T` is placed at `base`. -/
noncomputable def Src.ref (T : RawTable) (base : ℕ) : Src → Option Ref
  | .col c => if c < T.cols.length then some (.arr (base + 2 * c)) else none
  | .milli c => if c < T.cols.length then some (.arr (base + 2 * c + 1)) else none
  | .ctr c => if c < T.ctr.digits.length then some (.num (T.ctr.val c)) else none
  | .reft => if 0 < T.reftline.digits.length then some (.num (T.reftline.val 0)) else none
  | .extra c => if c < T.extra.digits.length then some (.num (T.extra.val c)) else none
  | .rows => some (.num (T.rows : ℝ))

/-- The column stored at offset `k`. -/
noncomputable def cellOf (c : Col) (k : ℕ) : Val := if k % 2 = 0 then c.val else fun i => c.val i / 1000.0

/-- Memory after the matrix of `T` and the derived arrays have been placed at `base` and above. -/
noncomputable def placed (T : RawTable) (base : ℕ) (h : Mem) : Mem := fun a =>
  if a < base then h a else
  match T.cols[(a - base) / 2]? with
  | some c => cellOf c (a - base)
  | none => h a

/-- `H2OAbsModel.set_ll()` for model `m` with table `T`, all new arrays from address `base` on: attributes that the
module body does not assign keep what they referred to (`importlib.reload`), utils.py:40-48. -/
noncomputable def loadWater (m : String) (T : RawTable) (base : ℕ) (old : Refs) : Refs := fun a =>
  ((lastAssign (waterAssign m) a).bind (Src.ref T base)).orElse fun _ => old a

/-- `r * 1e3`: a new array at address `a` for an array, a number for a number. -/
noncomputable def scaledRef (a : ℕ) : Ref → Ref
  | .num x => .num (x * 1e3)
  | .arr _ => .arr a

/-- Memory after `r * 1e3` has been stored at address `a`. -/
noncomputable def scaledMem (h : Mem) (a : ℕ) : Ref → Mem
  | .num _ => h
  | .arr b => Function.update h a fun i => h b i * 1e3

/-- `SpectroscopicParameter.water_parameters(model)` with the line list already loaded,
absmod_uncertainty.py:105-144; new arrays from address `a` on.  (`Verif.Model.waterParams` gives the values only.) -/
noncomputable def waterParamsRef (m : String) (ll : Refs) (a : ℕ) (h : Mem) : Except PyErr (Refs × Mem) := do
  let cf ← ll.get .attributeError "cf"
  let cs ← ll.get .attributeError "cs"
  let xcf ← ll.get .attributeError "xcf"
  let xcs ← ll.get .attributeError "xcs"
  let fl ← ll.get .attributeError "fl"
  let s1 ← ll.get .attributeError "s1"
  let b2 ← ll.get .attributeError "b2"
  let w0 ← ll.get .attributeError "w0"
  let w0s ← ll.get .attributeError "w0s"
  let x ← ll.get .attributeError "x"
  let xs ← ll.get .attributeError "xs"
  let common : List (String × Ref) := [("con_Cf", cf), ("con_Cs", cs), ("con_Xf", xcf), ("con_Xs", xcs), ("FL", fl),
    ("S", s1), ("B2", b2), ("gamma_a", scaledRef a w0), ("gamma_w", scaledRef (a + 1) w0s), ("n_a", x), ("n_w", xs),
    ("wv_nS", .num 0)]
  let h := scaledMem (scaledMem h a w0) (a + 1) w0s
  if "R17" < m then do
    let xh ← ll.get .attributeError "xh"
    let xhs ← ll.get .attributeError "xhs"
    let sh ← ll.get .attributeError "sh"
    let shs ← ll.get .attributeError "shs"
    return (fun k => (common ++ [("con_Cf_factr", .num 1), ("con_Cs_factr", .num 1), ("n_da", xh), ("n_dw", xhs),
      ("delta_a", scaledRef (a + 2) sh), ("delta_w", scaledRef (a + 3) shs)]).lookup k,
      scaledMem (scaledMem h (a + 2) sh) (a + 3) shs)
  else do
    let sr ← ll.get .attributeError "sr"
    return (fun k => (common ++ [("SR", sr), ("con_Cf_factr", .num 1.11), ("con_Cs_factr", .num 0.79)]).lookup k, h)

/-- `P[k].value[:] = v` done in place; a number cannot be changed in place (`TypeError`), a missing name is a
`KeyError`. -/
noncomputable def editInPlace (P : Refs) (k : String) (v : Val) (h : Mem) : Except PyErr Mem :=
  match P k with
  | none => .error .keyError
  | some (.num _) => .error .typeError
  | some (.arr a) => .ok (Function.update h a v)

/-- `H2OAbsModel().h2o_absorption(pdrykpa, vx, ekpa, frq)` without parameters, on the line list as it is now. -/
noncomputable def h2oNow (m : String) (ll : Refs) (h : Mem) (pdrykpa vx ekpa frq : ℝ) :
    Except PyErr (Option (ℝ × ℝ)) :=
  h2oAbsorption m (ll.view h) pdrykpa vx ekpa frq

end Verif.Model
