import Verif.Model.ParamAlias

/-!
# The ozone parameter dictionary

`pyrtlib/uncertainty/absmod_uncertainty.py:194-217`, `pyrtlib/_lineshape/o3ll.py:24-36` and
`pyrtlib/absorption_model.py:1053-1063`.  Arrays in a dictionary are taken to have as many lines as the line list.
-/

namespace Verif.Model

open Verif.Py

/-- `O3AbsModel.set_ll()` with table `T`, all new arrays from address `base` on (as `loadWater`). -/
noncomputable def loadOzone (T : RawTable) (base : ℕ) (old : Refs) : Refs := fun a =>
  ((lastAssign ozoneAssign a).bind (Src.ref T base)).orElse fun _ => old a

/-- `SpectroscopicParameter.ozono_parameters(model)` with the line list already loaded,
absmod_uncertainty.py:208-217. -/
def ozoneParams (ll : Refs) : Except PyErr Refs := do
  let fl ← ll.get .attributeError "fl"
  let s1 ← ll.get .attributeError "s1"
  let b ← ll.get .attributeError "b"
  let w ← ll.get .attributeError "w"
  let x ← ll.get .attributeError "x"
  let sr ← ll.get .attributeError "sr"
  return fun k => [("O3_FL", fl), ("O3_S1", s1), ("O3_B", b), ("O3_W", w), ("O3_X", x), ("O3_SR", sr)].lookup k

/-- The statements `self.o3ll.a = amu[k].value`, absorption_model.py:1054-1059: key and attribute. -/
def ozoneTakes : List (String × String) :=
  [("O3_FL", "fl"), ("O3_S1", "s1"), ("O3_B", "b"), ("O3_W", "w"), ("O3_X", "x"), ("O3_SR", "sr")]

/-- A sequence of such statements: the line list afterwards, and the exception that ended it. -/
def takeAll (P : Refs) : List (String × String) → Refs → Refs × Option PyErr
  | [], ll => (ll, none)
  | (k, a) :: l, ll =>
    match P k with
    | none => (ll, some .keyError)
    | some v => takeAll P l (ll.set a v)

/-- `O3AbsModel().o3_absorption(t, p, f, o3n, amu)`: the result and the line list afterwards.  `amu = none` stands for
`None` and for the empty dictionary (`if amu:`). -/
noncomputable def o3With (m : String) (amu : Option Refs) (ll : Refs) (h : Mem) (t p f o3n : ℝ) :
    Except PyErr (Option ℝ) × Refs :=
  match amu with
  | none => (o3Absorption m (ll.view h) t p f o3n, ll)
  | some P =>
    match takeAll P ozoneTakes ll with
    | (ll, some e) => (.error e, ll)
    | (ll, none) => (o3Absorption m (ll.view h) t p f o3n, ll)

end Verif.Model
