import Verif.Model.TablesWater
import Verif.Model.TablesOzone
import Verif.Model.TablesOxygen

/-!
# Loading of the line lists

`pyrtlib/_lineshape/h2oll.py:51-106`, `o2ll.py:27-57`, `o3ll.py:20-37`: the module bodies executed by
`import_lineshape` for the selected model.  The length of an array attribute `fl` is kept under the name `len(fl)`.
-/

namespace Verif.Model

/-- Where an attribute comes from. -/
inductive Src where
  /-- `mtx[:, c]` -/
  | col (c : ℕ)
  /-- `mtx[:, c] / 1000.0` -/
  | milli (c : ℕ)
  /-- `ctr[c]` -/
  | ctr (c : ℕ)
  /-- `reftline` -/
  | reft
  /-- `d2air` (0), `d2self` (1) -/
  | extra (c : ℕ)
  /-- number of rows of `mtx` -/
  | rows
  deriving DecidableEq

/-- Value of a source in a table; `none`: `IndexError` or missing variable. -/
noncomputable def Src.val (T : RawTable) : Src → Option Val
  | .col c => T.cols[c]?.map Col.val
  | .milli c => T.cols[c]?.map fun v k => v.val k / 1000.0
  | .ctr c => if c < T.ctr.digits.length then some fun _ => T.ctr.val c else none
  | .reft => if 0 < T.reftline.digits.length then some fun _ => T.reftline.val 0 else none
  | .extra c => if c < T.extra.digits.length then some fun _ => T.extra.val c else none
  | .rows => some fun _ => (T.rows : ℝ)

/-- The assignments of `h2oll.py:60-104` for the model name, in order. -/
def waterAssign (m : String) : List (String × Src) :=
  [("reftline", .reft), ("fl", .col 1), ("len(fl)", .rows), ("s1", .col 2), ("b2", .col 3), ("w0", .milli 4),
    ("x", .col 5), ("w0s", .milli 6), ("xs", .col 7)] ++
  (if m = "R03" then [("w0s", .milli 7), ("xs", .col 8), ("sr", .col 6)]
    else if m ∈ ["R16", "R17"] then [("sr", .col 6), ("w0s", .milli 7), ("xs", .col 8)] else []) ++
  (if m ∉ ["R98", "R03", "R16", "R17"] then [("sh", .milli 8), ("xh", .col 9), ("shs", .milli 10), ("xhs", .col 11)]
    else []) ++
  (if m ∈ ["R19", "R19SD", "R20", "R20SD", "R21SD", "R22SD", "R23", "R23SD", "R24", "MWL24"] then
    [("aair", .col 12), ("aself", .col 13)] else []) ++
  (if m ∈ ["R19SD", "R20SD", "R21SD", "R22SD", "R23", "R23SD", "R24", "MWL24"] then [("w2", .milli 14)] else []) ++
  (if m ∈ ["R19SD", "R20SD", "R22SD", "R23", "R23SD", "R24", "MWL24"] then [("w2s", .milli 15)] else []) ++
  (if m ∈ ["R21SD", "R22SD", "R23", "R23SD", "R24", "MWL24"] then
    [("xw2", .col 15), ("w2s", .milli 16), ("xw2s", .col 17), ("d2", .milli 18), ("d2s", .milli 19)] else []) ++
  (if m = "R20SD" then [("d2air", .extra 0), ("d2self", .extra 1)] else []) ++
  [("reftcon", .ctr 0), ("cf", .ctr 1), ("xcf", .ctr 2), ("cs", .ctr 3), ("xcs", .ctr 4)]

/-- The last assignment to an attribute. -/
def lastAssign (l : List (String × Src)) (a : String) : Option Src := (l.reverse.find? (·.1 = a)).map (·.2)

/-- Attributes after executing `h2oll.py` for model `m`; `none`: no such group (`KeyError`). -/
noncomputable def waterFile (m : String) : Option LineList :=
  (waterGroups.lookup m).map fun T a => (lastAssign (waterAssign m) a).bind (Src.val T)

/-- The assignments of `o3ll.py:27-36`. -/
def ozoneAssign : List (String × Src) :=
  [("reftline", .reft), ("fl", .col 1), ("len(fl)", .rows), ("s1", .col 2), ("b", .col 3), ("w", .milli 4), ("x", .col 5),
    ("sr", .col 6)]

/-- Attributes after executing `o3ll.py` for model `m`. -/
noncomputable def ozoneFile (m : String) : Option LineList :=
  (ozoneGroups.lookup m).map fun T a => (lastAssign ozoneAssign a).bind (Src.val T)

/-- The variables read by `o2ll.py:38-56` for the model name; each becomes an attribute of the same name. -/
def oxygenAssign (m : String) : List String :=
  ["f", "s300", "be", "wb300", "x", "w300"] ++
  (if m ∈ ["R98", "R03", "R17", "R18", "R19", "R19SD"] then ["v"] else []) ++
  (if m ∈ ["R98", "R03", "R17", "R18", "R19", "R19SD", "R23", "R24"] then ["y300"] else []) ++
  (if m ∉ ["R98", "R03", "R17", "R18", "R19", "R19SD", "R23", "R24"] then ["y0"] else []) ++
  (if m ∈ ["R16", "R20", "R20SD", "R21", "R22", "R23", "R24"] then ["y1", "g0", "g1", "dnu0", "dnu1"] else [])

/-- Attributes after executing `o2ll.py` for model `m`; `none`: no such group, or a variable is missing. -/
noncomputable def oxygenFile (m : String) : Option LineList :=
  (oxygenGroups.lookup m).bind fun T =>
    if ∀ a ∈ oxygenAssign m, (T.lookup a).isSome then
      some fun a =>
        if a = "len(f)" then (T.lookup "f").map fun c _ => (c.digits.length : ℝ)
        else if a ∈ oxygenAssign m then (T.lookup a).map Col.val
        else none
    else none

end Verif.Model
