import Verif.Model.Shipped
import Verif.Model.Weighting
import Verif.Model.Construct

/-!
# The listing of absorption models and the settings of weighting functions

`pyrtlib/absorption_model.py:72-118, 1033-1037`, `pyrtlib/weighting_functions.py:69-141`.
-/

namespace Verif.Model

open Verif.Py

/-- `AbsModel.implemented_models()`, absorption_model.py:107-118: the names of the groups of the three line-list files.  The
groups are listed in the order in which they were created, which is recorded in the files and kept in `Tables*`. -/
def implementedModels : List (String × List String) :=
  [("Oxygen", oxygenGroups.map Prod.fst), ("WaterVapour", waterGroups.map Prod.fst), ("Ozone", ozoneGroups.map Prod.fst)]

/-- `O3AbsModel.set_ll()`, absorption_model.py:1033-1037, on the process state; `.other` is `AbsModelError`. -/
noncomputable def ozoneSetLL (g : Globals) : Except PyErr Globals :=
  match (implementedModels.lookup "Ozone"), g.sel.o3 with
  | some l, some m =>
    if m ∈ l then
      match ozoneFile m with
      | some F => .ok { g with o3ll := reloadLL F g.o3ll }
      | none => .error .attributeError
    else .error .other
  | some _, none => .error .other
  | none, _ => .error .keyError

/-- `generate_wf` as called by the user, weighting_functions.py:131-141, 174-201: the oxygen model is
`AbsModel.implemented_models()['Oxygen'][-1]` (line 137). -/
noncomputable def WF.call (A : AbsRoutines) (g : Globals) (w : WF) : Except PyErr (Option (List (List ℝ))) × Globals :=
  match implementedModels.lookup "Oxygen" with
  | none => (.error .keyError, g)
  | some l =>
    match l.getLast? with
    | none => (.error .indexError, g)
    | some m => w.generate A m g

/-- `satellite` setter, weighting_functions.py:77-94. -/
def WF.setSatellite (w : WF) : PyVal → Except PyErr Unit × WF
  | .bool b => (.ok (), { w with satellite := b })
  | _ => (.error .valueError, w)

/-- `frequencies` setter, weighting_functions.py:105-124. -/
def WF.setFrequencies (w : WF) : PyVal → Except PyErr Unit × WF
  | .ndarray l => (.ok (), { w with frequencies := some l })
  | _ => (.error .valueError, w)

end Verif.Model
