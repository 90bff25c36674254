import Verif.Model.Endpoint
import Verif.Model.IgraTable

/-!
# `IGRAUpperAir.request_data` (pyrtlib/apiwebservices/igra2.py)
-/

namespace Verif.Model

open Verif.Py

/-- The two dates taken from the argument `time`, igra2.py:112-116: a `datetime` stands for both; anything else is
unpacked, `ValueError` unless it has two elements.  (Dates are without time zone.) -/
def requestDates : DT ⊕ List DT → Except PyErr (DT × DT)
  | .inl t => .ok (t, t)
  | .inr [b, e] => .ok (b, e)
  | .inr _ => .error .valueError

/-- `IGRAUpperAir.request_data`, igra2.py:98-122, with `_get_data_raw`, :156-173.  `unzip` stands for :166-169: the
decoded lines, with line ends, of the first member of the zip file in the reply. -/
noncomputable def igraRequest (server : List Char → Reply) (unzip : Reply → Except PyErr (List (List Char)))
    (time : DT ⊕ List DT) (site : String) (beg2021 derived : Bool) : Except PyErr (BodyTable × HeaderTable) :=
  match requestDates time with
  | .error x => .error x
  | .ok (b, e) =>
    match igraDownload server site beg2021 derived with
    | .error _ => .error .valueError
    | .ok resp =>
      match unzip resp with
      | .error x => .error x
      | .ok lines => igraTables b e lines

end Verif.Model
