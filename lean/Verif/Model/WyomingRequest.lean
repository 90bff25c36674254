import Verif.Model.Endpoint
import Verif.Model.Wyoming

/-!
# `WyomingUpperAir.request_data` (pyrtlib/apiwebservices/wyomingupperair.py)
-/

namespace Verif.Model

open Verif.Py

/-- What is used of a page after `BeautifulSoup`, wyomingupperair.py:140: for its `pre` and `h2` elements the text they begin
with, `none` for an element without contents.  (Elements that begin with another element are left out.) -/
structure Page where
  pre : List (Option (List Char))
  h2 : List (Option (List Char))

/-- `elements[i].contents[0]`, wyomingupperair.py:141, 142, 152. -/
def firstText (elements : List (Option (List Char))) (i : ℕ) : Except PyErr (List Char) :=
  match elements[i]? with
  | none => .error .indexError
  | some none => .error .indexError
  | some (some s) => .ok s

/-- `WyomingUpperAir.request_data`, wyomingupperair.py:66-68, with `_get_data`, :139-188: the table and its column `title`.
`HTTPError` of the request is `.other`.  A table that cannot be read raises before the second text is looked for. -/
noncomputable def wyomingRequest (server : List Char → Reply) (soup : List Char → Page) (y m d h : ℕ) (site : List Char) :
    Except PyErr (WyomingTable × List Char) :=
  match wyomingDownload server y m d h site with
  | .error (.http _ _ _) => .error .other
  | .error .value => .error .valueError
  | .ok text =>
    match firstText (soup text).pre 0 with
    | .error x => .error x
    | .ok table =>
      match firstText (soup text).h2 0 with
      | .error x => .error x
      | .ok title =>
        match csvTable table with
        | .error x => .error x
        | .ok _ =>
          match firstText (soup text).pre 1 with
          | .error x => .error x
          | .ok info =>
            match wyomingTable table info with
            | .error x => .error x
            | .ok t => .ok (t, title)

/-- wyomingupperair.py:106. -/
def stationsBase : List Char := "http://weather.uwyo.edu/upperair/".toList

/-- `WyomingUpperAir.get_stations`, wyomingupperair.py:105-119.  `areas` stands for :109-113: the titles of the `area` elements of
the page, `none` without title. -/
def stationsRequest (server : List Char → Reply) (areas : List Char → List (Option (List Char))) (region : List Char) :
    Except RequestErr (List (List Char × List Char)) :=
  match endpointGetPath server stationsBase (region ++ ".html".toList) with
  | .error e => .error e
  | .ok resp => .ok (stationTable (areas resp.text))

end Verif.Model
