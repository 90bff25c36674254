import Verif.Model.Wyoming

/-!
# Requests to the sounding archives (pyrtlib/apiwebservices/webservices.py, igra2.py, wyomingupperair.py)

A server is a function from URLs to replies.
-/

namespace Verif.Model

open Verif.Py

/-- `posixpath.join(a, b)`. -/
def posixJoin (a b : List Char) : List Char :=
  if b.head? = some '/' then b
  else if a = [] ∨ a.getLast? = some '/' then a ++ b
  else a ++ '/' :: b

/-- A reply of a server. -/
structure Reply where
  status : ℕ
  contentType : List Char
  reason : List Char
  text : List Char

/-- `requests.HTTPError` with the parts of its message, or `ValueError`. -/
inductive RequestErr where
  | http (url : List Char) (status : ℕ) (text : List Char)
  | value

/-- `HTTPEndPoint._get` without parameters, webservices.py:205-215. -/
def endpointGet (server : List Char → Reply) (url : List Char) : Except RequestErr Reply :=
  let resp := server url
  if resp.status ≠ 200 then
    .error (.http url resp.status (if "text/html".toList.isPrefixOf resp.contentType then resp.reason else resp.text))
  else .ok resp

/-- `HTTPEndPoint._get_path`, webservices.py:151, 176. -/
def endpointGetPath (server : List Char → Reply) (base path : List Char) : Except RequestErr Reply :=
  endpointGet server (posixJoin base path)

/-- igra2.py:58. -/
def igraBase : List Char := "https://www.ncei.noaa.gov/data/integrated-global-radiosonde-archive/access/".toList

/-- `except HTTPError: raise ValueError`, igra2.py:161-164. -/
def httpAsValue : Except RequestErr Reply → Except RequestErr Reply
  | .error (.http _ _ _) => .error .value
  | r => r

/-- The download of `IGRAUpperAir._get_data_raw`, igra2.py:156-164. -/
def igraDownload (server : List Char → Reply) (site : String) (beg2021 derived : Bool) : Except RequestErr Reply :=
  httpAsValue (endpointGetPath server igraBase (requestPath site beg2021 derived).toList)

/-- wyomingupperair.py:26. -/
def wyomingBase : List Char := "http://weather.uwyo.edu/cgi-bin/sounding".toList

/-- `'{:%d}'` and the like: two digits. -/
def twoDigits (n : ℕ) : List Char := [Char.ofNat (48 + n / 10 % 10), Char.ofNat (48 + n % 10)]

/-- `'{:%Y}'` for years from 1000 to 9999. -/
def fourDigits (n : ℕ) : List Char := twoDigits (n / 100) ++ twoDigits n

/-- The path of `WyomingUpperAir._get_data_raw`, wyomingupperair.py:205-207. -/
def wyomingPath (y m d h : ℕ) (site : List Char) : List Char :=
  "?region=naconf&TYPE=TEXT%3ALIST".toList ++ "&YEAR=".toList ++ fourDigits y ++ "&MONTH=".toList ++ twoDigits m ++
    "&FROM=".toList ++ twoDigits d ++ twoDigits h ++ "&TO=".toList ++ twoDigits d ++ twoDigits h ++ "&STNM=".toList ++ site

/-- `WyomingUpperAir._get_data_raw`, wyomingupperair.py:209-216. -/
def wyomingDownload (server : List Char → Reply) (y m d h : ℕ) (site : List Char) : Except RequestErr (List Char) :=
  match endpointGetPath server wyomingBase (wyomingPath y m d h site) with
  | .error e => .error e
  | .ok resp => if isInfix "Can't".toList resp.text then .error .value else .ok resp.text

/-- `s.split(' ')`. -/
def splitBlank : List Char → List (List Char)
  | [] => [[]]
  | c :: cs =>
    if c = ' ' then [] :: splitBlank cs
    else match splitBlank cs with
      | [] => [[c]]
      | w :: ws => (c :: w) :: ws

/-- `' '.join(ws)`. -/
def joinBlank : List (List Char) → List Char
  | [] => []
  | [w] => w
  | w :: ws => w ++ ' ' :: joinBlank ws

/-- `d[k] = v` for a dictionary in insertion order. -/
def dictSet (d : List (List Char × List Char)) (k v : List Char) : List (List Char × List Char) :=
  match d with
  | [] => [(k, v)]
  | (k', v') :: d => if k' = k then (k', v) :: d else (k', v') :: dictSet d k v

/-- The stations from the titles of the areas of a map (`none` without title), wyomingupperair.py:111-118. -/
def stationTable (titles : List (Option (List Char))) : List (List Char × List Char) :=
  titles.foldl (fun d t => match t with
    | some (c :: cs) =>
      let ws := splitBlank (c :: cs)
      dictSet d (ws.headD []) (strip (joinBlank (ws.drop 1)))
    | _ => d) []

end Verif.Model
