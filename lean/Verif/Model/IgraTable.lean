import Verif.Model.Igra
import Mathlib.Algebra.Order.Round

/-!
# From radiosonde text to tables (pyrtlib/apiwebservices/igra2.py:124-148, 365-497)

The columns of derived soundings are never used (C65); only the other branch is modelled.  `pandas.read_fwf` is modelled as
documented for the Python engine: fields are cut out and stripped, lines without any field are skipped, converters are
applied per column, and a value is missing when it is one of `na_values` (after conversion, or before it when a converter
has raised `ValueError` in that column).
-/

namespace Verif.Model

open Verif.Py

/-- The lines of a text, each with its newline. -/
def textLines : List Char → List (List Char)
  | [] => []
  | c :: cs =>
    if c = '\n' then ['\n'] :: textLines cs
    else match textLines cs with
      | [] => [[c]]
      | l :: ls => (c :: l) :: ls

/-- Characters stripped from a field of fixed width. -/
def isFwfSpace (c : Char) : Bool := c == ' ' || c == '\t' || c == '\n' || c == '\r'

/-- A field of a line of fixed width: columns `a` to `b - 1`, stripped. -/
def fwfField (spec : ℕ × ℕ) (line : List Char) : List Char :=
  (((slice line spec.1 spec.2).dropWhile isFwfSpace).reverse.dropWhile isFwfSpace).reverse

/-- Lines with at least one field. -/
def fwfLines (specs : List (ℕ × ℕ)) (text : List Char) : List (List Char) :=
  (textLines text).filter fun l => specs.any fun s => !(fwfField s l).isEmpty

/-- Strings that stand for missing values: those of pandas and `na_vals`, igra2.py:397. -/
def naStrings : List (List Char) :=
  ["", "#N/A", "#N/A N/A", "#NA", "-1.#IND", "-1.#QNAN", "-NaN", "-nan", "1.#IND", "1.#QNAN", "<NA>", "N/A", "NA", "NULL",
    "NaN", "None", "n/a", "nan", "null", "-8888", "-9999"].map String.toList

/-- Missing values after conversion. -/
noncomputable def naNumber (x : ℝ) : Option ℝ := if x = -8888 ∨ x = -9999 then none else some x

/-- A column with a converter. -/
noncomputable def convColumn (conv : List Char → Except PyErr (Option ℝ)) (vals : List (List Char)) :
    Except PyErr (List (Option ℝ)) :=
  match vals.mapM conv with
  | .ok xs => .ok (xs.map fun x => x.bind naNumber)
  | .error .valueError =>
    (vals.mapM fun v => if v ∈ naStrings then .ok none else conv v).map fun xs => xs.map fun x => x.bind naNumber
  | .error e => .error e

/-- The converter `int`. -/
noncomputable def convInt (v : List Char) : Except PyErr (Option ℝ) := (pyInt v).map fun z => some (z : ℝ)
/-- The converter `_ctime(strformat)`. -/
noncomputable def convTime (fmt : String) (v : List Char) : Except PyErr (Option ℝ) :=
  (ctime fmt v).map fun z => z.map fun z => (z : ℝ)
/-- The converter `_cflag`. -/
noncomputable def convFlag (v : List Char) : Except PyErr (Option ℝ) := .ok (some (cflag v : ℝ))
/-- The converter `_clatlon`. -/
noncomputable def convLatLon (v : List Char) : Except PyErr (Option ℝ) := (clatlon v).map some

/-- `colspecs_body`, igra2.py:371-373. -/
def bodySpecs : List (ℕ × ℕ) := [(0, 1), (1, 2), (3, 8), (9, 15), (15, 16), (16, 21), (21, 22), (22, 27), (27, 28),
  (28, 33), (34, 39), (40, 45), (46, 51)]

/-- Rounding half to even, `np.rint`. -/
noncomputable def rint (x : ℝ) : ℤ := if Int.fract x = 1 / 2 ∧ ⌊x⌋ % 2 = 0 then ⌊x⌋ else round x

/-- `np.round(x, 1)`. -/
noncomputable def npRound1 (x : ℝ) : ℝ := rint (x * 10) / 10

/-- The body table (`none` is `nan`). -/
structure BodyTable where
  lvltyp1 : List (Option ℝ)
  lvltyp2 : List (Option ℝ)
  etime : List (Option ℝ)
  pressure : List (Option ℝ)
  pflag : List (Option ℝ)
  height : List (Option ℝ)
  zflag : List (Option ℝ)
  temperature : List (Option ℝ)
  tflag : List (Option ℝ)
  relativeHumidity : List (Option ℝ)
  direction : List (Option ℝ)
  speed : List (Option ℝ)
  date : List DT
  uWind : List (Option ℝ)
  vWind : List (Option ℝ)
  dewpoint : List (Option ℝ)

/-- Rows of a column that are kept. -/
def keepRows {α : Type} (mask : List Bool) (col : List α) : List α :=
  (col.zip mask).filterMap fun x => if x.2 then some x.1 else none

/-- One component of `get_wind_components(speed, np.deg2rad(direction))`, rounded, igra2.py:442-445. -/
noncomputable def windColumn (pick : ℝ × ℝ → ℝ) (speed direction : List (Option ℝ)) : List (Option ℝ) :=
  List.zipWith (fun s d => s.bind fun s => d.map fun d => npRound1 (pick (windComponents s (d * Real.pi / 180))))
    speed direction

/-- Rows with a value in one of six columns, `dropna(subset=..., how='all')`, igra2.py:447-449. -/
def anyValue : List (List (Option ℝ)) → ℕ → List Bool
  | cols, n => (List.range n).map fun i => cols.any fun c => match c[i]? with
    | some (some _) => true
    | _ => false

/-- The body table: `read_fwf`, the dates (`ValueError` for a wrong number of them) and `_clean_body_df`,
igra2.py:138-144, 366-387, 441-453. -/
noncomputable def readBody (body : List Char) (dates : List DT) : Except PyErr BodyTable := do
  let rows := fwfLines bodySpecs body
  let col (s : ℕ × ℕ) := rows.map (fwfField s)
  let lvltyp1 ← convColumn convInt (col (0, 1))
  let lvltyp2 ← convColumn convInt (col (1, 2))
  let etime ← convColumn (convTime "MMMSS") (col (3, 8))
  let pressure ← convColumn (cdec 2) (col (9, 15))
  let pflag ← convColumn convFlag (col (15, 16))
  let height ← convColumn convInt (col (16, 21))
  let zflag ← convColumn convFlag (col (21, 22))
  let temperature ← convColumn (cdec 1) (col (22, 27))
  let tflag ← convColumn convFlag (col (27, 28))
  let rh ← convColumn (cdec 1) (col (28, 33))
  let depression ← convColumn (cdec 1) (col (34, 39))
  let direction ← convColumn convInt (col (40, 45))
  let speed ← convColumn (cdec 1) (col (46, 51))
  if dates.length ≠ rows.length then throw .valueError
  let u := windColumn Prod.fst speed direction
  let v := windColumn Prod.snd speed direction
  let keep := anyValue [temperature, direction, speed, depression, u, v] rows.length
  let temperature := keepRows keep temperature
  let depression := keepRows keep depression
  return {
    lvltyp1 := keepRows keep lvltyp1
    lvltyp2 := keepRows keep lvltyp2
    etime := keepRows keep etime
    pressure := keepRows keep pressure
    pflag := keepRows keep pflag
    height := keepRows keep height
    zflag := keepRows keep zflag
    temperature := temperature
    tflag := keepRows keep tflag
    relativeHumidity := keepRows keep rh
    direction := keepRows keep direction
    speed := keepRows keep speed
    date := keepRows keep dates
    uWind := keepRows keep u
    vWind := keepRows keep v
    dewpoint := List.zipWith (fun t d => t.bind fun t => d.map fun d => t - d) temperature depression }

/-- `colspecs_header`, igra2.py:394-395. -/
def headerSpecs : List (ℕ × ℕ) := [(1, 12), (13, 17), (18, 20), (21, 23), (24, 26), (27, 31), (32, 36), (37, 45),
  (46, 54), (55, 62), (63, 71)]

/-- The header table; the columns without converter other than the station are left out (they cannot raise). -/
structure HeaderTable where
  siteId : List (List Char)
  releaseTime : List (Option ℝ)
  numberLevels : List (Option ℝ)
  latitude : List (Option ℝ)
  longitude : List (Option ℝ)
  date : List DT

/-- The header table, igra2.py:139, 145-146, 389-402. -/
noncomputable def readHeader (header : List Char) (dates : List DT) : Except PyErr HeaderTable := do
  let rows := fwfLines headerSpecs header
  let col (s : ℕ × ℕ) := rows.map (fwfField s)
  let release ← convColumn (convTime "HHMM") (col (27, 31))
  let levels ← convColumn convInt (col (32, 36))
  let lat ← convColumn convLatLon (col (55, 62))
  let lon ← convColumn convLatLon (col (63, 71))
  if dates.length ≠ rows.length then throw .valueError
  return {
    siteId := col (1, 12)
    releaseTime := release
    numberLevels := levels
    latitude := lat
    longitude := lon
    date := dates }

/-- `IGRAUpperAir._get_data`, igra2.py:124-148, for the lines of the file. -/
noncomputable def igraTables (b e : DT) (lines : List (List Char)) : Except PyErr (BodyTable × HeaderTable) := do
  let (body, header, datesLong, dates) ← selectDateRange b e lines
  let t ← readBody body datesLong
  let h ← readHeader header dates
  return (t, h)

end Verif.Model
