import Verif.Model.IgraTable

/-!
# Soundings of the Wyoming archive (pyrtlib/apiwebservices/wyomingupperair.py:139-188)

The two preformatted texts of the reply are taken as given (the extraction by BeautifulSoup is not modelled).
`pandas.read_csv` with `delim_whitespace` is modelled as documented: the first five lines are skipped, then lines without a
word; the words of a line are its fields; missing fields at the end of a line are missing values; a column is numeric when
all its words are numbers.
-/

namespace Verif.Model

open Verif.Py

/-- The words of the lines after the first five, `skiprows=5, delim_whitespace=True`, wyomingupperair.py:147. -/
def csvRows (text : List Char) : List (List (List Char)) :=
  (((textLines text).drop 5).map splitWs).filter fun r => !r.isEmpty

/-- Words that pandas takes as missing. -/
def csvMissing : List (List Char) :=
  ["#N/A", "#N/A N/A", "#NA", "-1.#IND", "-1.#QNAN", "-NaN", "-nan", "1.#IND", "1.#QNAN", "<NA>", "N/A", "NA", "NULL", "NaN",
    "None", "n/a", "nan", "null"].map String.toList

/-- A column of a table: numbers, or text when some word is not a number. -/
inductive CsvColumn where
  | numbers (xs : List (Option ℝ))
  | texts (ws : List (Option (List Char)))

/-- Whether the values of a column are present. -/
def CsvColumn.present : CsvColumn → List Bool
  | .numbers xs => xs.map Option.isSome
  | .texts ws => ws.map Option.isSome

/-- The selected rows of a column. -/
def CsvColumn.keep (m : List Bool) : CsvColumn → CsvColumn
  | .numbers xs => .numbers (keepRows m xs)
  | .texts ws => .texts (keepRows m ws)

/-- A word as a number. -/
noncomputable def csvCell : Option (List Char) → Except PyErr (Option ℝ)
  | none => .ok none
  | some w => (pyFloat w).map some

/-- The type of a column is inferred from its words. -/
noncomputable def csvColumn (ws : List (Option (List Char))) : CsvColumn :=
  let ws := ws.map fun w => w.filter fun w => w ∉ csvMissing
  match ws.mapM csvCell with
  | .ok xs => .numbers xs
  | .error _ => .texts ws

/-- The six columns that are used, wyomingupperair.py:143-147; no line with six words raises (`ParserError` and
`EmptyDataError` are `ValueError`s). -/
noncomputable def csvTable (text : List Char) : Except PyErr (List CsvColumn) :=
  let rows := csvRows text
  if rows.all fun r => r.length < 6 then .error .valueError
  else .ok ((List.range 6).map fun i => csvColumn (rows.map fun r => r[i]?))

/-- `s.split(':')`. -/
def splitColon : List Char → List (List Char)
  | [] => [[]]
  | c :: cs =>
    if c = ':' then [] :: splitColon cs
    else match splitColon cs with
      | [] => [[c]]
      | w :: ws => (c :: w) :: ws

/-- `a in s` for strings. -/
def isInfix (a : List Char) : List Char → Bool
  | [] => a.isEmpty
  | c :: cs => a.isPrefixOf (c :: cs) || isInfix a cs

/-- `s.splitlines()` (line feeds only). -/
def splitLines (s : List Char) : List (List Char) := (textLines s).map fun l => l.filter (· ≠ '\n')

/-- `lines[i].split(':')[1].strip()`. -/
def metaField (lines : List (List Char)) (i : ℕ) : Except PyErr (List Char) :=
  match lines[i]? with
  | none => .error .indexError
  | some l => match (splitColon l)[1]? with
    | none => .error .indexError
    | some w => .ok (strip w)

/-- `datetime.strptime(s, '%y%m%d/%H%M')` for fields of two digits; other strings raise (Python also takes single digits
for all but the year).  Years 69 to 99 belong to the twentieth century. -/
def strptimeShort (s : List Char) : Except PyErr DT :=
  if s.length ≠ 11 ∨ s[6]? ≠ some '/' then .error .valueError
  else match natOf (slice s 0 2), natOf (slice s 2 4), natOf (slice s 4 6), natOf (slice s 7 9), natOf (slice s 9 11) with
    | some y, some m, some d, some hh, some mm =>
      let y := if 69 ≤ y then 1900 + y else 2000 + y
      if 1 ≤ m ∧ m ≤ 12 ∧ 1 ≤ d ∧ d ≤ daysIn y m ∧ hh ≤ 23 ∧ mm ≤ 59 then .ok (mkDT y m d hh (mm * 60000000))
      else .error .valueError
    | _, _, _, _, _ => .error .valueError

/-- What is known about a sounding as a whole. -/
structure WyomingMeta where
  station : List Char
  stationNumber : ℤ
  time : DT
  latitude : ℝ
  longitude : ℝ
  elevation : ℝ

/-- The second text of the reply, wyomingupperair.py:151-165. -/
noncomputable def wyomingMeta (text : List Char) : Except PyErr WyomingMeta := do
  let lines := splitLines text
  let second ← (match lines[1]? with
    | none => .error .indexError
    | some l => .ok l)
  let lines := if isInfix "Station number".toList second then lines.insertIdx 1 "Station identifier: ".toList else lines
  let station ← metaField lines 1
  let number ← pyInt (← metaField lines 2)
  let time ← strptimeShort (← metaField lines 3)
  let latitude ← pyFloat (← metaField lines 4)
  let longitude ← pyFloat (← metaField lines 5)
  let elevation ← pyFloat (← metaField lines 6)
  return {
    station := station
    stationNumber := number
    time := time
    latitude := latitude
    longitude := longitude
    elevation := elevation }

/-- The table returned for a sounding: the columns `pressure, height, temperature, dewpoint, rh, mixr`, and the columns
that repeat one value. -/
structure WyomingTable where
  columns : List CsvColumn
  info : WyomingMeta

/-- `WyomingUpperAir._get_data`, wyomingupperair.py:139-188: rows need temperature and dew point. -/
noncomputable def wyomingTable (table info : List Char) : Except PyErr WyomingTable := do
  let cols ← csvTable table
  let keep ← (match cols[2]?, cols[3]? with
    | some t, some d => .ok (List.zipWith (fun a b => a && b) t.present d.present)
    | _, _ => .error .keyError)
  let m ← wyomingMeta info
  return ⟨cols.map fun c => c.keep keep, m⟩

end Verif.Model
