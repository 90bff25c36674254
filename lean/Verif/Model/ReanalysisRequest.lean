import Verif.Model.Endpoint
import Verif.Model.Reanalysis

/-!
# Downloading reanalysis files

`ERA5Reanalysis.request_data`, `pyrtlib/apiwebservices/erafive.py:152-196`, and `EUMETSATProduct.request_data`,
`pyrtlib/apiwebservices/eps_sandbox.py:184-206`.  The archive is a function from queries to files; the file system a function
from names to files.
-/

namespace Verif.Model

open Verif.Py

/-- A `datetime` without time zone. -/
structure Moment where
  year : ℕ
  month : ℕ
  day : ℕ
  hour : ℕ
  minute : ℕ
  second : ℕ
  micro : ℕ
deriving DecidableEq

/-- `'{:06d}'`. -/
def sixDigits (n : ℕ) : List Char := twoDigits (n / 10000) ++ twoDigits (n / 100) ++ twoDigits n

/-- `datetime.isoformat()`: microseconds are left out if zero. -/
def isoformat (t : Moment) : List Char :=
  fourDigits t.year ++ ('-' :: twoDigits t.month) ++ ('-' :: twoDigits t.day) ++ ('T' :: twoDigits t.hour) ++
    (':' :: twoDigits t.minute) ++ (':' :: twoDigits t.second) ++ (if t.micro = 0 then [] else '.' :: sixDigits t.micro)

/-- The path of the file, erafive.py:169-170, eps_sandbox.py:201-202. -/
def eraFile (path : List Char) (t : Moment) : List Char :=
  posixJoin path ("era5_reanalysis-".toList ++ isoformat t ++ ".nc".toList)

/-- erafive.py:172-173. -/
def eraVariables : List String := ["relative_humidity", "specific_cloud_ice_water_content",
  "specific_cloud_liquid_water_content", "specific_humidity", "specific_rain_water_content", "specific_snow_water_content",
  "ozone_mass_mixing_ratio", "temperature"]

/-- erafive.py:180-185 (texts of these numbers). -/
def eraLevels : List ℕ := [1, 2, 3, 5, 7, 10, 20, 30, 50, 70, 100, 125, 150, 175, 200, 225, 250, 300, 350, 400, 450, 500, 550,
  600, 650, 700, 750, 775, 800, 825, 850, 875, 900, 925, 950, 975, 1000]

/-- The arguments of `retrieve` that are not constants, with variables and levels. -/
structure EraQuery where
  names : List String
  levels : List ℕ
  year : ℕ
  month : ℕ
  day : ℕ
  /-- the number in front of `:00` -/
  hour : ℕ
  /-- North, West, South, East -/
  area : ℝ × ℝ × ℝ × ℝ
  grid : ℝ × ℝ

/-- The query, erafive.py:175-194. -/
noncomputable def eraQuery (t : Moment) (lonlat : ℝ × ℝ) (resolution offset : ℝ) : EraQuery :=
  ⟨eraVariables, eraLevels, t.year, t.month, t.day, t.hour, eraArea lonlat offset, (resolution, resolution)⟩

/-- Names to files. -/
abbrev FileSystem := List Char → Option NcFile

/-- Writing a file. -/
def FileSystem.write (fs : FileSystem) (name : List Char) (c : NcFile) : FileSystem :=
  fun n => if n = name then some c else fs n

/-- `ERA5Reanalysis.request_data`, erafive.py:167-196.  (An archive that refuses leaves no file.) -/
noncomputable def eraRequest (archive : EraQuery → Except PyErr NcFile) (fs : FileSystem) (path : List Char) (t : Moment)
    (lonlat : ℝ × ℝ) (resolution offset : ℝ) : FileSystem × Except PyErr (List Char) :=
  match archive (eraQuery t lonlat resolution offset) with
  | .error x => (fs, .error x)
  | .ok c => (fs.write (eraFile path t) c, .ok (eraFile path t))

/-- `EUMETSATProduct.request_data`, eps_sandbox.py:198-206: nothing is downloaded. -/
def epsRequest (fs : FileSystem) (path : List Char) (t : Moment) : FileSystem × Except PyErr (List Char) :=
  (fs, .ok (eraFile path t))

/-- `ERA5Reanalysis.read_data(file, lonlat)` of a file on disk, erafive.py:69-118; `FileNotFoundError` is `other`. -/
noncomputable def readEraFile (ball : List (ℝ × ℝ) → ℝ × ℝ → ℕ) (fs : FileSystem) (name : List Char) (lonlat : ℝ × ℝ) :
    Except PyErr Frame :=
  match fs name with
  | none => .error .other
  | some nc => readEra ball nc lonlat

end Verif.Model
