import Verif.Model.Utils
import Mathlib.Analysis.SpecialFunctions.Trigonometric.Inverse

/-!
# Reading reanalysis files

`ERA5Reanalysis`, `pyrtlib/apiwebservices/erafive.py:33-196`, and `EUMETSATProduct.read_data`, `find_nearest`,
`pyrtlib/apiwebservices/eps_sandbox.py:102-182`.  A file is its dimensions, coordinate variables and data variables.
Dates are left as the numbers in the file (hours since 1900).
-/

namespace Verif.Model

open Verif.Py Real

/-- A netCDF file with dimensions time, level, latitude, longitude. -/
structure NcFile where
  ntime : ℕ
  nlev : ℕ
  nlat : ℕ
  nlon : ℕ
  /-- coordinate variables -/
  coord : String → Option (List ℝ)
  /-- data variables, indexed by time, level, latitude, longitude -/
  var : String → Option (ℕ → ℕ → ℕ → ℕ → ℝ)

/-- `nc.variables[name][:]` -/
def NcFile.getCoord (nc : NcFile) (name : String) : Except PyErr (List ℝ) :=
  match nc.coord name with
  | some v => .ok v
  | none => .error .keyError

/-- `np.asarray(nc.variables[name][:, :, i, i])`, rows are times -/
def NcFile.getVar (nc : NcFile) (name : String) (i : ℕ) : Except PyErr (List (List ℝ)) :=
  match nc.var name with
  | some v => .ok ((List.range nc.ntime).map fun a => (List.range nc.nlev).map fun b => v a b i i)
  | none => .error .keyError

/-- `np.radians` -/
noncomputable def radians (x : ℝ) : ℝ := x * π / 180

/-- The haversine metric of scikit-learn on (latitude, longitude) in radians. -/
noncomputable def haversine (a b : ℝ × ℝ) : ℝ :=
  2 * arcsin √(sin ((a.1 - b.1) / 2) ^ 2 + cos a.1 * cos b.1 * sin ((a.2 - b.2) / 2) ^ 2)

/-- A nearest-neighbour search: index of a nearest point of a nonempty list (which one among equally near ones is up
to the library). -/
def NearestSearch (ball : List (ℝ × ℝ) → ℝ × ℝ → ℕ) : Prop :=
  ∀ pts q, pts ≠ [] → ∃ p, pts[ball pts q]? = some p ∧ ∀ p' ∈ pts, haversine q p ≤ haversine q p'

/-- `_find_nearest(lons, lats, point)`, erafive.py:144-150, eps_sandbox.py:176-182: latitudes and longitudes are paired up
one by one (`np.stack` raises `ValueError` for different lengths, `BallTree` for no points); `point` is (longitude,
latitude). -/
noncomputable def findNearest (ball : List (ℝ × ℝ) → ℝ × ℝ → ℕ) (lons lats : List ℝ) (point : ℝ × ℝ) : Except PyErr ℕ :=
  if lats.length ≠ lons.length then .error .valueError
  else if lats = [] then .error .valueError
  else .ok (ball ((lats.zip lons).map fun x => (radians x.1, radians x.2)) (radians point.2, radians point.1))

/-- A table: columns with their names; `none` is a value that is not finite. -/
abbrev Frame := List (String × List (Option ℝ))

/-- `pd.DataFrame(dict)`: columns of different length raise `ValueError`. -/
def dataFrame (cols : Frame) : Except PyErr Frame :=
  if ∀ a ∈ cols, ∀ b ∈ cols, a.2.length = b.2.length then .ok cols else .error .valueError

/-- `a[0]` of an array whose rows are lists. -/
def firstRow (a : List (List ℝ)) : Except PyErr (List ℝ) :=
  match a with
  | r :: _ => .ok r
  | [] => .error .indexError

/-- `np.repeat(date, n)`: each element `n` times. -/
def repeatEach (l : List ℝ) (n : ℕ) : List ℝ := l.flatMap fun x => List.replicate n x

/-- Finite entries of a column. -/
def fin (l : List ℝ) : List (Option ℝ) := l.map some

/-- `ERA5Reanalysis.read_data(file, lonlat)`, erafive.py:69-118. -/
noncomputable def readEra (ball : List (ℝ × ℝ) → ℝ × ℝ → ℕ) (nc : NcFile) (lonlat : ℝ × ℝ) : Except PyErr Frame := do
  let lats ← nc.getCoord "latitude"
  let lons ← nc.getCoord "longitude"
  let idx ← findNearest ball lons lats lonlat
  let pres ← nc.getCoord "level"
  let temp ← nc.getVar "t" idx
  let rh := (← nc.getVar "r" idx).map fun row => row.map (· / 100)
  let clwc ← nc.getVar "clwc" idx
  let ciwc ← nc.getVar "ciwc" idx
  let crwc ← nc.getVar "crwc" idx
  let cswc ← nc.getVar "cswc" idx
  let ozone ← nc.getVar "o3" idx
  let q ← nc.getVar "q" idx
  let p := pres.reverse
  let t := (← firstRow temp).reverse
  let m := (← firstRow q).reverse
  let z := (List.range p.length).map
    (atmosphericThickness (fun i => p.getD i 0) (fun i => t.getD i 0) (some fun i => m.getD i 0))
  let date ← nc.getCoord "time"
  let rh ← firstRow rh
  let clwc ← firstRow clwc
  let ciwc ← firstRow ciwc
  let crwc ← firstRow crwc
  let cswc ← firstRow cswc
  let ozone ← firstRow ozone
  dataFrame [("p", fin p), ("z", z), ("t", fin t), ("rh", fin rh.reverse), ("clwc", fin clwc.reverse),
    ("ciwc", fin ciwc.reverse), ("crwc", fin crwc.reverse), ("cswc", fin cswc.reverse), ("o3", fin ozone.reverse),
    ("q", fin m), ("time", fin (repeatEach date pres.length))]

/-- The units attached to the table, erafive.py:107-116. -/
def eraUnits : List (String × String) := [("p", "hPa"), ("z", "km"), ("t", "K"), ("rh", "%"), ("clwc", "kg kg-1"),
  ("ciwc", "kg kg-1"), ("crwc", "kg kg-1"), ("cswc", "kg kg-1"), ("o3", "kg kg-1"), ("q", "kg kg-1")]

/-- `EUMETSATProduct.read_data(file, lonlat)`, eps_sandbox.py:117-150. -/
noncomputable def readEps (ball : List (ℝ × ℝ) → ℝ × ℝ → ℕ) (nc : NcFile) (lonlat : ℝ × ℝ) : Except PyErr Frame := do
  let lats ← nc.getCoord "latitude"
  let lons ← nc.getCoord "longitude"
  let idx ← findNearest ball lons lats lonlat
  let pres ← nc.getCoord "level"
  let temp ← nc.getVar "t" idx
  let rh := (← nc.getVar "r" idx).map fun row => row.map (· / 100)
  let clwc ← nc.getVar "clwc" idx
  let ciwc ← nc.getVar "ciwc" idx
  let crwc ← nc.getVar "crwc" idx
  let cswc ← nc.getVar "cswc" idx
  let q ← nc.getVar "q" idx
  let z := pres.map fun p => (pressureToHeight p).map (· / 1000)
  let date ← nc.getCoord "time"
  let t ← firstRow temp
  let rh ← firstRow rh
  let clwc ← firstRow clwc
  let ciwc ← firstRow ciwc
  let crwc ← firstRow crwc
  let cswc ← firstRow cswc
  let q ← firstRow q
  dataFrame [("p", fin pres.reverse), ("z", z.reverse), ("t", fin t.reverse), ("rh", fin rh.reverse),
    ("clwc", fin clwc.reverse), ("ciwc", fin ciwc.reverse), ("crwc", fin crwc.reverse), ("cswc", fin cswc.reverse),
    ("q", fin q.reverse), ("time", fin (repeatEach date z.length))]

/-- The area requested by `ERA5Reanalysis.request_data` (North, West, South, East), erafive.py:167-168. -/
def eraArea (lonlat : ℝ × ℝ) (offset : ℝ) : ℝ × ℝ × ℝ × ℝ :=
  (lonlat.2 + offset, lonlat.1 - offset, lonlat.2 - offset, lonlat.1 + offset)

end Verif.Model
