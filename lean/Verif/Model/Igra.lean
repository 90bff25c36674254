import Verif.Py.Str
import Mathlib.Data.Prod.Lex
import Mathlib.Analysis.SpecialFunctions.Trigonometric.Basic

/-!
# Radiosonde archive files (pyrtlib/apiwebservices/igra2.py)

A file is the list of its lines.  The functions below work on the text before it is handed to pandas.
-/

namespace Verif.Model

open Verif.Py

/-- A `datetime`: year, month, day, hour and microseconds past the hour, in lexicographic order. -/
abbrev DT := ℕ ×ₗ ℕ ×ₗ ℕ ×ₗ ℕ ×ₗ ℕ

def mkDT (y m d h us : ℕ) : DT := toLex (y, toLex (m, toLex (d, toLex (h, us))))

/-- Days in a month of the proleptic Gregorian calendar (month 1–12). -/
def daysIn (y m : ℕ) : ℕ :=
  if m = 2 then (if y % 4 = 0 ∧ (y % 100 ≠ 0 ∨ y % 400 = 0) then 29 else 28)
  else if m = 4 ∨ m = 6 ∨ m = 9 ∨ m = 11 then 30 else 31

/-- `datetime(year, month, day, hour)`; `ValueError` out of range. -/
def datetime (y m d h : ℤ) : Except PyErr DT :=
  if 1 ≤ y ∧ y ≤ 9999 ∧ 1 ≤ m ∧ m ≤ 12 ∧ 1 ≤ d ∧ d ≤ daysIn y.toNat m.toNat ∧ 0 ≤ h ∧ h ≤ 23 then
    .ok (mkDT y.toNat m.toNat d.toNat h.toNat 0)
  else .error .valueError

/-- The date of a header line, igra2.py:191-197: four integers in columns 13–25; if the hour is not valid, midnight. -/
def headerDate (line : List Char) : Except PyErr DT := do
  let xs ← (splitWs (slice line 13 26)).mapM pyInt
  match xs with
  | [y, m, d, h] =>
    match datetime y m d h with
    | .ok t => pure t
    | .error _ => datetime y m d 0
  | _ => .error .valueError

/-- The number of levels of a header line, igra2.py:202. -/
def headerLevels (line : List Char) : Except PyErr ℤ := pyInt (slice line 32 36)

/-- The loop over the lines, igra2.py:189-205: index, number of levels and date of each header in the range, up to the
first header after the range (the three lists of the code are kept as one list of triples). -/
def scanLines (b e : DT) : ℕ → List (List Char) → List (ℕ × ℤ × DT) → Except PyErr (List (ℕ × ℤ × DT))
  | _, [], acc => .ok acc
  | _, [] :: _, _ => .error .indexError
  | idx, (c :: cs) :: ls, acc =>
    if c = '#' then do
      let date ← headerDate (c :: cs)
      let acc ← if b ≤ date ∧ date ≤ e then do
          let n ← headerLevels (c :: cs)
          pure (acc ++ [(idx, n, date)])
        else pure acc
      if e < date then pure acc else scanLines b e (idx + 1) ls acc
    else scanLines b e (idx + 1) ls acc

/-- A slice bound `i` of an array of length `n`. -/
def sliceBound (n : ℕ) (i : ℤ) : ℕ := if i < 0 then (i + n).toNat else min i.toNat n

/-- `itertools.compress(lines, selector)`, counting from `k`. -/
def compress (sel : ℕ → Bool) : ℕ → List (List Char) → List (List Char)
  | _, [] => []
  | k, l :: ls => if sel k then l :: compress sel (k + 1) ls else compress sel (k + 1) ls

/-- `np.repeat(dates, num_lev)`; `ValueError` for a negative count. -/
def npRepeat (xs : List (DT × ℤ)) : Except PyErr (List DT) :=
  if ∀ x ∈ xs, 0 ≤ x.2 then .ok (xs.flatMap fun x => List.replicate x.2.toNat x.1) else .error .valueError

/-- `IGRAUpperAir._select_date_range`, igra2.py:175-228: text of the body, text of the headers, dates repeated for
every body line, dates.  `headers` is nonempty and increasing, so that its minimum and maximum are its first and last
element; they are computed as such. -/
def selectDateRange (b e : DT) (lines : List (List Char)) :
    Except PyErr (List Char × List Char × List DT × List DT) := do
  let found ← scanLines b e 0 lines []
  match found with
  | [] => .error .valueError
  | f :: fs =>
    let last := (f :: fs).getLast (by simp)
    let beginIdx := f.1
    let endIdx : ℤ := last.1 + last.2.1
    let lo := sliceBound lines.length beginIdx
    let hi := sliceBound lines.length (endIdx + 1)
    let inside : ℕ → Bool := fun k => decide (lo ≤ k ∧ k < hi)
    let isHead : ℕ → Bool := fun k => decide (k ∈ (f :: fs).map Prod.fst)
    let body := (compress (fun k => inside k && !isHead k) 0 lines).flatten
    let header := (compress (fun k => inside k && isHead k) 0 lines).flatten
    let long ← npRepeat ((f :: fs).map fun x => (x.2.2, x.2.1))
    pure (body, header, long, (f :: fs).map fun x => x.2.2)

/-- `_ctime(strformat)`, igra2.py:253-275: seconds (`none` is `nan`). -/
def ctime (fmt : String) (val : List Char) : Except PyErr (Option ℤ) := do
  let time := zfill 5 (strip val)
  let t ← pyInt time
  if t < 0 then pure none
  else if t = 9999 then pure none
  else if fmt = "MMMSS" then
    let minutes ← pyInt (slice time 0 3)
    let seconds ← pyInt (slice time 3 5)
    pure (some (minutes * 60 + seconds))
  else if fmt = "HHMM" then
    let hours ← pyInt (slice time 0 2)
    let minutes ← pyInt (slice time 2 4)
    pure (some (hours * 3600 + minutes * 60))
  else .error .systemExit

/-- `s[0:n - 4]` for `n = len(s)`. -/
def headSlice (s : List Char) : List Char := s.take (sliceBound s.length ((s.length : ℤ) - 4))

/-- `s[n - 4:]` for `n = len(s)`. -/
def tailSlice (s : List Char) : List Char := s.drop (sliceBound s.length ((s.length : ℤ) - 4))

/-- `_clatlon(x)`, igra2.py:277-281. -/
noncomputable def clatlon (x : List Char) : Except PyErr ℝ := pyFloat (headSlice x ++ '.' :: tailSlice x)

/-- `_cdec(power)`, igra2.py:235-242 (`none` is `nan`). -/
noncomputable def cdec (power : ℕ) (val : List Char) : Except PyErr (Option ℝ) :=
  if val ∈ ["-9999".toList, "-8888".toList, "-99999".toList] then .ok none
  else (pyFloat val).map fun x => some (x / 10 ^ power)

/-- `_cflag(val)`, igra2.py:244-251. -/
def cflag (val : List Char) : ℕ := if val = ['A'] then 1 else if val = ['B'] then 2 else 0

/-- `get_wind_components(speed, wdir)`, igra2.py:28-45. -/
noncomputable def windComponents (speed wdir : ℝ) : ℝ × ℝ := (-speed * Real.sin wdir, -speed * Real.cos wdir)

/-- The folder and suffix chosen by `IGRAUpperAir.request_data`, igra2.py:100-110. -/
def folderSuffix (beg2021 derived : Bool) : String × String :=
  let fs := if beg2021 then ("data-y2d/", "" ++ "-data-beg2021.txt") else ("data-por/", "" ++ "-data.txt")
  if derived then ("derived-por/", fs.2 ++ "-drvd.txt") else fs

/-- The path requested, igra2.py:156. -/
def requestPath (site : String) (beg2021 derived : Bool) : String :=
  (folderSuffix beg2021 derived).1 ++ site ++ (folderSuffix beg2021 derived).2 ++ ".zip"

/-- Whether the columns of derived soundings are read, igra2.py:283 (also `:417`, `:469`). -/
def readsDerived (beg2021 derived : Bool) : Bool := (folderSuffix beg2021 derived).2 = "-drvd.txt"

end Verif.Model
