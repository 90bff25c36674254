import Verif.Py.Err
import Mathlib.Data.Rat.Defs

/-!
# Instrument frequency tables

`pyrtlib/utils.py:885-917` (`get_frequencies`) and `:948-1016` (`get_frequencies_sat`).  Frequencies are kept as exact
decimals (rationals).  Names are ASCII (`str.lower`/`str.upper` on other letters is not modelled).
-/

namespace Verif.Model

open Verif.Py

/-- The dictionary of `get_frequencies`, utils.py:894-911. -/
def groundTable : List (String × List ℚ) :=
  [("hat", [22.2400, 23.0400, 23.8400, 25.4400, 26.2400, 27.8400, 31.4000,
      51.2600, 52.2800, 53.8600, 54.9400, 56.6600, 57.3000, 58.0000]),
   ("mp3", [22.234, 22.500, 23.034, 23.834, 25.000, 26.234, 28.000, 30.000,
      51.248, 51.760, 52.280, 52.804, 53.336, 53.848, 54.400, 54.940,
      55.500, 56.020, 56.660, 57.288, 57.964, 58.800]),
   ("arm", [22.235, 23.035, 23.835, 26.235, 30.000, 51.250, 52.280, 53.850, 54.940,
      56.660, 57.290, 58.800]),
   ("tem", [51.25, 51.75, 52.25, 52.85, 53.35, 53.85, 54.40, 54.90, 55.40,
      56.00, 56.50, 57.00]),
   ("k2w", [23.8400, 31.4000, 72.5000, 82.5000, 90.0000, 150.000])]

/-- `get_frequencies(instrument)`, utils.py:885-917 -/
def getFrequencies (instrument : String) : Except PyErr (List ℚ) :=
  match groundTable.lookup instrument.toLower with
  | some l => .ok l
  | none => .error .valueError

/-- utils.py:967 -/
def cf183 : ℚ := 183.31
/-- utils.py:968 -/
def cf243 : ℚ := 243.20
/-- utils.py:969 -/
def cf325 : ℚ := 325.15
/-- utils.py:970 -/
def cf448 : ℚ := 448.00
/-- utils.py:971 -/
def cf664 : ℚ := 664.00
/-- utils.py:972 -/
def cf118 : ℚ := 118.7503
/-- utils.py:973 -/
def cf165 : ℚ := 165.5
/-- utils.py:975 -/
def cf57 : ℚ := 57.290344

/-- The branches of `get_frequencies_sat`, utils.py:979-1013. -/
def satTable : List (String × List ℚ) :=
  [("SAPHIR", [cf183-11, cf183-6.8, cf183-4.2, cf183-2.8, cf183-1.1, cf183-0.2,
      cf183+0.2, cf183+1.1, cf183+2.8, cf183+4.2, cf183+6.8, cf183+11]),
   ("AMSU", [89.0, 150.0, cf183-7.0, cf183-3.0, cf183-1.0, cf183+1.0, cf183+3.0, cf183+7.0]),
   ("ATMS", [88.2, 165.5, cf183-7.0, cf183-4.5, cf183-3.0, cf183-1.8, cf183-1.0, cf183+1.0, cf183+1.80,
      cf183+3.0, cf183+4.5, cf183+7.0]),
   ("MWI", [18.7, 23.8, 31.4, 50.3, 52.61, 53.24, 53.75, 89,
      cf118-3.2, cf118-2.1, cf118-1.4, cf118-1.2, cf118+1.2, cf118+1.4, cf118+2.1, cf118+3.2,
      cf165-0.725, cf165+0.725,
      cf183-8.4, cf183-6.1, cf183-4.9, cf183-3.4, cf183-2.0, cf183+2.0, cf183+3.4, cf183+4.9, cf183+6.1,
      cf183+8.4]),
   ("MWS", [23.8, 31.4, 50.3, 52.8,
      53.246-0.08, 53.246+0.08, 53.596-0.115, 53.596+0.115, 53.948-0.081, 53.948+0.081,
      54.4, 54.94, 55.5, cf57,
      cf57-0.217, cf57-0.217,
      cf57-0.3222-0.048, cf57-0.3222+0.048, cf57+0.3222-0.048, cf57+0.3222+0.048,
      cf57-0.3222-0.022, cf57-0.3222+0.022, cf57+0.3222-0.022, cf57+0.3222+0.022,
      cf57-0.3222-0.010, cf57-0.3222+0.010, cf57+0.3222-0.010, cf57+0.3222+0.010,
      cf57-0.3222-0.045, cf57-0.3222+0.045, cf57+0.3222-0.045, cf57+0.3222+0.045,
      89,
      cf165-0.725, cf165+0.725,
      cf183-7.0, cf183-4.5, cf183-3.0, cf183-1.8, cf183-1.0, cf183+1.0, cf183+1.8, cf183+3.0, cf183+4.5,
      cf183+7.0,
      229]),
   ("ICI", [cf183-7.0, cf183-3.4, cf183-2.0, cf183-0.2, cf183+0.2, cf183+2.0, cf183+3.4, cf183+7.0,
      cf243-2.5, cf243+2.5,
      cf325-9.5, cf325-3.5, cf325-1.5, cf325+1.5, cf325+3.5, cf325+9.5,
      cf448-7.2, cf448-3.0, cf448-1.4, cf448+1.4, cf448+3.0, cf448+7.2,
      cf664-4.2, cf664+4.2])]

/-- `get_frequencies_sat(instrument)`, utils.py:948-1016 -/
def getFrequenciesSat (instrument : String) : Except PyErr (List ℚ) :=
  match satTable.lookup instrument.toUpper with
  | some l => .ok l
  | none => .error .valueError

end Verif.Model
