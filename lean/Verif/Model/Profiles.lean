import Verif.Model.TablesAtmosphere
import Verif.Model.Utils

/-!
# Built-in atmospheres

`AtmosphericProfiles`, `pyrtlib/climatology/atmospheric_profiles.py`.
-/

namespace Verif.Model

open Verif.Py

/-- Identifiers `TROPICAL` … `US_STANDARD` and the names `atm_profiles()` gives them, atmospheric_profiles.py:49-54,
110-115. -/
def atmNames : List (ℤ × String) := [(0, "Tropical"), (1, "Midlatitude Summer"), (2, "Midlatitude Winter"),
  (3, "Subarctic Summer"), (4, "Subarctic Winter"), (5, "US Standard")]

/-- Identifiers of the gases, atmospheric_profiles.py:56-101, with their names. -/
def gasNames : List (ℤ × String) := [(0, "H2O"), (1, "CO2"), (2, "O3"), (3, "N2O"), (4, "CO"), (5, "CH4"), (6, "O2"),
  (7, "NO"), (8, "SO2"), (9, "NO2"), (10, "NH3"), (11, "HNO3"), (12, "OH"), (13, "HF"), (14, "HCL"), (15, "HBR"),
  (16, "HI"), (17, "CLO"), (18, "OCS"), (19, "H2CO"), (20, "HOCL"), (21, "N2"), (22, "HCN"), (23, "CH3CL"),
  (24, "H2O2"), (25, "C2H2"), (26, "C2H6"), (27, "PH3"), (28, "COF2"), (29, "SF6"), (30, "H2S"), (31, "CCL3F"),
  (32, "CCL2F2"), (33, "CCLF3"), (34, "CF4"), (35, "CHCl2F"), (36, "CHCLF2"), (37, "C2CL3F3"), (38, "C2CL2F4"),
  (39, "C2CLF5"), (40, "CCL4"), (41, "CLONO2"), (42, "N2O5"), (43, "HNO4"), (99, "AIR")]

/-- `mtx[:, i]`: negative indices count from the end, others out of range raise `IndexError`. -/
def colAt (mtx : List Col) (i : ℤ) : Except PyErr Col :=
  if 0 ≤ i then (match mtx[i.toNat]? with | some c => .ok c | none => .error .indexError)
  else if 0 ≤ i + mtx.length then (match mtx[(i + mtx.length).toNat]? with | some c => .ok c | none => .error .indexError)
  else .error .indexError

/-- What `gl_atm` returns: altitude (km), pressure (mbar), density (cm⁻³), temperature (K), and the columns of the
matrix of molecular densities (ppmv). -/
structure Atmosphere where
  a : Col
  p : Col
  d : Col
  t : Col
  md : List Col

/-- The choice of file in `gl_atm`, atmospheric_profiles.py:171-210: no branch, then `mtx` is unbound. -/
def atmFile (atm : ℤ) : Except PyErr (List Col) :=
  let option := atm + 1
  if option = 1 then .ok atmTropical
  else if option = 2 then .ok atmMidSummer
  else if option = 3 then .ok atmMidWinter
  else if option = 4 then .ok atmSubSummer
  else if option = 5 then .ok atmSubWinter
  else if option = 6 then .ok atmStandard
  else .error .unboundLocalError

/-- `AtmosphericProfiles.gl_atm(atm)`, atmospheric_profiles.py:170-237. -/
def glAtm (atm : ℤ) : Except PyErr Atmosphere := do
  let mtx ← atmFile atm
  let a ← colAt mtx 0
  let p ← colAt mtx 1
  let t ← colAt mtx 3
  let d ← colAt mtx 2
  let g1 ← colAt mtx 4
  let g2 ← colAt mtx 5
  let g3 ← colAt mtx 6
  let g4 ← colAt mtx 7
  let g5 ← colAt mtx 8
  let g6 ← colAt mtx 9
  let g7 ← colAt mtx 10
  return ⟨a, p, d, t, [g1, g2, g3, g4, g5, g6, g7]⟩

/-- `AtmosphericProfiles.gl_atm_minor(gas)`, atmospheric_profiles.py:263-272. -/
def glAtmMinor (gas : ℤ) : Except PyErr Col := colAt gasMinor (gas - 7)

/-- `AtmosphericProfiles.gl_atm_trace(gas)`, atmospheric_profiles.py:321-340. -/
def glAtmTrace (gas : ℤ) : Except PyErr Col := colAt gasTrace (gas - 28)

end Verif.Model
