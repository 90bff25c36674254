import Verif.Model.Weighting
import Verif.Model.Utils

/-!
# Climatology: ITU-R P.835-6 reference atmospheres and profile extrapolation

`pyrtlib/climatology/extrapolation.py`.  The atmosphere functions act elementwise and are modelled on one height;
`none` stands for `np.nan` (or another non-finite value).
-/

namespace Verif.Model

open Verif.Py Real

open Classical

/-- Geopotential height `h_p`, extrapolation.py:368, :399 (not finite at `h = -6356.766`). -/
noncomputable def geopot (h : ℝ) : Option ℝ := npDiv (6356.766 * h) (6356.766 + h)

/-- `_ITU835_6.standard_temperature(h, T_0)`, extrapolation.py:364-392.  The argument `T_0` is not used. -/
noncomputable def stdTemperature (h _T0 : ℝ) : Option ℝ :=
  (geopot h).bind fun hp =>
    if hp ≤ 11 then some (288.15 - 6.5 * hp)
    else if 11 < hp ∧ hp ≤ 20 then some 216.65
    else if 20 < hp ∧ hp ≤ 32 then some (216.65 + (hp - 20))
    else if 32 < hp ∧ hp ≤ 47 then some (228.65 + 2.8 * (hp - 32))
    else if 47 < hp ∧ hp ≤ 51 then some 270.65
    else if 51 < hp ∧ hp ≤ 71 then some (270.65 - 2.8 * (hp - 51))
    else if 71 < hp ∧ hp ≤ 84.852 then some (214.65 - 2.0 * (hp - 71))
    else if 86 ≤ h ∧ h ≤ 91 then some 186.8673
    else if 91 < h ∧ h ≤ 100 then
      (npSqrt (1 - ((h - 91) / 19.9429) ^ 2)).map fun s => 263.1905 - 76.3232 * s
    else some 195.08134

/-- `_ITU835_6.standard_pressure(h, T_0, P_0)`, extrapolation.py:395-429.  `T_0` and `P_0` are not used. -/
noncomputable def stdPressure (h _T0 _P0 : ℝ) : Option ℝ :=
  (geopot h).bind fun hp =>
    if hp ≤ 11 then
      (npDiv 288.15 (288.15 - 6.5 * hp)).map fun q => 1013.25 * q ^ ((-34.1632 / 6.5 : ℝ))
    else if 11 < hp ∧ hp ≤ 20 then some (226.3226 * exp (-34.1632 * (hp - 11) / 216.65))
    else if 20 < hp ∧ hp ≤ 32 then
      (npDiv 216.65 (216.65 + (hp - 20))).map fun q => 54.74980 * q ^ (34.1632 : ℝ)
    else if 32 < hp ∧ hp ≤ 47 then
      (npDiv 228.65 (228.65 + 2.8 * (hp - 32))).map fun q => 8.680422 * q ^ ((34.1632 / 2.8 : ℝ))
    else if 47 < hp ∧ hp ≤ 51 then some (1.109106 * exp (-34.1632 * (hp - 47) / 270.65))
    else if 51 < hp ∧ hp ≤ 71 then
      (npDiv 270.65 (270.65 - 2.8 * (hp - 51))).map fun q => 0.6694167 * q ^ ((-34.1632 / 2.8 : ℝ))
    else if 71 < hp ∧ hp ≤ 84.852 then
      (npDiv 214.65 (214.65 - 2.0 * (hp - 71))).map fun q => 0.03956649 * q ^ ((-34.1632 / 2.0 : ℝ))
    else if 86 ≤ h ∧ h ≤ 100 then
      some (exp (95.571899 - 4.011801 * h + 6.424731e-2 * h ^ 2 - 4.789660e-4 * h ^ 3 + 1.340543e-6 * h ^ 4))
    else some 1e-62

/-- `_ITU835_6.standard_water_vapour_density(h, h_0, rho_0)`, extrapolation.py:432-436. -/
noncomputable def stdVapour (h h0 rho0 : ℝ) : Option ℝ := (npDiv (-h) h0).map fun q => rho0 * exp q

/-- `_ITU835_6.standard_water_vapour_pressure(h, h_0, rho_0)`, extrapolation.py:438-444. -/
noncomputable def stdVapourPressure (h h0 rho0 : ℝ) : Option ℝ :=
  (stdVapour h h0 rho0).bind fun rho => (stdTemperature h 288.15).map fun t => rho * t / 216.7

/-- `low_latitude_temperature`, extrapolation.py:448-457. -/
noncomputable def lowTemperature (h : ℝ) : Option ℝ :=
  if 0 ≤ h ∧ h < 17 then some (300.4222 - 6.3533 * h + 0.005886 * h ^ 2)
  else if 17 ≤ h ∧ h < 47 then some (194 + (h - 17) * 2.533)
  else if 47 ≤ h ∧ h < 52 then some 270
  else if 52 ≤ h ∧ h < 80 then some (270 - (h - 52) * 3.0714)
  else if 80 ≤ h ∧ h ≤ 100 then some 184 else some 184

/-- The common shape of the pressure functions, extrapolation.py:459-468, :493-505, :528-537, :561-570, :592-601: a
quadratic up to 10 km, then two exponentials. -/
noncomputable def ituPressure (a b c p10 r1 p72 r2 h : ℝ) : Option ℝ :=
  if 0 ≤ h ∧ h ≤ 10 then some (a - b * h + c * h ^ 2)
  else if 10 < h ∧ h ≤ 72 then some (p10 * exp (-r1 * (h - 10)))
  else if 72 < h ∧ h ≤ 100 then some (p72 * exp (-r2 * (h - 72)))
  else none

/-- `low_latitude_pressure`, extrapolation.py:459-468. -/
noncomputable def lowPressure : ℝ → Option ℝ :=
  ituPressure 1012.0306 109.0338 3.6316 284.8526 0.147 0.0313660 0.165

/-- `low_latitude_water_vapour`, extrapolation.py:471-475. -/
noncomputable def lowVapour (h : ℝ) : ℝ :=
  if 0 ≤ h ∧ h ≤ 15 then
    19.6542 * exp (-0.2313 * h - 0.1122 * h ^ 2 + 0.01351 * h ^ 3 - 0.0005923 * h ^ 4) else 0

/-- `mid_latitude_temperature_summer`, extrapolation.py:479-491. -/
noncomputable def midTemperatureSummer (h : ℝ) : Option ℝ :=
  if 0 ≤ h ∧ h < 13 then some (294.9838 - 5.2159 * h - 0.07109 * h ^ 2)
  else if 13 ≤ h ∧ h < 17 then some 215.15
  else if 17 ≤ h ∧ h < 47 then some (215.15 * exp ((h - 17) * 0.008128))
  else if 47 ≤ h ∧ h < 53 then some 275
  else if 53 ≤ h ∧ h < 80 then some (275 + 20 * (1 - exp ((h - 53) * 0.06)))
  else if 80 ≤ h ∧ h ≤ 100 then some 175 else none

/-- `mid_latitude_pressure_summer`, extrapolation.py:493-505. -/
noncomputable def midPressureSummer : ℝ → Option ℝ :=
  ituPressure 1012.8186 111.5569 3.8646 283.7096 0.147 0.03124022 0.165

/-- `mid_latitude_water_vapour_summer`, extrapolation.py:508-512. -/
noncomputable def midVapourSummer (h : ℝ) : ℝ :=
  if 0 ≤ h ∧ h ≤ 15 then 14.3542 * exp (-0.4174 * h - 0.02290 * h ^ 2 + 0.001007 * h ^ 3) else 0

/-- `mid_latitude_temperature_winter`, extrapolation.py:515-526. -/
noncomputable def midTemperatureWinter (h : ℝ) : Option ℝ :=
  if 0 ≤ h ∧ h < 10 then some (272.7241 - 3.6217 * h - 0.1759 * h ^ 2)
  else if 10 ≤ h ∧ h < 33 then some 218
  else if 33 ≤ h ∧ h < 47 then some (218 + (h - 33) * 3.3571)
  else if 47 ≤ h ∧ h < 53 then some 265
  else if 53 ≤ h ∧ h < 80 then some (265 - (h - 53) * 2.0370)
  else if 80 ≤ h ∧ h ≤ 100 then some 210 else none

/-- `mid_latitude_pressure_winter`, extrapolation.py:528-537. -/
noncomputable def midPressureWinter : ℝ → Option ℝ :=
  ituPressure 1018.8627 124.2954 4.8307 258.9787 0.147 0.02851702 0.155

/-- `mid_latitude_water_vapour_winter`, extrapolation.py:540-544. -/
noncomputable def midVapourWinter (h : ℝ) : ℝ :=
  if 0 ≤ h ∧ h ≤ 10 then 3.4742 * exp (-0.2697 * h - 0.03604 * h ^ 2 + 0.0004489 * h ^ 3) else 0

/-- `high_latitude_temperature_summer`, extrapolation.py:548-559. -/
noncomputable def highTemperatureSummer (h : ℝ) : Option ℝ :=
  if 0 ≤ h ∧ h < 10 then some (286.8374 - 4.7805 * h - 0.1402 * h ^ 2)
  else if 10 ≤ h ∧ h < 23 then some 225
  else if 23 ≤ h ∧ h < 48 then some (225 * exp ((h - 23) * 0.008317))
  else if 48 ≤ h ∧ h < 53 then some 277
  else if 53 ≤ h ∧ h < 79 then some (277 - (h - 53) * 4.0769)
  else if 79 ≤ h ∧ h ≤ 100 then some 171 else none

/-- `high_latitude_pressure_summer`, extrapolation.py:561-570. -/
noncomputable def highPressureSummer : ℝ → Option ℝ :=
  ituPressure 1008.0278 113.2494 3.9408 269.6138 0.140 0.04582115 0.165

/-- `high_latitude_water_vapour_summer`, extrapolation.py:573-577. -/
noncomputable def highVapourSummer (h : ℝ) : ℝ :=
  if 0 ≤ h ∧ h ≤ 15 then 8.988 * exp (-0.3614 * h - 0.005402 * h ^ 2 - 0.001955 * h ^ 3) else 0

/-- `high_latitude_temperature_winter`, extrapolation.py:580-590. -/
noncomputable def highTemperatureWinter (h : ℝ) : Option ℝ :=
  if 0 ≤ h ∧ h < 8.5 then some (257.4345 + 2.3474 * h - 1.5479 * h ^ 2 + 0.08473 * h ^ 3)
  else if 8.5 ≤ h ∧ h < 30 then some 217.5
  else if 30 ≤ h ∧ h < 50 then some (217.5 + (h - 30) * 2.125)
  else if 50 ≤ h ∧ h < 54 then some 260
  else if 54 ≤ h ∧ h ≤ 100 then some (260 - (h - 54) * 1.667) else none

/-- `high_latitude_pressure_winter`, extrapolation.py:592-601. -/
noncomputable def highPressureWinter : ℝ → Option ℝ :=
  ituPressure 1010.8828 122.2411 4.554 243.8718 0.147 0.02685355 0.150

/-- `high_latitude_water_vapour_winter`, extrapolation.py:604-608. -/
noncomputable def highVapourWinter (h : ℝ) : ℝ :=
  if 0 ≤ h ∧ h ≤ 10 then 1.2319 * exp (0.07481 * h - 0.0981 * h ^ 2 + 0.00281 * h ^ 3) else 0

/-- `_ITU835_6.temperature(lat, h, season)`, extrapolation.py:610-626. -/
noncomputable def ituTemperature (lat h : ℝ) (season : String) : Except PyErr (Option ℝ) :=
  if season = "summer" then
    .ok (if |lat| < 22 then lowTemperature h
      else if |lat| < 45 then midTemperatureSummer h else highTemperatureSummer h)
  else if season = "winter" then
    .ok (if |lat| < 22 then lowTemperature h
      else if |lat| < 45 then midTemperatureWinter h else highTemperatureWinter h)
  else .error .valueError

/-- `_ITU835_6.pressure(lat, h, season)`, extrapolation.py:628-644. -/
noncomputable def ituPressureAt (lat h : ℝ) (season : String) : Except PyErr (Option ℝ) :=
  if season = "summer" then
    .ok (if |lat| < 22 then lowPressure h
      else if |lat| < 45 then midPressureSummer h else highPressureSummer h)
  else if season = "winter" then
    .ok (if |lat| < 22 then lowPressure h
      else if |lat| < 45 then midPressureWinter h else highPressureWinter h)
  else .error .valueError

/-- `_ITU835_6.water_vapour_density(lat, h, season)`, extrapolation.py:646-662. -/
noncomputable def ituVapour (lat h : ℝ) (season : String) : Except PyErr (Option ℝ) :=
  if season = "summer" then
    .ok (some (if |lat| < 22 then lowVapour h
      else if |lat| < 45 then midVapourSummer h else highVapourSummer h))
  else if season = "winter" then
    .ok (some (if |lat| < 22 then lowVapour h
      else if |lat| < 45 then midVapourWinter h else highVapourWinter h))
  else .error .valueError

/-- `_get_season(lat, month)`, extrapolation.py:278-295. -/
noncomputable def getSeason (lat : ℝ) (month : ℤ) : String :=
  if (lat > 20 ∧ month ∈ [6, 7, 8]) ∨ (lat < -20 ∧ month ∈ [1, 2, 12]) then "summer"
  else if (lat > 20 ∧ month ∈ [1, 2, 12]) ∨ (lat < -20 ∧ month ∈ [6, 7, 8]) then "winter"
  else "standard"

/-- `np.linspace(a, b, n + 2)` -/
noncomputable def linspace (a b : ℝ) (n : ℕ) : List ℝ :=
  (List.range (n + 2)).map fun i : ℕ => a + (i : ℝ) * ((b - a) / (n + 1))

/-- The height vector of a new object, extrapolation.py:33-35. -/
noncomputable def defaultHeights : List ℝ := linspace 0 25 24 ++ linspace 27.5 50 8 ++ linspace 55 100 8

/-- `ProfileExtrapolation(mode)`, extrapolation.py:17-37: the new object's heights. -/
noncomputable def extrapNew (mode : String) : Except PyErr (List ℝ) :=
  if mode = "ITU-Annex1" then .ok defaultHeights else .error .valueError

/-- The `height` setter, extrapolation.py:44-50; `none`: the argument is not an array. -/
def setHeights (H : List ℝ) (v : Option (List ℝ)) : Except PyErr Unit × List ℝ :=
  match v with
  | some h => (.ok (), h)
  | none => (.error .valueError, H)

/-- `np.arange(a, b, s)` for `0 < s`. -/
noncomputable def npArange (a b s : ℝ) : List ℝ :=
  (List.range ⌈(b - a) / s⌉₊).map fun i : ℕ => a + (i : ℝ) * s

/-- What `profile_extrapolation` returns; `none`: not a finite number. -/
structure Extrapolated where
  height : List ℝ
  pres : List (Option ℝ)
  temp : List (Option ℝ)
  rh : List (Option ℝ)

/-- The three climatological values at one height, extrapolation.py:326-334. -/
noncomputable def climate (lat : ℝ) (season : String) (h : ℝ) : Except PyErr (Option ℝ × Option ℝ × Option ℝ) :=
  if season ≠ "standard" then do
    let t ← ituTemperature lat h season
    let p ← ituPressureAt lat h season
    let w ← ituVapour lat h season
    pure (t, p, w)
  else .ok (stdTemperature h 288.15, stdPressure h 0 0, stdVapour h 2 7.5)

/-- `rho2rh(wvd, temp, pres)[0]` at one level; nan if one of the three is nan. -/
noncomputable def climateRh (w t p : Option ℝ) : Option ℝ :=
  w.bind fun w => t.bind fun t => p.bind fun p => (rho2rh (fun _ => w) (fun _ => t) (fun _ => p) 0).1

/-- `profile_extrapolation(lat, month, z, (p, t, rh))`, extrapolation.py:297-341, on an object with heights `H`: the
result and the heights of the object afterwards (they change before the later lines can raise).  With
`max(z) ≥ 50` line 319 reads `idx` before any assignment.  Simplified: arrays of unequal length always raise
(numpy would stretch an array of length one).  Only the levels in `idx` of `pp`, `tt`, `_rh` are read. -/
noncomputable def extrapolate (H : List ℝ) (lat : ℝ) (month : ℤ) (z p t rh : List ℝ) :
    Except PyErr Extrapolated × List ℝ :=
  match npMax z with
  | none => (.error .valueError, H)
  | some m =>
    if m < 50 then
      let hkm := z ++ npArange (m + 3.2) 50 3.2
      match npMax hkm with
      | none => (.error .valueError, H)
      | some mk =>
        let H' := hkm ++ H.filter fun x => decide (mk < x)
        let above := H'.filter fun x => decide (m < x)
        match above.mapM (climate lat (getSeason lat month)) with
        | .error e => (.error e, H')
        | .ok cl =>
          let pres := p.map some ++ cl.map fun c => c.2.1
          let temp := t.map some ++ cl.map fun c => c.1
          if temp.length = H'.length ∧ pres.length = H'.length then
            (.ok ⟨H', pres, temp, rh.map some ++ cl.map fun c => climateRh c.2.2 c.1 c.2.1⟩, H')
          else (.error .valueError, H')
    else (.error .unboundLocalError, H)

end Verif.Model
