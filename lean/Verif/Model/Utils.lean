import Verif.Py.Err
import Verif.Py.Num
import Verif.Py.Loop
import Verif.Model.Vapor

/-!
# Utility conversions

`pyrtlib/utils.py`.  The numpy functions act elementwise; they are modelled on one element, except where the code
works on whole arrays.  `none`: an intermediate value is not finite (division by zero, log of a non-positive number,
power of a non-positive number).
-/

namespace Verif.Model

open Verif.Py Real

/-- `eps = 0.621970585`, utils.py:299,321,363,382,858 -/
noncomputable def epsRatio : ℝ := 0.621970585

/-- `mr2e(p, mr)`, utils.py:306-324 -/
noncomputable def mr2e (p mr : ℝ) : Option ℝ := npDiv (p * mr) (1000.0 * epsRatio + mr)

/-- `e2mr(p, e)`, utils.py:369-385 -/
noncomputable def e2mr (p e : ℝ) : Option ℝ := npDiv (1000.0 * epsRatio * e) (p - e)

/-- `mr2rho(mr, t, p)`, utils.py:277-303 (the first assignment to `rho` is overwritten). -/
noncomputable def mr2rho (mr t p : ℝ) : Option ℝ :=
  let rvap := cRwatvap * 1e-05
  (npDiv (mr * p * 1.0) ((1000.0 * epsRatio + mr) * rvap)).bind fun x => npDiv x t

/-- `rho2mr(rho, t, p)`, utils.py:347-366 (the first assignment to `mr` is overwritten). -/
noncomputable def rho2mr (rho t p : ℝ) : Option ℝ :=
  let rvap := cRwatvap * 1e-5
  (npDiv p t).bind fun x => npDiv (rho * (1e3 * epsRatio * rvap)) (x - rvap * rho)

open Classical in
/-- `satvap(t, Tconvert)`, utils.py:420-445, on an array; `Tconvert = 0.0` is falsy, like `None`. -/
noncomputable def satvap (t : ℕ → ℝ) (Tconvert : Option ℝ) : ℕ → ℝ :=
  match Tconvert with
  | none => fun i => eswat (t i)
  | some c => if c ≠ 0 then fun i => if t i ≤ c then esice (t i) else eswat (t i) else fun i => eswat (t i)

/-- `satmix(p, t, Tconvert)`, utils.py:388-417 -/
noncomputable def satmix (p t : ℕ → ℝ) (Tconvert : Option ℝ) : ℕ → Option ℝ :=
  fun i => e2mr (p i) (satvap t Tconvert i)

/-- `mr2rh(p, t, w, Tconvert)`, utils.py:235-274: `(rh1, rh2)`. -/
noncomputable def mr2rh (p t w : ℕ → ℝ) (Tconvert : Option ℝ) : ℕ → Option ℝ × Option ℝ :=
  fun i =>
    ((mr2e (p i) (w i)).bind fun e => npDiv (100.0 * e) (satvap t Tconvert i),
     (satmix p t Tconvert i).bind fun ws => npDiv (100 * w i) ws)

/-- `rho2rh(rho, t, p)`, utils.py:327-344 (element `i`; `none` if the mixing ratio is not finite). -/
noncomputable def rho2rh (rho t p : ℕ → ℝ) : ℕ → Option ℝ × Option ℝ :=
  fun i =>
    match e2mr (p i) (rho i * t i / 216.7) with
    | none => (none, none)
    | some mr => mr2rh p t (fun _ => mr) none i

/-- `R / Md` in utils.py:662-665, 685-688, 728-730 -/
noncomputable def rdHobbs : ℝ := 8.314462618 / 28.96546e-3

/-- `pressure_to_height(pressure)`, utils.py:647-667 -/
noncomputable def pressureToHeight (p : ℝ) : Option ℝ :=
  let t0 := (288.0 : ℝ)
  let p0 := (1013.25 : ℝ)
  let gamma := (-0.0065 : ℝ)
  let g := (9.80665 : ℝ)
  if 0 < p then some (t0 / gamma * (1 - (p / p0) ^ (rdHobbs * gamma / g))) else none

/-- `height_to_pressure(height)`, utils.py:670-691 -/
noncomputable def heightToPressure (h : ℝ) : Option ℝ :=
  let t0 := (288.0 : ℝ)
  let p0 := (1013.25 : ℝ)
  let gamma := (-0.0065 : ℝ)
  let g := (9.80665 : ℝ)
  (npLog (1 - h * gamma / t0)).map fun l => p0 * exp (g / (rdHobbs * gamma) * l)

/-- `virtual_temperature(t, mr)`, utils.py:694-720 -/
noncomputable def virtualTemperature (t mr : ℝ) : Option ℝ :=
  let r := cRdry / cRwatvap
  (npDiv (mr + r) (r * (1 + mr))).map fun x => t * x

/-- `np.trapz(y, x)` on arrays of length `n`: `sum(diff(x) * (y[1:] + y[:-1]) / 2)`. -/
noncomputable def trapz (y x : ℕ → ℝ) (n : ℕ) : ℝ :=
  forRange 0 (n - 1) (fun i s => s + (x (i + 1) - x i) * (y (i + 1) + y i) / 2.0) 0

/-- `_thickness_hydrostatic(p[0:n], t[0:n], mr[0:n])`, utils.py:723-740, once the layer temperatures are known;
defined for positive pressures. -/
noncomputable def thicknessHydrostatic (p tv : ℕ → ℝ) (n : ℕ) : ℝ :=
  -rdHobbs / 9.80665 * trapz tv (fun i => log (p i)) n

open Classical in
/-- Layer temperatures, utils.py:732-736. -/
noncomputable def layerTemperature (t : ℕ → ℝ) (mr : Option (ℕ → ℝ)) (n : ℕ) : Option (ℕ → ℝ) :=
  match mr with
  | none => some t
  | some m =>
    if ∀ i < n, (virtualTemperature (t i) (m i)).isSome then
      some fun i => (virtualTemperature (t i) (m i)).getD 0
    else none

open Classical in
/-- `atmospheric_tickness(p, t, mr)`, utils.py:743-773, arrays of length `n`: `h[i]`; `none` when a value entering
it is not finite. -/
noncomputable def atmosphericThickness (p t : ℕ → ℝ) (mr : Option (ℕ → ℝ)) (i : ℕ) : Option ℝ :=
  if i = 0 then some 0
  else if ∀ k < i + 1, 0 < p k then
    (layerTemperature t mr (i + 1)).map fun tv => thicknessHydrostatic p tv (i + 1) / 1e3
  else none

/-- Magnus coefficients `(base, a, b)` chosen in `dewpoint2rh`, utils.py:805-813. -/
noncomputable def magnus (ice : Bool) (method : String) : ℝ × ℝ :=
  if method = "arm" then (17.625, 243.04) else if ice then (9.5, 265.5) else (7.5, 237.3)

/-- `dewpoint2rh(td, t, ice, method)`, utils.py:776-821 -/
noncomputable def dewpoint2rh (td t : ℝ) (ice : Bool) (method : String) : Option ℝ :=
  let a := (magnus ice method).1
  let b := (magnus ice method).2
  (npDiv (a * td) (b + td)).bind fun u => (npDiv (a * t) (b + t)).bind fun v =>
    if method = "arm" then npDiv (exp u) (exp v)
    else npDiv (6.1078 * (10:ℝ) ^ u) (6.1078 * (10:ℝ) ^ v)

/-- `to_kelvin(t)`, utils.py:929 -/
noncomputable def toKelvin (t : ℝ) : ℝ := t + 273.25
/-- `to_celsius(t)`, utils.py:943 -/
noncomputable def toCelsius (t : ℝ) : ℝ := t - 273.25

/-- `kgkg_to_kgm3(q, p, t)`, utils.py:824-862 -/
noncomputable def kgkgToKgm3 (q p t : ℝ) : Option ℝ :=
  let rmoist := cRdry * (1 + (1 - epsRatio) / epsRatio * q)
  npDiv (1e2 * p) (rmoist * t)

/-- `ppmv_to_moleculesm3(mr, p, t)`, utils.py:865-882 -/
noncomputable def ppmvToMoleculesm3 (mr p t : ℝ) : Option ℝ :=
  (npDiv (cAvogadro * p) (cR * t)).map fun n => n * mr * 1e-6

/-- The chain of `if gasid == k: amus = ...`, utils.py:138-203 (`99`: dry air, in 1e-10 units of the decimal
28.9402753669 kept exact as a rational). -/
def gasAmus (gasid : ℤ) : Option ℚ :=
  match gasid with
  | 0 => some (2 * 1 + 16)
  | 1 => some (12 + 2 * 16)
  | 2 => some (3 * 16)
  | 3 => some (2 * 14 + 16)
  | 4 => some (12 + 16)
  | 5 => some (12 + 4 * 1)
  | 6 => some (2 * 16)
  | 7 => some (14 + 16)
  | 8 => some (32 + 2 * 16)
  | 9 => some (14 + 2 * 16)
  | 10 => some (14 + 3 * 1)
  | 11 => some (1 + 14 + 3 * 16)
  | 12 => some (16 + 1)
  | 13 => some (1 + 19)
  | 14 => some (1 + 35)
  | 15 => some (1 + 80)
  | 16 => some (1 + 127)
  | 17 => some (35 + 16)
  | 18 => some (16 + 12 + 32)
  | 19 => some (2 * 1 + 12 + 16)
  | 20 => some (1 + 16 + 35)
  | 21 => some (2 * 14)
  | 22 => some (1 + 12 + 14)
  | 23 => some (12 + 3 * 1 + 35)
  | 24 => some (2 * 1 + 2 * 16)
  | 25 => some (2 * 12 + 2 * 1)
  | 26 => some (2 * 12 + 6 * 1)
  | 27 => some (31 + 3 * 1)
  | 28 => some (12 + 16 + 2 * 19)
  | 29 => some (32 + 6 * 19)
  | 30 => some (2 * 1 + 32)
  | 31 => some (1 + 12 + 2 * 16 + 1)
  | 99 => some (289402753669 / 10000000000)
  | _ => none

/-- `gas_mass(gasid)`, utils.py:127-208: an id without a branch leaves `amus` unbound. -/
noncomputable def gasMass (gasid : ℤ) : Except PyErr ℝ :=
  match gasAmus gasid with
  | none => .error .unboundLocalError
  | some a => .ok (1.6726485e-27 * (a : ℝ))

/-- `ppmv2gkg(ppmv, gasid)`, utils.py:211-232 -/
noncomputable def ppmv2gkg (ppmv : ℝ) (gasid : ℤ) : Except PyErr ℝ := do
  let m ← gasMass gasid
  let a ← gasMass 99
  return ppmv / 1000000.0 * m / a * 1000

end Verif.Model
