import Verif.Model.AbsWater

/-!
# Absorption by oxygen

`pyrtlib/absorption_model.py:715-1008`.  Scalars; `none`: not a finite number.  The assignments from `amu` (769-793) are
part of `amuApply`.  As for water vapour all attributes a branch reads are read before its loops, and columns are taken
to be as long as `f`.
-/

namespace Verif.Model

open Verif.Py Real

/-- State of the air, absorption_model.py:795-829. -/
structure OxyAir where
  th : ℝ
  th1 : ℝ
  b : ℝ
  pres : ℝ
  presda : ℝ
  den : ℝ
  pe1 : ℝ
  pe2 : ℝ
  dfnr : ℝ

/-- absorption_model.py:795-829, for `0 < vx`; `x`, `wb300` from the line list.  (`pe1` is only assigned, and only used, for
R23 and R24.) -/
noncomputable def oxyAir (m : String) (x wb300 pdrykpa vx ekpa : ℝ) : OxyAir :=
  let rvap := 0.01 * 8.314510 / 18.01528
  let temp := 300.0 / vx
  let pres := (pdrykpa + ekpa) * 10.0
  let vapden := ekpa * 10.0 / (rvap * temp)
  let th := 300.0 / temp
  let b := th ^ x
  let preswv :=
    if m ∈ ["R22", "R22SD", "R23", "R23SD", "R24"] then 4.615228e-3 * vapden * temp
    else if m ∈ ["R03", "R16", "R17", "R18", "R98"] then vapden * temp / 217.0
    else vapden * temp / 216.68
  let presda := pres - preswv
  let den :=
    if m = "R98" then 0.001 * (presda + 1.1 * preswv) * th
    else if m = "R03" then 0.001 * (presda * th ^ (0.9 : ℝ) + 1.1 * preswv * th)
    else if m = "R16" then 0.001 * (presda * b + 1.1 * preswv * th)
    else 0.001 * (presda * b + 1.2 * preswv * th)
  let pe1 := if m ∈ ["R23", "R23SD"] then 0.99 * den else den
  { th := th, th1 := th - 1.0, b := b, pres := pres, presda := presda, den := den, pe1 := pe1, pe2 := pe1 * pe1,
    dfnr := wb300 * den }

/-- The non-resonant term, absorption_model.py:832-833, 988-989, 997-998 (`c` is 1.584e-17 or 1.6e-17). -/
noncomputable def oxyNonres (c : ℝ) (A : OxyAir) (f : ℝ) : Option ℝ :=
  npDiv (c * f * f * A.dfnr) (A.th * (f * f + A.dfnr * A.dfnr))

/-- The names for which the non-resonant term is kept apart, absorption_model.py:834. -/
def oxyApart : List String := ["R03", "R16", "R17", "R18", "R98"]

/-- `sf1 + sf2` with line mixing `y`, second-order factor `gfac` (1 in the older models) and centre `fcen`,
absorption_model.py:846-849, 856-859, 894-896, 949-951, 958-965. -/
noncomputable def oxyShape (f fcen width gfac y : ℝ) : Option ℝ := do
  let sf1 ← npDiv (width * gfac + (f - fcen) * y) ((f - fcen) ^ 2 + width * width)
  let sf2 ← npDiv (width * gfac - (f + fcen) * y) ((f + fcen) ^ 2 + width * width)
  return sf1 + sf2

/-- The loop `summ += strr * (sf1 + sf2) * (freq / f[k]) ** 2`. -/
noncomputable def oxyLoop (n : ℕ) (f : ℝ) (fl str : ℕ → ℝ) (shape : ℕ → Option ℝ) (s : Option ℝ) : Option ℝ :=
  forRange 0 n (fun k s => do
    let s ← s
    let sh ← shape k
    let q ← npDiv f (fl k)
    return s + str k * sh * q ^ 2) s

/-- Line sum of R03 and R98, absorption_model.py:837-850. -/
noncomputable def oxySumOld (ll : LineList) (A : OxyAir) (f : ℝ) (s0 : Option ℝ) : Except PyErr (Option ℝ) := do
  let n ← attr ll "len(f)"
  let fl ← attr ll "f"
  let s300 ← attr ll "s300"
  let be ← attr ll "be"
  let w300 ← attr ll "w300"
  let y300 ← attr ll "y300"
  let v ← attr ll "v"
  return oxyLoop (numLines n) f fl (fun k => s300 k * exp (-be k * A.th1))
    (fun k => oxyShape f (fl k) (w300 k * A.den) 1 (0.001 * A.pres * A.b * (y300 k + v k * A.th1))) s0

/-- Line sum of R17, R18, R19, R19SD, absorption_model.py:851-861. -/
noncomputable def oxySumMid (ll : LineList) (A : OxyAir) (f : ℝ) (s0 : Option ℝ) : Except PyErr (Option ℝ) := do
  let n ← attr ll "len(f)"
  let fl ← attr ll "f"
  let s300 ← attr ll "s300"
  let be ← attr ll "be"
  let w300 ← attr ll "w300"
  let y300 ← attr ll "y300"
  let v ← attr ll "v"
  return oxyLoop (numLines n) f fl (fun k => s300 k * exp (-be k * A.th1))
    (fun k => oxyShape f (fl k) (w300 k * A.den) 1 (A.den * (y300 k + v k * A.th1))) s0

/-- Line sum of the other names, absorption_model.py:953-966. -/
noncomputable def oxySumNew (ll : LineList) (A : OxyAir) (f : ℝ) (s0 : Option ℝ) : Except PyErr (Option ℝ) := do
  let n ← attr ll "len(f)"
  let fl ← attr ll "f"
  let s300 ← attr ll "s300"
  let be ← attr ll "be"
  let w300 ← attr ll "w300"
  let y0 ← attr ll "y0"
  let y1 ← attr ll "y1"
  let g0 ← attr ll "g0"
  let g1 ← attr ll "g1"
  let dnu0 ← attr ll "dnu0"
  let dnu1 ← attr ll "dnu1"
  return oxyLoop (numLines n) f fl (fun k => s300 k * exp (-be k * A.th1))
    (fun k => oxyShape f (fl k + A.pe2 * (dnu0 k + dnu1 k * A.th1)) (w300 k * A.den)
      (1 + A.pe2 * (g0 k + g1 k * A.th1)) (A.den * (y0 k + y1 k * A.th1))) s0

/-- The speed-dependent `sf1` of the 118.75 GHz line, absorption_model.py:886-892, 941-947. -/
noncomputable def oxySD (width df y : ℝ) : Option ℝ := do
  let width2 := 0.076 * width
  let xc ← cDiv ⟨width - 1.5 * width2, df⟩ (width2 : ℂ)
  let xrt := cSqrt xc
  let w ← dcerror (-xrt.im) xrt.re
  let pxw := 1.77245385090551603 * xrt * w
  let asd ← cDiv (⟨1, y⟩ * 2 * (1 - pxw)) (width2 : ℂ)
  return asd.re

open Classical in
/-- `sf1 + sf2` of line `k` in R23 and R24, absorption_model.py:885-896, 940-951. -/
noncomputable def oxyShape2 (k : ℕ) (f fcen width gfac y : ℝ) : Option ℝ := do
  let sf1 ← (if k = 0 ∧ |f - fcen| < 10 * width then oxySD width (f - fcen) y
    else npDiv (width * gfac + (f - fcen) * y) ((f - fcen) ^ 2 + width ^ 2) : Option ℝ)
  let sf2 ← npDiv (width * gfac - (f + fcen) * y) ((f + fcen) ^ 2 + width ^ 2)
  return sf1 + sf2

/-- Sum over `k = 1..37` (or the last line), the loops at absorption_model.py:867-874, 912-924. -/
noncomputable def sumMid (n : ℕ) (g : ℕ → ℝ) : ℝ :=
  forRange 0 n (fun k s => if 0 < k ∧ k ≤ 37 then s + g k else s) 0

/-- Line sum of R23, absorption_model.py:862-899. -/
noncomputable def oxySum23 (ll : LineList) (A : OxyAir) (f : ℝ) : Except PyErr (Option ℝ) := do
  let n ← attr ll "len(f)"
  let fl ← attr ll "f"
  let s300 ← attr ll "s300"
  let be ← attr ll "be"
  let w300 ← attr ll "w300"
  let y300 ← attr ll "y300"
  let y1 ← attr ll "y1"
  let g0 ← attr ll "g0"
  let g1 ← attr ll "g1"
  let dnu0 ← attr ll "dnu0"
  let dnu1 ← attr ll "dnu1"
  let a (k : ℕ) : ℝ := s300 k * exp (-be k * A.th1) / fl k ^ 2
  let g (k : ℕ) : ℝ := g0 k + g1 k * A.th1
  let nl := numLines n
  return do
    let off ← npDiv (sumMid nl fun k => a k * g k) (sumMid nl a)
    let nr ← npDiv (1.584e-17 / A.th * A.dfnr) (f * f + A.dfnr * A.dfnr)
    forRange 0 nl (fun k s => do
      let s ← s
      let gfac := if 0 < k ∧ k ≤ 37 then 1 + A.pe2 * (g k - off) else 1
      let fcen := fl k + A.pe2 * (dnu0 k + dnu1 k * A.th1)
      let sh ← oxyShape2 k f fcen (w300 k * A.den) gfac (A.pe1 * (y300 k + y1 k * A.th1))
      let s := s + a k * sh
      return if k = 37 then max s 0 else s) (some nr)

/-- Line sum of R24, absorption_model.py:900-952. -/
noncomputable def oxySum24 (ll : LineList) (A : OxyAir) (wb300 f : ℝ) : Except PyErr (Option ℝ) := do
  let n ← attr ll "len(f)"
  let fl ← attr ll "f"
  let s300 ← attr ll "s300"
  let be ← attr ll "be"
  let w300 ← attr ll "w300"
  let y300 ← attr ll "y300"
  let y1 ← attr ll "y1"
  let g0 ← attr ll "g0"
  let g1 ← attr ll "g1"
  let dnu0 ← attr ll "dnu0"
  let dnu1 ← attr ll "dnu1"
  let a (k : ℕ) : ℝ := s300 k * exp (-be k * A.th1) * A.th / fl k ^ 2
  let y (k : ℕ) : ℝ := 0.99 * (y300 k + y1 k * A.th1)
  let g (k : ℕ) : ℝ := g0 k + g1 k * A.th1
  let nl := numLines n
  let sumy := forRange 0 nl (fun k s => if k ≤ 37 then s + 2 * a k * (w300 k + y k * fl k) else s) (1.584e-17 * wb300)
  let wnr := wb300 * A.pe1
  return do
    let sumy2 ← npDiv sumy (2 * sumMid nl a)
    let ratio ← npDiv (sumMid nl fun k => a k * g k) (sumMid nl fun k => a k ^ 2)
    let nr ← npDiv (1.584e-17 * wnr) (f * f + wnr * wnr)
    forRange 0 nl (fun k s => do
      let s ← s
      let mid : Bool := decide (0 < k ∧ k ≤ 37)
      let q ← npDiv sumy2 (fl k)
      let yk := A.pe1 * (if mid then y k - q else y k)
      let gfac := if mid then 1 + A.pe2 * (g k - a k * ratio) else 1
      let fcen := fl k + A.pe2 * (dnu0 k + dnu1 k * A.th1)
      let sh ← oxyShape2 k f fcen (w300 k * A.pe1) gfac yk
      return s + a k * sh) (some nr)

/-- The line sum `summ` (with the non-resonant term for the newer names), absorption_model.py:832-966. -/
noncomputable def oxySum (m : String) (ll : LineList) (A : OxyAir) (wb300 f : ℝ) : Except PyErr (Option ℝ) :=
  let s0 : Option ℝ := if m ∈ oxyApart then some 0 else oxyNonres 1.584e-17 A f
  if m ∈ ["R03", "R98"] then oxySumOld ll A f s0
  else if m ∈ ["R17", "R18", "R19", "R19SD"] then oxySumMid ll A f s0
  else if m = "R23" then oxySum23 ll A f
  else if m = "R24" then oxySum24 ll A wb300 f
  else oxySumNew ll A f s0

/-- Absorption in Np/km from the line sum, absorption_model.py:968-979. -/
noncomputable def oxyAbs (m : String) (A : OxyAir) (f summ : ℝ) : ℝ :=
  let a :=
    if m ∈ ["R03", "R98"] then 5.034e+11 * summ * A.presda * A.th ^ 3 / 3.14159
    else if m = "R24" then 1.6097e+11 * summ * A.presda * (f * A.th) ^ 2
    else if m = "R23" then 1.6097e+11 * summ * A.presda * f * f * A.th ^ 3
    else 1.6097e+11 * summ * A.presda * A.th ^ 3
  let a := if m ≠ "R98" then max a 0 else a
  if m ∈ ["R20", "R20SD", "R22", "R22SD"] then 1.004 * max a 0 else a

/-- The continuum in Np/km, absorption_model.py:988-1001. -/
noncomputable def oxyCon (m : String) (A : OxyAir) (f : ℝ) : Option ℝ :=
  if m ∈ ["R03", "R98"] then (oxyNonres 1.6e-17 A f).map (· * (5.034e+11 * A.presda * A.th ^ 3 / 3.14159))
  else (oxyNonres 1.584e-17 A f).map (· * (1.6097e11 * A.presda * A.th ^ 3))

/-- The names without separate continuum, absorption_model.py:1005-1006. -/
def oxyWhole : List String := ["R19", "R19SD", "R20", "R20SD", "R22", "R22SD", "R23", "R24"]

/-- `O2AbsModel().o2_absorption(pdrykpa, vx, ekpa, frq)` for the selected model and loaded line list,
absorption_model.py:715-1008: `(npp, ncpp)`.  For `vx ≤ 0` the result is not finite. -/
noncomputable def o2Absorption (m : String) (ll : LineList) (pdrykpa vx ekpa frq : ℝ) :
    Except PyErr (Option (ℝ × ℝ)) := do
  let x ← attr ll "x"
  let wb300 ← attr ll "wb300"
  let A := oxyAir m (x 0) (wb300 0) pdrykpa vx ekpa
  let summ ← oxySum m ll A (wb300 0) frq
  return if 0 < vx then do
      let summ ← summ
      let npp ← npDiv (oxyAbs m A frq summ / db2np) (0.182 * frq)
      let ncpp ← (if m ∈ oxyWhole then some 0 else do
        let c ← oxyCon m A frq
        npDiv (c / db2np) (0.182 * frq) : Option ℝ)
      return (npp, ncpp)
    else none

end Verif.Model
