import Verif.Model.ErrorFn
import Verif.Model.Simulator

/-!
# Absorption by water vapour

`pyrtlib/absorption_model.py:314-410, 484-684`.  Scalars.  `none`: not a finite number.  All attributes of the line list that a
branch reads are read before the loop over the lines (the code reads them inside; with at least one line the outcome is
the same).  Columns of a line list are taken to be as long as `fl`.  A power with non-positive basis is taken as not
finite (the code only forms powers of temperature ratios).
-/

namespace Verif.Model

open Verif.Py Real

/-- `a ** b` on numpy floats, for positive `a`. -/
noncomputable def fpow (a b : ℝ) : Option ℝ := if 0 < a then some (a ^ b) else none

/-- Reading an attribute of a line list. -/
def attr (ll : LineList) (a : String) : Except PyErr Val :=
  match ll a with
  | some v => .ok v
  | none => .error .attributeError

/-- Reading an element `a[i]` of an array with Python's negative indices. -/
def pyGet (a : List ℝ) (i : ℤ) : Except PyErr ℝ :=
  let k := if i < 0 then i + a.length else i
  if k < 0 then .error .indexError
  else match a[k.toNat]? with
    | some v => .ok v
    | none => .error .indexError

/-- The array `a` of node values, absorption_model.py:326-338 (after `np.insert`). -/
noncomputable def selfNodes (vx : ℝ) : List ℝ :=
  let t := 300.0 / vx
  let theta := 296 / t
  let a (c e : ℝ) : ℝ := 6.532e+12 * c * theta ^ (e + 3)
  let a0 := a 2.877e-21 6.413
  let a1 := a 2.855e-21 6.414
  let a2 := a 2.731e-21 6.275
  let a3 := a 2.49e-21 6.049
  let a4 := a 2.178e-21 5.789
  let a5 := a 1.863e-21 5.557
  [a1, a0, a1, a2, a3, a4, a5]

/-- `h2o_continuum(frq, vx, 1)[0]`, absorption_model.py:314-350, for `0 < vx`.  `int()` truncates towards zero. -/
noncomputable def h2oContinuum (frq vx : ℝ) : Except PyErr ℝ := do
  let a := selfNodes vx
  let fj : ℝ := frq / 299.792458
  let j : ℤ := min (if 0 ≤ fj then ⌊fj⌋ else ⌈fj⌉) 4
  let p : ℝ := fj - j
  let c : ℝ := (3 - 2 * p) * p * p
  let b : ℝ := 0.5 * p * (1 - p)
  let b1 : ℝ := b * (1 - p)
  let b2 : ℝ := b * p
  let u0 ← pyGet a j
  let u1 ← pyGet a (j + 1)
  let u2 ← pyGet a (j + 2)
  let u3 ← pyGet a (j + 3)
  return -u0 * b1 + u1 * (1 - c + b2) + u2 * (c + b1) - u3 * b2

/-- Second virial coefficient polynomial, absorption_model.py:383-388. -/
noncomputable def virial (t : ℝ) : ℝ :=
  (-7.804242e+6 + 8.345651e+4 * t + -4.212794e+2 * t ^ 2 + 1.242946 * t ^ 3 + -2.409822e-3 * t ^ 4
    + 3.017768e-6 * t ^ 5 + -2.518957e-9 * t ^ 6 + 1.350628e-12 * t ^ 7 + -4.134191e-16 * t ^ 8
    + 5.530774e-20 * t ^ 9) * -((100 / t) ^ 6)

/-- `h2o_continuum_mwl24(frq, vx)`, absorption_model.py:352-410, for `0 < vx`, `0 ≤ frq`. -/
noncomputable def h2oContinuumMwl24 (frq vx : ℝ) : ℝ :=
  let t := 300.0 / vx
  let kbd0 := 4.7856e-4 * exp (1669.8 / t - 5.10485e-3 * t)
  let kmd := ((virial t - 30.5) / (82.05746 * t) - kbd0) / 1013.25
  let kbd := kbd0 / 1013.25
  let conBd := (5.55e-8 / (434.8 * 434.8 + (frq - 219.5) * (frq - 219.5))
    + (4.93e-10 / (21.06 * 21.06 + frq * frq) + 1.34e-14)) * (268 / t) ^ (10 : ℝ)
  let s2mon := 1e-13 * (4.06 + 7.12e-3 * frq) * (1 / 1013.25)
  let conMd := (s2mon * (1 - 0.7) * (266 / t) ^ (2.9 : ℝ) + 0.7 * conBd / kbd) * kmd
  let conFw := 8.5e-15 * frq ^ (2.2 : ℝ) * (296 / t) ^ (1.5 : ℝ)
  ((conBd + conMd) * frq ^ 2 + conFw) * 1e5

/-- State of the air: `t`, `rho`, `pvap`, `pda`, `den`. -/
structure WaterAir where
  t : ℝ
  rho : ℝ
  pvap : ℝ
  pda : ℝ
  den : ℝ

/-- absorption_model.py:484-507, for `0 < vx`. -/
noncomputable def waterAir (m : String) (pdrykpa vx ekpa : ℝ) : WaterAir :=
  let rvap := 0.01 * 8.31451 / 18.01528
  let t := 300.0 / vx
  let p := (pdrykpa + ekpa) * 10.0
  let rho := ekpa * 10.0 / (rvap * t)
  let pvap :=
    if m ∈ ["R22SD", "R23SD", "R24", "MWL24"] then 461.52 * 1e-05 * rho * t
    else if m ∈ ["R03", "R16", "R17", "R98"] then rho * t / 217.0
    else rho * t / 216.68
  let den := if m ∈ ["R03", "R16", "R98"] then 3.335e+16 * rho else 3.344e+16 * rho
  ⟨t, rho, pvap, p - pvap, den⟩

/-- The names of the speed-dependent branch, absorption_model.py:529 (`startswith`). -/
def sdPrefixes : List String := ["R19SD", "R20SD", "R21SD", "R22SD", "R23SD", "R24", "MWL24"]

/-- absorption_model.py:529 -/
def isSD (m : String) : Bool := sdPrefixes.any fun p => m.startsWith p

/-- The names with line-dependent speed-dependence exponents, absorption_model.py:547, 566, 582. -/
def newSD : List String := ["R21SD", "R22SD", "R23SD", "R24", "MWL24"]

/-- Continuum `con` before the line sum, absorption_model.py:509-521. -/
noncomputable def waterCon (m : String) (ll : LineList) (A : WaterAir) (vx f : ℝ) : Except PyErr (Option ℝ) := do
  let reftcon ← attr ll "reftcon"
  let ti := reftcon 0 / A.t
  if m ∈ ["R03", "R98"] then
    return (fpow ti 7.5).map fun q => (5.43e-10 * A.pda * ti ^ 3 + 1.8e-08 * A.pvap * q) * A.pvap * f * f
  else if m = "MWL24" then
    return some (h2oContinuumMwl24 f vx * A.pvap * A.pvap
      + 7.1e-10 * (300 / A.t) ^ (4.4 : ℝ) * f ^ (1.96 : ℝ) * A.pda * A.pvap)
  else do
    let cf ← attr ll "cf"
    let xcf ← attr ll "xcf"
    let cs ← attr ll "cs"
    let xcs ← attr ll "xcs"
    return (fpow ti (xcf 0)).bind fun qf => (fpow ti (xcs 0)).map fun qs =>
      (cf 0 * A.pda * qf + cs 0 * A.pvap * qs) * A.pvap * f * f

/-- `width/(df² + wsq) - base`, absorption_model.py:593, 619, 643, 664. -/
noncomputable def localLine (width df : ℝ) : Option ℝ :=
  (npDiv width (df ^ 2 + width ^ 2)).map fun q => q - width / (562500.0 + width ^ 2)

open Classical in
/-- One line without speed dependence: both resonances, Clough's cut-off at 750 GHz (inclusive in the oldest models),
absorption_model.py:608-620, 634-644, 655-665. -/
noncomputable def plainLine (closed : Bool) (f fl shift width s : ℝ) : Option ℝ := do
  let df0 := f - fl - shift
  let df1 := f + fl + shift
  let r0 ← (if |df0| < 750.0 ∨ closed ∧ |df0| = 750.0 then localLine width df0 else some 0 : Option ℝ)
  let r1 ← (if |df1| < 750.0 ∨ closed ∧ |df1| = 750.0 then localLine width df1 else some 0 : Option ℝ)
  let q ← npDiv f fl
  return s * (r0 + r1) * q ^ 2

/-- The loop `for i in range(0, nlines): summ += ...`. -/
noncomputable def sumLines (n : ℕ) (g : ℕ → Option ℝ) : Option ℝ :=
  forRange 0 n (fun i s => s.bind fun s => (g i).map fun c => s + c) (some 0)

/-- `len(ll.fl)` -/
noncomputable def numLines (v : Val) : ℕ := ⌊v 0⌋₊

/-- Line sum of the models R98, R03, R16, R17, absorption_model.py:526, 596-620. -/
noncomputable def waterSumOld (m : String) (ll : LineList) (A : WaterAir) (f : ℝ) : Except PyErr (Option ℝ) := do
  let n ← attr ll "len(fl)"
  let fl ← attr ll "fl"
  let s1 ← attr ll "s1"
  let b2 ← attr ll "b2"
  let w0 ← attr ll "w0"
  let x ← attr ll "x"
  let w0s ← attr ll "w0s"
  let xs ← attr ll "xs"
  let reftline ← attr ll "reftline"
  let sr ← (if m = "R98" then .ok fun _ => 0 else attr ll "sr" : Except PyErr Val)
  let ti := reftline 0 / A.t
  return sumLines (numLines n) fun i => do
    let ti2 ← fpow ti 2.5
    let qf ← fpow ti (x i)
    let qs ← fpow ti (xs i)
    let widthf := w0 i * A.pda * qf
    let widths := w0s i * A.pvap * qs
    let width := widthf + widths
    let shift := if m = "R98" then 0 else sr i * (if m = "R03" then width else widthf)
    let s := s1 i * ti2 * exp (b2 i * (1.0 - ti))
    plainLine true f (fl i) shift width s

/-- Line sum of the models R18, R19, R20, absorption_model.py:526, 621-665 (R18 has no `aair`, `aself`). -/
noncomputable def waterSumMid (m : String) (ll : LineList) (A : WaterAir) (f : ℝ) : Except PyErr (Option ℝ) := do
  let n ← attr ll "len(fl)"
  let fl ← attr ll "fl"
  let s1 ← attr ll "s1"
  let b2 ← attr ll "b2"
  let w0 ← attr ll "w0"
  let x ← attr ll "x"
  let w0s ← attr ll "w0s"
  let xs ← attr ll "xs"
  let reftline ← attr ll "reftline"
  let sh ← attr ll "sh"
  let xh ← attr ll "xh"
  let shs ← attr ll "shs"
  let xhs ← attr ll "xhs"
  let aair ← (if m = "R18" then .ok fun _ => 0 else attr ll "aair" : Except PyErr Val)
  let aself ← (if m = "R18" then .ok fun _ => 0 else attr ll "aself" : Except PyErr Val)
  let ti := reftline 0 / A.t
  return sumLines (numLines n) fun i => do
    let tiln ← npLog ti
    let ti2 ← fpow ti 2.5
    let qf ← fpow ti (x i)
    let qs ← fpow ti (xs i)
    let hf ← fpow ti (xh i)
    let hs ← fpow ti (xhs i)
    let widthf := w0 i * A.pda * qf
    let widths := w0s i * A.pvap * qs
    let width := widthf + widths
    let shiftf := sh i * A.pda * (1 - aair i * tiln) * hf
    let shifts := shs i * A.pvap * (1 - aself i * tiln) * hs
    let shift := shiftf + shifts
    let s := s1 i * ti2 * exp (b2 i * (1 - ti))
    plainLine false f (fl i) shift width s

/-- Speed-dependent shape `sd`, absorption_model.py:572-590.  Without `delta2` (R19SD) the code divides by the real
number `width2`, which is the case `delta2 = 0`. -/
noncomputable def sdShape (width0 width2 delta2 df : ℝ) : Option ℂ := do
  let xc ← cDiv ⟨width0 - 1.5 * width2, df + 1.5 * delta2⟩ ⟨width2, -delta2⟩
  let xrt := cSqrt xc
  let w ← dcerror (-xrt.im) xrt.re
  let pxw := 1.77245385090551603 * xrt * w
  cDiv (2.0 * (1.0 - pxw)) ⟨width2, -delta2⟩

open Classical in
/-- One line of the speed-dependent models, absorption_model.py:560-595. -/
noncomputable def sdLine (f fl shift width0 width2 delta2 s : ℝ) : Option ℝ := do
  let df0 := f - fl - shift
  let df1 := f + fl + shift
  let base := width0 / (562500.0 + width0 ^ 2)
  let r0 ← (
    if 0 < width2 ∧ |df0| < 10 * width0 then (sdShape width0 width2 delta2 df0).map fun c => c.re - base
    else if |df0| < 750.0 then localLine width0 df0 else some 0 : Option ℝ)
  let r1 ← (if |df1| < 750.0 then localLine width0 df1 else some 0 : Option ℝ)
  let q ← npDiv f fl
  return s * (r0 + r1) * q ^ 2

open Classical in
/-- Line sum of the speed-dependent models, absorption_model.py:526, 529-532, 543-595. -/
noncomputable def waterSumSD (m : String) (ll : LineList) (A : WaterAir) (f : ℝ) : Except PyErr (Option ℝ) := do
  let n ← attr ll "len(fl)"
  let fl ← attr ll "fl"
  let s1 ← attr ll "s1"
  let b2 ← attr ll "b2"
  let w0 ← attr ll "w0"
  let x ← attr ll "x"
  let w0s ← attr ll "w0s"
  let xs ← attr ll "xs"
  let reftline ← attr ll "reftline"
  let sh ← attr ll "sh"
  let xh ← attr ll "xh"
  let shs ← attr ll "shs"
  let xhs ← attr ll "xhs"
  let aair ← attr ll "aair"
  let aself ← attr ll "aself"
  let w2 ← attr ll "w2"
  let w2s ← attr ll "w2s"
  let zero : Except PyErr Val := .ok fun _ => 0
  let xw2 ← (if m ∈ newSD then attr ll "xw2" else zero : Except PyErr Val)
  let xw2s ← (if m ∈ newSD then attr ll "xw2s" else zero : Except PyErr Val)
  let d2 ← (if m ∈ newSD then attr ll "d2" else zero : Except PyErr Val)
  let d2s ← (if m ∈ newSD then attr ll "d2s" else zero : Except PyErr Val)
  let d2air ← (if m = "R20SD" then attr ll "d2air" else zero : Except PyErr Val)
  let d2self ← (if m = "R20SD" then attr ll "d2self" else zero : Except PyErr Val)
  let ti := reftline 0 / A.t
  return sumLines (numLines n) fun i => do
    let tiln ← npLog ti
    let ti2 := exp (2.5 * tiln)
    let qf ← fpow ti (x i)
    let qs ← fpow ti (xs i)
    let hf ← fpow ti (xh i)
    let hs ← fpow ti (xhs i)
    let vf ← fpow ti (xw2 i)
    let vs ← fpow ti (xw2s i)
    let width0 := w0 i * A.pda * qf + w0s i * A.pvap * qs
    let width2 :=
      if m ∈ newSD then (if 0 < w2 i then w2 i * A.pda * vf + w2s i * A.pvap * vs else 0)
      else w2 i * A.pda + w2s i * A.pvap
    let shiftf := sh i * A.pda * (1 - aair i * tiln) * hf
    let shifts := shs i * A.pvap * (1 - aself i * tiln) * hs
    let shift := shiftf + shifts
    let s := s1 i * ti2 * exp (b2 i * (1 - ti))
    let delta2 :=
      if m ∈ newSD then d2 i * A.pda + d2s i * A.pvap
      else if m = "R20SD" ∧ i = 1 then d2air 0 * A.pda + d2self 0 * A.pvap
      else 0
    sdLine f (fl i) shift width0 width2 delta2 s

/-- Line sum `summ`, absorption_model.py:529-665.  For a name in no branch `summ` is never assigned. -/
noncomputable def waterSum (m : String) (ll : LineList) (A : WaterAir) (f : ℝ) : Except PyErr (Option ℝ) :=
  if isSD m then waterSumSD m ll A f
  else if m ∈ ["R16", "R03", "R17", "R98"] then waterSumOld m ll A f
  else if m ∈ ["R19", "R20", "R18"] then waterSumMid m ll A f
  else .error .unboundLocalError

open Classical in
/-- The continuum of R23SD and R24, absorption_model.py:533-542, 670-672. -/
noncomputable def waterConNew (ll : LineList) (A : WaterAir) (vx f : ℝ) : Except PyErr (Option ℝ) := do
  let reftline ← attr ll "reftline"
  let cf ← attr ll "cf"
  let xcf ← attr ll "xcf"
  let cs ← attr ll "cs"
  let xcs ← attr ll "xcs"
  let ti := reftline 0 / A.t
  let self ← (if 0 < cs 0 then .ok (cs 0 * ti * xcs 0) else h2oContinuum f vx : Except PyErr ℝ)
  return (fpow ti (xcf 0)).map fun q => (cf 0 * q * A.pda + self * A.pvap) * A.pvap * f ^ 2

/-- Mass of a water molecule, absorption_model.py:674. -/
noncomputable def h2oMass : ℝ := 2.9915075e-23

/-- Change of unit of the line term, absorption_model.py:675-680. -/
noncomputable def waterUnits (m : String) (A : WaterAir) (summ factor : ℝ) : Option ℝ :=
  if m ∈ ["R22SD", "R23SD"] then npDiv (1e-10 * A.rho * summ / (π * h2oMass) / db2np) factor
  else if m = "R24" then npDiv (1e-10 * (A.rho / h2oMass) * (summ / π) / db2np) factor
  else npDiv (3.1831e-05 * A.den * summ / db2np) factor

/-- `H2OAbsModel().h2o_absorption(pdrykpa, vx, ekpa, frq)` for the selected model and loaded line list,
absorption_model.py:484-684: `(npp, ncpp)`.  (`rho.any() <= 0` is true exactly for `rho = 0`.)  For `vx ≤ 0` the
result is not finite. -/
noncomputable def h2oAbsorption (m : String) (ll : LineList) (pdrykpa vx ekpa frq : ℝ) :
    Except PyErr (Option (ℝ × ℝ)) :=
  if 0 < vx then
    let A := waterAir m pdrykpa vx ekpa
    if A.rho = 0 then .ok (some (0, 0))
    else do
      let con ← waterCon m ll A vx frq
      let conNew ← (if m ∈ ["R23SD", "R24"] then waterConNew ll A vx frq else .ok con : Except PyErr (Option ℝ))
      let summ ← waterSum m ll A frq
      return do
        let con ← conNew
        let summ ← summ
        let npp ← waterUnits m A summ (0.182 * frq)
        let ncpp ← npDiv (con / db2np) (0.182 * frq)
        return (npp, ncpp)
  else .ok none

end Verif.Model
