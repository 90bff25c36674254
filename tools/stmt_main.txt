
namespace Verif.Check
open Verif.Py Verif.Model Verif.Spec Real

/-! Both sides of the closed formulas, evaluated. -/

/-- The definitions used in the statement of `C98_table` (Props/SkyForm, Props/ClosedForm, Props/FullSky). -/
def skyRow (X : Sky) (above : Bool) (ε ν θ : ℝ) (cloud : Option (ℕ × ℕ)) : Row :=
  { tbtotal := some (temperature ν (behind (X.background above ε ν) X.opacity + X.air above ν))
    tbatm := some (temperature ν (if above then 0 else X.air above ν))
    tmr := meanTemperature ν (X.air above ν) X.opacity
    tmrcld := match cloud with
      | none => some 0
      | some (b, t) => X.cloudTemperature above ν b t
    tauwet := some (∑ i ∈ Finset.Icc 1 X.top, X.gas X.wet i)
    taudry := some (∑ i ∈ Finset.Icc 1 X.top, X.gas X.dry i)
    tauliq := some (∑ i ∈ Finset.Icc 1 X.top, X.cloud X.liq i)
    tauice := some (∑ i ∈ Finset.Icc 1 X.top, X.cloud X.ice i)
    angle := θ }

def cloudOf (S : Settings) : Option (ℕ × ℕ) := if S.cloudy then S.clouds.bind List.head? else none

def sceneOf (S : Settings) : Scene := ⟨S.nl - 1, S.z, S.p, S.tk, S.rh⟩

def fullScene (S : Settings) : FullScene where
  toScene := sceneOf S
  ozone := S.o3n
  liquid := match S.cloudy, S.dens with
    | true, some (dl, _) => dl
    | _, _ => fun _ => 0
  ice := match S.cloudy, S.dens with
    | true, some (_, di) => di
    | _, _ => fun _ => 0

/-! ## Reporting -/

def show1 (x : Flt) : String :=
  let (m, e) := x.fl.frExp
  toString ((m.scaleB 53).toInt64) ++ "p" ++ toString (e - 53)

def showO : Option Flt → String
  | none => "none"
  | some x => show1 x

/-- One comparison: claim, description, what the program gives, what the formula gives. -/
def cmp (claim what : String) (got want : String) : IO Unit :=
  IO.println (claim ++ "|" ++ what ++ "|" ++ got ++ "|" ++ want)

def cmpF (claim what : String) (got : Option Flt) (want : Flt) : IO Unit := cmp claim what (showO got) (show1 want)

def cmpC (claim what : String) (got : Option Complex) (want : Complex) : IO Unit := do
  cmp claim (what ++ " re") (showO (got.map (·.re))) (show1 want.re)
  cmp claim (what ++ " im") (showO (got.map (·.im))) (show1 want.im)

def fl {α : Type} : Except PyErr (Option α) → Option α
  | .ok x => x
  | .error _ => none

def cols (F : LineList) : String → ℕ → ℝ := fun a => (F a).getD fun _ => 0

def count (F : LineList) (a : String) : ℕ := match F a with
  | some v => Int.toNat (Flt.floor (v 0))
  | none => 0

def thaw (a : Array Flt) : Val := fun i => a.getD i 0

def waterNames := ["R98", "R03", "R16", "R17", "R18", "R19", "R19SD", "R20", "R20SD", "R21SD", "R22SD", "R23SD", "R24", "MWL24"]
def oxygenNames := ["R98", "R03", "R16", "R17", "R18", "R19", "R19SD", "R20", "R20SD", "R22", "R23", "R24"]
def nitrogenNames := ["R98", "R03", "R16", "R17", "R18", "R19", "R19SD", "R20", "R20SD", "R21SD", "R22", "R22SD", "R23",
  "R23SD", "R24", "MWL24"]
def liquidNames := ["R98", "R03", "R16", "R17", "R19", "R19SD", "R20", "R22SD", "R23", "R23SD", "R24"]

/-- Points `(dry pressure kPa, 300/T, vapour pressure kPa)`. -/
def airs : List (Flt × Flt × Flt) := [(100, 1.02, 1.5), (45, 1.2, 0.2), (8, 1.38, 0.001)]

def freqs : List Flt := [5, 22.2, 58.5, 118.7, 184, 325, 800]

def waterChecks : IO Unit := do
  for m in waterNames do
    match waterFile m with
    | none => cmp "C68" ("file " ++ m) "none" "some"
    | some F =>
      let c := cols F
      let n := count F "len(fl)"
      for (p, vx, e) in airs do
        let T := 300 / vx
        let pv := vapourPressure m T e
        let pd := dryPressure m T p e
        for f in freqs do
          let r := fl (h2oAbsorption m (reloadLL F fun _ => none) p vx e f)
          let unit := 0.182 * f * (log 10 / 10)
          cmpF "C68" (m ++ " lines") (r.map fun x => x.1 * unit) (lineAbsorption m (vapourDensity T e) (lineSum m c n T pd pv f))
          let con : Flt :=
            if m = "R98" ∨ m = "R03" then continuum 5.43e-10 3 1.8e-8 7.5 (c "reftcon" 0 * vx / 300) pd pv f
            else if m = "MWL24" then
              (dimerContinuum T f * pv + 7.1e-10 * (300 / T) ^ (4.4 : ℝ) * f ^ (1.96 : ℝ) * pd) * pv
            else if m = "R23SD" ∨ m = "R24" then
              continuum (c "cf" 0) (c "xcf" 0) (selfContinuum T f) 0 (c "reftline" 0 * vx / 300) pd pv f
            else continuum (c "cf" 0) (c "xcf" 0) (c "cs" 0) (c "xcs" 0) (c "reftcon" 0 * vx / 300) pd pv f
          cmpF (if m = "MWL24" then "C98" else "C68") (m ++ " continuum") (r.map fun x => x.2 * unit) con

def oxygenChecks : IO Unit := do
  for m in oxygenNames do
    match oxygenFile m with
    | none => cmp "C69" ("file " ++ m) "none" "some"
    | some F =>
      let c := cols F
      let n := count F "len(f)"
      for (p, vx, e) in airs do
        for f in freqs do
          let r := fl (o2Absorption m (reloadLL F fun _ => none) p vx e f)
          let unit := 0.182 * f * (log 10 / 10)
          cmpF "C69" (m ++ " both") (r.map fun x => (x.1 + x.2) * unit) (oxyAbsorption m c n (300 / vx) (10 * (p + e)) (10 * e) f)
          if m ∈ ["R19", "R19SD", "R20", "R20SD", "R22", "R23", "R24"] then
            cmpF "C69" (m ++ " band") (r.map fun x => x.2) 0
          else
            let pv := oxyVapour m (300 / vx) e
            let pd := 10 * p + 10 * e - pv
            let d := broadening m (c "x" 0) vx pd pv
            cmpF "C69" (m ++ " band") (r.map fun x => x.2 * unit) (oxyUnits m * pd * vx ^ 3 *
              debye (if m = "R98" ∨ m = "R03" then 1.6e-17 else 1.584e-17) vx (c "wb300" 0 * d) f)

def ozoneChecks : IO Unit := do
  for m' in ["R22"] do
    match ozoneFile m' with
    | none => pure ()
    | some F =>
      let c := cols F
      let n := count F "len(fl)"
      for m in ["R18", "R22", "R24"] do
        for (T, p) in [((290 : Flt), (800 : Flt)), (230, 20), (250, 0.5)] do
          for f in [c "fl" 0, c "fl" 3 + 0.3, c "fl" 7 - 0.02, c "fl" 11 + 0.0004, 110.5, 31.4, c "fl" 5 + 0.97,
              c "fl" 5 - 0.97] do
            cmpF "C98" ("ozone " ++ m) (fl (o3Absorption m (reloadLL F fun _ => none) T p f 2e18))
              (ozoneAbsorption m c n T p f 2e18)

def smallChecks : IO Unit := do
  for m in nitrogenNames do
    for (t, p) in [((295 : Flt), (1000 : Flt)), (210, 150)] do
      for f in [(20 : Flt), 90, 360, 700] do
        cmpF "C80" m (fl (n2Absorption m t p f)) (nitrogenAbsorption m t p f)
  for m in liquidNames do
    for t in [(240 : Flt), 270, 293] do
      for f in [(20 : Flt), 90, 360, 700] do
        cmpF "C81" m (fl (liquidAbs m 0.3 f t)) (liquidAbsorption m t 0.3 f)
    cmpF "C33" (m ++ " dry") (fl (liquidAbs m 0 90 270)) 0
    cmpF "C33" (m ++ " negative") (fl (liquidAbs m (-1) 90 270)) 0
  for (x, y) in [((0.3 : Flt), (0.2 : Flt)), (-2, 0.7), (5, 3), (0, 1), (12, 0)] do
    cmpC "C70" "upper" (dcerror x y) (hui ⟨y, -x⟩)
    match dcerror x (-y), dcerror x y with
    | some u, some w => if 0 < y then cmpC "C70" "lower" (some (u + w)) (2 * Complex.exp (-(⟨x, -y⟩ : Complex) ^ 2))
    | _, _ => cmp "C70" "lower" "none" "some"
  for T in [(210 : Flt), 260, 300] do
    for f in [(0 : Flt), 10, 150, 299.792458, 400, 599.584916, 700, 899.377374, 1100] do
      cmpF "C36" "self continuum" (match h2oContinuum f (300 / T) with | .ok x => some x | .error _ => none) (selfContinuum T f)
    for f in [(10 : Flt), 150, 700] do
      cmpF "C98" "dimers" (some (h2oContinuumMwl24 f (300 / T))) (dimerContinuum T f)
  for t in [(200 : Flt), 250, 300] do
    cmpF "C20" "saturation" (some ((10 : Flt) ^ vaporExponent t)) (saturation t)
    cmpF "C20" "eswat" (some (eswat t)) (saturation t)

/-! ## Whole simulations -/

structure Case where
  water : String
  oxygen : String
  nitrogen : String
  ozone : Option String
  liquid : String
  sat : Bool
  cloudy : Bool

def levels : ℕ := 5

def settings (C : Case) (frq : List Flt) : Settings where
  nl := levels
  z := thaw #[0, 0.8, 2.5, 6, 14]
  z0 := 0.3
  p := thaw #[1000, 905, 740, 470, 140]
  tk := thaw #[298, 293, 281, 259, 214]
  rh := thaw #[0.8, 0.9, 0.55, 0.3, 0]
  nf := frq.length
  frq := fun i => frq.getD i 0
  nang := 2
  angles := thaw #[90, 35]
  o3n := if C.ozone.isSome then some (thaw #[7e17, 6e17, 6e17, 8e17, 3e18]) else none
  amu := none
  rayTracing := false
  satellite := C.sat
  cloudy := C.cloudy
  ice := false
  es := (List.range frq.length).map fun i => 1 - Flt.of (Float.ofNat i) / 20
  clouds := if C.cloudy then some [(1, 3)] else none
  dens := if C.cloudy then some (thaw #[0, 0.3, 0.2, 0.05, 0], thaw #[0, 0, 0.01, 0.05, 0.02]) else none

def freezeSky (X : Sky) : Sky :=
  let fr (v : Val) : Val := thaw ((Array.range levels).map v)
  { X with wet := fr X.wet, dry := fr X.dry, liq := fr X.liq, ice := fr X.ice, len := fr X.len }

def mkComposition (W O : LineList) (Z : Option LineList) (C : Case) : Composition :=
  { water := C.water, waterList := cols W, waterLines := count W "len(fl)",
    oxygen := C.oxygen, oxygenList := cols O, oxygenLines := count O "len(f)",
    nitrogen := C.nitrogen, ozone := C.ozone, ozoneList := (match Z with | some Z => cols Z | none => fun _ _ => 0),
    ozoneLines := (match Z with | some Z => count Z "len(fl)" | none => 0), liquid := C.liquid }

def runCase (C : Case) : IO Unit := do
  let frq : List Flt := [22.2, 110.84, 325]
  let Z := if C.ozone.isSome then ozoneFile "R22" else none
  match waterFile C.water, oxygenFile C.oxygen with
  | some W, some O =>
    let S := settings C frq
    let G := mkComposition W O Z C
    let g : Globals := { Globals.init with
      sel := { h2o := some C.water, o2 := some C.oxygen, n2 := some C.nitrogen, o3 := C.ozone, liq := some C.liquid }
      o3ll := match Z with | some Z => reloadLL Z fun _ => none | none => fun _ => none }
    let what := C.water ++ " " ++ C.oxygen ++ " " ++ C.nitrogen ++ (match C.ozone with | some m => " o3 " ++ m | none => "") ++
      (if C.sat then " sat" else " ground") ++ (if C.cloudy then " cloudy" else "")
    match (execute shipped g ⟨S, Store.zero⟩).1 with
    | .error e => cmp "C98" what (reprStr e) "rows"
    | .ok rows =>
      let want := (List.range S.nang).flatMap fun k => (List.range S.nf).map fun j =>
        let len : Val := fun i => (S.z i - S.z (i - 1)) / sin (S.angles k * π / 180)
        skyRow (freezeSky ((fullScene S).sky G len (S.frq j))) S.satellite (S.es.getD j 0) (S.frq j) (S.angles k) (cloudOf S)
      cmp "C98" (what ++ " rows") (toString rows.length) (toString want.length)
      for (r, w) in rows.zip want do
        for (n, a, b) in [("tbtotal", r.tbtotal, w.tbtotal), ("tbatm", r.tbatm, w.tbatm), ("tmr", r.tmr, w.tmr),
            ("tmrcld", r.tmrcld, w.tmrcld), ("tauwet", r.tauwet, w.tauwet), ("taudry", r.taudry, w.taudry),
            ("tauliq", r.tauliq, w.tauliq), ("tauice", r.tauice, w.tauice), ("angle", some r.angle, some w.angle)] do
          cmp (if n = "tmrcld" then "C98c" else "C98") (what ++ " " ++ n) (showO a) (showO b)
  | _, _ => cmp "C98" "files" "none" "some"

def caseList : List Case :=
  (List.range 14).map (fun i =>
    { water := waterNames.getD i "", oxygen := oxygenNames.getD (i % 12) "", nitrogen := nitrogenNames.getD i "",
      ozone := [none, some "R18", some "R22", some "R24"].getD (i % 4) none, liquid := liquidNames.getD (i % 11) "",
      sat := i % 2 == 0, cloudy := i % 3 != 0 }) ++
  (List.range 6).map (fun i =>
    { water := waterNames.getD (13 - 2 * i) "", oxygen := oxygenNames.getD (11 - i) "", nitrogen := nitrogenNames.getD (15 - i) "",
      ozone := [some "R22SD", none].getD (i % 2) none, liquid := liquidNames.getD (10 - i) "", sat := i % 2 == 1,
      cloudy := i % 3 == 0 })

end Verif.Check

open Verif.Check in
def main : IO Unit := do
  waterChecks
  oxygenChecks
  ozoneChecks
  smallChecks
  for C in caseList do runCase C
