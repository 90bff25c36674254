
namespace Verif.Model
open Verif.Py

def col (c : Col) : Val := Col.val c

structure Profile where
  nl : ℕ
  z : Val
  p : Val
  t : Val
  rh : Val
  o3 : Val

def freeze (n : ℕ) (v : Val) : Array Flt := (Array.range n).map v
def thaw (a : Array Flt) : Val := fun i => a.getD i 0

def get! {ε α : Type} [Inhabited α] : Except ε α → α
  | .ok a => a
  | .error _ => panic! "error"

instance : Inhabited Col := ⟨colOf "" 0⟩
instance : Inhabited Atmosphere := ⟨⟨default, default, default, default, []⟩⟩

/-- `gl_atm`, `ppmv2gkg`, `mr2rh`, `ppmv_to_moleculesm3` as the tests call them. -/
def profile (atm : ℤ) : Profile :=
  let A := get! (glAtm atm)
  let n := A.a.digits.length
  let z := thaw (freeze n (col A.a))
  let p := thaw (freeze n (col A.p))
  let t := thaw (freeze n (col A.t))
  let gkg := thaw (freeze n fun i => get! (ppmv2gkg (col (A.md[0]!) i) 0))
  let rh := thaw (freeze n fun i => ((mr2rh p t gkg none i).1.getD 0) / 100)
  let o3 := thaw (freeze n fun i => (ppmvToMoleculesm3 (col (A.md[2]!) i) (p i * 100) (t i)).getD 0)
  ⟨n, z, p, t, rh, o3⟩

def nil : Val := fun _ => 0

instance : Inhabited Settings where
  default := { nl := 0, z := nil, z0 := 0, p := nil, tk := nil, rh := nil, nf := 0, frq := nil, nang := 0, angles := nil,
               o3n := none, amu := none, rayTracing := false, satellite := true,
               cloudy := false, ice := false, es := [], clouds := none, dens := none }

/-- `TbCloudRTE(z, p, t, rh, np.arange(20, 201, 1), ang)` through the modelled constructor. -/
def build (P : Profile) (angles : List Flt) (o3 : Option Val) (f : Settings → Settings) : Settings :=
  let l (v : Val) : List Flt := (List.range P.nl).map v
  let frq : List Flt := (List.range 181).map fun i => Flt.of (Float.ofNat (20 + i))
  let h : Heap := fun a => match a with
    | 0 => l P.z | 1 => l P.p | 2 => l P.t | 3 => l P.rh | 4 => frq | 5 => angles
    | _ => []
  match construct ⟨10, 11, 12, 13⟩ h
    { z := 0, p := 1, t := 2, rh := 3, frq := 4, angles := 5, o3n := none, amu := none, absmdl := "",
      rayTracing := false, fromSat := true, cloudy := false } with
  | (.ok s, h) =>
    let S := s.settings h
    f { S with o3n := o3, z := thaw (freeze P.nl S.z), p := thaw (freeze P.nl S.p), tk := thaw (freeze P.nl S.tk),
               rh := thaw (freeze P.nl S.rh) }
  | (.error _, _) => panic! "construct"

def show1 : Option Flt → String
  | none => "none"
  | some x =>
    -- shortest output of Lean's Float printing has six decimals; print mantissa and exponent instead
    let (m, e) := x.fl.frExp
    toString ((m.scaleB 53).toInt64) ++ "p" ++ toString (e - 53)

def report (name : String) (rows : Except PyErr (List Row)) : IO Unit := do
  match rows with
  | .ok rows => IO.println (name ++ ":" ++ String.intercalate " " (rows.map fun r => show1 r.tbtotal))
  | .error e => IO.println (name ++ ":" ++ toString (repr e))

def simulate (A : AbsRoutines) (S : Settings) (ops : List Op) : Except PyErr (List Row) :=
  let w := World.after A ([Op.construct S] ++ ops)
  match w.result A 0 with
  | some r => r
  | none => .error .other

def noN2 : Op := .setN2 ""

def ground (S : Settings) : Settings := { S with satellite := false }

def withCloud (P : Profile) : Settings :=
  let l (v : Val) : List Flt := (List.range P.nl).map v
  let frq : List Flt := (List.range 181).map fun i => Flt.of (Float.ofNat (20 + i))
  let h : Heap := fun a => match a with
    | 0 => l P.z | 1 => l P.p | 2 => l P.t | 3 => l P.rh | 4 => frq | 5 => [90]
    | _ => []
  match construct ⟨10, 11, 12, 13⟩ h
    { z := 0, p := 1, t := 2, rh := 3, frq := 4, angles := 5, o3n := none, amu := none, absmdl := "",
      rayTracing := false, fromSat := true, cloudy := false } with
  | (.ok s, h) =>
    let liq := (List.range P.nl).map fun i => if 1 ≤ i ∧ i ≤ 3 then (10 : Flt) else 0
    let ice := (List.range P.nl).map fun i => if 29 ≤ i ∧ i ≤ 31 then (0.1 : Flt) else 0
    (initCloudy h { s with cloudy := true } [(P.z 1, P.z 3), (P.z 29, P.z 31)] ice liq).settings h
  | (.error _, _) => panic! "construct"

/-- Absorption routines with parameter dictionaries built from the line lists of the files. -/
def withParams (mw : String) : AbsRoutines :=
  { shipped with
    h2o := fun m ll p vx e f =>
      match waterFile mw with
      | none => .error .other
      | some file => match waterParams mw file with
        | .error x => .error x
        | .ok P => finite (h2oWith m P ll p vx e f)
    o2 := fun m ll p vx e f =>
      match oxygenGroups.lookup m with
      | none => .error .other
      | some T =>
        let h : Mem := fun a => match T[a]? with | some c => Col.val c.2 | none => fun _ => 0
        let R : Refs := fun a =>
          if a = "len(f)" then (ll a).map fun v => .num (v 0)
          else if ¬ (ll a).isSome then none
          else match T.findIdx? (·.1 = a) with
          | some i => match T[i]? with
            | some (_, c) => if c.digits.length = 1 then some (.num (c.val 0)) else some (.arr i)
            | none => none
          | none => none
        match oxygenParams m R with
        | .error x => .error x
        | .ok P => match o2With m P h R p vx e f with
          | .error x => .error x
          | .ok (r, _) => finite (.ok r) }

def line (name : String) (l : List (Option Flt)) : IO Unit :=
  IO.println (name ++ ":" ++ String.intercalate " " (l.map show1))

def okOr {α : Type} : Except PyErr (Option α) → Option α
  | .ok x => x
  | .error _ => none

/-- Position of a nearest point. -/
def nearest (pts : List (Flt × Flt)) (q : Flt × Flt) : ℕ :=
  ((List.range pts.length).argmin fun i => match pts[i]? with | some p => haversine q p | none => 1e30).getD 0

def frameCol (f : Frame) (n : String) : Array Flt := match f.lookup n with
  | some l => (l.map fun x => x.getD 0).toArray
  | none => #[]

/-- `ERA5Reanalysis.read_data(nc_file, (15.8158, 38.2663))` -/
def eraProfile : Profile := match readEra nearest eraFile (15.8158, 38.2663) with
  | .ok f => ⟨(frameCol f "p").size, thaw (frameCol f "z"), thaw (frameCol f "p"), thaw (frameCol f "t"),
      thaw (frameCol f "rh"), nil⟩
  | .error _ => ⟨0, nil, nil, nil, nil, nil⟩

def first (l : Except PyErr (Option Flt × Option Flt)) : List (Option Flt) := match l with
  | .ok (a, b) => [a, b]
  | .error _ => []

/-- Height of the original profile at the index of the largest weight. -/
def peak (P : Profile) (frq : Flt) : Option Flt :=
  let l (v : Val) : List Flt := (List.range P.nl).map v
  match WF.new (l P.z) (l P.p) (l P.t) (l P.rh) 1 with
  | .error _ => none
  | .ok w =>
    let lastO2 := match oxygenGroups.getLast? with | some g => g.1 | none => ""
    let w := { w with zinterp := w.zinterp, frequencies := some [frq] }
    match (w.generate shipped lastO2 Globals.init).1 with
    | .ok (some [row]) => ((List.range row.length).argmin fun i => -(row.getD i 0)).map P.z
    | _ => none

end Verif.Model

open Verif.Model Verif.Py in
def scalars : IO Unit := do
  let T := profile 0
  let A := get! (glAtm 0)
  let r := List.range T.nl
  let gkg := thaw (freeze T.nl fun i => get! (ppmv2gkg (col (A.md[0]!) i) 0))
  let pc (x : Option Flt) := x.map (· / 100)
  line "gas_mass" ((List.range 32).map fun i => some (get! (gasMass (Int.ofNat i))))
  line "mr2rh" (r.map fun i => pc (mr2rh T.p T.t gkg none i).1)
  line "mr2rh wmo" (r.map fun i => pc (mr2rh T.p T.t gkg none i).2)
  line "mr2rh converted" (r.map fun i => pc (mr2rh T.p T.t gkg (some 260.34) i).1)
  line "mr2rho" (r.map fun i => mr2rho (gkg i) (T.t i) (T.p i))
  line "mr2e" (r.map fun i => mr2e (T.p i) (gkg i))
  line "ppmv2gkg" (r.map fun i => some (gkg i))
  line "atmospheric_tickness" (r.map (atmosphericThickness T.p T.t (some fun i => gkg i / 1000)))
  line "atmospheric_tickness dry" ([0, 1].map
    (atmosphericThickness (thaw #[1000, 500]) (thaw #[280, 244]) none))
  line "esice" (r.map fun i => some (esice (T.t i)))
  let rat (q : Rat) : Flt := q
  match getFrequenciesSat "MWI" with | .ok l => line "frequencies MWI" (l.map fun q => some (rat q)) | _ => pure ()
  match getFrequencies "ARM" with | .ok l => line "frequencies ARM" (l.map fun q => some (rat q)) | _ => pure ()
  line "rho2mr" [rho2mr 9.48940031e-05 275.34 985]
  line "pressure_to_height" [pressureToHeight 850]
  line "height_to_pressure" [heightToPressure 5000]
  line "to_kelvin" [some (toKelvin 25)]
  line "to_celsius" [some (toCelsius 298.25)]
  line "eswat" [some (eswat 273.25)]
  line "satvap" ([0, 1, 2].map fun i => some (satvap (thaw #[273.25, 271.35, 269.05]) (some 270) i))
  line "satmix" [satmix (fun _ => 1000) (fun _ => 273.25) none 0]
  line "satmix converted"
    ([0, 1, 2].map (satmix (thaw #[1000, 950, 850]) (thaw #[273.25, 260.34, 258.36]) (some 260)))
  line "n2 R22SD" [okOr (n2Absorption "R22SD" 267 800 55.0034)]
  line "liquid R22SD" [okOr (liquidAbs "R22SD" 0.05 183.0034 270)]
  line "continuum" [match h2oContinuum 183 1.09 with | .ok x => some x | .error _ => none]
  line "continuum mwl24" [some (h2oContinuumMwl24 22 1.09)]
  line "std temperature" [stdTemperature 12 280]
  line "std pressure" [stdPressure 12 280 1013]
  line "std vapour pressure" [stdVapourPressure 12 2 7.5]
  line "std vapour density" [stdVapour 12 1 7.5]
  for s in ["winter", "summer"] do
    line ("itu pressure " ++ s) ([1, 2, 5].map fun h => okOr (ituPressureAt 38 h s))
    line ("itu temperature " ++ s) ([1, 2, 5].map fun h => okOr (ituTemperature 38 h s))
  for fn in ["A/B", "aA", "aA+bB"] do
    line ("propagation " ++ fn) (first (uncertaintyPropagation fn (-0.033) 2.699 0.005 0.022 1 1 0))
  line "weighting peaks" [peak T 89.0, peak T 57.290344, peak T 57.660544]

open Verif.Model Verif.Py in
def main : IO Unit := do
  let T := profile 0
  let sat (name : String) (ops : List Op) := report name (simulate shipped (build T [90] none id) ops)
  let gnd (name : String) (ops : List Op) := report name (simulate shipped (build T [90] none ground) ops)
  for m in ["R98", "R03", "R16", "R17", "R18"] do sat ("sat " ++ m) [.initAbsmdl m, noN2]
  for m in ["R19", "R19SD", "R20", "R20SD", "R24"] do sat ("sat " ++ m) [.initAbsmdl m]
  sat "sat R21SD" [.initAbsmdl "R20", .setH2O "R21SD"]
  sat "sat R22SD" [.initAbsmdl "R22SD", .setO2 "R22"]
  sat "sat R23SD" [.initAbsmdl "R23SD", .setO2 "R23"]
  sat "sat MWL24" [.initAbsmdl "MWL24", .setO2 "R22"]
  match simulate shipped (build T [90, 37] none fun S => { S with rayTracing := true }) [.initAbsmdl "R19SD"] with
  | .ok rows =>
    report "sat traced 90" (.ok (rows.filter fun r => r.angle == 90))
    report "sat traced 37" (.ok (rows.filter fun r => r.angle == 37))
  | .error e => report "sat traced 37" (.error e)
  report "sat cloudy R98" (simulate shipped (withCloud T) [.initAbsmdl "R98", noN2])
  let U := profile 5
  let o3 : List Op := match ozoneFile "R18" with | some L => [.setO3 "R18", .loadO3 L] | none => []
  report "sat ozone" (simulate shipped (build U [90] (some U.o3) id) ([.initAbsmdl "R20", .setH2O "R21SD"] ++ o3))
  gnd "ground R03" [.initAbsmdl "R03", noN2]
  gnd "ground R19SD" [.initAbsmdl "R19SD"]
  gnd "ground R23SD" [.initAbsmdl "R23SD", .setO2 "R23"]
  gnd "ground R24" [.initAbsmdl "R24"]
  gnd "ground MWL24" [.initAbsmdl "MWL24", .setO2 "R22"]
  for a in [0, 1, 2, 3, 4, 5] do
    report ("atm " ++ toString a) (simulate shipped (build (profile a) [90] none id) [.initAbsmdl "R19SD"])
  report "sat gamma_a" (simulate (withParams "R17") (build T [90] none id) [.initAbsmdl "R17", noN2, .setO2 "R18"])
  report "sat O3_X" (simulate (withParams "R21SD") (build U [90] (some U.o3) id)
    ([.initAbsmdl "R20", .setH2O "R21SD"] ++ o3))
  let E := eraProfile
  let r21 : List Op := [.initAbsmdl "R20", .setH2O "R21SD"]
  report "ground ERA5" (simulate shipped (build E [90] none ground) r21)
  report "sat ERA5" (simulate shipped (build E [90] none id) r21)
  scalars
