import Verif.Model.AbsWater
import Verif.Model.AbsOxygen
import Verif.Model.AbsOzone

/-!
# Spectroscopic parameters as a dictionary, and the absorption routines that take it (`amu`)

`pyrtlib/uncertainty/absmod_uncertainty.py:86-217`, `pyrtlib/absorption_model.py:456-478, 769-793, 1053-1059`.
Only the `value` of a parameter matters for a run.  Arrays in a dictionary are taken to have as many lines as the line
list they are used with.  For oxygen, whose routine writes into arrays, the arrays live in a memory.
-/

namespace Verif.Model

open Verif.Py

/-- Parameter dictionary: the values under their names. -/
abbrev Params := String → Option Val

/-- `amu[k].value`. -/
def param (P : Params) (k : String) : Except PyErr Val :=
  match P k with
  | some v => .ok v
  | none => .error .keyError

/-- Dictionary from a list of entries. -/
def paramsOf (l : List (String × Val)) : Params := fun k => l.lookup k

/-- `SpectroscopicParameter.water_parameters(model)` with the line list already loaded,
absmod_uncertainty.py:105-144. -/
noncomputable def waterParams (m : String) (ll : LineList) : Except PyErr Params := do
  let cf ← attr ll "cf"
  let cs ← attr ll "cs"
  let xcf ← attr ll "xcf"
  let xcs ← attr ll "xcs"
  let fl ← attr ll "fl"
  let s1 ← attr ll "s1"
  let b2 ← attr ll "b2"
  let w0 ← attr ll "w0"
  let w0s ← attr ll "w0s"
  let x ← attr ll "x"
  let xs ← attr ll "xs"
  let common : List (String × Val) := [("con_Cf", cf), ("con_Cs", cs), ("con_Xf", xcf), ("con_Xs", xcs), ("FL", fl),
    ("S", s1), ("B2", b2), ("gamma_a", fun i => w0 i * 1e3), ("gamma_w", fun i => w0s i * 1e3), ("n_a", x), ("n_w", xs),
    ("wv_nS", fun _ => 0)]
  if "R17" < m then do
    let xh ← attr ll "xh"
    let xhs ← attr ll "xhs"
    let sh ← attr ll "sh"
    let shs ← attr ll "shs"
    return paramsOf (common ++ [("con_Cf_factr", fun _ => 1), ("con_Cs_factr", fun _ => 1), ("n_da", xh), ("n_dw", xhs),
      ("delta_a", fun i => sh i * 1e3), ("delta_w", fun i => shs i * 1e3)])
  else do
    let sr ← attr ll "sr"
    return paramsOf (common ++ [("SR", sr), ("con_Cf_factr", fun _ => 1.11), ("con_Cs_factr", fun _ => 0.79)])

/-- `ll.a = v`. -/
def LineList.set (ll : LineList) (a : String) (v : Val) : LineList := fun b => if b = a then some v else ll b

/-- The assignments at the head of `h2o_absorption`, absorption_model.py:456-478: the line list afterwards. -/
noncomputable def amuWater (m : String) (P : Params) (ll : LineList) : Except PyErr LineList := do
  let cf ← param P "con_Cf"
  let cs ← param P "con_Cs"
  let (cf, cs) ← (if "R17" < m then .ok (cf, cs) else do
    let cff ← param P "con_Cf_factr"
    let csf ← param P "con_Cs_factr"
    return (fun i => cf i * cff i, fun i => cs i * csf i) : Except PyErr (Val × Val))
  let ll := (ll.set "cf" cf).set "cs" cs
  let xf ← param P "con_Xf"
  let xs ← param P "con_Xs"
  let s ← param P "S"
  let b2 ← param P "B2"
  let ga ← param P "gamma_a"
  let gw ← param P "gamma_w"
  let na ← param P "n_a"
  let nw ← param P "n_w"
  let ll := ((((((((ll.set "xcf" xf).set "xcs" xs).set "s1" s).set "b2" b2).set "w0" fun i => ga i / 1000.0).set "w0s"
    fun i => gw i / 1000.0).set "x" na).set "xs" nw)
  let ll ← (if "R17" < m then do
      let da ← param P "delta_a"
      let dw ← param P "delta_w"
      let nda ← param P "n_da"
      let ndw ← param P "n_dw"
      return (((ll.set "sh" fun i => da i / 1000.0).set "shs" fun i => dw i / 1000.0).set "xh" nda).set "xhs" ndw
    else do
      let sr ← param P "SR"
      return ll.set "sr" sr : Except PyErr LineList)
  let fl ← param P "FL"
  return ll.set "fl" fl

/-- `H2OAbsModel().h2o_absorption(pdrykpa, vx, ekpa, frq, amu)`. -/
noncomputable def h2oWith (m : String) (P : Params) (ll : LineList) (pdrykpa vx ekpa frq : ℝ) :
    Except PyErr (Option (ℝ × ℝ)) := do
  let ll ← amuWater m P ll
  h2oAbsorption m ll pdrykpa vx ekpa frq

/-! ## Oxygen -/

/-- A Python value held by a parameter or a line list: a number, or a reference to an array. -/
inductive Ref where
  | num (x : ℝ)
  | arr (a : ℕ)

/-- Arrays by address. -/
abbrev Mem := ℕ → Val

/-- Content. -/
def Ref.val (h : Mem) : Ref → Val
  | .num x => fun _ => x
  | .arr a => h a

/-- Attributes of the line-list module, or a parameter dictionary, as references. -/
abbrev Refs := String → Option Ref

/-- The line list seen by the formulas. -/
def Refs.view (h : Mem) (r : Refs) : LineList := fun a => (r a).map (Ref.val h)

/-- `r[k]`. -/
def Refs.get (e : PyErr) (r : Refs) (k : String) : Except PyErr Ref :=
  match r k with
  | some v => .ok v
  | none => .error e

/-- `r.a = v`. -/
def Refs.set (r : Refs) (a : String) (v : Ref) : Refs := fun b => if b = a then some v else r b

/-- `dst[lo:hi] = src[lo:hi]`; a number on either side raises `TypeError`. -/
def sliceCopy (h : Mem) (dst src : Ref) (lo hi : ℕ) : Except PyErr Mem :=
  match dst, src with
  | .arr a, .arr b => .ok (Function.update h a fun n => if lo ≤ n ∧ n < hi then h b n else h a n)
  | _, _ => .error .typeError

/-- `SpectroscopicParameter.oxygen_parameters(model)` with the line list already loaded,
absmod_uncertainty.py:158-191.  Parameters refer to the arrays of the line list. -/
noncomputable def oxygenParams (m : String) (ll : Refs) : Except PyErr Refs := do
  let f ← ll.get .attributeError "f"
  let s300 ← ll.get .attributeError "s300"
  let be ← ll.get .attributeError "be"
  let w300 ← ll.get .attributeError "w300"
  let wb300 ← ll.get .attributeError "wb300"
  let x ← ll.get .attributeError "x"
  let common : List (String × Ref) := [("O2FL", f), ("O2S", s300), ("O2BE", be), ("O2gamma", w300), ("O2gamma_NL", w300),
    ("Snr", .num 1.6e-17), ("WB300", wb300), ("X11", .num 0.785), ("X16", .num 0.765), ("X05", x), ("O2_nS", .num 2),
    ("w2a", .num 1.2)]
  if "R19" < m then do
    let y0 ← ll.get .attributeError "y0"
    let y1 ← ll.get .attributeError "y1"
    let dnu0 ← ll.get .attributeError "dnu0"
    let dnu1 ← ll.get .attributeError "dnu1"
    return fun k => (common ++ [("y0", y0), ("y1", y1), ("dnu0", dnu0), ("dnu1", dnu1)]).lookup k
  else do
    let v ← ll.get .attributeError "v"
    let y300 ← ll.get .attributeError "y300"
    return fun k => (common ++ [("O2_V", v), ("O2_V_NL", v), ("Y300", y300), ("Y300_NL", y300)]).lookup k

/-- The assignments at the head of `o2_absorption`, absorption_model.py:769-793: memory and line list afterwards. -/
noncomputable def amuOxygen (m : String) (P : Refs) (h : Mem) (ll : Refs) : Except PyErr (Mem × Refs) := do
  let w2a ← P.get .keyError "w2a"
  let ll := ll.set "w2a" w2a
  let g ← P.get .keyError "O2gamma"
  let w ← ll.get .attributeError "w300"
  let h ← sliceCopy h w g 0 38
  let g ← P.get .keyError "O2gamma_NL"
  let h ← sliceCopy h w g 34 49
  let wb ← P.get .keyError "WB300"
  let f ← P.get .keyError "O2FL"
  let s ← P.get .keyError "O2S"
  let be ← P.get .keyError "O2BE"
  let x11 ← P.get .keyError "X11"
  let x16 ← P.get .keyError "X16"
  let x05 ← P.get .keyError "X05"
  let snr ← P.get .keyError "Snr"
  let ns ← P.get .keyError "O2_nS"
  let ll := (((((((((ll.set "wb300" wb).set "f" f).set "s300" s).set "be" be).set "x11" x11).set "x16" x16).set
    "x05" x05).set "x" x05).set "snr" snr).set "ns" ns
  if "R19" < m then do
    let y0 ← P.get .keyError "y0"
    let y1 ← P.get .keyError "y1"
    let dnu0 ← P.get .keyError "dnu0"
    let dnu1 ← P.get .keyError "dnu1"
    return (h, (((ll.set "y0" y0).set "y1" y1).set "dnu0" dnu0).set "dnu1" dnu1)
  else do
    let y ← P.get .keyError "Y300"
    let ynl ← P.get .keyError "Y300_NL"
    let h ← sliceCopy h y ynl 34 49
    let v ← P.get .keyError "O2_V"
    let vnl ← P.get .keyError "O2_V_NL"
    let h ← sliceCopy h v vnl 34 49
    return (h, (ll.set "y300" y).set "v" v)

/-- `O2AbsModel().o2_absorption(pdrykpa, vx, ekpa, frq, amu)`: result, and the memory afterwards. -/
noncomputable def o2With (m : String) (P : Refs) (h : Mem) (ll : Refs) (pdrykpa vx ekpa frq : ℝ) :
    Except PyErr (Option (ℝ × ℝ) × Mem) := do
  let (h, ll) ← amuOxygen m P h ll
  let r ← o2Absorption m (ll.view h) pdrykpa vx ekpa frq
  return (r, h)

end Verif.Model
