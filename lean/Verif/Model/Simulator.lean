import Verif.Model.Integration
import Verif.Model.Cloud
import Verif.Model.Vapor
import Verif.Model.RayTracing

/-!
# The simulator `TbCloudRTE.execute`

`pyrtlib/tb_spectrum.py:180-405`, `pyrtlib/rt_equation.py:465-567`.

The absorption routines of the five species and the line-list files are parameters (`AbsRoutines`).
Process-wide state (class attributes, line-list modules) is `Globals`; the attributes of one simulator
are `Settings` (what the user sets) and `Store` (the output arrays kept on the object between runs).
Absorption values are assumed finite.  A non-finite path (horizontal ray, failed ray tracing layer) is
tracked as `Path.nonfinite`; everything computed from it is reported as `none`.
-/

namespace Verif.Model

open Verif.Py Real

/-- Value of a line-list attribute (a scalar is a constant array). -/
abbrev Val := ℕ → ℝ

/-- Attributes of a line-list module (`h2oll`, `o2ll`, `o3ll`); `none`: no such attribute. -/
abbrev LineList := String → Option Val

/-- `reload` of a line-list module: attributes assigned by the module body are replaced, attributes left
over from an earlier load survive (`importlib.reload` keeps the module dictionary), utils.py:40-48. -/
def reloadLL (new old : LineList) : LineList := fun a => (new a).orElse fun _ => old a

/-- What `amu` does to one attribute of a line list: nothing, `ll.a = v`, or `ll.a[lo:hi] = ...`. -/
inductive AttrUpd where
  | keep
  | assign (v : Val)
  | slice (m : ℕ → Option ℝ)

/-- Apply to the attribute's present value. -/
def AttrUpd.apply : AttrUpd → Option Val → Option Val
  | .keep, o => o
  | .assign v, _ => some v
  | .slice m, o => o.map fun w n => (m n).getD (w n)

/-- Spectroscopic parameters (`amu`): for each species and model name the attribute updates made at the head
of the absorption routines (absorption_model.py:456-478, 769-793, 1056-1062).  Missing keys (`KeyError`) are
not modelled. -/
structure Amu where
  h2o : String → String → AttrUpd
  o2 : String → String → AttrUpd
  o3 : String → AttrUpd

/-- Class attributes `H2OAbsModel.model` etc.; `none`: never assigned (the class still holds the property). -/
structure Sel where
  h2o : Option String
  o2 : Option String
  n2 : Option String
  liq : Option String
  o3 : Option String

/-- Process-wide state. -/
structure Globals where
  sel : Sel
  h2oll : LineList
  o2ll : LineList
  o3ll : LineList
  fromSat : Bool
  emissivity : ℝ

/-- State of a new process. -/
def Globals.init : Globals :=
  { sel := ⟨none, none, none, none, none⟩, h2oll := fun _ => none, o2ll := fun _ => none,
    o3ll := fun _ => none, fromSat := true, emissivity := 1 }

/-- The absorption routines and line-list files.  `h2o model lineList pdrykpa vx ekpa frq` and `o2 ...` return
`(npp, ncpp)`; `n2 model t p f`, `o3 model lineList t p f o3n`, `liq model water freq temp` return Np/km. -/
structure AbsRoutines where
  h2o : String → LineList → ℝ → ℝ → ℝ → ℝ → Except PyErr (ℝ × ℝ)
  o2 : String → LineList → ℝ → ℝ → ℝ → ℝ → Except PyErr (ℝ × ℝ)
  n2 : String → ℝ → ℝ → ℝ → Except PyErr ℝ
  o3 : String → LineList → ℝ → ℝ → ℝ → ℝ → Except PyErr ℝ
  liq : String → ℝ → ℝ → ℝ → Except PyErr ℝ
  h2oFile : String → Option LineList
  o2File : String → Option LineList

/-- Attributes of a simulator set by constructor, setters and `init_cloudy`. -/
structure Settings where
  nl : ℕ
  z : Val
  z0 : ℝ
  p : Val
  tk : Val
  rh : Val
  nf : ℕ
  frq : Val
  nang : ℕ
  angles : Val
  o3n : Option Val
  amu : Option Amu
  rayTracing : Bool
  satellite : Bool
  cloudy : Bool
  ice : Bool
  es : List ℝ
  /-- `(beglev[j], endlev[j])`; `none`: `init_cloudy` was never called -/
  clouds : Option (List (ℕ × ℕ))
  /-- `(denliq, denice)`; `none`: never set -/
  dens : Option (Val × Val)

/-- Outputs of one frequency and angle. -/
structure Cell where
  awet : Val
  adry : Val
  ptauwet : Option Val
  ptaudry : Option Val
  ptauliq : Option Val
  ptauice : Option Val
  sptauwet : Option ℝ
  sptaudry : Option ℝ
  sptauliq : Option ℝ
  sptauice : Option ℝ
  tbtotal : Option ℝ
  tbatm : Option ℝ
  tmr : Option ℝ
  tmrcld : Option ℝ

/-- `np.zeros` for every array, tb_spectrum.py:105-119. -/
def Cell.zero : Cell :=
  ⟨fun _ => 0, fun _ => 0, some fun _ => 0, some fun _ => 0, some fun _ => 0, some fun _ => 0,
    some 0, some 0, some 0, some 0, some 0, some 0, some 0, some 0⟩

/-- Path integrals of one angle. -/
structure PathOut where
  srho : Option ℝ
  swet : Option ℝ
  sdry : Option ℝ
  sliq : Option ℝ
  sice : Option ℝ

/-- tb_spectrum.py:120-124. -/
def PathOut.zero : PathOut := ⟨some 0, some 0, some 0, some 0, some 0⟩

/-- The output arrays kept on the object, indexed `[frequency, angle]` and `[angle]`. -/
structure Store where
  cell : ℕ → ℕ → Cell
  path : ℕ → PathOut

/-- Allocation in the constructor, tb_spectrum.py:105-124. -/
def Store.zero : Store := ⟨fun _ _ => Cell.zero, fun _ => PathOut.zero⟩

/-- Path increments handed to the integrations. -/
inductive Path where
  /-- `ray_tracing` returned `None` -/
  | missing
  /-- some increment is not finite -/
  | nonfinite
  | ok (ds : Val)

/-- `for i in range(n): a[i] = f i` where `f` may raise; entries from `n` on keep `d`. -/
def tabulateE {α : Type*} (n : ℕ) (f : ℕ → Except PyErr α) (d : α) : Except PyErr (ℕ → α) :=
  forRangeE 0 n (fun i s => (f i).map fun v => Function.update s i v) (fun _ => d)

open Classical in
/-- Distances between levels for angle `k`, tb_spectrum.py:324-329. -/
noncomputable def pathOf (S : Settings) (refindx : Val) (k : ℕ) : Path :=
  if S.rayTracing then
    match rayTracing ⟨S.nl, S.z, refindx, S.angles k, S.z0⟩ with
    | none => .missing
    | some d => if ∀ i < S.nl, (d i).isSome then .ok fun i => (d i).getD 0 else .nonfinite
  else
    match npDiv 1 (sin (S.angles k * π / 180)) with
    | none => .nonfinite
    | some amass => .ok fun i => if i = 0 then 0 else (S.z i - S.z (i - 1)) * amass

/-- `exponential_integration` on a path.  With `ds = None` the subscript raises `TypeError` as soon as a layer
is completed; a negative value in the first layer returns before `ds` is touched. -/
noncomputable def integ (zeroflg : Bool) (nl : ℕ) (x : Val) (ds : Path) (ibeg : ℕ) (factor : ℝ) :
    Except PyErr (Option ℝ × Option Val) :=
  match ds with
  | .missing =>
    if ibeg < nl ∧ layerValue zeroflg (prevEntry x nl ibeg) (x ibeg) ≠ none then .error .typeError
    else .ok (some 0, some fun _ => 0)
  | .nonfinite => .ok (none, none)
  | .ok d => (expInt zeroflg nl x d ibeg nl factor).map fun r => (some r.1, some r.2)

/-- `cloud_integrated_density` on a path. -/
noncomputable def cloudDen (den : Val) (ds : Path) (clouds : List (ℕ × ℕ)) : Except PyErr (Option ℝ) :=
  match ds with
  | .missing => if ∃ c ∈ clouds, c.1 + 1 < c.2 then .error .typeError else .ok (some 0)
  | .nonfinite => .ok none
  | .ok d => .ok (some (cloudDensity den d clouds))

/-- The species models used for ozone, rt_equation.py:561. -/
def ozoneModels : List String := ["R18", "R21", "R21SD", "R22", "R22SD", "R23", "R23SD", "R24"]

/-- Is ozone absorption computed? rt_equation.py:561 -/
def ozoneActive (sel : Sel) (o3n : Option Val) : Prop :=
  o3n.isSome ∧ ∃ m, sel.o3 = some m ∧ m ∈ ozoneModels

instance (sel : Sel) (o3n : Option Val) : Decidable (ozoneActive sel o3n) := by
  unfold ozoneActive
  cases sel.o3 with
  | none => exact isFalse (by simp)
  | some m => exact decidable_of_iff (o3n.isSome ∧ m ∈ ozoneModels) (by simp)

/-- Line lists after the `if amu:` blocks of the routines called by one `clearsky_absorption`.  The code
repeats the assignments at every level; `AttrUpd.apply` is idempotent (`amuApply_idem`), so once is enough. -/
def amuApply (amu : Option Amu) (o3n : Option Val) (g : Globals) : Globals :=
  match amu with
  | none => g
  | some u =>
    { g with
      h2oll := match g.sel.h2o with
        | none => g.h2oll
        | some m => fun a => (u.h2o m a).apply (g.h2oll a)
      o2ll := match g.sel.o2 with
        | none => g.o2ll
        | some m => fun a => (u.o2 m a).apply (g.o2ll a)
      o3ll := if ozoneActive g.sel o3n then fun a => (u.o3 a).apply (g.o3ll a) else g.o3ll }

/-- `db2np`, rt_equation.py:544 -/
noncomputable def db2np : ℝ := log 10.0 * 0.1

/-- Nitrogen term, rt_equation.py:557-559.  A never-assigned class attribute is a (truthy) property object that
is in no list of names: `ValueError`. -/
def n2Term (A : AbsRoutines) (sel : Sel) (t p frq : ℝ) : Except PyErr ℝ :=
  match sel.n2 with
  | none => .error .valueError
  | some m => if m = "" then .ok 0 else A.n2 m t p frq

/-- Ozone term, rt_equation.py:561-563. -/
def o3Term (A : AbsRoutines) (g : Globals) (o3n : Option Val) (t p frq : ℝ) (i : ℕ) : Except PyErr ℝ :=
  if ozoneActive g.sel o3n then
    match g.sel.o3, o3n with
    | some m, some n => A.o3 m g.o3ll t p frq (n i)
    | _, _ => .ok 0
  else .ok 0

/-- One level of `clearsky_absorption`, rt_equation.py:545-565: `(awet[i], adry[i])`. -/
noncomputable def clearLevel (A : AbsRoutines) (g : Globals) (o3n : Option Val) (p t e frq : ℝ) (i : ℕ) :
    Except PyErr (ℝ × ℝ) :=
  let factor := 0.182 * frq
  let v := 300.0 / t
  let ekpa := e / 10.0
  let pdrykpa := p / 10.0 - ekpa
  match g.sel.h2o, g.sel.o2 with
  | some mw, some mo => do
    let w ← A.h2o mw g.h2oll pdrykpa v ekpa frq
    let o ← A.o2 mo g.o2ll pdrykpa v ekpa frq
    let aN2 ← n2Term A g.sel t (pdrykpa * 10) frq
    let aO3 ← o3Term A g o3n t p frq i
    return (factor * (w.1 + w.2) * db2np, factor * (o.1 + o.2) * db2np + aN2 + aO3)
  | _, _ => .error .attributeError

/-- `RTEquation.clearsky_absorption`, rt_equation.py:510-567, with the line lists already updated. -/
noncomputable def clearsky (A : AbsRoutines) (g : Globals) (S : Settings) (e : Val) (frq : ℝ) :
    Except PyErr (ℕ → ℝ × ℝ) :=
  tabulateE S.nl (fun i => clearLevel A g S.o3n (S.p i) (S.tk i) (e i) frq i) (0, 0)

/-- Liquid term, rt_equation.py:499-501. -/
noncomputable def liqTerm (A : AbsRoutines) (liq : Option String) (t denl frq : ℝ) : Except PyErr ℝ :=
  if 0 < denl then
    match liq with
    | none => .error .valueError
    | some m => A.liq m denl frq t
  else .ok 0

/-- One level of `RTEquation.cloudy_absorption`, rt_equation.py:487-508: `(aliq[i], aice[i])`. -/
noncomputable def cloudyLevel (A : AbsRoutines) (liq : Option String) (t denl deni frq : ℝ) :
    Except PyErr (ℝ × ℝ) :=
  let wave := cLight * 100 / (frq * 1e9)
  (liqTerm A liq t denl frq).map fun aliq =>
    (aliq, if 0 < deni then 8.18645 / wave * deni * 0.000959553 * db2np else 0)

/-- `RTEquation.cloudy_absorption`. -/
noncomputable def cloudyAbs (A : AbsRoutines) (liq : Option String) (nl : ℕ) (t denl deni : Val) (frq : ℝ) :
    Except PyErr (ℕ → ℝ × ℝ) :=
  tabulateE nl (fun i => cloudyLevel A liq (t i) (denl i) (deni i) frq) (0, 0)

/-- Sum of the four layer opacities, tb_spectrum.py:368-371. -/
noncomputable def Cell.taulay (c : Cell) : Option Val :=
  match c.ptauwet, c.ptaudry, c.ptauice, c.ptauliq with
  | some w, some d, some i, some l => some fun n => w n + d n + i n + l n
  | _, _, _, _ => none

/-- Radiative transfer of one cell, tb_spectrum.py:373-382. -/
noncomputable def cellRadiance (g : Globals) (S : Settings) (frq : ℝ) (c : Cell) :
    Except (PyErr × Cell) Cell :=
  match c.taulay with
  | none =>
    if S.cloudy then
      match S.clouds with
      | none => .error (.attributeError, c)
      | some [] => .error (.indexError, c)
      | some (_ :: _) => .ok { c with tbtotal := none, tbatm := none, tmr := none, tmrcld := none }
    else .ok { c with tbtotal := none, tbatm := none, tmr := none }
  | some tau =>
    match planck g.fromSat g.emissivity frq S.nl S.tk tau with
    | none => .error (.indexError, c)
    | some out =>
      let fin (c : Cell) : Cell :=
        { c with
          tbtotal := bright out.hvk out.boftotl
          tbatm := bright out.hvk (out.boftatm (S.nl - 1))
          tmr := out.boftmr.bind (bright out.hvk) }
      if S.cloudy then
        match S.clouds with
        | none => .error (.attributeError, c)
        | some [] => .error (.indexError, c)
        | some ((b, t) :: _) =>
          .ok (fin { c with tmrcld := (cloudTemp b t out.hvk out.tauprof out.boftatm).join })
      else .ok (fin c)

/-- Integration of the clear-sky absorption, tb_spectrum.py:350-357. -/
noncomputable def cellClear (S : Settings) (ds : Path) (a : ℕ → ℝ × ℝ) (c : Cell) : Except (PyErr × Cell) Cell :=
  let aw : Val := fun i => (a i).1
  let ad : Val := fun i => (a i).2
  let c := { c with awet := aw, adry := ad }
  match integ true S.nl aw ds 1 1 with
  | .error x => .error (x, c)
  | .ok w =>
    let c := { c with sptauwet := w.1, ptauwet := w.2 }
    match integ true S.nl ad ds 1 1 with
    | .error x => .error (x, c)
    | .ok d => .ok { c with sptaudry := d.1, ptaudry := d.2 }

/-- Cloud part, tb_spectrum.py:358-366. -/
noncomputable def cellCloud (A : AbsRoutines) (liq : Option String) (S : Settings) (ds : Path) (frq : ℝ)
    (c : Cell) : Except (PyErr × Cell) Cell :=
  if S.cloudy then
    match S.dens with
    | none => .error (.attributeError, c)
    | some (denl, deni) =>
      match cloudyAbs A liq S.nl S.tk denl deni frq with
      | .error x => .error (x, c)
      | .ok a =>
        match integ false S.nl (fun i => (a i).1) ds 1 1 with
        | .error x => .error (x, c)
        | .ok l =>
          let c := { c with sptauliq := l.1, ptauliq := l.2 }
          match integ false S.nl (fun i => (a i).2) ds 1 1 with
          | .error x => .error (x, c)
          | .ok i => .ok { c with sptauice := i.1, ptauice := i.2 }
  else .ok c

/-- Body of the frequency loop, tb_spectrum.py:348-382, on the present content of the cell. -/
noncomputable def cellStep (A : AbsRoutines) (S : Settings) (e : Val) (ds : Path) (j : ℕ) (g : Globals)
    (c : Cell) : Except (PyErr × Cell) Cell :=
  match clearsky A g S e (S.frq j) with
  | .error x => .error (x, c)
  | .ok a =>
    (cellClear S ds a c).bind fun c =>
    (cellCloud A g.sel.liq S ds (S.frq j) c).bind fun c =>
    cellRadiance g S (S.frq j) c

/-- State during a run. -/
structure RunState where
  g : Globals
  out : Store

/-- Write one cell. -/
def Store.setCell (o : Store) (j k : ℕ) (c : Cell) : Store :=
  { o with cell := fun j' k' => if j' = j ∧ k' = k then c else o.cell j' k' }

/-- Write the path integrals of one angle. -/
def Store.setPath (o : Store) (k : ℕ) (q : PathOut) : Store :=
  { o with path := fun k' => if k' = k then q else o.path k' }

/-- Body of the frequency loop including the process-wide attributes it writes (line 348 and `amu`).  An
emissivity array shorter than the number of frequencies raises `IndexError`. -/
noncomputable def freqBody (A : AbsRoutines) (S : Settings) (e : Val) (ds : Path) (k j : ℕ) (s : RunState) :
    Except (PyErr × RunState) RunState :=
  match S.es[j]? with
  | none => .error (.indexError, s)
  | some es =>
    let g := { s.g with emissivity := es }
    let g := if S.nl = 0 then g else amuApply S.amu S.o3n g
    match cellStep A S e ds j g (s.out.cell j k) with
    | .error (x, c) => .error (x, ⟨g, s.out.setCell j k c⟩)
    | .ok c => .ok ⟨g, s.out.setCell j k c⟩

/-- Path integrals of angle `k`, tb_spectrum.py:333-343, on the present content. -/
noncomputable def pathStep (S : Settings) (rho wetn dryn : Val) (ds : Path) (q : PathOut) :
    Except (PyErr × PathOut) PathOut :=
  match integ true S.nl rho ds 0 0.1 with
  | .error x => .error (x, q)
  | .ok a =>
    let q := { q with srho := a.1 }
    match integ true S.nl wetn ds 0 0.1 with
    | .error x => .error (x, q)
    | .ok b =>
      let q := { q with swet := b.1 }
      match integ true S.nl dryn ds 0 0.1 with
      | .error x => .error (x, q)
      | .ok c =>
        let q := { q with sdry := c.1 }
        if S.cloudy then
          match S.dens, S.clouds with
          | some (denl, deni), some cl =>
            match cloudDen denl ds cl with
            | .error x => .error (x, q)
            | .ok l =>
              let q := { q with sliq := l }
              match cloudDen deni ds cl with
              | .error x => .error (x, q)
              | .ok i => .ok { q with sice := i }
          | _, _ => .error (.attributeError, q)
        else .ok q

/-- Body of the angle loop, tb_spectrum.py:323-382. -/
noncomputable def angleBody (A : AbsRoutines) (S : Settings) (e rho wetn dryn refindx : Val) (k : ℕ)
    (s : RunState) : Except (PyErr × RunState) RunState :=
  let ds := pathOf S refindx k
  match pathStep S rho wetn dryn ds (s.out.path k) with
  | .error (x, q) => .error (x, ⟨s.g, s.out.setPath k q⟩)
  | .ok q => forRangeE 0 S.nf (freqBody A S e ds k) ⟨s.g, s.out.setPath k q⟩

/-- One row of the result table, tb_spectrum.py:386-395. -/
structure Row where
  tbtotal : Option ℝ
  tbatm : Option ℝ
  tmr : Option ℝ
  tmrcld : Option ℝ
  tauwet : Option ℝ
  taudry : Option ℝ
  tauliq : Option ℝ
  tauice : Option ℝ
  angle : ℝ

/-- Row of a cell. -/
def Cell.row (c : Cell) (angle : ℝ) : Row :=
  ⟨c.tbtotal, c.tbatm, c.tmr, c.tmrcld, c.sptauwet, c.sptaudry, c.sptauliq, c.sptauice, angle⟩

/-- The data frame, tb_spectrum.py:384-396: angle after angle, all frequencies of each. -/
def table (S : Settings) (o : Store) : List Row :=
  (List.range S.nang).flatMap fun k => (List.range S.nf).map fun j => (o.cell j k).row (S.angles k)

/-- `_init_linelist`, tb_spectrum.py:192-194 (`set_ll` raises `AbsModelError` for unknown names). -/
def initLineList (A : AbsRoutines) (g : Globals) : Except (PyErr × Globals) Globals :=
  match g.sel.h2o.bind A.h2oFile with
  | none => .error (.other, g)
  | some w =>
    let g := { g with h2oll := reloadLL w g.h2oll }
    match g.sel.o2.bind A.o2File with
    | none => .error (.other, g)
    | some o => .ok { g with o2ll := reloadLL o g.o2ll }

/-- A simulator object. -/
structure Inst where
  set : Settings
  out : Store

/-- `TbCloudRTE.execute`, tb_spectrum.py:308-405: outcome (the table, or an exception) and the state left
behind in the process and on the object. -/
noncomputable def execute (A : AbsRoutines) (g : Globals) (I : Inst) : Except PyErr (List Row) × RunState :=
  let S := I.set
  match initLineList A g with
  | .error (x, g) => (.error x, ⟨g, I.out⟩)
  | .ok g =>
    let g := { g with fromSat := S.satellite }
    match vapor S.tk S.rh S.ice with
    | .error x => (.error x, ⟨g, I.out⟩)
    | .ok (e, rho) =>
      let ref := fun i => refractivity1 (S.p i) (S.tk i) (e i)
      match forRangeE 0 S.nang (angleBody A S e rho (fun i => (ref i).2.1) (fun i => (ref i).1)
          (fun i => (ref i).2.2)) ⟨g, I.out⟩ with
      | .error (x, s) => (.error x, s)
      | .ok s => (.ok (table S s.out), s)

end Verif.Model
