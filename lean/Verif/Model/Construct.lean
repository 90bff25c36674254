import Verif.Model.Simulator

/-!
# Construction of a simulator, setters, `init_cloudy`

`pyrtlib/tb_spectrum.py:24-221`.  The caller's arrays live on a heap because the constructor keeps references
and shifts the height array in place.  Distinct addresses are distinct arrays (views of one buffer are not
modelled); numbers are reals (NaN heights are not modelled).
-/

namespace Verif.Model

open Verif.Py

/-- Address of an array object. -/
abbrev Addr := ℕ

/-- All array objects of the process. -/
abbrev Heap := Addr → List ℝ

/-- Arguments of `TbCloudRTE(...)`, tb_spectrum.py:24-31. -/
structure CtorArgs where
  z : Addr
  p : Addr
  t : Addr
  rh : Addr
  frq : Addr
  angles : Addr
  o3n : Option Addr
  amu : Option Amu
  absmdl : String
  rayTracing : Bool
  fromSat : Bool
  cloudy : Bool

/-- A simulator object: references to the caller's arrays and its own attributes. -/
structure SimObj where
  z : Addr
  p : Addr
  tk : Addr
  rh : Addr
  frq : Addr
  angles : Addr
  o3n : Option Addr
  amu : Option Amu
  nl : ℕ
  nf : ℕ
  nang : ℕ
  z0 : ℝ
  rayTracing : Bool
  satellite : Bool
  cloudy : Bool
  ice : Bool
  es : List ℝ
  clouds : Option (List (ℕ × ℕ))
  dens : Option (List ℝ × List ℝ)

/-- `np.ediff1d(z)`, tb_spectrum.py:68 -/
def ediff1d : List ℝ → List ℝ
  | a :: b :: l => (b - a) :: ediff1d (b :: l)
  | _ => []

open Classical in
/-- Python's `all(dz)`: every entry is truthy (non-zero), tb_spectrum.py:69,71. -/
noncomputable def pyAll (dz : List ℝ) : Bool := decide (∀ x ∈ dz, x ≠ 0)

/-- `True`/`False` compared with 0. -/
def boolGt0 (b : Bool) : Bool := decide ((if b then (1:ℤ) else 0) > 0)
/-- `True`/`False` compared with 0. -/
def boolLt0 (b : Bool) : Bool := decide ((if b then (1:ℤ) else 0) < 0)

/-- Array object stored at a new or old address. -/
def Heap.write (h : Heap) (a : Addr) (l : List ℝ) : Heap := Function.update h a l

/-- The addresses used for the reversed copies `z[::-1]` etc. (tb_spectrum.py:72-75; views in numpy). -/
structure Flip where
  z : Addr
  p : Addr
  t : Addr
  rh : Addr

/-- The rest of the constructor once the profile arrays are chosen, tb_spectrum.py:81-127.  The warning of lines 82-85
evaluates `min(self.p)`: `ValueError` on an empty pressure array (also in the condition).  `absmdl` truthy calls
the misspelt method `init_absmdll` (line 127): `AttributeError`, after the heights have been shifted. -/
noncomputable def ctorTail (h : Heap) (a : CtorArgs) (z p t rh : Addr) : Except PyErr SimObj × Heap :=
  if h p = [] then (.error .valueError, h)
  else match h z with
    | [] => (.error .indexError, h)
    | z0 :: _ =>
      let h' := h.write z ((h z).map (· - z0))
      if a.absmdl ≠ "" then (.error .attributeError, h')
      else
        (.ok { z, p, tk := t, rh, frq := a.frq, angles := a.angles, o3n := a.o3n, amu := a.amu,
               nl := (h a.z).length, nf := (h a.frq).length, nang := (h a.angles).length, z0,
               rayTracing := a.rayTracing, satellite := a.fromSat, cloudy := a.cloudy, ice := false,
               es := List.replicate (h a.frq).length 1, clouds := none, dens := none }, h')

/-- `TbCloudRTE.__init__`, tb_spectrum.py:59-127.  `fl` provides the arrays `z[::-1]`, ... of the second branch. -/
noncomputable def construct (fl : Flip) (h : Heap) (a : CtorArgs) : Except PyErr SimObj × Heap :=
  let dz := ediff1d (h a.z)
  if boolGt0 (pyAll dz) then ctorTail h a a.z a.p a.t a.rh
  else if boolLt0 (pyAll dz) then
    let h := (((h.write fl.z (h a.z).reverse).write fl.p (h a.p).reverse).write fl.t (h a.t).reverse).write
      fl.rh (h a.rh).reverse
    ctorTail h a fl.z fl.p fl.t fl.rh
  else (.error .systemExit, h)

/-- The level loop of `init_cloudy`, tb_spectrum.py:211-216, for one cloud boundary `c` (km above antenna). -/
noncomputable def resolveLevel (z : ℕ → ℝ) (nl : ℕ) (c : ℝ) : ℕ :=
  forRange 0 nl (fun i lev => if z i = c then i else lev) 0

/-- `init_cloudy(cldh, denice, denliq)`, tb_spectrum.py:196-223, `cldh` given as the list of its columns (base, top). -/
noncomputable def initCloudy (h : Heap) (s : SimObj) (cldh : List (ℝ × ℝ)) (denice denliq : List ℝ) : SimObj :=
  let c := cldh.map fun b => (b.1 - s.z0, b.2 - s.z0)
  let z := fun i => (h s.z).getD i 0
  if s.cloudy then
    { s with
      clouds := some (c.map fun b => (resolveLevel z s.nl b.1, resolveLevel z s.nl b.2))
      dens := some (denliq, denice) }
  else { s with clouds := some (c.map fun _ => (0, 0)) }

/-- Python values that can be handed to a setter. -/
inductive PyVal where
  | none
  | bool (b : Bool)
  | npBool (b : Bool)
  | int (n : ℤ)
  | float (x : ℝ)
  | npFloat64 (x : ℝ)
  | npFloat32 (x : ℝ)
  | str (s : String)
  | list (l : List ℝ)
  | ndarray (l : List ℝ)

/-- `isinstance(v, bool)` -/
def PyVal.isBool : PyVal → Bool | .bool _ => true | _ => false
/-- `isinstance(v, float)` (`np.float64` is a subclass of `float`). -/
def PyVal.asFloat : PyVal → Option ℝ | .float x => some x | .npFloat64 x => some x | _ => Option.none

/-- `satellite` setter, tb_spectrum.py:137-142. -/
def setSatellite (s : SimObj) : PyVal → Except PyErr Unit × SimObj
  | .bool b => (.ok (), { s with satellite := b })
  | _ => (.error .valueError, s)

/-- `emissivity` setter, tb_spectrum.py:150-166. -/
def setEmissivity (s : SimObj) (v : PyVal) : Except PyErr Unit × SimObj :=
  match v.asFloat, v with
  | some x, _ => (.ok (), { s with es := List.replicate s.nf x })
  | Option.none, .ndarray l => (.ok (), { s with es := l })
  | Option.none, _ => (.error .valueError, s)

/-- What `execute` reads: the arrays as they are on the heap now. -/
noncomputable def SimObj.settings (h : Heap) (s : SimObj) : Settings where
  nl := s.nl
  z i := (h s.z).getD i 0
  z0 := s.z0
  p i := (h s.p).getD i 0
  tk i := (h s.tk).getD i 0
  rh i := (h s.rh).getD i 0
  nf := s.nf
  frq i := (h s.frq).getD i 0
  nang := s.nang
  angles i := (h s.angles).getD i 0
  o3n := s.o3n.map fun a i => (h a).getD i 0
  amu := s.amu
  rayTracing := s.rayTracing
  satellite := s.satellite
  cloudy := s.cloudy
  ice := s.ice
  es := s.es
  clouds := s.clouds
  dens := s.dens.map fun d => (fun i => d.1.getD i 0, fun i => d.2.getD i 0)

end Verif.Model
