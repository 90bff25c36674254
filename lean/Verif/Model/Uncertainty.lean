import Verif.Py.Err
import Verif.Py.Num
import Mathlib.Analysis.SpecialFunctions.Pow.Real

/-!
# Spectroscopic parameters and their perturbation

`pyrtlib/uncertainty/absmod_uncertainty.py`.  Arrays and parameter objects live in a memory, so that the sharing of
arrays between parameters is visible.
-/

namespace Verif.Model

open Verif.Py Real

/-- The content of a `value` or `uncer` attribute: a Python/numpy float, an integer (not an instance of `float`), or a
reference to an array. -/
inductive PV where
  | flt (x : ℝ)
  | int (n : ℤ)
  | arr (a : ℕ)

/-- A `SpectroscopicParameter` object, absmod_uncertainty.py:65-79 (the three strings are not modelled). -/
structure PObj where
  value : PV
  uncer : PV

/-- All arrays and parameter objects. -/
structure PMem where
  arrays : List (List ℝ)
  objs : List PObj

/-- A parameter dictionary: names and the objects they refer to. -/
abbrev PDict := List (String × ℕ)

/-- Perturbation modes with their sign. -/
inductive PMode where
  | max | min | non | ran | other
  deriving DecidableEq

/-- The `mode` argument. -/
def PMode.ofString (s : String) : PMode :=
  if s = "max" then .max else if s = "min" then .min else if s = "non" then .non else if s = "ran" then .ran else .other

/-- A reference in the copy of a memory with `n` arrays: copies come after the originals. -/
def PV.shift (n : ℕ) : PV → PV
  | .flt x => .flt x
  | .int k => .int k
  | .arr a => .arr (n + a)

/-- `deepcopy`: every array and object is copied once, so sharing inside the dictionary is kept.  (Copies things not
reachable from the dictionary as well, which nobody can see.) -/
def PMem.deepcopy (m : PMem) (d : PDict) : PMem × PDict :=
  ({ arrays := m.arrays ++ m.arrays
     objs := m.objs ++ m.objs.map fun o => ⟨o.value.shift m.arrays.length, o.uncer.shift m.arrays.length⟩ },
   d.map fun e => (e.1, m.objs.length + e.2))

/-- Python index into a sequence of length `n`, negative from the end; `none`: `IndexError`. -/
def pyIndex (n : ℕ) (i : ℤ) : Option ℕ :=
  if 0 ≤ i ∧ i < n then some i.toNat else if -n ≤ i ∧ i < 0 then some (n + i).toNat else none

/-- `value[index] = value[index] ± uncer[index]` on two arrays, absmod_uncertainty.py:358-359, :365-366: the new content
of the value array.  Index `None` adds an axis of length one: all entries (an uncertainty of length one is stretched). -/
noncomputable def addAt (sgn : ℝ) (v u : List ℝ) (index : Option ℤ) : Except PyErr (List ℝ) :=
  match index with
  | none =>
    if u.length = v.length then .ok (List.zipWith (fun x y => x + sgn * y) v u)
    else match u with
      | [y] => .ok (v.map fun x => x + sgn * y)
      | _ => .error .valueError
  | some i =>
    match pyIndex v.length i, pyIndex u.length i with
    | some iv, some iu =>
      match v[iv]?, u[iu]? with
      | some x, some y => .ok (v.set iv (x + sgn * y))
      | _, _ => .error .indexError
    | _, _ => .error .indexError

/-- One parameter in mode `max` (`sgn = 1`) or `min` (`sgn = -1`), absmod_uncertainty.py:351-366. -/
noncomputable def perturbObj (sgn : ℝ) (index : Option ℤ) (m : PMem) (oid : ℕ) : Except PyErr PMem :=
  match m.objs[oid]? with
  | none => .error .other
  | some o =>
    let setVal (v : PV) (arrays : List (List ℝ)) : PMem := ⟨arrays, m.objs.set oid ⟨v, o.uncer⟩⟩
    match o.value, o.uncer with
    | .flt x, .flt y => .ok (setVal (.flt (x + sgn * y)) m.arrays)
    | .flt x, .int y => .ok (setVal (.flt (x + sgn * y)) m.arrays)
    | .int x, .flt y => .ok (setVal (.flt (x + sgn * y)) m.arrays)
    | .flt x, .arr b =>
      match m.arrays[b]? with
      | none => .error .other
      | some u => .ok (setVal (.arr m.arrays.length) (m.arrays ++ [u.map fun y => x + sgn * y]))
    | .arr a, .flt y =>
      match m.arrays[a]? with
      | none => .error .other
      | some v => .ok (setVal (.arr m.arrays.length) (m.arrays ++ [v.map fun x => x + sgn * y]))
    | .arr a, .arr b =>
      match m.arrays[a]?, m.arrays[b]? with
      | some v, some u =>
        match addAt sgn v u index with
        | .ok w => .ok { m with arrays := m.arrays.set a w }
        | .error e => .error e
      | _, _ => .error .other
    | .int _, _ => .error .typeError
    | .arr _, .int _ => .error .typeError

/-- The loop over the parameter names, absmod_uncertainty.py:349-381: the error and the memory at that time.
`NotImplementedError` is `PyErr.other`. -/
noncomputable def perturbLoop (d : PDict) (mode : PMode) (index : Option ℤ) :
    List String → PMem → Except PyErr Unit × PMem
  | [], m => (.ok (), m)
  | name :: names, m =>
    match d.lookup name with
    | none => (.error .keyError, m)
    | some oid =>
      match mode with
      | .max =>
        match perturbObj 1 index m oid with
        | .ok m' => perturbLoop d mode index names m'
        | .error e => (.error e, m)
      | .min =>
        match perturbObj (-1) index m oid with
        | .ok m' => perturbLoop d mode index names m'
        | .error e => (.error e, m)
      | .non => perturbLoop d mode index names m
      | .ran => (.error .other, m)
      | .other => (.error .valueError, m)

/-- `AbsModUncertainty.parameters_perturbation(what, mode, index)`, absmod_uncertainty.py:321-383, with the stored
dictionary `sp` (`none`: never set, `AttributeError`): the returned dictionary and the memory afterwards. -/
noncomputable def parametersPerturbation (m : PMem) (sp : Option PDict) (what : List String) (mode : String)
    (index : Option ℤ) : Except PyErr PDict × PMem :=
  match sp with
  | none => (.error .attributeError, m)
  | some d =>
    let c := m.deepcopy d
    let names := if what = [] then c.2.map Prod.fst else what
    match perturbLoop c.2 (PMode.ofString mode) index names c.1 with
    | (.ok (), m') => (.ok c.2, m')
    | (.error e, m') => (.error e, m')

open Classical in
/-- `x ** y` on numpy floats: `none` where the result is not finite. -/
noncomputable def npPow (x y : ℝ) : Option ℝ :=
  if 0 < x then some (x ^ y)
  else if x = 0 then (if y = 0 then some 1 else if 0 < y then some 0 else none)
  else if h : ∃ n : ℤ, y = n then some (x ^ h.choose) else none

/-- `AbsModUncertainty.uncertainty_propagation`, absmod_uncertainty.py:253-318, on scalars: function value and
uncertainty. -/
noncomputable def uncertaintyPropagation (fn : String) (A B sA sB a b sAB : ℝ) :
    Except PyErr (Option ℝ × Option ℝ) :=
  if fn = "aA" then .ok (some (a * A), some (|a| * sA))
  else if fn = "aA+bB" then
    .ok (some (a * A + b * B), npSqrt (a ^ 2 * sA ^ 2 + b ^ 2 * sB ^ 2 + 2 * a * b * sAB))
  else if fn = "aA-bB" then
    .ok (some (a * A - b * B), npSqrt (a ^ 2 * sA ^ 2 + b ^ 2 * sB ^ 2 - 2 * a * b * sAB))
  else if fn = "A*B" then
    .ok (some (A * B), do
      let x ← npDiv sA A
      let y ← npDiv sB B
      let w ← npDiv (2 * sAB) (A * B)
      let s ← npSqrt (x ^ 2 + y ^ 2 + w)
      pure (|A * B| * s))
  else if fn = "A/B" then
    .ok (npDiv A B, do
      let q ← npDiv A B
      let x ← npDiv sA A
      let y ← npDiv sB B
      let w ← npDiv (2 * sAB) (A * B)
      let s ← npSqrt (x ^ 2 + y ^ 2 - w)
      pure (|q| * s))
  else if fn = "A^a" then
    .ok (npPow A a, (npPow A (a - 1)).map fun q => |a| * q * sA)
  else .error .valueError

end Verif.Model
