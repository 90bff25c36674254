import Verif.Py.Err

/-!
# `model` and the line lists as attributes of classes and of instances

`pyrtlib/absorption_model.py:33-54, 285-312, 687-713, 1011-1037`.  `model` is a property of `AbsModel`; `h2oll`, `o2ll`, `o3ll` are
properties of `H2OAbsModel`, `O2AbsModel`, `O3AbsModel`.  Attribute access follows Python: the class and then its base are searched; a
property found there acts on an instance through its getter and setter, any other object found there is overridden by an entry of
the instance.  Assigning to a class replaces the property.
-/

namespace Verif.Model

open Verif.Py

/-- The classes of `absorption_model.py`; all others derive from `abs`. -/
inductive Cls where
  | abs
  | h2o
  | o2
  | n2
  | liq
  | o3
  deriving DecidableEq

/-- An object assigned to an attribute, as far as the setters look at it. -/
inductive Obj where
  | str (s : String)
  /-- a module, as `import_lineshape` returns, utils.py:16-48 -/
  | moduleObj
  /-- a bound method -/
  | method
  /-- anything else: numbers, `None`, arrays -/
  | other
  deriving DecidableEq

/-- The attribute: the name of the model, or the line list of the class (`h2oll`, `o2ll`, `o3ll`). -/
inductive AttrName where
  | model
  | list
  deriving DecidableEq

/-- An entry of a class: the property, or an object that was assigned. -/
inductive Slot where
  | property
  | obj (v : Obj)
  deriving DecidableEq

/-- An instance: its class, the private attribute behind each property (`_model`, `_h2oll`, …), its own entries. -/
structure Instance where
  cls : Cls
  hidden : AttrName → Obj
  own : AttrName → Option Obj

/-- The classes and the instances created so far. -/
structure Classes where
  entry : Cls → AttrName → Option Slot
  insts : List Instance

/-- After `import pyrtlib.absorption_model`: properties only, absorption_model.py:41-54, 294-305, 695-706, 1019-1030. -/
def Classes.init : Classes where
  entry
    | .abs, .model => some .property
    | .h2o, .list => some .property
    | .o2, .list => some .property
    | .o3, .list => some .property
    | _, _ => none
  insts := []

/-- Search of a class and its base. -/
def Classes.find (c : Classes) (K : Cls) (a : AttrName) : Option Slot := (c.entry K a).orElse fun _ => c.entry .abs a

/-- `K.attr`: a property is returned as such. -/
def Classes.read (c : Classes) (K : Cls) (a : AttrName) : Except PyErr Slot :=
  match c.find K a with
  | none => .error .attributeError
  | some s => .ok s

/-- `x.attr` for an instance. -/
def Classes.get (c : Classes) (x : Instance) (a : AttrName) : Except PyErr Obj :=
  match c.find x.cls a with
  | some .property => .ok (x.hidden a)
  | some (.obj v) => .ok ((x.own a).getD v)
  | none =>
    match x.own a with
    | some v => .ok v
    | none => .error .attributeError

/-- The test of the setters: `if model and isinstance(model, str)`, absorption_model.py:51; `if h2oll and
isinstance(h2oll, types.MethodType)`, :302, :703, :1027. -/
def accepted : AttrName → Obj → Bool
  | .model, .str s => s ≠ ""
  | .list, .method => true
  | _, _ => false

/-- `x.attr = v` for an instance. -/
def Classes.set (c : Classes) (x : Instance) (a : AttrName) (v : Obj) : Except PyErr Instance :=
  match c.find x.cls a with
  | some .property =>
    if accepted a v then .ok { x with hidden := fun b => if b = a then v else x.hidden b } else .error .valueError
  | _ => .ok { x with own := fun b => if b = a then some v else x.own b }

/-- A new instance, absorption_model.py:37-39, 290-292, 691-693, 1015-1017. -/
def newInstance (K : Cls) : Instance where
  cls := K
  hidden
    | .model => .str ""
    | .list => .other
  own _ := none

/-- A statement of the user's program. -/
inductive AttrOp where
  /-- `K.attr = v` -/
  | setClass (K : Cls) (a : AttrName) (v : Obj)
  /-- `x = K()`; instances are numbered -/
  | create (K : Cls)
  /-- `x_i.attr = v` -/
  | setInst (i : Nat) (a : AttrName) (v : Obj)

/-- Effect of a statement (an exception leaves everything as it was). -/
def Classes.step (c : Classes) : AttrOp → Classes
  | .setClass K a v => { c with entry := fun K' b => if K' = K ∧ b = a then some (.obj v) else c.entry K' b }
  | .create K => { c with insts := c.insts ++ [newInstance K] }
  | .setInst i a v =>
    match c.insts[i]? with
    | none => c
    | some x =>
      match c.set x a v with
      | .error _ => c
      | .ok y => { c with insts := c.insts.set i y }

/-- The classes after a program. -/
def Classes.after (h : List AttrOp) : Classes := h.foldl Classes.step Classes.init

end Verif.Model
