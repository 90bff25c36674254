import Verif.Model.ClassAttr

/-!
# What a program says about the attributes

Read off the list of statements alone.
-/

namespace Verif.Spec

open Verif.Model

/-- The most recent assignment to attribute `a` of class `K` itself. -/
def assigned (h : List AttrOp) (K : Cls) (a : AttrName) : Option Obj :=
  h.reverse.findSome? fun
    | .setClass K' b v => if K' = K ∧ b = a then some v else none
    | _ => none

/-- The most recent assignment to attribute `a` of instance `i` that satisfies `ok`. -/
def assignedTo (h : List AttrOp) (i : Nat) (a : AttrName) (ok : Obj → Bool) : Option Obj :=
  h.reverse.findSome? fun
    | .setInst j b v => if j = i ∧ b = a ∧ ok v then some v else none
    | _ => none

/-- The classes of the instances created, in order. -/
def createdClasses (h : List AttrOp) : List Cls :=
  h.filterMap fun | .create K => some K | _ => none

/-- The objects that the documentation calls valid: a non-empty string for a model, a method for a line list. -/
def valid : AttrName → Obj → Bool
  | .model, .str s => s ≠ ""
  | .list, .method => true
  | _, _ => false

/-- The property is no longer in force for class `K`: something was assigned to it, or (for `model`) to the base class. -/
def Replaced (h : List AttrOp) (K : Cls) : AttrName → Prop
  | .model => assigned h K .model ≠ none ∨ assigned h .abs .model ≠ none
  | .list => assigned h K .list ≠ none

/-- Instances are created before they are used. -/
def Declared (h : List AttrOp) : Prop :=
  ∀ pre post i a v, h = pre ++ .setInst i a v :: post → i < (createdClasses pre).length

end Verif.Spec
