import Verif.Model.History

/-!
# What a history says about one simulator

Read off the list of calls alone: the latest selection of each species' model, the settings of one simulator,
and whether that simulator ever ran in cloudy mode.
-/

namespace Verif.Spec

open Verif.Model

/-- The most recent call that satisfies `f`. -/
def latest (f : Op → Option String) (h : List Op) : Option String := h.reverse.findSome? f

/-- The models selected by the most recent selection calls. -/
def lastSel (h : List Op) : Sel where
  h2o := latest (fun | .initAbsmdl m => some m | .setH2O m => some m | _ => none) h
  o2 := latest (fun | .initAbsmdl m => some m | .setO2 m => some m | _ => none) h
  n2 := latest (fun | .initAbsmdl m => some m | .setN2 m => some m | _ => none) h
  liq := latest (fun | .initAbsmdl m => some m | .setLiq m => some m | _ => none) h
  o3 := latest (fun | .setO3 m => some m | _ => none) h

/-- How many simulators were created. -/
def created (h : List Op) : ℕ := h.countP fun | .construct _ => true | _ => false

/-- One simulator as seen from the calls that concern it. -/
structure Own where
  created : ℕ
  settings : Option Settings
  ranCloudy : Bool

/-- Only the creation of simulator `i`, its own setting changes and its own runs matter. -/
def Own.step (i : ℕ) (o : Own) : Op → Own
  | .construct S => ⟨o.created + 1, if o.created = i then some S else o.settings, o.ranCloudy⟩
  | .modify k f => if k = i then { o with settings := o.settings.map f } else o
  | .run k =>
    if k = i then { o with ranCloudy := o.ranCloudy || (o.settings.map (·.cloudy)).getD false } else o
  | _ => o

/-- Simulator `i` after a history. -/
def own (i : ℕ) (h : List Op) : Own := h.foldl (Own.step i) ⟨0, none, false⟩

end Verif.Spec
