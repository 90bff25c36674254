import Verif.Props.Extrapolation

/-!
# C54: assigning the heights of an extrapolation object

Sequences of calls and assignments to `height` on one object, extrapolation.py:33-50.
-/

namespace Verif.Props

open Verif.Py Verif.Model

/-- What a user does with an extrapolation object: a call, or an assignment to `height` (`none`: not an array). -/
inductive ExOp where
  | call (c : ExCall)
  | assign (v : Option (List ℝ))

/-- Heights of the object after an operation. -/
noncomputable def exStep (H : List ℝ) : ExOp → List ℝ
  | .call c => (extrapolate H c.lat c.month c.z c.p c.t c.rh).2
  | .assign v => (setHeights H v).2

/-- Heights of the object after a sequence of operations. -/
noncomputable def exAfter (H : List ℝ) (ops : List ExOp) : List ℝ := ops.foldl exStep H

/-- An array is accepted and anything else is refused with `ValueError`.  An accepted assignment makes the object
forget everything before it: later results are those of an object with these heights.  A refused one has no effect
on anything later. -/
theorem C54_assigned (H : List ℝ) (before after : List ExOp) :
    (∀ h, (setHeights (exAfter H before) (some h)).1 = .ok () ∧
      exAfter H (before ++ .assign (some h) :: after) = exAfter h after) ∧
    (setHeights (exAfter H before) none).1 = .error .valueError ∧
    exAfter H (before ++ .assign none :: after) = exAfter H (before ++ after) := by
  refine ⟨fun h => ⟨rfl, ?_⟩, rfl, ?_⟩ <;> simp only [exAfter, List.foldl_append, List.foldl_cons] <;> rfl

/-- An object is created for the mode `ITU-Annex1` only.  Its 46 heights increase strictly from 0 to 100 km, and assigning
them makes any used object return what a new one returns, whatever happened before (compare
`C54_history_refuted`). -/
theorem C54_renewed : (∀ mode, mode ≠ "ITU-Annex1" → extrapNew mode = .error .valueError) ∧
    ∃ D, extrapNew "ITU-Annex1" = .ok D ∧ D.length = 46 ∧ D.head? = some 0 ∧ D.getLast? = some 100 ∧ D.Pairwise (· < ·) ∧
      ∀ (H : List ℝ) (ops : List ExOp) (c : ExCall),
        extrapolate (exAfter H (ops ++ [.assign (some D)])) c.lat c.month c.z c.p c.t c.rh =
          extrapolate D c.lat c.month c.z c.p c.t c.rh := by
  refine ⟨fun mode hm => by simp [extrapNew, hm], defaultHeights, by simp [extrapNew], ?_, ?_, ?_, default_sorted,
    fun H ops c => ?_⟩
  · simp [defaultHeights, linspace]
  · simp [defaultHeights, linspace, List.range_succ_eq_map]
  · unfold defaultHeights linspace
    rw [List.getLast?_append, List.range_succ, List.map_append, List.getLast?_append]
    norm_num
  · rw [((C54_assigned H ops []).1 defaultHeights).2]
    rfl

/-- The object of `C54_history_refuted`: used for a profile up to 10 km it keeps a level at 48.4 km, and loses it when
the default heights are assigned. -/
example (lat : ℝ) (month : ℤ) (p t rh p' t' rh' : List ℝ) :
    (48.4 : ℝ) ∈ exAfter defaultHeights [.call ⟨lat, month, [10], p, t, rh⟩, .call ⟨lat, month, [45], p', t', rh'⟩] ∧
    (48.4 : ℝ) ∉ exAfter defaultHeights [.call ⟨lat, month, [10], p, t, rh⟩, .assign (some defaultHeights),
      .call ⟨lat, month, [45], p', t', rh'⟩] :=
  C54_history_refuted lat month p t rh p' t' rh'

end Verif.Props
