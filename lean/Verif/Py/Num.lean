import Mathlib.Analysis.SpecialFunctions.Log.Basic

/-!
# numpy scalar operations that can leave the finite numbers

`none` stands for "numpy returns inf or nan (with a RuntimeWarning) and goes on".
-/

namespace Verif.Py

/-- `a / b` on numpy floats; not a finite number when `b = 0`. -/
noncomputable def npDiv (a b : ℝ) : Option ℝ := if b = 0 then none else some (a / b)

/-- `np.log x`; `-inf`/`nan` for `x ≤ 0`. -/
noncomputable def npLog (x : ℝ) : Option ℝ := if 0 < x then some (Real.log x) else none

/-- `np.sqrt x`; `nan` for `x < 0`. -/
noncomputable def npSqrt (x : ℝ) : Option ℝ := if 0 ≤ x then some (Real.sqrt x) else none

theorem npDiv_of_ne {a b : ℝ} (h : b ≠ 0) : npDiv a b = some (a / b) := by simp [npDiv, h]
theorem npDiv_zero (a : ℝ) : npDiv a 0 = none := by simp [npDiv]
theorem npDiv_eq_none {a b : ℝ} : npDiv a b = none ↔ b = 0 := by
  unfold npDiv; split <;> simp_all
theorem npLog_of_pos {x : ℝ} (h : 0 < x) : npLog x = some (Real.log x) := by simp [npLog, h]

end Verif.Py
