import Verif.Lemmas.WaterFormula

/-!
# The complex error function (C70)
-/

namespace Verif.Props

open Verif.Model Verif.Py Verif.Lemmas Verif.Spec

theorem hui_conj (z : ℂ) : hui (starRingEnd ℂ z) = starRingEnd ℂ (hui z) := by
  have h (q : ℚ) : starRingEnd ℂ (q : ℂ) = q := by simp
  have hA : errA (starRingEnd ℂ z) = starRingEnd ℂ (errA z) := by
    unfold errA
    simp only [map_add, map_mul]
    norm_num [Complex.conj_ofNat]
  have hB : errB (starRingEnd ℂ z) = starRingEnd ℂ (errB z) := by
    unfold errB
    simp only [map_add, map_mul]
    norm_num [Complex.conj_ofNat]
  rw [hui_eq, hui_eq, hA, hB, map_div₀]

theorem dcerror_upper (x : ℝ) {y : ℝ} (hy : 0 ≤ y) : dcerror x y = some (hui ⟨y, -x⟩) := by
  have := dcerror_sqrt ⟨y, -x⟩ hy
  simpa using this

theorem dcerror_lower (x : ℝ) {y : ℝ} (hy : y < 0) :
    dcerror x y = some (2 * Complex.exp (-(⟨x, y⟩ : ℂ) ^ 2) - hui ⟨-y, -x⟩) := by
  have h := dcerror_upper x (y := -y) (by linarith)
  unfold dcerror at h ⊢
  simp only [abs_neg, if_pos (by linarith : (0 : ℝ) ≤ -y)] at h
  simp only [if_neg (by linarith : ¬(0 : ℝ) ≤ y)]
  cases hw : cDiv (errA ⟨|y|, -x⟩) (errB ⟨|y|, -x⟩) with
  | none => simp [hw] at h
  | some w =>
    have : w = hui ⟨-y, -x⟩ := by simpa [hw] using h
    rw [← this]
    norm_num

/-- C70: the function returns a number for every argument, and takes mirror images in the imaginary axis to conjugates,
as the complex error function does. -/
theorem C70_mirror (x y : ℝ) : ∃ w, dcerror x y = some w ∧ dcerror (-x) y = some (starRingEnd ℂ w) := by
  rcases le_or_gt 0 y with hy | hy
  · refine ⟨_, dcerror_upper x hy, ?_⟩
    rw [dcerror_upper (-x) hy, ← hui_conj]
    congr 2
  · refine ⟨_, dcerror_lower x hy, ?_⟩
    rw [dcerror_lower (-x) hy, map_sub, map_mul, ← hui_conj, ← Complex.exp_conj]
    have h : (starRingEnd ℂ) (-(⟨x, y⟩ : ℂ) ^ 2) = -(⟨-x, y⟩ : ℂ) ^ 2 := by
      apply Complex.ext <;> simp [pow_two]
    rw [h, Complex.conj_ofNat]
    congr 2

/-- C70: in the upper half plane the function is the rational approximation in `y - i x`, the quotient of
polynomials with the coefficients in the code; on the positive imaginary axis it is real, positive and, up to 3e-11, at
most 1. -/
theorem C70_upper (x : ℝ) {y : ℝ} (hy : 0 ≤ y) : dcerror x y = some (hui ⟨y, -x⟩) ∧
    ∃ r : ℝ, dcerror 0 y = some (r : ℂ) ∧ 0 < r ∧ r ≤ 1 + 3e-11 := by
  refine ⟨dcerror_upper x hy, ?_⟩
  have hB : 122 < (hornerRI 0 y coefB).1 := by
    simp only [hornerRI, coefB]
    ring_nf
    have : 0 ≤ y ^ 2 := by positivity
    have : 0 ≤ y ^ 3 := by positivity
    have : 0 ≤ y ^ 4 := by positivity
    have : 0 ≤ y ^ 5 := by positivity
    have : 0 ≤ y ^ 6 := by positivity
    have : 0 ≤ y ^ 7 := by positivity
    linarith
  have hA : 0 < (hornerRI 0 y coefA).1 := by
    simp only [hornerRI, coefA]
    ring_nf
    positivity
  have hAB : (hornerRI 0 y coefA).1 ≤ (hornerRI 0 y coefB).1 + 3.3e-9 := by
    simp only [hornerRI, coefA, coefB]
    ring_nf
    have : 0 ≤ y ^ 2 := by positivity
    have : 0 ≤ y ^ 3 := by positivity
    have : 0 ≤ y ^ 4 := by positivity
    have : 0 ≤ y ^ 5 := by positivity
    have : 0 ≤ y ^ 6 := by positivity
    have : 0 ≤ y ^ 7 := by positivity
    linarith
  have hA0 : (hornerRI 0 y coefA).2 = 0 := by simp [hornerRI, coefA]
  have hB0 : (hornerRI 0 y coefB).2 = 0 := by simp [hornerRI, coefB]
  refine ⟨(hornerRI 0 y coefA).1 / (hornerRI 0 y coefB).1, ?_, by positivity, ?_⟩
  · rw [dcerror_upper 0 hy, hui_eq, errA_eq, errB_eq, hA0, hB0, Complex.ofReal_div]
    rfl
  · rw [div_le_iff₀ (by linarith)]
    norm_num at hAB ⊢
    linarith

example : ∃ r : ℝ, dcerror 0 0 = some (r : ℂ) ∧ 0 < r ∧ r ≤ 1 + 3e-11 := (C70_upper 0 le_rfl).2

/-- C70: below the real axis the function is `2 exp(-z²)` minus the value at the mirror image `x + i|y|`, not minus its
conjugate, as the formula cited beside the code has it: the sum that should be `2 exp(-z²)` exceeds it by twice the
imaginary part of that value. -/
theorem C70_lower (x : ℝ) {y : ℝ} (hy : y < 0) : ∃ u v w, dcerror x y = some u ∧ dcerror (-x) (-y) = some v ∧
    dcerror x (-y) = some w ∧ u + w = 2 * Complex.exp (-(⟨x, y⟩ : ℂ) ^ 2) ∧
    u + v = 2 * Complex.exp (-(⟨x, y⟩ : ℂ) ^ 2) - 2 * Complex.I * w.im := by
  obtain ⟨w, h1, h2⟩ := C70_mirror x (-y)
  have h3 := dcerror_lower x hy
  have h4 : hui ⟨-y, -x⟩ = w := by
    rw [dcerror_upper x (by linarith)] at h1
    exact Option.some_inj.1 h1
  rw [h4] at h3
  refine ⟨_, _, w, h3, h2, h1, by ring, ?_⟩
  have := Complex.sub_conj w
  push_cast at this
  linear_combination -this

/-- C70: the formula `w(z) + w(-z) = 2 exp(-z²)` of the complex error function fails below the real axis: at `1 - i` the
sum is off by more than 0.4. -/
theorem C70_reflection_refuted : ∃ u v, dcerror 1 (-1) = some u ∧ dcerror (-1) 1 = some v ∧
    0.4 < ‖u + v - 2 * Complex.exp (-(⟨1, -1⟩ : ℂ) ^ 2)‖ := by
  obtain ⟨u, v, w, h1, h2, h3, -, h5⟩ := C70_lower 1 (y := -1) (by norm_num)
  rw [neg_neg] at h2 h3
  refine ⟨u, v, h1, h2, ?_⟩
  have hn : ‖u + v - 2 * Complex.exp (-(⟨1, -1⟩ : ℂ) ^ 2)‖ = 2 * |w.im| := by
    rw [h5, sub_sub_cancel_left, norm_neg, norm_mul, norm_mul, Complex.norm_I, Complex.norm_real]
    norm_num
  rw [hn]
  have hw : w = hui ⟨1, -1⟩ := by
    rw [dcerror_upper 1 (by norm_num)] at h3
    exact (Option.some_inj.1 h3).symm
  have him : 0.2 < w.im := by
    rw [hw, hui_eq, errA_eq, errB_eq, Complex.div_im]
    simp only [Complex.normSq_mk, hornerRI, coefA, coefB]
    norm_num
  have := le_abs_self w.im
  norm_num at him ⊢
  linarith

end Verif.Props
