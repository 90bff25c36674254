import Verif.Lemmas.OpacityError
import Mathlib.Analysis.Convex.Deriv
import Mathlib.Analysis.Convex.SpecificFunctions.Basic

/-!
# Planck's law against the straight line of Rayleigh and Jeans

With `x = h f / k`, the quantity `x * B(T)` lies between `T - x/2` and `T - x/2 + x²/(12 T)`, is a convex function of `T`,
and the defect `T - x * B(T)` increases with `T`.
-/

namespace Verif.Lemmas

open Verif.Model Verif.Spec Real Set

variable {x T T' s : ℝ}

/-- Difference between a temperature and its radiance in units of temperature. -/
noncomputable def rjDefect (x T : ℝ) : ℝ := T - x * tk2b x T

theorem tk2b_convex (hx : 0 < x) : ConvexOn ℝ (Ioi 0) (tk2b x) := by
  have hd : ∀ T ∈ Ioi (0:ℝ), HasDerivAt (tk2b x) (planckW (x / T) / x) T := fun T hT => tk2b_deriv hx hT
  refine MonotoneOn.convexOn_of_deriv (convex_Ioi 0) (fun T hT => (hd T hT).continuousAt.continuousWithinAt)
    (fun T hT => ?_) ?_
  · rw [interior_Ioi] at hT
    exact (hd T hT).differentiableAt.differentiableWithinAt
  · rw [interior_Ioi]
    intro a ha b hb hab
    rw [(hd a ha).deriv, (hd b hb).deriv]
    have ha' : 0 < a := ha
    have hb' : 0 < b := hb
    refine div_le_div_of_nonneg_right (planckW_anti (by positivity) ?_) hx.le
    exact div_le_div_of_nonneg_left hx.le ha' hab

theorem rjDefect_mono (hx : 0 < x) (hT : 0 < T) (h : T ≤ T') : rjDefect x T ≤ rjDefect x T' := by
  have := (tk2b_slope hx hT h hT le_rfl).2
  rw [le_div_iff₀ hx] at this
  unfold rjDefect
  linarith

theorem tk2b_eq (x T : ℝ) : tk2b x T = 1 / (exp (x / T) - 1) := by
  unfold tk2b; norm_num

theorem rjDefect_nonneg (hx : 0 < x) (hT : 0 < T) : 0 ≤ rjDefect x T := by
  have hu : 0 < x / T := by positivity
  have h1 := add_one_le_exp (x / T)
  unfold rjDefect
  rw [tk2b_eq, mul_one_div, sub_nonneg, div_le_iff₀ (by linarith)]
  have : T * (x / T) = x := by field_simp
  nlinarith

theorem rjDefect_le (hx : 0 < x) (hT : 0 < T) : rjDefect x T ≤ x / 2 := by
  have hu : 0 < x / T := by positivity
  have hE := exp_sub_pos hu
  have hc := cothTerm_nonneg hu
  unfold cothTerm at hc
  rw [sub_nonneg, le_div_iff₀ hE] at hc
  unfold rjDefect
  rw [tk2b_eq, mul_one_div]
  have e : T * (x / T) = x := by field_simp
  have : T - x / 2 ≤ x / (exp (x / T) - 1) := by
    rw [le_div_iff₀ hE]
    have := mul_le_mul_of_nonneg_left hc hT.le
    nlinarith
  linarith

theorem rjDefect_ge (hx : 0 < x) (hT : 0 < T) : x / 2 - x ^ 2 / (12 * T) ≤ rjDefect x T := by
  have hu : 0 < x / T := by positivity
  have hE := exp_sub_pos hu
  unfold rjDefect
  rw [tk2b_eq, mul_one_div]
  obtain ⟨u, hu'⟩ : ∃ u, u = x / T := ⟨_, rfl⟩
  have e : x = T * u := by rw [hu']; field_simp
  rw [← hu'] at hu hE ⊢
  have hs := Real.sum_le_exp_of_nonneg hu.le 6
  simp only [Finset.sum_range_succ, Finset.sum_range_zero, Nat.factorial] at hs
  norm_num at hs
  have key : u ≤ (1 - u / 2 + u ^ 2 / 12) * (exp u - 1) := by
    have hf : 0 < 1 - u / 2 + u ^ 2 / 12 := by nlinarith [sq_nonneg (u - 3)]
    have h2 : u + u ^ 2 / 2 + u ^ 3 / 6 + u ^ 4 / 24 + u ^ 5 / 120 ≤ exp u - 1 := by linarith
    have h3 := mul_le_mul_of_nonneg_left h2 hf.le
    have h4 : (1 - u / 2 + u ^ 2 / 12) * (u + u ^ 2 / 2 + u ^ 3 / 6 + u ^ 4 / 24 + u ^ 5 / 120) =
        u + u ^ 5 / 1440 * (2 - u + u ^ 2) := by ring
    have h5 : 0 ≤ u ^ 5 / 1440 * (2 - u + u ^ 2) := by
      have : 0 < 2 - u + u ^ 2 := by nlinarith [sq_nonneg (u - 1)]
      positivity
    linarith
  have : x / (exp u - 1) ≤ T * (1 - u / 2 + u ^ 2 / 12) := by
    rw [div_le_iff₀ hE, e]
    nlinarith
  have e2 : x ^ 2 / (12 * T) = T * (u ^ 2 / 12) := by rw [e]; field_simp
  rw [e2]
  rw [e] at this ⊢
  nlinarith

/-- A fraction of a temperature radiates at most that fraction of the radiance. -/
theorem tk2b_smul (hx : 0 < x) (hT : 0 < T) (hs : 0 < s) (hs1 : s ≤ 1) : tk2b x (s * T) ≤ s * tk2b x T := by
  have hu : 0 < x / T := by positivity
  have hv : 0 < x / (s * T) := by positivity
  have e : x / T = s * (x / (s * T)) := by field_simp
  have h := convexOn_exp.2 (mem_univ (x / (s * T))) (mem_univ 0) hs.le (sub_nonneg.2 hs1) (by ring)
  simp only [smul_eq_mul, mul_zero, add_zero, exp_zero, mul_one] at h
  rw [← e] at h
  rw [tk2b_eq, tk2b_eq, mul_one_div, div_le_div_iff₀ (exp_sub_pos hv) (exp_sub_pos hu)]
  linarith

end Verif.Lemmas
