import Verif.Lemmas.Integration

/-! # The layer value of `exponential_integration` for two profiles, one at least as large as the other -/

namespace Verif.Model

open Verif.Py Verif.Spec Real Finset

theorem expProfileMean_self {a : ℝ} (ha : 0 < a) : expProfileMean a a = a := by
  unfold expProfileMean
  simp [div_self ha.ne']

theorem expProfileMean_mono {a b a' b' : ℝ} (ha : 0 < a) (hb : 0 < b) (haa : a ≤ a') (hbb : b ≤ b') :
    expProfileMean a b ≤ expProfileMean a' b' := by
  have ha' := ha.trans_le haa
  have hb' := hb.trans_le hbb
  have cont {a b : ℝ} (ha : 0 < a) (hb : 0 < b) : Continuous fun u : ℝ => a * (b / a) ^ u :=
    continuous_const.mul (continuous_const.rpow continuous_id fun _ => Or.inl (div_pos hb ha).ne')
  have form {a b : ℝ} (ha : 0 < a) (hb : 0 < b) (u : ℝ) : a * (b / a) ^ u = a ^ (1 - u) * b ^ u := by
    rw [div_rpow hb.le ha.le, rpow_sub ha, rpow_one]
    field_simp
  unfold expProfileMean
  refine intervalIntegral.integral_mono_on (by norm_num) ((cont ha hb).intervalIntegrable _ _)
    ((cont ha' hb').intervalIntegrable _ _) fun u hu => ?_
  rw [form ha hb, form ha' hb']
  obtain ⟨h0, h1⟩ := hu
  exact mul_le_mul (rpow_le_rpow ha.le haa (by linarith)) (rpow_le_rpow hb.le hbb h0) (by positivity) (by positivity)

/-- Positive values: the layer value is the upper value for nearly equal values, and otherwise the mean of the
exponential profile. -/
theorem layerValue_pos {z : Bool} {a b : ℝ} (ha : 0 < a) (hb : 0 < b) :
    layerValue z a b = some (if |b - a| < 1e-9 then b else expProfileMean a b) := by
  unfold layerValue
  rw [norm_zero', if_neg (by push Not; exact ⟨ha.le, hb.le⟩)]
  split_ifs with h1 h2
  · rfl
  · rcases h2 with h | h
    · exact absurd h ha.ne'
    · exact absurd h hb.ne'
  · exact absurd ‹a = 0 ∨ b = 0› (by push Not; exact ⟨ha.ne', hb.ne'⟩)
  · rw [expProfileMean_eq ha hb]
    rintro rfl
    apply h1; simp; norm_num

theorem expProfileMean_bounds {a b : ℝ} (ha : 0 < a) (hb : 0 < b) :
    min a b ≤ expProfileMean a b ∧ expProfileMean a b ≤ max a b := by
  by_cases h : a = b
  · subst h; rw [expProfileMean_self ha]; simp
  rw [expProfileMean_eq ha hb h]
  rcases lt_or_gt_of_ne h with hlt | hlt
  · rw [min_eq_left hlt.le, max_eq_right hlt.le]; exact logMean_bounds ha hlt
  · rw [min_eq_right hlt.le, max_eq_left hlt.le, logMean_symm ha hb]; exact logMean_bounds hb hlt

theorem near_mean {a b : ℝ} (ha : 0 < a) (hb : 0 < b) (h : |b - a| < 1e-9) :
    expProfileMean a b - 1e-9 ≤ b ∧ b ≤ expProfileMean a b + 1e-9 := by
  have := expProfileMean_bounds ha hb
  rw [abs_lt] at h
  constructor
  · have := this.2.trans (max_le (by linarith [h.1] : a ≤ b + 1e-9) (by norm_num : b ≤ b + 1e-9))
    linarith
  · have := (le_min (by linarith [h.2] : b - 1e-9 ≤ a) (by norm_num : b - 1e-9 ≤ b)).trans this.1
    linarith

/-- Larger positive level values: the layer value drops by no more than 1e-9. -/
theorem layerValue_mono {z : Bool} {a b a' b' v v' : ℝ} (ha : 0 < a) (hb : 0 < b) (haa : a ≤ a') (hbb : b ≤ b')
    (h : layerValue z a b = some v) (h' : layerValue z a' b' = some v') : v ≤ v' + 1e-9 := by
  have ha' := ha.trans_le haa
  have hb' := hb.trans_le hbb
  rw [layerValue_pos ha hb, Option.some_inj] at h
  rw [layerValue_pos ha' hb', Option.some_inj] at h'
  have hm := expProfileMean_mono ha hb haa hbb
  subst h h'
  split_ifs with h1 h2 h2
  · linarith
  · linarith [(near_mean ha hb h1).2]
  · linarith [(near_mean ha' hb' h2).1]
  · linarith

/-- No drop at all if both pairs count as nearly equal or neither does. -/
theorem layerValue_mono_same {z : Bool} {a b a' b' v v' : ℝ} (ha : 0 < a) (hb : 0 < b) (haa : a ≤ a') (hbb : b ≤ b')
    (hs : |b - a| < 1e-9 ↔ |b' - a'| < 1e-9)
    (h : layerValue z a b = some v) (h' : layerValue z a' b' = some v') : v ≤ v' := by
  have ha' := ha.trans_le haa
  have hb' := hb.trans_le hbb
  rw [layerValue_pos ha hb, Option.some_inj] at h
  rw [layerValue_pos ha' hb', Option.some_inj] at h'
  have hm := expProfileMean_mono ha hb haa hbb
  subst h h'
  by_cases h1 : |b - a| < 1e-9
  · rwa [if_pos h1, if_pos (hs.1 h1)]
  · rwa [if_neg h1, if_neg (fun h => h1 (hs.2 h))]

theorem expProfileMean_mul {a b c : ℝ} (hc : c ≠ 0) : expProfileMean (c * a) (c * b) = c * expProfileMean a b := by
  unfold expProfileMean
  rw [mul_div_mul_left _ _ hc, ← intervalIntegral.integral_const_mul]
  simp only [mul_assoc]

theorem expProfileMean_strict {a b a' b' : ℝ} (ha : 0 < a) (hb : 0 < b) (haa : a < a') (hbb : b < b') :
    expProfileMean a b < expProfileMean a' b' := by
  have c1 : 1 < min (a' / a) (b' / b) := lt_min ((one_lt_div ha).2 haa) ((one_lt_div hb).2 hbb)
  have c0 : 0 < min (a' / a) (b' / b) := by linarith
  have pos : 0 < expProfileMean a b := (lt_min ha hb).trans_le (expProfileMean_bounds ha hb).1
  have := expProfileMean_mono (a' := a') (b' := b') (mul_pos c0 ha) (mul_pos c0 hb)
    ((mul_le_mul_of_nonneg_right (min_le_left _ _) ha.le).trans_eq (div_mul_cancel₀ a' ha.ne'))
    ((mul_le_mul_of_nonneg_right (min_le_right _ _) hb.le).trans_eq (div_mul_cancel₀ b' hb.ne'))
  rw [expProfileMean_mul c0.ne'] at this
  nlinarith

/-- A rise if both level values rise. -/
theorem layerValue_strict {z : Bool} {a b a' b' v v' : ℝ} (ha : 0 < a) (hb : 0 < b) (haa : a < a') (hbb : b < b')
    (hs : |b - a| < 1e-9 ↔ |b' - a'| < 1e-9)
    (h : layerValue z a b = some v) (h' : layerValue z a' b' = some v') : v < v' := by
  rw [layerValue_pos ha hb, Option.some_inj] at h
  rw [layerValue_pos (ha.trans haa) (hb.trans hbb), Option.some_inj] at h'
  have hm := expProfileMean_strict ha hb haa hbb
  subst h h'
  by_cases h1 : |b - a| < 1e-9
  · rwa [if_pos h1, if_pos (hs.1 h1)]
  · rwa [if_neg h1, if_neg (fun h => h1 (hs.2 h))]

end Verif.Model
