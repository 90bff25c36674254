import Verif.Model.AbsWater
import Verif.Model.LineLists
import Mathlib.Tactic.Linarith
import Mathlib.Tactic.Positivity
import Mathlib.Tactic.FieldSimp

/-!
# Lemmas on water vapour absorption
-/

namespace Verif.Lemmas

open Verif.Model Verif.Py

theorem fpow_of_pos {a : ℝ} (h : 0 < a) (b : ℝ) : fpow a b = some (a ^ b) := by simp [fpow, h]

theorem db2np_pos : 0 < db2np := by
  unfold db2np
  have : 0 < Real.log 10.0 := Real.log_pos (by norm_num)
  positivity

/-- The Lorentz profile is largest near the centre: cut at 750 GHz it is non-negative inside and not positive
outside. -/
theorem lorentz_cut {w d : ℝ} (hw : 0 < w) :
    (|d| ≤ 750 → w / (750 ^ 2 + w ^ 2) ≤ w / (d ^ 2 + w ^ 2)) ∧
      (750 ≤ |d| → w / (d ^ 2 + w ^ 2) ≤ w / (750 ^ 2 + w ^ 2)) := by
  constructor
  · intro h
    apply div_le_div_of_nonneg_left hw.le (by positivity)
    have : d ^ 2 ≤ 750 ^ 2 := sq_le_sq' (by linarith [(abs_le.1 h).1]) (abs_le.1 h).2
    linarith
  · intro h
    apply div_le_div_of_nonneg_left hw.le (by positivity)
    have : (750 : ℝ) ^ 2 ≤ d ^ 2 := by rw [← sq_abs d]; exact pow_le_pow_left₀ (by norm_num) h 2
    linarith

theorem localLine_eq {w : ℝ} (hw : 0 < w) (d : ℝ) :
    localLine w d = some (w / (d ^ 2 + w ^ 2) - w / (750 ^ 2 + w ^ 2)) := by
  unfold localLine
  rw [npDiv_of_ne (by positivity)]
  norm_num

/-- The cut contribution of one resonance, in one formula. -/
theorem cut_eq_max {w d : ℝ} (hw : 0 < w) (c : Prop) [Decidable (|d| < 750.0 ∨ c ∧ |d| = 750.0)] :
    (if |d| < 750.0 ∨ c ∧ |d| = 750.0 then localLine w d else some 0) =
      some (max 0 (w / (d ^ 2 + w ^ 2) - w / (750 ^ 2 + w ^ 2))) := by
  have h750 : (750.0 : ℝ) = 750 := by norm_num
  obtain ⟨h1, h2⟩ := lorentz_cut (d := d) hw
  split_ifs with h <;> rw [h750] at h
  · rw [localLine_eq hw, max_eq_right]
    have := h1 (by rcases h with h | h; exacts [h.le, h.2.le])
    linarith
  · push Not at h
    rw [max_eq_left]
    have := h2 h.1
    linarith

theorem cut_eq_max' {w d : ℝ} (hw : 0 < w) [Decidable (|d| < 750.0)] :
    (if |d| < 750.0 then localLine w d else some 0) =
      some (max 0 (w / (d ^ 2 + w ^ 2) - w / (750 ^ 2 + w ^ 2))) := by
  have := cut_eq_max (w := w) (d := d) hw False
  rw [← this]
  simp

theorem sumLines_some {n : ℕ} {g : ℕ → Option ℝ} {h : ℕ → ℝ} (hg : ∀ i < n, g i = some (h i)) :
    sumLines n g = some (∑ i ∈ Finset.range n, h i) := by
  unfold sumLines
  induction n with
  | zero => simp
  | succ n ih =>
    rw [forRange_succ (Nat.zero_le n), ih fun i hi => hg i (by omega), hg n (by omega), Finset.sum_range_succ]
    rfl

/-- Constants: the dry pressure never comes out negative. -/
theorem waterAir_props (m : String) {pdry vx e : ℝ} (hp : 0 ≤ pdry) (hv : 0 < vx) (he : 0 < e) :
    0 < (waterAir m pdry vx e).t ∧ 0 < (waterAir m pdry vx e).rho ∧ 0 < (waterAir m pdry vx e).pvap ∧
      0 ≤ (waterAir m pdry vx e).pda ∧ 0 < (waterAir m pdry vx e).den := by
  have ht : 0 < 300.0 / vx := by positivity
  have hr : 0 < e * 10.0 / (0.01 * 8.31451 / 18.01528 * (300.0 / vx)) := by positivity
  have key : e * 10.0 / (0.01 * 8.31451 / 18.01528 * (300.0 / vx)) * (300.0 / vx) =
      e * 10 * 18.01528 / (0.01 * 8.31451) := by
    field_simp
    norm_num
  refine ⟨ht, hr, ?_, ?_, ?_⟩
  · simp only [waterAir]
    split_ifs <;> positivity
  · simp only [waterAir]
    split_ifs
    · rw [mul_assoc, key]; norm_num; nlinarith
    · rw [key]; norm_num; nlinarith
    · rw [key]; norm_num; nlinarith
  · simp only [waterAir]
    split_ifs <;> positivity

theorem waterAir_rho_zero {m : String} {pdry vx e : ℝ} (hv : 0 < vx) : (waterAir m pdry vx e).rho = 0 ↔ e = 0 := by
  simp only [waterAir]
  have : 0.01 * 8.31451 / 18.01528 * (300.0 / vx) ≠ 0 := by positivity
  constructor
  · intro h
    rw [div_eq_zero_iff] at h
    rcases h with h | h
    · norm_num at h; exact h
    · exact absurd h this
  · rintro rfl; simp

end Verif.Lemmas
