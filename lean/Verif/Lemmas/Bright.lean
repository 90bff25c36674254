import Verif.Model.Planck
import Verif.Lemmas.PlanckLoop

/-! # `tk2b_mod` and `bright` -/

namespace Verif.Model

open Verif.Py Verif.Spec Real

variable {hvk T T' b b' : ℝ}

theorem hvkOf_pos {frq : ℝ} (h : 0 < frq) : 0 < hvkOf frq := by
  unfold hvkOf cPlanck cBoltzmann; positivity

theorem hvkOf_strictMono {f g : ℝ} (h : f < g) : hvkOf f < hvkOf g := by
  unfold hvkOf cPlanck cBoltzmann
  have : (0:ℝ) < 1e9 := by norm_num
  gcongr

theorem exp_sub_one_pos (hh : 0 < hvk) (hT : 0 < T) : 0 < exp (hvk / T) - 1 := by
  have : 0 < hvk / T := by positivity
  linarith [add_one_lt_exp this.ne']

theorem tk2b_pos (hh : 0 < hvk) (hT : 0 < T) : 0 < tk2b hvk T := by
  unfold tk2b; rw [norm_one]; exact one_div_pos.2 (exp_sub_one_pos hh hT)

theorem tk2b_strictMono (hh : 0 < hvk) (hT : 0 < T) (h : T < T') : tk2b hvk T < tk2b hvk T' := by
  unfold tk2b; rw [norm_one]
  apply one_div_lt_one_div_of_lt (exp_sub_one_pos hh (hT.trans h))
  have : hvk / T' < hvk / T := by gcongr
  linarith [exp_lt_exp.2 this]

theorem tk2b_mono (hh : 0 < hvk) (hT : 0 < T) (h : T ≤ T') : tk2b hvk T ≤ tk2b hvk T' := by
  rcases h.eq_or_lt with rfl | h
  · exact le_rfl
  · exact (tk2b_strictMono hh hT h).le

/-- Closed form of `bright` for positive radiance. -/
theorem bright_of_pos (hb : 0 < b) : bright hvk b = some (hvk / log (1 + 1 / b)) := by
  have h1 : 0 < 1 / b := by positivity
  have h2 : 0 < log (1 + 1 / b) := log_pos (by linarith)
  unfold bright
  rw [if_pos hb.ne', norm_one, npLog_of_pos (by linarith)]
  exact npDiv_of_ne h2.ne'

theorem bright_zero : bright hvk 0 = some 0 := by simp [bright]

theorem bright_tk2b (hh : 0 < hvk) (hT : 0 < T) : bright hvk (tk2b hvk T) = some T := by
  rw [bright_of_pos (tk2b_pos hh hT)]
  unfold tk2b
  rw [norm_one, one_div_one_div, add_sub_cancel, log_exp]
  congr 1
  field_simp

theorem exists_tk2b (hh : 0 < hvk) (hb : 0 < b) : ∃ T, 0 < T ∧ tk2b hvk T = b := by
  have h1 : 0 < 1 / b := by positivity
  have h2 : 0 < log (1 + 1 / b) := log_pos (by linarith)
  refine ⟨hvk / log (1 + 1 / b), by positivity, ?_⟩
  unfold tk2b
  have : hvk / (hvk / log (1 + 1 / b)) = log (1 + 1 / b) := by field_simp
  rw [norm_one, this, exp_log (by linarith)]
  field_simp
  ring

/-- Upper bound for the brightness temperature of a bounded radiance. -/
theorem bright_le (hh : 0 < hvk) (hT : 0 < T) (hb : 0 ≤ b) (h : b ≤ tk2b hvk T) :
    ∃ T', bright hvk b = some T' ∧ 0 ≤ T' ∧ T' ≤ T := by
  rcases hb.eq_or_lt with rfl | hb
  · exact ⟨0, bright_zero, le_rfl, hT.le⟩
  · obtain ⟨T', h1, rfl⟩ := exists_tk2b hh hb
    refine ⟨T', bright_tk2b hh h1, h1.le, ?_⟩
    by_contra hlt
    push Not at hlt
    linarith [tk2b_strictMono hh hT hlt]

theorem le_bright (hh : 0 < hvk) (hT : 0 < T) (h : tk2b hvk T ≤ b) :
    ∃ T', bright hvk b = some T' ∧ T ≤ T' := by
  obtain ⟨T', h1, rfl⟩ := exists_tk2b hh ((tk2b_pos hh hT).trans_le h)
  refine ⟨T', bright_tk2b hh h1, ?_⟩
  by_contra hlt
  push Not at hlt
  linarith [tk2b_strictMono hh h1 hlt]

theorem bright_between {m M : ℝ} (hh : 0 < hvk) (hm : 0 < m) (hM : 0 < M) (h1 : tk2b hvk m ≤ b)
    (h2 : b ≤ tk2b hvk M) : ∃ T, bright hvk b = some T ∧ m ≤ T ∧ T ≤ M := by
  obtain ⟨T, e, h⟩ := le_bright hh hm h1
  obtain ⟨T', e', _, h'⟩ := bright_le hh hM ((tk2b_pos hh hm).le.trans h1) h2
  rw [e] at e'; cases e'
  exact ⟨T, e, h, h'⟩

/-- `bright` is monotone on non-negative radiances. -/
theorem bright_mono (hh : 0 < hvk) (hb : 0 ≤ b) (h : b ≤ b') :
    ∃ T T', bright hvk b = some T ∧ bright hvk b' = some T' ∧ T ≤ T' := by
  rcases (hb.trans h).eq_or_lt with h0 | hb'
  · have : b = 0 := by linarith
    subst this; rw [← h0]
    exact ⟨0, 0, bright_zero, bright_zero, le_rfl⟩
  · obtain ⟨T', h1, rfl⟩ := exists_tk2b hh hb'
    obtain ⟨T, e, _, h2⟩ := bright_le hh h1 hb h
    exact ⟨T, T', e, bright_tk2b hh h1, h2⟩

end Verif.Model
