import Verif.Lemmas.Bright

/-! # Complete description of what `planck` returns -/

namespace Verif.Model

open Verif.Py Verif.Spec Real

theorem expmax_eq : expmax = 125 := by norm_num [expmax]

theorem planck_eq_none_iff {s : Bool} {es frq : ℝ} {nl : ℕ} {t τ : ℕ → ℝ} :
    planck s es frq nl t τ = none ↔ nl = 0 := by
  unfold planck
  constructor
  · intro h
    by_contra hn
    rw [if_neg hn] at h
    revert h
    simp only
    split_ifs <;> simp
  · intro h; simp [h]

theorem planck_ground {es frq : ℝ} {nl : ℕ} {t τ : ℕ → ℝ} {out : PlanckOut}
    (h : planck false es frq nl t τ = some out) :
    0 < nl ∧ out.hvk = hvkOf frq ∧
    (∀ i < nl, out.boft i = tk2b (hvkOf frq) (t i)) ∧
    (∀ i < nl, out.tauprof i = opacityBelow τ i) ∧
    (∀ i < nl, out.boftatm i = skyRadiance (fun i => tk2b (hvkOf frq) (t i)) τ i) ∧
    (opacityBelow τ (nl - 1) < 125 →
      out.bakgrnd = tk2b (hvkOf frq) cTcosmicbkg * exp (-opacityBelow τ (nl - 1)) ∧
      out.boftmr = npDiv (skyRadiance (fun i => tk2b (hvkOf frq) (t i)) τ (nl - 1))
        (1 - exp (-opacityBelow τ (nl - 1)))) ∧
    (125 ≤ opacityBelow τ (nl - 1) →
      out.bakgrnd = 0 ∧
      out.boftmr = some (skyRadiance (fun i => tk2b (hvkOf frq) (t i)) τ (nl - 1))) ∧
    out.boftotl = out.bakgrnd + skyRadiance (fun i => tk2b (hvkOf frq) (t i)) τ (nl - 1) := by
  have hn : 0 < nl := by
    by_contra hn
    rw [planck_eq_none_iff.2 (by omega)] at h; cases h
  have sp := groundArrays_spec (hvkOf frq) nl t τ hn
  have sl := sp (nl - 1) (by omega)
  unfold planck at h
  rw [if_neg hn.ne'] at h
  simp only [Bool.false_eq_true, if_false] at h
  rw [sl.2.1, sl.2.2, expmax_eq] at h
  split_ifs at h with hlt <;> cases h
  · refine ⟨hn, rfl, fun i hi => (sp i hi).1, fun i hi => (sp i hi).2.1, fun i hi => (sp i hi).2.2,
      fun _ => ⟨rfl, by simp only [norm_one]⟩, fun h => absurd h (not_le.2 hlt), rfl⟩
  · refine ⟨hn, rfl, fun i hi => (sp i hi).1, fun i hi => (sp i hi).2.1, fun i hi => (sp i hi).2.2,
      fun h => absurd h hlt, fun _ => ⟨norm_zero', rfl⟩, by simp only [norm_zero', zero_add]⟩

theorem planck_sat {es frq : ℝ} {nl : ℕ} {t τ : ℕ → ℝ} {out : PlanckOut}
    (h : planck true es frq nl t τ = some out) :
    0 < nl ∧ out.hvk = hvkOf frq ∧
    (∀ i < nl, out.boft i = tk2b (hvkOf frq) (t i)) ∧
    (∀ i < nl, out.tauprof i = opacityAbove τ (nl - 1) i) ∧
    (∀ i < nl, out.boftatm i = upRadiance (fun i => tk2b (hvkOf frq) (t i)) τ (nl - 1) i) ∧
    (opacityBelow τ (nl - 1) < 125 →
      out.bakgrnd = es * tk2b (hvkOf frq) (t 0) * exp (-opacityBelow τ (nl - 1)) ∧
      out.boftmr = npDiv (upRadiance (fun i => tk2b (hvkOf frq) (t i)) τ (nl - 1) 0)
        (1 - exp (-opacityBelow τ (nl - 1)))) ∧
    (125 ≤ opacityBelow τ (nl - 1) →
      out.bakgrnd = 0 ∧
      out.boftmr = some (upRadiance (fun i => tk2b (hvkOf frq) (t i)) τ (nl - 1) 0)) ∧
    out.boftotl = out.bakgrnd + upRadiance (fun i => tk2b (hvkOf frq) (t i)) τ (nl - 1) 0 := by
  have hn : 0 < nl := by
    by_contra hn
    rw [planck_eq_none_iff.2 (by omega)] at h; cases h
  obtain ⟨n, rfl⟩ : ∃ n, nl = n + 1 := ⟨nl - 1, by omega⟩
  have sp := satArrays_spec (hvkOf frq) n t τ
  have sl := sp 0 (by omega)
  unfold planck at h
  rw [if_neg hn.ne'] at h
  simp only [if_true] at h
  rw [sl.2.1, sl.2.2, expmax_eq, opacityAbove_zero] at h
  simp only [Nat.add_sub_cancel]
  have sp' : ∀ i < n + 1, _ := fun i hi => sp i (Nat.lt_succ_iff.1 hi)
  split_ifs at h with hlt <;> cases h
  · refine ⟨hn, rfl, fun i hi => (sp' i hi).1, fun i hi => (sp' i hi).2.1, fun i hi => (sp' i hi).2.2,
      fun _ => ⟨by simp only [norm_zero', mul_zero, add_zero], by simp only [norm_one]⟩,
      fun h => absurd h (not_le.2 hlt), rfl⟩
  · refine ⟨hn, rfl, fun i hi => (sp' i hi).1, fun i hi => (sp' i hi).2.1, fun i hi => (sp' i hi).2.2,
      fun h => absurd h hlt, fun _ => ⟨norm_zero', rfl⟩, by simp only [norm_zero', zero_add]⟩

end Verif.Model
