import Verif.Model.Planck
import Verif.Lemmas.Radiance

/-! # The two loops of `planck` compute the specified radiances -/

namespace Verif.Model

open Verif.Py Verif.Spec Real

theorem norm_one : (1.0 : ℝ) = 1 := by norm_num
theorem norm_zero' : (0.0 : ℝ) = 0 := by norm_num

theorem batmlay_eq (a x y : ℝ) : a * exp (-x) * (1 - exp (-y)) = a * (exp (-x) - exp (-x) * exp (-y)) := by
  ring

theorem groundArrays_spec (hvk : ℝ) (nl : ℕ) (t τ : ℕ → ℝ) (hnl : 1 ≤ nl) :
    ∀ i < nl, (groundArrays hvk nl t τ).boft i = tk2b hvk (t i) ∧
      (groundArrays hvk nl t τ).tauprof i = opacityBelow τ i ∧
      (groundArrays hvk nl t τ).boftatm i = skyRadiance (fun i => tk2b hvk (t i)) τ i := by
  unfold groundArrays
  apply forRange_inv (I := fun n (a : PlanckArrays) => ∀ i < n, a.boft i = tk2b hvk (t i) ∧
      a.tauprof i = opacityBelow τ i ∧
      a.boftatm i = skyRadiance (fun i => tk2b hvk (t i)) τ i) hnl
  · intro i hi
    obtain rfl : i = 0 := by omega
    simp [PlanckArrays.zeros]
  · intro n a hn _ ih i hi
    obtain ⟨k, rfl⟩ : ∃ k, n = k + 1 := ⟨n - 1, by omega⟩
    have hk := ih k (by omega)
    rcases Nat.lt_or_ge i (k + 1) with h | h
    · have := ih i h
      have hne : i ≠ k + 1 := by omega
      simp only [groundBody, Function.update_of_ne hne]
      exact this
    · obtain rfl : i = k + 1 := by omega
      simp only [groundBody, Function.update_self, Nat.add_sub_cancel, norm_one]
      have hne : k ≠ k + 1 := by omega
      rw [Function.update_of_ne hne, hk.1, hk.2.1, hk.2.2]
      refine ⟨trivial, (opacityBelow_succ).symm, ?_⟩
      rw [skyRadiance_succ, transDown_succ, batmlay_eq]
      rfl

theorem satArrays_spec (hvk : ℝ) (n : ℕ) (t τ : ℕ → ℝ) :
    ∀ i ≤ n, (satArrays hvk (n + 1) t τ).boft i = tk2b hvk (t i) ∧
      (satArrays hvk (n + 1) t τ).tauprof i = opacityAbove τ n i ∧
      (satArrays hvk (n + 1) t τ).boftatm i = upRadiance (fun i => tk2b hvk (t i)) τ n i := by
  unfold satArrays
  have := forDown_inv (n := n + 1 - 1) (f := satBody hvk t τ)
    (I := fun k (a : PlanckArrays) => ∀ i ≤ n, k ≤ i → a.boft i = tk2b hvk (t i) ∧
      a.tauprof i = opacityAbove τ n i ∧
      a.boftatm i = upRadiance (fun i => tk2b hvk (t i)) τ n i)
    (s := { PlanckArrays.zeros with
      boft := Function.update (fun _ => 0) (n + 1 - 1) (tk2b hvk (t (n + 1 - 1))) }) ?_ ?_
  · intro i hi; exact this i hi (Nat.zero_le i)
  · intro i hi hk
    obtain rfl : i = n := by omega
    simp [PlanckArrays.zeros]
  · intro k a hk ih i hi hki
    have hk1 := ih (k + 1) (by omega) le_rfl
    rcases Nat.lt_or_ge k i with h | h
    · have := ih i hi h
      have hne : i ≠ k := by omega
      simp only [satBody, Function.update_of_ne hne]
      exact this
    · obtain rfl : i = k := by omega
      simp only [satBody, Function.update_self, norm_one]
      have hne : i + 1 ≠ i := by omega
      rw [Function.update_of_ne hne, hk1.1, hk1.2.1, hk1.2.2]
      refine ⟨trivial, ?_, ?_⟩
      · rw [opacityAbove_step (i := i) (by omega)]; ring
      · rw [upRadiance_step (i := i) (by omega), transUp_step (i := i) (by omega), batmlay_eq, add_comm]
        rfl

end Verif.Model
