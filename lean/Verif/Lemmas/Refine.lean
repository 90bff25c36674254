import Verif.Lemmas.Radiance

/-!
# Splitting an isothermal layer

Layer `k + 1`, between levels `k` and `k + 1` of equal radiance, is split into two layers of opacities `a` and `b`.
-/

namespace Verif.Spec

open Finset Real

variable {B B' τ τ' : ℕ → ℝ} {n k : ℕ} {a b : ℝ}

theorem splitLayer_sky (hiso : B (k + 1) = B k) (hab : a + b = τ (k + 1))
    (hB : ∀ i, B' i = if i ≤ k then B i else B (i - 1))
    (hτ : ∀ i, τ' i = if i ≤ k then τ i else if i = k + 1 then a else if i = k + 2 then b else τ (i - 1))
    (hk : k + 1 ≤ n) :
    opacityBelow τ' (n + 1) = opacityBelow τ n ∧ skyRadiance B' τ' (n + 1) = skyRadiance B τ n := by
  have h0 : opacityBelow τ' k = opacityBelow τ k ∧ skyRadiance B' τ' k = skyRadiance B τ k := by
    constructor
    · exact opacityBelow_congr fun i _ h => by rw [hτ, if_pos h]
    · exact skyRadiance_congr2 (fun i h => by rw [hB, if_pos h]) (fun i _ h => by rw [hτ, if_pos h])
  induction n, hk using Nat.le_induction with
  | base =>
    have ha : τ' (k + 1) = a := by rw [hτ]; simp
    have hb : τ' (k + 1 + 1) = b := by rw [hτ]; simp
    have b0 : B' k = B k := by rw [hB]; simp
    have b1 : B' (k + 1) = B k := by rw [hB]; simp
    have b2 : B' (k + 1 + 1) = B k := by rw [hB]; simp [hiso]
    have ho : opacityBelow τ' (k + 1 + 1) = opacityBelow τ (k + 1) := by
      rw [opacityBelow_succ, opacityBelow_succ, opacityBelow_succ, h0.1, ha, hb, ← hab, add_assoc]
    refine ⟨ho, ?_⟩
    rw [skyRadiance_succ, skyRadiance_succ, skyRadiance_succ, h0.2, b0, b1, b2, hiso, layerSource_const,
      layerSource_const, layerSource_const]
    unfold transDown; rw [ho, h0.1]; ring
  | succ n hn ih =>
    have e1 : τ' (n + 1 + 1) = τ (n + 1) := by
      rw [hτ, if_neg (by omega), if_neg (by omega), if_neg (by omega)]; rfl
    have e2 : B' (n + 1 + 1) = B (n + 1) := by rw [hB, if_neg (by omega)]; rfl
    have e3 : B' (n + 1) = B n := by rw [hB, if_neg (by omega)]; rfl
    have ho : opacityBelow τ' (n + 1 + 1) = opacityBelow τ (n + 1) := by
      rw [opacityBelow_succ, ih.1, e1, opacityBelow_succ]
    refine ⟨ho, ?_⟩
    rw [skyRadiance_succ, ih.2, skyRadiance_succ, e1, e2, e3]
    unfold transDown; rw [ho, ih.1]

theorem splitLayer_up (hiso : B (k + 1) = B k) (hab : a + b = τ (k + 1))
    (hB : ∀ i, B' i = if i ≤ k then B i else B (i - 1))
    (hτ : ∀ i, τ' i = if i ≤ k then τ i else if i = k + 1 then a else if i = k + 2 then b else τ (i - 1))
    (hk : k + 1 ≤ n) : upRadiance B' τ' (n + 1) 0 = upRadiance B τ n 0 := by
  rw [upRadiance_zero_eq_reverse, upRadiance_zero_eq_reverse]
  set Br : ℕ → ℝ := fun i => B (n - i) with hBr
  set τr : ℕ → ℝ := fun i => τ (n + 1 - i) with hτr
  have x1 : Br (n - k - 1 + 1) = Br (n - k - 1) := by
    simp only [hBr]
    rw [show n - (n - k - 1 + 1) = k by omega, show n - (n - k - 1) = k + 1 by omega, hiso]
  have x2 : b + a = τr (n - k - 1 + 1) := by
    simp only [hτr]
    rw [show n + 1 - (n - k - 1 + 1) = k + 1 by omega, ← hab, add_comm]
  rw [← (splitLayer_sky (B := Br) (τ := τr) (k := n - k - 1) x1 x2
    (B' := fun i => if i ≤ n - k - 1 then Br i else Br (i - 1))
    (τ' := fun i => if i ≤ n - k - 1 then τr i else if i = n - k - 1 + 1 then b else
      if i = n - k - 1 + 2 then a else τr (i - 1))
    (fun _ => rfl) (fun _ => rfl) (by omega)).2]
  refine skyRadiance_congr2 ?_ ?_
  · intro i hi
    simp only [hBr, hB]
    split_ifs with h1 h2 h2
    · omega
    · congr 1; omega
    · congr 1; omega
    · rw [show n + 1 - i - 1 = k by omega, show n - (i - 1) = k + 1 by omega, hiso]
  · intro i h1 hi
    simp only [hτr, hτ]
    split_ifs <;> first | rfl | omega | (congr 1; omega)

end Verif.Spec
