import Verif.Lemmas.Radiance

/-!
# Radiance of a stack of layers as a function of the layer opacities

One layer sends `layerSource near far τ * (1 - exp (-τ)) + b * exp (-τ)` to the observer when `b` enters at its far
side.  When temperatures do not increase away from the observer this grows with `τ`.
-/

namespace Verif.Spec

open Finset Real

variable {B τ τ' : ℕ → ℝ} {n m i : ℕ} {near far b b' s t : ℝ}

theorem layer_eq : layerSource near far t * (1 - exp (-t)) + b * exp (-t) =
    (near - far) * (2 / (1 + exp (-t)) - 1) + far - (far - b) * exp (-t) := by
  unfold layerSource
  have := exp_pos (-t)
  have h : (1 + exp (-t)) ≠ 0 := by positivity
  field_simp
  ring

theorem layer_mono (h : s ≤ t) (h1 : far ≤ near) (h2 : b ≤ far) (hb : b ≤ b') :
    layerSource near far s * (1 - exp (-s)) + b * exp (-s) ≤
      layerSource near far t * (1 - exp (-t)) + b' * exp (-t) := by
  have e : exp (-t) ≤ exp (-s) := exp_le_exp.2 (by linarith)
  have p := exp_pos (-t)
  have q : 2 / (1 + exp (-s)) ≤ 2 / (1 + exp (-t)) := by gcongr
  have a1 := mul_le_mul_of_nonneg_left q (sub_nonneg.2 h1)
  have a2 := mul_le_mul_of_nonneg_left e (sub_nonneg.2 h2)
  have a3 := mul_le_mul_of_nonneg_right hb p.le
  rw [layer_eq, layer_eq]
  nlinarith

theorem layer_anti (h : s ≤ t) (h1 : near ≤ far) (h2 : far ≤ b) (hb : b' ≤ b) :
    layerSource near far t * (1 - exp (-t)) + b' * exp (-t) ≤
      layerSource near far s * (1 - exp (-s)) + b * exp (-s) := by
  have e : exp (-t) ≤ exp (-s) := exp_le_exp.2 (by linarith)
  have p := exp_pos (-t)
  have q : 2 / (1 + exp (-s)) ≤ 2 / (1 + exp (-t)) := by gcongr
  have a1 := mul_le_mul_of_nonneg_left q (sub_nonneg.2 h1)
  have a2 := mul_le_mul_of_nonneg_left e (sub_nonneg.2 h2)
  have a3 := mul_le_mul_of_nonneg_right hb p.le
  rw [layer_eq, layer_eq]
  nlinarith

theorem layer_le_near (ht : 0 ≤ t) (h1 : far ≤ near) (h2 : b ≤ near) :
    layerSource near far t * (1 - exp (-t)) + b * exp (-t) ≤ near := by
  have e : exp (-t) ≤ 1 := exp_le_one_iff.2 (by linarith)
  have p := exp_pos (-t)
  have s := layerSource_le (t := t) (le_refl near) h1
  have a1 := mul_le_mul_of_nonneg_right s (sub_nonneg.2 e)
  have a2 := mul_le_mul_of_nonneg_right h2 p.le
  nlinarith

theorem near_le_layer (ht : 0 ≤ t) (h1 : near ≤ far) (h2 : near ≤ b) :
    near ≤ layerSource near far t * (1 - exp (-t)) + b * exp (-t) := by
  have e : exp (-t) ≤ 1 := exp_le_one_iff.2 (by linarith)
  have p := exp_pos (-t)
  have s := le_layerSource (t := t) (le_refl near) h1
  have a1 := mul_le_mul_of_nonneg_right s (sub_nonneg.2 e)
  have a2 := mul_le_mul_of_nonneg_right h2 p.le
  nlinarith

/-- Downwelling radiance with `b` entering at the top, one layer peeled off at the top. -/
theorem sky_peel : skyRadiance B τ (n + 1) + b * transDown τ (n + 1) = skyRadiance B τ n +
    (layerSource (B n) (B (n + 1)) (τ (n + 1)) * (1 - exp (-τ (n + 1))) + b * exp (-τ (n + 1))) * transDown τ n := by
  rw [skyRadiance_succ, transDown_succ]; ring

/-- Radiance not increasing with height and not smaller than what enters at the top: thicker layers send more down. -/
theorem sky_thicker (h : ∀ i, 1 ≤ i → i ≤ n → 0 ≤ τ i ∧ τ i ≤ τ' i) (hB : ∀ i < n, B (i + 1) ≤ B i)
    (hb : b ≤ b') (hb' : b' ≤ B n) :
    skyRadiance B τ n + b * transDown τ n ≤ skyRadiance B τ' n + b' * transDown τ' n := by
  induction n generalizing b b' with
  | zero => simpa using hb
  | succ n ih =>
    rw [sky_peel, sky_peel]
    obtain ⟨h0, h1⟩ := h (n + 1) (by omega) le_rfl
    have hd := hB n (by omega)
    exact ih (fun i a c => h i a (by omega)) (fun i hi => hB i (by omega))
      (layer_mono h1 hd (hb.trans hb') hb) (layer_le_near (h0.trans h1) hd (hb'.trans hd))

theorem up_peel (h : m < n) : upRadiance B τ n m + b * transUp τ n m = upRadiance B τ n (m + 1) +
    (layerSource (B (m + 1)) (B m) (τ (m + 1)) * (1 - exp (-τ (m + 1))) + b * exp (-τ (m + 1))) *
      transUp τ n (m + 1) := by
  rw [upRadiance_step h, transUp_step h]; ring

/-- Radiance not increasing with height and not larger than what enters at the bottom: thicker layers send less up. -/
theorem up_thicker (hm : m ≤ n) (h : ∀ i, m < i → i ≤ n → 0 ≤ τ i ∧ τ i ≤ τ' i)
    (hB : ∀ i < n, B (i + 1) ≤ B i) (hb : b' ≤ b) (hb' : B m ≤ b') :
    upRadiance B τ' n m + b' * transUp τ' n m ≤ upRadiance B τ n m + b * transUp τ n m := by
  induction hm using Nat.decreasingInduction generalizing b b' with
  | self => simpa using hb
  | of_succ k hk ih =>
    rw [up_peel hk, up_peel hk]
    obtain ⟨h0, h1⟩ := h (k + 1) (by omega) hk
    have hd := hB k hk
    exact ih (fun i a c => h i (by omega) c) (layer_anti h1 hd (hb'.trans hb) hb)
      (near_le_layer (h0.trans h1) hd (hd.trans hb'))

theorem opacityBelow_mono (h : ∀ i, 1 ≤ i → i ≤ n → τ i ≤ τ' i) : opacityBelow τ n ≤ opacityBelow τ' n :=
  sum_le_sum fun i hi => by simp at hi; exact h i hi.1 hi.2

end Verif.Spec
