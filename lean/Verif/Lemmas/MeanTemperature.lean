import Verif.Lemmas.Radiance
import Mathlib.Analysis.Convex.SpecificFunctions.Basic

/-!
# Mean radiance of a path whose opacities are all multiplied by the same factor

The mean radiance is the radiance of the atmosphere divided by its opaque fraction `1 - transDown τ n`.  A factor `c ≥ 1` shifts weight
towards the observer.
-/

namespace Verif.Lemmas

open Verif.Spec Real Set

variable {B τ : ℕ → ℝ} {n : ℕ} {c : ℝ}

theorem opacityBelow_smul : opacityBelow (fun i => c * τ i) n = c * opacityBelow τ n := by
  unfold opacityBelow; rw [Finset.mul_sum]

theorem transDown_smul : transDown (fun i => c * τ i) n = transDown τ n ^ c := by
  unfold transDown
  rw [opacityBelow_smul, ← exp_mul]
  congr 1; ring

/-- The share of a near part of the path grows with the factor. -/
theorem opaque_share_mono {u v : ℝ} (hc : 1 ≤ c) (hv : 0 ≤ v) (huv : v ≤ u) (hu : u ≤ 1) :
    (1 - u) * (u ^ c - v ^ c) ≤ (1 - u ^ c) * (u - v) := by
  rcases huv.eq_or_lt with rfl | h1
  · simp
  rcases hu.eq_or_lt with rfl | h2
  · simp
  have h := (convexOn_rpow hc).slope_mono_adjacent (mem_Ici.2 hv) (mem_Ici.2 zero_le_one) h1 h2
  rw [one_rpow, div_le_div_iff₀ (by linarith) (by linarith)] at h
  linarith

theorem layerSource_opacity {near far t t' : ℝ} (h : far ≤ near) (ht : t ≤ t') :
    layerSource near far t ≤ layerSource near far t' := by
  have e : exp (-t') ≤ exp (-t) := exp_le_exp.2 (by linarith)
  have p := exp_pos (-t)
  have p' := exp_pos (-t')
  unfold layerSource
  rw [div_le_div_iff₀ (by positivity) (by positivity)]
  nlinarith [mul_nonneg (sub_nonneg.2 e) (sub_nonneg.2 h)]

theorem anti_le (hB : ∀ i, i + 1 ≤ n → B (i + 1) ≤ B i) : ∀ i ≤ n, B n ≤ B i := by
  induction n with
  | zero => intro i hi; obtain rfl : i = 0 := by omega
            exact le_rfl
  | succ n ih =>
    intro i hi
    rcases hi.eq_or_lt with rfl | h
    · exact le_rfl
    · exact (hB n le_rfl).trans (ih (fun j hj => hB j (by omega)) i (by omega))

/-- Radiance not increasing away from the observer: the mean radiance does not fall when all opacities are multiplied by
`c ≥ 1`.  (Multiplied out, so that a transparent path needs no exception.) -/
theorem sky_mean_mono (hc : 1 ≤ c) (hτ : ∀ i, 1 ≤ i → i ≤ n → 0 ≤ τ i) (hB : ∀ i, i + 1 ≤ n → B (i + 1) ≤ B i) :
    skyRadiance B τ n * (1 - transDown (fun i => c * τ i) n) ≤
      skyRadiance B (fun i => c * τ i) n * (1 - transDown τ n) := by
  induction n with
  | zero => simp
  | succ n ih =>
    have hτn : ∀ i, 1 ≤ i → i ≤ n → 0 ≤ τ i := fun i h1 h2 => hτ i h1 (by omega)
    have ih := ih hτn fun i hi => hB i (by omega)
    have hτ' : ∀ i, 1 ≤ i → i ≤ n → 0 ≤ c * τ i := fun i h1 h2 => mul_nonneg (by linarith) (hτn i h1 h2)
    have hB' : ∀ i ≤ n, B n ≤ B i := anti_le fun i hi => hB i (by omega)
    obtain ⟨M, hM⟩ : ∃ M, ∀ i ≤ n, B i ≤ M := by
      obtain ⟨i, -, h⟩ := Finset.exists_max_image (Finset.range (n + 1)) B ⟨0, by simp⟩
      exact ⟨B i, fun k hk => h k (by simp; omega)⟩
    have hbn := hB n le_rfl
    have t0 := hτ (n + 1) (by omega) le_rfl
    obtain ⟨low, high⟩ := skyRadiance_bounds hτn fun i hi => ⟨hB' i hi, hM i hi⟩
    have low' := (skyRadiance_bounds hτ' fun i hi => ⟨hB' i hi, hM i hi⟩).1
    rw [skyRadiance_succ, skyRadiance_succ]
    have hsB : layerSource (B n) (B (n + 1)) (τ (n + 1)) ≤ B n := layerSource_le le_rfl hbn
    have hss : layerSource (B n) (B (n + 1)) (τ (n + 1)) ≤ layerSource (B n) (B (n + 1)) (c * τ (n + 1)) :=
      layerSource_opacity hbn (by nlinarith)
    have hu0 : 0 < transDown τ n := transDown_pos
    have hv0 : 0 < transDown τ (n + 1) := transDown_pos
    have huv : transDown τ (n + 1) ≤ transDown τ n := transDown_anti t0
    have hu1 : transDown τ n ≤ 1 := transDown_le_one hτn
    have hsh := opaque_share_mono hc hv0.le huv hu1
    have huv' : transDown τ (n + 1) ^ c ≤ transDown τ n ^ c := rpow_le_rpow hv0.le huv (by linarith)
    have hu1' : transDown τ n ^ c ≤ 1 := rpow_le_one hu0.le hu1 (by linarith)
    have hone : transDown τ n = 1 → transDown τ n ^ c = 1 := fun h => by rw [h, one_rpow]
    rw [transDown_smul] at ih low'
    rw [transDown_smul, transDown_smul]
    generalize transDown τ n = u at *
    generalize transDown τ (n + 1) = v at *
    generalize u ^ c = u' at *
    generalize v ^ c = v' at *
    generalize layerSource (B n) (B (n + 1)) (τ (n + 1)) = s at *
    generalize layerSource (B n) (B (n + 1)) (c * τ (n + 1)) = s' at *
    generalize skyRadiance B τ n = R at *
    generalize skyRadiance B (fun i => c * τ i) n = R' at *
    -- E = 1 - u, E' = 1 - u', δ = u - v, δ' = u' - v'
    have lo : s * (1 - u) ≤ R := le_trans (mul_le_mul_of_nonneg_right hsB (by linarith)) low
    have lo' : s * (1 - u') ≤ R' := le_trans (mul_le_mul_of_nonneg_right hsB (by linarith)) low'
    have key : (R - s * (1 - u)) * (u' - v') ≤ (R' - s * (1 - u')) * (u - v) := by
      rcases hu1.eq_or_lt with rfl | hlt
      · have h1 := hone rfl
        subst h1
        have hR : R = 0 := by linarith
        rw [hR, sub_self, mul_zero, sub_zero, zero_mul]
        exact mul_nonneg (by linarith) (by linarith)
      · have hE : 0 < 1 - u := by linarith
        refine le_of_mul_le_mul_right ?_ hE
        have k1 : (R - s * (1 - u)) * ((1 - u) * (u' - v')) ≤ (R - s * (1 - u)) * ((1 - u') * (u - v)) :=
          mul_le_mul_of_nonneg_left hsh (by linarith)
        have k2 : (R - s * (1 - u)) * (1 - u') * (u - v) ≤ (R' - s * (1 - u')) * (1 - u) * (u - v) :=
          mul_le_mul_of_nonneg_right (by linarith) (by linarith)
        linarith
    have k3 : 0 ≤ (s' - s) * ((u' - v') * (1 - v)) :=
      mul_nonneg (by linarith) (mul_nonneg (by linarith) (by linarith))
    linarith

theorem skyRadiance_neg : skyRadiance (fun i => -B i) τ n = -skyRadiance B τ n := by
  unfold skyRadiance
  rw [← Finset.sum_neg_distrib]
  refine Finset.sum_congr rfl fun i _ => ?_
  unfold layerSource
  ring

/-- Seen from above, radiance not increasing with height: the mean radiance does not rise. -/
theorem up_mean_mono (hc : 1 ≤ c) (hτ : ∀ i, 1 ≤ i → i ≤ n → 0 ≤ τ i) (hB : ∀ i, i + 1 ≤ n → B (i + 1) ≤ B i) :
    upRadiance B (fun i => c * τ i) n 0 * (1 - transDown τ n) ≤
      upRadiance B τ n 0 * (1 - transDown (fun i => c * τ i) n) := by
  have e : ∀ σ : ℕ → ℝ, transDown (fun i => σ (n + 1 - i)) n = transDown σ n := fun σ => by
    have := opacityAbove_reverse (n := n) (τ := σ) (τ' := fun i => σ (n + 1 - i)) (fun _ _ _ => rfl) (Nat.zero_le n)
    rw [opacityAbove_zero, Nat.sub_zero] at this
    unfold transDown
    rw [this]
  rw [upRadiance_zero_eq_reverse, upRadiance_zero_eq_reverse, ← e τ, ← e fun i => c * τ i]
  have h := sky_mean_mono (B := fun i => -B (n - i)) (τ := fun i => τ (n + 1 - i)) (n := n) hc
    (fun i h1 h2 => hτ _ (by omega) (by omega)) (fun i hi => by
      have := hB (n - (i + 1)) (by omega)
      rw [show n - (i + 1) + 1 = n - i by omega] at this
      linarith)
  rw [skyRadiance_neg, skyRadiance_neg] at h
  linarith

theorem transUp_succ (h : m ≤ n) : transUp τ (n + 1) m = transUp τ n m * exp (-τ (n + 1)) := by
  unfold transUp opacityAbove
  rw [Finset.sum_Icc_succ_top (by omega), ← exp_add]
  congr 1
  ring

/-- One more layer on top. -/
theorem upRadiance_succ : upRadiance B τ (n + 1) 0 = upRadiance B τ n 0 * exp (-τ (n + 1)) +
    layerSource (B (n + 1)) (B n) (τ (n + 1)) * (1 - exp (-τ (n + 1))) := by
  unfold upRadiance
  rw [Finset.sum_Icc_succ_top (by omega), Finset.sum_mul]
  congr 1
  · refine Finset.sum_congr rfl fun i hi => ?_
    have := Finset.mem_Icc.1 hi
    rw [transUp_succ (by omega), transUp_succ (by omega)]
    ring
  · rw [transUp_self, Nat.add_sub_cancel, transUp_succ le_rfl, transUp_self, one_mul]

/-- Radiance not increasing with height: the atmosphere sends no less down than up. -/
theorem up_le_sky (hτ : ∀ i, 1 ≤ i → i ≤ n → 0 ≤ τ i) (hB : ∀ i, i + 1 ≤ n → B (i + 1) ≤ B i) :
    upRadiance B τ n 0 ≤ skyRadiance B τ n := by
  induction n with
  | zero => simp
  | succ n ih =>
    have hτn : ∀ i, 1 ≤ i → i ≤ n → 0 ≤ τ i := fun i h1 h2 => hτ i h1 (by omega)
    have hBn : ∀ i, i + 1 ≤ n → B (i + 1) ≤ B i := fun i hi => hB i (by omega)
    have h0 := ih hτn hBn
    have d0 := exp_pos (-τ (n + 1))
    have d1 : exp (-τ (n + 1)) ≤ 1 := by rw [exp_le_one_iff]; linarith [hτ (n + 1) (by omega) le_rfl]
    have D0 : 0 < transDown τ n := exp_pos _
    have D1 : transDown τ n ≤ 1 := by
      unfold transDown
      rw [exp_le_one_iff]
      linarith [opacityBelow_nonneg hτn]
    have hU : B n * (1 - transDown τ n) ≤ upRadiance B τ n 0 := by
      have e : transDown τ n = transUp τ n 0 := rfl
      rw [e, ← upRadiance_const (B n) (Nat.zero_le n)]
      exact upRadiance_mono (fun i h1 h2 => hτn i (by omega) h2) (anti_le hBn)
    have hs : layerSource (B (n + 1)) (B n) (τ (n + 1)) ≤ B n := layerSource_le (hB n le_rfl) le_rfl
    have hd : layerSource (B (n + 1)) (B n) (τ (n + 1)) ≤ layerSource (B n) (B (n + 1)) (τ (n + 1)) := by
      unfold layerSource
      rw [div_le_div_iff_of_pos_right (by positivity)]
      nlinarith [mul_nonneg (sub_nonneg.2 (hB n le_rfl)) (sub_nonneg.2 d1)]
    have hT : transDown τ (n + 1) = transDown τ n * exp (-τ (n + 1)) := transUp_succ (Nat.zero_le n)
    rw [upRadiance_succ, skyRadiance_succ, hT]
    set d := exp (-τ (n + 1))
    set D := transDown τ n
    set U := upRadiance B τ n 0
    set s := layerSource (B (n + 1)) (B n) (τ (n + 1))
    set s' := layerSource (B n) (B (n + 1)) (τ (n + 1))
    have k1 := mul_nonneg (sub_nonneg.2 hU) (sub_nonneg.2 d1)
    have k2 := mul_nonneg (sub_nonneg.2 hs) (mul_nonneg (sub_nonneg.2 D1) (sub_nonneg.2 d1))
    have k3 := mul_nonneg (sub_nonneg.2 hd) (mul_nonneg D0.le (sub_nonneg.2 d1))
    nlinarith

end Verif.Lemmas
