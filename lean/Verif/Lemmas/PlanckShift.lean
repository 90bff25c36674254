import Verif.Lemmas.Bright
import Verif.Lemmas.Opacity
import Verif.Spec.Sensitivity
import Mathlib.Analysis.Convex.Deriv
import Mathlib.Analysis.SpecialFunctions.Log.Deriv
import Mathlib.Analysis.SpecialFunctions.ExpDeriv
import Mathlib.Analysis.SpecialFunctions.Trigonometric.DerivHyp

/-!
# Radiance of a scene that is `δ` warmer

`shifted c` takes the black-body radiance of a temperature `T` to that of `T + δ` (`c = hvk / δ`).  It is concave.
-/

namespace Verif.Lemmas

open Verif.Model Verif.Spec Real Set

/-- `x (e^x + 1) / (e^x - 1) - 2`. -/
noncomputable def cothTerm (x : ℝ) : ℝ := x * (exp x + 1) / (exp x - 1) - 2

theorem exp_sub_pos {x : ℝ} (hx : 0 < x) : 0 < exp x - 1 := by linarith [add_one_lt_exp hx.ne']

theorem cothTerm_nonneg {x : ℝ} (hx : 0 < x) : 0 ≤ cothTerm x := by
  have hd (x : ℝ) : HasDerivAt (fun x => x * (exp x + 1) - 2 * (exp x - 1)) (1 + (x - 1) * exp x) x := by
    have := ((hasDerivAt_id x).mul ((hasDerivAt_exp x).add_const 1)).sub (((hasDerivAt_exp x).sub_const 1).const_mul 2)
    refine this.congr_deriv ?_
    simp only [id]
    ring
  have hm : Monotone (fun x : ℝ => x * (exp x + 1) - 2 * (exp x - 1)) := by
    refine monotone_of_deriv_nonneg (fun x => (hd x).differentiableAt) fun x => ?_
    rw [(hd x).deriv]
    have h1 := add_one_le_exp (-x)
    have h2 : exp (-x) * exp x = 1 := by rw [← exp_add]; simp
    nlinarith [exp_pos x]
  have h := hm hx.le
  simp only [exp_zero, sub_self, mul_zero, zero_mul] at h
  unfold cothTerm
  rw [sub_nonneg, le_div_iff₀ (exp_sub_pos hx)]
  linarith

theorem cothTerm_mono : MonotoneOn cothTerm (Ioi 0) := by
  have hd (x : ℝ) (hx : 0 < x) : HasDerivAt cothTerm
      (((exp x + 1 + x * exp x) * (exp x - 1) - x * (exp x + 1) * exp x) / (exp x - 1) ^ 2) x := by
    have := ((((hasDerivAt_id x).mul ((hasDerivAt_exp x).add_const 1))).div ((hasDerivAt_exp x).sub_const 1)
      (exp_sub_pos hx).ne').sub_const 2
    refine this.congr_deriv ?_
    simp only [id, Pi.mul_apply]
    ring
  refine monotoneOn_of_deriv_nonneg (convex_Ioi 0) (fun x hx => (hd x hx).continuousAt.continuousWithinAt)
    (fun x hx => ?_) fun x hx => ?_
  · rw [interior_Ioi] at hx
    exact (hd x hx).differentiableAt.differentiableWithinAt
  · rw [interior_Ioi] at hx
    rw [(hd x hx).deriv]
    refine div_nonneg ?_ (sq_nonneg _)
    have h1 : x ≤ sinh x := self_le_sinh_iff.2 (le_of_lt hx)
    rw [sinh_eq] at h1
    have h2 : exp (-x) * exp x = 1 := by rw [← exp_add]; simp
    have h3 := mul_le_mul_of_nonneg_right h1 (exp_pos x).le
    nlinarith

theorem planckW_pos {x : ℝ} (hx : 0 < x) : 0 < planckW x := by
  have := exp_sub_pos hx
  unfold planckW
  positivity

theorem log_planckW {x : ℝ} (hx : 0 < x) : log (planckW x) = 2 * log x + x - 2 * log (exp x - 1) := by
  have := exp_sub_pos hx
  unfold planckW
  rw [log_div (by positivity) (by positivity), log_mul (by positivity) (by positivity), log_pow, log_pow, log_exp]
  push_cast
  ring

theorem log_planckW_deriv {x : ℝ} (hx : 0 < x) : HasDerivAt (fun x => 2 * log x + x - 2 * log (exp x - 1))
    (-(cothTerm x / x)) x := by
  have h1 := exp_sub_pos hx
  have := (((hasDerivAt_log hx.ne').const_mul 2).add (hasDerivAt_id x)).sub
    ((((hasDerivAt_exp x).sub_const 1).log h1.ne').const_mul 2)
  refine this.congr_deriv ?_
  unfold cothTerm
  field_simp
  ring

variable {c : ℝ}

theorem warmer_deriv (hc : 0 < c) {x : ℝ} (hx : 0 < x) :
    HasDerivAt (fun x => c * x / (c + x)) ((c * x / (c + x) / x) ^ 2) x := by
  have h1 : c + x ≠ 0 := by positivity
  have := ((hasDerivAt_id x).const_mul c).div ((hasDerivAt_id x).const_add c) h1
  refine this.congr_deriv ?_
  simp only [id]
  field_simp
  ring

theorem ratio_mono (hc : 0 < c) : MonotoneOn (fun x => planckW (c * x / (c + x)) / planckW x) (Ioi 0) := by
  have hg {x : ℝ} (hx : 0 < x) : 0 < c * x / (c + x) := by positivity
  have hd (x : ℝ) (hx : 0 < x) := ((log_planckW_deriv (hg hx)).comp x (warmer_deriv hc hx)).sub (log_planckW_deriv hx)
  have hm : MonotoneOn ((fun x => 2 * log x + x - 2 * log (exp x - 1)) ∘ (fun x => c * x / (c + x)) -
      fun x => 2 * log x + x - 2 * log (exp x - 1)) (Ioi 0) := by
    refine monotoneOn_of_deriv_nonneg (convex_Ioi 0) (fun x hx => (hd x hx).continuousAt.continuousWithinAt)
      (fun x hx => ?_) fun x hx => ?_
    · rw [interior_Ioi] at hx
      exact (hd x hx).differentiableAt.differentiableWithinAt
    · rw [interior_Ioi, mem_Ioi] at hx
      rw [(hd x hx).deriv]
      have hle : c * x / (c + x) ≤ x := by rw [div_le_iff₀ (by positivity)]; nlinarith
      have h1 := cothTerm_mono (mem_Ioi.2 (hg hx)) (mem_Ioi.2 hx) hle
      have h2 := cothTerm_nonneg (hg hx)
      have hpos := hg hx
      generalize c * x / (c + x) = g at *
      have e : -(cothTerm g / g) * (g / x) ^ 2 - -(cothTerm x / x) = (cothTerm x * x - cothTerm g * g) / x ^ 2 := by
        field_simp
        ring
      rw [e]
      refine div_nonneg ?_ (sq_nonneg _)
      nlinarith [mul_nonneg h2 (sub_nonneg.2 hle)]
  intro x hx y hy hxy
  rw [mem_Ioi] at hx hy
  have := hm (mem_Ioi.2 hx) (mem_Ioi.2 hy) hxy
  simp only [Pi.sub_apply, Function.comp_apply] at this
  rw [← log_planckW hx, ← log_planckW hy, ← log_planckW (hg hx), ← log_planckW (hg hy),
    ← log_div (planckW_pos (hg hx)).ne' (planckW_pos hx).ne',
    ← log_div (planckW_pos (hg hy)).ne' (planckW_pos hy).ne'] at this
  exact (log_le_log_iff (div_pos (planckW_pos (hg hx)) (planckW_pos hx))
    (div_pos (planckW_pos (hg hy)) (planckW_pos hy))).1 this

/-- Radiance of the temperature of `y` raised by `δ`, with `c = hvk / δ`. -/
noncomputable def shifted (c y : ℝ) : ℝ :=
  1 / (exp (c * log (1 + 1 / y) / (c + log (1 + 1 / y))) - 1)

theorem logTerm_pos {y : ℝ} (hy : 0 < y) : 0 < log (1 + 1 / y) := by
  have : 0 < 1 / y := by positivity
  exact log_pos (by linarith)

theorem logTerm_anti {y z : ℝ} (hy : 0 < y) (h : y ≤ z) : log (1 + 1 / z) ≤ log (1 + 1 / y) := by
  have : 0 < 1 / z := by have := hy.trans_le h; positivity
  have := one_div_le_one_div_of_le hy h
  exact log_le_log (by linarith) (by linarith)

theorem shifted_pos (hc : 0 < c) {y : ℝ} (hy : 0 < y) : 0 < shifted c y := by
  have h1 := logTerm_pos hy
  have h2 := exp_sub_pos (x := c * log (1 + 1 / y) / (c + log (1 + 1 / y))) (by positivity)
  unfold shifted
  positivity

theorem shifted_deriv (hc : 0 < c) {y : ℝ} (hy : 0 < y) : HasDerivAt (shifted c)
    (planckW (c * log (1 + 1 / y) / (c + log (1 + 1 / y))) / planckW (log (1 + 1 / y))) y := by
  have hL := logTerm_pos hy
  have hy1 : 0 < 1 + 1 / y := by positivity
  have h1 : HasDerivAt (fun y => log (1 + 1 / y)) (-(y ^ 2)⁻¹ / (1 + 1 / y)) y := by
    have := ((hasDerivAt_inv hy.ne').const_add 1).log (by simpa using hy1.ne')
    simpa [one_div] using this
  have h2 := (warmer_deriv hc hL).comp y h1
  have hg : 0 < c * log (1 + 1 / y) / (c + log (1 + 1 / y)) := by positivity
  have hE := exp_sub_pos hg
  have h3 := (((h2.exp).sub_const 1).inv hE.ne')
  have e : (fun y => exp (((fun x => c * x / (c + x)) ∘ fun y => log (1 + 1 / y)) y) - 1)⁻¹ = shifted c := by
    funext y; simp [shifted, one_div]
  rw [e] at h3
  refine h3.congr_deriv ?_
  simp only [Function.comp_apply]
  have e2 : planckW (log (1 + 1 / y)) = log (1 + 1 / y) ^ 2 * (y * (y + 1)) := by
    unfold planckW
    rw [exp_log hy1]
    field_simp
    ring
  rw [e2]
  generalize c * log (1 + 1 / y) / (c + log (1 + 1 / y)) = g at *
  generalize log (1 + 1 / y) = L at *
  unfold planckW
  have : exp g - 1 ≠ 0 := hE.ne'
  field_simp

theorem shifted_concave (hc : 0 < c) : ConcaveOn ℝ (Ioi 0) (shifted c) := by
  refine AntitoneOn.concaveOn_of_deriv (convex_Ioi 0)
    (fun x hx => (shifted_deriv hc hx).continuousAt.continuousWithinAt) (fun x hx => ?_) ?_
  · rw [interior_Ioi] at hx
    exact (shifted_deriv hc hx).differentiableAt.differentiableWithinAt
  · rw [interior_Ioi]
    intro y hy z hz h
    rw [(shifted_deriv hc hy).deriv, (shifted_deriv hc hz).deriv]
    exact ratio_mono hc (mem_Ioi.2 (logTerm_pos hz)) (mem_Ioi.2 (logTerm_pos hy)) (logTerm_anti hy h)

theorem shifted_zero : shifted c 0 = 0 := by simp [shifted]

theorem shifted_scale (hc : 0 < c) {y w : ℝ} (hy : 0 ≤ y) (hw : 0 ≤ w) (hw1 : w ≤ 1) :
    w * shifted c y ≤ shifted c (w * y) := by
  rcases hy.eq_or_lt with rfl | hy
  · simp [shifted_zero]
  rcases hw.eq_or_lt with rfl | hw
  · simp [shifted_zero]
  have hf := shifted_pos hc hy
  have hz : 0 < w * y := by positivity
  have key (ε : ℝ) (h0 : 0 < ε) (h1 : ε < w) : (w - ε) * shifted c y ≤ shifted c (w * y) := by
    have hu : 0 < 1 - (w - ε) := by linarith
    have hx : 0 < ε * y / (1 - (w - ε)) := by positivity
    have := (shifted_concave hc).2 (mem_Ioi.2 hy) (mem_Ioi.2 hx) (show 0 ≤ w - ε by linarith) hu.le
      (show w - ε + (1 - (w - ε)) = 1 by ring)
    simp only [smul_eq_mul] at this
    have e : (w - ε) * y + (1 - (w - ε)) * (ε * y / (1 - (w - ε))) = w * y := by
      field_simp
      ring
    rw [e] at this
    have := mul_nonneg hu.le (shifted_pos hc hx).le
    linarith
  by_contra hlt
  push Not at hlt
  have hpos := shifted_pos hc hz
  have hgap : 0 < w * shifted c y - shifted c (w * y) := by linarith
  have := key ((w * shifted c y - shifted c (w * y)) / (2 * shifted c y)) (by positivity) (by
    rw [div_lt_iff₀ (by positivity)]
    nlinarith)
  have e : (w - (w * shifted c y - shifted c (w * y)) / (2 * shifted c y)) * shifted c y =
      w * shifted c y - (w * shifted c y - shifted c (w * y)) / 2 := by
    field_simp
  rw [e] at this
  linarith

theorem shifted_nonneg (hc : 0 < c) {y : ℝ} (hy : 0 ≤ y) : 0 ≤ shifted c y := by
  rcases hy.eq_or_lt with rfl | hy
  · rw [shifted_zero]
  · exact (shifted_pos hc hy).le

/-- Concave on `[0, ∞)`. -/
theorem shifted_mix (hc : 0 < c) {y z w v : ℝ} (hy : 0 ≤ y) (hz : 0 ≤ z) (hw : 0 ≤ w) (hv : 0 ≤ v) (h : w + v = 1) :
    w * shifted c y + v * shifted c z ≤ shifted c (w * y + v * z) := by
  rcases hy.eq_or_lt with rfl | hy
  · simpa [shifted_zero] using shifted_scale hc hz hv (by linarith)
  rcases hz.eq_or_lt with rfl | hz
  · simpa [shifted_zero] using shifted_scale hc hy.le hw (by linarith)
  simpa using (shifted_concave hc).2 (mem_Ioi.2 hy) (mem_Ioi.2 hz) hw hv h

theorem tk2b_add {hvk δ T : ℝ} (hh : 0 < hvk) (hδ : 0 < δ) (hT : 0 < T) :
    tk2b hvk (T + δ) = shifted (hvk / δ) (tk2b hvk T) := by
  unfold tk2b shifted
  rw [norm_one, one_div_one_div, add_sub_cancel, log_exp]
  congr 3
  field_simp

variable {near far near' far' b b' t : ℝ} {n m : ℕ} {B B' τ : ℕ → ℝ}

theorem source_nonneg (h1 : 0 ≤ near) (h2 : 0 ≤ far) : 0 ≤ layerSource near far t := by
  have := exp_pos (-t)
  unfold layerSource
  positivity

theorem layer_nonneg (ht : 0 ≤ t) (h1 : 0 ≤ near) (h2 : 0 ≤ far) (hb : 0 ≤ b) :
    0 ≤ layerSource near far t * (1 - exp (-t)) + b * exp (-t) := by
  have e : exp (-t) ≤ 1 := exp_le_one_iff.2 (by linarith)
  have := mul_nonneg (source_nonneg (t := t) h1 h2) (sub_nonneg.2 e)
  have := exp_pos (-t)
  positivity

theorem source_shift (hc : 0 < c) (h1 : 0 ≤ near) (h2 : 0 ≤ far) (hn : near' ≤ shifted c near)
    (hf : far' ≤ shifted c far) : layerSource near' far' t ≤ shifted c (layerSource near far t) := by
  have p := exp_pos (-t)
  have q : 0 < 1 + exp (-t) := by linarith
  have e (x y : ℝ) : layerSource x y t = 1 / (1 + exp (-t)) * x + exp (-t) / (1 + exp (-t)) * y := by
    unfold layerSource; field_simp
  rw [e, e]
  refine le_trans ?_ (shifted_mix hc h1 h2 (by positivity) (by positivity) (by field_simp))
  gcongr

theorem layer_shift (hc : 0 < c) (ht : 0 ≤ t) (h1 : 0 ≤ near) (h2 : 0 ≤ far) (hb : 0 ≤ b)
    (hn : near' ≤ shifted c near) (hf : far' ≤ shifted c far) (hb' : b' ≤ shifted c b) :
    layerSource near' far' t * (1 - exp (-t)) + b' * exp (-t) ≤
      shifted c (layerSource near far t * (1 - exp (-t)) + b * exp (-t)) := by
  have e : exp (-t) ≤ 1 := exp_le_one_iff.2 (by linarith)
  have p := exp_pos (-t)
  have := shifted_mix hc (source_nonneg (t := t) h1 h2) hb (sub_nonneg.2 e) p.le (by ring)
  have a1 := mul_le_mul_of_nonneg_right (source_shift (t := t) hc h1 h2 hn hf) (sub_nonneg.2 e)
  have a2 := mul_le_mul_of_nonneg_right hb' p.le
  rw [show layerSource near far t * (1 - exp (-t)) + b * exp (-t) =
    (1 - exp (-t)) * layerSource near far t + exp (-t) * b by ring]
  linarith

/-- Downwelling radiance of a warmer scene. -/
theorem sky_shift (hc : 0 < c) (hτ : ∀ i, 1 ≤ i → i ≤ n → 0 ≤ τ i) (hB : ∀ i ≤ n, 0 ≤ B i ∧ B' i ≤ shifted c (B i))
    (hb : 0 ≤ b) (hb' : b' ≤ shifted c b) :
    skyRadiance B' τ n + b' * transDown τ n ≤ shifted c (skyRadiance B τ n + b * transDown τ n) := by
  induction n generalizing b b' with
  | zero => simpa using hb'
  | succ n ih =>
    rw [sky_peel, sky_peel]
    have h0 := hτ (n + 1) (by omega) le_rfl
    obtain ⟨u1, u2⟩ := hB n (by omega)
    obtain ⟨v1, v2⟩ := hB (n + 1) le_rfl
    exact ih (fun i a b => hτ i a (by omega)) (fun i hi => hB i (by omega)) (layer_nonneg h0 u1 v1 hb)
      (layer_shift hc h0 u1 v1 hb u2 v2 hb')

/-- Upwelling radiance of a warmer scene. -/
theorem up_shift (hc : 0 < c) (hm : m ≤ n) (hτ : ∀ i, m < i → i ≤ n → 0 ≤ τ i)
    (hB : ∀ i ≤ n, 0 ≤ B i ∧ B' i ≤ shifted c (B i)) (hb : 0 ≤ b) (hb' : b' ≤ shifted c b) :
    upRadiance B' τ n m + b' * transUp τ n m ≤ shifted c (upRadiance B τ n m + b * transUp τ n m) := by
  induction hm using Nat.decreasingInduction generalizing b b' with
  | self => simpa using hb'
  | of_succ k hk ih =>
    rw [up_peel hk, up_peel hk]
    have h0 := hτ (k + 1) (by omega) hk
    obtain ⟨u1, u2⟩ := hB k (by omega)
    obtain ⟨v1, v2⟩ := hB (k + 1) hk
    exact ih (fun i a b => hτ i (by omega) b) (layer_nonneg h0 v1 u1 hb) (layer_shift hc h0 v1 u1 hb v2 u2 hb')

/-- Temperatures of two radiances. -/
theorem bright_shift {hvk δ : ℝ} (hh : 0 < hvk) (hδ : 0 < δ) (hb : 0 ≤ b) (hb' : 0 ≤ b')
    (h : b' ≤ shifted (hvk / δ) b) : ∃ T T', bright hvk b = some T ∧ bright hvk b' = some T' ∧ T' ≤ T + δ := by
  rcases hb.eq_or_lt with rfl | hb
  · rw [shifted_zero] at h
    obtain rfl : b' = 0 := le_antisymm h hb'
    exact ⟨0, 0, bright_zero, bright_zero, by linarith⟩
  · obtain ⟨T, hT, rfl⟩ := exists_tk2b hh hb
    rw [← tk2b_add hh hδ hT] at h
    obtain ⟨T', e, -, hle⟩ := bright_le hh (add_pos hT hδ) hb' h
    exact ⟨T, T', bright_tk2b hh hT, e, hle⟩

end Verif.Lemmas
