import Verif.Model.AbsLiquid
import Mathlib.Analysis.SpecialFunctions.Complex.LogDeriv
import Mathlib.Analysis.Calculus.Deriv.MeanValue
import Mathlib.Analysis.Complex.Basic
import Mathlib.Tactic.Linarith
import Mathlib.Tactic.Positivity
import Mathlib.Tactic.FieldSimp
import Mathlib.Tactic.Ring

/-!
# Dissipation of the dielectric functions of liquid water
-/

namespace Verif.Lemmas

open Verif.Model Verif.Py Complex

theorem log_div_of_arg {a b : ℂ} (ha : a ≠ 0) (hb : b ≠ 0) (hbπ : b.arg ≠ Real.pi)
    (h : a.arg - b.arg ∈ Set.Ioc (-Real.pi) Real.pi) : log (a / b) = log a - log b := by
  have h1 : log (b⁻¹) = -log b := log_inv _ hbπ
  have h2 : (b⁻¹).arg = -b.arg := by
    have := congrArg Complex.im h1
    simpa [log_im] using this
  rw [div_eq_mul_inv, (log_mul_eq_add_log_iff ha (inv_ne_zero hb)).2, h1]
  · ring
  · rw [h2]; simpa [sub_eq_add_neg] using h

theorem arg_right {a : ℂ} (ha : 0 < a.re) : -(Real.pi / 2) < a.arg ∧ a.arg < Real.pi / 2 :=
  abs_lt.1 (abs_arg_lt_pi_div_two_iff.2 (Or.inl ha))

theorem log_div_right {a b : ℂ} (ha : 0 < a.re) (hb : 0 < b.re) : log (a / b) = log a - log b := by
  have h1 := arg_right ha
  have h2 := arg_right hb
  have := Real.pi_pos
  refine log_div_of_arg ?_ ?_ ?_ ⟨by linarith, by linarith⟩
  · rintro rfl; simp at ha
  · rintro rfl; simp at hb
  · intro h; linarith

/-- One half of the high-frequency band: relaxation rates spread along a logarithmic spiral in the left half-plane
dissipate. -/
theorem band_im_nonpos (ζ c : ℂ) (hc : c ≠ 0) {f : ℝ} (hf : 0 ≤ f)
    (h : ∀ s : ℝ, 0 ≤ s → s ≤ 1 → (exp (ζ + s * c)).re < 0) :
    (log (((⟨0, f⟩ : ℂ) - exp (ζ + c)) / ((⟨0, f⟩ : ℂ) - exp ζ)) / c).im ≤ 0 := by
  set z : ℂ := ⟨0, f⟩ with hz
  have hre : ∀ s : ℝ, 0 ≤ s → s ≤ 1 → 0 < (z - exp (ζ + s * c)).re := by
    intro s h0 h1
    have := h s h0 h1
    simp only [hz, sub_re]
    linarith
  let G : ℝ → ℂ := fun s => log (z - exp (ζ + s * c)) / c
  have hw : ∀ s : ℝ, HasDerivAt (fun s : ℝ => z - exp (ζ + s * c)) (-(exp (ζ + s * c) * c)) s := by
    intro s
    have h1 : HasDerivAt (fun s : ℝ => ζ + (s : ℂ) * c) c s := by
      have := ((Complex.ofRealCLM.hasDerivAt (x := s)).mul_const c).const_add ζ
      simpa using this
    have h2 := h1.cexp
    exact h2.const_sub z
  have hG : ∀ s : ℝ, 0 ≤ s → s ≤ 1 →
      HasDerivAt G (-(exp (ζ + s * c) * c) / (z - exp (ζ + s * c)) / c) s := by
    intro s h0 h1
    have hs : z - exp (ζ + s * c) ∈ slitPlane := mem_slitPlane_iff.2 (Or.inl (hre s h0 h1))
    exact ((hw s).clog_real hs).div_const c
  let φ : ℝ → ℝ := fun s => (G s).im
  have hφ : ∀ s : ℝ, 0 ≤ s → s ≤ 1 →
      HasDerivAt φ ((-(exp (ζ + s * c) * c) / (z - exp (ζ + s * c)) / c).im) s := by
    intro s h0 h1
    exact Complex.imCLM.hasFDerivAt.comp_hasDerivAt s (hG s h0 h1)
  have hsign : ∀ s : ℝ, 0 ≤ s → s ≤ 1 →
      (-(exp (ζ + s * c) * c) / (z - exp (ζ + s * c)) / c).im ≤ 0 := by
    intro s h0 h1
    have ha := h s h0 h1
    have hr := hre s h0 h1
    generalize exp (ζ + s * c) = w at *
    have hne : z - w ≠ 0 := by intro hh; rw [hh] at hr; simp at hr
    have e : -(w * c) / (z - w) / c = -w / (z - w) := by field_simp
    rw [e, div_im, ← sub_div]
    apply div_nonpos_of_nonpos_of_nonneg _ (normSq_nonneg _)
    simp only [hz, neg_im, neg_re, sub_re, sub_im]
    nlinarith [mul_nonneg hf (neg_nonneg.2 ha.le)]
  have hanti : AntitoneOn φ (Set.Icc 0 1) := by
    apply antitoneOn_of_deriv_nonpos (convex_Icc 0 1)
    · intro s hs
      exact (hφ s hs.1 hs.2).continuousAt.continuousWithinAt
    · intro s hs
      rw [interior_Icc] at hs
      exact (hφ s hs.1.le hs.2.le).differentiableAt.differentiableWithinAt
    · intro s hs
      rw [interior_Icc] at hs
      rw [(hφ s hs.1.le hs.2.le).deriv]
      exact hsign s hs.1.le hs.2.le
  have h01 : φ 1 ≤ φ 0 := hanti ⟨le_rfl, zero_le_one⟩ ⟨zero_le_one, le_rfl⟩ zero_le_one
  have hr1 := hre 1 zero_le_one le_rfl
  have hr0 := hre 0 le_rfl zero_le_one
  simp only [ofReal_one, one_mul] at hr1
  simp only [ofReal_zero, zero_mul, add_zero] at hr0
  rw [log_div_right hr1 hr0, sub_div, sub_im]
  simp only [φ, G, ofReal_one, one_mul, ofReal_zero, zero_mul, add_zero] at h01
  linarith

theorem arg_left_upper {a : ℂ} (hr : a.re < 0) (hi : 0 < a.im) : Real.pi / 2 < a.arg ∧ a.arg < Real.pi := by
  have h0 : 0 ≤ a.arg := arg_nonneg_iff.2 hi.le
  constructor
  · by_contra h
    have : |a.arg| ≤ Real.pi / 2 := by rw [abs_of_nonneg h0]; exact not_lt.1 h
    linarith [abs_arg_le_pi_div_two_iff.1 this]
  · rcases (arg_le_pi a).lt_or_eq with h | h
    · exact h
    · exact absurd (arg_eq_pi_iff.1 h).2 hi.ne'

theorem relax_pos {tc : ℝ} (h : -63.15 ≤ tc) :
    0 < 10.46012 + (0.1454962 * tc) + (0.063267156 * tc ^ 2) + (0.00093786645 * tc ^ 3) := by
  have h1 : 0 ≤ (tc + 63.15) * tc ^ 2 := mul_nonneg (by linarith) (sq_nonneg _)
  nlinarith [sq_nonneg (tc + 18)]

theorem cDiv_some {a b : ℂ} (h : b ≠ 0) : cDiv a b = some (a / b) := by simp [cDiv, h]

theorem cLog_some {a : ℂ} (h : a ≠ 0) : cLog a = some (log a) := by simp [cLog, h]

/-- The dielectric function of `dilec12` is finite and dissipative from 210 K on. -/
theorem dilec12_im_neg {f t : ℝ} (hf : 0 < f) (ht : 210 ≤ t) : ∃ e, dilec12 f t = some e ∧ e.im < 0 := by
  have ht0 : 0 < t := by linarith
  have hF := relax_pos (tc := t - 273.15) (by norm_num; linarith)
  unfold dilec12
  rw [if_pos ht0]
  simp only []
  generalize 10.46012 + (0.1454962 * (t - 273.15)) + (0.063267156 * (t - 273.15) ^ 2)
    + (0.00093786645 * (t - 273.15) ^ 3) = F at hF ⊢
  have hq : t - 273.15 + 133.07 ≠ 0 := by
    intro h
    norm_num at h
    linarith
  rw [npDiv_of_ne hq]
  have hsd : 0 < 1164.023 * Real.exp (-651.4728 / (t - 273.15 + 133.07)) := mul_pos (by norm_num) (Real.exp_pos _)
  have hd1 : 0 < 80.69715 * Real.exp (-(t - 273.15) / 226.45) := mul_pos (by norm_num) (Real.exp_pos _)
  have hd : 0 < 4.008724 * Real.exp (-(t - 273.15) / 103.05) := mul_pos (by norm_num) (Real.exp_pos _)
  generalize -43.7527 * (300.0 / t) ^ (0.05 : ℝ) + 299.504 * (300.0 / t) ^ (1.47 : ℝ)
    - 399.364 * (300.0 / t) ^ (2.11 : ℝ) + 221.327 * (300.0 / t) ^ (2.31 : ℝ) = K
  simp only [Option.bind_eq_bind, Option.bind_some]
  generalize 1164.023 * Real.exp (-651.4728 / (t - 273.15 + 133.07)) = sd at hsd ⊢
  generalize 80.69715 * Real.exp (-(t - 273.15) / 226.45) = d1 at hd1 ⊢
  generalize 4.008724 * Real.exp (-(t - 273.15) / 103.05) = d at hd ⊢
  have hz0 : (⟨0.0, f⟩ : ℂ) = ⟨0, f⟩ := by norm_num
  rw [hz0]
  set z : ℂ := ⟨0, f⟩ with hz
  set z1 : ℂ := ⟨-0.75, 1.0⟩ * (F : ℂ) with hz1
  set z2 : ℂ := ⟨-4500.0, 2000.0⟩ with hz2
  have z1re : z1.re = -0.75 * F := by simp [hz1]
  have z1im : z1.im = F := by norm_num [hz1]
  have z2re : z2.re = -4500 := by norm_num [hz2]
  have z2im : z2.im = 2000 := by norm_num [hz2]
  have a1 := arg_left_upper (a := z1) (by rw [z1re]; linarith) (by rw [z1im]; exact hF)
  have a2 := arg_left_upper (a := z2) (by rw [z2re]; norm_num) (by rw [z2im]; norm_num)
  have n1 : z1 ≠ 0 := by intro h; rw [h] at z1im; simp at z1im; linarith
  have n2 : z2 ≠ 0 := by intro h; rw [h] at z2im; simp at z2im
  have npi := Real.pi_pos
  have hlog : log (z2 / z1) = log z2 - log z1 :=
    log_div_of_arg n2 n1 a1.2.ne
      ⟨by linarith [a1.1, a1.2, a2.1, a2.2], by linarith [a1.1, a1.2, a2.1, a2.2]⟩
  have n12 : z2 / z1 ≠ 0 := div_ne_zero n2 n1
  have hc : log (z2 / z1) ≠ 0 := by
    intro h
    have h1 : z2 = z1 := by
      have := exp_log n12
      rw [h, exp_zero] at this
      exact ((div_eq_one_iff_eq n1).1 this.symm)
    rw [h1] at z2re z2im
    rw [z1re] at z2re
    rw [z1im] at z2im
    linarith
  have hspiral : ∀ s : ℝ, 0 ≤ s → s ≤ 1 → (exp (log z1 + s * log (z2 / z1))).re < 0 := by
    intro s h0 h1
    rw [exp_re]
    apply mul_neg_of_pos_of_neg (Real.exp_pos _)
    rw [hlog]
    have : (log z1 + (s : ℂ) * (log z2 - log z1)).im = z1.arg + s * (z2.arg - z1.arg) := by
      simp [log_im]
    rw [this]
    apply Real.cos_neg_of_pi_div_two_lt_of_lt
    · nlinarith [mul_nonneg h0 (sub_nonneg.2 a2.1.le), mul_nonneg (sub_nonneg.2 h1) (sub_nonneg.2 a1.1.le), a1.1, a2.1]
    · nlinarith [mul_nonneg h0 (sub_nonneg.2 a2.2.le), mul_nonneg (sub_nonneg.2 h1) (sub_nonneg.2 a1.2.le), a1.2, a2.2]
  have e1 : exp (log z1) = z1 := exp_log n1
  have e2 : exp (log z1 + log (z2 / z1)) = z2 := by rw [hlog, add_sub_cancel, exp_log n2]
  have b1 := band_im_nonpos (log z1) (log (z2 / z1)) hc hf.le hspiral
  rw [e1, e2] at b1
  have hc' : (starRingEnd ℂ) (log (z2 / z1)) ≠ 0 := by simpa using hc
  have b2 := band_im_nonpos ((starRingEnd ℂ) (log z1)) ((starRingEnd ℂ) (log (z2 / z1))) hc' hf.le (by
    intro s h0 h1
    have : (starRingEnd ℂ) (log z1) + (s : ℂ) * (starRingEnd ℂ) (log (z2 / z1))
        = (starRingEnd ℂ) (log z1 + s * log (z2 / z1)) := by simp
    rw [this, exp_conj, conj_re]
    exact hspiral s h0 h1)
  rw [← map_add, exp_conj, exp_conj, e1, e2] at b2
  have r1 : 0 < (z - z1).re := by rw [sub_re, z1re]; simp [hz]; linarith
  have r2 : 0 < (z - z2).re := by rw [sub_re, z2re]; simp [hz]
  have r1' : 0 < (z - (starRingEnd ℂ) z1).re := by rw [sub_re, conj_re, z1re]; simp [hz]; linarith
  have r2' : 0 < (z - (starRingEnd ℂ) z2).re := by rw [sub_re, conj_re, z2re]; simp [hz]
  have ne : ∀ {a : ℂ}, 0 < a.re → a ≠ 0 := by rintro a h rfl; simp at h
  have nsd : (sd : ℂ) + z ≠ 0 := ne (by simp [hz]; exact hsd)
  rw [cDiv_some nsd, Option.bind_some, cDiv_some n1, Option.bind_some, cLog_some n12, Option.bind_some,
    cDiv_some (ne r1), Option.bind_some, cLog_some (div_ne_zero (ne r2) (ne r1)), Option.bind_some, cDiv_some hc,
    Option.bind_some, cDiv_some (ne r1'), Option.bind_some, cLog_some (div_ne_zero (ne r2') (ne r1')), Option.bind_some,
    cDiv_some hc', Option.bind_some]
  refine ⟨_, rfl, ?_⟩
  have hdeb : 0 < ((d1 : ℂ) * z / ((sd : ℂ) + z)).im := by
    rw [div_im, ← sub_div]
    apply div_pos
    · simp [hz]
      have := mul_pos (mul_pos hd1 hf) hsd
      nlinarith
    · exact normSq_pos.2 nsd
  have hh : ∀ x c : ℂ, (((d / 2.0 : ℝ) : ℂ) * x / c).im = d / 2 * (x / c).im := by
    intro x c
    rw [mul_div_assoc, im_ofReal_mul]
    norm_num
  simp only [add_im, sub_im, ofReal_im, hh]
  have p1 := mul_nonpos_of_nonneg_of_nonpos (by linarith : (0:ℝ) ≤ d / 2) b1
  have p2 := mul_nonpos_of_nonneg_of_nonpos (by linarith : (0:ℝ) ≤ d / 2) b2
  linarith

theorem debyeFp_pos (b : Bool) (x : ℝ) : 0 < debyeFp b x := by
  unfold debyeFp
  cases b
  · simp only [Bool.false_eq_true, if_false]
    nlinarith [sq_nonneg (x + 0.2316)]
  · simp only [if_true]
    exact mul_pos (by norm_num) (Real.exp_pos _)

/-- Contribution of one Debye term. -/
theorem debye_im {a u : ℝ} : ((a : ℂ) / (⟨1.0, u⟩ : ℂ)).im = -(a * (u / (1 + u ^ 2))) := by
  rw [div_im, normSq_mk]
  norm_num
  ring_nf

theorem one_u_ne (u : ℝ) : (⟨1.0, u⟩ : ℂ) ≠ 0 := by
  intro h
  have := congrArg Complex.re h
  norm_num at this

/-- The double-Debye dielectric function is finite and dissipative up to 396 K. -/
theorem debyeEps_im_neg (b : Bool) {f t : ℝ} (hf : 0 < f) (ht0 : 0 < t) (ht : t ≤ 396) :
    ∃ e, debyeEps b f t = some e ∧ e.im < 0 := by
  have hq : (300.0 : ℝ) / t ≥ 300 / 396 := by
    rw [ge_iff_le, div_le_div_iff₀ (by norm_num) ht0]
    norm_num
    linarith
  unfold debyeEps
  rw [npDiv_of_ne ht0.ne']
  simp only [Option.bind_eq_bind, Option.bind_some]
  generalize (300.0 : ℝ) / t = q at hq ⊢
  have hp := debyeFp_pos b (1.0 - q)
  generalize debyeFp b (1.0 - q) = fp at hp ⊢
  rw [npDiv_of_ne hp.ne', npDiv_of_ne (by positivity), Option.bind_some, Option.bind_some, cDiv_some (one_u_ne _),
    cDiv_some (one_u_ne _), Option.bind_some, Option.bind_some]
  refine ⟨_, rfl, ?_⟩
  simp only [add_im, debye_im, ofReal_im]
  have h1 : 0 < (77.66 - 103.3 * (1.0 - q) - 0.0671 * (77.66 - 103.3 * (1.0 - q))) *
      (f / fp / (1 + (f / fp) ^ 2)) := mul_pos (by nlinarith) (by positivity)
  have h2 : 0 ≤ (0.0671 * (77.66 - 103.3 * (1.0 - q)) - 3.52) *
      (f / (39.8 * fp) / (1 + (f / (39.8 * fp)) ^ 2)) := mul_nonneg (by nlinarith) (by positivity)
  linarith

theorem clausius_im (e : ℂ) : ((e - 1.0) / (e + 2.0)).im = 3 * e.im / normSq (e + 2.0) := by
  have h1 : (1.0 : ℂ) = 1 := by norm_num
  have h2 : (2.0 : ℂ) = 2 := by norm_num
  rw [div_im, h1, h2, ← sub_div]
  congr 1
  simp
  ring

theorem add_two_ne {e : ℂ} (h : e.im < 0) : e + 2.0 ≠ 0 := by
  intro hh
  have h2 : (2.0 : ℂ) = 2 := by norm_num
  rw [h2] at hh
  have := congrArg Complex.im hh
  simp at this
  linarith

end Verif.Lemmas
