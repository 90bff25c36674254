import Verif.Lemmas.RayleighJeans
import Verif.Props.TipCurve

/-!
# C126: how far brightness temperatures mix linearly

The simulator mixes radiances; users of microwave radiometers mix temperatures, `Tb ≈ T_background e^{-τ} + tmr (1 - e^{-τ})`.
The linear value is never too high, and too low by at most `e^{-τ} h f / (2 k)` from the ground.
-/

namespace Verif.Props

open Verif.Py Verif.Spec Verif.Model Verif.Lemmas Real

section linear
variable {A : AbsRoutines} {g : Globals} {I : Inst} {rows : List Row} {r : Row}

/-- Mixture of two temperatures against the temperature of the mixed radiance, with a fraction `a` and `b` of each. -/
theorem mix_le {x a b S T U : ℝ} (hx : 0 < x) (ha : 0 ≤ a) (hb : 0 < b) (hab : a + b ≤ 1) (hS : 0 < S) (hT : 0 < T)
    (hU : 0 < U) (h : planckLaw x U = a * planckLaw x S + b * planckLaw x T) : a * S + b * T ≤ U := by
  simp only [← tk2b_planckLaw] at h
  have hs : 0 < a + b := by linarith
  have hm : 0 < (a * S + b * T) / (a + b) := by positivity
  have h1 := (tk2b_convex hx).2 (Set.mem_Ioi.2 hS) (Set.mem_Ioi.2 hT) (div_nonneg ha hs.le) (div_nonneg hb.le hs.le)
    (by field_simp)
  simp only [smul_eq_mul] at h1
  have e1 : a / (a + b) * S + b / (a + b) * T = (a * S + b * T) / (a + b) := by ring
  rw [e1] at h1
  have h2 := tk2b_smul hx hm hs hab
  rw [mul_div_cancel₀ _ hs.ne'] at h2
  have h3 : (a + b) * (a / (a + b) * tk2b x S + b / (a + b) * tk2b x T) = a * tk2b x S + b * tk2b x T := by
    field_simp
  have h4 := mul_le_mul_of_nonneg_left h1 hs.le
  rw [h3, ← h] at h4
  by_contra hc
  push Not at hc
  linarith [tk2b_strictMono hx hU hc]

/-- The same mixture: the difference is the difference of the defects. -/
theorem mix_eq {x a b S T U : ℝ} (h : planckLaw x U = a * planckLaw x S + b * planckLaw x T) :
    U = a * S + b * T + (rjDefect x U - a * rjDefect x S - b * rjDefect x T) := by
  simp only [← tk2b_planckLaw] at h
  unfold rjDefect
  rw [h]
  ring

theorem tip_mix {x τ Tm Tb : ℝ} (hx : 0 < x) (h1 : 2.728 < Tb) (h2 : Tb < Tm) (h : tipOpacity x Tm Tb = τ) :
    planckLaw x Tb = exp (-τ) * planckLaw x 2.728 + (1 - exp (-τ)) * planckLaw x Tm := by
  have hc0 : (0:ℝ) < 2.728 := by norm_num
  have d1 := tk2b_strictMono hx hc0 (h1.trans h2)
  have d2 := tk2b_strictMono hx (hc0.trans h1) h2
  simp only [tk2b_planckLaw] at d1 d2
  unfold tipOpacity at h
  rw [← h, exp_neg, exp_log (div_pos (by linarith) (by linarith)), inv_div]
  have : planckLaw x Tm - planckLaw x 2.728 ≠ 0 := by linarith
  field_simp
  ring

/-- Ground view: mixing temperatures linearly never overestimates the brightness temperature and underestimates it by at
most half of `h f / k` times the transmittance of the atmosphere. -/
theorem C126_ground (h : (execute A g I).1 = .ok rows) {j k : ℕ} (hj : j < I.set.nf) (hk : k < I.set.nang)
    (hp : GoodPath I.set k) (hst : I.set.cloudy = true ∨ NoClouds I.out) (hr : rows[k * I.set.nf + j]? = some r)
    (hsat : I.set.satellite = false) (hf : 0 < I.set.frq j) (hT : ∀ i < I.set.nl, 2.728 < I.set.tk i) {τ : ℝ}
    (hτ : Row.Opacity r τ) (h0 : 0 < τ) (h1 : τ < 125) :
    ∃ Tb Tm, r.tbtotal = some Tb ∧ r.tmr = some Tm ∧
      2.728 * exp (-τ) + Tm * (1 - exp (-τ)) ≤ Tb ∧
      Tb ≤ 2.728 * exp (-τ) + Tm * (1 - exp (-τ)) + exp (-τ) * (hvkOf (I.set.frq j) / 2) := by
  obtain ⟨Tb, Tm, a1, a2, a3, a4, a5⟩ := C125_ground h hj hk hp hst hr hsat hf hT hτ h0 h1
  have hx := hvkOf_pos hf
  have hm := tip_mix hx a3 a4 a5
  have hq0 : 0 < exp (-τ) := exp_pos _
  have hq1 : exp (-τ) < 1 := by rw [exp_lt_one_iff]; linarith
  have hc0 : (0:ℝ) < 2.728 := by norm_num
  refine ⟨Tb, Tm, a1, a2, ?_, ?_⟩
  · have := mix_le hx hq0.le (by linarith) (by linarith) hc0 ((hc0.trans a3).trans a4) (hc0.trans a3) hm
    linarith
  · have e := mix_eq hm
    have d1 := rjDefect_mono hx (hc0.trans a3) a4.le
    have d2 := rjDefect_nonneg hx hc0
    have d3 := rjDefect_le hx ((hc0.trans a3).trans a4)
    have : exp (-τ) * (rjDefect (hvkOf (I.set.frq j)) Tm - rjDefect (hvkOf (I.set.frq j)) 2.728) ≤
        exp (-τ) * (hvkOf (I.set.frq j) / 2) := mul_le_mul_of_nonneg_left (by linarith) hq0.le
    linarith

/-- The opacity found with temperatures in place of radiances, `log ((tmr - 2.728) / (tmr - Tb))`, is never too small, and
too large by at most `-log (1 - (h f / k) / (2 (tmr - 2.728)))`, whatever the opacity. -/
theorem C126_tip_linear (h : (execute A g I).1 = .ok rows) {j k : ℕ} (hj : j < I.set.nf) (hk : k < I.set.nang)
    (hp : GoodPath I.set k) (hst : I.set.cloudy = true ∨ NoClouds I.out) (hr : rows[k * I.set.nf + j]? = some r)
    (hsat : I.set.satellite = false) (hf : 0 < I.set.frq j) (hT : ∀ i < I.set.nl, 2.728 < I.set.tk i) {τ : ℝ}
    (hτ : Row.Opacity r τ) (h0 : 0 < τ) (h1 : τ < 125) :
    ∃ Tb Tm, r.tbtotal = some Tb ∧ r.tmr = some Tm ∧ τ ≤ log ((Tm - 2.728) / (Tm - Tb)) ∧
      (hvkOf (I.set.frq j) / 2 < Tm - 2.728 →
        log ((Tm - 2.728) / (Tm - Tb)) ≤ τ - log (1 - hvkOf (I.set.frq j) / (2 * (Tm - 2.728)))) := by
  obtain ⟨Tb, Tm, a1, a2, a3, a4, -⟩ := C125_ground h hj hk hp hst hr hsat hf hT hτ h0 h1
  obtain ⟨Tb', Tm', b1, b2, b3, b4⟩ := C126_ground h hj hk hp hst hr hsat hf hT hτ h0 h1
  rw [a1] at b1; cases b1
  rw [a2] at b2; cases b2
  have hq0 : 0 < exp (-τ) := exp_pos _
  have d1 : 0 < Tm - 2.728 := by linarith
  have d2 : 0 < Tm - Tb := by linarith
  have e : τ = -log (exp (-τ)) := by rw [log_exp, neg_neg]
  refine ⟨Tb, Tm, a1, a2, ?_, fun hlt => ?_⟩
  · rw [le_log_iff_exp_le (by positivity), le_div_iff₀ d2]
    have hm : exp τ * exp (-τ) = 1 := by rw [← exp_add]; simp
    have h2 : Tm - Tb ≤ exp (-τ) * (Tm - 2.728) := by linarith
    have := mul_le_mul_of_nonneg_left h2 (exp_pos τ).le
    rw [← mul_assoc, hm, one_mul] at this
    exact this
  · have d3 : 0 < 1 - hvkOf (I.set.frq j) / (2 * (Tm - 2.728)) := by
      rw [sub_pos, div_lt_one (by positivity)]; linarith
    rw [log_div d1.ne' d2.ne']
    have h2 : exp (-τ) * (Tm - 2.728) * (1 - hvkOf (I.set.frq j) / (2 * (Tm - 2.728))) ≤ Tm - Tb := by
      have e2 : exp (-τ) * (Tm - 2.728) * (1 - hvkOf (I.set.frq j) / (2 * (Tm - 2.728))) =
          exp (-τ) * (Tm - 2.728) - exp (-τ) * (hvkOf (I.set.frq j) / 2) := by
        field_simp
      rw [e2]
      linarith
    have h3 := log_le_log (by positivity) h2
    rw [log_mul (by positivity) d3.ne', log_mul hq0.ne' d1.ne', log_exp] at h3
    linarith

/-- Satellite view: the linear mixture with surface temperature times emissivity is never too high, and too low by at
most `(1 - emissivity) e^{-τ} h f / (2 k) + (h f / k)² / (12 m)`, `m` the temperature of the coldest level. -/
theorem C126_satellite (h : (execute A g I).1 = .ok rows) {j k : ℕ} (hj : j < I.set.nf) (hk : k < I.set.nang)
    (hp : GoodPath I.set k) (hst : I.set.cloudy = true ∨ NoClouds I.out) (hr : rows[k * I.set.nf + j]? = some r)
    (hsat : I.set.satellite = true) (hf : 0 < I.set.frq j) {m : ℝ} (hm : 0 < m) (hT : ∀ i < I.set.nl, m ≤ I.set.tk i)
    {τ es : ℝ} (hes : I.set.es[j]? = some es) (he0 : 0 ≤ es) (he1 : es ≤ 1) (hτ : Row.Opacity r τ) (h0 : 0 < τ)
    (h1 : τ < 125) :
    ∃ Tb Tm, r.tbtotal = some Tb ∧ r.tmr = some Tm ∧
      es * I.set.tk 0 * exp (-τ) + Tm * (1 - exp (-τ)) ≤ Tb ∧
      Tb ≤ es * I.set.tk 0 * exp (-τ) + Tm * (1 - exp (-τ)) + (1 - es) * exp (-τ) * (hvkOf (I.set.frq j) / 2) +
        hvkOf (I.set.frq j) ^ 2 / (12 * m) := by
  obtain ⟨Tb, Tm, a1, a2, a3, ⟨i, hi, a4⟩, a5⟩ :=
    C125_emissivity h hj hk hp hst hr hsat hf (fun i hi => hm.trans_le (hT i hi)) hes he0 hτ h0 h1
  have hx := hvkOf_pos hf
  have hmT : m ≤ Tm := (hT i hi).trans a4
  have hn : 0 < I.set.nl := by omega
  have hq0 : 0 < exp (-τ) := exp_pos _
  have hq1 : exp (-τ) < 1 := by rw [exp_lt_one_iff]; linarith
  have hS : 0 < I.set.tk 0 := hm.trans_le (hT 0 hn)
  have hB : 0 < planckLaw (hvkOf (I.set.frq j)) (I.set.tk 0) := by
    rw [← tk2b_planckLaw]; exact tk2b_pos hx hS
  have hmix : planckLaw (hvkOf (I.set.frq j)) Tb = es * exp (-τ) * planckLaw (hvkOf (I.set.frq j)) (I.set.tk 0) +
      (1 - exp (-τ)) * planckLaw (hvkOf (I.set.frq j)) Tm := by
    rw [eq_div_iff (by positivity)] at a5
    linarith
  have ha : 0 ≤ es * exp (-τ) := by positivity
  have ha1 : es * exp (-τ) ≤ exp (-τ) := mul_le_of_le_one_left hq0.le he1
  refine ⟨Tb, Tm, a1, a2, ?_, ?_⟩
  · have := mix_le hx ha (by linarith) (by linarith) hS (hm.trans_le hmT) a3 hmix
    linarith
  · have e := mix_eq hmix
    have low : ∀ T, m ≤ T → hvkOf (I.set.frq j) / 2 - hvkOf (I.set.frq j) ^ 2 / (12 * m) ≤ rjDefect (hvkOf (I.set.frq j)) T :=
      fun T hT => by
        refine le_trans ?_ (rjDefect_ge hx (hm.trans_le hT))
        have : hvkOf (I.set.frq j) ^ 2 / (12 * T) ≤ hvkOf (I.set.frq j) ^ 2 / (12 * m) := by gcongr
        linarith
    have d1 := mul_le_mul_of_nonneg_left (low _ (hT 0 hn)) ha
    have d2 := mul_le_mul_of_nonneg_left (low _ hmT) (show 0 ≤ 1 - exp (-τ) by linarith)
    have d3 := rjDefect_le hx a3
    have hw : 0 ≤ hvkOf (I.set.frq j) ^ 2 / (12 * m) := by positivity
    have d4 : (es * exp (-τ) + (1 - exp (-τ))) * (hvkOf (I.set.frq j) ^ 2 / (12 * m)) ≤
        hvkOf (I.set.frq j) ^ 2 / (12 * m) := mul_le_of_le_one_left hw (by linarith)
    nlinarith

/-- The clear scene at 22 GHz, 30 degrees: the linear formula is good to 0.53 K. -/
example : ∃ rows r Tb Tm τ, (execute demoA demoG ⟨tipS false, Store.zero⟩).1 = .ok rows ∧ rows[2]? = some r ∧
    Row.Opacity r τ ∧ r.tbtotal = some Tb ∧ r.tmr = some Tm ∧
    |Tb - (2.728 * exp (-τ) + Tm * (1 - exp (-τ)))| ≤ 0.53 := by
  obtain ⟨rows, h⟩ := tip_runs false
  obtain ⟨r, τ, h1, h2, h3, h4⟩ := tip_rows false (k := 1) (by decide) h
  have ha := demo_angles 1 (by decide)
  obtain ⟨Tb, Tm, a1, a2, a3, a4⟩ := C126_ground (j := 0) (k := 1) h (show 0 < 2 by decide) (show 1 < 2 by decide)
    (goodPath_plane rfl ha.1 ha.2 fun i _ => by simp [tipS, demoS]) (Or.inr fun _ _ => ⟨rfl, rfl, rfl, rfl, rfl⟩) h1 rfl
    (by norm_num [tipS, demoS]) (fun i hi => by
      have : (i : ℝ) < 3 := by exact_mod_cast (show i < 3 from hi)
      simp only [tipS, demoS]
      norm_num; linarith) h2 h3 h4
  refine ⟨rows, r, Tb, Tm, τ, h, h1, h2, a1, a2, ?_⟩
  have hq0 : 0 < exp (-τ) := exp_pos _
  have hq1 : exp (-τ) < 1 := by rw [exp_lt_one_iff]; linarith
  have hx : hvkOf ((tipS false).frq 0) / 2 ≤ 0.53 := by
    norm_num [hvkOf, tipS, demoS, cPlanck, cBoltzmann]
  have hx0 : 0 < hvkOf ((tipS false).frq 0) := hvkOf_pos (by norm_num [tipS, demoS])
  have : exp (-τ) * (hvkOf ((tipS false).frq 0) / 2) ≤ 0.53 := by
    refine le_trans (mul_le_of_le_one_left (by positivity) hq1.le) hx
  rw [abs_le]
  constructor <;> linarith

/-- Seen from above over the black surface: good to 0.001 K. -/
example : ∃ rows r Tb Tm τ, (execute demoA demoG ⟨tipS true, Store.zero⟩).1 = .ok rows ∧ rows[2]? = some r ∧
    Row.Opacity r τ ∧ r.tbtotal = some Tb ∧ r.tmr = some Tm ∧
    |Tb - (300 * exp (-τ) + Tm * (1 - exp (-τ)))| ≤ 0.001 := by
  obtain ⟨rows, h⟩ := tip_runs true
  obtain ⟨r, τ, h1, h2, h3, h4⟩ := tip_rows true (k := 1) (by decide) h
  have ha := demo_angles 1 (by decide)
  obtain ⟨Tb, Tm, a1, a2, a3, a4⟩ := C126_satellite (j := 0) (k := 1) (m := 297) (es := 1) h (show 0 < 2 by decide)
    (show 1 < 2 by decide)
    (goodPath_plane rfl ha.1 ha.2 fun i _ => by simp [tipS, demoS]) (Or.inr fun _ _ => ⟨rfl, rfl, rfl, rfl, rfl⟩) h1 rfl
    (by norm_num [tipS, demoS]) (by norm_num) (fun i hi => by
      have : (i : ℝ) < 3 := by exact_mod_cast (show i < 3 from hi)
      simp only [tipS, demoS]
      linarith) (by simp [tipS, demoS]) zero_le_one le_rfl h2 h3 h4
  refine ⟨rows, r, Tb, Tm, τ, h, h1, h2, a1, a2, ?_⟩
  have hx : hvkOf ((tipS true).frq 0) ^ 2 / (12 * 297) ≤ 0.001 := by
    norm_num [hvkOf, tipS, demoS, cPlanck, cBoltzmann]
  have e : (tipS true).tk 0 = 300 := by simp [tipS, demoS]
  simp only [e] at a3 a4
  rw [abs_le]
  constructor <;> linarith

end linear

end Verif.Props
