import Verif.Props.Ducting
import Verif.Spec.Refractivity

/-!
# The refractive index of air (C110)
-/

namespace Verif.Props

open Verif.Model Verif.Py Verif.Spec Real

section
variable {p p' e e' a a' T T' x : ℝ}

/-- **C110.** The three results are the refractivities of dry air and of vapour and the index. -/
theorem C110_formula (p T e : ℝ) : refractivity1 p T e = (dryN (p - e) T, wetN e T, 1 + airN p e T / 10 ^ 6) := by
  have h1 : (refractivity1 p T e).1 = dryN (p - e) T := by
    simp only [refractivity1, dryN, dryFactor]
    norm_num
    left
    left
    ring
  have h2 : (refractivity1 p T e).2.1 = wetN e T := by
    simp only [refractivity1, wetN, wetFactor, wetPoly]
    norm_num
    ring
  have h3 : (refractivity1 p T e).2.2 = 1 + ((refractivity1 p T e).1 + (refractivity1 p T e).2.1) / 10 ^ 6 := by
    simp only [refractivity1]
    norm_num
    ring
  rw [← Prod.mk.eta (p := refractivity1 p T e), ← Prod.mk.eta (p := (refractivity1 p T e).2), h3, h1, h2]
  rfl

theorem dryFactor_bound (ha : 0 ≤ a) (ha' : a ≤ 1100) (hT : 0 < T) : 0.99 ≤ dryFactor a T := by
  unfold dryFactor
  have h1 : (T - 273.16) / T ^ 2 ≤ 1 / 1092 := by
    rw [div_le_div_iff₀ (by positivity) (by norm_num)]
    norm_num
    nlinarith [sq_nonneg (T - 546)]
  have h2 : 0 ≤ 0.52 / T := by positivity
  have h3 : -0.000001 ≤ 57.9e-8 * (1 + 0.52 / T) - 9.4611e-4 * (T - 273.16) / T ^ 2 := by
    rw [mul_div_assoc]
    norm_num at h1 h2 ⊢
    linarith
  have : a * (-0.000001) ≤ a * (57.9e-8 * (1 + 0.52 / T) - 9.4611e-4 * (T - 273.16) / T ^ 2) :=
    mul_le_mul_of_nonneg_left h3 ha
  norm_num at this ⊢
  linarith

theorem wetPoly_pos (h : -173.16 ≤ x) : 0 < wetPoly x := by
  unfold wetPoly
  norm_num at h ⊢
  rcases le_or_gt 0 x with h0 | h0
  · nlinarith [sq_nonneg (x - 37), pow_nonneg h0 3]
  · have h1 : 0 ≤ -x := by linarith
    have h2 : x ^ 2 * (-7.5e-5) ≤ x ^ 2 * (1.75e-4 + 1.44e-6 * x) := by
      apply mul_le_mul_of_nonneg_left _ (sq_nonneg x)
      norm_num
      linarith
    have h3 : x ^ 2 ≤ 173.16 * (-x) := by norm_num; nlinarith
    norm_num at h2 h3
    nlinarith

theorem wetFactor_ge (he : 0 ≤ e) (hT : 100 ≤ T) : 1 ≤ wetFactor e T := by
  have := wetPoly_pos (x := T - 273.16) (by linarith)
  have hT0 : 0 < T := by linarith
  unfold wetFactor
  have : 0 ≤ 1650 * (e / T ^ 3) * wetPoly (T - 273.16) := by positivity
  linarith

/-- **C110.** Neither part is negative, so that the index is at least 1, and exceeds 1 wherever there is air. -/
theorem C110_index (he : 0 ≤ e) (hep : e ≤ p) (hp : p ≤ 1100) (hT : 100 ≤ T) :
    0 ≤ (refractivity1 p T e).1 ∧ 0 ≤ (refractivity1 p T e).2.1 ∧ 1 ≤ (refractivity1 p T e).2.2 ∧
      (0 < p → 1 < (refractivity1 p T e).2.2) := by
  have hT0 : 0 < T := by linarith
  rw [C110_formula]
  have h1 := dryFactor_bound (a := p - e) (T := T) (by linarith) (by linarith) hT0
  have h2 := wetFactor_ge he hT
  have d1 : 0 ≤ dryN (p - e) T := by
    unfold dryN
    have : 0 ≤ p - e := by linarith
    have : 0 ≤ dryFactor (p - e) T := by linarith
    positivity
  have d2 : 0 ≤ wetN e T := by
    unfold wetN
    have : 0 ≤ wetFactor e T := by linarith
    positivity
  refine ⟨d1, d2, ?_, fun h0 => ?_⟩
  · have : 0 ≤ airN p e T / 10 ^ 6 := by unfold airN; positivity
    simpa using this
  · have : 0 < airN p e T := by
      unfold airN
      rcases hep.lt_or_eq with h | h
      · have : 0 < dryN (p - e) T := by
          unfold dryN
          have h3 : 0 < p - e := by linarith
          have : 0 < dryFactor (p - e) T := by linarith
          positivity
        linarith
      · have : 0 < wetN e T := by
          unfold wetN
          have h3 : 0 < e := by linarith
          have : 0 < wetFactor e T := by linarith
          positivity
        linarith
    have : 0 < airN p e T / 10 ^ 6 := by positivity
    simpa using this

/-- **C110.** Denser air refracts more. -/
theorem C110_pressure (he : 0 ≤ e) (hep : e ≤ p) (hpp : p < p') (hp : p' ≤ 1100) (hT : 0 < T) :
    airN p e T < airN p' e T := by
  have key : ∀ a a' : ℝ, 0 ≤ a → a < a' → a' ≤ 1100 → a * dryFactor a T < a' * dryFactor a' T := by
    intro a a' h0 h1 h2
    have hb := dryFactor_bound (a := 1100) (T := T) (by norm_num) le_rfl hT
    unfold dryFactor at hb ⊢
    set k := 57.9e-8 * (1 + 0.52 / T) - 9.4611e-4 * (T - 273.16) / T ^ 2
    have hk : -0.00001 ≤ k := by norm_num at hb ⊢; linarith
    have h3 : 0 < 1 + (a + a') * k := by norm_num at hk ⊢; nlinarith
    nlinarith
  have := key (p - e) (p' - e) (by linarith) (by linarith) (by linarith)
  unfold airN dryN
  have e1 : ∀ a, 77.6036 * (a / T) * dryFactor a T = 77.6036 / T * (a * dryFactor a T) := fun a => by ring
  rw [e1, e1]
  have := mul_lt_mul_of_pos_left this (show 0 < 77.6036 / T by positivity)
  linarith

/-- **C110.** At the same total pressure, moister air refracts more. -/
theorem C110_humidity (he : 0 ≤ e) (hee : e < e') (hep : e' ≤ p) (hp : p ≤ 1100) (hT : 100 ≤ T) (hT' : T ≤ 400) :
    airN p e T < airN p e' T := by
  have hT0 : 0 < T := by linarith
  have w : wetN e T + (64.79 / T + 377600 / T ^ 2) * (e' - e) ≤ wetN e' T := by
    unfold wetN
    have h1 := wetFactor_ge he hT
    have h2 : wetFactor e T ≤ wetFactor e' T := by
      have := wetPoly_pos (x := T - 273.16) (by linarith)
      unfold wetFactor
      gcongr
    have e1 : ∀ e, 64.79 * (e / T) + 377600 * (e / T ^ 2) = (64.79 / T + 377600 / T ^ 2) * e := fun e => by ring
    rw [e1, e1]
    have hk : 0 < 64.79 / T + 377600 / T ^ 2 := by positivity
    have h3 : e * wetFactor e T + (e' - e) ≤ e' * wetFactor e' T := by nlinarith
    nlinarith [mul_le_mul_of_nonneg_left h3 hk.le]
  have d : dryN (p - e) T - 81.1 / T * (e' - e) ≤ dryN (p - e') T := by
    unfold dryN dryFactor
    set k := 57.9e-8 * (1 + 0.52 / T) - 9.4611e-4 * (T - 273.16) / T ^ 2 with hk
    have hk1 : k ≤ 0.00002 := by
      have h1 : -(T - 273.16) / T ^ 2 ≤ 0.0174 := by
        rw [div_le_iff₀ (by positivity)]
        norm_num
        nlinarith
      have h2 : 0.52 / T ≤ 0.0052 := by rw [div_le_iff₀ hT0]; norm_num; linarith
      rw [hk]
      have h3 : 9.4611e-4 * (T - 273.16) / T ^ 2 = -(9.4611e-4 * (-(T - 273.16) / T ^ 2)) := by ring
      rw [h3]
      norm_num at h1 h2 ⊢
      linarith
    have hsum : (p - e) + (p - e') ≤ 2200 := by linarith
    have hsum0 : 0 ≤ (p - e) + (p - e') := by linarith
    have h4 : (p - e) * (1 + (p - e) * k) - (p - e') * (1 + (p - e') * k) = (e' - e) * (1 + ((p - e) + (p - e')) * k) := by ring
    have h5 : 1 + ((p - e) + (p - e')) * k ≤ 1.044 := by norm_num at hk1 ⊢; nlinarith
    have h6 : (e' - e) * (1 + ((p - e) + (p - e')) * k) ≤ (e' - e) * 1.044 := mul_le_mul_of_nonneg_left h5 (by linarith)
    have h7 : 77.6036 * ((p - e) / T) * (1 + (p - e) * k) - 77.6036 * ((p - e') / T) * (1 + (p - e') * k) =
        77.6036 / T * ((p - e) * (1 + (p - e) * k) - (p - e') * (1 + (p - e') * k)) := by ring
    have h8 : 77.6036 / T * ((e' - e) * (1 + ((p - e) + (p - e')) * k)) ≤ 77.6036 / T * ((e' - e) * 1.044) :=
      mul_le_mul_of_nonneg_left h6 (by positivity)
    have h9 : 77.6036 / T * ((e' - e) * 1.044) ≤ 81.1 / T * (e' - e) := by
      rw [div_mul_eq_mul_div, div_mul_eq_mul_div, div_le_div_iff_of_pos_right hT0]
      norm_num
      linarith
    rw [h4] at h7
    linarith
  have hpos : 0 < (64.79 / T + 377600 / T ^ 2 - 81.1 / T) * (e' - e) := by
    apply mul_pos _ (by linarith)
    have : 944 / T ≤ 377600 / T ^ 2 := by
      rw [div_le_div_iff₀ hT0 (by positivity)]
      nlinarith
    have h1 : 64.79 / T + 944 / T - 81.1 / T = 927.69 / T := by rw [← add_div, ← sub_div]; norm_num
    have h2 : 0 < 927.69 / T := by positivity
    linarith
  unfold airN
  linarith

theorem dry_cool (ha : 0 ≤ a) (ha' : a ≤ 1100) (hT : 0 < T) (hTT : T < T') : a / T' * dryFactor a T' ≤ a / T * dryFactor a T ∧
    (0 < a → a / T' * dryFactor a T' < a / T * dryFactor a T) := by
  have hT' : 0 < T' := hT.trans hTT
  set u := 1 / T with hu
  set v := 1 / T' with hv
  have hv0 : 0 < v := by positivity
  have huv : v < u := one_div_lt_one_div_of_lt hT hTT
  have form : ∀ T : ℝ, 0 < T → a / T * dryFactor a T = a * (1 / T + a * (57.9e-8 * (1 / T + 0.52 * (1 / T) ^ 2) -
      9.4611e-4 * ((1 / T) ^ 2 - 273.16 * (1 / T) ^ 3))) := fun T h => by
    unfold dryFactor
    field_simp
  rw [form T hT, form T' hT', ← hu, ← hv]
  have hb : 0 < 1 + a * (57.9e-8 * (1 + 0.52 * (u + v)) - 9.4611e-4 * ((u + v) - 273.16 * (u ^ 2 + u * v + v ^ 2))) := by
    have h1 : (u + v) - 273.16 * (u ^ 2 + u * v + v ^ 2) ≤ 1 / 800 := by
      norm_num
      nlinarith [sq_nonneg (u - v), sq_nonneg (u + v - 1 / 400)]
    have h2 : -0.000002 ≤ 57.9e-8 * (1 + 0.52 * (u + v)) - 9.4611e-4 * ((u + v) - 273.16 * (u ^ 2 + u * v + v ^ 2)) := by
      have : 0 ≤ u + v := by linarith
      norm_num at h1 ⊢
      linarith
    have h3 := mul_le_mul_of_nonneg_left h2 ha
    norm_num at h3 ⊢
    linarith
  have key : (u + a * (57.9e-8 * (u + 0.52 * u ^ 2) - 9.4611e-4 * (u ^ 2 - 273.16 * u ^ 3))) -
      (v + a * (57.9e-8 * (v + 0.52 * v ^ 2) - 9.4611e-4 * (v ^ 2 - 273.16 * v ^ 3))) =
      (u - v) * (1 + a * (57.9e-8 * (1 + 0.52 * (u + v)) - 9.4611e-4 * ((u + v) - 273.16 * (u ^ 2 + u * v + v ^ 2)))) := by ring
  have hpos := mul_pos (sub_pos.2 huv) hb
  rw [← key] at hpos
  have hlt := sub_pos.1 hpos
  exact ⟨mul_le_mul_of_nonneg_left hlt.le ha, fun h => mul_lt_mul_of_pos_left hlt h⟩

theorem wet_cool (he : 0 ≤ e) (he' : e ≤ 100) (hT : 180 ≤ T) (hTT : T < T') (hT' : T' ≤ 400) : wetN e T' ≤ wetN e T ∧
    (0 < e → wetN e T' < wetN e T) := by
  have h0 : 0 < T := by linarith
  have h0' : 0 < T' := by linarith
  set u := 1 / T with hu
  set v := 1 / T' with hv
  have hv0 : 0.0025 ≤ v := by rw [hv, le_div_iff₀ h0']; norm_num; linarith
  have huv : v < u := one_div_lt_one_div_of_lt h0 hTT
  have hu1 : u ≤ 0.0056 := by rw [hu, div_le_iff₀ h0]; norm_num; linarith
  have Q : ∀ T : ℝ, 0 < T → wetPoly (T - 273.16) / T ^ 3 = (1 + 0.01317 * 273.16 + 1.75e-4 * 273.16 ^ 2 - 1.44e-6 * 273.16 ^ 3) *
      (1 / T) ^ 3 + (-0.01317 - 2 * 1.75e-4 * 273.16 + 3 * 1.44e-6 * 273.16 ^ 2) * (1 / T) ^ 2 +
      (1.75e-4 - 3 * 1.44e-6 * 273.16) * (1 / T) + 1.44e-6 := fun T h => by
    unfold wetPoly
    field_simp
    norm_num
    ring
  have form : ∀ T : ℝ, 0 < T → wetN e T = e * ((64.79 * (1 / T) + 377600 * (1 / T) ^ 2) *
      (1 + 1650 * e * (wetPoly (T - 273.16) / T ^ 3))) := fun T h => by
    unfold wetN wetFactor
    field_simp
  have q1 : 0 ≤ wetPoly (T - 273.16) / T ^ 3 := by
    have := wetPoly_pos (x := T - 273.16) (by linarith)
    positivity
  have q2 : wetPoly (T' - 273.16) / T' ^ 3 ≤ wetPoly (T - 273.16) / T ^ 3 + 0.0002 * (u - v) := by
    rw [Q T h0, Q T' h0', ← hu, ← hv]
    have hs : u ^ 2 + u * v + v ^ 2 ≤ 1.5 * (0.0081 * (u + v) - 0.000028) := by
      norm_num at hv0 hu1 ⊢
      nlinarith [sq_nonneg (u - v), mul_nonneg (show 0 ≤ u - 1 / 400 by linarith) (show 0 ≤ 7 / 1250 - u by linarith),
        mul_nonneg (show 0 ≤ v - 1 / 400 by linarith) (show 0 ≤ 7 / 1250 - v by linarith)]
    have hb : -0.0002 ≤ (1 + 0.01317 * 273.16 + 1.75e-4 * 273.16 ^ 2 - 1.44e-6 * 273.16 ^ 3) * (u ^ 2 + u * v + v ^ 2) +
        (-0.01317 - 2 * 1.75e-4 * 273.16 + 3 * 1.44e-6 * 273.16 ^ 2) * (u + v) + (1.75e-4 - 3 * 1.44e-6 * 273.16) := by
      norm_num at hv0 hu1 hs ⊢
      linarith
    have := mul_le_mul_of_nonneg_left hb (show 0 ≤ u - v by linarith)
    linear_combination this
  have d1 : 0 < u - v := by linarith
  have L : 64.79 * v + 377600 * v ^ 2 + (64.79 + 755200 * v) * (u - v) ≤ 64.79 * u + 377600 * u ^ 2 := by
    norm_num
    nlinarith [mul_pos d1 d1]
  have Lv : (64.79 * v + 377600 * v ^ 2) * 33 ≤ 755200 * v := by
    norm_num at hv0 hu1 ⊢
    nlinarith
  have hlt : (64.79 * v + 377600 * v ^ 2) * (1 + 1650 * e * (wetPoly (T' - 273.16) / T' ^ 3)) <
      (64.79 * u + 377600 * u ^ 2) * (1 + 1650 * e * (wetPoly (T - 273.16) / T ^ 3)) := by
    set q := wetPoly (T - 273.16) / T ^ 3
    set q' := wetPoly (T' - 273.16) / T' ^ 3
    have hvp : 0 < v := by norm_num at hv0; linarith
    have hl : 0 < 64.79 * v + 377600 * v ^ 2 := by positivity
    have c1 : 1650 * e * q' ≤ 1650 * e * q + 33 * (u - v) := by
      have := mul_le_mul_of_nonneg_left q2 (show 0 ≤ 1650 * e by positivity)
      have h2 : 1650 * e * (0.0002 * (u - v)) ≤ 33 * (u - v) := by
        have : 0.33 * e * (u - v) ≤ 0.33 * 100 * (u - v) := by gcongr
        norm_num at this ⊢
        linarith
      linarith
    have c2 : (64.79 * v + 377600 * v ^ 2) * (1 + 1650 * e * q') ≤
        (64.79 * v + 377600 * v ^ 2) * (1 + 1650 * e * q + 33 * (u - v)) := mul_le_mul_of_nonneg_left (by linarith) hl.le
    have c3 : (64.79 * v + 377600 * v ^ 2 + (64.79 + 755200 * v) * (u - v)) * (1 + 1650 * e * q) ≤
        (64.79 * u + 377600 * u ^ 2) * (1 + 1650 * e * q) := mul_le_mul_of_nonneg_right L (by positivity)
    have c4 : (64.79 * v + 377600 * v ^ 2) * 33 * (u - v) ≤ 755200 * v * (u - v) := mul_le_mul_of_nonneg_right Lv d1.le
    have c5 : 0 ≤ (64.79 + 755200 * v) * (u - v) * (1650 * e * q) := by positivity
    have c6 : 0 < 64.79 * (u - v) := by positivity
    linarith
  rw [form T h0, form T' h0', ← hu, ← hv]
  exact ⟨mul_le_mul_of_nonneg_left hlt.le he, fun h => mul_lt_mul_of_pos_left hlt h⟩

/-- **C110.** Colder air refracts more. -/
theorem C110_temperature (he : 0 ≤ e) (hep : e ≤ p) (he' : e ≤ 100) (hp0 : 0 < p) (hp : p ≤ 1100) (hT : 180 ≤ T) (hTT : T < T')
    (hT' : T' ≤ 400) : airN p e T' < airN p e T := by
  obtain ⟨d1, d2⟩ := dry_cool (a := p - e) (by linarith) (by linarith) (show 0 < T by linarith) hTT
  obtain ⟨w1, w2⟩ := wet_cool he he' hT hTT hT'
  unfold airN dryN
  rw [mul_assoc, mul_assoc]
  rcases hep.lt_or_eq with h | h
  · have := d2 (by linarith)
    norm_num at this ⊢
    linarith
  · have := w2 (by linarith)
    norm_num at d1 ⊢
    linarith

/-- **C110.** In the range of the atmosphere the refractivity is at most 5000. -/
theorem C110_range (he : 0 ≤ e) (hep : e ≤ p) (he' : e ≤ 100) (hp : p ≤ 1100) (hT : 180 ≤ T) (hT' : T ≤ 400) :
    0 ≤ airN p e T ∧ airN p e T ≤ 5000 := by
  have h0 : 0 < T := by linarith
  have ha : 0 ≤ p - e := by linarith
  obtain ⟨i1, i2, -, -⟩ := C110_index he hep hp (show 100 ≤ T by linarith)
  rw [C110_formula] at i1 i2
  refine ⟨add_nonneg i1 i2, ?_⟩
  have hf := dryFactor_bound ha (by linarith) h0
  have d : dryN (p - e) T ≤ 600 := by
    have h1 : (p - e) / T ≤ 1100 / 180 := div_le_div₀ (by norm_num) (by linarith) (by norm_num) hT
    have h2 : dryFactor (p - e) T ≤ 1.1 := by
      unfold dryFactor
      have h3 : -(T - 273.16) / T ^ 2 ≤ 0.003 := by
        rw [div_le_iff₀ (by positivity)]
        norm_num
        nlinarith
      have h4 : 0.52 / T ≤ 1 := by rw [div_le_iff₀ h0]; norm_num; linarith
      have h5 : 57.9e-8 * (1 + 0.52 / T) - 9.4611e-4 * (T - 273.16) / T ^ 2 ≤ 0.00001 := by
        have : 9.4611e-4 * (T - 273.16) / T ^ 2 = -(9.4611e-4 * (-(T - 273.16) / T ^ 2)) := by ring
        rw [this]
        norm_num at h3 h4 ⊢
        linarith
      have h6 := mul_le_mul_of_nonneg_left h5 ha
      norm_num at h6 ⊢
      linarith
    unfold dryN
    calc 77.6036 * ((p - e) / T) * dryFactor (p - e) T ≤ 77.6036 * (1100 / 180) * 1.1 := by
          apply mul_le_mul (mul_le_mul_of_nonneg_left h1 (by norm_num)) h2 (by linarith) (by norm_num)
      _ ≤ 600 := by norm_num
  have w : wetN e T ≤ 4000 := by
    have h1 : e / T ≤ 100 / 180 := div_le_div₀ (by norm_num) he' (by norm_num) hT
    have h2 : e / T ^ 2 ≤ 100 / 180 ^ 2 := div_le_div₀ (by norm_num) he' (by norm_num) (pow_le_pow_left₀ (by norm_num) hT 2)
    have h3 : e / T ^ 3 ≤ 100 / 180 ^ 3 := div_le_div₀ (by norm_num) he' (by norm_num) (pow_le_pow_left₀ (by norm_num) hT 3)
    have h4 : wetPoly (T - 273.16) ≤ 10 := by
      unfold wetPoly
      norm_num
      nlinarith [mul_nonneg (show 0 ≤ T - 180 by linarith) (show 0 ≤ 400 - T by linarith),
        mul_nonneg (mul_nonneg (show 0 ≤ T - 180 by linarith) (show 0 ≤ 400 - T by linarith)) (show 0 ≤ T - 180 by linarith),
        mul_nonneg (mul_nonneg (show 0 ≤ T - 180 by linarith) (show 0 ≤ 400 - T by linarith)) (show 0 ≤ 400 - T by linarith)]
    have h5 : 0 ≤ wetPoly (T - 273.16) := (wetPoly_pos (by linarith)).le
    have h6 : wetFactor e T ≤ 1.5 := by
      unfold wetFactor
      have : 1650 * (e / T ^ 3) * wetPoly (T - 273.16) ≤ 1650 * (100 / 180 ^ 3) * 10 :=
        mul_le_mul (mul_le_mul_of_nonneg_left h3 (by norm_num)) h4 h5 (by norm_num)
      norm_num at this ⊢
      linarith
    have h7 := wetFactor_ge he (show 100 ≤ T by linarith)
    unfold wetN
    calc (64.79 * (e / T) + 377600 * (e / T ^ 2)) * wetFactor e T ≤ (64.79 * (100 / 180) + 377600 * (100 / 180 ^ 2)) * 1.5 := by
          apply mul_le_mul (by gcongr) h6 (by linarith) (by norm_num)
      _ ≤ 4000 := by norm_num
  unfold airN
  linarith

end

/-! ## Simulations -/

/-- A sensible atmosphere, in pressures and temperatures. -/
structure Sensible (S : Settings) : Prop where
  ice : S.ice = false
  p : ∀ i < S.nl, 0 < S.p i ∧ S.p i ≤ 1100
  tk : ∀ i < S.nl, 180 ≤ S.tk i ∧ S.tk i ≤ 400
  rh : ∀ i < S.nl, 0 ≤ S.rh i
  vapour : ∀ i < S.nl, S.rh i * eswat (S.tk i) ≤ S.p i ∧ S.rh i * eswat (S.tk i) ≤ 100

theorem levelN_eq (S : Settings) (i : ℕ) : levelN S i = airN (S.p i) (S.rh i * eswat (S.tk i)) (S.tk i) := by
  simp only [levelN, C110_formula]
  rfl

/-- **C110.** In a sensible atmosphere ray tracing is never refused. -/
theorem C110_never_refused {S : Settings} (H : Sensible S) {e rho : Val} (hv : vapor S.tk S.rh S.ice = .ok (e, rho)) (k : ℕ) :
    rayTracing ⟨S.nl, S.z, fun i => (refractivity1 (S.p i) (S.tk i) (e i)).2.2, S.angles k, S.z0⟩ ≠ none := by
  rw [Ne, C21_refused_iff]
  push Not
  intro i hi
  obtain ⟨e', rho', hv', he⟩ := vapor_eq H.ice
  rw [hv] at hv'
  cases hv'
  simp only [he i]
  have := eswat_pos (S.tk i)
  exact (C110_index (mul_nonneg (H.rh i hi) this.le) (H.vapour i hi).1 (H.p i hi).2 (by linarith [(H.tk i hi).1])).2.2.1

/-- **C110.** Within a degree of the zenith no other condition than increasing heights is left on the path. -/
theorem C110_zenith {S : Settings} (H : Sensible S) {k : ℕ} (hr : S.rayTracing = true) (ha0 : 89 ≤ S.angles k)
    (ha1 : S.angles k ≤ 91) (hn : 1 ≤ S.nl) (hz : ∀ i, i + 1 < S.nl → S.z i ≤ S.z (i + 1)) : GoodPath S k :=
  goodPath_zenith hr ha0 ha1 hn hz fun e rho hv i hi => by
    obtain ⟨e', rho', hv', he⟩ := vapor_eq H.ice
    rw [hv] at hv'
    cases hv'
    rw [he i]
    have := eswat_pos (S.tk i)
    exact (C110_index (mul_nonneg (H.rh i hi) this.le) (H.vapour i hi).1 (H.p i hi).2 (by linarith [(H.tk i hi).1])).2.2.1

/-- **C110.** At other elevations, up to 100 km, only the absence of a duct: the refractivity falls from the antenna to each level
by less than `10^6` times the ratio of heights and the radius of the Earth. -/
theorem C110_slant {S : Settings} (H : Sensible S) {k : ℕ} (hr : S.rayTracing = true) (hn : 1 ≤ S.nl) (ha0 : 0.1 ≤ S.angles k)
    (ha1 : S.angles k < 89) (hz0 : 0 ≤ S.z0) (hb : S.z 0 = 0) (hz : ∀ i < S.nl, 0 ≤ S.z i ∧ S.z i ≤ 100)
    (hd : ∀ i < S.nl, (airN (S.p 0) (S.rh 0 * eswat (S.tk 0)) (S.tk 0) - airN (S.p i) (S.rh i * eswat (S.tk i)) (S.tk i)) *
      radius S.z0 0 ≤ 10 ^ 6 * S.z i) : GoodPath S k :=
  C108_goodPath H.ice ⟨hr, hn, ha0, ha1, hz0, hb, hz, fun i hi => by
    rw [levelN_eq]
    have := eswat_pos (S.tk i)
    exact C110_range (mul_nonneg (H.rh i hi) this.le) (H.vapour i hi).1 (H.vapour i hi).2 (H.p i hi).2 (H.tk i hi).1 (H.tk i hi).2,
    fun i hi => by rw [levelN_eq, levelN_eq]; exact hd i hi⟩

/-! ## Concrete values -/

/-- Air at 1000 hPa and 288 K: more by moisture, less by warmth, less by height. -/
example : airN 1000 0 288 < airN 1000 10 288 ∧ airN 1000 10 300 < airN 1000 10 288 ∧ airN 900 10 288 < airN 1000 10 288 :=
  ⟨C110_humidity (by norm_num) (by norm_num) (by norm_num) (by norm_num) (by norm_num) (by norm_num),
    C110_temperature (by norm_num) (by norm_num) (by norm_num) (by norm_num) (by norm_num) (by norm_num) (by norm_num) (by norm_num),
    C110_pressure (by norm_num) (by norm_num) (by norm_num) (by norm_num) (by norm_num)⟩

/-- Some bound on the temperature is needed: at 50 K and an (unphysical) vapour pressure of 100 hPa the index is below 1. -/
example : (refractivity1 100 50 100).2.2 < 1 := by norm_num [refractivity1]

theorem slantS_sensible : Sensible slantS where
  ice := rfl
  p i hi := by
    have : i < 3 := hi
    interval_cases i <;> norm_num [slantS, realS]
  tk i hi := by
    have : i < 3 := hi
    interval_cases i <;> norm_num [slantS, realS]
  rh i _ := le_rfl
  vapour i hi := by
    have : i < 3 := hi
    interval_cases i <;> norm_num [slantS, realS]

example : GoodPath slantS 0 :=
  C110_slant (k := 0) slantS_sensible rfl (by decide) (by norm_num [slantS]) (by norm_num [slantS]) le_rfl (by norm_num [slantS, realS, demoS])
    (slantS_refracts (k := 0) (by norm_num)).z fun i hi => by
      have := (slantS_refracts (k := 0) (by norm_num)).duct i hi
      rwa [levelN_eq, levelN_eq] at this

end Verif.Props
