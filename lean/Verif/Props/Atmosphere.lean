import Verif.Props.Extrapolation

/-!
# The ITU reference atmospheres: C57, C58
-/

namespace Verif.Props

open Verif.Py Verif.Model Real Finset

/-! ## C57: pressure -/

theorem exp_9114 : 9081.5485 < exp 9.114 ∧ exp 9.114 < 9081.549 := by
  have e : exp 9.114 = exp 1 ^ 9 * exp 0.114 := by rw [← Real.exp_nat_mul, ← Real.exp_add]; norm_num
  have h1 := Real.exp_one_gt_d9
  have h2 := Real.exp_one_lt_d9
  have h3 := Real.sum_le_exp_of_nonneg (x := 0.114) (by norm_num) 8
  have h4 := Real.exp_bound' (x := 0.114) (by norm_num) (by norm_num) (n := 8) (by norm_num)
  have h5 : (2.7182818283 : ℝ) ^ 9 ≤ exp 1 ^ 9 := by gcongr
  have h6 : exp 1 ^ 9 ≤ (2.7182818286 : ℝ) ^ 9 := by gcongr
  rw [e]
  constructor
  · calc (9081.5485 : ℝ) < 2.7182818283 ^ 9 * ∑ i ∈ range 8, (0.114 : ℝ) ^ i / (i.factorial) := by
          norm_num [Finset.sum_range_succ, Nat.factorial]
      _ ≤ exp 1 ^ 9 * exp 0.114 := by gcongr
  · refine lt_of_le_of_lt (mul_le_mul h6 h4 (by positivity) (by positivity)) ?_
    norm_num [Finset.sum_range_succ, Nat.factorial]

theorem exp_868 : exp 8.68 < 5884.0469 := by
  have e : exp 8.68 = exp 1 ^ 8 * exp 0.68 := by rw [← Real.exp_nat_mul, ← Real.exp_add]; norm_num
  have h2 := Real.exp_one_lt_d9
  have h4 := Real.exp_bound' (x := 0.68) (by norm_num) (by norm_num) (n := 12) (by norm_num)
  have h6 : exp 1 ^ 8 ≤ (2.7182818286 : ℝ) ^ 8 := by gcongr
  rw [e]
  refine lt_of_le_of_lt (mul_le_mul h6 h4 (by positivity) (by positivity)) ?_
  norm_num [Finset.sum_range_succ, Nat.factorial]

/-- A reference pressure: finite exactly on 0-100 km and positive there; strictly falling from the ground to 72 km and
from just above 72 km to the top. -/
def PressureShape (f : ℝ → Option ℝ) : Prop :=
  (∀ h, f h = none ↔ h < 0 ∨ 100 < h) ∧
  (∀ h v, f h = some v → 0 < v) ∧
  (∀ h h' v v', f h = some v → f h' = some v' → h < h' → h' ≤ 72 ∨ 72 < h → v' < v)

/-- The pressure falls everywhere on 0-100 km. -/
def Falling (f : ℝ → Option ℝ) : Prop :=
  ∀ h h' v v', f h = some v → f h' = some v' → h < h' → v' < v

section
variable {a b c p10 r1 p72 r2 : ℝ}

theorem ituPressure_none (h : ℝ) : ituPressure a b c p10 r1 p72 r2 h = none ↔ h < 0 ∨ 100 < h := by
  unfold ituPressure
  split_ifs with h1 h2 h3
  · simp; exact ⟨h1.1, by linarith [h1.2]⟩
  · simp; exact ⟨by linarith [h2.1], by linarith [h2.2]⟩
  · simp; exact ⟨by linarith [h3.1], by linarith [h3.2]⟩
  · simp
    by_contra hc
    push Not at hc
    obtain ⟨c1, c2⟩ := hc
    rcases le_or_gt h 10 with g | g
    · exact h1 ⟨c1, g⟩
    · rcases le_or_gt h 72 with g' | g'
      · exact h2 ⟨g, g'⟩
      · exact h3 ⟨g', c2⟩

theorem ituPressure_low {h : ℝ} (h0 : 0 ≤ h) (h1 : h ≤ 10) :
    ituPressure a b c p10 r1 p72 r2 h = some (a - b * h + c * h ^ 2) := by
  unfold ituPressure; rw [if_pos ⟨h0, h1⟩]

theorem ituPressure_mid {h : ℝ} (h0 : 10 < h) (h1 : h ≤ 72) :
    ituPressure a b c p10 r1 p72 r2 h = some (p10 * exp (-r1 * (h - 10))) := by
  unfold ituPressure; rw [if_neg (fun h => by linarith [h.2]), if_pos ⟨h0, h1⟩]

theorem ituPressure_high {h : ℝ} (h0 : 72 < h) (h1 : h ≤ 100) :
    ituPressure a b c p10 r1 p72 r2 h = some (p72 * exp (-r2 * (h - 72))) := by
  unfold ituPressure; rw [if_neg (fun h => by linarith [h.2]), if_neg (fun h => by linarith [h.2]), if_pos ⟨h0, h1⟩]

theorem ituPressure_shape (hp10 : 0 < p10) (hr1 : 0 < r1) (hp72 : 0 < p72) (hr2 : 0 < r2) (hc : 0 < c)
    (hb : 20 * c < b) (ha : a - b * 10 + c * 10 ^ 2 = p10) :
    PressureShape (ituPressure a b c p10 r1 p72 r2) := by
  have hquad : ∀ h h', 0 ≤ h → h < h' → h' ≤ 10 → a - b * h' + c * h' ^ 2 < a - b * h + c * h ^ 2 := by
    intro h h' h0 hlt h10
    nlinarith [mul_pos hc (sub_pos.mpr hlt)]
  have hq10 : ∀ h, 0 ≤ h → h ≤ 10 → p10 ≤ a - b * h + c * h ^ 2 := by
    intro h h0 h10
    rcases h10.eq_or_lt with rfl | h10
    · exact ha.ge
    · rw [← ha]; exact (hquad h 10 h0 h10 le_rfl).le
  refine ⟨ituPressure_none, fun h v hv => ?_, fun h h' v v' hv hv' hlt hcase => ?_⟩
  · have hdom : ¬ (h < 0 ∨ 100 < h) := by rw [← ituPressure_none (a := a) (b := b) (c := c) (p10 := p10) (r1 := r1) (p72 := p72) (r2 := r2), hv]; simp
    push Not at hdom
    rcases le_or_gt h 10 with g | g
    · rw [ituPressure_low hdom.1 g] at hv
      have := hq10 h hdom.1 g
      have hv := Option.some.inj hv
      linarith
    · rcases le_or_gt h 72 with g' | g'
      · rw [ituPressure_mid g g'] at hv
        rw [← Option.some.inj hv]; positivity
      · rw [ituPressure_high g' hdom.2] at hv
        rw [← Option.some.inj hv]; positivity
  · have hdom : ¬ (h < 0 ∨ 100 < h) := by rw [← ituPressure_none (a := a) (b := b) (c := c) (p10 := p10) (r1 := r1) (p72 := p72) (r2 := r2), hv]; simp
    have hdom' : ¬ (h' < 0 ∨ 100 < h') := by rw [← ituPressure_none (a := a) (b := b) (c := c) (p10 := p10) (r1 := r1) (p72 := p72) (r2 := r2), hv']; simp
    push Not at hdom hdom'
    rcases hcase with hcase | hcase
    · rcases le_or_gt h' 10 with g | g
      · rw [ituPressure_low hdom'.1 g] at hv'
        rw [ituPressure_low hdom.1 (by linarith)] at hv
        rw [← Option.some.inj hv, ← Option.some.inj hv']
        exact hquad h h' hdom.1 hlt g
      · rw [ituPressure_mid g hcase] at hv'
        rw [← Option.some.inj hv']
        have hlt1 : exp (-r1 * (h' - 10)) < 1 := by
          rw [Real.exp_lt_one_iff]
          have := mul_pos hr1 (sub_pos.mpr g)
          linarith
        rcases le_or_gt h 10 with g2 | g2
        · rw [ituPressure_low hdom.1 g2] at hv
          rw [← Option.some.inj hv]
          have := hq10 h hdom.1 g2
          nlinarith
        · rw [ituPressure_mid g2 (by linarith)] at hv
          rw [← Option.some.inj hv]
          apply mul_lt_mul_of_pos_left _ hp10
          apply Real.exp_lt_exp.mpr
          nlinarith
    · rw [ituPressure_high hcase hdom.2] at hv
      rw [ituPressure_high (by linarith) hdom'.2] at hv'
      rw [← Option.some.inj hv, ← Option.some.inj hv']
      apply mul_lt_mul_of_pos_left _ hp72
      apply Real.exp_lt_exp.mpr
      nlinarith

theorem ituPressure_falling (hs : PressureShape (ituPressure a b c p10 r1 p72 r2)) (hp72 : 0 < p72) (hr2 : 0 < r2)
    (hj : p72 ≤ p10 * exp (-r1 * (72 - 10))) : Falling (ituPressure a b c p10 r1 p72 r2) := by
  intro h h' v v' hv hv' hlt
  by_cases hc : h' ≤ 72 ∨ 72 < h
  · exact hs.2.2 h h' v v' hv hv' hlt hc
  · push Not at hc
    have h72 : ituPressure a b c p10 r1 p72 r2 72 = some (p10 * exp (-r1 * (72 - 10))) :=
      ituPressure_mid (by norm_num) le_rfl
    have hd' : ¬ (h' < 0 ∨ 100 < h') := by rw [← hs.1 h', hv']; simp
    push Not at hd'
    have h1 : p10 * exp (-r1 * (72 - 10)) ≤ v := by
      rcases hc.2.eq_or_lt with rfl | hlt'
      · rw [h72] at hv; exact (Option.some.inj hv).le
      · exact (hs.2.2 h 72 v _ hv h72 hlt' (.inl le_rfl)).le
    rw [ituPressure_high hc.1 hd'.2] at hv'
    have h2 : exp (-r2 * (h' - 72)) < 1 := by
      rw [Real.exp_lt_one_iff]
      have := mul_pos hr2 (sub_pos.mpr hc.1)
      linarith
    rw [← Option.some.inj hv']
    nlinarith

/-- If the constant of the upper piece is too large, the pressure rises across 72 km: there is a height just above
72 km with a larger pressure than at 72 km. -/
theorem ituPressure_not_falling (hr2 : 0 < r2) (hj : p10 * exp (-r1 * (72 - 10)) < p72) :
    ¬ Falling (ituPressure a b c p10 r1 p72 r2) := by
  intro hf
  set q := p10 * exp (-r1 * (72 - 10)) with hq
  rcases le_or_gt p72 0 with hp | hp
  · have h1 := hf 72 73 _ _ (ituPressure_mid (by norm_num) le_rfl) (ituPressure_high (by norm_num) (by norm_num)) (by norm_num)
    have h2 := hf 73 74 _ _ (ituPressure_high (by norm_num) (by norm_num)) (ituPressure_high (by norm_num) (by norm_num)) (by norm_num)
    have h3 : exp (-r2 * (74 - 72)) < exp (-r2 * (73 - 72)) := Real.exp_lt_exp.mpr (by linarith)
    nlinarith
  · have hd : 0 < (p72 - q) / (p72 * r2) := div_pos (by linarith) (by positivity)
    set d := min 1 ((p72 - q) / (p72 * r2)) with hdd
    have hd0 : 0 < d := lt_min one_pos hd
    have hd1 : d ≤ 1 := min_le_left _ _
    have hd2 : d * (p72 * r2) ≤ p72 - q := by
      have := min_le_right 1 ((p72 - q) / (p72 * r2))
      calc d * (p72 * r2) ≤ (p72 - q) / (p72 * r2) * (p72 * r2) := by gcongr
        _ = p72 - q := div_mul_cancel₀ _ (by positivity)
    have h1 := hf 72 (72 + d) _ _ (ituPressure_mid (by norm_num) le_rfl)
      (ituPressure_high (by linarith) (by linarith)) (by linarith)
    have h2 : -r2 * (72 + d - 72) + 1 < exp (-r2 * (72 + d - 72)) :=
      Real.add_one_lt_exp (by nlinarith [mul_pos hr2 hd0])
    have h3 := mul_lt_mul_of_pos_left h2 hp
    nlinarith
end

/-- The five reference pressures are finite and positive on 0-100 km, not a number elsewhere, and fall strictly on each
side of 72 km. -/
theorem C57_pressure_shape : PressureShape lowPressure ∧ PressureShape midPressureSummer ∧
    PressureShape midPressureWinter ∧ PressureShape highPressureSummer ∧ PressureShape highPressureWinter := by
  refine ⟨ituPressure_shape ?_ ?_ ?_ ?_ ?_ ?_ ?_, ituPressure_shape ?_ ?_ ?_ ?_ ?_ ?_ ?_,
    ituPressure_shape ?_ ?_ ?_ ?_ ?_ ?_ ?_, ituPressure_shape ?_ ?_ ?_ ?_ ?_ ?_ ?_,
    ituPressure_shape ?_ ?_ ?_ ?_ ?_ ?_ ?_⟩ <;> norm_num

theorem jump_le {p10 p72 r x : ℝ} (h : exp (r * 62) < x) (hx : p72 * x ≤ p10) (h72 : 0 < p72) :
    p72 ≤ p10 * exp (-r * (72 - 10)) := by
  have e : exp (-r * (72 - 10)) = (exp (r * 62))⁻¹ := by rw [← Real.exp_neg]; congr 1; ring
  rw [e, ← div_eq_mul_inv, le_div_iff₀ (Real.exp_pos _)]
  nlinarith

/-- The low-latitude and the two summer pressures fall strictly from the ground to 100 km. -/
theorem C57_pressure_falls : Falling lowPressure ∧ Falling midPressureSummer ∧ Falling highPressureSummer := by
  obtain ⟨h1, h2, _, h4, _⟩ := C57_pressure_shape
  have e1 : (0.147 : ℝ) * 62 = 9.114 := by norm_num
  have e2 : (0.140 : ℝ) * 62 = 8.68 := by norm_num
  refine ⟨ituPressure_falling h1 (by norm_num) (by norm_num) (jump_le (x := 9081.549) ?_ (by norm_num) (by norm_num)),
    ituPressure_falling h2 (by norm_num) (by norm_num) (jump_le (x := 9081.549) ?_ (by norm_num) (by norm_num)),
    ituPressure_falling h4 (by norm_num) (by norm_num) (jump_le (x := 5884.0469) ?_ (by norm_num) (by norm_num))⟩
  · rw [e1]; exact exp_9114.2
  · rw [e1]; exact exp_9114.2
  · rw [e2]; exact exp_868

theorem jump_gt {p10 p72 r x : ℝ} (h : x < exp (r * 62)) (hx : p10 ≤ p72 * x) (h72 : 0 < p72) :
    p10 * exp (-r * (72 - 10)) < p72 := by
  have e : exp (-r * (72 - 10)) = (exp (r * 62))⁻¹ := by rw [← Real.exp_neg]; congr 1; ring
  rw [e, ← div_eq_mul_inv, div_lt_iff₀ (Real.exp_pos _)]
  nlinarith

/-- The two winter pressures do not: the constant of the upper piece is (slightly) too large, the pressure rises across
72 km. -/
theorem C57_winter_pressure_refuted : ¬ Falling midPressureWinter ∧ ¬ Falling highPressureWinter := by
  have e1 : (0.147 : ℝ) * 62 = 9.114 := by norm_num
  refine ⟨ituPressure_not_falling (by norm_num) (jump_gt (x := 9081.5485) ?_ (by norm_num) (by norm_num)),
    ituPressure_not_falling (by norm_num) (jump_gt (x := 9081.5485) ?_ (by norm_num) (by norm_num))⟩
  · rw [e1]; exact exp_9114.1
  · rw [e1]; exact exp_9114.1

example : lowPressure 0 = some 1012.0306 ∧ lowPressure (-1) = none := by
  constructor
  · rw [lowPressure, ituPressure_low le_rfl (by norm_num)]; norm_num
  · rw [lowPressure, ituPressure_none]; norm_num

/-! ## C57: temperature and vapour -/

/-- The value is between 150 and 310 K on 0-100 km. -/
def Temperate (f : ℝ → Option ℝ) : Prop := ∀ h, 0 ≤ h → h ≤ 100 → ∃ T, f h = some T ∧ 150 < T ∧ T < 310

theorem exp_seg {x : ℝ} (h0 : 0 ≤ x) (h1 : x ≤ 1) : 1 ≤ exp x ∧ exp x ≤ 1 + x + x ^ 2 := by
  refine ⟨Real.one_le_exp h0, ?_⟩
  have := Real.exp_bound' h0 h1 (n := 2) (by norm_num)
  refine this.trans ?_
  norm_num [Finset.sum_range_succ, Nat.factorial]
  nlinarith [sq_nonneg x]

theorem C57_temperature_range : Temperate lowTemperature ∧ Temperate midTemperatureSummer ∧
    Temperate midTemperatureWinter ∧ Temperate highTemperatureSummer ∧ Temperate highTemperatureWinter := by
  refine ⟨fun h h0 h1 => ?_, fun h h0 h1 => ?_, fun h h0 h1 => ?_, fun h h0 h1 => ?_, fun h h0 h1 => ?_⟩
  · unfold lowTemperature
    split_ifs with g1 g2 g3 g4 g5
    · exact ⟨_, rfl, by nlinarith [g1.1, g1.2], by nlinarith [g1.1, g1.2]⟩
    · exact ⟨_, rfl, by nlinarith [g2.1, g2.2], by nlinarith [g2.1, g2.2]⟩
    · exact ⟨_, rfl, by norm_num, by norm_num⟩
    · exact ⟨_, rfl, by nlinarith [g4.1, g4.2], by nlinarith [g4.1, g4.2]⟩
    · exact ⟨_, rfl, by norm_num, by norm_num⟩
    · exact ⟨_, rfl, by norm_num, by norm_num⟩
  · unfold midTemperatureSummer
    split_ifs with g1 g2 g3 g4 g5 g6
    · exact ⟨_, rfl, by nlinarith [g1.1, g1.2], by nlinarith [g1.1, g1.2]⟩
    · exact ⟨_, rfl, by norm_num, by norm_num⟩
    · have hx : 0 ≤ (h - 17) * 0.008128 ∧ (h - 17) * 0.008128 ≤ 0.25 := by constructor <;> nlinarith [g3.1, g3.2]
      have := exp_seg hx.1 (by linarith [hx.2])
      refine ⟨_, rfl, by linarith, ?_⟩
      nlinarith [this.2, hx.1, hx.2]
    · exact ⟨_, rfl, by norm_num, by norm_num⟩
    · refine ⟨_, rfl, ?_, ?_⟩
      · have e : exp ((h - 53) * 0.06) ≤ exp 2 := Real.exp_le_exp.mpr (by nlinarith [g5.2])
        have e2 : exp 2 < 7.0 * 1.06 := by
          have : exp 2 = exp 1 ^ 2 := by rw [← Real.exp_nat_mul]; norm_num
          rw [this]
          have := Real.exp_one_lt_d9
          calc exp 1 ^ 2 ≤ 2.7182818286 ^ 2 := by gcongr
            _ < 7.0 * 1.06 := by norm_num
        have e3 : exp ((h - 53) * 0.06) ≤ exp 1.62 := Real.exp_le_exp.mpr (by nlinarith [g5.2])
        have e4 : exp 1.62 ≤ 6 := by
          have e : exp 1.62 = exp 1 * exp 0.62 := by rw [← Real.exp_add]; norm_num
          have h6 := (exp_seg (x := 0.62) (by norm_num) (by norm_num)).2
          have := Real.exp_one_lt_d9
          rw [e]
          calc exp 1 * exp 0.62 ≤ 2.7182818286 * (1 + 0.62 + 0.62 ^ 2) := by gcongr
            _ ≤ 6 := by norm_num
        linarith
      · have : 0 < exp ((h - 53) * 0.06) := Real.exp_pos _
        linarith
    · exact ⟨_, rfl, by norm_num, by norm_num⟩
    · exfalso; grind
  · unfold midTemperatureWinter
    split_ifs with g1 g2 g3 g4 g5 g6
    · exact ⟨_, rfl, by nlinarith [g1.1, g1.2], by nlinarith [g1.1, g1.2]⟩
    · exact ⟨_, rfl, by norm_num, by norm_num⟩
    · exact ⟨_, rfl, by nlinarith [g3.1, g3.2], by nlinarith [g3.1, g3.2]⟩
    · exact ⟨_, rfl, by norm_num, by norm_num⟩
    · exact ⟨_, rfl, by nlinarith [g5.1, g5.2], by nlinarith [g5.1, g5.2]⟩
    · exact ⟨_, rfl, by norm_num, by norm_num⟩
    · exfalso; grind
  · unfold highTemperatureSummer
    split_ifs with g1 g2 g3 g4 g5 g6
    · exact ⟨_, rfl, by nlinarith [g1.1, g1.2], by nlinarith [g1.1, g1.2]⟩
    · exact ⟨_, rfl, by norm_num, by norm_num⟩
    · have hx : 0 ≤ (h - 23) * 0.008317 ∧ (h - 23) * 0.008317 ≤ 0.21 := by constructor <;> nlinarith [g3.1, g3.2]
      have := exp_seg hx.1 (by linarith [hx.2])
      refine ⟨_, rfl, by linarith, ?_⟩
      nlinarith [this.2, hx.1, hx.2]
    · exact ⟨_, rfl, by norm_num, by norm_num⟩
    · exact ⟨_, rfl, by nlinarith [g5.1, g5.2], by nlinarith [g5.1, g5.2]⟩
    · exact ⟨_, rfl, by norm_num, by norm_num⟩
    · exfalso; grind
  · unfold highTemperatureWinter
    split_ifs with g1 g2 g3 g4 g5
    · have h2 : 0 ≤ h * (8.5 - h) := mul_nonneg g1.1 (by linarith [g1.2])
      have h3 : 0 ≤ h ^ 2 * (8.5 - h) := mul_nonneg (sq_nonneg h) (by linarith [g1.2])
      have h4 : 0 ≤ h ^ 3 := pow_nonneg h0 3
      exact ⟨_, rfl, by nlinarith [g1.1, g1.2], by nlinarith [g1.1, g1.2]⟩
    · exact ⟨_, rfl, by norm_num, by norm_num⟩
    · exact ⟨_, rfl, by nlinarith [g3.1, g3.2], by nlinarith [g3.1, g3.2]⟩
    · exact ⟨_, rfl, by norm_num, by norm_num⟩
    · exact ⟨_, rfl, by nlinarith [g5.1, g5.2], by nlinarith [g5.1, g5.2]⟩
    · exfalso; grind

/-- Outside 0-100 km the mid- and high-latitude temperatures are not a number; the low-latitude one is 184 K, also
below the ground. -/
theorem C57_temperature_outside {h : ℝ} (hh : h < 0 ∨ 100 < h) : lowTemperature h = some 184 ∧
    midTemperatureSummer h = none ∧ midTemperatureWinter h = none ∧ highTemperatureSummer h = none ∧
    highTemperatureWinter h = none := by
  refine ⟨?_, ?_, ?_, ?_, ?_⟩
  · unfold lowTemperature; grind
  · unfold midTemperatureSummer; grind
  · unfold midTemperatureWinter; grind
  · unfold highTemperatureSummer; grind
  · unfold highTemperatureWinter
    have h85 : (8.5 : ℝ) = 17 / 2 := by norm_num
    rw [h85]; grind

/-- Reference vapour densities are never negative, positive near the ground and exactly zero above the stated top and
below the ground. -/
theorem C57_vapour (h : ℝ) :
    (0 ≤ lowVapour h ∧ (0 < lowVapour h ↔ 0 ≤ h ∧ h ≤ 15)) ∧
    (0 ≤ midVapourSummer h ∧ (0 < midVapourSummer h ↔ 0 ≤ h ∧ h ≤ 15)) ∧
    (0 ≤ midVapourWinter h ∧ (0 < midVapourWinter h ↔ 0 ≤ h ∧ h ≤ 10)) ∧
    (0 ≤ highVapourSummer h ∧ (0 < highVapourSummer h ↔ 0 ≤ h ∧ h ≤ 15)) ∧
    (0 ≤ highVapourWinter h ∧ (0 < highVapourWinter h ↔ 0 ≤ h ∧ h ≤ 10)) := by
  have key : ∀ (P : Prop) [Decidable P] (x : ℝ), 0 < x → 0 ≤ (if P then x else 0) ∧ (0 < (if P then x else 0) ↔ P) := by
    intro P _ x hx
    split_ifs with hP
    · exact ⟨hx.le, iff_of_true hx hP⟩
    · exact ⟨le_rfl, iff_of_false (lt_irrefl _) hP⟩
  refine ⟨key _ _ ?_, key _ _ ?_, key _ _ ?_, key _ _ ?_, key _ _ ?_⟩ <;> positivity

example : ∃ T, lowTemperature 20 = some T ∧ 150 < T ∧ T < 310 :=
  C57_temperature_range.1 20 (by norm_num) (by norm_num)

/-! ## C58: the standard atmosphere -/

theorem geopot_ok {h : ℝ} (h0 : 0 ≤ h) : geopot h = some (6356.766 * h / (6356.766 + h)) :=
  npDiv_of_ne (by positivity)

/-- The surface values given by the caller are not used: at height 0 the standard temperature is 288.15 K and the
standard pressure 1013.25 hPa whatever surface values are asked for, and nowhere does a different surface value change
the result. -/
theorem C58_surface_values_ignored (T0 P0 : ℝ) :
    stdTemperature 0 T0 = some 288.15 ∧ stdPressure 0 T0 P0 = some 1013.25 ∧
    ∀ h T0' P0', stdTemperature h T0' = stdTemperature h T0 ∧ stdPressure h T0' P0' = stdPressure h T0 P0 := by
  have h0 : geopot 0 = some 0 := by rw [geopot_ok le_rfl]; norm_num
  refine ⟨?_, ?_, fun h T0' P0' => ⟨rfl, rfl⟩⟩
  · unfold stdTemperature; rw [h0]; norm_num
  · unfold stdPressure
    rw [h0]
    simp only [Option.bind_some]
    rw [if_pos (by norm_num), npDiv_of_ne (by norm_num)]
    norm_num

/-- Standard temperature and pressure are finite and positive at all heights from the ground up. -/
theorem C58_positive {h : ℝ} (h0 : 0 ≤ h) (T0 P0 : ℝ) :
    (∃ T, stdTemperature h T0 = some T ∧ 150 < T ∧ T < 289) ∧ ∃ P, stdPressure h T0 P0 = some P ∧ 0 < P := by
  set q := 6356.766 * h / (6356.766 + h) with hq
  have hq0 : 0 ≤ q := by positivity
  constructor
  · unfold stdTemperature
    rw [geopot_ok h0, ← hq, Option.bind_some]
    split_ifs with g1 g2 g3 g4 g5 g6 g7 g8 g9
    · exact ⟨_, rfl, by linarith, by linarith⟩
    · exact ⟨_, rfl, by norm_num, by norm_num⟩
    · exact ⟨_, rfl, by linarith, by linarith⟩
    · exact ⟨_, rfl, by linarith, by linarith⟩
    · exact ⟨_, rfl, by norm_num, by norm_num⟩
    · exact ⟨_, rfl, by linarith, by linarith⟩
    · exact ⟨_, rfl, by linarith, by linarith⟩
    · exact ⟨_, rfl, by norm_num, by norm_num⟩
    · have hx : 0 ≤ ((h - 91) / 19.9429) ^ 2 ∧ ((h - 91) / 19.9429) ^ 2 ≤ 1 := by
        refine ⟨sq_nonneg _, ?_⟩
        rw [sq_le_one_iff_abs_le_one, abs_le]
        constructor
        · rw [le_div_iff₀ (by norm_num)]; linarith
        · rw [div_le_iff₀ (by norm_num)]; linarith
      unfold npSqrt
      rw [if_pos (by linarith)]
      refine ⟨_, rfl, ?_, ?_⟩
      · have : √(1 - ((h - 91) / 19.9429) ^ 2) ≤ 1 := by
          exact Real.sqrt_le_one.mpr (by linarith)
        linarith
      · have := Real.sqrt_nonneg (1 - ((h - 91) / 19.9429) ^ 2)
        linarith
    · exact ⟨_, rfl, by norm_num, by norm_num⟩
  · unfold stdPressure
    rw [geopot_ok h0, ← hq, Option.bind_some]
    split_ifs with g1 g2 g3 g4 g5 g6 g7 g8
    · have : 0 < 288.15 - 6.5 * q := by linarith
      rw [npDiv_of_ne this.ne']
      exact ⟨_, rfl, by positivity⟩
    · exact ⟨_, rfl, by positivity⟩
    · have : 0 < 216.65 + (q - 20) := by linarith
      rw [npDiv_of_ne this.ne']
      exact ⟨_, rfl, by positivity⟩
    · have : 0 < 228.65 + 2.8 * (q - 32) := by linarith
      rw [npDiv_of_ne this.ne']
      exact ⟨_, rfl, by positivity⟩
    · exact ⟨_, rfl, by positivity⟩
    · have : 0 < 270.65 - 2.8 * (q - 51) := by linarith
      rw [npDiv_of_ne this.ne']
      exact ⟨_, rfl, by positivity⟩
    · have : 0 < 214.65 - 2.0 * (q - 71) := by linarith
      rw [npDiv_of_ne this.ne']
      exact ⟨_, rfl, by positivity⟩
    · exact ⟨_, rfl, by positivity⟩
    · exact ⟨_, rfl, by norm_num⟩

/-- Above 100 km, and in the narrow gap below 86 km that no branch covers, temperature and pressure are the two filler
constants; the gap is not empty. -/
theorem C58_filler {h : ℝ} (hh : 100 < h ∨ (84.852 * 6356.766 / (6356.766 - 84.852) < h ∧ h < 86)) (T0 P0 : ℝ) :
    stdTemperature h T0 = some 195.08134 ∧ stdPressure h T0 P0 = some 1e-62 := by
  have hg : 85 < h := by
    rcases hh with hh | hh
    · linarith
    · refine lt_trans ?_ hh.1
      norm_num
  have hq : 84.852 < 6356.766 * h / (6356.766 + h) := by
    rw [lt_div_iff₀ (by linarith)]
    rcases hh with hh | hh
    · linarith
    · have := hh.1
      rw [div_lt_iff₀ (by norm_num)] at this
      linarith
  have n1 : ¬ (86 ≤ h ∧ h ≤ 91) := fun g => by rcases hh with hh | hh <;> linarith [g.1, g.2]
  have n2 : ¬ (91 < h ∧ h ≤ 100) := fun g => by rcases hh with hh | hh <;> linarith [g.1, g.2]
  have n3 : ¬ (86 ≤ h ∧ h ≤ 100) := fun g => by rcases hh with hh | hh <;> linarith [g.1, g.2]
  set q := 6356.766 * h / (6356.766 + h) with hqd
  constructor
  · unfold stdTemperature
    rw [geopot_ok (by linarith), ← hqd, Option.bind_some, if_neg (by linarith), if_neg (fun g => by linarith [g.2]),
      if_neg (fun g => by linarith [g.2]), if_neg (fun g => by linarith [g.2]), if_neg (fun g => by linarith [g.2]),
      if_neg (fun g => by linarith [g.2]), if_neg (fun g => by linarith [g.2]), if_neg n1, if_neg n2]
  · unfold stdPressure
    rw [geopot_ok (by linarith), ← hqd, Option.bind_some, if_neg (by linarith), if_neg (fun g => by linarith [g.2]),
      if_neg (fun g => by linarith [g.2]), if_neg (fun g => by linarith [g.2]), if_neg (fun g => by linarith [g.2]),
      if_neg (fun g => by linarith [g.2]), if_neg (fun g => by linarith [g.2]), if_neg n3]

/-- The gap contains the height 85.99999 km. -/
theorem C58_gap_refuted (T0 P0 : ℝ) :
    stdTemperature 85.99999 T0 = some 195.08134 ∧ stdPressure 85.99999 T0 P0 = some 1e-62 :=
  C58_filler (.inr ⟨by norm_num, by norm_num⟩) T0 P0

/-- Geometric height of a geopotential height. -/
theorem geopot_inv {q : ℝ} (h0 : 0 ≤ q) (h1 : q < 6356) :
    0 ≤ 6356.766 * q / (6356.766 - q) ∧ geopot (6356.766 * q / (6356.766 - q)) = some q := by
  have hd : 0 < 6356.766 - q := by linarith
  have hh : 0 ≤ 6356.766 * q / (6356.766 - q) := by positivity
  refine ⟨hh, ?_⟩
  rw [geopot_ok hh]
  congr 1
  have : 6356.766 + 6356.766 * q / (6356.766 - q) = 6356.766 ^ 2 / (6356.766 - q) := by field_simp; ring
  rw [this]
  field_simp

/-- The standard pressure is not monotone: it rises across the geopotential height of 20 km. -/
theorem C58_pressure_refuted : ∃ h h' P P', 0 ≤ h ∧ h < h' ∧ stdPressure h 288.15 1013.25 = some P ∧
    stdPressure h' 288.15 1013.25 = some P' ∧ P < P' := by
  obtain ⟨a1, a2⟩ := geopot_inv (q := 20) (by norm_num) (by norm_num)
  obtain ⟨b1, b2⟩ := geopot_inv (q := 20.00001) (by norm_num) (by norm_num)
  refine ⟨_, 6356.766 * 20.00001 / (6356.766 - 20.00001), 226.3226 * exp (-34.1632 * (20 - 11) / 216.65),
    54.74980 * (216.65 / (216.65 + (20.00001 - 20))) ^ (34.1632 : ℝ), a1, ?_, ?_, ?_, ?_⟩
  · norm_num
  · unfold stdPressure
    rw [a2, Option.bind_some, if_neg (by norm_num), if_pos (by norm_num)]
  · unfold stdPressure
    rw [b2, Option.bind_some, if_neg (by norm_num), if_neg (by norm_num), if_pos (by norm_num),
      npDiv_of_ne (by norm_num)]
    rfl
  · have h1 : 226.3226 * exp (-34.1632 * (20 - 11) / 216.65) < 54.7494 := by
      have e : exp (-34.1632 * (20 - 11) / 216.65) = (exp (307.4688 / 216.65))⁻¹ := by
        rw [← Real.exp_neg]; congr 1; norm_num
      have e2 : exp (307.4688 / 216.65) = exp 1 * exp (90.8188 / 216.65) := by rw [← Real.exp_add]; congr 1; norm_num
      have h2 := Real.exp_one_gt_d9
      have h3 := Real.sum_le_exp_of_nonneg (x := 90.8188 / 216.65) (by norm_num) 12
      have h4 : (4.133793 : ℝ) < exp (307.4688 / 216.65) := by
        rw [e2]
        calc (4.133793 : ℝ) < 2.7182818283 * ∑ i ∈ range 12, (90.8188 / 216.65 : ℝ) ^ i / (i.factorial) := by
              norm_num [Finset.sum_range_succ, Nat.factorial]
          _ ≤ exp 1 * exp (90.8188 / 216.65) := by gcongr
      rw [e, ← div_eq_mul_inv, div_lt_iff₀ (Real.exp_pos _)]
      nlinarith
    have h2 : (54.7494 : ℝ) < 54.74980 * (216.65 / (216.65 + (20.00001 - 20))) ^ (34.1632 : ℝ) := by
      have hb := one_add_mul_self_le_rpow_one_add (s := 216.65 / (216.65 + (20.00001 - 20)) - 1) (by norm_num)
        (p := 34.1632) (by norm_num)
      rw [add_sub_cancel] at hb
      refine lt_of_lt_of_le ?_ (mul_le_mul_of_nonneg_left hb (by norm_num))
      norm_num
    linarith

/-- The standard vapour density: the given surface value at height 0, smaller by a factor e per scale height, proportional to the
surface value; a scale height of 0 gives no number. -/
theorem C58_vapour (h h0 rho0 : ℝ) :
    (h0 = 0 → stdVapour h h0 rho0 = none) ∧
    (h0 ≠ 0 → stdVapour 0 h0 rho0 = some rho0 ∧
      ∃ v, stdVapour h h0 rho0 = some v ∧ stdVapour (h + h0) h0 rho0 = some (v / exp 1) ∧
        ∀ k, stdVapour h h0 (k * rho0) = some (k * v)) := by
  refine ⟨fun e => by rw [e, stdVapour, npDiv_zero]; rfl, fun hne => ⟨?_, rho0 * exp (-h / h0), ?_, ?_, fun k => ?_⟩⟩
  · rw [stdVapour, npDiv_of_ne hne]; simp
  · rw [stdVapour, npDiv_of_ne hne]; rfl
  · rw [stdVapour, npDiv_of_ne hne]
    simp only [Option.map_some]
    congr 1
    rw [mul_div_assoc, ← Real.exp_sub]
    congr 2
    field_simp
    ring
  · rw [stdVapour, npDiv_of_ne hne]; simp [mul_assoc]

example : stdVapour 2 2 7.5 = some (7.5 / exp 1) := by
  obtain ⟨v, h1, h2, _⟩ := ((C58_vapour 0 2 7.5).2 (by norm_num)).2
  have := ((C58_vapour 0 2 7.5).2 (by norm_num)).1
  rw [this] at h1
  rw [← Option.some.inj h1] at h2
  simpa using h2

end Verif.Props
