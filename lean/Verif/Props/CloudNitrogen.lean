import Verif.Props.LiquidNitrogen
import Verif.Spec.CloudNitrogen

/-!
# C80, C81: closed formulas for nitrogen and liquid water
-/

namespace Verif.Props

open Verif.Py Verif.Model Verif.Spec Verif.Lemmas Real

/-! ## C80 -/

theorem rollOff_eq (f : ℝ) : 0.5 + 0.5 / (1.0 + (f / 450.0) ^ 2) = rollOff f := by
  unfold rollOff
  have h : (450 : ℝ) ^ 2 + f ^ 2 ≠ 0 := by positivity
  have h' : (1.0 : ℝ) + (f / 450.0) ^ 2 ≠ 0 := by positivity
  have e : (1.0 : ℝ) + (f / 450.0) ^ 2 = (450 ^ 2 + f ^ 2) / 450 ^ 2 := by norm_num; ring
  rw [e]
  field_simp
  norm_num

/-- **C80.** Nitrogen absorption of every accepted model in closed form. -/
theorem C80_nitrogen {t : ℝ} (ht : 0 < t) (p f : ℝ) :
    n2Absorption "R98" t p f = .ok (some (collision 6.4e-14 3.55 t p f)) ∧
    n2Absorption "R03" t p f = .ok (some (1.29 * rollOff f * collision 6.5e-14 3.6 t p f)) ∧
    (∀ m ∈ ["R16", "R17", "R18", "R19", "R19SD"],
      n2Absorption m t p f = .ok (some (1.34 * rollOff f * collision 6.5e-14 3.6 t p f))) ∧
    (∀ m ∈ ["R20", "R20SD", "R21SD", "R22", "R22SD", "R23", "R23SD", "R24"],
      n2Absorption m t p f = .ok (some (rollOff f * collision 9.95e-14 3.22 t p f))) ∧
    n2Absorption "MWL24" t p f = .ok (some (0.84e5 * nitrogenPairs t p f)) := by
  have h300 : (300.0 : ℝ) = 300 := by norm_num
  refine ⟨?_, ?_, ?_, ?_, ?_⟩
  · simp only [n2Absorption, n2Coeff, List.mem_cons, List.not_mem_nil, or_false, String.reduceEq, or_self, if_true,
      if_false, Except.map, if_pos ht, collision, h300, Except.ok.injEq, Option.some.injEq]
    generalize (300 / t) ^ (3.55 : ℝ) = y
    ring
  · simp only [n2Absorption, n2Coeff, List.mem_cons, List.not_mem_nil, String.reduceEq, or_self, if_true,
      if_false, Except.map, if_pos ht, collision, h300, Except.ok.injEq, Option.some.injEq, rollOff_eq]
    generalize (300 / t) ^ (3.6 : ℝ) = y
    ring
  · intro m hm
    have h1 : m ≠ "MWL24" := by rintro rfl; revert hm; decide
    simp only [n2Absorption, n2Coeff, if_pos hm, if_neg h1, Except.map, if_pos ht, collision, h300, Except.ok.injEq,
      Option.some.injEq, rollOff_eq]
    generalize (300 / t) ^ (3.6 : ℝ) = y
    ring
  · intro m hm
    have h1 : m ≠ "MWL24" := by rintro rfl; revert hm; decide
    have h2 : m ∉ ["R16", "R17", "R18", "R19", "R19SD"] := by
      simp only [List.mem_cons, List.not_mem_nil, or_false] at hm
      rcases hm with rfl | rfl | rfl | rfl | rfl | rfl | rfl | rfl <;> decide
    simp only [n2Absorption, n2Coeff, if_pos hm, if_neg h1, if_neg h2, Except.map, if_pos ht, collision, h300,
      Except.ok.injEq, Option.some.injEq, rollOff_eq]
    generalize (300 / t) ^ (3.22 : ℝ) = y
    ring
  · simp only [n2Absorption, n2Coeff, List.mem_cons, List.not_mem_nil, String.reduceEq, or_self, if_true,
      if_false, Except.map, if_pos ht, Except.ok.injEq, Option.some.injEq]
    have hth : 0 < 300 / t := by positivity
    have hexp : mwlExponents f = (1.4359 + f * (-0.0005385 + f * (1.6182e-7 + f * 1.8845e-10)),
        0.07988 + f * (-0.0005165 + f * (1.131e-6 + f * (-5.738e-10)))) := by
      simp only [mwlExponents, forRange, Nat.sub_zero, List.range', List.foldl_cons, List.foldl_nil, mwlCoeff, Prod.mk.injEq]
      constructor <;> ring
    have hb : ∀ c b : ℝ, b ≠ 0 → (1 : ℝ) / (1 + ((f - c) / b) ^ 2) = bump c b f := by
      intro c b hb
      unfold bump
      have : b ^ 2 + (f - c) ^ 2 ≠ 0 := by positivity
      rw [div_pow, one_div, ← inv_div]
      congr 1
      field_simp
    have hb1 := hb 44 568 (by norm_num)
    have hb2 := hb 358 127 (by norm_num)
    have e1 : (0.1510 : ℝ) / (1 + ((f - 358) / 127) ^ 2) = 0.1510 * bump 358 127 f := by rw [← hb2]; ring
    have e2 : ∀ x : ℝ, x / (1 + ((f - 44) / 568) ^ 2) = x * bump 44 568 f := by intro x; rw [← hb1]; ring
    have e3 : f / 92 - 1 = (f - 92) / 92 := by ring
    have e4 : ∀ d : ℝ, rexp d - (1 + d) = rexp d - 1 - d := by intro d; ring
    simp only [n2Mwl24, nitrogenPairs, hexp, rpow_def_of_pos hth, e1, e2, e3, e4]
    generalize rexp (log (300 / t) * _) = A
    generalize rexp (-((f - 92) / 92) ^ 2) = B
    generalize (rexp (108 / (0.6950354549 * t)) - 1 - 108 / (0.6950354549 * t)) /
      (rexp (108 / (0.6950354549 * 300)) - 1 - 108 / (0.6950354549 * 300)) = D
    generalize bump 44 568 f = E
    generalize bump 358 127 f = F
    ring

example : ∃ a, n2Absorption "R24" 250 500 118.75 = .ok (some a) ∧
    a = rollOff 118.75 * collision 9.95e-14 3.22 250 500 118.75 :=
  ⟨_, (C80_nitrogen (by norm_num) 500 118.75).2.2.2.1 "R24" (by simp), rfl⟩

/-- **C80.** At 300 K, where the temperature terms drop out, the models are ordered at every pressure and frequency:
R03 below R16 to R19SD, those below R20 to R24. -/
theorem C80_order {p f : ℝ} (hp : 0 < p) (hf : 0 < f) : ∃ a b c, n2Absorption "R03" 300 p f = .ok (some a) ∧
    n2Absorption "R19" 300 p f = .ok (some b) ∧ n2Absorption "R24" 300 p f = .ok (some c) ∧ a < b ∧ b < c := by
  obtain ⟨-, h1, h2, h3, -⟩ := C80_nitrogen (t := 300) (by norm_num) p f
  refine ⟨_, _, _, h1, h2 "R19" (by simp), h3 "R24" (by simp), ?_, ?_⟩
  · have : 0 < rollOff f := by unfold rollOff; positivity
    have : 0 < (p * f) ^ 2 := by positivity
    simp only [collision, div_self (show (300 : ℝ) ≠ 0 by norm_num), one_rpow]
    nlinarith [mul_pos ‹0 < rollOff f› this]
  · have : 0 < rollOff f := by unfold rollOff; positivity
    have : 0 < (p * f) ^ 2 := by positivity
    simp only [collision, div_self (show (300 : ℝ) ≠ 0 by norm_num), one_rpow]
    nlinarith [mul_pos ‹0 < rollOff f› this]

/-! ## C81 -/

theorem cDiv_eq_some {a b c : ℂ} : cDiv a b = some c ↔ b ≠ 0 ∧ a / b = c := by
  unfold cDiv; split <;> simp_all

theorem cLog_eq_some {a c : ℂ} : cLog a = some c ↔ a ≠ 0 ∧ Complex.log a = c := by
  unfold cLog; split <;> simp_all

theorem npDiv_eq_some {a b c : ℝ} : npDiv a b = some c ↔ b ≠ 0 ∧ a / b = c := by
  unfold npDiv; split <;> simp_all

/-- The model names with the double-Debye formula. -/
theorem liquid_formula {m : String} {w f t : ℝ} (hw : 0 < w) {e : ℂ} (he : liquidEps m f t = .ok (some e)) {a : ℝ}
    (h : liquidAbs m w f t = .ok (some a)) : a = dropletAbsorption e.re (-e.im) w f := by
  unfold liquidAbs at h
  rw [if_neg (not_le.mpr hw), he] at h
  simp only [Except.map, Except.ok.injEq, Option.bind_eq_bind, Option.bind_some] at h
  unfold cDiv at h
  split at h
  · simp at h
  · simp only [Option.bind_some, Option.pure_def, Option.some.injEq] at h
    rw [clausius_im] at h
    rw [← h, dropletAbsorption, Complex.normSq_apply]
    have h2 : (e + 2.0).re = e.re + 2 := by simp; norm_num
    have h3 : (e + 2.0).im = e.im := by simp
    rw [h2, h3]
    rw [show (e.re + 2) ^ 2 + (-e.im) ^ 2 = (e.re + 2) * (e.re + 2) + e.im * e.im by ring]
    ring

theorem debye_parts {s r f : ℝ} (hr : 0 < r) : (((s : ℝ) : ℂ) / (⟨1.0, f / r⟩ : ℂ)).re = debyeRe s r f ∧
    (((s : ℝ) : ℂ) / (⟨1.0, f / r⟩ : ℂ)).im = -debyeLoss s r f := by
  have h : r ^ 2 + f ^ 2 ≠ 0 := by positivity
  have h1 : (1.0 : ℝ) = 1 := by norm_num
  have h2 : (1 : ℝ) + f / r * (f / r) ≠ 0 := by nlinarith [mul_self_nonneg (f / r)]
  constructor
  · rw [Complex.div_re, Complex.normSq_apply]
    simp only [Complex.ofReal_re, Complex.ofReal_im, h1, debyeRe, mul_one, zero_mul, zero_div, add_zero]
    field_simp
  · rw [Complex.div_im, Complex.normSq_apply]
    simp only [Complex.ofReal_re, Complex.ofReal_im, h1, debyeLoss, mul_one, zero_div, zero_sub]
    field_simp

/-- **C81.** R98 and R03: absorption by droplets of water with two Debye relaxations. -/
theorem C81_debye {m : String} (hm : m = "R98" ∨ m = "R03") {w f t a : ℝ} (hw : 0 < w)
    (h : liquidAbs m w f t = .ok (some a)) :
    let ε₀ := liebeStatic t
    let r := liebeRelax (decide (m = "R03")) t
    a = dropletAbsorption (3.52 + debyeRe ((1 - 0.0671) * ε₀) r f + debyeRe (0.0671 * ε₀ - 3.52) (39.8 * r) f)
      (debyeLoss ((1 - 0.0671) * ε₀) r f + debyeLoss (0.0671 * ε₀ - 3.52) (39.8 * r) f) w f := by
  intro ε₀ r
  have hmem : m ∈ liqDebye := by rcases hm with rfl | rfl <;> decide
  have h' := h
  unfold liquidAbs liquidEps at h'
  rw [if_neg (not_le.mpr hw), if_pos hmem] at h'
  simp only [Except.map, Except.ok.injEq] at h'
  cases he : debyeEps (decide (m = "R03")) f t with
  | none => rw [he] at h'; simp at h'
  | some e =>
    rw [liquid_formula hw (by unfold liquidEps; rw [if_pos hmem, he]) h]
    unfold debyeEps at he
    by_cases ht : t = 0
    · simp [ht, npDiv] at he
    · rw [npDiv_of_ne ht] at he
      have hq : (1.0 : ℝ) - 300.0 / t = 1 - 300 / t := by norm_num
      have hr : debyeFp (decide (m = "R03")) (1 - 300 / t) = r := by
        simp only [debyeFp, r, liebeRelax]
        split
        · rfl
        · norm_num
          ring
      have hr0 : 0 < r := by rw [← hr]; exact debyeFp_pos _ _
      simp only [Option.bind_eq_bind, Option.bind_some, hq, hr, npDiv_of_ne hr0.ne',
        npDiv_of_ne (show (39.8 : ℝ) * r ≠ 0 by positivity), cDiv_some (one_u_ne _), Option.pure_def,
        Option.some.injEq] at he
      obtain ⟨p1, p2⟩ := debye_parts (s := 77.66 - 103.3 * (1 - 300 / t) - 0.0671 * (77.66 - 103.3 * (1 - 300 / t))) (f := f) hr0
      obtain ⟨q1, q2⟩ := debye_parts (s := 0.0671 * (77.66 - 103.3 * (1 - 300 / t)) - 3.52) (f := f)
        (show (0 : ℝ) < 39.8 * r by positivity)
      have s1 : 77.66 - 103.3 * (1 - 300 / t) - 0.0671 * (77.66 - 103.3 * (1 - 300 / t)) = (1 - 0.0671) * ε₀ := by
        simp only [ε₀, liebeStatic]; ring
      have s2 : 0.0671 * (77.66 - 103.3 * (1 - 300 / t)) - 3.52 = 0.0671 * ε₀ - 3.52 := by
        simp only [ε₀, liebeStatic]; ring
      rw [← he, Complex.add_re, Complex.add_re, Complex.add_im, Complex.add_im, p1, p2, q1, q2, s1, s2]
      congr 1
      · simp only [Complex.ofReal_re]; ring
      · simp only [Complex.ofReal_im]; ring

example : ∃ a, liquidAbs "R98" 0.3 31.4 280 = .ok (some a) := by
  obtain ⟨e, he, hi⟩ := debyeEps_im_neg false (f := 31.4) (t := 280) (by norm_num) (by norm_num) (by norm_num)
  refine ⟨-0.06286 * ((e - 1.0) / (e + 2.0)).im * 31.4 * 0.3, ?_⟩
  unfold liquidAbs liquidEps
  rw [if_neg (by norm_num), if_pos (by decide), show decide ("R98" = "R03") = false by decide, he]
  simp only [Except.map, Option.bind_eq_bind, Option.bind_some, cDiv_some (add_two_ne hi), Option.pure_def]

theorem ratio_arg {g : ℝ} (hg : g ≠ 0) :
    ((-4500 + 2000 * Complex.I : ℂ) / ((-3 / 4 + Complex.I) * (g : ℂ))).arg ≠ π := by
  intro h
  have hg' : (g : ℂ) ≠ 0 := by exact_mod_cast hg
  have hn : (-3 / 4 + Complex.I : ℂ) ≠ 0 := by
    intro h; have := congrArg Complex.im h; simp at this
  have e : (-4500 + 2000 * Complex.I : ℂ) / ((-3 / 4 + Complex.I) * (g : ℂ)) =
      (⟨3440 / g, 1920 / g⟩ : ℂ) := by
    rw [div_eq_iff (mul_ne_zero hn hg')]
    apply Complex.ext
    · simp
      field_simp
      norm_num
    · simp
      field_simp
      norm_num
  rw [e] at h
  have := (Complex.arg_eq_pi_iff.1 h).2
  simp only [div_eq_zero_iff] at this
  rcases this with h | h
  · norm_num at h
  · exact hg h

/-- Wherever there is a dielectric constant the two norms of the band are not 0. -/
theorem dilec12_norm {f t : ℝ} {e : ℂ} (h : dilec12 f t = some e) :
    let g : ℝ := 10.46012 + 0.1454962 * (t - 273.15) + 0.063267156 * (t - 273.15) ^ 2 +
      0.00093786645 * (t - 273.15) ^ 3
    Complex.log ((-4500 + 2000 * Complex.I) / ((-3 / 4 + Complex.I) * g)) ≠ 0 ∧
      Complex.log ((-4500 - 2000 * Complex.I) / ((-3 / 4 - Complex.I) * g)) ≠ 0 := by
  intro g
  unfold dilec12 at h
  split at h
  swap
  · cases h
  have hz2 : (⟨-4500.0, 2000.0⟩ : ℂ) = -4500 + 2000 * Complex.I := by apply Complex.ext <;> norm_num
  have hz1 : (⟨-0.75, 1.0⟩ : ℂ) = -3 / 4 + Complex.I := by apply Complex.ext <;> norm_num
  have h4500 : (starRingEnd ℂ) 4500 = 4500 := Complex.conj_ofNat _
  have h2000 : (starRingEnd ℂ) 2000 = 2000 := Complex.conj_ofNat _
  have h3 : (starRingEnd ℂ) 3 = 3 := Complex.conj_ofNat _
  have h4 : (starRingEnd ℂ) 4 = 4 := Complex.conj_ofNat _
  have hy2 : (starRingEnd ℂ) (-4500 + 2000 * Complex.I) = -4500 - 2000 * Complex.I := by
    simp [sub_eq_add_neg, h4500, h2000]
  have hy1 : ∀ g : ℝ, (starRingEnd ℂ) ((-3 / 4 + Complex.I) * (g : ℂ)) = (-3 / 4 - Complex.I) * (g : ℂ) := by
    intro g; simp [sub_eq_add_neg, h3, h4]
  simp only [hz1, hz2, Option.bind_eq_bind, Option.bind_eq_some_iff, cDiv_eq_some, cLog_eq_some,
    npDiv_eq_some, Option.pure_def, Option.some.injEq] at h
  obtain ⟨_, ⟨-, rfl⟩, _, ⟨-, rfl⟩, _, ⟨hz, rfl⟩, _, ⟨-, rfl⟩, _, ⟨-, rfl⟩, _, ⟨-, rfl⟩, _, ⟨hc, rfl⟩, _, ⟨-, rfl⟩,
    _, ⟨-, rfl⟩, _, ⟨hc', rfl⟩, rfl⟩ := h
  have hg : g ≠ 0 := by
    rintro h0
    apply hz
    rw [show (10.46012 + 0.1454962 * (t - 273.15) + 0.063267156 * (t - 273.15) ^ 2 +
      0.00093786645 * (t - 273.15) ^ 3 : ℝ) = g from rfl, h0]
    simp
  refine ⟨hc, ?_⟩
  rw [← Complex.log_conj _ (ratio_arg hg), map_div₀, hy1, hy2] at hc'
  exact hc'

/-- **C81.** The dielectric constant returned by `dilec12`, wherever it is a number: the static constant, less one Debye
relaxation, plus the band `B`. -/
theorem C81_dielectric {f t : ℝ} {e : ℂ} (h : dilec12 f t = some e) :
    let c := t - 273.15
    e = patekStatic t - ellisonStrength c * (f * Complex.I) / (ellisonFreq c + f * Complex.I) + bandB c f := by
  intro c
  unfold dilec12 at h
  split at h
  swap
  · cases h
  rename_i ht
  have hz0 : (⟨0.0, f⟩ : ℂ) = f * Complex.I := by apply Complex.ext <;> simp; norm_num
  have hz2 : (⟨-4500.0, 2000.0⟩ : ℂ) = -4500 + 2000 * Complex.I := by apply Complex.ext <;> norm_num
  have hz1 : (⟨-0.75, 1.0⟩ : ℂ) = -3 / 4 + Complex.I := by apply Complex.ext <;> norm_num
  have h4500 : (starRingEnd ℂ) 4500 = 4500 := Complex.conj_ofNat _
  have h2000 : (starRingEnd ℂ) 2000 = 2000 := Complex.conj_ofNat _
  have h3 : (starRingEnd ℂ) 3 = 3 := Complex.conj_ofNat _
  have h4 : (starRingEnd ℂ) 4 = 4 := Complex.conj_ofNat _
  have hy2 : (starRingEnd ℂ) (-4500 + 2000 * Complex.I) = -4500 - 2000 * Complex.I := by
    simp [sub_eq_add_neg, h4500, h2000]
  have hy1 : ∀ g : ℝ, (starRingEnd ℂ) ((-3 / 4 + Complex.I) * (g : ℂ)) = (-3 / 4 - Complex.I) * (g : ℂ) := by
    intro g; simp [sub_eq_add_neg, h3, h4]
  simp only [hz0, hz1, hz2, hy1, hy2, Option.bind_eq_bind, Option.bind_eq_some_iff, cDiv_eq_some, cLog_eq_some,
    npDiv_eq_some, Option.pure_def, Option.some.injEq] at h
  obtain ⟨_, ⟨-, rfl⟩, _, ⟨-, rfl⟩, _, ⟨hz, rfl⟩, _, ⟨-, rfl⟩, _, ⟨-, rfl⟩, _, ⟨-, rfl⟩, _, ⟨-, rfl⟩, _, ⟨-, rfl⟩,
    _, ⟨-, rfl⟩, _, ⟨-, rfl⟩, rfl⟩ := h
  have hg : 10.46012 + 0.1454962 * (t - 273.15) + 0.063267156 * (t - 273.15) ^ 2 +
      0.00093786645 * (t - 273.15) ^ 3 ≠ 0 := by
    rintro h0; rw [h0] at hz; simp at hz
  simp only [bandB, patekStatic, ellisonStrength, ellisonFreq]
  rw [← Complex.log_conj _ (ratio_arg hg), map_div₀, hy1, hy2]
  have flip : ∀ a b x : ℂ, (x - a) / (x - b) = (a - x) / (b - x) := by
    intro a b x; rw [← neg_sub a x, ← neg_sub b x, neg_div_neg_eq]
  have h300 : (300.0 : ℝ) = 300 := by norm_num
  rw [flip, flip, h300, neg_div, neg_div, neg_div, show t - 273.15 = c from rfl]
  generalize 10.46012 + 0.1454962 * c + 0.063267156 * c ^ 2 + 0.00093786645 * c ^ 3 = g
  generalize Complex.log ((-4500 + 2000 * Complex.I - f * Complex.I) /
    ((-3 / 4 + Complex.I) * g - f * Complex.I)) = A
  generalize Complex.log ((-4500 - 2000 * Complex.I - f * Complex.I) /
    ((-3 / 4 - Complex.I) * g - f * Complex.I)) = B
  generalize Complex.log ((-4500 + 2000 * Complex.I) / ((-3 / 4 + Complex.I) * g)) = C
  generalize Complex.log ((-4500 - 2000 * Complex.I) / ((-3 / 4 - Complex.I) * g)) = D
  generalize (300 / t) ^ (0.05 : ℝ) = q1
  generalize (300 / t) ^ (1.47 : ℝ) = q2
  generalize (300 / t) ^ (2.11 : ℝ) = q3
  generalize (300 / t) ^ (2.31 : ℝ) = q4
  generalize 1164.023 * rexp (-(651.4728 / (c + 133.07))) = sd
  generalize 80.69715 * rexp (-(c / 226.45)) = d1
  generalize 4.008724 * rexp (-(c / 103.05)) = d
  generalize (d1 : ℂ) * (f * Complex.I) / (sd + f * Complex.I) = K
  have hk : -43.7527 * q1 + 299.504 * q2 - 399.364 * q3 + 221.327 * q4 =
      221.327 * q4 - 399.364 * q3 + 299.504 * q2 - 43.7527 * q1 := by ring
  rw [hk, show d / 2.0 = d / 2 by norm_num]
  generalize 221.327 * q4 - 399.364 * q3 + 299.504 * q2 - 43.7527 * q1 = k
  push_cast
  ring

/-- **C81.** At zero frequency the dielectric constant is the static one, at every temperature for which there is one. -/
theorem C81_static {t : ℝ} {e : ℂ} (h : dilec12 0 t = some e) : e = patekStatic t := by
  have hb : bandB (t - 273.15) 0 = 0 := by
    have hd := dilec12_norm h
    simp only [bandB, Complex.ofReal_zero, zero_mul, sub_zero]
    rw [div_self hd.1, div_self hd.2]
    ring
  rw [C81_dielectric h, hb]
  simp

/-- From 210 K on there is a dielectric constant at every frequency. -/
theorem dilec12_exists (f : ℝ) {t : ℝ} (ht : 210 ≤ t) : ∃ e, dilec12 f t = some e := by
  have hF := relax_pos (tc := t - 273.15) (by norm_num; linarith)
  have hq : t - 273.15 + 133.07 ≠ 0 := by
    intro h
    norm_num at h
    linarith
  unfold dilec12
  rw [if_pos (by linarith)]
  simp only []
  generalize 10.46012 + (0.1454962 * (t - 273.15)) + (0.063267156 * (t - 273.15) ^ 2)
    + (0.00093786645 * (t - 273.15) ^ 3) = F at hF ⊢
  have hsd : 0 < 1164.023 * Real.exp (-651.4728 / (t - 273.15 + 133.07)) := mul_pos (by norm_num) (Real.exp_pos _)
  rw [npDiv_of_ne hq]
  simp only [Option.bind_eq_bind, Option.bind_some]
  set z1 : ℂ := ⟨-0.75, 1.0⟩ * (F : ℂ) with hz1
  set z2 : ℂ := ⟨-4500.0, 2000.0⟩ with hz2
  have z1re : z1.re = -0.75 * F := by simp [hz1]
  have z1im : z1.im = F := by norm_num [hz1]
  have z2re : z2.re = -4500 := by norm_num [hz2]
  have z2im : z2.im = 2000 := by norm_num [hz2]
  have ne : ∀ {a : ℂ}, 0 < a.re → a ≠ 0 := by rintro a h rfl; simp at h
  have n1 : z1 ≠ 0 := by intro h; rw [h] at z1im; simp at z1im; linarith
  have n2 : z2 ≠ 0 := by intro h; rw [h] at z2im; simp at z2im
  have n12 : z2 / z1 ≠ 0 := div_ne_zero n2 n1
  have hc : Complex.log (z2 / z1) ≠ 0 := by
    intro h
    have h1 : z2 = z1 := by
      have := Complex.exp_log n12
      rw [h, Complex.exp_zero] at this
      exact ((div_eq_one_iff_eq n1).1 this.symm)
    rw [h1] at z2re z2im
    rw [z1re] at z2re
    rw [z1im] at z2im
    linarith
  have hc' : (starRingEnd ℂ) (Complex.log (z2 / z1)) ≠ 0 := by simpa using hc
  have r1 : 0 < ((⟨0.0, f⟩ : ℂ) - z1).re := by rw [Complex.sub_re, z1re]; norm_num; linarith
  have r2 : 0 < ((⟨0.0, f⟩ : ℂ) - z2).re := by rw [Complex.sub_re, z2re]; norm_num
  have r1' : 0 < ((⟨0.0, f⟩ : ℂ) - (starRingEnd ℂ) z1).re := by
    rw [Complex.sub_re, Complex.conj_re, z1re]; norm_num; linarith
  have r2' : 0 < ((⟨0.0, f⟩ : ℂ) - (starRingEnd ℂ) z2).re := by
    rw [Complex.sub_re, Complex.conj_re, z2re]; norm_num
  have nsd : ((1164.023 * Real.exp (-651.4728 / (t - 273.15 + 133.07)) : ℝ) : ℂ) + ⟨0.0, f⟩ ≠ 0 :=
    ne (by rw [Complex.add_re, Complex.ofReal_re]; norm_num at hsd ⊢; exact hsd)
  rw [cDiv_some nsd, Option.bind_some, cDiv_some n1, Option.bind_some, cLog_some n12, Option.bind_some,
    cDiv_some (ne r1), Option.bind_some, cLog_some (div_ne_zero (ne r2) (ne r1)), Option.bind_some, cDiv_some hc,
    Option.bind_some, cDiv_some (ne r1'), Option.bind_some, cLog_some (div_ne_zero (ne r2') (ne r1')), Option.bind_some,
    cDiv_some hc', Option.bind_some]
  exact ⟨_, rfl⟩

example : ∃ e, dilec12 0 283.15 = some e ∧ e = patekStatic 283.15 := by
  obtain ⟨e, he⟩ := dilec12_exists 0 (t := 283.15) (by norm_num)
  exact ⟨e, he, C81_static he⟩

/-- **C81.** The nine other names: absorption by droplets of water with that dielectric constant. -/
theorem C81_dilec {m : String} (hm : m ∈ ["R16", "R17", "R19", "R19SD", "R20", "R22SD", "R23", "R23SD", "R24"])
    {w f t a : ℝ} (hw : 0 < w) (h : liquidAbs m w f t = .ok (some a)) :
    let c := t - 273.15
    a = dropletAbsorption (patekStatic t - debyeAbove (ellisonStrength c) (ellisonFreq c) f + (bandB c f).re)
      (debyeLoss (ellisonStrength c) (ellisonFreq c) f - (bandB c f).im) w f := by
  intro c
  have h1 : m ∉ liqDebye := by
    simp only [List.mem_cons, List.not_mem_nil, or_false] at hm
    rcases hm with rfl | rfl | rfl | rfl | rfl | rfl | rfl | rfl | rfl <;> decide
  have h2 : m ∈ liqDilec := by
    simp only [List.mem_cons, List.not_mem_nil, or_false] at hm
    rcases hm with rfl | rfl | rfl | rfl | rfl | rfl | rfl | rfl | rfl <;> decide
  have h' := h
  unfold liquidAbs liquidEps at h'
  rw [if_neg (not_le.mpr hw), if_neg h1, if_pos h2] at h'
  simp only [Except.map, Except.ok.injEq] at h'
  cases he : dilec12 f t with
  | none => rw [he] at h'; simp at h'
  | some e =>
    rw [liquid_formula hw (by unfold liquidEps; rw [if_neg h1, if_pos h2, he]) h, C81_dielectric he]
    have hs : 0 < ellisonFreq c := by unfold ellisonFreq; positivity
    have hn : ellisonFreq c ^ 2 + f ^ 2 ≠ 0 := by positivity
    have hd : ((ellisonStrength c : ℂ) * (f * Complex.I) / (ellisonFreq c + f * Complex.I)) =
        ⟨debyeAbove (ellisonStrength c) (ellisonFreq c) f, debyeLoss (ellisonStrength c) (ellisonFreq c) f⟩ := by
      have hne : (ellisonFreq c + f * Complex.I : ℂ) ≠ 0 := by
        intro h; have := congrArg Complex.re h; simp at this; linarith
      rw [div_eq_iff hne]
      apply Complex.ext
      · simp [debyeAbove, debyeLoss]
        field_simp
        ring
      · simp [debyeAbove, debyeLoss]
        field_simp
        ring
    rw [hd]
    congr 1
    simp
    ring

example : ∃ a, liquidAbs "R24" 0.3 31.4 280 = .ok (some a) := by
  obtain ⟨e, he, hi⟩ := dilec12_im_neg (f := 31.4) (t := 280) (by norm_num) (by norm_num)
  refine ⟨-0.06286 * ((e - 1.0) / (e + 2.0)).im * 31.4 * 0.3, ?_⟩
  unfold liquidAbs liquidEps
  rw [if_neg (by norm_num), if_neg (by decide), if_pos (by decide), he]
  simp only [Except.map, Option.bind_eq_bind, Option.bind_some, cDiv_some (add_two_ne hi), Option.pure_def]

end Verif.Props
