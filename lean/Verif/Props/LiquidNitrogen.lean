import Verif.Lemmas.Liquid
import Verif.Model.AbsNitrogen
import Mathlib.Tactic.NormNum
import Mathlib.Analysis.Complex.ExponentialBounds

/-!
# Cloud liquid water (C33) and nitrogen (C34)
-/

namespace Verif.Props

open Verif.Model Verif.Py Verif.Lemmas

/-- C33: no liquid, no absorption, whatever the model name, frequency and temperature. -/
theorem C33_zero (m : String) (w f t : ℝ) (hw : w ≤ 0) : liquidAbs m w f t = .ok (some 0) := by
  simp [liquidAbs, hw]

example : liquidAbs "no such model" (-1) 30 280 = .ok (some 0) := C33_zero _ _ _ _ (by norm_num)

/-- C33: absorption is proportional to the liquid water content (including whether it is an error or not finite). -/
theorem C33_linear (m : String) (w f t k : ℝ) (hw : 0 < w) (hk : 0 < k) :
    liquidAbs m (k * w) f t = (liquidAbs m w f t).map (Option.map (k * ·)) := by
  unfold liquidAbs
  rw [if_neg (not_le.2 (mul_pos hk hw)), if_neg (not_le.2 hw)]
  cases liquidEps m f t with
  | error e => rfl
  | ok e =>
    cases e with
    | none => rfl
    | some e =>
      simp only [Except.map, Option.bind_eq_bind, Option.bind_some]
      cases cDiv (e - 1.0) (e + 2.0) with
      | none => rfl
      | some r =>
        simp only [Option.bind_some, Option.pure_def, Option.map_some, Except.ok.injEq, Option.some.injEq]
        ring

example : liquidAbs "R98" (2 * 0.1) 30 280 = (liquidAbs "R98" 0.1 30 280).map (Option.map (2 * ·)) :=
  C33_linear _ _ _ _ _ (by norm_num) (by norm_num)

theorem liquid_pos_of_eps {m : String} {w f t : ℝ} (hw : 0 < w) (hf : 0 < f)
    (h : ∃ e : ℂ, liquidEps m f t = .ok (some e) ∧ e.im < 0) : ∃ a, liquidAbs m w f t = .ok (some a) ∧ 0 < a := by
  obtain ⟨e, he, hi⟩ := h
  have hne := add_two_ne hi
  refine ⟨-0.06286 * ((e - 1.0) / (e + 2.0)).im * f * w, ?_, ?_⟩
  · unfold liquidAbs
    rw [if_neg (not_le.2 hw), he]
    simp only [Except.map, Option.bind_eq_bind, Option.bind_some, cDiv_some hne]
    rfl
  · rw [clausius_im]
    have h1 : 3 * e.im / Complex.normSq (e + 2.0) < 0 :=
      div_neg_of_neg_of_pos (by linarith) (Complex.normSq_pos.2 hne)
    have h2 : 0 < -0.06286 * (3 * e.im / Complex.normSq (e + 2.0)) := mul_pos_of_neg_of_neg (by norm_num) h1
    positivity

/-- C33: for the two oldest models absorption by liquid water is finite and strictly positive at every positive
frequency and every temperature up to 396 K. -/
theorem C33_positive_debye (m : String) (hm : m = "R98" ∨ m = "R03") (w f t : ℝ) (hw : 0 < w) (hf : 0 < f)
    (ht0 : 0 < t) (ht : t ≤ 396) : ∃ a, liquidAbs m w f t = .ok (some a) ∧ 0 < a := by
  apply liquid_pos_of_eps hw hf
  rcases hm with rfl | rfl
  · obtain ⟨e, he, hi⟩ := debyeEps_im_neg false hf ht0 ht
    exact ⟨e, by simp [liquidEps, liqDebye, he], hi⟩
  · obtain ⟨e, he, hi⟩ := debyeEps_im_neg true hf ht0 ht
    exact ⟨e, by simp [liquidEps, liqDebye, he], hi⟩

example : ∃ a, liquidAbs "R03" 0.2 36.5 263 = .ok (some a) ∧ 0 < a :=
  C33_positive_debye _ (Or.inr rfl) _ _ _ (by norm_num) (by norm_num) (by norm_num) (by norm_num)

/-- C33: for all other accepted models absorption by liquid water is finite and strictly positive at every positive
frequency and every temperature from 210 K on (including the supercooled range). -/
theorem C33_positive_dilec (m : String)
    (hm : m ∈ ["R16", "R17", "R19", "R19SD", "R20", "R22SD", "R23", "R23SD", "R24"]) (w f t : ℝ) (hw : 0 < w)
    (hf : 0 < f) (ht : 210 ≤ t) : ∃ a, liquidAbs m w f t = .ok (some a) ∧ 0 < a := by
  apply liquid_pos_of_eps hw hf
  obtain ⟨e, he, hi⟩ := dilec12_im_neg hf ht
  refine ⟨e, ?_, hi⟩
  simp only [List.mem_cons, List.not_mem_nil, or_false] at hm
  rcases hm with rfl | rfl | rfl | rfl | rfl | rfl | rfl | rfl | rfl <;> simp [liquidEps, liqDebye, liqDilec, he]

example : ∃ a, liquidAbs "R24" 0.2 183.31 245 = .ok (some a) ∧ 0 < a :=
  C33_positive_dilec _ (by simp) _ _ _ (by norm_num) (by norm_num) (by norm_num)

/-! ## Nitrogen -/

/-- C34: scaling the pressure by `k` scales nitrogen absorption by `k²`. -/
theorem C34_pressure (m : String) (t p f k : ℝ) :
    n2Absorption m t (k * p) f = (n2Absorption m t p f).map (Option.map (k ^ 2 * ·)) := by
  unfold n2Absorption
  cases n2Coeff m f with
  | error e => rfl
  | ok c =>
    simp only [Except.map]
    split
    · simp only [Option.map_some, Except.ok.injEq, Option.some.injEq]
      split
      · unfold n2Mwl24
        ring
      · ring
    · rfl

example : n2Absorption "R98" 270 (2 * 500) 90 = (n2Absorption "R98" 270 500 90).map (Option.map (2 ^ 2 * ·)) :=
  C34_pressure _ _ _ _ _

theorem exp_sub_pos {d : ℝ} (h : d ≠ 0) : 0 < Real.exp d - (1 + d) := by
  linarith [Real.add_one_lt_exp h]

theorem n2Mwl24_pos {t p f : ℝ} (ht : 0 < t) (hp : p ≠ 0) (hf : f ≠ 0) : 0 < n2Mwl24 t p f := by
  unfold n2Mwl24
  have h1 : 0 < Real.exp (108 / (0.6950354549 * t)) - (1 + 108 / (0.6950354549 * t)) :=
    exp_sub_pos (by positivity)
  have h2 : 0 < Real.exp (108 / (0.6950354549 * 300)) - (1 + 108 / (0.6950354549 * 300)) :=
    exp_sub_pos (by norm_num)
  have h3 : 0 < p ^ 2 := by positivity
  have h4 : 0 < f ^ 2 := by positivity
  have h5 : 0 < (p * 0.7500616827) ^ 2 := by positivity
  positivity

/-- The model names for which nitrogen absorption is available. -/
def n2Names : List String :=
  ["R98", "R03", "R16", "R17", "R18", "R19", "R19SD", "R20", "R20SD", "R21SD", "R22", "R22SD", "R23", "R23SD", "R24",
    "MWL24"]

theorem n2Coeff_pos {m : String} (hm : m ∈ n2Names) (f : ℝ) :
    ∃ l e n d, n2Coeff m f = .ok (l, e, n, d) ∧ 0 < l ∧ 0 < e ∧ 0 < n ∧ 1 / 2 < d ∧ d ≤ 1 := by
  have hd : 1 / 2 < 0.5 + 0.5 / (1.0 + (f / 450.0) ^ 2) := by
    have : 0 < 0.5 / (1.0 + (f / 450.0) ^ 2) := by positivity
    norm_num at this ⊢
    linarith
  have hd' : 0.5 + 0.5 / (1.0 + (f / 450.0) ^ 2) ≤ 1 := by
    have : 0.5 / (1.0 + (f / 450.0) ^ 2) ≤ 0.5 := by
      apply div_le_self (by norm_num)
      nlinarith [sq_nonneg (f / 450.0)]
    norm_num at this ⊢
    linarith
  simp only [n2Names, List.mem_cons, List.not_mem_nil, or_false] at hm
  rcases hm with rfl | rfl | rfl | rfl | rfl | rfl | rfl | rfl | rfl | rfl | rfl | rfl | rfl | rfl | rfl | rfl <;>
    simp only [n2Coeff, List.mem_cons, List.not_mem_nil, or_false, String.reduceEq, or_self, if_true, if_false,
      or_true] <;>
    refine ⟨_, _, _, _, rfl, by norm_num, by norm_num, by norm_num, ?_, ?_⟩ <;> first | assumption | norm_num

/-- C34: nitrogen absorption is finite and strictly positive at every temperature, pressure and frequency, for every
accepted model. -/
theorem C34_positive (m : String)
    (hm : m ∈ ["R98", "R03", "R16", "R17", "R18", "R19", "R19SD", "R20", "R20SD", "R21SD", "R22", "R22SD", "R23",
      "R23SD", "R24", "MWL24"]) (t p f : ℝ) (ht : 0 < t) (hp : 0 < p) (hf : 0 < f) :
    ∃ a, n2Absorption m t p f = .ok (some a) ∧ 0 < a := by
  obtain ⟨l, e, n, d, hc, hl, -, hn, hd, -⟩ := n2Coeff_pos (m := m) hm f
  unfold n2Absorption
  rw [hc]
  simp only [Except.map, if_pos ht]
  refine ⟨_, rfl, mul_pos hn ?_⟩
  have hm := n2Mwl24_pos ht hp.ne' hf.ne'
  have hd0 : 0 < d := by linarith
  split
  · positivity
  · positivity

example : ∃ a, n2Absorption "MWL24" 250 300 150 = .ok (some a) ∧ 0 < a :=
  C34_positive _ (by simp) _ _ _ (by norm_num) (by norm_num) (by norm_num)

/-- C34: at fixed pressure and frequency colder air absorbs more (all models except the last). -/
theorem C34_colder (m : String)
    (hm : m ∈ ["R98", "R03", "R16", "R17", "R18", "R19", "R19SD", "R20", "R20SD", "R21SD", "R22", "R22SD", "R23",
      "R23SD", "R24"]) (t t' p f : ℝ) (ht : 0 < t) (htt : t < t') (hp : 0 < p) (hf : 0 < f) :
    ∃ a a', n2Absorption m t p f = .ok (some a) ∧ n2Absorption m t' p f = .ok (some a') ∧ a' < a := by
  have hne : m ≠ "MWL24" := by rintro rfl; simp at hm
  obtain ⟨l, e, n, d, hc, hl, he, hn, hd, -⟩ := n2Coeff_pos (m := m) (by
    simp only [n2Names, List.mem_cons, List.not_mem_nil, or_false] at hm ⊢; tauto) f
  unfold n2Absorption
  rw [hc]
  simp only [Except.map, if_pos ht, if_pos (ht.trans htt), if_neg hne]
  refine ⟨_, _, rfl, rfl, ?_⟩
  have h1 : (300.0 : ℝ) / t' < 300.0 / t := div_lt_div_of_pos_left (by norm_num) ht htt
  have h2 : ((300.0 : ℝ) / t') ^ e < (300.0 / t) ^ e :=
    Real.rpow_lt_rpow (div_nonneg (by norm_num) (ht.trans htt).le) h1 he
  have hd0 : 0 < d := by linarith
  have hk : 0 < l * d * p * p * f * f := by positivity
  exact mul_lt_mul_of_pos_left (mul_lt_mul_of_pos_left h2 hk) hn

example : ∃ a a', n2Absorption "R20" 220 300 150 = .ok (some a) ∧ n2Absorption "R20" 290 300 150 = .ok (some a') ∧
    a' < a := C34_colder _ (by simp) _ _ _ _ (by norm_num) (by norm_num) (by norm_num) (by norm_num)

/-- C34: absorption grows between half as fast as and exactly as fast as the square of the frequency: from `f` to
`k·f` it grows by a factor between `k²/2` and `k²` (all models except the last). -/
theorem C34_frequency (m : String)
    (hm : m ∈ ["R98", "R03", "R16", "R17", "R18", "R19", "R19SD", "R20", "R20SD", "R21SD", "R22", "R22SD", "R23",
      "R23SD", "R24"]) (t p f k : ℝ) (ht : 0 < t) (hp : 0 < p) (hf : 0 < f) (hk : 1 ≤ k) :
    ∃ a b, n2Absorption m t p f = .ok (some a) ∧ n2Absorption m t p (k * f) = .ok (some b) ∧
      k ^ 2 / 2 * a ≤ b ∧ b ≤ k ^ 2 * a := by
  have hne : m ≠ "MWL24" := by rintro rfl; simp at hm
  have key : ∃ l e n d d', n2Coeff m f = .ok (l, e, n, d) ∧ n2Coeff m (k * f) = .ok (l, e, n, d') ∧ 0 < l ∧ 0 < n ∧
      d' ≤ d ∧ d / 2 ≤ d' := by
    have hmono : 0.5 + 0.5 / (1.0 + (k * f / 450.0) ^ 2) ≤ 0.5 + 0.5 / (1.0 + (f / 450.0) ^ 2) := by
      have : (f / 450.0) ^ 2 ≤ (k * f / 450.0) ^ 2 := by
        apply pow_le_pow_left₀ (by positivity)
        apply div_le_div_of_nonneg_right _ (by norm_num)
        nlinarith
      have h3 : 0.5 / (1.0 + (k * f / 450.0) ^ 2) ≤ 0.5 / (1.0 + (f / 450.0) ^ 2) := by
        apply div_le_div_of_nonneg_left (by norm_num) (by positivity)
        linarith
      linarith
    have hhalf : (0.5 + 0.5 / (1.0 + (f / 450.0) ^ 2)) / 2 ≤ 0.5 + 0.5 / (1.0 + (k * f / 450.0) ^ 2) := by
      have h1 : 0.5 / (1.0 + (f / 450.0) ^ 2) ≤ 0.5 := by
        apply div_le_self (by norm_num)
        nlinarith [sq_nonneg (f / 450.0)]
      have h2 : 0 ≤ 0.5 / (1.0 + (k * f / 450.0) ^ 2) := by positivity
      linarith
    simp only [List.mem_cons, List.not_mem_nil, or_false] at hm
    rcases hm with rfl | rfl | rfl | rfl | rfl | rfl | rfl | rfl | rfl | rfl | rfl | rfl | rfl | rfl | rfl <;>
      simp only [n2Coeff, List.mem_cons, List.not_mem_nil, or_false, String.reduceEq, or_self, if_true, if_false,
        or_true] <;>
      refine ⟨_, _, _, _, _, rfl, rfl, by norm_num, by norm_num, ?_, ?_⟩ <;> first | assumption | norm_num
  obtain ⟨l, e, n, d, d', h1, h2, hl, hn, hd, hd'⟩ := key
  unfold n2Absorption
  rw [h1, h2]
  simp only [Except.map, if_pos ht, if_neg hne]
  refine ⟨_, _, rfl, rfl, ?_, ?_⟩
  · have hQ : 0 ≤ n * (l * p * p * f * f * (300.0 / t) ^ e) * k ^ 2 := by positivity
    nlinarith [mul_le_mul_of_nonneg_left hd' hQ]
  · have hQ : 0 ≤ n * (l * p * p * f * f * (300.0 / t) ^ e) * k ^ 2 := by positivity
    nlinarith [mul_le_mul_of_nonneg_left hd hQ]

example : ∃ a b, n2Absorption "R19" 250 300 50 = .ok (some a) ∧ n2Absorption "R19" 250 300 (3 * 50) = .ok (some b) ∧
    3 ^ 2 / 2 * a ≤ b ∧ b ≤ 3 ^ 2 * a :=
  C34_frequency _ (by simp) _ _ _ _ (by norm_num) (by norm_num) (by norm_num) (by norm_num)

end Verif.Props
