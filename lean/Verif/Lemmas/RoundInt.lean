import Verif.Model.RoundedInt
import Verif.Lemmas.RoundErr
import Verif.Lemmas.Integration

/-! # Rounding errors of the layer integration -/

namespace Verif.Model.Arith

open Verif.Py Verif.Spec Real

variable {F : Arith} {u : ℝ}

/-- Relative error of a layer value for values up to `X`. -/
noncomputable def layerRel (X u : ℝ) : ℝ := 4 * u + 1.3e9 * (X * u)

theorem layerRel_small (hu : Unit u) {X : ℝ} (hX : 0 ≤ X) (hs : X * u ≤ 1e-12) :
    0 ≤ layerRel X u ∧ layerRel X u ≤ 2e-3 := by
  have u0 := hu.nonneg
  have u1 := hu.le
  unfold layerRel
  have : 0 ≤ X * u := by positivity
  constructor
  · positivity
  · norm_num at *; linarith

/-- The logarithm of the ratio. -/
theorem log_ratio (hF : F.Accurate u) (hu : Unit u) {a b X : ℝ} (ha : 0 < a) (hb : 0 < b)
    (haX : a ≤ X) (hbX : b ≤ X) (hD : 0.9e-9 ≤ |b - a|) :
    |F.log (F.div b a) - Real.log (b / a)| ≤ (1.2e9 * (X * u) + 1.1 * u) * |Real.log (b / a)| := by
  have u0 := hu.nonneg
  have u1 := hu.le
  have X0 : 0 < X := ha.trans_le haX
  have r0 : 0 < b / a := by positivity
  have q := hF.div b a ha.ne'
  rw [abs_of_pos r0] at q
  have nq := near_of_abs q
  have q0 := nq.pos r0 (by linarith)
  set q' := F.div b a
  have s0 : 0 < q' / (b / a) := by positivity
  have s1 : q' / (b / a) ≤ 1 + u := by rw [div_le_iff₀ r0]; linarith [nq.2]
  have s2 : 1 - u ≤ q' / (b / a) := by rw [le_div_iff₀ r0]; linarith [nq.1]
  have dl : |Real.log q' - Real.log (b / a)| ≤ 1.01 * u := by
    have hs : Real.log q' - Real.log (b / a) = Real.log (q' / (b / a)) := by rw [log_div q0.ne' r0.ne']
    rw [hs]
    have l1 := log_le_sub_one_of_pos s0
    have l2 := one_sub_inv_le_log_of_pos s0
    have l3 : (q' / (b / a))⁻¹ ≤ 1 + 1.01 * u := by
      rw [inv_le_iff_one_le_mul₀ s0]
      have : 1 ≤ (1 + 1.01 * u) * (1 - u) := by nlinarith
      exact this.trans (mul_le_mul_of_nonneg_left s2 (by positivity))
    exact abs_le.2 ⟨by linarith, by linarith⟩
  -- the logarithm is at least D/X
  have lD : |b - a| ≤ X * |Real.log (b / a)| := by
    rcases le_total a b with h | h
    · have e : 1 ≤ b / a := by rw [le_div_iff₀ ha]; linarith
      rw [abs_of_nonneg (by linarith), abs_of_nonneg (log_nonneg e)]
      have := one_sub_inv_le_log_of_pos r0
      have k : b - a = b * (1 - (b / a)⁻¹) := by field_simp
      rw [k]
      have n0 : 0 ≤ Real.log (b / a) := log_nonneg e
      exact (mul_le_mul_of_nonneg_left this hb.le).trans (mul_le_mul_of_nonneg_right hbX n0)
    · have e : b / a ≤ 1 := by rw [div_le_iff₀ ha]; linarith
      rw [abs_of_nonpos (by linarith), abs_of_nonpos (log_nonpos r0.le e)]
      have := log_le_sub_one_of_pos r0
      have k : -(b - a) = a * (1 - b / a) := by field_simp; ring
      rw [k]
      have n0 : 0 ≤ -Real.log (b / a) := by linarith [log_nonpos r0.le e]
      refine (mul_le_mul_of_nonneg_left (show 1 - b / a ≤ -Real.log (b / a) by linarith) ha.le).trans ?_
      exact mul_le_mul_of_nonneg_right haX n0
  set L := |Real.log (b / a)| with hL
  have L0 : 0 ≤ L := abs_nonneg _
  have uL : u ≤ 1.12e9 * (X * u) * L := by
    have h1 : 0.9e-9 ≤ X * L := hD.trans lD
    have h2 : 0.9e-9 * u ≤ X * L * u := mul_le_mul_of_nonneg_right h1 u0
    norm_num at h2 ⊢
    linarith
  have fl := hF.log q' q0
  have absl : |Real.log q'| ≤ L + 1.01 * u := by
    have e : Real.log q' = (Real.log q' - Real.log (b / a)) + Real.log (b / a) := by ring
    rw [e]
    refine (abs_add_le _ _).trans ?_
    linarith
  have fl' := fl.trans (mul_le_mul_of_nonneg_left absl u0)
  have e : F.log q' - Real.log (b / a) = (F.log q' - Real.log q') + (Real.log q' - Real.log (b / a)) := by ring
  rw [e]
  refine (abs_add_le _ _).trans ?_
  have uu : u * (1.01 * u) ≤ u * 1e-2 := mul_le_mul_of_nonneg_left (by norm_num at *; linarith) u0
  have XL : 0 ≤ X * u * L := by positivity
  have uL0 : 0 ≤ u * L := by positivity
  norm_num at *
  linarith

theorem near_neg_quot {p p' l l' δ ε : ℝ} (hp : Near (-p') (-p) δ) (hl : Near (-l') (-l) ε)
    (h0 : 0 ≤ -p) (h0' : 0 < -l) (hd : 0 ≤ δ) (he : 0 ≤ ε) (hd1 : δ ≤ 1) (he1 : ε ≤ 1 / 100) :
    Near (p' / l') (p / l) (δ + ε + 2 * ε * (δ + ε)) := by
  have := near_quot hp hl h0 h0' hd he hd1 he1
  rwa [neg_div_neg_eq, neg_div_neg_eq] at this

/-- The logarithmic mean. -/
theorem logMean_near (hF : F.Accurate u) (hu : Unit u) {a b X : ℝ} (ha : 0 < a) (hb : 0 < b)
    (haX : a ≤ X) (hbX : b ≤ X) (hs : X * u ≤ 1e-12) (hD : 0.9e-9 ≤ |b - a|) :
    F.log (F.div b a) ≠ 0 ∧
    Near (F.div (F.sub b a) (F.log (F.div b a))) ((b - a) / Real.log (b / a)) (layerRel X u) := by
  have u0 := hu.nonneg
  have u1 := hu.le
  have X0 : 0 < X := ha.trans_le haX
  have dl := log_ratio hF hu ha hb haX hbX hD
  have Xu : 0 ≤ X * u := by positivity
  set w := 1.2e9 * (X * u) + 1.1 * u with hw
  have w0 : 0 ≤ w := by positivity
  have w1 : w ≤ 1.3e-3 := by rw [hw]; norm_num at *; linarith
  have sb := hF.sub b a
  have hne : a ≠ b := by rintro rfl; norm_num at hD
  have r0 : 0 < b / a := by positivity
  set l' := F.log (F.div b a)
  set p' := F.sub b a
  have main : l' ≠ 0 ∧ Near (p' / l') ((b - a) / Real.log (b / a)) (u + w + 2 * w * (u + w)) ∧
      0 < (b - a) / Real.log (b / a) := by
    rcases lt_or_gt_of_ne hne with h | h
    · have L0 : 0 < Real.log (b / a) := log_pos ((one_lt_div ha).2 h)
      rw [abs_of_pos L0] at dl
      rw [abs_of_pos (sub_pos.2 h)] at sb
      have nl := near_of_abs dl
      exact ⟨(nl.pos L0 (by linarith)).ne', near_quot (near_of_abs sb) nl (sub_pos.2 h).le L0 u0 w0
        hu.one (by linarith), div_pos (sub_pos.2 h) L0⟩
    · have L0 : Real.log (b / a) < 0 := log_neg r0 ((div_lt_one ha).2 h)
      rw [abs_of_neg L0] at dl
      rw [abs_of_neg (sub_neg.2 h)] at sb
      have nl : Near (-l') (-Real.log (b / a)) w := by
        apply near_of_abs
        rw [← abs_neg]
        have e : -(-l' - -Real.log (b / a)) = l' - Real.log (b / a) := by ring
        rw [e]; exact dl
      have np : Near (-p') (-(b - a)) u := by
        apply near_of_abs
        rw [← abs_neg]
        have e : -(-p' - -(b - a)) = p' - (b - a) := by ring
        rw [e]; exact sb
      have hl := nl.pos (neg_pos.2 L0) (by linarith)
      exact ⟨by intro hc; rw [hc] at hl; simp at hl,
        near_neg_quot np nl (by linarith) (neg_pos.2 L0) u0 w0 hu.one (by linarith),
        div_pos_of_neg_of_neg (sub_neg.2 h) L0⟩
  obtain ⟨m1, m2, m3⟩ := main
  refine ⟨m1, ?_⟩
  have d := hF.div p' l' m1
  have e0 : 0 ≤ u + w + 2 * w * (u + w) := by positivity
  have ws : 2 * w * (u + w) ≤ 2.6e-3 * (u + w) := mul_le_mul_of_nonneg_right (by linarith) (by positivity)
  have pos := m2.nonneg m3.le (by norm_num at *; linarith)
  rw [abs_of_nonneg pos] at d
  refine ((near_of_abs d).trans m2 m3.le u0 hu.one e0).mono m3.le ?_
  have z : u * (u + w + 2 * w * (u + w)) ≤ u * 1e-2 := mul_le_mul_of_nonneg_left (by norm_num at *; linarith) u0
  unfold layerRel
  rw [hw] at *
  norm_num at *
  linarith

theorem layerValue_unf (z : Bool) (a b : ℝ) : Model.layerValue z a b =
    if a < 0 ∨ b < 0 then none
    else if |b - a| < 1e-09 then some b
    else if a = 0 ∨ b = 0 then (if !z then some 0 else some ((b + a) * 0.5))
    else some ((b - a) / Real.log (b / a)) := by
  have z0 : (0.0 : ℝ) = 0 := by norm_num
  unfold Model.layerValue
  rw [z0]

/-- A layer value; the absolute term is needed only if the difference of the two level values lies within `3·10⁻⁹ u` of the
threshold `10⁻⁹`. -/
theorem layerValue_error (hF : F.Accurate u) (hu : Unit u) {z : Bool} {a b v X : ℝ}
    (haX : a ≤ X) (hbX : b ≤ X) (hs : X * u ≤ 1e-12) (h : Model.layerValue z a b = some v) :
    ∃ v', F.layerValue z a b = some (some v') ∧ 0 ≤ v' ∧ |v' - v| ≤ layerRel X u * v + 1.1e-9 ∧
      (3e-9 * u < |(|b - a| - 1e-9)| → |v' - v| ≤ layerRel X u * v) := by
  have u0 := hu.nonneg
  have u1 := hu.le
  have hn : ¬(a < 0 ∨ b < 0) := fun hn => by rw [layerValue_eq_none.2 hn] at h; cases h
  have bd := layerValue_bounds h
  have v0 := layerValue_nonneg h
  have hn' := hn
  push Not at hn'
  obtain ⟨a0, b0⟩ := hn'
  have X0 : 0 ≤ X := a0.trans haX
  obtain ⟨ρ0, ρ1⟩ := layerRel_small hu X0 hs
  set ρ := layerRel X u with hρ
  have ρv : 0 ≤ ρ * v := mul_nonneg ρ0 v0
  have sb := hF.sub b a
  have tl := hF.lit 1e-9
  have tl' : |F.lit 1e-9 - 1e-9| ≤ u * 1e-9 := by
    rwa [abs_of_pos (show (0:ℝ) < 1e-9 by norm_num)] at tl
  obtain ⟨t1, t2⟩ := abs_le.1 tl'
  set D := |b - a| with hD
  have D0 : 0 ≤ D := abs_nonneg _
  have dd : |(|F.sub b a| - D)| ≤ u * D := (abs_abs_sub_abs_le _ _).trans sb
  obtain ⟨d1, d2⟩ := abs_le.1 dd
  set D' := |F.sub b a| with hD'
  -- both values lie between a and b
  have vb : |b - v| ≤ D := by
    rw [hD]
    rcases le_total a b with hc | hc
    · rw [min_eq_left hc, max_eq_right hc] at bd
      rw [abs_of_nonneg (by linarith), abs_of_nonneg (by linarith)]; linarith
    · rw [min_eq_right hc, max_eq_left hc] at bd
      rw [abs_of_nonpos (by linarith), abs_of_nonpos (by linarith)]; linarith
  by_cases hA' : D' < F.lit 1e-9
  · -- the code takes the upper value
    refine ⟨b, ?_, b0, ?_, ?_⟩
    · unfold layerValue; rw [if_neg hn, if_pos hA']
    · have : D ≤ 1.1e-9 := by
        have : D * (1 - u) < 1e-9 * (1 + u) := by linarith
        by_contra hc
        push Not at hc
        have h2 : 1.1e-9 * (1 - u) ≤ D * (1 - u) := mul_le_mul_of_nonneg_right hc.le (by linarith [hu.one])
        norm_num at *; linarith
      linarith
    · intro hfar
      by_cases hA : D < 1e-9
      · have : Model.layerValue z a b = some b := by
          rw [layerValue_unf, if_neg hn, if_pos hA]
        rw [this] at h
        cases h
        simpa using ρv
      · push Not at hA
        rw [abs_of_nonneg (by linarith)] at hfar
        exfalso
        have k : (1e-9 + 3e-9 * u) * (1 - u) ≤ D * (1 - u) :=
          mul_le_mul_of_nonneg_right (by linarith) (by linarith [hu.one])
        have uu : u * u ≤ u * 1e-3 := mul_le_mul_of_nonneg_left (by norm_num at *; linarith) u0
        norm_num at *
        nlinarith
  · push Not at hA'
    have hD9 : 0.9e-9 ≤ D := by
      by_contra hc
      push Not at hc
      have k : D * (1 + u) ≤ 0.9e-9 * (1 + u) := mul_le_mul_of_nonneg_right hc.le (by linarith)
      norm_num at *; linarith
    -- the two cases of the exact program
    have exactA : D < 1e-9 → v = b := by
      intro hA
      have : Model.layerValue z a b = some b := by
        rw [layerValue_unf, if_neg hn, if_pos hA]
      rw [this] at h; cases h; rfl
    have noA : 3e-9 * u < |D - 1e-9| → ¬ D < 1e-9 := by
      intro hfar hA
      rw [abs_of_neg (by linarith)] at hfar
      have k : D * (1 + u) ≤ (1e-9 - 3e-9 * u) * (1 + u) :=
        mul_le_mul_of_nonneg_right (by linarith) (by linarith)
      norm_num at *
      nlinarith
    by_cases hz : a = 0 ∨ b = 0
    · cases z with
      | false =>
        refine ⟨0, ?_, le_rfl, ?_, ?_⟩
        · unfold layerValue; rw [if_neg hn, if_neg (not_lt.2 hA'), if_pos hz]; rfl
        · by_cases hA : D < 1e-9
          · have hv := exactA hA
            have : b ≤ D := by
              rcases hz with rfl | rfl
              · rw [hD, sub_zero, abs_of_nonneg b0]
              · exact D0
            rw [zero_sub, abs_neg, abs_of_nonneg v0]
            have hb : v ≤ 1e-9 := by linarith
            norm_num at hb ⊢; linarith
          · have : v = 0 := by
              rw [layerValue_unf] at h
              rw [if_neg hn, if_neg hA, if_pos hz] at h
              simpa using h.symm
            rw [this]; norm_num
        · intro hfar
          have : v = 0 := by
            rw [layerValue_unf] at h
            rw [if_neg hn, if_neg (noA hfar), if_pos hz] at h
            simpa using h.symm
          rw [this]; simp
      | true =>
        have na := near_add hF (near_refl b) (near_refl a) b0 a0 le_rfl zero_le_one u0 hu.one
        have nm := near_mul hF na (near_refl (0.5 : ℝ)) (add_nonneg b0 a0) (by norm_num)
          (by positivity) le_rfl (by linarith [hu.one]) zero_le_one u0 hu.one
        have nm' : Near (F.mul (F.add b a) 0.5) ((b + a) * 0.5) ρ := by
          refine nm.mono (mul_nonneg (add_nonneg b0 a0) (by norm_num)) ?_
          have uu : u * u ≤ u := by nlinarith [hu.one]
          have : 0 ≤ X * u := by positivity
          rw [hρ]; unfold layerRel
          norm_num at *
          linarith
        have p0 : 0 ≤ (b + a) * 0.5 := mul_nonneg (add_nonneg b0 a0) (by norm_num)
        refine ⟨F.mul (F.add b a) 0.5, ?_, nm'.nonneg p0 (by linarith), ?_, ?_⟩
        · unfold layerValue; rw [if_neg hn, if_neg (not_lt.2 hA'), if_pos hz]; rfl
        · by_cases hA : D < 1e-9
          · have hv := exactA hA
            have hab : |(b + a) * 0.5 - v| ≤ 1e-9 := by
              rw [hv]
              have e : (b + a) * 0.5 - b = -((b - a) * 0.5) := by ring
              rw [e, abs_neg, abs_mul, abs_of_pos (show (0:ℝ) < 0.5 by norm_num)]
              norm_num at *; linarith
            have e : F.mul (F.add b a) 0.5 - v = (F.mul (F.add b a) 0.5 - (b + a) * 0.5)
              + ((b + a) * 0.5 - v) := by ring
            rw [e]
            refine (abs_add_le _ _).trans ?_
            have k := nm'.abs
            have k2 : (b + a) * 0.5 ≤ v + 1e-9 := by linarith [(abs_le.1 hab).2]
            have k3 : ρ * ((b + a) * 0.5) ≤ ρ * (v + 1e-9) := mul_le_mul_of_nonneg_left k2 ρ0
            have k4 : ρ * 1e-9 ≤ 2e-3 * 1e-9 := mul_le_mul_of_nonneg_right ρ1 (by norm_num)
            norm_num at *; linarith
          · have : v = (b + a) * 0.5 := by
              rw [layerValue_unf] at h
              rw [if_neg hn, if_neg hA, if_pos hz] at h
              simpa using h.symm
            rw [this]
            have := nm'.abs
            norm_num at *; linarith
        · intro hfar
          have : v = (b + a) * 0.5 := by
            rw [layerValue_unf] at h
            rw [if_neg hn, if_neg (noA hfar), if_pos hz] at h
            simpa using h.symm
          rw [this]; exact nm'.abs
    · have hz' := hz
      push Not at hz'
      have a1 : 0 < a := lt_of_le_of_ne a0 (Ne.symm hz'.1)
      have b1 : 0 < b := lt_of_le_of_ne b0 (Ne.symm hz'.2)
      obtain ⟨m1, m2⟩ := logMean_near hF hu a1 b1 haX hbX hs hD9
      have hne : a ≠ b := by
        intro hc; rw [hD, hc] at hD9; norm_num at hD9
      have lmb : min a b ≤ (b - a) / Real.log (b / a) ∧ (b - a) / Real.log (b / a) ≤ max a b := by
        rcases lt_or_gt_of_ne hne with hc | hc
        · rw [min_eq_left hc.le, max_eq_right hc.le]; exact logMean_bounds a1 hc
        · rw [min_eq_right hc.le, max_eq_left hc.le, logMean_symm a1 b1]; exact logMean_bounds b1 hc
      have lm0 : 0 ≤ (b - a) / Real.log (b / a) := (le_min a0 b0).trans lmb.1
      refine ⟨_, ?_, m2.nonneg lm0 (by linarith), ?_, ?_⟩
      · unfold layerValue
        rw [if_neg hn, if_neg (not_lt.2 hA'), if_neg hz, if_neg m1]
      · by_cases hA : D < 1e-9
        · have hv := exactA hA
          have hab : |(b - a) / Real.log (b / a) - v| ≤ 1e-9 := by
            rw [hv]
            have : |(b - a) / Real.log (b / a) - b| ≤ D := by
              rw [hD]
              rcases le_total a b with hc | hc
              · rw [min_eq_left hc, max_eq_right hc] at lmb
                rw [abs_of_nonpos (by linarith), abs_of_nonneg (by linarith : 0 ≤ b - a)]; linarith
              · rw [min_eq_right hc, max_eq_left hc] at lmb
                rw [abs_of_nonneg (by linarith), abs_of_nonpos (by linarith : b - a ≤ 0)]; linarith
            linarith
          have k := m2.abs
          set lm := (b - a) / Real.log (b / a)
          set lm' := F.div (F.sub b a) (F.log (F.div b a))
          have e : lm' - v = (lm' - lm) + (lm - v) := by ring
          rw [e]
          refine (abs_add_le _ _).trans ?_
          have k2 : lm ≤ v + 1e-9 := by linarith [(abs_le.1 hab).2]
          have k3 : ρ * lm ≤ ρ * (v + 1e-9) := mul_le_mul_of_nonneg_left k2 ρ0
          have k4 : ρ * 1e-9 ≤ 2e-3 * 1e-9 := mul_le_mul_of_nonneg_right ρ1 (by norm_num)
          norm_num at *; linarith
        · have : v = (b - a) / Real.log (b / a) := by
            rw [layerValue_unf] at h
            rw [if_neg hn, if_neg hA, if_neg hz] at h
            exact (Option.some.inj h).symm
          rw [this]
          have := m2.abs
          refine this.trans ?_
          linarith [show (0:ℝ) < 1.1e-9 by norm_num]
      · intro hfar
        have : v = (b - a) / Real.log (b / a) := by
          rw [layerValue_unf] at h
          rw [if_neg hn, if_neg (noA hfar), if_neg hz] at h
          exact (Option.some.inj h).symm
        rw [this]; exact m2.abs

/-! ## The loop -/

/-- All layers fine: closed form of the result. -/
theorem expInt_closed {z : Bool} {nl : ℕ} {x ds v : ℕ → ℝ} (hn : 0 < nl) (factor : ℝ)
    (hv : ∀ i, 1 ≤ i → i < nl → F.layerValue z (prevEntry x nl i) (x i) = some (some (v i))) :
    F.expInt z nl x ds 1 nl factor = some (.ok
      (F.mul (F.accP (fun i => F.mul (v i) (ds i)) (nl - 1)) factor,
        fun i => if 1 ≤ i ∧ i < nl then F.mul (v i) (ds i) else 0)) := by
  have key : ∀ k, 1 ≤ k → k ≤ nl → forRangeE 1 k (F.expIntBody z nl x ds) (0, fun _ => 0) =
      .ok (F.accP (fun i => F.mul (v i) (ds i)) (k - 1),
        fun i => if 1 ≤ i ∧ i < k then F.mul (v i) (ds i) else 0) := by
    intro k hk
    induction k, hk using Nat.le_induction with
    | base =>
      intro _
      rw [forRangeE_of_le le_rfl]
      congr 1
      refine Prod.ext rfl ?_
      funext i
      show (0 : ℝ) = if 1 ≤ i ∧ i < 1 then _ else 0
      rw [if_neg (by omega)]
    | succ n hn ih =>
      intro hle
      rw [forRangeE_succ hn, ih (by omega)]
      show F.expIntBody z nl x ds n _ = _
      unfold expIntBody
      rw [if_neg (by omega), hv n hn (by omega)]
      simp only [Function.update_self]
      congr 1
      refine Prod.ext ?_ ?_
      · obtain ⟨m, rfl⟩ : ∃ m, n = m + 1 := ⟨n - 1, by omega⟩
        rfl
      · funext i
        simp only [Function.update_apply]
        split_ifs with h1 h2 h3 h4 h5 <;> first | rfl | (subst h1; rfl) | (exfalso; omega)
  unfold expInt
  rw [key nl hn le_rfl]
  simp

/-- Relative error of a layer opacity of one constituent. -/
noncomputable def constRel (X u : ℝ) : ℝ := 6 * u + 1.31e9 * (X * u)

/-- Product of the layer value and the path. -/
theorem layer_product (hF : F.Accurate u) (hu : Unit u) {v v' d X e : ℝ} (hX : 0 ≤ X)
    (hs : X * u ≤ 1e-12) (v0 : 0 ≤ v) (v0' : 0 ≤ v') (d0 : 0 ≤ d) (e0 : 0 ≤ e)
    (h : |v' - v| ≤ layerRel X u * v + e) :
    0 ≤ F.mul v' d ∧ |F.mul v' d - v * d| ≤ constRel X u * (v * d) + 1.01 * e * d := by
  have u0 := hu.nonneg
  have u1 := hu.le
  obtain ⟨ρ0, ρ1⟩ := layerRel_small hu hX hs
  have m := hF.mul v' d
  have p0 : 0 ≤ v' * d := mul_nonneg v0' d0
  rw [abs_of_nonneg p0] at m
  have nm := near_of_abs m
  refine ⟨nm.nonneg p0 hu.one, ?_⟩
  have q : |v' * d - v * d| ≤ (layerRel X u * v + e) * d := by
    rw [← sub_mul, abs_mul, abs_of_nonneg d0]
    exact mul_le_mul_of_nonneg_right h d0
  have eq : F.mul v' d - v * d = (F.mul v' d - v' * d) + (v' * d - v * d) := by ring
  rw [eq]
  refine (abs_add_le _ _).trans ?_
  have w0 : 0 ≤ v * d := mul_nonneg v0 d0
  have ed : 0 ≤ e * d := mul_nonneg e0 d0
  have bound : v' * d ≤ v * d + (layerRel X u * (v * d) + e * d) := by
    have := (abs_le.1 q).2
    linarith
  have b2 : u * (v' * d) ≤ u * (v * d + (layerRel X u * (v * d) + e * d)) :=
    mul_le_mul_of_nonneg_left bound u0
  have b3 : u * (layerRel X u * (v * d)) ≤ u * (2e-3 * (v * d)) :=
    mul_le_mul_of_nonneg_left (mul_le_mul_of_nonneg_right ρ1 w0) u0
  have b4 : u * (e * d) ≤ 1e-2 * (e * d) := mul_le_mul_of_nonneg_right (by norm_num at *; linarith) ed
  have b5 : 0 ≤ u * (v * d) := mul_nonneg u0 w0
  have b6 : 0 ≤ X * u * (v * d) := mul_nonneg (mul_nonneg hX u0) w0
  unfold constRel
  unfold layerRel at *
  norm_num at *
  linarith

/-- One constituent: layer opacities and their sum. -/
theorem expInt_rounded (hF : F.Accurate u) (hu : Unit u) {z : Bool} {nl : ℕ} {x ds : ℕ → ℝ} {X : ℝ}
    (hn : 0 < nl) (hx : ∀ i < nl, 0 ≤ x i ∧ x i ≤ X) (hs : X * u ≤ 1e-12)
    (hd : ∀ i, 1 ≤ i → i < nl → 0 ≤ ds i) :
    ∃ S' y' S y, F.expInt z nl x ds 1 nl 1 = some (.ok (S', y')) ∧
      Model.expInt z nl x ds 1 nl 1 = .ok (S, y) ∧ S = opacityBelow y (nl - 1) ∧
      S' = F.mul (F.accP y' (nl - 1)) 1 ∧
      ∀ i, 1 ≤ i → i < nl → 0 ≤ y i ∧ 0 ≤ y' i ∧
        |y' i - y i| ≤ constRel X u * y i + 1.2e-9 * ds i ∧
        (3e-9 * u < |(|x i - x (i - 1)| - 1e-9)| → |y' i - y i| ≤ constRel X u * y i) := by
  have X0 : 0 ≤ X := (hx 0 hn).1.trans (hx 0 hn).2
  have pe : ∀ i, 1 ≤ i → prevEntry x nl i = x (i - 1) := fun i h1 => by
    unfold prevEntry; rw [if_neg (by omega)]
  have ex : ∀ i, ∃ v v', 1 ≤ i → i < nl → Model.layerValue z (prevEntry x nl i) (x i) = some v ∧
      F.layerValue z (prevEntry x nl i) (x i) = some (some v') ∧ 0 ≤ v ∧ 0 ≤ v' ∧
      |v' - v| ≤ layerRel X u * v + 1.1e-9 ∧
      (3e-9 * u < |(|x i - x (i - 1)| - 1e-9)| → |v' - v| ≤ layerRel X u * v) := by
    intro i
    by_cases hi : 1 ≤ i ∧ i < nl
    · have h1 := hx (i - 1) (by omega)
      have h2 := hx i hi.2
      obtain ⟨v, hv⟩ := layerValue_some_of_nonneg z h1.1 h2.1
      obtain ⟨v', a1, a2, a3, a4⟩ := layerValue_error hF hu h1.2 h2.2 hs hv
      refine ⟨v, v', fun _ _ => ?_⟩
      rw [pe i hi.1]
      exact ⟨hv, a1, layerValue_nonneg hv, a2, a3, a4⟩
    · exact ⟨0, 0, fun h1 h2 => absurd ⟨h1, h2⟩ hi⟩
  choose v v' hvv using ex
  have e1 := expInt_closed (F := F) (z := z) (x := x) (ds := ds) (v := v') hn 1
    (fun i h1 h2 => (hvv i h1 h2).2.1)
  have e2 := expInt_ok (z := z) (x := x) (ds := ds) (v := v) (ibeg := 1) (nl := nl) (factor := 1) hn
    (fun i h1 h2 => (hvv i h1 h2).1)
  refine ⟨_, _, _, _, e1, e2, ?_, ?_, ?_⟩
  · rw [mul_one]
    unfold opacityBelow
    have : Finset.Icc 1 (nl - 1) = Finset.Ico 1 nl := by
      ext i; simp only [Finset.mem_Icc, Finset.mem_Ico]; omega
    rw [this]
    refine Finset.sum_congr rfl fun i hi => ?_
    rw [Finset.mem_Ico] at hi
    show v i * ds i = if 1 ≤ i ∧ i < nl then v i * ds i else 0
    rw [if_pos hi]
  · have key : ∀ k ≤ nl - 1, F.accP (fun i => F.mul (v' i) (ds i)) k
        = F.accP (fun i => if 1 ≤ i ∧ i < nl then F.mul (v' i) (ds i) else 0) k := by
      intro k
      induction k with
      | zero => intro _; rfl
      | succ k ih =>
        intro hk
        show F.add _ _ = F.add _ _
        rw [ih (by omega)]
        show F.add _ _ = F.add _ (if 1 ≤ k + 1 ∧ k + 1 < nl then F.mul (v' (k + 1)) (ds (k + 1)) else 0)
        rw [if_pos ⟨by omega, by omega⟩]
    rw [key _ le_rfl]
  · intro i h1 h2
    obtain ⟨-, -, g3, g4, g5, g6⟩ := hvv i h1 h2
    have d0 := hd i h1 h2
    simp only [if_pos (And.intro h1 h2)]
    have p := layer_product hF hu X0 hs g3 g4 d0 (by norm_num) g5
    refine ⟨mul_nonneg g3 d0, p.1, p.2.trans ?_, fun hfar => ?_⟩
    · norm_num; linarith
    · have p2 := layer_product hF hu X0 hs g3 g4 d0 le_rfl (by simpa using g6 hfar)
      simpa using p2.2

/-- Two approximations with a relative and an absolute part are added. -/
theorem add_parts (hF : F.Accurate u) (hu : Unit u) {a a' b b' κ e f : ℝ} (a0 : 0 ≤ a) (b0 : 0 ≤ b)
    (a0' : 0 ≤ a') (b0' : 0 ≤ b') (κ1 : κ ≤ 1e-2)
    (ha : |a' - a| ≤ κ * a + e) (hb : |b' - b| ≤ κ * b + f) :
    0 ≤ F.add a' b' ∧
      |F.add a' b' - (a + b)| ≤ (κ + 1.1 * u) * (a + b) + (1 + u) * (e + f) := by
  have u0 := hu.nonneg
  have m := hF.add a' b'
  rw [abs_of_nonneg (add_nonneg a0' b0')] at m
  refine ⟨(near_of_abs m).nonneg (add_nonneg a0' b0') hu.one, ?_⟩
  have eq : F.add a' b' - (a + b) = (F.add a' b' - (a' + b')) + ((a' - a) + (b' - b)) := by ring
  rw [eq]
  refine (abs_add_le _ _).trans ?_
  have s := abs_add_le (a' - a) (b' - b)
  have w0 : 0 ≤ a + b := add_nonneg a0 b0
  have bound : a' + b' ≤ (a + b) + (κ * (a + b) + (e + f)) := by
    linarith [(abs_le.1 ha).2, (abs_le.1 hb).2]
  have b2 := mul_le_mul_of_nonneg_left bound u0
  have b3 : u * (κ * (a + b)) ≤ u * (1e-2 * (a + b)) :=
    mul_le_mul_of_nonneg_left (mul_le_mul_of_nonneg_right κ1 w0) u0
  have b5 : 0 ≤ u * (a + b) := mul_nonneg u0 w0
  norm_num at *
  linarith

/-- Relative error of a layer opacity. -/
noncomputable def opRel (X u : ℝ) : ℝ := 10 * u + 1.31e9 * (X * u)

/-- The four constituents of a layer. -/
theorem sum_parts (hF : F.Accurate u) (hu : Unit u) {w d i l w' d' i' l' X e : ℝ} (hX : 0 ≤ X)
    (hs : X * u ≤ 1e-12) (e0 : 0 ≤ e) (pos : 0 ≤ w ∧ 0 ≤ d ∧ 0 ≤ i ∧ 0 ≤ l)
    (pos' : 0 ≤ w' ∧ 0 ≤ d' ∧ 0 ≤ i' ∧ 0 ≤ l')
    (hw : |w' - w| ≤ constRel X u * w + e) (hd : |d' - d| ≤ constRel X u * d + e)
    (hi : |i' - i| ≤ constRel X u * i + e) (hl : |l' - l| ≤ constRel X u * l + e) :
    0 ≤ F.add (F.add (F.add w' d') i') l' ∧
      |F.add (F.add (F.add w' d') i') l' - (w + d + i + l)|
        ≤ opRel X u * (w + d + i + l) + 4.01 * e := by
  obtain ⟨w0, d0, i0, l0⟩ := pos
  obtain ⟨w0', d0', i0', l0'⟩ := pos'
  have u0 := hu.nonneg
  have u1 := hu.le
  have Xu : 0 ≤ X * u := mul_nonneg hX u0
  have κ0 : 0 ≤ constRel X u := by unfold constRel; positivity
  have κ1 : constRel X u ≤ 1.4e-3 := by unfold constRel; norm_num at *; linarith
  set κ := constRel X u with hκ
  have up {a a' f : ℝ} {c : ℝ} (hc : 0 ≤ c) (ha : 0 ≤ a) (h : |a' - a| ≤ κ * a + f) :
      |a' - a| ≤ (κ + c) * a + f := by
    have := mul_nonneg hc ha
    linarith
  obtain ⟨p1, q1⟩ := add_parts hF hu w0 d0 w0' d0' (by norm_num at *; linarith) hw hd
  obtain ⟨p2, q2⟩ := add_parts hF hu (add_nonneg w0 d0) i0 p1 i0' (κ := κ + 1.1 * u)
    (by norm_num at *; linarith) q1 (up (by positivity) i0 hi)
  obtain ⟨p3, q3⟩ := add_parts hF hu (add_nonneg (add_nonneg w0 d0) i0) l0 p2 l0'
    (κ := κ + 1.1 * u + 1.1 * u)
    (by norm_num at *; linarith) q2 (by
      have := up (c := 1.1 * u + 1.1 * u) (by positivity) l0 hl
      rwa [← add_assoc] at this)
  refine ⟨p3, q3.trans ?_⟩
  have s0 : 0 ≤ w + d + i + l := by positivity
  have us : 0 ≤ u * (w + d + i + l) := mul_nonneg u0 s0
  have c1 : (1 + u) * ((1 + u) * ((1 + u) * (e + e) + e) + e) ≤ 4.01 * e := by
    have k : (1 + u) * ((1 + u) * ((1 + u) * 2 + 1) + 1) ≤ 4.01 := by
      have h1 : (1 + u) * 2 + 1 ≤ 3.001 := by norm_num at *; linarith
      have h2 : (1 + u) * ((1 + u) * 2 + 1) ≤ (1 + u) * 3.001 := mul_le_mul_of_nonneg_left h1 (by linarith)
      have h3 : (1 + u) * ((1 + u) * 2 + 1) + 1 ≤ 4.002 := by norm_num at *; linarith
      have h4 := mul_le_mul_of_nonneg_left h3 (show 0 ≤ 1 + u by linarith)
      refine h4.trans ?_
      norm_num at *; linarith
    have := mul_le_mul_of_nonneg_right k e0
    linarith
  have c2 : (κ + 1.1 * u + 1.1 * u + 1.1 * u) * (w + d + i + l) ≤ opRel X u * (w + d + i + l) := by
    apply mul_le_mul_of_nonneg_right _ s0
    rw [hκ]; unfold constRel opRel
    norm_num; linarith
  linarith

end Verif.Model.Arith
