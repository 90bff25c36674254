import Mathlib.Analysis.Calculus.Deriv.MeanValue
import Mathlib.Analysis.Complex.ExponentialBounds
import Verif.Lemmas.TableRat
import Verif.Lemmas.WaterDirection
import Verif.Lemmas.AbsContinuous
import Verif.Props.Direction

/-! # The share of one line in the absorption, against the amount of vapour -/

namespace Verif.Lemmas

open Verif.Model Verif.Py Verif.Spec Verif.Props Real

/-- Lorentz profile above its value at the cut-off, as one fraction. -/
theorem lorentz_gap {w d D : ℝ} (hw : 0 < w) :
    lorentz w d - lorentz w D = w * (D ^ 2 - d ^ 2) / ((d ^ 2 + w ^ 2) * (D ^ 2 + w ^ 2)) := by
  have h1 : 0 < d ^ 2 + w ^ 2 := by positivity
  have h2 : 0 < D ^ 2 + w ^ 2 := by positivity
  unfold lorentz
  field_simp
  ring

theorem share_core {a b w d σ E Q R M : ℝ} (hw : w = a + b) (hQ : Q = d ^ 2 + w ^ 2) (hM : M = w * d ^ 2 + a * w ^ 2)
    (hb : 0 ≤ b) (hE : 0 ≤ E) (hR : 0 ≤ R)
    (u1 : 2 * w * (d * σ) * Q ≤ 1 / 2 * (E * M)) (u2 : 2 * w * (d * σ) ≤ 1 / 4 * M)
    (u3 : 2 * w ^ 2 * b * Q ≤ 1 / 4 * (R * M)) :
    0 ≤ (w * E + b * E - 2 * w * d * σ) * (Q * R) - w * E * (2 * (d * σ + w * b) * R + 2 * w * b * Q) := by
  have v1 := mul_le_mul_of_nonneg_right u1 hR
  have v2 := mul_le_mul_of_nonneg_right u2 (mul_nonneg hE hR)
  have v3 := mul_le_mul_of_nonneg_right u3 hE
  have v4 : 0 ≤ E * R * (b * d ^ 2) := by positivity
  have id : (w * E + b * E - 2 * w * d * σ) * (Q * R) - w * E * (2 * (d * σ + w * b) * R + 2 * w * b * Q) =
      E * R * (M + b * d ^ 2) - 2 * w * (d * σ) * Q * R - 2 * w * (d * σ) * (E * R) - 2 * w ^ 2 * b * Q * E := by
    subst hM hQ hw
    ring
  rw [id]
  linarith

/-- The sign of the derivative: `a` half-width without vapour, `b` what the vapour adds, `σ` how far it has moved the
line, `x` the distance from the cut-off `D`. -/
theorem share_deriv {a b d σ x D : ℝ} (ha : 0 < a) (hb : 0 ≤ b) (hx : 0 < x) (hd : |d| ≤ D - x)
    (h1 : 2 * (a + b) * |σ| ≤ x * a) (h2 : 4 * |σ| ≤ a) (h3 : 8 * (a + b) ^ 2 * b ≤ D ^ 2 * a) :
    0 ≤ ((a + b) * (D ^ 2 - d ^ 2) + b * (D ^ 2 - d ^ 2) - 2 * (a + b) * d * σ) *
        ((d ^ 2 + (a + b) ^ 2) * (D ^ 2 + (a + b) ^ 2)) -
      (a + b) * (D ^ 2 - d ^ 2) *
        (2 * (d * σ + (a + b) * b) * (D ^ 2 + (a + b) ^ 2) + 2 * (a + b) * b * (d ^ 2 + (a + b) ^ 2)) := by
  obtain ⟨w, hw⟩ : ∃ w, w = a + b := ⟨_, rfl⟩
  rw [← hw] at h1 h3 ⊢
  have hw0 : 0 < w := by linarith
  have haw : a ≤ w := by linarith
  have hd0 := abs_nonneg d
  have hs0 := abs_nonneg σ
  have hD : 0 < D := by linarith
  have hd2 : |d| ^ 2 = d ^ 2 := sq_abs d
  have hE1 : 2 * x * |d| ≤ D ^ 2 - d ^ 2 := by rw [← hd2]; nlinarith
  have hE0 : 0 ≤ D ^ 2 - d ^ 2 := le_trans (by positivity) hE1
  have hds : d * σ ≤ |d| * |σ| := by rw [← abs_mul]; exact le_abs_self _
  have hsx : 2 * |σ| ≤ x := by
    have hh : w * (2 * |σ|) ≤ w * x := by
      have := mul_le_mul_of_nonneg_left haw hx.le
      linarith
    exact le_of_mul_le_mul_left hh hw0
  have e1 : 4 * (|d| * |σ|) ≤ D ^ 2 - d ^ 2 := by
    have := mul_le_mul_of_nonneg_left hsx (show 0 ≤ 2 * |d| by positivity)
    linarith
  have e2 : 4 * w * (|d| * |σ|) ≤ (D ^ 2 - d ^ 2) * a := by
    have := mul_le_mul_of_nonneg_left h1 (show 0 ≤ 2 * |d| by positivity)
    have := mul_le_mul_of_nonneg_right hE1 ha.le
    linarith
  refine share_core (M := w * d ^ 2 + a * w ^ 2) hw rfl rfl hb hE0 (by positivity) ?_ ?_ ?_
  · have f1 := mul_le_mul_of_nonneg_right e1 (show 0 ≤ w * d ^ 2 by positivity)
    have f2 := mul_le_mul_of_nonneg_right e2 (show 0 ≤ w ^ 2 by positivity)
    have f3 := mul_le_mul_of_nonneg_left hds (show 0 ≤ 2 * w * (d ^ 2 + w ^ 2) by positivity)
    linarith
  · have g1 : 2 * w * |d| ≤ d ^ 2 + w ^ 2 := by rw [← hd2]; nlinarith [sq_nonneg (|d| - w)]
    have g2 : 2 * w * |d| * (4 * |σ|) ≤ (d ^ 2 + w ^ 2) * a := mul_le_mul g1 h2 (by positivity) (by positivity)
    have g3 : d ^ 2 * a ≤ d ^ 2 * w := mul_le_mul_of_nonneg_left haw (sq_nonneg d)
    have g4 := mul_le_mul_of_nonneg_left hds (show 0 ≤ 2 * w by positivity)
    linarith
  · have g1 : 8 * w ^ 2 * b ≤ (D ^ 2 + w ^ 2) * a := by
      have : 0 ≤ w ^ 2 * a := by positivity
      linarith
    have g2 : a * (d ^ 2 + w ^ 2) ≤ w * d ^ 2 + a * w ^ 2 := by
      have := mul_le_mul_of_nonneg_left haw (sq_nonneg d)
      linarith
    have g3 := mul_le_mul_of_nonneg_right g1 (show 0 ≤ d ^ 2 + w ^ 2 by positivity)
    have g4 := mul_le_mul_of_nonneg_left g2 (show 0 ≤ D ^ 2 + w ^ 2 by positivity)
    linarith

/-- Near the cut-off the derivative may be negative, but only by little. -/
theorem share_edge {a b d σ D : ℝ} (ha : 0 < a) (hb : 0 ≤ b) (hd : |d| ≤ D) (h2 : 4 * |σ| ≤ a)
    (h3 : 8 * (a + b) ^ 2 * b ≤ D ^ 2 * a) :
    -(2 * (a + b) * (|d| * |σ|) * ((d ^ 2 + (a + b) ^ 2) * (D ^ 2 + (a + b) ^ 2))) ≤
      ((a + b) * (D ^ 2 - d ^ 2) + b * (D ^ 2 - d ^ 2) - 2 * (a + b) * d * σ) *
        ((d ^ 2 + (a + b) ^ 2) * (D ^ 2 + (a + b) ^ 2)) -
      (a + b) * (D ^ 2 - d ^ 2) *
        (2 * (d * σ + (a + b) * b) * (D ^ 2 + (a + b) ^ 2) + 2 * (a + b) * b * (d ^ 2 + (a + b) ^ 2)) := by
  obtain ⟨w, hw⟩ : ∃ w, w = a + b := ⟨_, rfl⟩
  rw [← hw] at h3 ⊢
  have hw0 : 0 < w := by linarith
  have haw : a ≤ w := by linarith
  have hd0 := abs_nonneg d
  have hs0 := abs_nonneg σ
  have hd2 : |d| ^ 2 = d ^ 2 := sq_abs d
  have hE0 : 0 ≤ D ^ 2 - d ^ 2 := by rw [← hd2]; nlinarith
  have hds : d * σ ≤ |d| * |σ| := by rw [← abs_mul]; exact le_abs_self _
  have hR : 0 ≤ D ^ 2 + w ^ 2 := by positivity
  have hQ : 0 ≤ d ^ 2 + w ^ 2 := by positivity
  have u2 : 2 * w * (d * σ) ≤ 1 / 4 * (w * d ^ 2 + a * w ^ 2) := by
    have g1 : 2 * w * |d| ≤ d ^ 2 + w ^ 2 := by rw [← hd2]; nlinarith [sq_nonneg (|d| - w)]
    have g2 : 2 * w * |d| * (4 * |σ|) ≤ (d ^ 2 + w ^ 2) * a := mul_le_mul g1 h2 (by positivity) (by positivity)
    have g3 : d ^ 2 * a ≤ d ^ 2 * w := mul_le_mul_of_nonneg_left haw (sq_nonneg d)
    have g4 := mul_le_mul_of_nonneg_left hds (show 0 ≤ 2 * w by positivity)
    linarith
  have u3 : 2 * w ^ 2 * b * (d ^ 2 + w ^ 2) ≤ 1 / 4 * ((D ^ 2 + w ^ 2) * (w * d ^ 2 + a * w ^ 2)) := by
    have g1 : 8 * w ^ 2 * b ≤ (D ^ 2 + w ^ 2) * a := by
      have : 0 ≤ w ^ 2 * a := by positivity
      linarith
    have g2 : a * (d ^ 2 + w ^ 2) ≤ w * d ^ 2 + a * w ^ 2 := by
      have := mul_le_mul_of_nonneg_left haw (sq_nonneg d)
      linarith
    have g3 := mul_le_mul_of_nonneg_right g1 hQ
    have g4 := mul_le_mul_of_nonneg_left g2 hR
    linarith
  have v1 := mul_le_mul_of_nonneg_left hds (show 0 ≤ 2 * w * ((d ^ 2 + w ^ 2) * (D ^ 2 + w ^ 2)) by positivity)
  have v2 := mul_le_mul_of_nonneg_right u2 (mul_nonneg hE0 hR)
  have v3 := mul_le_mul_of_nonneg_right u3 hE0
  have v4 : 0 ≤ (D ^ 2 - d ^ 2) * (D ^ 2 + w ^ 2) * (b * d ^ 2) := by positivity
  have v5 : 0 ≤ (D ^ 2 - d ^ 2) * (D ^ 2 + w ^ 2) * (w * d ^ 2 + a * w ^ 2) := by positivity
  have id : (w * (D ^ 2 - d ^ 2) + b * (D ^ 2 - d ^ 2) - 2 * w * d * σ) * ((d ^ 2 + w ^ 2) * (D ^ 2 + w ^ 2)) -
      w * (D ^ 2 - d ^ 2) * (2 * (d * σ + w * b) * (D ^ 2 + w ^ 2) + 2 * w * b * (d ^ 2 + w ^ 2)) =
      (D ^ 2 - d ^ 2) * (D ^ 2 + w ^ 2) * (w * d ^ 2 + a * w ^ 2 + b * d ^ 2) -
        2 * w * ((d ^ 2 + w ^ 2) * (D ^ 2 + w ^ 2)) * (d * σ) -
        2 * w * (d * σ) * ((D ^ 2 - d ^ 2) * (D ^ 2 + w ^ 2)) - 2 * w ^ 2 * b * (d ^ 2 + w ^ 2) * (D ^ 2 - d ^ 2) := by
    have hb' : b = w - a := by linarith
    subst hb'
    ring
  rw [id]
  linarith

/-- Amount of vapour times the profile of a line that the vapour widens and moves, below the cut-off. -/
theorem share_below {a b u s e e' δ : ℝ} (ha : 0 < a) (hb : 0 ≤ b) (he : 0 ≤ e) (hee : e ≤ e') (hδ : 0 ≤ δ)
    (hd : ∀ t ∈ Set.Icc e e', |u + s * t| ≤ 750)
    (h1 : ∀ t ∈ Set.Icc e e', 2 * (a + b * t) * |s * t| ≤ 3 * a) (h2 : ∀ t ∈ Set.Icc e e', 4 * |s * t| ≤ a)
    (h3 : ∀ t ∈ Set.Icc e e', 8 * (a + b * t) ^ 2 * (b * t) ≤ 750 ^ 2 * a)
    (h4 : ∀ t ∈ Set.Icc e e', 2 * (a + b * t) * |s * t| ≤ δ * (747 * 750 ^ 2)) :
    e * (lorentz (a + b * e) (u + s * e) - lorentz (a + b * e) 750) + δ * e ≤
      e' * (lorentz (a + b * e') (u + s * e') - lorentz (a + b * e') 750) + δ * e' := by
  let N : ℝ → ℝ := fun t => t * ((a + b * t) * (750 ^ 2 - (u + s * t) ^ 2))
  let M : ℝ → ℝ := fun t => ((u + s * t) ^ 2 + (a + b * t) ^ 2) * (750 ^ 2 + (a + b * t) ^ 2)
  have hw : ∀ t ∈ Set.Icc e e', 0 < a + b * t := fun t ht => by
    have : 0 ≤ t := he.trans ht.1
    positivity
  have hM : ∀ t ∈ Set.Icc e e', 0 < M t := fun t ht => by
    have := hw t ht
    simp only [M]
    positivity
  have hf : ∀ t ∈ Set.Icc e e', t * (lorentz (a + b * t) (u + s * t) - lorentz (a + b * t) 750) = N t / M t :=
    fun t ht => by
      rw [lorentz_gap (hw t ht)]
      simp only [N, M]
      ring
  rw [hf e ⟨le_rfl, hee⟩, hf e' ⟨hee, le_rfl⟩]
  have hlin : ∀ (p q t : ℝ), HasDerivAt (fun t => p + q * t) q t := fun p q t => by
    simpa using ((hasDerivAt_id t).const_mul q).const_add p
  have hN : ∀ t, HasDerivAt N (1 * ((a + b * t) * (750 ^ 2 - (u + s * t) ^ 2)) +
      t * (b * (750 ^ 2 - (u + s * t) ^ 2) + (a + b * t) * (-(2 * (u + s * t) * s)))) t := fun t => by
    have q : HasDerivAt (fun t => 750 ^ 2 - (u + s * t) ^ 2) (-(2 * (u + s * t) * s)) t := by
      have := ((hlin u s t).fun_pow 2).const_sub (750 ^ 2)
      simpa using this
    exact (hasDerivAt_id t).mul ((hlin a b t).mul q)
  have hMd : ∀ t, HasDerivAt M ((2 * (u + s * t) * s + 2 * (a + b * t) * b) * (750 ^ 2 + (a + b * t) ^ 2) +
      ((u + s * t) ^ 2 + (a + b * t) ^ 2) * (2 * (a + b * t) * b)) t := fun t => by
    have q1 : HasDerivAt (fun t => (u + s * t) ^ 2) (2 * (u + s * t) * s) t := by
      simpa using (hlin u s t).fun_pow 2
    have q2 : HasDerivAt (fun t => (a + b * t) ^ 2) (2 * (a + b * t) * b) t := by
      simpa using (hlin a b t).fun_pow 2
    exact (q1.add q2).mul (q2.const_add (750 ^ 2))
  have hline : ∀ t, HasDerivAt (fun t => δ * t) δ t := fun t => by simpa using (hasDerivAt_id t).const_mul δ
  have mono : MonotoneOn (fun t => N t / M t + δ * t) (Set.Icc e e') := by
    refine monotoneOn_of_deriv_nonneg (convex_Icc e e') (fun t ht => ?_) (fun t ht => ?_) fun t ht => ?_
    · exact (((hN t).fun_div (hMd t) (hM t ht).ne').fun_add (hline t)).continuousAt.continuousWithinAt
    · rw [interior_Icc] at ht
      exact (((hN t).fun_div (hMd t) (hM t ⟨ht.1.le, ht.2.le⟩).ne').fun_add
        (hline t)).differentiableAt.differentiableWithinAt
    · rw [interior_Icc] at ht
      have hi : t ∈ Set.Icc e e' := ⟨ht.1.le, ht.2.le⟩
      have ht0 : 0 ≤ t := he.trans hi.1
      have hbt : 0 ≤ b * t := by positivity
      rw [(((hN t).fun_div (hMd t) (hM t hi).ne').fun_add (hline t)).deriv]
      rcases le_or_gt |u + s * t| 747 with hn | hn
      · refine add_nonneg (div_nonneg ?_ (sq_nonneg _)) hδ
        have key := share_deriv (a := a) (b := b * t) (d := u + s * t) (σ := s * t) (x := 3) (D := 750) ha
          hbt (by norm_num) (by linarith) (h1 t hi) (h2 t hi) (h3 t hi)
        refine key.trans (le_of_eq ?_)
        simp only [N, M]
        ring
      · rw [← neg_le_iff_add_nonneg, le_div_iff₀ (by have := hM t hi; positivity)]
        have key := share_edge (a := a) (b := b * t) (d := u + s * t) (σ := s * t) (D := 750) ha hbt (hd t hi) (h2 t hi)
          (h3 t hi)
        have hw0 := hw t hi
        have hM0 := hM t hi
        have hd0 : 0 < |u + s * t| := by linarith
        have step : 2 * (a + b * t) * (|u + s * t| * |s * t|) ≤ δ * M t := by
          have e1 : 2 * (a + b * t) * |s * t| ≤ δ * (|u + s * t| * 750 ^ 2) :=
            (h4 t hi).trans (mul_le_mul_of_nonneg_left (by nlinarith) hδ)
          have e2 := mul_le_mul_of_nonneg_left e1 hd0.le
          have e3 : |u + s * t| * (|u + s * t| * 750 ^ 2) ≤ M t := by
            have : |u + s * t| * (|u + s * t| * 750 ^ 2) = (u + s * t) ^ 2 * 750 ^ 2 := by rw [← sq_abs (u + s * t)]; ring
            rw [this]
            simp only [M]
            refine mul_le_mul ?_ ?_ (by positivity) (by positivity)
            · have := sq_nonneg (a + b * t); linarith
            · have := sq_nonneg (a + b * t); linarith
          have e4 := mul_le_mul_of_nonneg_left e3 hδ
          linarith
        have step2 := mul_le_mul_of_nonneg_right step hM0.le
        have e5 : -δ * M t ^ 2 = -(δ * M t * M t) := by ring
        rw [e5]
        refine (neg_le_neg step2).trans (le_trans (le_of_eq ?_) (key.trans (le_of_eq ?_)))
        · simp only [M]
        · simp only [N, M]
          ring
  exact mono ⟨le_rfl, hee⟩ ⟨hee, le_rfl⟩ hee

/-- The same for Clough's profile, on both sides of the cut-off. -/
theorem share_mono {a b u s e e' δ : ℝ} (ha : 0 < a) (hb : 0 ≤ b) (he : 0 ≤ e) (hee : e ≤ e') (hδ : 0 ≤ δ)
    (h1 : ∀ t ∈ Set.Icc e e', 2 * (a + b * t) * |s * t| ≤ 3 * a) (h2 : ∀ t ∈ Set.Icc e e', 4 * |s * t| ≤ a)
    (h3 : ∀ t ∈ Set.Icc e e', 8 * (a + b * t) ^ 2 * (b * t) ≤ 750 ^ 2 * a)
    (h4 : ∀ t ∈ Set.Icc e e', 2 * (a + b * t) * |s * t| ≤ δ * (747 * 750 ^ 2)) :
    e * localProfile (a + b * e) (u + s * e) + δ * e ≤ e' * localProfile (a + b * e') (u + s * e') + δ * e' := by
  have hw : ∀ t ∈ Set.Icc e e', 0 < a + b * t := fun t ht => by
    have : 0 ≤ t := he.trans ht.1
    positivity
  have le : e ∈ Set.Icc e e' := ⟨le_rfl, hee⟩
  have ge : e' ∈ Set.Icc e e' := ⟨hee, le_rfl⟩
  have gap : ∀ t ∈ Set.Icc e e', lorentz (a + b * t) (u + s * t) - lorentz (a + b * t) 750 =
      (a + b * t) * (750 ^ 2 - |u + s * t| ^ 2) / (((u + s * t) ^ 2 + (a + b * t) ^ 2) * (750 ^ 2 + (a + b * t) ^ 2)) :=
    fun t ht => by rw [lorentz_gap (hw t ht), sq_abs]
  have hin : ∀ t ∈ Set.Icc e e', |u + s * t| ≤ 750 → localProfile (a + b * t) (u + s * t) =
      lorentz (a + b * t) (u + s * t) - lorentz (a + b * t) 750 := fun t ht h => by
    unfold localProfile
    refine max_eq_right ?_
    rw [gap t ht]
    have : 0 ≤ (750 : ℝ) ^ 2 - |u + s * t| ^ 2 := sub_nonneg.2 (by gcongr)
    have := hw t ht
    positivity
  have hout : ∀ t ∈ Set.Icc e e', 750 ≤ |u + s * t| → localProfile (a + b * t) (u + s * t) = 0 := fun t ht h => by
    unfold localProfile
    refine max_eq_left ?_
    rw [gap t ht]
    have : (750 : ℝ) ^ 2 - |u + s * t| ^ 2 ≤ 0 := sub_nonpos.2 (by gcongr)
    exact div_nonpos_of_nonpos_of_nonneg (mul_nonpos_of_nonneg_of_nonpos (hw t ht).le this) (by positivity)
  -- below the cut-off up to `t`
  have upto : ∀ t, e ≤ t → t ≤ e' → |u + s * e| ≤ 750 → |u + s * t| ≤ 750 →
      e * localProfile (a + b * e) (u + s * e) + δ * e ≤ t * localProfile (a + b * t) (u + s * t) + δ * t := by
    intro t h5 h6 h7 h8
    have sub : Set.Icc e t ⊆ Set.Icc e e' := Set.Icc_subset_Icc_right h6
    rw [hin e le h7, hin t ⟨h5, h6⟩ h8]
    refine share_below ha hb he h5 hδ (fun r hr => ?_) (fun r hr => h1 r (sub hr)) (fun r hr => h2 r (sub hr))
      (fun r hr => h3 r (sub hr)) fun r hr => h4 r (sub hr)
    rw [abs_le] at h7 h8 ⊢
    rcases le_total 0 s with hs | hs
    · have := mul_le_mul_of_nonneg_left hr.1 hs
      have := mul_le_mul_of_nonneg_left hr.2 hs
      constructor <;> linarith
    · have := mul_le_mul_of_nonpos_left hr.1 hs
      have := mul_le_mul_of_nonpos_left hr.2 hs
      constructor <;> linarith
  have hδ' : δ * e ≤ δ * e' := mul_le_mul_of_nonneg_left hee hδ
  rcases le_total |u + s * e| 750 with h5 | h5
  · rcases le_total |u + s * e'| 750 with h6 | h6
    · exact upto e' hee le_rfl h5 h6
    · have hc : ContinuousOn (fun t => |u + s * t|) (Set.Icc e e') := by fun_prop
      obtain ⟨t, ht, h7⟩ := intermediate_value_Icc hee hc ⟨h5, h6⟩
      simp only at h7
      have := upto t ht.1 ht.2 h5 h7.le
      rw [hout t ht h7.ge, mul_zero, zero_add] at this
      rw [hout e' ge h6, mul_zero, zero_add]
      exact this.trans (mul_le_mul_of_nonneg_left ht.2 hδ)
  · rw [hout e le h5, mul_zero, zero_add]
    have : 0 ≤ e' * localProfile (a + b * e') (u + s * e') := mul_nonneg (he.trans hee) (localProfile_nonneg _ _)
    linarith

/-- Width and shift coefficients of a line at one temperature (widths and shifts per mbar of dry air and of vapour), small
enough for the vapour of at most a tenth of at most 1100 mbar. -/
structure Gentle (wa ws sa ss : ℝ) : Prop where
  pos : 0 < wa
  le : wa ≤ ws
  near : 0.2 * (1100 * wa + 110 * ws) * (|sa| + |ss|) ≤ 3 * wa
  slow : 0.4 * (|sa| + |ss|) ≤ wa
  narrow : 8 * (1100 * wa + 110 * ws) ^ 2 * (0.1 * ws) ≤ 750 ^ 2 * wa
  small : (1100 * wa + 110 * ws) * (|sa| + |ss|) ≤ 1 / 25

theorem line_share {wa ws sa ss p κ e e' v k : ℝ} (G : Gentle wa ws sa ss) (hp : 0 < p) (hp' : p ≤ 1100) (hκ : 0 < κ)
    (hκ' : κ ≤ 1) (he : 0 ≤ e) (hee : e ≤ e') (hep : e' ≤ p / 10) (hk : |k| = 1) :
    e * localProfile (wa * (p - κ * e) + ws * (κ * e)) (v + k * (sa * (p - κ * e) + ss * (κ * e))) +
        1 / 125 * p / (747 * 750 ^ 2) * e ≤
      e' * localProfile (wa * (p - κ * e') + ws * (κ * e')) (v + k * (sa * (p - κ * e') + ss * (κ * e'))) +
        1 / 125 * p / (747 * 750 ^ 2) * e' := by
  obtain ⟨g1, g2, g3, g4, g5, g6⟩ := G
  have hws : 0 < ws := g1.trans_le g2
  have hsa := abs_nonneg sa
  have hss := abs_nonneg ss
  have ew : ∀ t, wa * (p - κ * t) + ws * (κ * t) = wa * p + (ws - wa) * κ * t := fun t => by ring
  have es : ∀ t, v + k * (sa * (p - κ * t) + ss * (κ * t)) = v + k * (sa * p) + k * ((ss - sa) * κ) * t := fun t => by ring
  have hpv : ∀ t ∈ Set.Icc e e', 0 ≤ κ * t ∧ κ * t ≤ p / 10 := fun t ht => by
    have h0 : 0 ≤ t := he.trans ht.1
    have h1 : t ≤ p / 10 := ht.2.trans hep
    exact ⟨by positivity, (mul_le_of_le_one_left h0 hκ').trans h1⟩
  have hσ : ∀ t ∈ Set.Icc e e', |k * ((ss - sa) * κ) * t| ≤ (|sa| + |ss|) * (p / 10) := fun t ht => by
    obtain ⟨q1, q2⟩ := hpv t ht
    have : k * ((ss - sa) * κ) * t = k * ((ss - sa) * (κ * t)) := by ring
    rw [this, abs_mul, hk, one_mul, abs_mul, abs_of_nonneg q1]
    have h := abs_sub ss sa
    exact mul_le_mul (by linarith) q2 q1 (by positivity)
  have hW : ∀ t ∈ Set.Icc e e', 0 ≤ wa * p + (ws - wa) * κ * t ∧
      wa * p + (ws - wa) * κ * t ≤ 1100 * wa + 110 * ws := fun t ht => by
    obtain ⟨q1, q2⟩ := hpv t ht
    rw [← ew]
    have h0 : 0 ≤ p - κ * t := by linarith
    have h1 := mul_le_mul_of_nonneg_left (show p - κ * t ≤ 1100 by linarith) g1.le
    have h2 := mul_le_mul_of_nonneg_left (show κ * t ≤ 110 by linarith) hws.le
    exact ⟨by positivity, by linarith⟩
  have hb : 0 ≤ (ws - wa) * κ := mul_nonneg (by linarith) hκ.le
  have hWS : ∀ t ∈ Set.Icc e e', (wa * p + (ws - wa) * κ * t) * |k * ((ss - sa) * κ) * t| ≤
      (1100 * wa + 110 * ws) * ((|sa| + |ss|) * (p / 10)) := fun t ht => by
    obtain ⟨w0, w1⟩ := hW t ht
    exact mul_le_mul w1 (hσ t ht) (abs_nonneg _) (w0.trans w1)
  rw [ew, ew, es, es]
  refine share_mono (by positivity) hb he hee (by positivity) (fun t ht => ?_) (fun t ht => ?_) (fun t ht => ?_)
    fun t ht => ?_
  · have h1 := hWS t ht
    have h2 := mul_le_mul_of_nonneg_right g3 hp.le
    linarith
  · have h1 := hσ t ht
    have h2 := mul_le_mul_of_nonneg_right g4 hp.le
    linarith
  · obtain ⟨w0, w1⟩ := hW t ht
    obtain ⟨q1, q2⟩ := hpv t ht
    have h0 : (ws - wa) * κ * t ≤ ws * (p / 10) := by
      rw [mul_assoc]
      exact mul_le_mul (by linarith) q2 q1 hws.le
    have h00 : 0 ≤ (ws - wa) * κ * t := mul_nonneg hb (he.trans ht.1)
    have h1 : (wa * p + (ws - wa) * κ * t) ^ 2 ≤ (1100 * wa + 110 * ws) ^ 2 := by gcongr
    have h2 := mul_le_mul h1 h0 h00 (by positivity)
    have h3 := mul_le_mul_of_nonneg_right g5 hp.le
    linarith
  · have h1 := hWS t ht
    have h2 := mul_le_mul_of_nonneg_right g6 hp.le
    rw [div_mul_cancel₀ _ (by norm_num)]
    linarith

/-! ## The shipped line lists -/

/-- Size of a number. -/
def size (q : ℚ) : ℚ := if q < 0 then -q else q

/-- Bounds of the shift coefficients where 0.88 ≤ θ ≤ 1.5. -/
def shiftBounds (m : String) (g : String → ℚ) : ℚ × ℚ :=
  if m = "R98" then (0, 0)
  else if m = "R03" then (size (g "sr") * ((3 / 2) * g "w0"), size (g "sr") * ((46 / 25) * g "w0s"))
  else if m = "R16" ∨ m = "R17" then (size (g "sr") * ((3 / 2) * g "w0"), 0)
  else if m = "R18" then (size (g "sh") * (27 / 8), size (g "shs") * (46 / 25))
  else (size (g "sh") * (27 / 8) * (1 + (1 / 2) * size (g "aair")), size (g "shs") * (46 / 25) * (1 + (1 / 2) * size (g "aself")))

/-- The test of one line. -/
def gentleLine (m : String) (g : String → ℚ) : Bool :=
  let s := shiftBounds m g
  decide (0 < g "w0" ∧ 0 ≤ g "x" ∧ g "x" ≤ 1 ∧ 0 ≤ g "xs" ∧ g "xs" ≤ 3 / 2 ∧ (3 / 2) * g "w0" ≤ (41 / 50) * g "w0s" ∧
    (1 / 5) * (1650 * g "w0" + 203 * g "w0s") * (s.1 + s.2) ≤ (66 / 25) * g "w0" ∧ (2 / 5) * (s.1 + s.2) ≤ (22 / 25) * g "w0" ∧
    8 * (1650 * g "w0" + 203 * g "w0s") ^ 2 * ((23 / 125) * g "w0s") ≤ 495000 * g "w0" ∧ (1650 * g "w0" + 203 * g "w0s") * (s.1 + s.2) ≤ 1 / 25 ∧
    296 ≤ g "reftline" ∧ g "reftline" ≤ 300 ∧ 0 < g "s1" ∧ g "s1" ≤ 6 / 10 ^ 15 * (g "fl" * g "fl") ∧ 0 ≤ g "b2" ∧
    g "b2" ≤ 8 ∧
    (m = "R18" ∨ m = "R19" ∨ m = "R20" → 0 ≤ g "xh" ∧ g "xh" ≤ 3 ∧ 0 ≤ g "xhs" ∧ g "xhs" ≤ 3 / 2))

/-- The attributes that the test reads. -/
def gentleReads (m : String) : List String :=
  ["w0", "x", "w0s", "xs", "reftline", "s1", "fl", "b2"] ++ (if m ∈ ["R03", "R16", "R17"] then ["sr"] else []) ++
  (if m ∈ ["R18", "R19", "R20"] then ["sh", "xh", "shs", "xhs"] else []) ++
  (if m ∈ ["R19", "R20"] then ["aair", "aself"] else []) ++ ["reftcon", "cf", "xcf", "cs"]

/-- Entry `k` of an attribute; only used on attributes that exist. -/
def lineEntry (m : String) (T : RawTable) (k : ℕ) (a : String) : ℚ := ((ratAttr (waterAssign m) T a).map (· k)).getD 0

def gentleTable (m : String) (T : RawTable) : Bool :=
  (gentleReads m).all (fun a => (ratAttr (waterAssign m) T a).isSome) &&
  ((List.range T.rows).all fun k => gentleLine m (lineEntry m T k)) &&
  decide (T.rows ≤ 16 ∧ lineEntry m T 0 "reftcon" = 300 ∧ 5 / 10 ^ 10 ≤ lineEntry m T 0 "cf" ∧ lineEntry m T 0 "xcf" = 3 ∧
    0 < lineEntry m T 0 "cs")


set_option maxRecDepth 10000 in
theorem waterGroups_gentle : ∀ g ∈ waterGroups, g.1 ∈ ["R98", "R03", "R16", "R17", "R18", "R19", "R20"] →
    gentleTable g.1 g.2 = true := by decide +kernel

theorem size_abs (q : ℚ) : ((size q : ℚ) : ℝ) = |(q : ℝ)| := by
  unfold size
  split_ifs with h
  · rw [abs_of_neg (by exact_mod_cast h)]; push_cast; rfl
  · rw [abs_of_nonneg (by exact_mod_cast not_lt.1 h)]

/-- Powers of the inverse temperature. -/
theorem theta_pow {θ x : ℝ} (h1 : 0.88 ≤ θ) (h2 : θ ≤ 1.5) (hx : 0 ≤ x) :
    (x ≤ 1 → 0.88 ≤ θ ^ x ∧ θ ^ x ≤ 1.5) ∧ (x ≤ 3 / 2 → 0.82 ≤ θ ^ x ∧ θ ^ x ≤ 1.84) ∧ (x ≤ 3 → θ ^ x ≤ 3.375) := by
  have h0 : 0 < θ := by linarith
  have up : ∀ y, x ≤ y → θ ^ x ≤ (1.5 : ℝ) ^ y := fun y hy =>
    (rpow_le_rpow h0.le h2 hx).trans (rpow_le_rpow_of_exponent_le (by norm_num) hy)
  have lo : ∀ y, x ≤ y → (0.88 : ℝ) ^ y ≤ θ ^ x := fun y hy =>
    (rpow_le_rpow_of_exponent_ge (by norm_num) (by norm_num) hy).trans (rpow_le_rpow (by norm_num) h1 hx)
  refine ⟨fun h => ⟨?_, ?_⟩, fun h => ⟨?_, ?_⟩, fun h => ?_⟩
  · simpa using lo 1 h
  · simpa using up 1 h
  · refine le_trans ?_ (lo (3 / 2) h)
    have e : ((0.88 : ℝ) ^ (3 / 2 : ℝ)) ^ 2 = 0.88 ^ 3 := by
      rw [← rpow_natCast, ← rpow_mul (by norm_num)]; norm_num
    exact (pow_le_pow_iff_left₀ (by norm_num) (by positivity) two_ne_zero).1 (by rw [e]; norm_num)
  · refine (up (3 / 2) h).trans ?_
    have e : ((1.5 : ℝ) ^ (3 / 2 : ℝ)) ^ 2 = 1.5 ^ 3 := by
      rw [← rpow_natCast, ← rpow_mul (by norm_num)]; norm_num
    exact (pow_le_pow_iff_left₀ (by positivity) (by norm_num) two_ne_zero).1 (by rw [e]; norm_num)
  · refine (up 3 h).trans ?_
    have : (1.5 : ℝ) ^ (3 : ℝ) = 1.5 ^ 3 := by exact_mod_cast rpow_natCast (1.5 : ℝ) 3
    rw [this]; norm_num

theorem theta_log {θ : ℝ} (h1 : 0.88 ≤ θ) (h2 : θ ≤ 1.5) : |log θ| ≤ 1 / 2 := by
  have h0 : 0 < θ := by linarith
  rw [abs_le]
  constructor
  · have := one_sub_inv_le_log_of_pos h0
    have : θ⁻¹ ≤ (0.88 : ℝ)⁻¹ := inv_anti₀ (by norm_num) h1
    norm_num at this ⊢
    linarith
  · have := log_le_sub_one_of_pos h0
    linarith

/-- From bounds of the coefficients to the inequalities of `Gentle`. -/
theorem gentle_of_bounds {w0 w0s a b sa ss A S : ℝ} (h0 : 0 < w0) (h1 : 3 / 2 * w0 ≤ 41 / 50 * w0s)
    (h2 : 1 / 5 * (1650 * w0 + 203 * w0s) * (A + S) ≤ 66 / 25 * w0) (h3 : 2 / 5 * (A + S) ≤ 22 / 25 * w0)
    (h4 : 8 * (1650 * w0 + 203 * w0s) ^ 2 * (23 / 125 * w0s) ≤ 495000 * w0) (h5 : (1650 * w0 + 203 * w0s) * (A + S) ≤ 1 / 25)
    (ha : 0.88 ≤ a ∧ a ≤ 1.5) (hb : 0.82 ≤ b ∧ b ≤ 1.84) (hA : |sa| ≤ A) (hS : |ss| ≤ S) :
    Gentle (w0 * a) (w0s * b) sa ss := by
  obtain ⟨a1, a2⟩ := ha
  obtain ⟨b1, b2⟩ := hb
  have hs0 : 0 < w0s := by linarith
  have u1 : 0.88 * w0 ≤ w0 * a := by have := mul_le_mul_of_nonneg_left a1 h0.le; linarith
  have u2 : w0 * a ≤ 1.5 * w0 := by have := mul_le_mul_of_nonneg_left a2 h0.le; linarith
  have u3 : 0.82 * w0s ≤ w0s * b := by have := mul_le_mul_of_nonneg_left b1 hs0.le; linarith
  have u4 : w0s * b ≤ 1.84 * w0s := by have := mul_le_mul_of_nonneg_left b2 hs0.le; linarith
  have p1 : 0 < w0 * a := by linarith
  have p2 : 0 < w0s * b := by linarith
  have n1 := abs_nonneg sa
  have n2 := abs_nonneg ss
  have hW : 1100 * (w0 * a) + 110 * (w0s * b) ≤ 1650 * w0 + 203 * w0s := by linarith
  have hW0 : 0 ≤ 1100 * (w0 * a) + 110 * (w0s * b) := by positivity
  have hWS := mul_le_mul hW (show |sa| + |ss| ≤ A + S by linarith) (by positivity) (hW0.trans hW)
  refine ⟨p1, by linarith, by linarith, by linarith, ?_, by linarith⟩
  · have q1 : (1100 * (w0 * a) + 110 * (w0s * b)) ^ 2 ≤ (1650 * w0 + 203 * w0s) ^ 2 := by gcongr
    have q2 := mul_le_mul q1 (show 0.1 * (w0s * b) ≤ 23 / 125 * w0s by linarith) (by positivity) (by positivity)
    linarith

theorem shift_term {s x θ : ℝ} (hθ : 0 < θ) {B : ℝ} (h : θ ^ x ≤ B) : |s * θ ^ x| ≤ |s| * B := by
  rw [abs_mul, abs_of_pos (rpow_pos_of_pos hθ x)]
  exact mul_le_mul_of_nonneg_left h (abs_nonneg s)

theorem shift_factor {s x θ a : ℝ} (hθ : 0 < θ) {B : ℝ} (h : θ ^ x ≤ B) (hl : |log θ| ≤ 1 / 2) :
    |s * θ ^ x * (1 - a * log θ)| ≤ |s| * B * (1 + 1 / 2 * |a|) := by
  rw [abs_mul]
  have hB : 0 ≤ B := (rpow_pos_of_pos hθ x).le.trans h
  refine mul_le_mul (shift_term hθ h) ?_ (abs_nonneg _) (by positivity)
  refine (abs_sub _ _).trans ?_
  rw [abs_one, abs_mul]
  have := mul_le_mul_of_nonneg_left hl (abs_nonneg a)
  linarith

/-- Every line of the shipped lists, at temperatures from 200 K to 330 K. -/
theorem gentle_of_file {m : String} (hm : m ∈ plainWater) {F : LineList} (hF : waterFile m = some F)
    {c : String → ℕ → ℝ} {n : ℕ} (hc : ∀ a v, F a = some v → c a = v) (hn : F "len(fl)" = some fun _ => (n : ℝ)) {T : ℝ}
    (hT : 200 ≤ T) (hT' : T ≤ 330) {i : ℕ} (hi : i < n) :
    ∃ sa ss, Gentle (c "w0" i * (c "reftline" 0 / T) ^ c "x" i) (c "w0s" i * (c "reftline" 0 / T) ^ c "xs" i) sa ss ∧
      (∀ pd pv, lineShift m c (c "reftline" 0 / T) pd pv i = sa * pd + ss * pv) ∧
      0 < strength c (c "reftline" 0 / T) i ∧ strength c (c "reftline" 0 / T) i ≤ 6e-14 * c "fl" i ^ 2 := by
  unfold waterFile at hF
  cases hl : waterGroups.lookup m with
  | none => simp [hl] at hF
  | some R =>
    rw [hl, Option.map_some, Option.some_inj] at hF
    have hmem : (m, R) ∈ waterGroups := by
      obtain ⟨l₁, l₂, h, -⟩ := List.lookup_eq_some_iff.1 hl
      simp [h]
    have hrow : n = R.rows := by
      rw [← hF] at hn
      simp only [waterGroups_len, Option.bind_some, Src.val, Option.some.injEq] at hn
      have := congrFun hn 0
      exact_mod_cast this.symm
    have hg := waterGroups_gentle _ hmem hm
    unfold gentleTable at hg
    rw [Bool.and_eq_true, Bool.and_eq_true, List.all_eq_true, List.all_eq_true] at hg
    obtain ⟨⟨hg1, hg2⟩, -⟩ := hg
    have hline := hg2 i (List.mem_range.2 (hrow ▸ hi))
    have cv : ∀ a ∈ gentleReads m, ∀ k, c a k = (lineEntry m R k a : ℝ) := fun a ha k => by
      obtain ⟨r, hr⟩ := Option.isSome_iff_exists.1 (hg1 a ha)
      have := hc a _ (by rw [← hF]; exact ratAttr_val hr)
      rw [this]
      unfold lineEntry
      simp only at hr
      rw [hr]
      rfl
    have hreft : c "reftline" 0 = (lineEntry m R i "reftline" : ℝ) := by
      rw [cv "reftline" (by simp [gentleReads]) 0]
      have : lastAssign (waterAssign m) "reftline" = some .reft := by
        simp only [plainWater, List.mem_cons, List.not_mem_nil, or_false] at hm
        rcases hm with rfl | rfl | rfl | rfl | rfl | rfl | rfl <;> decide +kernel
      unfold lineEntry ratAttr
      rw [this]
      simp only [Option.bind_some, srcRat]
      split_ifs <;> rfl
    unfold gentleLine at hline
    simp only [decide_eq_true_eq] at hline
    obtain ⟨k1, k2, k3, k4, k5, k6, k7, k8, k9, k10, k11, k12, k14, k15, k16, k17, k13⟩ := hline
    have hT0 : 0 < T := by linarith
    have q11 : (296 : ℝ) ≤ lineEntry m R i "reftline" := by exact_mod_cast k11
    have q12 : (lineEntry m R i "reftline" : ℝ) ≤ 300 := by exact_mod_cast k12
    set θ := c "reftline" 0 / T with hθ
    have t1 : 0.88 ≤ θ := by rw [hθ, hreft, le_div_iff₀ hT0]; linarith
    have t2 : θ ≤ 1.5 := by rw [hθ, hreft, div_le_iff₀ hT0]; linarith
    have t0 : 0 < θ := by linarith
    have tl := theta_log t1 t2
    have ew := cv "w0" (by simp [gentleReads]) i
    have ex := cv "x" (by simp [gentleReads]) i
    have ews := cv "w0s" (by simp [gentleReads]) i
    have exs := cv "xs" (by simp [gentleReads]) i
    have px := (theta_pow t1 t2 (x := c "x" i) (by rw [ex]; exact_mod_cast k2)).1 (by rw [ex]; exact_mod_cast k3)
    have pxs := (theta_pow t1 t2 (x := c "xs" i) (by rw [exs]; exact_mod_cast k4)).2.1 (by
      rw [exs]
      have : ((lineEntry m R i "xs" : ℚ) : ℝ) ≤ ((3 / 2 : ℚ) : ℝ) := by exact_mod_cast k5
      push_cast at this
      exact this)
    have fin : ∀ sa ss : ℝ, |sa| ≤ ((shiftBounds m (lineEntry m R i)).1 : ℝ) → |ss| ≤ ((shiftBounds m (lineEntry m R i)).2 : ℝ) →
        Gentle (c "w0" i * θ ^ c "x" i) (c "w0s" i * θ ^ c "xs" i) sa ss := fun sa ss hA hS => by
      rw [ew, ews]
      refine gentle_of_bounds ?_ ?_ ?_ ?_ ?_ ?_ px pxs hA hS
      · exact_mod_cast k1
      · have := (Rat.cast_le (K := ℝ)).2 k6; push_cast at this; exact this
      · have := (Rat.cast_le (K := ℝ)).2 k7; push_cast at this; exact this
      · have := (Rat.cast_le (K := ℝ)).2 k8; push_cast at this; exact this
      · have := (Rat.cast_le (K := ℝ)).2 k9; push_cast at this; exact this
      · have := (Rat.cast_le (K := ℝ)).2 k10; push_cast at this; exact this
    have hw0 : 0 < c "w0" i := by rw [ew]; exact_mod_cast k1
    have hw0s : 0 < c "w0s" i := by
      rw [ews]
      have : (0 : ℚ) < lineEntry m R i "w0s" := by linarith
      exact_mod_cast this
    have es1 := cv "s1" (by simp [gentleReads]) i
    have efl := cv "fl" (by simp [gentleReads]) i
    have eb2 := cv "b2" (by simp [gentleReads]) i
    have hs1 : 0 < c "s1" i := by rw [es1]; exact_mod_cast k14
    have hs2 : c "s1" i ≤ 6e-15 * c "fl" i ^ 2 := by
      rw [es1, efl]
      have := (Rat.cast_le (K := ℝ)).2 k15
      push_cast at this
      rw [sq]
      norm_num at this ⊢
      linarith
    have hb1 : 0 ≤ c "b2" i := by rw [eb2]; exact_mod_cast k16
    have hb2 : c "b2" i ≤ 8 := by rw [eb2]; exact_mod_cast k17
    have hS0 : 0 < strength c θ i := by
      unfold strength
      have := rpow_pos_of_pos t0 (5 / 2 : ℝ)
      positivity
    have hS1 : strength c θ i ≤ 6e-14 * c "fl" i ^ 2 := by
      have a1 := (theta_pow t1 t2 (x := 5 / 2) (by norm_num)).2.2 (by norm_num)
      have a2 : exp (c "b2" i * (1 - θ)) ≤ 2.7182818286 := by
        refine (exp_le_exp.2 (show c "b2" i * (1 - θ) ≤ 1 by nlinarith)).trans exp_one_lt_d9.le
      unfold strength
      have a0 := rpow_pos_of_pos t0 (5 / 2 : ℝ)
      have b1 : c "s1" i * θ ^ (5 / 2 : ℝ) ≤ 6e-15 * c "fl" i ^ 2 * 3.375 := mul_le_mul hs2 a1 a0.le (by positivity)
      have b2 := mul_le_mul b1 a2 (exp_pos _).le (by positivity)
      have b3 := sq_nonneg (c "fl" i)
      linarith
    simp only [plainWater, List.mem_cons, List.not_mem_nil, or_false] at hm
    suffices hsuff : ∃ sa ss, Gentle (c "w0" i * θ ^ c "x" i) (c "w0s" i * θ ^ c "xs" i) sa ss ∧
        ∀ pd pv, lineShift m c θ pd pv i = sa * pd + ss * pv by
      obtain ⟨sa, ss, z1, z2⟩ := hsuff
      exact ⟨sa, ss, z1, z2, hS0, hS1⟩
    have sr : ∀ B y w : ℝ, 0 < w → θ ^ y ≤ B → |c "sr" i * (w * θ ^ y)| ≤ |c "sr" i| * (B * w) := fun B y w hw h => by
      rw [abs_mul, abs_of_pos (mul_pos hw (rpow_pos_of_pos t0 y)), mul_comm B]
      exact mul_le_mul_of_nonneg_left (mul_le_mul_of_nonneg_left h hw.le) (abs_nonneg _)
    rcases hm with rfl | rfl | rfl | rfl | hm
    · refine ⟨0, 0, fin 0 0 ?_ ?_, fun pd pv => by simp [lineShift]⟩ <;> simp [shiftBounds]
    · have es := cv "sr" (by simp [gentleReads]) i
      refine ⟨c "sr" i * (c "w0" i * θ ^ c "x" i), c "sr" i * (c "w0s" i * θ ^ c "xs" i), fin _ _ ?_ ?_, fun pd pv => by
        simp [lineShift, halfWidth]; ring⟩
      · refine (sr _ _ _ hw0 px.2).trans (le_of_eq ?_)
        simp only [shiftBounds]
        simp
        rw [size_abs, es, ew]
        norm_num
      · refine (sr _ _ _ hw0s pxs.2).trans (le_of_eq ?_)
        simp only [shiftBounds]
        simp
        rw [size_abs, es, ews]
        norm_num
    · have es := cv "sr" (by simp [gentleReads]) i
      refine ⟨c "sr" i * (c "w0" i * θ ^ c "x" i), 0, fin _ _ ?_ ?_, fun pd pv => by
        simp [lineShift]; ring⟩
      · refine (sr _ _ _ hw0 px.2).trans (le_of_eq ?_)
        simp only [shiftBounds]
        simp
        rw [size_abs, es, ew]
        norm_num
      · simp [shiftBounds]
    · have es := cv "sr" (by simp [gentleReads]) i
      refine ⟨c "sr" i * (c "w0" i * θ ^ c "x" i), 0, fin _ _ ?_ ?_, fun pd pv => by
        simp [lineShift]; ring⟩
      · refine (sr _ _ _ hw0 px.2).trans (le_of_eq ?_)
        simp only [shiftBounds]
        simp
        rw [size_abs, es, ew]
        norm_num
      · simp [shiftBounds]
    · obtain ⟨l1, l2, l3, l4⟩ := k13 hm
      have hr : ∀ a ∈ ["sh", "xh", "shs", "xhs"], a ∈ gentleReads m := by
        rcases hm with rfl | rfl | rfl <;> decide
      have e1 := cv "sh" (hr _ (by simp)) i
      have e2 := cv "xh" (hr _ (by simp)) i
      have e3 := cv "shs" (hr _ (by simp)) i
      have e4 := cv "xhs" (hr _ (by simp)) i
      have pxh := (theta_pow t1 t2 (x := c "xh" i) (by rw [e2]; exact_mod_cast l1)).2.2 (by rw [e2]; exact_mod_cast l2)
      have pxhs := (theta_pow t1 t2 (x := c "xhs" i) (by rw [e4]; exact_mod_cast l3)).2.1 (by
        rw [e4]
        have : ((lineEntry m R i "xhs" : ℚ) : ℝ) ≤ ((3 / 2 : ℚ) : ℝ) := by exact_mod_cast l4
        push_cast at this
        exact this)
      rcases hm with rfl | hm
      · refine ⟨c "sh" i * θ ^ c "xh" i, c "shs" i * θ ^ c "xhs" i, fin _ _ ?_ ?_, fun pd pv => by simp [lineShift]⟩
        · refine (shift_term t0 pxh).trans (le_of_eq ?_)
          simp only [shiftBounds]
          simp
          rw [size_abs, e1]
          norm_num
        · refine (shift_term t0 pxhs.2).trans (le_of_eq ?_)
          simp only [shiftBounds]
          simp
          rw [size_abs, e3]
          norm_num
      · have hr : ∀ a ∈ ["aair", "aself"], a ∈ gentleReads m := by
          rcases hm with rfl | rfl <;> decide
        have e5 := cv "aair" (hr _ (by simp)) i
        have e6 := cv "aself" (hr _ (by simp)) i
        have sb : shiftBounds m (lineEntry m R i) = (size (lineEntry m R i "sh") * (27 / 8) * (1 + (1 / 2) * size (lineEntry m R i "aair")),
            size (lineEntry m R i "shs") * (46 / 25) * (1 + (1 / 2) * size (lineEntry m R i "aself"))) := by
          rcases hm with rfl | rfl <;> simp [shiftBounds]
        refine ⟨c "sh" i * θ ^ c "xh" i * (1 - c "aair" i * log θ), c "shs" i * θ ^ c "xhs" i * (1 - c "aself" i * log θ),
          fin _ _ ?_ ?_, fun pd pv => by rcases hm with rfl | rfl <;> simp [lineShift]⟩
        · refine (shift_factor t0 pxh tl).trans (le_of_eq ?_)
          rw [sb]
          push_cast
          rw [size_abs, size_abs, e1, e5]
          norm_num
        · refine (shift_factor t0 pxhs.2 tl).trans (le_of_eq ?_)
          rw [sb]
          push_cast
          rw [size_abs, size_abs, e3, e6]
          norm_num

/-- Number of lines and foreign continuum of the shipped lists. -/
theorem gentle_continuum {m : String} (hm : m ∈ plainWater) {F : LineList} (hF : waterFile m = some F)
    {c : String → ℕ → ℝ} {n : ℕ} (hc : ∀ a v, F a = some v → c a = v) (hn : F "len(fl)" = some fun _ => (n : ℝ)) :
    n ≤ 16 ∧ c "reftcon" 0 = 300 ∧ 5e-10 ≤ c "cf" 0 ∧ c "xcf" 0 = 3 ∧ 0 < c "cs" 0 := by
  unfold waterFile at hF
  cases hl : waterGroups.lookup m with
  | none => simp [hl] at hF
  | some R =>
    rw [hl, Option.map_some, Option.some_inj] at hF
    have hmem : (m, R) ∈ waterGroups := by
      obtain ⟨l₁, l₂, h, -⟩ := List.lookup_eq_some_iff.1 hl
      simp [h]
    have hrow : n = R.rows := by
      rw [← hF] at hn
      simp only [waterGroups_len, Option.bind_some, Src.val, Option.some.injEq] at hn
      have := congrFun hn 0
      exact_mod_cast this.symm
    have hg := waterGroups_gentle _ hmem hm
    unfold gentleTable at hg
    rw [Bool.and_eq_true, Bool.and_eq_true, List.all_eq_true, List.all_eq_true, decide_eq_true_eq] at hg
    obtain ⟨⟨hg1, -⟩, k1, k2, k3, k4, k5⟩ := hg
    have cv : ∀ a ∈ ["reftcon", "cf", "xcf", "cs"], c a 0 = (lineEntry m R 0 a : ℝ) := fun a ha => by
      obtain ⟨r, hr⟩ := Option.isSome_iff_exists.1 (hg1 a (by unfold gentleReads; simp only [List.mem_append]; exact Or.inr ha))
      have := hc a _ (by rw [← hF]; exact ratAttr_val hr)
      rw [this]
      unfold lineEntry
      simp only at hr
      rw [hr]
      rfl
    rw [cv "reftcon" (by simp), cv "cf" (by simp), cv "xcf" (by simp), cv "cs" (by simp)]
    refine ⟨hrow ▸ k1, by exact_mod_cast k2, ?_, by exact_mod_cast k4, by exact_mod_cast k5⟩
    have := (Rat.cast_le (K := ℝ)).2 k3
    push_cast at this
    norm_num at this ⊢
    linarith

end Verif.Lemmas
