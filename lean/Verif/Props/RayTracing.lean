import Verif.Lemmas.RayTracing
import Verif.Spec.Ray
import Mathlib.Analysis.Real.Pi.Bounds

/-!
# C21, C22: ray tracing
-/

namespace Verif.Props

open Verif.Py Verif.Spec Verif.Model Real

variable {I : RayIn}

/-! ## C21 -/

/-- A path is refused (`None`) exactly when some refractive index is below 1. -/
theorem C21_refused_iff : rayTracing I = none ↔ ∃ i < I.nl, I.refindx i < 1 := by
  unfold rayTracing
  constructor
  · intro h
    by_contra hn
    rw [if_neg hn] at h
    split_ifs at h
  · intro h; rw [if_pos h]

/-- Within one degree of zenith (or nadir) the increments are the height differences and add up to the total
height difference. -/
theorem C21_zenith (hnl : 1 ≤ I.nl) (hn : ∀ i < I.nl, 1 ≤ I.refindx i)
    (ha : (89 ≤ I.angle ∧ I.angle ≤ 91) ∨ (-91 ≤ I.angle ∧ I.angle ≤ -89)) :
    ∃ d : ℕ → ℝ, rayTracing I = some (fun i => some (d i)) ∧ d 0 = 0 ∧
      (∀ i, 1 ≤ i → i < I.nl → d i = I.z i - I.z (i - 1)) ∧
      ∑ i ∈ Finset.range I.nl, d i = I.z (I.nl - 1) - I.z 0 := by
  have hnone : ¬ ∃ i < I.nl, I.refindx i < 1 := by push Not; exact hn
  have key : ∀ n, 1 ≤ n → forRange 1 n
      (fun i ds => Function.update ds i (some (I.z i - I.z (i - 1)))) (fun _ => some (0:ℝ)) =
      fun i => some (if 1 ≤ i ∧ i < n then I.z i - I.z (i - 1) else 0) := by
    intro n h1
    induction n, h1 using Nat.le_induction with
    | base => funext i; rw [forRange_self, if_neg (by omega)]
    | succ n hn ih =>
      rw [forRange_succ hn, ih]
      funext i
      rw [Function.update_apply]
      split_ifs with h2 h3 h4 h5 h6 <;> first | rfl | (subst h2; rfl) | (exfalso; omega)
  refine ⟨fun i => if 1 ≤ i ∧ i < I.nl then I.z i - I.z (i - 1) else 0, ?_, ?_, ?_, ?_⟩
  · unfold rayTracing
    have hz : nearZenith I.angle := ha
    rw [if_neg hnone, if_pos hz, key _ hnl]
  · exact if_neg (by omega)
  · intro i h1 h2; exact if_pos ⟨h1, h2⟩
  · have : ∀ n, 1 ≤ n → n ≤ I.nl → ∑ i ∈ Finset.range n,
        (if 1 ≤ i ∧ i < I.nl then I.z i - I.z (i - 1) else 0) = I.z (n - 1) - I.z 0 := by
      intro n h1
      induction n, h1 using Nat.le_induction with
      | base => intro _; simp
      | succ n hn ih =>
        intro hle
        rw [Finset.sum_range_succ, ih (by omega), if_pos (by omega)]
        simp
    exact this _ hnl le_rfl

/-- At any other elevation: the ray is followed up to some level `k` (all levels unless ducting is met at
layer `k`); every finite increment below `k` is at least the layer thickness, and increments from `k` on are 0.
The hypothesis on `dtau` says the bending of every layer is below a full turn. -/
theorem C21_slant_ge (hnl : 1 ≤ I.nl) (hn : ∀ i < I.nl, 1 ≤ I.refindx i)
    (ha : ¬ ((89 ≤ I.angle ∧ I.angle ≤ 91) ∨ (-91 ≤ I.angle ∧ I.angle ≤ -89)))
    (hr : ∀ i < I.nl, 0 < cEarthRadius + I.z i + I.z0)
    (hb : ∀ i b, (raySlant I).dtau i = some b → |b| < 2 * π) :
    ∃ ds k, rayTracing I = some ds ∧ 1 ≤ k ∧ k ≤ I.nl ∧ (k < I.nl → I.argth k ≤ 0) ∧
      (∀ i, 1 ≤ i → i < k → 0 < I.argth i) ∧
      (∀ i d, 1 ≤ i → i < k → ds i = some d → |I.z i - I.z (i - 1)| ≤ d) ∧
      (∀ i, (i < 1 ∨ k ≤ i) → ds i = some 0) := by
  have hnone : ¬ ∃ i < I.nl, I.refindx i < 1 := by push Not; exact hn
  obtain ⟨k, h1, h2, h3, h4, h5, h6⟩ := raySlant_shape I hnl
    (fun i L d L' dt => 0 < I.r i → 0 < L.rl → |dt| < 2 * π → |I.z i - I.z (i - 1)| ≤ d)
    (fun i L d L' dt h a b c => rayLayer_ge h a b c)
  refine ⟨(raySlant I).ds, k, ?_, h1, h2, h3, h4, ?_, h5⟩
  · unfold rayTracing
    have hz : ¬ nearZenith I.angle := ha
    rw [if_neg hnone, if_neg hz]
  · intro i d hi1 hi2 hd
    rcases h6 i hi1 hi2 with ⟨hh, -⟩ | ⟨L, d', L', dt, e1, e2, hP, hrl⟩
    · rw [hh] at hd; cases hd
    · rw [e1] at hd; cases hd
      exact hP (hr i (by omega)) (by rw [hrl]; exact hr _ (by omega)) (hb i dt e2)

/-- For a constant refractive index there is no bending, so no such hypothesis is needed. -/
theorem C21_slant_ge_constant (hnl : 1 ≤ I.nl) {n : ℝ} (hn1 : 1 ≤ n) (hn : ∀ i < I.nl, I.refindx i = n)
    (ha : ¬ ((89 ≤ I.angle ∧ I.angle ≤ 91) ∨ (-91 ≤ I.angle ∧ I.angle ≤ -89)))
    (hr : ∀ i < I.nl, 0 < cEarthRadius + I.z i + I.z0) :
    ∃ ds k, rayTracing I = some ds ∧ 1 ≤ k ∧ k ≤ I.nl ∧ (k < I.nl → I.argth k ≤ 0) ∧
      (∀ i d, 1 ≤ i → i < k → ds i = some d → |I.z i - I.z (i - 1)| ≤ d) ∧
      (∀ i, (i < 1 ∨ k ≤ i) → ds i = some 0) := by
  have hnone : ¬ ∃ i < I.nl, I.refindx i < 1 := by
    push Not; intro i hi; rw [hn i hi]; exact hn1
  obtain ⟨k, h1, h2, h3, h4, h5, h6⟩ := raySlant_shape I hnl
    (fun i L d L' dt => 0 < I.r i → 0 < L.rl →
      (I.refindx (i - 1) = I.refindx i) → |I.z i - I.z (i - 1)| ≤ d)
    (fun i L d L' dt h a b c => rayLayer_ge h a b (by
      obtain ⟨_, th, _, nb, -, -, -, -, -, -, hdt, -⟩ := rayLayer_some h
      rw [hdt, c]; simp; positivity))
  refine ⟨(raySlant I).ds, k, ?_, h1, h2, h3, ?_, h5⟩
  · unfold rayTracing
    have hz : ¬ nearZenith I.angle := ha
    rw [if_neg hnone, if_neg hz]
  · intro i d hi1 hi2 hd
    rcases h6 i hi1 hi2 with ⟨hh, -⟩ | ⟨L, d', L', dt, e1, e2, hP, hrl⟩
    · rw [hh] at hd; cases hd
    · rw [e1] at hd; cases hd
      exact hP (hr i (by omega)) (by rw [hrl]; exact hr _ (by omega))
        (by rw [hn i (by omega), hn (i - 1) (by omega)])

example : ∃ d : ℕ → ℝ, rayTracing ⟨3, fun i => i, fun _ => 1.0003, 90, 0.2⟩ = some (fun i => some (d i)) ∧
    ∑ i ∈ Finset.range 3, d i = 2 := by
  obtain ⟨d, h1, -, -, h2⟩ := C21_zenith (I := ⟨3, fun i => i, fun _ => 1.0003, 90, 0.2⟩) (by decide)
    (fun _ _ => by norm_num) (by norm_num)
  exact ⟨d, h1, by rw [h2]; norm_num⟩
example : rayTracing ⟨3, fun i => i, fun _ => 0.9999, 90, 0.2⟩ = none :=
  C21_refused_iff.2 ⟨0, by norm_num, by norm_num⟩

/-- The hypotheses of the slant theorem are met by a constant-index atmosphere at 30° elevation. -/
example : ∃ ds k, rayTracing ⟨3, fun i => i, fun _ => 1.0003, 30, 0.2⟩ = some ds ∧ 1 ≤ k ∧ k ≤ 3 := by
  obtain ⟨ds, k, h1, h2, h3, -⟩ := C21_slant_ge_constant (I := ⟨3, fun i => i, fun _ => 1.0003, 30, 0.2⟩)
    (n := 1.0003) (by decide) (by norm_num) (fun _ _ => rfl) (by norm_num)
    (fun i _ => by simp only [cEarthRadius]; positivity)
  exact ⟨ds, k, h1, h2, h3⟩

/-! ## C22 -/

private theorem a0_eq : I.a0 = 1 - cos I.theta0 := by
  unfold RayIn.a0 RayIn.sina
  have h := cos_sq' (I.theta0 * 0.5)
  have h2 : cos I.theta0 = 2 * cos (I.theta0 * 0.5) ^ 2 - 1 := by
    rw [← cos_two_mul]; congr 1; ring
  norm_num at *
  linarith

/-- Constant index, branch of the doubled elevation: the level angle satisfies
`cos θ = cos θ0 - z/r0`, for every level. -/
theorem C22_angle {i : ℕ} {n : ℝ} (hi : I.refindx i = n) (h0 : I.refindx 0 = n)
    (hr : 0 < I.r i)
    (hθ' : I.theta0 ≤ π / 2) (hbr : cos I.theta0 - I.z i / I.rs < cos (2 * I.theta0))
    (hlow : -1 ≤ cos I.theta0 - I.z i / I.rs) :
    ∃ θ, I.thetas i = some (θ, θ - I.theta0) ∧ 2 * I.theta0 < θ ∧ θ ≤ π ∧
      cos θ = cos I.theta0 - I.z i / I.rs := by
  have hd : I.argdth i = I.z i / I.rs := by
    unfold RayIn.argdth; rw [hi, h0]; simp
  have hra : I.r i * I.argth i = (1 - (cos I.theta0 - I.z i / I.rs)) / 2 := by
    unfold RayIn.argth
    rw [hd, a0_eq]
    have := hr.ne'
    field_simp
    ring
  set c := cos I.theta0 - I.z i / I.rs with hc
  have hc1 : c < 1 := hbr.trans_le (cos_le_one _)
  have hnn : 0 ≤ (1 - c) / 2 := by linarith
  have hle : Real.sqrt ((1 - c) / 2) ≤ 1 := Real.sqrt_le_one.2 (by linarith)
  have hge : -1 ≤ Real.sqrt ((1 - c) / 2) := by linarith [Real.sqrt_nonneg ((1 - c) / 2)]
  set a := arcsin (Real.sqrt ((1 - c) / 2)) with ha
  have hsin : sin a = Real.sqrt ((1 - c) / 2) := sin_arcsin hge hle
  have hcos : cos (2 * a) = c := by
    rw [cos_two_mul, cos_sq', hsin, Real.sq_sqrt hnn]; ring
  have ha0 : 0 ≤ a := arcsin_nonneg.2 (Real.sqrt_nonneg _)
  have ha1 : a ≤ π / 2 := arcsin_le_pi_div_two _
  have hgt : 2 * I.theta0 < 2 * a := by
    by_contra hle'
    push Not at hle'
    have := cos_le_cos_of_nonneg_of_le_pi (by linarith) (by linarith) hle'
    rw [hcos] at this
    linarith
  refine ⟨2 * a, ?_, hgt, by linarith, hcos⟩
  unfold RayIn.thetas
  rw [hra]
  have e1 : npSqrt ((1 - c) / 2) = some (Real.sqrt ((1 - c) / 2)) := npSqrt_eq_some.2 ⟨hnn, rfl⟩
  have e2 : npArcsin (Real.sqrt ((1 - c) / 2)) = some a := npArcsin_eq_some.2 ⟨⟨hge, hle⟩, rfl⟩
  have h2 : (2.0:ℝ) = 2 := by norm_num
  simp only [e1, e2, Option.bind_eq_bind, Option.bind_some, h2, norm_zero']
  rw [if_neg (by push Not; linarith)]
  rfl

/-- The straight-line law would be `r cos θ = r0 cos θ0`; the angle of the code violates it for every
positive height. -/
theorem C22_angle_not_straight {i : ℕ} {θ : ℝ} (hz0 : I.z 0 = 0) (hz : 0 < I.z i) (hrs : 0 < I.rs)
    (h : cos θ = cos I.theta0 - I.z i / I.rs) : I.r i * cos θ < I.rs * cos I.theta0 := by
  have hr : I.r i = I.rs + I.z i := by unfold RayIn.r RayIn.rs; rw [hz0]; ring
  rw [hr, h]
  have hx : 0 < I.z i / I.rs := by positivity
  have h1 := cos_le_one I.theta0
  have e : (I.rs + I.z i) * (cos I.theta0 - I.z i / I.rs) =
      I.rs * cos I.theta0 - I.z i * (1 - cos I.theta0) - I.z i * (I.z i / I.rs) := by
    field_simp; ring
  rw [e]
  have h2 : 0 ≤ I.z i * (1 - cos I.theta0) := mul_nonneg hz.le (by linarith)
  have h3 : 0 < I.z i * (I.z i / I.rs) := mul_pos hz hx
  linarith

private theorem overshoot_geometry {R r0 θ0 θ d : ℝ} (hr0 : 0 < r0) (hR : 0 < R) (hθ0 : 0 < θ0)
    (hθ0' : θ0 < π / 2) (hθ : θ0 < θ) (hθ' : θ < π) (hd : 0 ≤ d)
    (hd2 : d ^ 2 = (R - r0) ^ 2 + 4 * R * r0 * sin ((θ - θ0) * 0.5) ^ 2)
    (hbad : R * cos θ < r0 * cos θ0) : R ^ 2 < radiusSqAlong r0 θ0 d := by
  set ψ := θ - θ0 with hψ
  have hcosψ : cos ψ = 1 - 2 * sin (ψ * 0.5) ^ 2 := by
    have : cos ψ = cos (2 * (ψ * 0.5)) := by congr 1; ring
    rw [this, cos_two_mul, cos_sq']; ring
  have hd3 : d ^ 2 = (R * cos ψ - r0) ^ 2 + (R * sin ψ) ^ 2 := by
    have := sin_sq_add_cos_sq ψ
    rw [hd2]
    have e : (R * cos ψ - r0) ^ 2 + (R * sin ψ) ^ 2 = R ^ 2 * (sin ψ ^ 2 + cos ψ ^ 2) + r0 ^ 2
      - 2 * R * r0 * cos ψ := by ring
    rw [e, this, hcosψ]; ring
  have hsψ : 0 < sin ψ := sin_pos_of_pos_of_lt_pi (by linarith) (by linarith)
  have hs0 : 0 < sin θ0 := sin_pos_of_pos_of_lt_pi hθ0 (by linarith)
  have hc0 : 0 < cos θ0 := cos_pos_of_mem_Ioo ⟨by linarith, hθ0'⟩
  have hb : 0 < R * sin ψ := mul_pos hR hsψ
  have hdpos : 0 < d := by
    rcases hd.eq_or_lt with h | h
    · rw [← h] at hd3
      nlinarith [sq_nonneg (R * cos ψ - r0), mul_pos hb hb]
    · exact h
  have key : (R * cos ψ - r0) * cos θ0 < R * sin ψ * sin θ0 := by
    have : cos θ = cos ψ * cos θ0 - sin ψ * sin θ0 := by
      rw [← cos_add]; congr 1; rw [hψ]; ring
    rw [this] at hbad
    nlinarith
  have ha : R * cos ψ - r0 < d * sin θ0 := by
    rcases le_or_gt (R * cos ψ - r0) 0 with h | h
    · exact lt_of_le_of_lt h (mul_pos hdpos hs0)
    · have h1 : ((R * cos ψ - r0) * cos θ0) ^ 2 < (R * sin ψ * sin θ0) ^ 2 :=
        pow_lt_pow_left₀ key (mul_nonneg h.le hc0.le) (by norm_num)
      have h2 := sin_sq_add_cos_sq θ0
      have h3 : (R * cos ψ - r0) ^ 2 < (d * sin θ0) ^ 2 := by
        have e1 : (d * sin θ0) ^ 2 = d ^ 2 * sin θ0 ^ 2 := by ring
        rw [e1, hd3]
        have e2 : cos θ0 ^ 2 = 1 - sin θ0 ^ 2 := by linarith
        have e3 : ((R * cos ψ - r0) * cos θ0) ^ 2 = (R * cos ψ - r0) ^ 2 * (1 - sin θ0 ^ 2) := by
          rw [mul_pow, e2]
        rw [e3] at h1
        nlinarith
      exact lt_of_pow_lt_pow_left₀ 2 (mul_pos hdpos hs0).le h3
  unfold radiusSqAlong
  have e : d ^ 2 = R ^ 2 + r0 ^ 2 - 2 * R * r0 * cos ψ := by
    rw [hd2, hcosψ]; ring
  rw [e]
  nlinarith

/-- Observable consequence: without refraction (constant index) and in the doubled-elevation branch, the first
path increment of the code is strictly longer than the straight line: walking that far along the straight ray
ends strictly above the level it should end at. -/
theorem C22_first_layer_overshoots (hnl : 2 ≤ I.nl) {n : ℝ} (hn1 : 1 ≤ n)
    (hn : ∀ i < I.nl, I.refindx i = n) (ha0 : 0 < I.angle) (ha1 : I.angle < 89) (hz0 : I.z 0 = 0)
    (hz1 : 0 < I.z 1) (hrs : 0 < cEarthRadius + I.z0)
    (hbr : cos I.theta0 - I.z 1 / (cEarthRadius + I.z0) < cos (2 * I.theta0))
    (hup : I.z 1 / (cEarthRadius + I.z0) < cos I.theta0) :
    ∃ ds d, rayTracing I = some ds ∧ ds 1 = some d ∧ 0 < d ∧
      (cEarthRadius + I.z0 + I.z 1) ^ 2 < radiusSqAlong (cEarthRadius + I.z0) I.theta0 d := by
  have hrsE : I.rs = cEarthRadius + I.z0 := by unfold RayIn.rs; rw [hz0]; ring
  have hrE : I.r 1 = cEarthRadius + I.z0 + I.z 1 := by unfold RayIn.r; ring
  have hr1 : 0 < I.r 1 := by rw [hrE]; linarith
  have hθ : 0 < I.theta0 := by unfold RayIn.theta0; positivity
  have hθ' : I.theta0 < π / 2 := by
    unfold RayIn.theta0
    have := pi_pos
    calc I.angle * (π / 180) < 90 * (π / 180) := by gcongr; linarith
      _ = π / 2 := by ring
  rw [← hrsE] at hbr hup
  obtain ⟨θ, hth, hgt, hle, hcos⟩ := C22_angle (I := I) (i := 1) (n := n)
    (hn 1 (by omega)) (hn 0 (by omega)) hr1 hθ'.le hbr (by linarith)
  have hcpos : 0 < cos θ := by rw [hcos]; linarith
  have hθπ : θ < π / 2 := by
    by_contra hcon
    push Not at hcon
    have := cos_nonpos_of_pi_div_two_le_of_le hcon (by linarith [pi_pos])
    linarith
  have hspos : 0 < sin θ := sin_pos_of_pos_of_lt_pi (by linarith) (by linarith [pi_pos])
  have hs0 : 0 < sin I.theta0 := sin_pos_of_pos_of_lt_pi hθ (by linarith [pi_pos])
  have hc0 : 0 < cos I.theta0 := cos_pos_of_mem_Ioo ⟨by linarith, hθ'⟩
  have hargth : ¬ I.argth 1 ≤ 0 := by
    push Not
    unfold RayIn.argth
    have : I.argdth 1 = I.z 1 / I.rs := by
      unfold RayIn.argdth; rw [hn 1 (by omega), hn 0 (by omega)]; simp
    rw [this, a0_eq]
    have h1 : 0 < I.z 1 / I.rs := by rw [hrsE]; positivity
    have h2 := cos_le_one I.theta0
    have : 0 < 1 - cos I.theta0 + I.z 1 / I.rs := by linarith
    positivity
  -- the layer
  set L0 : RayLow := ⟨0.0, 0.0, I.rs, tan I.theta0⟩ with hL0
  have hinit : (rayInit I).low = some L0 := by
    unfold rayInit npTan
    rw [npDiv_of_ne hc0.ne', hL0, tan_eq_sin_div_cos]; rfl
  set D := Real.sqrt ((I.z 1 - I.z 0) ^ 2 +
    4 * I.r 1 * I.rs * (sin ((θ - I.theta0) * 0.5)) ^ 2) with hD
  have hrs' : 0 < I.rs := by rw [hrsE]; exact hrs
  have hnn : 0 ≤ (I.z 1 - I.z 0) ^ 2 + 4 * I.r 1 * I.rs * (sin ((θ - I.theta0) * 0.5)) ^ 2 := by
    positivity
  have hlayer : rayLayer I 1 L0 = some (D, ⟨θ - I.theta0, 0, I.r 1, tan θ⟩, 0) := by
    unfold rayLayer
    have hrb : I.refbar 1 = some n := by
      unfold RayIn.refbar
      rw [if_pos (Or.inl (by rw [hn 1 (by omega), show 1 - 1 = 0 from rfl, hn 0 (by omega)])),
        hn 1 (by omega), show 1 - 1 = 0 from rfl, hn 0 (by omega)]
      congr 1; ring
    have ht1 : npTan θ = some (tan θ) := by
      unfold npTan; rw [npDiv_of_ne hcpos.ne', tan_eq_sin_div_cos]
    have htp : tan θ ≠ 0 := by rw [tan_eq_sin_div_cos]; positivity
    have htp0 : tan I.theta0 ≠ 0 := by rw [tan_eq_sin_div_cos]; positivity
    have hnne : n ≠ 0 := by linarith
    have h4 : (4.0:ℝ) = 4 := by norm_num
    simp only [hrb, hth, ht1, Option.bind_eq_bind, Option.bind_some, hL0, npDiv_of_ne htp,
      npDiv_of_ne htp0, npDiv_of_ne hnne, hn 1 (by omega), hn 0 (by omega), Nat.sub_self, sub_self,
      mul_zero, zero_div, norm_zero', add_zero, sub_zero, h4]
    have e1 : npSqrt ((I.z 1 - I.z 0) ^ 2 + 4 * I.r 1 * I.rs * (sin ((θ - I.theta0) * 0.5)) ^ 2) = some D :=
      npSqrt_eq_some.2 ⟨hnn, rfl⟩
    simp only [e1, Option.bind_some, ne_eq, not_true_eq_false, if_false]
    rfl
  have hds : (raySlant I).ds 1 = some D := by
    -- after the first iteration entry 1 is never written again
    have hstep : rayBody I 1 (rayInit I) = .ok
        { ds := Function.update (rayInit I).ds 1 (some D)
          low := some ⟨θ - I.theta0, 0, I.r 1, tan θ⟩
          dtau := Function.update (rayInit I).dtau 1 (some 0) } := by
      unfold rayBody
      rw [if_neg hargth, hinit]
      simp [hlayer]
    unfold raySlant
    rw [forRangeE_step (by omega), hstep]
    show (match forRangeE (1 + 1) I.nl (rayBody I) _ with
      | .error s => s
      | .ok s => s).ds 1 = some D
    rcases forRangeE_inv (lo := 1 + 1) (hi := I.nl) (f := rayBody I)
      (s := { ds := Function.update (rayInit I).ds 1 (some D)
              low := some ⟨θ - I.theta0, 0, I.r 1, tan θ⟩
              dtau := Function.update (rayInit I).dtau 1 (some 0) })
      (I := fun _ s => s.ds 1 = some D) (E := fun s => s.ds 1 = some D) (by omega)
      (by simp) (by
        intro i s h1 h2 hs
        unfold rayBody
        split_ifs with hdt
        · right; exact ⟨s, rfl, hs⟩
        · left
          refine ⟨_, rfl, ?_⟩
          show Function.update s.ds i _ 1 = some D
          rw [Function.update_of_ne (by omega)]; exact hs) with ⟨s, e, hs⟩ | ⟨s, e, hs⟩
    · rw [e]; exact hs
    · rw [e]; exact hs
  have hnone : ¬ ∃ i < I.nl, I.refindx i < 1 := by
    push Not; intro i hi; rw [hn i hi]; exact hn1
  have hzen : ¬ nearZenith I.angle := by
    unfold nearZenith; push Not
    exact ⟨fun h => by linarith, fun h => by linarith⟩
  have hDpos : 0 < D := by
    rw [hD]; apply Real.sqrt_pos.2
    rw [hz0, sub_zero]
    have : 0 < I.z 1 ^ 2 := by positivity
    positivity
  refine ⟨(raySlant I).ds, D, ?_, hds, hDpos, ?_⟩
  · unfold rayTracing; rw [if_neg hnone, if_neg hzen]
  · have hbad := C22_angle_not_straight hz0 hz1 hrs' hcos
    have hgeo := overshoot_geometry (R := I.r 1) (r0 := I.rs) (θ0 := I.theta0) (θ := θ) (d := D)
      hrs' hr1 hθ hθ' (by linarith) (by linarith [pi_pos]) hDpos.le (by
        rw [hD, Real.sq_sqrt hnn, hz0, hrE, hrsE]; ring) hbad
    rw [hrE, hrsE] at hgeo
    exact hgeo

/-- The hypotheses are met at 1° elevation with a first layer of 10 km. -/
example : ∃ ds d, rayTracing ⟨2, fun i => 10 * i, fun _ => 1.0003, 1, 0⟩ = some ds ∧ ds 1 = some d ∧ 0 < d := by
  have hp := pi_lt_d2
  have hp' := pi_gt_d2
  have hth : (RayIn.mk 2 (fun i => 10 * i) (fun _ => 1.0003) 1 0).theta0 = π / 180 := by
    simp [RayIn.theta0]
  have hc := one_sub_sq_div_two_le_cos (x := 2 * (π / 180))
  have hc1 := one_sub_sq_div_two_le_cos (x := π / 180)
  have h1 := cos_le_one (π / 180)
  obtain ⟨ds, d, a, b, c, -⟩ := C22_first_layer_overshoots
    (I := ⟨2, fun i => 10 * i, fun _ => 1.0003, 1, 0⟩) (n := 1.0003) (by decide) (by norm_num)
    (fun _ _ => rfl) (by norm_num) (by norm_num) (by norm_num) (by norm_num)
    (by norm_num [cEarthRadius])
    (by rw [hth]; norm_num [cEarthRadius]; nlinarith)
    (by rw [hth]; norm_num [cEarthRadius]; nlinarith)
  exact ⟨ds, d, a, b, c⟩

end Verif.Props
