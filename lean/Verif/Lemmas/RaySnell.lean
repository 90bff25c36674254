import Verif.Lemmas.RayTracing
import Verif.Spec.BentRay

/-! # Level angles of `ray_tracing` and Snell's law -/

namespace Verif.Model

open Verif.Py Verif.Spec Real

/-- Half-angle data of three angles between 0 and a quarter turn. -/
theorem quarter_sine {a b : ℝ} (h1 : 0 < a) (h2 : a ≤ b) (h3 : b < π / 2) :
    0 < cos ((b + a) / 4) ∧ sin ((b - a) / 4) = (sin (b / 2) - sin (a / 2)) / (2 * cos ((b + a) / 4)) := by
  have hc : 0 < cos ((b + a) / 4) := cos_pos_of_mem_Ioo ⟨by linarith [pi_pos], by linarith [pi_pos]⟩
  refine ⟨hc, ?_⟩
  rw [eq_div_iff (by positivity), sin_sub_sin]
  have e1 : (b / 2 - a / 2) / 2 = (b - a) / 4 := by ring
  have e2 : (b / 2 + a / 2) / 2 = (b + a) / 4 := by ring
  rw [e1, e2]
  ring

/-- `(sin (b/2) + sin (a/2)) cos ((b+a)/4)` grows with `b`. -/
theorem quarter_mono {a b c : ℝ} (h1 : 0 < a) (h2 : a ≤ b) (h3 : b ≤ c) (h4 : c < π / 2) :
    (sin (b / 2) + sin (a / 2)) * cos ((b + a) / 4) ≤ (sin (c / 2) + sin (a / 2)) * cos ((c + a) / 4) := by
  have key : ∀ x, (sin (x / 2) + sin (a / 2)) * cos ((x + a) / 4) =
      (sin (3 * x / 4 + a / 4) + sin (x / 4 + 3 * a / 4)) / 2 + sin (a / 2) * 0 := by
    intro x
    have e1 : 3 * x / 4 + a / 4 = x / 2 + (x + a) / 4 := by ring
    have e2 : x / 4 + 3 * a / 4 = a / 2 + (x + a) / 4 := by ring
    have e3 : sin ((x + a) / 4) * (cos (x / 2) + cos (a / 2)) = cos ((x + a) / 4) * (sin (x / 2) + sin (a / 2)) := by
      have c1 := cos_add_cos (x / 2) (a / 2)
      have c2 : sin (x / 2) + sin (a / 2) = 2 * sin ((x / 2 + a / 2) / 2) * cos ((x / 2 - a / 2) / 2) := by
        have := sin_sub_sin (x / 2) (-(a / 2))
        rw [sin_neg, sub_neg_eq_add, sub_neg_eq_add, ← sub_eq_add_neg] at this
        exact this
      rw [c1, c2]
      have e : (x / 2 + a / 2) / 2 = (x + a) / 4 := by ring
      rw [e]
      ring
    rw [e1, e2, sin_add, sin_add]
    linear_combination (-1 / 2) * e3
  rw [key b, key c]
  have m1 : sin (3 * b / 4 + a / 4) ≤ sin (3 * c / 4 + a / 4) :=
    sin_le_sin_of_le_of_le_pi_div_two (by linarith [pi_pos]) (by linarith) (by linarith)
  have m2 : sin (b / 4 + 3 * a / 4) ≤ sin (c / 4 + 3 * a / 4) :=
    sin_le_sin_of_le_of_le_pi_div_two (by linarith [pi_pos]) (by linarith) (by linarith)
  linarith

/-- Half-angle formula in the form used below. -/
theorem sin_half_sq (x : ℝ) : sin (x / 2) ^ 2 = (1 - cos x) / 2 := by
  have h := cos_sq' (x / 2)
  have h2 : cos x = 2 * cos (x / 2) ^ 2 - 1 := by rw [← cos_two_mul]; congr 1; ring
  linarith

/-- The quotient of the refined angle. -/
theorem refined_quotient {a b w k : ℝ} (h0 : 0 < a) (hab : a ≤ b) (hbw : b ≤ w) (hw1 : w < π / 2) (hk1 : k ≤ 1) (hk0 : 0 ≤ k)
    (hk : k * sin (w / 2) = sin (b / 2)) :
    let D := 2 * ((sin (w / 2) + sin (a / 2)) * cos ((w + a) / 4))
    let q := (sin (b / 2) ^ 2 - sin (a / 2) ^ 2) / D
    0 < D ∧ 0 ≤ q ∧ q ≤ 1 ∧ arcsin q ≤ (b - a) / 4 ∧ k * sin ((b - a) / 4) ≤ q := by
  intro D q
  have hb1 : b < π / 2 := by linarith
  obtain ⟨hcw, -⟩ := quarter_sine h0 (hab.trans hbw) hw1
  obtain ⟨hcs4, hq⟩ := quarter_sine h0 hab hb1
  have ha : 0 < sin (a / 2) := sin_pos_of_pos_of_lt_pi (by linarith) (by linarith)
  have hsle : sin (a / 2) ≤ sin (b / 2) :=
    sin_le_sin_of_le_of_le_pi_div_two (by linarith [pi_pos]) (by linarith) (by linarith)
  have hssw : sin (b / 2) ≤ sin (w / 2) :=
    sin_le_sin_of_le_of_le_pi_div_two (by linarith [pi_pos]) (by linarith) (by linarith)
  have hb : 0 < sin (b / 2) := lt_of_lt_of_le ha hsle
  have hw : 0 < sin (w / 2) := lt_of_lt_of_le hb hssw
  have hnum : 0 ≤ sin (b / 2) ^ 2 - sin (a / 2) ^ 2 := by nlinarith
  have hDpos : 0 < D := by positivity
  have hq0 : 0 ≤ q := div_nonneg hnum hDpos.le
  set Ds := 2 * ((sin (b / 2) + sin (a / 2)) * cos ((b + a) / 4)) with hDs
  have hDspos : 0 < Ds := by positivity
  have hqs : sin ((b - a) / 4) = (sin (b / 2) ^ 2 - sin (a / 2) ^ 2) / Ds := by
    rw [hq, hDs]
    field_simp
    ring
  have hDle : Ds ≤ D := by
    have := quarter_mono h0 hab hbw hw1
    simp only [hDs, D]
    linarith
  have hqle : q ≤ sin ((b - a) / 4) := by
    rw [hqs]
    exact div_le_div_of_nonneg_left hnum hDspos hDle
  refine ⟨hDpos, hq0, hqle.trans (sin_le_one _), ?_, ?_⟩
  · have := monotone_arcsin hqle
    rwa [arcsin_sin (by linarith [pi_pos]) (by linarith)] at this
  · have hcc : cos ((w + a) / 4) ≤ cos ((b + a) / 4) :=
      cos_le_cos_of_nonneg_of_le_pi (by linarith) (by linarith [pi_pos]) (by linarith)
    have hD : k * D ≤ Ds := by
      have e1 : k * (sin (w / 2) + sin (a / 2)) ≤ sin (b / 2) + sin (a / 2) := by
        rw [mul_add, hk]
        have := mul_le_of_le_one_left ha.le hk1
        linarith
      have e0 : 0 ≤ sin (b / 2) + sin (a / 2) := by linarith
      calc k * D = 2 * ((k * (sin (w / 2) + sin (a / 2))) * cos ((w + a) / 4)) := by simp only [D]; ring
        _ ≤ 2 * ((sin (b / 2) + sin (a / 2)) * cos ((b + a) / 4)) := by gcongr
    rw [hqs, ← mul_div_assoc, div_le_div_iff₀ hDspos hDpos]
    calc k * (sin (b / 2) ^ 2 - sin (a / 2) ^ 2) * D = (sin (b / 2) ^ 2 - sin (a / 2) ^ 2) * (k * D) := by ring
      _ ≤ (sin (b / 2) ^ 2 - sin (a / 2) ^ 2) * Ds := by gcongr

/-- What the level angles of the program are, for a ray that is neither trapped nor beyond the vertical: up to twice the
initial elevation (as measured by `argdth`) a value slightly below Snell's law, above a value slightly above it. -/
theorem thetas_snell {I : RayIn} {i : ℕ} (h0 : 0 < I.theta0) (h1 : I.theta0 < π / 2) (hz0 : I.z 0 = 0) (hrs : 0 < I.rs)
    (hn0 : 1 ≤ I.refindx 0) (hn : 1 ≤ I.refindx i) (hz : 0 ≤ I.z i) (hm : I.refindx 0 * I.rs ≤ I.refindx i * I.r i)
    (hh : I.refindx i * I.z i < I.refindx 0 * I.rs * cos I.theta0) :
    let θs := snell (I.refindx 0) I.rs I.theta0 (I.refindx i) (I.r i)
    0 < I.argth i ∧ I.theta0 ≤ θs ∧ θs < π / 2 ∧ ∃ θ, I.thetas i = some (θ, θ - I.theta0) ∧ I.theta0 ≤ θ ∧ θ < π / 2 ∧
      (cos (2 * I.theta0) ≤ 1 - I.r i / I.rs * (1 - cos θs) →
        √(I.rs / I.r i) * sin ((θs - I.theta0) / 4) ≤ sin ((θ - I.theta0) / 4) ∧ θ ≤ θs) ∧
      (1 - I.r i / I.rs * (1 - cos θs) < cos (2 * I.theta0) → 1 - cos θ = I.r i / I.rs * (1 - cos θs)) := by
  intro θs
  set θ0 := I.theta0 with hθ0
  set C := cos θ0 with hC
  set x := I.argdth i with hx
  set n0 := I.refindx 0
  set n := I.refindx i
  set z := I.z i
  set rs := I.rs with hrs'
  have hr : I.r i = rs + z := by simp only [hrs', RayIn.r, RayIn.rs, hz0, z]; ring
  set r := I.r i with hr'
  have hrpos : 0 < r := by rw [hr]; linarith
  have hnpos : 0 < n := by linarith
  have hn0pos : 0 < n0 := by linarith
  have hC0 : 0 < C := cos_pos_of_mem_Ioo ⟨by linarith, h1⟩
  have hC1 : C < 1 := by
    have := cos_lt_cos_of_nonneg_of_le_pi_div_two le_rfl h1.le h0
    rwa [cos_zero] at this
  have hxe : x = z / rs - (n0 - n) * C / n := rfl
  have hxC : x < C := by
    rw [hxe]
    have : z / rs - (n0 - n) * C / n = C + (n * z - n0 * rs * C) / (rs * n) := by field_simp; ring
    rw [this]
    have : (n * z - n0 * rs * C) / (rs * n) < 0 := div_neg_of_neg_of_pos (by linarith) (by positivity)
    linarith
  have hx0 : 0 ≤ x := by
    rw [hxe]
    have e : z / rs - (n0 - n) * C / n = (n * z * (1 - C) + C * (n * (rs + z) - n0 * rs)) / (rs * n) := by field_simp; ring
    rw [e]
    rw [hr] at hm
    refine div_nonneg (add_nonneg ?_ (mul_nonneg hC0.le (by linarith))) (by positivity)
    exact mul_nonneg (mul_nonneg hnpos.le hz) (by linarith)
  have ha0 : I.a0 = 1 - C := by
    have := sin_half_sq θ0
    unfold RayIn.a0 RayIn.sina
    rw [show I.theta0 * 0.5 = θ0 / 2 by rw [hθ0]; norm_num; ring, this]
    norm_num
    ring
  have hargth : I.argth i = (1 - C + x) / 2 / r := by
    unfold RayIn.argth
    rw [ha0]
    change 0.5 * (1 - C + x) / r = _
    norm_num
    ring
  have hra : r * I.argth i = (1 - C + x) / 2 := by rw [hargth]; field_simp
  have hpos : 0 < I.argth i := by rw [hargth]; exact div_pos (by linarith) hrpos
  -- the angle of Snell's law
  have hcs : cos θs = n0 * rs * C / (n * r) := by
    apply cos_arccos
    · exact le_trans (by norm_num) (by positivity : 0 ≤ n0 * rs * C / (n * r))
    · rw [div_le_one (by positivity)]
      calc n0 * rs * C ≤ n0 * rs * 1 := by gcongr
        _ ≤ n * r := by rw [mul_one]; exact hm
  have h1s : r / rs * (1 - cos θs) = 1 - C + x := by
    rw [hcs, hxe, hr]
    field_simp
    ring
  have hsnn : 0 ≤ θs := arccos_nonneg _
  have hspi : θs ≤ π := arccos_le_pi _
  have hs0 : θ0 ≤ θs := by
    have : cos θs ≤ cos θ0 := by
      rw [hcs, div_le_iff₀ (by positivity)]
      calc n0 * rs * C = C * (n0 * rs) := by ring
        _ ≤ C * (n * r) := by gcongr
    by_contra hlt
    push Not at hlt
    have := cos_lt_cos_of_nonneg_of_le_pi_div_two hsnn h1.le hlt
    linarith
  have hsc : 0 < cos θs := by rw [hcs]; positivity
  have hs1 : θs < π / 2 := by
    by_contra hge
    push Not at hge
    have := cos_nonpos_of_pi_div_two_le_of_le hge (by linarith [pi_pos])
    linarith
  refine ⟨hpos, hs0, hs1, ?_⟩
  -- the first guess of the program
  set s := √((1 - C + x) / 2) with hs
  have hs2 : s ^ 2 = (1 - C + x) / 2 := sq_sqrt (by linarith)
  have hsn : 0 ≤ s := sqrt_nonneg _
  have hs1' : s ≤ 1 := by
    rw [hs, sqrt_le_one]
    linarith
  set w := 2 * arcsin s with hw
  have hws : sin (w / 2) = s := by
    rw [hw, mul_div_cancel_left₀ _ two_ne_zero]
    exact sin_arcsin (by linarith) hs1'
  have hwc : cos w = C - x := by
    have := sin_half_sq w
    rw [hws, hs2] at this
    linarith
  have hw0 : 0 ≤ w := by rw [hw]; have := arcsin_nonneg.2 hsn; linarith
  have hwpi : w ≤ π := by rw [hw]; have := arcsin_le_pi_div_two s; linarith
  have hw1 : w < π / 2 := by
    by_contra hge
    push Not at hge
    have := cos_nonpos_of_pi_div_two_le_of_le hge (by linarith [pi_pos])
    linarith
  have hθw : θs ≤ w := by
    by_contra hlt
    push Not at hlt
    have := cos_lt_cos_of_nonneg_of_le_pi_div_two hw0 hs1.le hlt
    have e : 1 - cos θs ≤ r / rs * (1 - cos θs) := by
      refine le_mul_of_one_le_left (by linarith [cos_le_one θs]) ?_
      rw [le_div_iff₀ hrs, one_mul, hr]
      linarith
    linarith
  have hthetas : I.thetas i = (if w - 2.0 * θ0 ≤ 0.0 then do
      let sind4 ← npDiv (0.5 * x - z * I.argth i) ((2.0 * (s + I.sina)) * cos ((w + θ0) * 0.25))
      let a ← npArcsin sind4
      return (θ0 + 4.0 * a, 4.0 * a)
    else return (w, w - θ0)) := by
    unfold RayIn.thetas
    have e1 : npSqrt (I.r i * I.argth i) = some s := by
      rw [npSqrt_eq_some]
      exact ⟨by rw [hra]; linarith, by rw [hra]⟩
    have e2 : npArcsin s = some (arcsin s) := by
      rw [npArcsin_eq_some]; exact ⟨⟨by linarith, hs1'⟩, rfl⟩
    have e3 : (2.0 : ℝ) * arcsin s = w := by rw [hw]; norm_num
    simp only [Option.bind_eq_bind, Option.pure_def, e1, e2, Option.bind_some, e3]
    rfl
  by_cases hbr : w - 2.0 * θ0 ≤ 0.0
  · -- refined angle
    have hbr' : w ≤ 2 * θ0 := by norm_num at hbr; linarith
    have hcase : cos (2 * θ0) ≤ 1 - r / rs * (1 - cos θs) := by
      rw [h1s]
      have : cos (2 * θ0) ≤ cos w := cos_le_cos_of_nonneg_of_le_pi hw0 (by linarith) hbr'
      linarith
    have hsina : I.sina = sin (θ0 / 2) := by
      unfold RayIn.sina; rw [← hθ0]; congr 1; norm_num; ring
    have hsina0 : 0 < sin (θ0 / 2) := sin_pos_of_pos_of_lt_pi (by linarith) (by linarith)
    have hN : 0.5 * x - z * I.argth i = sin (θs / 2) ^ 2 - sin (θ0 / 2) ^ 2 := by
      rw [sin_half_sq, sin_half_sq, hargth]
      have e : 1 - cos θs = rs / r * (1 - C + x) := by rw [← h1s]; field_simp
      rw [e, ← hC, hr]
      have : rs + z ≠ 0 := by rw [← hr]; exact hrpos.ne'
      norm_num
      field_simp
      ring
    have hroot : √(rs / r) * sin (w / 2) = sin (θs / 2) := by
      have e : sin (θs / 2) ^ 2 = rs / r * s ^ 2 := by
        rw [sin_half_sq, hs2, ← h1s]; field_simp
      have : 0 ≤ sin (θs / 2) := (sin_pos_of_pos_of_lt_pi (by linarith) (by linarith)).le
      rw [hws, ← sqrt_sq this, e, sqrt_mul (by positivity), sqrt_sq hsn]
    have hroot1 : √(rs / r) ≤ 1 := sqrt_le_one.2 (by rw [div_le_one hrpos, hr]; linarith)
    obtain ⟨hDpos, hq0, hq1, hdq, hlow⟩ := refined_quotient h0 hs0 hθw hw1 hroot1 (sqrt_nonneg _) hroot
    rw [hws] at hDpos hq0 hq1 hdq hlow
    set D := 2 * ((s + sin (θ0 / 2)) * cos ((w + θ0) / 4)) with hD
    set q := (sin (θs / 2) ^ 2 - sin (θ0 / 2) ^ 2) / D with hqd
    have hsq : sin (arcsin q) = q := sin_arcsin (by linarith) hq1
    have hd0 : 0 ≤ arcsin q := arcsin_nonneg.2 hq0
    refine ⟨θ0 + 4 * arcsin q, ?_, by linarith, by linarith, fun _ => ⟨?_, by linarith⟩, fun h => absurd hcase (not_le.2 h)⟩
    · rw [hthetas, if_pos hbr]
      have e1 : npDiv (0.5 * x - z * I.argth i) ((2.0 * (s + I.sina)) * cos ((w + θ0) * 0.25)) = some q := by
        rw [npDiv_eq_some, hN, hsina]
        have e : (2.0 * (s + sin (θ0 / 2))) * cos ((w + θ0) * 0.25) = D := by
          rw [hD, show (w + θ0) * 0.25 = (w + θ0) / 4 by norm_num; ring]; norm_num; ring
        rw [e]
        exact ⟨hDpos.ne', rfl⟩
      have e2 : npArcsin q = some (arcsin q) := by
        rw [npArcsin_eq_some]; exact ⟨⟨by linarith, hq1⟩, rfl⟩
      simp only [Option.bind_eq_bind, Option.pure_def, e1, e2, Option.bind_some, Option.some.injEq, Prod.mk.injEq]
      norm_num
    · rw [show (θ0 + 4 * arcsin q - θ0) / 4 = arcsin q by ring, hsq]
      exact hlow
  · have hbr' : 2 * θ0 < w := by norm_num at hbr; linarith
    have hcase : 1 - r / rs * (1 - cos θs) < cos (2 * θ0) := by
      rw [h1s]
      have : cos w < cos (2 * θ0) := cos_lt_cos_of_nonneg_of_le_pi (by linarith) hwpi hbr'
      linarith
    refine ⟨w, ?_, by linarith, hw1, fun h => absurd hcase (not_lt.2 h), fun _ => ?_⟩
    · rw [hthetas, if_neg hbr]; rfl
    · rw [h1s, hwc]; ring

end Verif.Model
