import Verif.Spec.Curvature
import Verif.Lemmas.Continuous

/-!
# Two-point formulas for the emission of a layer
-/

namespace Verif.Lemmas

open Verif.Model Verif.Spec Real Set MeasureTheory

variable {n i : ℕ} {L ω K G R δ p q θ η τm : ℝ} {s : ℕ → ℝ} {α b w : ℝ → ℝ}

/-- A function that bends little stays close to the straight line between two of its values. -/
theorem curved_line (hb : Curved K L b) (hK : 0 ≤ K) (hp : p ∈ Icc 0 L) (hq : q ∈ Icc 0 L) {t : ℝ} (ht : t ∈ Icc (0:ℝ) 1) :
    |b ((q - p) * t + p) - ((1 - t) * b p + t * b q)| ≤ K * (q - p) ^ 2 / 8 := by
  have h1 := hb.below.2 hp hq (show 0 ≤ 1 - t by linarith [ht.2]) ht.1 (by ring)
  have h2 := hb.above.2 hp hq (show 0 ≤ 1 - t by linarith [ht.2]) ht.1 (by ring)
  simp only [smul_eq_mul] at h1 h2
  have e : (1 - t) * p + t * q = (q - p) * t + p := by ring
  rw [e] at h1 h2
  have hs : t * (1 - t) ≤ 1 / 4 := by nlinarith [sq_nonneg (t - 1 / 2)]
  have hb : K / 2 * (t * (1 - t) * (q - p) ^ 2) ≤ K * (q - p) ^ 2 / 8 := by
    have := mul_le_mul_of_nonneg_right hs (mul_nonneg hK (sq_nonneg (q - p)))
    nlinarith
  rw [abs_le]
  constructor <;> nlinarith

theorem centred (hpq : p < q) : ∫ u in p..q, (1 / 2 - (u - p) / (q - p)) = 0 := by
  have hh : q - p ≠ 0 := (sub_pos.2 hpq).ne'
  have := intervalIntegral.integral_eq_sub_of_hasDerivAt (a := p) (b := q)
    (f := fun u => u / 2 - (u - p) ^ 2 / (2 * (q - p))) (f' := fun u => 1 / 2 - (u - p) / (q - p))
    (fun u _ => by
      have := ((hasDerivAt_id u).div_const 2).sub ((((hasDerivAt_id u).sub_const p).pow 2).div_const (2 * (q - p)))
      refine this.congr_deriv ?_
      simp only [id]
      field_simp
      norm_num)
    (Continuous.intervalIntegrable (by fun_prop) _ _)
  rw [this]
  field_simp
  ring

/-- A mean of the two end values against the weighted mean of a function over a stretch. -/
theorem two_point (hpq : p < q) (hw : Continuous w) (hb : Continuous b) (hw0 : ∀ u ∈ Icc p q, 0 ≤ w u)
    (hR : ∀ u ∈ Icc p q, ∀ v ∈ Icc p q, w u ≤ R * w v) (hR1 : 1 ≤ R) (hθ : |θ - 1 / 2| ≤ η)
    (hline : ∀ u ∈ Icc p q, |b u - ((1 - (u - p) / (q - p)) * b p + (u - p) / (q - p) * b q)| ≤ K) :
    |((1 - θ) * b p + θ * b q) * (∫ u in p..q, w u) - ∫ u in p..q, w u * b u| ≤
      (|b q - b p| * ((R - 1) / 2 + η) + K) * ∫ u in p..q, w u := by
  have hh : 0 < q - p := sub_pos.2 hpq
  set W := ∫ u in p..q, w u with hW
  have hW0 : 0 ≤ W := intervalIntegral.integral_nonneg hpq.le hw0
  have ct : Continuous fun u : ℝ => (u - p) / (q - p) := by fun_prop
  set l : ℝ → ℝ := fun u => (1 - (u - p) / (q - p)) * b p + (u - p) / (q - p) * b q with hl
  have cl : Continuous l := by fun_prop
  set D := ∫ u in p..q, w u * (1 / 2 - (u - p) / (q - p)) with hD
  -- the weight is nearly constant
  have hDb : |D| ≤ (R - 1) / 2 * W := by
    have e : D = ∫ u in p..q, (w u - w p) * (1 / 2 - (u - p) / (q - p)) := by
      have h0 := centred hpq
      have : ∫ u in p..q, (w u - w p) * (1 / 2 - (u - p) / (q - p)) =
          (∫ u in p..q, w u * (1 / 2 - (u - p) / (q - p))) - ∫ u in p..q, w p * (1 / 2 - (u - p) / (q - p)) := by
        rw [← intervalIntegral.integral_sub]
        · congr 1; funext u; ring
        · exact Continuous.intervalIntegrable (by fun_prop) _ _
        · exact Continuous.intervalIntegrable (by fun_prop) _ _
      rw [this, intervalIntegral.integral_const_mul, h0, mul_zero, sub_zero]
    rw [e, hW, ← intervalIntegral.integral_const_mul]
    refine (intervalIntegral.abs_integral_le_integral_abs hpq.le).trans
      (intervalIntegral.integral_mono_on hpq.le ?_ ?_ fun u hu => ?_)
    · exact Continuous.intervalIntegrable (by fun_prop) _ _
    · exact Continuous.intervalIntegrable (by fun_prop) _ _
    · have h1 := hR u hu p ⟨le_rfl, hpq.le⟩
      have h2 := hR p ⟨le_rfl, hpq.le⟩ u hu
      have h0 := hw0 u hu
      have h0' := hw0 p ⟨le_rfl, hpq.le⟩
      have a1 : |w u - w p| ≤ (R - 1) * w u := by
        rw [abs_le]
        constructor
        · linarith
        · rcases le_total (w u) (w p) with hle | hle
          · nlinarith
          · nlinarith
      have t1 : 0 ≤ (u - p) / (q - p) := div_nonneg (by linarith [hu.1]) hh.le
      have t2 : (u - p) / (q - p) ≤ 1 := (div_le_one hh).2 (by linarith [hu.2])
      have a2 : |1 / 2 - (u - p) / (q - p)| ≤ 1 / 2 := by
        rw [abs_le]; constructor <;> linarith
      rw [abs_mul]
      calc _ ≤ (R - 1) * w u * (1 / 2) := mul_le_mul a1 a2 (abs_nonneg _) (mul_nonneg (by linarith) h0)
        _ = _ := by ring
  have e1 : ((1 - θ) * b p + θ * b q) * W - ∫ u in p..q, w u * l u = (b q - b p) * ((θ - 1 / 2) * W + D) := by
    have : ∫ u in p..q, w u * l u = ∫ u in p..q, ((b p + b q) / 2 * w u -
        (b q - b p) * (w u * (1 / 2 - (u - p) / (q - p)))) := by
      congr 1; funext u; simp only [hl]; ring
    rw [this, intervalIntegral.integral_sub, intervalIntegral.integral_const_mul, intervalIntegral.integral_const_mul]
    · rw [← hW, ← hD]; ring
    · exact Continuous.intervalIntegrable (by fun_prop) _ _
    · exact Continuous.intervalIntegrable (by fun_prop) _ _
  have e2 : |(∫ u in p..q, w u * l u) - ∫ u in p..q, w u * b u| ≤ K * W := by
    rw [← intervalIntegral.integral_sub (Continuous.intervalIntegrable (by fun_prop) _ _)
      (Continuous.intervalIntegrable (by fun_prop) _ _), hW, ← intervalIntegral.integral_const_mul]
    refine (intervalIntegral.abs_integral_le_integral_abs hpq.le).trans
      (intervalIntegral.integral_mono_on hpq.le ?_ ?_ fun u hu => ?_)
    · exact Continuous.intervalIntegrable (by fun_prop) _ _
    · exact Continuous.intervalIntegrable (by fun_prop) _ _
    · rw [← mul_sub, abs_mul, abs_of_nonneg (hw0 u hu), mul_comm, abs_sub_comm]
      exact mul_le_mul_of_nonneg_right (hline u hu) (hw0 u hu)
  have e3 : |(b q - b p) * ((θ - 1 / 2) * W + D)| ≤ |b q - b p| * ((R - 1) / 2 + η) * W := by
    rw [abs_mul, mul_assoc]
    refine mul_le_mul_of_nonneg_left ((abs_add_le _ _).trans ?_) (abs_nonneg _)
    rw [abs_mul, abs_of_nonneg hW0]
    have := mul_le_mul_of_nonneg_right hθ hW0
    linarith
  calc _ ≤ _ := abs_sub_le _ (∫ u in p..q, w u * l u) _
    _ ≤ _ := by rw [e1]; linarith

theorem half_weight {t : ℝ} (ht : 0 ≤ t) : |exp (-t) / (1 + exp (-t)) - 1 / 2| ≤ t / 2 ∧ |1 / (1 + exp (-t)) - 1 / 2| ≤ t / 2 := by
  have p := exp_pos (-t)
  have h1 : exp (-t) ≤ 1 := exp_le_one_iff.2 (by linarith)
  have h2 : 1 - t ≤ exp (-t) := by linarith [add_one_le_exp (-t)]
  have e : exp (-t) / (1 + exp (-t)) - 1 / 2 = -((1 - exp (-t)) / (2 * (1 + exp (-t)))) := by field_simp; ring
  have e' : 1 / (1 + exp (-t)) - 1 / 2 = (1 - exp (-t)) / (2 * (1 + exp (-t))) := by field_simp; ring
  have k : |(1 - exp (-t)) / (2 * (1 + exp (-t)))| ≤ t / 2 := by
    rw [abs_of_nonneg (div_nonneg (by linarith) (by positivity)), div_le_div_iff₀ (by positivity) (by norm_num)]
    nlinarith
  exact ⟨by rw [e, abs_neg]; exact k, by rw [e']; exact k⟩

/-- What every layer contributes to the error. -/
noncomputable def layerOrder (ω K G δ τm : ℝ) : ℝ := ω * ((exp (G * δ + τm) - 1) / 2 + τm / 2) + K * δ ^ 2 / 8

/-- One layer of exact opacity, any weight `α exp(∓ opacity)`. -/
theorem layer_order {S : ℝ} (hb : Continuous b) (hw : Continuous w) (hL : Levels n L s)
    (hα0 : ∀ u ∈ Icc 0 L, 0 ≤ α u) (hG0 : 0 ≤ G) (hc : Curved K L b) (hK : 0 ≤ K)
    (hs : Swing n s b fun _ => ω) (hf : FinerThan n s δ) (hτ : ∀ i, 1 ≤ i → i ≤ n → exactLayer α s i ≤ τm)
    (h1 : 1 ≤ i) (h2 : i ≤ n) (hS : S = (1 - θ) * b (s (i - 1)) + θ * b (s i)) (hθ : |θ - 1 / 2| ≤ exactLayer α s i / 2)
    (hwα : ∀ u ∈ Icc (s (i - 1)) (s i), ∀ v ∈ Icc (s (i - 1)) (s i), w u ≤ exp (G * (s i - s (i - 1)) + exactLayer α s i) * w v)
    (hw0 : ∀ u ∈ Icc (s (i - 1)) (s i), 0 ≤ w u) :
    |S * (∫ u in s (i - 1)..s i, w u) - ∫ u in s (i - 1)..s i, w u * b u| ≤
      layerOrder ω K G δ τm * ∫ u in s (i - 1)..s i, w u := by
  have hle := hL.mono (Nat.sub_le i 1) h2
  have hp := hL.mem (show i - 1 ≤ n by omega)
  have hq := hL.mem h2
  rcases hle.eq_or_lt with he | hlt
  · rw [he]; simp
  have hh : 0 < s i - s (i - 1) := sub_pos.2 hlt
  have hx0 : 0 ≤ exactLayer α s i := pathOpacity_nonneg hle fun u hu => hα0 u ⟨hp.1.trans hu.1, hu.2.trans hq.2⟩
  have hd := hf i h1 h2
  have ht := hτ i h1 h2
  have key := two_point (θ := θ) (η := exactLayer α s i / 2) (K := K * (s i - s (i - 1)) ^ 2 / 8)
    (R := exp (G * (s i - s (i - 1)) + exactLayer α s i)) hlt hw hb hw0 hwα
    (one_le_exp (by positivity)) hθ fun u hu => by
      have := curved_line hc hK hp hq (t := (u - s (i - 1)) / (s i - s (i - 1)))
        ⟨div_nonneg (by linarith [hu.1]) hh.le, (div_le_one hh).2 (by linarith [hu.2])⟩
      have e : (s i - s (i - 1)) * ((u - s (i - 1)) / (s i - s (i - 1))) + s (i - 1) = u := by
        field_simp; ring
      rwa [e] at this
  rw [hS]
  refine key.trans (mul_le_mul_of_nonneg_right ?_ (intervalIntegral.integral_nonneg hle hw0))
  have hsw := hs i h1 h2 (s i) ⟨hle, le_rfl⟩ (s (i - 1)) ⟨le_rfl, hle⟩
  have hω : 0 ≤ ω := (abs_nonneg _).trans hsw
  have hsq : (s i - s (i - 1)) ^ 2 ≤ δ ^ 2 := pow_le_pow_left₀ hh.le hd 2
  have hexp : exp (G * (s i - s (i - 1)) + exactLayer α s i) ≤ exp (G * δ + τm) :=
    exp_le_exp.2 (add_le_add (mul_le_mul_of_nonneg_left hd hG0) ht)
  unfold layerOrder
  have m1 : |b (s i) - b (s (i - 1))| * ((exp (G * (s i - s (i - 1)) + exactLayer α s i) - 1) / 2 + exactLayer α s i / 2) ≤
      ω * ((exp (G * δ + τm) - 1) / 2 + τm / 2) := by
    have : 1 ≤ exp (G * (s i - s (i - 1)) + exactLayer α s i) := one_le_exp (by positivity)
    exact mul_le_mul hsw (by linarith) (by linarith) hω
  have m2 := mul_le_mul_of_nonneg_left hsq hK
  linarith

theorem sum_order {S : ℕ → ℝ} {c : ℝ} (hw : Continuous w) (hb : Continuous b) (hL : Levels n L s)
    (h : ∀ i, 1 ≤ i → i ≤ n → |S i * (∫ u in s (i - 1)..s i, w u) - ∫ u in s (i - 1)..s i, w u * b u| ≤
      c * ∫ u in s (i - 1)..s i, w u) :
    |∑ i ∈ Finset.Icc 1 n, S i * (∫ u in s (i - 1)..s i, w u) - ∫ u in (0:ℝ)..L, w u * b u| ≤
      c * ∫ u in (0:ℝ)..L, w u := by
  rw [← sum_layers (w := fun u => w u * b u) (hw.mul hb) hL, ← sum_layers hw hL, ← Finset.sum_sub_distrib, Finset.mul_sum]
  refine (Finset.abs_sum_le_sum_abs _ _).trans (Finset.sum_le_sum fun i hi => ?_)
  rw [Finset.mem_Icc] at hi
  exact h i hi.1 hi.2

/-- Opacity within a layer. -/
theorem opacity_within (hα : Continuous α) (hL : Levels n L s) (hα0 : ∀ u ∈ Icc 0 L, 0 ≤ α u) (h2 : i ≤ n) {u v : ℝ}
    (hu : u ∈ Icc (s (i - 1)) (s i)) (hv : v ∈ Icc (s (i - 1)) (s i)) :
    |pathOpacity α 0 u - pathOpacity α 0 v| ≤ exactLayer α s i := by
  have hp := hL.mem (show i - 1 ≤ n by omega)
  have hq := hL.mem h2
  have mono {x y : ℝ} (hx : s (i - 1) ≤ x) (hxy : x ≤ y) (hy : y ≤ s i) : pathOpacity α 0 x ≤ pathOpacity α 0 y := by
    have := pathOpacity_nonneg hxy fun z hz => hα0 z ⟨hp.1.trans (hx.trans hz.1), (hz.2.trans hy).trans hq.2⟩
    rw [← pathOpacity_sub hα] at this
    linarith
  have e : exactLayer α s i = pathOpacity α 0 (s i) - pathOpacity α 0 (s (i - 1)) := (pathOpacity_sub hα _ _).symm
  rw [e, abs_le]
  have a1 := mono le_rfl hu.1 hu.2
  have a2 := mono hu.1 hu.2 le_rfl
  have a3 := mono le_rfl hv.1 hv.2
  have a4 := mono hv.1 hv.2 le_rfl
  constructor <;> linarith

theorem weight_ratio (hα0 : ∀ u ∈ Icc 0 L, 0 ≤ α u) (hL : Levels n L s) (hG : LogLipschitz G L α) (hG0 : 0 ≤ G)
    (h2 : i ≤ n) {x y u v : ℝ} (hu : u ∈ Icc (s (i - 1)) (s i)) (hv : v ∈ Icc (s (i - 1)) (s i))
    (hxy : x - y ≤ exactLayer α s i) :
    α u * exp x ≤ exp (G * (s i - s (i - 1)) + exactLayer α s i) * (α v * exp y) := by
  have hm {z : ℝ} (hz : z ∈ Icc (s (i - 1)) (s i)) : z ∈ Icc 0 L :=
    ⟨(hL.mem (by omega : i - 1 ≤ n)).1.trans hz.1, hz.2.trans (hL.mem h2).2⟩
  have a1 : exp (G * |u - v|) ≤ exp (G * (s i - s (i - 1))) := by
    refine exp_le_exp.2 (mul_le_mul_of_nonneg_left ?_ hG0)
    rw [abs_le]
    constructor <;> linarith [hu.1, hu.2, hv.1, hv.2]
  have a2 : exp x ≤ exp (exactLayer α s i) * exp y := by rw [← exp_add]; exact exp_le_exp.2 (by linarith)
  have a3 : α u ≤ exp (G * (s i - s (i - 1))) * α v :=
    (hG u (hm hu) v (hm hv)).trans (mul_le_mul_of_nonneg_right a1 (hα0 v (hm hv)))
  calc α u * exp x ≤ (exp (G * (s i - s (i - 1))) * α v) * (exp (exactLayer α s i) * exp y) :=
        mul_le_mul a3 a2 (exp_pos _).le (mul_nonneg (exp_pos _).le (hα0 v (hm hv)))
    _ = _ := by rw [exp_add]; ring

theorem sky_order (hα : Continuous α) (hb : Continuous b) (hα0 : ∀ u ∈ Icc 0 L, 0 ≤ α u) (hL : Levels n L s)
    (hG : LogLipschitz G L α) (hG0 : 0 ≤ G) (hc : Curved K L b) (hK : 0 ≤ K)
    (hs : Swing n s b fun _ => ω) (hf : FinerThan n s δ) (hτ : ∀ i, 1 ≤ i → i ≤ n → exactLayer α s i ≤ τm) :
    |skyRadiance (fun i => b (s i)) (exactLayer α s) n - downwelling α b L| ≤
      layerOrder ω K G δ τm * (1 - exp (-pathOpacity α 0 L)) := by
  have hw : Continuous fun u => α u * exp (-pathOpacity α 0 u) := hα.mul (pathOpacity_continuous hα).neg.rexp
  have := sum_order (S := fun i => layerSource (b (s (i - 1))) (b (s i)) (exactLayer α s i)) hw hb hL
    (c := layerOrder ω K G δ τm) fun i h1 h2 => by
      have hm {x : ℝ} (hx : x ∈ Icc (s (i - 1)) (s i)) : x ∈ Icc 0 L :=
        ⟨(hL.mem (by omega : i - 1 ≤ n)).1.trans hx.1, hx.2.trans (hL.mem h2).2⟩
      have hx0 : 0 ≤ exactLayer α s i := pathOpacity_nonneg (hL.mono (Nat.sub_le i 1) h2) fun u hu => hα0 u (hm hu)
      refine layer_order (θ := exp (-exactLayer α s i) / (1 + exp (-exactLayer α s i))) hb hw hL hα0 hG0 hc hK hs hf hτ
        h1 h2 ?_ (half_weight hx0).1 (fun u hu v hv => ?_) fun u hu => mul_nonneg (hα0 u (hm hu)) (exp_pos _).le
      · unfold layerSource
        have := exp_pos (-exactLayer α s i)
        field_simp
        ring
      · refine weight_ratio hα0 hL hG hG0 h2 hu hv ?_
        have := abs_le.1 (opacity_within hα hL hα0 h2 hu hv)
        linarith [this.1]
  rw [down_weight hα 0 L] at this
  simp only [down_weight hα] at this
  unfold skyRadiance transDown downwelling
  simp only [exactLayer_below hα hL.bottom]
  have z : pathOpacity α 0 0 = 0 := by simp [pathOpacity]
  rwa [z, neg_zero, exp_zero] at this

theorem up_order (hα : Continuous α) (hb : Continuous b) (hα0 : ∀ u ∈ Icc 0 L, 0 ≤ α u) (hL : Levels n L s)
    (hG : LogLipschitz G L α) (hG0 : 0 ≤ G) (hc : Curved K L b) (hK : 0 ≤ K)
    (hs : Swing n s b fun _ => ω) (hf : FinerThan n s δ) (hτ : ∀ i, 1 ≤ i → i ≤ n → exactLayer α s i ≤ τm) :
    |upRadiance (fun i => b (s i)) (exactLayer α s) n 0 - upwelling α b L| ≤
      layerOrder ω K G δ τm * (1 - exp (-pathOpacity α 0 L)) := by
  have e (u : ℝ) : pathOpacity α u L = pathOpacity α 0 L - pathOpacity α 0 u := (pathOpacity_sub hα u L).symm
  have hw : Continuous fun u => α u * exp (-pathOpacity α u L) := by
    have e' : (fun u => α u * exp (-pathOpacity α u L)) =
        fun u => α u * exp (-(pathOpacity α 0 L - pathOpacity α 0 u)) := by funext u; rw [e]
    rw [e']
    exact hα.mul (continuous_const.sub (pathOpacity_continuous hα)).neg.rexp
  have := sum_order (S := fun i => layerSource (b (s i)) (b (s (i - 1))) (exactLayer α s i)) hw hb hL
    (c := layerOrder ω K G δ τm) fun i h1 h2 => by
      have hm {x : ℝ} (hx : x ∈ Icc (s (i - 1)) (s i)) : x ∈ Icc 0 L :=
        ⟨(hL.mem (by omega : i - 1 ≤ n)).1.trans hx.1, hx.2.trans (hL.mem h2).2⟩
      have hx0 : 0 ≤ exactLayer α s i := pathOpacity_nonneg (hL.mono (Nat.sub_le i 1) h2) fun u hu => hα0 u (hm hu)
      refine layer_order (θ := 1 / (1 + exp (-exactLayer α s i))) hb hw hL hα0 hG0 hc hK hs hf hτ
        h1 h2 ?_ (half_weight hx0).2 (fun u hu v hv => ?_) fun u hu => mul_nonneg (hα0 u (hm hu)) (exp_pos _).le
      · unfold layerSource
        have := exp_pos (-exactLayer α s i)
        field_simp
        ring
      · refine weight_ratio hα0 hL hG hG0 h2 hu hv ?_
        have := abs_le.1 (opacity_within hα hL hα0 h2 hu hv)
        rw [e u, e v]
        linarith [this.2]
  rw [up_weight hα 0 L] at this
  have z : pathOpacity α L L = 0 := by simp [pathOpacity]
  rw [z, neg_zero, exp_zero] at this
  unfold upRadiance transUp upwelling
  have e2 : ∑ i ∈ Finset.Icc (0 + 1) n, layerSource (b (s i)) (b (s (i - 1))) (exactLayer α s i) *
      (exp (-opacityAbove (exactLayer α s) n i) - exp (-opacityAbove (exactLayer α s) n (i - 1))) =
      ∑ i ∈ Finset.Icc 1 n, layerSource (b (s i)) (b (s (i - 1))) (exactLayer α s i) *
        ∫ u in s (i - 1)..s i, α u * exp (-pathOpacity α u L) :=
    Finset.sum_congr rfl fun i hi => by
      rw [Finset.mem_Icc] at hi
      rw [exactLayer_above hα hL hi.2, exactLayer_above hα hL (by omega), up_weight hα]
  rw [e2]
  exact this

theorem curved_congr {b' : ℝ → ℝ} (h : ∀ u ∈ Icc 0 L, b u = b' u) (hc : Curved K L b) : Curved K L b' :=
  ⟨hc.below.congr fun u hu => by simp only [h u hu], hc.above.congr fun u hu => by simp only [h u hu]⟩

theorem logLipschitz_congr {α' : ℝ → ℝ} (h : ∀ u ∈ Icc 0 L, α u = α' u) (hc : LogLipschitz G L α) : LogLipschitz G L α' :=
  fun u hu v hv => by rw [← h u hu, ← h v hv]; exact hc u hu v hv

theorem sky_order_on (hα : ContinuousOn α (Icc 0 L)) (hb : ContinuousOn b (Icc 0 L)) (hα0 : ∀ u ∈ Icc 0 L, 0 ≤ α u)
    (hL : Levels n L s) (hG : LogLipschitz G L α) (hG0 : 0 ≤ G) (hc : Curved K L b) (hK : 0 ≤ K)
    (hs : Swing n s b fun _ => ω) (hf : FinerThan n s δ) (hτ : ∀ i, 1 ≤ i → i ≤ n → exactLayer α s i ≤ τm) :
    |skyRadiance (fun i => b (s i)) (exactLayer α s) n - downwelling α b L| ≤
      layerOrder ω K G δ τm * (1 - exp (-pathOpacity α 0 L)) := by
  obtain ⟨g, hg, e⟩ := extend hL.length hα
  obtain ⟨k, hk, f⟩ := extend hL.length hb
  rw [sky_congr (B' := fun i => k (s i)) (τ' := exactLayer g s) (fun i hi => f _ (hL.mem hi))
    (fun i => exactLayer_congr hL e), downwelling_congr hL.length e f, pathOpacity_congr hL.length e]
  exact sky_order hg hk (fun u hu => e u hu ▸ hα0 u hu) hL (logLipschitz_congr e hG) hG0 (curved_congr f hc) hK
    (swing_congr hL f hs) hf fun i h1 h2 => exactLayer_congr hL e h1 h2 ▸ hτ i h1 h2

theorem up_order_on (hα : ContinuousOn α (Icc 0 L)) (hb : ContinuousOn b (Icc 0 L)) (hα0 : ∀ u ∈ Icc 0 L, 0 ≤ α u)
    (hL : Levels n L s) (hG : LogLipschitz G L α) (hG0 : 0 ≤ G) (hc : Curved K L b) (hK : 0 ≤ K)
    (hs : Swing n s b fun _ => ω) (hf : FinerThan n s δ) (hτ : ∀ i, 1 ≤ i → i ≤ n → exactLayer α s i ≤ τm) :
    |upRadiance (fun i => b (s i)) (exactLayer α s) n 0 - upwelling α b L| ≤
      layerOrder ω K G δ τm * (1 - exp (-pathOpacity α 0 L)) := by
  obtain ⟨g, hg, e⟩ := extend hL.length hα
  obtain ⟨k, hk, f⟩ := extend hL.length hb
  rw [up_congr (B' := fun i => k (s i)) (τ' := exactLayer g s) (fun i hi => f _ (hL.mem hi))
    (fun i => exactLayer_congr hL e), upwelling_congr hL.length e f, pathOpacity_congr hL.length e]
  exact up_order hg hk (fun u hu => e u hu ▸ hα0 u hu) hL (logLipschitz_congr e hG) hG0 (curved_congr f hc) hK
    (swing_congr hL f hs) hf fun i h1 h2 => exactLayer_congr hL e h1 h2 ▸ hτ i h1 h2

end Verif.Lemmas
