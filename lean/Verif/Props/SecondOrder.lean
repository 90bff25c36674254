import Mathlib.Analysis.Convex.Deriv
import Verif.Spec.Curvature
import Verif.Lemmas.SecondOrder
import Verif.Props.Discretisation

/-!
# C102, C103: layer opacities and radiances are accurate to second order
-/

namespace Verif.Props

open Verif.Model Verif.Py Verif.Spec Verif.Lemmas Real Set

variable {z : Bool} {n : ℕ} {s ds xds : ℕ → ℝ} {L tot factor K δ p q a b : ℝ} {α : ℝ → ℝ}

/-- Within a stretch the logarithm stays close to the straight line between its ends. -/
theorem log_line (hα : LogCurved K L α) (hK : 0 ≤ K) (hp : p ∈ Icc 0 L) (hq : q ∈ Icc 0 L) {t : ℝ} (ht : t ∈ Icc (0:ℝ) 1) :
    |log (α ((q - p) * t + p)) - ((1 - t) * log (α p) + t * log (α q))| ≤ K * (q - p) ^ 2 / 8 :=
  curved_line (b := fun u => log (α u)) ⟨hα.below, hα.above⟩ hK hp hq ht

/-- The exponential profile between two positive values, as an exponential. -/
theorem profile_eq (ha : 0 < a) (hb : 0 < b) (t : ℝ) : a * (b / a) ^ t = exp ((1 - t) * log a + t * log b) := by
  rw [rpow_def_of_pos (by positivity), log_div hb.ne' ha.ne']
  nth_rw 1 [← exp_log ha]
  rw [← exp_add]
  congr 1
  ring

theorem mean_pos_bounds (ha : 0 < a) (hb : 0 < b) : min a b ≤ expProfileMean a b ∧ expProfileMean a b ≤ max a b := by
  by_cases hab : a = b
  · subst hab
    have : expProfileMean a a = a := by
      unfold expProfileMean
      simp [div_self ha.ne']
    rw [this]; simp
  · rw [expProfileMean_eq ha hb hab]
    rcases lt_or_gt_of_ne hab with h | h
    · rw [min_eq_left h.le, max_eq_right h.le]
      exact logMean_bounds ha h
    · rw [min_eq_right h.le, max_eq_left h.le]
      have e : (b - a) / log (b / a) = (a - b) / log (a / b) := by
        rw [← inv_div a b, log_inv, div_neg, ← neg_div, neg_sub]
      rw [e]
      exact logMean_bounds hb h

/-- The mean of the exponential profile against the integral. -/
theorem mean_integral (hα : LogCurved K L α) (hc : ContinuousOn α (Icc 0 L)) (hK : 0 ≤ K) (hp : p ∈ Icc 0 L) (hq : q ∈ Icc 0 L)
    (hpq : p < q) :
    expProfileMean (α p) (α q) * (q - p) ≤ exp (K * (q - p) ^ 2 / 8) * pathOpacity α p q ∧
      pathOpacity α p q ≤ exp (K * (q - p) ^ 2 / 8) * (expProfileMean (α p) (α q) * (q - p)) := by
  have hh : 0 < q - p := sub_pos.2 hpq
  obtain ⟨c, hcd⟩ : ∃ c, c = K * (q - p) ^ 2 / 8 := ⟨_, rfl⟩
  rw [← hcd]
  have hmem : ∀ t ∈ Icc (0:ℝ) 1, (q - p) * t + p ∈ Icc 0 L := fun t ht =>
    ⟨by nlinarith [hp.1, ht.1], by nlinarith [hq.2, ht.2]⟩
  have e : pathOpacity α p q = (∫ t in (0:ℝ)..1, α ((q - p) * t + p)) * (q - p) := by
    have := intervalIntegral.integral_comp_mul_add (a := 0) (b := 1) α hh.ne' p
    rw [this, smul_eq_mul]
    unfold pathOpacity
    rw [mul_zero, zero_add, mul_one, sub_add_cancel]
    field_simp
  have i1 : IntervalIntegrable (fun t => α ((q - p) * t + p)) MeasureTheory.volume 0 1 := by
    apply ContinuousOn.intervalIntegrable
    rw [uIcc_of_le zero_le_one]
    exact hc.comp (by fun_prop) hmem
  have i2 : IntervalIntegrable (fun t => α p * (α q / α p) ^ t) MeasureTheory.volume 0 1 := by
    simp only [profile_eq (hα.pos p hp) (hα.pos q hq)]
    exact Continuous.intervalIntegrable (by fun_prop) _ _
  have pt : ∀ t ∈ Icc (0:ℝ) 1, α p * (α q / α p) ^ t ≤ exp c * α ((q - p) * t + p) ∧
      α ((q - p) * t + p) ≤ exp c * (α p * (α q / α p) ^ t) := fun t ht => by
    have hl := abs_le.1 (log_line hα hK hp hq ht)
    rw [← hcd] at hl
    have hx := hα.pos _ (hmem t ht)
    rw [profile_eq (hα.pos p hp) (hα.pos q hq)]
    constructor
    · nth_rw 1 [← exp_log hx]
      rw [← exp_add, exp_le_exp]
      linarith [hl.1]
    · nth_rw 1 [← exp_log hx]
      rw [← exp_add, exp_le_exp]
      linarith [hl.2]
  have k1 := intervalIntegral.integral_mono_on zero_le_one i2 (i1.const_mul (exp c)) fun t ht => (pt t ht).1
  have k2 := intervalIntegral.integral_mono_on zero_le_one i1 (i2.const_mul (exp c)) fun t ht => (pt t ht).2
  rw [intervalIntegral.integral_const_mul (exp c)] at k1 k2
  rw [e]
  unfold expProfileMean
  constructor
  · rw [← mul_assoc]
    exact mul_le_mul_of_nonneg_right k1 hh.le
  · rw [← mul_assoc]
    exact mul_le_mul_of_nonneg_right k2 hh.le

/-- **C102.** One layer: the error is of second order in its length, relative to its opacity, up to `1e-9` per unit of length. -/
theorem C102_layer (hL : Levels n L s) (hd : Lengths n s ds) (hc : ContinuousOn α (Icc 0 L)) (hα : LogCurved K L α)
    (hK : 0 ≤ K) (h : expInt z (n + 1) (fun i => α (s i)) ds 1 (n + 1) factor = .ok (tot, xds)) {i : ℕ} (h1 : 1 ≤ i)
    (h2 : i ≤ n) :
    |xds i - pathOpacity α (s (i - 1)) (s i)| ≤
      (exp (K * (s i - s (i - 1)) ^ 2 / 8) - 1) * pathOpacity α (s (i - 1)) (s i) + 1e-9 * (s i - s (i - 1)) := by
  have hle := hL.mono (Nat.sub_le i 1) h2
  have hp := hL.mem (show i - 1 ≤ n by omega)
  have hq := hL.mem h2
  have hx : ∀ i < n + 1, 0 ≤ α (s i) := fun i hi => (hα.pos _ (hL.mem (by omega))).le
  have ha := hα.pos _ hp
  have hb := hα.pos _ hq
  rcases hle.eq_or_lt with he | hlt
  · have hbt := C14_between (by omega) hx h h1 (by omega) (by omega) (by rw [hd i h1 h2]; linarith)
    rw [hd i h1 h2, he] at hbt
    have h0 : xds i = 0 := by simp at hbt; exact le_antisymm hbt.2 hbt.1
    rw [h0, he]
    simp [pathOpacity]
  · obtain ⟨k1, k2⟩ := mean_integral hα hc hK hp hq hlt
    set c := K * (s i - s (i - 1)) ^ 2 / 8 with hcdef
    set I := pathOpacity α (s (i - 1)) (s i)
    set M := expProfileMean (α (s (i - 1))) (α (s i)) * (s i - s (i - 1))
    have hh : 0 < s i - s (i - 1) := sub_pos.2 hlt
    have hM : |M - I| ≤ (exp c - 1) * I := by
      have hc0 : 1 ≤ exp c := one_le_exp (by positivity)
      have hI : 0 ≤ I := by
        have hMp : 0 ≤ M := mul_nonneg ((le_min ha.le hb.le).trans (mean_pos_bounds ha hb).1) hh.le
        nlinarith [exp_pos c]
      rw [abs_le]
      constructor
      · have hm := mul_le_mul_of_nonneg_left k2 (exp_pos (-c)).le
        rw [← mul_assoc, ← exp_add, neg_add_cancel, exp_zero, one_mul] at hm
        have hs : 2 - exp c ≤ exp (-c) := by
          have h2 : exp c * exp (-c) = 1 := by rw [← exp_add]; simp
          nlinarith [exp_pos (-c), sq_nonneg (exp c - 1)]
        nlinarith
      · linarith
    have hx1 : |xds i - M| ≤ 1e-9 * (s i - s (i - 1)) := by
      by_cases hdiff : 1e-9 ≤ |α (s i) - α (s (i - 1))|
      · rw [C14_exponential_mean (by omega) hx h h1 (by omega) (by omega) ha hb hdiff, hd i h1 h2, sub_self, abs_zero]
        positivity
      · rw [((C14_degenerate (by omega) hx h h1 (by omega) (by omega)).1 (not_le.1 hdiff)), hd i h1 h2, ← sub_mul, abs_mul,
          abs_of_pos hh]
        refine mul_le_mul_of_nonneg_right ?_ hh.le
        obtain ⟨m1, m2⟩ := mean_pos_bounds ha hb
        refine le_trans ?_ (not_le.1 hdiff).le
        rcases le_total (α (s (i - 1))) (α (s i)) with hab | hab
        · rw [min_eq_left hab] at m1
          rw [max_eq_right hab] at m2
          rw [abs_of_nonneg (by linarith), abs_of_nonneg (by linarith)]
          linarith
        · rw [min_eq_right hab] at m1
          rw [max_eq_left hab] at m2
          rw [abs_of_nonpos (by linarith), abs_of_nonpos (by linarith)]
          linarith
    calc |xds i - I| ≤ |xds i - M| + |M - I| := abs_sub_le _ _ _
      _ ≤ _ := by linarith

/-- **C102.** The whole path, layers no longer than `δ`. -/
theorem C102_total (hL : Levels n L s) (hd : Lengths n s ds) (hc : ContinuousOn α (Icc 0 L)) (hα : LogCurved K L α)
    (hK : 0 ≤ K) (hδ : FinerThan n s δ)
    (h : expInt z (n + 1) (fun i => α (s i)) ds 1 (n + 1) 1 = .ok (tot, xds)) :
    |tot - pathOpacity α 0 L| ≤ (exp (K * δ ^ 2 / 8) - 1) * pathOpacity α 0 L + 1e-9 * L := by
  have hx : ∀ i < n + 1, 0 ≤ α (s i) := fun i hi => (hα.pos _ (hL.mem (by omega))).le
  obtain ⟨tot', xds', h', e⟩ := C15_sum (z := z) (nl := n + 1) (ibeg := 1) (x := fun i => α (s i)) (ds := ds)
    (factor := 1) (by omega) hx
  have h0 : xds 0 = 0 := by
    rw [expInt_ok (v := layerVal z (fun i => α (s i)) (n + 1)) (by omega) fun i h1 h2 => layerVal_spec (by
      unfold prevEntry; rw [if_neg (by omega)]; exact hx _ (by omega)) (hx i h2)] at h
    cases h
    simp
  rw [h] at h'
  cases h'
  have hsum : ∑ i ∈ Finset.range (n + 1), xds i = ∑ i ∈ Finset.Icc 1 n, xds i := by
    rw [Finset.sum_range_succ', h0, add_zero, Finset.range_eq_Ico]
    rw [Finset.sum_Ico_add' xds 0 n 1]
    rfl
  have hpath : ∑ i ∈ Finset.Icc 1 n, pathOpacity α (s (i - 1)) (s i) = pathOpacity α 0 L := by
    have := exactLayer_below_on hc hL
    change ∑ i ∈ Finset.Icc 1 n, pathOpacity α (s (i - 1)) (s i) = _ at this
    exact this
  rw [e, one_mul, hsum]
  nth_rw 1 [← hpath]
  rw [← Finset.sum_sub_distrib]
  refine (Finset.abs_sum_le_sum_abs _ _).trans ?_
  have step : ∀ i ∈ Finset.Icc 1 n, |xds i - pathOpacity α (s (i - 1)) (s i)| ≤
      (exp (K * δ ^ 2 / 8) - 1) * pathOpacity α (s (i - 1)) (s i) + 1e-9 * (s i - s (i - 1)) := fun i hi => by
    rw [Finset.mem_Icc] at hi
    refine (C102_layer hL hd hc hα hK h hi.1 hi.2).trans ?_
    have hle := hL.mono (Nat.sub_le i 1) hi.2
    have hI : 0 ≤ pathOpacity α (s (i - 1)) (s i) := pathOpacity_nonneg hle fun u hu =>
      (hα.pos u ⟨(hL.mem (show i - 1 ≤ n by omega)).1.trans hu.1, hu.2.trans (hL.mem hi.2).2⟩).le
    have hsq : (s i - s (i - 1)) ^ 2 ≤ δ ^ 2 := pow_le_pow_left₀ (sub_nonneg.2 hle) (hδ i hi.1 hi.2) 2
    have : exp (K * (s i - s (i - 1)) ^ 2 / 8) ≤ exp (K * δ ^ 2 / 8) := by
      rw [exp_le_exp]
      have := mul_le_mul_of_nonneg_left hsq hK
      linarith
    nlinarith
  refine (Finset.sum_le_sum step).trans ?_
  rw [Finset.sum_add_distrib, ← Finset.mul_sum, ← Finset.mul_sum, hpath, sum_lengths hL]

/-- **C102.** An exponential atmosphere: only the branch for nearly equal values leaves an error, whatever the number of levels. -/
theorem C102_exponential {c k : ℝ} (hc : 0 < c) (hL : Levels n L s) (hd : Lengths n s ds)
    (h : expInt z (n + 1) (fun i => c * exp (k * s i)) ds 1 (n + 1) 1 = .ok (tot, xds)) :
    |tot - pathOpacity (fun u => c * exp (k * u)) 0 L| ≤ 1e-9 * L := by
  have hα : LogCurved 0 L fun u => c * exp (k * u) := by
    have e : ∀ u : ℝ, log (c * exp (k * u)) = log c + k * u := fun u => by rw [log_mul hc.ne' (exp_pos _).ne', log_exp]
    refine ⟨fun u _ => by positivity, ?_, ?_⟩
    · simp only [e]
      refine ⟨convex_Icc _ _, fun x _ y _ a b _ _ hab => le_of_eq ?_⟩
      simp only [smul_eq_mul]
      linear_combination (-(log c)) * hab
    · simp only [e]
      refine ⟨convex_Icc _ _, fun x _ y _ a b _ _ hab => le_of_eq ?_⟩
      simp only [smul_eq_mul]
      linear_combination (log c) * hab
  have hf : FinerThan n s L := fun i h1 h2 => by
    linarith [(hL.mem (show i - 1 ≤ n by omega)).1, (hL.mem h2).2]
  simpa using C102_total (α := fun u => c * exp (k * u)) hL hd (by fun_prop) hα le_rfl hf h

/-- A bound on the second derivative of the logarithm suffices. -/
theorem C102_of_deriv {g g' g'' : ℝ → ℝ} (hg : ∀ u, HasDerivAt g (g' u) u) (hg' : ∀ u, HasDerivAt g' (g'' u) u)
    (hK : ∀ u ∈ Icc 0 L, |g'' u| ≤ K) : LogCurved K L fun u => exp (g u) := by
  have d1 (c : ℝ) : deriv (fun u => g u + c * u ^ 2) = fun u => g' u + c * (2 * u) := by
    funext u
    have : HasDerivAt (fun u => g u + c * u ^ 2) _ u := (hg u).add ((hasDerivAt_pow 2 u).const_mul c)
    simpa using this.deriv
  have d2 (c : ℝ) : deriv^[2] (fun u => g u + c * u ^ 2) = fun u => g'' u + c * 2 := by
    show deriv (deriv _) = _
    rw [d1]
    funext u
    have : HasDerivAt (fun u => g' u + c * (2 * u)) _ u := (hg' u).add (((hasDerivAt_id u).const_mul (2:ℝ)).const_mul c)
    simpa using this.deriv
  have c0 (c : ℝ) : ContinuousOn (fun u => g u + c * u ^ 2) (Icc 0 L) := fun u _ =>
    (((hg u).continuousAt).add (by fun_prop)).continuousWithinAt
  have f1 (c : ℝ) : DifferentiableOn ℝ (fun u => g u + c * u ^ 2) (interior (Icc 0 L)) := fun u _ =>
    (((hg u).differentiableAt).add (by fun_prop)).differentiableWithinAt
  have f2 (c : ℝ) : DifferentiableOn ℝ (deriv fun u => g u + c * u ^ 2) (interior (Icc 0 L)) := by
    rw [d1]
    exact fun u _ => (((hg' u).differentiableAt).add (by fun_prop)).differentiableWithinAt
  refine ⟨fun u _ => exp_pos _, ?_, ?_⟩
  · simp only [log_exp]
    refine convexOn_of_deriv2_nonneg (convex_Icc _ _) (c0 _) (f1 _) (f2 _) fun u hu => ?_
    rw [d2]
    linarith [(abs_le.1 (hK u (interior_subset hu))).1]
  · simp only [log_exp, sub_eq_add_neg, ← neg_mul]
    refine concaveOn_of_deriv2_nonpos (convex_Icc _ _) (c0 _) (f1 _) (f2 _) fun u hu => ?_
    rw [d2]
    linarith [(abs_le.1 (hK u (interior_subset hu))).2]

/-- Not exponential: the logarithm `-u²/2 - 1` has curvature 1; two layers of length 1. -/
example : ∃ tot xds, expInt false 3 (fun i => exp (-((i:ℝ)) ^ 2 / 2 - 1)) (fun _ => 1) 1 3 1 = .ok (tot, xds) ∧
    |tot - pathOpacity (fun u => exp (-u ^ 2 / 2 - 1)) 0 2| ≤
      (exp (1 / 8) - 1) * pathOpacity (fun u => exp (-u ^ 2 / 2 - 1)) 0 2 + 1e-9 * 2 := by
  obtain ⟨⟨tot, xds⟩, h⟩ := C15_total (z := false) (nl := 3) (ibeg := 1) (x := fun i => exp (-((i:ℝ)) ^ 2 / 2 - 1))
    (ds := fun _ => 1) (factor := 1) (by norm_num)
  refine ⟨tot, xds, h, ?_⟩
  have hα : LogCurved 1 2 fun u => exp (-u ^ 2 / 2 - 1) :=
    C102_of_deriv (g' := fun u => -u) (g'' := fun _ => -1)
      (fun u => by
        have := (((hasDerivAt_pow 2 u).neg).div_const 2).sub_const 1
        refine this.congr_deriv ?_
        norm_num
        ring) (fun u => (hasDerivAt_id u).neg) (fun u _ => by norm_num)
  have := C102_total (z := false) (n := 2) (L := 2) (s := fun i => (i:ℝ)) (ds := fun _ => 1) (δ := 1) (K := 1)
    (α := fun u => exp (-u ^ 2 / 2 - 1)) ⟨by simp, by simp, fun i _ => by push_cast; linarith⟩
    (fun i h1 _ => by simp [Nat.cast_sub h1]) (by fun_prop) hα zero_le_one
    (fun i h1 _ => by simp [Nat.cast_sub h1]) h
  simpa using this

/-! ## C103 -/

section

variable {k : ℕ} {a : Fin k → ℝ → ℝ} {x : Fin k → ℕ → ℝ} {es frq m M ω G K' τm A D : ℝ} {T : ℝ → ℝ} {out : PlanckOut}

/-- Absorbers that vary smoothly along the path. -/
structure SmoothAbsorbers {k : ℕ} (K G L : ℝ) (a : Fin k → ℝ → ℝ) : Prop where
  continuous : ∀ c, ContinuousOn (a c) (Icc 0 L)
  curved : ∀ c, LogCurved K L (a c)
  lipschitz : ∀ c, LogLipschitz G L (a c)

theorem SmoothAbsorbers.absorbers (h : SmoothAbsorbers K G L a) : Absorbers L a :=
  ⟨h.continuous, fun c u hu => ((h.curved c).pos u hu).le⟩

theorem SmoothAbsorbers.total (h : SmoothAbsorbers K G L a) : LogLipschitz G L (total a) := fun u hu v hv => by
  unfold Props.total
  rw [Finset.mul_sum]
  exact Finset.sum_le_sum fun c _ => h.lipschitz c u hu v hv

/-- The error of all layer opacities together. -/
theorem C103_opacities (hs : Sampled n L s ds a x) (ha : SmoothAbsorbers K G L a) (hK : 0 ≤ K) (hδ : FinerThan n s δ) :
    opacityError n (fun i => pathOpacity (total a) (s (i - 1)) (s i)) (fun i => ∑ c, x c i) ≤
      (exp (K * δ ^ 2 / 8) - 1) * pathOpacity (total a) 0 L + 1e-9 * k * L := by
  have step : ∀ i ∈ Finset.Icc 1 n, |∑ c, x c i - pathOpacity (total a) (s (i - 1)) (s i)| ≤
      (exp (K * δ ^ 2 / 8) - 1) * pathOpacity (total a) (s (i - 1)) (s i) + 1e-9 * k * (s i - s (i - 1)) := fun i hi => by
    rw [Finset.mem_Icc] at hi
    have hle := hs.levels.mono (Nat.sub_le i 1) hi.2
    have e : pathOpacity (total a) (s (i - 1)) (s i) = ∑ c, pathOpacity (a c) (s (i - 1)) (s i) :=
      intervalIntegral.integral_finsetSum fun c _ => ((ha.continuous c).mono (by
        rw [uIcc_of_le hle]
        exact Icc_subset_Icc (hs.levels.mem (by omega)).1 (hs.levels.mem hi.2).2)).intervalIntegrable
    have e' : (1e-9 : ℝ) * k * (s i - s (i - 1)) = ∑ _c : Fin k, 1e-9 * (s i - s (i - 1)) := by
      simp; ring
    rw [e, e', ← Finset.sum_sub_distrib, Finset.mul_sum, ← Finset.sum_add_distrib]
    refine (Finset.abs_sum_le_sum_abs _ _).trans (Finset.sum_le_sum fun c _ => ?_)
    obtain ⟨z, tot, h⟩ := hs.integrated c
    refine (C102_layer hs.levels hs.lengths (ha.continuous c) (ha.curved c) hK h hi.1 hi.2).trans ?_
    have hI : 0 ≤ pathOpacity (a c) (s (i - 1)) (s i) := pathOpacity_nonneg hle fun u hu =>
      ((ha.curved c).pos u ⟨(hs.levels.mem (show i - 1 ≤ n by omega)).1.trans hu.1, hu.2.trans (hs.levels.mem hi.2).2⟩).le
    have hsq : (s i - s (i - 1)) ^ 2 ≤ δ ^ 2 := pow_le_pow_left₀ (sub_nonneg.2 hle) (hδ i hi.1 hi.2) 2
    have : exp (K * (s i - s (i - 1)) ^ 2 / 8) ≤ exp (K * δ ^ 2 / 8) := by
      rw [exp_le_exp]
      have := mul_le_mul_of_nonneg_left hsq hK
      linarith
    nlinarith
  have hpath := exactLayer_below_on ha.absorbers.total_continuous hs.levels
  change ∑ i ∈ Finset.Icc 1 n, pathOpacity (total a) (s (i - 1)) (s i) = _ at hpath
  refine (Finset.sum_le_sum step).trans ?_
  rw [Finset.sum_add_distrib, ← Finset.mul_sum, ← Finset.mul_sum, hpath, sum_lengths hs.levels]

/-- **C103.** Seen from the ground: the radiance against the solution of the radiative transfer equation. -/
theorem C103_ground (hf : 0 < frq) (hs : Sampled n L s ds a x) (ha : SmoothAbsorbers K G L a) (hK : 0 ≤ K) (hG : 0 ≤ G)
    (hT : ContinuousOn T (Icc 0 L)) (hT0 : ∀ u ∈ Icc 0 L, 2.728 ≤ T u ∧ T u ≤ M) (hc : Curved K' L (radianceAt frq T))
    (hK' : 0 ≤ K') (hω : Swing n s (radianceAt frq T) fun _ => ω) (hδ : FinerThan n s δ)
    (hτ : ∀ i, 1 ≤ i → i ≤ n → pathOpacity (total a) (s (i - 1)) (s i) ≤ τm)
    (hop : pathOpacity (total a) 0 L < 125) (hop' : opacityBelow (fun i => ∑ c, x c i) n < 125)
    (h : planck false es frq (n + 1) (fun i => T (s i)) (fun i => ∑ c, x c i) = some out) :
    |out.boftotl - trueDown frq (total a) T L| ≤
      (ω * ((exp (G * δ + τm) - 1) / 2 + τm / 2) + K' * δ ^ 2 / 8) * (1 - exp (-pathOpacity (total a) 0 L)) +
      (tk2b out.hvk M - tk2b out.hvk 2.728) *
        ((exp (K * δ ^ 2 / 8) - 1) * pathOpacity (total a) 0 L + 1e-9 * k * L) := by
  have hab := ha.absorbers
  obtain ⟨out', h'⟩ := planck_exists (s := false) (es := es) (frq := frq) (nl := n + 1) (t := fun i => T (s i))
    (τ := fun i => pathOpacity (total a) (s (i - 1)) (s i)) (by omega)
  have hTp : ∀ u ∈ Icc 0 L, 0 < T u := fun u hu => by linarith [(hT0 u hu).1]
  have eo := exactLayer_below_on hab.total_continuous hs.levels
  have k1 : |out'.boftotl - trueDown frq (total a) T L| ≤
      layerOrder ω K' G δ τm * (1 - exp (-pathOpacity (total a) 0 L)) := by
    obtain ⟨hn, e1, -, -, -, e5, -, e7⟩ := planck_ground h'
    rw [Nat.add_sub_cancel] at e5 e7
    have key := sky_order_on hab.total_continuous (radianceAt_continuousOn hf hT hTp) hab.total_nonneg hs.levels ha.total hG
      hc hK' hω hδ hτ
    have eo' := eo
    change opacityBelow (fun i => pathOpacity (total a) (s (i - 1)) (s i)) n = _ at eo'
    rw [eo'] at e5
    rw [e7, (e5 hop).1, show cTcosmicbkg = (2.728 : ℝ) from rfl]
    unfold trueDown
    rw [add_sub_add_left_eq_sub]
    exact key
  have k2 := C92_ground (M := M) hf (fun i hi => hT0 _ (hs.levels.mem (by omega)))
    (fun i h1 h2 => ⟨pathOpacity_nonneg (hs.levels.mono (Nat.sub_le i 1) (by omega)) fun u hu =>
        hab.total_nonneg u ⟨(hs.levels.mem (by omega : i - 1 ≤ n)).1.trans hu.1,
          hu.2.trans (hs.levels.mem (by omega : i ≤ n)).2⟩,
      Finset.sum_nonneg fun c _ => hs.nonneg hab c h1 (by omega)⟩)
    (by rw [Nat.add_sub_cancel]; exact eo ▸ hop) (by rw [Nat.add_sub_cancel]; exact hop') h' h
  rw [Nat.add_sub_cancel, planck_hvk h'] at k2
  rw [planck_hvk h]
  have hBM : tk2b (hvkOf frq) 2.728 ≤ tk2b (hvkOf frq) M := tk2b_mono (hvkOf_pos hf) (by norm_num)
    ((hT0 0 ⟨le_rfl, hs.levels.length⟩).1.trans (hT0 0 ⟨le_rfl, hs.levels.length⟩).2)
  have k3 := mul_le_mul_of_nonneg_left (C103_opacities hs ha hK hδ) (sub_nonneg.2 hBM)
  have := abs_sub_le out.boftotl out'.boftotl (trueDown frq (total a) T L)
  unfold layerOrder at k1
  linarith

/-- C103: seen from above. -/
theorem C103_satellite (hf : 0 < frq) (hes : 0 ≤ es ∧ es ≤ 1) (hs : Sampled n L s ds a x) (ha : SmoothAbsorbers K G L a)
    (hK : 0 ≤ K) (hG : 0 ≤ G) (hT : ContinuousOn T (Icc 0 L)) (hm : 0 < m) (hT0 : ∀ u ∈ Icc 0 L, m ≤ T u ∧ T u ≤ M)
    (hc : Curved K' L (radianceAt frq T)) (hK' : 0 ≤ K') (hω : Swing n s (radianceAt frq T) fun _ => ω)
    (hδ : FinerThan n s δ) (hτ : ∀ i, 1 ≤ i → i ≤ n → pathOpacity (total a) (s (i - 1)) (s i) ≤ τm)
    (hop : pathOpacity (total a) 0 L < 125) (hop' : opacityBelow (fun i => ∑ c, x c i) n < 125)
    (h : planck true es frq (n + 1) (fun i => T (s i)) (fun i => ∑ c, x c i) = some out) :
    |out.boftotl - trueUp es frq (total a) T L| ≤
      (ω * ((exp (G * δ + τm) - 1) / 2 + τm / 2) + K' * δ ^ 2 / 8) * (1 - exp (-pathOpacity (total a) 0 L)) +
      (tk2b out.hvk M - es * tk2b out.hvk m) *
        ((exp (K * δ ^ 2 / 8) - 1) * pathOpacity (total a) 0 L + 1e-9 * k * L) := by
  have hab := ha.absorbers
  obtain ⟨out', h'⟩ := planck_exists (s := true) (es := es) (frq := frq) (nl := n + 1) (t := fun i => T (s i))
    (τ := fun i => pathOpacity (total a) (s (i - 1)) (s i)) (by omega)
  have hTp : ∀ u ∈ Icc 0 L, 0 < T u := fun u hu => hm.trans_le (hT0 u hu).1
  have eo := exactLayer_below_on hab.total_continuous hs.levels
  have k1 : |out'.boftotl - trueUp es frq (total a) T L| ≤
      layerOrder ω K' G δ τm * (1 - exp (-pathOpacity (total a) 0 L)) := by
    obtain ⟨hn, e1, -, -, -, e5, -, e7⟩ := planck_sat h'
    rw [Nat.add_sub_cancel] at e5 e7
    have key := up_order_on hab.total_continuous (radianceAt_continuousOn hf hT hTp) hab.total_nonneg hs.levels ha.total hG
      hc hK' hω hδ hτ
    have eo' := eo
    change opacityBelow (fun i => pathOpacity (total a) (s (i - 1)) (s i)) n = _ at eo'
    rw [eo'] at e5
    rw [e7, (e5 hop).1, hs.levels.bottom]
    unfold trueUp
    rw [add_sub_add_left_eq_sub]
    exact key
  have k2 := C92_satellite (M := M) hf hes hm (fun i hi => hT0 _ (hs.levels.mem (by omega)))
    (fun i h1 h2 => ⟨pathOpacity_nonneg (hs.levels.mono (Nat.sub_le i 1) (by omega)) fun u hu =>
        hab.total_nonneg u ⟨(hs.levels.mem (by omega : i - 1 ≤ n)).1.trans hu.1,
          hu.2.trans (hs.levels.mem (by omega : i ≤ n)).2⟩,
      Finset.sum_nonneg fun c _ => hs.nonneg hab c h1 (by omega)⟩)
    (by rw [Nat.add_sub_cancel]; exact eo ▸ hop) (by rw [Nat.add_sub_cancel]; exact hop') h' h
  rw [Nat.add_sub_cancel, planck_hvk h'] at k2
  rw [planck_hvk h]
  have hBM : es * tk2b (hvkOf frq) m ≤ tk2b (hvkOf frq) M :=
    (mul_le_of_le_one_left (tk2b_pos (hvkOf_pos hf) hm).le hes.2).trans (tk2b_mono (hvkOf_pos hf) hm
    ((hT0 0 ⟨le_rfl, hs.levels.length⟩).1.trans (hT0 0 ⟨le_rfl, hs.levels.length⟩).2))
  have k3 := mul_le_mul_of_nonneg_left (C103_opacities hs ha hK hδ) (sub_nonneg.2 hBM)
  have := abs_sub_le out.boftotl out'.boftotl (trueUp es frq (total a) T L)
  unfold layerOrder at k1
  linarith

theorem exp_sub_one_le {x y : ℝ} (h : x ≤ y) (h0 : 0 ≤ x) : exp x - 1 ≤ x * exp y := by
  have h1 := add_one_le_exp (-x)
  have h2 : exp x * exp (-x) = 1 := by rw [← exp_add]; simp
  have h3 := mul_le_mul_of_nonneg_left (exp_le_exp.2 h) h0
  nlinarith [exp_pos x]

/-- The explicit bound of C103 is of second order. -/
theorem order_constant (hD : 0 ≤ D) (hG : 0 ≤ G) (hA : 0 ≤ A) (hK : 0 ≤ K) (hK' : 0 ≤ K') {P B l : ℝ} (hP : 0 ≤ P) (hB : 0 ≤ B)
    (hl : 0 ≤ l) (h0 : 0 ≤ δ) (h1 : δ ≤ 1) :
    (D * δ * ((exp (G * δ + A * δ) - 1) / 2 + A * δ / 2) + K' * δ ^ 2 / 8) * (1 - exp (-P)) +
      B * ((exp (K * δ ^ 2 / 8) - 1) * P + 1e-9 * l) ≤
    (D * ((G + A) * exp (G + A) / 2 + A / 2) + K' / 8 + B * (K / 8 * exp (K / 8) * P + l)) * (δ ^ 2 + 1e-9) := by
  have e1 : exp (G * δ + A * δ) - 1 ≤ (G + A) * δ * exp (G + A) := by
    have := exp_sub_one_le (x := (G + A) * δ) (y := G + A) (mul_le_of_le_one_right (by positivity) h1) (by positivity)
    rwa [add_mul] at this ⊢
  have hd2 : δ ^ 2 ≤ 1 := pow_le_one₀ h0 h1
  have e2 : exp (K * δ ^ 2 / 8) - 1 ≤ K * δ ^ 2 / 8 * exp (K / 8) :=
    exp_sub_one_le (by nlinarith) (by positivity)
  have f1 : D * δ * ((exp (G * δ + A * δ) - 1) / 2 + A * δ / 2) + K' * δ ^ 2 / 8 ≤
      (D * ((G + A) * exp (G + A) / 2 + A / 2) + K' / 8) * δ ^ 2 := by
    have := mul_le_mul_of_nonneg_left (a := D * δ) (show (exp (G * δ + A * δ) - 1) / 2 + A * δ / 2 ≤
      (G + A) * δ * exp (G + A) / 2 + A * δ / 2 by linarith) (by positivity)
    refine (add_le_add_left this _).trans (le_of_eq ?_)
    ring
  have f2 : 1 - exp (-P) ≤ 1 := by linarith [exp_pos (-P)]
  have f2' : 0 ≤ 1 - exp (-P) := by linarith [exp_le_one_iff.2 (neg_nonpos.2 hP)]
  have c1 : 0 ≤ D * ((G + A) * exp (G + A) / 2 + A / 2) + K' / 8 := by positivity
  have f3 : (D * δ * ((exp (G * δ + A * δ) - 1) / 2 + A * δ / 2) + K' * δ ^ 2 / 8) * (1 - exp (-P)) ≤
      (D * ((G + A) * exp (G + A) / 2 + A / 2) + K' / 8) * δ ^ 2 :=
    (mul_le_mul_of_nonneg_right f1 f2').trans (mul_le_of_le_one_right (by positivity) f2)
  have f4 : B * ((exp (K * δ ^ 2 / 8) - 1) * P + 1e-9 * l) ≤ B * (K / 8 * exp (K / 8) * P * δ ^ 2 + 1e-9 * l) := by
    refine mul_le_mul_of_nonneg_left (add_le_add_left ?_ _) hB
    refine (mul_le_mul_of_nonneg_right e2 hP).trans (le_of_eq (by ring))
  have c2 : 0 ≤ B * (K / 8 * exp (K / 8) * P) := by positivity
  have c3 : 0 ≤ B * l * δ ^ 2 := by positivity
  have c4 : (0:ℝ) ≤ (D * ((G + A) * exp (G + A) / 2 + A / 2) + K' / 8 + B * (K / 8 * exp (K / 8) * P)) * 1e-9 := by positivity
  nlinarith

theorem swing_of_lipschitz {b : ℝ → ℝ} (hL : Levels n L s) (hD : 0 ≤ D) (hδ : FinerThan n s δ)
    (hb : ∀ u ∈ Icc 0 L, ∀ v ∈ Icc 0 L, |b u - b v| ≤ D * |u - v|) : Swing n s b fun _ => D * δ :=
  fun i h1 h2 u hu v hv => by
    have hm {x : ℝ} (hx : x ∈ Icc (s (i - 1)) (s i)) : x ∈ Icc 0 L :=
      ⟨(hL.mem (by omega : i - 1 ≤ n)).1.trans hx.1, hx.2.trans (hL.mem h2).2⟩
    refine (hb u (hm hu) v (hm hv)).trans (mul_le_mul_of_nonneg_left ?_ hD)
    have := hδ i h1 h2
    rw [abs_le]
    constructor <;> linarith [hu.1, hu.2, hv.1, hv.2]

theorem layer_le (hL : Levels n L s) {α : ℝ → ℝ} (hc : ContinuousOn α (Icc 0 L)) (hA : 0 ≤ A) (hα : ∀ u ∈ Icc 0 L, α u ≤ A)
    (hδ : FinerThan n s δ) {i : ℕ} (h1 : 1 ≤ i) (h2 : i ≤ n) : pathOpacity α (s (i - 1)) (s i) ≤ A * δ := by
  have hle := hL.mono (Nat.sub_le i 1) h2
  have hsub : Icc (s (i - 1)) (s i) ⊆ Icc 0 L := Icc_subset_Icc (hL.mem (by omega)).1 (hL.mem h2).2
  have := intervalIntegral.integral_mono_on hle ((hc.mono (by rw [uIcc_of_le hle]; exact hsub)).intervalIntegrable)
    (_root_.intervalIntegrable_const (μ := MeasureTheory.volume) (c := A)) fun u hu => hα u (hsub hu)
  rw [intervalIntegral.integral_const, smul_eq_mul] at this
  unfold pathOpacity
  have := mul_le_mul_of_nonneg_left (hδ i h1 h2) hA
  linarith

/-- **C103.** One constant for all grids: the error is bounded by a multiple of the squared distance of the levels (down to the
floor set by the branch for nearly equal values). -/
theorem C103_order_ground (hf : 0 < frq) (ha : SmoothAbsorbers K G L a) (hK : 0 ≤ K) (hG : 0 ≤ G)
    (hA : ∀ u ∈ Icc 0 L, total a u ≤ A) (hT : ContinuousOn T (Icc 0 L)) (hT0 : ∀ u ∈ Icc 0 L, 2.728 ≤ T u ∧ T u ≤ M)
    (hc : Curved K' L (radianceAt frq T)) (hK' : 0 ≤ K') (hD0 : 0 ≤ D)
    (hD : ∀ u ∈ Icc 0 L, ∀ v ∈ Icc 0 L, |radianceAt frq T u - radianceAt frq T v| ≤ D * |u - v|)
    (hop : pathOpacity (total a) 0 L < 125) :
    ∃ C, ∀ n s ds x es out δ, Sampled n L s ds a x → FinerThan n s δ → 0 ≤ δ → δ ≤ 1 →
      opacityBelow (fun i => ∑ c, x c i) n < 125 →
      planck false es frq (n + 1) (fun i => T (s i)) (fun i => ∑ c, x c i) = some out →
      |out.boftotl - trueDown frq (total a) T L| ≤ C * (δ ^ 2 + 1e-9) := by
  refine ⟨D * ((G + A) * exp (G + A) / 2 + A / 2) + K' / 8 + (tk2b (hvkOf frq) M - tk2b (hvkOf frq) 2.728) *
    (K / 8 * exp (K / 8) * pathOpacity (total a) 0 L + k * L), fun n s ds x es out δ hs hδ h0 h1 hop' h => ?_⟩
  have hab := ha.absorbers
  have hL0 := hs.levels.length
  have hA0 : 0 ≤ A := (hab.total_nonneg 0 ⟨le_rfl, hL0⟩).trans (hA 0 ⟨le_rfl, hL0⟩)
  have hBM : tk2b (hvkOf frq) 2.728 ≤ tk2b (hvkOf frq) M := tk2b_mono (hvkOf_pos hf) (by norm_num)
    ((hT0 0 ⟨le_rfl, hL0⟩).1.trans (hT0 0 ⟨le_rfl, hL0⟩).2)
  have key := C103_ground hf hs ha hK hG hT hT0 hc hK' (swing_of_lipschitz hs.levels hD0 hδ hD) hδ
    (fun i => layer_le hs.levels hab.total_continuous hA0 hA hδ) hop hop' h
  rw [planck_hvk h, mul_assoc (1e-9 : ℝ)] at key
  exact key.trans (order_constant hD0 hG hA0 hK hK' (pathOpacity_nonneg hL0 hab.total_nonneg) (sub_nonneg.2 hBM)
    (by positivity) h0 h1)

/-- C103: from above, for every emissivity. -/
theorem C103_order_satellite (hf : 0 < frq) (ha : SmoothAbsorbers K G L a) (hK : 0 ≤ K) (hG : 0 ≤ G)
    (hA : ∀ u ∈ Icc 0 L, total a u ≤ A) (hT : ContinuousOn T (Icc 0 L)) (hm : 0 < m)
    (hT0 : ∀ u ∈ Icc 0 L, m ≤ T u ∧ T u ≤ M) (hes : 0 ≤ es ∧ es ≤ 1)
    (hc : Curved K' L (radianceAt frq T)) (hK' : 0 ≤ K') (hD0 : 0 ≤ D)
    (hD : ∀ u ∈ Icc 0 L, ∀ v ∈ Icc 0 L, |radianceAt frq T u - radianceAt frq T v| ≤ D * |u - v|)
    (hop : pathOpacity (total a) 0 L < 125) :
    ∃ C, ∀ n s ds x out δ, Sampled n L s ds a x → FinerThan n s δ → 0 ≤ δ → δ ≤ 1 →
      opacityBelow (fun i => ∑ c, x c i) n < 125 →
      planck true es frq (n + 1) (fun i => T (s i)) (fun i => ∑ c, x c i) = some out →
      |out.boftotl - trueUp es frq (total a) T L| ≤ C * (δ ^ 2 + 1e-9) := by
  refine ⟨D * ((G + A) * exp (G + A) / 2 + A / 2) + K' / 8 + (tk2b (hvkOf frq) M - es * tk2b (hvkOf frq) m) *
    (K / 8 * exp (K / 8) * pathOpacity (total a) 0 L + k * L), fun n s ds x out δ hs hδ h0 h1 hop' h => ?_⟩
  have hab := ha.absorbers
  have hL0 := hs.levels.length
  have hA0 : 0 ≤ A := (hab.total_nonneg 0 ⟨le_rfl, hL0⟩).trans (hA 0 ⟨le_rfl, hL0⟩)
  have hBM : es * tk2b (hvkOf frq) m ≤ tk2b (hvkOf frq) M :=
    (mul_le_of_le_one_left (tk2b_pos (hvkOf_pos hf) hm).le hes.2).trans (tk2b_mono (hvkOf_pos hf) hm
    ((hT0 0 ⟨le_rfl, hL0⟩).1.trans (hT0 0 ⟨le_rfl, hL0⟩).2))
  have key := C103_satellite hf hes hs ha hK hG hT hm hT0 hc hK' (swing_of_lipschitz hs.levels hD0 hδ hD) hδ
    (fun i => layer_le hs.levels hab.total_continuous hA0 hA hδ) hop hop' h
  rw [planck_hvk h, mul_assoc (1e-9 : ℝ)] at key
  exact key.trans (order_constant hD0 hG hA0 hK hK' (pathOpacity_nonneg hL0 hab.total_nonneg) (sub_nonneg.2 hBM)
    (by positivity) h0 h1)

end

end Verif.Props
