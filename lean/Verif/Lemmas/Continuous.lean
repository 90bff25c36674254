import Verif.Spec.Continuous
import Verif.Lemmas.OpacityError
import Mathlib.MeasureTheory.Integral.IntervalIntegral.FundThmCalculus
import Mathlib.Topology.MetricSpace.UniformConvergence

/-!
# Layers against the radiative transfer equation
-/

namespace Verif.Lemmas

open Verif.Model Verif.Spec Real Set MeasureTheory

variable {n i : ℕ} {L ω ε lo hi : ℝ} {s : ℕ → ℝ} {α b f w : ℝ → ℝ} {ωs : ℕ → ℝ}

theorem _root_.Verif.Spec.Levels.mono (hL : Levels n L s) {i j : ℕ} (hij : i ≤ j) (hj : j ≤ n) : s i ≤ s j := by
  induction j, hij using Nat.le_induction with
  | base => exact le_rfl
  | succ k hk ih => exact (ih (by omega)).trans (hL.order k (by omega))

theorem _root_.Verif.Spec.Levels.mem (hL : Levels n L s) (hi : i ≤ n) : s i ∈ Icc 0 L :=
  ⟨hL.bottom ▸ hL.mono (Nat.zero_le i) hi, hL.top ▸ hL.mono hi le_rfl⟩

theorem _root_.Verif.Spec.Levels.length (hL : Levels n L s) : 0 ≤ L := (hL.mem (Nat.zero_le n)).1.trans (hL.mem (Nat.zero_le n)).2

/-- A constant against a function close to it, under a weight. -/
theorem weighted_error {a c S : ℝ} (hac : a ≤ c) (hw : Continuous w) (hb : Continuous b)
    (hw0 : ∀ u ∈ Icc a c, 0 ≤ w u) (h : ∀ u ∈ Icc a c, |S - b u| ≤ ω) :
    |S * (∫ u in a..c, w u) - ∫ u in a..c, w u * b u| ≤ ω * ∫ u in a..c, w u := by
  have e : S * (∫ u in a..c, w u) - ∫ u in a..c, w u * b u = ∫ u in a..c, w u * (S - b u) := by
    rw [← intervalIntegral.integral_const_mul, ← intervalIntegral.integral_sub]
    · congr 1; funext u; ring
    · exact (hw.const_mul S).intervalIntegrable _ _
    · exact (hw.mul hb).intervalIntegrable _ _
  rw [e, ← intervalIntegral.integral_const_mul]
  refine (intervalIntegral.abs_integral_le_integral_abs hac).trans
    (intervalIntegral.integral_mono_on hac ?_ ?_ fun u hu => ?_)
  · exact ((hw.mul (continuous_const.sub hb)).abs).intervalIntegrable _ _
  · exact (hw.const_mul ω).intervalIntegrable _ _
  · rw [abs_mul, abs_of_nonneg (hw0 u hu), mul_comm]
    exact mul_le_mul_of_nonneg_right (h u hu) (hw0 u hu)

theorem pathOpacity_deriv (hα : Continuous α) (u : ℝ) : HasDerivAt (fun v => pathOpacity α 0 v) (α u) u :=
  (hα.integral_hasStrictDerivAt 0 u).hasDerivAt

theorem pathOpacity_continuous (hα : Continuous α) : Continuous fun v => pathOpacity α 0 v :=
  continuous_iff_continuousAt.2 fun u => (pathOpacity_deriv hα u).continuousAt

theorem pathOpacity_sub (hα : Continuous α) (a c : ℝ) : pathOpacity α 0 c - pathOpacity α 0 a = pathOpacity α a c :=
  intervalIntegral.integral_interval_sub_left (hα.intervalIntegrable _ _) (hα.intervalIntegrable _ _)

theorem pathOpacity_nonneg {a c : ℝ} (hac : a ≤ c) (h : ∀ u ∈ Icc a c, 0 ≤ α u) : 0 ≤ pathOpacity α a c :=
  intervalIntegral.integral_nonneg hac h

theorem down_weight (hα : Continuous α) (a c : ℝ) : ∫ u in a..c, α u * exp (-pathOpacity α 0 u) =
    exp (-pathOpacity α 0 a) - exp (-pathOpacity α 0 c) := by
  have := intervalIntegral.integral_eq_sub_of_hasDerivAt (a := a) (b := c)
    (f := fun u => -exp (-pathOpacity α 0 u)) (f' := fun u => α u * exp (-pathOpacity α 0 u))
    (fun u _ => by
      have := ((pathOpacity_deriv hα u).neg.exp).neg
      refine this.congr_deriv ?_
      simp only [Pi.neg_apply]
      ring)
    ((hα.mul (pathOpacity_continuous hα).neg.rexp).intervalIntegrable _ _)
  rw [this]; ring

theorem up_weight (hα : Continuous α) (a c : ℝ) : ∫ u in a..c, α u * exp (-pathOpacity α u L) =
    exp (-pathOpacity α c L) - exp (-pathOpacity α a L) := by
  have e (u : ℝ) : pathOpacity α u L = pathOpacity α 0 L - pathOpacity α 0 u := (pathOpacity_sub hα u L).symm
  have e' : (fun u => α u * exp (-pathOpacity α u L)) =
      fun u => α u * exp (-(pathOpacity α 0 L - pathOpacity α 0 u)) := by funext u; rw [e]
  rw [e', e a, e c]
  have h1 : ∀ u, HasDerivAt (fun u => exp (-(pathOpacity α 0 L - pathOpacity α 0 u)))
      (α u * exp (-(pathOpacity α 0 L - pathOpacity α 0 u))) u := fun u => by
    have := ((pathOpacity_deriv hα u).const_sub (pathOpacity α 0 L)).neg.exp
    refine this.congr_deriv ?_
    simp only [Pi.neg_apply]
    ring
  exact intervalIntegral.integral_eq_sub_of_hasDerivAt (fun u _ => h1 u)
    ((hα.mul ((continuous_const.sub (pathOpacity_continuous hα)).neg.rexp)).intervalIntegrable _ _)

theorem layerSource_near {near far t x : ℝ} (h1 : |near - x| ≤ ω) (h2 : |far - x| ≤ ω) :
    |layerSource near far t - x| ≤ ω := by
  have p := exp_pos (-t)
  have e : layerSource near far t - x = ((near - x) + (far - x) * exp (-t)) / (1 + exp (-t)) := by
    unfold layerSource; field_simp; ring
  rw [e, abs_div, abs_of_pos (by positivity : 0 < 1 + exp (-t)), div_le_iff₀ (by positivity)]
  rw [abs_le] at *
  constructor <;> nlinarith

/-- Opacity of the stretch from level `i - 1` to level `i`. -/
noncomputable def exactLayer (α : ℝ → ℝ) (s : ℕ → ℝ) (i : ℕ) : ℝ := pathOpacity α (s (i - 1)) (s i)

theorem exactLayer_below (hα : Continuous α) (h0 : s 0 = 0) (i : ℕ) :
    opacityBelow (exactLayer α s) i = pathOpacity α 0 (s i) := by
  induction i with
  | zero => simp [opacityBelow, h0, pathOpacity]
  | succ i ih =>
    rw [opacityBelow, Finset.sum_Icc_succ_top (by omega), ← opacityBelow, ih, exactLayer, Nat.add_sub_cancel,
      ← pathOpacity_sub hα (s i)]
    ring

theorem exactLayer_above (hα : Continuous α) (hL : Levels n L s) (hi : i ≤ n) :
    opacityAbove (exactLayer α s) n i = pathOpacity α (s i) L := by
  induction hi using Nat.decreasingInduction with
  | self => simp [opacityAbove, hL.top, pathOpacity]
  | of_succ k hk ih =>
    have : opacityAbove (exactLayer α s) n k = exactLayer α s (k + 1) + opacityAbove (exactLayer α s) n (k + 1) := by
      unfold opacityAbove; exact Spec.Icc_bot (by omega) _
    rw [this, ih, exactLayer, Nat.add_sub_cancel, ← pathOpacity_sub hα (s k), ← pathOpacity_sub hα (s (k + 1)),
      ← pathOpacity_sub hα (s k)]
    ring

theorem sum_layers (hw : Continuous w) (hL : Levels n L s) :
    ∑ i ∈ Finset.Icc 1 n, ∫ u in s (i - 1)..s i, w u = ∫ u in (0:ℝ)..L, w u := by
  have := intervalIntegral.sum_integral_adjacent_intervals (a := s) (n := n) (f := w) (μ := volume)
    fun k _ => hw.intervalIntegrable _ _
  rw [hL.bottom, hL.top] at this
  rw [← this, Finset.range_eq_Ico]
  have h := Finset.sum_Ico_add' (fun i => ∫ u in s (i - 1)..s i, w u) 0 n 1
  simp only [Nat.add_sub_cancel] at h
  rw [h]
  rfl

/-- All layers together: every layer represented by some number close to `b` throughout the layer. -/
theorem layers_error {S : ℕ → ℝ} (hw : Continuous w) (hb : Continuous b) (hL : Levels n L s)
    (hw0 : ∀ u ∈ Icc 0 L, 0 ≤ w u) (h : ∀ i, 1 ≤ i → i ≤ n → ∀ u ∈ Icc (s (i - 1)) (s i), |S i - b u| ≤ ω) :
    |∑ i ∈ Finset.Icc 1 n, S i * (∫ u in s (i - 1)..s i, w u) - ∫ u in (0:ℝ)..L, w u * b u| ≤
      ω * ∫ u in (0:ℝ)..L, w u := by
  rw [← sum_layers (w := fun u => w u * b u) (hw.mul hb) hL, ← sum_layers hw hL, ← Finset.sum_sub_distrib, Finset.mul_sum]
  refine (Finset.abs_sum_le_sum_abs _ _).trans (Finset.sum_le_sum fun i hi => ?_)
  rw [Finset.mem_Icc] at hi
  refine weighted_error (hL.mono (by omega) hi.2) hw hb (fun u hu => hw0 u ?_) (h i hi.1 hi.2)
  exact ⟨(hL.mem (by omega : i - 1 ≤ n)).1.trans hu.1, hu.2.trans (hL.mem hi.2).2⟩

/-- Downwelling radiance of layers of exact opacity. -/
theorem sky_exact (hα : Continuous α) (hb : Continuous b) (hα0 : ∀ u ∈ Icc 0 L, 0 ≤ α u) (hL : Levels n L s)
    (hs : Swing n s b fun _ => ω) :
    |skyRadiance (fun i => b (s i)) (exactLayer α s) n - downwelling α b L| ≤ ω * (1 - exp (-pathOpacity α 0 L)) := by
  have hw : Continuous fun u => α u * exp (-pathOpacity α 0 u) := hα.mul (pathOpacity_continuous hα).neg.rexp
  have := layers_error (S := fun i => layerSource (b (s (i - 1))) (b (s i)) (exactLayer α s i)) hw hb hL
    (fun u hu => mul_nonneg (hα0 u hu) (exp_pos _).le) (ω := ω) fun i h1 h2 u hu => by
      have hm := hL.mono (Nat.sub_le i 1) h2
      exact layerSource_near (hs i h1 h2 _ ⟨le_rfl, hm⟩ u hu) (hs i h1 h2 _ ⟨hm, le_rfl⟩ u hu)
  rw [down_weight hα 0 L] at this
  simp only [down_weight hα] at this
  unfold skyRadiance transDown downwelling
  simp only [exactLayer_below hα hL.bottom]
  have z : pathOpacity α 0 0 = 0 := by simp [pathOpacity]
  rwa [z, neg_zero, exp_zero] at this

/-- Upwelling radiance of layers of exact opacity. -/
theorem up_exact (hα : Continuous α) (hb : Continuous b) (hα0 : ∀ u ∈ Icc 0 L, 0 ≤ α u) (hL : Levels n L s)
    (hs : Swing n s b fun _ => ω) :
    |upRadiance (fun i => b (s i)) (exactLayer α s) n 0 - upwelling α b L| ≤ ω * (1 - exp (-pathOpacity α 0 L)) := by
  have hw : Continuous fun u => α u * exp (-pathOpacity α u L) := by
    have e (u : ℝ) : pathOpacity α u L = pathOpacity α 0 L - pathOpacity α 0 u := (pathOpacity_sub hα u L).symm
    have e' : (fun u => α u * exp (-pathOpacity α u L)) =
        fun u => α u * exp (-(pathOpacity α 0 L - pathOpacity α 0 u)) := by funext u; rw [e]
    rw [e']
    exact hα.mul (continuous_const.sub (pathOpacity_continuous hα)).neg.rexp
  have := layers_error (S := fun i => layerSource (b (s i)) (b (s (i - 1))) (exactLayer α s i)) hw hb hL
    (fun u hu => mul_nonneg (hα0 u hu) (exp_pos _).le) (ω := ω) fun i h1 h2 u hu => by
      have hm := hL.mono (Nat.sub_le i 1) h2
      exact layerSource_near (hs i h1 h2 _ ⟨hm, le_rfl⟩ u hu) (hs i h1 h2 _ ⟨le_rfl, hm⟩ u hu)
  rw [up_weight hα 0 L] at this
  simp only [up_weight hα] at this
  unfold upRadiance transUp upwelling
  have z : pathOpacity α L L = 0 := by simp [pathOpacity]
  rw [z, neg_zero, exp_zero] at this
  rw [zero_add]
  have e : ∑ i ∈ Finset.Icc 1 n, layerSource (b (s i)) (b (s (i - 1))) (exactLayer α s i) *
      (exp (-opacityAbove (exactLayer α s) n i) - exp (-opacityAbove (exactLayer α s) n (i - 1))) =
      ∑ i ∈ Finset.Icc 1 n, layerSource (b (s i)) (b (s (i - 1))) (exactLayer α s i) *
      (exp (-pathOpacity α (s i) L) - exp (-pathOpacity α (s (i - 1)) L)) :=
    Finset.sum_congr rfl fun i hi => by
      rw [Finset.mem_Icc] at hi
      rw [exactLayer_above hα hL hi.2, exactLayer_above hα hL (by omega)]
  rwa [e]

/-! ## Functions known on the path only -/

theorem extend (h0 : 0 ≤ L) (hf : ContinuousOn f (Icc 0 L)) : ∃ g, Continuous g ∧ ∀ u ∈ Icc 0 L, f u = g u :=
  ⟨IccExtend h0 ((Icc 0 L).domRestrict f), (continuousOn_iff_continuous_domRestrict.1 hf).Icc_extend', fun u hu => by
    rw [IccExtend_of_mem h0 _ hu]; rfl⟩

variable {α' b' : ℝ → ℝ}

theorem pathOpacity_congr {a c : ℝ} (hac : a ≤ c) (h : ∀ u ∈ Icc a c, α u = α' u) :
    pathOpacity α a c = pathOpacity α' a c :=
  intervalIntegral.integral_congr (by rw [uIcc_of_le hac]; exact h)

theorem exactLayer_congr (hL : Levels n L s) (h : ∀ u ∈ Icc 0 L, α u = α' u) (h1 : 1 ≤ i) (h2 : i ≤ n) :
    exactLayer α s i = exactLayer α' s i :=
  pathOpacity_congr (hL.mono (Nat.sub_le i 1) h2) fun u hu =>
    h u ⟨(hL.mem (by omega)).1.trans hu.1, hu.2.trans (hL.mem h2).2⟩

theorem opacityBelow_congr {τ τ' : ℕ → ℝ} (h : ∀ i, 1 ≤ i → i ≤ n → τ i = τ' i) (hi : i ≤ n) :
    opacityBelow τ i = opacityBelow τ' i :=
  Finset.sum_congr rfl fun j hj => by rw [Finset.mem_Icc] at hj; exact h j hj.1 (hj.2.trans hi)

theorem opacityAbove_congr {τ τ' : ℕ → ℝ} (h : ∀ i, 1 ≤ i → i ≤ n → τ i = τ' i) (i : ℕ) :
    opacityAbove τ n i = opacityAbove τ' n i :=
  Finset.sum_congr rfl fun j hj => by rw [Finset.mem_Icc] at hj; exact h j (by omega) hj.2

theorem sky_congr {B B' τ τ' : ℕ → ℝ} (hB : ∀ i ≤ n, B i = B' i) (h : ∀ i, 1 ≤ i → i ≤ n → τ i = τ' i) :
    skyRadiance B τ n = skyRadiance B' τ' n :=
  Finset.sum_congr rfl fun j hj => by
    rw [Finset.mem_Icc] at hj
    unfold transDown
    rw [hB j hj.2, hB (j - 1) (by omega), h j hj.1 hj.2, opacityBelow_congr h hj.2,
      opacityBelow_congr h (by omega : j - 1 ≤ n)]

theorem up_congr {B B' τ τ' : ℕ → ℝ} (hB : ∀ i ≤ n, B i = B' i) (h : ∀ i, 1 ≤ i → i ≤ n → τ i = τ' i) :
    upRadiance B τ n 0 = upRadiance B' τ' n 0 :=
  Finset.sum_congr rfl fun j hj => by
    rw [Finset.mem_Icc] at hj
    unfold transUp
    rw [hB j hj.2, hB (j - 1) (by omega), h j (by omega) hj.2, opacityAbove_congr h, opacityAbove_congr h]

theorem downwelling_congr (h0 : 0 ≤ L) (hα : ∀ u ∈ Icc 0 L, α u = α' u) (hb : ∀ u ∈ Icc 0 L, b u = b' u) :
    downwelling α b L = downwelling α' b' L :=
  intervalIntegral.integral_congr fun u hu => by
    rw [uIcc_of_le h0] at hu
    rw [hα u hu, hb u hu, pathOpacity_congr hu.1 fun v hv => hα v ⟨hv.1, hv.2.trans hu.2⟩]

theorem upwelling_congr (h0 : 0 ≤ L) (hα : ∀ u ∈ Icc 0 L, α u = α' u) (hb : ∀ u ∈ Icc 0 L, b u = b' u) :
    upwelling α b L = upwelling α' b' L :=
  intervalIntegral.integral_congr fun u hu => by
    rw [uIcc_of_le h0] at hu
    rw [hα u hu, hb u hu, pathOpacity_congr hu.2 fun v hv => hα v ⟨hu.1.trans hv.1, hv.2⟩]

theorem swing_congr (hL : Levels n L s) (hb : ∀ u ∈ Icc 0 L, b u = b' u) (h : Swing n s b ωs) : Swing n s b' ωs :=
  fun i h1 h2 u hu v hv => by
    have hm {x : ℝ} (hx : x ∈ Icc (s (i - 1)) (s i)) : x ∈ Icc 0 L :=
      ⟨(hL.mem (by omega : i - 1 ≤ n)).1.trans hx.1, hx.2.trans (hL.mem h2).2⟩
    rw [← hb u (hm hu), ← hb v (hm hv)]
    exact h i h1 h2 u hu v hv

theorem exactLayer_below_on (hα : ContinuousOn α (Icc 0 L)) (hL : Levels n L s) :
    opacityBelow (exactLayer α s) n = pathOpacity α 0 L := by
  obtain ⟨g, hg, e⟩ := extend hL.length hα
  rw [opacityBelow_congr (fun i => exactLayer_congr hL e) le_rfl, exactLayer_below hg hL.bottom, hL.top,
    pathOpacity_congr hL.length e]

theorem sky_exact_on (hα : ContinuousOn α (Icc 0 L)) (hb : ContinuousOn b (Icc 0 L)) (hα0 : ∀ u ∈ Icc 0 L, 0 ≤ α u)
    (hL : Levels n L s) (hs : Swing n s b fun _ => ω) :
    |skyRadiance (fun i => b (s i)) (exactLayer α s) n - downwelling α b L| ≤ ω * (1 - exp (-pathOpacity α 0 L)) := by
  obtain ⟨g, hg, e⟩ := extend hL.length hα
  obtain ⟨k, hk, f⟩ := extend hL.length hb
  rw [sky_congr (B' := fun i => k (s i)) (τ' := exactLayer g s) (fun i hi => f _ (hL.mem hi))
    (fun i => exactLayer_congr hL e), downwelling_congr hL.length e f, pathOpacity_congr hL.length e]
  exact sky_exact hg hk (fun u hu => e u hu ▸ hα0 u hu) hL (swing_congr hL f hs)

theorem up_exact_on (hα : ContinuousOn α (Icc 0 L)) (hb : ContinuousOn b (Icc 0 L)) (hα0 : ∀ u ∈ Icc 0 L, 0 ≤ α u)
    (hL : Levels n L s) (hs : Swing n s b fun _ => ω) :
    |upRadiance (fun i => b (s i)) (exactLayer α s) n 0 - upwelling α b L| ≤
      ω * (1 - exp (-pathOpacity α 0 L)) := by
  obtain ⟨g, hg, e⟩ := extend hL.length hα
  obtain ⟨k, hk, f⟩ := extend hL.length hb
  rw [up_congr (B' := fun i => k (s i)) (τ' := exactLayer g s) (fun i hi => f _ (hL.mem hi))
    (fun i => exactLayer_congr hL e), upwelling_congr hL.length e f, pathOpacity_congr hL.length e]
  exact up_exact hg hk (fun u hu => e u hu ▸ hα0 u hu) hL (swing_congr hL f hs)

theorem downwelling_ge (h0 : 0 ≤ L) (hα : ContinuousOn α (Icc 0 L)) (hb : ContinuousOn b (Icc 0 L))
    (hα0 : ∀ u ∈ Icc 0 L, 0 ≤ α u) (hlo : ∀ u ∈ Icc 0 L, lo ≤ b u) :
    lo * (1 - exp (-pathOpacity α 0 L)) ≤ downwelling α b L := by
  obtain ⟨g, hg, e⟩ := extend h0 hα
  obtain ⟨k, hk, f⟩ := extend h0 hb
  rw [downwelling_congr h0 e f, pathOpacity_congr h0 e]
  have hw : Continuous fun u => g u * exp (-pathOpacity g 0 u) := hg.mul (pathOpacity_continuous hg).neg.rexp
  have z : pathOpacity g 0 0 = 0 := by simp [pathOpacity]
  have hd := down_weight hg 0 L
  rw [z, neg_zero, exp_zero] at hd
  rw [← hd, ← intervalIntegral.integral_const_mul]
  refine intervalIntegral.integral_mono_on h0 ((hw.const_mul lo).intervalIntegrable _ _)
    ((hw.mul hk).intervalIntegrable _ _) fun u hu => ?_
  rw [mul_comm]
  exact mul_le_mul_of_nonneg_left (f u hu ▸ hlo u hu) (mul_nonneg (e u hu ▸ hα0 u hu) (exp_pos _).le)

theorem upwelling_ge (h0 : 0 ≤ L) (hα : ContinuousOn α (Icc 0 L)) (hb : ContinuousOn b (Icc 0 L))
    (hα0 : ∀ u ∈ Icc 0 L, 0 ≤ α u) (hlo : ∀ u ∈ Icc 0 L, lo ≤ b u) :
    lo * (1 - exp (-pathOpacity α 0 L)) ≤ upwelling α b L := by
  obtain ⟨g, hg, e⟩ := extend h0 hα
  obtain ⟨k, hk, f⟩ := extend h0 hb
  rw [upwelling_congr h0 e f, pathOpacity_congr h0 e]
  have hw : Continuous fun u => g u * exp (-pathOpacity g u L) := by
    have e (u : ℝ) : pathOpacity g u L = pathOpacity g 0 L - pathOpacity g 0 u := (pathOpacity_sub hg u L).symm
    have e' : (fun u => g u * exp (-pathOpacity g u L)) =
        fun u => g u * exp (-(pathOpacity g 0 L - pathOpacity g 0 u)) := by funext u; rw [e]
    rw [e']
    exact hg.mul (continuous_const.sub (pathOpacity_continuous hg)).neg.rexp
  have z : pathOpacity g L L = 0 := by simp [pathOpacity]
  have hd := up_weight (L := L) hg 0 L
  rw [z, neg_zero, exp_zero] at hd
  rw [← hd, ← intervalIntegral.integral_const_mul]
  refine intervalIntegral.integral_mono_on h0 ((hw.const_mul lo).intervalIntegrable _ _)
    ((hw.mul hk).intervalIntegrable _ _) fun u hu => ?_
  rw [mul_comm]
  exact mul_le_mul_of_nonneg_left (f u hu ▸ hlo u hu) (mul_nonneg (e u hu ▸ hα0 u hu) (exp_pos _).le)

theorem sum_lengths (hL : Levels n L s) : ∑ i ∈ Finset.Icc 1 n, (s i - s (i - 1)) = L := by
  have := Finset.sum_range_sub s n
  rw [hL.bottom, hL.top, sub_zero] at this
  rw [← this, Finset.range_eq_Ico]
  have e := Finset.sum_Ico_add' (fun i => s i - s (i - 1)) 0 n 1
  simp only [Nat.add_sub_cancel] at e
  rw [e]
  rfl

/-- Fine enough levels: a continuous profile varies little within a layer. -/
theorem swing_of_fine (hf : ContinuousOn f (Icc 0 L)) (hε : 0 < ε) : ∃ δ > 0, ∀ n s, Levels n L s → FinerThan n s δ →
    Swing n s f fun _ => ε := by
  have hu := isCompact_Icc.uniformContinuousOn_of_continuous hf
  rw [Metric.uniformContinuousOn_iff_le] at hu
  obtain ⟨δ, hδ, h⟩ := hu ε hε
  refine ⟨δ, hδ, fun n s hL hfine i h1 h2 u hu v hv => ?_⟩
  have hm {x : ℝ} (hx : x ∈ Icc (s (i - 1)) (s i)) : x ∈ Icc 0 L :=
    ⟨(hL.mem (by omega : i - 1 ≤ n)).1.trans hx.1, hx.2.trans (hL.mem h2).2⟩
  have := h u (hm hu) v (hm hv) (by
    have := hfine i h1 h2
    rw [Real.dist_eq, abs_le]
    constructor <;> linarith [hu.1, hu.2, hv.1, hv.2])
  rwa [Real.dist_eq] at this

end Verif.Lemmas
