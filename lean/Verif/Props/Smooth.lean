import Mathlib.Analysis.Calculus.ContDiff.Deriv
import Mathlib.Analysis.Calculus.MeanValue
import Mathlib.Analysis.SpecialFunctions.ExpDeriv
import Mathlib.Analysis.SpecialFunctions.Log.Deriv
import Verif.Props.SecondOrder

/-!
# C103 for twice differentiable atmospheres
-/

namespace Verif.Props

open Verif.Model Verif.Py Verif.Spec Verif.Lemmas Real Set

variable {L K K' : ℝ} {g : ℝ → ℝ} {U : Set ℝ}

theorem curved_mono (h : K ≤ K') (hc : Curved K L g) : Curved K' L g := by
  have hsq : ConvexOn ℝ (Icc 0 L) fun u : ℝ => (K' - K) / 2 * u ^ 2 :=
    ((even_two.convexOn_pow).subset (subset_univ _) (convex_Icc _ _)).smul (by linarith : 0 ≤ (K' - K) / 2)
  refine ⟨(hc.below.add hsq).congr fun u _ => ?_, (hc.above.sub hsq).congr fun u _ => ?_⟩
  · simp only [Pi.add_apply]; ring
  · simp only [Pi.sub_apply]; ring

/-- A twice continuously differentiable function on a compact stretch: bounded slope and bounded bending. -/
theorem smooth_bounds (hU : IsOpen U) (hsub : Icc 0 L ⊆ U) (hg : ContDiffOn ℝ 2 g U) :
    ∃ K D, 0 ≤ K ∧ 0 ≤ D ∧ Curved K L g ∧ ∀ u ∈ Icc 0 L, ∀ v ∈ Icc 0 L, |g u - g v| ≤ D * |u - v| := by
  have hg1 : ContDiffOn ℝ 1 (deriv g) U := ((contDiffOn_succ_iff_deriv_of_isOpen (n := 1) hU).1 hg).2.2
  have hg2 : ContinuousOn (deriv (deriv g)) U :=
    (((contDiffOn_succ_iff_deriv_of_isOpen (n := 0) hU).1 hg1).2.2).continuousOn
  have dg : ∀ u ∈ U, DifferentiableAt ℝ g u := fun u hu =>
    ((hg.differentiableOn (by norm_num)) u hu).differentiableAt (hU.mem_nhds hu)
  have dg1 : ∀ u ∈ U, DifferentiableAt ℝ (deriv g) u := fun u hu =>
    ((hg1.differentiableOn (by norm_num)) u hu).differentiableAt (hU.mem_nhds hu)
  obtain ⟨K, hK⟩ := isCompact_Icc.exists_bound_of_continuousOn (hg2.mono hsub)
  obtain ⟨D, hD⟩ := isCompact_Icc.exists_bound_of_continuousOn (hg1.continuousOn.mono hsub)
  have hint : interior (Icc 0 L) ⊆ U := interior_subset.trans hsub
  have d1 (c : ℝ) {u : ℝ} (hu : u ∈ U) : deriv (fun u => g u + c * u ^ 2) u = deriv g u + c * (2 * u) := by
    have : HasDerivAt (fun u => g u + c * u ^ 2) _ u := (dg u hu).hasDerivAt.add ((hasDerivAt_pow 2 u).const_mul c)
    simpa using this.deriv
  have d2 (c : ℝ) {u : ℝ} (hu : u ∈ U) : HasDerivAt (deriv fun u => g u + c * u ^ 2) (deriv (deriv g) u + c * 2) u := by
    have h1 : HasDerivAt (fun u => deriv g u + c * (2 * u)) (deriv (deriv g) u + c * 2) u := by
      have : HasDerivAt (fun u => deriv g u + c * (2 * u)) _ u :=
        (dg1 u hu).hasDerivAt.add (((hasDerivAt_id u).const_mul (2:ℝ)).const_mul c)
      simpa using this
    exact h1.congr_of_eventuallyEq (Filter.eventually_of_mem (hU.mem_nhds hu) fun v hv => d1 c hv)
  have c0 (c : ℝ) : ContinuousOn (fun u => g u + c * u ^ 2) (Icc 0 L) :=
    (hg.continuousOn.mono hsub).add (by fun_prop)
  have f1 (c : ℝ) : DifferentiableOn ℝ (fun u => g u + c * u ^ 2) (interior (Icc 0 L)) := fun u hu =>
    ((dg u (hint hu)).add (by fun_prop)).differentiableWithinAt
  have f2 (c : ℝ) : DifferentiableOn ℝ (deriv fun u => g u + c * u ^ 2) (interior (Icc 0 L)) := fun u hu =>
    (d2 c (hint hu)).differentiableAt.differentiableWithinAt
  refine ⟨|K|, |D|, abs_nonneg _, abs_nonneg _, ⟨?_, ?_⟩, fun u hu v hv => ?_⟩
  · refine convexOn_of_deriv2_nonneg (convex_Icc _ _) (c0 _) (f1 _) (f2 _) fun u hu => ?_
    show 0 ≤ deriv (deriv _) u
    rw [(d2 _ (hint hu)).deriv]
    have := abs_le.1 (hK u (interior_subset hu))
    linarith [this.1, le_abs_self K]
  · simp only [sub_eq_add_neg, ← neg_mul]
    refine concaveOn_of_deriv2_nonpos (convex_Icc _ _) (c0 _) (f1 _) (f2 _) fun u hu => ?_
    show deriv (deriv _) u ≤ 0
    rw [(d2 _ (hint hu)).deriv]
    have := abs_le.1 (hK u (interior_subset hu))
    linarith [this.2, le_abs_self K]
  · have := (convex_Icc (0:ℝ) L).norm_image_sub_le_of_norm_deriv_le (f := g) (C := |D|)
      (fun x hx => dg x (hsub hx)) (fun x hx => (hD x hx).trans (le_abs_self D)) hv hu
    simpa [Real.norm_eq_abs] using this

/-- The black-body radiance along a path of smooth positive temperature is smooth. -/
theorem radiance_smooth {frq : ℝ} (hf : 0 < frq) {T : ℝ → ℝ} (hT : ContDiff ℝ 2 T) :
    ContDiffOn ℝ 2 (radianceAt frq T) {u | 0 < T u} := by
  unfold radianceAt tk2b
  refine contDiffOn_const.div ((contDiff_exp.comp_contDiffOn
    (contDiffOn_const.div hT.contDiffOn fun u hu => hu.ne')).sub contDiffOn_const) fun u hu => ?_
  have : 1 < exp (hvkOf frq / T u) := one_lt_exp_iff.2 (div_pos (hvkOf_pos hf) hu)
  norm_num
  linarith

variable {k : ℕ} {a : Fin k → ℝ → ℝ} {T : ℝ → ℝ} {frq es m : ℝ}

/-- Smooth positive absorbers satisfy the hypotheses of C103. -/
theorem absorbers_smooth (ha : ∀ c, ContDiff ℝ 2 (a c)) (hpos : ∀ c, ∀ u ∈ Icc 0 L, 0 < a c u) :
    ∃ K G, 0 ≤ K ∧ 0 ≤ G ∧ SmoothAbsorbers K G L a := by
  choose K D hK hD hc hl using fun c => smooth_bounds (g := fun u => log (a c u)) (U := {u | 0 < a c u}) (L := L)
    (isOpen_lt continuous_const (ha c).continuous) (hpos c)
    ((ha c).contDiffOn.log fun u hu => (ne_of_gt hu))
  refine ⟨∑ c, K c, ∑ c, D c, Finset.sum_nonneg fun c _ => hK c, Finset.sum_nonneg fun c _ => hD c,
    fun c => (ha c).continuous.continuousOn, fun c => ?_, fun c u hu v hv => ?_⟩
  · have := curved_mono (Finset.single_le_sum (fun c _ => hK c) (Finset.mem_univ c)) (hc c)
    exact ⟨hpos c, this.below, this.above⟩
  · have h1 := (abs_le.1 (hl c u hu v hv)).2
    have h2 := mul_le_mul_of_nonneg_right (Finset.single_le_sum (fun c _ => hD c) (Finset.mem_univ c)) (abs_nonneg (u - v))
    have e := exp_le_exp.2 (show log (a c u) ≤ (∑ c, D c) * |u - v| + log (a c v) by linarith)
    rwa [exp_add, exp_log (hpos c u hu), exp_log (hpos c v hv)] at e

/-- **C103.** Smooth temperature and absorption, seen from the ground: the error is of second order in the distance of the levels. -/
theorem C103_smooth_ground (hf : 0 < frq) (hL : 0 ≤ L) (ha : ∀ c, ContDiff ℝ 2 (a c)) (hpos : ∀ c, ∀ u ∈ Icc 0 L, 0 < a c u)
    (hT : ContDiff ℝ 2 T) (hT0 : ∀ u ∈ Icc 0 L, 2.728 ≤ T u) (hop : pathOpacity (total a) 0 L < 125) :
    ∃ C, ∀ n s ds x es out δ, Sampled n L s ds a x → FinerThan n s δ → 0 ≤ δ → δ ≤ 1 →
      opacityBelow (fun i => ∑ c, x c i) n < 125 →
      planck false es frq (n + 1) (fun i => T (s i)) (fun i => ∑ c, x c i) = some out →
      |out.boftotl - trueDown frq (total a) T L| ≤ C * (δ ^ 2 + 1e-9) := by
  obtain ⟨K, G, hK, hG, hs⟩ := absorbers_smooth ha hpos
  obtain ⟨K', D, hK', hD, hc, hl⟩ := smooth_bounds (isOpen_lt continuous_const hT.continuous)
    (fun u hu => by have := hT0 u hu; simp only [mem_ofPred_eq]; linarith) (radiance_smooth hf hT)
  obtain ⟨xM, -, hM⟩ := isCompact_Icc.exists_isMaxOn ⟨0, le_rfl, hL⟩ hT.continuous.continuousOn
  obtain ⟨xA, -, hA⟩ := isCompact_Icc.exists_isMaxOn ⟨0, le_rfl, hL⟩ hs.absorbers.total_continuous
  exact C103_order_ground hf hs hK hG (fun u hu => hA hu) hT.continuous.continuousOn (fun u hu => ⟨hT0 u hu, hM hu⟩) hc hK' hD hl hop

/-- C103: from above. -/
theorem C103_smooth_satellite (hf : 0 < frq) (hL : 0 ≤ L) (hes : 0 ≤ es ∧ es ≤ 1) (ha : ∀ c, ContDiff ℝ 2 (a c))
    (hpos : ∀ c, ∀ u ∈ Icc 0 L, 0 < a c u) (hT : ContDiff ℝ 2 T) (hT0 : ∀ u ∈ Icc 0 L, 0 < T u)
    (hop : pathOpacity (total a) 0 L < 125) :
    ∃ C, ∀ n s ds x out δ, Sampled n L s ds a x → FinerThan n s δ → 0 ≤ δ → δ ≤ 1 →
      opacityBelow (fun i => ∑ c, x c i) n < 125 →
      planck true es frq (n + 1) (fun i => T (s i)) (fun i => ∑ c, x c i) = some out →
      |out.boftotl - trueUp es frq (total a) T L| ≤ C * (δ ^ 2 + 1e-9) := by
  obtain ⟨K, G, hK, hG, hs⟩ := absorbers_smooth ha hpos
  obtain ⟨K', D, hK', hD, hc, hl⟩ := smooth_bounds (isOpen_lt continuous_const hT.continuous) hT0 (radiance_smooth hf hT)
  obtain ⟨xM, -, hM⟩ := isCompact_Icc.exists_isMaxOn ⟨0, le_rfl, hL⟩ hT.continuous.continuousOn
  obtain ⟨xm, hxm, hm⟩ := isCompact_Icc.exists_isMinOn ⟨0, le_rfl, hL⟩ hT.continuous.continuousOn
  obtain ⟨xA, -, hA⟩ := isCompact_Icc.exists_isMaxOn ⟨0, le_rfl, hL⟩ hs.absorbers.total_continuous
  exact C103_order_satellite hf hs hK hG (fun u hu => hA hu) hT.continuous.continuousOn (hT0 xm hxm)
    (fun u hu => ⟨hm hu, hM hu⟩) hes hc hK' hD hl hop

/-- Two absorbers, one falling off exponentially, temperature falling by 6 K/km over 10 km; ten layers of 1 km are a sample. -/
example : ∃ (a : Fin 2 → ℝ → ℝ) (x : Fin 2 → ℕ → ℝ), Sampled 10 10 (fun i => (i : ℝ)) (fun _ => 1) a x ∧
    FinerThan 10 (fun i => (i : ℝ)) 1 ∧ opacityBelow (fun i => ∑ c, x c i) 10 < 125 ∧
    (∃ out, planck false 1 22.235 (10 + 1) (fun i => 290 - 6 * (i : ℝ)) (fun i => ∑ c, x c i) = some out) ∧
    ∃ C, ∀ n s ds x es out δ, Sampled n 10 s ds a x → FinerThan n s δ → 0 ≤ δ → δ ≤ 1 →
      opacityBelow (fun i => ∑ c, x c i) n < 125 →
      planck false es 22.235 (n + 1) (fun i => 290 - 6 * s i) (fun i => ∑ c, x c i) = some out →
      |out.boftotl - trueDown 22.235 (total a) (fun u => 290 - 6 * u) 10| ≤ C * (δ ^ 2 + 1e-9) := by
  let a : Fin 2 → ℝ → ℝ := fun c u => if c = 0 then exp (-u / 2) else 0.2 - 0.01 * u
  have hpos : ∀ c, ∀ u ∈ Icc (0:ℝ) 10, 0 < a c u := fun c u hu => by
    simp only [a]; split
    · positivity
    · linarith [hu.2]
  have hle : ∀ c, ∀ u ∈ Icc (0:ℝ) 10, a c u ≤ 1 := fun c u hu => by
    simp only [a]; split
    · exact exp_le_one_iff.2 (by linarith [hu.1])
    · linarith [hu.1]
  have hsm : ∀ c, ContDiff ℝ 2 (a c) := fun c => by
    by_cases h : c = 0 <;> simp only [a, h, if_true, if_false] <;> fun_prop
  have hlev : Levels 10 10 fun i => (i : ℝ) := ⟨by simp, by norm_num, fun i _ => by push_cast; linarith⟩
  choose r hr using fun c => C15_total (z := true) (nl := 10 + 1) (ibeg := 1) (x := fun i => a c (i : ℝ))
    (ds := fun _ => 1) (factor := 1) (by norm_num)
  have hS : Sampled 10 10 (fun i => (i : ℝ)) (fun _ => 1) a fun c => (r c).2 :=
    ⟨hlev, fun i h1 _ => by simp [Nat.cast_sub h1], fun c => ⟨true, (r c).1, hr c⟩⟩
  refine ⟨a, fun c => (r c).2, hS, tenKm_fine, ?_, planck_exists (by norm_num), ?_⟩
  · have hb : ∀ i ∈ Finset.Icc 1 10, ∑ c, (r c).2 i ≤ 2 := fun i hi => by
      rw [Finset.mem_Icc] at hi
      have one (c : Fin 2) : (r c).2 i ≤ 1 := by
        have := (C14_between (by norm_num) (fun j hj => (hpos c _ (hlev.mem (by omega))).le) (hr c) hi.1 (by omega) (by omega)
          zero_le_one).2
        refine this.trans ?_
        rw [mul_one]
        exact max_le (hle c _ (hlev.mem (show i - 1 ≤ 10 by omega))) (hle c _ (hlev.mem hi.2))
      rw [Fin.sum_univ_two]
      linarith [one 0, one 1]
    have := Finset.sum_le_sum hb
    unfold opacityBelow
    refine this.trans_lt ?_
    norm_num
  · refine C103_smooth_ground (T := fun u => 290 - 6 * u) (by norm_num) (by norm_num) hsm hpos (by fun_prop)
      (fun u hu => by norm_num; linarith [hu.2]) ?_
    have hc : ContinuousOn (total a) (Icc 0 10) :=
      continuousOn_finsetSum _ fun c _ => (hsm c).continuous.continuousOn
    have := intervalIntegral.integral_mono_on (by norm_num : (0:ℝ) ≤ 10)
      ((hc.mono (by rw [uIcc_of_le (by norm_num)])).intervalIntegrable)
      (_root_.intervalIntegrable_const (μ := MeasureTheory.volume) (c := (2:ℝ))) fun u hu => by
        show total a u ≤ 2
        unfold total
        rw [Fin.sum_univ_two]
        linarith [hle 0 u hu, hle 1 u hu]
    unfold pathOpacity
    refine this.trans_lt ?_
    simp
    norm_num

end Verif.Props
