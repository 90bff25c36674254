import Verif.Props.Smooth
import Verif.Props.ShippedRun

/-!
# C124: brightness temperatures of a simulation are accurate to second order

C103 for complete runs and for brightness temperatures.
-/

namespace Verif.Props

open Verif.Model Verif.Py Verif.Spec Verif.Lemmas Real Set

section

variable {k n : ℕ} {a : Fin k → ℝ → ℝ} {x : Fin k → ℕ → ℝ} {s ds : ℕ → ℝ} {T : ℝ → ℝ} {frq es m M L K G δ : ℝ} {U : Set ℝ}

/-- Positive absorbers that are smooth around the path satisfy the hypotheses of C103. -/
theorem absorbers_smooth_on (hU : IsOpen U) (hsub : Icc 0 L ⊆ U) (ha : ∀ c, ContDiffOn ℝ 2 (a c) U)
    (hpos : ∀ c, ∀ u ∈ Icc 0 L, 0 < a c u) : ∃ K G, 0 ≤ K ∧ 0 ≤ G ∧ SmoothAbsorbers K G L a := by
  choose K D hK hD hc hl using fun c => smooth_bounds (g := fun u => log (a c u)) (U := U ∩ a c ⁻¹' Ioi 0) (L := L)
    ((ha c).continuousOn.isOpen_inter_preimage hU isOpen_Ioi) (fun u hu => ⟨hsub hu, hpos c u hu⟩)
    (((ha c).mono inter_subset_left).log fun u hu => (ne_of_gt hu.2))
  refine ⟨∑ c, K c, ∑ c, D c, Finset.sum_nonneg fun c _ => hK c, Finset.sum_nonneg fun c _ => hD c,
    fun c => (ha c).continuousOn.mono hsub, fun c => ?_, fun c u hu v hv => ?_⟩
  · have := curved_mono (Finset.single_le_sum (fun c _ => hK c) (Finset.mem_univ c)) (hc c)
    exact ⟨hpos c, this.below, this.above⟩
  · have h1 := (abs_le.1 (hl c u hu v hv)).2
    have h2 := mul_le_mul_of_nonneg_right (Finset.single_le_sum (fun c _ => hD c) (Finset.mem_univ c)) (abs_nonneg (u - v))
    have e := exp_le_exp.2 (show log (a c u) ≤ (∑ c, D c) * |u - v| + log (a c v) by linarith)
    rwa [exp_add, exp_log (hpos c u hu), exp_log (hpos c v hv)] at e

theorem radiance_smooth_on (hf : 0 < frq) (hT : ContDiffOn ℝ 2 T U) :
    ContDiffOn ℝ 2 (radianceAt frq T) (U ∩ T ⁻¹' Ioi 0) := by
  unfold radianceAt tk2b
  refine contDiffOn_const.div ((contDiff_exp.comp_contDiffOn
    (contDiffOn_const.div (hT.mono inter_subset_left) fun u hu => (ne_of_gt hu.2))).sub contDiffOn_const) fun u hu => ?_
  have : 1 < exp (hvkOf frq / T u) := one_lt_exp_iff.2 (div_pos (hvkOf_pos hf) hu.2)
  norm_num
  linarith

/-- On fine levels the simulated opacity stays below the limit. -/
theorem sampled_thin (ha : SmoothAbsorbers K G L a) (hK : 0 ≤ K) (hL : 0 ≤ L)
    (hop : pathOpacity (total a) 0 L + 1e-9 * k * L < 125) :
    ∃ δ0 > 0, δ0 ≤ 1 ∧ ∀ n s ds x δ, Sampled n L s ds a x → FinerThan n s δ → 0 ≤ δ → δ ≤ δ0 →
      opacityBelow (fun i => ∑ c, x c i) n < 125 := by
  have hP : 0 ≤ pathOpacity (total a) 0 L := pathOpacity_nonneg hL ha.absorbers.total_nonneg
  generalize hg : 125 - (pathOpacity (total a) 0 L + 1e-9 * k * L) = gap
  have hg0 : 0 < gap := by linarith
  generalize hE : K / 8 * exp (K / 8) * pathOpacity (total a) 0 L = E
  have hE0 : 0 ≤ E := by rw [← hE]; positivity
  refine ⟨min 1 (gap / (2 * (E + 1))), lt_min one_pos (by positivity), min_le_left _ _, fun n s ds x δ hs hδ h0 h1 => ?_⟩
  have h2 : δ ≤ 1 := h1.trans (min_le_left _ _)
  have h3 : δ * (2 * (E + 1)) ≤ gap := (le_div_iff₀ (by positivity)).1 (h1.trans (min_le_right _ _))
  have hd2 : δ ^ 2 ≤ 1 := pow_le_one₀ h0 h2
  have e2 : exp (K * δ ^ 2 / 8) - 1 ≤ K * δ ^ 2 / 8 * exp (K / 8) := exp_sub_one_le (by nlinarith) (by positivity)
  have key := C103_opacities hs ha hK hδ
  have e := exactLayer_below_on ha.absorbers.total_continuous hs.levels
  have dist : |opacityBelow (fun i => ∑ c, x c i) n - pathOpacity (total a) 0 L| ≤
      opacityError n (fun i => pathOpacity (total a) (s (i - 1)) (s i)) fun i => ∑ c, x c i := by
    rw [← e]
    unfold opacityBelow exactLayer
    rw [← Finset.sum_sub_distrib]
    exact Finset.abs_sum_le_sum_abs _ _
  have h4 := (abs_le.1 (dist.trans key)).2
  have h5 := mul_le_mul_of_nonneg_right e2 hP
  have h6 : K * δ ^ 2 / 8 * exp (K / 8) * pathOpacity (total a) 0 L = E * δ ^ 2 := by rw [← hE]; ring
  have h7 : E * δ ^ 2 ≤ E * δ := mul_le_mul_of_nonneg_left (by nlinarith) hE0
  nlinarith

/-- Radiance of a scene that is nowhere colder than the background, seen from the ground. -/
theorem low_ground {nl : ℕ} {t τ : ℕ → ℝ} {out : PlanckOut} (hf : 0 < frq) (hT : ∀ i < nl, 2.728 ≤ t i)
    (hτ : ∀ i, 0 < i → i < nl → 0 ≤ τ i) (hop : opacityBelow τ (nl - 1) < 125) (h : planck false es frq nl t τ = some out) :
    tk2b (hvkOf frq) 2.728 ≤ out.boftotl := by
  obtain ⟨hn, -, -, -, -, e5, -, e7⟩ := planck_ground h
  have hb := skyRadiance_mono (n := nl - 1) (τ := τ) (fun i h1 h2 => hτ i h1 (by omega)) fun i hi =>
    tk2b_mono (hvkOf_pos hf) (by norm_num : (0:ℝ) < 2.728) (hT i (by omega))
  rw [skyRadiance_const] at hb
  rw [e7, (e5 hop).1, show cTcosmicbkg = (2.728 : ℝ) from rfl]
  unfold transDown at hb
  linarith

/-- And from above. -/
theorem low_satellite {nl : ℕ} {t τ : ℕ → ℝ} {out : PlanckOut} (hf : 0 < frq) (hes : 0 ≤ es ∧ es ≤ 1) (hm : 0 < m)
    (hT : ∀ i < nl, m ≤ t i)
    (hτ : ∀ i, 0 < i → i < nl → 0 ≤ τ i) (hop : opacityBelow τ (nl - 1) < 125) (h : planck true es frq nl t τ = some out) :
    es * tk2b (hvkOf frq) m ≤ out.boftotl := by
  obtain ⟨hn, -, -, -, -, e5, -, e7⟩ := planck_sat h
  have hp := tk2b_pos (hvkOf_pos hf) hm
  have hb := upRadiance_mono (n := nl - 1) (m := 0) (τ := τ) (B := fun _ => es * tk2b (hvkOf frq) m)
    (B' := fun i => tk2b (hvkOf frq) (t i)) (fun i h1 h2 => hτ i (by omega) (by omega)) fun i hi =>
    (mul_le_of_le_one_left hp.le hes.2).trans (tk2b_mono (hvkOf_pos hf) hm (hT i (by omega)))
  rw [upRadiance_const _ (Nat.zero_le _)] at hb
  rw [e7, (e5 hop).1]
  have h2 := mul_le_mul_of_nonneg_right (mul_le_mul_of_nonneg_left (tk2b_mono (hvkOf_pos hf) hm (hT 0 hn)) hes.1)
    (exp_pos (-opacityBelow τ (nl - 1))).le
  have e : transUp τ (nl - 1) 0 = exp (-opacityBelow τ (nl - 1)) := rfl
  rw [e] at hb
  linarith

/-- **C124.** Smooth air along a path, seen from the ground: brightness temperatures are accurate to second order in the distance
of the levels. -/
theorem C124_path_ground (hf : 0 < frq) (hL : 0 ≤ L) (hU : IsOpen U) (hsub : Icc 0 L ⊆ U) (ha : ∀ c, ContDiffOn ℝ 2 (a c) U)
    (hpos : ∀ c, ∀ u ∈ Icc 0 L, 0 < a c u) (hT : ContDiffOn ℝ 2 T U) (hT0 : ∀ u ∈ Icc 0 L, 2.728 ≤ T u)
    (hop : pathOpacity (total a) 0 L + 1e-9 * k * L < 125) :
    ∃ Tb, bright (hvkOf frq) (trueDown frq (total a) T L) = some Tb ∧ ∃ B, ∃ δ0 > 0, ∀ n s ds x es out δ,
      Sampled n L s ds a x → FinerThan n s δ → 0 ≤ δ → δ ≤ δ0 →
      planck false es frq (n + 1) (fun i => T (s i)) (fun i => ∑ c, x c i) = some out →
      ∃ Tb', bright out.hvk out.boftotl = some Tb' ∧ |Tb' - Tb| ≤ B * (δ ^ 2 + 1e-9) := by
  have hm : (0 : ℝ) < 2.728 := by norm_num
  have hh := hvkOf_pos hf
  have hTp : ∀ u ∈ Icc 0 L, 0 < T u := fun u hu => hm.trans_le (hT0 u hu)
  obtain ⟨K, G, hK, hG, hs⟩ := absorbers_smooth_on hU hsub ha hpos
  obtain ⟨K', D, hK', hD, hc, hl⟩ := smooth_bounds (hT.continuousOn.isOpen_inter_preimage hU isOpen_Ioi)
    (fun u hu => ⟨hsub hu, hTp u hu⟩) (radiance_smooth_on hf hT)
  have hTc := hT.continuousOn.mono hsub
  obtain ⟨xM, -, hM⟩ := isCompact_Icc.exists_isMaxOn ⟨0, le_rfl, hL⟩ hTc
  obtain ⟨xA, -, hA⟩ := isCompact_Icc.exists_isMaxOn ⟨0, le_rfl, hL⟩ hs.absorbers.total_continuous
  have hthin : pathOpacity (total a) 0 L < 125 := by
    have : 0 ≤ 1e-9 * (k : ℝ) * L := by positivity
    linarith
  obtain ⟨B, HB⟩ := C103_order_ground hf hs hK hG (fun u hu => hA hu) hTc (fun u hu => ⟨hT0 u hu, hM hu⟩) hc hK' hD hl hthin
  obtain ⟨δ0, hδ0, hδ1, Hop⟩ := sampled_thin hs hK hL hop
  have hlow : tk2b (hvkOf frq) 2.728 ≤ trueDown frq (total a) T L := by
    have := downwelling_ge hL hs.absorbers.total_continuous (radianceAt_continuousOn hf hTc hTp) hs.absorbers.total_nonneg
      (lo := tk2b (hvkOf frq) 2.728) fun u hu => tk2b_mono hh hm (hT0 u hu)
    unfold trueDown
    linarith
  obtain ⟨Tb, -, hb, -⟩ := brightness_limit (ε := 1) hh hm hlow one_pos
  refine ⟨Tb, hb, hvkOf frq * B / planckW (hvkOf frq / 2.728), δ0, hδ0, fun n s ds x es out δ hS hδ h0 h1 h => ?_⟩
  have o := Hop n s ds x δ hS hδ h0 h1
  have key := HB n s ds x es out δ hS hδ h0 (h1.trans hδ1) o h
  have low := low_ground hf (fun i hi => hT0 _ (hS.levels.mem (by omega)))
    (fun i h1 h2 => Finset.sum_nonneg fun c _ => hS.nonneg hs.absorbers c h1 (by omega))
    (by rw [Nat.add_sub_cancel]; exact o) h
  obtain ⟨T1, T2, f1, f2, f3⟩ := radiance_error hh hm hlow low key
  rw [hb] at f1
  cases f1
  rw [planck_hvk h]
  exact ⟨T2, f2, f3.trans (le_of_eq (by ring))⟩

/-- **C124.** From above, over a surface that emits. -/
theorem C124_path_satellite (hf : 0 < frq) (hes : 0 < es ∧ es ≤ 1) (hL : 0 ≤ L) (hU : IsOpen U) (hsub : Icc 0 L ⊆ U)
    (ha : ∀ c, ContDiffOn ℝ 2 (a c) U)
    (hpos : ∀ c, ∀ u ∈ Icc 0 L, 0 < a c u) (hT : ContDiffOn ℝ 2 T U) (hT0 : ∀ u ∈ Icc 0 L, 0 < T u)
    (hop : pathOpacity (total a) 0 L + 1e-9 * k * L < 125) :
    ∃ Tb, bright (hvkOf frq) (trueUp es frq (total a) T L) = some Tb ∧ ∃ B, ∃ δ0 > 0, ∀ n s ds x out δ,
      Sampled n L s ds a x → FinerThan n s δ → 0 ≤ δ → δ ≤ δ0 →
      planck true es frq (n + 1) (fun i => T (s i)) (fun i => ∑ c, x c i) = some out →
      ∃ Tb', bright out.hvk out.boftotl = some Tb' ∧ |Tb' - Tb| ≤ B * (δ ^ 2 + 1e-9) := by
  have hh := hvkOf_pos hf
  obtain ⟨K, G, hK, hG, hs⟩ := absorbers_smooth_on hU hsub ha hpos
  obtain ⟨K', D, hK', hD, hc, hl⟩ := smooth_bounds (hT.continuousOn.isOpen_inter_preimage hU isOpen_Ioi)
    (fun u hu => ⟨hsub hu, hT0 u hu⟩) (radiance_smooth_on hf hT)
  have hTc := hT.continuousOn.mono hsub
  obtain ⟨xM, -, hM⟩ := isCompact_Icc.exists_isMaxOn ⟨0, le_rfl, hL⟩ hTc
  obtain ⟨xm, hxm, hmn⟩ := isCompact_Icc.exists_isMinOn ⟨0, le_rfl, hL⟩ hTc
  obtain ⟨xA, -, hA⟩ := isCompact_Icc.exists_isMaxOn ⟨0, le_rfl, hL⟩ hs.absorbers.total_continuous
  have hm : 0 < T xm := hT0 xm hxm
  have hTm : ∀ u ∈ Icc 0 L, T xm ≤ T u := fun u hu => hmn hu
  have hthin : pathOpacity (total a) 0 L < 125 := by
    have : 0 ≤ 1e-9 * (k : ℝ) * L := by positivity
    linarith
  obtain ⟨B, HB⟩ := C103_order_satellite hf hs hK hG (fun u hu => hA hu) hTc hm (fun u hu => ⟨hTm u hu, hM hu⟩)
    ⟨hes.1.le, hes.2⟩ hc hK' hD hl hthin
  obtain ⟨δ0, hδ0, hδ1, Hop⟩ := sampled_thin hs hK hL hop
  have hpm := tk2b_pos hh hm
  obtain ⟨m', hm', em⟩ := exists_tk2b hh (mul_pos hes.1 hpm)
  have hlow : tk2b (hvkOf frq) m' ≤ trueUp es frq (total a) T L := by
    have := upwelling_ge hL hs.absorbers.total_continuous (radianceAt_continuousOn hf hTc hT0) hs.absorbers.total_nonneg
      (lo := es * tk2b (hvkOf frq) (T xm)) fun u hu =>
        (mul_le_of_le_one_left hpm.le hes.2).trans (tk2b_mono hh hm (hTm u hu))
    have h2 := mul_le_mul_of_nonneg_left (tk2b_mono hh hm (hTm 0 ⟨le_rfl, hL⟩)) hes.1.le
    have h3 := mul_le_mul_of_nonneg_right h2 (exp_pos (-pathOpacity (total a) 0 L)).le
    rw [em]
    unfold trueUp
    linarith
  obtain ⟨Tb, -, hb, -⟩ := brightness_limit (ε := 1) hh hm' hlow one_pos
  refine ⟨Tb, hb, hvkOf frq * B / planckW (hvkOf frq / m'), δ0, hδ0, fun n s ds x out δ hS hδ h0 h1 h => ?_⟩
  have o := Hop n s ds x δ hS hδ h0 h1
  have key := HB n s ds x out δ hS hδ h0 (h1.trans hδ1) o h
  have low := low_satellite hf ⟨hes.1.le, hes.2⟩ hm (fun i hi => hTm _ (hS.levels.mem (by omega)))
    (fun i h1 h2 => Finset.sum_nonneg fun c _ => hS.nonneg hs.absorbers c h1 (by omega))
    (by rw [Nat.add_sub_cancel]; exact o) h
  rw [← em] at low
  obtain ⟨T1, T2, f1, f2, f3⟩ := radiance_error hh hm' hlow low key
  rw [hb] at f1
  cases f1
  rw [planck_hvk h]
  exact ⟨T2, f2, f3.trans (le_of_eq (by ring))⟩

end

/-! ## Complete runs -/

section

variable {A : AbsRoutines} {g g1 : Globals} {C : Column} {frq m θ es : ℝ} {w d : ℝ → ℝ} {U : Set ℝ}

/-- Absorption and temperature are twice continuously differentiable around the heights of the atmosphere, absorption positive. -/
structure SmoothAir (C : Column) (w d : ℝ → ℝ) (U : Set ℝ) : Prop where
  isOpen : IsOpen U
  heights : Icc 0 C.top ⊆ U
  wet : ContDiffOn ℝ 2 w U
  dry : ContDiffOn ℝ 2 d U
  tk : ContDiffOn ℝ 2 C.tk U
  wet0 : ∀ u ∈ Icc 0 C.top, 0 < w u
  dry0 : ∀ u ∈ Icc 0 C.top, 0 < d u

theorem slant_smooth {f : ℝ → ℝ} (hf : ContDiffOn ℝ 2 f U) :
    ContDiffOn ℝ 2 (slant θ f) ((fun u => u * sin (θ * π / 180)) ⁻¹' U) := by
  unfold slant
  exact hf.comp (contDiff_id.mul contDiff_const).contDiffOn fun u hu => hu

theorem slant_isOpen (hU : IsOpen U) : IsOpen ((fun u => u * sin (θ * π / 180)) ⁻¹' U) :=
  hU.preimage (by fun_prop)

theorem slant_order {B δ s : ℝ} (h0 : 0 < s) (h1 : s ≤ 1) :
    B * ((δ / s) ^ 2 + 1e-9) ≤ |B| * (1 / s ^ 2) * (δ ^ 2 + 1e-9) := by
  have h2 : 1 ≤ 1 / s ^ 2 := by
    rw [le_div_iff₀ (by positivity), one_mul]
    exact pow_le_one₀ h0.le h1
  have h3 : (δ / s) ^ 2 + 1e-9 ≤ 1 / s ^ 2 * (δ ^ 2 + 1e-9) := by
    rw [div_pow, mul_add, one_div_mul_eq_div]
    nlinarith
  rw [mul_assoc]
  exact (mul_le_mul_of_nonneg_right (le_abs_self B) (by positivity)).trans (mul_le_mul_of_nonneg_left h3 (abs_nonneg B))

/-- **C124.** Complete clear plane-parallel runs, seen from the ground. -/
theorem C124_ground (hf : 0 < frq) (hθ : 0 < θ ∧ θ < 180) (hl : initLineList A g = .ok g1)
    (hC : Continuous' C A g1 frq 2.728 w d) (hS : SmoothAir C w d U)
    (hop : slantOpacity C θ w d + 2e-9 * (C.top / sin (θ * π / 180)) < 125) :
    ∃ Tb, bright (hvkOf frq) (trueDown frq (total (slantAir θ w d)) (slant θ C.tk) (C.top / sin (θ * π / 180))) = some Tb ∧
      ∃ B, ∃ δ0 > 0, ∀ n h I rows j k δ, ReadOff C n h I.set → FinerThan n h δ → 0 ≤ δ → δ ≤ δ0 →
        I.set.satellite = false → NoClouds I.out → j < I.set.nf → I.set.frq j = frq → k < I.set.nang →
        I.set.angles k = θ → (execute A g I).1 = .ok rows →
        ∃ r Tb', rows[k * I.set.nf + j]? = some r ∧ r.tbtotal = some Tb' ∧ |Tb' - Tb| ≤ B * (δ ^ 2 + 1e-9) := by
  have hs := sin_pos_of_angle hθ.1 hθ.2
  have hnn : 0 ≤ C.top / sin (θ * π / 180) := div_nonneg hC.top hs.le
  obtain ⟨Tb, h1, B, δ0, hδ0, H⟩ := C124_path_ground (U := (fun u => u * sin (θ * π / 180)) ⁻¹' U) (a := slantAir θ w d)
    (T := slant θ C.tk) hf hnn (slant_isOpen hS.isOpen) (fun u hu => hS.heights (slant_mem hs hu))
    (fun c => by fin_cases c <;> [exact slant_smooth hS.wet; exact slant_smooth hS.dry])
    (fun c u hu => by fin_cases c <;> [exact hS.wet0 _ (slant_mem hs hu); exact hS.dry0 _ (slant_mem hs hu)])
    (slant_smooth hS.tk) (fun u hu => hC.tk0 _ (slant_mem hs hu)) (by
      unfold slantOpacity at hop; push_cast; linarith)
  refine ⟨Tb, h1, |B| * (1 / sin (θ * π / 180) ^ 2), δ0 * sin (θ * π / 180), by positivity,
    fun n h I rows j k δ hR hfine hd0 hd1 hsat ho hj hfrq hk hang hrun => ?_⟩
  obtain ⟨_, _, _, -, -, -, hc⟩ := (execute_ok hrun).ex
  obtain ⟨es, hes, -⟩ := (hc k hk).2 j hj
  obtain ⟨ds, x, out, r, hSm, hp, hr, hb⟩ := run_sampled hl hC hR hs ho hj hk hfrq hang hes hrun
  rw [hsat] at hp
  obtain ⟨Tb', b1, b2⟩ := H n _ ds x es out (δ / sin (θ * π / 180)) hSm (fun i h1 h2 => by
    have := hfine i h1 h2
    rw [← sub_div]
    exact div_le_div_of_nonneg_right this hs.le) (div_nonneg hd0 hs.le) ((div_le_iff₀ hs).2 hd1) hp
  refine ⟨r, Tb', hr, hb.trans b1, b2.trans (slant_order hs (sin_le_one _))⟩

/-- **C124.** And from above, over a surface that emits. -/
theorem C124_satellite (hf : 0 < frq) (hes : 0 < es ∧ es ≤ 1) (hθ : 0 < θ ∧ θ < 180) (hl : initLineList A g = .ok g1)
    (hC : Continuous' C A g1 frq m w d) (hS : SmoothAir C w d U)
    (hop : slantOpacity C θ w d + 2e-9 * (C.top / sin (θ * π / 180)) < 125) :
    ∃ Tb, bright (hvkOf frq) (trueUp es frq (total (slantAir θ w d)) (slant θ C.tk) (C.top / sin (θ * π / 180))) = some Tb ∧
      ∃ B, ∃ δ0 > 0, ∀ n h I rows j k δ, ReadOff C n h I.set → FinerThan n h δ → 0 ≤ δ → δ ≤ δ0 →
        I.set.satellite = true → I.set.es[j]? = some es → NoClouds I.out → j < I.set.nf → I.set.frq j = frq →
        k < I.set.nang → I.set.angles k = θ → (execute A g I).1 = .ok rows →
        ∃ r Tb', rows[k * I.set.nf + j]? = some r ∧ r.tbtotal = some Tb' ∧ |Tb' - Tb| ≤ B * (δ ^ 2 + 1e-9) := by
  have hs := sin_pos_of_angle hθ.1 hθ.2
  have hnn : 0 ≤ C.top / sin (θ * π / 180) := div_nonneg hC.top hs.le
  obtain ⟨Tb, h1, B, δ0, hδ0, H⟩ := C124_path_satellite (U := (fun u => u * sin (θ * π / 180)) ⁻¹' U) (a := slantAir θ w d)
    (T := slant θ C.tk) hf hes hnn (slant_isOpen hS.isOpen) (fun u hu => hS.heights (slant_mem hs hu))
    (fun c => by fin_cases c <;> [exact slant_smooth hS.wet; exact slant_smooth hS.dry])
    (fun c u hu => by fin_cases c <;> [exact hS.wet0 _ (slant_mem hs hu); exact hS.dry0 _ (slant_mem hs hu)])
    (slant_smooth hS.tk) (fun u hu => hC.low.trans_le (hC.tk0 _ (slant_mem hs hu))) (by
      unfold slantOpacity at hop; push_cast; linarith)
  refine ⟨Tb, h1, |B| * (1 / sin (θ * π / 180) ^ 2), δ0 * sin (θ * π / 180), by positivity,
    fun n h I rows j k δ hR hfine hd0 hd1 hsat hE ho hj hfrq hk hang hrun => ?_⟩
  obtain ⟨ds, x, out, r, hSm, hp, hr, hb⟩ := run_sampled hl hC hR hs ho hj hk hfrq hang hE hrun
  rw [hsat] at hp
  obtain ⟨Tb', b1, b2⟩ := H n _ ds x out (δ / sin (θ * π / 180)) hSm (fun i h1 h2 => by
    have := hfine i h1 h2
    rw [← sub_div]
    exact div_le_div_of_nonneg_right this hs.le) (div_nonneg hd0 hs.le) ((div_le_iff₀ hs).2 hd1) hp
  exact ⟨r, Tb', hr, hb.trans b1, b2.trans (slant_order hs (sin_le_one _))⟩

end

/-! ## A case -/

/-- Routines whose absorption grows as the air gets colder. -/
noncomputable def coldA : AbsRoutines :=
  { demoA with
    h2o := fun _ _ _ v _ _ => .ok (1e-3 * v, 0)
    o2 := fun _ _ _ v _ _ => .ok (2e-3 * v, 0) }

theorem coldA_total : TotalRoutines coldA :=
  ⟨fun _ _ _ _ _ _ => ⟨_, rfl⟩, fun _ _ _ _ _ _ => ⟨_, rfl⟩, fun _ _ _ _ => ⟨_, rfl⟩,
    fun _ _ _ _ _ _ => ⟨_, rfl⟩, fun _ _ _ _ => ⟨_, rfl⟩⟩

theorem coldA_selected : Selected coldA demoG.sel :=
  ⟨⟨_, _, rfl, rfl⟩, ⟨_, _, rfl, rfl⟩, ⟨_, rfl⟩, ⟨_, rfl⟩⟩

theorem db2np_small : 0 < db2np ∧ db2np ≤ 1 := by
  have h1 : (0 : ℝ) < log 10 := log_pos (by norm_num)
  have h2 := log_le_sub_one_of_pos (show (0 : ℝ) < 10 by norm_num)
  rw [db2np_eq]
  exact ⟨by positivity, by linarith⟩

/-- Absorption in the column `tenColumn` with these routines. -/
noncomputable def coldAir (c u : ℝ) : ℝ := 0.182 * 22 * (c * (300 / (290 - 6 * u))) * db2np

theorem coldAir_smooth (c : ℝ) : ContDiffOn ℝ 2 (coldAir c) (Iio 40) := by
  unfold coldAir
  refine (contDiffOn_const.mul (contDiffOn_const.mul (contDiffOn_const.div (by fun_prop) fun u hu => ?_))).mul contDiffOn_const
  have : u < 40 := hu
  linarith

theorem coldAir_pos {c u : ℝ} (hc : 0 < c) (hu : u ∈ Icc (0 : ℝ) 10) : 0 < coldAir c u := by
  have h1 : 0 < 290 - 6 * u := by linarith [hu.2]
  have h2 := db2np_small.1
  unfold coldAir
  positivity

theorem coldAir_le {c u : ℝ} (hc : 0 < c) (hu : u ∈ Icc (0 : ℝ) 10) : coldAir c u ≤ 6 * c := by
  have h1 : (230 : ℝ) ≤ 290 - 6 * u := by linarith [hu.2]
  have h2 : 300 / (290 - 6 * u) ≤ 1.4 := by rw [div_le_iff₀ (by linarith)]; linarith
  have h3 : 0 < 300 / (290 - 6 * u) := by positivity
  have h4 := mul_le_mul_of_nonneg_left h2 hc.le
  have h5 : 0 ≤ 0.182 * 22 * (c * (300 / (290 - 6 * u))) := by positivity
  unfold coldAir
  exact (mul_le_of_le_one_right h5 db2np_small.2).trans (by linarith)

theorem tenColumn_top : tenColumn.top = 10 := rfl

theorem cold_continuous {g1 : Globals} (hl : initLineList coldA demoG = .ok g1) {m : ℝ} (hm : 0 < m) (hm' : m ≤ 230) :
    Continuous' tenColumn coldA g1 22 m (coldAir 1e-3) (coldAir 2e-3) where
  top := by norm_num [tenColumn]
  air u hu := by
    cases hl
    unfold Column.air clearLevel n2Term o3Term ozoneActive
    simp [demoG, coldA, demoA, tenColumn, coldAir, Bind.bind, Except.bind, pure, Except.pure]
    norm_num
  wet := (coldAir_smooth _).continuousOn.mono fun u hu => by
    have : u ≤ 10 := hu.2
    show u < 40
    linarith
  dry := (coldAir_smooth _).continuousOn.mono fun u hu => by
    have : u ≤ 10 := hu.2
    show u < 40
    linarith
  wet0 u hu := (coldAir_pos (by norm_num) hu).le
  dry0 u hu := (coldAir_pos (by norm_num) hu).le
  tk := tenColumn_smooth.tk
  low := hm
  tk0 u hu := hm'.trans (tenColumn_smooth.tk0 u hu)

theorem cold_smooth : SmoothAir tenColumn (coldAir 1e-3) (coldAir 2e-3) (Iio 40) where
  isOpen := isOpen_Iio
  heights u hu := by
    have : u ≤ 10 := hu.2
    show u < 40
    linarith
  wet := coldAir_smooth _
  dry := coldAir_smooth _
  tk := by unfold tenColumn; fun_prop
  wet0 u hu := coldAir_pos (by norm_num) hu
  dry0 u hu := coldAir_pos (by norm_num) hu

theorem sin_thirty : sin (30 * π / 180) = 1 / 2 := by
  rw [show 30 * π / 180 = π / 6 by ring, sin_pi_div_six]

theorem cold_opacity : slantOpacity tenColumn 30 (coldAir 1e-3) (coldAir 2e-3) +
    2e-9 * (tenColumn.top / sin (30 * π / 180)) < 125 := by
  have hs : 0 < sin (30 * π / 180) := by rw [sin_thirty]; norm_num
  obtain ⟨g1, hl, -⟩ := initLineList_total coldA_selected
  have hc := (slant_absorbers hs (cold_continuous hl (m := 230) (by norm_num) le_rfl)).total_continuous
  have hL : (0 : ℝ) ≤ tenColumn.top / sin (30 * π / 180) := by rw [sin_thirty, tenColumn_top]; norm_num
  have := intervalIntegral.integral_mono_on hL
    ((hc.mono (by rw [uIcc_of_le hL])).intervalIntegrable)
    (_root_.intervalIntegrable_const (μ := MeasureTheory.volume) (c := (1 : ℝ))) fun u hu => by
      show total (slantAir 30 (coldAir 1e-3) (coldAir 2e-3)) u ≤ 1
      have hu' := slant_mem hs hu
      unfold total slantAir slant
      rw [Fin.sum_univ_two]
      simp only [Matrix.cons_val_zero, Matrix.cons_val_one]
      have h1 := coldAir_le (c := 1e-3) (by norm_num) hu'
      have h2 := coldAir_le (c := 2e-3) (by norm_num) hu'
      norm_num at h1 h2 ⊢
      linarith
  rw [intervalIntegral.integral_const, sin_thirty, tenColumn_top] at this
  unfold slantOpacity pathOpacity
  rw [sin_thirty, tenColumn_top]
  norm_num at this ⊢
  linarith

theorem cold_runs (n : ℕ) (sat : Bool) : ∃ rows,
    (execute coldA demoG ⟨{ tenSettings n with satellite := sat }, Store.zero⟩).1 = .ok rows :=
  execute_total coldA_total coldA_selected rfl (show 1 ≤ n + 1 by omega) (le_refl 2) (by simp [CloudInput, tenSettings]) rfl
    fun k hk => (sin_pos_of_angle (demo_angles k hk).1 (demo_angles k hk).2).ne'

theorem ten_fine {n : ℕ} (hn : 0 < n) : FinerThan n (fun i => 10 * (i : ℝ) / n) (10 / n) := fun i h1 _ => by
  have hn0 : (0 : ℝ) < n := by exact_mod_cast hn
  rw [← sub_div, Nat.cast_sub h1]
  push_cast
  exact div_le_div_of_nonneg_right (by linarith) hn0.le

/-- Ten kilometres of air in equidistant levels, 22 GHz at 30 degrees elevation: four times smaller errors with twice as many levels,
down to the floor. -/
example (sat : Bool) : ∃ (Tb B : ℝ) (N : ℕ), ∀ n : ℕ, N ≤ n → ∃ rows r Tb',
    (execute coldA demoG ⟨{ tenSettings n with satellite := sat }, Store.zero⟩).1 = .ok rows ∧
      rows[2]? = some r ∧ r.tbtotal = some Tb' ∧ |Tb' - Tb| ≤ B * ((10 / (n : ℝ)) ^ 2 + 1e-9) := by
  obtain ⟨g1, hl, -⟩ := initLineList_total coldA_selected
  have readOff {n : ℕ} (hn : 0 < n) : ReadOff tenColumn n (fun i => 10 * (i : ℝ) / n) { tenSettings n with satellite := sat } := by
    obtain ⟨a, b, c, d, e, f, g, h, i, j, k⟩ := tenSettings_readOff hn
    exact ⟨a, b, c, d, e, f, g, h, i, j, k⟩
  have many {δ0 : ℝ} (h : 0 < δ0) : ∃ N : ℕ, ∀ n : ℕ, N ≤ n → 0 < n ∧ (10 : ℝ) / n ≤ δ0 := by
    obtain ⟨N, hN⟩ := exists_nat_gt (10 / δ0)
    refine ⟨N, fun n hn => ?_⟩
    have hn' : 10 / δ0 < n := hN.trans_le (Nat.cast_le.2 hn)
    have hn0 : (0 : ℝ) < n := lt_trans (by positivity) hn'
    refine ⟨Nat.cast_pos.1 hn0, ?_⟩
    rw [div_lt_iff₀ h] at hn'
    rw [div_le_iff₀ hn0]
    linarith
  cases sat
  · obtain ⟨Tb, -, B, δ0, hδ0, H⟩ := C124_ground (θ := 30) (by norm_num) (by norm_num) hl
      (cold_continuous hl (m := 2.728) (by norm_num) (by norm_num)) cold_smooth cold_opacity
    obtain ⟨N, hN⟩ := many hδ0
    refine ⟨Tb, B, N, fun n hn => ?_⟩
    obtain ⟨rows, hrun⟩ := cold_runs n false
    obtain ⟨r, Tb', h1, h2, h3⟩ := H n _ _ rows 0 1 _ (readOff (hN n hn).1) (ten_fine (hN n hn).1) (by positivity)
      (hN n hn).2 rfl (fun j k => ⟨rfl, rfl, rfl, rfl, rfl⟩) (show 0 < 2 by decide) (by simp [tenSettings, demoS])
      (show 1 < 2 by decide) (by simp [tenSettings, demoS]; norm_num) hrun
    exact ⟨rows, r, Tb', hrun, h1, h2, h3⟩
  · obtain ⟨Tb, -, B, δ0, hδ0, H⟩ := C124_satellite (θ := 30) (es := 1) (by norm_num) (by norm_num) (by norm_num) hl
      (cold_continuous hl (m := 230) (by norm_num) le_rfl) cold_smooth cold_opacity
    obtain ⟨N, hN⟩ := many hδ0
    refine ⟨Tb, B, N, fun n hn => ?_⟩
    obtain ⟨rows, hrun⟩ := cold_runs n true
    obtain ⟨r, Tb', h1, h2, h3⟩ := H n _ _ rows 0 1 _ (readOff (hN n hn).1) (ten_fine (hN n hn).1) (by positivity)
      (hN n hn).2 rfl rfl (fun j k => ⟨rfl, rfl, rfl, rfl, rfl⟩) (show 0 < 2 by decide) (by simp [tenSettings, demoS])
      (show 1 < 2 by decide) (by simp [tenSettings, demoS]; norm_num) hrun
    exact ⟨rows, r, Tb', hrun, h1, h2, h3⟩

end Verif.Props
