import Verif.Props.Discretisation

/-!
# C94 whatever the opacity

From a total opacity of 125 Np on the code leaves out what is behind the atmosphere.  This file removes the hypothesis of
C94 that the opacity is below that limit.
-/

namespace Verif.Props

open Verif.Model Verif.Py Verif.Spec Verif.Lemmas Real Set

variable {k n : ℕ} {s ds : ℕ → ℝ} {L ω ε es frq m M : ℝ} {T : ℝ → ℝ} {out : PlanckOut} {a : Fin k → ℝ → ℝ}
  {x : Fin k → ℕ → ℝ} {ωa : Fin k → ℕ → ℝ}

/-- Sum of the emission at the ground and of the background behind everything, without the limit. -/
theorem ground_core (hf : 0 < frq) (hs : Sampled n L s ds a x) (ha : Absorbers L a)
    (hT : ContinuousOn T (Icc 0 L)) (hT0 : ∀ u ∈ Icc 0 L, 2.728 ≤ T u ∧ T u ≤ M)
    (hω : Swing n s (radianceAt frq T) fun _ => ω) (hωa : ∀ c, Swing n s (a c) (ωa c)) :
    |tk2b (hvkOf frq) 2.728 * exp (-opacityBelow (fun i => ∑ c, x c i) n) +
        skyRadiance (fun i => tk2b (hvkOf frq) (T (s i))) (fun i => ∑ c, x c i) n - trueDown frq (total a) T L| ≤
      ω * (1 - exp (-pathOpacity (total a) 0 L)) +
      (tk2b (hvkOf frq) M - tk2b (hvkOf frq) 2.728) * ∑ i ∈ Finset.Icc 1 n, (∑ c, ωa c i) * (s i - s (i - 1)) := by
  have hm : (0 : ℝ) < 2.728 := by norm_num
  have hh := hvkOf_pos hf
  have hTp : ∀ u ∈ Icc 0 L, 0 < T u := fun u hu => hm.trans_le (hT0 u hu).1
  have k1 := sky_exact_on ha.total_continuous (radianceAt_continuousOn hf hT hTp) ha.total_nonneg hs.levels hω
  have eo := exactLayer_below_on ha.total_continuous hs.levels
  have h00 := hT0 0 ⟨le_rfl, hs.levels.length⟩
  have hBM : tk2b (hvkOf frq) 2.728 ≤ tk2b (hvkOf frq) M := tk2b_mono hh hm (h00.1.trans h00.2)
  have k2 := sky_opacity (n := n) (B := fun i => tk2b (hvkOf frq) (T (s i))) (τ := exactLayer (total a) s)
    (τ' := fun i => ∑ c, x c i) (lo := tk2b (hvkOf frq) 2.728) (hi := tk2b (hvkOf frq) M)
    (b := tk2b (hvkOf frq) 2.728) (b' := tk2b (hvkOf frq) 2.728)
    (fun i h1 h2 => ⟨pathOpacity_nonneg (hs.levels.mono (Nat.sub_le i 1) (by omega)) fun u hu =>
        ha.total_nonneg u ⟨(hs.levels.mem (by omega : i - 1 ≤ n)).1.trans hu.1,
          hu.2.trans (hs.levels.mem (by omega : i ≤ n)).2⟩,
      Finset.sum_nonneg fun c _ => hs.nonneg ha c h1 (by omega)⟩)
    (fun i hi => ⟨tk2b_mono hh hm (hT0 _ (hs.levels.mem hi)).1,
      tk2b_mono hh (hTp _ (hs.levels.mem hi)) (hT0 _ (hs.levels.mem hi)).2⟩) ⟨le_rfl, hBM⟩ ⟨le_rfl, hBM⟩
  unfold transDown at k2
  rw [sub_self, abs_zero, zero_add, eo] at k2
  have k3 := mul_le_mul_of_nonneg_left (hs.error ha hωa) (sub_nonneg.2 hBM)
  unfold trueDown
  change |skyRadiance (fun i => tk2b (hvkOf frq) (T (s i))) _ n - _| ≤ _ at k1
  unfold exactLayer at k1 k2
  rw [abs_le] at *
  constructor <;> linarith

/-- The same from above. -/
theorem satellite_core (hf : 0 < frq) (hes : 0 ≤ es ∧ es ≤ 1) (hs : Sampled n L s ds a x) (ha : Absorbers L a)
    (hT : ContinuousOn T (Icc 0 L)) (hm : 0 < m) (hT0 : ∀ u ∈ Icc 0 L, m ≤ T u ∧ T u ≤ M)
    (hω : Swing n s (radianceAt frq T) fun _ => ω) (hωa : ∀ c, Swing n s (a c) (ωa c)) :
    |es * tk2b (hvkOf frq) (T 0) * exp (-opacityBelow (fun i => ∑ c, x c i) n) +
        upRadiance (fun i => tk2b (hvkOf frq) (T (s i))) (fun i => ∑ c, x c i) n 0 - trueUp es frq (total a) T L| ≤
      ω * (1 - exp (-pathOpacity (total a) 0 L)) +
      (tk2b (hvkOf frq) M - es * tk2b (hvkOf frq) m) * ∑ i ∈ Finset.Icc 1 n, (∑ c, ωa c i) * (s i - s (i - 1)) := by
  have hh := hvkOf_pos hf
  have hTp : ∀ u ∈ Icc 0 L, 0 < T u := fun u hu => hm.trans_le (hT0 u hu).1
  have k1 := up_exact_on ha.total_continuous (radianceAt_continuousOn hf hT hTp) ha.total_nonneg hs.levels hω
  have eo := exactLayer_below_on ha.total_continuous hs.levels
  have h00 := hT0 0 ⟨le_rfl, hs.levels.length⟩
  have hp := tk2b_pos hh hm
  have hm0 := tk2b_mono hh hm h00.1
  have h0M := tk2b_mono hh (hm.trans_le h00.1) h00.2
  have hBM : es * tk2b (hvkOf frq) m ≤ tk2b (hvkOf frq) M := by nlinarith
  have hbg : es * tk2b (hvkOf frq) (T 0) ∈ Icc (es * tk2b (hvkOf frq) m) (tk2b (hvkOf frq) M) :=
    ⟨mul_le_mul_of_nonneg_left hm0 hes.1, (mul_le_of_le_one_left (hp.le.trans hm0) hes.2).trans h0M⟩
  have k2 := up_opacity (m := 0) (n := n) (B := fun i => tk2b (hvkOf frq) (T (s i))) (τ := exactLayer (total a) s)
    (τ' := fun i => ∑ c, x c i) (lo := es * tk2b (hvkOf frq) m) (hi := tk2b (hvkOf frq) M) (Nat.zero_le n)
    (fun i h1 h2 => ⟨pathOpacity_nonneg (hs.levels.mono (Nat.sub_le i 1) (by omega)) fun u hu =>
        ha.total_nonneg u ⟨(hs.levels.mem (by omega : i - 1 ≤ n)).1.trans hu.1,
          hu.2.trans (hs.levels.mem (by omega : i ≤ n)).2⟩,
      Finset.sum_nonneg fun c _ => hs.nonneg ha c h1 (by omega)⟩)
    (fun i hi => ⟨(mul_le_of_le_one_left hp.le hes.2).trans (tk2b_mono hh hm (hT0 _ (hs.levels.mem hi)).1),
      tk2b_mono hh (hTp _ (hs.levels.mem hi)) (hT0 _ (hs.levels.mem hi)).2⟩) hbg hbg
  unfold transUp at k2
  rw [sub_self, abs_zero, zero_add, opacityAbove_zero, opacityAbove_zero, eo] at k2
  have k3 := mul_le_mul_of_nonneg_left (hs.error ha hωa) (sub_nonneg.2 hBM)
  unfold opacityError at k3
  unfold trueUp
  change |upRadiance (fun i => tk2b (hvkOf frq) (T (s i))) _ n 0 - _| ≤ _ at k1
  unfold exactLayer at k1 k2
  rw [zero_add] at k2
  rw [abs_le] at *
  constructor <;> linarith

/-- What the code makes of the background `b` behind the opacity `o`. -/
theorem cut_background {b o c : ℝ} (hb : 0 ≤ b) (h1 : o < 125 → c = b * exp (-o)) (h2 : 125 ≤ o → c = 0) :
    c ≤ b * exp (-o) ∧ b * exp (-o) ≤ c + b * exp (-125) ∧ 0 ≤ c := by
  rcases lt_or_ge o 125 with ho | ho
  · rw [h1 ho]
    have := exp_pos (-125)
    exact ⟨le_rfl, by nlinarith, by positivity⟩
  · rw [h2 ho, zero_add]
    exact ⟨by positivity, mul_le_mul_of_nonneg_left (exp_le_exp.2 (by linarith)) hb, le_rfl⟩

/-- C94: whatever the opacity, at the ground: the limit costs at most the cosmic background behind 125 Np. -/
theorem C94_ground_any (hf : 0 < frq) (hs : Sampled n L s ds a x) (ha : Absorbers L a)
    (hT : ContinuousOn T (Icc 0 L)) (hT0 : ∀ u ∈ Icc 0 L, 2.728 ≤ T u ∧ T u ≤ M)
    (hω : Swing n s (radianceAt frq T) fun _ => ω) (hωa : ∀ c, Swing n s (a c) (ωa c))
    (h : planck false es frq (n + 1) (fun i => T (s i)) (fun i => ∑ c, x c i) = some out) :
    |out.boftotl - trueDown frq (total a) T L| ≤ ω * (1 - exp (-pathOpacity (total a) 0 L)) +
      (tk2b out.hvk M - tk2b out.hvk 2.728) * ∑ i ∈ Finset.Icc 1 n, (∑ c, ωa c i) * (s i - s (i - 1)) +
      tk2b out.hvk 2.728 * exp (-125) := by
  have core := ground_core hf hs ha hT hT0 hω hωa
  obtain ⟨-, e1, -, -, -, e5, e6, e7⟩ := planck_ground h
  rw [Nat.add_sub_cancel, show cTcosmicbkg = (2.728 : ℝ) from rfl] at *
  obtain ⟨c1, c2, -⟩ := cut_background (tk2b_pos (hvkOf_pos hf) (by norm_num : (0 : ℝ) < 2.728)).le
    (fun ho => (e5 ho).1) fun ho => (e6 ho).1
  rw [e7, e1]
  rw [abs_le] at *
  constructor <;> linarith

/-- C94: and from above: the surface behind 125 Np. -/
theorem C94_satellite_any (hf : 0 < frq) (hes : 0 ≤ es ∧ es ≤ 1) (hs : Sampled n L s ds a x) (ha : Absorbers L a)
    (hT : ContinuousOn T (Icc 0 L)) (hm : 0 < m) (hT0 : ∀ u ∈ Icc 0 L, m ≤ T u ∧ T u ≤ M)
    (hω : Swing n s (radianceAt frq T) fun _ => ω) (hωa : ∀ c, Swing n s (a c) (ωa c))
    (h : planck true es frq (n + 1) (fun i => T (s i)) (fun i => ∑ c, x c i) = some out) :
    |out.boftotl - trueUp es frq (total a) T L| ≤ ω * (1 - exp (-pathOpacity (total a) 0 L)) +
      (tk2b out.hvk M - es * tk2b out.hvk m) * ∑ i ∈ Finset.Icc 1 n, (∑ c, ωa c i) * (s i - s (i - 1)) +
      es * tk2b out.hvk (T 0) * exp (-125) := by
  have core := satellite_core hf hes hs ha hT hm hT0 hω hωa
  obtain ⟨-, e1, -, -, -, e5, e6, e7⟩ := planck_sat h
  rw [Nat.add_sub_cancel, hs.levels.bottom] at *
  have hB := tk2b_pos (hvkOf_pos hf) (hm.trans_le (hT0 0 ⟨le_rfl, hs.levels.length⟩).1)
  obtain ⟨c1, c2, -⟩ := cut_background (mul_nonneg hes.1 hB.le) (fun ho => (e5 ho).1) fun ho => (e6 ho).1
  rw [e7, e1]
  rw [abs_le] at *
  constructor <;> linarith

/-- A brightness temperature falls at most in the ratio of the radiances. -/
theorem tk2b_ratio_le {hvk T l : ℝ} (hh : 0 < hvk) (hT : 0 < T) (hl : 0 < l) (hl1 : l ≤ 1) :
    tk2b hvk (l * T) ≤ l * tk2b hvk T := by
  have key : exp (hvk / T) ≤ l * exp (hvk / (l * T)) + (1 - l) := by
    have := convexOn_exp.2 (mem_univ (hvk / (l * T))) (mem_univ 0) hl.le (sub_nonneg.2 hl1) (by ring)
    simp only [smul_eq_mul, mul_zero, add_zero, exp_zero, mul_one] at this
    rwa [show l * (hvk / (l * T)) = hvk / T by field_simp] at this
  have h1 : 0 < exp (hvk / T) - 1 := sub_pos.2 (one_lt_exp_iff.2 (by positivity))
  have h2 : 0 < exp (hvk / (l * T)) - 1 := sub_pos.2 (one_lt_exp_iff.2 (by positivity))
  unfold tk2b
  norm_num
  rw [← div_eq_mul_inv, inv_eq_one_div, div_le_div_iff₀ h2 h1]
  linarith

theorem bright_ratio {hvk b b' l : ℝ} (hh : 0 < hvk) (hb : 0 < b) (hb' : 0 ≤ b') (hl1 : l ≤ 1) (h : l * b ≤ b') :
    ∃ T T', bright hvk b = some T ∧ bright hvk b' = some T' ∧ 0 < T ∧ l * T ≤ T' := by
  obtain ⟨T, hT, rfl⟩ := exists_tk2b hh hb
  rcases hb'.eq_or_lt with rfl | hp
  · refine ⟨T, 0, bright_tk2b hh hT, bright_zero, hT, ?_⟩
    have : l ≤ 0 := by
      by_contra hc
      push Not at hc
      nlinarith
    nlinarith
  · obtain ⟨T', hT', rfl⟩ := exists_tk2b hh hp
    refine ⟨T, T', bright_tk2b hh hT, bright_tk2b hh hT', hT, ?_⟩
    rcases le_or_gt l 0 with h0 | h0
    · nlinarith
    · by_contra hc
      push Not at hc
      have := tk2b_strictMono hh hT' hc
      linarith [tk2b_ratio_le hh hT h0 hl1]

/-- Cutting off less than a share `q` of the radiance lowers the brightness temperature by at most that share. -/
theorem cut_brightness {hvk b' b'' q Tb η : ℝ} (hh : 0 < hvk) (hb'' : 0 < b'') (hb' : 0 ≤ b') (hq : 0 ≤ q)
    (hle : b' ≤ b'') (hcut : b'' ≤ b' + q * b'') (hnear : ∃ T'', bright hvk b'' = some T'' ∧ |T'' - Tb| ≤ η) :
    ∃ T', bright hvk b' = some T' ∧ |T' - Tb| ≤ η + q * (Tb + η) := by
  obtain ⟨T, T', e1, e2, hT, hlow⟩ := bright_ratio (l := 1 - q) hh hb'' hb' (by linarith) (by linarith)
  obtain ⟨T1, T2, f1, f2, hup⟩ := bright_mono hh hb' hle
  obtain ⟨T'', e3, hn⟩ := hnear
  rw [e1] at e3 f2
  rw [e2] at f1
  cases e3; cases f2; cases f1
  refine ⟨T', e2, ?_⟩
  rw [abs_le] at hn ⊢
  have hqT : q * T ≤ q * (Tb + η) := mul_le_mul_of_nonneg_left (by linarith) hq
  have h0 : 0 ≤ q * T := by positivity
  constructor <;> nlinarith

/-- C94: brightness temperatures at the ground, whatever the opacity, converge up to `exp(-125)` (less than `10⁻⁵⁴`) of
their value. -/
theorem C94_ground_brightness_any (hf : 0 < frq) (h0 : 0 ≤ L) (ha : Absorbers L a) (hT : ContinuousOn T (Icc 0 L))
    (hT0 : ∀ u ∈ Icc 0 L, 2.728 ≤ T u) :
    ∃ Tb, bright (hvkOf frq) (trueDown frq (total a) T L) = some Tb ∧ 2.728 ≤ Tb ∧ ∀ ε > 0, ∃ δ > 0,
      ∀ n s ds x out, Sampled n L s ds a x → FinerThan n s δ →
        planck false es frq (n + 1) (fun i => T (s i)) (fun i => ∑ c, x c i) = some out →
        ∃ Tb', bright out.hvk out.boftotl = some Tb' ∧ |Tb' - Tb| ≤ ε + exp (-125) * Tb := by
  have hm : (0 : ℝ) < 2.728 := by norm_num
  have hh := hvkOf_pos hf
  have hTp : ∀ u ∈ Icc 0 L, 0 < T u := fun u hu => hm.trans_le (hT0 u hu)
  have hlow : tk2b (hvkOf frq) 2.728 ≤ trueDown frq (total a) T L := by
    have := downwelling_ge h0 ha.total_continuous (radianceAt_continuousOn hf hT hTp) ha.total_nonneg
      (lo := tk2b (hvkOf frq) 2.728) fun u hu => tk2b_mono hh hm (hT0 u hu)
    unfold trueDown
    linarith
  obtain ⟨Tb, hTb, hb, -⟩ := brightness_limit (ε := 1) hh hm hlow one_pos
  refine ⟨Tb, hb, ?_, fun ε hε => ?_⟩
  · obtain ⟨T1, hT1, e⟩ := exists_tk2b hh ((tk2b_pos hh hm).trans_le hlow)
    rw [← e, bright_tk2b hh hT1] at hb
    cases hb
    by_contra hc
    push Not at hc
    linarith [tk2b_strictMono hh hTb hc]
  · obtain ⟨Tb1, -, hb1, η, hη, H⟩ := brightness_limit (ε := ε / 2) hh hm hlow (by positivity)
    rw [hb] at hb1
    cases hb1
    obtain ⟨M, hM⟩ := (isCompact_Icc (a := (0 : ℝ)) (b := L)).bddAbove_image hT
    have hM' : ∀ u ∈ Icc 0 L, T u ≤ M := fun u hu => hM ⟨u, hu, rfl⟩
    generalize hR : |tk2b (hvkOf frq) M - tk2b (hvkOf frq) 2.728| = R
    have hR0 : 0 ≤ R := hR ▸ abs_nonneg _
    obtain ⟨δ, hδ, H2⟩ := fine_enough (ε := η / (1 + R)) hf ha hT hTp (by positivity)
    refine ⟨δ, hδ, fun n s ds x out hs hfine h => ?_⟩
    obtain ⟨hω, ωa, hωa, hsum⟩ := H2 n s hs.levels hfine
    have core := ground_core hf hs ha hT (fun u hu => ⟨hT0 u hu, hM' u hu⟩) hω hωa
    have near : |tk2b (hvkOf frq) 2.728 * exp (-opacityBelow (fun i => ∑ c, x c i) n) +
        skyRadiance (fun i => tk2b (hvkOf frq) (T (s i))) (fun i => ∑ c, x c i) n - trueDown frq (total a) T L| ≤ η := by
      refine core.trans ?_
      have h2 := exp_pos (-pathOpacity (total a) 0 L)
      have h3 : 0 < η / (1 + R) := by positivity
      have h8 : 0 ≤ ∑ i ∈ Finset.Icc 1 n, (∑ c, ωa c i) * (s i - s (i - 1)) :=
        (abs_nonneg _).trans (hs.opacity ha hωa)
      have h9 := mul_le_mul_of_nonneg_right (le_abs_self (tk2b (hvkOf frq) M - tk2b (hvkOf frq) 2.728)) h8
      rw [hR] at h9
      have h4 := mul_le_mul_of_nonneg_left hsum hR0
      have h6 : η / (1 + R) * (1 + R) = η := div_mul_cancel₀ _ (by positivity)
      generalize η / (1 + R) = q at *
      nlinarith
    have hx : ∀ i, 1 ≤ i → i ≤ n → 0 ≤ ∑ c, x c i := fun i h1 h2 => Finset.sum_nonneg fun c _ => hs.nonneg ha c h1 h2
    have hbd := (skyRadiance_bounds (B := fun i => tk2b (hvkOf frq) (T (s i))) hx (lo := tk2b (hvkOf frq) 2.728)
      (hi := tk2b (hvkOf frq) M) fun i hi => ⟨tk2b_mono hh hm (hT0 _ (hs.levels.mem hi)),
        tk2b_mono hh (hTp _ (hs.levels.mem hi)) (hM' _ (hs.levels.mem hi))⟩).1
    unfold transDown at hbd
    obtain ⟨-, e1, -, -, -, e5, e6, e7⟩ := planck_ground h
    rw [Nat.add_sub_cancel, show cTcosmicbkg = (2.728 : ℝ) from rfl] at *
    have hb0 := tk2b_pos hh hm
    obtain ⟨c1, c2, c3⟩ := cut_background hb0.le (fun ho => (e5 ho).1) fun ho => (e6 ho).1
    have hop : 0 ≤ opacityBelow (fun i => ∑ c, x c i) n := opacityBelow_nonneg hx
    have hsky : 0 ≤ skyRadiance (fun i => tk2b (hvkOf frq) (T (s i))) (fun i => ∑ c, x c i) n := by
      have : exp (-opacityBelow (fun i => ∑ c, x c i) n) ≤ 1 := exp_le_one_iff.2 (by linarith)
      nlinarith
    have hq := exp_pos (-125)
    obtain ⟨T', f1, f2⟩ := cut_brightness (q := exp (-125)) (b' := out.boftotl) hh (by linarith) (by rw [e7]; linarith) hq.le
      (by rw [e7]; linarith) (by rw [e7]; nlinarith) (H _ near)
    refine ⟨T', by rw [e1]; exact f1, f2.trans ?_⟩
    have : exp (-125) ≤ (1 : ℝ) := exp_le_one_iff.2 (by norm_num)
    nlinarith

/-- C94: from above; here the share is relative to the coldest place of the atmosphere. -/
theorem C94_satellite_brightness_any (hf : 0 < frq) (hes : 0 < es ∧ es ≤ 1) (h0 : 0 ≤ L) (ha : Absorbers L a)
    (hT : ContinuousOn T (Icc 0 L)) (hm : 0 < m) (hT0 : ∀ u ∈ Icc 0 L, m ≤ T u) :
    ∃ Tb, bright (hvkOf frq) (trueUp es frq (total a) T L) = some Tb ∧ 0 < Tb ∧ ∀ ε > 0, ∃ δ > 0,
      ∀ n s ds x out, Sampled n L s ds a x → FinerThan n s δ →
        planck true es frq (n + 1) (fun i => T (s i)) (fun i => ∑ c, x c i) = some out →
        ∃ Tb', bright out.hvk out.boftotl = some Tb' ∧
          |Tb' - Tb| ≤ ε + tk2b (hvkOf frq) (T 0) / tk2b (hvkOf frq) m * exp (-125) * Tb := by
  have hh := hvkOf_pos hf
  have hTp : ∀ u ∈ Icc 0 L, 0 < T u := fun u hu => hm.trans_le (hT0 u hu)
  have hpm := tk2b_pos hh hm
  obtain ⟨m', hm', em⟩ := exists_tk2b hh (mul_pos hes.1 hpm)
  have hB0 := tk2b_mono hh hm (hT0 0 ⟨le_rfl, h0⟩)
  have hlow : tk2b (hvkOf frq) m' ≤ trueUp es frq (total a) T L := by
    have := upwelling_ge h0 ha.total_continuous (radianceAt_continuousOn hf hT hTp) ha.total_nonneg
      (lo := es * tk2b (hvkOf frq) m) fun u hu =>
        (mul_le_of_le_one_left hpm.le hes.2).trans (tk2b_mono hh hm (hT0 u hu))
    have h2 := mul_le_mul_of_nonneg_right (mul_le_mul_of_nonneg_left hB0 hes.1.le) (exp_pos (-pathOpacity (total a) 0 L)).le
    unfold trueUp
    rw [em]
    linarith
  obtain ⟨Tb, hTb, hb, -⟩ := brightness_limit (ε := 1) hh hm' hlow one_pos
  refine ⟨Tb, hb, hTb, fun ε hε => ?_⟩
  generalize hqd : tk2b (hvkOf frq) (T 0) / tk2b (hvkOf frq) m * exp (-125) = q
  have hq : 0 ≤ q := by
    rw [← hqd]
    have := hpm.trans_le hB0
    have := exp_pos (-125)
    positivity
  obtain ⟨Tb1, -, hb1, η, hη, H⟩ := brightness_limit (ε := ε / (1 + q)) hh hm' hlow (by positivity)
  rw [hb] at hb1
  cases hb1
  obtain ⟨M, hM⟩ := (isCompact_Icc (a := (0 : ℝ)) (b := L)).bddAbove_image hT
  have hM' : ∀ u ∈ Icc 0 L, T u ≤ M := fun u hu => hM ⟨u, hu, rfl⟩
  generalize hR : |tk2b (hvkOf frq) M - es * tk2b (hvkOf frq) m| = R
  have hR0 : 0 ≤ R := hR ▸ abs_nonneg _
  obtain ⟨δ, hδ, H2⟩ := fine_enough (ε := η / (1 + R)) hf ha hT hTp (by positivity)
  refine ⟨δ, hδ, fun n s ds x out hs hfine h => ?_⟩
  obtain ⟨hω, ωa, hωa, hsum⟩ := H2 n s hs.levels hfine
  have core := satellite_core hf ⟨hes.1.le, hes.2⟩ hs ha hT hm (fun u hu => ⟨hT0 u hu, hM' u hu⟩) hω hωa
  have near : |es * tk2b (hvkOf frq) (T 0) * exp (-opacityBelow (fun i => ∑ c, x c i) n) +
      upRadiance (fun i => tk2b (hvkOf frq) (T (s i))) (fun i => ∑ c, x c i) n 0 - trueUp es frq (total a) T L| ≤ η := by
    refine core.trans ?_
    have h2 := exp_pos (-pathOpacity (total a) 0 L)
    have h3 : 0 < η / (1 + R) := by positivity
    have h8 : 0 ≤ ∑ i ∈ Finset.Icc 1 n, (∑ c, ωa c i) * (s i - s (i - 1)) :=
      (abs_nonneg _).trans (hs.opacity ha hωa)
    have h9 := mul_le_mul_of_nonneg_right (le_abs_self (tk2b (hvkOf frq) M - es * tk2b (hvkOf frq) m)) h8
    rw [hR] at h9
    have h4 := mul_le_mul_of_nonneg_left hsum hR0
    have h6 : η / (1 + R) * (1 + R) = η := div_mul_cancel₀ _ (by positivity)
    generalize η / (1 + R) = q at *
    nlinarith
  have hx : ∀ i, 1 ≤ i → i ≤ n → 0 ≤ ∑ c, x c i := fun i h1 h2 => Finset.sum_nonneg fun c _ => hs.nonneg ha c h1 h2
  have hbd := (upRadiance_bounds (B := fun i => tk2b (hvkOf frq) (T (s i))) hx (lo := es * tk2b (hvkOf frq) m)
    (hi := tk2b (hvkOf frq) M) fun i hi => ⟨(mul_le_of_le_one_left hpm.le hes.2).trans
      (tk2b_mono hh hm (hT0 _ (hs.levels.mem hi))),
      tk2b_mono hh (hTp _ (hs.levels.mem hi)) (hM' _ (hs.levels.mem hi))⟩).1
  unfold transDown at hbd
  obtain ⟨-, e1, -, -, -, e5, e6, e7⟩ := planck_sat h
  rw [Nat.add_sub_cancel, hs.levels.bottom] at *
  obtain ⟨c1, c2, c3⟩ := cut_background (b := es * tk2b (hvkOf frq) (T 0))
    (mul_nonneg hes.1.le (hpm.le.trans hB0)) (fun ho => (e5 ho).1) fun ho => (e6 ho).1
  have hop : 0 ≤ opacityBelow (fun i => ∑ c, x c i) n := opacityBelow_nonneg hx
  have hpe : 0 < es * tk2b (hvkOf frq) m := mul_pos hes.1 hpm
  have hsky : 0 ≤ upRadiance (fun i => tk2b (hvkOf frq) (T (s i))) (fun i => ∑ c, x c i) n 0 := by
    have : exp (-opacityBelow (fun i => ∑ c, x c i) n) ≤ 1 := exp_le_one_iff.2 (by linarith)
    nlinarith
  have hge : es * tk2b (hvkOf frq) m ≤ es * tk2b (hvkOf frq) (T 0) * exp (-opacityBelow (fun i => ∑ c, x c i) n) +
      upRadiance (fun i => tk2b (hvkOf frq) (T (s i))) (fun i => ∑ c, x c i) n 0 := by
    have := mul_le_mul_of_nonneg_right (mul_le_mul_of_nonneg_left hB0 hes.1.le)
      (exp_pos (-opacityBelow (fun i => ∑ c, x c i) n)).le
    linarith
  have hcut : es * tk2b (hvkOf frq) (T 0) * exp (-125) ≤ q * (es * tk2b (hvkOf frq) (T 0) *
      exp (-opacityBelow (fun i => ∑ c, x c i) n) +
      upRadiance (fun i => tk2b (hvkOf frq) (T (s i))) (fun i => ∑ c, x c i) n 0) := by
    refine le_trans (le_of_eq ?_) (mul_le_mul_of_nonneg_left hge hq)
    rw [← hqd]
    field_simp
  obtain ⟨T', f1, f2⟩ := cut_brightness (q := q) (b' := out.boftotl) hh (hpe.trans_le hge) (by rw [e7]; linarith) hq
    (by rw [e7]; linarith) (by rw [e7]; linarith) (H _ near)
  refine ⟨T', by rw [e1]; exact f1, f2.trans (le_of_eq ?_)⟩
  field_simp
  ring

/-- Uniform absorption of 20 Np/km over 10 km: opaque, and still covered. -/
example : pathOpacity (total (k := 1) fun _ _ => 20) 0 10 = 200 ∧
    ∃ Tb, bright (hvkOf 183) (trueUp 0.9 183 (total (k := 1) fun _ _ => 20) (fun u => 290 - 6 * u) 10) = some Tb ∧ 0 < Tb ∧
      ∀ ε > 0, ∃ δ > 0, ∀ n s ds x out, Sampled n 10 s ds (fun _ : Fin 1 => fun _ => 20) x → FinerThan n s δ →
        planck true 0.9 183 (n + 1) (fun i => 290 - 6 * s i) (fun i => ∑ c, x c i) = some out →
        ∃ Tb', bright out.hvk out.boftotl = some Tb' ∧
          |Tb' - Tb| ≤ ε + tk2b (hvkOf 183) (290 - 6 * 0) / tk2b (hvkOf 183) 230 * exp (-125) * Tb :=
  ⟨by unfold pathOpacity total; simp; norm_num,
    C94_satellite_brightness_any (by norm_num) (by norm_num) (by norm_num)
      ⟨fun _ => continuousOn_const, fun _ _ _ => by norm_num⟩ (by fun_prop) (by norm_num) fun u hu => by linarith [hu.2]⟩

end Verif.Props
