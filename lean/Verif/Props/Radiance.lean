import Verif.Lemmas.PlanckOut

/-!
# C01–C13: radiance, brightness temperature and the radiative transfer integral

All statements are about `tk2b`, `bright` and `planck` (the API of the code) and the independent
specification in `Verif.Spec.Radiance`.
-/

namespace Verif.Props

open Verif.Py Verif.Spec Verif.Model Real

/-- `planck` on a non-empty profile returns a value (used for the examples). -/
theorem planck_exists {s : Bool} {es frq : ℝ} {nl : ℕ} {t τ : ℕ → ℝ} (h : nl ≠ 0) :
    ∃ out, planck s es frq nl t τ = some out :=
  Option.ne_none_iff_exists'.1 fun e => h (planck_eq_none_iff.1 e)

/-! ## C01 -/

/-- Radiance of a temperature, converted back, is that temperature. -/
theorem C01_bright_of_radiance {hvk T : ℝ} (hh : 0 < hvk) (hT : 0 < T) :
    bright hvk (tk2b hvk T) = some T := bright_tk2b hh hT

/-- Brightness temperature of a positive radiance exists, is positive and has that radiance. -/
theorem C01_radiance_of_bright {hvk b : ℝ} (hh : 0 < hvk) (hb : 0 < b) :
    ∃ T, bright hvk b = some T ∧ 0 < T ∧ tk2b hvk T = b := by
  obtain ⟨T, h1, rfl⟩ := exists_tk2b hh hb
  exact ⟨T, bright_tk2b hh h1, h1, rfl⟩

/-- Zero radiance is reported as 0 K. -/
theorem C01_zero_radiance (hvk : ℝ) : bright hvk 0 = some 0 := bright_zero

example : bright (hvkOf 22.235) (tk2b (hvkOf 22.235) 288.15) = some 288.15 :=
  C01_bright_of_radiance (hvkOf_pos (by norm_num)) (by norm_num)
example : ∃ T, bright (hvkOf 22.235) 3 = some T ∧ 0 < T ∧ tk2b (hvkOf 22.235) T = 3 :=
  C01_radiance_of_bright (hvkOf_pos (by norm_num)) (by norm_num)

/-! ## C02 -/

/-- Warmer bodies radiate strictly more. -/
theorem C02_radiance_strictMono {hvk T T' : ℝ} (hh : 0 < hvk) (hT : 0 < T) (h : T < T') :
    tk2b hvk T < tk2b hvk T' := tk2b_strictMono hh hT h

/-- Larger radiances have strictly larger brightness temperature (zero radiance included). -/
theorem C02_bright_strictMono {hvk b b' : ℝ} (hh : 0 < hvk) (hb : 0 ≤ b) (h : b < b') :
    ∃ T T', bright hvk b = some T ∧ bright hvk b' = some T' ∧ T < T' := by
  obtain ⟨T', h1, rfl⟩ := exists_tk2b hh (hb.trans_lt h)
  rcases hb.eq_or_lt with rfl | hb
  · exact ⟨0, T', bright_zero, bright_tk2b hh h1, h1⟩
  · obtain ⟨T, h2, rfl⟩ := exists_tk2b hh hb
    refine ⟨T, T', bright_tk2b hh h2, bright_tk2b hh h1, ?_⟩
    by_contra hle
    push Not at hle
    linarith [tk2b_mono hh h1 hle]

/-- At fixed temperature, radiance strictly decreases with frequency. -/
theorem C02_radiance_frequency {f g T : ℝ} (hf : 0 < f) (h : f < g) (hT : 0 < T) :
    tk2b (hvkOf g) T < tk2b (hvkOf f) T := by
  unfold tk2b
  rw [norm_one]
  apply one_div_lt_one_div_of_lt (exp_sub_one_pos (hvkOf_pos hf) hT)
  have : hvkOf f / T < hvkOf g / T := by gcongr; exact hvkOf_strictMono h
  linarith [exp_lt_exp.2 this]

example : tk2b (hvkOf 60) 300 < tk2b (hvkOf 22) 300 :=
  C02_radiance_frequency (by norm_num) (by norm_num) (by norm_num)
example : tk2b (hvkOf 60) 200 < tk2b (hvkOf 60) 300 :=
  C02_radiance_strictMono (hvkOf_pos (by norm_num)) (by norm_num) (by norm_num)
example : ∃ T T', bright (hvkOf 60) 0 = some T ∧ bright (hvkOf 60) 2 = some T' ∧ T < T' :=
  C02_bright_strictMono (hvkOf_pos (by norm_num)) le_rfl (by norm_num)

/-! ## C03 -/

section bounds
variable {frq es : ℝ} {nl : ℕ} {t τ : ℕ → ℝ} {out : PlanckOut} {m M : ℝ}

private theorem profile_bounds (hf : 0 < frq) (hm : 0 < m)
    (hT : ∀ i < nl, m ≤ t i ∧ t i ≤ M) (hn : 0 < nl) :
    ∀ i ≤ nl - 1, tk2b (hvkOf frq) m ≤ tk2b (hvkOf frq) (t i) ∧
      tk2b (hvkOf frq) (t i) ≤ tk2b (hvkOf frq) M := fun i hi => by
  have h := hT i (by omega)
  exact ⟨tk2b_mono (hvkOf_pos hf) hm h.1, tk2b_mono (hvkOf_pos hf) (hm.trans_le h.1) h.2⟩

/-- Looking down on a black surface through a not completely opaque atmosphere: the brightness
temperature lies within the range of the profile temperatures. -/
theorem C03_upwelling_between (hf : 0 < frq) (hm : 0 < m)
    (hT : ∀ i < nl, m ≤ t i ∧ t i ≤ M) (hτ : ∀ i, 0 < i → i < nl → 0 ≤ τ i)
    (hop : opacityBelow τ (nl - 1) < 125)
    (h : planck true 1 frq nl t τ = some out) :
    ∃ Tb, bright out.hvk out.boftotl = some Tb ∧ m ≤ Tb ∧ Tb ≤ M := by
  obtain ⟨hn, e1, -, -, -, e5, -, e7⟩ := planck_sat h
  have hM : 0 < M := hm.trans_le ((hT 0 hn).1.trans (hT 0 hn).2)
  have hτ' : ∀ i, 1 ≤ i → i ≤ nl - 1 → 0 ≤ τ i := fun i h1 h2 => hτ i h1 (by omega)
  have hB := profile_bounds hf hm hT hn
  have hb := upRadiance_bounds hτ' hB
  have hs : 0 < transDown τ (nl - 1) := transDown_pos
  have h0 := hB 0 (by omega)
  rw [e1, e7, (e5 hop).1, one_mul]
  refine bright_between (hvkOf_pos hf) hm hM ?_ ?_
  · have := mul_le_mul_of_nonneg_right h0.1 hs.le
    unfold transDown at *; linarith [hb.1]
  · have := mul_le_mul_of_nonneg_right h0.2 hs.le
    unfold transDown at *; linarith [hb.2]

/-- For every emissivity in [0,1] and every opacity, the upwelling brightness temperature exists,
is not negative and never exceeds the warmest profile temperature. -/
theorem C03_upwelling_le (hf : 0 < frq) (hes : 0 ≤ es ∧ es ≤ 1) (hT : ∀ i < nl, 0 < t i ∧ t i ≤ M)
    (hτ : ∀ i, 0 < i → i < nl → 0 ≤ τ i) (h : planck true es frq nl t τ = some out) :
    ∃ Tb, bright out.hvk out.boftotl = some Tb ∧ 0 ≤ Tb ∧ Tb ≤ M := by
  obtain ⟨hn, e1, -, -, -, e5, e6, e7⟩ := planck_sat h
  have hM : 0 < M := (hT 0 hn).1.trans_le (hT 0 hn).2
  have hτ' : ∀ i, 1 ≤ i → i ≤ nl - 1 → 0 ≤ τ i := fun i h1 h2 => hτ i h1 (by omega)
  have hB : ∀ i ≤ nl - 1, 0 ≤ tk2b (hvkOf frq) (t i) ∧
      tk2b (hvkOf frq) (t i) ≤ tk2b (hvkOf frq) M := fun i hi =>
    ⟨(tk2b_pos (hvkOf_pos hf) (hT i (by omega)).1).le,
      tk2b_mono (hvkOf_pos hf) (hT i (by omega)).1 (hT i (by omega)).2⟩
  have hb := upRadiance_bounds hτ' hB
  have hs : 0 < transDown τ (nl - 1) := transDown_pos
  have hs1 := transDown_le_one hτ'
  have h0 := hB 0 (by omega)
  have hMpos := tk2b_pos (hvkOf_pos hf) hM
  rw [e1]
  refine bright_le (hvkOf_pos hf) hM ?_ ?_
  · rcases lt_or_ge (opacityBelow τ (nl - 1)) 125 with hop | hop
    · rw [e7, (e5 hop).1]
      have := mul_nonneg (mul_nonneg hes.1 h0.1) hs.le
      unfold transDown at *; linarith [hb.1]
    · rw [e7, (e6 hop).1]; linarith [hb.1]
  · rcases lt_or_ge (opacityBelow τ (nl - 1)) 125 with hop | hop
    · rw [e7, (e5 hop).1]
      have h1 : es * tk2b (hvkOf frq) (t 0) ≤ tk2b (hvkOf frq) M :=
        (mul_le_of_le_one_left h0.1 hes.2).trans h0.2
      have := mul_le_mul_of_nonneg_right h1 hs.le
      unfold transDown at *; linarith [hb.2]
    · rw [e7, (e6 hop).1]
      have := mul_nonneg hMpos.le hs.le
      linarith [hb.2]

/-- Completely opaque black-surface case: the lower bound loses at most the factor `1 - exp(-125)`
in radiance. -/
theorem C03_upwelling_opaque_lower (hf : 0 < frq) (hm : 0 < m)
    (hT : ∀ i < nl, m ≤ t i) (hτ : ∀ i, 0 < i → i < nl → 0 ≤ τ i)
    (hop : 125 ≤ opacityBelow τ (nl - 1))
    (h : planck true es frq nl t τ = some out) :
    tk2b out.hvk m * (1 - exp (-125)) ≤ out.boftotl := by
  obtain ⟨hn, e1, -, -, -, -, e6, e7⟩ := planck_sat h
  have hτ' : ∀ i, 1 ≤ i → i ≤ nl - 1 → 0 ≤ τ i := fun i h1 h2 => hτ i h1 (by omega)
  have hmono := upRadiance_mono (m := 0) (B := fun _ => tk2b (hvkOf frq) m)
    (B' := fun i => tk2b (hvkOf frq) (t i)) (fun i h => hτ' i (by omega))
    fun i hi => tk2b_mono (hvkOf_pos hf) hm (hT i (by omega))
  rw [upRadiance_const _ (Nat.zero_le _)] at hmono
  rw [e7, (e6 hop).1, zero_add, e1]
  refine le_trans ?_ hmono
  refine mul_le_mul_of_nonneg_left ?_ (tk2b_pos (hvkOf_pos hf) hm).le
  have : transUp τ (nl - 1) 0 ≤ exp (-125) := by
    unfold transUp; rw [opacityAbove_zero, exp_le_exp]; linarith
  linarith

example : ∃ out Tb, planck true 1 22.2 3 (fun i => 300 - 10 * i) (fun _ => 0.1) = some out ∧
    bright out.hvk out.boftotl = some Tb ∧ 280 ≤ Tb ∧ Tb ≤ 300 := by
  obtain ⟨out, h⟩ := planck_exists (s := true) (es := 1) (frq := 22.2)
    (t := fun i => 300 - 10 * i) (τ := fun _ => 0.1) (show (3:ℕ) ≠ 0 by decide)
  obtain ⟨Tb, h1, h2, h3⟩ := C03_upwelling_between (m := 280) (M := 300) (by norm_num) (by norm_num)
    (fun i hi => by
      have : (i:ℝ) ≤ 2 := by exact_mod_cast Nat.lt_succ_iff.1 hi
      have : (0:ℝ) ≤ i := by positivity
      constructor <;> linarith)
    (fun _ _ _ => by norm_num) (by norm_num [opacityBelow, Finset.sum_Icc_succ_top]) h
  exact ⟨out, Tb, h, h1, h2, h3⟩

/-! ## C04 -/

/-- Looking up: brightness temperature between the coldest and warmest of cosmic background and
profile (opacity below 125 Np). -/
theorem C04_downwelling_between (hf : 0 < frq) (hm : 0 < m) (hmc : m ≤ 2.728) (hMc : 2.728 ≤ M)
    (hT : ∀ i < nl, m ≤ t i ∧ t i ≤ M) (hτ : ∀ i, 0 < i → i < nl → 0 ≤ τ i)
    (hop : opacityBelow τ (nl - 1) < 125)
    (h : planck false es frq nl t τ = some out) :
    ∃ Tb, bright out.hvk out.boftotl = some Tb ∧ m ≤ Tb ∧ Tb ≤ M := by
  obtain ⟨hn, e1, -, -, -, e5, -, e7⟩ := planck_ground h
  have hM : 0 < M := hm.trans_le (hmc.trans hMc)
  have hτ' : ∀ i, 1 ≤ i → i ≤ nl - 1 → 0 ≤ τ i := fun i h1 h2 => hτ i h1 (by omega)
  have hB := profile_bounds hf hm hT hn
  have hb := skyRadiance_bounds hτ' hB
  have hs : 0 < transDown τ (nl - 1) := transDown_pos
  have h0 : tk2b (hvkOf frq) m ≤ tk2b (hvkOf frq) cTcosmicbkg ∧
      tk2b (hvkOf frq) cTcosmicbkg ≤ tk2b (hvkOf frq) M :=
    ⟨tk2b_mono (hvkOf_pos hf) hm hmc, tk2b_mono (hvkOf_pos hf) (hm.trans_le hmc) hMc⟩
  rw [e1, e7, (e5 hop).1]
  refine bright_between (hvkOf_pos hf) hm hM ?_ ?_
  · have := mul_le_mul_of_nonneg_right h0.1 hs.le
    unfold transDown at *; linarith [hb.1]
  · have := mul_le_mul_of_nonneg_right h0.2 hs.le
    unfold transDown at *; linarith [hb.2]

/-- Looking up: the upper bound holds for every opacity. -/
theorem C04_downwelling_le (hf : 0 < frq) (hMc : 2.728 ≤ M)
    (hT : ∀ i < nl, 0 < t i ∧ t i ≤ M) (hτ : ∀ i, 0 < i → i < nl → 0 ≤ τ i)
    (h : planck false es frq nl t τ = some out) :
    ∃ Tb, bright out.hvk out.boftotl = some Tb ∧ 0 ≤ Tb ∧ Tb ≤ M := by
  obtain ⟨hn, e1, -, -, -, e5, e6, e7⟩ := planck_ground h
  have hM : 0 < M := lt_of_lt_of_le (by norm_num) hMc
  have hτ' : ∀ i, 1 ≤ i → i ≤ nl - 1 → 0 ≤ τ i := fun i h1 h2 => hτ i h1 (by omega)
  have hB : ∀ i ≤ nl - 1, 0 ≤ tk2b (hvkOf frq) (t i) ∧
      tk2b (hvkOf frq) (t i) ≤ tk2b (hvkOf frq) M := fun i hi =>
    ⟨(tk2b_pos (hvkOf_pos hf) (hT i (by omega)).1).le,
      tk2b_mono (hvkOf_pos hf) (hT i (by omega)).1 (hT i (by omega)).2⟩
  have hb := skyRadiance_bounds hτ' hB
  have hs : 0 < transDown τ (nl - 1) := transDown_pos
  have hs1 := transDown_le_one hτ'
  have hc : (0:ℝ) < cTcosmicbkg := by norm_num [cTcosmicbkg]
  have hc1 := tk2b_pos (hvkOf_pos hf) hc
  have hc2 : tk2b (hvkOf frq) cTcosmicbkg ≤ tk2b (hvkOf frq) M := tk2b_mono (hvkOf_pos hf) hc hMc
  rw [e1, e7]
  refine bright_le (hvkOf_pos hf) hM ?_ ?_
  · rcases lt_or_ge (opacityBelow τ (nl - 1)) 125 with hop | hop
    · rw [(e5 hop).1]
      have := mul_nonneg hc1.le hs.le
      unfold transDown at *; linarith [hb.1]
    · rw [(e6 hop).1]; linarith [hb.1]
  · rcases lt_or_ge (opacityBelow τ (nl - 1)) 125 with hop | hop
    · rw [(e5 hop).1]
      have := mul_le_mul_of_nonneg_right hc2 hs.le
      unfold transDown at *; linarith [hb.2]
    · rw [(e6 hop).1]
      have := mul_nonneg (hc1.le.trans hc2) hs.le
      linarith [hb.2]

example : ∃ out Tb, planck false 1 60 2 (fun i => 300 - 10 * i) (fun _ => 3) = some out ∧
    bright out.hvk out.boftotl = some Tb ∧ 2 ≤ Tb ∧ Tb ≤ 300 := by
  obtain ⟨out, h⟩ := planck_exists (s := false) (es := 1) (frq := 60)
    (t := fun i => 300 - 10 * i) (τ := fun _ => 3) (show (2:ℕ) ≠ 0 by decide)
  obtain ⟨Tb, h1, h2, h3⟩ := C04_downwelling_between (m := 2) (M := 300) (by norm_num) (by norm_num)
    (by norm_num) (by norm_num)
    (fun i hi => by
      have : (i:ℝ) ≤ 1 := by exact_mod_cast Nat.lt_succ_iff.1 hi
      have : (0:ℝ) ≤ i := by positivity
      constructor <;> linarith)
    (fun _ _ _ => by norm_num) (by norm_num [opacityBelow, Finset.sum_Icc_succ_top]) h
  exact ⟨out, Tb, h, h1, h2, h3⟩

/-! ## C05 -/

variable {T : ℝ}

/-- Isothermal scene over a black surface, seen from above: exactly its own temperature. -/
theorem C05_isothermal_up (hf : 0 < frq) (hT0 : 0 < T) (hT : ∀ i < nl, t i = T)
    (hop : opacityBelow τ (nl - 1) < 125) (h : planck true 1 frq nl t τ = some out) :
    bright out.hvk out.boftotl = some T := by
  obtain ⟨hn, e1, -, -, -, e5, -, e7⟩ := planck_sat h
  rw [upRadiance_congr (B' := fun _ => tk2b (hvkOf frq) T)
    (fun i hi => by rw [hT i (by omega)]), upRadiance_const _ (Nat.zero_le _)] at e7
  rw [e1, e7, (e5 hop).1, hT 0 hn]
  have : 1 * tk2b (hvkOf frq) T * exp (-opacityBelow τ (nl - 1)) +
      tk2b (hvkOf frq) T * (1 - transUp τ (nl - 1) 0) = tk2b (hvkOf frq) T := by
    unfold transUp; rw [opacityAbove_zero]; ring
  rw [this]
  exact bright_tk2b (hvkOf_pos hf) hT0

/-- Isothermal atmosphere seen from below: emission `B(T)(1-exp(-τ))` up to every level, and the total
adds the attenuated cosmic background. -/
theorem C05_isothermal_down (hT : ∀ i < nl, t i = T)
    (h : planck false es frq nl t τ = some out) :
    (∀ i < nl, out.boftatm i = tk2b out.hvk T * (1 - exp (-opacityBelow τ i))) ∧
    (opacityBelow τ (nl - 1) < 125 →
      out.boftotl = tk2b out.hvk T * (1 - exp (-opacityBelow τ (nl - 1))) +
        tk2b out.hvk 2.728 * exp (-opacityBelow τ (nl - 1))) := by
  obtain ⟨hn, e1, -, -, e4, e5, -, e7⟩ := planck_ground h
  have key : ∀ i < nl, skyRadiance (fun i => tk2b (hvkOf frq) (t i)) τ i =
      tk2b (hvkOf frq) T * (1 - exp (-opacityBelow τ i)) := fun i hi => by
    rw [skyRadiance_congr (B' := fun _ => tk2b (hvkOf frq) T)
      (fun j hj => by rw [hT j (by omega)]), skyRadiance_const]; rfl
  refine ⟨fun i hi => by rw [e4 i hi, key i hi, e1], fun hop => ?_⟩
  rw [e7, (e5 hop).1, key _ (by omega), e1]
  unfold cTcosmicbkg
  ring

/-- Mean radiating temperature of an isothermal atmosphere is its temperature, from both sides. -/
theorem C05_isothermal_tmr {s : Bool} (hf : 0 < frq) (hT0 : 0 < T) (hT : ∀ i < nl, t i = T)
    (hop : opacityBelow τ (nl - 1) < 125) (hop0 : opacityBelow τ (nl - 1) ≠ 0)
    (h : planck s es frq nl t τ = some out) :
    ∃ b, out.boftmr = some b ∧ bright out.hvk b = some T := by
  have hne : 1 - exp (-opacityBelow τ (nl - 1)) ≠ 0 := by
    intro h0
    have : exp (-opacityBelow τ (nl - 1)) = 1 := by linarith
    rw [exp_eq_one_iff] at this
    exact hop0 (by linarith)
  refine ⟨tk2b (hvkOf frq) T, ?_, ?_⟩
  · cases s
    · obtain ⟨hn, e1, -, -, -, e5, -, -⟩ := planck_ground h
      rw [(e5 hop).2, skyRadiance_congr (B' := fun _ => tk2b (hvkOf frq) T)
        (fun j hj => by rw [hT j (by omega)]), skyRadiance_const, npDiv_of_ne hne]
      unfold transDown
      rw [mul_div_assoc, div_self hne, mul_one]
    · obtain ⟨hn, e1, -, -, -, e5, -, -⟩ := planck_sat h
      rw [(e5 hop).2, upRadiance_congr (B' := fun _ => tk2b (hvkOf frq) T)
        (fun j hj => by rw [hT j (by omega)]), upRadiance_const _ (Nat.zero_le _), npDiv_of_ne hne]
      unfold transUp
      rw [opacityAbove_zero, mul_div_assoc, div_self hne, mul_one]
  · have e1 : out.hvk = hvkOf frq := by
      cases s
      · exact (planck_ground h).2.1
      · exact (planck_sat h).2.1
    rw [e1]
    exact bright_tk2b (hvkOf_pos hf) hT0

example : ∃ out, planck true 1 60 4 (fun _ => 250) (fun _ => 2) = some out ∧
    bright out.hvk out.boftotl = some 250 := by
  obtain ⟨out, h⟩ := planck_exists (s := true) (es := 1) (frq := 60)
    (t := fun _ => 250) (τ := fun _ => 2) (show (4:ℕ) ≠ 0 by decide)
  exact ⟨out, h, C05_isothermal_up (by norm_num) (by norm_num) (fun _ _ => rfl)
    (by norm_num [opacityBelow, Finset.sum_Icc_succ_top]) h⟩

example : ∃ out b, planck false 1 60 4 (fun _ => 250) (fun _ => 2) = some out ∧
    out.boftmr = some b ∧ bright out.hvk b = some 250 := by
  obtain ⟨out, h⟩ := planck_exists (s := false) (es := 1) (frq := 60)
    (t := fun _ => 250) (τ := fun _ => 2) (show (4:ℕ) ≠ 0 by decide)
  obtain ⟨b, h1, h2⟩ := C05_isothermal_tmr (T := 250) (by norm_num) (by norm_num) (fun _ _ => rfl)
    (by norm_num [opacityBelow, Finset.sum_Icc_succ_top])
    (by norm_num [opacityBelow, Finset.sum_Icc_succ_top]) h
  exact ⟨out, b, h, h1, h2⟩

/-! ## C06 -/

/-- Ground geometry: `tauprof[i]` is the opacity between level 0 and level `i`. -/
theorem C06_tau_ground (h : planck false es frq nl t τ = some out) :
    ∀ i < nl, out.tauprof i = ∑ j ∈ Finset.Icc 1 i, τ j := (planck_ground h).2.2.2.1

/-- Satellite geometry: `tauprof[i]` is the opacity between level `i` and the top. -/
theorem C06_tau_satellite (h : planck true es frq nl t τ = some out) :
    ∀ i < nl, out.tauprof i = ∑ j ∈ Finset.Icc (i + 1) (nl - 1), τ j := (planck_sat h).2.2.2.1

/-- Opacity is zero at the antenna, monotone away from it, and the total seen from both sides agrees. -/
theorem C06_tau_consistent {es' : ℝ} {t' : ℕ → ℝ} {up : PlanckOut}
    (hd : planck false es frq nl t τ = some out) (hu : planck true es' frq nl t' τ = some up) :
    out.tauprof 0 = 0 ∧ up.tauprof (nl - 1) = 0 ∧ out.tauprof (nl - 1) = up.tauprof 0 ∧
    ((∀ i, 0 < i → i < nl → 0 ≤ τ i) → ∀ i, i + 1 < nl →
      out.tauprof i ≤ out.tauprof (i + 1) ∧ up.tauprof (i + 1) ≤ up.tauprof i) := by
  obtain ⟨hn, -, -, e3, -⟩ := planck_ground hd
  obtain ⟨-, -, -, e3', -⟩ := planck_sat hu
  refine ⟨?_, ?_, ?_, ?_⟩
  · rw [e3 0 hn, opacityBelow_zero]
  · rw [e3' (nl - 1) (by omega), opacityAbove_self]
  · rw [e3 _ (by omega), e3' 0 hn, opacityAbove_zero]
  · intro hτ i hi
    have := hτ (i + 1) (by omega) hi
    rw [e3 i (by omega), e3 (i + 1) hi, opacityBelow_succ, e3' i (by omega), e3' (i + 1) hi,
      opacityAbove_step (i := i) (by omega)]
    constructor <;> linarith

/-- The array entry for the lowest level (`taulay[0]`) never influences any output. -/
theorem C06_first_entry_irrelevant {s : Bool} {τ' : ℕ → ℝ} {out' : PlanckOut}
    (hττ : ∀ i, 0 < i → i < nl → τ i = τ' i)
    (h : planck s es frq nl t τ = some out) (h' : planck s es frq nl t τ' = some out') :
    out.boftotl = out'.boftotl ∧ out.bakgrnd = out'.bakgrnd ∧ out.boftmr = out'.boftmr ∧
    out.hvk = out'.hvk ∧
    ∀ i < nl, out.boftatm i = out'.boftatm i ∧ out.tauprof i = out'.tauprof i ∧
      out.boft i = out'.boft i := by
  have hτ' : ∀ i, 1 ≤ i → i ≤ nl - 1 → τ i = τ' i := fun i h1 h2 => hττ i h1 (by omega)
  have ho := opacityBelow_congr hτ'
  cases s
  · obtain ⟨hn, e1, e2, e3, e4, e5, e6, e7⟩ := planck_ground h
    obtain ⟨-, f1, f2, f3, f4, f5, f6, f7⟩ := planck_ground h'
    have hs : ∀ i < nl, skyRadiance (fun i => tk2b (hvkOf frq) (t i)) τ i =
        skyRadiance (fun i => tk2b (hvkOf frq) (t i)) τ' i := fun i hi =>
      skyRadiance_congr2 (fun _ _ => rfl) fun j h1 h2 => hτ' j h1 (by omega)
    rw [← ho, ← hs (nl - 1) (by omega)] at f5 f6
    have hb : out.bakgrnd = out'.bakgrnd ∧ out.boftmr = out'.boftmr := by
      rcases lt_or_ge (opacityBelow τ (nl - 1)) 125 with hop | hop
      · rw [(e5 hop).1, (e5 hop).2, (f5 hop).1, (f5 hop).2]; exact ⟨rfl, rfl⟩
      · rw [(e6 hop).1, (e6 hop).2, (f6 hop).1, (f6 hop).2]; exact ⟨rfl, rfl⟩
    refine ⟨by rw [e7, f7, hb.1, hs (nl - 1) (by omega)], hb.1, hb.2, e1.trans f1.symm, fun i hi => ?_⟩
    rw [e4 i hi, f4 i hi, e3 i hi, f3 i hi, e2 i hi, f2 i hi, hs i hi]
    exact ⟨rfl, opacityBelow_congr fun j h1 h2 => hτ' j h1 (by omega), rfl⟩
  · obtain ⟨hn, e1, e2, e3, e4, e5, e6, e7⟩ := planck_sat h
    obtain ⟨-, f1, f2, f3, f4, f5, f6, f7⟩ := planck_sat h'
    have hs : ∀ i, upRadiance (fun i => tk2b (hvkOf frq) (t i)) τ (nl - 1) i =
        upRadiance (fun i => tk2b (hvkOf frq) (t i)) τ' (nl - 1) i := fun i =>
      upRadiance_congr2 (fun _ _ => rfl) hτ'
    rw [← ho, ← hs] at f5 f6
    have hb : out.bakgrnd = out'.bakgrnd ∧ out.boftmr = out'.boftmr := by
      rcases lt_or_ge (opacityBelow τ (nl - 1)) 125 with hop | hop
      · rw [(e5 hop).1, (e5 hop).2, (f5 hop).1, (f5 hop).2]; exact ⟨rfl, rfl⟩
      · rw [(e6 hop).1, (e6 hop).2, (f6 hop).1, (f6 hop).2]; exact ⟨rfl, rfl⟩
    refine ⟨by rw [e7, f7, hb.1, hs], hb.1, hb.2, e1.trans f1.symm, fun i hi => ?_⟩
    rw [e4 i hi, f4 i hi, e3 i hi, f3 i hi, e2 i hi, f2 i hi, hs i]
    exact ⟨rfl, opacityAbove_congr hτ', rfl⟩

example : ∃ out up, planck false 1 60 4 (fun _ => 250) (fun i => i) = some out ∧
    planck true 1 60 4 (fun _ => 250) (fun i => i) = some up ∧
    out.tauprof 3 = 6 ∧ up.tauprof 0 = 6 ∧ up.tauprof 2 = 3 := by
  obtain ⟨out, h⟩ := planck_exists (s := false) (es := 1) (frq := 60)
    (t := fun _ => 250) (τ := fun i => i) (show (4:ℕ) ≠ 0 by decide)
  obtain ⟨up, h'⟩ := planck_exists (s := true) (es := 1) (frq := 60)
    (t := fun _ => 250) (τ := fun i => i) (show (4:ℕ) ≠ 0 by decide)
  refine ⟨out, up, h, h', ?_, ?_, ?_⟩
  · rw [C06_tau_ground h 3 (by decide)]; norm_num [Finset.sum_Icc_succ_top]
  · rw [C06_tau_satellite h' 0 (by decide)]; norm_num [Finset.sum_Icc_succ_top]
  · rw [C06_tau_satellite h' 2 (by decide)]; norm_num [Finset.sum_Icc_succ_top]

/-! ## C07 -/

/-- Warming levels (opacities fixed) never lowers atmospheric radiance, total radiance or total
brightness temperature; both geometries. -/
theorem C07_warming {s : Bool} {t' : ℕ → ℝ} {out' : PlanckOut} (hf : 0 < frq) (hes : 0 ≤ es)
    (hT : ∀ i < nl, 0 < t i ∧ t i ≤ t' i) (hτ : ∀ i, 0 < i → i < nl → 0 ≤ τ i)
    (h : planck s es frq nl t τ = some out) (h' : planck s es frq nl t' τ = some out') :
    (∀ i < nl, out.boftatm i ≤ out'.boftatm i) ∧ out.boftotl ≤ out'.boftotl ∧
    ∃ Tb Tb', bright out.hvk out.boftotl = some Tb ∧ bright out'.hvk out'.boftotl = some Tb' ∧
      Tb ≤ Tb' := by
  have hτ' : ∀ i, 1 ≤ i → i ≤ nl - 1 → 0 ≤ τ i := fun i h1 h2 => hτ i h1 (by omega)
  have hB : ∀ i < nl, 0 ≤ tk2b (hvkOf frq) (t i) ∧
      tk2b (hvkOf frq) (t i) ≤ tk2b (hvkOf frq) (t' i) := fun i hi =>
    ⟨(tk2b_pos (hvkOf_pos hf) (hT i hi).1).le, tk2b_mono (hvkOf_pos hf) (hT i hi).1 (hT i hi).2⟩
  have key : (∀ i < nl, out.boftatm i ≤ out'.boftatm i) ∧ out.boftotl ≤ out'.boftotl ∧
      0 ≤ out.boftotl ∧ out.hvk = hvkOf frq ∧ out'.hvk = hvkOf frq := by
    cases s
    · obtain ⟨hn, e1, -, -, e4, e5, e6, e7⟩ := planck_ground h
      obtain ⟨-, f1, -, -, f4, f5, f6, f7⟩ := planck_ground h'
      have hb : out.bakgrnd = out'.bakgrnd ∧ 0 ≤ out.bakgrnd := by
        rcases lt_or_ge (opacityBelow τ (nl - 1)) 125 with hop | hop
        · rw [(e5 hop).1, (f5 hop).1]
          exact ⟨rfl, mul_nonneg (tk2b_pos (hvkOf_pos hf) (by norm_num [cTcosmicbkg])).le (exp_pos _).le⟩
        · rw [(e6 hop).1, (f6 hop).1]; exact ⟨rfl, le_rfl⟩
      have hm : ∀ i < nl, skyRadiance (fun i => tk2b (hvkOf frq) (t i)) τ i ≤
          skyRadiance (fun i => tk2b (hvkOf frq) (t' i)) τ i := fun i hi =>
        skyRadiance_mono (fun j h1 h2 => hτ' j h1 (by omega)) fun j hj => (hB j (by omega)).2
      have h0 : 0 ≤ skyRadiance (fun i => tk2b (hvkOf frq) (t i)) τ (nl - 1) := by
        have := skyRadiance_mono (B := fun _ => 0) hτ' fun j hj => (hB j (by omega)).1
        rwa [skyRadiance_const, zero_mul] at this
      refine ⟨fun i hi => by rw [e4 i hi, f4 i hi]; exact hm i hi, ?_, ?_, e1, f1⟩
      · rw [e7, f7, hb.1]; linarith [hm (nl - 1) (by omega)]
      · rw [e7]; linarith [hb.2]
    · obtain ⟨hn, e1, -, -, e4, e5, e6, e7⟩ := planck_sat h
      obtain ⟨-, f1, -, -, f4, f5, f6, f7⟩ := planck_sat h'
      have hb : out.bakgrnd ≤ out'.bakgrnd ∧ 0 ≤ out.bakgrnd := by
        rcases lt_or_ge (opacityBelow τ (nl - 1)) 125 with hop | hop
        · rw [(e5 hop).1, (f5 hop).1]
          have h1 := hB 0 hn
          refine ⟨?_, mul_nonneg (mul_nonneg hes h1.1) (exp_pos _).le⟩
          exact mul_le_mul_of_nonneg_right (mul_le_mul_of_nonneg_left h1.2 hes) (exp_pos _).le
        · rw [(e6 hop).1, (f6 hop).1]; exact ⟨le_rfl, le_rfl⟩
      have hm : ∀ i < nl, upRadiance (fun i => tk2b (hvkOf frq) (t i)) τ (nl - 1) i ≤
          upRadiance (fun i => tk2b (hvkOf frq) (t' i)) τ (nl - 1) i := fun i hi =>
        upRadiance_mono (fun j h1 h2 => hτ' j (by omega) (by omega)) fun j hj => (hB j (by omega)).2
      have h0 : 0 ≤ upRadiance (fun i => tk2b (hvkOf frq) (t i)) τ (nl - 1) 0 := by
        have := upRadiance_mono (m := 0) (B := fun _ => 0) (fun j h1 h2 => hτ' j (by omega) h2)
          fun j hj => (hB j (by omega)).1
        rwa [upRadiance_const _ (Nat.zero_le _), zero_mul] at this
      refine ⟨fun i hi => by rw [e4 i hi, f4 i hi]; exact hm i hi, ?_, ?_, e1, f1⟩
      · rw [e7, f7]; linarith [hm 0 hn, hb.1]
      · rw [e7]; linarith [hb.2]
  refine ⟨key.1, key.2.1, ?_⟩
  rw [key.2.2.2.1, key.2.2.2.2]
  exact bright_mono (hvkOf_pos hf) key.2.2.1 key.2.1

example : ∃ out out' Tb Tb', planck true 0.5 60 2 (fun _ => 250) (fun _ => 2) = some out ∧
    planck true 0.5 60 2 (fun i => 250 + i) (fun _ => 2) = some out' ∧
    bright out.hvk out.boftotl = some Tb ∧ bright out'.hvk out'.boftotl = some Tb' ∧ Tb ≤ Tb' := by
  obtain ⟨out, h⟩ := planck_exists (s := true) (es := 0.5) (frq := 60)
    (t := fun _ => 250) (τ := fun _ => 2) (show (2:ℕ) ≠ 0 by decide)
  obtain ⟨out', h'⟩ := planck_exists (s := true) (es := 0.5) (frq := 60)
    (t := fun i => 250 + i) (τ := fun _ => 2) (show (2:ℕ) ≠ 0 by decide)
  obtain ⟨-, -, Tb, Tb', a, b, c⟩ := C07_warming (by norm_num) (by norm_num)
    (fun i _ => ⟨by norm_num, by simp⟩) (fun _ _ _ => by norm_num) h h'
  exact ⟨out, out', Tb, Tb', h, h', a, b, c⟩

/-! ## C08 -/

/-- The upward emission of a profile is the downward emission of the profile turned upside down
(level by level, opacity profiles likewise). -/
theorem C08_reciprocity {es' : ℝ} {t' τ' : ℕ → ℝ} {up down : PlanckOut}
    (ht : ∀ i < nl, t' i = t (nl - 1 - i)) (hτ : ∀ i, 0 < i → i < nl → τ' i = τ (nl - i))
    (hu : planck true es frq nl t τ = some up) (hd : planck false es' frq nl t' τ' = some down) :
    ∀ i < nl, up.boftatm i = down.boftatm (nl - 1 - i) ∧
      up.tauprof i = down.tauprof (nl - 1 - i) := by
  obtain ⟨hn, -, -, e3, e4, -⟩ := planck_sat hu
  obtain ⟨-, -, -, f3, f4, -⟩ := planck_ground hd
  intro i hi
  have hτ' : ∀ i, 1 ≤ i → i ≤ nl - 1 → τ' i = τ (nl - 1 + 1 - i) := fun i h1 h2 => by
    rw [hτ i h1 (by omega)]; congr 1; omega
  rw [e4 i hi, e3 i hi, f4 _ (by omega), f3 _ (by omega)]
  refine ⟨upRadiance_reverse hτ' (fun j hj => ?_) (by omega), opacityAbove_reverse hτ' (by omega)⟩
  rw [ht j (by omega)]

example : ∃ up down, planck true 1 60 3 (fun i => 300 - i) (fun i => i) = some up ∧
    planck false 1 60 3 (fun i => 300 - (3 - 1 - i : ℕ)) (fun i => ((3 - i : ℕ) : ℝ)) = some down ∧
    up.boftatm 0 = down.boftatm 2 := by
  obtain ⟨out, h⟩ := planck_exists (s := true) (es := 1) (frq := 60)
    (t := fun i => 300 - i) (τ := fun i => i) (show (3:ℕ) ≠ 0 by decide)
  obtain ⟨out', h'⟩ := planck_exists (s := false) (es := 1) (frq := 60)
    (t := fun i => 300 - (3 - 1 - i : ℕ)) (τ := fun i => ((3 - i : ℕ) : ℝ)) (show (3:ℕ) ≠ 0 by decide)
  exact ⟨out, out', h, h', (C08_reciprocity (fun _ _ => rfl) (fun _ _ _ => rfl) h h' 0 (by decide)).1⟩

/-! ## C09 -/

/-- Cutting a profile at level `c`: emission of the whole = emission of the lower part + transmittance
of the lower part × emission of the upper part; opacities add. -/
theorem C09_stacking {c : ℕ} {whole lower upper : PlanckOut} (hc : c < nl)
    (hw : planck false es frq nl t τ = some whole)
    (hl : planck false es frq (c + 1) t τ = some lower)
    (hu : planck false es frq (nl - c) (fun i => t (i + c)) (fun i => τ (i + c)) = some upper) :
    whole.boftatm (nl - 1) = lower.boftatm c + exp (-lower.tauprof c) * upper.boftatm (nl - 1 - c) ∧
    whole.tauprof (nl - 1) = lower.tauprof c + upper.tauprof (nl - 1 - c) := by
  obtain ⟨hn, -, -, e3, e4, -⟩ := planck_ground hw
  obtain ⟨-, -, -, f3, f4, -⟩ := planck_ground hl
  obtain ⟨-, -, -, g3, g4, -⟩ := planck_ground hu
  rw [e4 _ (by omega), e3 _ (by omega), f4 c (by omega), f3 c (by omega), g4 _ (by omega),
    g3 _ (by omega)]
  have hs : nl - 1 = c + (nl - 1 - c) := by omega
  constructor
  · conv_lhs => rw [hs, skyRadiance_stack]
    rfl
  · conv_lhs => rw [hs, opacityBelow_stack]

/-- Doubling level `k` with a transparent layer in between changes no radiance and no total opacity,
in both geometries. -/
theorem C09_transparent_layer {s : Bool} {k : ℕ} {t' τ' : ℕ → ℝ} {out' : PlanckOut} (hk : k < nl)
    (ht : ∀ i, t' i = if i ≤ k then t i else t (i - 1))
    (hτ : ∀ i, τ' i = if i ≤ k then τ i else if i = k + 1 then 0 else τ (i - 1))
    (h : planck s es frq nl t τ = some out) (h' : planck s es frq (nl + 1) t' τ' = some out') :
    out'.boftotl = out.boftotl ∧ out'.bakgrnd = out.bakgrnd ∧ out'.boftmr = out.boftmr := by
  have hB : ∀ i, tk2b (hvkOf frq) (t' i) = if i ≤ k then tk2b (hvkOf frq) (t i)
      else tk2b (hvkOf frq) (t (i - 1)) := fun i => by rw [ht]; split <;> rfl
  have hn1 : nl - 1 + 1 = nl := by omega
  have ho := (insertLayer_sky (B := fun i => tk2b (hvkOf frq) (t i))
    (B' := fun i => tk2b (hvkOf frq) (t' i)) hB hτ (n := nl - 1) (by omega))
  have hup := (insertLayer_up (B := fun i => tk2b (hvkOf frq) (t i))
    (B' := fun i => tk2b (hvkOf frq) (t' i)) hB hτ (n := nl - 1) (by omega))
  rw [hn1] at ho hup
  cases s
  · obtain ⟨hn, e1, -, -, e4, e5, e6, e7⟩ := planck_ground h
    obtain ⟨-, f1, -, -, f4, f5, f6, f7⟩ := planck_ground h'
    simp only [Nat.add_sub_cancel] at f5 f6 f7
    rw [ho.1, ho.2] at f5 f6
    rw [ho.2] at f7
    have hb : out'.bakgrnd = out.bakgrnd ∧ out'.boftmr = out.boftmr := by
      rcases lt_or_ge (opacityBelow τ (nl - 1)) 125 with hop | hop
      · rw [(e5 hop).1, (f5 hop).1, (e5 hop).2, (f5 hop).2]; exact ⟨rfl, rfl⟩
      · rw [(e6 hop).1, (f6 hop).1, (e6 hop).2, (f6 hop).2]; exact ⟨rfl, rfl⟩
    exact ⟨by rw [e7, f7, hb.1], hb⟩
  · obtain ⟨hn, e1, -, -, e4, e5, e6, e7⟩ := planck_sat h
    obtain ⟨-, f1, -, -, f4, f5, f6, f7⟩ := planck_sat h'
    simp only [Nat.add_sub_cancel] at f5 f6 f7
    rw [ho.1, hup] at f5 f6
    rw [hup] at f7
    have ht0 : t' 0 = t 0 := by rw [ht]; simp
    have hb : out'.bakgrnd = out.bakgrnd ∧ out'.boftmr = out.boftmr := by
      rcases lt_or_ge (opacityBelow τ (nl - 1)) 125 with hop | hop
      · rw [(e5 hop).1, (f5 hop).1, (e5 hop).2, (f5 hop).2, ht0]; exact ⟨rfl, rfl⟩
      · rw [(e6 hop).1, (f6 hop).1, (e6 hop).2, (f6 hop).2]; exact ⟨rfl, rfl⟩
    exact ⟨by rw [e7, f7, hb.1], hb⟩

/-- A transparent layer between the observer and the atmosphere (new level at the observer side, with
any temperature) changes nothing, looking up. -/
theorem C09_transparent_gap {t' τ' : ℕ → ℝ} {out' : PlanckOut}
    (ht : ∀ i < nl, t' (i + 1) = t i) (hτ1 : τ' 1 = 0)
    (hτ : ∀ i, 0 < i → i < nl → τ' (i + 1) = τ i)
    (h : planck false es frq nl t τ = some out)
    (h' : planck false es frq (nl + 1) t' τ' = some out') :
    out'.boftotl = out.boftotl ∧ ∀ i < nl, out'.boftatm (i + 1) = out.boftatm i ∧
      out'.tauprof (i + 1) = out.tauprof i := by
  obtain ⟨hn, e1, -, e3, e4, e5, e6, e7⟩ := planck_ground h
  obtain ⟨-, f1, -, f3, f4, f5, f6, f7⟩ := planck_ground h'
  have ho : ∀ i < nl, opacityBelow τ' (i + 1) = opacityBelow τ i := fun i hi => by
    rw [add_comm, opacityBelow_stack, opacityBelow_succ, opacityBelow_zero, zero_add, hτ1, zero_add]
    exact opacityBelow_congr fun j h1 h2 => hτ j h1 (by omega)
  have hr : ∀ i < nl, skyRadiance (fun i => tk2b (hvkOf frq) (t' i)) τ' (i + 1) =
      skyRadiance (fun i => tk2b (hvkOf frq) (t i)) τ i := fun i hi => by
    rw [add_comm, skyRadiance_stack, skyRadiance_succ, skyRadiance_zero]
    have h0 : transDown τ' 1 = 1 := by
      rw [transDown_succ, transDown_zero, zero_add, hτ1]; simp
    simp only [zero_add, h0, transDown_zero, sub_self, mul_zero, one_mul]
    refine skyRadiance_congr2 (fun j hj => ?_) fun j h1 h2 => hτ j h1 (by omega)
    rw [ht j (by omega)]
  simp only [Nat.add_sub_cancel] at f5 f6 f7
  have hn1 : nl - 1 + 1 = nl := by omega
  have ho' := ho (nl - 1) (by omega)
  have hr' := hr (nl - 1) (by omega)
  rw [hn1] at ho' hr'
  rw [ho'] at f5 f6
  rw [hr'] at f7
  have hb : out'.bakgrnd = out.bakgrnd := by
    rcases lt_or_ge (opacityBelow τ (nl - 1)) 125 with hop | hop
    · rw [(e5 hop).1, (f5 hop).1]
    · rw [(e6 hop).1, (f6 hop).1]
  refine ⟨by rw [e7, f7, hb], fun i hi => ?_⟩
  rw [f4 _ (by omega), f3 _ (by omega), e4 i hi, e3 i hi]
  exact ⟨hr i hi, ho i hi⟩

example : ∃ w l u, planck false 1 60 5 (fun i => 300 - i) (fun i => i) = some w ∧
    planck false 1 60 3 (fun i => 300 - i) (fun i => i) = some l ∧
    planck false 1 60 3 (fun i => 300 - ((i + 2 : ℕ) : ℝ)) (fun i => ((i + 2 : ℕ) : ℝ)) = some u ∧
    w.boftatm 4 = l.boftatm 2 + exp (-l.tauprof 2) * u.boftatm 2 := by
  obtain ⟨w, h⟩ := planck_exists (s := false) (es := 1) (frq := 60)
    (t := fun i => 300 - i) (τ := fun i => i) (show (5:ℕ) ≠ 0 by decide)
  obtain ⟨l, h'⟩ := planck_exists (s := false) (es := 1) (frq := 60)
    (t := fun i => 300 - i) (τ := fun i => i) (show (2 + 1:ℕ) ≠ 0 by decide)
  obtain ⟨u, h''⟩ := planck_exists (s := false) (es := 1) (frq := 60)
    (t := fun i => 300 - ((i + 2 : ℕ) : ℝ)) (τ := fun i => ((i + 2 : ℕ) : ℝ)) (show (5 - 2:ℕ) ≠ 0 by decide)
  exact ⟨w, l, u, h, h', h'', (C09_stacking (by decide) h h' h'').1⟩

example : ∃ out out', planck true 1 60 2 (fun i => 300 - i) (fun _ => 1) = some out ∧
    planck true 1 60 3 (fun i => if i ≤ 1 then 300 - i else 300 - ((i - 1 : ℕ) : ℝ))
      (fun i => if i ≤ 1 then 1 else if i = 1 + 1 then 0 else 1) = some out' ∧
    out'.boftotl = out.boftotl := by
  obtain ⟨out, h⟩ := planck_exists (s := true) (es := 1) (frq := 60)
    (t := fun i => 300 - i) (τ := fun _ => 1) (show (2:ℕ) ≠ 0 by decide)
  obtain ⟨out', h'⟩ := planck_exists (s := true) (es := 1) (frq := 60)
    (t := fun i => if i ≤ 1 then 300 - i else 300 - ((i - 1 : ℕ) : ℝ))
    (τ := fun i => if i ≤ 1 then 1 else if i = 1 + 1 then 0 else 1) (show (2 + 1:ℕ) ≠ 0 by decide)
  exact ⟨out, out', h, h', (C09_transparent_layer (by decide) (fun _ => rfl) (fun _ => rfl) h h').1⟩

/-! ## C10 -/

/-- Ground geometry: the background is dropped exactly at total opacity ≥ 125 Np, otherwise it is the
attenuated cosmic background; total = background + atmosphere. -/
theorem C10_switch_ground (hf : 0 < frq) (h : planck false es frq nl t τ = some out) :
    (out.bakgrnd = 0 ↔ 125 ≤ opacityBelow τ (nl - 1)) ∧
    (opacityBelow τ (nl - 1) < 125 →
      out.bakgrnd = tk2b out.hvk 2.728 * exp (-opacityBelow τ (nl - 1))) ∧
    out.boftotl = out.bakgrnd + out.boftatm (nl - 1) := by
  obtain ⟨hn, e1, -, -, e4, e5, e6, e7⟩ := planck_ground h
  refine ⟨⟨fun h0 => ?_, fun hop => (e6 hop).1⟩, fun hop => ?_, ?_⟩
  · by_contra hop
    push Not at hop
    rw [(e5 hop).1] at h0
    have h1 := tk2b_pos (T := cTcosmicbkg) (hvkOf_pos hf) (by norm_num [cTcosmicbkg])
    have h2 := exp_pos (-opacityBelow τ (nl - 1))
    exact absurd h0 (mul_pos h1 h2).ne'
  · rw [(e5 hop).1, e1]; rfl
  · rw [e7, e4 _ (by omega)]

/-- Satellite geometry: the same switch for the surface term (for non-zero emissivity). -/
theorem C10_switch_satellite (hf : 0 < frq) (hes : es ≠ 0) (hT : 0 < t 0)
    (h : planck true es frq nl t τ = some out) :
    (out.bakgrnd = 0 ↔ 125 ≤ opacityBelow τ (nl - 1)) ∧
    out.boftotl = out.bakgrnd + out.boftatm 0 := by
  obtain ⟨hn, e1, -, -, e4, e5, e6, e7⟩ := planck_sat h
  refine ⟨⟨fun h0 => ?_, fun hop => (e6 hop).1⟩, ?_⟩
  · by_contra hop
    push Not at hop
    rw [(e5 hop).1] at h0
    have h1 := tk2b_pos (hvkOf_pos hf) hT
    have h2 := exp_pos (-opacityBelow τ (nl - 1))
    rcases mul_eq_zero.1 h0 with h0 | h0
    · rcases mul_eq_zero.1 h0 with h0 | h0
      · exact hes h0
      · exact h1.ne' h0
    · exact h2.ne' h0
  · rw [e7, e4 0 hn]

/-- The discontinuity at the switch is at most `background * exp(-125)`: for every profile the returned
total differs from the unswitched formula by at most that. -/
theorem C10_jump_ground (hf : 0 < frq) (h : planck false es frq nl t τ = some out) :
    |out.boftotl - (out.boftatm (nl - 1) + tk2b out.hvk 2.728 * exp (-out.tauprof (nl - 1)))| ≤
      tk2b out.hvk 2.728 * exp (-125) := by
  obtain ⟨hn, e1, -, e3, e4, e5, e6, e7⟩ := planck_ground h
  have hc := tk2b_pos (T := 2.728) (hvkOf_pos hf) (by norm_num)
  rw [e7, e4 _ (by omega), e3 _ (by omega), e1]
  rcases lt_or_ge (opacityBelow τ (nl - 1)) 125 with hop | hop
  · rw [(e5 hop).1]
    unfold cTcosmicbkg
    have := mul_pos hc (exp_pos (-125))
    rw [show ∀ a b : ℝ, a + b - (b + a) = 0 by intros; ring, abs_zero]
    exact this.le
  · rw [(e6 hop).1, show ∀ a b : ℝ, 0 + a - (a + b) = -b by intros; ring, abs_neg,
      abs_of_pos (mul_pos hc (exp_pos _))]
    exact mul_le_mul_of_nonneg_left (exp_le_exp.2 (by linarith)) hc.le

/-- The same for the surface term in satellite geometry. -/
theorem C10_jump_satellite (h : planck true es frq nl t τ = some out) :
    |out.boftotl - (out.boftatm 0 + es * tk2b out.hvk (t 0) * exp (-out.tauprof 0))| ≤
      |es * tk2b out.hvk (t 0)| * exp (-125) := by
  obtain ⟨hn, e1, -, e3, e4, e5, e6, e7⟩ := planck_sat h
  rw [e7, e4 0 hn, e3 0 hn, e1, opacityAbove_zero]
  rcases lt_or_ge (opacityBelow τ (nl - 1)) 125 with hop | hop
  · rw [(e5 hop).1, show ∀ a b : ℝ, a + b - (b + a) = 0 by intros; ring, abs_zero]
    positivity
  · rw [(e6 hop).1, show ∀ a b : ℝ, 0 + a - (a + b) = -b by intros; ring, abs_neg, abs_mul,
      abs_of_pos (exp_pos _)]
    exact mul_le_mul_of_nonneg_left (exp_le_exp.2 (by linarith)) (abs_nonneg _)

example : ∃ out, planck false 1 60 2 (fun _ => 300) (fun _ => 125) = some out ∧ out.bakgrnd = 0 := by
  obtain ⟨out, h⟩ := planck_exists (s := false) (es := 1) (frq := 60)
    (t := fun _ => 300) (τ := fun _ => 125) (show (2:ℕ) ≠ 0 by decide)
  exact ⟨out, h, (C10_switch_ground (by norm_num) h).1.2 (by norm_num [opacityBelow])⟩
example : ∃ out, planck false 1 60 2 (fun _ => 300) (fun _ => 124) = some out ∧ out.bakgrnd ≠ 0 := by
  obtain ⟨out, h⟩ := planck_exists (s := false) (es := 1) (frq := 60)
    (t := fun _ => 300) (τ := fun _ => 124) (show (2:ℕ) ≠ 0 by decide)
  refine ⟨out, h, fun h0 => ?_⟩
  have := (C10_switch_ground (by norm_num) h).1.1 h0
  norm_num [opacityBelow] at this
example : ∃ out, planck true 1 60 2 (fun _ => 300) (fun _ => 124) = some out ∧ out.bakgrnd ≠ 0 := by
  obtain ⟨out, h⟩ := planck_exists (s := true) (es := 1) (frq := 60)
    (t := fun _ => 300) (τ := fun _ => 124) (show (2:ℕ) ≠ 0 by decide)
  refine ⟨out, h, fun h0 => ?_⟩
  have := (C10_switch_satellite (by norm_num) (by norm_num) (by norm_num) h).1.1 h0
  norm_num [opacityBelow] at this

/-! ## C11 -/

/-- For total opacity in (0,125) the mean radiating temperature lies between the coldest and warmest
level; both geometries. -/
theorem C11_tmr_between {s : Bool} (hf : 0 < frq) (hm : 0 < m)
    (hT : ∀ i < nl, m ≤ t i ∧ t i ≤ M) (hτ : ∀ i, 0 < i → i < nl → 0 ≤ τ i)
    (hop0 : 0 < opacityBelow τ (nl - 1)) (hop : opacityBelow τ (nl - 1) < 125)
    (h : planck s es frq nl t τ = some out) :
    ∃ b Tmr, out.boftmr = some b ∧ bright out.hvk b = some Tmr ∧ m ≤ Tmr ∧ Tmr ≤ M := by
  have hτ' : ∀ i, 1 ≤ i → i ≤ nl - 1 → 0 ≤ τ i := fun i h1 h2 => hτ i h1 (by omega)
  have hpos : 0 < 1 - exp (-opacityBelow τ (nl - 1)) := by
    have : exp (-opacityBelow τ (nl - 1)) < 1 := by rw [exp_lt_one_iff]; linarith
    linarith
  have fin : ∀ R : ℝ, 0 < nl → tk2b (hvkOf frq) m * (1 - exp (-opacityBelow τ (nl - 1))) ≤ R →
      R ≤ tk2b (hvkOf frq) M * (1 - exp (-opacityBelow τ (nl - 1))) →
      ∃ Tmr, bright (hvkOf frq) (R / (1 - exp (-opacityBelow τ (nl - 1)))) = some Tmr ∧
        m ≤ Tmr ∧ Tmr ≤ M := fun R hn h1 h2 =>
    bright_between (hvkOf_pos hf) hm (hm.trans_le ((hT 0 hn).1.trans (hT 0 hn).2))
      ((le_div_iff₀ hpos).2 h1) ((div_le_iff₀ hpos).2 h2)
  cases s
  · obtain ⟨hn, e1, -, -, -, e5, -, -⟩ := planck_ground h
    have hb := skyRadiance_bounds hτ' (profile_bounds hf hm hT hn)
    obtain ⟨Tmr, h1, h2⟩ := fin _ hn hb.1 hb.2
    exact ⟨_, Tmr, by rw [(e5 hop).2, npDiv_of_ne hpos.ne'], by rw [e1]; exact h1, h2⟩
  · obtain ⟨hn, e1, -, -, -, e5, -, -⟩ := planck_sat h
    have hb := upRadiance_bounds hτ' (profile_bounds hf hm hT hn)
    obtain ⟨Tmr, h1, h2⟩ := fin _ hn hb.1 hb.2
    exact ⟨_, Tmr, by rw [(e5 hop).2, npDiv_of_ne hpos.ne'], by rw [e1]; exact h1, h2⟩

/-- From 125 Np on the mean radiance is the total radiance itself: the mean radiating temperature is the brightness temperature,
at most that of the warmest level; against the coldest level at most the factor `1 - exp(-125)` is lost in radiance. -/
theorem C11_tmr_opaque {s : Bool} (hf : 0 < frq) (hm : 0 < m)
    (hT : ∀ i < nl, m ≤ t i ∧ t i ≤ M) (hτ : ∀ i, 0 < i → i < nl → 0 ≤ τ i)
    (hop : 125 ≤ opacityBelow τ (nl - 1)) (h : planck s es frq nl t τ = some out) :
    ∃ b Tmr, out.boftmr = some b ∧ b = out.boftotl ∧ bright out.hvk b = some Tmr ∧ Tmr ≤ M ∧
      tk2b out.hvk m * (1 - exp (-125)) ≤ b := by
  have hτ' : ∀ i, 1 ≤ i → i ≤ nl - 1 → 0 ≤ τ i := fun i h1 h2 => hτ i h1 (by omega)
  have hx : exp (-opacityBelow τ (nl - 1)) ≤ exp (-125) := exp_le_exp.2 (by linarith)
  have h1 : exp (-125 : ℝ) < 1 := by rw [exp_lt_one_iff]; norm_num
  have hm0 := tk2b_pos (hvkOf_pos hf) hm
  have fin : ∀ R : ℝ, 0 < nl → tk2b (hvkOf frq) m * (1 - exp (-opacityBelow τ (nl - 1))) ≤ R →
      R ≤ tk2b (hvkOf frq) M * (1 - exp (-opacityBelow τ (nl - 1))) →
      tk2b (hvkOf frq) m * (1 - exp (-125)) ≤ R ∧ ∃ Tmr, bright (hvkOf frq) R = some Tmr ∧ 0 ≤ Tmr ∧ Tmr ≤ M :=
    fun R hn h2 h3 => by
      have hM : 0 < M := hm.trans_le ((hT 0 hn).1.trans (hT 0 hn).2)
      have hM0 := tk2b_pos (hvkOf_pos hf) hM
      have h4 : tk2b (hvkOf frq) m * (1 - exp (-125)) ≤ R :=
        (mul_le_mul_of_nonneg_left (by linarith) hm0.le).trans h2
      refine ⟨h4, bright_le (hvkOf_pos hf) hM ((mul_nonneg hm0.le (by linarith)).trans h4) (h3.trans ?_)⟩
      exact mul_le_of_le_one_right hM0.le (by linarith [exp_pos (-opacityBelow τ (nl - 1))])
  cases s
  · obtain ⟨hn, e1, -, -, -, -, e6, e7⟩ := planck_ground h
    have hb := skyRadiance_bounds hτ' (profile_bounds hf hm hT hn)
    obtain ⟨h2, Tmr, h3, -, h4⟩ := fin _ hn hb.1 hb.2
    exact ⟨_, Tmr, (e6 hop).2, by rw [e7, (e6 hop).1, zero_add], by rw [e1]; exact h3, h4, by rw [e1]; exact h2⟩
  · obtain ⟨hn, e1, -, -, -, -, e6, e7⟩ := planck_sat h
    have hb := upRadiance_bounds hτ' (profile_bounds hf hm hT hn)
    obtain ⟨h2, Tmr, h3, -, h4⟩ := fin _ hn hb.1 hb.2
    exact ⟨_, Tmr, (e6 hop).2, by rw [e7, (e6 hop).1, zero_add], by rw [e1]; exact h3, h4, by rw [e1]; exact h2⟩

/-- A satellite over 200 Np. -/
example : ∃ out b, planck true 1 60 2 (fun i => 300 - 10 * i) (fun _ => 200) = some out ∧ out.boftmr = some b ∧
    b = out.boftotl := by
  obtain ⟨out, h⟩ := planck_exists (s := true) (es := 1) (frq := 60)
    (t := fun i => 300 - 10 * i) (τ := fun _ => 200) (show (2:ℕ) ≠ 0 by decide)
  obtain ⟨b, -, h1, h2, -⟩ := C11_tmr_opaque (m := 290) (M := 300) (by norm_num) (by norm_num)
    (fun i hi => by
      have : (i:ℝ) ≤ 1 := by exact_mod_cast Nat.lt_succ_iff.1 hi
      have : (0:ℝ) ≤ i := by positivity
      constructor <;> linarith)
    (fun _ _ _ => by norm_num) (by norm_num [opacityBelow]) h
  exact ⟨out, b, h, h1, h2⟩

/-- The mean radiance is undefined (numpy 0/0) exactly for a perfectly transparent atmosphere; then the
atmospheric radiance is exactly 0 and the total is the unattenuated background. -/
theorem C11_tmr_undefined {s : Bool} (hτ : ∀ i, 0 < i → i < nl → 0 ≤ τ i)
    (h : planck s es frq nl t τ = some out) :
    (out.boftmr = none ↔ opacityBelow τ (nl - 1) = 0) ∧
    (opacityBelow τ (nl - 1) = 0 →
      out.boftotl = (if s then es * tk2b out.hvk (t 0) else tk2b out.hvk 2.728) ∧
      out.boftatm (if s then 0 else nl - 1) = 0) := by
  have hne : (1 - exp (-opacityBelow τ (nl - 1)) = 0) ↔ opacityBelow τ (nl - 1) = 0 := by
    constructor
    · intro h0
      have : exp (-opacityBelow τ (nl - 1)) = 1 := by linarith
      rw [exp_eq_one_iff] at this; linarith
    · intro h0; rw [h0]; simp
  have hτ' : ∀ i, 1 ≤ i → i ≤ nl - 1 → 0 ≤ τ i := fun i h1 h2 => hτ i h1 (by omega)
  have hz : opacityBelow τ (nl - 1) = 0 → ∀ i, 1 ≤ i → i ≤ nl - 1 → τ i = 0 := fun h0 i h1 h2 => by
    have := (Finset.sum_eq_zero_iff_of_nonneg (s := Finset.Icc 1 (nl - 1)) (f := τ)
      (fun j hj => by simp at hj; exact hτ' j hj.1 hj.2)).1 h0 i (by simp; omega)
    exact this
  cases s
  · obtain ⟨hn, e1, -, -, e4, e5, e6, e7⟩ := planck_ground h
    refine ⟨?_, fun h0 => ?_⟩
    · rcases lt_or_ge (opacityBelow τ (nl - 1)) 125 with hop | hop
      · rw [(e5 hop).2, npDiv_eq_none, hne]
      · rw [(e6 hop).2]; simp; linarith
    · have hs : skyRadiance (fun i => tk2b (hvkOf frq) (t i)) τ (nl - 1) = 0 := by
        rw [skyRadiance_congr2 (τ' := fun _ => 0) (fun _ _ => rfl) (hz h0)]
        unfold skyRadiance transDown
        refine Finset.sum_eq_zero fun i _ => ?_
        have : ∀ k, opacityBelow (fun _ => (0:ℝ)) k = 0 := fun k => by simp [opacityBelow]
        simp [this]
      simp only [Bool.false_eq_true, if_false]
      rw [e7, hs, (e5 (by linarith)).1, h0, e4 _ (by omega), hs, e1]
      unfold cTcosmicbkg
      simp
  · obtain ⟨hn, e1, -, -, e4, e5, e6, e7⟩ := planck_sat h
    refine ⟨?_, fun h0 => ?_⟩
    · rcases lt_or_ge (opacityBelow τ (nl - 1)) 125 with hop | hop
      · rw [(e5 hop).2, npDiv_eq_none, hne]
      · rw [(e6 hop).2]; simp; linarith
    · have hs : upRadiance (fun i => tk2b (hvkOf frq) (t i)) τ (nl - 1) 0 = 0 := by
        rw [upRadiance_congr2 (τ' := fun _ => 0) (fun _ _ => rfl) (hz h0)]
        unfold upRadiance transUp
        refine Finset.sum_eq_zero fun i _ => ?_
        have : ∀ k, opacityAbove (fun _ => (0:ℝ)) (nl - 1) k = 0 := fun k => by simp [opacityAbove]
        simp [this]
      simp only [if_true]
      rw [e7, hs, (e5 (by linarith)).1, h0, e4 0 hn, hs, e1]
      simp

example : ∃ out b Tmr, planck false 1 60 2 (fun i => 300 - 10 * i) (fun _ => 1) = some out ∧
    out.boftmr = some b ∧ bright out.hvk b = some Tmr ∧ 290 ≤ Tmr ∧ Tmr ≤ 300 := by
  obtain ⟨out, h⟩ := planck_exists (s := false) (es := 1) (frq := 60)
    (t := fun i => 300 - 10 * i) (τ := fun _ => 1) (show (2:ℕ) ≠ 0 by decide)
  obtain ⟨b, T, h1⟩ := C11_tmr_between (m := 290) (M := 300) (by norm_num) (by norm_num)
    (fun i hi => by
      have : (i:ℝ) ≤ 1 := by exact_mod_cast Nat.lt_succ_iff.1 hi
      have : (0:ℝ) ≤ i := by positivity
      constructor <;> linarith)
    (fun _ _ _ => by norm_num) (by norm_num [opacityBelow]) (by norm_num [opacityBelow]) h
  exact ⟨out, b, T, h, h1⟩
example : ∃ out, planck true 1 60 3 (fun _ => 300) (fun _ => 0) = some out ∧ out.boftmr = none := by
  obtain ⟨out, h⟩ := planck_exists (s := true) (es := 1) (frq := 60)
    (t := fun _ => 300) (τ := fun _ => 0) (show (3:ℕ) ≠ 0 by decide)
  exact ⟨out, h, (C11_tmr_undefined (fun _ _ _ => le_rfl) h).1.2 (by simp [opacityBelow])⟩

/-! ## C12 -/

/-- Satellite geometry: the background is `emissivity * B(surface) * exp(-τ)`, with no reflected term. -/
theorem C12_background (hop : opacityBelow τ (nl - 1) < 125)
    (h : planck true es frq nl t τ = some out) :
    out.bakgrnd = es * tk2b out.hvk (t 0) * exp (-opacityBelow τ (nl - 1)) := by
  obtain ⟨hn, e1, -, -, -, e5, -, -⟩ := planck_sat h
  rw [(e5 hop).1, e1]

/-- Total radiance is affine in the emissivity, for every emissivity and every opacity. -/
theorem C12_affine {o0 o1 : PlanckOut} (h : planck true es frq nl t τ = some out)
    (h0 : planck true 0 frq nl t τ = some o0) (h1 : planck true 1 frq nl t τ = some o1) :
    out.boftotl = (1 - es) * o0.boftotl + es * o1.boftotl := by
  obtain ⟨hn, -, -, -, -, e5, e6, e7⟩ := planck_sat h
  obtain ⟨-, -, -, -, -, f5, f6, f7⟩ := planck_sat h0
  obtain ⟨-, -, -, -, -, g5, g6, g7⟩ := planck_sat h1
  rw [e7, f7, g7]
  rcases lt_or_ge (opacityBelow τ (nl - 1)) 125 with hop | hop
  · rw [(e5 hop).1, (f5 hop).1, (g5 hop).1]; ring
  · rw [(e6 hop).1, (f6 hop).1, (g6 hop).1]; ring

/-- Total radiance is non-decreasing in the emissivity. -/
theorem C12_monotone {es' : ℝ} {out' : PlanckOut} (hf : 0 < frq) (hT : 0 < t 0) (hes : es ≤ es')
    (h : planck true es frq nl t τ = some out) (h' : planck true es' frq nl t τ = some out') :
    out.boftotl ≤ out'.boftotl := by
  obtain ⟨hn, -, -, -, -, e5, e6, e7⟩ := planck_sat h
  obtain ⟨-, -, -, -, -, f5, f6, f7⟩ := planck_sat h'
  rw [e7, f7]
  rcases lt_or_ge (opacityBelow τ (nl - 1)) 125 with hop | hop
  · rw [(e5 hop).1, (f5 hop).1]
    have := mul_le_mul_of_nonneg_right (mul_le_mul_of_nonneg_right hes
      (tk2b_pos (hvkOf_pos hf) hT).le) (exp_pos (-opacityBelow τ (nl - 1))).le
    linarith
  · rw [(e6 hop).1, (f6 hop).1]

/-- With emissivity 0 the surface contributes nothing: a perfect mirror shows only the upward emission
of the atmosphere, no reflected sky. -/
theorem C12_no_reflection (h : planck true 0 frq nl t τ = some out) :
    out.bakgrnd = 0 ∧ out.boftotl = out.boftatm 0 := by
  obtain ⟨hn, -, -, -, e4, e5, e6, e7⟩ := planck_sat h
  have : out.bakgrnd = 0 := by
    rcases lt_or_ge (opacityBelow τ (nl - 1)) 125 with hop | hop
    · rw [(e5 hop).1]; ring
    · exact (e6 hop).1
  exact ⟨this, by rw [e7, this, zero_add, e4 0 hn]⟩

/-- Consequence: a mirror under a transparent sky is reported with brightness temperature 0, not with the
cosmic background it would reflect. -/
theorem C12_mirror_is_dark (hτ : ∀ i, 0 < i → i < nl → τ i = 0)
    (h : planck true 0 frq nl t τ = some out) : bright out.hvk out.boftotl = some 0 := by
  have hz : opacityBelow τ (nl - 1) = 0 := Finset.sum_eq_zero fun i hi => by
    simp at hi; exact hτ i hi.1 (by omega)
  have := (C11_tmr_undefined (fun i h1 h2 => (hτ i h1 h2).ge) h).2 hz
  rw [this.1]
  simp [bright_zero]

example : ∃ out, planck true 0 60 3 (fun _ => 300) (fun _ => 0) = some out ∧
    bright out.hvk out.boftotl = some 0 := by
  obtain ⟨out, h⟩ := planck_exists (s := true) (es := 0) (frq := 60)
    (t := fun _ => 300) (τ := fun _ => 0) (show (3:ℕ) ≠ 0 by decide)
  exact ⟨out, h, C12_mirror_is_dark (fun _ _ _ => rfl) h⟩
example : ∃ out, planck true 0.5 60 2 (fun _ => 300) (fun _ => 1) = some out ∧
    out.bakgrnd = 0.5 * tk2b out.hvk 300 * exp (-1) := by
  obtain ⟨out, h⟩ := planck_exists (s := true) (es := 0.5) (frq := 60)
    (t := fun _ => 300) (τ := fun _ => 1) (show (2:ℕ) ≠ 0 by decide)
  refine ⟨out, h, ?_⟩
  rw [C12_background (by norm_num [opacityBelow]) h]
  norm_num [opacityBelow]

/-! ## C13 -/

/-- Ground geometry: the atmosphere-only brightness temperature never exceeds the total one. -/
theorem C13_tbatm_le_ground (hf : 0 < frq) (hT : ∀ i < nl, 0 < t i)
    (hτ : ∀ i, 0 < i → i < nl → 0 ≤ τ i) (h : planck false es frq nl t τ = some out) :
    ∃ Ta Tb, bright out.hvk (out.boftatm (nl - 1)) = some Ta ∧
      bright out.hvk out.boftotl = some Tb ∧ Ta ≤ Tb := by
  obtain ⟨hn, e1, -, -, e4, e5, e6, e7⟩ := planck_ground h
  have hτ' : ∀ i, 1 ≤ i → i ≤ nl - 1 → 0 ≤ τ i := fun i h1 h2 => hτ i h1 (by omega)
  have h0 : 0 ≤ skyRadiance (fun i => tk2b (hvkOf frq) (t i)) τ (nl - 1) := by
    have := skyRadiance_mono (B := fun _ => 0) (B' := fun i => tk2b (hvkOf frq) (t i)) hτ'
      fun j hj => (tk2b_pos (hvkOf_pos hf) (hT j (by omega))).le
    rwa [skyRadiance_const, zero_mul] at this
  have hb : 0 ≤ out.bakgrnd := by
    rcases lt_or_ge (opacityBelow τ (nl - 1)) 125 with hop | hop
    · rw [(e5 hop).1]
      exact mul_nonneg (tk2b_pos (hvkOf_pos hf) (by norm_num [cTcosmicbkg])).le (exp_pos _).le
    · rw [(e6 hop).1]
  rw [e1, e4 _ (by omega), e7]
  exact bright_mono (hvkOf_pos hf) h0 (by linarith)

/-- Satellite geometry: the integral evaluated at the last level is 0 for every profile, so the value
reported as atmosphere-only brightness temperature is identically 0. -/
theorem C13_tbatm_satellite_zero (h : planck true es frq nl t τ = some out) :
    bright out.hvk (out.boftatm (nl - 1)) = some 0 := by
  obtain ⟨hn, -, -, -, e4, -⟩ := planck_sat h
  rw [e4 _ (by omega), upRadiance_self]
  exact bright_zero

example : ∃ out Ta Tb, planck false 1 60 2 (fun _ => 300) (fun _ => 1) = some out ∧
    bright out.hvk (out.boftatm 1) = some Ta ∧ bright out.hvk out.boftotl = some Tb ∧ Ta ≤ Tb := by
  obtain ⟨out, h⟩ := planck_exists (s := false) (es := 1) (frq := 60)
    (t := fun _ => 300) (τ := fun _ => 1) (show (2:ℕ) ≠ 0 by decide)
  obtain ⟨a, b, c⟩ := C13_tbatm_le_ground (by norm_num) (fun _ _ => by norm_num)
    (fun _ _ _ => by norm_num) h
  exact ⟨out, a, b, h, c⟩
example : ∃ out, planck true 1 60 2 (fun _ => 300) (fun _ => 1) = some out ∧
    bright out.hvk (out.boftatm 1) = some 0 := by
  obtain ⟨out, h⟩ := planck_exists (s := true) (es := 1) (frq := 60)
    (t := fun _ => 300) (τ := fun _ => 1) (show (2:ℕ) ≠ 0 by decide)
  exact ⟨out, h, C13_tbatm_satellite_zero h⟩

end bounds

end Verif.Props
