import Verif.Lemmas.OpacityError
import Verif.Props.Sensitivity

/-!
# C92: errors of opacity
-/

namespace Verif.Props

open Verif.Model Verif.Py Verif.Spec Verif.Lemmas Real Set

variable {s : Bool} {es frq m M : ℝ} {nl : ℕ} {t τ τ' : ℕ → ℝ} {out out' : PlanckOut}

/-- The radiances of a scene between two temperatures. -/
theorem scene_mem (hf : 0 < frq) (hm : 0 < m) (hT : ∀ i < nl, m ≤ t i ∧ t i ≤ M) (hn : 0 < nl) :
    ∀ i ≤ nl - 1, tk2b (hvkOf frq) (t i) ∈ Icc (tk2b (hvkOf frq) m) (tk2b (hvkOf frq) M) := fun i hi => by
  obtain ⟨h1, h2⟩ := hT i (by omega)
  exact ⟨tk2b_mono (hvkOf_pos hf) hm h1, tk2b_mono (hvkOf_pos hf) (hm.trans_le h1) h2⟩

/-- From radiance to temperature: two radiances above that of `m`. -/
theorem radiance_error {hvk b b' ε : ℝ} (hh : 0 < hvk) (hm : 0 < m) (hb : tk2b hvk m ≤ b) (hb' : tk2b hvk m ≤ b')
    (h : |b' - b| ≤ ε) : ∃ T T', bright hvk b = some T ∧ bright hvk b' = some T' ∧
      |T' - T| ≤ hvk * ε / planckW (hvk / m) := by
  have hp := tk2b_pos hh hm
  obtain ⟨T, hT, rfl⟩ := exists_tk2b hh (hp.trans_le hb)
  obtain ⟨T', hT', rfl⟩ := exists_tk2b hh (hp.trans_le hb')
  refine ⟨T, T', bright_tk2b hh hT, bright_tk2b hh hT', ?_⟩
  have hw : 0 < planckW (hvk / m) := planckW_pos (by positivity)
  have mT : m ≤ T := by by_contra hc; push Not at hc; linarith [tk2b_strictMono hh hT hc]
  have mT' : m ≤ T' := by by_contra hc; push Not at hc; linarith [tk2b_strictMono hh hT' hc]
  have key {u v : ℝ} (hu : m ≤ u) (huv : u ≤ v) (hle : tk2b hvk v - tk2b hvk u ≤ ε) :
      v - u ≤ hvk * ε / planckW (hvk / m) := by
    have := (tk2b_slope hh (hm.trans_le hu) huv hm hu).1
    rw [le_div_iff₀ hw]
    have e : planckW (hvk / m) / hvk * (v - u) * hvk = (v - u) * planckW (hvk / m) := by field_simp
    have := mul_le_mul_of_nonneg_right (this.trans hle) hh.le
    rw [e] at this
    linarith
  obtain ⟨h1, h2⟩ := abs_le.1 h
  rcases le_total T T' with hle | hle
  · rw [abs_of_nonneg (sub_nonneg.2 hle)]; exact key mT hle h2
  · rw [abs_sub_comm, abs_of_nonneg (sub_nonneg.2 hle)]; exact key mT' hle (by linarith)

/-- **C92.** Seen from the ground: the radiance changes by at most the sum of the changes of opacity times the range of
radiances between the cosmic background and the warmest level. -/
theorem C92_ground (hf : 0 < frq) (hT : ∀ i < nl, 2.728 ≤ t i ∧ t i ≤ M)
    (hτ : ∀ i, 0 < i → i < nl → 0 ≤ τ i ∧ 0 ≤ τ' i) (hop : opacityBelow τ (nl - 1) < 125)
    (hop' : opacityBelow τ' (nl - 1) < 125) (h : planck false es frq nl t τ = some out)
    (h' : planck false es frq nl t τ' = some out') :
    |out'.boftotl - out.boftotl| ≤ (tk2b out.hvk M - tk2b out.hvk 2.728) * opacityError (nl - 1) τ τ' := by
  obtain ⟨hn, e1, -, -, -, e5, -, e7⟩ := planck_ground h
  obtain ⟨-, -, -, -, -, f5, -, f7⟩ := planck_ground h'
  have hB := scene_mem hf (by norm_num) hT hn
  have hbg : tk2b (hvkOf frq) cTcosmicbkg ∈ Icc (tk2b (hvkOf frq) 2.728) (tk2b (hvkOf frq) M) :=
    ⟨le_rfl, tk2b_mono (hvkOf_pos hf) (by norm_num [cTcosmicbkg]) ((hT 0 hn).1.trans (hT 0 hn).2)⟩
  have := sky_opacity (n := nl - 1) (fun i h1 h2 => hτ i h1 (by omega)) hB hbg hbg
  unfold transDown at this
  rw [e7, f7, (e5 hop).1, (f5 hop').1, e1]
  rw [sub_self, abs_zero, zero_add] at this
  rwa [add_comm (tk2b (hvkOf frq) cTcosmicbkg * _), add_comm (tk2b (hvkOf frq) cTcosmicbkg * _)]

/-- C92: with opacities on any side of the limit 125 the cut adds at most the background behind 125 Np. -/
theorem C92_ground_any (hf : 0 < frq) (hT : ∀ i < nl, 2.728 ≤ t i ∧ t i ≤ M)
    (hτ : ∀ i, 0 < i → i < nl → 0 ≤ τ i ∧ 0 ≤ τ' i) (h : planck false es frq nl t τ = some out)
    (h' : planck false es frq nl t τ' = some out') :
    |out'.boftotl - out.boftotl| ≤ (tk2b out.hvk M - tk2b out.hvk 2.728) * opacityError (nl - 1) τ τ' +
      tk2b out.hvk 2.728 * exp (-125) := by
  obtain ⟨hn, e1, -, -, -, e5, e6, e7⟩ := planck_ground h
  obtain ⟨-, -, -, -, -, f5, f6, f7⟩ := planck_ground h'
  have hB := scene_mem hf (by norm_num) hT hn
  have hp : 0 < tk2b (hvkOf frq) cTcosmicbkg := tk2b_pos (hvkOf_pos hf) (by norm_num [cTcosmicbkg])
  have hbg : tk2b (hvkOf frq) cTcosmicbkg ∈ Icc (tk2b (hvkOf frq) 2.728) (tk2b (hvkOf frq) M) :=
    ⟨le_rfl, tk2b_mono (hvkOf_pos hf) (by norm_num [cTcosmicbkg]) ((hT 0 hn).1.trans (hT 0 hn).2)⟩
  have := sky_opacity (n := nl - 1) (fun i h1 h2 => hτ i h1 (by omega)) hB hbg hbg
  unfold transDown at this
  rw [sub_self, abs_zero, zero_add] at this
  have cut (σ : ℕ → ℝ) (o : ℝ) (h1 : opacityBelow σ (nl - 1) < 125 → o =
      tk2b (hvkOf frq) cTcosmicbkg * exp (-opacityBelow σ (nl - 1))) (h2 : 125 ≤ opacityBelow σ (nl - 1) → o = 0) :
      o ≤ tk2b (hvkOf frq) cTcosmicbkg * exp (-opacityBelow σ (nl - 1)) ∧
      tk2b (hvkOf frq) cTcosmicbkg * exp (-opacityBelow σ (nl - 1)) ≤
        o + tk2b (hvkOf frq) cTcosmicbkg * exp (-125) := by
    rcases lt_or_ge (opacityBelow σ (nl - 1)) 125 with ho | ho
    · rw [h1 ho]
      exact ⟨le_rfl, by have := exp_pos (-125); nlinarith⟩
    · rw [h2 ho, zero_add]
      exact ⟨by positivity, mul_le_mul_of_nonneg_left (exp_le_exp.2 (by linarith)) hp.le⟩
  obtain ⟨a1, a2⟩ := cut τ out.bakgrnd (fun ho => (e5 ho).1) fun ho => (e6 ho).1
  obtain ⟨b1, b2⟩ := cut τ' out'.bakgrnd (fun ho => (f5 ho).1) fun ho => (f6 ho).1
  rw [e7, f7, e1]
  rw [abs_le] at this ⊢
  change _ ∧ _ at this
  rw [show (2.728 : ℝ) = cTcosmicbkg from rfl] at *
  constructor <;> linarith

/-- C92: seen from above over a surface of any emissivity. -/
theorem C92_satellite (hf : 0 < frq) (hes : 0 ≤ es ∧ es ≤ 1) (hm : 0 < m) (hT : ∀ i < nl, m ≤ t i ∧ t i ≤ M)
    (hτ : ∀ i, 0 < i → i < nl → 0 ≤ τ i ∧ 0 ≤ τ' i) (hop : opacityBelow τ (nl - 1) < 125)
    (hop' : opacityBelow τ' (nl - 1) < 125) (h : planck true es frq nl t τ = some out)
    (h' : planck true es frq nl t τ' = some out') :
    |out'.boftotl - out.boftotl| ≤ (tk2b out.hvk M - es * tk2b out.hvk m) * opacityError (nl - 1) τ τ' := by
  obtain ⟨hn, e1, -, -, -, e5, -, e7⟩ := planck_sat h
  obtain ⟨-, -, -, -, -, f5, -, f7⟩ := planck_sat h'
  have hp := tk2b_pos (hvkOf_pos hf) hm
  have hB0 := scene_mem hf hm hT hn
  have hB : ∀ i ≤ nl - 1, tk2b (hvkOf frq) (t i) ∈ Icc (es * tk2b (hvkOf frq) m) (tk2b (hvkOf frq) M) := fun i hi =>
    ⟨(mul_le_of_le_one_left hp.le hes.2).trans (hB0 i hi).1, (hB0 i hi).2⟩
  have hbg : es * tk2b (hvkOf frq) (t 0) ∈ Icc (es * tk2b (hvkOf frq) m) (tk2b (hvkOf frq) M) := by
    obtain ⟨g1, g2⟩ := hB0 0 (Nat.zero_le _)
    exact ⟨mul_le_mul_of_nonneg_left g1 hes.1, (mul_le_of_le_one_left (hp.le.trans g1) hes.2).trans g2⟩
  have := up_opacity (m := 0) (n := nl - 1) (Nat.zero_le _) (fun i h1 h2 => hτ i h1 (by omega)) hB hbg hbg
  unfold transUp at this
  rw [sub_self, abs_zero, zero_add, opacityAbove_zero, opacityAbove_zero] at this
  rw [e7, f7, (e5 hop).1, (f5 hop').1, e1]
  rwa [add_comm (es * tk2b (hvkOf frq) (t 0) * _), add_comm (es * tk2b (hvkOf frq) (t 0) * _)]

/-- C92: as brightness temperature, over a black surface: at most the range of temperatures times the sum of the changes
of opacity, divided by the slope of the black-body radiance at the lowest temperature (1 for low frequencies). -/
theorem C92_satellite_brightness (hf : 0 < frq) (hm : 0 < m) (hT : ∀ i < nl, m ≤ t i ∧ t i ≤ M)
    (hτ : ∀ i, 0 < i → i < nl → 0 ≤ τ i ∧ 0 ≤ τ' i) (hop : opacityBelow τ (nl - 1) < 125)
    (hop' : opacityBelow τ' (nl - 1) < 125) (h : planck true 1 frq nl t τ = some out)
    (h' : planck true 1 frq nl t τ' = some out') :
    ∃ Tb Tb', bright out.hvk out.boftotl = some Tb ∧ bright out'.hvk out'.boftotl = some Tb' ∧
      |Tb' - Tb| ≤ (M - m) * opacityError (nl - 1) τ τ' / planckW (out.hvk / m) := by
  have key := C92_satellite hf ⟨zero_le_one, le_rfl⟩ hm hT hτ hop hop' h h'
  have low {σ : ℕ → ℝ} {o : PlanckOut} (hσ : ∀ i, 0 < i → i < nl → 0 ≤ σ i) (ho : opacityBelow σ (nl - 1) < 125)
      (g : planck true 1 frq nl t σ = some o) : tk2b (hvkOf frq) m ≤ o.boftotl := by
    obtain ⟨hn, -, -, -, -, e5, -, e7⟩ := planck_sat g
    have hB := scene_mem hf hm hT hn
    rw [e7, (e5 ho).1, one_mul]
    have := (upRadiance_bounds (n := nl - 1) (fun i h1 h2 => hσ i h1 (by omega)) hB).1
    unfold transDown at this
    have := mul_le_mul_of_nonneg_right (hB 0 (Nat.zero_le _)).1 (exp_pos (-opacityBelow σ (nl - 1))).le
    linarith
  have hh := hvkOf_pos hf
  have hn : 0 < nl := (planck_sat h).1
  have hmM : m ≤ M := (hT 0 hn).1.trans (hT 0 hn).2
  rw [planck_hvk h] at key ⊢
  rw [planck_hvk h']
  obtain ⟨T, T', a1, a2, a3⟩ := radiance_error hh hm (low (fun i h1 h2 => (hτ i h1 h2).1) hop h)
    (low (fun i h1 h2 => (hτ i h1 h2).2) hop' h') key
  refine ⟨T, T', a1, a2, a3.trans ?_⟩
  have h1 := (tk2b_slope hh hm hmM hm le_rfl).2
  have h2 : 0 ≤ opacityError (nl - 1) τ τ' := Finset.sum_nonneg fun i _ => abs_nonneg _
  have h3 : 0 < planckW (hvkOf frq / m) := planckW_pos (by positivity)
  rw [one_mul]
  refine div_le_div_of_nonneg_right ?_ h3.le
  have := mul_le_mul_of_nonneg_left h1 hh.le
  rw [mul_div_cancel₀ _ hh.ne'] at this
  calc hvkOf frq * ((tk2b (hvkOf frq) M - tk2b (hvkOf frq) m) * opacityError (nl - 1) τ τ')
      = hvkOf frq * (tk2b (hvkOf frq) M - tk2b (hvkOf frq) m) * opacityError (nl - 1) τ τ' := by ring
    _ ≤ _ := mul_le_mul_of_nonneg_right this h2

/-- C92: the same from the ground, with the cosmic background as the lowest temperature. -/
theorem C92_ground_brightness (hf : 0 < frq) (hT : ∀ i < nl, 2.728 ≤ t i ∧ t i ≤ M)
    (hτ : ∀ i, 0 < i → i < nl → 0 ≤ τ i ∧ 0 ≤ τ' i) (hop : opacityBelow τ (nl - 1) < 125)
    (hop' : opacityBelow τ' (nl - 1) < 125) (h : planck false es frq nl t τ = some out)
    (h' : planck false es frq nl t τ' = some out') :
    ∃ Tb Tb', bright out.hvk out.boftotl = some Tb ∧ bright out'.hvk out'.boftotl = some Tb' ∧
      |Tb' - Tb| ≤ (M - 2.728) * opacityError (nl - 1) τ τ' / planckW (out.hvk / 2.728) := by
  have key := C92_ground hf hT hτ hop hop' h h'
  have hm : (0 : ℝ) < 2.728 := by norm_num
  have low {σ : ℕ → ℝ} {o : PlanckOut} (hσ : ∀ i, 0 < i → i < nl → 0 ≤ σ i) (ho : opacityBelow σ (nl - 1) < 125)
      (g : planck false es frq nl t σ = some o) : tk2b (hvkOf frq) 2.728 ≤ o.boftotl := by
    obtain ⟨hn, -, -, -, -, e5, -, e7⟩ := planck_ground g
    have hB := scene_mem hf hm hT hn
    rw [e7, (e5 ho).1]
    have := (skyRadiance_bounds (n := nl - 1) (fun i h1 h2 => hσ i h1 (by omega)) hB).1
    unfold transDown at this
    rw [show cTcosmicbkg = (2.728 : ℝ) from rfl]
    linarith
  have hh := hvkOf_pos hf
  have hn : 0 < nl := (planck_ground h).1
  have hmM : 2.728 ≤ M := (hT 0 hn).1.trans (hT 0 hn).2
  rw [planck_hvk h] at key ⊢
  rw [planck_hvk h']
  obtain ⟨T, T', a1, a2, a3⟩ := radiance_error hh hm (low (fun i h1 h2 => (hτ i h1 h2).1) hop h)
    (low (fun i h1 h2 => (hτ i h1 h2).2) hop' h') key
  refine ⟨T, T', a1, a2, a3.trans ?_⟩
  have h1 := (tk2b_slope hh hm hmM hm le_rfl).2
  have h2 : 0 ≤ opacityError (nl - 1) τ τ' := Finset.sum_nonneg fun i _ => abs_nonneg _
  have h3 : 0 < planckW (hvkOf frq / 2.728) := planckW_pos (by positivity)
  refine div_le_div_of_nonneg_right ?_ h3.le
  have := mul_le_mul_of_nonneg_left h1 hh.le
  rw [mul_div_cancel₀ _ hh.ne'] at this
  calc hvkOf frq * ((tk2b (hvkOf frq) M - tk2b (hvkOf frq) 2.728) * opacityError (nl - 1) τ τ')
      = hvkOf frq * (tk2b (hvkOf frq) M - tk2b (hvkOf frq) 2.728) * opacityError (nl - 1) τ τ' := by ring
    _ ≤ _ := mul_le_mul_of_nonneg_right this h2

/-- C92: what the divisor is: between 0 and 1, larger for larger temperature. -/
theorem C92_slope {hvk m m' : ℝ} (hh : 0 < hvk) (hm : 0 < m) (h : m ≤ m') :
    0 < planckW (hvk / m) ∧ planckW (hvk / m) ≤ planckW (hvk / m') ∧ planckW (hvk / m') ≤ 1 := by
  have hm' : 0 < m' := hm.trans_le h
  exact ⟨planckW_pos (by positivity), planckW_anti (by positivity) (div_le_div_of_nonneg_left hh.le hm h),
    planckW_le_one (by positivity)⟩

/-- Three layers, each opacity known to 0.01 Np: the sum of the errors is 0.03. -/
example : ∃ out out' Tb Tb', planck true 1 60 4 (fun i => 290 - 6 * i) (fun _ => 0.3) = some out ∧
    planck true 1 60 4 (fun i => 290 - 6 * i) (fun _ => 0.31) = some out' ∧
    bright out.hvk out.boftotl = some Tb ∧ bright out'.hvk out'.boftotl = some Tb' ∧
    |Tb' - Tb| ≤ 18 * 0.03 / planckW (out.hvk / 272) := by
  obtain ⟨out, h⟩ := planck_exists (s := true) (es := 1) (frq := 60) (nl := 4) (t := fun i => 290 - 6 * i)
    (τ := fun _ => 0.3) (by norm_num)
  obtain ⟨out', h'⟩ := planck_exists (s := true) (es := 1) (frq := 60) (nl := 4)
    (t := fun i => 290 - 6 * i) (τ := fun _ => 0.31) (by norm_num)
  have e : opacityError (4 - 1) (fun _ => 0.3) (fun _ => 0.31) = 0.03 := by
    norm_num [opacityError, Finset.sum_Icc_succ_top]
  obtain ⟨Tb, Tb', h1, h2, h3⟩ := C92_satellite_brightness (m := 272) (M := 290) (by norm_num) (by norm_num)
    (fun i hi => by interval_cases i <;> norm_num) (fun _ _ _ => by norm_num)
    (by norm_num [opacityBelow, Finset.sum_Icc_succ_top]) (by norm_num [opacityBelow, Finset.sum_Icc_succ_top]) h h'
  refine ⟨out, out', Tb, Tb', h, h', h1, h2, ?_⟩
  rw [e] at h3
  norm_num at h3 ⊢
  exact h3

end Verif.Props
