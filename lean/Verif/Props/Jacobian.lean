import Verif.Spec.Jacobian
import Verif.Props.Sensitivity
import Verif.Lemmas.OpacityError
import Mathlib.Analysis.Calculus.Deriv.Inverse
import Mathlib.Analysis.Calculus.Deriv.Add

/-!
# C131: response of a brightness temperature to the temperature of a level
-/

namespace Verif.Props

open Verif.Model Verif.Py Verif.Spec Verif.Lemmas Real Filter Topology

variable {s : Bool} {es frq : ℝ} {nl : ℕ} {τ : ℕ → ℝ} {out : PlanckOut}

theorem sum_Icc_range (f : ℕ → ℝ) (n : ℕ) : ∑ i ∈ Finset.Icc 1 n, f i = ∑ k ∈ Finset.range n, f (k + 1) := by
  induction n with
  | zero => simp
  | succ n ih => rw [Finset.sum_Icc_succ_top (by omega), Finset.sum_range_succ, ih]

/-- A sum over layers with two levels each as a sum over levels. -/
theorem sum_levels (a b B : ℕ → ℝ) (n : ℕ) : ∑ i ∈ Finset.Icc 1 n, (a i * B (i - 1) + b i * B i) =
    ∑ j ∈ Finset.range (n + 1), ((if j = 0 then 0 else b j) + if j < n then a (j + 1) else 0) * B j := by
  rw [sum_Icc_range]
  simp only [Nat.add_sub_cancel, add_mul, Finset.sum_add_distrib]
  rw [add_comm]
  congr 1
  · rw [Finset.sum_range_succ']
    simp
  · rw [Finset.sum_range_succ]
    simp only [lt_irrefl, if_false, zero_mul, add_zero]
    exact Finset.sum_congr rfl fun j hj => by rw [if_pos (Finset.mem_range.1 hj)]

theorem sky_shares (B τ : ℕ → ℝ) (n : ℕ) : skyRadiance B τ n = ∑ j ∈ Finset.range (n + 1), shareBelow τ n j * B j := by
  have := sum_levels (fun i => 1 / (1 + exp (-τ i)) * (transDown τ (i - 1) - transDown τ i))
    (fun i => exp (-τ i) / (1 + exp (-τ i)) * (transDown τ (i - 1) - transDown τ i)) B n
  simp only [Nat.add_sub_cancel] at this
  unfold shareBelow skyRadiance
  rw [← this]
  refine Finset.sum_congr rfl fun i _ => ?_
  unfold layerSource
  ring

theorem up_shares (es : ℝ) (B τ : ℕ → ℝ) (n : ℕ) : es * B 0 * exp (-opacityBelow τ n) + upRadiance B τ n 0 =
    ∑ j ∈ Finset.range (n + 1), shareAbove es τ n j * B j := by
  have := sum_levels (fun i => exp (-τ i) / (1 + exp (-τ i)) * (transUp τ n i - transUp τ n (i - 1)))
    (fun i => 1 / (1 + exp (-τ i)) * (transUp τ n i - transUp τ n (i - 1))) B n
  simp only [Nat.add_sub_cancel] at this
  have e : ∑ j ∈ Finset.range (n + 1), shareAbove es τ n j * B j = es * B 0 * exp (-opacityBelow τ n) +
      ∑ j ∈ Finset.range (n + 1), ((if j = 0 then 0 else 1 / (1 + exp (-τ j)) * (transUp τ n j - transUp τ n (j - 1))) +
        if j < n then exp (-τ (j + 1)) / (1 + exp (-τ (j + 1))) * (transUp τ n (j + 1) - transUp τ n j) else 0) * B j := by
    have : es * B 0 * exp (-opacityBelow τ n) = ∑ j ∈ Finset.range (n + 1),
        (if j = 0 then es * exp (-opacityBelow τ n) else 0) * B j := by
      rw [Finset.sum_range_succ']
      simp
      ring
    rw [this, ← Finset.sum_add_distrib]
    refine Finset.sum_congr rfl fun j _ => ?_
    unfold shareAbove
    split_ifs <;> ring
  rw [e, ← this]
  congr 1
  unfold upRadiance
  refine Finset.sum_congr rfl fun i _ => ?_
  unfold layerSource
  ring

/-- What arrives from behind the levels: the cosmic background, from the ground. -/
noncomputable def behind (s : Bool) (frq : ℝ) (τ : ℕ → ℝ) (n : ℕ) : ℝ :=
  if s then 0 else tk2b (hvkOf frq) 2.728 * exp (-opacityBelow τ n)

theorem radiance_shares {t : ℕ → ℝ} (hop : opacityBelow τ (nl - 1) < 125) (h : planck s es frq nl t τ = some out) :
    out.boftotl = behind s frq τ (nl - 1) +
      ∑ j ∈ Finset.range nl, share s es τ (nl - 1) j * tk2b (hvkOf frq) (t j) := by
  cases s
  · obtain ⟨hn, -, -, -, -, e5, -, e7⟩ := planck_ground h
    obtain ⟨n, rfl⟩ : ∃ n, nl = n + 1 := ⟨nl - 1, by omega⟩
    rw [e7, (e5 hop).1, sky_shares]
    rfl
  · obtain ⟨hn, -, -, -, -, e5, -, e7⟩ := planck_sat h
    obtain ⟨n, rfl⟩ : ∃ n, nl = n + 1 := ⟨nl - 1, by omega⟩
    rw [e7, (e5 hop).1]
    have := up_shares es (fun i => tk2b (hvkOf frq) (t i)) τ n
    simp only [Nat.add_sub_cancel] at this ⊢
    rw [this, behind, if_pos rfl, zero_add]
    rfl

theorem transDown_step {i n : ℕ} (hτ : ∀ i, 1 ≤ i → i ≤ n → 0 ≤ τ i) (hi : i < n) : transDown τ (i + 1) ≤ transDown τ i := by
  unfold transDown
  rw [opacityBelow_succ]
  exact exp_le_exp.2 (by linarith [hτ (i + 1) (by omega) (by omega)])

theorem transUp_step {i n : ℕ} (hτ : ∀ i, 1 ≤ i → i ≤ n → 0 ≤ τ i) (hi : i < n) : transUp τ n i ≤ transUp τ n (i + 1) := by
  unfold transUp
  rw [opacityAbove_step hi]
  exact exp_le_exp.2 (by linarith [hτ (i + 1) (by omega) (by omega)])

theorem share_nonneg {n j : ℕ} (hes : 0 ≤ es) (hτ : ∀ i, 1 ≤ i → i ≤ n → 0 ≤ τ i) (hj : j ≤ n) : 0 ≤ share s es τ n j := by
  unfold share
  split_ifs
  · unfold shareAbove
    refine add_nonneg ?_ ?_
    · split_ifs with h0
      · positivity
      · obtain ⟨i, rfl⟩ : ∃ i, j = i + 1 := ⟨j - 1, by omega⟩
        exact mul_nonneg (by positivity) (sub_nonneg.2 (transUp_step hτ (by omega)))
    · split_ifs with h0
      · exact mul_nonneg (by positivity) (sub_nonneg.2 (transUp_step hτ h0))
      · exact le_rfl
  · unfold shareBelow
    refine add_nonneg ?_ ?_
    · split_ifs with h0
      · exact le_rfl
      · obtain ⟨i, rfl⟩ : ∃ i, j = i + 1 := ⟨j - 1, by omega⟩
        exact mul_nonneg (by positivity) (sub_nonneg.2 (transDown_step hτ (by omega)))
    · split_ifs with h0
      · exact mul_nonneg (by positivity) (sub_nonneg.2 (transDown_step hτ h0))
      · exact le_rfl

theorem share_sum (n : ℕ) : ∑ j ∈ Finset.range (n + 1), share s es τ n j =
    1 - (if s then 1 - es else 1) * exp (-opacityBelow τ n) := by
  cases s
  · have := sky_shares (fun _ => 1) τ n
    rw [skyRadiance_const] at this
    simp only [mul_one] at this
    simp only [share, Bool.false_eq_true, if_false]
    rw [← this, transDown]
    ring
  · have := up_shares es (fun _ => 1) τ n
    rw [upRadiance_const _ (Nat.zero_le _)] at this
    simp only [mul_one] at this
    simp only [share, if_true]
    rw [← this, transUp, opacityAbove_zero]
    ring

/-- **C131.** The radiance is a weighted sum of the black-body radiances of the levels, with weights that depend on opacities
only, are not negative and add up to the opaque part of the view (from a satellite with the part of the surface). -/
theorem C131_shares {t : ℕ → ℝ} (hes : 0 ≤ es) (hτ : ∀ i, 0 < i → i < nl → 0 ≤ τ i)
    (hop : opacityBelow τ (nl - 1) < 125) (h : planck s es frq nl t τ = some out) :
    out.boftotl = behind s frq τ (nl - 1) +
      ∑ j ∈ Finset.range nl, share s es τ (nl - 1) j * tk2b (hvkOf frq) (t j) ∧
    (∀ j < nl, 0 ≤ share s es τ (nl - 1) j) ∧
    ∑ j ∈ Finset.range nl, share s es τ (nl - 1) j =
      1 - (if s then 1 - es else 1) * exp (-opacityBelow τ (nl - 1)) := by
  refine ⟨radiance_shares hop h, fun j hj => share_nonneg hes (fun i h1 h2 => hτ i h1 (by omega)) (by omega), ?_⟩
  have hn : 0 < nl := by
    cases s
    · exact (planck_ground h).1
    · exact (planck_sat h).1
  obtain ⟨n, rfl⟩ : ∃ n, nl = n + 1 := ⟨nl - 1, by omega⟩
  exact share_sum n

/-! ### Derivatives -/

theorem bright_deriv {hvk T : ℝ} (hh : 0 < hvk) (hT : 0 < T) :
    HasDerivAt (fun b => hvk / log (1 + 1 / b)) (planckSlope hvk T)⁻¹ (tk2b hvk T) := by
  have hb := tk2b_pos hh hT
  have e : hvk / log (1 + 1 / tk2b hvk T) = T := by
    have := bright_tk2b hh hT
    rw [bright_of_pos hb] at this
    exact Option.some.inj this
  refine HasDerivAt.of_local_left_inverse (f := tk2b hvk) ?_ ?_ ?_ ?_
  · have h1 : (1 : ℝ) < 1 + 1 / tk2b hvk T := by
      have : 0 < 1 / tk2b hvk T := by positivity
      linarith
    have h2 := log_pos h1
    refine ContinuousAt.div continuousAt_const (ContinuousAt.log ?_ (by linarith)) h2.ne'
    exact continuousAt_const.add (continuousAt_const.div continuousAt_id hb.ne')
  · rw [e]
    exact tk2b_deriv hh hT
  · exact (div_pos (planckW_pos (by positivity)) hh).ne'
  · filter_upwards [lt_mem_nhds hb] with b hb
    obtain ⟨T', h1, rfl⟩ := exists_tk2b hh hb
    have := bright_tk2b hh h1
    rw [bright_of_pos (tk2b_pos hh h1)] at this
    rw [Option.some.inj this]

theorem radiance_pos {t : ℕ → ℝ} (hf : 0 < frq) (hes : 0 < es) (hτ : ∀ i, 0 < i → i < nl → 0 ≤ τ i)
    (ht : ∀ i < nl, 0 < t i) (hop : opacityBelow τ (nl - 1) < 125) (h : planck s es frq nl t τ = some out) :
    0 < out.boftotl := by
  have hh := hvkOf_pos hf
  obtain ⟨e, hw, -⟩ := C131_shares hes.le hτ hop h
  rw [e]
  have h2 : 0 ≤ ∑ j ∈ Finset.range nl, share s es τ (nl - 1) j * tk2b (hvkOf frq) (t j) :=
    Finset.sum_nonneg fun j hj => mul_nonneg (hw j (Finset.mem_range.1 hj)) (tk2b_pos hh (ht j (Finset.mem_range.1 hj))).le
  cases s
  · have : 0 < behind false frq τ (nl - 1) := by
      simp only [behind, Bool.false_eq_true, if_false]
      exact mul_pos (tk2b_pos hh (by norm_num)) (exp_pos _)
    linarith
  · have hn := (planck_sat h).1
    have h0 : 0 < share true es τ (nl - 1) 0 := by
      have h3 : 0 < es * exp (-opacityBelow τ (nl - 1)) := by positivity
      have h4 : 0 ≤ (if 0 < nl - 1 then exp (-τ (0 + 1)) / (1 + exp (-τ (0 + 1))) *
          (transUp τ (nl - 1) (0 + 1) - transUp τ (nl - 1) 0) else 0) := by
        split_ifs with h0
        · exact mul_nonneg (by positivity) (sub_nonneg.2 (transUp_step (fun i h1 h2 => hτ i h1 (by omega)) h0))
        · exact le_rfl
      simp only [share, shareAbove, if_true]
      linarith
    have h5 : share true es τ (nl - 1) 0 * tk2b (hvkOf frq) (t 0) ≤
        ∑ j ∈ Finset.range nl, share true es τ (nl - 1) j * tk2b (hvkOf frq) (t j) :=
      Finset.single_le_sum (f := fun j => share true es τ (nl - 1) j * tk2b (hvkOf frq) (t j))
        (fun j hj => mul_nonneg (hw j (Finset.mem_range.1 hj)) (tk2b_pos hh (ht j (Finset.mem_range.1 hj))).le)
        (Finset.mem_range.2 hn)
    have h6 := mul_pos h0 (tk2b_pos hh (ht 0 hn))
    simp only [behind, if_true]
    linarith

/-- `Tb x` is the brightness temperature of the levels `t x`, for all `x` near `x0`. -/
def BrightNear (s : Bool) (es frq : ℝ) (nl : ℕ) (τ : ℕ → ℝ) (t : ℝ → ℕ → ℝ) (x0 : ℝ) (Tb : ℝ → ℝ) : Prop :=
  ∀ᶠ x in 𝓝 x0, ∃ out, planck s es frq nl (t x) τ = some out ∧ bright out.hvk out.boftotl = some (Tb x)

/-- Response of the brightness temperature `T` to level `j` of temperature `Tj`. -/
noncomputable def response (s : Bool) (es frq : ℝ) (τ : ℕ → ℝ) (n j : ℕ) (Tj T : ℝ) : ℝ :=
  share s es τ n j * planckSlope (hvkOf frq) Tj / planckSlope (hvkOf frq) T

/-- **C131.** If the temperatures of the levels change at rates `v`, the opacities being fixed, the brightness temperature
changes at the sum of rates times responses. -/
theorem C131_rate {t : ℝ → ℕ → ℝ} {v : ℕ → ℝ} {x0 : ℝ} {Tb : ℝ → ℝ} (hf : 0 < frq) (hes : 0 < es)
    (hτ : ∀ i, 0 < i → i < nl → 0 ≤ τ i) (hop : opacityBelow τ (nl - 1) < 125) (ht0 : ∀ i < nl, 0 < t x0 i)
    (ht : ∀ i < nl, HasDerivAt (fun x => t x i) (v i) x0) (hTb : BrightNear s es frq nl τ t x0 Tb) :
    HasDerivAt Tb (∑ j ∈ Finset.range nl, response s es frq τ (nl - 1) j (t x0 j) (Tb x0) * v j) x0 := by
  have hh := hvkOf_pos hf
  set R : ℝ → ℝ := fun x => behind s frq τ (nl - 1) +
    ∑ j ∈ Finset.range nl, share s es τ (nl - 1) j * tk2b (hvkOf frq) (t x j) with hR
  have hRd : HasDerivAt R (∑ j ∈ Finset.range nl, share s es τ (nl - 1) j * (planckSlope (hvkOf frq) (t x0 j) * v j)) x0 := by
    refine HasDerivAt.const_add _ (HasDerivAt.fun_sum fun j hj => HasDerivAt.const_mul _ ?_)
    exact HasDerivAt.comp (h₂ := tk2b (hvkOf frq)) (h := fun x => t x j) x0
      (tk2b_deriv hh (ht0 j (Finset.mem_range.1 hj))) (ht j (Finset.mem_range.1 hj))
  obtain ⟨out0, p0, b0⟩ := hTb.self_of_nhds
  have hpos := radiance_pos hf hes hτ ht0 hop p0
  have hr0 : out0.boftotl = R x0 := radiance_shares hop p0
  rw [planck_hvk p0, hr0] at b0
  rw [hr0] at hpos
  obtain ⟨T, hT, hTR⟩ := exists_tk2b hh hpos
  have eT : T = Tb x0 := by
    rw [← hTR, bright_tk2b hh hT] at b0
    exact Option.some.inj b0
  have hcomp := HasDerivAt.comp x0 (h₂ := fun b => hvkOf frq / log (1 + 1 / b)) (h := R)
    (by rw [← hTR]; exact bright_deriv hh hT) hRd
  have hev : Tb =ᶠ[𝓝 x0] (fun b => hvkOf frq / log (1 + 1 / b)) ∘ R := by
    filter_upwards [hTb, hRd.continuousAt.eventually (lt_mem_nhds hpos)] with x ⟨out, p, b⟩ hx
    rw [planck_hvk p, radiance_shares hop p] at b
    change bright (hvkOf frq) (R x) = _ at b
    rw [bright_of_pos hx] at b
    exact (Option.some.inj b).symm
  refine (hcomp.congr_of_eventuallyEq hev).congr_deriv ?_
  rw [Finset.mul_sum]
  refine Finset.sum_congr rfl fun j _ => ?_
  unfold response
  rw [eT]
  ring

/-- **C131.** The response to one level is the partial derivative. -/
theorem C131_level {t : ℕ → ℝ} {j : ℕ} {Tb : ℝ → ℝ} (hf : 0 < frq) (hes : 0 < es)
    (hτ : ∀ i, 0 < i → i < nl → 0 ≤ τ i) (hop : opacityBelow τ (nl - 1) < 125) (ht0 : ∀ i < nl, 0 < t i) (hj : j < nl)
    (hTb : BrightNear s es frq nl τ (fun x => Function.update t j x) (t j) Tb) :
    HasDerivAt Tb (response s es frq τ (nl - 1) j (t j) (Tb (t j))) (t j) := by
  have := C131_rate (t := fun x => Function.update t j x) (v := fun i => if i = j then 1 else 0) (x0 := t j) hf hes hτ hop
    (fun i hi => by simpa using ht0 i hi) (fun i _ => ?_) hTb
  · refine this.congr_deriv ?_
    rw [Finset.sum_eq_single j]
    · simp
    · intro i _ hi; simp [hi]
    · intro h; exact absurd (Finset.mem_range.2 hj) h
  · by_cases hi : i = j
    · subst hi
      simpa using hasDerivAt_id' (t i)
    · simpa [hi] using hasDerivAt_const (t j) (t i)

theorem bright_near {t : ℝ → ℕ → ℝ} {x0 : ℝ} (hf : 0 < frq) (hes : 0 < es) (hn : 0 < nl)
    (hτ : ∀ i, 0 < i → i < nl → 0 ≤ τ i) (hop : opacityBelow τ (nl - 1) < 125)
    (ht : ∀ᶠ x in 𝓝 x0, ∀ i < nl, 0 < t x i) : ∃ Tb, BrightNear s es frq nl τ t x0 Tb := by
  have hh := hvkOf_pos hf
  refine ⟨fun x => hvkOf frq / log (1 + 1 / (behind s frq τ (nl - 1) +
    ∑ j ∈ Finset.range nl, share s es τ (nl - 1) j * tk2b (hvkOf frq) (t x j))), ?_⟩
  filter_upwards [ht] with x hx
  obtain ⟨out, p⟩ := planck_exists (s := s) (es := es) (frq := frq) (nl := nl) (t := t x) (τ := τ) hn.ne'
  refine ⟨out, p, ?_⟩
  have hpos := radiance_pos hf hes hτ hx hop p
  rw [planck_hvk p, bright_of_pos hpos, radiance_shares hop p]

theorem response_nonneg {n j : ℕ} {Tj T : ℝ} (hf : 0 < frq) (hes : 0 ≤ es) (hτ : ∀ i, 1 ≤ i → i ≤ n → 0 ≤ τ i) (hj : j ≤ n)
    (hTj : 0 < Tj) (hT : 0 < T) : 0 ≤ response s es frq τ n j Tj T := by
  have hh := hvkOf_pos hf
  exact div_nonneg (mul_nonneg (share_nonneg hes hτ hj) (div_pos (planckW_pos (by positivity)) hh).le)
    (div_pos (planckW_pos (by positivity)) hh).le

/-- **C131.** Responses are not negative and add up to at most one. -/
theorem C131_sum {t : ℕ → ℝ} {T : ℝ} (hf : 0 < frq) (hes : 0 < es ∧ es ≤ 1)
    (hτ : ∀ i, 0 < i → i < nl → 0 ≤ τ i) (hop : opacityBelow τ (nl - 1) < 125) (ht0 : ∀ i < nl, 0 < t i)
    (h : planck s es frq nl t τ = some out) (hb : bright out.hvk out.boftotl = some T) :
    (∀ j < nl, 0 ≤ response s es frq τ (nl - 1) j (t j) T) ∧
      ∑ j ∈ Finset.range nl, response s es frq τ (nl - 1) j (t j) T ≤ 1 := by
  have hh := hvkOf_pos hf
  have hn : 0 < nl := by
    cases s
    · exact (planck_ground h).1
    · exact (planck_sat h).1
  have hT : 0 < T := by
    obtain ⟨T', h1, h2⟩ := exists_tk2b hh (radiance_pos hf hes.1 hτ ht0 hop h)
    rw [planck_hvk h, ← h2, bright_tk2b hh h1] at hb
    exact Option.some.inj hb ▸ h1
  refine ⟨fun j hj => response_nonneg hf hes.1.le (fun i h1 h2 => hτ i h1 (by omega)) (by omega) (ht0 j hj) hT, ?_⟩
  have hpos : ∀ᶠ x : ℝ in 𝓝 0, ∀ i < nl, 0 < t i + x := by
    refine (Filter.eventually_all_finite (Set.finite_lt_nat nl)).2 fun i hi => ?_
    have : Tendsto (fun x : ℝ => t i + x) (𝓝 0) (𝓝 (t i + 0)) := tendsto_const_nhds.add tendsto_id
    rw [add_zero] at this
    exact this.eventually (lt_mem_nhds (ht0 i hi))
  obtain ⟨Tb, hTb⟩ := bright_near (s := s) (t := fun x i => t i + x) (x0 := 0) hf hes.1 hn hτ hop hpos
  have hd := C131_rate (t := fun x i => t i + x) (v := fun _ => 1) (x0 := 0) hf hes.1 hτ hop
    (fun i hi => by simpa using ht0 i hi) (fun i _ => by simpa using (hasDerivAt_id' (0 : ℝ)).const_add (t i)) hTb
  obtain ⟨out0, p0, b0⟩ := hTb.self_of_nhds
  simp only [add_zero] at p0
  rw [h] at p0
  obtain rfl := Option.some.inj p0
  rw [hb] at b0
  have eT : T = Tb 0 := Option.some.inj b0
  simp only [add_zero, mul_one, ← eT] at hd
  -- slopes to the right are at most one
  have hslope := hd.tendsto_slope
  refine le_of_tendsto (hslope.mono_left (nhdsWithin_mono 0 (show Set.Ioi (0 : ℝ) ⊆ {0}ᶜ from fun x hx => ne_of_gt hx))) ?_
  filter_upwards [self_mem_nhdsWithin, (nhdsWithin_le_nhds hTb), nhdsWithin_le_nhds hpos] with x hx ⟨out', p', b'⟩ hp
  have hx0 : (0 : ℝ) < x := hx
  obtain ⟨A, A', a1, a2, a3⟩ := C91_warmer hf ⟨hes.1.le, hes.2⟩ hx0.le
    (fun i hi => ⟨ht0 i hi, hp i hi, le_rfl⟩) hτ h p'
  rw [hb] at a1
  rw [b'] at a2
  rw [slope_def_field, sub_zero, div_le_one hx0, ← eT, Option.some.inj a1, Option.some.inj a2]
  linarith

/-- **C131.** A level colder than the brightness temperature responds with less than its share of the view, a warmer one
with more. -/
theorem C131_order {n j : ℕ} {Tj T : ℝ} (hf : 0 < frq) (hes : 0 ≤ es) (hτ : ∀ i, 1 ≤ i → i ≤ n → 0 ≤ τ i) (hj : j ≤ n)
    (hTj : 0 < Tj) (hT : 0 < T) :
    (Tj ≤ T → response s es frq τ n j Tj T ≤ share s es τ n j) ∧
      (T ≤ Tj → share s es τ n j ≤ response s es frq τ n j Tj T) := by
  have hh := hvkOf_pos hf
  have hw := share_nonneg (s := s) hes hτ hj
  have pos {x : ℝ} (hx : 0 < x) : 0 < planckSlope (hvkOf frq) x := div_pos (planckW_pos (by positivity)) hh
  have mono {x y : ℝ} (hx : 0 < x) (hxy : x ≤ y) : planckSlope (hvkOf frq) x ≤ planckSlope (hvkOf frq) y :=
    div_le_div_of_nonneg_right (planckW_anti (div_pos hh (hx.trans_le hxy)) (div_le_div_of_nonneg_left hh.le hx hxy)) hh.le
  unfold response
  constructor
  · intro h
    rw [div_le_iff₀ (pos hT)]
    exact mul_le_mul_of_nonneg_left (mono hTj h) hw
  · intro h
    rw [le_div_iff₀ (pos hT)]
    exact mul_le_mul_of_nonneg_left (mono hT h) hw

/-- Four levels at 22.235 GHz from a satellite: the derivative with respect to the second level. -/
example : ∃ Tb : ℝ → ℝ, BrightNear true 0.9 22.235 4 (fun _ => 0.1) (fun x => Function.update (fun i => 280 - 10 * i) 1 x) 270 Tb ∧
    HasDerivAt Tb (response true 0.9 22.235 (fun _ => 0.1) 3 1 270 (Tb 270)) 270 := by
  have hop : opacityBelow (fun _ => (0.1 : ℝ)) (4 - 1) < 125 := by
    simp [opacityBelow]; norm_num
  have ht : ∀ i < 4, (0 : ℝ) < 280 - 10 * (i : ℕ) := fun i hi => by
    have : (i : ℝ) ≤ 3 := by exact_mod_cast Nat.le_of_lt_succ hi
    linarith
  have e : (280 - 10 * ((1 : ℕ) : ℝ)) = 270 := by norm_num
  obtain ⟨Tb, hTb⟩ := bright_near (s := true) (es := 0.9) (frq := 22.235) (nl := 4) (τ := fun _ => 0.1)
    (t := fun x => Function.update (fun i : ℕ => (280 - 10 * i : ℝ)) 1 x) (x0 := 270) (by norm_num) (by norm_num) (by norm_num)
    (fun _ _ _ => by norm_num) hop (by
      filter_upwards [lt_mem_nhds (show (0 : ℝ) < 270 by norm_num)] with x hx i hi
      by_cases h1 : i = 1
      · subst h1; simpa using hx
      · simpa [h1] using ht i hi)
  refine ⟨Tb, hTb, ?_⟩
  have := C131_level (t := fun i : ℕ => (280 - 10 * i : ℝ)) (j := 1) (Tb := Tb) (s := true) (es := 0.9) (frq := 22.235) (nl := 4)
    (τ := fun _ => 0.1) (by norm_num) (by norm_num) (fun _ _ _ => by norm_num) hop ht (by norm_num) (by rw [e]; exact hTb)
  rw [e] at this
  exact this

end Verif.Props
