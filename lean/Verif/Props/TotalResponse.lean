import Verif.Props.OpacityCurve

/-!
# C136: temperatures, opacities and emissivity changing together
-/

namespace Verif.Props

open Verif.Model Verif.Py Verif.Spec Verif.Lemmas Real Filter Topology

variable {frq : ℝ} {n : ℕ} {out : PlanckOut}

/-- View through one layer, along a change of its boundaries, its opacity and the radiance from behind. -/
theorem view_curve {N' F' b' τ' x0 : ℝ} {N F b τ : ℝ → ℝ} (hN : HasDerivAt N N' x0) (hF : HasDerivAt F F' x0)
    (hb : HasDerivAt b b' x0) (hτ : HasDerivAt τ τ' x0) :
    HasDerivAt (fun x => layerSource (N x) (F x) (τ x) * (1 - exp (-τ x)) + b x * exp (-τ x))
      (exp (-τ x0) * ((addedSource (N x0) (F x0) (τ x0) - b x0) * τ' + b') +
        layerSource N' F' (τ x0) * (1 - exp (-τ x0))) x0 := by
  have hy : HasDerivAt (fun x : ℝ => exp (-τ x)) (-τ' * exp (-τ x0)) x0 := by
    have := hτ.neg.exp
    refine (this.congr_deriv ?_).congr_of_eventuallyEq (Eventually.of_forall fun x => ?_)
    · simp only [Pi.neg_apply]
      ring
    · simp only [Pi.neg_apply]
  have h1 : 1 + exp (-τ x0) ≠ 0 := by positivity
  have := (((hN.add (hF.mul hy)).div (hy.const_add 1) h1).mul (hy.const_sub 1)).add (hb.mul hy)
  refine (this.congr_deriv ?_).congr_of_eventuallyEq (Eventually.of_forall fun x => ?_)
  · simp only [Pi.div_apply, Pi.add_apply, Pi.mul_apply]
    unfold addedSource layerSource
    field_simp
    ring
  · simp only [layerSource, Pi.add_apply, Pi.mul_apply, Pi.div_apply]

theorem sky_all {x0 b' : ℝ} {b : ℝ → ℝ} (hb : HasDerivAt b b' x0) :
    ∀ (n : ℕ) (B : ℝ → ℕ → ℝ) (B' : ℕ → ℝ) (τ : ℝ → ℕ → ℝ) (τ' : ℕ → ℝ),
      (∀ i ≤ n, HasDerivAt (fun x => B x i) (B' i) x0) →
      (∀ i, 1 ≤ i → i ≤ n → HasDerivAt (fun x => τ x i) (τ' i) x0) →
      HasDerivAt (fun x => skyRadiance (B x) (τ x) n + b x * transDown (τ x) n)
        (∑ k ∈ Finset.range n, transDown (τ x0) (k + 1) *
            (addedSource (B x0 k) (B x0 (k + 1)) (τ x0 (k + 1)) - fromAbove (B x0) (τ x0) (b x0) (k + 1) (n - (k + 1))) *
              τ' (k + 1) +
          transDown (τ x0) n * b' + skyRadiance B' (τ x0) n) x0 := by
  intro n
  induction n with
  | zero =>
    intro B B' τ τ' _ _
    simpa [skyRadiance, transDown] using hb
  | succ n ih =>
    intro B B' τ τ' hB hτ
    have hr := ih (fun x i => B x (i + 1)) (fun i => B' (i + 1)) (fun x i => τ x (i + 1)) (fun i => τ' (i + 1))
      (fun i h => hB (i + 1) (by omega)) fun i _ h2 => hτ (i + 1) (by omega) (by omega)
    have hl := view_curve (hB 0 (by omega)) (hB 1 (by omega)) hr (hτ 1 le_rfl (by omega))
    have e1 (x : ℝ) : transDown (τ x) 1 = exp (-τ x 1) := by simp [transDown, opacityBelow]
    have e2 (B : ℕ → ℝ) (x : ℝ) : skyRadiance B (τ x) 1 = layerSource (B 0) (B 1) (τ x 1) * (1 - exp (-τ x 1)) := by
      have := skyRadiance_succ (B := B) (τ := τ x) (i := 0)
      rw [zero_add, e1] at this
      rw [this]
      simp [skyRadiance, transDown]
    refine (hl.congr_deriv ?_).congr_of_eventuallyEq (Eventually.of_forall fun x => ?_)
    · have hs : ∀ k, transDown (τ x0) (k + 1 + 1) = exp (-τ x0 1) * transDown (fun i => τ x0 (i + 1)) (k + 1) := fun k => by
        rw [add_comm (k + 1) 1, transDown_stack (c := 1), e1]
      have hsum : ∀ k ∈ Finset.range n, transDown (τ x0) (k + 1 + 1) *
          (addedSource (B x0 (k + 1)) (B x0 (k + 1 + 1)) (τ x0 (k + 1 + 1)) -
            fromAbove (B x0) (τ x0) (b x0) (k + 1 + 1) (1 + n - (k + 1 + 1))) *
            τ' (k + 1 + 1) = exp (-τ x0 1) * (transDown (fun i => τ x0 (i + 1)) (k + 1) *
          (addedSource (B x0 (k + 1)) (B x0 (k + 1 + 1)) (τ x0 (k + 1 + 1)) -
            fromAbove (fun i => B x0 (i + 1)) (fun i => τ x0 (i + 1)) (b x0) (k + 1) (n - (k + 1))) * τ' (k + 1 + 1)) := fun k _ => by
        have : 1 + n - (k + 1 + 1) = n - (k + 1) := by omega
        rw [hs, this]
        have : fromAbove (B x0) (τ x0) (b x0) (k + 1 + 1) (n - (k + 1)) =
            fromAbove (fun i => B x0 (i + 1)) (fun i => τ x0 (i + 1)) (b x0) (k + 1) (n - (k + 1)) := rfl
        rw [this]
        ring
      have hf : fromAbove (B x0) (τ x0) (b x0) 1 n = skyRadiance (fun i => B x0 (i + 1)) (fun i => τ x0 (i + 1)) n +
          b x0 * transDown (fun i => τ x0 (i + 1)) n := rfl
      have h0 : 1 + n - 1 = n := by omega
      rw [Finset.sum_range_succ', add_comm n 1, transDown_stack (c := 1) (d := n), skyRadiance_stack (c := 1), zero_add, e1, e2,
        h0, hf, Finset.sum_congr rfl hsum, ← Finset.mul_sum]
      ring
    · simp only []
      rw [add_comm n 1, skyRadiance_stack (c := 1), transDown_stack (c := 1), e1, e2]
      ring

theorem up_all {x0 b' : ℝ} {b : ℝ → ℝ} (hb : HasDerivAt b b' x0) {B : ℝ → ℕ → ℝ} {B' : ℕ → ℝ} {τ : ℝ → ℕ → ℝ} {τ' : ℕ → ℝ} :
    ∀ n : ℕ, (∀ i ≤ n, HasDerivAt (fun x => B x i) (B' i) x0) →
      (∀ i, 1 ≤ i → i ≤ n → HasDerivAt (fun x => τ x i) (τ' i) x0) →
      HasDerivAt (fun x => upRadiance (B x) (τ x) n 0 + b x * transUp (τ x) n 0)
        (∑ k ∈ Finset.range n, transUp (τ x0) n k *
            (addedSource (B x0 (k + 1)) (B x0 k) (τ x0 (k + 1)) - fromBelow (B x0) (τ x0) (b x0) k) * τ' (k + 1) +
          transUp (τ x0) n 0 * b' + upRadiance B' (τ x0) n 0) x0 := by
  intro n
  induction n with
  | zero =>
    intro _ _
    simpa [upRadiance, transUp] using hb
  | succ n ih =>
    intro hB hτ
    have hl := view_curve (hB (n + 1) le_rfl) (hB n (by omega))
      (ih (fun i h => hB i (by omega)) fun i h1 h2 => hτ i h1 (by omega)) (hτ (n + 1) (by omega) le_rfl)
    refine (hl.congr_deriv ?_).congr_of_eventuallyEq (Eventually.of_forall fun x => ?_)
    · rw [Finset.sum_range_succ, transUp_succ (le_refl n), transUp_succ (Nat.zero_le n), upRadiance_succ]
      have hsum : ∀ k ∈ Finset.range n, transUp (τ x0) (n + 1) k *
          (addedSource (B x0 (k + 1)) (B x0 k) (τ x0 (k + 1)) - fromBelow (B x0) (τ x0) (b x0) k) * τ' (k + 1) =
          exp (-τ x0 (n + 1)) * (transUp (τ x0) n k *
          (addedSource (B x0 (k + 1)) (B x0 k) (τ x0 (k + 1)) - fromBelow (B x0) (τ x0) (b x0) k) * τ' (k + 1)) := fun k hk => by
        rw [transUp_succ (Finset.mem_range.1 hk).le]
        ring
      have h1 : transUp (τ x0) n n = 1 := by simp [transUp]
      rw [Finset.sum_congr rfl hsum, ← Finset.mul_sum, h1]
      unfold fromBelow
      ring
    · simp only []
      rw [upRadiance_succ, transUp_succ (Nat.zero_le n)]
      ring

/-- `Tb x` is the brightness temperature for temperatures `t x`, opacities `τ x` and emissivity `es x`, near `x0`. -/
def BrightAll (s : Bool) (es : ℝ → ℝ) (frq : ℝ) (nl : ℕ) (t τ : ℝ → ℕ → ℝ) (x0 : ℝ) (Tb : ℝ → ℝ) : Prop :=
  ∀ᶠ x in 𝓝 x0, ∃ out, planck s (es x) frq nl (t x) (τ x) = some out ∧ bright out.hvk out.boftotl = some (Tb x)

theorem totalAt_all (s : Bool) {es : ℝ → ℝ} {es' x0 : ℝ} {t τ : ℝ → ℕ → ℝ} {t' τ' : ℕ → ℝ} (hf : 0 < frq)
    (ht : ∀ i < n + 1, 0 < t x0 i) (hes : HasDerivAt es es' x0) (ht' : ∀ i < n + 1, HasDerivAt (fun x => t x i) (t' i) x0)
    (hτ' : ∀ i, 1 ≤ i → i ≤ n → HasDerivAt (fun x => τ x i) (τ' i) x0) :
    HasDerivAt (fun x => totalAt s (es x) frq (t x) (τ x) n)
      ((∑ k ∈ Finset.range n, totalRate s (es x0) frq (t x0) (τ x0) k (n - (k + 1)) * τ' (k + 1) +
        if s then transUp (τ x0) n 0 * (es' * tk2b (hvkOf frq) (t x0 0)) else 0) +
        ∑ j ∈ Finset.range (n + 1), share s (es x0) (τ x0) n j * (planckSlope (hvkOf frq) (t x0 j) * t' j)) x0 := by
  have hh := hvkOf_pos hf
  have hB : ∀ i ≤ n, HasDerivAt (fun x => tk2b (hvkOf frq) (t x i)) (planckSlope (hvkOf frq) (t x0 i) * t' i) x0 := fun i hi =>
    HasDerivAt.comp (h₂ := tk2b (hvkOf frq)) (h := fun x => t x i) x0 (tk2b_deriv hh (ht i (by omega))) (ht' i (by omega))
  unfold totalAt totalRate share
  cases s
  · have := sky_all (hasDerivAt_const x0 (tk2b (hvkOf frq) 2.728)) n (fun x i => tk2b (hvkOf frq) (t x i)) _ τ τ' hB hτ'
    simp only [Bool.false_eq_true, if_false]
    refine this.congr_deriv ?_
    rw [sky_shares, mul_zero]
  · have := up_all (hes.mul (hB 0 (by omega))) (B := fun x i => tk2b (hvkOf frq) (t x i)) n hB hτ'
    simp only [if_true]
    refine this.congr_deriv ?_
    have hsum : ∀ k ∈ Finset.range n, transUp (τ x0) (k + 1 + (n - (k + 1))) k = transUp (τ x0) n k := fun k hk => by
      have := Finset.mem_range.1 hk
      rw [show k + 1 + (n - (k + 1)) = n by omega]
    have hu : exp (-opacityBelow (τ x0) n) = transUp (τ x0) n 0 := rfl
    rw [← up_shares, hu, Finset.sum_congr rfl fun k hk => by rw [← hsum k hk]]
    simp only [Pi.mul_apply]
    ring

/-- Close to a scene with positive temperatures there is a brightness temperature and it has a derivative. -/
theorem bright_all {s : Bool} {es : ℝ → ℝ} {es' x0 : ℝ} {t τ : ℝ → ℕ → ℝ} {t' τ' : ℕ → ℝ} (hf : 0 < frq) (hes : 0 < es x0)
    (ht : ∀ i < n + 1, 0 < t x0 i) (hτ : ∀ i, 0 < i → i < n + 1 → 0 ≤ τ x0 i) (hop : opacityBelow (τ x0) n < 125)
    (hes' : HasDerivAt es es' x0) (ht' : ∀ i < n + 1, HasDerivAt (fun x => t x i) (t' i) x0)
    (hτ' : ∀ i, 1 ≤ i → i ≤ n → HasDerivAt (fun x => τ x i) (τ' i) x0) : ∃ Tb, BrightAll s es frq (n + 1) t τ x0 Tb := by
  have hd := totalAt_all s hf ht hes' ht' hτ'
  obtain ⟨out0, p0⟩ := planck_exists (s := s) (es := es x0) (frq := frq) (nl := n + 1) (t := t x0) (τ := τ x0) (by omega)
  have hpos := radiance_pos hf hes hτ ht hop p0
  rw [totalAt_eq hop p0] at hpos
  refine ⟨fun x => hvkOf frq / log (1 + 1 / totalAt s (es x) frq (t x) (τ x) n), ?_⟩
  filter_upwards [opacity_along hτ' hop, hd.continuousAt.eventually (lt_mem_nhds hpos)] with x ho hx
  obtain ⟨out, p⟩ := planck_exists (s := s) (es := es x) (frq := frq) (nl := n + 1) (t := t x) (τ := τ x) (by omega)
  exact ⟨out, p, by rw [planck_hvk p, totalAt_eq ho p, bright_of_pos hx]⟩

/-- **C136.** Everything may change at once: the rate of the brightness temperature is the sum of the responses to each level
temperature alone, to each layer opacity alone and to the emissivity alone, each times its rate.  The responses are given as
derivatives of the values computed when only that quantity changes. -/
theorem C136_total {s : Bool} {es : ℝ → ℝ} {es' x0 E : ℝ} {t τ : ℝ → ℕ → ℝ} {t' τ' J D : ℕ → ℝ} {Tb Te : ℝ → ℝ}
    {Tj Tk : ℕ → ℝ → ℝ} (hf : 0 < frq) (hes : 0 < es x0) (ht : ∀ i < n + 1, 0 < t x0 i)
    (hτ : ∀ i, 0 < i → i < n + 1 → 0 ≤ τ x0 i) (hop : opacityBelow (τ x0) n < 125) (hes' : HasDerivAt es es' x0)
    (ht' : ∀ i < n + 1, HasDerivAt (fun x => t x i) (t' i) x0)
    (hτ' : ∀ i, 1 ≤ i → i ≤ n → HasDerivAt (fun x => τ x i) (τ' i) x0)
    (hJ : ∀ j ≤ n, BrightAll s (fun _ => es x0) frq (n + 1) (fun x => Function.update (t x0) j x) (fun _ => τ x0) (t x0 j) (Tj j) ∧
      HasDerivAt (Tj j) (J j) (t x0 j))
    (hD : ∀ k, 1 ≤ k → k ≤ n →
      BrightAll s (fun _ => es x0) frq (n + 1) (fun _ => t x0) (fun x => Function.update (τ x0) k x) (τ x0 k) (Tk k) ∧
        HasDerivAt (Tk k) (D k) (τ x0 k))
    (hE : BrightAll s (fun x => x) frq (n + 1) (fun _ => t x0) (fun _ => τ x0) (es x0) Te ∧ HasDerivAt Te E (es x0))
    (hTb : BrightAll s es frq (n + 1) t τ x0 Tb) :
    HasDerivAt Tb (∑ j ∈ Finset.range (n + 1), J j * t' j + ∑ k ∈ Finset.Icc 1 n, D k * τ' k + E * es') x0 := by
  have hh := hvkOf_pos hf
  obtain ⟨out0, p0, b0⟩ := hTb.self_of_nhds
  have hpos := radiance_pos hf hes hτ ht hop p0
  rw [totalAt_eq hop p0] at hpos
  -- the rate along any change through this scene
  have key : ∀ {es₁ : ℝ → ℝ} {e' y0 : ℝ} {t₁ τ₁ : ℝ → ℕ → ℝ} {t₁' τ₁' : ℕ → ℝ} {T : ℝ → ℝ}, es₁ y0 = es x0 → t₁ y0 = t x0 →
      τ₁ y0 = τ x0 → HasDerivAt es₁ e' y0 → (∀ i < n + 1, HasDerivAt (fun x => t₁ x i) (t₁' i) y0) →
      (∀ i, 1 ≤ i → i ≤ n → HasDerivAt (fun x => τ₁ x i) (τ₁' i) y0) → BrightAll s es₁ frq (n + 1) t₁ τ₁ y0 T →
      HasDerivAt T (((∑ k ∈ Finset.range n, totalRate s (es x0) frq (t x0) (τ x0) k (n - (k + 1)) * τ₁' (k + 1) +
        if s then transUp (τ x0) n 0 * (e' * tk2b (hvkOf frq) (t x0 0)) else 0) +
        ∑ j ∈ Finset.range (n + 1), share s (es x0) (τ x0) n j * (planckSlope (hvkOf frq) (t x0 j) * t₁' j)) /
        planckSlope (hvkOf frq) (Tb x0)) y0 := by
    intro es₁ e' y0 t₁ τ₁ t₁' τ₁' T h1 h2 h3 d1 d2 d3 hT
    have hd := totalAt_all s hf (by rw [h2]; exact ht) d1 d2 d3
    have hr := bright_of_rate (Tb := T) hh hd (by rw [h1, h2, h3]; exact hpos) (by
      filter_upwards [hT, opacity_along d3 (by rw [h3]; exact hop)] with x ⟨out, p, b⟩ ho
      rwa [planck_hvk p, totalAt_eq ho p] at b)
    have hT0 : T y0 = Tb x0 := by
      obtain ⟨o, p, b⟩ := hT.self_of_nhds
      rw [h1, h2, h3, p0] at p
      obtain rfl := Option.some.inj p
      rw [b0] at b
      exact (Option.some.inj b).symm
    rw [h1, h2, h3, hT0] at hr
    exact hr
  have kE := key (es₁ := fun x => x) (t₁ := fun _ => t x0) (τ₁ := fun _ => τ x0) (t₁' := fun _ => 0) (τ₁' := fun _ => 0) rfl rfl rfl
    (hasDerivAt_id' (es x0)) (fun i _ => hasDerivAt_const _ (t x0 i)) (fun i _ _ => hasDerivAt_const _ (τ x0 i)) hE.1
  have upd (f : ℕ → ℝ) (j i : ℕ) : HasDerivAt (fun x => Function.update f j x i) (if i = j then 1 else 0) (f j) := by
    by_cases h : i = j
    · subst h
      simpa using hasDerivAt_id' (f i)
    · simpa [h] using hasDerivAt_const (f j) (f i)
  have kJ : ∀ j ≤ n, _ := fun j hj => key (es₁ := fun _ => es x0) (t₁ := fun x => Function.update (t x0) j x)
    (τ₁ := fun _ => τ x0) (t₁' := fun i => if i = j then 1 else 0) (τ₁' := fun _ => 0) rfl (Function.update_eq_self _ _) rfl
    (hasDerivAt_const _ _) (fun i _ => upd (t x0) j i) (fun i _ _ => hasDerivAt_const _ (τ x0 i)) (hJ j hj).1
  have kD : ∀ k, ∀ h1 : 1 ≤ k, ∀ h2 : k ≤ n, _ := fun k h1 h2 => key (es₁ := fun _ => es x0)
    (t₁ := fun _ => t x0) (τ₁ := fun x => Function.update (τ x0) k x) (t₁' := fun _ => 0) (τ₁' := fun i => if i = k then 1 else 0)
    rfl rfl (Function.update_eq_self _ _) (hasDerivAt_const _ _) (fun i _ => hasDerivAt_const _ (t x0 i))
    (fun i _ _ => upd (τ x0) k i) (hD k h1 h2).1
  have eE : E = (if s then transUp (τ x0) n 0 * tk2b (hvkOf frq) (t x0 0) else 0) / planckSlope (hvkOf frq) (Tb x0) := by
    rw [hE.2.unique kE]
    simp
  have eJ : ∀ j ≤ n, J j = share s (es x0) (τ x0) n j * planckSlope (hvkOf frq) (t x0 j) / planckSlope (hvkOf frq) (Tb x0) := by
    intro j hj
    rw [(hJ j hj).2.unique (kJ j hj)]
    have : ∑ i ∈ Finset.range (n + 1), share s (es x0) (τ x0) n i * (planckSlope (hvkOf frq) (t x0 i) * if i = j then 1 else 0) =
        share s (es x0) (τ x0) n j * planckSlope (hvkOf frq) (t x0 j) := by
      rw [Finset.sum_eq_single j]
      · simp
      · intro i _ hi; simp [hi]
      · intro h; exact absurd (Finset.mem_range.2 (by omega)) h
    rw [this]
    simp
  have eD : ∀ k < n, D (k + 1) = totalRate s (es x0) frq (t x0) (τ x0) k (n - (k + 1)) / planckSlope (hvkOf frq) (Tb x0) := by
    intro k hk
    rw [(hD (k + 1) (by omega) (by omega)).2.unique (kD (k + 1) (by omega) (by omega))]
    have : ∑ i ∈ Finset.range n, totalRate s (es x0) frq (t x0) (τ x0) i (n - (i + 1)) * (if i + 1 = k + 1 then 1 else 0) =
        totalRate s (es x0) frq (t x0) (τ x0) k (n - (k + 1)) := by
      rw [Finset.sum_eq_single k]
      · simp
      · intro i _ hi; simp [hi]
      · intro h; exact absurd (Finset.mem_range.2 hk) h
    rw [this]
    simp
  refine (key rfl rfl rfl hes' ht' hτ' hTb).congr_deriv ?_
  have hi : Finset.Icc 1 n = (Finset.range n).image (· + 1) := by
    ext i
    simp only [Finset.mem_Icc, Finset.mem_image, Finset.mem_range]
    exact ⟨fun h => ⟨i - 1, by omega, by omega⟩, fun ⟨a, h1, h2⟩ => by omega⟩
  have sJ : ∑ j ∈ Finset.range (n + 1), J j * t' j =
      (∑ j ∈ Finset.range (n + 1), share s (es x0) (τ x0) n j * (planckSlope (hvkOf frq) (t x0 j) * t' j)) /
        planckSlope (hvkOf frq) (Tb x0) := by
    rw [Finset.sum_div]
    refine Finset.sum_congr rfl fun j hj => ?_
    rw [eJ j (by have := Finset.mem_range.1 hj; omega)]
    ring
  have sD : ∑ k ∈ Finset.Icc 1 n, D k * τ' k =
      (∑ k ∈ Finset.range n, totalRate s (es x0) frq (t x0) (τ x0) k (n - (k + 1)) * τ' (k + 1)) /
        planckSlope (hvkOf frq) (Tb x0) := by
    rw [hi, Finset.sum_image (fun a _ b _ h => by simpa using h), Finset.sum_div]
    refine Finset.sum_congr rfl fun k hk => ?_
    rw [eD k (Finset.mem_range.1 hk)]
    ring
  have sE : E * es' = (if s then transUp (τ x0) n 0 * (es' * tk2b (hvkOf frq) (t x0 0)) else 0) /
      planckSlope (hvkOf frq) (Tb x0) := by
    rw [eE]
    cases s
    · simp
    · simp only [if_true]
      ring
  rw [sJ, sD, sE]
  ring

/-- The brightness temperature close to such a scene exists and changes smoothly. -/
theorem bright_smooth {s : Bool} {es : ℝ → ℝ} {es' x0 : ℝ} {t τ : ℝ → ℕ → ℝ} {t' τ' : ℕ → ℝ} (hf : 0 < frq) (hes : 0 < es x0)
    (ht : ∀ i < n + 1, 0 < t x0 i) (hτ : ∀ i, 0 < i → i < n + 1 → 0 ≤ τ x0 i) (hop : opacityBelow (τ x0) n < 125)
    (hes' : HasDerivAt es es' x0) (ht' : ∀ i < n + 1, HasDerivAt (fun x => t x i) (t' i) x0)
    (hτ' : ∀ i, 1 ≤ i → i ≤ n → HasDerivAt (fun x => τ x i) (τ' i) x0) :
    ∃ (Tb : ℝ → ℝ) (R : ℝ), BrightAll s es frq (n + 1) t τ x0 Tb ∧ HasDerivAt Tb R x0 := by
  obtain ⟨Tb, hTb⟩ := bright_all (s := s) hf hes ht hτ hop hes' ht' hτ'
  have hd := totalAt_all s hf ht hes' ht' hτ'
  obtain ⟨out0, p0, b0⟩ := hTb.self_of_nhds
  have hpos := radiance_pos hf hes hτ ht hop p0
  rw [totalAt_eq hop p0] at hpos
  refine ⟨Tb, _, hTb, bright_of_rate (Tb := Tb) (hvkOf_pos hf) hd hpos ?_⟩
  filter_upwards [hTb, opacity_along hτ' hop] with x ⟨out, p, b⟩ ho
  rwa [planck_hvk p, totalAt_eq ho p] at b

/-- **C136.** The responses spoken of in `C136_total` exist in every scene with positive temperatures, opacities that are not
negative and add up to less than 125, and a positive emissivity. -/
theorem C136_exists {s : Bool} {es : ℝ → ℝ} {es' x0 : ℝ} {t τ : ℝ → ℕ → ℝ} {t' τ' : ℕ → ℝ} (hf : 0 < frq) (hes : 0 < es x0)
    (ht : ∀ i < n + 1, 0 < t x0 i) (hτ : ∀ i, 0 < i → i < n + 1 → 0 ≤ τ x0 i) (hop : opacityBelow (τ x0) n < 125)
    (hes' : HasDerivAt es es' x0) (ht' : ∀ i < n + 1, HasDerivAt (fun x => t x i) (t' i) x0)
    (hτ' : ∀ i, 1 ≤ i → i ≤ n → HasDerivAt (fun x => τ x i) (τ' i) x0) :
    ∃ (Tb Te : ℝ → ℝ) (Tj Tk : ℕ → ℝ → ℝ) (J D : ℕ → ℝ) (E : ℝ),
      (∀ j ≤ n, BrightAll s (fun _ => es x0) frq (n + 1) (fun x => Function.update (t x0) j x) (fun _ => τ x0) (t x0 j) (Tj j) ∧
        HasDerivAt (Tj j) (J j) (t x0 j)) ∧
      (∀ k, 1 ≤ k → k ≤ n →
        BrightAll s (fun _ => es x0) frq (n + 1) (fun _ => t x0) (fun x => Function.update (τ x0) k x) (τ x0 k) (Tk k) ∧
          HasDerivAt (Tk k) (D k) (τ x0 k)) ∧
      (BrightAll s (fun x => x) frq (n + 1) (fun _ => t x0) (fun _ => τ x0) (es x0) Te ∧ HasDerivAt Te E (es x0)) ∧
      BrightAll s es frq (n + 1) t τ x0 Tb ∧
      HasDerivAt Tb (∑ j ∈ Finset.range (n + 1), J j * t' j + ∑ k ∈ Finset.Icc 1 n, D k * τ' k + E * es') x0 := by
  have upd (f : ℕ → ℝ) (j i : ℕ) : HasDerivAt (fun x => Function.update f j x i) (if i = j then 1 else 0) (f j) := by
    by_cases h : i = j
    · subst h
      simpa using hasDerivAt_id' (f i)
    · simpa [h] using hasDerivAt_const (f j) (f i)
  have eJ (j : ℕ) := bright_smooth (s := s) (frq := frq) (n := n) (es := fun _ => es x0) (x0 := t x0 j)
    (t := fun x => Function.update (t x0) j x) (τ := fun _ => τ x0) (τ' := fun _ => 0) hf hes
    (by simpa using ht) hτ hop (hasDerivAt_const _ _) (fun i _ => upd (t x0) j i) (fun i _ _ => hasDerivAt_const _ (τ x0 i))
  have eD (k : ℕ) := bright_smooth (s := s) (frq := frq) (n := n) (es := fun _ => es x0) (x0 := τ x0 k)
    (t := fun _ => t x0) (τ := fun x => Function.update (τ x0) k x) (t' := fun _ => 0) hf hes ht
    (by simpa using hτ) (by simpa using hop) (hasDerivAt_const _ _) (fun i _ => hasDerivAt_const _ (t x0 i)) (fun i _ _ => upd (τ x0) k i)
  obtain ⟨Te, E, hE⟩ := bright_smooth (s := s) (frq := frq) (n := n) (es := fun x => x) (x0 := es x0)
    (t := fun _ => t x0) (τ := fun _ => τ x0) (t' := fun _ => 0) (τ' := fun _ => 0) hf hes ht hτ hop (hasDerivAt_id' _)
    (fun i _ => hasDerivAt_const _ (t x0 i)) (fun i _ _ => hasDerivAt_const _ (τ x0 i))
  obtain ⟨Tb, hTb⟩ := bright_all (s := s) hf hes ht hτ hop hes' ht' hτ'
  choose Tj J hJ using eJ
  choose Tk D hD using eD
  exact ⟨Tb, Te, Tj, Tk, J, D, E, fun j _ => hJ j, fun k _ _ => hD k, hE, hTb,
    C136_total hf hes ht hτ hop hes' ht' hτ' (fun j _ => hJ j) (fun k _ _ => hD k) hE hTb⟩

-- a warming, moistening four-level scene over a surface that gets less emissive, seen from a satellite at 22.235 GHz
example : ∃ Tb R, BrightAll true (fun x => 0.9 - 0.1 * x) 22.235 4 (fun x i => 280 - 10 * (i : ℝ) + x) (fun x _ => (1 + x) * 0.1) 0 Tb ∧
    HasDerivAt Tb R 0 := by
  have ht : ∀ i : ℕ, i < 3 + 1 → (0 : ℝ) < 280 - 10 * (i : ℝ) + 0 := fun i hi => by
    have : (i : ℝ) ≤ 3 := by exact_mod_cast (by omega : i ≤ 3)
    linarith
  obtain ⟨Tb, _, _, _, _, _, _, _, _, _, h, hd⟩ := C136_exists (s := true) (frq := 22.235) (n := 3) (es := fun x => 0.9 - 0.1 * x)
    (es' := -0.1) (x0 := 0) (t := fun x i => 280 - 10 * (i : ℝ) + x) (τ := fun x _ => (1 + x) * 0.1) (t' := fun _ => 1)
    (τ' := fun _ => 0.1) (by norm_num) (by norm_num) ht (fun _ _ _ => by norm_num)
    (by norm_num [opacityBelow, Finset.sum_range_succ, Finset.sum_Icc_succ_top])
    (by simpa using ((hasDerivAt_id' (0 : ℝ)).const_mul (0.1 : ℝ)).const_sub 0.9)
    (fun i _ => (hasDerivAt_id' (0 : ℝ)).const_add _)
    (fun i _ _ => by simpa using ((hasDerivAt_id' (0 : ℝ)).const_add 1).mul_const (0.1 : ℝ))
  exact ⟨Tb, _, h, hd⟩

end Verif.Props
