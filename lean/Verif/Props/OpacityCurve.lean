import Verif.Props.LayerResponse
import Mathlib.Algebra.BigOperators.Field

/-!
# C133: response of a brightness temperature to all opacities, to the air mass and to the emissivity
-/

namespace Verif.Props

open Verif.Model Verif.Py Verif.Spec Verif.Lemmas Real Filter Topology

variable {es frq : ℝ} {n nl : ℕ} {t : ℕ → ℝ} {out : PlanckOut}

/-- View through one layer, along a change of its opacity and of the radiance from behind. -/
theorem layer_curve {N F b' τ' x0 : ℝ} {b τ : ℝ → ℝ} (hb : HasDerivAt b b' x0) (hτ : HasDerivAt τ τ' x0) :
    HasDerivAt (fun x => layerSource N F (τ x) * (1 - exp (-τ x)) + b x * exp (-τ x))
      (exp (-τ x0) * ((addedSource N F (τ x0) - b x0) * τ' + b')) x0 := by
  have h1 := HasDerivAt.comp x0 (h₂ := fun x => layerSource N F x * (1 - exp (-x)) + b x0 * exp (-x)) (h := τ)
    (layer_deriv N F (b x0) (τ x0)) hτ
  have h2 := (hb.sub_const (b x0)).mul hτ.neg.exp
  refine ((h1.add h2).congr_deriv ?_).congr_of_eventuallyEq (Eventually.of_forall fun x => ?_)
  · simp only [Pi.neg_apply]
    ring
  · simp only [Function.comp, Pi.add_apply, Pi.mul_apply, Pi.neg_apply]
    ring

/-- The radiance at the ground along a change of all opacities. -/
theorem sky_curve {x0 b' : ℝ} {b : ℝ → ℝ} (hb : HasDerivAt b b' x0) :
    ∀ (n : ℕ) (B : ℕ → ℝ) (τ : ℝ → ℕ → ℝ) (τ' : ℕ → ℝ),
      (∀ i, 1 ≤ i → i ≤ n → HasDerivAt (fun x => τ x i) (τ' i) x0) →
      HasDerivAt (fun x => skyRadiance B (τ x) n + b x * transDown (τ x) n)
        (∑ k ∈ Finset.range n, transDown (τ x0) (k + 1) *
            (addedSource (B k) (B (k + 1)) (τ x0 (k + 1)) - fromAbove B (τ x0) (b x0) (k + 1) (n - (k + 1))) * τ' (k + 1) +
          transDown (τ x0) n * b') x0 := by
  intro n
  induction n with
  | zero =>
    intro B τ τ' _
    simpa [skyRadiance, transDown] using hb
  | succ n ih =>
    intro B τ τ' hτ
    have hr := ih (fun i => B (i + 1)) (fun x i => τ x (i + 1)) (fun i => τ' (i + 1)) fun i _ h2 => hτ (i + 1) (by omega) (by omega)
    have hl := layer_curve (N := B 0) (F := B 1) hr (hτ 1 le_rfl (by omega))
    have e1 (x : ℝ) : transDown (τ x) 1 = exp (-τ x 1) := by simp [transDown, opacityBelow]
    refine (hl.congr_deriv ?_).congr_of_eventuallyEq (Eventually.of_forall fun x => ?_)
    · rw [Finset.sum_range_succ', mul_add, add_comm (∑ k ∈ Finset.range n, _) (transDown (τ x0) (0 + 1) * _ * _), mul_add, Finset.mul_sum,
        add_comm n 1, transDown_stack (c := 1) (d := n), zero_add, e1]
      have h0 : 1 + n - 1 = n := by omega
      rw [h0]
      have hs : ∀ k, transDown (τ x0) (k + 1 + 1) = exp (-τ x0 1) * transDown (fun i => τ x0 (i + 1)) (k + 1) := fun k => by
        rw [add_comm (k + 1) 1, transDown_stack (c := 1), e1]
      have hf : fromAbove B (τ x0) (b x0) 1 n = skyRadiance (fun i => B (i + 1)) (fun i => τ x0 (i + 1)) n +
          b x0 * transDown (fun i => τ x0 (i + 1)) n := rfl
      rw [hf]
      have hsum : ∀ k ∈ Finset.range n, transDown (τ x0) (k + 1 + 1) *
          (addedSource (B (k + 1)) (B (k + 1 + 1)) (τ x0 (k + 1 + 1)) - fromAbove B (τ x0) (b x0) (k + 1 + 1) (1 + n - (k + 1 + 1))) *
            τ' (k + 1 + 1) = exp (-τ x0 1) * (transDown (fun i => τ x0 (i + 1)) (k + 1) *
          (addedSource (B (k + 1)) (B (k + 1 + 1)) (τ x0 (k + 1 + 1)) -
            fromAbove (fun i => B (i + 1)) (fun i => τ x0 (i + 1)) (b x0) (k + 1) (n - (k + 1))) * τ' (k + 1 + 1)) := fun k _ => by
        have : 1 + n - (k + 1 + 1) = n - (k + 1) := by omega
        rw [hs, this]
        have : fromAbove B (τ x0) (b x0) (k + 1 + 1) (n - (k + 1)) =
            fromAbove (fun i => B (i + 1)) (fun i => τ x0 (i + 1)) (b x0) (k + 1) (n - (k + 1)) := rfl
        rw [this]
        ring
      rw [Finset.sum_congr rfl hsum]
      ring
    · simp only []
      rw [add_comm n 1, skyRadiance_stack (c := 1), transDown_stack (c := 1), e1]
      have : skyRadiance B (τ x) 1 = layerSource (B 0) (B 1) (τ x 1) * (1 - exp (-τ x 1)) := by
        have := skyRadiance_succ (B := B) (τ := τ x) (i := 0)
        rw [zero_add, e1] at this
        rw [this]
        simp [skyRadiance, transDown]
      rw [this]
      ring

/-- The radiance at the top along a change of all opacities. -/
theorem up_curve {x0 b' : ℝ} {b : ℝ → ℝ} (hb : HasDerivAt b b' x0) {B : ℕ → ℝ} {τ : ℝ → ℕ → ℝ} {τ' : ℕ → ℝ} :
    ∀ n : ℕ, (∀ i, 1 ≤ i → i ≤ n → HasDerivAt (fun x => τ x i) (τ' i) x0) →
      HasDerivAt (fun x => upRadiance B (τ x) n 0 + b x * transUp (τ x) n 0)
        (∑ k ∈ Finset.range n, transUp (τ x0) n k *
            (addedSource (B (k + 1)) (B k) (τ x0 (k + 1)) - fromBelow B (τ x0) (b x0) k) * τ' (k + 1) +
          transUp (τ x0) n 0 * b') x0 := by
  intro n
  induction n with
  | zero =>
    intro _
    simpa [upRadiance, transUp] using hb
  | succ n ih =>
    intro hτ
    have hl := layer_curve (N := B (n + 1)) (F := B n) (ih fun i h1 h2 => hτ i h1 (by omega)) (hτ (n + 1) (by omega) le_rfl)
    refine (hl.congr_deriv ?_).congr_of_eventuallyEq (Eventually.of_forall fun x => ?_)
    · rw [Finset.sum_range_succ, transUp_succ (le_refl n), transUp_succ (Nat.zero_le n)]
      have hsum : ∀ k ∈ Finset.range n, transUp (τ x0) (n + 1) k *
          (addedSource (B (k + 1)) (B k) (τ x0 (k + 1)) - fromBelow B (τ x0) (b x0) k) * τ' (k + 1) =
          exp (-τ x0 (n + 1)) * (transUp (τ x0) n k *
          (addedSource (B (k + 1)) (B k) (τ x0 (k + 1)) - fromBelow B (τ x0) (b x0) k) * τ' (k + 1)) := fun k hk => by
        rw [transUp_succ (Finset.mem_range.1 hk).le]
        ring
      have h1 : transUp (τ x0) n n = 1 := by simp [transUp]
      rw [Finset.sum_congr rfl hsum, ← Finset.mul_sum, h1]
      unfold fromBelow
      ring
    · simp only []
      rw [upRadiance_succ, transUp_succ (Nat.zero_le n)]
      ring

/-- `Tb x` is the brightness temperature for the opacities `τ x` and the emissivity `es x`, for all `x` near `x0`. -/
def BrightAlong (s : Bool) (es : ℝ → ℝ) (frq : ℝ) (nl : ℕ) (t : ℕ → ℝ) (τ : ℝ → ℕ → ℝ) (x0 : ℝ) (Tb : ℝ → ℝ) : Prop :=
  ∀ᶠ x in 𝓝 x0, ∃ out, planck s (es x) frq nl t (τ x) = some out ∧ bright out.hvk out.boftotl = some (Tb x)

theorem opacity_along {τ : ℝ → ℕ → ℝ} {τ' : ℕ → ℝ} {x0 : ℝ} (hτ' : ∀ i, 1 ≤ i → i ≤ n → HasDerivAt (fun x => τ x i) (τ' i) x0)
    (hop : opacityBelow (τ x0) n < 125) : ∀ᶠ x in 𝓝 x0, opacityBelow (τ x) n < 125 := by
  have : ContinuousAt (fun x => opacityBelow (τ x) n) x0 := by
    unfold opacityBelow
    refine tendsto_finsetSum _ fun i hi => ?_
    have := Finset.mem_Icc.1 hi
    exact (hτ' i this.1 this.2).continuousAt
  exact this.eventually (gt_mem_nhds hop)

/-- The total radiance. -/
noncomputable def totalAt (s : Bool) (es frq : ℝ) (t τ : ℕ → ℝ) (n : ℕ) : ℝ :=
  if s then upRadiance (fun i => tk2b (hvkOf frq) (t i)) τ n 0 + es * tk2b (hvkOf frq) (t 0) * transUp τ n 0
  else skyRadiance (fun i => tk2b (hvkOf frq) (t i)) τ n + tk2b (hvkOf frq) 2.728 * transDown τ n

theorem totalAt_eq {s : Bool} {τ : ℕ → ℝ} (ho : opacityBelow τ n < 125) (p : planck s es frq (n + 1) t τ = some out) :
    out.boftotl = totalAt s es frq t τ n := by
  unfold totalAt
  cases s
  · obtain ⟨-, -, -, -, -, e5, -, e7⟩ := planck_ground p
    rw [Nat.add_sub_cancel] at e5 e7
    rw [e7, (e5 ho).1, add_comm]
    rfl
  · obtain ⟨-, -, -, -, -, e5, -, e7⟩ := planck_sat p
    rw [Nat.add_sub_cancel] at e5 e7
    rw [e7, (e5 ho).1, add_comm, ← opacityAbove_zero]
    rfl

theorem totalAt_deriv (s : Bool) {es : ℝ → ℝ} {es' x0 : ℝ} {τ : ℝ → ℕ → ℝ} {τ' : ℕ → ℝ} (hes : HasDerivAt es es' x0)
    (hτ' : ∀ i, 1 ≤ i → i ≤ n → HasDerivAt (fun x => τ x i) (τ' i) x0) :
    HasDerivAt (fun x => totalAt s (es x) frq t (τ x) n)
      (∑ k ∈ Finset.range n, totalRate s (es x0) frq t (τ x0) k (n - (k + 1)) * τ' (k + 1) +
        if s then transUp (τ x0) n 0 * (es' * tk2b (hvkOf frq) (t 0)) else 0) x0 := by
  unfold totalAt totalRate
  cases s
  · have := sky_curve (hasDerivAt_const x0 (tk2b (hvkOf frq) 2.728)) n (fun i => tk2b (hvkOf frq) (t i)) τ τ' hτ'
    simpa only [Bool.false_eq_true, if_false, mul_zero] using this
  · have := up_curve (hes.mul_const (tk2b (hvkOf frq) (t 0))) (B := fun i => tk2b (hvkOf frq) (t i)) n hτ'
    simp only [if_true]
    refine this.congr_deriv ?_
    congr 1
    refine Finset.sum_congr rfl fun k hk => ?_
    have : k + 1 + (n - (k + 1)) = n := by have := Finset.mem_range.1 hk; omega
    rw [this]

/-- **C133.** All opacities and the emissivity may change at once: the derivative of the brightness temperature is the sum over
the layers of the derivative for that layer alone times the rate of its opacity, plus, from a satellite, the rate of the
emissivity times the surface radiance seen through the air, over the slope of the Planck function. -/
theorem C133_sum {s : Bool} {es : ℝ → ℝ} {es' x0 : ℝ} {τ : ℝ → ℕ → ℝ} {τ' D : ℕ → ℝ} {Tb : ℝ → ℝ} {Tk : ℕ → ℝ → ℝ}
    (hf : 0 < frq) (hes : 0 < es x0) (ht : ∀ i < n + 1, 0 < t i) (hτ : ∀ i, 0 < i → i < n + 1 → 0 ≤ τ x0 i)
    (hop : opacityBelow (τ x0) n < 125) (hes' : HasDerivAt es es' x0)
    (hτ' : ∀ i, 1 ≤ i → i ≤ n → HasDerivAt (fun x => τ x i) (τ' i) x0)
    (hk : ∀ k, 1 ≤ k → k ≤ n → BrightOpacity s (es x0) frq (n + 1) t (τ x0) k (Tk k) ∧ HasDerivAt (Tk k) (D k) (τ x0 k))
    (hTb : BrightAlong s es frq (n + 1) t τ x0 Tb) :
    HasDerivAt Tb (∑ k ∈ Finset.Icc 1 n, D k * τ' k +
      if s then es' * tk2b (hvkOf frq) (t 0) * exp (-opacityBelow (τ x0) n) / planckSlope (hvkOf frq) (Tb x0) else 0) x0 := by
  have hh := hvkOf_pos hf
  obtain ⟨out0, p0, b0⟩ := hTb.self_of_nhds
  have hpos := radiance_pos hf hes hτ ht hop p0
  rw [totalAt_eq hop p0] at hpos
  have hR := totalAt_deriv (frq := frq) (t := t) s hes' hτ'
  have := bright_of_rate (Tb := Tb) hh hR hpos (by
    filter_upwards [hTb, opacity_along hτ' hop] with x ⟨out, p, b⟩ ho
    rwa [planck_hvk p, totalAt_eq ho p] at b)
  refine this.congr_deriv ?_
  rw [add_div]
  congr 1
  · have hi : Finset.Icc 1 n = (Finset.range n).image (· + 1) := by
      ext i
      simp only [Finset.mem_Icc, Finset.mem_image, Finset.mem_range]
      exact ⟨fun h => ⟨i - 1, by omega, by omega⟩, fun ⟨a, h1, h2⟩ => by omega⟩
    rw [hi, Finset.sum_image (fun a _ b _ h => by simpa using h), Finset.sum_div]
    refine Finset.sum_congr rfl fun k hkn => ?_
    have hkn := Finset.mem_range.1 hkn
    obtain ⟨h1, h2⟩ := hk (k + 1) (by omega) (by omega)
    have en : n = k + 1 + (n - (k + 1)) := by omega
    have hT : Tk (k + 1) (τ x0 (k + 1)) = Tb x0 := by
      obtain ⟨o, p, b⟩ := h1.self_of_nhds
      rw [Function.update_eq_self, p0] at p
      obtain rfl := Option.some.inj p
      rw [b0] at b
      exact (Option.some.inj b).symm
    have hr := bright_rate (c := k) (d := n - (k + 1)) (s := s) (t := t) (τ := τ x0) (es := es x0) (Tb := Tk (k + 1)) hf hes
      (by rw [← en]; exact ht) (by rw [← en]; exact hτ) (by rw [← en]; exact hop) (by rw [← en]; exact h1)
    rw [h2.unique hr, hT]
    ring
  · cases s
    · simp
    · simp only [if_true]
      have : transUp (τ x0) n 0 = exp (-opacityBelow (τ x0) n) := rfl
      rw [this]
      ring

/-- **C133.** Emissivity alone, from a satellite: a little more emissivity adds the surface radiance seen through the air. -/
theorem C133_emissivity {e0 : ℝ} {τ : ℕ → ℝ} {Tb : ℝ → ℝ} (hf : 0 < frq) (hes : 0 < e0) (ht : ∀ i < n + 1, 0 < t i)
    (hτ : ∀ i, 0 < i → i < n + 1 → 0 ≤ τ i) (hop : opacityBelow τ n < 125)
    (hTb : BrightAlong true (fun x => x) frq (n + 1) t (fun _ => τ) e0 Tb) :
    HasDerivAt Tb (tk2b (hvkOf frq) (t 0) * exp (-opacityBelow τ n) / planckSlope (hvkOf frq) (Tb e0)) e0 := by
  obtain ⟨out0, p0, b0⟩ := hTb.self_of_nhds
  have hpos := radiance_pos hf hes hτ ht hop p0
  rw [totalAt_eq hop p0] at hpos
  have hR := totalAt_deriv (frq := frq) (t := t) (n := n) (τ := fun _ => τ) (τ' := fun _ => 0) true (hasDerivAt_id' e0)
    fun i _ _ => hasDerivAt_const e0 (τ i)
  have := bright_of_rate (Tb := Tb) (hvkOf_pos hf) hR hpos (by
    filter_upwards [hTb] with x ⟨out, p, b⟩
    rwa [planck_hvk p, totalAt_eq hop p] at b)
  refine this.congr_deriv ?_
  have : transUp τ n 0 = exp (-opacityBelow τ n) := rfl
  simp only [mul_zero, Finset.sum_const_zero, if_true, this]
  ring

/-- **C133.** The air mass: where air does not get warmer with height and is nowhere colder than the cosmic background, all
opacities growing together never lower the value from the ground and never raise it from a satellite over a surface of
emissivity one; the same for any change in which no opacity falls. -/
theorem C133_cooling {s : Bool} {x0 D : ℝ} {τ : ℝ → ℕ → ℝ} {τ' : ℕ → ℝ} {Tb : ℝ → ℝ} (hf : 0 < frq)
    (hbg : ∀ i < n + 1, 2.728 ≤ t i) (hcool : ∀ i j, i ≤ j → j < n + 1 → t j ≤ t i)
    (hτ : ∀ i, 0 < i → i < n + 1 → 0 ≤ τ x0 i) (hop : opacityBelow (τ x0) n < 125)
    (hτ' : ∀ i, 1 ≤ i → i ≤ n → HasDerivAt (fun x => τ x i) (τ' i) x0 ∧ 0 ≤ τ' i)
    (hTb : BrightAlong s (fun _ => 1) frq (n + 1) t τ x0 Tb) (hD : HasDerivAt Tb D x0) :
    if s then D ≤ 0 else 0 ≤ D := by
  have ht : ∀ i < n + 1, 0 < t i := fun i hi => by linarith [hbg i hi]
  have ex : ∀ k, ∃ (Tk : ℝ → ℝ) (Dk : ℝ), 1 ≤ k → k ≤ n →
      BrightOpacity s 1 frq (n + 1) t (τ x0) k Tk ∧ HasDerivAt Tk Dk (τ x0 k) ∧ if s then Dk ≤ 0 else 0 ≤ Dk := by
    intro k
    by_cases h : 1 ≤ k ∧ k ≤ n
    · obtain ⟨c, rfl⟩ : ∃ c, k = c + 1 := ⟨k - 1, by omega⟩
      obtain ⟨d, rfl⟩ : ∃ d, n = c + 1 + d := ⟨n - (c + 1), by omega⟩
      obtain ⟨Tk, h1⟩ := bright_opacity (es := 1) s hf one_pos ht hτ hop
      have h2 := bright_rate hf one_pos ht hτ hop h1
      exact ⟨Tk, _, fun _ _ => ⟨h1, h2, C132_cooling hf rfl hbg hcool hτ hop h1 h2⟩⟩
    · exact ⟨fun _ => 0, 0, fun h1 h2 => absurd ⟨h1, h2⟩ h⟩
  choose Tk Dk hk using ex
  have hs := C133_sum (es := fun _ => 1) hf one_pos ht hτ hop (hasDerivAt_const x0 1) (fun i h1 h2 => (hτ' i h1 h2).1)
    (fun k h1 h2 => ⟨(hk k h1 h2).1, (hk k h1 h2).2.1⟩) hTb
  rw [hD.unique hs]
  cases s
  · simp only [Bool.false_eq_true, if_false, add_zero] at hk ⊢
    refine Finset.sum_nonneg fun k h => ?_
    have h := Finset.mem_Icc.1 h
    exact mul_nonneg (hk k h.1 h.2).2.2 (hτ' k h.1 h.2).2
  · simp only [if_true, zero_mul, zero_div, add_zero] at hk ⊢
    refine Finset.sum_nonpos fun k h => ?_
    have h := Finset.mem_Icc.1 h
    exact mul_nonpos_of_nonpos_of_nonneg (hk k h.1 h.2).2.2 (hτ' k h.1 h.2).2

/-- Close to a scene with positive temperatures there is a brightness temperature and it has a derivative. -/
theorem bright_along {es : ℝ → ℝ} {es' x0 : ℝ} {τ : ℝ → ℕ → ℝ} {τ' : ℕ → ℝ} (s : Bool) (hf : 0 < frq) (hes : 0 < es x0)
    (ht : ∀ i < n + 1, 0 < t i) (hτ : ∀ i, 0 < i → i < n + 1 → 0 ≤ τ x0 i) (hop : opacityBelow (τ x0) n < 125)
    (hes' : HasDerivAt es es' x0) (hτ' : ∀ i, 1 ≤ i → i ≤ n → HasDerivAt (fun x => τ x i) (τ' i) x0) :
    ∃ (Tb : ℝ → ℝ) (D : ℝ), BrightAlong s es frq (n + 1) t τ x0 Tb ∧ HasDerivAt Tb D x0 := by
  have hd := totalAt_deriv (frq := frq) (t := t) s hes' hτ'
  obtain ⟨out0, p0⟩ := planck_exists (s := s) (es := es x0) (frq := frq) (nl := n + 1) (t := t) (τ := τ x0) (by omega)
  have hpos := radiance_pos hf hes hτ ht hop p0
  rw [totalAt_eq hop p0] at hpos
  have hTb : BrightAlong s es frq (n + 1) t τ x0 (fun x => hvkOf frq / log (1 + 1 / totalAt s (es x) frq t (τ x) n)) := by
    filter_upwards [opacity_along hτ' hop, hd.continuousAt.eventually (lt_mem_nhds hpos)] with x ho hx
    obtain ⟨out, p⟩ := planck_exists (s := s) (es := es x) (frq := frq) (nl := n + 1) (t := t) (τ := τ x) (by omega)
    exact ⟨out, p, by rw [planck_hvk p, totalAt_eq ho p, bright_of_pos hx]⟩
  refine ⟨_, _, hTb, bright_of_rate (hvkOf_pos hf) hd hpos ?_⟩
  filter_upwards [hd.continuousAt.eventually (lt_mem_nhds hpos)] with x hx
  exact bright_of_pos hx

/-- Four levels at 22.235 GHz, opacities in proportion to the air mass `x`, at air mass 2, from either side. -/
example (s : Bool) : ∃ (Tb : ℝ → ℝ) (D : ℝ),
    BrightAlong s (fun _ => 1) 22.235 4 (fun i => 280 - 10 * i) (fun x i => x * (0.1 / i)) 2 Tb ∧
      HasDerivAt Tb D 2 ∧ if s then D ≤ 0 else 0 ≤ D := by
  have hop : opacityBelow (fun i : ℕ => (2 * (0.1 / i) : ℝ)) 3 < 125 := by
    unfold opacityBelow
    rw [Finset.sum_Icc_succ_top (by omega), Finset.sum_Icc_succ_top (by omega)]
    norm_num
  have hb : ∀ i < 3 + 1, (2.728 : ℝ) ≤ 280 - 10 * (i : ℕ) := fun i hi => by
    have : (i : ℝ) ≤ 3 := by exact_mod_cast Nat.le_of_lt_succ hi
    norm_num
    linarith
  have hc : ∀ i j : ℕ, i ≤ j → j < 3 + 1 → (280 - 10 * (j : ℝ)) ≤ 280 - 10 * (i : ℝ) := fun i j h _ => by
    have : (i : ℝ) ≤ j := by exact_mod_cast h
    linarith
  have ht : ∀ i < 3 + 1, (0 : ℝ) < 280 - 10 * (i : ℕ) := fun i hi => by linarith [hb i hi]
  have hd : ∀ i : ℕ, 1 ≤ i → i ≤ 3 → HasDerivAt (fun x : ℝ => x * (0.1 / (i : ℝ))) (0.1 / (i : ℝ)) 2 := fun i _ _ => by
    simpa using (hasDerivAt_id' (2 : ℝ)).mul_const (0.1 / (i : ℝ))
  obtain ⟨Tb, D, h1, h2⟩ := bright_along (n := 3) (frq := 22.235) (es := fun _ => 1) (x0 := 2)
    (t := fun i : ℕ => (280 - 10 * i : ℝ)) (τ := fun x i => x * (0.1 / i)) s (by norm_num) one_pos ht
    (fun _ _ _ => by positivity) hop (hasDerivAt_const 2 1) hd
  exact ⟨Tb, D, h1, h2, C133_cooling (n := 3) (by norm_num) hb hc (fun _ _ _ => by positivity) hop
    (fun i h h' => ⟨hd i h h', by positivity⟩) h1 h2⟩

end Verif.Props
