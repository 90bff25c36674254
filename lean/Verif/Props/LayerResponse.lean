import Verif.Spec.LayerResponse
import Verif.Props.Jacobian
import Verif.Lemmas.MeanTemperature
import Mathlib.Analysis.Calculus.Deriv.Mul
import Mathlib.Analysis.SpecialFunctions.ExpDeriv

/-!
# C132: response of a brightness temperature to the opacity of a layer
-/

namespace Verif.Props

open Verif.Model Verif.Py Verif.Spec Verif.Lemmas Real Filter Topology

variable {es frq : ℝ} {c d : ℕ} {t τ : ℕ → ℝ} {out : PlanckOut}

theorem layer_deriv (N F b x : ℝ) :
    HasDerivAt (fun x => layerSource N F x * (1 - exp (-x)) + b * exp (-x)) (exp (-x) * (addedSource N F x - b)) x := by
  have hy : HasDerivAt (fun x : ℝ => exp (-x)) (-exp (-x)) x := by
    simpa using (hasDerivAt_id' x).neg.exp
  have h1 : 1 + exp (-x) ≠ 0 := by positivity
  have := ((((hy.const_mul F).const_add N).div (hy.const_add 1) h1).mul (hy.const_sub 1)).add (hy.const_mul b)
  refine (this.congr_deriv ?_).congr_of_eventuallyEq (Eventually.of_forall fun x => ?_)
  · simp only [Pi.div_apply]
    unfold addedSource
    field_simp
    ring
  · simp only [layerSource, Pi.add_apply, Pi.mul_apply, Pi.div_apply]

theorem up_stack {B τ : ℕ → ℝ} {n k : ℕ} (hk : k ≤ n) :
    upRadiance B τ n 0 = upRadiance B τ n k + transUp τ n k * upRadiance B τ k 0 := by
  induction k with
  | zero => simp
  | succ k ih =>
    rw [ih (by omega), upRadiance_step (show k < n by omega), upRadiance_succ, Verif.Spec.transUp_step (show k < n by omega)]
    ring

theorem transUp_stack {τ : ℕ → ℝ} {n k : ℕ} (hk : k ≤ n) : transUp τ n 0 = transUp τ n k * transUp τ k 0 := by
  induction k with
  | zero => simp
  | succ k ih =>
    rw [ih (by omega), Verif.Spec.transUp_step (show k < n by omega), transUp_succ (Nat.zero_le k)]
    ring

/-- The radiance at the bottom as a function of the opacity of layer `c + 1`. -/
theorem ground_layer (B τ : ℕ → ℝ) (b x : ℝ) (c d : ℕ) :
    skyRadiance B (Function.update τ (c + 1) x) (c + 1 + d) + b * transDown (Function.update τ (c + 1) x) (c + 1 + d) =
      skyRadiance B τ c + transDown τ c * (layerSource (B c) (B (c + 1)) x * (1 - exp (-x)) +
        fromAbove B τ b (c + 1) d * exp (-x)) := by
  have e1 : skyRadiance B (Function.update τ (c + 1) x) c = skyRadiance B τ c :=
    skyRadiance_congr2 (fun _ _ => rfl) fun i _ h2 => Function.update_of_ne (by omega) _ _
  have e2 : transDown (Function.update τ (c + 1) x) c = transDown τ c := by
    unfold transDown
    rw [opacityBelow_congr fun i _ h2 => Function.update_of_ne (show i ≠ c + 1 by omega) _ _]
  have e3 : skyRadiance (fun i => B (i + (c + 1))) (fun i => Function.update τ (c + 1) x (i + (c + 1))) d =
      skyRadiance (fun i => B (i + (c + 1))) (fun i => τ (i + (c + 1))) d :=
    skyRadiance_congr2 (fun _ _ => rfl) fun i h1 _ => Function.update_of_ne (by omega) _ _
  have e4 : transDown (fun i => Function.update τ (c + 1) x (i + (c + 1))) d = transDown (fun i => τ (i + (c + 1))) d := by
    unfold transDown
    rw [opacityBelow_congr fun i h1 _ => Function.update_of_ne (show i + (c + 1) ≠ c + 1 by omega) _ _]
  rw [skyRadiance_stack, transDown_stack (c := c + 1), skyRadiance_succ, transDown_succ, e1, e2, e3, e4, Function.update_self]
  unfold fromAbove
  ring

/-- The radiance at the top as a function of the opacity of layer `c + 1`. -/
theorem sat_layer (B τ : ℕ → ℝ) (b x : ℝ) (c d : ℕ) :
    upRadiance B (Function.update τ (c + 1) x) (c + 1 + d) 0 + b * transUp (Function.update τ (c + 1) x) (c + 1 + d) 0 =
      upRadiance B τ (c + 1 + d) (c + 1) + transUp τ (c + 1 + d) (c + 1) * (layerSource (B (c + 1)) (B c) x * (1 - exp (-x)) +
        fromBelow B τ b c * exp (-x)) := by
  have o (m n i : ℕ) (h : ∀ i, m + 1 ≤ i → i ≤ n → i ≠ c + 1) (hi : m ≤ i) :
      transUp (Function.update τ (c + 1) x) n i = transUp τ n i := by
    unfold transUp opacityAbove
    congr 2
    refine Finset.sum_congr rfl fun j hj => ?_
    have := Finset.mem_Icc.1 hj
    exact Function.update_of_ne (h j (by omega) this.2) _ _
  have u (m n : ℕ) (h : ∀ i, m + 1 ≤ i → i ≤ n → i ≠ c + 1) :
      upRadiance B (Function.update τ (c + 1) x) n m = upRadiance B τ n m := by
    unfold upRadiance
    refine Finset.sum_congr rfl fun j hj => ?_
    have := Finset.mem_Icc.1 hj
    rw [o m n j h (by omega), o m n (j - 1) h (by omega), Function.update_of_ne (h j this.1 this.2)]
  have hk : c + 1 ≤ c + 1 + d := Nat.le_add_right _ _
  rw [up_stack hk, transUp_stack hk, upRadiance_succ, transUp_succ (Nat.zero_le c), Function.update_self,
    u (c + 1) _ (fun i h1 _ => by omega), o (c + 1) _ (c + 1) (fun i h1 _ => by omega) le_rfl,
    u 0 c (fun i _ h2 => by omega), o 0 c 0 (fun i _ h2 => by omega) le_rfl]
  unfold fromBelow
  ring

/-- `Tb x` is the brightness temperature when layer `k` has opacity `x`, for all `x` near the actual opacity. -/
def BrightOpacity (s : Bool) (es frq : ℝ) (nl : ℕ) (t τ : ℕ → ℝ) (k : ℕ) (Tb : ℝ → ℝ) : Prop :=
  ∀ᶠ x in 𝓝 (τ k), ∃ out, planck s es frq nl t (Function.update τ k x) = some out ∧
    bright out.hvk out.boftotl = some (Tb x)

theorem opacity_near {n k : ℕ} (hop : opacityBelow τ n < 125) :
    ∀ᶠ x in 𝓝 (τ k), opacityBelow (Function.update τ k x) n < 125 := by
  have : ContinuousAt (fun x => opacityBelow (Function.update τ k x) n) (τ k) := by
    unfold opacityBelow
    refine tendsto_finsetSum _ fun i _ => ?_
    by_cases h : i = k
    · subst h
      simp only [Function.update_self]
      exact tendsto_id
    · simp only [Function.update_of_ne h]
      exact tendsto_const_nhds
  refine this.eventually (gt_mem_nhds ?_)
  simpa only [Function.update_eq_self] using hop

theorem bright_of_rate {hvk r' x0 : ℝ} {R Tb : ℝ → ℝ} (hh : 0 < hvk) (hR : HasDerivAt R r' x0) (hpos : 0 < R x0)
    (hTb : ∀ᶠ x in 𝓝 x0, bright hvk (R x) = some (Tb x)) : HasDerivAt Tb (r' / planckSlope hvk (Tb x0)) x0 := by
  obtain ⟨T, hT, hTR⟩ := exists_tk2b hh hpos
  have b0 := hTb.self_of_nhds
  have eT : T = Tb x0 := by
    rw [← hTR, bright_tk2b hh hT] at b0
    exact Option.some.inj b0
  have hcomp := HasDerivAt.comp x0 (h₂ := fun b => hvk / log (1 + 1 / b)) (h := R)
    (by rw [← hTR]; exact bright_deriv hh hT) hR
  have hev : Tb =ᶠ[𝓝 x0] (fun b => hvk / log (1 + 1 / b)) ∘ R := by
    filter_upwards [hTb, hR.continuousAt.eventually (lt_mem_nhds hpos)] with x b hx
    rw [bright_of_pos hx] at b
    exact (Option.some.inj b).symm
  refine (hcomp.congr_of_eventuallyEq hev).congr_deriv ?_
  rw [eT]
  ring

/-- The total radiance, for any opacity of layer `c + 1`. -/
noncomputable def totalOf (s : Bool) (es frq : ℝ) (t τ : ℕ → ℝ) (c d : ℕ) (x : ℝ) : ℝ :=
  if s then upRadiance (fun i => tk2b (hvkOf frq) (t i)) τ (c + 1 + d) (c + 1) + transUp τ (c + 1 + d) (c + 1) *
      (layerSource (tk2b (hvkOf frq) (t (c + 1))) (tk2b (hvkOf frq) (t c)) x * (1 - exp (-x)) +
        fromBelow (fun i => tk2b (hvkOf frq) (t i)) τ (es * tk2b (hvkOf frq) (t 0)) c * exp (-x))
  else skyRadiance (fun i => tk2b (hvkOf frq) (t i)) τ c + transDown τ c *
      (layerSource (tk2b (hvkOf frq) (t c)) (tk2b (hvkOf frq) (t (c + 1))) x * (1 - exp (-x)) +
        fromAbove (fun i => tk2b (hvkOf frq) (t i)) τ (tk2b (hvkOf frq) 2.728) (c + 1) d * exp (-x))

/-- Its derivative at the actual opacity. -/
noncomputable def totalRate (s : Bool) (es frq : ℝ) (t τ : ℕ → ℝ) (c d : ℕ) : ℝ :=
  if s then transUp τ (c + 1 + d) c *
      (addedSource (tk2b (hvkOf frq) (t (c + 1))) (tk2b (hvkOf frq) (t c)) (τ (c + 1)) -
        fromBelow (fun i => tk2b (hvkOf frq) (t i)) τ (es * tk2b (hvkOf frq) (t 0)) c)
  else transDown τ (c + 1) *
      (addedSource (tk2b (hvkOf frq) (t c)) (tk2b (hvkOf frq) (t (c + 1))) (τ (c + 1)) -
        fromAbove (fun i => tk2b (hvkOf frq) (t i)) τ (tk2b (hvkOf frq) 2.728) (c + 1) d)

theorem totalOf_eq {s : Bool} {x : ℝ} (ho : opacityBelow (Function.update τ (c + 1) x) (c + 1 + d) < 125)
    (p : planck s es frq (c + 1 + d + 1) t (Function.update τ (c + 1) x) = some out) :
    out.boftotl = totalOf s es frq t τ c d x := by
  unfold totalOf
  cases s
  · obtain ⟨-, -, -, -, -, e5, -, e7⟩ := planck_ground p
    rw [Nat.add_sub_cancel] at e5 e7
    rw [e7, (e5 ho).1, add_comm]
    exact ground_layer (fun i => tk2b (hvkOf frq) (t i)) τ _ x c d
  · obtain ⟨-, -, -, -, -, e5, -, e7⟩ := planck_sat p
    rw [Nat.add_sub_cancel] at e5 e7
    rw [e7, (e5 ho).1, add_comm, ← opacityAbove_zero]
    exact sat_layer (fun i => tk2b (hvkOf frq) (t i)) τ _ x c d

theorem totalOf_deriv (s : Bool) (es frq : ℝ) (t τ : ℕ → ℝ) (c d : ℕ) :
    HasDerivAt (totalOf s es frq t τ c d) (totalRate s es frq t τ c d) (τ (c + 1)) := by
  unfold totalOf totalRate
  cases s
  · refine (((layer_deriv (tk2b (hvkOf frq) (t c)) (tk2b (hvkOf frq) (t (c + 1)))
      (fromAbove (fun i => tk2b (hvkOf frq) (t i)) τ (tk2b (hvkOf frq) 2.728) (c + 1) d) (τ (c + 1))).const_mul
      (transDown τ c)).const_add (skyRadiance (fun i => tk2b (hvkOf frq) (t i)) τ c)).congr_deriv ?_
    simp only [Bool.false_eq_true, if_false]
    rw [transDown_succ]
    ring
  · refine (((layer_deriv (tk2b (hvkOf frq) (t (c + 1))) (tk2b (hvkOf frq) (t c))
      (fromBelow (fun i => tk2b (hvkOf frq) (t i)) τ (es * tk2b (hvkOf frq) (t 0)) c) (τ (c + 1))).const_mul
      (transUp τ (c + 1 + d) (c + 1))).const_add
      (upRadiance (fun i => tk2b (hvkOf frq) (t i)) τ (c + 1 + d) (c + 1))).congr_deriv ?_
    simp only [if_true]
    rw [Verif.Spec.transUp_step (show c < c + 1 + d by omega)]
    ring

theorem totalOf_pos {s : Bool} (hf : 0 < frq) (hes : 0 < es) (ht : ∀ i < c + 1 + d + 1, 0 < t i)
    (hτ : ∀ i, 0 < i → i < c + 1 + d + 1 → 0 ≤ τ i) (hop : opacityBelow τ (c + 1 + d) < 125) :
    0 < totalOf s es frq t τ c d (τ (c + 1)) := by
  obtain ⟨out, p⟩ := planck_exists (s := s) (es := es) (frq := frq) (nl := c + 1 + d + 1) (t := t)
    (τ := Function.update τ (c + 1) (τ (c + 1))) (by omega)
  rw [← totalOf_eq (by rw [Function.update_eq_self]; exact hop) p]
  exact radiance_pos hf hes (by rw [Function.update_eq_self]; exact hτ) ht (by rw [Function.update_eq_self]; exact hop) p

/-- The hypothesis of the theorems below is met: close to the actual opacity there is a brightness temperature. -/
theorem bright_opacity (s : Bool) (hf : 0 < frq) (hes : 0 < es) (ht : ∀ i < c + 1 + d + 1, 0 < t i)
    (hτ : ∀ i, 0 < i → i < c + 1 + d + 1 → 0 ≤ τ i) (hop : opacityBelow τ (c + 1 + d) < 125) :
    ∃ Tb, BrightOpacity s es frq (c + 1 + d + 1) t τ (c + 1) Tb := by
  refine ⟨fun x => hvkOf frq / log (1 + 1 / totalOf s es frq t τ c d x), ?_⟩
  filter_upwards [opacity_near (k := c + 1) hop, (totalOf_deriv s es frq t τ c d).continuousAt.eventually
    (lt_mem_nhds (totalOf_pos (s := s) hf hes ht hτ hop))] with x ho hx
  obtain ⟨out, p⟩ := planck_exists (s := s) (es := es) (frq := frq) (nl := c + 1 + d + 1) (t := t)
    (τ := Function.update τ (c + 1) x) (by omega)
  refine ⟨out, p, ?_⟩
  rw [planck_hvk p, totalOf_eq ho p, bright_of_pos hx]

theorem bright_rate {s : Bool} {Tb : ℝ → ℝ} (hf : 0 < frq) (hes : 0 < es) (ht : ∀ i < c + 1 + d + 1, 0 < t i)
    (hτ : ∀ i, 0 < i → i < c + 1 + d + 1 → 0 ≤ τ i) (hop : opacityBelow τ (c + 1 + d) < 125)
    (hTb : BrightOpacity s es frq (c + 1 + d + 1) t τ (c + 1) Tb) :
    HasDerivAt Tb (totalRate s es frq t τ c d / planckSlope (hvkOf frq) (Tb (τ (c + 1)))) (τ (c + 1)) := by
  refine bright_of_rate (hvkOf_pos hf) (totalOf_deriv s es frq t τ c d) (totalOf_pos hf hes ht hτ hop) ?_
  filter_upwards [hTb, opacity_near (k := c + 1) hop] with x ⟨out, p, b⟩ ho
  rwa [planck_hvk p, totalOf_eq ho p] at b

theorem bright_temp_pos {s : Bool} {Tb : ℝ → ℝ} (hf : 0 < frq) (hes : 0 < es) (ht : ∀ i < c + 1 + d + 1, 0 < t i)
    (hτ : ∀ i, 0 < i → i < c + 1 + d + 1 → 0 ≤ τ i) (hop : opacityBelow τ (c + 1 + d) < 125)
    (hTb : BrightOpacity s es frq (c + 1 + d + 1) t τ (c + 1) Tb) : 0 < planckSlope (hvkOf frq) (Tb (τ (c + 1))) := by
  have hh := hvkOf_pos hf
  obtain ⟨T, hT, hTR⟩ := exists_tk2b hh (totalOf_pos (s := s) (es := es) (t := t) (τ := τ) (c := c) (d := d) hf hes ht hτ hop)
  obtain ⟨out, p, b⟩ := hTb.self_of_nhds
  rw [planck_hvk p, totalOf_eq (by rw [Function.update_eq_self]; exact hop) p, ← hTR, bright_tk2b hh hT] at b
  rw [← Option.some.inj b]
  exact div_pos (planckW_pos (by positivity)) hh

/-- **C132.** From the ground: a little more opacity in layer `c + 1` adds its emission and hides what comes from above, both
seen through the air below. -/
theorem C132_ground {Tb : ℝ → ℝ} (hf : 0 < frq) (hes : 0 < es) (ht : ∀ i < c + 1 + d + 1, 0 < t i)
    (hτ : ∀ i, 0 < i → i < c + 1 + d + 1 → 0 ≤ τ i) (hop : opacityBelow τ (c + 1 + d) < 125)
    (hTb : BrightOpacity false es frq (c + 1 + d + 1) t τ (c + 1) Tb) :
    HasDerivAt Tb (transDown τ (c + 1) *
      (addedSource (tk2b (hvkOf frq) (t c)) (tk2b (hvkOf frq) (t (c + 1))) (τ (c + 1)) -
        fromAbove (fun i => tk2b (hvkOf frq) (t i)) τ (tk2b (hvkOf frq) 2.728) (c + 1) d) /
      planckSlope (hvkOf frq) (Tb (τ (c + 1)))) (τ (c + 1)) :=
  bright_rate hf hes ht hτ hop hTb

/-- **C132.** From a satellite: what is hidden comes from below. -/
theorem C132_satellite {Tb : ℝ → ℝ} (hf : 0 < frq) (hes : 0 < es) (ht : ∀ i < c + 1 + d + 1, 0 < t i)
    (hτ : ∀ i, 0 < i → i < c + 1 + d + 1 → 0 ≤ τ i) (hop : opacityBelow τ (c + 1 + d) < 125)
    (hTb : BrightOpacity true es frq (c + 1 + d + 1) t τ (c + 1) Tb) :
    HasDerivAt Tb (transUp τ (c + 1 + d) c *
      (addedSource (tk2b (hvkOf frq) (t (c + 1))) (tk2b (hvkOf frq) (t c)) (τ (c + 1)) -
        fromBelow (fun i => tk2b (hvkOf frq) (t i)) τ (es * tk2b (hvkOf frq) (t 0)) c) /
      planckSlope (hvkOf frq) (Tb (τ (c + 1)))) (τ (c + 1)) :=
  bright_rate hf hes ht hτ hop hTb

/-- **C132.** The sign: the brightness temperature rises with the opacity of a layer exactly when what the added opacity emits
exceeds what arrives from behind. -/
theorem C132_sign {s : Bool} {Tb : ℝ → ℝ} {D : ℝ} (hf : 0 < frq) (hes : 0 < es) (ht : ∀ i < c + 1 + d + 1, 0 < t i)
    (hτ : ∀ i, 0 < i → i < c + 1 + d + 1 → 0 ≤ τ i) (hop : opacityBelow τ (c + 1 + d) < 125)
    (hTb : BrightOpacity s es frq (c + 1 + d + 1) t τ (c + 1) Tb) (hD : HasDerivAt Tb D (τ (c + 1))) :
    0 < D ↔ if s then
        fromBelow (fun i => tk2b (hvkOf frq) (t i)) τ (es * tk2b (hvkOf frq) (t 0)) c <
          addedSource (tk2b (hvkOf frq) (t (c + 1))) (tk2b (hvkOf frq) (t c)) (τ (c + 1))
      else fromAbove (fun i => tk2b (hvkOf frq) (t i)) τ (tk2b (hvkOf frq) 2.728) (c + 1) d <
          addedSource (tk2b (hvkOf frq) (t c)) (tk2b (hvkOf frq) (t (c + 1))) (τ (c + 1)) := by
  rw [hD.unique (bright_rate hf hes ht hτ hop hTb), div_pos_iff_of_pos_right (bright_temp_pos hf hes ht hτ hop hTb)]
  unfold totalRate
  cases s
  · simp only [Bool.false_eq_true, if_false]
    rw [mul_pos_iff_of_pos_left transDown_pos, sub_pos]
  · simp only [if_true]
    rw [mul_pos_iff_of_pos_left transUp_pos, sub_pos]

/-- **C132.** What added opacity emits: the mean of the two boundaries in a transparent layer; the far boundary when both are
alike; on the near boundary's side of the far one, up to twice the distance. -/
theorem C132_source (N F x : ℝ) (hx : 0 ≤ x) :
    addedSource N F 0 = (N + F) / 2 ∧ addedSource F F x = F ∧
      (F ≤ N → F + (N - F) / 2 ≤ addedSource N F x ∧ addedSource N F x ≤ F + 2 * (N - F)) ∧
      (N ≤ F → F + 2 * (N - F) ≤ addedSource N F x ∧ addedSource N F x ≤ F + (N - F) / 2) := by
  have hy0 := exp_pos (-x)
  have hy1 : exp (-x) ≤ 1 := exp_le_one_iff.2 (by linarith)
  have k1 : 1 / 2 ≤ 2 / (1 + exp (-x)) ^ 2 := by
    rw [div_le_div_iff₀ (by norm_num) (by positivity)]
    nlinarith
  have k2 : 2 / (1 + exp (-x)) ^ 2 ≤ 2 := by
    rw [div_le_iff₀ (by positivity)]
    nlinarith
  refine ⟨?_, ?_, fun h => ⟨?_, ?_⟩, fun h => ⟨?_, ?_⟩⟩
  · unfold addedSource
    rw [neg_zero, exp_zero]
    ring
  · unfold addedSource
    ring
  all_goals
    unfold addedSource
    nlinarith

/-- **C132.** Air that does not get warmer with height and is nowhere colder than the cosmic background: from the ground, more
opacity in any layer never lowers the brightness temperature; from a satellite over a surface of emissivity one, never
raises it. -/
theorem C132_cooling {s : Bool} {Tb : ℝ → ℝ} {D : ℝ} (hf : 0 < frq) (hes : es = 1)
    (hbg : ∀ i < c + 1 + d + 1, 2.728 ≤ t i) (hcool : ∀ i j, i ≤ j → j < c + 1 + d + 1 → t j ≤ t i)
    (hτ : ∀ i, 0 < i → i < c + 1 + d + 1 → 0 ≤ τ i) (hop : opacityBelow τ (c + 1 + d) < 125)
    (hTb : BrightOpacity s es frq (c + 1 + d + 1) t τ (c + 1) Tb) (hD : HasDerivAt Tb D (τ (c + 1))) :
    if s then D ≤ 0 else 0 ≤ D := by
  have hh := hvkOf_pos hf
  have ht : ∀ i < c + 1 + d + 1, 0 < t i := fun i hi => by linarith [hbg i hi]
  have hes0 : 0 < es := by rw [hes]; norm_num
  have hx := hτ (c + 1) (by omega) (by omega)
  have hle : tk2b (hvkOf frq) (t (c + 1)) ≤ tk2b (hvkOf frq) (t c) :=
    tk2b_mono hh (ht _ (by omega)) (hcool _ _ (by omega) (by omega))
  have hpos := bright_temp_pos hf hes0 ht hτ hop hTb
  rw [hD.unique (bright_rate hf hes0 ht hτ hop hTb)]
  unfold totalRate
  cases s
  · simp only [Bool.false_eq_true, if_false]
    refine div_nonneg (mul_nonneg transDown_pos.le (sub_nonneg.2 ?_)) hpos.le
    have k1 := (((C132_source _ _ _ hx).2.2.1) hle).1
    have hb : fromAbove (fun i => tk2b (hvkOf frq) (t i)) τ (tk2b (hvkOf frq) 2.728) (c + 1) d ≤ tk2b (hvkOf frq) (t (c + 1)) := by
      unfold fromAbove
      have := (skyRadiance_bounds (n := d) (τ := fun i => τ (i + (c + 1))) (B := fun i => tk2b (hvkOf frq) (t (i + (c + 1))))
        (lo := 0) (hi := tk2b (hvkOf frq) (t (c + 1))) (fun i _ h2 => hτ _ (by omega) (by omega)) fun i hi =>
          ⟨(tk2b_pos hh (ht _ (by omega))).le, tk2b_mono hh (ht _ (by omega)) (hcool _ _ (by omega) (by omega))⟩).2
      have k2 := mul_le_mul_of_nonneg_right (tk2b_mono hh (by norm_num) (hbg (c + 1) (by omega)))
        (transDown_pos (τ := fun i => τ (i + (c + 1))) (i := d)).le
      linarith
    linarith
  · simp only [if_true]
    refine div_nonpos_of_nonpos_of_nonneg (mul_nonpos_of_nonneg_of_nonpos transUp_pos.le (sub_nonpos.2 ?_)) hpos.le
    have k1 := (((C132_source _ _ _ hx).2.2.2) hle).2
    have hb : tk2b (hvkOf frq) (t c) ≤ fromBelow (fun i => tk2b (hvkOf frq) (t i)) τ (es * tk2b (hvkOf frq) (t 0)) c := by
      unfold fromBelow
      rw [hes, one_mul]
      have := (upRadiance_bounds (n := c) (τ := τ) (B := fun i => tk2b (hvkOf frq) (t i))
        (lo := tk2b (hvkOf frq) (t c)) (hi := tk2b (hvkOf frq) (t 0)) (fun i h1 h2 => hτ _ (by omega) (by omega)) fun i hi =>
          ⟨tk2b_mono hh (ht _ (by omega)) (hcool _ _ (by omega) (by omega)),
            tk2b_mono hh (ht _ (by omega)) (hcool _ _ (by omega) (by omega))⟩).1
      have k2 := mul_le_mul_of_nonneg_right (tk2b_mono hh (ht c (by omega)) (hcool 0 c (by omega) (by omega)))
        (transUp_pos (τ := τ) (n := c) (i := 0)).le
      have e : transDown τ c = transUp τ c 0 := rfl
      rw [e] at this
      linarith
    linarith

/-- Four levels at 22.235 GHz, seen from either side: the second layer has a derivative, with the sign of a cooling profile. -/
example (s : Bool) : ∃ (Tb : ℝ → ℝ) (D : ℝ), BrightOpacity s 1 22.235 4 (fun i => 280 - 10 * i) (fun _ => 0.1) 2 Tb ∧
    HasDerivAt Tb D 0.1 ∧ if s then D ≤ 0 else 0 ≤ D := by
  have hop : opacityBelow (fun _ => (0.1 : ℝ)) (1 + 1 + 1) < 125 := by
    simp [opacityBelow]; norm_num
  have hb : ∀ i < 1 + 1 + 1 + 1, (2.728 : ℝ) ≤ 280 - 10 * (i : ℕ) := fun i hi => by
    have : (i : ℝ) ≤ 3 := by exact_mod_cast Nat.le_of_lt_succ hi
    norm_num
    linarith
  have hc : ∀ i j : ℕ, i ≤ j → j < 1 + 1 + 1 + 1 → (280 - 10 * (j : ℝ)) ≤ 280 - 10 * (i : ℝ) := fun i j h _ => by
    have : (i : ℝ) ≤ j := by exact_mod_cast h
    linarith
  have ht : ∀ i < 1 + 1 + 1 + 1, (0 : ℝ) < 280 - 10 * (i : ℕ) := fun i hi => by linarith [hb i hi]
  obtain ⟨Tb, hTb⟩ := bright_opacity (c := 1) (d := 1) (es := 1) (frq := 22.235) (t := fun i : ℕ => (280 - 10 * i : ℝ))
    (τ := fun _ => 0.1) s (by norm_num) (by norm_num) ht (fun _ _ _ => by norm_num) hop
  have hD := bright_rate (c := 1) (d := 1) (by norm_num) (by norm_num) ht (fun _ _ _ => by norm_num) hop hTb
  exact ⟨Tb, _, hTb, hD, C132_cooling (c := 1) (d := 1) (by norm_num) rfl hb hc (fun _ _ _ => by norm_num) hop hTb hD⟩

end Verif.Props
