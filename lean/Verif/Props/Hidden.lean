/-
C104: opaque air hides what lies behind it, and is seen at the temperature on the side of the observer.
-/
import Verif.Lemmas.PlanckOut
import Verif.Lemmas.Bright
import Verif.Props.Discretisation

namespace Verif.Props

open Verif.Model Verif.Spec Verif.Lemmas Real

theorem below_range (f : ℕ → ℝ) (c : ℕ) : opacityBelow f c = ∑ i ∈ Finset.range c, f (i + 1) := by
  induction c with
  | zero => simp
  | succ c ih => rw [opacityBelow_succ, ih, Finset.sum_range_succ]

/-- What arrives from behind level `c`, background included. -/
theorem sky_rest {B τ : ℕ → ℝ} {b bg : ℝ} {n c : ℕ} (hc : c ≤ n) (hτ : ∀ i, 1 ≤ i → i ≤ n → 0 ≤ τ i)
    (hB : ∀ i ≤ n, 0 ≤ B i ∧ B i ≤ b) (h0 : 0 ≤ bg) (h1 : bg ≤ b * transDown τ n) :
    skyRadiance B τ c ≤ bg + skyRadiance B τ n ∧
      bg + skyRadiance B τ n ≤ skyRadiance B τ c + b * transDown τ c := by
  obtain ⟨d, rfl⟩ := Nat.exists_eq_add_of_le hc
  rw [skyRadiance_stack, transDown_stack] at *
  obtain ⟨l, u⟩ := skyRadiance_bounds (B := fun i => B (i + c)) (τ := fun i => τ (i + c)) (n := d) (lo := 0) (hi := b)
    (fun i h1 h2 => hτ _ (by omega) (by omega)) (fun i hi => hB _ (by omega))
  have hp := transDown_pos (τ := τ) (i := c)
  rw [zero_mul] at l
  have := mul_nonneg hp.le l
  have := mul_le_mul_of_nonneg_left u hp.le
  constructor
  · linarith
  · nlinarith

/-- The radiance from behind a first layer, against the radiance of the near level. -/
theorem sky_near {B τ : ℕ → ℝ} {b bg : ℝ} {n : ℕ} (hn : 1 ≤ n) (hτ : ∀ i, 1 ≤ i → i ≤ n → 0 ≤ τ i)
    (hB : ∀ i ≤ n, 0 ≤ B i ∧ B i ≤ b) (h0 : 0 ≤ bg) (h1 : bg ≤ b * transDown τ n) :
    |bg + skyRadiance B τ n - B 0| ≤ 2 * exp (-τ 1) * b := by
  obtain ⟨l, u⟩ := sky_rest hn hτ hB h0 h1
  have e1 : transDown τ 1 = exp (-τ 1) := by simp [transDown, opacityBelow]
  have e2 : skyRadiance B τ 1 = layerSource (B 0) (B 1) (τ 1) * (1 - exp (-τ 1)) := by
    rw [show (1 : ℕ) = 0 + 1 from rfl, skyRadiance_succ, skyRadiance_zero, transDown_zero, ← e1]; simp
  rw [e1] at u
  rw [e2] at l u
  have hx : exp (-τ 1) ≤ 1 := by rw [exp_le_one_iff]; linarith [hτ 1 le_rfl hn]
  have hp := exp_pos (-τ 1)
  unfold layerSource at l u
  obtain ⟨b0, b0'⟩ := hB 0 (by omega)
  obtain ⟨b1, b1'⟩ := hB 1 hn
  obtain ⟨x, hxd⟩ : ∃ x, x = exp (-τ 1) := ⟨_, rfl⟩
  rw [← hxd] at l u hx hp ⊢
  have key : (B 0 + B 1 * x) / (1 + x) * (1 - x) = B 0 - x * B 0 + x * (1 - x) / (1 + x) * (B 1 - B 0) := by
    field_simp; ring
  have hw : 0 ≤ x * (1 - x) / (1 + x) := div_nonneg (mul_nonneg hp.le (by linarith)) (by linarith)
  have hw1 : x * (1 - x) / (1 + x) ≤ x := by
    rw [div_le_iff₀ (by linarith)]; nlinarith
  have d1 : x * (1 - x) / (1 + x) * (B 1 - B 0) ≤ x * (b - B 0) := by
    refine (mul_le_mul_of_nonneg_left (show B 1 - B 0 ≤ b - B 0 by linarith) hw).trans ?_
    exact mul_le_mul_of_nonneg_right hw1 (by linarith)
  have d2 : -(x * B 0) ≤ x * (1 - x) / (1 + x) * (B 1 - B 0) := by
    have : x * (1 - x) / (1 + x) * B 0 ≤ x * B 0 := mul_le_mul_of_nonneg_right hw1 b0
    have := mul_nonneg hw b1
    linarith [mul_sub (x * (1 - x) / (1 + x)) (B 1) (B 0)]
  rw [key] at l u
  rw [abs_le]
  have := mul_le_mul_of_nonneg_left b0' hp.le
  have := mul_nonneg hp.le b0
  constructor <;> nlinarith

variable {es es' frq M : ℝ} {nl nl' : ℕ} {t t' τ τ' : ℕ → ℝ} {out out' : PlanckOut}

/-- The radiance at the ground in the form of the two lemmas. -/
theorem ground_form (hf : 0 < frq) (hM : 2.728 ≤ M) (h : planck false es frq nl t τ = some out) :
    ∃ bg, 0 ≤ bg ∧ bg ≤ tk2b (hvkOf frq) M * transDown τ (nl - 1) ∧
      out.boftotl = bg + skyRadiance (fun i => tk2b (hvkOf frq) (t i)) τ (nl - 1) := by
  obtain ⟨hn, -, -, -, -, e5, e6, e7⟩ := planck_ground h
  have hh := hvkOf_pos hf
  have hc : (0 : ℝ) < cTcosmicbkg := by norm_num [cTcosmicbkg]
  have hb := tk2b_mono hh hc (show cTcosmicbkg ≤ M by unfold cTcosmicbkg; exact hM)
  have hp := tk2b_pos hh hc
  have hx := transDown_pos (τ := τ) (i := nl - 1)
  refine ⟨out.bakgrnd, ?_, ?_, e7⟩ <;> rcases lt_or_ge (opacityBelow τ (nl - 1)) 125 with hl | hl
  · rw [(e5 hl).1]; positivity
  · rw [(e6 hl).1]
  · rw [(e5 hl).1]; exact mul_le_mul_of_nonneg_right hb hx.le
  · rw [(e6 hl).1]; exact mul_nonneg (hp.le.trans hb) hx.le

/-- The radiance at the satellite in the same form, levels counted from the top. -/
theorem satellite_form (hf : 0 < frq) (hes : 0 ≤ es ∧ es ≤ 1)
    (ht : ∀ i < nl, 0 < t i ∧ t i ≤ M) (h : planck true es frq nl t τ = some out) :
    ∃ bg, 0 ≤ bg ∧ bg ≤ tk2b (hvkOf frq) M * transDown (fun i => τ (nl - i)) (nl - 1) ∧
      out.boftotl = bg + skyRadiance (fun i => tk2b (hvkOf frq) (t (nl - 1 - i))) (fun i => τ (nl - i)) (nl - 1) := by
  obtain ⟨hn, -, -, -, -, e5, e6, e7⟩ := planck_sat h
  have hh := hvkOf_pos hf
  have hb := tk2b_mono hh (ht 0 hn).1 (ht 0 hn).2
  have hp := tk2b_pos hh (ht 0 hn).1
  have hrev : ∀ i, 1 ≤ i → i ≤ nl - 1 → (fun i => τ (nl - i)) i = τ (nl - 1 + 1 - i) := fun i _ _ => by
    show τ _ = τ _
    congr 1; omega
  have eo : opacityBelow τ (nl - 1) = opacityBelow (fun i => τ (nl - i)) (nl - 1) := by
    have := opacityAbove_reverse (i := 0) hrev (Nat.zero_le _)
    rwa [opacityAbove_zero, Nat.sub_zero] at this
  have eu : upRadiance (fun i => tk2b (hvkOf frq) (t i)) τ (nl - 1) 0 =
      skyRadiance (fun i => tk2b (hvkOf frq) (t (nl - 1 - i))) (fun i => τ (nl - i)) (nl - 1) :=
    upRadiance_reverse hrev (fun i _ => rfl) (Nat.zero_le _)
  rw [eu] at e7
  rw [eo] at e5 e6
  have hx := transDown_pos (τ := fun i => τ (nl - i)) (i := nl - 1)
  have hle : es * tk2b (hvkOf frq) (t 0) ≤ tk2b (hvkOf frq) M := by
    nlinarith [mul_le_mul_of_nonneg_right hes.2 hp.le]
  refine ⟨out.bakgrnd, ?_, ?_, e7⟩ <;> rcases lt_or_ge (opacityBelow (fun i => τ (nl - i)) (nl - 1)) 125 with hl | hl
  · rw [(e5 hl).1]; have := hes.1; positivity
  · rw [(e6 hl).1]
  · rw [(e5 hl).1]; exact mul_le_mul_of_nonneg_right hle hx.le
  · rw [(e6 hl).1]; exact mul_nonneg (hp.le.trans hb) hx.le

/-- **C104.** Seen from the ground: two atmospheres that agree up to level `c`, whatever lies above in either and however many
levels there are, differ in the received radiance by no more than the transmittance up to that level times the radiance of the
warmest air. -/
theorem C104_hidden_ground (hf : 0 < frq) (hM : 2.728 ≤ M) (hτ : ∀ i, 1 ≤ i → i < nl → 0 ≤ τ i)
    (hτ' : ∀ i, 1 ≤ i → i < nl' → 0 ≤ τ' i) (ht : ∀ i < nl, 0 < t i ∧ t i ≤ M) (ht' : ∀ i < nl', 0 < t' i ∧ t' i ≤ M)
    {c : ℕ} (hc : c < nl) (hc' : c < nl') (e : ∀ i ≤ c, t i = t' i) (eτ : ∀ i, 1 ≤ i → i ≤ c → τ i = τ' i)
    (h : planck false es frq nl t τ = some out) (h' : planck false es' frq nl' t' τ' = some out') :
    |out.boftotl - out'.boftotl| ≤ exp (-opacityBelow τ c) * tk2b out.hvk M := by
  have hh := hvkOf_pos hf
  obtain ⟨bg, a1, a2, a3⟩ := ground_form hf hM h
  obtain ⟨bg', b1, b2, b3⟩ := ground_form hf hM h'
  have B (i : ℕ) (hi : i ≤ nl - 1) : 0 ≤ tk2b (hvkOf frq) (t i) ∧ tk2b (hvkOf frq) (t i) ≤ tk2b (hvkOf frq) M :=
    have := ht i (by omega)
    ⟨(tk2b_pos hh this.1).le, tk2b_mono hh this.1 this.2⟩
  have B' (i : ℕ) (hi : i ≤ nl' - 1) : 0 ≤ tk2b (hvkOf frq) (t' i) ∧ tk2b (hvkOf frq) (t' i) ≤ tk2b (hvkOf frq) M :=
    have := ht' i (by omega)
    ⟨(tk2b_pos hh this.1).le, tk2b_mono hh this.1 this.2⟩
  obtain ⟨l, u⟩ := sky_rest (c := c) (by omega) (fun i h1 h2 => hτ i h1 (by omega)) B a1 a2
  obtain ⟨l', u'⟩ := sky_rest (c := c) (by omega) (fun i h1 h2 => hτ' i h1 (by omega)) B' b1 b2
  have es : skyRadiance (fun i => tk2b (hvkOf frq) (t' i)) τ' c = skyRadiance (fun i => tk2b (hvkOf frq) (t i)) τ c :=
    skyRadiance_congr2 (fun i hi => by rw [e i hi]) fun i h1 h2 => (eτ i h1 h2).symm
  have et : transDown τ' c = transDown τ c := by unfold transDown; rw [Spec.opacityBelow_congr eτ]
  rw [es] at l' u'
  rw [et] at u'
  rw [a3, b3, (planck_ground h).2.1, abs_le, show exp (-opacityBelow τ c) = transDown τ c from rfl]
  constructor <;> linarith

/-- **C104.** Seen from above: the same, counting from the top; the surface, its emissivity, and everything below the level may
differ. -/
theorem C104_hidden_satellite (hf : 0 < frq) (hes : 0 ≤ es ∧ es ≤ 1) (hes' : 0 ≤ es' ∧ es' ≤ 1)
    (hτ : ∀ i, 1 ≤ i → i < nl → 0 ≤ τ i) (hτ' : ∀ i, 1 ≤ i → i < nl' → 0 ≤ τ' i) (ht : ∀ i < nl, 0 < t i ∧ t i ≤ M)
    (ht' : ∀ i < nl', 0 < t' i ∧ t' i ≤ M) {c : ℕ} (hc : c < nl) (hc' : c < nl')
    (e : ∀ i ≤ c, t (nl - 1 - i) = t' (nl' - 1 - i)) (eτ : ∀ i < c, τ (nl - 1 - i) = τ' (nl' - 1 - i))
    (h : planck true es frq nl t τ = some out) (h' : planck true es' frq nl' t' τ' = some out') :
    |out.boftotl - out'.boftotl| ≤ exp (-∑ i ∈ Finset.range c, τ (nl - 1 - i)) * tk2b out.hvk M := by
  have hh := hvkOf_pos hf
  obtain ⟨bg, a1, a2, a3⟩ := satellite_form hf hes ht h
  obtain ⟨bg', b1, b2, b3⟩ := satellite_form hf hes' ht' h'
  have B (i : ℕ) (hi : i ≤ nl - 1) : 0 ≤ tk2b (hvkOf frq) (t (nl - 1 - i)) ∧
      tk2b (hvkOf frq) (t (nl - 1 - i)) ≤ tk2b (hvkOf frq) M :=
    have := ht (nl - 1 - i) (by omega)
    ⟨(tk2b_pos hh this.1).le, tk2b_mono hh this.1 this.2⟩
  have B' (i : ℕ) (hi : i ≤ nl' - 1) : 0 ≤ tk2b (hvkOf frq) (t' (nl' - 1 - i)) ∧
      tk2b (hvkOf frq) (t' (nl' - 1 - i)) ≤ tk2b (hvkOf frq) M :=
    have := ht' (nl' - 1 - i) (by omega)
    ⟨(tk2b_pos hh this.1).le, tk2b_mono hh this.1 this.2⟩
  obtain ⟨l, u⟩ := sky_rest (c := c) (by omega) (fun i h1 h2 => hτ (nl - i) (by omega) (by omega)) B a1 a2
  obtain ⟨l', u'⟩ := sky_rest (c := c) (by omega) (fun i h1 h2 => hτ' (nl' - i) (by omega) (by omega)) B' b1 b2
  have eτ2 (i : ℕ) (h1 : 1 ≤ i) (h2 : i ≤ c) : τ' (nl' - i) = τ (nl - i) := by
    have := eτ (i - 1) (by omega)
    rw [show nl - i = nl - 1 - (i - 1) by omega, show nl' - i = nl' - 1 - (i - 1) by omega, this]
  have es : skyRadiance (fun i => tk2b (hvkOf frq) (t' (nl' - 1 - i))) (fun i => τ' (nl' - i)) c =
      skyRadiance (fun i => tk2b (hvkOf frq) (t (nl - 1 - i))) (fun i => τ (nl - i)) c :=
    skyRadiance_congr2 (fun i hi => by rw [e i hi]) eτ2
  have et : transDown (fun i => τ' (nl' - i)) c = transDown (fun i => τ (nl - i)) c := by
    unfold transDown; rw [Spec.opacityBelow_congr eτ2]
  have ex : exp (-∑ i ∈ Finset.range c, τ (nl - 1 - i)) = transDown (fun i => τ (nl - i)) c := by
    unfold transDown
    rw [below_range]
    exact congrArg (fun x => exp (-x)) (Finset.sum_congr rfl fun i _ => congrArg τ (by omega))
  rw [es] at l' u'
  rw [et] at u'
  rw [a3, b3, (planck_sat h).2.1, abs_le, ex]
  constructor <;> linarith

/-- Two atmospheres that differ by 50 K behind an opacity of 20: the radiances at 183 GHz agree to 3e-9 of that of 300 K. -/
example : ∃ out out', planck false 1 183 3 (fun i => if i = 2 then 200 else 280) (fun _ => 20) = some out ∧
    planck false 1 183 3 (fun i => if i = 2 then 250 else 280) (fun _ => 20) = some out' ∧
    |out.boftotl - out'.boftotl| ≤ exp (-20) * tk2b out.hvk 300 := by
  obtain ⟨o, h⟩ := planck_exists (s := false) (es := 1) (frq := 183) (nl := 3) (t := fun i => if i = 2 then 200 else 280)
    (τ := fun _ => 20) (by norm_num)
  obtain ⟨o', h'⟩ := planck_exists (s := false) (es := 1) (frq := 183) (nl := 3) (t := fun i => if i = 2 then 250 else 280)
    (τ := fun _ => 20) (by norm_num)
  refine ⟨o, o', h, h', ?_⟩
  have := C104_hidden_ground (frq := 183) (M := 300) (nl := 3) (nl' := 3) (es := 1) (es' := 1) (τ := fun _ => 20)
    (τ' := fun _ => 20) (t := fun i => if i = 2 then 200 else 280) (t' := fun i => if i = 2 then 250 else 280) (c := 1)
    (by norm_num) (by norm_num) (fun _ _ _ => by norm_num) (fun _ _ _ => by norm_num)
    (fun i _ => by split <;> norm_num) (fun i _ => by split <;> norm_num) (by norm_num) (by norm_num)
    (fun i hi => by rw [if_neg (by omega), if_neg (by omega)]) (fun _ _ _ => rfl) h h'
  rwa [show opacityBelow (fun _ => (20 : ℝ)) 1 = 20 by simp [opacityBelow]] at this

/-- **C104.** Seen from the ground the radiance differs from that of a black body at the temperature of the lowest level by no
more than twice the transmittance of the lowest layer, in units of the radiance of the warmest air. -/
theorem C104_near_ground (hf : 0 < frq) (hM : 2.728 ≤ M) (hτ : ∀ i, 1 ≤ i → i < nl → 0 ≤ τ i)
    (ht : ∀ i < nl, 0 < t i ∧ t i ≤ M) (hn : 2 ≤ nl) (h : planck false es frq nl t τ = some out) :
    |out.boftotl - tk2b out.hvk (t 0)| ≤ 2 * exp (-τ 1) * tk2b out.hvk M := by
  have hh := hvkOf_pos hf
  obtain ⟨bg, a1, a2, a3⟩ := ground_form hf hM h
  rw [a3, (planck_ground h).2.1]
  exact sky_near (B := fun i => tk2b (hvkOf frq) (t i)) (by omega) (fun i h1 h2 => hτ i h1 (by omega))
    (fun i hi => have := ht i (by omega); ⟨(tk2b_pos hh this.1).le, tk2b_mono hh this.1 this.2⟩) a1 a2

/-- **C104.** Seen from above: the highest level and the highest layer. -/
theorem C104_near_satellite (hf : 0 < frq) (hes : 0 ≤ es ∧ es ≤ 1) (hτ : ∀ i, 1 ≤ i → i < nl → 0 ≤ τ i)
    (ht : ∀ i < nl, 0 < t i ∧ t i ≤ M) (hn : 2 ≤ nl) (h : planck true es frq nl t τ = some out) :
    |out.boftotl - tk2b out.hvk (t (nl - 1))| ≤ 2 * exp (-τ (nl - 1)) * tk2b out.hvk M := by
  have hh := hvkOf_pos hf
  obtain ⟨bg, a1, a2, a3⟩ := satellite_form hf hes ht h
  rw [a3, (planck_sat h).2.1]
  exact sky_near (B := fun i => tk2b (hvkOf frq) (t (nl - 1 - i))) (τ := fun i => τ (nl - i)) (by omega)
    (fun i h1 h2 => hτ (nl - i) (by omega) (by omega))
    (fun i hi => have := ht (nl - 1 - i) (by omega); ⟨(tk2b_pos hh this.1).le, tk2b_mono hh this.1 this.2⟩) a1 a2

example : ∃ out, planck true 0.5 183 3 (fun i => 290 - 40 * i) (fun _ => 30) = some out ∧
    |out.boftotl - tk2b out.hvk 210| ≤ 2 * exp (-30) * tk2b out.hvk 300 := by
  obtain ⟨o, h⟩ := planck_exists (s := true) (es := 0.5) (frq := 183) (nl := 3) (t := fun i => 290 - 40 * i)
    (τ := fun _ => 30) (by norm_num)
  refine ⟨o, h, ?_⟩
  have := C104_near_satellite (frq := 183) (M := 300) (nl := 3) (es := 0.5) (τ := fun _ => 30)
    (t := fun i => 290 - 40 * i) (by norm_num) (by norm_num) (fun _ _ _ => by norm_num)
    (fun i hi => by
      have : (i : ℝ) ≤ 2 := by exact_mod_cast (show i ≤ 2 by omega)
      constructor <;> linarith [(Nat.cast_nonneg i : (0 : ℝ) ≤ i)]) (by norm_num) h
  norm_num at this ⊢
  exact this

/-- **C104.** So, when the layer next to the observer is opaque enough, the brightness temperature is as close as one likes to the
temperature on the observer's side of it, and how opaque is enough does not depend on the rest of the atmosphere. -/
theorem C104_brightness (hf : 0 < frq) {T0 ε : ℝ} (hT0 : 0 < T0) (hM : 2.728 ≤ M) (hε : 0 < ε) :
    ∃ K, ∀ s es nl t τ out, 0 ≤ es ∧ es ≤ 1 → 2 ≤ nl → (∀ i, 1 ≤ i → i < nl → 0 ≤ τ i) → (∀ i < nl, 0 < t i ∧ t i ≤ M) →
      t (if s then nl - 1 else 0) = T0 → K ≤ τ (if s then nl - 1 else 1) → planck s es frq nl t τ = some out →
      ∃ Tb, bright out.hvk out.boftotl = some Tb ∧ |Tb - T0| ≤ ε := by
  have hh := hvkOf_pos hf
  obtain ⟨T, hTp, hT, η, hη, H⟩ := brightness_limit (hvk := hvkOf frq) (b := tk2b (hvkOf frq) T0) hh hT0 le_rfl hε
  rw [bright_tk2b hh hT0] at hT
  cases hT
  have hMp : 0 < M := by linarith
  have hb := tk2b_pos hh hMp
  refine ⟨log (2 * tk2b (hvkOf frq) M / η), fun s es nl t τ out hes hn hτ ht h0 hK h => ?_⟩
  have hx : ∀ x, log (2 * tk2b (hvkOf frq) M / η) ≤ x → 2 * exp (-x) * tk2b (hvkOf frq) M ≤ η := fun x hx => by
    have h1 : exp (-x) ≤ exp (-log (2 * tk2b (hvkOf frq) M / η)) := exp_le_exp.2 (by linarith)
    rw [exp_neg, exp_neg, exp_log (by positivity), inv_div] at h1
    rw [exp_neg]
    calc 2 * (exp x)⁻¹ * tk2b (hvkOf frq) M ≤ 2 * (η / (2 * tk2b (hvkOf frq) M)) * tk2b (hvkOf frq) M := by gcongr
      _ = η := by field_simp
  cases s with
  | false =>
    have k := C104_near_ground hf hM hτ ht hn h
    simp only [Bool.false_eq_true, if_false] at h0 hK
    rw [h0, (planck_ground h).2.1] at k
    rw [(planck_ground h).2.1]
    exact H _ (k.trans (hx _ hK))
  | true =>
    have k := C104_near_satellite hf hes hτ ht hn h
    simp only [if_true] at h0 hK
    rw [h0, (planck_sat h).2.1] at k
    rw [(planck_sat h).2.1]
    exact H _ (k.trans (hx _ hK))

end Verif.Props
