import Verif.Lemmas.PlanckShift

/-!
# Radiance as a function of opacity
-/

namespace Verif.Lemmas

open Verif.Model Verif.Spec Real Set

variable {near far b b' lo hi t t' d : ℝ} {n m : ℕ} {B τ τ' : ℕ → ℝ}

theorem exp_gap (h : t ≤ t') (ht : 0 ≤ t) : 0 ≤ exp (-t) - exp (-t') ∧ exp (-t) - exp (-t') ≤ t' - t := by
  have h1 : exp (-t) ≤ 1 := exp_le_one_iff.2 (by linarith)
  have h2 : exp (-t') = exp (-t) * exp (-(t' - t)) := by rw [← exp_add]; congr 1; ring
  have h3 := add_one_le_exp (-(t' - t))
  have h4 : exp (-(t' - t)) ≤ 1 := exp_le_one_iff.2 (by linarith)
  have h5 := exp_pos (-t)
  rw [h2]
  constructor <;> nlinarith

theorem logistic_gap (h : t ≤ t') :
    2 * (exp (-t) - exp (-t')) / ((1 + exp (-t)) * (1 + exp (-t'))) ≤ t' - t := by
  have h1 := exp_pos (-t)
  have h2 : exp (-t') = exp (-t) * exp (-((t' - t) / 2)) ^ 2 := by
    rw [← exp_nat_mul, ← exp_add]; congr 1; push_cast; ring
  have h3 := add_one_le_exp (-((t' - t) / 2))
  have h4 : exp (-((t' - t) / 2)) ≤ 1 := exp_le_one_iff.2 (by linarith)
  have h5 := exp_pos (-((t' - t) / 2))
  rw [h2, div_le_iff₀ (by positivity)]
  generalize exp (-((t' - t) / 2)) = y at *
  generalize exp (-t) = x at *
  have h6 : x * (1 + y) ≤ (1 + x) * (1 + x * y ^ 2) := by nlinarith [sq_nonneg (1 - x * y)]
  have h7 : 2 * (1 - y) ≤ t' - t := by linarith
  calc 2 * (x - x * y ^ 2) = 2 * (1 - y) * (x * (1 + y)) := by ring
    _ ≤ (t' - t) * ((1 + x) * (1 + x * y ^ 2)) := by
      have : 0 ≤ x * (1 + y) := by positivity
      exact mul_le_mul h7 h6 this (by linarith)

theorem mix_bound {p q : ℝ} (hn : near ∈ Icc lo hi) (hf : far ∈ Icc lo hi) (hb : b ∈ Icc lo hi) (hp : 0 ≤ p)
    (hq : 0 ≤ q) (hpd : p ≤ d) (hqd : q ≤ d) : |p * (b - far) + q * (far - near)| ≤ (hi - lo) * d := by
  obtain ⟨n1, n2⟩ := hn
  obtain ⟨f1, f2⟩ := hf
  obtain ⟨b1, b2⟩ := hb
  rcases le_total p q with h | h
  · have e : p * (b - far) + q * (far - near) = p * (b - near) + (q - p) * (far - near) := by ring
    rw [e, abs_le]
    constructor <;> nlinarith
  · have e : p * (b - far) + q * (far - near) = q * (b - near) + (p - q) * (b - far) := by ring
    rw [e, abs_le]
    constructor <;> nlinarith

theorem layer_lip_le (h : t ≤ t') (ht : 0 ≤ t) (hn : near ∈ Icc lo hi) (hf : far ∈ Icc lo hi) (hb : b ∈ Icc lo hi) :
    |layerSource near far t * (1 - exp (-t)) + b * exp (-t) -
      (layerSource near far t' * (1 - exp (-t')) + b * exp (-t'))| ≤ (hi - lo) * (t' - t) := by
  obtain ⟨g1, g2⟩ := exp_gap h ht
  have g3 := logistic_gap h
  have p1 := exp_pos (-t)
  have p2 := exp_pos (-t')
  have e : layerSource near far t * (1 - exp (-t)) + b * exp (-t) -
      (layerSource near far t' * (1 - exp (-t')) + b * exp (-t')) = (exp (-t) - exp (-t')) * (b - far) +
        2 * (exp (-t) - exp (-t')) / ((1 + exp (-t)) * (1 + exp (-t'))) * (far - near) := by
    unfold layerSource
    field_simp
    ring
  rw [e]
  exact mix_bound hn hf hb g1 (by positivity) g2 g3

theorem layer_lip (ht : 0 ≤ t) (ht' : 0 ≤ t') (hn : near ∈ Icc lo hi) (hf : far ∈ Icc lo hi) (hb : b ∈ Icc lo hi) :
    |layerSource near far t' * (1 - exp (-t')) + b' * exp (-t') -
      (layerSource near far t * (1 - exp (-t)) + b * exp (-t))| ≤ |b' - b| + (hi - lo) * |t' - t| := by
  have h1 : |layerSource near far t' * (1 - exp (-t')) + b * exp (-t') -
      (layerSource near far t * (1 - exp (-t)) + b * exp (-t))| ≤ (hi - lo) * |t' - t| := by
    rcases le_total t t' with h | h
    · rw [abs_sub_comm, abs_of_nonneg (sub_nonneg.2 h)]
      exact layer_lip_le h ht hn hf hb
    · rw [abs_sub_comm t', abs_of_nonneg (sub_nonneg.2 h)]
      exact layer_lip_le h ht' hn hf hb
  have h2 : |(b' - b) * exp (-t')| ≤ |b' - b| := by
    rw [abs_mul, abs_of_pos (exp_pos (-t'))]
    exact mul_le_of_le_one_right (abs_nonneg _) (exp_le_one_iff.2 (by linarith))
  have e : layerSource near far t' * (1 - exp (-t')) + b' * exp (-t') -
      (layerSource near far t * (1 - exp (-t)) + b * exp (-t)) = (b' - b) * exp (-t') +
      (layerSource near far t' * (1 - exp (-t')) + b * exp (-t') -
      (layerSource near far t * (1 - exp (-t)) + b * exp (-t))) := by ring
  rw [e]
  exact (abs_add_le _ _).trans (add_le_add h2 h1)

theorem layer_mem (ht : 0 ≤ t) (hn : near ∈ Icc lo hi) (hf : far ∈ Icc lo hi) (hb : b ∈ Icc lo hi) :
    layerSource near far t * (1 - exp (-t)) + b * exp (-t) ∈ Icc lo hi := by
  have e : exp (-t) ≤ 1 := exp_le_one_iff.2 (by linarith)
  have p := exp_pos (-t)
  have q : 0 < 1 + exp (-t) := by linarith
  have s1 : lo ≤ layerSource near far t := by
    unfold layerSource; rw [le_div_iff₀ q]; nlinarith [hn.1, hf.1]
  have s2 : layerSource near far t ≤ hi := by
    unfold layerSource; rw [div_le_iff₀ q]; nlinarith [hn.2, hf.2]
  constructor <;> nlinarith [hb.1, hb.2]

theorem opacityError_succ : opacityError (n + 1) τ τ' = opacityError n τ τ' + |τ' (n + 1) - τ (n + 1)| := by
  unfold opacityError
  exact Finset.sum_Icc_succ_top (by omega) _

/-- Downwelling radiance with other opacities. -/
theorem sky_opacity (hτ : ∀ i, 1 ≤ i → i ≤ n → 0 ≤ τ i ∧ 0 ≤ τ' i) (hB : ∀ i ≤ n, B i ∈ Icc lo hi)
    (hb : b ∈ Icc lo hi) (hb' : b' ∈ Icc lo hi) :
    |skyRadiance B τ' n + b' * transDown τ' n - (skyRadiance B τ n + b * transDown τ n)| ≤
      |b' - b| + (hi - lo) * opacityError n τ τ' := by
  induction n generalizing b b' with
  | zero => simp [opacityError]
  | succ n ih =>
    rw [sky_peel, sky_peel, opacityError_succ]
    obtain ⟨h0, h1⟩ := hτ (n + 1) (by omega) le_rfl
    have u := hB n (by omega)
    have v := hB (n + 1) le_rfl
    have := ih (fun i a b => hτ i a (by omega)) (fun i hi => hB i (by omega)) (layer_mem h0 u v hb)
      (layer_mem h1 u v hb')
    have := layer_lip (b' := b') h0 h1 u v hb
    rw [mul_add]
    linarith

/-- Upwelling radiance with other opacities. -/
theorem up_opacity (hm : m ≤ n) (hτ : ∀ i, m < i → i ≤ n → 0 ≤ τ i ∧ 0 ≤ τ' i) (hB : ∀ i ≤ n, B i ∈ Icc lo hi)
    (hb : b ∈ Icc lo hi) (hb' : b' ∈ Icc lo hi) :
    |upRadiance B τ' n m + b' * transUp τ' n m - (upRadiance B τ n m + b * transUp τ n m)| ≤
      |b' - b| + (hi - lo) * ∑ i ∈ Finset.Icc (m + 1) n, |τ' i - τ i| := by
  induction hm using Nat.decreasingInduction generalizing b b' with
  | self => simp
  | of_succ k hk ih =>
    rw [up_peel hk, up_peel hk, Icc_bot (by omega)]
    obtain ⟨h0, h1⟩ := hτ (k + 1) (by omega) hk
    have u := hB k (by omega)
    have v := hB (k + 1) hk
    have := ih (fun i a b => hτ i (by omega) b) (layer_mem h0 v u hb) (layer_mem h1 v u hb')
    have := layer_lip (b' := b') h0 h1 v u hb
    rw [mul_add]
    linarith

/-! ## Slope of the black-body radiance -/

variable {hvk T T' : ℝ}

theorem tk2b_deriv (hh : 0 < hvk) (hT : 0 < T) : HasDerivAt (tk2b hvk) (planckW (hvk / T) / hvk) T := by
  have hx : 0 < hvk / T := by positivity
  have hE := exp_sub_pos hx
  have h1 : HasDerivAt (fun T => hvk / T) (-(hvk / T ^ 2)) T := by
    have := (hasDerivAt_inv hT.ne').const_mul hvk
    simpa [div_eq_mul_inv] using this
  have h2 := ((h1.exp).sub_const 1).inv hE.ne'
  have e : (fun T => exp (hvk / T) - 1)⁻¹ = tk2b hvk := by
    funext T; simp [tk2b, norm_one]
  rw [e] at h2
  refine h2.congr_deriv ?_
  unfold planckW
  field_simp

theorem planckW_le_one {x : ℝ} (hx : 0 < x) : planckW x ≤ 1 := by
  have hE := exp_sub_pos hx
  unfold planckW
  rw [div_le_one (by positivity)]
  have h1 : x / 2 ≤ sinh (x / 2) := self_le_sinh_iff.2 (by linarith)
  rw [sinh_eq] at h1
  have h2 : exp x = exp (x / 2) ^ 2 := by rw [← exp_nat_mul]; congr 1; push_cast; ring
  have h3 : exp (-(x / 2)) * exp (x / 2) = 1 := by rw [← exp_add]; simp
  have h4 := exp_pos (x / 2)
  have h5 : x * exp (x / 2) ≤ exp x - 1 := by
    rw [h2]
    nlinarith [mul_le_mul_of_nonneg_right h1 h4.le]
  calc x ^ 2 * exp x = (x * exp (x / 2)) ^ 2 := by rw [h2]; ring
    _ ≤ (exp x - 1) ^ 2 := by
      have : 0 ≤ x * exp (x / 2) := by positivity
      gcongr

theorem planckW_anti {x y : ℝ} (hx : 0 < x) (h : x ≤ y) : planckW y ≤ planckW x := by
  have hm : AntitoneOn (fun x => 2 * log x + x - 2 * log (exp x - 1)) (Ioi 0) := by
    refine antitoneOn_of_deriv_nonpos (convex_Ioi 0)
      (fun x hx => (log_planckW_deriv hx).continuousAt.continuousWithinAt) (fun x hx => ?_) fun x hx => ?_
    · rw [interior_Ioi] at hx
      exact (log_planckW_deriv hx).differentiableAt.differentiableWithinAt
    · rw [interior_Ioi, mem_Ioi] at hx
      rw [(log_planckW_deriv hx).deriv]
      have := div_nonneg (cothTerm_nonneg hx) hx.le
      linarith
  have hy : 0 < y := hx.trans_le h
  have := hm (mem_Ioi.2 hx) (mem_Ioi.2 hy) h
  simp only at this
  rw [← log_planckW hx, ← log_planckW hy] at this
  exact (log_le_log_iff (planckW_pos hy) (planckW_pos hx)).1 this

/-- Differences of radiance and of temperature. -/
theorem tk2b_slope (hh : 0 < hvk) (hT : 0 < T) (h : T ≤ T') {m : ℝ} (hm : 0 < m) (hmT : m ≤ T) :
    planckW (hvk / m) / hvk * (T' - T) ≤ tk2b hvk T' - tk2b hvk T ∧
      tk2b hvk T' - tk2b hvk T ≤ (T' - T) / hvk := by
  rcases h.eq_or_lt with rfl | h
  · simp
  obtain ⟨c, hc, e⟩ := exists_hasDerivAt_eq_slope (tk2b hvk) (fun T => planckW (hvk / T) / hvk) h
    (fun x hx => (tk2b_deriv hh (hT.trans_le hx.1)).continuousAt.continuousWithinAt)
    (fun x hx => tk2b_deriv hh (hT.trans hx.1))
  have hc0 : 0 < c := hT.trans hc.1
  have hd : 0 < T' - T := sub_pos.2 h
  rw [eq_div_iff hd.ne'] at e
  rw [← e]
  have h1 : planckW (hvk / m) ≤ planckW (hvk / c) :=
    planckW_anti (by positivity) (div_le_div_of_nonneg_left hh.le hm (hmT.trans hc.1.le))
  have h2 := planckW_le_one (x := hvk / c) (by positivity)
  constructor
  · gcongr
  · rw [div_mul_eq_mul_div]
    gcongr
    nlinarith

end Verif.Lemmas
