import Verif.Lemmas.RoundErr

/-! # Rounding errors of the total radiance and of the brightness temperature -/

namespace Verif.Model.Arith

open Verif.Py Verif.Spec Real

variable {F : Arith} {u : ℝ}

/-- Number of unit roundoffs lost over `n` layers. -/
noncomputable def lost (n : ℕ) : ℝ := 2 * (n : ℝ) ^ 2 + 11 * n + 25

theorem lost_ge (n : ℕ) : 25 ≤ lost n := by
  unfold lost
  have : (0:ℝ) ≤ n := Nat.cast_nonneg n
  nlinarith

theorem exp_small : Real.exp (-120) ≤ 1e-31 := by
  have h1 : (2:ℝ) ≤ Real.exp 1 := by have := add_one_le_exp (1:ℝ); linarith
  have h2 : Real.exp (-120) = (Real.exp 1 ^ 120)⁻¹ := by
    rw [← Real.exp_nat_mul, ← Real.exp_neg]; norm_num
  rw [h2]
  have h3 : (2:ℝ) ^ 120 ≤ Real.exp 1 ^ 120 := pow_le_pow_left₀ (by norm_num) h1 120
  calc (Real.exp 1 ^ 120)⁻¹ ≤ ((2:ℝ) ^ 120)⁻¹ := inv_anti₀ (by positivity) h3
    _ ≤ 1e-31 := by norm_num

/-- The term of the background behind the layers. -/
theorem behind_error (hF : F.Accurate u) (hu : Unit u) {g g' P P' M β a : ℝ} (ng : Near g' g β)
    (hg : 0 ≤ g) (hM : g ≤ M) (hβ1 : β ≤ 2e-2) (hP : 0 ≤ P)
    (dA : |F.exp (-P') - Real.exp (-P)| ≤ a) (ha : a ≤ 5e-2) :
    |F.mul g' (F.exp (-P')) - g * Real.exp (-P)| ≤ β * (g * Real.exp (-P)) + M * (1.02 * a + 1.1 * u) := by
  have u0 := hu.nonneg
  have M0 : 0 ≤ M := hg.trans hM
  have a0 : 0 ≤ a := (abs_nonneg _).trans dA
  have A0 := Real.exp_pos (-P)
  have A1 : Real.exp (-P) ≤ 1 := by rw [Real.exp_le_one_iff]; linarith
  have g0 := ng.nonneg hg (by linarith)
  have gM : g' ≤ 1.02 * M := ng.2.trans (by nlinarith)
  obtain ⟨d1, d2⟩ := abs_le.1 dA
  set A' := F.exp (-P')
  have absA : |A'| ≤ 1.05 := abs_le.2 ⟨by linarith, by linarith⟩
  have absg : |g'| ≤ 1.02 * M := by rw [abs_of_nonneg g0]; exact gM
  have m := hF.mul g' A'
  have p : |g' * A'| ≤ 1.1 * M := by
    rw [abs_mul]
    calc |g'| * |A'| ≤ (1.02 * M) * 1.05 := mul_le_mul absg absA (abs_nonneg _) (by positivity)
      _ ≤ 1.1 * M := by linarith
  have m' : |F.mul g' A' - g' * A'| ≤ u * (1.1 * M) := m.trans (mul_le_mul_of_nonneg_left p u0)
  have t1 : |g' * (A' - Real.exp (-P))| ≤ 1.02 * M * a := by
    rw [abs_mul]; exact mul_le_mul absg dA (abs_nonneg _) (by positivity)
  have t2 : |(g' - g) * Real.exp (-P)| ≤ β * g * Real.exp (-P) := by
    rw [abs_mul, abs_of_pos A0]; exact mul_le_mul_of_nonneg_right ng.abs A0.le
  have e : F.mul g' A' - g * Real.exp (-P) = (F.mul g' A' - g' * A') + g' * (A' - Real.exp (-P))
      + (g' - g) * Real.exp (-P) := by ring
  rw [e]
  have s1 := abs_add_le ((F.mul g' A' - g' * A') + g' * (A' - Real.exp (-P))) ((g' - g) * Real.exp (-P))
  have s2 := abs_add_le (F.mul g' A' - g' * A') (g' * (A' - Real.exp (-P)))
  linarith

open Classical in
/-- Total radiance over `n` layers with a background `g` behind them. -/
theorem total_error (hF : F.Accurate u) (hu : Unit u) {B B' τ : ℕ → ℝ} {n : ℕ} {M β g g' : ℝ}
    (hτ : ∀ i, 1 ≤ i → i ≤ n → 0 ≤ τ i) (nB : ∀ i ≤ n, Near (B' i) (B i) β)
    (hB : ∀ i ≤ n, 0 ≤ B i ∧ B i ≤ M) (hβ : 0 ≤ β) (hβ1 : β ≤ 1e-2)
    (hn : lost n * u ≤ 1e-2) (ng : Near g' g (β + 10 * u)) (hg : 0 ≤ g) (hM : g ≤ M) :
    let tot' := if F.accP τ n < 125 then F.add (F.mul g' (F.exp (-F.accP τ n))) (F.accS B' τ n)
      else F.accS B' τ n
    let tot := (if opacityBelow τ n < 125 then g * Real.exp (-opacityBelow τ n) else 0)
      + skyRadiance B τ n
    0 ≤ tot ∧ tot ≤ M ∧ |tot' - tot| ≤ β * tot + M * (lost n * u) := by
  intro tot' tot
  have u0 := hu.nonneg
  have u1 := hu.le
  have n0 : (0:ℝ) ≤ n := Nat.cast_nonneg n
  have hn' : (2 * (n : ℝ) ^ 2 + 8 * n) * u ≤ 1e-2 := by
    refine le_trans (mul_le_mul_of_nonneg_right ?_ u0) hn; unfold lost; linarith
  have nn : (n : ℝ) * u ≤ 1e-3 := by
    have : lost n * u = (2 * (n : ℝ) ^ 2) * u + 11 * (n * u) + 25 * u := by unfold lost; ring
    have h1 : 0 ≤ (2 * (n : ℝ) ^ 2) * u := by positivity
    linarith
  have M0 : 0 ≤ M := hg.trans hM
  have P0 : 0 ≤ opacityBelow τ n := opacityBelow_nonneg hτ
  have nP := accP_near hF hu hτ (by linarith) n le_rfl
  have dA := trans_error hF hu nP P0 (by positivity) (by linarith)
  have dS := accS_error hF hu hτ nB hB hβ hβ1 hn' n le_rfl
  have bd := skyRadiance_bounds (τ := τ) (n := n) (lo := 0) (hi := M) hτ hB
  have S0 : 0 ≤ skyRadiance B τ n := by simpa using bd.1
  have A0 : 0 < Real.exp (-opacityBelow τ n) := Real.exp_pos _
  have A1 : Real.exp (-opacityBelow τ n) ≤ 1 := by rw [Real.exp_le_one_iff]; linarith
  have SM : skyRadiance B τ n ≤ M * (1 - Real.exp (-opacityBelow τ n)) := bd.2
  have gA : g * Real.exp (-opacityBelow τ n) ≤ M * Real.exp (-opacityBelow τ n) :=
    mul_le_mul_of_nonneg_right hM A0.le
  have gA0 : 0 ≤ g * Real.exp (-opacityBelow τ n) := by positivity
  have MA0 : 0 ≤ M * Real.exp (-opacityBelow τ n) := by positivity
  have T0 : 0 ≤ tot := by simp only [tot]; split_ifs <;> linarith
  have TM : tot ≤ M := by simp only [tot]; split_ifs <;> linarith
  refine ⟨T0, TM, ?_⟩
  have Mu : 0 ≤ M * u := by positivity
  have Mnu : 0 ≤ M * (n * u) := by positivity
  have eL : M * (lost n * u) = M * ((2 * (n : ℝ) ^ 2 + 8 * n) * u) + 3 * (M * (n * u)) + 25 * (M * u) := by
    unfold lost; ring
  rw [eL]
  have Cq : M * ((2 * (n : ℝ) ^ 2 + 8 * n) * u) ≤ M * 1e-2 := mul_le_mul_of_nonneg_left hn' M0
  have SM' : skyRadiance B τ n ≤ M := by nlinarith
  have lS : (β + 10 * u) * skyRadiance B τ n ≤ 2e-2 * M :=
    mul_le_mul (by linarith) SM' S0 (by norm_num)
  have uS : 10 * u * skyRadiance B τ n ≤ 10 * (M * u) := by nlinarith
  have small : 120 ≤ opacityBelow τ n → Real.exp (-opacityBelow τ n) ≤ u / 2 := by
    intro h
    have : Real.exp (-opacityBelow τ n) ≤ Real.exp (-120) := by rw [Real.exp_le_exp]; linarith
    have h2 := hu.1
    have h3 := exp_small
    norm_num at h2 h3 ⊢
    linarith
  have be := behind_error hF hu (M := M) ng hg hM (by linarith) P0 dA (by linarith)
  have e4 : M * (1.02 * (2 * n * u + u) + 1.1 * u) = 2.04 * (M * (n * u)) + 2.12 * (M * u) := by ring
  rw [e4] at be
  set S' := F.accS B' τ n with hS'
  set S := skyRadiance B τ n with hS
  set A := Real.exp (-opacityBelow τ n) with hA
  set G' := F.mul g' (F.exp (-F.accP τ n)) with hG'
  -- the sum of both terms, whatever the branches
  have gAM : (β + 10 * u) * (g * A) ≤ 2e-2 * M :=
    mul_le_mul (by linarith) (gA.trans (by nlinarith)) gA0 (by norm_num)
  have guA : 10 * u * (g * A) ≤ 10 * u * (M * A) := mul_le_mul_of_nonneg_left gA (by positivity)
  have sum : |F.add G' S' - (g * A + S)| ≤ β * (g * A + S) + M * ((2 * (n : ℝ) ^ 2 + 8 * n) * u)
      + 3 * (M * (n * u)) + 20 * (M * u) := by
    have ad := hF.add G' S'
    have pre : |G' + S' - (g * A + S)| ≤ (β + 10 * u) * (g * A) + (β + 10 * u) * S
        + M * ((2 * (n : ℝ) ^ 2 + 8 * n) * u) + 2.04 * (M * (n * u)) + 2.12 * (M * u) := by
      have e : G' + S' - (g * A + S) = (G' - g * A) + (S' - S) := by ring
      rw [e]
      exact (abs_add_le _ _).trans (by linarith)
    have q3 : M * (n * u) ≤ M * 1e-3 := mul_le_mul_of_nonneg_left nn M0
    have q4 : M * u ≤ M * 1e-3 := mul_le_mul_of_nonneg_left (by linarith) M0
    have sz : |G' + S'| ≤ 2.2 * M := by
      have e : G' + S' = (G' + S' - (g * A + S)) + (g * A + S) := by ring
      rw [e]
      refine (abs_add_le _ _).trans ?_
      rw [abs_of_nonneg (by linarith : 0 ≤ g * A + S)]
      have : g * A + S ≤ M := by linarith
      linarith
    have ad' := ad.trans (mul_le_mul_of_nonneg_left sz u0)
    have e : F.add G' S' - (g * A + S) = (F.add G' S' - (G' + S')) + (G' + S' - (g * A + S)) := by ring
    rw [e]
    refine (abs_add_le _ _).trans ?_
    have s10 : 10 * u * (g * A + S) ≤ 10 * u * M :=
      mul_le_mul_of_nonneg_left (by linarith) (by positivity)
    linarith
  simp only [tot', tot]
  by_cases h1 : F.accP τ n < 125
  · rw [if_pos h1]
    by_cases h2 : opacityBelow τ n < 125
    · rw [if_pos h2]; linarith
    · rw [if_neg h2, zero_add]
      have hA2 := small (by push Not at h2; linarith)
      have k1 : g * A ≤ M * (u / 2) := mul_le_mul hM hA2 A0.le M0
      have e : F.add G' S' - S = (F.add G' S' - (g * A + S)) + g * A := by ring
      rw [e]
      refine (abs_add_le _ _).trans ?_
      rw [abs_of_nonneg gA0]
      have k2 : β * (g * A) ≤ 1 * (g * A) := mul_le_mul_of_nonneg_right (by linarith) gA0
      linarith
  · rw [if_neg h1]
    have h1' : 120 ≤ opacityBelow τ n := by
      push Not at h1
      have := nP.2
      have h3 : 2 * (n : ℝ) * u ≤ 2e-3 := by linarith
      have h4 : opacityBelow τ n * (1 + 2 * n * u) ≤ opacityBelow τ n * (1 + 2e-3) :=
        mul_le_mul_of_nonneg_left (by linarith) P0
      norm_num at h4 ⊢
      linarith
    have hA2 := small h1'
    have k1 : g * A ≤ M * (u / 2) := mul_le_mul hM hA2 A0.le M0
    have key : ∀ z, 0 ≤ z → z ≤ M * (u / 2) → |S' - (z + S)| ≤ β * (z + S)
        + (M * ((2 * (n : ℝ) ^ 2 + 8 * n) * u) + 3 * (M * (n * u)) + 25 * (M * u)) := by
      intro z z0 z1
      have e : S' - (z + S) = (S' - S) + (-z) := by ring
      rw [e]
      refine (abs_add_le _ _).trans ?_
      rw [abs_neg, abs_of_nonneg z0]
      have : 0 ≤ β * z := by positivity
      linarith
    by_cases h2 : opacityBelow τ n < 125
    · rw [if_pos h2]; have := key _ gA0 k1; linarith
    · rw [if_neg h2]; have := key 0 le_rfl (by positivity); linarith

/-- The argument of the logarithm in `bright`. -/
theorem arg_error (hF : F.Accurate u) (hu : Unit u) {b b' η : ℝ} (hb : 0 < b) (nb : Near b' b η)
    (hη : 0 ≤ η) (hη1 : η ≤ 5e-3) :
    0 < F.add 1 (F.div 1 b') ∧ |Real.log (F.add 1 (F.div 1 b')) - Real.log (1 + 1 / b)|
      ≤ (1.05 * η + 2.1 * u) * Real.log (1 + 1 / b) + 1.2 * u := by
  have u0 := hu.nonneg
  have u1 := hu.le
  have uu : u * u ≤ u / 10 ^ 15 := by nlinarith
  have ηη : η * η ≤ η * 5e-3 := mul_le_mul_of_nonneg_left hη1 hη
  have uη : u * η ≤ u * 5e-3 := mul_le_mul_of_nonneg_left hη1 u0
  have uη0 : 0 ≤ u * η := by positivity
  have ηη0 : 0 ≤ η * η := by positivity
  set y := Real.log (1 + 1 / b) with hyd
  have ib : 0 < 1 / b := by positivity
  have y0 : 0 < y := Real.log_pos (by linarith)
  have b0 := nb.pos hb (by linarith)
  have nq0 := near_div hF (near_refl 1) nb zero_le_one hb le_rfl hη zero_le_one (by linarith) u0 hu.one
  have nq : Near (F.div 1 b') (1 / b) (1.02 * η + 2 * u) := by
    refine nq0.mono ib.le ?_
    have : u * (0 + η + 2 * η * (0 + η)) ≤ u * 1 := mul_le_mul_of_nonneg_left (by linarith) u0
    linarith
  set q := F.div 1 b' with hq
  set r := 1 / b with hr
  have q0 : 0 < q := nq.pos ib (by linarith)
  have ad := hF.add 1 q
  rw [abs_of_pos (show 0 < 1 + q by linarith)] at ad
  have dq := nq.abs
  set a := F.add 1 q with ha
  have da : |a - (1 + r)| ≤ (1.02 * η + 2 * u) * r + 1.1 * u * (1 + r) := by
    have e : a - (1 + r) = (a - (1 + q)) + (q - r) := by ring
    rw [e]
    refine (abs_add_le _ _).trans ?_
    have h1 : q ≤ r * (1 + (1.02 * η + 2 * u)) := nq.2
    have h2 : q ≤ r * 1.1 := h1.trans (mul_le_mul_of_nonneg_left (by linarith) ib.le)
    have h3 : u * (1 + q) ≤ u * (1.1 * (1 + r)) := mul_le_mul_of_nonneg_left (by linarith) u0
    linarith
  -- relative to 1 + r
  have yr : r ≤ y * (1 + r) := by
    have := Real.one_sub_inv_le_log_of_pos (show 0 < 1 + r by linarith)
    rw [← hyd] at this
    have h2 : (1 - (1 + r)⁻¹) * (1 + r) = r := by
      have : 1 + r ≠ 0 := by positivity
      field_simp; ring
    calc r = (1 - (1 + r)⁻¹) * (1 + r) := h2.symm
      _ ≤ y * (1 + r) := mul_le_mul_of_nonneg_right this (by positivity)
  set ε := (1.02 * η + 2 * u) * min 1 y + 1.1 * u with hε
  have ε0 : 0 ≤ ε := by
    have : 0 ≤ min 1 y := le_min zero_le_one y0.le
    positivity
  have ε1 : ε ≤ 1e-2 := by
    have : (1.02 * η + 2 * u) * min 1 y ≤ (1.02 * η + 2 * u) * 1 :=
      mul_le_mul_of_nonneg_left (min_le_left _ _) (by positivity)
    rw [hε]; linarith
  have rm : r ≤ min 1 y * (1 + r) := by
    rcases le_total 1 y with hc | hc
    · rw [min_eq_left hc]; linarith
    · rw [min_eq_right hc]; exact yr
  have na : Near a (1 + r) ε := by
    apply near_of_abs
    refine da.trans ?_
    have : (1.02 * η + 2 * u) * r ≤ (1.02 * η + 2 * u) * (min 1 y * (1 + r)) :=
      mul_le_mul_of_nonneg_left rm (by positivity)
    rw [hε]
    linarith
  have r1 : 0 < 1 + r := by linarith
  have a0 : 0 < a := na.pos r1 (by linarith)
  -- the logarithm
  have dl : |Real.log a - y| ≤ 1.02 * ε := by
    have hs : Real.log a - y = Real.log (a / (1 + r)) := by
      rw [Real.log_div a0.ne' r1.ne']
    have s0 : 0 < a / (1 + r) := by positivity
    have s1 : a / (1 + r) ≤ 1 + ε := by rw [div_le_iff₀ r1]; linarith [na.2]
    have s2 : 1 - ε ≤ a / (1 + r) := by rw [le_div_iff₀ r1]; linarith [na.1]
    rw [hs]
    have l1 := Real.log_le_sub_one_of_pos s0
    have l2 := Real.one_sub_inv_le_log_of_pos s0
    have l3 : (a / (1 + r))⁻¹ ≤ 1 + 1.02 * ε := by
      rw [inv_le_iff_one_le_mul₀ s0]
      have : 1 ≤ (1 + 1.02 * ε) * (1 - ε) := by nlinarith
      refine this.trans (mul_le_mul_of_nonneg_left s2 (by positivity))
    exact abs_le.2 ⟨by linarith, by linarith⟩
  have εy : 1.02 * ε ≤ (1.05 * η + 2.1 * u) * y + 1.2 * u := by
    have : (1.02 * η + 2 * u) * min 1 y ≤ (1.02 * η + 2 * u) * y :=
      mul_le_mul_of_nonneg_left (min_le_right _ _) (by positivity)
    have uy : 0 ≤ u * y := by positivity
    have ηy : 0 ≤ η * y := by positivity
    rw [hε]
    nlinarith
  exact ⟨a0, dl.trans εy⟩

/-- Radiance to temperature. -/
theorem bright_error (hF : F.Accurate u) (hu : Unit u) {h h' b b' η : ℝ} (hh : 0 < h)
    (nh : Near h' h (6 * u)) (hb : 0 < b) (nb : Near b' b η) (hη : 0 ≤ η) (hη1 : η ≤ 5e-3)
    (hy : u / Real.log (1 + 1 / b) ≤ 1e-3) :
    ∃ T', F.bright h' b' = some T' ∧ |T' - h / Real.log (1 + 1 / b)|
      ≤ h / Real.log (1 + 1 / b) * (1.1 * η + 13 * u + 1.5 * (u / Real.log (1 + 1 / b))) := by
  have u0 := hu.nonneg
  have u1 := hu.le
  have uu : u * u ≤ u / 10 ^ 15 := by nlinarith
  obtain ⟨a0, dl⟩ := arg_error hF hu hb nb hη hη1
  have b0 := nb.pos hb (by linarith)
  set y := Real.log (1 + 1 / b) with hyd
  have ib : 0 < 1 / b := by positivity
  have y0 : 0 < y := Real.log_pos (by linarith)
  set a := F.add 1 (F.div 1 b') with ha
  have uy0 : 0 ≤ u * y := by positivity
  have ηy0 : 0 ≤ η * y := by positivity
  have fl := hF.log a a0
  have absl : |Real.log a| ≤ 1.1 * y + 1.2 * u := by
    have e : Real.log a = (Real.log a - y) + y := by ring
    rw [e]
    refine (abs_add_le _ _).trans ?_
    rw [abs_of_pos y0]
    have h1 : η * y ≤ 5e-3 * y := mul_le_mul_of_nonneg_right hη1 y0.le
    have h2 : u * y ≤ 1 / 10 ^ 15 * y := mul_le_mul_of_nonneg_right u1 y0.le
    linarith
  have fl' := fl.trans (mul_le_mul_of_nonneg_left absl u0)
  set l := F.log a with hl
  have uy1 : u ≤ u / y * y := by rw [div_mul_cancel₀ _ y0.ne']
  set v := u / y with hv
  have v0 : 0 ≤ v := by positivity
  have nl : Near l y (1.05 * η + 4 * u + 1.3 * v) := by
    apply near_of_abs
    have e : l - y = (l - Real.log a) + (Real.log a - y) := by ring
    rw [e]
    refine (abs_add_le _ _).trans ?_
    have h1 : u * (1.1 * y + 1.2 * u) = 1.1 * (u * y) + 1.2 * (u * u) := by ring
    rw [h1] at fl'
    have h2 : (1.05 * η + 4 * u + 1.3 * v) * y = 1.05 * (η * y) + 4 * (u * y) + 1.3 * (v * y) := by ring
    rw [h2]
    have h3 : u / y * y = v * y := rfl
    linarith
  have l0 : 0 < l := nl.pos y0 (by linarith)
  have d := near_div hF nh nl hh.le y0 (by positivity) (by positivity) (by linarith) (by linarith) u0 hu.one
  refine ⟨F.div h' l, ?_, ?_⟩
  · unfold bright
    rw [if_pos b0.ne']
    show (if a ≤ 0 then none else if l = 0 then none else some (F.div h' l)) = _
    rw [if_neg (not_le.2 a0), if_neg l0.ne']
  · have hT : 0 < h / y := by positivity
    have := (d.mono (ε := 1.1 * η + 13 * u + 1.5 * v) hT.le ?_).abs
    · linarith
    · set w := 1.05 * η + 4 * u + 1.3 * v with hw
      have w0 : 0 ≤ w := by positivity
      have w1 : w ≤ 1e-2 := by rw [hw]; linarith
      have z : 2 * w * (6 * u + w) ≤ 2e-2 * (6 * u + w) :=
        mul_le_mul_of_nonneg_right (by linarith) (by positivity)
      have z0 : 0 ≤ 2 * w * (6 * u + w) := by positivity
      have z2 : u * (6 * u + w + 2 * w * (6 * u + w)) ≤ u * 1 :=
        mul_le_mul_of_nonneg_left (by linarith) u0
      linarith

end Verif.Model.Arith
