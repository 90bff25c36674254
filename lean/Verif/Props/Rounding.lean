import Verif.Lemmas.RoundTotal
import Verif.Props.Radiance

/-!
# C118: what rounding does to a simulated brightness temperature

`Model/Rounded.lean` is the radiance code over an arbitrary arithmetic `F`.  The theorems compare
it with the real-number model that every other property is about.
-/

namespace Verif.Props

open Verif.Py Verif.Spec Verif.Model Real

variable {F : Arith} {u frq es : ℝ} {nl : ℕ} {t τ : ℕ → ℝ}

/-- A channel and a profile for which rounding errors stay small: positive frequency, temperatures
in `(0, Tmax]`, non-negative layer opacities, an emissivity in `[0, 1]`, and `R` an upper bound for
`(1 + x)²/x` with `x = hν/kT`, over the levels, the cosmic background and `Tmax`. -/
structure Conditioned (frq es : ℝ) (nl : ℕ) (t τ : ℕ → ℝ) (Tmax R : ℝ) : Prop where
  freq : 0 < frq
  levels : 0 < nl
  temp : ∀ i < nl, 0 < t i ∧ t i ≤ Tmax
  opac : ∀ i, 1 ≤ i → i < nl → 0 ≤ τ i
  emis : 0 ≤ es ∧ es ≤ 1
  cosmic : 2.728 ≤ Tmax
  atLevels : ∀ i < nl, (1 + hvkOf frq / t i) ^ 2 / (hvkOf frq / t i) ≤ R
  atCosmic : (1 + hvkOf frq / 2.728) ^ 2 / (hvkOf frq / 2.728) ≤ R
  atMax : (1 + hvkOf frq / Tmax) ^ 2 / (hvkOf frq / Tmax) ≤ R

/-- Roundoff units lost over `n` layers. -/
noncomputable def layerLoss (n : ℕ) : ℝ := 2 * (n : ℝ) ^ 2 + 11 * n + 25

/-- With real arithmetic the rounded program is the program of all other properties. -/
theorem C118_same_program (s : Bool) (es frq : ℝ) (nl : ℕ) (t τ : ℕ → ℝ) :
    Arith.exact.tbtotal s es frq nl t τ
      = (planck s es frq nl t τ).bind fun o => bright o.hvk o.boftotl := by
  unfold Arith.tbtotal
  rw [Arith.exact_planck]
  cases planck s es frq nl t τ with
  | none => rfl
  | some o => simp [Arith.exact_bright]

theorem Arith_mono {v : ℝ} (hF : F.Accurate u) (h : u ≤ v) : F.Accurate v where
  add a b := (hF.add a b).trans (mul_le_mul_of_nonneg_right h (abs_nonneg _))
  sub a b := (hF.sub a b).trans (mul_le_mul_of_nonneg_right h (abs_nonneg _))
  mul a b := (hF.mul a b).trans (mul_le_mul_of_nonneg_right h (abs_nonneg _))
  div a b hb := (hF.div a b hb).trans (mul_le_mul_of_nonneg_right h (abs_nonneg _))
  exp a := (hF.exp a).trans (mul_le_mul_of_nonneg_right h (Real.exp_pos a).le)
  log a ha := (hF.log a ha).trans (mul_le_mul_of_nonneg_right h (abs_nonneg _))
  lit a := (hF.lit a).trans (mul_le_mul_of_nonneg_right h (abs_nonneg _))

/-- Radiance of one temperature. -/
theorem C118_level (hF : F.Accurate u) (hu : 1e-30 ≤ u ∧ u ≤ 1e-15) {T R : ℝ} (hf : 0 < frq)
    (hT : 0 < T) (hR : (1 + hvkOf frq / T) ^ 2 / (hvkOf frq / T) ≤ R) (hs : 12 * R * u ≤ 1e-3) :
    |F.tk2b (F.hvkOf frq) T - tk2b (hvkOf frq) T| ≤ 12 * R * u * tk2b (hvkOf frq) T :=
  (Arith.near_tk2b hF hu (hvkOf_pos hf) hT (Arith.near_hvk hF hu hf)
    ((Arith.near_refl T).mono hT.le (Arith.Unit.nonneg hu)) hR hs).abs

/-- Converting a temperature to a radiance and back. -/
theorem C118_round_trip (hF : F.Accurate u) (hu : 1e-30 ≤ u ∧ u ≤ 1e-15) {T R : ℝ} (hf : 0 < frq)
    (hT : 0 < T) (hR : (1 + hvkOf frq / T) ^ 2 / (hvkOf frq / T) ≤ R) (hs : 12 * R * u ≤ 1e-3) :
    ∃ T', F.bright (F.hvkOf frq) (F.tk2b (F.hvkOf frq) T) = some T' ∧
      |T' - T| ≤ T * (18 * R * u) := by
  have u0 := Arith.Unit.nonneg hu
  have hh := hvkOf_pos hf
  have nh := Arith.near_hvk hF hu hf
  have nB := Arith.near_tk2b hF hu hh hT nh ((Arith.near_refl T).mono hT.le u0) hR hs
  have x0 : 0 < hvkOf frq / T := by positivity
  have c := Arith.le_cond x0
  have hb := tk2b_pos hh hT
  have eT := bright_tk2b hh hT
  rw [bright_of_pos hb] at eT
  have eT' : hvkOf frq / Real.log (1 + 1 / tk2b (hvkOf frq) T) = T := Option.some.inj eT
  have y0 : 0 < Real.log (1 + 1 / tk2b (hvkOf frq) T) :=
    Real.log_pos (by have : 0 < 1 / tk2b (hvkOf frq) T := by positivity
                     linarith)
  have ey : Real.log (1 + 1 / tk2b (hvkOf frq) T) = hvkOf frq / T := by
    rw [div_eq_iff y0.ne'] at eT'
    rw [eq_div_iff hT.ne']; linarith
  have R4 : 4 ≤ R := c.2.1.trans hR
  have Ru : 0 ≤ R * u := by positivity
  have hi : u / (hvkOf frq / T) ≤ R * u := by
    have : 1 / (hvkOf frq / T) * u ≤ R * u := mul_le_mul_of_nonneg_right (c.2.2.trans hR) u0
    calc u / (hvkOf frq / T) = 1 / (hvkOf frq / T) * u := by ring
      _ ≤ R * u := this
  have uR : 4 * u ≤ R * u := mul_le_mul_of_nonneg_right R4 u0
  obtain ⟨T', h1, h2⟩ := Arith.bright_error hF hu hh nh hb nB (by positivity) (by linarith)
    (by rw [ey]; linarith)
  refine ⟨T', h1, ?_⟩
  rw [eT', ey] at h2
  refine h2.trans (mul_le_mul_of_nonneg_left ?_ hT.le)
  linarith

section views
variable {Tmax R : ℝ}

theorem Conditioned.tmax (c : Conditioned frq es nl t τ Tmax R) : 0 < Tmax :=
  lt_of_lt_of_le (by norm_num) c.cosmic

/-- The numerical consequences of the one smallness assumption. -/
theorem small_of (hu : 1e-30 ≤ u ∧ u ≤ 1e-15) (c : Conditioned frq es nl t τ Tmax R)
    (hs : R * layerLoss (nl - 1) * u ≤ 1e-3) :
    4 ≤ R ∧ 12 * R * u ≤ 1e-3 ∧ layerLoss (nl - 1) * u ≤ 1e-3 / 4 := by
  have u0 := Arith.Unit.nonneg hu
  have hh := hvkOf_pos c.freq
  have x0 : 0 < hvkOf frq / Tmax := div_pos hh c.tmax
  have R4 : 4 ≤ R := (Arith.le_cond x0).2.1.trans c.atMax
  have l := Arith.lost_ge (nl - 1)
  have l' : 25 ≤ layerLoss (nl - 1) := l
  refine ⟨R4, ?_, ?_⟩
  · have : R * 25 * u ≤ R * layerLoss (nl - 1) * u :=
      mul_le_mul_of_nonneg_right (mul_le_mul_of_nonneg_left l' (by linarith)) u0
    have : 0 ≤ R * u := by positivity
    linarith
  · have : 4 * layerLoss (nl - 1) * u ≤ R * layerLoss (nl - 1) * u :=
      mul_le_mul_of_nonneg_right (mul_le_mul_of_nonneg_right R4 (by linarith)) u0
    linarith

/-- Total radiance, seen from the ground or from above. -/
theorem C118_radiance (hF : F.Accurate u) (hu : 1e-30 ≤ u ∧ u ≤ 1e-15)
    (c : Conditioned frq es nl t τ Tmax R) (hs : R * layerLoss (nl - 1) * u ≤ 1e-3)
    {s : Bool} {out : PlanckOut} (h : planck s es frq nl t τ = some out) :
    ∃ b', F.planck s es frq nl t τ = some (b', F.hvkOf frq) ∧
      0 ≤ out.boftotl ∧ out.boftotl ≤ tk2b (hvkOf frq) Tmax ∧
      |b' - out.boftotl| ≤ 12 * R * u * out.boftotl
        + tk2b (hvkOf frq) Tmax * (layerLoss (nl - 1) * u) := by
  have u0 := Arith.Unit.nonneg hu
  have u1 := Arith.Unit.le hu
  obtain ⟨R4, h12, hl⟩ := small_of hu c hs
  have hh := hvkOf_pos c.freq
  have nh := Arith.near_hvk hF hu c.freq
  have Ru : 0 ≤ R * u := by positivity
  have nB : ∀ i < nl, Arith.Near (F.tk2b (F.hvkOf frq) (t i)) (tk2b (hvkOf frq) (t i)) (12 * R * u) :=
    fun i hi => Arith.near_tk2b hF hu hh (c.temp i hi).1 nh
      ((Arith.near_refl (t i)).mono (c.temp i hi).1.le u0) (c.atLevels i hi) h12
  have hB : ∀ i < nl, 0 ≤ tk2b (hvkOf frq) (t i) ∧ tk2b (hvkOf frq) (t i) ≤ tk2b (hvkOf frq) Tmax :=
    fun i hi => ⟨(tk2b_pos hh (c.temp i hi).1).le, tk2b_mono hh (c.temp i hi).1 (c.temp i hi).2⟩
  have hn := c.levels
  obtain ⟨n, rfl⟩ : ∃ n, nl = n + 1 := ⟨nl - 1, by omega⟩
  simp only [Nat.add_sub_cancel] at hl ⊢
  have hl' : Arith.lost n * u ≤ 1e-2 := by
    have : Arith.lost n * u ≤ 1e-3 / 4 := hl
    linarith
  cases s with
  | false =>
    obtain ⟨_, _, _, _, _, p6, p7, p8⟩ := planck_ground h
    simp only [Nat.add_sub_cancel] at p6 p7 p8
    have c0 : (0:ℝ) < cTcosmicbkg := by norm_num [cTcosmicbkg]
    have cT : cTcosmicbkg ≤ Tmax := c.cosmic
    have ng := Arith.near_tk2b hF hu hh c0 nh (Arith.near_lit hF c0.le) c.atCosmic h12
    have tot := Arith.total_error hF hu (τ := τ) (n := n) (M := tk2b (hvkOf frq) Tmax)
      (fun i a b => c.opac i a (by omega)) (fun i hi => nB i (by omega)) (fun i hi => hB i (by omega))
      (by positivity) (by linarith) hl' (ng.mono (tk2b_pos hh c0).le (by linarith))
      (tk2b_pos hh c0).le (tk2b_mono hh c0 cT)
    have eo : out.boftotl = (if opacityBelow τ n < 125 then
        tk2b (hvkOf frq) cTcosmicbkg * Real.exp (-opacityBelow τ n) else 0)
        + skyRadiance (fun i => tk2b (hvkOf frq) (t i)) τ n := by
      rw [p8]
      split_ifs with hc
      · rw [(p6 hc).1]
      · rw [(p7 (not_lt.1 hc)).1]
    rw [eo]
    refine ⟨_, ?_, tot⟩
    have sp := F.groundArrays_spec (F.hvkOf frq) (n + 1) t τ hn n (by omega)
    unfold Arith.planck
    rw [if_neg (Nat.succ_ne_zero n)]
    simp only [Bool.false_eq_true, if_false, Nat.add_sub_cancel]
    rw [sp.2.1, sp.2.2]
    split_ifs <;> rfl
  | true =>
    obtain ⟨_, _, _, _, _, p6, p7, p8⟩ := planck_sat h
    simp only [Nat.add_sub_cancel] at p6 p7 p8
    have t0 := (c.temp 0 hn).1
    have B0 := hB 0 hn
    have ng : Arith.Near (F.add (F.mul es (F.tk2b (F.hvkOf frq) (t 0))) (F.mul (F.sub 1 es) 0))
        (es * tk2b (hvkOf frq) (t 0)) (12 * R * u + 10 * u) := by
      have z : F.mul (F.sub 1 es) 0 = 0 := by
        have := hF.mul (F.sub 1 es) 0
        simpa using this
      rw [z]
      have m := Arith.near_mul hF (Arith.near_refl es) (nB 0 hn) c.emis.1 B0.1 le_rfl
        (by positivity) zero_le_one (by linarith) u0 (by linarith)
      have zz : u * (12 * R * u) ≤ u * 1 := mul_le_mul_of_nonneg_left (by linarith) u0
      have m' := m.mono (ε := 12 * R * u + 3 * u) (mul_nonneg c.emis.1 B0.1) (by linarith)
      have a := Arith.near_add hF m' ((Arith.near_refl 0).mono (ε := 12 * R * u + 3 * u) le_rfl
        (by positivity)) (mul_nonneg c.emis.1 B0.1) le_rfl (by positivity) (by linarith) u0 (by linarith)
      rw [add_zero] at a
      refine a.mono (mul_nonneg c.emis.1 B0.1) ?_
      have zz : u * (12 * R * u + 3 * u) ≤ u * 1 := mul_le_mul_of_nonneg_left (by linarith) u0
      linarith
    have gM : es * tk2b (hvkOf frq) (t 0) ≤ tk2b (hvkOf frq) Tmax := by
      have := mul_le_mul_of_nonneg_right c.emis.2 B0.1
      linarith [B0.2]
    have tot := Arith.total_error hF hu (τ := fun j => τ (n + 1 - j)) (n := n)
      (B := fun j => tk2b (hvkOf frq) (t (n - j)))
      (B' := fun j => F.tk2b (F.hvkOf frq) (t (n - j))) (M := tk2b (hvkOf frq) Tmax)
      (fun i a b => c.opac (n + 1 - i) (by omega) (by omega)) (fun i hi => nB (n - i) (by omega))
      (fun i hi => hB (n - i) (by omega))
      (by positivity) (by linarith) hl' ng (mul_nonneg c.emis.1 B0.1) gM
    have eP : opacityBelow (fun j => τ (n + 1 - j)) n = opacityBelow τ n := by
      have := opacityAbove_reverse (τ := τ) (n := n) (i := 0) (τ' := fun j => τ (n + 1 - j))
        (fun _ _ _ => rfl) (Nat.zero_le n)
      rw [opacityAbove_zero] at this
      simpa using this.symm
    have eo : out.boftotl = (if opacityBelow (fun j => τ (n + 1 - j)) n < 125 then
        es * tk2b (hvkOf frq) (t 0) * Real.exp (-opacityBelow (fun j => τ (n + 1 - j)) n) else 0)
        + skyRadiance (fun j => tk2b (hvkOf frq) (t (n - j))) (fun j => τ (n + 1 - j)) n := by
      rw [p8, eP, ← upRadiance_zero_eq_reverse (B := fun i => tk2b (hvkOf frq) (t i))]
      split_ifs with hc
      · rw [(p6 hc).1]
      · rw [(p7 (not_lt.1 hc)).1]
    rw [eo]
    refine ⟨_, ?_, tot⟩
    have sp := F.satArrays_spec (F.hvkOf frq) n t τ 0 (by omega)
    unfold Arith.planck
    rw [if_neg (Nat.succ_ne_zero n)]
    simp only [if_true]
    rw [sp.2.1, sp.2.2, Nat.sub_zero]
    split_ifs <;> rfl

/-- Brightness temperature.  `T` is the value of the exact model; it has to be at least `hν/k`
(`0.048 K` per GHz), below which the conversion from radiance magnifies every error. -/
theorem C118_temperature (hF : F.Accurate u) (hu : 1e-30 ≤ u ∧ u ≤ 1e-15)
    (c : Conditioned frq es nl t τ Tmax R) (hs : R * layerLoss (nl - 1) * u ≤ 1e-3)
    {s : Bool} {T : ℝ} (h : Arith.exact.tbtotal s es frq nl t τ = some T) (hT : hvkOf frq ≤ T) :
    ∃ T', F.tbtotal s es frq nl t τ = some T' ∧
      |T' - T| ≤ Tmax * ((18 * R + 3 * layerLoss (nl - 1)) * u) := by
  have u0 := Arith.Unit.nonneg hu
  obtain ⟨R4, h12, hl⟩ := small_of hu c hs
  have hh := hvkOf_pos c.freq
  have T0 : 0 < T := hh.trans_le hT
  rw [C118_same_program] at h
  cases ho : planck s es frq nl t τ with
  | none => rw [ho] at h; cases h
  | some out =>
    rw [ho] at h
    have hb : bright out.hvk out.boftotl = some T := h
    obtain ⟨b', e1, b0, bM, d⟩ := C118_radiance hF hu c hs ho
    have ehvk : out.hvk = hvkOf frq := by
      cases s
      · exact (planck_ground ho).2.1
      · exact (planck_sat ho).2.1
    rw [ehvk] at hb
    set H := hvkOf frq with hH
    set b := out.boftotl with hbd
    have bpos : 0 < b := by
      rcases b0.lt_or_eq with hlt | heq
      · exact hlt
      · rw [← heq, bright_zero] at hb
        have := Option.some.inj hb
        linarith
    rw [bright_of_pos bpos] at hb
    have eT : H / Real.log (1 + 1 / b) = T := Option.some.inj hb
    have ib : 0 < 1 / b := by positivity
    have y0 : 0 < Real.log (1 + 1 / b) := Real.log_pos (by linarith)
    set y := Real.log (1 + 1 / b) with hy
    have yT : y * T = H := by rw [div_eq_iff y0.ne'] at eT; linarith
    have y1 : y ≤ 1 := by
      by_contra hc
      push Not at hc
      nlinarith
    have ey : Real.exp y = 1 + 1 / b := by rw [hy, Real.exp_log (by linarith)]
    -- 1/b ≤ 2 y
    have ib2 : 1 / b ≤ 2 * y := by
      have k := Real.exp_bound' y0.le y1 (n := 2) (by norm_num)
      simp [Finset.sum_range_succ, Nat.factorial] at k
      rw [ey] at k
      nlinarith
    -- T ≤ Tmax
    have TT : T ≤ Tmax := by
      obtain ⟨T2, k1, _, k2⟩ := bright_le hh c.tmax b0 bM
      rw [bright_of_pos bpos] at k1
      have : H / Real.log (1 + 1 / b) = T2 := Option.some.inj k1
      rw [← hy, eT] at this
      linarith
    -- M ≤ Tmax / H
    have MH : tk2b H Tmax * H ≤ Tmax := by
      have x0 : 0 < H / Tmax := div_pos hh c.tmax
      have k := add_one_le_exp (H / Tmax)
      unfold tk2b
      rw [norm_one, div_mul_eq_mul_div, one_mul, div_le_iff₀ (by linarith [add_one_lt_exp x0.ne'])]
      have : Tmax * (H / Tmax) ≤ Tmax * (Real.exp (H / Tmax) - 1) :=
        mul_le_mul_of_nonneg_left (by linarith) c.tmax.le
      rwa [mul_div_cancel₀ _ c.tmax.ne'] at this
    set M := tk2b H Tmax with hM
    have M0 : 0 < M := tk2b_pos hh c.tmax
    have xc := Arith.le_cond (show 0 < H / Tmax from div_pos hh c.tmax)
    have TR : Tmax / H ≤ R := by
      have : 1 / (H / Tmax) = Tmax / H := by rw [one_div_div]
      rw [← this]; exact xc.2.2.trans c.atMax
    have MR : M ≤ R := by
      have : M ≤ Tmax / H := by rw [le_div_iff₀ hh]; exact MH
      linarith
    set N := layerLoss (nl - 1) with hN
    have N25 : 25 ≤ N := Arith.lost_ge (nl - 1)
    have Nu : 0 ≤ N * u := by positivity
    have Ru : 0 ≤ R * u := by positivity
    -- relative error of the radiance
    have η2 : M * (1 / b) * (N * u) ≤ 2e-3 := by
      have k1 : M * (1 / b) ≤ R * 2 := mul_le_mul MR (by linarith) ib.le (by linarith)
      have k2 := mul_le_mul_of_nonneg_right k1 Nu
      linarith
    have η20 : 0 ≤ M * (1 / b) * (N * u) := by positivity
    have nb : Arith.Near b' b (12 * R * u + M * (1 / b) * (N * u)) := by
      apply Arith.near_of_abs
      have e : (12 * R * u + M * (1 / b) * (N * u)) * b = 12 * R * u * b + M * (N * u) := by
        field_simp
      rw [e]; exact d
    have uy : u / y ≤ R * u := by
      have e : u / y = T / H * u := by
        rw [← yT]; field_simp
      rw [e]
      apply mul_le_mul_of_nonneg_right _ u0
      exact le_trans (div_le_div_of_nonneg_right TT hh.le) TR
    obtain ⟨T', g1, g2⟩ := Arith.bright_error hF hu hh (Arith.near_hvk hF hu c.freq) bpos nb
      (by positivity) (by linarith) (by rw [← hy]; linarith)
    rw [← hy, eT] at g2
    refine ⟨T', ?_, g2.trans ?_⟩
    · unfold Arith.tbtotal; rw [e1]; exact g1
    · have uR : 4 * u ≤ R * u := mul_le_mul_of_nonneg_right R4 u0
      have k1 : T * (M * (1 / b)) ≤ 2 * Tmax := by
        have : T * (M * (1 / b)) ≤ T * (M * (2 * y)) :=
          mul_le_mul_of_nonneg_left (mul_le_mul_of_nonneg_left ib2 M0.le) T0.le
        have e : T * (M * (2 * y)) = 2 * (M * (y * T)) := by ring
        rw [e, yT] at this
        linarith
      have k2 := mul_le_mul_of_nonneg_right k1 Nu
      have k3 : T * (R * u) ≤ Tmax * (R * u) := mul_le_mul_of_nonneg_right TT Ru
      have k4 : T * u ≤ T * (R * u / 4) := mul_le_mul_of_nonneg_left (by linarith) T0.le
      have k5 : T * (u / y) ≤ T * (R * u) := mul_le_mul_of_nonneg_left uy T0.le
      have k6 : 0 ≤ Tmax * (N * u) := mul_nonneg c.tmax.le Nu
      have k7 : 0 ≤ Tmax * (R * u) := mul_nonneg c.tmax.le Ru
      have e1 : T * (1.1 * (12 * R * u + M * (1 / b) * (N * u)) + 13 * u + 1.5 * (u / y))
          = 13.2 * (T * (R * u)) + 1.1 * (T * (M * (1 / b)) * (N * u)) + 13 * (T * u)
            + 1.5 * (T * (u / y)) := by ring
      have e2 : Tmax * ((18 * R + 3 * N) * u) = 18 * (Tmax * (R * u)) + 3 * (Tmax * (N * u)) := by ring
      rw [e1, e2]
      linarith

/-! ### Double precision -/

theorem hvk_range (h1 : 1 ≤ frq) (h2 : frq ≤ 1000) : 0.047992 ≤ hvkOf frq ∧ hvkOf frq ≤ 48 := by
  unfold hvkOf cPlanck cBoltzmann
  constructor
  · rw [le_div_iff₀ (by norm_num)]; norm_num at *; nlinarith
  · rw [div_le_iff₀ (by norm_num)]; norm_num at *; nlinarith

theorem cond_range {T : ℝ} (h1 : 1 ≤ frq) (h2 : frq ≤ 1000) (t1 : 2.7 ≤ T) (t2 : T ≤ 350) :
    (1 + hvkOf frq / T) ^ 2 / (hvkOf frq / T) ≤ 7400 := by
  obtain ⟨a, b⟩ := hvk_range h1 h2
  have T0 : 0 < T := lt_of_lt_of_le (by norm_num) t1
  have h0 : 0 < hvkOf frq := lt_of_lt_of_le (by norm_num) a
  have x1 : hvkOf frq / T ≤ 18 := by rw [div_le_iff₀ T0]; norm_num at *; linarith
  have x2 : 1 / (hvkOf frq / T) ≤ 7300 := by
    rw [one_div_div, div_le_iff₀ h0]; norm_num at *; linarith
  have x0 : 0 < hvkOf frq / T := by positivity
  have e : (1 + hvkOf frq / T) ^ 2 / (hvkOf frq / T)
      = 1 / (hvkOf frq / T) + 2 + hvkOf frq / T := by field_simp; ring
  rw [e]; linarith

/-- Double precision, any channel between 1 and 1000 GHz, temperatures between 2.7 and 350 K, up to
1001 levels: the computed brightness temperature is within `1.1·10⁻⁸ + 2.4·10⁻¹³·(2n² + 11n + 25)`
kelvin of the exact one (`n` layers). -/
theorem C118_double (hF : F.Accurate (2 ^ (-52 : ℤ))) (h1 : 1 ≤ frq) (h2 : frq ≤ 1000)
    (hes : 0 ≤ es ∧ es ≤ 1) (hn : 0 < nl) (hn1 : nl ≤ 1001)
    (ht : ∀ i < nl, 2.7 ≤ t i ∧ t i ≤ 350) (hτ : ∀ i, 1 ≤ i → i < nl → 0 ≤ τ i)
    {s : Bool} {T : ℝ} (h : Arith.exact.tbtotal s es frq nl t τ = some T) (hT : hvkOf frq ≤ T) :
    ∃ T', F.tbtotal s es frq nl t τ = some T' ∧
      |T' - T| ≤ 1.1e-8 + 2.4e-13 * layerLoss (nl - 1) := by
  have c : Conditioned frq es nl t τ 350 7400 :=
    { freq := by linarith
      levels := hn
      temp := fun i hi => ⟨lt_of_lt_of_le (by norm_num) (ht i hi).1, (ht i hi).2⟩
      opac := hτ
      emis := hes
      cosmic := by norm_num
      atLevels := fun i hi => cond_range h1 h2 (ht i hi).1 (ht i hi).2
      atCosmic := cond_range h1 h2 (by norm_num) (by norm_num)
      atMax := cond_range h1 h2 (by norm_num) le_rfl }
  have n1 : ((nl - 1 : ℕ) : ℝ) ≤ 1000 := by exact_mod_cast (by omega : nl - 1 ≤ 1000)
  have n0 : (0:ℝ) ≤ ((nl - 1 : ℕ) : ℝ) := Nat.cast_nonneg _
  have L : layerLoss (nl - 1) ≤ 2011025 := by unfold layerLoss; nlinarith
  have L0 : 0 ≤ layerLoss (nl - 1) := by unfold layerLoss; positivity
  obtain ⟨T', g1, g2⟩ := C118_temperature hF (by norm_num) c (by norm_num; linarith) h hT
  refine ⟨T', g1, g2.trans ?_⟩
  norm_num
  linarith

/-- Up to 101 levels the error is below `2·10⁻⁸ K`, up to 1001 levels below `5·10⁻⁷ K`. -/
theorem C118_kelvin (hF : F.Accurate (2 ^ (-52 : ℤ))) (h1 : 1 ≤ frq) (h2 : frq ≤ 1000)
    (hes : 0 ≤ es ∧ es ≤ 1) (hn : 0 < nl)
    (ht : ∀ i < nl, 2.7 ≤ t i ∧ t i ≤ 350) (hτ : ∀ i, 1 ≤ i → i < nl → 0 ≤ τ i)
    {s : Bool} {T : ℝ} (h : Arith.exact.tbtotal s es frq nl t τ = some T) (hT : hvkOf frq ≤ T) :
    (nl ≤ 101 → ∃ T', F.tbtotal s es frq nl t τ = some T' ∧ |T' - T| ≤ 2e-8) ∧
    (nl ≤ 1001 → ∃ T', F.tbtotal s es frq nl t τ = some T' ∧ |T' - T| ≤ 5e-7) := by
  have n0 : (0:ℝ) ≤ ((nl - 1 : ℕ) : ℝ) := Nat.cast_nonneg _
  constructor
  · intro hl
    obtain ⟨T', g1, g2⟩ := C118_double hF h1 h2 hes hn (by omega) ht hτ h hT
    have n1 : ((nl - 1 : ℕ) : ℝ) ≤ 100 := by exact_mod_cast (by omega : nl - 1 ≤ 100)
    have L : layerLoss (nl - 1) ≤ 21125 := by unfold layerLoss; nlinarith
    exact ⟨T', g1, g2.trans (by norm_num; linarith)⟩
  · intro hl
    obtain ⟨T', g1, g2⟩ := C118_double hF h1 h2 hes hn (by omega) ht hτ h hT
    have n1 : ((nl - 1 : ℕ) : ℝ) ≤ 1000 := by exact_mod_cast (by omega : nl - 1 ≤ 1000)
    have L : layerLoss (nl - 1) ≤ 2011025 := by unfold layerLoss; nlinarith
    exact ⟨T', g1, g2.trans (by norm_num; linarith)⟩

/-- An isothermal scene over a black surface, computed in double precision, shows its temperature
to `2·10⁻⁸ K`. -/
theorem C118_isothermal (hF : F.Accurate (2 ^ (-52 : ℤ))) (h1 : 1 ≤ frq) (h2 : frq ≤ 1000)
    (hn : 0 < nl) (hn1 : nl ≤ 101) {T : ℝ} (hT : 48 ≤ T) (hT1 : T ≤ 350) (ht : ∀ i < nl, t i = T)
    (hτ : ∀ i, 1 ≤ i → i < nl → 0 ≤ τ i) (hop : opacityBelow τ (nl - 1) < 125) :
    ∃ T', F.tbtotal true 1 frq nl t τ = some T' ∧ |T' - T| ≤ 2e-8 := by
  cases ho : planck true 1 frq nl t τ with
  | none => exact absurd (planck_eq_none_iff.1 ho) hn.ne'
  | some out =>
    have e := C05_isothermal_up (by linarith) (by linarith) ht hop ho
    refine (C118_kelvin hF h1 h2 ⟨zero_le_one, le_rfl⟩ hn (fun i hi => ?_) hτ (s := true) (T := T) ?_ ?_).1 hn1
    · rw [ht i hi]; exact ⟨by linarith, hT1⟩
    · rw [C118_same_program, ho]; exact e
    · linarith [(hvk_range h1 h2).2]

/-- The brightness temperature computed in double precision never exceeds the warmest temperature of
the scene by more than `5·10⁻⁷ K` (up to 1001 levels, either view). -/
theorem C118_upper (hF : F.Accurate (2 ^ (-52 : ℤ))) (h1 : 1 ≤ frq) (h2 : frq ≤ 1000)
    (hes : 0 ≤ es ∧ es ≤ 1) (hn : 0 < nl) (hn1 : nl ≤ 1001) (hc : 2.728 ≤ Tmax)
    (ht : ∀ i < nl, 2.7 ≤ t i ∧ t i ≤ Tmax) (hm : Tmax ≤ 350) (hτ : ∀ i, 1 ≤ i → i < nl → 0 ≤ τ i)
    {s : Bool} {T : ℝ} (h : Arith.exact.tbtotal s es frq nl t τ = some T) (hT : hvkOf frq ≤ T) :
    ∃ T', F.tbtotal s es frq nl t τ = some T' ∧ T' ≤ Tmax + 5e-7 := by
  obtain ⟨T', g1, g2⟩ := (C118_kelvin hF h1 h2 hes hn
    (fun i hi => ⟨(ht i hi).1, (ht i hi).2.trans hm⟩) hτ h hT).2 hn1
  refine ⟨T', g1, ?_⟩
  have f0 : 0 < frq := by linarith
  have hp : ∀ i < nl, 0 < t i ∧ t i ≤ Tmax := fun i hi =>
    ⟨lt_of_lt_of_le (by norm_num) (ht i hi).1, (ht i hi).2⟩
  rw [C118_same_program] at h
  cases ho : planck s es frq nl t τ with
  | none => rw [ho] at h; cases h
  | some out =>
    rw [ho] at h
    have hb : bright out.hvk out.boftotl = some T := h
    have : T ≤ Tmax := by
      cases s
      · obtain ⟨Tb, k1, _, k2⟩ := C04_downwelling_le f0 hc hp (fun i a b => hτ i a b) ho
        rw [hb] at k1; cases k1; exact k2
      · obtain ⟨Tb, k1, _, k2⟩ := C03_upwelling_le f0 hes hp (fun i a b => hτ i a b) ho
        rw [hb] at k1; cases k1; exact k2
    linarith [(abs_le.1 g2).2]

end views

/-! ### The hypotheses are met -/

/-- An arithmetic that is never exact (except at zero): every result comes out too small by one part
in `2⁵³`. -/
noncomputable def shaved : Arith :=
  let k : ℝ := 1 - 2 ^ (-53 : ℤ)
  ⟨fun a b => (a + b) * k, fun a b => (a - b) * k, fun a b => a * b * k, fun a b => a / b * k,
    fun a => Real.exp a * k, fun a => Real.log a * k, fun a => a * k⟩

theorem shaved_accurate : shaved.Accurate (2 ^ (-52 : ℤ)) := by
  have key : ∀ x : ℝ, |x * (1 - 2 ^ (-53 : ℤ)) - x| ≤ 2 ^ (-52 : ℤ) * |x| := by
    intro x
    have e : x * (1 - 2 ^ (-53 : ℤ)) - x = -(2 ^ (-53 : ℤ) * x) := by ring
    rw [e, abs_neg, abs_mul, abs_of_pos (show (0:ℝ) < 2 ^ (-53 : ℤ) by positivity)]
    exact mul_le_mul_of_nonneg_right (by norm_num) (abs_nonneg x)
  refine ⟨fun a b => key _, fun a b => key _, fun a b => key _, fun a b _ => key _, fun a => ?_,
    fun a _ => key _, fun a => key _⟩
  have := key (Real.exp a)
  rwa [abs_of_pos (Real.exp_pos a)] at this

example : shaved.add 1 1 ≠ 2 := by
  show ((1:ℝ) + 1) * (1 - 2 ^ (-53 : ℤ)) ≠ 2
  norm_num

/-- Three isothermal levels at 50 GHz, seen from above, in the shaved arithmetic. -/
example : ∃ T', shaved.tbtotal true 1 50 3 (fun _ => 280) (fun _ => 0.4) = some T' ∧
    |T' - 280| ≤ 2e-8 :=
  C118_isothermal shaved_accurate (by norm_num) (by norm_num) (by norm_num) (by norm_num)
    (by norm_num) (by norm_num) (fun _ _ => rfl) (fun _ _ _ => by norm_num)
    (by norm_num [opacityBelow])

/-- Levels warming upwards, seen from the ground. -/
example : ∃ T T', Arith.exact.tbtotal false 1 50 3 (fun i => 260 + 10 * i) (fun _ => 0.4) = some T ∧
    shaved.tbtotal false 1 50 3 (fun i => 260 + 10 * i) (fun _ => 0.4) = some T' ∧
      |T' - T| ≤ 2e-8 := by
  have ht : ∀ i : ℕ, i < 3 → (260:ℝ) ≤ 260 + 10 * (i : ℝ) ∧ 260 + 10 * (i : ℝ) ≤ 300 := by
    intro i hi
    have h1 : (i : ℝ) ≤ 2 := by exact_mod_cast (by omega : i ≤ 2)
    have h0 : (0:ℝ) ≤ i := Nat.cast_nonneg i
    constructor <;> linarith
  cases ho : planck false 1 50 3 (fun i => 260 + 10 * i) (fun _ => 0.4) with
  | none => exact absurd (planck_eq_none_iff.1 ho) (by norm_num)
  | some out =>
    obtain ⟨Tb, k1, k2, _⟩ := C04_downwelling_between (m := 2.728) (M := 300) (by norm_num)
      (by norm_num) le_rfl (by norm_num)
      (fun i hi => ⟨le_trans (by norm_num) (ht i hi).1, (ht i hi).2⟩) (fun _ _ _ => by norm_num)
      (by norm_num [opacityBelow]) ho
    have hx : Arith.exact.tbtotal false 1 50 3 (fun i => 260 + 10 * i) (fun _ => 0.4) = some Tb := by
      rw [C118_same_program, ho]; exact k1
    have hk : hvkOf 50 ≤ Tb := le_trans (by norm_num [hvkOf, cPlanck, cBoltzmann]) k2
    obtain ⟨T', g1, g2⟩ := (C118_kelvin shaved_accurate (by norm_num) (by norm_num)
      ⟨zero_le_one, le_rfl⟩ (by norm_num)
      (fun i hi => ⟨le_trans (by norm_num) (ht i hi).1, (ht i hi).2.trans (by norm_num)⟩)
      (fun _ _ _ => by norm_num) hx hk).1 (by norm_num)
    exact ⟨Tb, T', hx, g1, g2⟩

end Verif.Props
