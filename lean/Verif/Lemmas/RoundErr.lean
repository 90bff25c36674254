import Verif.Lemmas.Rounded
import Mathlib.Analysis.SpecialFunctions.Log.Basic
import Mathlib.Analysis.SpecialFunctions.Exponential

/-! # Propagation of rounding errors through the radiance code -/

namespace Verif.Model.Arith

open Verif.Py Verif.Spec Real

variable {F : Arith} {u : ℝ}

/-! ## Composition of relative errors of positive quantities -/

/-- `a'` approximates the non-negative `a` with relative error `δ`. -/
def Near (a' a δ : ℝ) : Prop := a * (1 - δ) ≤ a' ∧ a' ≤ a * (1 + δ)

theorem Near.mono {a' a δ ε : ℝ} (h : Near a' a δ) (ha : 0 ≤ a) (hd : δ ≤ ε) : Near a' a ε :=
  ⟨le_trans (by nlinarith) h.1, h.2.trans (by nlinarith)⟩

theorem Near.abs {a' a δ : ℝ} (h : Near a' a δ) : |a' - a| ≤ δ * a :=
  abs_le.2 ⟨by linarith [h.1], by linarith [h.2]⟩

theorem near_of_abs {a' a δ : ℝ} (h : |a' - a| ≤ δ * a) : Near a' a δ := by
  have := abs_le.1 h
  exact ⟨by linarith [this.1], by linarith [this.2]⟩

theorem Near.nonneg {a' a δ : ℝ} (h : Near a' a δ) (ha : 0 ≤ a) (hd : δ ≤ 1) : 0 ≤ a' :=
  le_trans (mul_nonneg ha (by linarith)) h.1

theorem Near.pos {a' a δ : ℝ} (h : Near a' a δ) (ha : 0 < a) (hd : δ < 1) : 0 < a' :=
  lt_of_lt_of_le (mul_pos ha (by linarith)) h.1

theorem near_refl (a : ℝ) : Near a a 0 := ⟨by simp, by simp⟩

/-- Two approximations in a row. -/
theorem Near.trans {a b c δ ε : ℝ} (h : Near a b δ) (k : Near b c ε) (hc : 0 ≤ c) (hd : 0 ≤ δ)
    (hd1 : δ ≤ 1) (he : 0 ≤ ε) : Near a c (δ + ε + δ * ε) := by
  obtain ⟨h1, h2⟩ := h
  obtain ⟨k1, k2⟩ := k
  constructor
  · have : c * (1 - ε) * (1 - δ) ≤ b * (1 - δ) := by
      apply mul_le_mul_of_nonneg_right k1; linarith
    have h0 : 0 ≤ c * (δ * ε) := by positivity
    nlinarith
  · have : b * (1 + δ) ≤ c * (1 + ε) * (1 + δ) := by
      apply mul_le_mul_of_nonneg_right k2; linarith
    nlinarith

theorem near_mul (hF : F.Accurate u) {a' a b' b δ ε : ℝ} (ha : Near a' a δ) (hb : Near b' b ε)
    (h0 : 0 ≤ a) (h0' : 0 ≤ b) (hd : 0 ≤ δ) (he : 0 ≤ ε) (hd1 : δ ≤ 1) (he1 : ε ≤ 1)
    (hu : 0 ≤ u) (hu1 : u ≤ 1) :
    Near (F.mul a' b') (a * b) (u + (δ + ε + δ * ε) + u * (δ + ε + δ * ε)) := by
  have a0 := ha.nonneg h0 hd1
  have b0 := hb.nonneg h0' he1
  have m := hF.mul a' b'
  rw [abs_of_nonneg (mul_nonneg a0 b0)] at m
  refine (near_of_abs m).trans ?_ (mul_nonneg h0 h0') hu hu1 (by positivity)
  constructor
  · have h1 : (a * (1 - δ)) * (b * (1 - ε)) ≤ a' * b' :=
      mul_le_mul ha.1 hb.1 (mul_nonneg h0' (by linarith)) a0
    have : 0 ≤ a * b * (δ * ε) := by positivity
    nlinarith
  · have h1 : a' * b' ≤ (a * (1 + δ)) * (b * (1 + ε)) :=
      mul_le_mul ha.2 hb.2 b0 (mul_nonneg h0 (by linarith))
    nlinarith

theorem near_add (hF : F.Accurate u) {a' a b' b δ : ℝ} (ha : Near a' a δ) (hb : Near b' b δ)
    (h0 : 0 ≤ a) (h0' : 0 ≤ b) (hd : 0 ≤ δ) (hd1 : δ ≤ 1) (hu : 0 ≤ u) (hu1 : u ≤ 1) :
    Near (F.add a' b') (a + b) (u + δ + u * δ) := by
  have a0 := ha.nonneg h0 hd1
  have b0 := hb.nonneg h0' hd1
  have m := hF.add a' b'
  rw [abs_of_nonneg (add_nonneg a0 b0)] at m
  refine (near_of_abs m).trans ?_ (add_nonneg h0 h0') hu hu1 hd
  exact ⟨by linarith [ha.1, hb.1], by linarith [ha.2, hb.2]⟩

/-- Quotients; `ε` small. -/
theorem near_quot {a' a b' b δ ε : ℝ} (ha : Near a' a δ) (hb : Near b' b ε)
    (h0 : 0 ≤ a) (h0' : 0 < b) (hd : 0 ≤ δ) (he : 0 ≤ ε) (hd1 : δ ≤ 1) (he1 : ε ≤ 1 / 100) :
    Near (a' / b') (a / b) (δ + ε + 2 * ε * (δ + ε)) := by
  have a0 := ha.nonneg h0 hd1
  have b0 := hb.pos h0' (by linarith)
  constructor
  · rw [le_div_iff₀ b0]
    have h1 : a / b * (1 - (δ + ε + 2 * ε * (δ + ε))) * b' ≤ a * (1 - δ) := by
      rcases le_total 0 (1 - (δ + ε + 2 * ε * (δ + ε))) with hc | hc
      · have h2 : a / b * (1 - (δ + ε + 2 * ε * (δ + ε))) * b' ≤
            a / b * (1 - (δ + ε + 2 * ε * (δ + ε))) * (b * (1 + ε)) := by
          apply mul_le_mul_of_nonneg_left hb.2
          exact mul_nonneg (div_nonneg h0 h0'.le) hc
        have h3 : a / b * (1 - (δ + ε + 2 * ε * (δ + ε))) * (b * (1 + ε))
            = a * ((1 - (δ + ε + 2 * ε * (δ + ε))) * (1 + ε)) := by
          field_simp
        rw [h3] at h2
        refine h2.trans (mul_le_mul_of_nonneg_left ?_ h0)
        nlinarith [mul_nonneg hd he, mul_nonneg he he, mul_nonneg (mul_nonneg hd he) he,
          mul_nonneg (mul_nonneg he he) he]
      · have : a / b * (1 - (δ + ε + 2 * ε * (δ + ε))) * b' ≤ 0 :=
          mul_nonpos_of_nonpos_of_nonneg
            (mul_nonpos_of_nonneg_of_nonpos (div_nonneg h0 h0'.le) hc) b0.le
        exact this.trans (mul_nonneg h0 (by linarith))
    exact h1.trans ha.1
  · rw [div_le_iff₀ b0]
    have h2 : a / b * (1 + (δ + ε + 2 * ε * (δ + ε))) * (b * (1 - ε)) ≤
        a / b * (1 + (δ + ε + 2 * ε * (δ + ε))) * b' := by
      apply mul_le_mul_of_nonneg_left hb.1
      have := div_nonneg h0 h0'.le
      positivity
    have h3 : a / b * (1 + (δ + ε + 2 * ε * (δ + ε))) * (b * (1 - ε))
        = a * ((1 + (δ + ε + 2 * ε * (δ + ε))) * (1 - ε)) := by
      field_simp
    rw [h3] at h2
    refine ha.2.trans (le_trans (mul_le_mul_of_nonneg_left ?_ h0) h2)
    have k1 : 0 ≤ ε * (δ + ε) * (1 - 2 * ε) := by
      have : 0 ≤ 1 - 2 * ε := by linarith
      positivity
    nlinarith

theorem near_div (hF : F.Accurate u) {a' a b' b δ ε : ℝ} (ha : Near a' a δ) (hb : Near b' b ε)
    (h0 : 0 ≤ a) (h0' : 0 < b) (hd : 0 ≤ δ) (he : 0 ≤ ε) (hd1 : δ ≤ 1) (he1 : ε ≤ 1 / 100)
    (hu : 0 ≤ u) (hu1 : u ≤ 1) :
    Near (F.div a' b') (a / b)
      (u + (δ + ε + 2 * ε * (δ + ε)) + u * (δ + ε + 2 * ε * (δ + ε))) := by
  have a0 := ha.nonneg h0 hd1
  have b0 := hb.pos h0' (by linarith)
  have m := hF.div a' b' b0.ne'
  rw [abs_of_nonneg (div_nonneg a0 b0.le)] at m
  exact (near_of_abs m).trans (near_quot ha hb h0 h0' hd he hd1 he1) (div_nonneg h0 h0'.le) hu hu1
    (by positivity)

theorem near_exp (hF : F.Accurate u) (a : ℝ) : Near (F.exp a) (Real.exp a) u :=
  near_of_abs (hF.exp a)

theorem near_lit (hF : F.Accurate u) {a : ℝ} (h : 0 ≤ a) : Near (F.lit a) a u := by
  have := hF.lit a
  rw [abs_of_nonneg h] at this
  exact near_of_abs this

/-! ## The constant `hvk` and the radiance of a level -/

/-- Unit roundoffs considered: anything up to `10⁻¹⁵` (double precision: `2.3·10⁻¹⁶`).  The lower
bound loses nothing, since an arithmetic accurate to `u` is accurate to every larger `u`. -/
def Unit (u : ℝ) : Prop := 1e-30 ≤ u ∧ u ≤ 1e-15

theorem Unit.nonneg (h : Unit u) : 0 ≤ u := le_trans (by norm_num) h.1
theorem Unit.le (h : Unit u) : u ≤ 1 / 10 ^ 15 := h.2.trans (by norm_num)
theorem Unit.one (h : Unit u) : u ≤ 1 := h.le.trans (by norm_num)

theorem near_hvk (hF : F.Accurate u) (hu : Unit u) {frq : ℝ} (hf : 0 < frq) :
    Near (F.hvkOf frq) (Model.hvkOf frq) (6 * u) := by
  have u0 := hu.nonneg
  have u1 := hu.le
  have uu : u * u ≤ u / 10 ^ 15 := by nlinarith
  have h1 := near_mul hF (near_refl frq) (near_refl (1e9 : ℝ)) hf.le (by norm_num) le_rfl le_rfl
    (by norm_num) (by norm_num) u0 hu.one
  have h1' : Near (F.mul frq 1e9) (frq * 1e9) u := by
    refine h1.mono (by positivity) ?_; simp
  have h2 := near_mul hF h1' (near_lit hF (show (0:ℝ) ≤ cPlanck by norm_num [cPlanck]))
    (by positivity) (by norm_num [cPlanck]) u0 u0 hu.one hu.one u0 hu.one
  have h2' := h2.mono (ε := 7 / 2 * u) (by unfold cPlanck; positivity) (by nlinarith)
  have h3 := near_div hF h2' (near_lit hF (show (0:ℝ) ≤ cBoltzmann by norm_num [cBoltzmann]))
    (by unfold cPlanck; positivity) (by norm_num [cBoltzmann]) (by positivity) u0
    (by nlinarith) (by nlinarith) u0 hu.one
  refine h3.mono (hvkOf_pos hf).le ?_
  nlinarith

/-- How strongly the radiance of a body at `h/T = x` reacts to relative errors. -/
noncomputable def cond (x : ℝ) : ℝ := (1 + x) ^ 2 / x

theorem le_cond {x : ℝ} (h : 0 < x) : x ≤ cond x ∧ 4 ≤ cond x ∧ 1 / x ≤ cond x := by
  unfold cond
  refine ⟨?_, ?_, ?_⟩
  · rw [le_div_iff₀ h]; nlinarith
  · rw [le_div_iff₀ h]; nlinarith [sq_nonneg (x - 1)]
  · apply div_le_div_of_nonneg_right _ h.le; nlinarith

theorem exp_ratio {x : ℝ} (h : 0 < x) : Real.exp x ≤ (Real.exp x - 1) * ((1 + x) / x) := by
  have h1 : x + 1 ≤ Real.exp x := add_one_le_exp x
  rw [mul_div_assoc', le_div_iff₀ h]
  nlinarith

/-- Relative error of an exponential caused by an absolute error `d` of its argument. -/
theorem near_exp_arg {x x' d : ℝ} (hd : |x' - x| ≤ 9 * d) (h1 : d ≤ 1e-3) :
    Near (Real.exp x') (Real.exp x) (10 * d) := by
  have e0 := Real.exp_pos x
  obtain ⟨d1, d2⟩ := abs_le.1 hd
  have d0 : 0 ≤ d := by linarith [(abs_nonneg (x' - x)).trans hd]
  have es : Real.exp x' = Real.exp x * Real.exp (x' - x) := by rw [← Real.exp_add]; congr 1; ring
  constructor
  · rw [es]
    apply mul_le_mul_of_nonneg_left _ e0.le
    linarith [add_one_le_exp (x' - x)]
  · rw [es]
    apply mul_le_mul_of_nonneg_left _ e0.le
    have k1 := add_one_le_exp (-(x' - x))
    have k3 : Real.exp (x' - x) * Real.exp (-(x' - x)) = 1 := by
      rw [← Real.exp_add]; simp
    have k4 : 0 < Real.exp (x' - x) := Real.exp_pos _
    have k5 : Real.exp (x' - x) * (1 - 9 * d) ≤ 1 := by
      rw [← k3]; apply mul_le_mul_of_nonneg_left _ k4.le; linarith
    have k6 : 1 ≤ (1 + 10 * d) * (1 - 9 * d) := by nlinarith
    by_contra hc
    push Not at hc
    have : (1 + 10 * d) * (1 - 9 * d) < Real.exp (x' - x) * (1 - 9 * d) := by
      apply mul_lt_mul_of_pos_right hc; linarith
    linarith

/-- The denominator `exp(hvk/T) - 1`. -/
theorem near_denom (hF : F.Accurate u) (hu : Unit u) {x x' R : ℝ} (x0 : 0 < x)
    (nx : Near x' x (9 * u)) (hR : cond x ≤ R) (hR1 : 12 * R * u ≤ 1e-3) :
    Near (F.sub (F.exp x') 1) (Real.exp x - 1) (10.5 * (R * u)) := by
  have u0 := hu.nonneg
  have u1 := hu.le
  obtain ⟨c1, c2, c3⟩ := le_cond x0
  have hux : x * u ≤ R * u := mul_le_mul_of_nonneg_right (c1.trans hR) u0
  have hxu : 0 ≤ x * u := by positivity
  have ne : Near (Real.exp x') (Real.exp x) (10 * (x * u)) :=
    near_exp_arg (by linarith [nx.abs]) (by linarith)
  have nE := (near_exp hF x').trans ne (Real.exp_pos x).le u0 hu.one (by positivity)
  set E := F.exp x' with hE
  have hs : u * (10 * (x * u)) ≤ u := by
    have : 10 * (x * u) ≤ 1 := by linarith
    nlinarith
  have nE' : Near E (Real.exp x) (10 * (1 + x) * u) :=
    nE.mono (Real.exp_pos x).le (by linarith)
  set D := Real.exp x - 1 with hD
  have D0 : 0 < D := by rw [hD]; linarith [add_one_lt_exp x0.ne']
  have er := exp_ratio x0
  rw [← hD] at er
  have dE := nE'.abs
  have cR : (1 + x) ^ 2 / x ≤ R := hR
  have dD : |E - 1 - D| ≤ 10 * (R * u) * D := by
    have e1 : E - 1 - D = E - Real.exp x := by rw [hD]; ring
    rw [e1]
    refine dE.trans ?_
    have k1 : 10 * (1 + x) * u * Real.exp x ≤ 10 * (1 + x) * u * (D * ((1 + x) / x)) :=
      mul_le_mul_of_nonneg_left er (by positivity)
    have k2 : 10 * (1 + x) * u * (D * ((1 + x) / x)) = 10 * u * D * ((1 + x) ^ 2 / x) := by
      field_simp
    have k3 : 10 * u * D * ((1 + x) ^ 2 / x) ≤ 10 * u * D * R :=
      mul_le_mul_of_nonneg_left cR (by positivity)
    linarith
  have R4 : 4 ≤ R := c2.trans hR
  have Ru : 0 ≤ R * u := by positivity
  have uR : 4 * u ≤ R * u := mul_le_mul_of_nonneg_right R4 u0
  have nD1 : Near (E - 1) D (10 * (R * u)) := near_of_abs dD
  have p1 : 0 < E - 1 := nD1.pos D0 (by linarith)
  have sb := hF.sub E 1
  rw [abs_of_pos p1] at sb
  have nD := (near_of_abs sb).trans nD1 D0.le u0 hu.one (by positivity)
  have Ruu : u * (10 * (R * u)) ≤ u * 1 := mul_le_mul_of_nonneg_left (by linarith) u0
  refine nD.mono D0.le ?_
  linarith

/-- Radiance of a level. -/
theorem near_tk2b (hF : F.Accurate u) (hu : Unit u) {h h' T T' R : ℝ} (hh : 0 < h) (hT : 0 < T)
    (nh : Near h' h (6 * u)) (nT : Near T' T u) (hR : cond (h / T) ≤ R) (hR1 : 12 * R * u ≤ 1e-3) :
    Near (F.tk2b h' T') (Model.tk2b h T) (12 * R * u) := by
  have u0 := hu.nonneg
  have u1 := hu.le
  have uu : u * u ≤ u / 10 ^ 15 := by nlinarith
  have x0 : 0 < h / T := by positivity
  have nx0 := near_div hF nh nT hh.le hT (by positivity) u0 (by linarith) (by linarith) u0 hu.one
  have nx : Near (F.div h' T') (h / T) (9 * u) := nx0.mono x0.le (by nlinarith)
  have nD := near_denom hF hu x0 nx hR hR1
  have R4 : 4 ≤ R := (le_cond x0).2.1.trans hR
  have D0 : 0 < Real.exp (h / T) - 1 := by linarith [add_one_lt_exp x0.ne']
  have uR : 4 * u ≤ R * u := mul_le_mul_of_nonneg_right R4 u0
  set q := R * u with hq
  have q0 : 0 ≤ q := by positivity
  have q1 : q ≤ 1e-3 / 12 := by linarith
  have fin := near_div hF (near_refl 1) nD zero_le_one D0 le_rfl (by positivity) zero_le_one
    (by linarith) u0 hu.one
  have eB : Model.tk2b h T = 1 / (Real.exp (h / T) - 1) := by unfold Model.tk2b; rw [norm_one]
  rw [eB]
  refine fin.mono (by positivity) ?_
  have qq : q * q ≤ q * (1e-3 / 12) := mul_le_mul_of_nonneg_left q1 q0
  have z : 0 + 10.5 * q + 2 * (10.5 * q) * (0 + 10.5 * q) ≤ 10.6 * q := by nlinarith
  have z2 := mul_le_mul_of_nonneg_left z u0
  have z3 : u * (10.6 * q) ≤ u * 1 := mul_le_mul_of_nonneg_left (by linarith) u0
  linarith

/-! ## One layer -/

theorem near_layer (hF : F.Accurate u) (hu : Unit u) {b0 b0' b1 b1' τ β : ℝ} (n0 : Near b0' b0 β)
    (n1 : Near b1' b1 β) (h0 : 0 ≤ b0) (h1 : 0 ≤ b1) (hβ : 0 ≤ β) (hβ1 : β ≤ 1e-2) :
    Near (F.div (F.add b0' (F.mul b1' (F.exp (-τ)))) (F.add 1 (F.exp (-τ)))) (layerSource b0 b1 τ)
      (β + 10 * u) := by
  have u0 := hu.nonneg
  have u1 := hu.le
  have uu : u * u ≤ u / 10 ^ 15 := by nlinarith
  have bu : β * u ≤ u / 100 := by nlinarith
  have bu0 : 0 ≤ β * u := by positivity
  have e0 := Real.exp_pos (-τ)
  have ne := near_exp hF (-τ)
  have m := near_mul hF n1 ne h1 e0.le hβ u0 (by linarith) hu.one u0 hu.one
  have m' : Near (F.mul b1' (F.exp (-τ))) (b1 * Real.exp (-τ)) (β + 3 * u) := by
    refine m.mono (by positivity) ?_
    have : u * (β + u + β * u) ≤ u * (1 / 2) := mul_le_mul_of_nonneg_left (by linarith) u0
    linarith
  have a := near_add hF (n0.mono (ε := β + 3 * u) h0 (by linarith)) m' h0 (by positivity)
    (by linarith) (by linarith) u0 hu.one
  have a' := a.mono (ε := β + 5 * u) (by positivity) (by
    have : u * (β + 3 * u) ≤ u * (1 / 2) := mul_le_mul_of_nonneg_left (by linarith) u0
    linarith)
  have d := near_add hF ((near_refl 1).mono (ε := u) zero_le_one u0) ne zero_le_one e0.le u0 hu.one
    u0 hu.one
  have d' := d.mono (ε := 3 * u) (by positivity) (by linarith)
  have q := near_div hF a' d' (by positivity) (by positivity) (by linarith) (by linarith)
    (by linarith) (by linarith) u0 hu.one
  refine q.mono (by positivity) ?_
  have z : 2 * (3 * u) * (β + 5 * u + 3 * u) ≤ u / 10 := by nlinarith
  have z0 : 0 ≤ 2 * (3 * u) * (β + 5 * u + 3 * u) := by positivity
  have z2 : u * (β + 5 * u + 3 * u + 2 * (3 * u) * (β + 5 * u + 3 * u)) ≤ u * (1 / 2) :=
    mul_le_mul_of_nonneg_left (by linarith) u0
  linarith

theorem accP_near (hF : F.Accurate u) (hu : Unit u) {τ : ℕ → ℝ} {n : ℕ}
    (hτ : ∀ i, 1 ≤ i → i ≤ n → 0 ≤ τ i) (hn : (n : ℝ) * u ≤ 1e-2) :
    ∀ k ≤ n, Near (F.accP τ k) (opacityBelow τ k) (2 * k * u) := by
  have u0 := hu.nonneg
  intro k
  induction k with
  | zero => intro _; simp [accP, Near]
  | succ k ih =>
    intro hk
    have hk' : (k : ℝ) * u ≤ 1e-2 := le_trans (mul_le_mul_of_nonneg_right (by
      exact_mod_cast (by omega : k ≤ n)) u0) hn
    have P0 : 0 ≤ opacityBelow τ k := opacityBelow_nonneg fun i h1 h2 => hτ i h1 (by omega)
    have t0 : 0 ≤ τ (k + 1) := hτ _ (by omega) hk
    have ku0 : 0 ≤ (k : ℝ) * u := by positivity
    have := near_add hF (ih (by omega)) ((near_refl (τ (k + 1))).mono (ε := 2 * k * u) t0
      (by positivity)) P0 t0 (by positivity) (by linarith) u0 hu.one
    rw [accP, opacityBelow_succ]
    refine this.mono (add_nonneg P0 t0) ?_
    push_cast
    have z : u * (2 * k * u) ≤ u * 1 := mul_le_mul_of_nonneg_left (by linarith) u0
    linarith

/-- Transmittances: the absolute error does not depend on the opacity. -/
theorem trans_error (hF : F.Accurate u) (hu : Unit u) {P P' γ : ℝ} (h : Near P' P γ) (hP : 0 ≤ P)
    (hγ : 0 ≤ γ) (hγ1 : γ ≤ 1 / 2) :
    |F.exp (-P') - Real.exp (-P)| ≤ γ + u := by
  have hb : P * Real.exp (-(P / 2)) ≤ 1 := by
    have h1 := add_one_le_exp (P / 4)
    have h2 : Real.exp (P / 2) = Real.exp (P / 4) * Real.exp (P / 4) := by
      rw [← Real.exp_add]; congr 1; ring
    have h3 : P ≤ Real.exp (P / 2) := by
      rw [h2]
      have : (P / 4 + 1) * (P / 4 + 1) ≤ Real.exp (P / 4) * Real.exp (P / 4) :=
        mul_le_mul h1 h1 (by positivity) (Real.exp_pos _).le
      nlinarith [sq_nonneg (P / 4 - 1)]
    rw [Real.exp_neg, ← div_eq_mul_inv, div_le_one (Real.exp_pos _)]
    exact h3
  have hb' : P * Real.exp (-P) ≤ 1 := by
    refine le_trans (mul_le_mul_of_nonneg_left ?_ hP) hb
    rw [Real.exp_le_exp]; linarith
  have P0 : 0 ≤ P' := h.nonneg hP (by linarith)
  have d := abs_le.1 h.abs
  have half : P / 2 ≤ P' := by nlinarith [h.1]
  have k : |Real.exp (-P') - Real.exp (-P)| ≤ γ := by
    rcases le_total P' P with hc | hc
    · have e : Real.exp (-P) = Real.exp (-P') * Real.exp (-(P - P')) := by
        rw [← Real.exp_add]; congr 1; ring
      have e1 := add_one_le_exp (-(P - P'))
      have e2 := Real.exp_pos (-P')
      have e3 : Real.exp (-P') ≤ Real.exp (-(P / 2)) := by rw [Real.exp_le_exp]; linarith
      have e4 : Real.exp (-P) ≤ Real.exp (-P') := by rw [Real.exp_le_exp]; linarith
      rw [abs_of_nonneg (by linarith)]
      calc Real.exp (-P') - Real.exp (-P) = Real.exp (-P') * (1 - Real.exp (-(P - P'))) := by
            rw [e]; ring
        _ ≤ Real.exp (-P') * (γ * P) := by
            apply mul_le_mul_of_nonneg_left _ e2.le; linarith
        _ ≤ Real.exp (-(P / 2)) * (γ * P) := by
            apply mul_le_mul_of_nonneg_right e3; positivity
        _ = γ * (P * Real.exp (-(P / 2))) := by ring
        _ ≤ γ * 1 := mul_le_mul_of_nonneg_left hb hγ
        _ = γ := by ring
    · have e : Real.exp (-P') = Real.exp (-P) * Real.exp (-(P' - P)) := by
        rw [← Real.exp_add]; congr 1; ring
      have e1 := add_one_le_exp (-(P' - P))
      have e2 := Real.exp_pos (-P)
      have e4 : Real.exp (-P') ≤ Real.exp (-P) := by rw [Real.exp_le_exp]; linarith
      rw [abs_sub_comm, abs_of_nonneg (by linarith)]
      calc Real.exp (-P) - Real.exp (-P') = Real.exp (-P) * (1 - Real.exp (-(P' - P))) := by
            rw [e]; ring
        _ ≤ Real.exp (-P) * (γ * P) := by
            apply mul_le_mul_of_nonneg_left _ e2.le; linarith
        _ = γ * (P * Real.exp (-P)) := by ring
        _ ≤ γ * 1 := mul_le_mul_of_nonneg_left hb' hγ
        _ = γ := by ring
  have f := hF.exp (-P')
  have f1 : Real.exp (-P') ≤ 1 := by rw [Real.exp_le_one_iff]; linarith
  have f2 : u * Real.exp (-P') ≤ u * 1 := mul_le_mul_of_nonneg_left f1 hu.nonneg
  have e : F.exp (-P') - Real.exp (-P)
      = (F.exp (-P') - Real.exp (-P')) + (Real.exp (-P') - Real.exp (-P)) := by ring
  rw [e]
  exact (abs_add_le _ _).trans (by linarith)

/-- Absorptance of a layer. -/
theorem absorb_error (hF : F.Accurate u) (hu : Unit u) {τ : ℝ} (hτ : 0 ≤ τ) :
    |F.sub 1 (F.exp (-τ)) - (1 - Real.exp (-τ))| ≤ 3 * u := by
  have u0 := hu.nonneg
  have e0 := Real.exp_pos (-τ)
  have e1 : Real.exp (-τ) ≤ 1 := by rw [Real.exp_le_one_iff]; linarith
  have d := abs_le.1 (hF.exp (-τ))
  have du : u * Real.exp (-τ) ≤ u := by nlinarith
  have s := hF.sub 1 (F.exp (-τ))
  have a : |1 - F.exp (-τ)| ≤ 2 := abs_le.2 ⟨by linarith [d.2, hu.one], by linarith [d.1, hu.one]⟩
  have s' : u * |1 - F.exp (-τ)| ≤ u * 2 := mul_le_mul_of_nonneg_left a u0
  have t := abs_le.1 (s.trans s')
  exact abs_le.2 ⟨by linarith [t.1, d.2], by linarith [t.2, d.1]⟩

/-- Product of a radiance known relatively with two factors in `[0, 1]` known absolutely. -/
theorem product_error (hF : F.Accurate u) (hu : Unit u) {L L' A A' w w' M lam a : ℝ}
    (nL : Near L' L lam) (h0 : 0 ≤ L) (hM : L ≤ M) (hl1 : lam ≤ 2e-2)
    (hA : 0 ≤ A) (hA1 : A ≤ 1) (dA : |A' - A| ≤ a) (ha1 : a ≤ 5e-2)
    (hw : 0 ≤ w) (hw1 : w ≤ 1) (dw : |w' - w| ≤ 3 * u) :
    |F.mul (F.mul L' A') w' - L * A * w| ≤ lam * (L * A * w) + M * (1.02 * a + 6 * u) := by
  have u0 := hu.nonneg
  have u1 := hu.le
  have M0 : 0 ≤ M := h0.trans hM
  have a0 : 0 ≤ a := (abs_nonneg _).trans dA
  have L0 := nL.nonneg h0 (by linarith)
  have LM : L' ≤ 1.02 * M := nL.2.trans (by nlinarith)
  obtain ⟨A1, A2⟩ := abs_le.1 dA
  have absA : |A'| ≤ 1.05 := abs_le.2 ⟨by linarith, by linarith⟩
  obtain ⟨w1, w2⟩ := abs_le.1 dw
  have absw : |w'| ≤ 1.01 := abs_le.2 ⟨by linarith, by linarith⟩
  have absL : |L'| ≤ 1.02 * M := by rw [abs_of_nonneg L0]; exact LM
  have m1 := hF.mul L' A'
  have p1 : |L' * A'| ≤ 1.08 * M := by
    rw [abs_mul]
    calc |L'| * |A'| ≤ (1.02 * M) * 1.05 := mul_le_mul absL absA (abs_nonneg _) (by positivity)
      _ ≤ 1.08 * M := by linarith
  have m1' : |F.mul L' A' - L' * A'| ≤ u * (1.08 * M) :=
    m1.trans (mul_le_mul_of_nonneg_left p1 u0)
  set m := F.mul L' A' with hm
  have absm : |m| ≤ 1.1 * M := by
    have e : m = (m - L' * A') + L' * A' := by ring
    rw [e]
    refine (abs_add_le _ _).trans ?_
    have : u * (1.08 * M) ≤ 1 / 100 * M := by nlinarith
    linarith
  have m2 := hF.mul m w'
  have p2 : |m * w'| ≤ 1.2 * M := by
    rw [abs_mul]
    calc |m| * |w'| ≤ (1.1 * M) * 1.01 := mul_le_mul absm absw (abs_nonneg _) (by positivity)
      _ ≤ 1.2 * M := by linarith
  have t1 : |F.mul m w' - m * w'| ≤ u * (1.2 * M) := m2.trans (mul_le_mul_of_nonneg_left p2 u0)
  have t2 : |(m - L' * A') * w'| ≤ u * (1.08 * M) * 1.01 := by
    rw [abs_mul]; exact mul_le_mul m1' absw (abs_nonneg _) (by positivity)
  have t3 : |L' * A' * (w' - w)| ≤ 1.08 * M * (3 * u) := by
    rw [abs_mul]; exact mul_le_mul p1 dw (abs_nonneg _) (by positivity)
  have t4 : |L' * (A' - A) * w| ≤ 1.02 * M * a := by
    rw [abs_mul, abs_mul, abs_of_nonneg hw]
    calc |L'| * |A' - A| * w ≤ |L'| * |A' - A| * 1 :=
          mul_le_mul_of_nonneg_left hw1 (by positivity)
      _ = |L'| * |A' - A| := by ring
      _ ≤ 1.02 * M * a := mul_le_mul absL dA (abs_nonneg _) (by positivity)
  have t5 : |(L' - L) * (A * w)| ≤ lam * L * (A * w) := by
    rw [abs_mul, abs_of_nonneg (mul_nonneg hA hw)]
    exact mul_le_mul_of_nonneg_right nL.abs (mul_nonneg hA hw)
  have e : F.mul m w' - L * A * w = (F.mul m w' - m * w') + (m - L' * A') * w' + L' * A' * (w' - w)
      + L' * (A' - A) * w + (L' - L) * (A * w) := by ring
  rw [e]
  have s1 := abs_add_le ((F.mul m w' - m * w') + (m - L' * A') * w' + L' * A' * (w' - w)
      + L' * (A' - A) * w) ((L' - L) * (A * w))
  have s2 := abs_add_le ((F.mul m w' - m * w') + (m - L' * A') * w' + L' * A' * (w' - w))
    (L' * (A' - A) * w)
  have s3 := abs_add_le ((F.mul m w' - m * w') + (m - L' * A') * w') (L' * A' * (w' - w))
  have s4 := abs_add_le (F.mul m w' - m * w') ((m - L' * A') * w')
  have Mu : 0 ≤ M * u := by positivity
  linarith

/-! ## The sum over the layers -/

theorem accS_error (hF : F.Accurate u) (hu : Unit u) {B B' τ : ℕ → ℝ} {n : ℕ} {M β : ℝ}
    (hτ : ∀ i, 1 ≤ i → i ≤ n → 0 ≤ τ i) (nB : ∀ i ≤ n, Near (B' i) (B i) β)
    (hB : ∀ i ≤ n, 0 ≤ B i ∧ B i ≤ M) (hβ : 0 ≤ β) (hβ1 : β ≤ 1e-2)
    (hn : (2 * (n : ℝ) ^ 2 + 8 * n) * u ≤ 1e-2) :
    ∀ k ≤ n, |F.accS B' τ k - skyRadiance B τ k|
      ≤ (β + 10 * u) * skyRadiance B τ k + M * ((2 * (k : ℝ) ^ 2 + 8 * k) * u) := by
  have u0 := hu.nonneg
  have u1 := hu.le
  have nn : (n : ℝ) * u ≤ 1e-2 := by
    refine le_trans (mul_le_mul_of_nonneg_right ?_ u0) hn
    have : (0:ℝ) ≤ n := Nat.cast_nonneg n
    nlinarith
  have M0 : 0 ≤ M := (hB 0 (Nat.zero_le n)).1.trans (hB 0 (Nat.zero_le n)).2
  intro k
  induction k with
  | zero => intro _; simp [accS]
  | succ k ih =>
    intro hk
    have I := ih (by omega)
    have kn : (k : ℝ) ≤ n := by exact_mod_cast (by omega : k ≤ n)
    have k0 : (0:ℝ) ≤ k := Nat.cast_nonneg k
    have ku : (k : ℝ) * u ≤ 1e-2 := (mul_le_mul_of_nonneg_right kn u0).trans nn
    have P0 : 0 ≤ opacityBelow τ k := opacityBelow_nonneg fun i h1 h2 => hτ i h1 (by omega)
    have t0 : 0 ≤ τ (k + 1) := hτ _ (by omega) hk
    have nP := accP_near hF hu hτ nn k (by omega)
    have dA := trans_error hF hu nP P0 (by positivity) (by linarith)
    have dw := absorb_error hF hu t0
    have h0 := hB k (by omega)
    have h1 := hB (k + 1) hk
    have nL := near_layer hF hu (τ := τ (k + 1)) (nB k (by omega)) (nB (k + 1) hk) h0.1 h1.1 hβ hβ1
    have L0 : 0 ≤ layerSource (B k) (B (k + 1)) (τ (k + 1)) := le_layerSource h0.1 h1.1
    have LM : layerSource (B k) (B (k + 1)) (τ (k + 1)) ≤ M := layerSource_le h0.2 h1.2
    have A1 : Real.exp (-opacityBelow τ k) ≤ 1 := by rw [Real.exp_le_one_iff]; linarith
    have w1 : Real.exp (-τ (k + 1)) ≤ 1 := by rw [Real.exp_le_one_iff]; linarith
    have pe := product_error hF hu nL L0 LM (by linarith) (Real.exp_pos _).le A1 dA
      (by linarith) (by linarith) (by linarith [Real.exp_pos (-τ (k + 1))]) dw
    have eb : layerSource (B k) (B (k + 1)) (τ (k + 1)) * Real.exp (-opacityBelow τ k)
        * (1 - Real.exp (-τ (k + 1)))
        = skyRadiance B τ (k + 1) - skyRadiance B τ k := by
      rw [skyRadiance_succ, transDown_succ]; unfold transDown; ring
    rw [eb] at pe
    have bd := skyRadiance_bounds (τ := τ) (n := k + 1) (lo := 0) (hi := M)
      (fun i a b => hτ i a (by omega)) (fun i h => hB i (by omega))
    have S1 : skyRadiance B τ (k + 1) ≤ M := by
      refine bd.2.trans ?_
      have := transDown_pos (τ := τ) (i := k + 1)
      nlinarith
    have S0 : 0 ≤ skyRadiance B τ (k + 1) := by simpa using bd.1
    rw [accS]
    change |F.add _ (F.mul (F.mul _ _) _) - _| ≤ _
    set b' := F.mul (F.mul (F.div (F.add (B' k) (F.mul (B' (k + 1)) (F.exp (-τ (k + 1)))))
      (F.add 1 (F.exp (-τ (k + 1))))) (F.exp (-F.accP τ k))) (F.sub 1 (F.exp (-τ (k + 1)))) with hb'
    have Mu : 0 ≤ M * u := by positivity
    have Mku : 0 ≤ M * ((k : ℝ) * u) := by positivity
    have pre : |F.accS B' τ k + b' - skyRadiance B τ (k + 1)|
        ≤ (β + 10 * u) * skyRadiance B τ (k + 1) + M * ((2 * (k : ℝ) ^ 2 + 8 * k) * u)
          + M * ((3 * k + 7.5) * u) := by
      have e : F.accS B' τ k + b' - skyRadiance B τ (k + 1)
          = (F.accS B' τ k - skyRadiance B τ k)
            + (b' - (skyRadiance B τ (k + 1) - skyRadiance B τ k)) := by ring
      rw [e]
      refine (abs_add_le _ _).trans ?_
      have e3 : M * ((3 * k + 7.5) * u) = 3 * (M * (k * u)) + 7.5 * (M * u) := by ring
      have e4 : M * (1.02 * (2 * k * u + u) + 6 * u) = 2.04 * (M * (k * u)) + 7.02 * (M * u) := by
        ring
      rw [e4] at pe
      rw [e3]
      linarith
    have q1 : (2 * (k : ℝ) ^ 2 + 8 * k) * u ≤ 1e-2 := by
      refine le_trans (mul_le_mul_of_nonneg_right ?_ u0) hn
      nlinarith
    have q2 : M * ((2 * (k : ℝ) ^ 2 + 8 * k) * u) ≤ M * 1e-2 := mul_le_mul_of_nonneg_left q1 M0
    have q3 : M * ((3 * k + 7.5) * u) ≤ M * 5e-2 := by
      apply mul_le_mul_of_nonneg_left _ M0; linarith
    have q4 : (β + 10 * u) * skyRadiance B τ (k + 1) ≤ 2e-2 * M :=
      mul_le_mul (by linarith) S1 S0 (by norm_num)
    have ad := hF.add (F.accS B' τ k) b'
    have sz : |F.accS B' τ k + b'| ≤ 1.2 * M := by
      have e : F.accS B' τ k + b' = (F.accS B' τ k + b' - skyRadiance B τ (k + 1))
        + skyRadiance B τ (k + 1) := by ring
      rw [e]
      refine (abs_add_le _ _).trans ?_
      rw [abs_of_nonneg S0]
      linarith
    have ad' : |F.add (F.accS B' τ k) b' - (F.accS B' τ k + b')| ≤ u * (1.2 * M) :=
      ad.trans (mul_le_mul_of_nonneg_left sz u0)
    have e : F.add (F.accS B' τ k) b' - skyRadiance B τ (k + 1)
        = (F.add (F.accS B' τ k) b' - (F.accS B' τ k + b'))
          + (F.accS B' τ k + b' - skyRadiance B τ (k + 1)) := by ring
    rw [e]
    refine (abs_add_le _ _).trans ?_
    have e2 : M * ((2 * ((k + 1 : ℕ) : ℝ) ^ 2 + 8 * ((k + 1 : ℕ) : ℝ)) * u)
        = M * ((2 * (k : ℝ) ^ 2 + 8 * k) * u) + 4 * (M * (k * u)) + 10 * (M * u) := by
      push_cast; ring
    have e3 : M * ((3 * k + 7.5) * u) = 3 * (M * (k * u)) + 7.5 * (M * u) := by ring
    rw [e2]
    rw [e3] at pre
    linarith

end Verif.Model.Arith
