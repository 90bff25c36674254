import Verif.Spec.Weights
import Mathlib.Analysis.Calculus.Deriv.MeanValue
import Mathlib.Analysis.SpecialFunctions.ExpDeriv
import Mathlib.Analysis.Calculus.Deriv.Inv
import Mathlib.Analysis.Calculus.Deriv.Pow

/-!
# The trapezoidal rule for one layer
-/

namespace Verif.Lemmas

open Real Verif.Spec

/-- `tanh (x / 2)` -/
noncomputable def half (x : ℝ) : ℝ := (1 - exp (-x)) / (1 + exp (-x))

theorem half_deriv (x : ℝ) : HasDerivAt half ((1 - half x ^ 2) / 2) x := by
  have hq : HasDerivAt (fun x : ℝ => exp (-x)) (-exp (-x)) x := by
    simpa using (hasDerivAt_neg x).exp
  have hne : 1 + exp (-x) ≠ 0 := by positivity
  have h := ((hasDerivAt_const x (1:ℝ)).sub hq).div ((hasDerivAt_const x (1:ℝ)).add hq) hne
  refine HasDerivAt.congr_deriv (f := half) h ?_
  simp only [Pi.sub_apply, Pi.add_apply, half]
  field_simp
  ring

theorem half_zero : half 0 = 0 := by simp [half]

theorem half_le {x : ℝ} (hx : 0 ≤ x) : half x ≤ x / 2 := by
  have hd : ∀ x : ℝ, HasDerivAt (fun x => x / 2 - half x) (1 / 2 - (1 - half x ^ 2) / 2) x := fun x =>
    ((hasDerivAt_id x).div_const 2).sub (half_deriv x)
  have hm : Monotone fun x => x / 2 - half x := monotone_of_deriv_nonneg (fun x => (hd x).differentiableAt) fun x => by
    rw [(hd x).deriv]; nlinarith [sq_nonneg (half x)]
  have := hm hx
  simp only [half_zero] at this
  linarith

theorem half_nonneg {x : ℝ} (hx : 0 ≤ x) : 0 ≤ half x := by
  have : exp (-x) ≤ 1 := exp_le_one_iff.2 (by linarith)
  unfold half
  exact div_nonneg (by linarith) (by positivity)

theorem le_half {x : ℝ} (hx : 0 ≤ x) : x / 2 - x ^ 3 / 24 ≤ half x := by
  have hd : ∀ x : ℝ, HasDerivAt (fun x => half x - x / 2 + x ^ 3 / 24) ((1 - half x ^ 2) / 2 - 1 / 2 + 3 * x ^ 2 / 24) x :=
    fun x => ((half_deriv x).sub ((hasDerivAt_id x).div_const 2)).add (by simpa using (hasDerivAt_pow 3 x).div_const 24)
  have hm : MonotoneOn (fun x => half x - x / 2 + x ^ 3 / 24) (Set.Ici 0) :=
    monotoneOn_of_deriv_nonneg (convex_Ici 0) (fun x _ => (hd x).continuousAt.continuousWithinAt)
      (fun x _ => (hd x).differentiableAt.differentiableWithinAt) fun x hx => by
        rw [interior_Ici] at hx
        have h0 : (0:ℝ) ≤ x := le_of_lt hx
        rw [(hd x).deriv]
        nlinarith [half_le h0, half_nonneg h0]
  have := hm (Set.mem_Ici.2 le_rfl) (Set.mem_Ici.2 hx) hx
  simp only [half_zero] at this
  linarith

/-- One layer with the values `0` on the near side and `1` on the far side. -/
theorem trapezoid_layer {a0 a1 b0 b1 l x t : ℝ} (hl : 0 ≤ l) (hx : 0 ≤ x) (ht : 0 ≤ t) (h0 : 0 ≤ b0) (h1 : 0 ≤ b1) :
    |(t * a0 * b0 + t * exp (-x) * a1 * b1) / 2 * l - layerSource b0 b1 x * (t - t * exp (-x))| ≤
      t * (max b0 b1 * (|(a0 + a1) / 2 * l - x| + x ^ 3 / 12) + |a1 - a0| * l / 4 * (|b1 - b0| + x * max b0 b1)) := by
  have hq0 : 0 < exp (-x) := exp_pos _
  have hq1 : exp (-x) ≤ 1 := exp_le_one_iff.2 (by linarith)
  have hqx : 1 - exp (-x) ≤ x := by have := add_one_le_exp (-x); linarith
  have e : (t * a0 * b0 + t * exp (-x) * a1 * b1) / 2 * l - layerSource b0 b1 x * (t - t * exp (-x)) =
      t * ((b0 + exp (-x) * b1) * ((a0 + a1) / 4 * l - half x) + (a0 - a1) * l / 4 * (b0 - exp (-x) * b1)) := by
    unfold layerSource half
    field_simp
    ring
  have hM0 := le_max_left b0 b1
  have hM1 := le_max_right b0 b1
  have hM : 0 ≤ max b0 b1 := h0.trans hM0
  have k1 : |(a0 + a1) / 4 * l - half x| ≤ |(a0 + a1) / 2 * l - x| / 2 + x ^ 3 / 24 := by
    have u1 := half_le hx
    have u2 := le_half hx
    have v1 := neg_abs_le ((a0 + a1) / 2 * l - x)
    have v2 := le_abs_self ((a0 + a1) / 2 * l - x)
    rw [abs_le]
    have : 0 ≤ x ^ 3 := by positivity
    constructor <;> linarith
  have k2 : |b0 + exp (-x) * b1| ≤ 2 * max b0 b1 := by
    rw [abs_of_nonneg (by positivity)]
    nlinarith
  have k3 : |b0 - exp (-x) * b1| ≤ |b1 - b0| + x * max b0 b1 := by
    have v1 := neg_abs_le (b1 - b0)
    have v2 := le_abs_self (b1 - b0)
    rw [abs_le]
    constructor <;> nlinarith
  rw [e, abs_mul, abs_of_nonneg ht]
  refine mul_le_mul_of_nonneg_left ((abs_add_le _ _).trans (add_le_add ?_ ?_)) ht
  · rw [abs_mul]
    calc _ ≤ 2 * max b0 b1 * (|(a0 + a1) / 2 * l - x| / 2 + x ^ 3 / 24) :=
          mul_le_mul k2 k1 (abs_nonneg _) (by positivity)
      _ = _ := by ring
  · rw [abs_mul, abs_div, abs_mul, abs_of_nonneg hl, abs_sub_comm a0 a1, abs_of_pos (by norm_num : (0:ℝ) < 4)]
    exact mul_le_mul_of_nonneg_left k3 (by positivity)

end Verif.Lemmas
