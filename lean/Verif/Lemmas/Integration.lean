import Verif.Model.Integration
import Verif.Spec.Integration
import Verif.Lemmas.PlanckLoop
import Mathlib.Analysis.SpecialFunctions.Integrals.Basic
import Mathlib.Algebra.Order.BigOperators.Ring.Finset

/-! # Lemmas about `exponential_integration` -/

namespace Verif.Model

open Verif.Py Verif.Spec Real Finset

theorem layerValue_eq_none {z : Bool} {a b : ℝ} : layerValue z a b = none ↔ a < 0 ∨ b < 0 := by
  unfold layerValue
  rw [norm_zero']
  constructor
  · intro h
    by_contra hn
    rw [if_neg hn] at h
    split_ifs at h
  · intro h; rw [if_pos h]

/-- Logarithmic mean lies between its arguments (ordered case). -/
theorem logMean_bounds {a b : ℝ} (ha : 0 < a) (hab : a < b) :
    a ≤ (b - a) / log (b / a) ∧ (b - a) / log (b / a) ≤ b := by
  have hb : 0 < b := ha.trans hab
  have hq : 1 < b / a := (one_lt_div ha).2 hab
  have hl : 0 < log (b / a) := log_pos hq
  have h1 : log (b / a) ≤ b / a - 1 := log_le_sub_one_of_pos (by positivity)
  have h2 : 1 - (b / a)⁻¹ ≤ log (b / a) := one_sub_inv_le_log_of_pos (by positivity)
  constructor
  · rw [le_div_iff₀ hl]
    calc a * log (b / a) ≤ a * (b / a - 1) := by gcongr
      _ = b - a := by field_simp
  · rw [div_le_iff₀ hl]
    calc b - a = b * (1 - (b / a)⁻¹) := by field_simp
      _ ≤ b * log (b / a) := by gcongr

theorem logMean_symm {a b : ℝ} (ha : 0 < a) (hb : 0 < b) :
    (b - a) / log (b / a) = (a - b) / log (a / b) := by
  have : log (b / a) = -log (a / b) := by rw [← log_inv]; congr 1; field_simp
  rw [this, div_neg, ← neg_div]; congr 1; ring

theorem layerValue_bounds {z : Bool} {a b v : ℝ} (h : layerValue z a b = some v) :
    min a b ≤ v ∧ v ≤ max a b := by
  have hn : ¬(a < 0 ∨ b < 0) := fun hn => by rw [layerValue_eq_none.2 hn] at h; cases h
  push Not at hn
  unfold layerValue at h
  rw [norm_zero'] at h
  rw [if_neg (by push Not; exact hn)] at h
  split_ifs at h with h1 h2 h3
  · cases h; exact ⟨min_le_right _ _, le_max_right _ _⟩
  · cases h
    rcases h2 with rfl | rfl
    · exact ⟨min_le_left _ _, le_max_left _ _⟩
    · exact ⟨min_le_right _ _, le_max_right _ _⟩
  · cases h
    rcases h2 with rfl | rfl
    · rw [min_eq_left hn.2, max_eq_right hn.2]; constructor <;> linarith [hn.2]
    · rw [min_eq_right hn.1, max_eq_left hn.1]; constructor <;> linarith [hn.1]
  · cases h
    push Not at h2
    have ha : 0 < a := lt_of_le_of_ne hn.1 (Ne.symm h2.1)
    have hb : 0 < b := lt_of_le_of_ne hn.2 (Ne.symm h2.2)
    have hne : a ≠ b := by
      rintro rfl
      apply h1; simp; norm_num
    rcases lt_or_gt_of_ne hne with hlt | hlt
    · rw [min_eq_left hlt.le, max_eq_right hlt.le]; exact logMean_bounds ha hlt
    · rw [min_eq_right hlt.le, max_eq_left hlt.le, logMean_symm ha hb]; exact logMean_bounds hb hlt

theorem layerValue_nonneg {z : Bool} {a b v : ℝ} (h : layerValue z a b = some v) : 0 ≤ v := by
  have hn : ¬(a < 0 ∨ b < 0) := fun hn => by rw [layerValue_eq_none.2 hn] at h; cases h
  push Not at hn
  exact (le_min hn.1 hn.2).trans (layerValue_bounds h).1

theorem expProfileMean_eq {a b : ℝ} (ha : 0 < a) (hb : 0 < b) (hab : a ≠ b) :
    expProfileMean a b = (b - a) / log (b / a) := by
  unfold expProfileMean
  have hq : 0 < b / a := by positivity
  have hl : log (b / a) ≠ 0 := by
    intro h0
    rcases (log_eq_zero.1 h0) with h | h | h
    · exact hq.ne' h
    · exact hab ((div_eq_one_iff_eq ha.ne').1 h).symm
    · linarith
  rw [intervalIntegral.integral_const_mul]
  have : (fun u : ℝ => (b / a) ^ u) = fun u => exp (log (b / a) * u) := by
    funext u; rw [rpow_def_of_pos hq]
  rw [this, intervalIntegral.integral_comp_mul_left (fun x => exp x) hl, integral_exp]
  simp only [mul_one, mul_zero, exp_log hq, exp_zero, smul_eq_mul]
  field_simp

/-- All layers of `[ibeg, iend)` fine: closed form of the result. -/
theorem expInt_loop_ok {z : Bool} {nl : ℕ} {x ds : ℕ → ℝ} {ibeg iend : ℕ} {v : ℕ → ℝ}
    (hle : ibeg ≤ iend) (hnl : iend ≤ nl)
    (hv : ∀ i, ibeg ≤ i → i < iend → layerValue z (prevEntry x nl i) (x i) = some (v i)) :
    forRangeE ibeg iend (expIntBody z nl x ds) (0.0, fun _ => 0) =
      .ok (∑ i ∈ Ico ibeg iend, v i * ds i, fun i => if ibeg ≤ i ∧ i < iend then v i * ds i else 0) := by
  induction iend, hle using Nat.le_induction with
  | base =>
    rw [forRangeE_of_le le_rfl]
    congr 1
    simp only [Ico_self, sum_empty, norm_zero', Prod.mk.injEq, true_and]
    funext i
    rw [if_neg (by omega)]
  | succ n hn ih =>
    rw [forRangeE_succ hn, ih (by omega) (fun i h1 h2 => hv i h1 (by omega))]
    show expIntBody z nl x ds n _ = _
    unfold expIntBody
    rw [if_neg (by omega), hv n hn (by omega)]
    simp only [Function.update_self]
    congr 1
    refine Prod.ext ?_ ?_
    · simp only; rw [sum_Ico_succ_top hn]
    · funext i
      simp only [Function.update_apply]
      split_ifs with h1 h2 h3 h4 h5 <;> first | rfl | (subst h1; rfl) | (exfalso; omega)

theorem expInt_ok {z : Bool} {nl : ℕ} {x ds : ℕ → ℝ} {ibeg : ℕ} {factor : ℝ} {v : ℕ → ℝ}
    (hle : ibeg ≤ nl)
    (hv : ∀ i, ibeg ≤ i → i < nl → layerValue z (prevEntry x nl i) (x i) = some (v i)) :
    expInt z nl x ds ibeg nl factor =
      .ok ((∑ i ∈ Ico ibeg nl, v i * ds i) * factor,
        fun i => if ibeg ≤ i ∧ i < nl then v i * ds i else 0) := by
  unfold expInt
  rw [expInt_loop_ok hle le_rfl hv]
  simp

/-- First bad layer is `i0`: closed form of the early return. -/
theorem expInt_bad {z : Bool} {nl : ℕ} {x ds : ℕ → ℝ} {ibeg iend i0 : ℕ} {factor : ℝ} {v : ℕ → ℝ}
    (hle : ibeg ≤ i0) (hi0 : i0 < iend) (hnl : i0 < nl)
    (hv : ∀ i, ibeg ≤ i → i < i0 → layerValue z (prevEntry x nl i) (x i) = some (v i))
    (hbad : prevEntry x nl i0 < 0 ∨ x i0 < 0) :
    expInt z nl x ds ibeg iend factor =
      .ok (∑ i ∈ Ico ibeg i0, v i * ds i, fun i => if ibeg ≤ i ∧ i < i0 then v i * ds i else 0) := by
  have key : ∀ hi, i0 < hi → forRangeE ibeg hi (expIntBody z nl x ds) (0.0, fun _ => 0) =
      .error (.ok (∑ i ∈ Ico ibeg i0, v i * ds i,
        fun i => if ibeg ≤ i ∧ i < i0 then v i * ds i else 0)) := by
    intro hi hlt
    induction hi, hlt using Nat.le_induction with
    | base =>
      rw [forRangeE_succ hle, expInt_loop_ok hle hnl.le hv]
      show expIntBody z nl x ds i0 _ = _
      unfold expIntBody
      rw [if_neg (by omega), layerValue_eq_none.2 hbad]
    | succ n hn ih =>
      rw [forRangeE_succ (by omega), ih]; rfl
  unfold expInt
  rw [key iend hi0]

theorem layerValue_some_of_nonneg (z : Bool) {a b : ℝ} (ha : 0 ≤ a) (hb : 0 ≤ b) :
    ∃ v, layerValue z a b = some v :=
  Option.ne_none_iff_exists'.1 fun h => by
    rcases layerValue_eq_none.1 h with h | h <;> linarith

/-- The layer value as a function, for use where it is known to exist. -/
noncomputable def layerVal (z : Bool) (x : ℕ → ℝ) (nl i : ℕ) : ℝ :=
  (layerValue z (prevEntry x nl i) (x i)).getD 0

theorem layerVal_spec {z : Bool} {x : ℕ → ℝ} {nl i : ℕ} (h1 : 0 ≤ prevEntry x nl i) (h2 : 0 ≤ x i) :
    layerValue z (prevEntry x nl i) (x i) = some (layerVal z x nl i) := by
  obtain ⟨v, h⟩ := layerValue_some_of_nonneg z h1 h2
  unfold layerVal
  rw [h]; rfl

/-- Either no layer is bad or there is a first bad one. -/
theorem first_bad (x : ℕ → ℝ) (nl ibeg iend : ℕ) :
    (∀ i, ibeg ≤ i → i < iend → 0 ≤ prevEntry x nl i ∧ 0 ≤ x i) ∨
    ∃ i0, ibeg ≤ i0 ∧ i0 < iend ∧ (prevEntry x nl i0 < 0 ∨ x i0 < 0) ∧
      ∀ i, ibeg ≤ i → i < i0 → 0 ≤ prevEntry x nl i ∧ 0 ≤ x i := by
  classical
  by_cases h : ∃ i, ibeg ≤ i ∧ i < iend ∧ (prevEntry x nl i < 0 ∨ x i < 0)
  · right
    have hf := Nat.find_spec h
    refine ⟨Nat.find h, hf.1, hf.2.1, hf.2.2, fun i h1 h2 => ?_⟩
    have := Nat.find_min h h2
    push Not at this
    exact this h1 (by omega)
  · left
    push Not at h
    exact h

end Verif.Model
