import Verif.Lemmas.AbsContinuous
import Verif.Props.ShippedLimit

/-!
# Oxygen absorption at 1 GHz

The lines are far away and the zero-frequency band dominates: the model R19 gives a positive value.
-/

namespace Verif.Lemmas

open Verif.Model Verif.Py Verif.Spec Verif.Props Real

/-- Bounds on the line `k` of the table R19, in the units of the table. -/
def oxyLowLine (k : ℕ) : Bool :=
  let e (a : String) : ℤ := ((oxygenR19.lookup a).map fun c => c.digits.getD k 0).getD 0
  decide (500000 ≤ e "f") && decide (0 < e "s300") && decide (0 ≤ e "be") && decide (0 < e "w300") &&
    decide (e "s300" * (100 * |e "y300"| + 35 * |e "v"|) ≤ 2200000000000)

set_option maxRecDepth 10000 in
theorem oxyLowLine_all : ∀ k < 49, oxyLowLine k = true := by
  decide +kernel

/-- A distant line with mixing `y` contributes at least this. -/
theorem mixedLine_low {w y c : ℝ} (hw : 0 < w) (hc : 50 ≤ c) : -(2 / 49 * |y|) ≤ mixedLine w 1 y c 1 := by
  have far {x : ℝ} (hx : 49 ≤ |x|) : -(1 / 49 * |y|) ≤ (w * 1 + y * x) / (x ^ 2 + w ^ 2) := by
    have hp : 0 < x ^ 2 + w ^ 2 := by positivity
    rw [le_div_iff₀ hp]
    have h1 : -(|y| * |x|) ≤ y * x := by rw [← abs_mul]; exact neg_abs_le _
    have h2 : |y| * |x| ≤ 1 / 49 * |y| * x ^ 2 := by
      rw [← sq_abs x]
      nlinarith [mul_nonneg (abs_nonneg y) (mul_nonneg (abs_nonneg x) (sub_nonneg.2 hx))]
    nlinarith [mul_nonneg (abs_nonneg y) (sq_nonneg w)]
  have h1 := far (x := 1 - c) (by rw [abs_sub_comm, abs_of_nonneg (by linarith)]; linarith)
  have h2 := far (x := -(1 + c)) (by rw [abs_neg, abs_of_nonneg (by linarith)]; linarith)
  unfold mixedLine
  have e : (w * 1 - y * (1 + c)) / ((1 + c) ^ 2 + w ^ 2) = (w * 1 + y * -(1 + c)) / ((-(1 + c)) ^ 2 + w ^ 2) := by
    rw [neg_sq]; ring_nf
  rw [e]
  linarith

theorem oxygenFile_R19 {F : LineList} (hF : oxygenFile "R19" = some F) : F = fun a =>
    if a = "len(f)" then (oxygenR19.lookup "f").map fun c _ => (c.digits.length : ℝ)
    else if a ∈ oxygenAssign "R19" then (oxygenR19.lookup a).map Col.val
    else none := by
  unfold oxygenFile at hF
  have hl : oxygenGroups.lookup "R19" = some oxygenR19 := rfl
  rw [hl, Option.bind_some] at hF
  split_ifs at hF
  exact (Option.some_inj.1 hF).symm

/-- The lines of R19 together take away less than the zero-frequency band gives. -/
theorem oxyLines_low {c : String → ℕ → ℝ} {F : LineList} (hF : oxygenFile "R19" = some F)
    (hc : ∀ a v, F a = some v → c a = v) {θ P d : ℝ} (h1 : 1 ≤ θ) (h2 : θ ≤ 1.35) (hd : 0 < d) :
    -(1.77e-18 * d) ≤ oxyLines "R19" c 49 θ P d 1 := by
  have hF' := oxygenFile_R19 hF
  have col (a : String) (ha : a ∈ oxygenAssign "R19") (hne : a ≠ "len(f)") (C : Col) (hC : oxygenR19.lookup a = some C) :
      c a = C.val := hc a _ (by rw [hF']; simp only [if_neg hne, if_pos ha, hC, Option.map_some])
  have term : ∀ k ∈ Finset.range 49, -(8.8e-19 * (2 / 49) * d) ≤ oxyStrength c θ k * (1 / c "f" k) ^ 2
      * mixedLine (c "w300" k * d) (mixing2 "R19" c θ d k) (mixing "R19" c θ P d k) (oxyCentre "R19" c θ d k) 1 := by
    intro k hk
    have hb := oxyLowLine_all k (Finset.mem_range.1 hk)
    unfold oxyLowLine at hb
    simp only [Bool.and_eq_true, decide_eq_true_eq] at hb
    obtain ⟨⟨⟨⟨b1, b2⟩, b3⟩, b4⟩, b5⟩ := hb
    have e2 : mixing2 "R19" c θ d k = 1 := by
      unfold mixing2 secondOrder; exact if_neg (by decide)
    have e3 : oxyCentre "R19" c θ d k = c "f" k := by
      unfold oxyCentre secondOrder; exact if_neg (by decide)
    have e4 : mixing "R19" c θ P d k = d * (c "y300" k + c "v" k * (θ - 1)) := by
      unfold mixing; rw [if_neg (by decide), if_pos (by decide)]
    rw [e2, e3, e4]
    have cf := col "f" (by decide) (by decide) _ rfl
    have cs := col "s300" (by decide) (by decide) _ rfl
    have cb := col "be" (by decide) (by decide) _ rfl
    have cw := col "w300" (by decide) (by decide) _ rfl
    have cy := col "y300" (by decide) (by decide) _ rfl
    have cv := col "v" (by decide) (by decide) _ rfl
    have cfk : c "f" k = ((((oxygenR19.lookup "f").map fun c => c.digits.getD k 0).getD 0 : ℤ) : ℝ) / 10 ^ 4 := congrFun cf k
    have csk : c "s300" k = ((((oxygenR19.lookup "s300").map fun c => c.digits.getD k 0).getD 0 : ℤ) : ℝ) / 10 ^ 21 :=
      congrFun cs k
    have cbk : c "be" k = ((((oxygenR19.lookup "be").map fun c => c.digits.getD k 0).getD 0 : ℤ) : ℝ) / 10 ^ 3 := congrFun cb k
    have cwk : c "w300" k = ((((oxygenR19.lookup "w300").map fun c => c.digits.getD k 0).getD 0 : ℤ) : ℝ) / 10 ^ 3 :=
      congrFun cw k
    have cyk : c "y300" k = ((((oxygenR19.lookup "y300").map fun c => c.digits.getD k 0).getD 0 : ℤ) : ℝ) / 10 ^ 4 :=
      congrFun cy k
    have cvk : c "v" k = ((((oxygenR19.lookup "v").map fun c => c.digits.getD k 0).getD 0 : ℤ) : ℝ) / 10 ^ 4 := congrFun cv k
    clear cf cs cb cw cy cv col
    generalize ((oxygenR19.lookup "f").map fun c => c.digits.getD k 0).getD 0 = xf at *
    generalize ((oxygenR19.lookup "s300").map fun c => c.digits.getD k 0).getD 0 = xs at *
    generalize ((oxygenR19.lookup "be").map fun c => c.digits.getD k 0).getD 0 = xb at *
    generalize ((oxygenR19.lookup "w300").map fun c => c.digits.getD k 0).getD 0 = xw at *
    generalize ((oxygenR19.lookup "y300").map fun c => c.digits.getD k 0).getD 0 = xy at *
    generalize ((oxygenR19.lookup "v").map fun c => c.digits.getD k 0).getD 0 = xv at *
    have r1 : (500000 : ℝ) ≤ xf := by exact_mod_cast b1
    have r2 : (0 : ℝ) < xs := by exact_mod_cast b2
    have r3 : (0 : ℝ) ≤ xb := by exact_mod_cast b3
    have r4 : (0 : ℝ) < xw := by exact_mod_cast b4
    have r5 : (xs : ℝ) * (100 * |(xy : ℝ)| + 35 * |(xv : ℝ)|) ≤ 2200000000000 := by exact_mod_cast b5
    have f0 : 50 ≤ c "f" k := by rw [cfk]; linarith
    have s0 : 0 < c "s300" k := by rw [csk]; positivity
    have w0 : 0 < c "w300" k := by rw [cwk]; positivity
    have be0 : 0 ≤ c "be" k := by rw [cbk]; positivity
    have q : c "s300" k * (|c "y300" k| + 0.35 * |c "v" k|) ≤ 2.2e-15 := by
      have hp : (0 : ℝ) < 10 ^ 4 := by norm_num
      rw [csk, cyk, cvk, abs_div, abs_div, abs_of_pos hp]
      have : (xs : ℝ) / 10 ^ 21 * (|(xy : ℝ)| / 10 ^ 4 + 0.35 * (|(xv : ℝ)| / 10 ^ 4))
          = (xs : ℝ) * (100 * |(xy : ℝ)| + 35 * |(xv : ℝ)|) / 10 ^ 27 := by norm_num; ring
      rw [this, div_le_iff₀ (by norm_num)]
      linarith
    have hS : 0 < oxyStrength c θ k ∧ oxyStrength c θ k ≤ c "s300" k := by
      unfold oxyStrength
      refine ⟨by positivity, mul_le_of_le_one_right s0.le (exp_le_one_iff.2 ?_)⟩
      nlinarith
    have hY : |c "y300" k + c "v" k * (θ - 1)| ≤ |c "y300" k| + 0.35 * |c "v" k| := by
      refine (abs_add_le _ _).trans (add_le_add le_rfl ?_)
      rw [abs_mul, abs_of_nonneg (by linarith : 0 ≤ θ - 1)]
      nlinarith [abs_nonneg (c "v" k)]
    have hm := mixedLine_low (y := d * (c "y300" k + c "v" k * (θ - 1))) (mul_pos w0 hd) f0
    have hf2 : (1 / c "f" k) ^ 2 ≤ 1 / 2500 := by
      rw [div_pow, one_pow]
      exact one_div_le_one_div_of_le (by norm_num) (by nlinarith)
    have hf3 : 0 < (1 / c "f" k) ^ 2 := by positivity
    rw [abs_mul, abs_of_pos hd] at hm
    generalize mixedLine (c "w300" k * d) 1 (d * (c "y300" k + c "v" k * (θ - 1))) (c "f" k) 1 = M at hm ⊢
    generalize |c "y300" k + c "v" k * (θ - 1)| = Y at hY hm
    generalize |c "y300" k| + 0.35 * |c "v" k| = Z at hY q
    have z0 : 0 ≤ Z ∨ Z < 0 := le_or_gt 0 Z
    have g1 : -(2 / 49 * (d * Z)) ≤ M := le_trans (by nlinarith) hm
    have g2 : oxyStrength c θ k * Z ≤ 2.2e-15 := by
      rcases z0 with h | h
      · exact (mul_le_mul_of_nonneg_right hS.2 h).trans q
      · have := mul_neg_of_pos_of_neg hS.1 h
        linarith
    have g3 : oxyStrength c θ k * (1 / c "f" k) ^ 2 * -(2 / 49 * (d * Z)) ≤ oxyStrength c θ k * (1 / c "f" k) ^ 2 * M :=
      mul_le_mul_of_nonneg_left g1 (mul_pos hS.1 hf3).le
    refine le_trans ?_ g3
    have g4 : (1 / c "f" k) ^ 2 * (oxyStrength c θ k * Z) ≤ 1 / 2500 * 2.2e-15 := by
      refine (mul_le_mul_of_nonneg_left g2 hf3.le).trans (mul_le_mul_of_nonneg_right hf2 (by norm_num))
    have g5 := mul_le_mul_of_nonneg_right g4 hd.le
    nlinarith
  unfold oxyLines
  have := Finset.sum_le_sum term
  rw [Finset.sum_const, Finset.card_range] at this
  refine le_trans ?_ this
  rw [nsmul_eq_mul]
  push_cast
  nlinarith

/-- Oxygen absorption of the model R19 at 1 GHz is positive in the air of the troposphere. -/
theorem oxygen_low {F : LineList} (hF : oxygenFile "R19" = some F) (old : LineList) {p T e a b : ℝ} (hp : 0 < p) (he : 0 ≤ e)
    (hP : p + e ≤ 110) (hT : 225 ≤ T ∧ T ≤ 300)
    (h : o2Absorption "R19" (reloadLL F old) p (300.0 / T) e 1 = .ok (some (a, b))) : 0 < a := by
  have hT0 : 0 < T := by linarith [hT.1]
  have hF' := oxygenFile_R19 hF
  obtain ⟨c, hc⟩ : ∃ c : String → ℕ → ℝ, ∀ a v, F a = some v → c a = v := ⟨fun a => (F a).getD 0, fun a v h => by simp [h]⟩
  have hn : F "len(f)" = some fun _ => ((49 : ℕ) : ℝ) := by rw [hF']; rfl
  have hθ : 0 < 300.0 / T := by positivity
  have t1 : 1 ≤ 300.0 / T := by rw [le_div_iff₀ hT0]; linarith [hT.2]
  have t2 : 300.0 / T ≤ 1.334 := by rw [div_le_iff₀ hT0]; linarith [hT.1]
  obtain ⟨a', b', h', h1, -⟩ := C69_oxygen (m := "R19") (by decide) hF old hc hn hp.le hθ he (by linarith) one_pos rfl rfl rfl
  rw [h] at h'
  obtain ⟨rfl, rfl⟩ : a = a' ∧ b = b' := by
    have := Option.some_inj.1 (Except.ok.inj h')
    exact ⟨congrArg Prod.fst this, congrArg Prod.snd this⟩
  have hx : c "x" 0 = 800000011920929 / 10 ^ 15 := by
    have := hc "x" _ (by rw [hF']; rfl)
    rw [this]; simp [Col.val]
  have hwb : c "wb300" 0 = 5600000023841858 / 10 ^ 16 := by
    have := hc "wb300" _ (by rw [hF']; rfl)
    rw [this]; simp [Col.val]
  obtain ⟨k, hk0, hk1, hk⟩ := oxyVapour_eq "R19"
  have eT : 300 / (300.0 / T) = T := inverse_temperature hT0
  rw [eT, hk hT0] at h1
  generalize 300.0 / T = θ at *
  have pv0 : 0 ≤ 10 * k * e := by positivity
  have pd0 : 0 < 10 * p + 10 * e - 10 * k * e := by nlinarith
  generalize hpv : 10 * k * e = pv at *
  generalize hpd : 10 * p + 10 * e - pv = pd at *
  have eB : broadening "R19" (c "x" 0) θ pd pv = (pd * θ ^ c "x" 0 + 1.2 * pv * θ) / 1000 := by
    unfold broadening
    rw [if_neg (by decide), if_neg (by decide), if_neg (by decide)]
  have hx1 : θ ^ c "x" 0 ≤ θ := by
    conv_rhs => rw [← rpow_one θ]
    exact rpow_le_rpow_of_exponent_le t1 (by rw [hx]; norm_num)
  have hx0 : 0 < θ ^ c "x" 0 := rpow_pos_of_pos hθ _
  have hd0 : 0 < broadening "R19" (c "x" 0) θ pd pv := by rw [eB]; positivity
  have hd1 : broadening "R19" (c "x" 0) θ pd pv ≤ 1.8 := by
    rw [eB, div_le_iff₀ (by norm_num)]
    have : pd * θ ^ c "x" 0 ≤ pd * 1.334 := mul_le_mul_of_nonneg_left (hx1.trans t2) pd0.le
    have : pv * θ ≤ pv * 1.334 := mul_le_mul_of_nonneg_left t2 pv0
    nlinarith
  generalize broadening "R19" (c "x" 0) θ pd pv = d at *
  have low := oxyLines_low hF hc (P := 10 * p + 10 * e) t1 (t2.trans (by norm_num)) hd0
  have band : 3e-18 * d ≤ debye 1.584e-17 θ (c "wb300" 0 * d) 1 := by
    unfold debye
    rw [hwb, le_div_iff₀ (by positivity)]
    have h3 : (5600000023841858 / 10 ^ 16 * d) ^ 2 ≤ 1.0162 := by
      have : 5600000023841858 / 10 ^ 16 * d ≤ 1.00800001 := by norm_num; linarith
      have h0 : 0 ≤ 5600000023841858 / 10 ^ 16 * d := by positivity
      nlinarith
    have h4 : θ * (1 ^ 2 + (5600000023841858 / 10 ^ 16 * d) ^ 2) ≤ 1.334 * 2.0162 :=
      mul_le_mul t2 (by linarith) (by positivity) (by norm_num)
    have h5 := mul_le_mul_of_nonneg_left h4 (show 0 ≤ 3e-18 * d by positivity)
    refine h5.trans ?_
    norm_num
    nlinarith
  have nb : ¬ separateBand "R19" := by unfold separateBand; decide
  rw [if_neg nb] at h1
  have hfin : ∀ x : ℝ, oxyFinish "R19" x = max 0 x := fun x => by
    unfold oxyFinish
    rw [if_neg (by decide), if_neg (by decide)]
  rw [hfin] at h1
  have hu : 0 < oxyUnits "R19" := by unfold oxyUnits; split_ifs <;> norm_num
  have hsum : 0 < oxyLines "R19" c 49 θ (10 * p + 10 * e) d 1 + debye 1.584e-17 θ (c "wb300" 0 * d) 1 := by
    have : (0 : ℝ) < 1e-18 * d := by positivity
    nlinarith
  have : 0 < oxyUnits "R19" * pd * θ ^ 3 *
      (oxyLines "R19" c 49 θ (10 * p + 10 * e) d 1 + debye 1.584e-17 θ (c "wb300" 0 * d) 1) := by positivity
  rw [max_eq_right this.le] at h1
  have hl : (0 : ℝ) < log 10 := log_pos (by norm_num)
  rw [← h1] at this
  by_contra hcon
  push Not at hcon
  have : a * (0.182 * 1) * (log 10 / 10) ≤ 0 :=
    mul_nonpos_of_nonpos_of_nonneg (mul_nonpos_of_nonpos_of_nonneg hcon (by norm_num)) (by positivity)
  linarith

end Verif.Lemmas
