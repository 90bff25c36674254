import Verif.Lemmas.WaterDirection
import Verif.Lemmas.AbsContinuous
import Verif.Props.Continuum
import Verif.Props.Formula
import Verif.Props.Parameters

/-!
# C113: which way a spectroscopic parameter moves the absorption

A run with a dictionary of parameters computes the closed form with the values of the dictionary in place of the columns
of the line list, whatever the values.  Hence the direction in which each parameter moves the absorption.
-/

namespace Verif.Props

open Verif.Model Verif.Py Verif.Spec Verif.Lemmas Real

/-- What is fixed in a run: the line list of the model, with columns `c` and `n` lines, and the air. -/
structure WaterRun (m : String) (F : LineList) (c : String → ℕ → ℝ) (n : ℕ) (p vx e f : ℝ) : Prop where
  file : waterFile m = some F
  cols : ∀ a v, F a = some v → c a = v
  lines : F "len(fl)" = some fun _ => (n : ℝ)
  dry : 0 ≤ p
  temp : 0 < vx
  vapour : 0 < e
  freq : 0 < f

/-- A dictionary with the values `q` under the names the model reads; centres and widths positive. -/
structure Dictionary (m : String) (n : ℕ) (P : Params) (q : String → ℕ → ℝ) : Prop where
  value : ∀ k ∈ waterKeys m, P k = some (q k)
  pos : ∀ i < n, 0 < q "FL" i ∧ 0 < q "gamma_a" i ∧ 0 < q "gamma_w" i

/-- The columns that the run uses. -/
noncomputable def used (m : String) (q c : String → ℕ → ℝ) : String → ℕ → ℝ := withParams (decide ("R17" < m)) q c

/-- The line part of the closed form, in units of the result. -/
noncomputable def linePart (m : String) (c : String → ℕ → ℝ) (n : ℕ) (p vx e f : ℝ) : ℝ :=
  lineAbsorption m (vapourDensity (300 / vx) e)
    (Spec.lineSum m c n (300 / vx) (dryPressure m (300 / vx) p e) (vapourPressure m (300 / vx) e) f) /
      (0.182 * f * (log 10 / 10))

/-- A continuum at the inverse temperature `θ`, in units of the result. -/
noncomputable def conPart (m : String) (cf xf cs xs θ p vx e f : ℝ) : ℝ :=
  continuum cf xf cs xs θ (dryPressure m (300 / vx) p e) (vapourPressure m (300 / vx) e) f / (0.182 * f * (log 10 / 10))

/-- C113: the closed form for any dictionary (all models but those with a tabulated or dimer self-continuum). -/
theorem C113_formula {m : String} (hm : m ∉ ["R23SD", "R24", "MWL24"]) {F : LineList} {c : String → ℕ → ℝ} {n : ℕ}
    {p vx e f : ℝ} (R : WaterRun m F c n p vx e f) (old : LineList) {P : Params} {q : String → ℕ → ℝ}
    (D : Dictionary m n P q) :
    h2oWith m P (reloadLL F old) p vx e f = .ok (some (linePart m (used m q c) n p vx e f,
      if m = "R98" ∨ m = "R03" then conPart m 5.43e-10 3 1.8e-8 7.5 (c "reftcon" 0 * vx / 300) p vx e f
      else conPart m (used m q c "cf" 0) (used m q c "xcf" 0) (used m q c "cs" 0) (used m q c "xcs" 0)
        (c "reftcon" 0 * vx / 300) p vx e f)) := by
  obtain ⟨L, h1, C⟩ := columns_with R.file old R.cols R.lines D.value D.pos
  unfold h2oWith
  simp only [h1, bind, Except.bind]
  rw [h2o_columns R.file hm C R.dry R.temp R.vapour R.freq]
  have hr : withParams (decide ("R17" < m)) q c "reftcon" = c "reftcon" := by simp [withParams]
  rw [hr]
  unfold linePart conPart used
  split_ifs <;> rfl

/-- Two dictionaries that differ at most under the names `ks`. -/
def SameBut (m : String) (ks : List String) (q q' : String → ℕ → ℝ) : Prop := ∀ k ∈ waterKeys m, k ∉ ks → q' k = q k

theorem halfWidth_pos {c : String → ℕ → ℝ} {θ pd pv : ℝ} {i : ℕ} (h : 0 < c "w0" i ∧ 0 < c "w0s" i) (hθ : 0 < θ)
    (hd : 0 ≤ pd) (hv : 0 < pv) : 0 < halfWidth c θ pd pv i := by
  unfold halfWidth
  have p1 := rpow_pos_of_pos hθ (c "x" i)
  have p2 := rpow_pos_of_pos hθ (c "xs" i)
  obtain ⟨h1, h2⟩ := h
  positivity

theorem localProfile_nonneg (w d : ℝ) : 0 ≤ localProfile w d := le_max_left _ _

theorem localProfile_pos {w d : ℝ} (hw : 0 < w) (hd : |d| < 750) : 0 < localProfile w d := by
  unfold localProfile
  refine lt_max_of_lt_right (sub_pos.2 ?_)
  unfold lorentz
  have : d ^ 2 < 750 ^ 2 := sq_lt_sq' (by have := abs_lt.1 hd; linarith) (abs_lt.1 hd).2
  gcongr

/-- The unit factor of the line part is positive. -/
theorem linePart_scale (m : String) {p vx e f : ℝ} (hv : 0 < vx) (he : 0 < e) (hf : 0 < f) :
    ∃ k, 0 < k ∧ ∀ c n, linePart m c n p vx e f = k * Spec.lineSum m c n (300 / vx) (dryPressure m (300 / vx) p e)
      (vapourPressure m (300 / vx) e) f := by
  have hl : 0 < log 10 := log_pos (by norm_num)
  have hr : 0 < vapourDensity (300 / vx) e := by unfold vapourDensity; positivity
  unfold linePart lineAbsorption
  split_ifs
  · refine ⟨1e-10 * (vapourDensity (300 / vx) e / 2.9915075e-23) / π / (0.182 * f * (log 10 / 10)), by positivity, ?_⟩
    intro c n
    ring
  · refine ⟨3.1831e-5 * 3.335e16 * vapourDensity (300 / vx) e / (0.182 * f * (log 10 / 10)), by positivity, ?_⟩
    intro c n
    ring
  · refine ⟨3.1831e-5 * 3.344e16 * vapourDensity (300 / vx) e / (0.182 * f * (log 10 / 10)), by positivity, ?_⟩
    intro c n
    ring

theorem WaterRun.air {m : String} {F : LineList} {c : String → ℕ → ℝ} {n : ℕ} {p vx e f : ℝ}
    (R : WaterRun m F c n p vx e f) : 0 < c "reftline" 0 / (300 / vx) ∧ 0 < c "reftcon" 0 * vx / 300 ∧
      0 ≤ dryPressure m (300 / vx) p e ∧ 0 < vapourPressure m (300 / vx) e := by
  have C := columns_of_file R.file (fun _ => none) R.cols R.lines
  obtain ⟨-, -, hpv, hpd, -⟩ := waterAir_props m R.dry R.temp R.vapour
  obtain ⟨-, -, e3, e4⟩ := waterAir_formula R.file p e R.temp
  have := R.temp
  obtain ⟨r1, r2⟩ := C.reft
  rw [e3] at hpv
  rw [e4] at hpd
  exact ⟨by positivity, by positivity, hpd, hpv⟩

theorem plain_not {m : String} (hm : m ∈ plainWater) : m ∉ ["R23SD", "R24", "MWL24"] := by
  simp only [plainWater, List.mem_cons, List.not_mem_nil, or_false] at hm
  rcases hm with rfl | rfl | rfl | rfl | rfl | rfl | rfl <;> decide

/-- The shipped parameters are such a dictionary. -/
theorem shipped_dictionary {m : String} {F : LineList} {c : String → ℕ → ℝ} {n : ℕ} {p vx e f : ℝ}
    (R : WaterRun m F c n p vx e f) (old : LineList) {P : Params} (hP : waterParams m (reloadLL F old) = .ok P) :
    Dictionary m n P (fun k => (P k).getD fun _ => 0) := by
  have C := columns_of_file R.file old R.cols R.lines
  obtain ⟨K, e1, e2, e3, e4, e5, e6, e7, e8, e9, e10, e11, hl, hs⟩ := waterParams_common hP
  refine ⟨fun k hk => ?_, fun i hi => ?_⟩
  · have : (P k).isSome := by
      unfold waterKeys at hk
      by_cases h17 : "R17" < m
      · obtain ⟨da, dw, nda, ndw, p1, p2, p3, p4, -⟩ := hl h17
        simp only [h17, if_true, List.cons_append, List.nil_append, List.mem_cons, List.not_mem_nil, or_false] at hk
        rcases hk with rfl | rfl | rfl | rfl | rfl | rfl | rfl | rfl | rfl | rfl | rfl | rfl | rfl | rfl | rfl <;>
          simp [K.h1, K.h2, K.h3, K.h4, K.h5, K.h6, K.h7, K.h8, K.h9, K.h10, K.h11, p1, p2, p3, p4]
      · obtain ⟨sr, p1, p2, p3, -⟩ := hs h17
        simp only [h17, if_false, List.cons_append, List.nil_append, List.mem_cons, List.not_mem_nil, or_false] at hk
        rcases hk with rfl | rfl | rfl | rfl | rfl | rfl | rfl | rfl | rfl | rfl | rfl | rfl | rfl | rfl <;>
          simp [K.h1, K.h2, K.h3, K.h4, K.h5, K.h6, K.h7, K.h8, K.h9, K.h10, K.h11, p1, p2, p3]
    obtain ⟨v, hv⟩ := Option.isSome_iff_exists.1 this
    simp [hv]
  · obtain ⟨h1, h2, h3⟩ := C.pos i hi
    have g {a : String} (ha : a ∈ waterCommon) : reloadLL F old a = some (c a) := C.read a (by simp [waterReads, ha])
    rw [g (by decide), Option.some_inj] at e7 e8 e11
    rw [e7] at h2
    rw [e8] at h3
    rw [e11] at h1
    simp only [K.h11, K.h7, K.h8, Option.getD_some]
    have : (1000.0 : ℝ) = 1000 := by norm_num
    rw [this] at h2 h3
    exact ⟨h1, by linarith, by linarith⟩

/-- C113: stronger lines never absorb less, and leave the continuum (models without speed dependence); they absorb more
if one of the lines made stronger is within 750 GHz. -/
theorem C113_strength {m : String} (hm : m ∈ ["R98", "R03", "R16", "R17", "R18", "R19", "R20"]) {F : LineList}
    {c : String → ℕ → ℝ} {n : ℕ} {p vx e f : ℝ} (R : WaterRun m F c n p vx e f) (old : LineList) {P P' : Params}
    {q q' : String → ℕ → ℝ} (D : Dictionary m n P q) (D' : Dictionary m n P' q') (hsame : SameBut m ["S"] q q')
    (hS : ∀ i < n, q "S" i ≤ q' "S" i) :
    ∃ a a' b, h2oWith m P (reloadLL F old) p vx e f = .ok (some (a, b)) ∧
      h2oWith m P' (reloadLL F old) p vx e f = .ok (some (a', b)) ∧ a ≤ a' ∧
      ((∃ i < n, q "S" i < q' "S" i ∧ |f - (q "FL" i + lineShift m (used m q c) (c "reftline" 0 / (300 / vx))
        (dryPressure m (300 / vx) p e) (vapourPressure m (300 / vx) e) i)| < 750) → a < a') := by
  have hm' : m ∈ plainWater := hm
  have hN := plain_not hm'
  obtain ⟨k, hk, hline⟩ := linePart_scale m (p := p) R.temp R.vapour R.freq
  obtain ⟨ht, -, hd, hv⟩ := R.air
  have hq (k : String) (h1 : k ∈ waterKeys m) (h2 : k ≠ "S") : q' k = q k := hsame k h1 (by simpa using h2)
  have hu (a : String) (ha : a ≠ "s1") : used m q' c a = used m q c a := by
    unfold used withParams
    have g (k : String) (h2 : k ≠ "S") (h1 : k ∈ waterKeys m) := hq k h1 h2
    unfold waterKeys at g
    by_cases h17 : "R17" < m
    · simp only [h17, if_true] at g
      simp [ha, h17, g "B2" (by decide) (by simp), g "FL" (by decide) (by simp), g "gamma_a" (by decide) (by simp),
        g "gamma_w" (by decide) (by simp), g "n_a" (by decide) (by simp), g "n_w" (by decide) (by simp),
        g "con_Xf" (by decide) (by simp), g "con_Xs" (by decide) (by simp), g "con_Cf" (by decide) (by simp),
        g "con_Cs" (by decide) (by simp), g "delta_a" (by decide) (by simp), g "delta_w" (by decide) (by simp),
        g "n_da" (by decide) (by simp), g "n_dw" (by decide) (by simp)]
    · simp only [h17, if_false] at g
      simp [ha, h17, g "B2" (by decide) (by simp), g "FL" (by decide) (by simp), g "gamma_a" (by decide) (by simp),
        g "gamma_w" (by decide) (by simp), g "n_a" (by decide) (by simp), g "n_w" (by decide) (by simp),
        g "con_Xf" (by decide) (by simp), g "con_Xs" (by decide) (by simp), g "con_Cf" (by decide) (by simp),
        g "con_Cs" (by decide) (by simp), g "con_Cf_factr" (by decide) (by simp),
        g "con_Cs_factr" (by decide) (by simp), g "SR" (by decide) (by simp)]
  have hres (i : ℕ) : resonances m (used m q' c) (c "reftline" 0 / (300 / vx)) (dryPressure m (300 / vx) p e)
      (vapourPressure m (300 / vx) e) f i = resonances m (used m q c) (c "reftline" 0 / (300 / vx))
      (dryPressure m (300 / vx) p e) (vapourPressure m (300 / vx) e) f i := by
    unfold resonances halfWidth lineShift speedWidth speedShift halfWidth
    simp only [hu "w0" (by decide), hu "x" (by decide), hu "w0s" (by decide), hu "xs" (by decide), hu "fl" (by decide),
      hu "sr" (by decide), hu "sh" (by decide), hu "xh" (by decide), hu "shs" (by decide), hu "xhs" (by decide),
      hu "aair" (by decide), hu "aself" (by decide), hu "w2" (by decide), hu "w2s" (by decide), hu "xw2" (by decide),
      hu "xw2s" (by decide), hu "d2" (by decide), hu "d2s" (by decide), hu "d2air" (by decide), hu "d2self" (by decide)]
  have hr : used m q c "reftline" = c "reftline" := by simp [used, withParams]
  have hr' : used m q' c "reftline" = c "reftline" := by simp [used, withParams]
  have hterm (i : ℕ) (hi : i < n) : 0 ≤ resonances m (used m q c) (c "reftline" 0 / (300 / vx))
      (dryPressure m (300 / vx) p e) (vapourPressure m (300 / vx) e) f i := by
    rw [resonances_plain hm']
    exact add_nonneg (localProfile_nonneg _ _) (localProfile_nonneg _ _)
  have hfl (i : ℕ) (hi : i < n) : 0 < (f / used m q c "fl" i) ^ 2 := by
    have h1 : 0 < used m q c "fl" i := by simpa [used, withParams] using (D.pos i hi).1
    have := R.freq
    positivity
  have hs (i : ℕ) (x : ℝ) : x * (c "reftline" 0 / (300 / vx)) ^ (5 / 2 : ℝ) *
      exp (used m q c "b2" i * (1 - c "reftline" 0 / (300 / vx))) = x * ((c "reftline" 0 / (300 / vx)) ^ (5 / 2 : ℝ) *
      exp (used m q c "b2" i * (1 - c "reftline" 0 / (300 / vx)))) := by ring
  have hE (i : ℕ) : 0 < (c "reftline" 0 / (300 / vx)) ^ (5 / 2 : ℝ) *
      exp (used m q c "b2" i * (1 - c "reftline" 0 / (300 / vx))) := mul_pos (rpow_pos_of_pos ht _) (exp_pos _)
  have e1 : used m q c "s1" = q "S" := by simp [used, withParams]
  have e2 : used m q' c "s1" = q' "S" := by simp [used, withParams]
  refine ⟨_, linePart m (used m q' c) n p vx e f, _, C113_formula hN R old D, ?_, ?_, ?_⟩
  · rw [C113_formula hN R old D', hu "cf" (by decide), hu "xcf" (by decide), hu "cs" (by decide), hu "xcs" (by decide)]
  · rw [hline, hline]
    refine mul_le_mul_of_nonneg_left ?_ hk.le
    unfold Spec.lineSum strength
    rw [hr, hr', hu "fl" (by decide), hu "b2" (by decide), e1, e2]
    refine Finset.sum_le_sum fun i hi => ?_
    have hi := Finset.mem_range.1 hi
    rw [hres, hs, hs]
    have := hterm i hi
    have := hfl i hi
    have := hE i
    have := hS i hi
    gcongr
  · rintro ⟨i, hi, h1, h2⟩
    rw [hline, hline]
    refine mul_lt_mul_of_pos_left ?_ hk
    unfold Spec.lineSum strength
    rw [hr, hr', hu "fl" (by decide), hu "b2" (by decide), e1, e2]
    refine Finset.sum_lt_sum (fun j hj => ?_) ⟨i, Finset.mem_range.2 hi, ?_⟩
    · have hj := Finset.mem_range.1 hj
      rw [hres, hs, hs]
      have := hterm j hj
      have := hfl j hj
      have := hE j
      have := hS j hj
      gcongr
    · rw [hres, hs, hs]
      have hp : 0 < resonances m (used m q c) (c "reftline" 0 / (300 / vx))
          (dryPressure m (300 / vx) p e) (vapourPressure m (300 / vx) e) f i := by
        rw [resonances_plain hm']
        refine add_pos_of_pos_of_nonneg (localProfile_pos ?_ ?_) (localProfile_nonneg _ _)
        · obtain ⟨-, g2, g3⟩ := D.pos i hi
          exact halfWidth_pos ⟨by simpa [used, withParams] using g2, by simpa [used, withParams] using g3⟩ ht hd hv
        · rw [show used m q c "fl" i = q "FL" i by simp [used, withParams]]
          exact h2
      have := hfl i hi
      have := hE i
      gcongr

/-- C113: the coefficients of the continuum enter linearly and touch the continuum only (R16 and later, apart from the
three models with another self-continuum). -/
theorem C113_continuum {m : String} (hm : m ∉ ["R98", "R03", "R23SD", "R24", "MWL24"]) {F : LineList}
    {c : String → ℕ → ℝ} {n : ℕ} {p vx e f : ℝ} (R : WaterRun m F c n p vx e f) (old : LineList) {P P' : Params}
    {q q' : String → ℕ → ℝ} (D : Dictionary m n P q) (D' : Dictionary m n P' q')
    (hsame : SameBut m ["con_Cf", "con_Cs", "con_Cf_factr", "con_Cs_factr"] q q') :
    ∃ a b b', h2oWith m P (reloadLL F old) p vx e f = .ok (some (a, b)) ∧
      h2oWith m P' (reloadLL F old) p vx e f = .ok (some (a, b')) ∧
      b' - b = conPart m
        (if "R17" < m then q' "con_Cf" 0 - q "con_Cf" 0 else
          q' "con_Cf" 0 * q' "con_Cf_factr" 0 - q "con_Cf" 0 * q "con_Cf_factr" 0) (q "con_Xf" 0)
        (if "R17" < m then q' "con_Cs" 0 - q "con_Cs" 0 else
          q' "con_Cs" 0 * q' "con_Cs_factr" 0 - q "con_Cs" 0 * q "con_Cs_factr" 0) (q "con_Xs" 0)
        (c "reftcon" 0 * vx / 300) p vx e f := by
  have hN : m ∉ ["R23SD", "R24", "MWL24"] := fun h => hm (by simp at h ⊢; tauto)
  have hR : ¬(m = "R98" ∨ m = "R03") := fun h => hm (by simp; tauto)
  have hu (a : String) (ha : a ≠ "cf") (ha' : a ≠ "cs") : used m q' c a = used m q c a := by
    unfold used withParams
    have g (k : String) (h2 : k ∉ ["con_Cf", "con_Cs", "con_Cf_factr", "con_Cs_factr"]) (h1 : k ∈ waterKeys m) :=
      hsame k h1 h2
    unfold waterKeys at g
    by_cases h17 : "R17" < m
    · simp only [h17, if_true] at g
      simp [ha, ha', h17, g "S" (by decide) (by simp), g "B2" (by decide) (by simp), g "FL" (by decide) (by simp),
        g "gamma_a" (by decide) (by simp), g "gamma_w" (by decide) (by simp), g "n_a" (by decide) (by simp),
        g "n_w" (by decide) (by simp), g "con_Xf" (by decide) (by simp), g "con_Xs" (by decide) (by simp),
        g "delta_a" (by decide) (by simp), g "delta_w" (by decide) (by simp), g "n_da" (by decide) (by simp),
        g "n_dw" (by decide) (by simp)]
    · simp only [h17, if_false] at g
      simp [ha, ha', h17, g "S" (by decide) (by simp), g "B2" (by decide) (by simp), g "FL" (by decide) (by simp),
        g "gamma_a" (by decide) (by simp), g "gamma_w" (by decide) (by simp), g "n_a" (by decide) (by simp),
        g "n_w" (by decide) (by simp), g "con_Xf" (by decide) (by simp), g "con_Xs" (by decide) (by simp),
        g "SR" (by decide) (by simp)]
  have hl : linePart m (used m q' c) n p vx e f = linePart m (used m q c) n p vx e f := by
    unfold linePart Spec.lineSum strength resonances halfWidth lineShift speedWidth speedShift halfWidth
    simp only [hu "w0" (by decide) (by decide), hu "x" (by decide) (by decide), hu "w0s" (by decide) (by decide),
      hu "xs" (by decide) (by decide), hu "fl" (by decide) (by decide), hu "sr" (by decide) (by decide),
      hu "sh" (by decide) (by decide), hu "xh" (by decide) (by decide), hu "shs" (by decide) (by decide),
      hu "xhs" (by decide) (by decide), hu "aair" (by decide) (by decide), hu "aself" (by decide) (by decide),
      hu "w2" (by decide) (by decide), hu "w2s" (by decide) (by decide), hu "xw2" (by decide) (by decide),
      hu "xw2s" (by decide) (by decide), hu "d2" (by decide) (by decide), hu "d2s" (by decide) (by decide),
      hu "d2air" (by decide) (by decide), hu "d2self" (by decide) (by decide), hu "s1" (by decide) (by decide),
      hu "b2" (by decide) (by decide), hu "reftline" (by decide) (by decide)]
  refine ⟨_, _, conPart m (used m q' c "cf" 0) (used m q c "xcf" 0) (used m q' c "cs" 0) (used m q c "xcs" 0)
      (c "reftcon" 0 * vx / 300) p vx e f, C113_formula hN R old D, ?_, ?_⟩
  · rw [C113_formula hN R old D', if_neg hR, hl, hu "xcf" (by decide) (by decide), hu "xcs" (by decide) (by decide)]
  · rw [if_neg hR]
    have e1 : used m q c "xcf" = q "con_Xf" := by simp [used, withParams]
    have e2 : used m q c "xcs" = q "con_Xs" := by simp [used, withParams]
    rw [e1, e2]
    unfold conPart continuum
    rw [← sub_div]
    congr 1
    by_cases h17 : "R17" < m
    · simp [used, withParams, h17]
      ring
    · simp [used, withParams, h17]
      ring

/-! ### Widths -/

theorem lorentz_wing {w w' d : ℝ} (hw : 0 < w) (hww : w ≤ w') (hd : 2 * w' ≤ |d|) :
    localProfile w d ≤ localProfile w' d := by
  unfold localProfile
  rcases le_or_gt 750 |d| with h | h
  · have : lorentz w d ≤ lorentz w 750 := by
      unfold lorentz
      have h2 : (750 : ℝ) ^ 2 ≤ d ^ 2 := by rw [← sq_abs d]; gcongr
      gcongr
    rw [max_eq_left (by linarith)]
    exact le_max_left _ _
  · refine max_le_max le_rfl ?_
    have hw' : 0 < w' := by linarith
    have hd0 : 0 < |d| := by linarith
    have hd2 : 4 * w' ^ 2 ≤ d ^ 2 := by rw [← sq_abs d]; nlinarith
    have hD : d ^ 2 < 750 ^ 2 := by rw [← sq_abs d]; gcongr
    have key : ∀ u : ℝ, lorentz u d - lorentz u 750 = u * (750 ^ 2 - d ^ 2) / ((d ^ 2 + u ^ 2) * (750 ^ 2 + u ^ 2)) := by
      intro u
      have h1 : 0 < d ^ 2 + u ^ 2 := by have := sq_nonneg u; have : 0 < w' ^ 2 := by positivity
                                        nlinarith
      unfold lorentz
      field_simp
      ring
    rw [key, key]
    have h1 : 0 < d ^ 2 := by have : 0 < w' ^ 2 := by positivity
                              linarith
    rw [div_le_div_iff₀ (by positivity) (by positivity)]
    have hE : 0 < 750 ^ 2 - d ^ 2 := by linarith
    generalize d ^ 2 = x at *
    suffices h : w * ((x + w' ^ 2) * (750 ^ 2 + w' ^ 2)) ≤ w' * ((x + w ^ 2) * (750 ^ 2 + w ^ 2)) by
      nlinarith
    have hx : w * w' ≤ x / 4 := by nlinarith
    have h3 : w' * ((x + w ^ 2) * (750 ^ 2 + w ^ 2)) - w * ((x + w' ^ 2) * (750 ^ 2 + w' ^ 2)) =
        (w' - w) * (x * 750 ^ 2 - w * w' * (x + 750 ^ 2) - w * w' * (w ^ 2 + w * w' + w' ^ 2)) := by ring
    have h4 : w ^ 2 + w * w' + w' ^ 2 ≤ 3 / 4 * x := by nlinarith
    have h5 : 0 < w * w' := by positivity
    have h6 : 0 ≤ x * 750 ^ 2 - w * w' * (x + 750 ^ 2) - w * w' * (w ^ 2 + w * w' + w' ^ 2) := by
      have a1 : w * w' * (x + 750 ^ 2) ≤ x / 4 * (2 * 750 ^ 2) := by
        have : x + 750 ^ 2 ≤ 2 * 750 ^ 2 := by linarith
        gcongr
      have a2 : w * w' * (w ^ 2 + w * w' + w' ^ 2) ≤ x / 4 * (3 / 4 * 750 ^ 2) := by
        have : w ^ 2 + w * w' + w' ^ 2 ≤ 3 / 4 * 750 ^ 2 := by linarith
        gcongr
      nlinarith
    nlinarith [mul_nonneg (sub_nonneg.2 hww) h6]

theorem lorentz_centre {w w' s : ℝ} (hw : 0 < w) (hww : w < w') (hs : w' ≤ s) (hb : w' ≤ 750) :
    localProfile w' 0 + localProfile w' s < localProfile w 0 + localProfile w s := by
  have hw' : 0 < w' := by linarith
  have base (u v : ℝ) (hu : 0 < u) (huv : u ≤ v) (hv : v ≤ 750) : lorentz u 750 ≤ lorentz v 750 := by
    unfold lorentz
    rw [div_le_div_iff₀ (by positivity) (by positivity)]
    nlinarith [mul_nonneg (sub_nonneg.2 huv) (show 0 ≤ 750 ^ 2 - u * v by nlinarith)]
  have z (u : ℝ) (hu : 0 < u) (h : u ≤ 750) : localProfile u 0 = 1 / u - lorentz u 750 := by
    unfold localProfile lorentz
    rw [max_eq_right]
    · congr 1
      field_simp
      ring
    · rw [sub_nonneg]
      gcongr
      norm_num
  have hgap : localProfile w' s - localProfile w s ≤ (w' - w) / s ^ 2 := by
    have hs0 : 0 < s := by linarith
    have hl : lorentz w' s - lorentz w s ≤ (w' - w) / s ^ 2 := by
      unfold lorentz
      rw [div_sub_div _ _ (by positivity) (by positivity), div_le_div_iff₀ (by positivity) (by positivity)]
      have : w' * (s ^ 2 + w ^ 2) - (s ^ 2 + w' ^ 2) * w = (w' - w) * (s ^ 2 - w * w') := by ring
      rw [this, mul_assoc]
      refine mul_le_mul_of_nonneg_left ?_ (by linarith)
      have : 0 < w * w' := by positivity
      nlinarith [sq_nonneg w, sq_nonneg w', sq_nonneg s, mul_pos (sq_pos_of_pos hs0) this,
        mul_nonneg (sq_nonneg s) (sq_nonneg w), mul_nonneg (sq_nonneg s) (sq_nonneg w'), mul_nonneg (sq_nonneg w) (sq_nonneg w')]
    have hb' := base w w' hw hww.le hb
    have hr : 0 ≤ (w' - w) / s ^ 2 := div_nonneg (by linarith) (by positivity)
    unfold localProfile
    rcases max_cases 0 (lorentz w' s - lorentz w' 750) with ⟨a, -⟩ | ⟨a, -⟩
    · rw [a]
      have := le_max_left 0 (lorentz w s - lorentz w 750)
      linarith
    · rw [a]
      have := le_max_right 0 (lorentz w s - lorentz w 750)
      linarith
  rw [z w hw (by linarith), z w' hw' hb]
  have hb' := base w w' hw hww.le hb
  have h1 : (w' - w) / s ^ 2 < 1 / w - 1 / w' := by
    have hs0 : 0 < s := by linarith
    rw [div_sub_div _ _ hw.ne' hw'.ne', div_lt_div_iff₀ (by positivity) (by positivity)]
    have : w * w' < s ^ 2 := by nlinarith
    nlinarith [mul_pos (sub_pos.2 hww) (sub_pos.2 this)]
  linarith

/-- The columns of two runs that differ in the width by air. -/
theorem used_width {m : String} {q q' c : String → ℕ → ℝ} (hsame : SameBut m ["gamma_a"] q q') {a : String} (ha : a ≠ "w0") :
    used m q' c a = used m q c a := by
  unfold used withParams
  have g (k : String) (h2 : k ∉ ["gamma_a"]) (h1 : k ∈ waterKeys m) := hsame k h1 h2
  unfold waterKeys at g
  by_cases h17 : "R17" < m
  · simp only [h17, if_true] at g
    simp [ha, h17, g "S" (by decide) (by simp), g "B2" (by decide) (by simp), g "FL" (by decide) (by simp),
      g "gamma_w" (by decide) (by simp), g "n_a" (by decide) (by simp), g "n_w" (by decide) (by simp),
      g "con_Xf" (by decide) (by simp), g "con_Xs" (by decide) (by simp), g "con_Cf" (by decide) (by simp),
      g "con_Cs" (by decide) (by simp), g "delta_a" (by decide) (by simp), g "delta_w" (by decide) (by simp),
      g "n_da" (by decide) (by simp), g "n_dw" (by decide) (by simp)]
  · simp only [h17, if_false] at g
    simp [ha, h17, g "S" (by decide) (by simp), g "B2" (by decide) (by simp), g "FL" (by decide) (by simp),
      g "gamma_w" (by decide) (by simp), g "n_a" (by decide) (by simp), g "n_w" (by decide) (by simp),
      g "con_Xf" (by decide) (by simp), g "con_Xs" (by decide) (by simp), g "con_Cf" (by decide) (by simp),
      g "con_Cs" (by decide) (by simp), g "con_Cf_factr" (by decide) (by simp),
      g "con_Cs_factr" (by decide) (by simp), g "SR" (by decide) (by simp)]

/-- Half-width and centre of line `i` in a run. -/
noncomputable def runWidth (m : String) (q c : String → ℕ → ℝ) (p vx e : ℝ) (i : ℕ) : ℝ :=
  halfWidth (used m q c) (c "reftline" 0 / (300 / vx)) (dryPressure m (300 / vx) p e) (vapourPressure m (300 / vx) e) i

/-- See `runWidth`. -/
noncomputable def runCentre (m : String) (q c : String → ℕ → ℝ) (p vx e : ℝ) (i : ℕ) : ℝ :=
  q "FL" i + lineShift m (used m q c) (c "reftline" 0 / (300 / vx)) (dryPressure m (300 / vx) p e)
    (vapourPressure m (300 / vx) e) i

theorem width_run {m : String} (hm : m ∈ ["R98", "R18", "R19", "R20"]) {F : LineList}
    {c : String → ℕ → ℝ} {n : ℕ} {p vx e f : ℝ} (R : WaterRun m F c n p vx e f) (old : LineList) {P P' : Params}
    {q q' : String → ℕ → ℝ} (D : Dictionary m n P q) (D' : Dictionary m n P' q') (hsame : SameBut m ["gamma_a"] q q') :
    ∃ k b, 0 < k ∧
      h2oWith m P (reloadLL F old) p vx e f = .ok (some (k * ∑ i ∈ Finset.range n,
        strength (used m q c) (c "reftline" 0 / (300 / vx)) i * (f / q "FL" i) ^ 2 *
          (localProfile (runWidth m q c p vx e i) (f - runCentre m q c p vx e i)
            + localProfile (runWidth m q c p vx e i) (f + runCentre m q c p vx e i)), b)) ∧
      h2oWith m P' (reloadLL F old) p vx e f = .ok (some (k * ∑ i ∈ Finset.range n,
        strength (used m q c) (c "reftline" 0 / (300 / vx)) i * (f / q "FL" i) ^ 2 *
          (localProfile (runWidth m q' c p vx e i) (f - runCentre m q c p vx e i)
            + localProfile (runWidth m q' c p vx e i) (f + runCentre m q c p vx e i)), b)) := by
  have hm' : m ∈ plainWater := by simp [plainWater] at hm ⊢; tauto
  have hN := plain_not hm'
  obtain ⟨k, hk, hline⟩ := linePart_scale m (p := p) R.temp R.vapour R.freq
  have hu {a : String} (ha : a ≠ "w0") := used_width (c := c) hsame ha
  have hr : used m q c "reftline" = c "reftline" := by simp [used, withParams]
  have hr' : used m q' c "reftline" = c "reftline" := by simp [used, withParams]
  have e1 : used m q c "fl" = q "FL" := by simp [used, withParams]
  have hsh (i : ℕ) (t a b : ℝ) : lineShift m (used m q' c) t a b i = lineShift m (used m q c) t a b i := by
    unfold lineShift
    simp only [List.mem_cons, List.not_mem_nil, or_false] at hm
    rcases hm with rfl | rfl | rfl | rfl <;>
      simp [hu (a := "sh") (by decide), hu (a := "xh") (by decide), hu (a := "shs") (by decide), hu (a := "xhs") (by decide),
        hu (a := "aair") (by decide), hu (a := "aself") (by decide)]
  refine ⟨k, if m = "R98" ∨ m = "R03" then conPart m 5.43e-10 3 1.8e-8 7.5 (c "reftcon" 0 * vx / 300) p vx e f
      else conPart m (used m q c "cf" 0) (used m q c "xcf" 0) (used m q c "cs" 0) (used m q c "xcs" 0)
        (c "reftcon" 0 * vx / 300) p vx e f, hk, ?_, ?_⟩
  · rw [C113_formula hN R old D, hline]
    unfold Spec.lineSum runWidth runCentre
    simp only [hr, resonances_plain hm', e1]
  · rw [C113_formula hN R old D', hline, hu (a := "cf") (by decide), hu (a := "xcf") (by decide),
      hu (a := "cs") (by decide), hu (a := "xcs") (by decide)]
    unfold Spec.lineSum runWidth runCentre strength
    simp only [hr', resonances_plain hm', hu (a := "fl") (by decide), hu (a := "s1") (by decide),
      hu (a := "b2") (by decide), hsh, e1]

theorem runWidth_mono {m : String} {F : LineList} {c : String → ℕ → ℝ} {n : ℕ} {p vx e f : ℝ}
    (R : WaterRun m F c n p vx e f) {P : Params} {q q' : String → ℕ → ℝ} (D : Dictionary m n P q)
    (hsame : SameBut m ["gamma_a"] q q') {i : ℕ} (hi : i < n) :
    0 < runWidth m q c p vx e i ∧ (q "gamma_a" i ≤ q' "gamma_a" i → runWidth m q c p vx e i ≤ runWidth m q' c p vx e i) ∧
      (0 < p → q "gamma_a" i < q' "gamma_a" i → runWidth m q c p vx e i < runWidth m q' c p vx e i) := by
  obtain ⟨ht, -, hd, hv⟩ := R.air
  obtain ⟨-, g2, g3⟩ := D.pos i hi
  have e1 (q : String → ℕ → ℝ) : used m q c "w0" i = q "gamma_a" i / 1000 := by simp [used, withParams]
  refine ⟨halfWidth_pos ⟨by rw [e1]; positivity, by simpa [used, withParams] using g3⟩ ht hd hv, fun h => ?_, fun hp h => ?_⟩
  · unfold runWidth halfWidth
    simp only [used_width (c := c) hsame (show "x" ≠ "w0" by decide), used_width (c := c) hsame (show "xs" ≠ "w0" by decide),
      used_width (c := c) hsame (show "w0s" ≠ "w0" by decide), e1]
    have := rpow_pos_of_pos ht (used m q c "x" i)
    gcongr
  · have hd' : 0 < dryPressure m (300 / vx) p e := by
      have h0 : 0 ≤ dryPressure m (300 / vx) 0 e :=
        (WaterRun.air (f := f) ⟨R.file, R.cols, R.lines, le_rfl, R.temp, R.vapour, R.freq⟩).2.2.1
      unfold dryPressure at h0 ⊢
      linarith
    unfold runWidth halfWidth
    simp only [used_width (c := c) hsame (show "x" ≠ "w0" by decide), used_width (c := c) hsame (show "xs" ≠ "w0" by decide),
      used_width (c := c) hsame (show "w0s" ≠ "w0" by decide), e1]
    have := rpow_pos_of_pos ht (used m q c "x" i)
    gcongr

/-- C113: in the wings (two half-widths or more from a line made broader, on either side) a larger width by air never
lowers the absorption. -/
theorem C113_wing {m : String} (hm : m ∈ ["R98", "R18", "R19", "R20"]) {F : LineList}
    {c : String → ℕ → ℝ} {n : ℕ} {p vx e f : ℝ} (R : WaterRun m F c n p vx e f) (old : LineList) {P P' : Params}
    {q q' : String → ℕ → ℝ} (D : Dictionary m n P q) (D' : Dictionary m n P' q') (hsame : SameBut m ["gamma_a"] q q')
    (hS : ∀ i < n, 0 ≤ q "S" i)
    (hwing : ∀ i < n, q' "gamma_a" i = q "gamma_a" i ∨ q "gamma_a" i ≤ q' "gamma_a" i ∧
      2 * runWidth m q' c p vx e i ≤ |f - runCentre m q c p vx e i| ∧
      2 * runWidth m q' c p vx e i ≤ |f + runCentre m q c p vx e i|) :
    ∃ a a' b, h2oWith m P (reloadLL F old) p vx e f = .ok (some (a, b)) ∧
      h2oWith m P' (reloadLL F old) p vx e f = .ok (some (a', b)) ∧ a ≤ a' := by
  obtain ⟨k, b, hk, h1, h2⟩ := width_run hm R old D D' hsame
  refine ⟨_, _, _, h1, h2, mul_le_mul_of_nonneg_left (Finset.sum_le_sum fun i hi => ?_) hk.le⟩
  have hi := Finset.mem_range.1 hi
  obtain ⟨ht, -, -, -⟩ := R.air
  obtain ⟨w0, w1, -⟩ := runWidth_mono R D hsame hi
  have hs : 0 ≤ strength (used m q c) (c "reftline" 0 / (300 / vx)) i := by
    unfold strength
    rw [show used m q c "s1" = q "S" by simp [used, withParams]]
    have := hS i hi
    have := rpow_pos_of_pos ht (5 / 2 : ℝ)
    positivity
  refine mul_le_mul_of_nonneg_left ?_ (mul_nonneg hs (sq_nonneg _))
  rcases hwing i hi with h | ⟨h3, h4, h5⟩
  · have : runWidth m q' c p vx e i = runWidth m q c p vx e i := by
      unfold runWidth halfWidth
      simp only [used_width (c := c) hsame (show "x" ≠ "w0" by decide),
        used_width (c := c) hsame (show "xs" ≠ "w0" by decide), used_width (c := c) hsame (show "w0s" ≠ "w0" by decide)]
      simp [used, withParams, h]
    rw [this]
  · exact add_le_add (lorentz_wing w0 (w1 h3) h4) (lorentz_wing w0 (w1 h3) h5)

/-- C113: at the centre of a line a larger width by air of that line lowers the absorption. -/
theorem C113_centre {m : String} (hm : m ∈ ["R98", "R18", "R19", "R20"]) {F : LineList}
    {c : String → ℕ → ℝ} {n : ℕ} {p vx e f : ℝ} (R : WaterRun m F c n p vx e f) (hp : 0 < p) (old : LineList)
    {P P' : Params} {q q' : String → ℕ → ℝ} (D : Dictionary m n P q) (D' : Dictionary m n P' q')
    (hsame : SameBut m ["gamma_a"] q q') {i : ℕ} (hi : i < n) (hS : 0 < q "S" i)
    (hother : ∀ j < n, j ≠ i → q' "gamma_a" j = q "gamma_a" j) (hmore : q "gamma_a" i < q' "gamma_a" i)
    (hf : f = runCentre m q c p vx e i) (hw1 : runWidth m q' c p vx e i ≤ 2 * f)
    (hw2 : runWidth m q' c p vx e i ≤ 750) :
    ∃ a a' b, h2oWith m P (reloadLL F old) p vx e f = .ok (some (a, b)) ∧
      h2oWith m P' (reloadLL F old) p vx e f = .ok (some (a', b)) ∧ a' < a := by
  obtain ⟨k, b, hk, h1, h2⟩ := width_run hm R old D D' hsame
  obtain ⟨ht, -, -, -⟩ := R.air
  refine ⟨_, _, _, h1, h2, mul_lt_mul_of_pos_left (Finset.sum_lt_sum (fun j hj => ?_)
    ⟨i, Finset.mem_range.2 hi, ?_⟩) hk⟩
  · have hj := Finset.mem_range.1 hj
    by_cases hji : j = i
    · subst hji
      obtain ⟨w0, -, w1⟩ := runWidth_mono R D hsame hj
      have hs : 0 ≤ strength (used m q c) (c "reftline" 0 / (300 / vx)) j := by
        unfold strength
        rw [show used m q c "s1" = q "S" by simp [used, withParams]]
        have := rpow_pos_of_pos ht (5 / 2 : ℝ)
        positivity
      refine mul_le_mul_of_nonneg_left ?_ (mul_nonneg hs (sq_nonneg _))
      rw [← hf, sub_self]
      exact (lorentz_centre w0 (w1 hp hmore) (by linarith) hw2).le
    · have : runWidth m q' c p vx e j = runWidth m q c p vx e j := by
        unfold runWidth halfWidth
        simp only [used_width (c := c) hsame (show "x" ≠ "w0" by decide),
          used_width (c := c) hsame (show "xs" ≠ "w0" by decide), used_width (c := c) hsame (show "w0s" ≠ "w0" by decide)]
        simp [used, withParams, hother j hj hji]
      rw [this]
  · obtain ⟨w0, -, w1⟩ := runWidth_mono R D hsame hi
    have hs : 0 < strength (used m q c) (c "reftline" 0 / (300 / vx)) i := by
      unfold strength
      rw [show used m q c "s1" = q "S" by simp [used, withParams]]
      have := rpow_pos_of_pos ht (5 / 2 : ℝ)
      positivity
    have hq := (D.pos i hi).1
    have hf0 := R.freq
    refine mul_lt_mul_of_pos_left ?_ (by positivity)
    rw [← hf, sub_self]
    exact lorentz_centre w0 (w1 hp hmore) (by linarith) hw2

/-! ### The coefficient of the self-continuum in R23SD and R24 -/

/-- The shipped parameters with another `con_Cs`: only that attribute changes. -/
theorem amuWater_cs {m : String} (hm : "R17" < m) {ll : LineList} {P : Params} (h : waterParams m ll = .ok P) (v : Val) :
    amuWater m (Function.update P "con_Cs" (some v)) ll = .ok (ll.set "cs" v) := by
  obtain ⟨K, e1, e2, e3, e4, e5, e6, e7, e8, e9, e10, e11, hl, -⟩ := waterParams_common h
  obtain ⟨da, dw, nda, ndw, p1, p2, p3, p4, l1, l2, l3, l4⟩ := hl hm
  have g {k : String} {x : Val} (hk : k ≠ "con_Cs") (hx : P k = some x) :
      Function.update P "con_Cs" (some v) k = some x := by rw [Function.update_of_ne hk, hx]
  let K' : WaterKeys (Function.update P "con_Cs" (some v)) :=
    ⟨K.cf, v, K.xf, K.xs, K.s, K.b2, K.ga, K.gw, K.na, K.nw, K.fl, g (by decide) K.h1, Function.update_self _ _ _,
      g (by decide) K.h3, g (by decide) K.h4, g (by decide) K.h5, g (by decide) K.h6, g (by decide) K.h7,
      g (by decide) K.h8, g (by decide) K.h9, g (by decide) K.h10, g (by decide) K.h11⟩
  have hL : ∀ a, a ≠ "cf" → a ≠ "cs" → (ll.set "cs" v) a = ll a := by
    intro a _ h2
    simp [LineList.set, h2]
  rw [amuWater_late hm K' (g (by decide) p1) (g (by decide) p2) (g (by decide) p3) (g (by decide) p4)]
  show Except.ok ((((((setCommon K' ((ll.set "cf" K.cf).set "cs" v)).set "sh" fun i => da i / 1000.0).set "shs"
    fun i => dw i / 1000.0).set "xh" nda).set "xhs" ndw).set "fl" K.fl) = _
  rw [set_self e1, setCommon_self (K := K') hL e3 e4 e5 e6 e7 e8 e9 e10,
    set_self ((hL "sh" (by decide) (by decide)).trans l1), set_self ((hL "shs" (by decide) (by decide)).trans l2),
    set_self ((hL "xh" (by decide) (by decide)).trans l3), set_self ((hL "xhs" (by decide) (by decide)).trans l4),
    set_self ((hL "fl" (by decide) (by decide)).trans e11)]

/-- C113 (refuted for R23SD and R24): the shipped `con_Cs` is a flag.  Any value up to 0 leaves the tabulated
self-continuum; every positive value switches the self-continuum off, whatever its size, because it is multiplied by
the exponent 0 instead of raised to it.  The absorption is then lower than without any perturbation. -/
theorem C113_self_switch {m : String} (hm : m ∈ ["R23SD", "R24"]) {F : LineList} {c : String → ℕ → ℝ} {n : ℕ}
    {p vx e f : ℝ} (R : WaterRun m F c n p vx e f) (h1 : 0.12 ≤ vx) (h2 : vx ≤ 8.8) (hf : f < 4 * ckdStep) (old : LineList)
    {P : Params} (hP : waterParams m (reloadLL F old) = .ok P) :
    ∃ a b b', b' < b ∧ h2oAbsorption m (reloadLL F old) p vx e f = .ok (some (a, b)) ∧ ∀ v : ℝ,
      h2oWith m (Function.update P "con_Cs" (some fun _ => v)) (reloadLL F old) p vx e f =
        .ok (some (a, if 0 < v then b' else b)) := by
  have h17 : "R17" < m := by
    simp only [List.mem_cons, List.not_mem_nil, or_false] at hm
    rcases hm with rfl | rfl <;> decide
  have C := columns_of_file R.file old R.cols R.lines
  obtain ⟨G⟩ := goodLines_of_file R.file old
  obtain ⟨hx, hcs⟩ := newCon hm R.file old G
  have hcs' : G.cs = c "cs" := by
    have := C.read "cs" (by simp [waterReads, waterCommon])
    rw [G.hcs, Option.some_inj] at this
    exact this
  have hx' : G.xcs = c "xcs" := by
    have := C.read "xcs" (by simp [waterReads, waterCommon])
    rw [G.hxcs, Option.some_inj] at this
    exact this
  rw [hcs'] at hcs
  rw [hx'] at hx
  obtain ⟨s, hs, hs0⟩ := C36_positive h1 h2 R.freq.le hf
  obtain ⟨-, -, -, hpv⟩ := R.air
  have hl : 0 < log 10 := log_pos (by norm_num)
  have hf0 := R.freq
  have hC (v : ℝ) : Columns m ((reloadLL F old).set "cs" fun _ => v) (Function.update c "cs" fun _ => v) n := by
    refine ⟨fun a ha => ?_, ?_, fun i hi => ?_, ?_⟩
    · by_cases hac : a = "cs"
      · subst hac
        simp [LineList.set]
      · rw [Function.update_of_ne hac]
        simp only [LineList.set, if_neg hac]
        exact C.read a ha
    · rw [Function.update_of_ne (by decide), C.len]
    · simpa using C.pos i hi
    · simpa using C.reft
  have base := h2o_columns_table R.file hm C R.dry R.temp R.vapour R.freq (.inr ⟨not_lt.1 hcs, hs⟩)
  refine ⟨_, _, continuum (c "cf" 0) (c "xcf" 0) 0 0 (c "reftline" 0 * vx / 300)
          (dryPressure m (300 / vx) p e) (vapourPressure m (300 / vx) e) f / (0.182 * f * (log 10 / 10)), ?_, base, fun v => ?_⟩
  · refine div_lt_div_of_pos_right ?_ (by positivity)
    unfold continuum
    gcongr
  · unfold h2oWith
    simp only [amuWater_cs h17 hP, bind, Except.bind]
    have hline : ∀ n, Spec.lineSum m (Function.update c "cs" fun _ => v) n (300 / vx) (dryPressure m (300 / vx) p e)
        (vapourPressure m (300 / vx) e) f = Spec.lineSum m c n (300 / vx) (dryPressure m (300 / vx) p e)
        (vapourPressure m (300 / vx) e) f := by
      intro n
      unfold Spec.lineSum strength resonances halfWidth lineShift speedWidth speedShift halfWidth
      simp
    by_cases hv : 0 < v
    · rw [h2o_columns_table R.file hm (hC v) R.dry R.temp R.vapour R.freq (s := 0) (.inl ⟨by simpa using hv, by simp [hx]⟩),
        hline, if_pos hv]
      simp
    · rw [h2o_columns_table R.file hm (hC v) R.dry R.temp R.vapour R.freq (s := s) (.inr ⟨by simpa using hv, hs⟩),
        hline, if_neg hv]
      simp

/-! ### Cases -/

theorem run_exists (m : String) (hm : (waterFile m).isSome) : ∃ F c n, WaterRun m F c n 100 1 1 22.235 := by
  obtain ⟨F, hF⟩ := Option.isSome_iff_exists.1 hm
  obtain ⟨n, hn⟩ := file_len hF
  exact ⟨F, fun a => (F a).getD fun _ => 0, n, hF, fun a v h => by simp [h], hn, by norm_num, by norm_num, by norm_num,
    by norm_num⟩

/-- Case: the shipped parameters of R18, and the same with all strengths doubled. -/
example : ∃ F c n P P' q q', WaterRun "R18" F c n 100 1 1 22.235 ∧ waterParams "R18" (reloadLL F fun _ => none) = .ok P ∧
    Dictionary "R18" n P q ∧ Dictionary "R18" n P' q' ∧ SameBut "R18" ["S"] q q' ∧ q' "S" = fun i => 2 * q "S" i := by
  obtain ⟨F, c, n, R⟩ := run_exists "R18" (by simp [waterFile, waterGroups])
  obtain ⟨P, hP⟩ := (C40_water_names R.file).1 (by decide)
  have D := shipped_dictionary R _ hP
  refine ⟨F, c, n, P, Function.update P "S" (some fun i => 2 * ((P "S").getD fun _ => 0) i), _,
    Function.update (fun k => (P k).getD fun _ => 0) "S" fun i => 2 * ((P "S").getD fun _ => 0) i, R, hP, D, ⟨?_, ?_⟩, ?_, ?_⟩
  · intro k hk
    by_cases h : k = "S"
    · subst h
      simp
    · rw [Function.update_of_ne h, Function.update_of_ne h]
      exact D.value k hk
  · intro i hi
    simpa using D.pos i hi
  · intro k _ h
    rw [Function.update_of_ne (by simpa using h)]
  · simp

/-- Lines at 22.235 GHz of width `γ` MHz/mbar in air, unshifted, with widths independent of the temperature. -/
noncomputable def caseQ (γ : ℝ) (k : String) (i : ℕ) : ℝ :=
  if k = "FL" then 22.235 else if k = "gamma_a" then (if i = 0 then γ else 3) else if k = "gamma_w" then 13
  else if k = "S" then 1e-14 else 0

theorem caseQ_dictionary {γ : ℝ} (h : 0 < γ) (m : String) (n : ℕ) : Dictionary m n (fun k => some (caseQ γ k)) (caseQ γ) := by
  refine ⟨fun _ _ => rfl, fun i _ => ?_⟩
  simp only [caseQ]
  refine ⟨by norm_num, ?_, by simp⟩
  simp only [show "gamma_a" ≠ "FL" by decide, if_false, if_true]
  split_ifs <;> linarith

theorem caseQ_same (γ γ' : ℝ) (m : String) : SameBut m ["gamma_a"] (caseQ γ) (caseQ γ') := by
  intro k _ h
  have h : k ≠ "gamma_a" := by simpa using h
  funext i
  simp [caseQ, h]

theorem caseQ_centre (γ : ℝ) (c : String → ℕ → ℝ) (p vx e : ℝ) (i : ℕ) : runCentre "R18" (caseQ γ) c p vx e i = 22.235 := by
  have h : "R17" < "R18" := by decide
  simp [runCentre, lineShift, used, withParams, caseQ, h]

theorem caseQ_width {γ : ℝ} (hγ : γ ≤ 6) (c : String → ℕ → ℝ) (i : ℕ) :
    runWidth "R18" (caseQ γ) c 100 1 1 i ≤ 7 := by
  have h : "R17" < "R18" := by decide
  have hv : vapourPressure "R18" (300 / 1) 1 ≤ 10 := by
    unfold vapourPressure vapourDensity
    simp
    norm_num
  have hv0 : 0 ≤ vapourPressure "R18" (300 / 1) 1 := by
    unfold vapourPressure vapourDensity
    simp
    norm_num
  have hd : dryPressure "R18" (300 / 1) 100 1 ≤ 1010 := by
    unfold dryPressure
    linarith
  have hd0 : 0 ≤ dryPressure "R18" (300 / 1) 100 1 := by
    unfold dryPressure
    linarith
  unfold runWidth halfWidth
  simp only [used, withParams, h, decide_true]
  generalize dryPressure "R18" (300 / 1) 100 1 = a at *
  generalize vapourPressure "R18" (300 / 1) 1 = b at *
  by_cases hi : i = 0
  · simp [caseQ, hi]
    nlinarith
  · simp [caseQ, hi]
    nlinarith

/-- Case: the first line of R18 twice as broad, seen at 100 GHz and at its centre. -/
example : ∃ F c n, WaterRun "R18" F c n 100 1 1 100 ∧ WaterRun "R18" F c n 100 1 1 22.235 ∧ 0 < n ∧
    (∃ a a' b, h2oWith "R18" (fun k => some (caseQ 3 k)) (reloadLL F fun _ => none) 100 1 1 100 = .ok (some (a, b)) ∧
      h2oWith "R18" (fun k => some (caseQ 6 k)) (reloadLL F fun _ => none) 100 1 1 100 = .ok (some (a', b)) ∧ a ≤ a') ∧
    ∃ a a' b, h2oWith "R18" (fun k => some (caseQ 3 k)) (reloadLL F fun _ => none) 100 1 1 22.235 = .ok (some (a, b)) ∧
      h2oWith "R18" (fun k => some (caseQ 6 k)) (reloadLL F fun _ => none) 100 1 1 22.235 = .ok (some (a', b)) ∧ a' < a := by
  obtain ⟨F, c, n, R⟩ := run_exists "R18" (by simp [waterFile, waterGroups])
  have R' : WaterRun "R18" F c n 100 1 1 100 := ⟨R.file, R.cols, R.lines, R.dry, R.temp, R.vapour, by norm_num⟩
  have hn : 0 < n := by
    obtain ⟨G⟩ := goodLines_of_file R.file fun _ => none
    have h := R.file
    unfold waterFile at h
    rw [show waterGroups.lookup "R18" = some waterR18 from rfl, Option.map_some, Option.some_inj] at h
    have h2 := R.lines
    rw [← h] at h2
    simp only [waterGroups_len, Option.bind_some, Src.val, Option.some_inj] at h2
    have h3 : ((16 : ℕ) : ℝ) = n := congrFun h2 0
    have : 16 = n := by exact_mod_cast h3
    omega
  have D3 := caseQ_dictionary (γ := 3) (by norm_num) "R18" n
  have D6 := caseQ_dictionary (γ := 6) (by norm_num) "R18" n
  refine ⟨F, c, n, R', R, hn, ?_, ?_⟩
  · refine C113_wing (by decide) R' _ D3 D6 (caseQ_same 3 6 _) (fun i _ => by simp [caseQ]; norm_num) fun i _ => ?_
    rw [caseQ_centre]
    have := caseQ_width (γ := 6) le_rfl c i
    by_cases h : i = 0
    · right
      refine ⟨by simp [caseQ, h]; norm_num, ?_, ?_⟩
      · rw [abs_of_pos (by norm_num)]
        norm_num
        linarith
      · rw [abs_of_pos (by norm_num)]
        norm_num
        linarith
    · left
      simp [caseQ, h]
  · have := caseQ_width (γ := 6) le_rfl c 0
    refine C113_centre (by decide) R (by norm_num) _ D3 D6 (caseQ_same 3 6 _) hn (by simp [caseQ]; norm_num) (fun j _ h => ?_) ?_ ?_ ?_ ?_
    · simp [caseQ, h]
    · simp [caseQ]
      norm_num
    · rw [caseQ_centre]
    · norm_num
      linarith
    · linarith

/-- Case: R24 with its own parameters, and with `con_Cs` set to any positive value. -/
example : ∃ F c n P, WaterRun "R24" F c n 100 1 1 22.235 ∧ waterParams "R24" (reloadLL F fun _ => none) = .ok P ∧
    (22.235 : ℝ) < 4 * ckdStep := by
  obtain ⟨F, c, n, R⟩ := run_exists "R24" (by simp [waterFile, waterGroups])
  obtain ⟨P, hP⟩ := (C40_water_names R.file).1 (by decide)
  exact ⟨F, c, n, P, R, hP, by unfold ckdStep; norm_num⟩

end Verif.Props
