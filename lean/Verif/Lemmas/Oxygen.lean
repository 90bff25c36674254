import Verif.Model.AbsOxygen
import Verif.Lemmas.WaterSum
import Verif.Lemmas.ErrorFn

/-!
# Lemmas on oxygen absorption
-/

namespace Verif.Lemmas

open Verif.Model Verif.Py

/-- Does the oxygen group have the variable, as long as the list of lines (`full`), all positive (`pos`)? -/
def oxyCol (full pos : Bool) (T : List (String × Col)) (a : String) : Bool :=
  match T.lookup a, T.lookup "f" with
  | some c, some f =>
    (if full then c.digits.length == f.digits.length else decide (0 < c.digits.length)) &&
      (!pos || c.digits.all fun d => decide (0 < d))
  | _, _ => false

/-- The attributes read by the oxygen routine of a model, beyond those every branch reads. -/
def oxyExtra (m : String) : List String :=
  if m ∈ ["R03", "R98", "R17", "R18", "R19", "R19SD"] then ["y300", "v"]
  else if m ∈ ["R23", "R24"] then ["y300", "y1", "g0", "g1", "dnu0", "dnu1"]
  else ["y0", "y1", "g0", "g1", "dnu0", "dnu1"]

/-- Attributes every branch reads. -/
def oxyCommon : List String := ["x", "wb300", "len(f)", "f", "s300", "be", "w300"]

/-- The attributes read by the oxygen routine of a model. -/
def oxyReads (m : String) : List String := oxyCommon ++ oxyExtra m

set_option maxRecDepth 10000 in
theorem oxygenGroups_pos : ∀ g ∈ oxygenGroups, (∀ a ∈ ["f", "s300", "be", "w300"], oxyCol true true g.2 a = true) ∧
    (∀ a ∈ ["x", "wb300"], oxyCol false true g.2 a = true) ∧ (∀ a ∈ oxyExtra g.1, oxyCol true false g.2 a = true) ∧
    (∀ a ∈ oxygenAssign g.1, (g.2.lookup a).isSome = true) ∧
    (∀ a ∈ oxyReads g.1, a ≠ "len(f)" → a ∈ oxygenAssign g.1) := by
  decide +kernel

set_option maxRecDepth 10000 in
theorem oxygenGroups_lines : ∀ g ∈ oxygenGroups, (g.2.lookup "f").map (fun c => decide (37 < c.digits.length)) = some true := by
  decide +kernel

/-- Oxygen line list with the signs of a physical one. -/
structure GoodOxy (ll : LineList) where
  n : ℕ
  f : Val
  s300 : Val
  be : Val
  w300 : Val
  x : Val
  wb300 : Val
  hn : ll "len(f)" = some fun _ => (n : ℝ)
  hf : ll "f" = some f
  hs300 : ll "s300" = some s300
  hbe : ll "be" = some be
  hw300 : ll "w300" = some w300
  hx : ll "x" = some x
  hwb : ll "wb300" = some wb300
  pos : ∀ k < n, 0 < f k ∧ 0 < s300 k ∧ 0 < w300 k
  pwb : 0 < wb300 0
  lines : 37 < n

theorem oxygenFile_some {m : String} {F : LineList} (hF : oxygenFile m = some F) :
    ∃ T, (m, T) ∈ oxygenGroups ∧ F = fun a =>
        if a = "len(f)" then (T.lookup "f").map fun c _ => (c.digits.length : ℝ)
        else if a ∈ oxygenAssign m then (T.lookup a).map Col.val
        else none := by
  unfold oxygenFile at hF
  cases hT : oxygenGroups.lookup m with
  | none => simp [hT] at hF
  | some T =>
    have hmem : (m, T) ∈ oxygenGroups := by
      rw [List.lookup_eq_some_iff] at hT
      obtain ⟨l₁, l₂, h, -⟩ := hT
      simp [h]
    rw [hT, Option.bind_some, if_pos (oxygenGroups_pos _ hmem).2.2.2.1, Option.some_inj] at hF
    exact ⟨T, hmem, hF.symm⟩

theorem oxyFile_reads {m : String} {F : LineList} (hF : oxygenFile m = some F) (old : LineList) (a : String)
    (ha : a ∈ oxyReads m) : ∃ v, F a = some v ∧ reloadLL F old a = some v := by
  obtain ⟨T, hmem, rfl⟩ := oxygenFile_some hF
  obtain ⟨-, -, -, h4, h5⟩ := oxygenGroups_pos _ hmem
  suffices h : ∃ v, (fun a => if a = "len(f)" then (T.lookup "f").map fun c _ => (c.digits.length : ℝ)
        else if a ∈ oxygenAssign m then (T.lookup a).map Col.val else none : LineList) a = some v by
    obtain ⟨v, hv⟩ := h
    exact ⟨v, hv, reload_some hv⟩
  by_cases hl : a = "len(f)"
  · have := h4 "f" (by simp [oxygenAssign])
    obtain ⟨c, hc⟩ := Option.isSome_iff_exists.1 this
    exact ⟨_, by simp only [if_pos hl]; rw [hc]; rfl⟩
  · have hin := h5 a ha hl
    obtain ⟨c, hc⟩ := Option.isSome_iff_exists.1 (h4 a hin)
    exact ⟨_, by simp only [if_neg hl, if_pos hin]; rw [hc]; rfl⟩

theorem goodOxy_of_file {m : String} {F : LineList} (hF : oxygenFile m = some F) (old : LineList) :
    Nonempty (GoodOxy (reloadLL F old)) := by
  have hread := oxyFile_reads hF old
  obtain ⟨T, hmem, rfl⟩ := oxygenFile_some hF
  obtain ⟨h1, h2, -, h4, h5⟩ := oxygenGroups_pos _ hmem
  have hln := oxygenGroups_lines _ hmem
  obtain ⟨cf, hcf⟩ := Option.isSome_iff_exists.1 (h4 "f" (by simp [oxygenAssign]))
  have hcf' : List.lookup "f" T = some cf := hcf
  rw [hcf, Option.map_some, Option.some_inj, decide_eq_true_eq] at hln
  have get (a : String) (hne : a ≠ "len(f)") (ha : a ∈ oxyReads m) (full : Bool) (h : oxyCol full true T a = true) :
      ∃ v, reloadLL (fun a => if a = "len(f)" then (T.lookup "f").map fun c _ => (c.digits.length : ℝ)
        else if a ∈ oxygenAssign m then (T.lookup a).map Col.val else none) old a = some v ∧
        ∀ k < (if full then cf.digits.length else 1), 0 < v k := by
    have hin := h5 a ha hne
    cases hc : T.lookup a with
    | none => simp [oxyCol, hc] at h
    | some c =>
      refine ⟨c.val, reload_some (by simp only [if_neg hne, if_pos hin]; rw [hc]; rfl), ?_⟩
      intro k hk
      simp only [oxyCol, hc, hcf', Bool.and_eq_true, Bool.not_true, Bool.false_or, List.all_eq_true,
        decide_eq_true_eq] at h
      obtain ⟨hl, hp⟩ := h
      have hk' : k < c.digits.length := by
        cases full
        · simp only [Bool.false_eq_true, if_false, decide_eq_true_eq] at hl hk; omega
        · simp only [if_true, beq_iff_eq] at hl hk; omega
      apply val_pos
      rw [List.getD_eq_getElem?_getD, List.getElem?_eq_getElem hk', Option.getD_some]
      exact hp _ (List.getElem_mem hk')
  have com (a : String) (ha : a ∈ oxyCommon) : a ∈ oxyReads m := by simp [oxyReads, ha]
  obtain ⟨f, hf, pf⟩ := get "f" (by decide) (com _ (by decide)) true (h1 _ (by simp))
  obtain ⟨s, hs, ps⟩ := get "s300" (by decide) (com _ (by decide)) true (h1 _ (by simp))
  obtain ⟨be, hbe, -⟩ := get "be" (by decide) (com _ (by decide)) true (h1 _ (by simp))
  obtain ⟨w, hw, pw⟩ := get "w300" (by decide) (com _ (by decide)) true (h1 _ (by simp))
  obtain ⟨x, hx, -⟩ := get "x" (by decide) (com _ (by decide)) false (h2 _ (by simp))
  obtain ⟨wb, hwb, pwb⟩ := get "wb300" (by decide) (com _ (by decide)) false (h2 _ (by simp))
  simp only [if_true] at pf ps pw
  refine ⟨⟨cf.digits.length, f, s, be, w, x, wb, reload_some ?_, hf, hs, hbe, hw, hx, hwb,
    fun k hk => ⟨pf k hk, ps k hk, pw k hk⟩, pwb 0 (by simp), hln⟩⟩
  simp only [if_true, hcf', Option.map_some]

theorem oxyAir_props (m : String) (x wb : ℝ) {pdry vx e : ℝ} (hp : 0 ≤ pdry) (hv : 0 < vx) (he : 0 ≤ e)
    (hpe : 0 < pdry + e) (hwb : 0 < wb) :
    0 < (oxyAir m x wb pdry vx e).th ∧ 0 < (oxyAir m x wb pdry vx e).presda ∧ 0 < (oxyAir m x wb pdry vx e).den ∧
      0 < (oxyAir m x wb pdry vx e).pe1 ∧ 0 < (oxyAir m x wb pdry vx e).dfnr := by
  have hth : 300.0 / (300.0 / vx) = vx := by field_simp
  have key : e * 10.0 / (0.01 * 8.314510 / 18.01528 * (300.0 / vx)) * (300.0 / vx) =
      e * 10 * 18.01528 / (0.01 * 8.31451) := by
    field_simp
    norm_num
    ring
  have hw : ∀ q : ℝ, (m ∈ ["R22", "R22SD", "R23", "R23SD", "R24"] ∧ q = 4.615228e-3 ∨ q = 1 / 217.0 ∨ q = 1 / 216.68) →
      0 ≤ e * 10 * 18.01528 / (0.01 * 8.31451) * q ∧
      0 < (pdry + e) * 10.0 - e * 10 * 18.01528 / (0.01 * 8.31451) * q := by
    intro q hq
    have hb : (18.01528 / (0.01 * 8.31451) : ℝ) < 216.6728 := by norm_num
    have hb0 : (0 : ℝ) < 18.01528 / (0.01 * 8.31451) := by norm_num
    have hq0 : 0 < q ∧ q ≤ 4.6152280e-3 := by
      rcases hq with ⟨-, rfl⟩ | rfl | rfl <;> norm_num
    have e1 : e * 10 * 18.01528 / (0.01 * 8.31451) * q = e * 10 * (18.01528 / (0.01 * 8.31451) * q) := by ring
    have h1 : 18.01528 / (0.01 * 8.31451) * q < 1 := by
      calc 18.01528 / (0.01 * 8.31451) * q ≤ 216.6728 * 4.6152280e-3 :=
            mul_le_mul hb.le hq0.2 hq0.1.le (by norm_num)
        _ < 1 := by norm_num
    rw [e1]
    have hc0 : 0 < 18.01528 / (0.01 * 8.31451) * q := mul_pos hb0 hq0.1
    refine ⟨by positivity, ?_⟩
    have : e * 10 * (18.01528 / (0.01 * 8.31451) * q) ≤ e * 10 := by nlinarith
    rcases he.eq_or_lt with rfl | he'
    · norm_num; simpa using hpe
    · have : e * 10 * (18.01528 / (0.01 * 8.31451) * q) < e * 10 := by nlinarith
      norm_num at this ⊢
      linarith
  have hden : 0 < (oxyAir m x wb pdry vx e).den ∧ 0 < (oxyAir m x wb pdry vx e).presda := by
    have kq (q : ℝ) : q * (e * 10.0 / (0.01 * 8.314510 / 18.01528 * (300.0 / vx))) * (300.0 / vx) =
        e * 10 * 18.01528 / (0.01 * 8.31451) * q := by rw [mul_assoc, key, mul_comm]
    have kd (q : ℝ) : e * 10.0 / (0.01 * 8.314510 / 18.01528 * (300.0 / vx)) * (300.0 / vx) / q =
        e * 10 * 18.01528 / (0.01 * 8.31451) * (1 / q) := by rw [key, mul_one_div]
    obtain ⟨w, hw0, hwp, heq⟩ : ∃ w, 0 ≤ w ∧ 0 < (pdry + e) * 10.0 - w ∧
        (if m ∈ ["R22", "R22SD", "R23", "R23SD", "R24"] then
            4.615228e-3 * (e * 10.0 / (0.01 * 8.314510 / 18.01528 * (300.0 / vx))) * (300.0 / vx)
          else if m ∈ ["R03", "R16", "R17", "R18", "R98"] then
            e * 10.0 / (0.01 * 8.314510 / 18.01528 * (300.0 / vx)) * (300.0 / vx) / 217.0
          else e * 10.0 / (0.01 * 8.314510 / 18.01528 * (300.0 / vx)) * (300.0 / vx) / 216.68) = w := by
      refine ⟨_, ?_, ?_, rfl⟩
      · split_ifs with h1
        · rw [kq]; exact (hw _ (Or.inl ⟨h1, rfl⟩)).1
        · rw [kd]; exact (hw _ (Or.inr (Or.inl rfl))).1
        · rw [kd]; exact (hw _ (Or.inr (Or.inr rfl))).1
      · split_ifs with h1
        · rw [kq]; exact (hw _ (Or.inl ⟨h1, rfl⟩)).2
        · rw [kd]; exact (hw _ (Or.inr (Or.inl rfl))).2
        · rw [kd]; exact (hw _ (Or.inr (Or.inr rfl))).2
    simp only [oxyAir, heq, hth]
    refine ⟨?_, hwp⟩
    split_ifs
    · positivity
    · positivity
    · positivity
    · positivity
  have hth' : (oxyAir m x wb pdry vx e).th = vx := hth
  have hpe1 : 0 < (oxyAir m x wb pdry vx e).pe1 := by
    have := hden.1
    have e1 : (oxyAir m x wb pdry vx e).pe1 = if m ∈ ["R23", "R23SD"] then 0.99 * (oxyAir m x wb pdry vx e).den
      else (oxyAir m x wb pdry vx e).den := rfl
    rw [e1]
    split_ifs
    · positivity
    · exact this
  exact ⟨by rw [hth']; exact hv, hden.2, hden.1, hpe1, mul_pos hwb hden.1⟩

theorem oxyShape_some (f fcen : ℝ) {width : ℝ} (hw : 0 < width) (g y : ℝ) :
    oxyShape f fcen width g y = some ((width * g + (f - fcen) * y) / ((f - fcen) ^ 2 + width * width)
      + (width * g - (f + fcen) * y) / ((f + fcen) ^ 2 + width * width)) := by
  unfold oxyShape
  rw [npDiv_of_ne (by positivity), npDiv_of_ne (by positivity)]
  rfl

theorem oxyLoop_some {n : ℕ} (f : ℝ) {fl : ℕ → ℝ} (str : ℕ → ℝ) {shape : ℕ → Option ℝ} {sh : ℕ → ℝ} (s : ℝ)
    (hfl : ∀ k < n, 0 < fl k) (hs : ∀ k < n, shape k = some (sh k)) :
    oxyLoop n f fl str shape (some s) = some (s + ∑ k ∈ Finset.range n, str k * sh k * (f / fl k) ^ 2) := by
  unfold oxyLoop
  induction n with
  | zero => simp
  | succ n ih =>
    rw [forRange_succ (Nat.zero_le n), ih (fun k hk => hfl k (by omega)) (fun k hk => hs k (by omega)),
      Finset.sum_range_succ]
    simp only [hs n (by omega), npDiv_of_ne (hfl n (by omega)).ne', bind, Option.bind, pure]
    rw [← add_assoc]

theorem oxyNonres_some (c : ℝ) {A : OxyAir} {f : ℝ} (hf : 0 < f) (ht : 0 < A.th) :
    oxyNonres c A f = some (c * f * f * A.dfnr / (A.th * (f * f + A.dfnr * A.dfnr))) := by
  unfold oxyNonres
  rw [npDiv_of_ne]
  have : 0 ≤ A.dfnr * A.dfnr := mul_self_nonneg _
  positivity

/-- The oxygen routine only looks at the attributes in `oxyReads`. -/
theorem o2_congr {m : String} {ll ll' : LineList} (h : ∀ a ∈ oxyReads m, attr ll a = attr ll' a) (p vx e f : ℝ) :
    o2Absorption m ll p vx e f = o2Absorption m ll' p vx e f := by
  have hc (a : String) (ha : a ∈ oxyCommon) : attr ll a = attr ll' a := h a (by simp [oxyReads, ha])
  have hsum (A : OxyAir) (wb : ℝ) : oxySum m ll A wb f = oxySum m ll' A wb f := by
    have hx (a : String) (ha : a ∈ oxyExtra m) : attr ll a = attr ll' a := h a (by simp [oxyReads, ha])
    unfold oxySum
    split_ifs with h0 h1 h2 h3 h4 h1 h2 h3 h4
    all_goals first
      | (unfold oxySumOld
         have : oxyExtra m = ["y300", "v"] := if_pos (by simp only [List.mem_cons, List.not_mem_nil, or_false] at *; tauto)
         rw [this] at hx
         rw [hc "len(f)" (by decide), hc "f" (by decide), hc "s300" (by decide), hc "be" (by decide),
          hc "w300" (by decide), hx "y300" (by decide), hx "v" (by decide)])
      | (unfold oxySumMid
         have : oxyExtra m = ["y300", "v"] := if_pos (by simp only [List.mem_cons, List.not_mem_nil, or_false] at *; tauto)
         rw [this] at hx
         rw [hc "len(f)" (by decide), hc "f" (by decide), hc "s300" (by decide), hc "be" (by decide),
          hc "w300" (by decide), hx "y300" (by decide), hx "v" (by decide)])
      | (subst_vars
         have hx (a : String) (ha : a ∈ ["y300", "y1", "g0", "g1", "dnu0", "dnu1"]) : attr ll a = attr ll' a := hx a (by
          revert ha; simp [oxyExtra])
         unfold oxySum23
         rw [hc "len(f)" (by decide), hc "f" (by decide), hc "s300" (by decide), hc "be" (by decide),
          hc "w300" (by decide), hx "y300" (by decide), hx "y1" (by decide), hx "g0" (by decide), hx "g1" (by decide),
          hx "dnu0" (by decide), hx "dnu1" (by decide)])
      | (subst_vars
         have hx (a : String) (ha : a ∈ ["y300", "y1", "g0", "g1", "dnu0", "dnu1"]) : attr ll a = attr ll' a := hx a (by
          revert ha; simp [oxyExtra])
         unfold oxySum24
         rw [hc "len(f)" (by decide), hc "f" (by decide), hc "s300" (by decide), hc "be" (by decide),
          hc "w300" (by decide), hx "y300" (by decide), hx "y1" (by decide), hx "g0" (by decide), hx "g1" (by decide),
          hx "dnu0" (by decide), hx "dnu1" (by decide)])
      | (unfold oxySumNew
         have e1 : m ∉ ["R03", "R98", "R17", "R18", "R19", "R19SD"] := by
          simp only [List.mem_cons, List.not_mem_nil, or_false] at *; tauto
         have e2 : m ∉ ["R23", "R24"] := by
          simp only [List.mem_cons, List.not_mem_nil, or_false] at *; tauto
         have : oxyExtra m = ["y0", "y1", "g0", "g1", "dnu0", "dnu1"] := by rw [oxyExtra, if_neg e1, if_neg e2]
         rw [this] at hx
         rw [hc "len(f)" (by decide), hc "f" (by decide), hc "s300" (by decide), hc "be" (by decide),
          hc "w300" (by decide), hx "y0" (by decide), hx "y1" (by decide), hx "g0" (by decide), hx "g1" (by decide),
          hx "dnu0" (by decide), hx "dnu1" (by decide)])
  unfold o2Absorption
  simp only [hc "x" (by decide), hc "wb300" (by decide), hsum]

theorem cSqrt_sq (z : ℂ) : cSqrt z * cSqrt z = z := by
  unfold cSqrt
  by_cases hz : z = 0
  · simp [hz]
  rw [← Complex.cpow_add _ _ hz]
  norm_num

theorem cSqrt_re_nonneg (z : ℂ) : 0 ≤ (cSqrt z).re := by
  unfold cSqrt
  by_cases hz : z = 0
  · simp [hz]
  rw [Complex.cpow_def_of_ne_zero hz, Complex.exp_re]
  apply mul_nonneg (Real.exp_pos _).le
  apply Real.cos_nonneg_of_neg_pi_div_two_le_of_le
  · have : (Complex.log z * (1 / 2)).im = z.arg / 2 := by
      simp [Complex.mul_im, Complex.log_im]; ring
    rw [this]
    linarith [Complex.neg_pi_lt_arg z]
  · have : (Complex.log z * (1 / 2)).im = z.arg / 2 := by
      simp [Complex.mul_im, Complex.log_im]; ring
    rw [this]
    linarith [Complex.arg_le_pi z]

theorem cSqrt_re_ge {z : ℂ} {c : ℝ} (h : c ^ 2 ≤ z.re) : c ≤ (cSqrt z).re := by
  have h1 := congrArg Complex.re (cSqrt_sq z)
  rw [Complex.mul_re] at h1
  have h2 := cSqrt_re_nonneg z
  by_contra hc
  push Not at hc
  nlinarith [mul_self_nonneg (cSqrt z).im]

theorem oxySD_some {width : ℝ} (hw : 0 < width) (df y : ℝ) : ∃ s, oxySD width df y = some s := by
  have hw2 : ((0.076 * width : ℝ) : ℂ) ≠ 0 := by
    rw [Complex.ofReal_ne_zero]
    positivity
  unfold oxySD
  simp only [cDiv, if_neg hw2, bind, Option.bind]
  have hre : 3 ≤ (cSqrt (⟨width - 1.5 * (0.076 * width), df⟩ / ((0.076 * width : ℝ) : ℂ))).re := by
    apply cSqrt_re_ge
    rw [Complex.div_ofReal_re]
    rw [le_div_iff₀ (by positivity)]
    norm_num
    linarith
  obtain ⟨w, hw, -⟩ := dcerror_pos (-(cSqrt (⟨width - 1.5 * (0.076 * width), df⟩ / ((0.076 * width : ℝ) : ℂ))).im)
    (y := (cSqrt (⟨width - 1.5 * (0.076 * width), df⟩ / ((0.076 * width : ℝ) : ℂ))).re) (by linarith)
  simp only [hw]
  exact ⟨_, rfl⟩

theorem oxyShape2_some (k : ℕ) (f fcen : ℝ) {width : ℝ} (hw : 0 < width) (g y : ℝ) :
    ∃ s, oxyShape2 k f fcen width g y = some s := by
  obtain ⟨s, hs⟩ := oxySD_some hw (f - fcen) y
  have h1 : (f - fcen) ^ 2 + width ^ 2 ≠ 0 := by positivity
  have h2 : (f + fcen) ^ 2 + width ^ 2 ≠ 0 := by positivity
  unfold oxyShape2
  simp only [hs, npDiv_of_ne h1, npDiv_of_ne h2, bind, Option.bind, pure]
  split_ifs
  · exact ⟨_, rfl⟩
  · exact ⟨_, rfl⟩

theorem sumMid_pos {n : ℕ} (hn : 1 < n) {g : ℕ → ℝ} (hg : ∀ k < n, 0 < g k) : 0 < sumMid n g := by
  unfold sumMid
  have key : ∀ m, m ≤ n → 0 ≤ forRange 0 m (fun k s => if 0 < k ∧ k ≤ 37 then s + g k else s) (0 : ℝ) ∧
      (1 < m → 0 < forRange 0 m (fun k s => if 0 < k ∧ k ≤ 37 then s + g k else s) (0 : ℝ)) := by
    intro m
    induction m with
    | zero => intro _; simp [forRange_of_le]
    | succ m ih =>
      intro hm
      obtain ⟨h0, h1⟩ := ih (by omega)
      have hp := hg m (by omega)
      rw [forRange_succ (Nat.zero_le m)]
      constructor
      · split_ifs <;> linarith
      · intro h2
        by_cases hm1 : m = 1
        · subst hm1
          rw [if_pos (by norm_num)]
          linarith
        · have := h1 (by omega)
          split_ifs <;> linarith
  exact (key n le_rfl).2 hn

/-- A loop whose body always yields a number yields a number. -/
theorem forRange_isSome {n : ℕ} {f : ℕ → Option ℝ → Option ℝ} (h : ∀ k < n, ∀ s, ∃ t, f k (some s) = some t) (s : ℝ) :
    ∃ t, forRange 0 n f (some s) = some t := by
  induction n with
  | zero => exact ⟨s, by simp [forRange_of_le]⟩
  | succ n ih =>
    obtain ⟨t, ht⟩ := ih fun k hk => h k (by omega)
    obtain ⟨u, hu⟩ := h n (by omega) t
    exact ⟨u, by rw [forRange_succ (Nat.zero_le n), ht, hu]⟩

/-- With a shipped table the line sum is a number. -/
theorem oxySum_some {m : String} {F : LineList} (hF : oxygenFile m = some F) (old : LineList)
    (G : GoodOxy (reloadLL F old)) {p vx e f : ℝ} (hp : 0 ≤ p) (hv : 0 < vx) (he : 0 ≤ e) (hpe : 0 < p + e) (hf : 0 < f) :
    ∃ s, oxySum m (reloadLL F old) (oxyAir m (G.x 0) (G.wb300 0) p vx e) (G.wb300 0) f = .ok (some s) := by
  obtain ⟨ht, hpd, hd, hp1, hdf⟩ := oxyAir_props m (G.x 0) (G.wb300 0) hp hv he hpe G.pwb
  generalize oxyAir m (G.x 0) (G.wb300 0) p vx e = A at *
  have hread := oxyFile_reads hF old
  have hx (a : String) (ha : a ∈ oxyExtra m) : ∃ v, attr (reloadLL F old) a = .ok v := by
    obtain ⟨v, -, hv⟩ := hread a (by simp [oxyReads, ha])
    exact ⟨v, attr_some hv⟩
  obtain ⟨s0, hs0⟩ : ∃ s, (if m ∈ oxyApart then some 0 else oxyNonres 1.584e-17 A f : Option ℝ) = some s := by
    split_ifs
    · exact ⟨_, rfl⟩
    · exact ⟨_, oxyNonres_some _ hf ht⟩
  have loop (str : ℕ → ℝ) (sh : ℕ → Option ℝ) (h : ∀ k < G.n, ∃ t, sh k = some t) :
      ∃ t, oxyLoop G.n f G.f str sh (some s0) = some t := by
    unfold oxyLoop
    refine forRange_isSome (fun k hk s => ?_) s0
    obtain ⟨t, ht⟩ := h k hk
    simp only [ht, npDiv_of_ne (G.pos k hk).1.ne', bind, Option.bind, pure]
    exact ⟨_, rfl⟩
  unfold oxySum
  simp only [hs0]
  have good (ll : LineList) (a : String) (v : Val) (h : ll a = some v) := attr_some h
  split_ifs with h1 h2 h3 h4
  · have : oxyExtra m = ["y300", "v"] := if_pos (by simp only [List.mem_cons, List.not_mem_nil, or_false] at *; tauto)
    rw [this] at hx
    obtain ⟨y, hy⟩ := hx "y300" (by simp)
    obtain ⟨v, hv⟩ := hx "v" (by simp)
    unfold oxySumOld
    simp only [attr_some G.hn, attr_some G.hf, attr_some G.hs300, attr_some G.hbe, attr_some G.hw300, hy, hv, bind,
      Except.bind, pure, Except.pure, numLines_nat, Except.ok.injEq]
    refine loop _ _ fun k hk => ⟨_, oxyShape_some _ _ (mul_pos (G.pos k hk).2.2 hd) _ _⟩
  · have : oxyExtra m = ["y300", "v"] := if_pos (by simp only [List.mem_cons, List.not_mem_nil, or_false] at *; tauto)
    rw [this] at hx
    obtain ⟨y, hy⟩ := hx "y300" (by simp)
    obtain ⟨v, hv⟩ := hx "v" (by simp)
    unfold oxySumMid
    simp only [attr_some G.hn, attr_some G.hf, attr_some G.hs300, attr_some G.hbe, attr_some G.hw300, hy, hv, bind,
      Except.bind, pure, Except.pure, numLines_nat, Except.ok.injEq]
    refine loop _ _ fun k hk => ⟨_, oxyShape_some _ _ (mul_pos (G.pos k hk).2.2 hd) _ _⟩
  · subst h3
    have hx (a : String) (ha : a ∈ ["y300", "y1", "g0", "g1", "dnu0", "dnu1"]) := hx a (by
      revert ha; simp [oxyExtra])
    obtain ⟨y, hy⟩ := hx "y300" (by simp)
    obtain ⟨y1, hy1⟩ := hx "y1" (by simp)
    obtain ⟨g0, hg0⟩ := hx "g0" (by simp)
    obtain ⟨g1, hg1⟩ := hx "g1" (by simp)
    obtain ⟨d0, hd0⟩ := hx "dnu0" (by simp)
    obtain ⟨d1, hd1⟩ := hx "dnu1" (by simp)
    unfold oxySum23
    simp only [attr_some G.hn, attr_some G.hf, attr_some G.hs300, attr_some G.hbe, attr_some G.hw300, hy, hy1, hg0, hg1,
      hd0, hd1, bind, Except.bind, pure, Except.pure, numLines_nat, Except.ok.injEq]
    have ha : 0 < sumMid G.n fun k => G.s300 k * Real.exp (-G.be k * A.th1) / G.f k ^ 2 :=
      sumMid_pos (by have := G.lines; omega) fun k hk => by
        obtain ⟨h1, h2, -⟩ := G.pos k hk
        positivity
    have hq : f * f + A.dfnr * A.dfnr ≠ 0 := by positivity
    simp only [npDiv_of_ne ha.ne', npDiv_of_ne hq, Option.bind]
    refine forRange_isSome (fun k hk s => ?_) _
    obtain ⟨sh, hsh⟩ := oxyShape2_some k f (G.f k + A.pe2 * (d0 k + d1 k * A.th1)) (mul_pos (G.pos k hk).2.2 hd)
      (if 0 < k ∧ k ≤ 37 then 1 + A.pe2 * ((g0 k + g1 k * A.th1) -
        (sumMid G.n fun k => G.s300 k * Real.exp (-G.be k * A.th1) / G.f k ^ 2 * (g0 k + g1 k * A.th1)) /
        sumMid G.n fun k => G.s300 k * Real.exp (-G.be k * A.th1) / G.f k ^ 2) else 1)
      (A.pe1 * (y k + y1 k * A.th1))
    simp only [hsh]
    exact ⟨_, rfl⟩
  · subst h4
    have hx (a : String) (ha : a ∈ ["y300", "y1", "g0", "g1", "dnu0", "dnu1"]) := hx a (by
      revert ha; simp [oxyExtra])
    obtain ⟨y, hy⟩ := hx "y300" (by simp)
    obtain ⟨y1, hy1⟩ := hx "y1" (by simp)
    obtain ⟨g0, hg0⟩ := hx "g0" (by simp)
    obtain ⟨g1, hg1⟩ := hx "g1" (by simp)
    obtain ⟨d0, hd0⟩ := hx "dnu0" (by simp)
    obtain ⟨d1, hd1⟩ := hx "dnu1" (by simp)
    unfold oxySum24
    simp only [attr_some G.hn, attr_some G.hf, attr_some G.hs300, attr_some G.hbe, attr_some G.hw300, hy, hy1, hg0, hg1,
      hd0, hd1, bind, Except.bind, pure, Except.pure, numLines_nat, Except.ok.injEq]
    have hapos : ∀ k < G.n, 0 < G.s300 k * Real.exp (-G.be k * A.th1) * A.th / G.f k ^ 2 := fun k hk => by
      obtain ⟨h1, h2, -⟩ := G.pos k hk
      positivity
    have ha := sumMid_pos (by have := G.lines; omega) hapos
    have ha2 : 0 < sumMid G.n fun k => (G.s300 k * Real.exp (-G.be k * A.th1) * A.th / G.f k ^ 2) ^ 2 :=
      sumMid_pos (by have := G.lines; omega) fun k hk => pow_pos (hapos k hk) 2
    have hw : 0 < G.wb300 0 * A.pe1 := mul_pos G.pwb hp1
    have hq : f * f + G.wb300 0 * A.pe1 * (G.wb300 0 * A.pe1) ≠ 0 := by positivity
    have h2 : 2 * (sumMid G.n fun k => G.s300 k * Real.exp (-G.be k * A.th1) * A.th / G.f k ^ 2) ≠ 0 := by positivity
    simp only [npDiv_of_ne h2, npDiv_of_ne ha2.ne', npDiv_of_ne hq, Option.bind]
    refine forRange_isSome (fun k hk s => ?_) _
    simp only [npDiv_of_ne (G.pos k hk).1.ne']
    have := oxyShape2_some k f (G.f k + A.pe2 * (d0 k + d1 k * A.th1)) (mul_pos (G.pos k hk).2.2 hp1)
    generalize hgf : (if decide (0 < k ∧ k ≤ 37) = true then _ else (1 : ℝ)) = gf
    generalize hyk : A.pe1 * (if decide (0 < k ∧ k ≤ 37) = true then _ else _) = yk
    obtain ⟨sh, hsh⟩ := this gf yk
    simp only [hsh]
    exact ⟨_, rfl⟩
  · have e1 : m ∉ ["R03", "R98", "R17", "R18", "R19", "R19SD"] := by
      simp only [List.mem_cons, List.not_mem_nil, or_false] at *; tauto
    have e2 : m ∉ ["R23", "R24"] := by
      simp only [List.mem_cons, List.not_mem_nil, or_false] at *; tauto
    have : oxyExtra m = ["y0", "y1", "g0", "g1", "dnu0", "dnu1"] := by rw [oxyExtra, if_neg e1, if_neg e2]
    rw [this] at hx
    obtain ⟨y, hy⟩ := hx "y0" (by simp)
    obtain ⟨y1, hy1⟩ := hx "y1" (by simp)
    obtain ⟨g0, hg0⟩ := hx "g0" (by simp)
    obtain ⟨g1, hg1⟩ := hx "g1" (by simp)
    obtain ⟨d0, hd0⟩ := hx "dnu0" (by simp)
    obtain ⟨d1, hd1⟩ := hx "dnu1" (by simp)
    unfold oxySumNew
    simp only [attr_some G.hn, attr_some G.hf, attr_some G.hs300, attr_some G.hbe, attr_some G.hw300, hy, hy1, hg0, hg1,
      hd0, hd1, bind, Except.bind, pure, Except.pure, numLines_nat, Except.ok.injEq]
    refine loop _ _ fun k hk => ⟨_, oxyShape_some _ _ (mul_pos (G.pos k hk).2.2 hd) _ _⟩

end Verif.Lemmas
