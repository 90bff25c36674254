import Verif.Lemmas.Oxygen
import Verif.Lemmas.WaterFormula
import Verif.Spec.OxygenFormula

/-!
# The oxygen routine in closed form
-/

namespace Verif.Lemmas

open Verif.Model Verif.Py Verif.Spec

/-- Columns of an oxygen line list with what a model reads. -/
structure OxyColumns (m : String) (ll : LineList) (c : String → ℕ → ℝ) (n : ℕ) : Prop where
  read : ∀ a ∈ oxyReads m, ll a = some (c a)
  len : c "len(f)" = fun _ => (n : ℝ)
  pos : ∀ k < n, 0 < c "f" k ∧ 0 < c "s300" k ∧ 0 < c "w300" k
  wb : 0 < c "wb300" 0
  lines : 37 < n

theorem OxyColumns.attr {m : String} {ll : LineList} {c : String → ℕ → ℝ} {n : ℕ} (C : OxyColumns m ll c n) {a : String}
    (ha : a ∈ oxyReads m) : Model.attr ll a = .ok (c a) := attr_some (C.read a ha)

theorem OxyColumns.common {m : String} {ll : LineList} {c : String → ℕ → ℝ} {n : ℕ} (C : OxyColumns m ll c n)
    {a : String} (ha : a ∈ oxyCommon) : Model.attr ll a = .ok (c a) := C.attr (by simp [oxyReads, ha])

theorem oxyColumns_of_file {m : String} {F : LineList} (hF : oxygenFile m = some F) (old : LineList)
    {c : String → ℕ → ℝ} (hc : ∀ a v, F a = some v → c a = v) {n : ℕ} (hn : F "len(f)" = some fun _ => (n : ℝ)) :
    OxyColumns m (reloadLL F old) c n := by
  obtain ⟨G⟩ := goodOxy_of_file hF old
  have key (a : String) (ha : a ∈ oxyReads m) : reloadLL F old a = some (c a) := by
    obtain ⟨v, h1, h2⟩ := oxyFile_reads hF old a ha
    rw [h2, hc a v h1]
  have key' {a : String} (ha : a ∈ oxyCommon) {v : Val} (hv : reloadLL F old a = some v) : c a = v := by
    rw [key a (by simp [oxyReads, ha]), Option.some_inj] at hv
    exact hv
  have hl : c "len(f)" = fun _ => (n : ℝ) := hc _ _ hn
  have hGn : G.n = n := by
    have := key' (by decide) G.hn
    rw [hl] at this
    exact_mod_cast (congrFun this 0).symm
  refine ⟨key, hl, ?_, ?_, hGn ▸ G.lines⟩
  · intro i hi
    rw [key' (by decide) G.hf, key' (by decide) G.hs300, key' (by decide) G.hw300]
    exact G.pos i (hGn ▸ hi)
  · rw [key' (by decide) G.hwb]
    exact G.pwb

theorem oxy_names {m : String} {F : LineList} (hF : oxygenFile m = some F) : m ∈ ["R98", "R03", "R16", "R17", "R18", "R19",
    "R19SD", "R20", "R20SD", "R22", "R23", "R24"] := by
  obtain ⟨T, hT, -⟩ := oxygenFile_some hF
  have : m ∈ oxygenGroups.map (·.1) := List.mem_map.2 ⟨_, hT, rfl⟩
  revert this
  simp only [oxygenGroups, List.map_cons, List.map_nil, List.mem_cons, List.not_mem_nil, or_false]
  tauto

theorem oxyAir_formula {m : String} {F : LineList} (hF : oxygenFile m = some F) (x wb p e : ℝ) {vx : ℝ} (hv : 0 < vx) :
    (oxyAir m x wb p vx e).th = vx ∧ (oxyAir m x wb p vx e).th1 = vx - 1 ∧ (oxyAir m x wb p vx e).b = vx ^ x ∧
    (oxyAir m x wb p vx e).pres = 10 * p + 10 * e ∧
    (oxyAir m x wb p vx e).presda = 10 * p + 10 * e - oxyVapour m (300 / vx) e ∧
    (oxyAir m x wb p vx e).den = broadening m x vx (10 * p + 10 * e - oxyVapour m (300 / vx) e) (oxyVapour m (300 / vx) e) ∧
    (oxyAir m x wb p vx e).dfnr = wb * broadening m x vx (10 * p + 10 * e - oxyVapour m (300 / vx) e)
      (oxyVapour m (300 / vx) e) ∧
    (oxyAir m x wb p vx e).pe1 = (if m = "R23" then 0.99 else 1) * (oxyAir m x wb p vx e).den ∧
    (oxyAir m x wb p vx e).pe2 = (oxyAir m x wb p vx e).pe1 ^ 2 := by
  have hm := oxy_names hF
  have ht : (300.0 : ℝ) / vx = 300 / vx := by norm_num
  have hth : (300.0 : ℝ) / (300 / vx) = vx := by norm_num
  have hr : e * 10.0 / (0.01 * 8.314510 / 18.01528 * (300 / vx)) = vapourDensity (300 / vx) e := by
    have h3 : (300 / vx : ℝ) ≠ 0 := by positivity
    unfold vapourDensity
    rw [div_eq_div_iff (by positivity) (by positivity)]
    generalize 300 / vx = T
    norm_num
    ring
  have hp : (p + e) * 10.0 = 10 * p + 10 * e := by norm_num; ring
  have hpw : (if m ∈ ["R22", "R22SD", "R23", "R23SD", "R24"] then 4.615228e-3 * vapourDensity (300 / vx) e * (300 / vx)
      else if m ∈ ["R03", "R16", "R17", "R18", "R98"] then vapourDensity (300 / vx) e * (300 / vx) / 217.0
      else vapourDensity (300 / vx) e * (300 / vx) / 216.68) = oxyVapour m (300 / vx) e := by
    unfold oxyVapour
    simp only [List.mem_cons, List.not_mem_nil, or_false] at hm
    rcases hm with rfl | rfl | rfl | rfl | rfl | rfl | rfl | rfl | rfl | rfl | rfl | rfl <;> simp <;>
      generalize vapourDensity (300 / vx) e = d <;> generalize 300 / vx = T <;> norm_num <;> ring
  have hd : (oxyAir m x wb p vx e).den = broadening m x vx (10 * p + 10 * e - oxyVapour m (300 / vx) e)
      (oxyVapour m (300 / vx) e) := by
    unfold oxyAir
    simp only [ht, hr, hth, hp, hpw]
    unfold broadening
    generalize oxyVapour m (300 / vx) e = w
    simp only [List.mem_cons, List.not_mem_nil, or_false] at hm
    rcases hm with rfl | rfl | rfl | rfl | rfl | rfl | rfl | rfl | rfl | rfl | rfl | rfl <;> simp <;> norm_num <;> ring
  have hpda : (oxyAir m x wb p vx e).presda = 10 * p + 10 * e - oxyVapour m (300 / vx) e := by
    unfold oxyAir
    simp only [ht, hr, hp, hpw]
  refine ⟨?_, ?_, ?_, hp, hpda, hd, ?_, ?_, ?_⟩
  · unfold oxyAir; simp only [ht, hth]
  · unfold oxyAir; simp only [ht, hth]; norm_num
  · unfold oxyAir; simp only [ht, hth]
  · rw [← hd]; rfl
  · have : (oxyAir m x wb p vx e).pe1 = if m ∈ ["R23", "R23SD"] then 0.99 * (oxyAir m x wb p vx e).den
      else (oxyAir m x wb p vx e).den := rfl
    rw [this]
    simp only [List.mem_cons, List.not_mem_nil, or_false] at hm
    rcases hm with rfl | rfl | rfl | rfl | rfl | rfl | rfl | rfl | rfl | rfl | rfl | rfl <;> simp
  · rw [sq]; rfl

theorem oxyShape_formula (f fcen : ℝ) {width : ℝ} (hw : 0 < width) (g y : ℝ) :
    oxyShape f fcen width g y = some (mixedLine width g y fcen f) := by
  rw [oxyShape_some f fcen hw g y]
  unfold mixedLine
  congr 1
  ring

/-- Line sums of all models but the two newest. -/
theorem oxySum_formula {m : String} (hm : m ∈ ["R98", "R03", "R16", "R17", "R18", "R19", "R19SD", "R20", "R20SD", "R22"])
    {ll : LineList} {c : String → ℕ → ℝ} {n : ℕ} (C : OxyColumns m ll c n) {A : OxyAir} {θ P d f wb : ℝ} (hf : 0 < f)
    (hθ : 0 < θ) (hd : 0 < d) (e1 : A.th = θ) (e2 : A.th1 = θ - 1) (e3 : A.b = θ ^ c "x" 0) (e4 : A.pres = P)
    (e5 : A.den = d) (e6 : A.dfnr = c "wb300" 0 * d) (e7 : A.pe2 = d ^ 2) :
    oxySum m ll A wb f = .ok (some (oxyLines m c n θ P d f +
      (open Classical in if separateBand m then 0 else debye 1.584e-17 θ (c "wb300" 0 * d) f))) := by
  have hs0 : (if m ∈ oxyApart then some 0 else oxyNonres 1.584e-17 A f : Option ℝ) =
      some (open Classical in if separateBand m then 0 else debye 1.584e-17 θ (c "wb300" 0 * d) f) := by
    have : m ∈ oxyApart ↔ separateBand m := by
      unfold separateBand oxyApart
      simp only [List.mem_cons, List.not_mem_nil, or_false]
      tauto
    by_cases h : separateBand m
    · rw [if_pos (this.2 h), if_pos h]
    · rw [if_neg (fun h' => h (this.1 h')), if_neg h, oxyNonres_some _ hf (e1 ▸ hθ), e1, e6]
      unfold debye
      congr 1
      ring
  have hstr (k : ℕ) : c "s300" k * Real.exp (-c "be" k * A.th1) = oxyStrength c θ k := by
    unfold oxyStrength
    rw [e2]
    congr 2
    ring
  have hw (k : ℕ) (hk : k < n) : 0 < c "w300" k * A.den := mul_pos (C.pos k hk).2.2 (e5 ▸ hd)
  have fin {s0 : ℝ} {sh : ℕ → Option ℝ} (h : ∀ k < n, sh k = some (mixedLine (c "w300" k * d) (mixing2 m c θ d k)
      (mixing m c θ P d k) (oxyCentre m c θ d k) f)) :
      oxyLoop n f (c "f") (fun k => oxyStrength c θ k) sh (some s0) = some (oxyLines m c n θ P d f + s0) := by
    rw [oxyLoop_some f _ s0 (fun k hk => (C.pos k hk).1) h, Option.some_inj, add_comm]
    congr 1
    unfold oxyLines
    refine Finset.sum_congr rfl fun k _ => ?_
    ring
  unfold oxySum
  simp only [hs0]
  by_cases hA : m ∈ ["R03", "R98"]
  · rw [if_pos hA]
    have hx (a : String) (ha : a ∈ ["y300", "v"]) : attr ll a = .ok (c a) := C.attr (by
      simp only [List.mem_cons, List.not_mem_nil, or_false] at hA ha
      rcases hA with rfl | rfl <;> rcases ha with rfl | rfl <;> decide +kernel)
    unfold oxySumOld
    simp only [C.common (a := "len(f)") (by decide), C.common (a := "f") (by decide), C.common (a := "s300") (by decide),
      C.common (a := "be") (by decide), C.common (a := "w300") (by decide), hx "y300" (by simp), hx "v" (by simp),
      bind, Except.bind, pure, Except.pure, C.len, numLines_nat, hstr]
    rw [Except.ok.injEq]
    refine fin fun k hk => ?_
    rw [oxyShape_formula _ _ (hw k hk), e2, e3, e4, e5, Option.some_inj]
    simp only [List.mem_cons, List.not_mem_nil, or_false] at hA
    rcases hA with rfl | rfl <;> simp [mixing2, mixing, oxyCentre, secondOrder] <;> congr 1 <;>
      norm_num [-mul_eq_mul_right_iff, -mul_eq_mul_left_iff] <;> ring
  rw [if_neg hA]
  by_cases hB : m ∈ ["R17", "R18", "R19", "R19SD"]
  · rw [if_pos hB]
    have hx (a : String) (ha : a ∈ ["y300", "v"]) : attr ll a = .ok (c a) := C.attr (by
      simp only [List.mem_cons, List.not_mem_nil, or_false] at hB ha
      rcases hB with rfl | rfl | rfl | rfl <;> rcases ha with rfl | rfl <;> decide +kernel)
    unfold oxySumMid
    simp only [C.common (a := "len(f)") (by decide), C.common (a := "f") (by decide), C.common (a := "s300") (by decide),
      C.common (a := "be") (by decide), C.common (a := "w300") (by decide), hx "y300" (by simp), hx "v" (by simp),
      bind, Except.bind, pure, Except.pure, C.len, numLines_nat, hstr]
    rw [Except.ok.injEq]
    refine fin fun k hk => ?_
    rw [oxyShape_formula _ _ (hw k hk), e2, e5, Option.some_inj]
    simp only [List.mem_cons, List.not_mem_nil, or_false] at hB
    rcases hB with rfl | rfl | rfl | rfl <;> simp [mixing2, mixing, oxyCentre, secondOrder]
  have hN : m ∈ ["R16", "R20", "R20SD", "R22"] := by
    simp only [List.mem_cons, List.not_mem_nil, or_false] at hm hA hB ⊢
    tauto
  have h23 : m ≠ "R23" ∧ m ≠ "R24" := by
    simp only [List.mem_cons, List.not_mem_nil, or_false] at hN
    rcases hN with rfl | rfl | rfl | rfl <;> decide
  rw [if_neg hB, if_neg h23.1, if_neg h23.2]
  have hx (a : String) (ha : a ∈ ["y0", "y1", "g0", "g1", "dnu0", "dnu1"]) : attr ll a = .ok (c a) := C.attr (by
    simp only [List.mem_cons, List.not_mem_nil, or_false] at hN ha
    rcases hN with rfl | rfl | rfl | rfl <;> rcases ha with rfl | rfl | rfl | rfl | rfl | rfl <;> decide +kernel)
  unfold oxySumNew
  simp only [C.common (a := "len(f)") (by decide), C.common (a := "f") (by decide), C.common (a := "s300") (by decide),
    C.common (a := "be") (by decide), C.common (a := "w300") (by decide), hx "y0" (by simp), hx "y1" (by simp),
    hx "g0" (by simp), hx "g1" (by simp), hx "dnu0" (by simp), hx "dnu1" (by simp),
    bind, Except.bind, pure, Except.pure, C.len, numLines_nat, hstr]
  rw [Except.ok.injEq]
  refine fin fun k hk => ?_
  rw [oxyShape_formula _ _ (hw k hk), e2, e5, e7, Option.some_inj]
  simp only [List.mem_cons, List.not_mem_nil, or_false] at hN
  rcases hN with rfl | rfl | rfl | rfl <;> simp [mixing2, mixing, oxyCentre, secondOrder]

theorem sumMid_eq {n : ℕ} (hn : 37 < n) (g : ℕ → ℝ) : sumMid n g = ∑ k ∈ Finset.Icc 1 37, g k := by
  unfold sumMid
  have key : ∀ m, forRange 0 m (fun k s => if 0 < k ∧ k ≤ 37 then s + g k else s) (0 : ℝ) =
      ∑ k ∈ Finset.range m, if 0 < k ∧ k ≤ 37 then g k else 0 := by
    intro m
    induction m with
    | zero => simp
    | succ m ih =>
      rw [forRange_succ (Nat.zero_le m), ih, Finset.sum_range_succ]
      split_ifs <;> simp
  rw [key, ← Finset.sum_filter]
  congr 1
  ext k
  simp only [Finset.mem_filter, Finset.mem_range, Finset.mem_Icc]
  omega

theorem oxySD_formula {width : ℝ} (hw : 0 < width) (d y : ℝ) : oxySD width d y = some (speedMixed width y d) := by
  have hw2 : ((0.076 * width : ℝ) : ℂ) ≠ 0 := by
    rw [Complex.ofReal_ne_zero]
    positivity
  unfold oxySD speedMixed
  simp only [cDiv, if_neg hw2, bind, Option.bind, dcerror_sqrt _ (cSqrt_re _), pure, Option.some_inj]
  have e1 : width - 1.5 * (0.076 * width) = width - 3 / 2 * (0.076 * width) := by norm_num
  rw [e1]
  unfold cSqrt
  congr 2
  ring

theorem oxyShape2_formula (k : ℕ) (f fcen : ℝ) {width : ℝ} (hw : 0 < width) (g y : ℝ) :
    oxyShape2 k f fcen width g y = some (newLine k width g y fcen f) := by
  have h1 : (f - fcen) ^ 2 + width ^ 2 ≠ 0 := by positivity
  have h2 : (f + fcen) ^ 2 + width ^ 2 ≠ 0 := by positivity
  unfold oxyShape2 newLine mixedLine
  simp only [oxySD_formula hw, npDiv_of_ne h1, npDiv_of_ne h2, bind, Option.bind, pure]
  by_cases h : k = 0 ∧ |f - fcen| < 10 * width
  · simp only [if_pos h, Option.some_inj]
    ring
  · simp only [if_neg h, Option.some_inj]
    ring

theorem forRange_sum {n : ℕ} {step : ℕ → Option ℝ → Option ℝ} {t : ℕ → ℝ}
    (h : ∀ k < n, ∀ s, step k (some s) = some (s + t k)) (s0 : ℝ) :
    forRange 0 n step (some s0) = some (s0 + ∑ k ∈ Finset.range n, t k) := by
  induction n with
  | zero => simp
  | succ n ih =>
    rw [forRange_succ (Nat.zero_le n), ih fun k hk => h k (by omega), h n (by omega), Finset.sum_range_succ, add_assoc]

theorem forRange_clamp {n : ℕ} {step : ℕ → Option ℝ → Option ℝ} {t : ℕ → ℝ} (hn : 37 < n)
    (h : ∀ k < n, ∀ s, step k (some s) = some (if k = 37 then max (s + t k) 0 else s + t k)) (s0 : ℝ) :
    forRange 0 n step (some s0) =
      some (max 0 (s0 + ∑ k ∈ Finset.range 38, t k) + ∑ k ∈ Finset.Ico 38 n, t k) := by
  have h38 : forRange 0 38 step (some s0) = some (max 0 (s0 + ∑ k ∈ Finset.range 38, t k)) := by
    rw [forRange_succ (Nat.zero_le 37), forRange_sum (t := t) (fun k hk s => by
      rw [h k (by omega), if_neg (by omega)]), h 37 hn, if_pos rfl, Finset.sum_range_succ _ 37, add_assoc, max_comm]
  obtain ⟨m, rfl⟩ : ∃ m, n = 38 + m := ⟨n - 38, by omega⟩
  clear hn
  induction m with
  | zero => simp [h38]
  | succ m ih =>
    rw [← Nat.add_assoc, forRange_succ (Nat.zero_le (38 + m)), ih fun k hk => h k (by omega), h (38 + m) (by omega),
      if_neg, Finset.sum_Ico_succ_top (by omega), add_assoc]
    · omega

/-- Line sum of R23. -/
theorem oxySum23_formula {ll : LineList} {c : String → ℕ → ℝ} {n : ℕ} (C : OxyColumns "R23" ll c n) {A : OxyAir}
    {θ d f : ℝ} (hf : 0 < f) (hθ : 0 < θ) (hd : 0 < d) (e1 : A.th = θ) (e2 : A.th1 = θ - 1)
    (e5 : A.den = d) (e6 : A.dfnr = c "wb300" 0 * d) (e8 : A.pe1 = 0.99 * d) (e7 : A.pe2 = (0.99 * d) ^ 2) :
    ∃ off, ∑ k ∈ Finset.Icc 1 37, oxyStrength c θ k / c "f" k ^ 2 * (c "g0" k + c "g1" k * (θ - 1) - off) = 0 ∧
    ∃ S, oxySum23 ll A f = .ok (some S) ∧ S * f ^ 2 = max 0 (debye 1.584e-17 θ (c "wb300" 0 * d) f
        + ∑ k ∈ Finset.range 38, oxyStrength c θ k * (f / c "f" k) ^ 2 * newLine k (c "w300" k * d)
          (if 1 ≤ k then 1 + (0.99 * d) ^ 2 * (c "g0" k + c "g1" k * (θ - 1) - off) else 1)
          (0.99 * d * (c "y300" k + c "y1" k * (θ - 1)))
          (c "f" k + (0.99 * d) ^ 2 * (c "dnu0" k + c "dnu1" k * (θ - 1))) f)
      + ∑ k ∈ Finset.Ico 38 n, oxyStrength c θ k * (f / c "f" k) ^ 2 * newLine k (c "w300" k * d) 1
          (0.99 * d * (c "y300" k + c "y1" k * (θ - 1)))
          (c "f" k + (0.99 * d) ^ 2 * (c "dnu0" k + c "dnu1" k * (θ - 1))) f := by
  have hstr (k : ℕ) : c "s300" k * Real.exp (-c "be" k * (θ - 1)) = oxyStrength c θ k := by
    unfold oxyStrength
    congr 2
    ring
  have hspos (k : ℕ) (hk : k < n) : 0 < oxyStrength c θ k := mul_pos (C.pos k hk).2.1 (Real.exp_pos _)
  have hw (k : ℕ) (hk : k < n) : 0 < c "w300" k * d := mul_pos (C.pos k hk).2.2 hd
  have hx (a : String) (ha : a ∈ ["y300", "y1", "g0", "g1", "dnu0", "dnu1"]) : attr ll a = .ok (c a) := C.attr (by
    simp only [List.mem_cons, List.not_mem_nil, or_false] at ha
    rcases ha with rfl | rfl | rfl | rfl | rfl | rfl <;> decide +kernel)
  have hnorm : 0 < ∑ k ∈ Finset.Icc 1 37, oxyStrength c θ k / c "f" k ^ 2 := by
    refine Finset.sum_pos (fun k hk => ?_) ⟨1, by simp⟩
    have hk : k < n := by have := C.lines; have := (Finset.mem_Icc.1 hk).2; omega
    have := (C.pos k hk).1
    have := hspos k hk
    positivity
  have hwb := C.wb
  have hq : f * f + c "wb300" 0 * d * (c "wb300" 0 * d) ≠ 0 := by positivity
  refine ⟨(∑ k ∈ Finset.Icc 1 37, oxyStrength c θ k / c "f" k ^ 2 * (c "g0" k + c "g1" k * (θ - 1))) /
    ∑ k ∈ Finset.Icc 1 37, oxyStrength c θ k / c "f" k ^ 2, ?_, ?_⟩
  · simp only [mul_sub, Finset.sum_sub_distrib, ← Finset.sum_mul]
    rw [mul_div_cancel₀ _ hnorm.ne', sub_self]
  generalize hoff : (∑ k ∈ Finset.Icc 1 37, oxyStrength c θ k / c "f" k ^ 2 * (c "g0" k + c "g1" k * (θ - 1))) /
    ∑ k ∈ Finset.Icc 1 37, oxyStrength c θ k / c "f" k ^ 2 = off
  unfold oxySum23
  simp only [C.common (a := "len(f)") (by decide), C.common (a := "f") (by decide), C.common (a := "s300") (by decide),
    C.common (a := "be") (by decide), C.common (a := "w300") (by decide), hx "y300" (by simp), hx "y1" (by simp),
    hx "g0" (by simp), hx "g1" (by simp), hx "dnu0" (by simp), hx "dnu1" (by simp),
    bind, Except.bind, pure, Except.pure, C.len, numLines_nat, hstr, sumMid_eq C.lines, e1, e2, e5, e6, e7, e8,
    npDiv_of_ne hnorm.ne', npDiv_of_ne hq, Option.bind, hoff]
  refine ⟨_, congrArg Except.ok (forRange_clamp (t := fun k => oxyStrength c θ k / c "f" k ^ 2 *
    newLine k (c "w300" k * d) (if 0 < k ∧ k ≤ 37 then 1 + (0.99 * d) ^ 2 * (c "g0" k + c "g1" k * (θ - 1) - off) else 1)
      (0.99 * d * (c "y300" k + c "y1" k * (θ - 1)))
      (c "f" k + (0.99 * d) ^ 2 * (c "dnu0" k + c "dnu1" k * (θ - 1))) f) C.lines (fun k hk s => ?_) _), ?_⟩
  · rw [oxyShape2_formula k f _ (hw k hk)]
  · rw [add_mul, max_mul_of_nonneg _ _ (by positivity), zero_mul, add_mul, Finset.sum_mul, Finset.sum_mul]
    congr 1
    · congr 2
      · unfold debye
        field_simp
      · refine Finset.sum_congr rfl fun k hk => ?_
        have hk := Finset.mem_range.1 hk
        have : (0 < k ∧ k ≤ 37) ↔ 1 ≤ k := by omega
        simp only [this]
        rw [div_pow]
        ring
    · refine Finset.sum_congr rfl fun k hk => ?_
      have hk := (Finset.mem_Ico.1 hk).1
      rw [if_neg (by omega), div_pow]
      ring

theorem forRange_add {n : ℕ} {step : ℕ → ℝ → ℝ} {t : ℕ → ℝ} (h : ∀ k < n, ∀ s, step k s = s + t k) (s0 : ℝ) :
    forRange 0 n step s0 = s0 + ∑ k ∈ Finset.range n, t k := by
  induction n with
  | zero => simp
  | succ n ih =>
    rw [forRange_succ (Nat.zero_le n), ih fun k hk => h k (by omega), h n (by omega), Finset.sum_range_succ, add_assoc]

/-- Line sum of R24. -/
theorem oxySum24_formula {ll : LineList} {c : String → ℕ → ℝ} {n : ℕ} (C : OxyColumns "R24" ll c n) {A : OxyAir}
    {θ d f : ℝ} (hf : 0 < f) (hθ : 0 < θ) (hd : 0 < d) (e1 : A.th = θ) (e2 : A.th1 = θ - 1)
    (e8 : A.pe1 = d) (e7 : A.pe2 = d ^ 2) :
    ∃ y g : ℕ → ℝ,
    (∃ r, ∀ k, y k = 0.99 * (c "y300" k + c "y1" k * (θ - 1)) - if 1 ≤ k ∧ k ≤ 37 then r / c "f" k else 0) ∧
    (∃ r, ∀ k, g k = if 1 ≤ k ∧ k ≤ 37 then c "g0" k + c "g1" k * (θ - 1) - r * (oxyStrength c θ k / c "f" k ^ 2) else 0) ∧
    1.584e-17 / θ * c "wb300" 0 + 2 * ∑ k ∈ Finset.range 38, oxyStrength c θ k / c "f" k ^ 2 * (c "w300" k + y k * c "f" k)
      = 0 ∧
    ∑ k ∈ Finset.Icc 1 37, oxyStrength c θ k / c "f" k ^ 2 * g k = 0 ∧
    ∃ S, oxySum24 ll A (c "wb300" 0) f = .ok (some S) ∧ S * f ^ 2 = θ * (debye 1.584e-17 θ (c "wb300" 0 * d) f
        + ∑ k ∈ Finset.range n, oxyStrength c θ k * (f / c "f" k) ^ 2 * newLine k (c "w300" k * d) (1 + d ^ 2 * g k)
          (d * y k) (c "f" k + d ^ 2 * (c "dnu0" k + c "dnu1" k * (θ - 1))) f) := by
  have hstr (k : ℕ) : c "s300" k * Real.exp (-c "be" k * (θ - 1)) = oxyStrength c θ k := by
    unfold oxyStrength
    congr 2
    ring
  have hspos (k : ℕ) (hk : k < n) : 0 < oxyStrength c θ k := mul_pos (C.pos k hk).2.1 (Real.exp_pos _)
  have hw (k : ℕ) (hk : k < n) : 0 < c "w300" k * d := mul_pos (C.pos k hk).2.2 hd
  have hx (a : String) (ha : a ∈ ["y300", "y1", "g0", "g1", "dnu0", "dnu1"]) : attr ll a = .ok (c a) := C.attr (by
    simp only [List.mem_cons, List.not_mem_nil, or_false] at ha
    rcases ha with rfl | rfl | rfl | rfl | rfl | rfl <;> decide +kernel)
  have hapos (k : ℕ) (hk : k ∈ Finset.Icc 1 37) : 0 < oxyStrength c θ k * θ / c "f" k ^ 2 := by
    have hk : k < n := by have := C.lines; have := (Finset.mem_Icc.1 hk).2; omega
    have := (C.pos k hk).1
    have := hspos k hk
    positivity
  have hn1 : 0 < ∑ k ∈ Finset.Icc 1 37, oxyStrength c θ k * θ / c "f" k ^ 2 := Finset.sum_pos hapos ⟨1, by simp⟩
  have hn2 : 0 < ∑ k ∈ Finset.Icc 1 37, (oxyStrength c θ k * θ / c "f" k ^ 2) ^ 2 :=
    Finset.sum_pos (fun k hk => pow_pos (hapos k hk) 2) ⟨1, by simp⟩
  have hn1' : 2 * ∑ k ∈ Finset.Icc 1 37, oxyStrength c θ k * θ / c "f" k ^ 2 ≠ 0 := by positivity
  have hwb := C.wb
  have hq : f * f + c "wb300" 0 * d * (c "wb300" 0 * d) ≠ 0 := by positivity
  have hsum : ∀ s0 : ℝ, forRange 0 n (fun k s => if k ≤ 37 then s + 2 * (oxyStrength c θ k * θ / c "f" k ^ 2) *
      (c "w300" k + 0.99 * (c "y300" k + c "y1" k * (θ - 1)) * c "f" k) else s) s0 =
      s0 + ∑ k ∈ Finset.range 38, 2 * (oxyStrength c θ k * θ / c "f" k ^ 2) *
      (c "w300" k + 0.99 * (c "y300" k + c "y1" k * (θ - 1)) * c "f" k) := by
    intro s0
    rw [forRange_add (t := fun k => if k ≤ 37 then 2 * (oxyStrength c θ k * θ / c "f" k ^ 2) *
      (c "w300" k + 0.99 * (c "y300" k + c "y1" k * (θ - 1)) * c "f" k) else 0) (fun k hk s => by split_ifs <;> simp),
      ← Finset.sum_filter]
    congr 2
    ext k
    have := C.lines
    simp only [Finset.mem_filter, Finset.mem_range]
    omega
  set r1 := (1.584e-17 * c "wb300" 0 + ∑ k ∈ Finset.range 38, 2 * (oxyStrength c θ k * θ / c "f" k ^ 2) *
      (c "w300" k + 0.99 * (c "y300" k + c "y1" k * (θ - 1)) * c "f" k)) /
    (2 * ∑ k ∈ Finset.Icc 1 37, oxyStrength c θ k * θ / c "f" k ^ 2) with hr1
  set r2 := (∑ k ∈ Finset.Icc 1 37, oxyStrength c θ k * θ / c "f" k ^ 2 * (c "g0" k + c "g1" k * (θ - 1))) /
    ∑ k ∈ Finset.Icc 1 37, (oxyStrength c θ k * θ / c "f" k ^ 2) ^ 2 with hr2
  refine ⟨_, _, ⟨r1, fun _ => rfl⟩, ⟨r2 * θ, fun _ => rfl⟩, ?_, ?_, ?_⟩
  · have hI : ∀ g : ℕ → ℝ, ∑ k ∈ Finset.Icc 1 37, g k = ∑ k ∈ Finset.range 38, if 1 ≤ k ∧ k ≤ 37 then g k else 0 := by
      intro g
      rw [← Finset.sum_filter]
      congr 1
    have h0 := div_mul_cancel₀ (1.584e-17 * c "wb300" 0 + ∑ k ∈ Finset.range 38, 2 * (oxyStrength c θ k * θ / c "f" k ^ 2) *
      (c "w300" k + 0.99 * (c "y300" k + c "y1" k * (θ - 1)) * c "f" k)) hn1'
    rw [← hr1, hI, Finset.mul_sum, Finset.mul_sum] at h0
    have h1 : 1.584e-17 / θ * c "wb300" 0 = 1.584e-17 * c "wb300" 0 / θ := by ring
    rw [h1, eq_sub_of_add_eq h0.symm, Finset.mul_sum, sub_div, Finset.sum_div, Finset.sum_div, ← Finset.sum_sub_distrib,
      ← Finset.sum_add_distrib]
    refine Finset.sum_eq_zero fun k hk => ?_
    have hf := (C.pos k (by have := C.lines; have := Finset.mem_range.1 hk; omega)).1.ne'
    split_ifs
    · field_simp
      ring
    · field_simp
      ring
  · have h0 := div_mul_cancel₀ (∑ k ∈ Finset.Icc 1 37, oxyStrength c θ k * θ / c "f" k ^ 2 *
      (c "g0" k + c "g1" k * (θ - 1))) hn2.ne'
    rw [← hr2, Finset.mul_sum, ← sub_eq_zero, ← Finset.sum_sub_distrib] at h0
    have h1 : ∑ k ∈ Finset.Icc 1 37, oxyStrength c θ k / c "f" k ^ 2 * (if 1 ≤ k ∧ k ≤ 37 then
        c "g0" k + c "g1" k * (θ - 1) - r2 * θ * (oxyStrength c θ k / c "f" k ^ 2) else 0) =
      -(1 / θ) * ∑ k ∈ Finset.Icc 1 37, (r2 * (oxyStrength c θ k * θ / c "f" k ^ 2) ^ 2 -
        oxyStrength c θ k * θ / c "f" k ^ 2 * (c "g0" k + c "g1" k * (θ - 1))) := by
      rw [Finset.mul_sum]
      refine Finset.sum_congr rfl fun k hk => ?_
      rw [if_pos (Finset.mem_Icc.1 hk)]
      have hf := (C.pos k (by have := C.lines; have := (Finset.mem_Icc.1 hk).2; omega)).1.ne'
      field_simp
      ring
    rw [h1, h0, mul_zero]
  · unfold oxySum24
    simp only [C.common (a := "len(f)") (by decide), C.common (a := "f") (by decide), C.common (a := "s300") (by decide),
      C.common (a := "be") (by decide), C.common (a := "w300") (by decide), hx "y300" (by simp), hx "y1" (by simp),
      hx "g0" (by simp), hx "g1" (by simp), hx "dnu0" (by simp), hx "dnu1" (by simp),
      bind, Except.bind, pure, Except.pure, C.len, numLines_nat, e1, e2, hstr, sumMid_eq C.lines, e7, e8, hsum,
      npDiv_of_ne hn1', npDiv_of_ne hn2.ne', npDiv_of_ne hq, Option.bind, ← hr1, ← hr2]
    refine ⟨_, congrArg Except.ok (forRange_sum (t := fun k => oxyStrength c θ k * θ / c "f" k ^ 2 *
      newLine k (c "w300" k * d)
        (1 + d ^ 2 * if 1 ≤ k ∧ k ≤ 37 then c "g0" k + c "g1" k * (θ - 1) - r2 * θ * (oxyStrength c θ k / c "f" k ^ 2) else 0)
        (d * (0.99 * (c "y300" k + c "y1" k * (θ - 1)) - if 1 ≤ k ∧ k ≤ 37 then r1 / c "f" k else 0))
        (c "f" k + d ^ 2 * (c "dnu0" k + c "dnu1" k * (θ - 1))) f) (fun k hk s => ?_) _), ?_⟩
    · simp only [npDiv_of_ne (C.pos k hk).1.ne', oxyShape2_formula k f _ (hw k hk), Option.some_inj]
      congr 2
      by_cases hk' : 1 ≤ k ∧ k ≤ 37
      · have : 0 < k ∧ k ≤ 37 := by omega
        simp only [this, hk', and_self, decide_true, if_true]
        congr 1
        ring
      · have : ¬(0 < k ∧ k ≤ 37) := by omega
        simp only [this, hk', decide_false, if_false, Bool.false_eq_true, mul_zero, add_zero, sub_zero]
    · rw [add_mul, mul_add, Finset.sum_mul, Finset.mul_sum]
      congr 1
      · unfold debye
        field_simp
      · refine Finset.sum_congr rfl fun k hk => ?_
        rw [div_pow]
        ring

end Verif.Lemmas
