import Mathlib.Analysis.SpecialFunctions.Complex.Log
import Verif.Lemmas.WaterSD
import Verif.Spec.WaterFormula

/-!
# The water vapour routine in closed form
-/

namespace Verif.Lemmas

open Verif.Model Verif.Py Verif.Spec

theorem cSqrt_re (z : ℂ) : 0 ≤ (cSqrt z).re := by
  unfold cSqrt
  rw [one_div, Complex.cpow_inv_two_re]
  positivity

theorem hui_eq (z : ℂ) : hui z = errA z / errB z := by
  unfold hui errA errB
  congr 1 <;> ring

theorem dcerror_sqrt (z : ℂ) (hz : 0 ≤ z.re) : dcerror (-z.im) z.re = some (hui z) := by
  unfold dcerror
  have h : (⟨|z.re|, - -z.im⟩ : ℂ) = z := by
    apply Complex.ext <;> simp [abs_of_nonneg hz]
  have hB : errB z ≠ 0 := by
    have := errB_ne (-z.im) hz
    rwa [neg_neg] at this
  simp only [h, cDiv, if_neg hB, if_pos hz, hui_eq]
  rfl

theorem sdShape_re (w0 : ℝ) {w2 : ℝ} (hw : 0 < w2) (d2 d : ℝ) :
    (sdShape w0 w2 d2 d).map Complex.re = some (speedProfile w0 w2 d2 d) := by
  have hne : (⟨w2, -d2⟩ : ℂ) ≠ 0 := fun h => hw.ne' (congrArg Complex.re h)
  unfold sdShape speedProfile
  simp only [cDiv, if_neg hne, bind, Option.bind, dcerror_sqrt _ (cSqrt_re _), Option.map_some]
  unfold cSqrt
  norm_num

theorem sdLine_formula (f fl shift w w2 d2 s : ℝ) (hw : 0 < w) (hfl : fl ≠ 0) :
    sdLine f fl shift w w2 d2 s = some (s * (f / fl) ^ 2 *
      (open Classical in (if 0 < w2 ∧ |f - (fl + shift)| < 10 * w then
          speedProfile w w2 d2 (f - (fl + shift)) - lorentz w 750
        else localProfile w (f - (fl + shift))) + localProfile w (f + (fl + shift)))) := by
  have e1 : f - fl - shift = f - (fl + shift) := by ring
  have e2 : f + fl + shift = f + (fl + shift) := by ring
  by_cases h : 0 < w2 ∧ |f - (fl + shift)| < 10 * w
  · unfold sdLine
    have hb : (fun c : ℂ => c.re - w / (562500.0 + w ^ 2)) = (fun r : ℝ => r - lorentz w 750) ∘ Complex.re := by
      funext c
      simp only [Function.comp, lorentz]
      norm_num
    simp only [e1, e2, if_pos h, cut_eq_max' hw, npDiv_of_ne hfl, hb, ← Option.map_map, sdShape_re _ h.1, Option.map_some,
      bind, Option.bind, localProfile, lorentz]
    simp only [pure, Option.some_inj]
    ring
  · rw [sdLine_eq f fl shift w w2 d2 s hw hfl, if_neg h, Option.some_inj, e1, e2]
    · unfold localProfile
      ring
    · rw [e1]
      by_contra hc
      push Not at hc
      exact h hc

theorem plainLine_formula (closed : Bool) (f fl shift w s : ℝ) (hw : 0 < w) (hfl : fl ≠ 0) :
    plainLine closed f fl shift w s = some (s * (f / fl) ^ 2 *
      (localProfile w (f - (fl + shift)) + localProfile w (f + (fl + shift)))) := by
  have e1 : f - fl - shift = f - (fl + shift) := by ring
  have e2 : f + fl + shift = f + (fl + shift) := by ring
  rw [plainLine_eq closed f fl shift w s hw hfl, Option.some_inj, e1, e2]
  unfold localProfile
  ring

/-- Columns of a line list with what a model reads. -/
structure Columns (m : String) (ll : LineList) (c : String → ℕ → ℝ) (n : ℕ) : Prop where
  read : ∀ a ∈ waterReads m, ll a = some (c a)
  len : c "len(fl)" = fun _ => (n : ℝ)
  pos : ∀ i < n, 0 < c "fl" i ∧ 0 < c "w0" i ∧ 0 < c "w0s" i
  reft : 0 < c "reftline" 0 ∧ 0 < c "reftcon" 0

theorem Columns.attr {m : String} {ll : LineList} {c : String → ℕ → ℝ} {n : ℕ} (C : Columns m ll c n) {a : String}
    (ha : a ∈ waterReads m) : Model.attr ll a = .ok (c a) := attr_some (C.read a ha)

theorem Columns.common {m : String} {ll : LineList} {c : String → ℕ → ℝ} {n : ℕ} (C : Columns m ll c n) {a : String}
    (ha : a ∈ waterCommon) : Model.attr ll a = .ok (c a) := C.attr (by simp [waterReads, ha])

theorem waterSumOld_formula {m : String} (hm : m ∈ ["R98", "R03", "R16", "R17"]) {ll : LineList} {c : String → ℕ → ℝ}
    {n : ℕ} (C : Columns m ll c n) {A : WaterAir} (f : ℝ) (ht : 0 < A.t) (hv : 0 < A.pvap) (hd : 0 ≤ A.pda) :
    waterSumOld m ll A f = .ok (some (lineSum m c n A.t A.pda A.pvap f)) := by
  have hsr : (if m = "R98" then .ok fun _ => 0 else attr ll "sr" : Except PyErr Val) =
      .ok (if m = "R98" then fun _ => 0 else c "sr") := by
    by_cases h : m = "R98"
    · rw [if_pos h, if_pos h]
    · rw [if_neg h, if_neg h]
      apply C.attr
      simp only [List.mem_cons, List.not_mem_nil, or_false] at hm
      rcases hm with rfl | rfl | rfl | rfl
      · exact absurd rfl h
      all_goals decide +kernel
  unfold waterSumOld
  simp only [C.common (a := "len(fl)") (by decide), C.common (a := "fl") (by decide), C.common (a := "s1") (by decide),
    C.common (a := "b2") (by decide), C.common (a := "w0") (by decide), C.common (a := "x") (by decide),
    C.common (a := "w0s") (by decide), C.common (a := "xs") (by decide), C.common (a := "reftline") (by decide),
    hsr, bind, Except.bind, pure, Except.pure, C.len, numLines_nat]
  have hti : 0 < c "reftline" 0 / A.t := div_pos C.reft.1 ht
  rw [Except.ok.injEq]
  apply sumLines_some
  intro i hi
  obtain ⟨h1, h3, h4⟩ := C.pos i hi
  simp only [fpow_of_pos hti, Option.bind]
  rw [plainLine_formula _ _ _ _ _ _ (by positivity) h1.ne', Option.some_inj]
  have hw : speedWidth m c (c "reftline" 0 / A.t) A.pda A.pvap i = 0 := by
    unfold speedWidth
    simp only [List.mem_cons, List.not_mem_nil, or_false] at hm
    rcases hm with rfl | rfl | rfl | rfl <;> simp
  have hwd : c "w0" i * A.pda * (c "reftline" 0 / A.t) ^ c "x" i + c "w0s" i * A.pvap * (c "reftline" 0 / A.t) ^ c "xs" i
      = halfWidth c (c "reftline" 0 / A.t) A.pda A.pvap i := by
    unfold halfWidth
    ring
  have hsh : (if m = "R98" then 0 else (if m = "R98" then fun _ => 0 else c "sr") i *
      (if m = "R03" then c "w0" i * A.pda * (c "reftline" 0 / A.t) ^ c "x" i
          + c "w0s" i * A.pvap * (c "reftline" 0 / A.t) ^ c "xs" i
        else c "w0" i * A.pda * (c "reftline" 0 / A.t) ^ c "x" i)) =
      lineShift m c (c "reftline" 0 / A.t) A.pda A.pvap i := by
    rw [hwd]
    unfold lineShift
    simp only [List.mem_cons, List.not_mem_nil, or_false] at hm
    rcases hm with rfl | rfl | rfl | rfl <;> simp [-mul_eq_mul_left_iff] <;> ring
  rw [hsh, hwd]
  unfold resonances strength
  simp only [hw, lt_self_iff_false, false_and, if_false]
  norm_num

theorem waterSumMid_formula {m : String} (hm : m ∈ ["R18", "R19", "R20"]) {ll : LineList} {c : String → ℕ → ℝ}
    {n : ℕ} (C : Columns m ll c n) {A : WaterAir} (f : ℝ) (ht : 0 < A.t) (hv : 0 < A.pvap) (hd : 0 ≤ A.pda) :
    waterSumMid m ll A f = .ok (some (lineSum m c n A.t A.pda A.pvap f)) := by
  have opt (a : String) (ha : a ∈ ["aair", "aself"]) :
      (if m = "R18" then .ok fun _ => 0 else attr ll a : Except PyErr Val) =
      .ok (if m = "R18" then fun _ => 0 else c a) := by
    by_cases h : m = "R18"
    · rw [if_pos h, if_pos h]
    · rw [if_neg h, if_neg h]
      apply C.attr
      simp only [List.mem_cons, List.not_mem_nil, or_false] at hm ha
      rcases hm with rfl | rfl | rfl
      · exact absurd rfl h
      all_goals rcases ha with rfl | rfl <;> decide +kernel
  have hx (a : String) (ha : a ∈ ["sh", "xh", "shs", "xhs"]) : attr ll a = .ok (c a) := by
    apply C.attr
    simp only [List.mem_cons, List.not_mem_nil, or_false] at hm ha
    rcases hm with rfl | rfl | rfl <;> rcases ha with rfl | rfl | rfl | rfl <;> decide +kernel
  unfold waterSumMid
  simp only [C.common (a := "len(fl)") (by decide), C.common (a := "fl") (by decide), C.common (a := "s1") (by decide),
    C.common (a := "b2") (by decide), C.common (a := "w0") (by decide), C.common (a := "x") (by decide),
    C.common (a := "w0s") (by decide), C.common (a := "xs") (by decide), C.common (a := "reftline") (by decide),
    hx "sh" (by simp), hx "xh" (by simp), hx "shs" (by simp), hx "xhs" (by simp),
    opt "aair" (by simp), opt "aself" (by simp), bind, Except.bind, pure, Except.pure, C.len, numLines_nat]
  have hti : 0 < c "reftline" 0 / A.t := div_pos C.reft.1 ht
  rw [Except.ok.injEq]
  apply sumLines_some
  intro i hi
  obtain ⟨h1, h3, h4⟩ := C.pos i hi
  simp only [fpow_of_pos hti, npLog_of_pos hti, Option.bind]
  rw [plainLine_formula _ _ _ _ _ _ (by positivity) h1.ne', Option.some_inj]
  have hw : speedWidth m c (c "reftline" 0 / A.t) A.pda A.pvap i = 0 := by
    unfold speedWidth
    simp only [List.mem_cons, List.not_mem_nil, or_false] at hm
    rcases hm with rfl | rfl | rfl <;> simp
  have hwd : c "w0" i * A.pda * (c "reftline" 0 / A.t) ^ c "x" i + c "w0s" i * A.pvap * (c "reftline" 0 / A.t) ^ c "xs" i
      = halfWidth c (c "reftline" 0 / A.t) A.pda A.pvap i := by
    unfold halfWidth
    ring
  have hsh : c "sh" i * A.pda * (1 - (if m = "R18" then fun _ => 0 else c "aair") i * Real.log (c "reftline" 0 / A.t)) *
        (c "reftline" 0 / A.t) ^ c "xh" i
      + c "shs" i * A.pvap * (1 - (if m = "R18" then fun _ => 0 else c "aself") i * Real.log (c "reftline" 0 / A.t)) *
        (c "reftline" 0 / A.t) ^ c "xhs" i =
      lineShift m c (c "reftline" 0 / A.t) A.pda A.pvap i := by
    unfold lineShift
    simp only [List.mem_cons, List.not_mem_nil, or_false] at hm
    rcases hm with rfl | rfl | rfl <;> simp <;> ring
  rw [hsh, hwd]
  unfold resonances strength
  simp only [hw, lt_self_iff_false, false_and, if_false]
  norm_num

theorem waterSumSD_formula {m : String} (hm : m ∈ ["R19SD", "R20SD", "R21SD", "R22SD", "R23SD", "R24", "MWL24"])
    {ll : LineList} {c : String → ℕ → ℝ}
    {n : ℕ} (C : Columns m ll c n) {A : WaterAir} (f : ℝ) (ht : 0 < A.t) (hv : 0 < A.pvap) (hd : 0 ≤ A.pda) :
    waterSumSD m ll A f = .ok (some (lineSum m c n A.t A.pda A.pvap f)) := by
  have hSD : isSD m = true := by
    simp only [List.mem_cons, List.not_mem_nil, or_false] at hm
    rcases hm with rfl | rfl | rfl | rfl | rfl | rfl | rfl <;> decide +kernel
  have hx (a : String) (ha : a ∈ ["sh", "xh", "shs", "xhs", "aair", "aself", "w2", "w2s"]) :
      attr ll a = .ok (c a) := C.attr (by
      simp only [List.mem_cons, List.not_mem_nil, or_false] at ha
      simp only [waterReads, hSD, or_true, if_true, List.mem_append, List.mem_cons, List.not_mem_nil, or_false]
      tauto)
  have h7 (a : String) (ha : a ∈ ["xw2", "xw2s", "d2", "d2s"]) :
      (if m ∈ newSD then attr ll a else (.ok fun _ => 0 : Except PyErr Val)) =
        .ok (if m ∈ newSD then c a else fun _ => 0) := by
    split_ifs with hm
    · exact C.attr (by simp only [waterReads, hm, if_true, List.mem_append]; tauto)
    · rfl
  have h8 (a : String) (ha : a ∈ ["d2air", "d2self"]) :
      (if m = "R20SD" then attr ll a else (.ok fun _ => 0 : Except PyErr Val)) =
        .ok (if m = "R20SD" then c a else fun _ => 0) := by
    split_ifs with hm
    · exact C.attr (by simp only [waterReads, hm, if_true, List.mem_append]; tauto)
    · rfl
  unfold waterSumSD
  simp only [C.common (a := "len(fl)") (by decide), C.common (a := "fl") (by decide), C.common (a := "s1") (by decide),
    C.common (a := "b2") (by decide), C.common (a := "w0") (by decide), C.common (a := "x") (by decide),
    C.common (a := "w0s") (by decide), C.common (a := "xs") (by decide), C.common (a := "reftline") (by decide),
    hx "sh" (by simp), hx "xh" (by simp), hx "shs" (by simp), hx "xhs" (by simp),
    hx "aair" (by simp), hx "aself" (by simp), hx "w2" (by simp), hx "w2s" (by simp),
    h7 "xw2" (by simp), h7 "xw2s" (by simp), h7 "d2" (by simp), h7 "d2s" (by simp), h8 "d2air" (by simp),
    h8 "d2self" (by simp), bind, Except.bind, pure, Except.pure, C.len, numLines_nat]
  have hti : 0 < c "reftline" 0 / A.t := div_pos C.reft.1 ht
  rw [Except.ok.injEq]
  apply sumLines_some
  intro i hi
  obtain ⟨h1, h3, h4⟩ := C.pos i hi
  simp only [fpow_of_pos hti, npLog_of_pos hti, Option.bind]
  rw [sdLine_formula _ _ _ _ _ _ _ (by positivity) h1.ne', Option.some_inj]
  generalize hθ : c "reftline" 0 / A.t = θ at hti ⊢
  have hwd : c "w0" i * A.pda * θ ^ c "x" i + c "w0s" i * A.pvap * θ ^ c "xs" i = halfWidth c θ A.pda A.pvap i := by
    unfold halfWidth
    ring
  have hsh : c "sh" i * A.pda * (1 - c "aair" i * Real.log θ) * θ ^ c "xh" i
      + c "shs" i * A.pvap * (1 - c "aself" i * Real.log θ) * θ ^ c "xhs" i = lineShift m c θ A.pda A.pvap i := by
    unfold lineShift
    simp only [List.mem_cons, List.not_mem_nil, or_false] at hm
    rcases hm with rfl | rfl | rfl | rfl | rfl | rfl | rfl <;> simp <;> ring
  have hw2 : (if m ∈ newSD then (if 0 < c "w2" i then c "w2" i * A.pda * θ ^ (if m ∈ newSD then c "xw2" else fun _ => 0) i
        + c "w2s" i * A.pvap * θ ^ (if m ∈ newSD then c "xw2s" else fun _ => 0) i else 0)
      else c "w2" i * A.pda + c "w2s" i * A.pvap) = speedWidth m c θ A.pda A.pvap i := by
    unfold speedWidth newSD
    simp only [List.mem_cons, List.not_mem_nil, or_false] at hm
    rcases hm with rfl | rfl | rfl | rfl | rfl | rfl | rfl <;> simp <;> split_ifs <;> ring
  have hd2 : (if m ∈ newSD then (if m ∈ newSD then c "d2" else fun _ => 0) i * A.pda
        + (if m ∈ newSD then c "d2s" else fun _ => 0) i * A.pvap
      else if m = "R20SD" ∧ i = 1 then (if m = "R20SD" then c "d2air" else fun _ => 0) 0 * A.pda
        + (if m = "R20SD" then c "d2self" else fun _ => 0) 0 * A.pvap else 0) = speedShift m c A.pda A.pvap i := by
    unfold speedShift newSD
    simp only [List.mem_cons, List.not_mem_nil, or_false] at hm
    rcases hm with rfl | rfl | rfl | rfl | rfl | rfl | rfl <;> simp
  have hst : Real.exp (2.5 * Real.log θ) = θ ^ (5 / 2 : ℝ) := by
    rw [Real.rpow_def_of_pos hti, mul_comm]
    norm_num
  rw [hwd, hsh, hw2, hd2, hst]
  unfold resonances strength
  rfl

theorem columns_of_file {m : String} {F : LineList} (hF : waterFile m = some F) (old : LineList) {c : String → ℕ → ℝ}
    (hc : ∀ a v, F a = some v → c a = v) {n : ℕ} (hn : F "len(fl)" = some fun _ => (n : ℝ)) :
    Columns m (reloadLL F old) c n := by
  obtain ⟨G⟩ := goodLines_of_file hF old
  have key (a : String) (ha : a ∈ waterReads m) : reloadLL F old a = some (c a) := by
    obtain ⟨v, h1, h2⟩ := file_reads hF old a ha
    rw [h2, hc a v h1]
  have key' {a : String} (ha : a ∈ waterCommon) {v : Val} (hv : reloadLL F old a = some v) : c a = v := by
    rw [key a (by simp [waterReads, ha]), Option.some_inj] at hv
    exact hv
  have hl : c "len(fl)" = fun _ => (n : ℝ) := hc _ _ hn
  have hGn : G.n = n := by
    have := key' (by decide) G.hn
    rw [hl] at this
    exact_mod_cast (congrFun this 0).symm
  refine ⟨key, hl, ?_, ?_⟩
  · intro i hi
    rw [key' (by decide) G.hfl, key' (by decide) G.hw0, key' (by decide) G.hw0s]
    obtain ⟨h1, -, h3, h4⟩ := G.pos i (hGn ▸ hi)
    exact ⟨h1, h3, h4⟩
  · rw [key' (by decide) G.hreftline, key' (by decide) G.hreftcon]
    exact ⟨G.preft.1, G.preft.2.1⟩

theorem water_names {m : String} {F : LineList} (hF : waterFile m = some F) : m ∈ ["R98", "R03", "R16", "R17", "R18", "R19",
    "R19SD", "R20", "R20SD", "R21SD", "R22SD", "R23SD", "R24", "MWL24"] := by
  unfold waterFile at hF
  cases hT : waterGroups.lookup m with
  | none => simp [hT] at hF
  | some T =>
    rw [List.lookup_eq_some_iff] at hT
    obtain ⟨l₁, l₂, h, -⟩ := hT
    have hmem : m ∈ waterGroups.map (·.1) := List.mem_map.2 ⟨(m, T), by simp [h], rfl⟩
    exact hmem

theorem file_len {m : String} {F : LineList} (hF : waterFile m = some F) : ∃ n : ℕ, F "len(fl)" = some fun _ => (n : ℝ) := by
  unfold waterFile at hF
  cases hT : waterGroups.lookup m with
  | none => simp [hT] at hF
  | some T =>
    rw [hT, Option.map_some, Option.some_inj] at hF
    refine ⟨T.rows, ?_⟩
    rw [← hF]
    simp only [waterGroups_len, Option.bind_some, Src.val]

theorem waterSum_formula {m : String} {F : LineList} (hF : waterFile m = some F)
    {ll : LineList} {c : String → ℕ → ℝ}
    {n : ℕ} (C : Columns m ll c n) {A : WaterAir} (f : ℝ) (ht : 0 < A.t) (hv : 0 < A.pvap) (hd : 0 ≤ A.pda) :
    waterSum m ll A f = .ok (some (lineSum m c n A.t A.pda A.pvap f)) := by
  have hm := water_names hF
  have hSD : isSD m = true ∧ m ∈ ["R19SD", "R20SD", "R21SD", "R22SD", "R23SD", "R24", "MWL24"] ∨
      isSD m = false ∧ (m ∈ ["R98", "R03", "R16", "R17"] ∧ m ∈ ["R16", "R03", "R17", "R98"] ∨
      m ∉ ["R16", "R03", "R17", "R98"] ∧ m ∈ ["R18", "R19", "R20"] ∧ m ∈ ["R19", "R20", "R18"]) := by
    simp only [List.mem_cons, List.not_mem_nil, or_false] at hm
    rcases hm with rfl | rfl | rfl | rfl | rfl | rfl | rfl | rfl | rfl | rfl | rfl | rfl | rfl | rfl <;> decide +kernel
  unfold waterSum
  rcases hSD with ⟨h1, h2⟩ | ⟨h1, ⟨h2, h3⟩ | ⟨h2, h3, h4⟩⟩
  · rw [if_pos h1]
    exact waterSumSD_formula h2 C f ht hv hd
  · rw [if_neg (by simp [h1]), if_pos h3]
    exact waterSumOld_formula h2 C f ht hv hd
  · rw [if_neg (by simp [h1]), if_neg h2, if_pos h4]
    exact waterSumMid_formula h3 C f ht hv hd

theorem waterAir_formula {m : String} {F : LineList} (hF : waterFile m = some F) (p e : ℝ) {vx : ℝ} (hv : 0 < vx) :
    (waterAir m p vx e).t = 300 / vx ∧ (waterAir m p vx e).rho = vapourDensity (300 / vx) e ∧
    (waterAir m p vx e).pvap = vapourPressure m (300 / vx) e ∧ (waterAir m p vx e).pda = dryPressure m (300 / vx) p e := by
  have hm := water_names hF
  have ht : (300.0 : ℝ) / vx = 300 / vx := by norm_num
  have hr : e * 10.0 / (0.01 * 8.31451 / 18.01528 * (300 / vx)) = vapourDensity (300 / vx) e := by
    have h3 : (300 / vx : ℝ) ≠ 0 := by positivity
    unfold vapourDensity
    rw [div_eq_div_iff (by positivity) (by positivity)]
    generalize 300 / vx = T
    norm_num
    ring
  have hp : (waterAir m p vx e).pvap = vapourPressure m (300 / vx) e := by
    unfold waterAir vapourPressure
    simp only [ht, hr]
    simp only [List.mem_cons, List.not_mem_nil, or_false] at hm
    rcases hm with rfl | rfl | rfl | rfl | rfl | rfl | rfl | rfl | rfl | rfl | rfl | rfl | rfl | rfl <;> simp <;>
      generalize vapourDensity (300 / vx) e = d <;> generalize 300 / vx = T <;> norm_num <;> ring
  refine ⟨ht, by rw [← hr, ← ht]; rfl, hp, ?_⟩
  unfold dryPressure
  rw [← hp]
  have h10 : (10.0 : ℝ) = 10 := by norm_num
  have : (waterAir m p vx e).pda = (p + e) * 10.0 - (waterAir m p vx e).pvap := rfl
  rw [this, h10]
  ring

/-- What a result is made of. -/
theorem h2o_parts {m : String} {ll : LineList} {p vx e f npp ncpp S : ℝ} (hv : 0 < vx)
    (hr : (waterAir m p vx e).rho ≠ 0) (hfac : 0.182 * f ≠ 0)
    (hs : waterSum m ll (waterAir m p vx e) f = .ok (some S))
    (h : h2oAbsorption m ll p vx e f = .ok (some (npp, ncpp))) :
    waterUnits m (waterAir m p vx e) S (0.182 * f) = some npp ∧
    ∃ con k, waterCon m ll (waterAir m p vx e) vx f = .ok con ∧
      (if m ∈ ["R23SD", "R24"] then waterConNew ll (waterAir m p vx e) vx f else .ok con : Except PyErr (Option ℝ)) =
        .ok (some k) ∧ ncpp = k / db2np / (0.182 * f) := by
  unfold h2oAbsorption at h
  rw [if_pos hv] at h
  simp only [if_neg hr, hs] at h
  cases h1 : waterCon m ll (waterAir m p vx e) vx f with
  | error x => simp [h1, bind, Except.bind] at h
  | ok con =>
    simp only [h1, bind, Except.bind] at h
    cases h2 : (if m ∈ ["R23SD", "R24"] then waterConNew ll (waterAir m p vx e) vx f
      else .ok con : Except PyErr (Option ℝ)) with
    | error x =>
      simp only [h2, reduceCtorEq] at h
    | ok conN =>
      simp only [h2, pure, Except.pure, Except.ok.injEq] at h
      cases conN with
      | none => simp at h
      | some k =>
        simp only [Option.bind_some] at h
        cases h3 : waterUnits m (waterAir m p vx e) S (0.182 * f) with
        | none => simp [h3] at h
        | some u =>
          rw [h3] at h
          simp only [Option.bind_some, npDiv_of_ne hfac, Option.some_inj, Prod.mk.injEq] at h
          exact ⟨by rw [h.1], con, k, rfl, h2, h.2.symm⟩

end Verif.Lemmas
