import Verif.Lemmas.Oxygen

/-!
# Oxygen absorption (C37), independence of earlier loads (C39)
-/

namespace Verif.Props

open Verif.Model Verif.Py Verif.Lemmas

/-- C37: the names with an oxygen line table. -/
theorem C37_names (m : String) : (oxygenFile m).isSome ↔ m ∈ ["R98", "R03", "R16", "R17", "R18", "R19", "R19SD", "R20",
    "R20SD", "R22", "R23", "R24"] := by
  have e : oxygenGroups.map (·.1) = ["R98", "R03", "R16", "R17", "R18", "R19", "R19SD", "R20", "R20SD", "R22", "R23",
    "R24"] := rfl
  rw [← e]
  constructor
  · intro h
    obtain ⟨F, hF⟩ := Option.isSome_iff_exists.1 h
    obtain ⟨T, hT, -⟩ := oxygenFile_some hF
    exact List.mem_map.2 ⟨_, hT, rfl⟩
  · intro h
    obtain ⟨⟨m', T⟩, hT, rfl⟩ := List.mem_map.1 h
    unfold oxygenFile
    have : (oxygenGroups.lookup m').isSome := by
      rw [List.lookup_isSome_iff]
      exact ⟨_, hT, by simp⟩
    obtain ⟨T', hT'⟩ := Option.isSome_iff_exists.1 this
    have hmem : (m', T') ∈ oxygenGroups := by
      rw [List.lookup_eq_some_iff] at hT'
      obtain ⟨l₁, l₂, h, -⟩ := hT'
      simp [h]
    simp only [hT', Option.bind_some]
    rw [if_pos (oxygenGroups_pos _ hmem).2.2.2.1]
    rfl

/-- C37: with a shipped table every state of the air gives finite numbers; the line term is never negative except
possibly for R98; the separate continuum is positive for the five oldest models and zero for the others (whose line
term contains it). -/
theorem C37_sign {m : String} {F : LineList} (hF : oxygenFile m = some F) (old : LineList) {p vx e f : ℝ} (hp : 0 ≤ p)
    (hv : 0 < vx) (he : 0 ≤ e) (hpe : 0 < p + e) (hf : 0 < f) :
    ∃ n c, o2Absorption m (reloadLL F old) p vx e f = .ok (some (n, c)) ∧ (m ≠ "R98" → 0 ≤ n) ∧
      (m ∈ ["R98", "R03", "R16", "R17", "R18"] → 0 < c) ∧ (m ∉ ["R98", "R03", "R16", "R17", "R18"] → c = 0) := by
  obtain ⟨G⟩ := goodOxy_of_file hF old
  obtain ⟨s, hs⟩ := oxySum_some hF old G hp hv he hpe hf
  obtain ⟨ht, hpd, hd, hp1, hdf⟩ := oxyAir_props m (G.x 0) (G.wb300 0) hp hv he hpe G.pwb
  have hq : (0.182 * f) ≠ 0 := by positivity
  have hq0 : 0 < 0.182 * f := by positivity
  have hdb := db2np_pos
  unfold o2Absorption
  simp only [attr_some G.hx, attr_some G.hwb, bind, Except.bind, hs, pure, Except.pure, if_pos hv, npDiv_of_ne hq,
    Option.bind_some]
  generalize oxyAir m (G.x 0) (G.wb300 0) p vx e = A at *
  have hn : m ≠ "R98" → 0 ≤ oxyAbs m A f s / db2np / (0.182 * f) := by
    intro h98
    have : 0 ≤ oxyAbs m A f s := by
      unfold oxyAbs
      simp only [if_pos h98]
      split_ifs <;> first
        | exact le_max_right _ _
        | exact mul_nonneg (by norm_num) (le_max_right _ _)
    positivity
  have hnames : m ∈ ["R98", "R03", "R16", "R17", "R18", "R19", "R19SD", "R20", "R20SD", "R22", "R23", "R24"] :=
    (C37_names m).1 (by rw [hF]; rfl)
  by_cases hw : m ∈ oxyWhole
  · simp only [if_pos hw, Option.bind_some]
    refine ⟨_, _, rfl, hn, fun h => absurd hw ?_, fun _ => rfl⟩
    simp only [List.mem_cons, List.not_mem_nil, or_false] at h
    rcases h with rfl | rfl | rfl | rfl | rfl <;> decide
  · have hap : m ∈ ["R98", "R03", "R16", "R17", "R18"] := by
      simp only [List.mem_cons, List.not_mem_nil, or_false, oxyWhole] at hnames hw ⊢
      tauto
    have hc : ∃ c, oxyCon m A f = some c ∧ 0 < c := by
      unfold oxyCon
      split_ifs
      · rw [oxyNonres_some _ hf ht]
        exact ⟨_, rfl, by positivity⟩
      · rw [oxyNonres_some _ hf ht]
        exact ⟨_, rfl, by positivity⟩
    obtain ⟨c, hc, hc0⟩ := hc
    simp only [if_neg hw, hc, Option.bind_some]
    exact ⟨_, _, rfl, hn, fun _ => by positivity, fun h => absurd hap h⟩

example : ∃ F, oxygenFile "R24" = some F ∧ ∃ n c, o2Absorption "R24" (reloadLL F fun _ => none) 100 1 1 118.75 =
    .ok (some (n, c)) ∧ 0 ≤ n ∧ c = 0 := by
  have h : (oxygenFile "R24").isSome := (C37_names _).2 (by decide)
  obtain ⟨F, hF⟩ := Option.isSome_iff_exists.1 h
  obtain ⟨n, c, h1, h2, -, h3⟩ := C37_sign hF (fun _ => none) (p := 100) (vx := 1) (e := 1) (f := 118.75) (by norm_num)
    (by norm_num) (by norm_num) (by norm_num) (by norm_num)
  exact ⟨F, hF, n, c, h1, h2 (by decide), h3 (by decide)⟩

/-- C39: what the process had loaded before does not matter. -/
theorem C39_oxygen {m : String} {F : LineList} (hF : oxygenFile m = some F) (old old' : LineList) (p vx e f : ℝ) :
    o2Absorption m (reloadLL F old) p vx e f = o2Absorption m (reloadLL F old') p vx e f := by
  refine o2_congr (fun a ha => ?_) p vx e f
  obtain ⟨v, h1, h2⟩ := oxyFile_reads hF old a ha
  obtain ⟨v', h1', h2'⟩ := oxyFile_reads hF old' a ha
  rw [attr_some h2, attr_some h2']
  rw [h1, Option.some_inj] at h1'
  rw [h1']

example : ∃ F F', oxygenFile "R98" = some F ∧ oxygenFile "R24" = some F' ∧
    o2Absorption "R98" (reloadLL F (reloadLL F' fun _ => none)) 100 1 1 50 =
      o2Absorption "R98" (reloadLL F fun _ => none) 100 1 1 50 := by
  obtain ⟨F, hF⟩ := Option.isSome_iff_exists.1 ((C37_names "R98").2 (by decide))
  obtain ⟨F', hF'⟩ := Option.isSome_iff_exists.1 ((C37_names "R24").2 (by decide))
  exact ⟨F, F', hF, hF', C39_oxygen hF _ _ _ _ _ _⟩

/-- C37: R17, R18, R19 and R19SD share one table of lines. -/
theorem C37_one_table : oxygenFile "R17" = oxygenFile "R19" ∧ oxygenFile "R18" = oxygenFile "R19" ∧
    oxygenFile "R19SD" = oxygenFile "R19" := by
  refine ⟨rfl, rfl, rfl⟩

/-- Sum over the lines of Rosenkranz's shape with first-order mixing, relative to reference temperature `300/θ`;
`w` is the width parameter in GHz. -/
noncomputable def lineSum (n : ℕ) (f0 s300 be w300 y300 v : ℕ → ℝ) (w θ f : ℝ) : ℝ :=
  ∑ k ∈ Finset.range n, s300 k * Real.exp (-be k * (θ - 1)) *
    ((w300 k * w + (f - f0 k) * (w * (y300 k + v k * (θ - 1)))) / ((f - f0 k) ^ 2 + (w300 k * w) ^ 2) +
      (w300 k * w - (f + f0 k) * (w * (y300 k + v k * (θ - 1)))) / ((f + f0 k) ^ 2 + (w300 k * w) ^ 2)) * (f / f0 k) ^ 2

/-- What one of R17, R18, R19, R19SD gives in dry air. -/
theorem mid_dry {m : String} (hm : m ∈ ["R17", "R18", "R19", "R19SD"]) {F : LineList}
    (old : LineList) (G : GoodOxy (reloadLL F old)) {y300 v : Val} (hy : reloadLL F old "y300" = some y300)
    (hvv : reloadLL F old "v" = some v) {p vx f : ℝ} (hp : 0 < p) (hv : 0 < vx) (hf : 0 < f) :
    o2Absorption m (reloadLL F old) p vx 0 f =
      let w := 0.01 * p * vx ^ G.x 0
      let K := 1.6097e11 * (10 * p) * vx ^ 3 / db2np / (0.182 * f)
      let L := K * lineSum G.n G.f G.s300 G.be G.w300 y300 v w vx f
      let N := K * (1.584e-17 * f * f * (G.wb300 0 * w) / (vx * (f * f + (G.wb300 0 * w) * (G.wb300 0 * w))))
      .ok (some (if m ∈ ["R17", "R18"] then (max L 0, N) else (max (L + N) 0, 0))) := by
  have hth : 300.0 / (300.0 / vx) = vx := by field_simp
  have hA : ∀ m ∈ ["R17", "R18", "R19", "R19SD"], oxyAir m (G.x 0) (G.wb300 0) p vx 0 =
      { th := vx, th1 := vx - 1, b := vx ^ G.x 0, pres := 10 * p, presda := 10 * p, den := 0.01 * p * vx ^ G.x 0,
        pe1 := 0.01 * p * vx ^ G.x 0, pe2 := 0.01 * p * vx ^ G.x 0 * (0.01 * p * vx ^ G.x 0),
        dfnr := G.wb300 0 * (0.01 * p * vx ^ G.x 0) } := by
    intro m hm
    have e1 : (0.001 * (10 * p * vx ^ G.x 0) : ℝ) = 0.01 * p * vx ^ G.x 0 := by norm_num; ring
    have e2 : p * 10.0 = 10 * p := by norm_num; ring
    simp only [List.mem_cons, List.not_mem_nil, or_false] at hm
    rcases hm with rfl | rfl | rfl | rfl
    all_goals
      simp only [oxyAir, hth, zero_mul, zero_div, mul_zero, add_zero, sub_zero, ite_self, e2]
      simp [e1]
      try norm_num
  have hw : 0 < 0.01 * p * vx ^ G.x 0 := by positivity
  have hm' : m ∉ ["R03", "R98"] ∧ m ≠ "R23" ∧ m ≠ "R24" ∧ m ≠ "R98" ∧ m ∉ ["R20", "R20SD", "R22", "R22SD"] := by
    simp only [List.mem_cons, List.not_mem_nil, or_false] at hm
    rcases hm with rfl | rfl | rfl | rfl <;> decide
  have hq : (0.182 * f) ≠ 0 := by positivity
  have hq0 : 0 < 0.182 * f := by positivity
  have hdb := db2np_pos
  obtain ⟨s0, hs0⟩ : ∃ s, (if m ∈ oxyApart then some 0 else oxyNonres 1.584e-17 (oxyAir m (G.x 0) (G.wb300 0) p vx 0) f
      : Option ℝ) = some s := by
    split_ifs
    · exact ⟨_, rfl⟩
    · exact ⟨_, oxyNonres_some _ hf (by rw [hA m hm]; exact hv)⟩
  have hsum : oxySum m (reloadLL F old) (oxyAir m (G.x 0) (G.wb300 0) p vx 0) (G.wb300 0) f =
      .ok (some (s0 + lineSum G.n G.f G.s300 G.be G.w300 y300 v (0.01 * p * vx ^ G.x 0) vx f)) := by
    unfold oxySum
    simp only [hs0, if_neg hm'.1, if_pos hm]
    rw [hA m hm]
    unfold oxySumMid
    simp only [attr_some G.hn, attr_some G.hf, attr_some G.hs300, attr_some G.hbe, attr_some G.hw300, attr_some hy,
      attr_some hvv, bind, Except.bind, pure, Except.pure, numLines_nat]
    rw [oxyLoop_some f _ s0 (fun k hk => (G.pos k hk).1)
      (fun k hk => oxyShape_some f _ (mul_pos (G.pos k hk).2.2 hw) _ _)]
    simp only [lineSum, mul_one, pow_two]
  have hmax (a : ℝ) : max a 0 / db2np / (0.182 * f) = max (a / db2np / (0.182 * f)) 0 := by
    have h := max_div_div_right (c := db2np * (0.182 * f)) (by positivity) a 0
    rw [zero_div] at h
    rw [div_div, div_div, h]
  unfold o2Absorption
  simp only [attr_some G.hx, attr_some G.hwb, bind, Except.bind, hsum, pure, Except.pure, if_pos hv, npDiv_of_ne hq,
    Option.bind_some]
  have habs (s : ℝ) : oxyAbs m (oxyAir m (G.x 0) (G.wb300 0) p vx 0) f s / db2np / (0.182 * f) =
      max (1.6097e11 * (10 * p) * vx ^ 3 / db2np / (0.182 * f) * s) 0 := by
    unfold oxyAbs
    simp only [if_neg hm'.1, if_neg hm'.2.1, if_neg hm'.2.2.1, if_pos hm'.2.2.2.1, if_neg hm'.2.2.2.2]
    rw [hmax, hA m hm]
    congr 1
    ring
  rw [habs]
  by_cases hmm : m ∈ ["R17", "R18"]
  · have hap : m ∈ oxyApart := by
      simp only [List.mem_cons, List.not_mem_nil, or_false] at hmm
      rcases hmm with rfl | rfl <;> decide
    have hnw : m ∉ oxyWhole := by
      simp only [List.mem_cons, List.not_mem_nil, or_false] at hmm
      rcases hmm with rfl | rfl <;> decide
    rw [if_pos hap, Option.some_inj] at hs0
    rw [if_neg hnw, if_pos hmm, ← hs0, zero_add]
    unfold oxyCon
    rw [if_neg hm'.1, oxyNonres_some _ hf (by rw [hA m hm]; exact hv), hA m hm]
    simp only [Option.map_some, Option.bind_some]
    congr 3
    ring
  · have hap : m ∉ oxyApart := by
      simp only [List.mem_cons, List.not_mem_nil, or_false] at hmm hm
      rcases hm with rfl | rfl | rfl | rfl
      · exact absurd (Or.inl rfl) hmm
      · exact absurd (Or.inr rfl) hmm
      · decide
      · decide
    have hnw : m ∈ oxyWhole := by
      simp only [List.mem_cons, List.not_mem_nil, or_false] at hmm hm
      rcases hm with rfl | rfl | rfl | rfl
      · exact absurd (Or.inl rfl) hmm
      · exact absurd (Or.inr rfl) hmm
      · decide
      · decide
    rw [if_neg hap, oxyNonres_some _ hf (by rw [hA m hm]; exact hv), hA m hm, Option.some_inj] at hs0
    rw [if_pos hnw, if_neg hmm, ← hs0]
    simp only [Option.bind_some]
    congr 4
    ring

/-- Entry of a table as a fraction. -/
def entry (T : List (String × Col)) (a : String) (k : ℕ) : ℚ :=
  match T.lookup a with
  | some c => (c.digits.getD k 0 : ℚ) / 10 ^ c.scale
  | none => 0

theorem entry_val {m : String} {T : List (String × Col)} (hl : oxygenGroups.lookup m = some T) {F : LineList}
    (hF : oxygenFile m = some F) (old : LineList) {a : String} (ha : a ∈ oxygenAssign m) (hne : a ≠ "len(f)") {v : Val}
    (hv : reloadLL F old a = some v) (k : ℕ) : v k = (entry T a k : ℝ) := by
  unfold oxygenFile at hF
  rw [hl, Option.bind_some] at hF
  split_ifs at hF with h
  rw [Option.some_inj] at hF
  obtain ⟨c, hc⟩ := Option.isSome_iff_exists.1 (h a ha)
  have : reloadLL F old a = some c.val := reload_some (by rw [← hF]; simp only [if_neg hne, if_pos ha, hc, Option.map_some])
  rw [this, Option.some_inj] at hv
  rw [← hv, entry, hc]
  simp only [Col.val]
  push_cast
  rfl

theorem lineCount {m : String} {T : List (String × Col)} (hl : oxygenGroups.lookup m = some T) {F : LineList}
    (hF : oxygenFile m = some F) (old : LineList) (G : GoodOxy (reloadLL F old)) {n : ℕ}
    (hn : (T.lookup "f").map (fun c => c.digits.length) = some n) : G.n = n := by
  have h1 := G.hn
  have hF' := hF
  unfold oxygenFile at hF'
  rw [hl, Option.bind_some] at hF'
  split_ifs at hF'
  rw [Option.some_inj] at hF'
  cases hc : T.lookup "f" with
  | none => simp [hc] at hn
  | some c =>
    rw [hc, Option.map_some, Option.some_inj] at hn
    have : reloadLL F old "len(f)" = some fun _ => ((c.digits.length : ℕ) : ℝ) := reload_some (by
      rw [← hF']; simp only [if_true, hc, Option.map_some])
    rw [this, Option.some_inj] at h1
    have := congrFun h1 0
    rw [← hn]
    exact_mod_cast this.symm

/-- C37: in dry air, on the same 49 lines, R17 and R18 return the line sum cut at zero and the non-resonant term
beside it, R19 and R19SD their sum cut at zero.  Where the line sum is negative the totals therefore differ. -/
theorem C37_two_ways {F : LineList} (hF : oxygenFile "R19" = some F) (old : LineList) {p vx f : ℝ} (hp : 0 < p)
    (hv : 0 < vx) (hf : 0 < f) :
    let E := fun a k => (entry oxygenR19 a k : ℝ)
    let w := 0.01 * p * vx ^ E "x" 0
    let K := 1.6097e11 * (10 * p) * vx ^ 3 / db2np / (0.182 * f)
    let L := K * lineSum 49 (E "f") (E "s300") (E "be") (E "w300") (E "y300") (E "v") w vx f
    let N := K * (1.584e-17 * f * f * (E "wb300" 0 * w) / (vx * (f * f + (E "wb300" 0 * w) * (E "wb300" 0 * w))))
    (∀ m ∈ ["R17", "R18"], o2Absorption m (reloadLL F old) p vx 0 f = .ok (some (max L 0, N))) ∧
      (∀ m ∈ ["R19", "R19SD"], o2Absorption m (reloadLL F old) p vx 0 f = .ok (some (max (L + N) 0, 0))) := by
  obtain ⟨G⟩ := goodOxy_of_file hF old
  obtain ⟨y, -, hy⟩ := oxyFile_reads hF old "y300" (by decide)
  obtain ⟨v, -, hvv⟩ := oxyFile_reads hF old "v" (by decide)
  have hl : oxygenGroups.lookup "R19" = some oxygenR19 := rfl
  have e {a : String} {u : Val} (ha : a ∈ oxygenAssign "R19") (hne : a ≠ "len(f)") (hu : reloadLL F old a = some u) :
      (fun k => (entry oxygenR19 a k : ℝ)) = u := funext fun k => (entry_val hl hF old ha hne hu k).symm
  have hn : G.n = 49 := lineCount hl hF old G rfl
  intro E w K L N
  have hx : E "x" = G.x := e (by decide) (by decide) G.hx
  have hwb : E "wb300" = G.wb300 := e (by decide) (by decide) G.hwb
  have hmd (m : String) (hm : m ∈ ["R17", "R18", "R19", "R19SD"]) := mid_dry hm old G hy hvv hp hv hf
  simp only [← e (by decide) (by decide) hy, ← e (by decide) (by decide) hvv, ← e (by decide) (by decide) G.hf,
    ← e (by decide) (by decide) G.hs300, ← e (by decide) (by decide) G.hbe, ← e (by decide) (by decide) G.hw300,
    ← hx, ← hwb, hn] at hmd
  refine ⟨fun m hm => ?_, fun m hm => ?_⟩
  · rw [hmd m (by simp only [List.mem_cons, List.not_mem_nil, or_false] at hm ⊢; tauto), if_pos hm]
  · have : m ∉ ["R17", "R18"] := by
      simp only [List.mem_cons, List.not_mem_nil, or_false] at hm
      rcases hm with rfl | rfl <;> decide
    rw [hmd m (by simp only [List.mem_cons, List.not_mem_nil, or_false] at hm ⊢; tauto), if_neg this]

example : ∃ F, oxygenFile "R19" = some F ∧ ∃ N, o2Absorption "R17" (reloadLL F fun _ => none) 90 1.1 0 60 =
    .ok (some N) ∧ 0 ≤ N.1 := by
  obtain ⟨F, hF⟩ := Option.isSome_iff_exists.1 ((C37_names "R19").2 (by decide))
  have h := (C37_two_ways hF (fun _ => none) (p := 90) (vx := 1.1) (f := 60) (by norm_num) (by norm_num)
    (by norm_num)).1 "R17" (by decide)
  exact ⟨F, hF, _, h, le_max_right _ _⟩

/-- The line sum at 300 K, 1000 hPa, 200 GHz in exact fractions. -/
def lineSumQ (T : List (String × Col)) (n : ℕ) : ℚ := ((List.range n).map fun k => entry T "s300" k *
    ((entry T "w300" k + (200 - entry T "f" k) * entry T "y300" k) / ((200 - entry T "f" k) ^ 2 + entry T "w300" k ^ 2) +
      (entry T "w300" k - (200 + entry T "f" k) * entry T "y300" k) / ((200 + entry T "f" k) ^ 2 + entry T "w300" k ^ 2)) *
      (200 / entry T "f" k) ^ 2).sum

set_option maxRecDepth 10000 in
theorem lineSumQ_neg : lineSumQ oxygenR19 49 < 0 ∧ lineSumQ oxygenR98 40 < 0 := by decide +kernel

/-- The line sum of a shipped table at 300 K, 1000 hPa, 200 GHz is that fraction. -/
theorem lineSum_eq {m : String} {T : List (String × Col)} (hl : oxygenGroups.lookup m = some T) {F : LineList}
    (hF : oxygenFile m = some F) (old : LineList) (G : GoodOxy (reloadLL F old)) {y v : Val}
    (hy : reloadLL F old "y300" = some y) (hya : "y300" ∈ oxygenAssign m) {n : ℕ}
    (hn : (T.lookup "f").map (fun c => c.digits.length) = some n) :
    lineSum G.n G.f G.s300 G.be G.w300 y v 1 1 200 = (lineSumQ T n : ℝ) := by
  have hnn : G.n = n := lineCount hl hF old G hn
  have hcom (a : String) (ha : a ∈ ["f", "s300", "be", "wb300", "x", "w300"]) : a ∈ oxygenAssign m := by
    simp only [oxygenAssign, List.append_assoc, List.mem_append]
    exact Or.inl ha
  unfold lineSum lineSumQ
  rw [hnn, Finset.sum_range, ← List.sum_ofFn]
  rw [← List.map_coe_finRange_eq_range, List.map_map, List.ofFn_eq_map, Rat.cast_list_sum, List.map_map]
  congr 1
  apply List.map_congr_left
  intro k _
  simp only [Function.comp, entry_val hl hF old (a := "f") (hcom _ (by decide)) (by decide) G.hf,
    entry_val hl hF old (a := "s300") (hcom _ (by decide)) (by decide) G.hs300,
    entry_val hl hF old (a := "w300") (hcom _ (by decide)) (by decide) G.hw300,
    entry_val hl hF old (a := "y300") hya (by decide) hy]
  push_cast
  simp

/-- C37: at 300 K, 1000 hPa, 200 GHz this happens: R17 and R18 return no line absorption but the whole non-resonant
term, and their total exceeds that of R19 and R19SD, on the same lines in the same air. -/
theorem C37_cut_too_early {F : LineList} (hF : oxygenFile "R19" = some F) (old : LineList) :
    ∃ N T, T < N ∧ (∀ m ∈ ["R17", "R18"], o2Absorption m (reloadLL F old) 100 1 0 200 = .ok (some (0, N))) ∧
      (∀ m ∈ ["R19", "R19SD"], o2Absorption m (reloadLL F old) 100 1 0 200 = .ok (some (T, 0))) := by
  obtain ⟨G⟩ := goodOxy_of_file hF old
  obtain ⟨y, -, hy⟩ := oxyFile_reads hF old "y300" (by decide)
  obtain ⟨v, -, hvv⟩ := oxyFile_reads hF old "v" (by decide)
  have hdb := db2np_pos
  have hwb := G.pwb
  have hneg : lineSum G.n G.f G.s300 G.be G.w300 y v 1 1 200 < 0 := by
    rw [lineSum_eq (T := oxygenR19) rfl hF old G hy (by decide) (n := 49) rfl]
    exact_mod_cast lineSumQ_neg.1
  have hm (m : String) (hm : m ∈ ["R17", "R18", "R19", "R19SD"]) := mid_dry (m := m) hm old G hy hvv (p := 100) (vx := 1)
    (f := 200) (by norm_num) (by norm_num) (by norm_num)
  have e1 : (0.01 * 100 * 1 ^ G.x 0 : ℝ) = 1 := by rw [Real.one_rpow]; norm_num
  simp only [e1] at hm
  set K : ℝ := 1.6097e11 * (10 * 100) * 1 ^ 3 / db2np / (0.182 * 200) with hK
  have hK0 : 0 < K := by positivity
  set N : ℝ := K * (1.584e-17 * 200 * 200 * (G.wb300 0 * 1) / (1 * (200 * 200 + G.wb300 0 * 1 * (G.wb300 0 * 1)))) with hN
  have hN0 : 0 < N := by positivity
  have hKL : K * lineSum G.n G.f G.s300 G.be G.w300 y v 1 1 200 < 0 := mul_neg_of_pos_of_neg hK0 hneg
  refine ⟨N, max (K * lineSum G.n G.f G.s300 G.be G.w300 y v 1 1 200 + N) 0, max_lt (by linarith) hN0, fun m h => ?_,
    fun m h => ?_⟩
  · rw [hm m (by simp only [List.mem_cons, List.not_mem_nil, or_false] at h ⊢; tauto), if_pos h, max_eq_right hKL.le]
  · have : m ∉ ["R17", "R18"] := by
      simp only [List.mem_cons, List.not_mem_nil, or_false] at h
      rcases h with rfl | rfl <;> decide
    rw [hm m (by simp only [List.mem_cons, List.not_mem_nil, or_false] at h ⊢; tauto), if_neg this]

example : ∃ F, oxygenFile "R19" = some F ∧ o2Absorption "R17" (reloadLL F fun _ => none) 100 1 0 200 ≠
    o2Absorption "R19" (reloadLL F fun _ => none) 100 1 0 200 := by
  obtain ⟨F, hF⟩ := Option.isSome_iff_exists.1 ((C37_names "R19").2 (by decide))
  obtain ⟨N, T, h, h1, h2⟩ := C37_cut_too_early hF (fun _ => none)
  refine ⟨F, hF, ?_⟩
  rw [h1 "R17" (by decide), h2 "R19" (by decide)]
  intro h'
  simp only [Except.ok.injEq, Option.some.injEq, Prod.mk.injEq] at h'
  linarith

/-- C37: R98 does not cut: in the same state it returns a negative line absorption. -/
theorem C37_R98_negative {F : LineList} (hF : oxygenFile "R98" = some F) (old : LineList) :
    ∃ n c, o2Absorption "R98" (reloadLL F old) 100 1 0 200 = .ok (some (n, c)) ∧ n < 0 := by
  obtain ⟨G⟩ := goodOxy_of_file hF old
  obtain ⟨y, -, hy⟩ := oxyFile_reads hF old "y300" (by decide)
  obtain ⟨v, -, hvv⟩ := oxyFile_reads hF old "v" (by decide)
  have hdb := db2np_pos
  have hneg : lineSum G.n G.f G.s300 G.be G.w300 y v 1 1 200 < 0 := by
    rw [lineSum_eq (T := oxygenR98) rfl hF old G hy (by decide) (n := 40) rfl]
    exact_mod_cast lineSumQ_neg.2
  obtain ⟨n, c, h, -⟩ := C37_sign hF old (p := 100) (vx := 1) (e := 0) (f := 200) (by norm_num) (by norm_num) le_rfl
    (by norm_num) (by norm_num)
  refine ⟨n, c, h, ?_⟩
  have hA : oxyAir "R98" (G.x 0) (G.wb300 0) 100 1 0 =
      (⟨1, 0, 1, 1000, 1000, 1, 1, 1, G.wb300 0⟩ : OxyAir) := by
    simp [oxyAir]
    norm_num
  have hsum : oxySum "R98" (reloadLL F old) (oxyAir "R98" (G.x 0) (G.wb300 0) 100 1 0) (G.wb300 0) 200 =
      .ok (some (lineSum G.n G.f G.s300 G.be G.w300 y v 1 1 200)) := by
    unfold oxySum
    simp only [show ("R98" ∈ oxyApart) from by decide, if_true, show ("R98" ∈ ["R03", "R98"]) from by decide]
    rw [hA]
    unfold oxySumOld
    simp only [attr_some G.hn, attr_some G.hf, attr_some G.hs300, attr_some G.hbe, attr_some G.hw300, attr_some hy,
      attr_some hvv, bind, Except.bind, pure, Except.pure, numLines_nat]
    rw [oxyLoop_some 200 _ 0 (fun k hk => (G.pos k hk).1)
      (fun k hk => oxyShape_some 200 _ (mul_pos (G.pos k hk).2.2 one_pos) _ _)]
    simp only [lineSum, mul_one, zero_add, sub_self, mul_zero, add_zero, one_mul, pow_two]
    norm_num
  unfold o2Absorption at h
  have hq : (0.182 * 200 : ℝ) ≠ 0 := by norm_num
  simp only [attr_some G.hx, attr_some G.hwb, bind, Except.bind, hsum, pure, Except.pure, if_pos (one_pos (α := ℝ)),
    npDiv_of_ne hq, Option.bind_some] at h
  have hw : "R98" ∉ oxyWhole := by decide
  rw [if_neg hw, hA] at h
  cases hc : oxyCon "R98" (⟨1, 0, 1, 1000, 1000, 1, 1, 1, G.wb300 0⟩ : OxyAir) 200 with
  | none => simp [hc] at h
  | some c' =>
    rw [hc] at h
    simp only [Option.bind_some, Except.ok.injEq, Option.some.injEq, Prod.mk.injEq] at h
    rw [← h.1]
    have : oxyAbs "R98" (⟨1, 0, 1, 1000, 1000, 1, 1, 1, G.wb300 0⟩ : OxyAir) 200 (lineSum G.n G.f G.s300 G.be G.w300 y v 1 1 200) < 0 := by
      have h98 : ¬("R98" ≠ "R98") := by simp
      unfold oxyAbs
      simp only [show ("R98" ∈ ["R03", "R98"]) from by decide, if_true, if_neg h98,
        show ¬("R98" ∈ ["R20", "R20SD", "R22", "R22SD"]) from by decide, if_false]
      norm_num
      linarith
    apply div_neg_of_neg_of_pos _ (by norm_num)
    exact div_neg_of_neg_of_pos this hdb

example : ∃ F, oxygenFile "R98" = some F ∧ ∃ n c, o2Absorption "R98" (reloadLL F fun _ => none) 100 1 0 200 =
    .ok (some (n, c)) ∧ n < 0 := by
  obtain ⟨F, hF⟩ := Option.isSome_iff_exists.1 ((C37_names "R98").2 (by decide))
  exact ⟨F, hF, C37_R98_negative hF _⟩

end Verif.Props
