import Verif.Lemmas.WaterParams

/-!
# Runs with modified spectroscopic parameters of water vapour: C40
-/

namespace Verif.Props

open Verif.Model Verif.Py Verif.Lemmas Real

/-- C40: for every model after R17, and for any line list, a run with the unperturbed parameters of the model is the run
without parameters. -/
theorem C40_water_unperturbed {m : String} {ll : LineList} {P : Params} (h : waterParams m ll = .ok P) (hm : "R17" < m)
    (p vx e f : ℝ) : h2oWith m P ll p vx e f = h2oAbsorption m ll p vx e f := by
  obtain ⟨K, e1, e2, e3, e4, e5, e6, e7, e8, e9, e10, e11, hl, -⟩ := waterParams_common h
  obtain ⟨da, dw, nda, ndw, p1, p2, p3, p4, l1, l2, l3, l4⟩ := hl hm
  unfold h2oWith
  rw [amuWater_late hm K p1 p2 p3 p4, set_self e1, set_self e2,
    setCommon_self (fun _ _ _ => rfl) e3 e4 e5 e6 e7 e8 e9 e10, set_self l1, set_self l2, set_self l3,
    set_self l4, set_self e11]
  rfl



/-- C40: the same for R03, whose continuum does not use the scaled coefficients. -/
theorem C40_water_R03 {ll : LineList} {P : Params} (h : waterParams "R03" ll = .ok P) (p vx e f : ℝ) :
    h2oWith "R03" P ll p vx e f = h2oAbsorption "R03" ll p vx e f := by
  obtain ⟨cf, cs, h1, h2, h3⟩ := early_lists h (by decide)
  unfold h2oWith
  rw [h3]
  show h2oAbsorption "R03" _ p vx e f = _
  have hL : ∀ a, a ≠ "cf" → a ≠ "cs" → ((ll.set "cf" fun i => cf i * 1.11).set "cs" fun i => cs i * 0.79) a = ll a := by
    intro a h1 h2
    simp [LineList.set, h1, h2]
  generalize hL' : ((ll.set "cf" fun i => cf i * 1.11).set "cs" fun i => cs i * 0.79) = L at hL ⊢
  have hs := waterSum_congr (m := "R03") (ll := L) (ll' := ll) (by
    intro a _ ha
    unfold attr
    rw [hL a (by rintro rfl; exact ha (by decide)) (by rintro rfl; exact ha (by decide))])
  have hc : ∀ A, waterCon "R03" L A vx f = waterCon "R03" ll A vx f := by
    intro A
    unfold waterCon attr
    rw [hL "reftcon" (by decide) (by decide)]
    simp
  unfold h2oAbsorption
  simp only [hs, hc]
  rfl

/-- C40 does not hold for R16 and R17: with the unperturbed parameters the foreign part of the continuum, `a p + b` at dry
pressure `p`, is multiplied by 1.11 and the self part `v` by 0.79. -/
theorem C40_water_factors {m : String} (hm : m ∈ ["R16", "R17"]) {F : LineList} (hF : waterFile m = some F)
    (old : LineList) {vx e f : ℝ} (hv : 0 < vx) (he : 0 < e) (hf : 0 < f) :
    ∃ P a b v, waterParams m (reloadLL F old) = .ok P ∧ 0 < a ∧ 0 ≤ b ∧ 0 < v ∧ ∀ p, 0 ≤ p → ∃ n,
      h2oAbsorption m (reloadLL F old) p vx e f = .ok (some (n, (a * p + b) + v)) ∧
      h2oWith m P (reloadLL F old) p vx e f = .ok (some (n, 1.11 * (a * p + b) + 0.79 * v)) := by
  obtain ⟨G⟩ := goodLines_of_file hF old
  obtain ⟨ht, -, hpv, hpd, -⟩ := waterAir_props m le_rfl hv he
  have hlt : ¬ "R17" < m := by
    simp only [List.mem_cons, List.not_mem_nil, or_false] at hm
    rcases hm with rfl | rfl <;> decide
  obtain ⟨sr, -, hsr⟩ := file_reads hF old "sr" (by
    simp only [List.mem_cons, List.not_mem_nil, or_false] at hm
    rcases hm with rfl | rfl <;> decide +kernel)
  obtain ⟨P, hP⟩ := waterParams_ok (m := m) (ll := reloadLL F old) (by
    intro a ha
    simp only [waterParamReads, if_neg hlt, List.mem_append, List.mem_cons, List.not_mem_nil, or_false] at ha
    rcases ha with (rfl | rfl | rfl | rfl | rfl | rfl | rfl | rfl | rfl | rfl | rfl) | rfl <;>
      simp [G.hcf, G.hcs, G.hxcf, G.hxcs, G.hfl, G.hs1, G.hb2, G.hw0, G.hw0s, G.hx, G.hxs, hsr])
  have key (p : ℝ) (hp : 0 ≤ p) := water_factors hm hF old hp hv he hf G P hP
  have hcs := (key 0 le_rfl).1
  have hcf := G.preft.2.2
  have hti : 0 < G.reftcon 0 / (waterAir m 0 vx e).t := div_pos G.preft.2.1 ht
  have hdb := db2np_pos
  set A := waterAir m 0 vx e with hA
  refine ⟨P, G.cf 0 * 10 * (G.reftcon 0 / A.t) ^ G.xcf 0 * A.pvap * f * f / db2np / (0.182 * f),
    G.cf 0 * A.pda * (G.reftcon 0 / A.t) ^ G.xcf 0 * A.pvap * f * f / db2np / (0.182 * f),
    G.cs 0 * A.pvap * (G.reftcon 0 / A.t) ^ G.xcs 0 * A.pvap * f * f / db2np / (0.182 * f), hP, by positivity,
    by positivity, by positivity, ?_⟩
  intro p hp
  obtain ⟨-, n, h1, h2⟩ := key p hp
  have e1 : (waterAir m p vx e).t = A.t := rfl
  have e2 : (waterAir m p vx e).pvap = A.pvap := rfl
  have e3 : (waterAir m p vx e).pda = 10 * p + A.pda := by
    rw [hA]
    simp only [waterAir]
    norm_num
    ring
  rw [e1, e2, e3] at h1 h2
  refine ⟨n, ?_, ?_⟩
  · rw [h1]
    congr 3
    ring
  · rw [h2]
    congr 3
    ring

/-- C40: for R16 and R17 the two runs therefore differ, except at one dry pressure at most. -/
theorem C40_water_unperturbed_refuted {m : String} (hm : m ∈ ["R16", "R17"]) {F : LineList} (hF : waterFile m = some F)
    (old : LineList) {vx e f : ℝ} (hv : 0 < vx) (he : 0 < e) (hf : 0 < f) :
    ∃ P, waterParams m (reloadLL F old) = .ok P ∧ ∃ p₀, ∀ p, 0 ≤ p → p ≠ p₀ →
      h2oWith m P (reloadLL F old) p vx e f ≠ h2oAbsorption m (reloadLL F old) p vx e f := by
  obtain ⟨P, a, b, v, hP, ha, -, -, h⟩ := C40_water_factors hm hF old hv he hf
  refine ⟨P, hP, (21 / 11 * v - b) / a, ?_⟩
  intro p hp hne heq
  obtain ⟨n, h1, h2⟩ := h p hp
  rw [h1, h2] at heq
  simp only [Except.ok.injEq, Option.some.injEq, Prod.mk.injEq, true_and] at heq
  apply hne
  rw [eq_div_iff ha.ne']
  linarith

/-- C40: in a new process the unperturbed parameters exist for every model with a water vapour table except R98 and
MWL24, for which asking for them fails. -/
theorem C40_water_names {m : String} {F : LineList} (hF : waterFile m = some F) :
    (m ∉ ["R98", "MWL24"] → ∃ P, waterParams m (reloadLL F fun _ => none) = .ok P) ∧
      (m ∈ ["R98", "MWL24"] → waterParams m (reloadLL F fun _ => none) = .error .attributeError) := by
  rw [reload_none]
  unfold waterFile at hF
  cases hT : waterGroups.lookup m with
  | none => simp [hT] at hF
  | some T =>
    rw [hT, Option.map_some, Option.some_inj] at hF
    have hmem : (m, T) ∈ waterGroups := by
      rw [List.lookup_eq_some_iff] at hT
      obtain ⟨l₁, l₂, h, -⟩ := hT
      simp [h]
    rcases waterGroups_params _ hmem with ⟨hn, h⟩ | ⟨hn, a, ha, h⟩
    · refine ⟨fun _ => waterParams_ok ?_, fun hm => absurd hm hn⟩
      intro a ha
      obtain ⟨v, hv⟩ := hasAttr_some (h a ha)
      rw [← hF]
      exact Option.isSome_iff_exists.2 ⟨v, hv⟩
    · refine ⟨fun hm => absurd hn hm, fun _ => waterParams_fails ha ?_⟩
      rw [← hF]
      show (lastAssign (waterAssign m) a).bind (Src.val T) = none
      rw [h]
      rfl

example : ∃ F P, waterFile "R20SD" = some F ∧ waterParams "R20SD" (reloadLL F fun _ => none) = .ok P ∧
    ∀ p vx e f, h2oWith "R20SD" P (reloadLL F fun _ => none) p vx e f =
      h2oAbsorption "R20SD" (reloadLL F fun _ => none) p vx e f := by
  obtain ⟨F, hF⟩ := Option.isSome_iff_exists.1 ((C35_names "R20SD").2 (by decide))
  obtain ⟨P, hP⟩ := (C40_water_names hF).1 (by decide)
  exact ⟨F, P, hF, hP, C40_water_unperturbed hP (by decide)⟩

example : ∃ F P, waterFile "R03" = some F ∧ waterParams "R03" (reloadLL F fun _ => none) = .ok P ∧
    ∀ p vx e f, h2oWith "R03" P (reloadLL F fun _ => none) p vx e f =
      h2oAbsorption "R03" (reloadLL F fun _ => none) p vx e f := by
  obtain ⟨F, hF⟩ := Option.isSome_iff_exists.1 ((C35_names "R03").2 (by decide))
  obtain ⟨P, hP⟩ := (C40_water_names hF).1 (by decide)
  exact ⟨F, P, hF, hP, C40_water_R03 hP⟩

/-- The case R17 at 300 K. -/
example : ∃ F P, waterFile "R17" = some F ∧ waterParams "R17" (reloadLL F fun _ => none) = .ok P ∧
    ∃ p₀, ∀ p, 0 ≤ p → p ≠ p₀ → h2oWith "R17" P (reloadLL F fun _ => none) p 1 1 22.2 ≠
      h2oAbsorption "R17" (reloadLL F fun _ => none) p 1 1 22.2 := by
  obtain ⟨F, hF⟩ := Option.isSome_iff_exists.1 ((C35_names "R17").2 (by decide))
  obtain ⟨P, hP, p₀, h⟩ := C40_water_unperturbed_refuted (m := "R17") (by simp) hF (fun _ => none) (vx := 1) (e := 1)
    (f := 22.2) (by norm_num) (by norm_num) (by norm_num)
  exact ⟨F, P, hF, hP, p₀, h⟩

/-- C40: after a run with another model, the parameters of R98 exist, and some of them are those of the other model. -/
theorem C40_water_stale {F F' : LineList} (hF : waterFile "R98" = some F) (hF' : waterFile "R18" = some F')
    (older : LineList) : ∃ P, waterParams "R98" (reloadLL F (reloadLL F' older)) = .ok P ∧ P "n_da" = F' "xh" ∧
      P "n_dw" = F' "xhs" := by
  have none98 : ∀ a ∈ ["xh", "xhs", "sh", "shs"], F a = none := by
    intro a ha
    unfold waterFile at hF
    cases hT : waterGroups.lookup "R98" with
    | none => simp [hT] at hF
    | some T =>
      rw [hT, Option.map_some, Option.some_inj] at hF
      rw [← hF]
      have : lastAssign (waterAssign "R98") a = none := by
        revert a
        decide +kernel
      simp [this]
  have some18 : ∀ a ∈ ["xh", "xhs", "sh", "shs"], ∃ v, F' a = some v := by
    intro a ha
    obtain ⟨v, hv, -⟩ := file_reads hF' older a (by revert a; decide +kernel)
    exact ⟨v, hv⟩
  have stale : ∀ a ∈ ["xh", "xhs", "sh", "shs"], reloadLL F (reloadLL F' older) a = F' a := by
    intro a ha
    obtain ⟨v, hv⟩ := some18 a ha
    simp [reloadLL, none98 a ha, hv]
  obtain ⟨P, hP⟩ := waterParams_ok (m := "R98") (ll := reloadLL F (reloadLL F' older)) (by
    intro a ha
    by_cases h : a ∈ ["xh", "xhs", "sh", "shs"]
    · obtain ⟨v, hv⟩ := some18 a h
      rw [stale a h, hv]
      rfl
    · obtain ⟨v, -, hv⟩ := file_reads hF (reloadLL F' older) a (by revert a; decide +kernel)
      rw [hv]
      rfl)
  obtain ⟨K, -, -, -, -, -, -, -, -, -, -, -, hl, -⟩ := waterParams_common hP
  obtain ⟨da, dw, nda, ndw, p1, p2, p3, p4, l1, l2, l3, l4⟩ := hl (by decide)
  refine ⟨P, hP, ?_, ?_⟩
  · rw [p3, ← l3, stale "xh" (by simp)]
  · rw [p4, ← l4, stale "xhs" (by simp)]

example : ∃ F F', waterFile "R98" = some F ∧ waterFile "R18" = some F' ∧
    ∃ P, waterParams "R98" (reloadLL F (reloadLL F' fun _ => none)) = .ok P ∧ P "n_da" = F' "xh" := by
  obtain ⟨F, hF⟩ := Option.isSome_iff_exists.1 ((C35_names "R98").2 (by decide))
  obtain ⟨F', hF'⟩ := Option.isSome_iff_exists.1 ((C35_names "R18").2 (by decide))
  obtain ⟨P, hP, h, -⟩ := C40_water_stale hF hF' fun _ => none
  exact ⟨F, F', hF, hF', P, hP, h⟩

/-- The parameters of a water vapour model whose values have no effect. -/
def waterDead (m : String) : List String :=
  ["wv_nS"] ++
  if m = "R98" then ["con_Cf", "con_Cs", "con_Xf", "con_Xs", "con_Cf_factr", "con_Cs_factr", "SR", "delta_a", "delta_w",
    "n_da", "n_dw"]
  else if m = "R03" then ["con_Cf", "con_Cs", "con_Xf", "con_Xs", "con_Cf_factr", "con_Cs_factr", "delta_a", "delta_w",
    "n_da", "n_dw"]
  else if m = "MWL24" then ["con_Cf", "con_Cs", "con_Xf", "con_Xs", "con_Cf_factr", "con_Cs_factr", "SR", "delta_a",
    "delta_w", "n_da", "n_dw"]
  else if m ∈ ["R16", "R17"] then ["delta_a", "delta_w", "n_da", "n_dw"]
  else ["con_Cf_factr", "con_Cs_factr", "SR"]

/-- The attributes that reach the result. -/
def waterUses (m : String) : List String :=
  if m ∈ ["R98", "R03", "MWL24"] then (waterReads m).filter (· ∉ ["cf", "xcf", "cs", "xcs"]) else waterReads m

set_option maxRecDepth 10000 in
theorem waterDead_uses : ∀ g ∈ waterGroups, ∀ k ∈ waterDead g.1, ∀ a ∈ waterUses g.1, k ∉ waterKeysOf g.1 a := by
  decide +kernel

/-- C40: giving another value to one of the parameters in `waterDead` does not change the result of any run. -/
theorem C40_water_no_effect {m k : String} (hm : (waterFile m).isSome) (hk : k ∈ waterDead m) {P : Params}
    (hP : (P k).isSome) (v : Val) (ll : LineList) (p vx e f : ℝ) :
    h2oWith m (Function.update P k (some v)) ll p vx e f = h2oWith m P ll p vx e f := by
  have hdead : ∀ a ∈ waterUses m, k ∉ waterKeysOf m a := by
    rw [C35_names] at hm
    have e : waterGroups.map (·.1) = ["R98", "R03", "R16", "R17", "R18", "R19", "R19SD", "R20", "R20SD", "R21SD", "R22SD",
      "R23SD", "R24", "MWL24"] := rfl
    rw [← e] at hm
    obtain ⟨g, hg, rfl⟩ := List.mem_map.1 hm
    exact waterDead_uses g hg k hk
  have hs : ∀ k', (Function.update P k (some v) k').isSome ↔ (P k').isSome := by
    intro k'
    by_cases h : k' = k
    · subst h; simp [hP]
    · simp [h]
  unfold h2oWith
  rcases amuWater_agree (m := m) hs ll with ⟨h1, h2⟩ | ⟨L, L', h1, h2, hL⟩
  · rw [h1, h2]
  · rw [h1, h2]
    show h2oAbsorption m L p vx e f = h2oAbsorption m L' p vx e f
    have agree : ∀ a ∈ waterUses m, attr L a = attr L' a := by
      intro a ha
      unfold attr
      rw [hL a]
      intro k' hk'
      have : k' ≠ k := by rintro rfl; exact hdead a ha hk'
      simp [this]
    unfold waterUses at agree
    by_cases h3 : m ∈ ["R98", "R03", "MWL24"]
    · rw [if_pos h3] at agree
      exact h2o_congr_con h3 (fun a ha hc => agree a (by simp only [List.mem_filter]; exact ⟨ha, by simpa using hc⟩))
        p vx e f
    · rw [if_neg h3] at agree
      exact h2o_congr agree p vx e f

/-- Doubling the self continuum of R98, or the pressure shift of MWL24, changes nothing. -/
example (P : Params) (h : (P "con_Cs").isSome) (v : Val) (ll : LineList) (p vx e f : ℝ) :
    h2oWith "R98" (Function.update P "con_Cs" (some v)) ll p vx e f = h2oWith "R98" P ll p vx e f :=
  C40_water_no_effect ((C35_names _).2 (by decide)) (by decide) h v ll p vx e f

example (P : Params) (h : (P "delta_a").isSome) (v : Val) (ll : LineList) (p vx e f : ℝ) :
    h2oWith "MWL24" (Function.update P "delta_a" (some v)) ll p vx e f = h2oWith "MWL24" P ll p vx e f :=
  C40_water_no_effect ((C35_names _).2 (by decide)) (by decide) h v ll p vx e f

/-- C40: multiplying all line strengths by a factor multiplies the line part of the result by it, and leaves the
continuum as it is. -/
theorem C40_water_strengths {m : String} {P : Params} {s : Val} (hs : P "S" = some s) (c : ℝ) (ll : LineList)
    (p vx e f : ℝ) : h2oWith m (Function.update P "S" (some fun i => c * s i)) ll p vx e f =
      (h2oWith m P ll p vx e f).map (Option.map fun r => (c * r.1, r.2)) := by
  have hs' : ∀ k', (Function.update P "S" (some fun i => c * s i) k').isSome ↔ (P k').isSome := by
    intro k'
    by_cases h : k' = "S"
    · subst h; simp [hs]
    · simp [h]
  unfold h2oWith
  rcases amuWater_agree (m := m) hs' ll with ⟨h1, h2⟩ | ⟨L, L', h1, h2, hL⟩
  · rw [h1, h2]
    rfl
  · have e1 : L "s1" = some fun i => c * s i := by rw [amuWater_s1 h1]; simp
    have e2 : L' "s1" = some s := by rw [amuWater_s1 h2, hs]
    have : L = L'.set "s1" fun i => c * s i := by
      funext a
      unfold LineList.set
      split_ifs with ha
      · rw [ha, e1]
      · refine hL a fun k hk => ?_
        have : k ≠ "S" := by
          rintro rfl
          exact ha (keysOf_S hk)
        simp [this]
    rw [h1, h2, this]
    exact h2o_scale c e2 p vx e f

/-- Doubling the strengths in R17 doubles the line part. -/
example : ∃ F P P', waterFile "R17" = some F ∧ waterParams "R17" (reloadLL F fun _ => none) = .ok P ∧
    (∃ s, P "S" = some s ∧ P' = Function.update P "S" (some fun i => 2 * s i)) ∧
    ∃ n c, 0 ≤ n ∧ h2oWith "R17" P (reloadLL F fun _ => none) 90 1 1 22.2 = .ok (some (n, c)) ∧
      h2oWith "R17" P' (reloadLL F fun _ => none) 90 1 1 22.2 = .ok (some (2 * n, c)) := by
  obtain ⟨F, hF⟩ := Option.isSome_iff_exists.1 ((C35_names "R17").2 (by decide))
  obtain ⟨P, a, b, v, hP, -, -, -, h⟩ := C40_water_factors (m := "R17") (by simp) hF (fun _ => none) (vx := 1) (e := 1)
    (f := 22.2) (by norm_num) (by norm_num) (by norm_num)
  obtain ⟨n, h1, h2⟩ := h 90 (by norm_num)
  obtain ⟨K, -⟩ := waterParams_common hP
  obtain ⟨n', c', h3, hn, -⟩ := C35_nonneg (m := "R17") (by simp) hF (fun _ => none) (p := 90) (vx := 1) (e := 1)
    (f := 22.2) (by norm_num) (by norm_num) (by norm_num) (by norm_num)
  rw [h1] at h3
  cases h3
  refine ⟨F, P, _, hF, hP, ⟨K.s, K.h5, rfl⟩, n, _, hn, h2, ?_⟩
  rw [C40_water_strengths K.h5, h2]
  rfl

end Verif.Props
