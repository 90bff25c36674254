import Verif.Model.Parameters
import Verif.Lemmas.WaterSum
import Verif.Props.Water

/-!
# Spectroscopic parameters of water vapour
-/

namespace Verif.Lemmas

open Verif.Model Verif.Py Verif.Props Real

theorem attr_bind {ll : LineList} {a : String} {α : Type} {f : Val → Except PyErr α} {r : α}
    (h : (attr ll a >>= f) = .ok r) : ∃ v, ll a = some v ∧ f v = .ok r := by
  unfold attr at h
  cases e : ll a with
  | none => rw [e] at h; cases h
  | some v => rw [e] at h; exact ⟨v, rfl, h⟩

theorem attr_bind_some {ll : LineList} {a : String} {α : Type} {f : Val → Except PyErr α} {v : Val}
    (h : ll a = some v) : (attr ll a >>= f) = f v := by
  unfold attr
  rw [h]
  rfl

theorem param_bind {P : Params} {a : String} {α : Type} {f : Val → Except PyErr α} {v : Val}
    (h : P a = some v) : (param P a >>= f) = f v := by
  unfold param
  rw [h]
  rfl

/-- The keys used for all models. -/
structure WaterKeys (P : Params) where
  (cf cs xf xs s b2 ga gw na nw fl : Val)
  h1 : P "con_Cf" = some cf
  h2 : P "con_Cs" = some cs
  h3 : P "con_Xf" = some xf
  h4 : P "con_Xs" = some xs
  h5 : P "S" = some s
  h6 : P "B2" = some b2
  h7 : P "gamma_a" = some ga
  h8 : P "gamma_w" = some gw
  h9 : P "n_a" = some na
  h10 : P "n_w" = some nw
  h11 : P "FL" = some fl

/-- The line list after the assignments common to all models. -/
noncomputable def setCommon {P : Params} (K : WaterKeys P) (ll : LineList) : LineList :=
  (((((((ll.set "xcf" K.xf).set "xcs" K.xs).set "s1" K.s).set "b2" K.b2).set "w0" fun i => K.ga i / 1000.0).set "w0s"
    fun i => K.gw i / 1000.0).set "x" K.na).set "xs" K.nw

theorem amuWater_late {m : String} (hm : "R17" < m) {P : Params} (K : WaterKeys P) {da dw nda ndw : Val}
    (h1 : P "delta_a" = some da) (h2 : P "delta_w" = some dw) (h3 : P "n_da" = some nda) (h4 : P "n_dw" = some ndw)
    (ll : LineList) : amuWater m P ll = .ok ((((((setCommon K ((ll.set "cf" K.cf).set "cs" K.cs)).set "sh"
      fun i => da i / 1000.0).set "shs" fun i => dw i / 1000.0).set "xh" nda).set "xhs" ndw).set "fl" K.fl) := by
  unfold amuWater
  simp only [param_bind K.h1, param_bind K.h2, param_bind K.h3, param_bind K.h4, param_bind K.h5, param_bind K.h6,
    param_bind K.h7, param_bind K.h8, param_bind K.h9, param_bind K.h10, param_bind K.h11, if_pos hm, param_bind h1,
    param_bind h2, param_bind h3, param_bind h4]
  rfl

theorem amuWater_early {m : String} (hm : ¬ "R17" < m) {P : Params} (K : WaterKeys P) {cff csf sr : Val}
    (h1 : P "con_Cf_factr" = some cff) (h2 : P "con_Cs_factr" = some csf) (h3 : P "SR" = some sr)
    (ll : LineList) : amuWater m P ll = .ok (((setCommon K ((ll.set "cf" fun i => K.cf i * cff i).set "cs"
      fun i => K.cs i * csf i)).set "sr" sr).set "fl" K.fl) := by
  unfold amuWater
  simp only [param_bind K.h1, param_bind K.h2, param_bind K.h3, param_bind K.h4, param_bind K.h5, param_bind K.h6,
    param_bind K.h7, param_bind K.h8, param_bind K.h9, param_bind K.h10, param_bind K.h11, if_neg hm, param_bind h1,
    param_bind h2, param_bind h3]
  rfl

/-- What the unperturbed dictionary contains. -/
theorem waterParams_common {m : String} {ll : LineList} {P : Params} (h : waterParams m ll = .ok P) :
    ∃ K : WaterKeys P, ll "cf" = some K.cf ∧ ll "cs" = some K.cs ∧ ll "xcf" = some K.xf ∧ ll "xcs" = some K.xs ∧
      ll "s1" = some K.s ∧ ll "b2" = some K.b2 ∧ (ll "w0" = some fun i => K.ga i / 1000.0) ∧
      (ll "w0s" = some fun i => K.gw i / 1000.0) ∧ ll "x" = some K.na ∧ ll "xs" = some K.nw ∧ ll "fl" = some K.fl ∧
      ("R17" < m → ∃ da dw nda ndw, P "delta_a" = some da ∧ P "delta_w" = some dw ∧ P "n_da" = some nda ∧
        P "n_dw" = some ndw ∧ (ll "sh" = some fun i => da i / 1000.0) ∧ (ll "shs" = some fun i => dw i / 1000.0) ∧
        ll "xh" = some nda ∧ ll "xhs" = some ndw) ∧
      (¬ "R17" < m → ∃ sr, P "con_Cf_factr" = some (fun _ => 1.11) ∧ P "con_Cs_factr" = some (fun _ => 0.79) ∧
        P "SR" = some sr ∧ ll "sr" = some sr) := by
  unfold waterParams at h
  obtain ⟨cf, e1, h⟩ := attr_bind h
  obtain ⟨cs, e2, h⟩ := attr_bind h
  obtain ⟨xcf, e3, h⟩ := attr_bind h
  obtain ⟨xcs, e4, h⟩ := attr_bind h
  obtain ⟨fl, e5, h⟩ := attr_bind h
  obtain ⟨s1, e6, h⟩ := attr_bind h
  obtain ⟨b2, e7, h⟩ := attr_bind h
  obtain ⟨w0, e8, h⟩ := attr_bind h
  obtain ⟨w0s, e9, h⟩ := attr_bind h
  obtain ⟨x, e10, h⟩ := attr_bind h
  obtain ⟨xs, e11, h⟩ := attr_bind h
  have milli (w : Val) : w = fun i => w i * 1e3 / 1000.0 := by
    funext i
    norm_num
  by_cases hm : "R17" < m
  · simp only [if_pos hm] at h
    obtain ⟨xh, e12, h⟩ := attr_bind h
    obtain ⟨xhs, e13, h⟩ := attr_bind h
    obtain ⟨sh, e14, h⟩ := attr_bind h
    obtain ⟨shs, e15, h⟩ := attr_bind h
    cases h
    refine ⟨⟨cf, cs, xcf, xcs, s1, b2, fun i => w0 i * 1e3, fun i => w0s i * 1e3, x, xs, fl, rfl, rfl, rfl, rfl, rfl, rfl,
      rfl, rfl, rfl, rfl, rfl⟩, e1, e2, e3, e4, e6, e7, ?_, ?_, e10, e11, e5, fun _ => ⟨fun i => sh i * 1e3,
      fun i => shs i * 1e3, xh, xhs, rfl, rfl, rfl, rfl, ?_, ?_, e12, e13⟩, fun h => absurd hm h⟩
    · exact e8.trans (congrArg some (milli w0))
    · exact e9.trans (congrArg some (milli w0s))
    · exact e14.trans (congrArg some (milli sh))
    · exact e15.trans (congrArg some (milli shs))
  · simp only [if_neg hm] at h
    obtain ⟨sr, e12, h⟩ := attr_bind h
    cases h
    refine ⟨⟨cf, cs, xcf, xcs, s1, b2, fun i => w0 i * 1e3, fun i => w0s i * 1e3, x, xs, fl, rfl, rfl, rfl, rfl, rfl, rfl,
      rfl, rfl, rfl, rfl, rfl⟩, e1, e2, e3, e4, e6, e7, ?_, ?_, e10, e11, e5, fun h => absurd h hm,
      fun _ => ⟨sr, rfl, rfl, rfl, e12⟩⟩
    · exact e8.trans (congrArg some (milli w0))
    · exact e9.trans (congrArg some (milli w0s))

theorem set_self {ll : LineList} {a : String} {v : Val} (h : ll a = some v) : ll.set a v = ll := by
  funext b
  unfold LineList.set
  split_ifs with hb
  · rw [hb, h]
  · rfl

theorem setCommon_self {ll : LineList} {P : Params} {K : WaterKeys P} {L : LineList}
    (hL : ∀ a, a ≠ "cf" → a ≠ "cs" → L a = ll a) (e3 : ll "xcf" = some K.xf) (e4 : ll "xcs" = some K.xs)
    (e5 : ll "s1" = some K.s) (e6 : ll "b2" = some K.b2) (e7 : ll "w0" = some fun i => K.ga i / 1000.0)
    (e8 : ll "w0s" = some fun i => K.gw i / 1000.0) (e9 : ll "x" = some K.na) (e10 : ll "xs" = some K.nw) :
    setCommon K L = L := by
  have g (a : String) (h1 : a ≠ "cf" := by decide) (h2 : a ≠ "cs" := by decide) := hL a h1 h2
  unfold setCommon
  rw [set_self ((g "xcf").trans e3), set_self ((g "xcs").trans e4), set_self ((g "s1").trans e5),
    set_self ((g "b2").trans e6), set_self ((g "w0").trans e7), set_self ((g "w0s").trans e8),
    set_self ((g "x").trans e9), set_self ((g "xs").trans e10)]

theorem early_lists {m : String} {ll : LineList} {P : Params} (h : waterParams m ll = .ok P) (hm : ¬ "R17" < m) :
    ∃ cf cs, ll "cf" = some cf ∧ ll "cs" = some cs ∧
      amuWater m P ll = .ok ((ll.set "cf" fun i => cf i * 1.11).set "cs" fun i => cs i * 0.79) := by
  obtain ⟨K, e1, e2, e3, e4, e5, e6, e7, e8, e9, e10, e11, -, he⟩ := waterParams_common h
  obtain ⟨sr, p1, p2, p3, l1⟩ := he hm
  refine ⟨K.cf, K.cs, e1, e2, ?_⟩
  have hL : ∀ a, a ≠ "cf" → a ≠ "cs" → ((ll.set "cf" fun i => K.cf i * 1.11).set "cs" fun i => K.cs i * 0.79) a = ll a := by
    intro a h1 h2
    simp [LineList.set, h1, h2]
  rw [amuWater_early hm K p1 p2 p3, setCommon_self hL e3 e4 e5 e6 e7 e8 e9 e10,
    set_self ((hL "sr" (by decide) (by decide)).trans l1), set_self ((hL "fl" (by decide) (by decide)).trans e11)]

/-- The attributes of the line list that `water_parameters` reads. -/
def waterParamReads (m : String) : List String :=
  ["cf", "cs", "xcf", "xcs", "fl", "s1", "b2", "w0", "w0s", "x", "xs"] ++
    if "R17" < m then ["xh", "xhs", "sh", "shs"] else ["sr"]

theorem waterParams_ok {m : String} {ll : LineList} (h : ∀ a ∈ waterParamReads m, (ll a).isSome) :
    ∃ P, waterParams m ll = .ok P := by
  have g (a : String) (ha : a ∈ waterParamReads m) := Option.isSome_iff_exists.1 (h a ha)
  unfold waterParamReads at g
  obtain ⟨_, e1⟩ := g "cf" (by simp)
  obtain ⟨_, e2⟩ := g "cs" (by simp)
  obtain ⟨_, e3⟩ := g "xcf" (by simp)
  obtain ⟨_, e4⟩ := g "xcs" (by simp)
  obtain ⟨_, e5⟩ := g "fl" (by simp)
  obtain ⟨_, e6⟩ := g "s1" (by simp)
  obtain ⟨_, e7⟩ := g "b2" (by simp)
  obtain ⟨_, e8⟩ := g "w0" (by simp)
  obtain ⟨_, e9⟩ := g "w0s" (by simp)
  obtain ⟨_, e10⟩ := g "x" (by simp)
  obtain ⟨_, e11⟩ := g "xs" (by simp)
  unfold waterParams
  rw [attr_bind_some e1, attr_bind_some e2, attr_bind_some e3, attr_bind_some e4, attr_bind_some e5, attr_bind_some e6,
    attr_bind_some e7, attr_bind_some e8, attr_bind_some e9, attr_bind_some e10, attr_bind_some e11]
  by_cases hm : "R17" < m
  · simp only [if_pos hm] at g ⊢
    obtain ⟨_, e12⟩ := g "xh" (by simp)
    obtain ⟨_, e13⟩ := g "xhs" (by simp)
    obtain ⟨_, e14⟩ := g "sh" (by simp)
    obtain ⟨_, e15⟩ := g "shs" (by simp)
    rw [attr_bind_some e12, attr_bind_some e13, attr_bind_some e14, attr_bind_some e15]
    exact ⟨_, rfl⟩
  · simp only [if_neg hm] at g ⊢
    obtain ⟨_, e12⟩ := g "sr" (by simp)
    rw [attr_bind_some e12]
    exact ⟨_, rfl⟩

theorem waterParams_fails {m : String} {ll : LineList} {a : String} (ha : a ∈ waterParamReads m) (h : ll a = none) :
    waterParams m ll = .error .attributeError := by
  have step (b : String) {α : Type} (k : Val → Except PyErr α) (hk : ∀ v, b ≠ a → k v = .error .attributeError) :
      (attr ll b >>= k) = .error .attributeError := by
    unfold attr
    cases e : ll b with
    | none => rfl
    | some v => exact hk v (by rintro rfl; rw [h] at e; cases e)
  unfold waterParamReads at ha
  unfold waterParams
  refine step _ _ fun _ h1 => step _ _ fun _ h2 => step _ _ fun _ h3 => step _ _ fun _ h4 => step _ _ fun _ h5 =>
    step _ _ fun _ h6 => step _ _ fun _ h7 => step _ _ fun _ h8 => step _ _ fun _ h9 => step _ _ fun _ h10 =>
    step _ _ fun _ h11 => ?_
  by_cases hm : "R17" < m
  · simp only [if_pos hm] at ha ⊢
    refine step _ _ fun _ h12 => step _ _ fun _ h13 => step _ _ fun _ h14 => step _ _ fun _ h15 => ?_
    simp at ha
    grind
  · simp only [if_neg hm] at ha ⊢
    refine step _ _ fun _ h12 => ?_
    simp at ha
    grind

theorem water_factors {m : String} (hm : m ∈ ["R16", "R17"]) {F : LineList} (hF : waterFile m = some F)
    (old : LineList) {p vx e f : ℝ} (hp : 0 ≤ p) (hv : 0 < vx) (he : 0 < e) (hf : 0 < f) :
    ∀ G : GoodLines (reloadLL F old), ∀ P, waterParams m (reloadLL F old) = .ok P → 0 < G.cs 0 ∧
      let A := waterAir m p vx e
      let u := G.cf 0 * A.pda * (G.reftcon 0 / A.t) ^ G.xcf 0 * A.pvap * f * f / db2np / (0.182 * f)
      let v := G.cs 0 * A.pvap * (G.reftcon 0 / A.t) ^ G.xcs 0 * A.pvap * f * f / db2np / (0.182 * f)
      ∃ n, h2oAbsorption m (reloadLL F old) p vx e f = .ok (some (n, u + v)) ∧
        h2oWith m P (reloadLL F old) p vx e f = .ok (some (n, 1.11 * u + 0.79 * v)) := by
  intro G P hP
  obtain ⟨ht, hr, hpv, hpd, -⟩ := waterAir_props m hp hv he
  obtain ⟨hlt, hR, hM, hN⟩ : ¬ "R17" < m ∧ m ∉ ["R03", "R98"] ∧ m ≠ "MWL24" ∧ m ∉ ["R23SD", "R24"] := by
    simp only [List.mem_cons, List.not_mem_nil, or_false] at hm
    rcases hm with rfl | rfl <;> decide
  have hcs := file_cs hF hN old G.hcs
  obtain ⟨cf, cs, h1, h2, h3⟩ := early_lists hP hlt
  obtain rfl : G.cf = cf := Option.some_inj.1 (G.hcf.symm.trans h1)
  obtain rfl : G.cs = cs := Option.some_inj.1 (G.hcs.symm.trans h2)
  obtain ⟨n, c, hnc, -, -⟩ := C35_nonneg (m := m) (by
    simp only [List.mem_cons, List.not_mem_nil, or_false] at hm ⊢
    tauto) hF old hp hv he hf
  have hti : 0 < G.reftcon 0 / (waterAir m p vx e).t := div_pos G.preft.2.1 ht
  have hcf := G.preft.2.2
  set A := waterAir m p vx e with hA
  have hdb := db2np_pos
  have con (L : LineList) (cf cs : Val) (hL : ∀ a, a ≠ "cf" → a ≠ "cs" → L a = reloadLL F old a) (hcf : L "cf" = some cf)
      (hcs : L "cs" = some cs) : waterCon m L A vx f = .ok (some ((cf 0 * A.pda * (G.reftcon 0 / A.t) ^ G.xcf 0 +
        cs 0 * A.pvap * (G.reftcon 0 / A.t) ^ G.xcs 0) * A.pvap * f * f)) := by
    unfold waterCon
    simp only [attr_some ((hL "reftcon" (by decide) (by decide)).trans G.hreftcon), attr_some hcf, attr_some hcs,
      attr_some ((hL "xcf" (by decide) (by decide)).trans G.hxcf), if_neg hR, if_neg hM,
      attr_some ((hL "xcs" (by decide) (by decide)).trans G.hxcs), bind, Except.bind, pure, Except.pure, fpow_of_pos hti,
      Option.map_some, Option.bind_some]
  have hden : (0.182 * f : ℝ) ≠ 0 := by positivity
  obtain ⟨s, hs, hn⟩ : ∃ s, waterSum m (reloadLL F old) A f = .ok (some s) ∧ waterUnits m A s (0.182 * f) = some n := by
    unfold h2oAbsorption at hnc
    simp only [if_pos hv, ← hA, if_neg hr.ne', con _ _ _ (fun _ _ _ => rfl) G.hcf G.hcs, if_neg hN, bind, Except.bind,
      pure, Except.pure] at hnc
    cases e1 : waterSum m (reloadLL F old) A f with
    | error _ => rw [e1] at hnc; cases hnc
    | ok s =>
      rw [e1] at hnc
      cases s with
      | none => simp at hnc
      | some s =>
        refine ⟨s, rfl, ?_⟩
        simp only [Option.bind_some] at hnc
        cases e2 : waterUnits m A s (0.182 * f) with
        | none => rw [e2] at hnc; simp at hnc
        | some k =>
          rw [e2] at hnc
          simp [npDiv_of_ne hden] at hnc
          rw [hnc.1]
  have key (L : LineList) (cf cs : Val) (hL : ∀ a, a ≠ "cf" → a ≠ "cs" → L a = reloadLL F old a) (hcf : L "cf" = some cf)
      (hcs : L "cs" = some cs) : h2oAbsorption m L p vx e f = .ok (some (n, (cf 0 * A.pda * (G.reftcon 0 / A.t) ^ G.xcf 0 +
        cs 0 * A.pvap * (G.reftcon 0 / A.t) ^ G.xcs 0) * A.pvap * f * f / db2np / (0.182 * f))) := by
    have hsum := waterSum_congr (m := m) (ll := L) (ll' := reloadLL F old) (by
      intro a _ ha
      unfold attr
      rw [hL a (by rintro rfl; exact ha (by decide)) (by rintro rfl; exact ha (by decide))]) A f
    unfold h2oAbsorption
    simp only [if_pos hv, ← hA, if_neg hr.ne', con L cf cs hL hcf hcs, if_neg hN, bind, Except.bind,
      pure, Except.pure, hsum, hs, Option.bind_some, hn, npDiv_of_ne hden]
  refine ⟨hcs, n, ?_, ?_⟩
  · rw [key (reloadLL F old) G.cf G.cs (fun _ _ _ => rfl) G.hcf G.hcs]
    congr 3
    ring
  · unfold h2oWith
    rw [h3]
    show h2oAbsorption m _ p vx e f = _
    rw [key _ (fun i => G.cf i * 1.11) (fun i => G.cs i * 0.79) (fun a h1 h2 => by simp [LineList.set, h1, h2])
      (by simp [LineList.set]) (by simp [LineList.set])]
    congr 3
    ring

set_option maxRecDepth 10000 in
theorem waterGroups_params : ∀ g ∈ waterGroups, (g.1 ∉ ["R98", "MWL24"] ∧
    ∀ a ∈ waterParamReads g.1, hasAttr (waterAssign g.1) g.2 a = true) ∨
    g.1 ∈ ["R98", "MWL24"] ∧ ∃ a ∈ waterParamReads g.1, lastAssign (waterAssign g.1) a = none := by decide +kernel

theorem reload_none (F : LineList) : reloadLL F (fun _ => none) = F := by
  funext a
  unfold reloadLL
  cases F a <;> rfl

/-! ### Parameters without effect -/

/-- The parameters whose values end up in an attribute of the line list. -/
def waterKeysOf (m a : String) : List String :=
  if a = "cf" then (if "R17" < m then ["con_Cf"] else ["con_Cf", "con_Cf_factr"])
  else if a = "cs" then (if "R17" < m then ["con_Cs"] else ["con_Cs", "con_Cs_factr"])
  else if a = "xcf" then ["con_Xf"]
  else if a = "xcs" then ["con_Xs"]
  else if a = "s1" then ["S"]
  else if a = "b2" then ["B2"]
  else if a = "w0" then ["gamma_a"]
  else if a = "w0s" then ["gamma_w"]
  else if a = "x" then ["n_a"]
  else if a = "xs" then ["n_w"]
  else if a = "fl" then ["FL"]
  else if "R17" < m ∧ a = "sh" then ["delta_a"]
  else if "R17" < m ∧ a = "shs" then ["delta_w"]
  else if "R17" < m ∧ a = "xh" then ["n_da"]
  else if "R17" < m ∧ a = "xhs" then ["n_dw"]
  else if ¬ "R17" < m ∧ a = "sr" then ["SR"]
  else []

/-- The parameters that a run reads. -/
def waterKeys (m : String) : List String :=
  ["con_Cf", "con_Cs", "con_Xf", "con_Xs", "S", "B2", "gamma_a", "gamma_w", "n_a", "n_w", "FL"] ++
    if "R17" < m then ["delta_a", "delta_w", "n_da", "n_dw"] else ["con_Cf_factr", "con_Cs_factr", "SR"]

theorem amuWater_fails {m : String} {P : Params} {k : String} (hk : k ∈ waterKeys m) (h : P k = none) (ll : LineList) :
    amuWater m P ll = .error .keyError := by
  have step (b : String) {α : Type} (f : Val → Except PyErr α) (hf : ∀ v, b ≠ k → f v = .error .keyError) :
      (param P b >>= f) = .error .keyError := by
    unfold param
    cases e : P b with
    | none => rfl
    | some v => exact hf v (by rintro rfl; rw [h] at e; cases e)
  unfold waterKeys at hk
  unfold amuWater
  by_cases hm : "R17" < m
  · simp only [if_pos hm] at hk ⊢
    refine step _ _ fun _ h1 => step _ _ fun _ h2 => step _ _ fun _ h3 => step _ _ fun _ h4 => step _ _ fun _ h5 =>
      step _ _ fun _ h6 => step _ _ fun _ h7 => step _ _ fun _ h8 => step _ _ fun _ h9 => step _ _ fun _ h10 => ?_
    by_cases hfl : P "FL" = none
    · have e (ll) : ((param P "FL" >>= fun fl => pure (LineList.set ll "fl" fl)) : Except PyErr LineList) =
          .error .keyError := by
        simp only [param, hfl]
        rfl
      simp only [e]
      unfold param
      cases P "delta_a" <;> cases P "delta_w" <;> cases P "n_da" <;> cases P "n_dw" <;> rfl
    · have h11 : "FL" ≠ k := by rintro rfl; exact hfl h
      simp at hk
      obtain rfl | rfl | rfl | rfl : k = "delta_a" ∨ k = "delta_w" ∨ k = "n_da" ∨ k = "n_dw" := by grind
      all_goals
        simp only [param, h]
        try cases P "delta_a"
        all_goals try cases P "delta_w"
        all_goals try cases P "n_da"
        all_goals rfl
  · simp only [if_neg hm] at hk ⊢
    refine step _ _ fun _ h1 => step _ _ fun _ h2 => ?_
    by_cases hf1 : P "con_Cf_factr" = none
    · simp only [param, hf1]
      rfl
    by_cases hf2 : P "con_Cs_factr" = none
    · obtain ⟨v, hv⟩ := Option.ne_none_iff_exists'.1 hf1
      simp only [param, hf2, hv]
      rfl
    obtain ⟨v, hv⟩ := Option.ne_none_iff_exists'.1 hf1
    obtain ⟨w, hw⟩ := Option.ne_none_iff_exists'.1 hf2
    have h12 : "con_Cf_factr" ≠ k := by rintro rfl; exact hf1 h
    have h13 : "con_Cs_factr" ≠ k := by rintro rfl; exact hf2 h
    simp only [param_bind hv, param_bind hw]
    refine step _ _ fun _ h3 => step _ _ fun _ h4 => step _ _ fun _ h5 =>
      step _ _ fun _ h6 => step _ _ fun _ h7 => step _ _ fun _ h8 => step _ _ fun _ h9 => step _ _ fun _ h10 => ?_
    by_cases hfl : P "FL" = none
    · have e (ll) : ((param P "FL" >>= fun fl => pure (LineList.set ll "fl" fl)) : Except PyErr LineList) =
          .error .keyError := by
        simp only [param, hfl]
        rfl
      simp only [e]
      unfold param
      cases P "SR" <;> rfl
    · have h11 : "FL" ≠ k := by rintro rfl; exact hfl h
      simp at hk
      obtain rfl : k = "SR" := by grind
      simp only [param, h]
      rfl

theorem waterKeys_some {m : String} {P : Params} (h : ∀ k ∈ waterKeys m, (P k).isSome) :
    ∃ _ : WaterKeys P, ("R17" < m → ∃ da dw nda ndw, P "delta_a" = some da ∧ P "delta_w" = some dw ∧
        P "n_da" = some nda ∧ P "n_dw" = some ndw) ∧
      (¬ "R17" < m → ∃ cff csf sr, P "con_Cf_factr" = some cff ∧ P "con_Cs_factr" = some csf ∧ P "SR" = some sr) := by
  have g (k : String) (hk : k ∈ waterKeys m) := Option.isSome_iff_exists.1 (h k hk)
  unfold waterKeys at g
  obtain ⟨_, e1⟩ := g "con_Cf" (by simp)
  obtain ⟨_, e2⟩ := g "con_Cs" (by simp)
  obtain ⟨_, e3⟩ := g "con_Xf" (by simp)
  obtain ⟨_, e4⟩ := g "con_Xs" (by simp)
  obtain ⟨_, e5⟩ := g "S" (by simp)
  obtain ⟨_, e6⟩ := g "B2" (by simp)
  obtain ⟨_, e7⟩ := g "gamma_a" (by simp)
  obtain ⟨_, e8⟩ := g "gamma_w" (by simp)
  obtain ⟨_, e9⟩ := g "n_a" (by simp)
  obtain ⟨_, e10⟩ := g "n_w" (by simp)
  obtain ⟨_, e11⟩ := g "FL" (by simp)
  refine ⟨⟨_, _, _, _, _, _, _, _, _, _, _, e1, e2, e3, e4, e5, e6, e7, e8, e9, e10, e11⟩, ?_, ?_⟩
  · intro hm
    simp only [if_pos hm] at g
    obtain ⟨_, e1⟩ := g "delta_a" (by simp)
    obtain ⟨_, e2⟩ := g "delta_w" (by simp)
    obtain ⟨_, e3⟩ := g "n_da" (by simp)
    obtain ⟨_, e4⟩ := g "n_dw" (by simp)
    exact ⟨_, _, _, _, e1, e2, e3, e4⟩
  · intro hm
    simp only [if_neg hm] at g
    obtain ⟨_, e1⟩ := g "con_Cf_factr" (by simp)
    obtain ⟨_, e2⟩ := g "con_Cs_factr" (by simp)
    obtain ⟨_, e3⟩ := g "SR" (by simp)
    exact ⟨_, _, _, e1, e2, e3⟩

set_option linter.unusedSimpArgs false in
/-- Two dictionaries with the same keys give line lists that agree in the attributes whose parameters agree. -/
theorem amuWater_agree {m : String} {P P' : Params} (hs : ∀ k, (P k).isSome ↔ (P' k).isSome) (ll : LineList) :
    (amuWater m P ll = .error .keyError ∧ amuWater m P' ll = .error .keyError) ∨
      ∃ L L', amuWater m P ll = .ok L ∧ amuWater m P' ll = .ok L' ∧
        ∀ a, (∀ k ∈ waterKeysOf m a, P k = P' k) → L a = L' a := by
  by_cases h : ∀ k ∈ waterKeys m, (P k).isSome
  · right
    have h' : ∀ k ∈ waterKeys m, (P' k).isSome := fun k hk => (hs k).1 (h k hk)
    obtain ⟨K, hl, he⟩ := waterKeys_some h
    obtain ⟨K', hl', he'⟩ := waterKeys_some h'
    have inj {k : String} {v w : Val} (hv : P k = some v) (hw : P' k = some w) (e : P k = P' k) : v = w := by
      rw [hv, hw, Option.some_inj] at e
      exact e
    by_cases hm : "R17" < m
    · obtain ⟨da, dw, nda, ndw, p1, p2, p3, p4⟩ := hl hm
      obtain ⟨da', dw', nda', ndw', q1, q2, q3, q4⟩ := hl' hm
      refine ⟨_, _, amuWater_late hm K p1 p2 p3 p4 ll, amuWater_late hm K' q1 q2 q3 q4 ll, ?_⟩
      intro a ha
      by_cases c0 : a = "xcf"
      · subst c0
        simp [setCommon, LineList.set, inj K.h3 K'.h3 (ha "con_Xf" (by simp [waterKeysOf, hm]))]
      by_cases c1 : a = "xcs"
      · subst c1
        simp [setCommon, LineList.set, inj K.h4 K'.h4 (ha "con_Xs" (by simp [waterKeysOf, hm]))]
      by_cases c2 : a = "s1"
      · subst c2
        simp [setCommon, LineList.set, inj K.h5 K'.h5 (ha "S" (by simp [waterKeysOf, hm]))]
      by_cases c3 : a = "b2"
      · subst c3
        simp [setCommon, LineList.set, inj K.h6 K'.h6 (ha "B2" (by simp [waterKeysOf, hm]))]
      by_cases c4 : a = "w0"
      · subst c4
        simp [setCommon, LineList.set, inj K.h7 K'.h7 (ha "gamma_a" (by simp [waterKeysOf, hm]))]
      by_cases c5 : a = "w0s"
      · subst c5
        simp [setCommon, LineList.set, inj K.h8 K'.h8 (ha "gamma_w" (by simp [waterKeysOf, hm]))]
      by_cases c6 : a = "x"
      · subst c6
        simp [setCommon, LineList.set, inj K.h9 K'.h9 (ha "n_a" (by simp [waterKeysOf, hm]))]
      by_cases c7 : a = "xs"
      · subst c7
        simp [setCommon, LineList.set, inj K.h10 K'.h10 (ha "n_w" (by simp [waterKeysOf, hm]))]
      by_cases c8 : a = "fl"
      · subst c8
        simp [setCommon, LineList.set, inj K.h11 K'.h11 (ha "FL" (by simp [waterKeysOf, hm]))]
      by_cases c9 : a = "cf"
      · subst c9
        simp [setCommon, LineList.set, inj K.h1 K'.h1 (ha "con_Cf" (by simp [waterKeysOf, hm]))]
      by_cases c10 : a = "cs"
      · subst c10
        simp [setCommon, LineList.set, inj K.h2 K'.h2 (ha "con_Cs" (by simp [waterKeysOf, hm]))]
      by_cases c11 : a = "sh"
      · subst c11
        simp [setCommon, LineList.set, inj p1 q1 (ha "delta_a" (by simp [waterKeysOf, hm]))]
      by_cases c12 : a = "shs"
      · subst c12
        simp [setCommon, LineList.set, inj p2 q2 (ha "delta_w" (by simp [waterKeysOf, hm]))]
      by_cases c13 : a = "xh"
      · subst c13
        simp [setCommon, LineList.set, inj p3 q3 (ha "n_da" (by simp [waterKeysOf, hm]))]
      by_cases c14 : a = "xhs"
      · subst c14
        simp [setCommon, LineList.set, inj p4 q4 (ha "n_dw" (by simp [waterKeysOf, hm]))]
      simp [setCommon, LineList.set, c0, c1, c2, c3, c4, c5, c6, c7, c8, c9, c10, c11, c12, c13, c14]
    · obtain ⟨cff, csf, sr, p1, p2, p3⟩ := he hm
      obtain ⟨cff', csf', sr', q1, q2, q3⟩ := he' hm
      refine ⟨_, _, amuWater_early hm K p1 p2 p3 ll, amuWater_early hm K' q1 q2 q3 ll, ?_⟩
      intro a ha
      by_cases c0 : a = "xcf"
      · subst c0
        simp [setCommon, LineList.set, inj K.h3 K'.h3 (ha "con_Xf" (by simp [waterKeysOf, hm]))]
      by_cases c1 : a = "xcs"
      · subst c1
        simp [setCommon, LineList.set, inj K.h4 K'.h4 (ha "con_Xs" (by simp [waterKeysOf, hm]))]
      by_cases c2 : a = "s1"
      · subst c2
        simp [setCommon, LineList.set, inj K.h5 K'.h5 (ha "S" (by simp [waterKeysOf, hm]))]
      by_cases c3 : a = "b2"
      · subst c3
        simp [setCommon, LineList.set, inj K.h6 K'.h6 (ha "B2" (by simp [waterKeysOf, hm]))]
      by_cases c4 : a = "w0"
      · subst c4
        simp [setCommon, LineList.set, inj K.h7 K'.h7 (ha "gamma_a" (by simp [waterKeysOf, hm]))]
      by_cases c5 : a = "w0s"
      · subst c5
        simp [setCommon, LineList.set, inj K.h8 K'.h8 (ha "gamma_w" (by simp [waterKeysOf, hm]))]
      by_cases c6 : a = "x"
      · subst c6
        simp [setCommon, LineList.set, inj K.h9 K'.h9 (ha "n_a" (by simp [waterKeysOf, hm]))]
      by_cases c7 : a = "xs"
      · subst c7
        simp [setCommon, LineList.set, inj K.h10 K'.h10 (ha "n_w" (by simp [waterKeysOf, hm]))]
      by_cases c8 : a = "fl"
      · subst c8
        simp [setCommon, LineList.set, inj K.h11 K'.h11 (ha "FL" (by simp [waterKeysOf, hm]))]
      by_cases c9 : a = "cf"
      · subst c9
        simp [setCommon, LineList.set, inj K.h1 K'.h1 (ha "con_Cf" (by simp [waterKeysOf, hm])), inj p1 q1 (ha "con_Cf_factr" (by simp [waterKeysOf, hm]))]
      by_cases c10 : a = "cs"
      · subst c10
        simp [setCommon, LineList.set, inj K.h2 K'.h2 (ha "con_Cs" (by simp [waterKeysOf, hm])), inj p2 q2 (ha "con_Cs_factr" (by simp [waterKeysOf, hm]))]
      by_cases c11 : a = "sr"
      · subst c11
        simp [setCommon, LineList.set, inj p3 q3 (ha "SR" (by simp [waterKeysOf, hm]))]
      simp [setCommon, LineList.set, c0, c1, c2, c3, c4, c5, c6, c7, c8, c9, c10, c11]
  · left
    push Not at h
    obtain ⟨k, hk, hn⟩ := h
    have e1 : P k = none := by simpa using hn
    have e2 : P' k = none := by
      rw [← Option.not_isSome_iff_eq_none, ← hs k, e1]
      simp
    exact ⟨amuWater_fails hk e1 ll, amuWater_fails hk e2 ll⟩

/-! ### Line strengths -/

theorem plainLine_scale (c : ℝ) (closed : Bool) (f fl shift w s : ℝ) :
    plainLine closed f fl shift w (c * s) = (plainLine closed f fl shift w s).map (c * ·) := by
  unfold plainLine
  simp only [bind, Option.map_bind, Function.comp_def, Option.map_some, pure, mul_assoc]

theorem sdLine_scale (c f fl shift w w2 d2 s : ℝ) :
    sdLine f fl shift w w2 d2 (c * s) = (sdLine f fl shift w w2 d2 s).map (c * ·) := by
  unfold sdLine
  simp only [bind, Option.map_bind, Function.comp_def, Option.map_some, pure, mul_assoc]

theorem sumLines_scale (c : ℝ) (n : ℕ) (g g' : ℕ → Option ℝ) (h : ∀ i, g' i = (g i).map (c * ·)) :
    sumLines n g' = (sumLines n g).map (c * ·) := by
  unfold sumLines
  induction n with
  | zero => simp [forRange]
  | succ n ih =>
    rw [forRange_succ (Nat.zero_le n), forRange_succ (Nat.zero_le n), ih, h]
    generalize forRange 0 n (fun i s => s.bind fun s => Option.map (fun c => s + c) (g i)) (some 0) = z
    cases z <;> cases g n <;> simp [mul_add]

/-- Scaling of a possibly missing number. -/
noncomputable def scaleR (c : ℝ) (r : Except PyErr (Option ℝ)) : Except PyErr (Option ℝ) := r.map (Option.map (c * ·))

theorem bind_scale (c : ℝ) {α : Type} {x x' : Except PyErr α} {f f' : α → Except PyErr (Option ℝ)} (hx : x' = x)
    (h : ∀ v, f' v = scaleR c (f v)) : (x' >>= f') = scaleR c (x >>= f) := by
  subst hx
  cases x' with
  | error _ => rfl
  | ok v => exact h v

theorem waterSum_scale (c : ℝ) {m : String} {ll : LineList} {s : Val} (hs : ll "s1" = some s) (A : WaterAir) (f : ℝ) :
    waterSum m (ll.set "s1" fun i => c * s i) A f = scaleR c (waterSum m ll A f) := by
  have ha (a : String) (h : a ≠ "s1" := by decide) : attr (ll.set "s1" fun i => c * s i) a = attr ll a := by
    simp [attr, LineList.set, h]
  have h1 : (ll.set "s1" fun i => c * s i) "s1" = some fun i => c * s i := by simp [LineList.set]
  have hif (p : Prop) [Decidable p] (a : String) (h : a ≠ "s1" := by decide) :
      (if p then attr (ll.set "s1" fun i => c * s i) a else (.ok fun _ => 0 : Except PyErr Val)) =
        if p then attr ll a else .ok fun _ => 0 := by rw [ha a h]
  have hif' (p : Prop) [Decidable p] (a : String) (h : a ≠ "s1" := by decide) :
      (if p then (.ok fun _ => 0 : Except PyErr Val) else attr (ll.set "s1" fun i => c * s i) a) =
        if p then .ok fun _ => 0 else attr ll a := by rw [ha a h]
  unfold waterSum
  split_ifs
  · unfold waterSumSD
    refine bind_scale c (ha _) fun _ => bind_scale c (ha _) fun _ => ?_
    rw [attr_bind_some h1, attr_bind_some hs]
    refine bind_scale c (ha _) fun _ => bind_scale c (ha _) fun _ => bind_scale c (ha _) fun _ =>
      bind_scale c (ha _) fun _ => bind_scale c (ha _) fun _ => bind_scale c (ha _) fun _ => bind_scale c (ha _) fun _ =>
      bind_scale c (ha _) fun _ => bind_scale c (ha _) fun _ => bind_scale c (ha _) fun _ => bind_scale c (ha _) fun _ =>
      bind_scale c (ha _) fun _ => bind_scale c (ha _) fun _ => bind_scale c (ha _) fun _ =>
      bind_scale c (hif _ _) fun _ => bind_scale c (hif _ _) fun _ => bind_scale c (hif _ _) fun _ =>
      bind_scale c (hif _ _) fun _ => bind_scale c (hif _ _) fun _ => bind_scale c (hif _ _) fun _ => ?_
    refine congrArg Except.ok (sumLines_scale c _ _ _ ?_)
    intro i
    simp only [bind, Option.map_bind, Function.comp_def, mul_assoc, sdLine_scale]
  · unfold waterSumOld
    refine bind_scale c (ha _) fun _ => bind_scale c (ha _) fun _ => ?_
    rw [attr_bind_some h1, attr_bind_some hs]
    refine bind_scale c (ha _) fun _ => bind_scale c (ha _) fun _ => bind_scale c (ha _) fun _ =>
      bind_scale c (ha _) fun _ => bind_scale c (ha _) fun _ => bind_scale c (ha _) fun _ =>
      bind_scale c (hif' _ _) fun _ => ?_
    refine congrArg Except.ok (sumLines_scale c _ _ _ ?_)
    intro i
    simp only [bind, Option.map_bind, Function.comp_def, mul_assoc, plainLine_scale]
  · unfold waterSumMid
    refine bind_scale c (ha _) fun _ => bind_scale c (ha _) fun _ => ?_
    rw [attr_bind_some h1, attr_bind_some hs]
    refine bind_scale c (ha _) fun _ => bind_scale c (ha _) fun _ => bind_scale c (ha _) fun _ =>
      bind_scale c (ha _) fun _ => bind_scale c (ha _) fun _ => bind_scale c (ha _) fun _ => bind_scale c (ha _) fun _ =>
      bind_scale c (ha _) fun _ => bind_scale c (ha _) fun _ => bind_scale c (ha _) fun _ =>
      bind_scale c (hif' _ _) fun _ => bind_scale c (hif' _ _) fun _ => ?_
    refine congrArg Except.ok (sumLines_scale c _ _ _ ?_)
    intro i
    simp only [bind, Option.map_bind, Function.comp_def, mul_assoc, plainLine_scale]
  · rfl

theorem h2o_scale (c : ℝ) {m : String} {ll : LineList} {s : Val} (hs : ll "s1" = some s) (p vx e f : ℝ) :
    h2oAbsorption m (ll.set "s1" fun i => c * s i) p vx e f =
      (h2oAbsorption m ll p vx e f).map (Option.map fun r => (c * r.1, r.2)) := by
  have ha (a : String) (h : a ≠ "s1" := by decide) : attr (ll.set "s1" fun i => c * s i) a = attr ll a := by
    simp [attr, LineList.set, h]
  have hcon (A : WaterAir) : waterCon m (ll.set "s1" fun i => c * s i) A vx f = waterCon m ll A vx f := by
    unfold waterCon
    rw [ha "reftcon", ha "cf", ha "xcf", ha "cs", ha "xcs"]
  have hconN (A : WaterAir) : waterConNew (ll.set "s1" fun i => c * s i) A vx f = waterConNew ll A vx f := by
    unfold waterConNew
    rw [ha "reftline", ha "cf", ha "xcf", ha "cs", ha "xcs"]
  have hu (A : WaterAir) (x q : ℝ) : waterUnits m A (c * x) q = (waterUnits m A x q).map (c * ·) := by
    unfold waterUnits npDiv
    split_ifs <;> simp only [Option.map_some, Option.map_none, Option.some.injEq] <;> ring
  unfold h2oAbsorption
  by_cases h1 : 0 < vx
  · simp only [if_pos h1]
    by_cases h2 : (waterAir m p vx e).rho = 0
    · simp only [if_pos h2, Except.map, Option.map_some, mul_zero]
    · simp only [if_neg h2, hcon, hconN, waterSum_scale c hs]
      generalize waterCon m ll (waterAir m p vx e) vx f = x1
      cases x1 with
      | error _ => rfl
      | ok x1 =>
        show ((if m ∈ ["R23SD", "R24"] then waterConNew ll (waterAir m p vx e) vx f else .ok x1) >>= _) =
          Except.map _ ((if m ∈ ["R23SD", "R24"] then waterConNew ll (waterAir m p vx e) vx f else .ok x1) >>= _)
        generalize (if m ∈ ["R23SD", "R24"] then waterConNew ll (waterAir m p vx e) vx f else .ok x1) = x2
        cases x2 with
        | error _ => rfl
        | ok x2 =>
          generalize waterSum m ll (waterAir m p vx e) f = x3
          cases x3 with
          | error _ => rfl
          | ok x3 =>
            cases x2 with
            | none => rfl
            | some x2 =>
              cases x3 with
              | none => rfl
              | some x3 =>
                simp only [scaleR, Except.map, Option.map_some, bind, Except.bind, Option.bind_some, pure, Except.pure, hu]
                cases waterUnits m (waterAir m p vx e) x3 (0.182 * f) with
                | none => rfl
                | some y =>
                  cases npDiv (x2 / db2np) (0.182 * f) <;> rfl
  · simp only [if_neg h1, Except.map, Option.map_none]

theorem amuWater_s1 {m : String} {P : Params} {ll L : LineList} (h : amuWater m P ll = .ok L) : L "s1" = P "S" := by
  by_cases hk : ∀ k ∈ waterKeys m, (P k).isSome
  · obtain ⟨K, hl, he⟩ := waterKeys_some hk
    by_cases hm : "R17" < m
    · obtain ⟨_, _, _, _, p1, p2, p3, p4⟩ := hl hm
      rw [amuWater_late hm K p1 p2 p3 p4] at h
      cases h
      simp [setCommon, LineList.set, K.h5]
    · obtain ⟨_, _, _, p1, p2, p3⟩ := he hm
      rw [amuWater_early hm K p1 p2 p3] at h
      cases h
      simp [setCommon, LineList.set, K.h5]
  · push Not at hk
    obtain ⟨k, hk, hn⟩ := hk
    rw [amuWater_fails hk (by simpa using hn)] at h
    cases h

theorem keysOf_S {m a : String} (h : "S" ∈ waterKeysOf m a) : a = "s1" := by
  revert h
  unfold waterKeysOf
  repeat' refine iteInduction (motive := fun l => "S" ∈ l → a = "s1") (fun _ => ?_) (fun _ => ?_)
  all_goals first
    | (intro; assumption)
    | (intro h; exact absurd h (by decide))

end Verif.Lemmas
