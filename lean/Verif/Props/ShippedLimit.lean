import Verif.Lemmas.AbsContinuous
import Verif.Props.SimulatorLimit
import Verif.Props.Formula
import Verif.Props.OxygenFormula

/-!
# C95 for the absorption models that ship with the package

The models without speed-dependent profiles meet the hypotheses of C95 in every atmosphere of continuous pressure,
temperature and humidity.
-/

namespace Verif.Props

open Verif.Model Verif.Py Verif.Spec Verif.Lemmas Real Set

/-- An atmosphere of continuous pressure, temperature (not below `m`) and relative humidity, with less vapour than
air. -/
structure Column.Smooth (C : Column) (m : ℝ) : Prop where
  top : 0 ≤ C.top
  p : ContinuousOn C.p (Icc 0 C.top)
  tk : ContinuousOn C.tk (Icc 0 C.top)
  rh : ContinuousOn C.rh (Icc 0 C.top)
  low : 0 < m
  tk0 : ∀ u ∈ Icc 0 C.top, m ≤ C.tk u
  p0 : ∀ u ∈ Icc 0 C.top, 0 < C.p u
  rh0 : ∀ u ∈ Icc 0 C.top, 0 ≤ C.rh u
  vapour : ∀ u ∈ Icc 0 C.top, C.rh u * eswat (C.tk u) ≤ C.p u

theorem db2np_eq : db2np = log 10 / 10 := by
  unfold db2np
  norm_num
  ring

section

variable {K : Set ℝ} {T p e : ℝ → ℝ} {f : ℝ}

/-- Both routines recover the vapour pressure in mbar with a factor that is at most one. -/
theorem vapourPressure_eq (m : String) : ∃ k : ℝ, 0 < k ∧ k ≤ 1 ∧
    ∀ {T : ℝ}, 0 < T → ∀ e, vapourPressure m T e = 10 * k * e := by
  refine ⟨18.01528 / 0.0831451 * (if m = "R98" ∨ m = "R03" ∨ m = "R16" ∨ m = "R17" then 1 / 217
    else if m = "R18" ∨ m = "R19" ∨ m = "R19SD" ∨ m = "R20" ∨ m = "R20SD" ∨ m = "R21SD" then 1 / 216.68
    else 461.52 / 100000), ?_, ?_, fun {T} hT e => ?_⟩
  · split_ifs <;> norm_num
  · split_ifs <;> norm_num
  · unfold vapourPressure vapourDensity
    generalize (if m = "R98" ∨ m = "R03" ∨ m = "R16" ∨ m = "R17" then (1 / 217 : ℝ)
      else if m = "R18" ∨ m = "R19" ∨ m = "R19SD" ∨ m = "R20" ∨ m = "R20SD" ∨ m = "R21SD" then 1 / 216.68
      else 461.52 / 100000) = k
    field_simp

theorem oxyVapour_eq (m : String) : ∃ k : ℝ, 0 < k ∧ k ≤ 1 ∧ ∀ {T : ℝ}, 0 < T → ∀ e, oxyVapour m T e = 10 * k * e := by
  refine ⟨18.01528 / 0.0831451 * (if m = "R98" ∨ m = "R03" ∨ m = "R16" ∨ m = "R17" ∨ m = "R18" then 1 / 217
    else if m = "R19" ∨ m = "R19SD" ∨ m = "R20" ∨ m = "R20SD" then 1 / 216.68
    else 4.615228e-3), ?_, ?_, fun {T} hT e => ?_⟩
  · split_ifs <;> norm_num
  · split_ifs <;> norm_num
  · unfold oxyVapour vapourDensity
    generalize (if m = "R98" ∨ m = "R03" ∨ m = "R16" ∨ m = "R17" ∨ m = "R18" then (1 / 217 : ℝ)
      else if m = "R19" ∨ m = "R19SD" ∨ m = "R20" ∨ m = "R20SD" then 1 / 216.68
      else 4.615228e-3) = k
    field_simp

theorem inverse_temperature {T : ℝ} (hT : 0 < T) : 300 / (300.0 / T) = T := by
  field_simp
  norm_num

/-- Water vapour: absorption in Np/km as a continuous function. -/
theorem water_continuous {mw : String} (hm : mw ∈ plainWater) {F : LineList} (hF : waterFile mw = some F) (old : LineList)
    (hf : 0 < f) (hT : ContinuousOn T K) (hT0 : ∀ u ∈ K, 0 < T u) (hp : ContinuousOn p K) (he : ContinuousOn e K)
    (hp0 : ∀ u ∈ K, 0 ≤ p u) (he0 : ∀ u ∈ K, 0 ≤ e u) (hpe : ∀ u ∈ K, 0 < p u + e u) :
    ∃ w : ℝ → ℝ, ContinuousOn w K ∧ ∀ u ∈ K, 0 ≤ w u ∧ ∃ a b,
      h2oAbsorption mw (reloadLL F old) (p u) (300.0 / T u) (e u) f = .ok (some (a, b)) ∧
      0.182 * f * (a + b) * db2np = w u := by
  obtain ⟨n, hn⟩ := file_len hF
  obtain ⟨c, hc⟩ : ∃ c : String → ℕ → ℝ, ∀ a v, F a = some v → c a = v := ⟨fun a => (F a).getD 0, fun a v h => by simp [h]⟩
  have C := columns_of_file hF old hc hn
  have hm' : mw ∈ ["R98", "R03", "R16", "R17", "R18", "R19", "R20"] := hm
  have hc0 : mw ∉ ["R23SD", "R24", "MWL24"] := by
    simp only [List.mem_cons, List.not_mem_nil, or_false] at hm'
    rcases hm' with rfl | rfl | rfl | rfl | rfl | rfl | rfl <;> decide
  obtain ⟨k, hk0, hk1, hk⟩ := vapourPressure_eq mw
  have hpv : ContinuousOn (fun u => vapourPressure mw (T u) (e u)) K :=
    (continuousOn_const.mul he : ContinuousOn (fun u => 10 * k * e u) K).congr fun u hu => hk (hT0 u hu) _
  have hpd : ContinuousOn (fun u => dryPressure mw (T u) (p u) (e u)) K :=
    ((continuousOn_const.mul hp).add (continuousOn_const.mul he)).sub hpv
  have hv0 : ∀ u ∈ K, 0 ≤ vapourPressure mw (T u) (e u) := fun u hu => by
    rw [hk (hT0 u hu)]; have := he0 u hu; positivity
  have hd0 : ∀ u ∈ K, 0 ≤ dryPressure mw (T u) (p u) (e u) := fun u hu => by
    unfold dryPressure; rw [hk (hT0 u hu)]; nlinarith [he0 u hu, hp0 u hu]
  have hs0 : ∀ u ∈ K, 0 < dryPressure mw (T u) (p u) (e u) + vapourPressure mw (T u) (e u) := fun u hu => by
    unfold dryPressure; linarith [hpe u hu]
  have hrho : ContinuousOn (fun u => vapourDensity (T u) (e u)) K := by
    unfold vapourDensity
    exact ((continuousOn_const.mul he).mul continuousOn_const).div (continuousOn_const.mul hT)
      fun u hu => (mul_pos (by norm_num) (hT0 u hu)).ne'
  have hθ : ContinuousOn (fun u => c "reftcon" 0 * (300.0 / T u) / 300) K :=
    (continuousOn_const.mul (continuousOn_const.div hT fun u hu => (hT0 u hu).ne')).div_const _
  have hθ0 : ∀ u ∈ K, 0 < c "reftcon" 0 * (300.0 / T u) / 300 := fun u hu => by
    have := hT0 u hu; have := C.reft.2; positivity
  have hsum := lineSum_continuousOn hm C f hT hT0 hpd hpv hd0 hv0 hs0
  refine ⟨fun u => lineAbsorption mw (vapourDensity (T u) (e u))
      (Spec.lineSum mw c n (T u) (dryPressure mw (T u) (p u) (e u)) (vapourPressure mw (T u) (e u)) f)
    + if mw = "R98" ∨ mw = "R03" then
        continuum 5.43e-10 3 1.8e-8 7.5 (c "reftcon" 0 * (300.0 / T u) / 300) (dryPressure mw (T u) (p u) (e u))
          (vapourPressure mw (T u) (e u)) f
      else continuum (c "cf" 0) (c "xcf" 0) (c "cs" 0) (c "xcs" 0) (c "reftcon" 0 * (300.0 / T u) / 300)
        (dryPressure mw (T u) (p u) (e u)) (vapourPressure mw (T u) (e u)) f, .add ?_ ?_, fun u hu => ?_⟩
  · unfold lineAbsorption
    split_ifs
    · exact ((continuousOn_const.mul (hrho.div_const _)).mul hsum).div_const _
    · exact (continuousOn_const.mul hrho).mul hsum
    · exact (continuousOn_const.mul hrho).mul hsum
  · split_ifs
    · exact continuum_continuousOn _ _ _ _ _ hθ hθ0 hpd hpv
    · exact continuum_continuousOn _ _ _ _ _ hθ hθ0 hpd hpv
  · have hvx : 0 < 300.0 / T u := div_pos (by norm_num) (hT0 u hu)
    simp only
    rcases (he0 u hu).eq_or_lt with h | h
    · have e1 : vapourDensity (T u) (e u) = 0 := by unfold vapourDensity; rw [← h]; simp
      have e2 : vapourPressure mw (T u) (e u) = 0 := by rw [hk (hT0 u hu), ← h]; simp
      have e3 (S : ℝ) : lineAbsorption mw 0 S = 0 := by unfold lineAbsorption; split_ifs <;> simp
      have e4 (a b c d θ q : ℝ) : continuum a b c d θ q 0 f = 0 := by unfold continuum; simp
      rw [e1, e2, e3, e4, e4, ite_self, ← h]
      exact ⟨by simp, 0, 0, C35_dry _ _ _ _ hvx, by simp⟩
    · obtain ⟨a, b, hab, ha, hb⟩ := C35_nonneg hm' hF old (hp0 u hu) hvx h hf
      have f1 := C68_water_lines hF old hc hn (hp0 u hu) hvx h hf hab
      have f2 := C68_water_continuum hc0 hF old hc (hp0 u hu) hvx h hf hab
      rw [inverse_temperature (hT0 u hu)] at f1 f2
      rw [← f1, ← f2]
      have hl : (0 : ℝ) < log 10 := log_pos (by norm_num)
      exact ⟨by positivity, a, b, hab, by rw [db2np_eq]; ring⟩

/-- The oxygen models whose absorption is cut off below zero and without a speed-dependent line. -/
def plainOxygen : List String := ["R03", "R16", "R17", "R18", "R19", "R19SD", "R20", "R20SD", "R22"]

theorem oxygen_len {m : String} {F : LineList} (hF : oxygenFile m = some F) :
    ∃ n : ℕ, F "len(f)" = some fun _ => (n : ℝ) := by
  obtain ⟨T, hmem, rfl⟩ := oxygenFile_some hF
  have hl := oxygenGroups_lines _ hmem
  simp only at hl
  cases hf : T.lookup "f" with
  | none => rw [hf] at hl; cases hl
  | some v => exact ⟨v.digits.length, by simp [hf]⟩

/-- Oxygen: absorption in Np/km as a continuous function. -/
theorem oxygen_continuous {mo : String} (hm : mo ∈ plainOxygen) {F : LineList} (hF : oxygenFile mo = some F)
    (old : LineList) (hf : 0 < f) (hT : ContinuousOn T K) (hT0 : ∀ u ∈ K, 0 < T u) (hp : ContinuousOn p K)
    (he : ContinuousOn e K) (hp0 : ∀ u ∈ K, 0 ≤ p u) (he0 : ∀ u ∈ K, 0 ≤ e u) (hpe : ∀ u ∈ K, 0 < p u + e u) :
    ∃ w : ℝ → ℝ, ContinuousOn w K ∧ ∀ u ∈ K, 0 ≤ w u ∧ ∃ a b,
      o2Absorption mo (reloadLL F old) (p u) (300.0 / T u) (e u) f = .ok (some (a, b)) ∧
      0.182 * f * (a + b) * db2np = w u := by
  obtain ⟨n, hn⟩ := oxygen_len hF
  obtain ⟨c, hc⟩ : ∃ c : String → ℕ → ℝ, ∀ a v, F a = some v → c a = v := ⟨fun a => (F a).getD 0, fun a v h => by simp [h]⟩
  have C := oxyColumns_of_file hF old hc hn
  have hne : mo ≠ "R98" ∧ mo ≠ "R23" ∧ mo ≠ "R24" := by
    simp only [plainOxygen, List.mem_cons, List.not_mem_nil, or_false] at hm
    rcases hm with rfl | rfl | rfl | rfl | rfl | rfl | rfl | rfl | rfl <;> decide
  obtain ⟨k, hk0, hk1, hk⟩ := oxyVapour_eq mo
  have hpv : ContinuousOn (fun u => oxyVapour mo (T u) (e u)) K :=
    (continuousOn_const.mul he : ContinuousOn (fun u => 10 * k * e u) K).congr fun u hu => hk (hT0 u hu) _
  have hpd : ContinuousOn (fun u => 10 * p u + 10 * e u - oxyVapour mo (T u) (e u)) K :=
    ((continuousOn_const.mul hp).add (continuousOn_const.mul he)).sub hpv
  have hθ : ContinuousOn (fun u => 300.0 / T u) K := continuousOn_const.div hT fun u hu => (hT0 u hu).ne'
  have hθ0 : ∀ u ∈ K, 0 < 300.0 / T u := fun u hu => div_pos (by norm_num) (hT0 u hu)
  have hb := broadening_continuousOn mo (c "x" 0) hθ hθ0 hpd hpv
  have hb0 : ∀ u ∈ K, 0 < broadening mo (c "x" 0) (300.0 / T u) (10 * p u + 10 * e u - oxyVapour mo (T u) (e u))
      (oxyVapour mo (T u) (e u)) := fun u hu => by
    have h1 := (oxyAir_props mo (c "x" 0) (c "wb300" 0) (hp0 u hu) (hθ0 u hu) (he0 u hu) (hpe u hu) C.wb).2.2.1
    rw [(oxyAir_formula hF (c "x" 0) (c "wb300" 0) (p u) (e u) (hθ0 u hu)).2.2.2.2.2.1, inverse_temperature (hT0 u hu)]
      at h1
    exact h1
  have hP : ContinuousOn (fun u => 10 * p u + 10 * e u) K := (continuousOn_const.mul hp).add (continuousOn_const.mul he)
  have hlines := oxyLines_continuousOn mo C f hθ hθ0 hP hb hb0
  have hdeb (s : ℝ) := debye_continuousOn s f hθ hθ0 (continuousOn_const.mul hb) fun u hu => mul_pos C.wb (hb0 u hu)
  have pre : ContinuousOn (fun u => oxyUnits mo * (10 * p u + 10 * e u - oxyVapour mo (T u) (e u)) * (300.0 / T u) ^ 3) K :=
    (continuousOn_const.mul hpd).mul (hθ.pow 3)
  classical
  have key := fun u (hu : u ∈ K) => C69_oxygen hne.2 hF old hc hn (hp0 u hu) (hθ0 u hu) (he0 u hu) (hpe u hu) hf rfl rfl rfl
  refine ⟨fun u => oxyFinish mo (oxyUnits mo * (10 * p u + 10 * e u - oxyVapour mo (T u) (e u)) * (300.0 / T u) ^ 3 *
        (oxyLines mo c n (300.0 / T u) (10 * p u + 10 * e u) (broadening mo (c "x" 0) (300.0 / T u)
          (10 * p u + 10 * e u - oxyVapour mo (T u) (e u)) (oxyVapour mo (T u) (e u))) f +
          open Classical in if separateBand mo then 0 else debye 1.584e-17 (300.0 / T u) (c "wb300" 0 *
            broadening mo (c "x" 0) (300.0 / T u) (10 * p u + 10 * e u - oxyVapour mo (T u) (e u))
              (oxyVapour mo (T u) (e u))) f))
      + open Classical in if separateBand mo then
        oxyUnits mo * (10 * p u + 10 * e u - oxyVapour mo (T u) (e u)) * (300.0 / T u) ^ 3 *
          debye (if mo = "R98" ∨ mo = "R03" then 1.6e-17 else 1.584e-17) (300.0 / T u) (c "wb300" 0 *
            broadening mo (c "x" 0) (300.0 / T u) (10 * p u + 10 * e u - oxyVapour mo (T u) (e u))
              (oxyVapour mo (T u) (e u))) f
        else 0, .add (oxyFinish_continuousOn mo (pre.mul (.add hlines ?_))) ?_, fun u hu => ?_⟩
  · split_ifs
    · exact continuousOn_const
    · exact hdeb _
  · split_ifs
    · exact pre.mul (hdeb _)
    · exact pre.mul (hdeb _)
    · exact continuousOn_const
  · obtain ⟨a, b, hab, h1, h2⟩ := key u hu
    rw [inverse_temperature (hT0 u hu)] at h1 h2
    obtain ⟨a', b', hab', s1, s2, s3⟩ := C37_sign hF old (hp0 u hu) (hθ0 u hu) (he0 u hu) (hpe u hu) hf
    rw [hab] at hab'
    cases hab'
    have hb0 : 0 ≤ b := by
      by_cases h : mo ∈ ["R98", "R03", "R16", "R17", "R18"]
      · exact (s2 h).le
      · exact (s3 h).ge
    simp only
    rw [← h1, ← h2]
    have hl : (0 : ℝ) < log 10 := log_pos (by norm_num)
    have := s1 hne.1
    exact ⟨by positivity, a, b, hab, by rw [db2np_eq]; ring⟩

/-- Nitrogen. -/
theorem nitrogen_continuous {sel : Sel} {mn : String} (hsel : sel.n2 = some mn) (hm : mn ∈ n2Runs) (hf : 0 < f)
    (hT : ContinuousOn T K) (hT0 : ∀ u ∈ K, 0 < T u) (hp : ContinuousOn p K) (hp0 : ∀ u ∈ K, 0 ≤ p u) :
    ∃ w : ℝ → ℝ, ContinuousOn w K ∧ ∀ u ∈ K, 0 ≤ w u ∧ n2Term shipped sel (T u) (p u) f = .ok (w u) := by
  by_cases h : mn = ""
  · exact ⟨0, continuousOn_const, fun u hu => ⟨le_rfl, by unfold n2Term; rw [hsel]; exact if_pos h⟩⟩
  · have hm' := (List.mem_cons.1 hm).resolve_left h
    obtain ⟨l, x, n, d, hc, hl, -, hn, hd, -⟩ := n2Coeff_pos (m := mn) hm' f
    refine ⟨_, n2_continuousOn (m := mn) (f := f) (c := (l, x, n, d)) hT hT0 hp, fun u hu => ⟨?_, ?_⟩⟩
    · simp only
      have hd0 : 0 < d := by linarith
      have := hp0 u hu
      have := hT0 u hu
      refine mul_nonneg hn.le ?_
      split_ifs
      · rcases (hp0 u hu).eq_or_lt with h | h
        · unfold n2Mwl24; simp [← h]
        · have := n2Mwl24_pos (hT0 u hu) h.ne' hf.ne'
          positivity
      · positivity
    · unfold n2Term
      rw [hsel]
      simp only
      rw [if_neg h]
      show finite (n2Absorption mn (T u) (p u) f) = _
      unfold n2Absorption
      rw [hc]
      simp only [Except.map, if_pos (hT0 u hu), finite]

end

/-- **C95.** Every such atmosphere has absorption coefficients that are continuous functions of height, whichever of the
models without speed-dependent profiles are chosen. -/
theorem C95_shipped {g g1 : Globals} {C : Column} {mw mo mn : String} {frq m : ℝ} (hw : g.sel.h2o = some mw)
    (ho : g.sel.o2 = some mo) (hn : g.sel.n2 = some mn) (hmw : mw ∈ ["R98", "R03", "R16", "R17", "R18", "R19", "R20"])
    (hmo : mo ∈ ["R03", "R16", "R17", "R18", "R19", "R19SD", "R20", "R20SD", "R22"]) (hmn : mn ∈ n2Runs)
    (hl : initLineList shipped g = .ok g1) (hf : 0 < frq) (hC : C.Smooth m) :
    ∃ w d, Continuous' C shipped g1 frq m w d := by
  have hT0 : ∀ u ∈ Icc 0 C.top, 0 < C.tk u := fun u hu => hC.low.trans_le (hC.tk0 u hu)
  have he : ContinuousOn (fun u => C.rh u * eswat (C.tk u) / 10.0) (Icc 0 C.top) :=
    (hC.rh.mul (eswat_continuousOn hC.tk hT0)).div_const _
  have hp : ContinuousOn (fun u => C.p u / 10.0 - C.rh u * eswat (C.tk u) / 10.0) (Icc 0 C.top) :=
    (hC.p.div_const _).sub he
  have he0 : ∀ u ∈ Icc 0 C.top, 0 ≤ C.rh u * eswat (C.tk u) / 10.0 := fun u hu => by
    have := hC.rh0 u hu; have := eswat_pos (C.tk u); positivity
  have hp0 : ∀ u ∈ Icc 0 C.top, 0 ≤ C.p u / 10.0 - C.rh u * eswat (C.tk u) / 10.0 := fun u hu => by
    rw [← sub_div]; exact div_nonneg (sub_nonneg.2 (hC.vapour u hu)) (by norm_num)
  have hpe : ∀ u ∈ Icc 0 C.top,
      0 < C.p u / 10.0 - C.rh u * eswat (C.tk u) / 10.0 + C.rh u * eswat (C.tk u) / 10.0 := fun u hu => by
    rw [sub_add_cancel]; exact div_pos (hC.p0 u hu) (by norm_num)
  obtain ⟨W, hW⟩ : ∃ W, waterFile mw = some W := Option.isSome_iff_exists.1 ((C35_names mw).2 (by
    simp only [List.mem_cons, List.not_mem_nil, or_false] at hmw ⊢; tauto))
  obtain ⟨O, hO⟩ : ∃ O, oxygenFile mo = some O := Option.isSome_iff_exists.1 ((C37_names mo).2 (by
    simp only [List.mem_cons, List.not_mem_nil, or_false] at hmo ⊢; tauto))
  have hg : g1.sel = g.sel ∧ g1.h2oll = reloadLL W g.h2oll ∧ g1.o2ll = reloadLL O g.o2ll := by
    unfold initLineList at hl
    simp only [hw, ho, shipped, Option.bind_some, hW, hO] at hl
    cases hl
    exact ⟨rfl, rfl, rfl⟩
  obtain ⟨w, w1, w2⟩ := water_continuous (K := Icc 0 C.top) hmw hW g.h2oll hf hC.tk hT0 hp he hp0 he0 hpe
  obtain ⟨o, o1, o2⟩ := oxygen_continuous (K := Icc 0 C.top) hmo hO g.o2ll hf hC.tk hT0 hp he hp0 he0 hpe
  obtain ⟨q, q1, q2⟩ := nitrogen_continuous (K := Icc 0 C.top) hn hmn hf hC.tk hT0 (hp.mul continuousOn_const)
    fun u hu => mul_nonneg (hp0 u hu) (by norm_num : (0 : ℝ) ≤ 10)
  refine ⟨w, fun u => o u + q u + 0, hC.top, fun u hu => ?_, w1, (o1.add q1).add continuousOn_const,
    fun u hu => (w2 u hu).1, fun u hu => by have := (o2 u hu).1; have := (q2 u hu).1; positivity, hC.tk, hC.low, hC.tk0⟩
  obtain ⟨-, a, b, h1, h2⟩ := w2 u hu
  obtain ⟨-, a', b', h3, h4⟩ := o2 u hu
  have h5 : n2Term shipped g.sel (C.tk u) ((C.p u / 10.0 - C.rh u * eswat (C.tk u) / 10.0) * 10) frq = .ok (q u) :=
    (q2 u hu).2
  have h1' : shipped.h2o mw (reloadLL W g.h2oll) (C.p u / 10.0 - C.rh u * eswat (C.tk u) / 10.0) (300.0 / C.tk u)
      (C.rh u * eswat (C.tk u) / 10.0) frq = .ok (a, b) := finite_some h1
  have h3' : shipped.o2 mo (reloadLL O g.o2ll) (C.p u / 10.0 - C.rh u * eswat (C.tk u) / 10.0) (300.0 / C.tk u)
      (C.rh u * eswat (C.tk u) / 10.0) frq = .ok (a', b') := finite_some h3
  unfold Column.air clearLevel
  have o3 : o3Term shipped g1 none (C.tk u) (C.p u) frq 0 = .ok 0 := by
    unfold o3Term ozoneActive; simp
  simp only [hg.1, hg.2.1, hg.2.2, hw, ho, bind, Except.bind, o3, h5, h1', h3', pure, Except.pure, h2, h4]

end Verif.Props
