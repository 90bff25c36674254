import Verif.Spec.ClearSky
import Verif.Props.ShippedLimit
import Verif.Props.CloudNitrogen

/-!
# C96: clear-sky absorption in closed form
-/

namespace Verif.Props

open Verif.Model Verif.Py Verif.Spec Verif.Lemmas Real

variable {mw mo mn : String} {W O : LineList} {cw co : String → ℕ → ℝ} {nw no : ℕ} {g : Globals} {T p e f : ℝ}

/-- `c` are the columns of the line list `F` of water vapour, `n` the number of lines. -/
structure WaterColumns (F : LineList) (c : String → ℕ → ℝ) (n : ℕ) : Prop where
  col : ∀ a v, F a = some v → c a = v
  len : F "len(fl)" = some fun _ => (n : ℝ)

/-- `c` are the columns of the line list `F` of oxygen, `n` the number of lines. -/
structure OxygenColumns (F : LineList) (c : String → ℕ → ℝ) (n : ℕ) : Prop where
  col : ∀ a v, F a = some v → c a = v
  len : F "len(f)" = some fun _ => (n : ℝ)

theorem dry_kpa (p e : ℝ) : 10 * (p / 10.0 - e / 10.0) + 10 * (e / 10.0) = p := by norm_num; ring

theorem water_level (hm : mw ∉ ["R23SD", "R24", "MWL24"]) (hW : waterFile mw = some W) (hc : WaterColumns W cw nw)
    (old : LineList) (hT : 0 < T) (he : 0 ≤ e) (hep : e ≤ p) (hf : 0 < f) :
    ∃ a b, h2oAbsorption mw (reloadLL W old) (p / 10.0 - e / 10.0) (300.0 / T) (e / 10.0) f = .ok (some (a, b)) ∧
      0.182 * f * (a + b) * db2np = waterAbsorption mw cw nw T p e f := by
  have hvx : 0 < 300.0 / T := div_pos (by norm_num) hT
  have hp : 0 ≤ p / 10.0 - e / 10.0 := by rw [← sub_div]; exact div_nonneg (by linarith) (by norm_num)
  have h10 : e / 10.0 = e / 10 := by norm_num
  have hθ : cw "reftcon" 0 * (300.0 / T) / 300 = cw "reftcon" 0 / T := by
    field_simp; norm_num
  have hpd : dryPressure mw T (p / 10.0 - e / 10.0) (e / 10.0) = p - vapourPressure mw T (e / 10) := by
    unfold dryPressure; rw [dry_kpa, h10]
  rcases he.eq_or_lt with rfl | h
  · refine ⟨0, 0, by rw [zero_div]; exact C35_dry _ _ _ _ hvx, ?_⟩
    obtain ⟨k, -, -, hk⟩ := vapourPressure_eq mw
    have e1 : vapourDensity T 0 = 0 := by unfold vapourDensity; simp
    have e2 : vapourPressure mw T 0 = 0 := by rw [hk hT]; simp
    have e3 (S : ℝ) : lineAbsorption mw 0 S = 0 := by unfold lineAbsorption; split_ifs <;> simp
    have e4 (a b c d θ q : ℝ) : continuum a b c d θ q 0 f = 0 := by unfold continuum; simp
    unfold waterAbsorption
    simp only [zero_div, e1, e2, e3, e4, ite_self]
    ring
  · have h' : 0 < e / 10.0 := by positivity
    obtain ⟨⟨a, b⟩, hab⟩ := C32_water hW old hp hvx h'.le hf fun h => by
      simp only [List.mem_cons, List.not_mem_nil, or_false] at h hm; tauto
    have f1 := C68_water_lines hW old hc.col hc.len hp hvx h' hf hab
    have f2 := C68_water_continuum hm hW old hc.col hp hvx h' hf hab
    rw [inverse_temperature hT, hpd, h10] at f1 f2
    rw [hθ] at f2
    refine ⟨a, b, hab, ?_⟩
    unfold waterAbsorption
    simp only
    rw [← f1, ← f2, db2np_eq]
    ring

theorem oxygen_level (hm : mo ≠ "R23" ∧ mo ≠ "R24") (hO : oxygenFile mo = some O) (hc : OxygenColumns O co no)
    (old : LineList) (hT : 0 < T) (hp : 0 < p) (he : 0 ≤ e) (hep : e ≤ p) (hf : 0 < f) :
    ∃ a b, o2Absorption mo (reloadLL O old) (p / 10.0 - e / 10.0) (300.0 / T) (e / 10.0) f = .ok (some (a, b)) ∧
      0.182 * f * (a + b) * db2np = oxygenAbsorption mo co no T p e f := by
  have hvx : 0 < 300.0 / T := div_pos (by norm_num) hT
  have hp0 : 0 ≤ p / 10.0 - e / 10.0 := by rw [← sub_div]; exact div_nonneg (by linarith) (by norm_num)
  have h10 : e / 10.0 = e / 10 := by norm_num
  have h300 : (300.0 : ℝ) / T = 300 / T := by norm_num
  obtain ⟨a, b, hab, h1, h2⟩ := C69_oxygen hm hO old hc.col hc.len hp0 hvx (by positivity : 0 ≤ e / 10.0)
    (by rw [sub_add_cancel]; positivity) hf rfl rfl rfl
  rw [inverse_temperature hT, dry_kpa, h10, h300] at h1 h2
  refine ⟨a, b, hab, ?_⟩
  have : 0.182 * f * (a + b) * db2np = a * (0.182 * f) * (log 10 / 10) + b * (0.182 * f) * (log 10 / 10) := by
    rw [db2np_eq]; ring
  rw [this, h1, h2]
  unfold oxygenAbsorption
  simp only
  by_cases h98 : mo = "R98" ∨ mo = "R03"
  · have hsep : separateBand mo := by unfold separateBand; tauto
    simp only [if_pos h98, if_pos hsep, add_zero]
  · by_cases hsep : separateBand mo
    · simp only [if_neg h98, if_pos hsep, add_zero]
    · simp only [if_neg h98, if_neg hsep, add_zero]

theorem nitrogen_level {sel : Sel} (hn : sel.n2 = some mn) (hm : mn ∈ n2Runs) (hT : 0 < T) (q f : ℝ) :
    n2Term shipped sel T q f = .ok (nitrogenAbsorption mn T q f) := by
  unfold n2Term
  rw [hn]
  simp only
  obtain ⟨a1, a2, a3, a4, a5⟩ := C80_nitrogen hT q f
  simp only [n2Runs, List.mem_cons, List.not_mem_nil, or_false] at hm
  by_cases h : mn = ""
  · rw [if_pos h]
    unfold nitrogenAbsorption
    rw [if_pos h]
  rw [if_neg h]
  show finite (n2Absorption mn T q f) = _
  rcases hm with rfl | rfl | rfl | rfl | rfl | rfl | rfl | rfl | rfl | rfl | rfl | rfl | rfl | rfl | rfl | rfl | rfl <;>
    first
    | exact absurd rfl h
    | (rw [a1]; simp [nitrogenAbsorption, finite])
    | (rw [a2]; simp [nitrogenAbsorption, finite])
    | (rw [a3 _ (by decide)]; simp [nitrogenAbsorption, finite])
    | (rw [a4 _ (by decide)]; simp [nitrogenAbsorption, finite])
    | (rw [a5]; simp [nitrogenAbsorption, finite])

/-- The line lists of the two models named have been loaded. -/
structure Loaded (g : Globals) (mw mo mn : String) (W O : LineList) : Prop where
  h2o : g.sel.h2o = some mw
  o2 : g.sel.o2 = some mo
  n2 : g.sel.n2 = some mn
  water : waterFile mw = some W
  oxygen : oxygenFile mo = some O
  h2oll : ∃ old, g.h2oll = reloadLL W old
  o2ll : ∃ old, g.o2ll = reloadLL O old

/-- **C96.** One level of the clear-sky absorption: the conversions to and from dB/km and kPa cancel, and what is left are
the closed formulas of the selected models, water vapour on one side, oxygen and nitrogen on the other. -/
theorem C96_level (hm : mw ∉ ["R23SD", "R24", "MWL24"]) (hmo : mo ≠ "R23" ∧ mo ≠ "R24") (hmn : mn ∈ n2Runs)
    (hg : Loaded g mw mo mn W O) (hw : WaterColumns W cw nw) (ho : OxygenColumns O co no) (hT : 0 < T) (hp : 0 < p)
    (he : 0 ≤ e) (hep : e ≤ p) (hf : 0 < f) (i : ℕ) :
    clearLevel shipped g none p T e f i = .ok (waterAbsorption mw cw nw T p e f,
      oxygenAbsorption mo co no T p e f + nitrogenAbsorption mn T (p - e) f) := by
  obtain ⟨lw, hlw⟩ := hg.h2oll
  obtain ⟨lo, hlo⟩ := hg.o2ll
  obtain ⟨a, b, h1, h2⟩ := water_level hm hg.water hw lw hT he hep hf
  obtain ⟨a', b', h3, h4⟩ := oxygen_level hmo hg.oxygen ho lo hT hp he hep hf
  have h5 := nitrogen_level hg.n2 hmn hT ((p / 10.0 - e / 10.0) * 10) f
  have h6 : (p / 10.0 - e / 10.0) * 10 = p - e := by norm_num; ring
  rw [h6] at h5
  have h1' : shipped.h2o mw (reloadLL W lw) (p / 10.0 - e / 10.0) (300.0 / T) (e / 10.0) f = .ok (a, b) := finite_some h1
  have h3' : shipped.o2 mo (reloadLL O lo) (p / 10.0 - e / 10.0) (300.0 / T) (e / 10.0) f = .ok (a', b') := finite_some h3
  have o3 : o3Term shipped g none T p f i = .ok 0 := by
    unfold o3Term ozoneActive; simp
  unfold clearLevel
  simp only [hg.h2o, hg.o2, hlw, hlo, bind, Except.bind, o3, h6, h5, h1', h3', pure, Except.pure, h2, h4, add_zero]

/-- C96: the whole profile. -/
theorem C96_profile {S : Settings} {ev : Val} (hm : mw ∉ ["R23SD", "R24", "MWL24"]) (hmo : mo ≠ "R23" ∧ mo ≠ "R24")
    (hmn : mn ∈ n2Runs) (hg : Loaded g mw mo mn W O) (hw : WaterColumns W cw nw) (ho : OxygenColumns O co no)
    (hS : S.o3n = none) (hT : ∀ i < S.nl, 0 < S.tk i) (hp : ∀ i < S.nl, 0 < S.p i)
    (he : ∀ i < S.nl, 0 ≤ ev i ∧ ev i ≤ S.p i) (hf : 0 < f) :
    ∃ a, clearsky shipped g S ev f = .ok a ∧ ∀ i < S.nl, a i = (waterAbsorption mw cw nw (S.tk i) (S.p i) (ev i) f,
      oxygenAbsorption mo co no (S.tk i) (S.p i) (ev i) f + nitrogenAbsorption mn (S.tk i) (S.p i - ev i) f) := by
  unfold clearsky
  rw [hS]
  have key : ∀ i < S.nl, clearLevel shipped g none (S.p i) (S.tk i) (ev i) f i = _ := fun i hi =>
    C96_level hm hmo hmn hg hw ho (hT i hi) (hp i hi) (he i hi).1 (he i hi).2 hf i
  obtain ⟨a, ha⟩ := tabulateE_total (d := (0, 0)) fun i hi => ⟨_, key i hi⟩
  refine ⟨a, ha, fun i hi => ?_⟩
  have := (tabulateE_ok ha).1 i hi
  rw [key i hi] at this
  exact (Except.ok.inj this).symm

/-- Every line list of the distribution has columns. -/
theorem waterColumns_exist {m : String} {F : LineList} (hF : waterFile m = some F) : ∃ c n, WaterColumns F c n := by
  obtain ⟨n, hn⟩ := file_len hF
  exact ⟨fun a => (F a).getD 0, n, fun a v h => by simp [h], hn⟩

theorem oxygenColumns_exist {m : String} {F : LineList} (hF : oxygenFile m = some F) : ∃ c n, OxygenColumns F c n := by
  obtain ⟨n, hn⟩ := oxygen_len hF
  exact ⟨fun a => (F a).getD 0, n, fun a v h => by simp [h], hn⟩

/-- C96: the formulas give no negative absorption (water vapour models without speed dependence; oxygen other than R98). -/
theorem C96_nonneg (hm : mw ∈ ["R98", "R03", "R16", "R17", "R18", "R19", "R20"])
    (hmo : mo ∈ ["R03", "R16", "R17", "R18", "R19", "R19SD", "R20", "R20SD", "R22"]) (hmn : mn ∈ n2Runs)
    (hW : waterFile mw = some W) (hO : oxygenFile mo = some O)
    (hw : WaterColumns W cw nw) (ho : OxygenColumns O co no) (hT : 0 < T) (hp : 0 < p) (he : 0 ≤ e) (hep : e ≤ p)
    (hf : 0 < f) :
    0 ≤ waterAbsorption mw cw nw T p e f ∧ 0 ≤ oxygenAbsorption mo co no T p e f ∧ 0 ≤ nitrogenAbsorption mn T (p - e) f := by
  have hp0 : 0 ≤ p / 10.0 - e / 10.0 := by rw [← sub_div]; exact div_nonneg (by linarith) (by norm_num)
  have he0 : 0 ≤ e / 10.0 := by positivity
  have hpe : 0 < p / 10.0 - e / 10.0 + e / 10.0 := by rw [sub_add_cancel]; positivity
  obtain ⟨w, -, h1⟩ := water_continuous (K := {0}) (T := fun _ => T) (p := fun _ => p / 10.0 - e / 10.0)
    (e := fun _ => e / 10.0) hm hW (fun _ => none) hf continuousOn_const (fun _ _ => hT) continuousOn_const
    continuousOn_const (fun _ _ => hp0) (fun _ _ => he0) fun _ _ => hpe
  obtain ⟨o, -, h2⟩ := oxygen_continuous (K := {0}) (T := fun _ => T) (p := fun _ => p / 10.0 - e / 10.0)
    (e := fun _ => e / 10.0) hmo hO (fun _ => none) hf continuousOn_const (fun _ _ => hT) continuousOn_const
    continuousOn_const (fun _ _ => hp0) (fun _ _ => he0) fun _ _ => hpe
  obtain ⟨q, -, h3⟩ := nitrogen_continuous (K := {0}) (T := fun _ => T) (p := fun _ => p - e)
    (sel := { Globals.init.sel with n2 := some mn }) rfl hmn hf continuousOn_const (fun _ _ => hT) continuousOn_const
    fun _ _ => sub_nonneg.2 hep
  obtain ⟨w0, a, b, e1, e2⟩ := h1 0 rfl
  obtain ⟨o0, a', b', e3, e4⟩ := h2 0 rfl
  obtain ⟨q0, e5⟩ := h3 0 rfl
  have hm' : mw ∉ ["R23SD", "R24", "MWL24"] := by
    simp only [List.mem_cons, List.not_mem_nil, or_false] at hm
    rcases hm with rfl | rfl | rfl | rfl | rfl | rfl | rfl <;> decide
  have hmo' : mo ≠ "R23" ∧ mo ≠ "R24" := by
    simp only [List.mem_cons, List.not_mem_nil, or_false] at hmo
    rcases hmo with rfl | rfl | rfl | rfl | rfl | rfl | rfl | rfl | rfl <;> decide
  obtain ⟨_, _, f1, f2⟩ := water_level hm' hW hw (fun _ => none) hT he hep hf
  obtain ⟨_, _, f3, f4⟩ := oxygen_level hmo' hO ho (fun _ => none) hT hp he hep hf
  have f5 := nitrogen_level (sel := { Globals.init.sel with n2 := some mn }) rfl hmn hT (p - e) f
  rw [e1] at f1
  rw [e3] at f3
  rw [e5] at f5
  cases f1
  cases f3
  rw [← f2, e2, ← f4, e4, ← Except.ok.inj f5]
  exact ⟨w0, o0, q0⟩

/-- At 22.235 GHz, 280 K, 900 hPa and 8 hPa of vapour. -/
example {g : Globals} (hg : g.sel.h2o = some "R19" ∧ g.sel.o2 = some "R20" ∧ g.sel.n2 = some "R03") :
    ∃ g1 cw nw co no, initLineList shipped g = .ok g1 ∧ clearLevel shipped g1 none 900 280 8 22.235 0 =
      .ok (waterAbsorption "R19" cw nw 280 900 8 22.235,
        oxygenAbsorption "R20" co no 280 900 8 22.235 + 1.29 * rollOff 22.235 * collision 6.5e-14 3.6 280 (900 - 8) 22.235) := by
  obtain ⟨W, hW⟩ : ∃ W, waterFile "R19" = some W := Option.isSome_iff_exists.1 ((C35_names _).2 (by decide))
  obtain ⟨O, hO⟩ : ∃ O, oxygenFile "R20" = some O := Option.isSome_iff_exists.1 ((C37_names _).2 (by decide))
  obtain ⟨cw, nw, hw⟩ := waterColumns_exist hW
  obtain ⟨co, no, ho⟩ := oxygenColumns_exist hO
  refine ⟨_, cw, nw, co, no, shipped_load hg.1 hg.2.1 hW hO, ?_⟩
  rw [C96_level (g := { g with h2oll := reloadLL W g.h2oll, o2ll := reloadLL O g.o2ll }) (mw := "R19") (mo := "R20")
    (mn := "R03") (by decide) (by decide) (by decide) ⟨hg.1, hg.2.1, hg.2.2, hW, hO, ⟨_, rfl⟩, ⟨_, rfl⟩⟩ hw ho
    (by norm_num) (by norm_num) (by norm_num) (by norm_num) (by norm_num)]
  simp [nitrogenAbsorption]

end Verif.Props
