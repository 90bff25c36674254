import Verif.Lemmas.AbsSmooth
import Verif.Lemmas.OxygenLow
import Verif.Props.SmoothRun

/-!
# C124 for the absorption models that ship with the package

In an atmosphere of twice continuously differentiable pressure, temperature and humidity the models without speed-dependent
profiles meet the hypotheses of C124, away from the cut-offs of the models.
-/

namespace Verif.Props

open Verif.Model Verif.Py Verif.Spec Verif.Lemmas Real Set

/-- Pressure, temperature and relative humidity are twice continuously differentiable around the heights of the atmosphere; moist
air, with less vapour than air. -/
structure Column.TwiceSmooth (C : Column) (U : Set ℝ) : Prop where
  isOpen : IsOpen U
  heights : Icc 0 C.top ⊆ U
  p : ContDiffOn ℝ 2 C.p U
  tk : ContDiffOn ℝ 2 C.tk U
  rh : ContDiffOn ℝ 2 C.rh U
  tk0 : ∀ u ∈ U, 0 < C.tk u
  rh0 : ∀ u ∈ U, 0 < C.rh u
  vapour : ∀ u ∈ U, C.rh u * eswat (C.tk u) ≤ C.p u

section

variable {K : Set ℝ} {T p e : ℝ → ℝ} {f : ℝ}

/-- Water vapour: absorption in Np/km as a smooth function. -/
theorem water_smooth {mw : String} (hm : mw ∈ plainWater) {F : LineList} (hF : waterFile mw = some F) (old : LineList)
    (hf : 0 < f) (hT : ContDiffOn ℝ 2 T K) (hT0 : ∀ u ∈ K, 0 < T u) (hp : ContDiffOn ℝ 2 p K) (he : ContDiffOn ℝ 2 e K)
    (hp0 : ∀ u ∈ K, 0 ≤ p u) (he1 : ∀ u ∈ K, 0 < e u) {c : String → ℕ → ℝ} {n : ℕ}
    (hc : ∀ a v, F a = some v → c a = v) (hn : F "len(fl)" = some fun _ => (n : ℝ))
    (hcut : ∀ u ∈ K, OffCutoff mw c n (T u) (dryPressure mw (T u) (p u) (e u)) (vapourPressure mw (T u) (e u)) f) :
    ∃ w : ℝ → ℝ, ContDiffOn ℝ 2 w K ∧ ∀ u ∈ K, 0 < w u ∧ ∃ a b,
      h2oAbsorption mw (reloadLL F old) (p u) (300.0 / T u) (e u) f = .ok (some (a, b)) ∧
      0.182 * f * (a + b) * db2np = w u := by
  have he0 : ∀ u ∈ K, 0 ≤ e u := fun u hu => (he1 u hu).le
  have hpe : ∀ u ∈ K, 0 < p u + e u := fun u hu => add_pos_of_nonneg_of_pos (hp0 u hu) (he1 u hu)
  have C := columns_of_file hF old hc hn
  have hm' : mw ∈ ["R98", "R03", "R16", "R17", "R18", "R19", "R20"] := hm
  have hc0 : mw ∉ ["R23SD", "R24", "MWL24"] := by
    simp only [List.mem_cons, List.not_mem_nil, or_false] at hm'
    rcases hm' with rfl | rfl | rfl | rfl | rfl | rfl | rfl <;> decide
  obtain ⟨k, hk0, hk1, hk⟩ := vapourPressure_eq mw
  have hpv : ContDiffOn ℝ 2 (fun u => vapourPressure mw (T u) (e u)) K :=
    (contDiffOn_const.mul he : ContDiffOn ℝ 2 (fun u => 10 * k * e u) K).congr fun u hu => hk (hT0 u hu) _
  have hpd : ContDiffOn ℝ 2 (fun u => dryPressure mw (T u) (p u) (e u)) K :=
    ((contDiffOn_const.mul hp).add (contDiffOn_const.mul he)).sub hpv
  have hv0 : ∀ u ∈ K, 0 ≤ vapourPressure mw (T u) (e u) := fun u hu => by
    rw [hk (hT0 u hu)]; have := he0 u hu; positivity
  have hd0 : ∀ u ∈ K, 0 ≤ dryPressure mw (T u) (p u) (e u) := fun u hu => by
    unfold dryPressure; rw [hk (hT0 u hu)]; nlinarith [he0 u hu, hp0 u hu]
  have hs0 : ∀ u ∈ K, 0 < dryPressure mw (T u) (p u) (e u) + vapourPressure mw (T u) (e u) := fun u hu => by
    unfold dryPressure; linarith [hpe u hu]
  have hrho : ContDiffOn ℝ 2 (fun u => vapourDensity (T u) (e u)) K := by
    unfold vapourDensity
    exact ((contDiffOn_const.mul he).mul contDiffOn_const).div (contDiffOn_const.mul hT)
      fun u hu => (mul_pos (by norm_num) (hT0 u hu)).ne'
  have hθ : ContDiffOn ℝ 2 (fun u => c "reftcon" 0 * (300.0 / T u) / 300) K :=
    (contDiffOn_const.mul (contDiffOn_const.div hT fun u hu => (hT0 u hu).ne')).div_const _
  have hθ0 : ∀ u ∈ K, 0 < c "reftcon" 0 * (300.0 / T u) / 300 := fun u hu => by
    have := hT0 u hu; have := C.reft.2; positivity
  have hsum := lineSum_smoothOn hm C f hT hT0 hpd hpv hd0 hv0 hs0 hcut
  refine ⟨fun u => lineAbsorption mw (vapourDensity (T u) (e u))
      (Spec.lineSum mw c n (T u) (dryPressure mw (T u) (p u) (e u)) (vapourPressure mw (T u) (e u)) f)
    + if mw = "R98" ∨ mw = "R03" then
        continuum 5.43e-10 3 1.8e-8 7.5 (c "reftcon" 0 * (300.0 / T u) / 300) (dryPressure mw (T u) (p u) (e u))
          (vapourPressure mw (T u) (e u)) f
      else continuum (c "cf" 0) (c "xcf" 0) (c "cs" 0) (c "xcs" 0) (c "reftcon" 0 * (300.0 / T u) / 300)
        (dryPressure mw (T u) (p u) (e u)) (vapourPressure mw (T u) (e u)) f, .add ?_ ?_, fun u hu => ?_⟩
  · unfold lineAbsorption
    split_ifs
    · exact ((contDiffOn_const.mul (hrho.div_const _)).mul hsum).div_const _
    · exact (contDiffOn_const.mul hrho).mul hsum
    · exact (contDiffOn_const.mul hrho).mul hsum
  · split_ifs
    · exact continuum_smoothOn _ _ _ _ _ hθ hθ0 hpd hpv
    · exact continuum_smoothOn _ _ _ _ _ hθ hθ0 hpd hpv
  · have hvx : 0 < 300.0 / T u := div_pos (by norm_num) (hT0 u hu)
    simp only
    have h := he1 u hu
    obtain ⟨a, b, hab, ha, hb⟩ := C35_nonneg hm' hF old (hp0 u hu) hvx h hf
    have f1 := C68_water_lines hF old hc hn (hp0 u hu) hvx h hf hab
    have f2 := C68_water_continuum hc0 hF old hc (hp0 u hu) hvx h hf hab
    rw [inverse_temperature (hT0 u hu)] at f1 f2
    rw [← f1, ← f2]
    have hl : (0 : ℝ) < log 10 := log_pos (by norm_num)
    exact ⟨by positivity, a, b, hab, by rw [db2np_eq]; ring⟩

/-- Oxygen: absorption in Np/km as a smooth function. -/
theorem oxygen_smooth {mo : String} (hm : mo ∈ plainOxygen) {F : LineList} (hF : oxygenFile mo = some F)
    (old : LineList) (hf : 0 < f) (hT : ContDiffOn ℝ 2 T K) (hT0 : ∀ u ∈ K, 0 < T u) (hp : ContDiffOn ℝ 2 p K)
    (he : ContDiffOn ℝ 2 e K) (hp0 : ∀ u ∈ K, 0 ≤ p u) (he0 : ∀ u ∈ K, 0 ≤ e u) (hpe : ∀ u ∈ K, 0 < p u + e u)
    (hpos : ∀ u ∈ K, ∀ a b, o2Absorption mo (reloadLL F old) (p u) (300.0 / T u) (e u) f = .ok (some (a, b)) → 0 < a) :
    ∃ w : ℝ → ℝ, ContDiffOn ℝ 2 w K ∧ ∀ u ∈ K, 0 < w u ∧ ∃ a b,
      o2Absorption mo (reloadLL F old) (p u) (300.0 / T u) (e u) f = .ok (some (a, b)) ∧
      0.182 * f * (a + b) * db2np = w u := by
  obtain ⟨n, hn⟩ := oxygen_len hF
  obtain ⟨c, hc⟩ : ∃ c : String → ℕ → ℝ, ∀ a v, F a = some v → c a = v := ⟨fun a => (F a).getD 0, fun a v h => by simp [h]⟩
  have C := oxyColumns_of_file hF old hc hn
  have hne : mo ≠ "R98" ∧ mo ≠ "R23" ∧ mo ≠ "R24" := by
    simp only [plainOxygen, List.mem_cons, List.not_mem_nil, or_false] at hm
    rcases hm with rfl | rfl | rfl | rfl | rfl | rfl | rfl | rfl | rfl <;> decide
  obtain ⟨k, hk0, hk1, hk⟩ := oxyVapour_eq mo
  have hpv : ContDiffOn ℝ 2 (fun u => oxyVapour mo (T u) (e u)) K :=
    (contDiffOn_const.mul he : ContDiffOn ℝ 2 (fun u => 10 * k * e u) K).congr fun u hu => hk (hT0 u hu) _
  have hpd : ContDiffOn ℝ 2 (fun u => 10 * p u + 10 * e u - oxyVapour mo (T u) (e u)) K :=
    ((contDiffOn_const.mul hp).add (contDiffOn_const.mul he)).sub hpv
  have hθ : ContDiffOn ℝ 2 (fun u => 300.0 / T u) K := contDiffOn_const.div hT fun u hu => (hT0 u hu).ne'
  have hθ0 : ∀ u ∈ K, 0 < 300.0 / T u := fun u hu => div_pos (by norm_num) (hT0 u hu)
  have hb := broadening_smoothOn mo (c "x" 0) hθ hθ0 hpd hpv
  have hb0 : ∀ u ∈ K, 0 < broadening mo (c "x" 0) (300.0 / T u) (10 * p u + 10 * e u - oxyVapour mo (T u) (e u))
      (oxyVapour mo (T u) (e u)) := fun u hu => by
    have h1 := (oxyAir_props mo (c "x" 0) (c "wb300" 0) (hp0 u hu) (hθ0 u hu) (he0 u hu) (hpe u hu) C.wb).2.2.1
    rw [(oxyAir_formula hF (c "x" 0) (c "wb300" 0) (p u) (e u) (hθ0 u hu)).2.2.2.2.2.1, inverse_temperature (hT0 u hu)]
      at h1
    exact h1
  have hP : ContDiffOn ℝ 2 (fun u => 10 * p u + 10 * e u) K := (contDiffOn_const.mul hp).add (contDiffOn_const.mul he)
  have hlines := oxyLines_smoothOn mo C f hθ hθ0 hP hb hb0
  have hdeb (s : ℝ) := debye_smoothOn s f hθ hθ0 (contDiffOn_const.mul hb) fun u hu => mul_pos C.wb (hb0 u hu)
  have pre : ContDiffOn ℝ 2 (fun u => oxyUnits mo * (10 * p u + 10 * e u - oxyVapour mo (T u) (e u)) * (300.0 / T u) ^ 3) K :=
    (contDiffOn_const.mul hpd).mul (hθ.pow 3)
  classical
  have key := fun u (hu : u ∈ K) => C69_oxygen hne.2 hF old hc hn (hp0 u hu) (hθ0 u hu) (he0 u hu) (hpe u hu) hf rfl rfl rfl
  refine ⟨fun u => oxyFinish mo (oxyUnits mo * (10 * p u + 10 * e u - oxyVapour mo (T u) (e u)) * (300.0 / T u) ^ 3 *
        (oxyLines mo c n (300.0 / T u) (10 * p u + 10 * e u) (broadening mo (c "x" 0) (300.0 / T u)
          (10 * p u + 10 * e u - oxyVapour mo (T u) (e u)) (oxyVapour mo (T u) (e u))) f +
          open Classical in if separateBand mo then 0 else debye 1.584e-17 (300.0 / T u) (c "wb300" 0 *
            broadening mo (c "x" 0) (300.0 / T u) (10 * p u + 10 * e u - oxyVapour mo (T u) (e u))
              (oxyVapour mo (T u) (e u))) f))
      + open Classical in if separateBand mo then
        oxyUnits mo * (10 * p u + 10 * e u - oxyVapour mo (T u) (e u)) * (300.0 / T u) ^ 3 *
          debye (if mo = "R98" ∨ mo = "R03" then 1.6e-17 else 1.584e-17) (300.0 / T u) (c "wb300" 0 *
            broadening mo (c "x" 0) (300.0 / T u) (10 * p u + 10 * e u - oxyVapour mo (T u) (e u))
              (oxyVapour mo (T u) (e u))) f
        else 0, .add (oxyFinish_smoothOn mo (pre.mul (.add hlines ?_)) fun u hu h0 => ?_) ?_, fun u hu => ?_⟩
  · split_ifs
    · exact contDiffOn_const
    · exact hdeb _
  · obtain ⟨a, b, hab, h1, -⟩ := key u hu
    rw [inverse_temperature (hT0 u hu)] at h1
    have ha := hpos u hu a b hab
    have hl : (0 : ℝ) < log 10 := log_pos (by norm_num)
    rw [h0] at h1
    have h2 : oxyFinish mo 0 = 0 := by unfold oxyFinish; split_ifs <;> simp
    rw [h2] at h1
    have : 0 < a * (0.182 * f) * (log 10 / 10) := by positivity
    linarith
  · split_ifs
    · exact pre.mul (hdeb _)
    · exact pre.mul (hdeb _)
    · exact contDiffOn_const
  · obtain ⟨a, b, hab, h1, h2⟩ := key u hu
    rw [inverse_temperature (hT0 u hu)] at h1 h2
    obtain ⟨a', b', hab', s1, s2, s3⟩ := C37_sign hF old (hp0 u hu) (hθ0 u hu) (he0 u hu) (hpe u hu) hf
    rw [hab] at hab'
    cases hab'
    have hb0 : 0 ≤ b := by
      by_cases h : mo ∈ ["R98", "R03", "R16", "R17", "R18"]
      · exact (s2 h).le
      · exact (s3 h).ge
    simp only
    rw [← h1, ← h2]
    have hl : (0 : ℝ) < log 10 := log_pos (by norm_num)
    have := hpos u hu a b hab
    exact ⟨by positivity, a, b, hab, by rw [db2np_eq]; ring⟩

/-- Nitrogen. -/
theorem nitrogen_smooth {sel : Sel} {mn : String} (hsel : sel.n2 = some mn) (hm : mn ∈ n2Runs) (hf : 0 < f)
    (hT : ContDiffOn ℝ 2 T K) (hT0 : ∀ u ∈ K, 0 < T u) (hp : ContDiffOn ℝ 2 p K) (hp0 : ∀ u ∈ K, 0 ≤ p u) :
    ∃ w : ℝ → ℝ, ContDiffOn ℝ 2 w K ∧ ∀ u ∈ K, 0 ≤ w u ∧ n2Term shipped sel (T u) (p u) f = .ok (w u) := by
  by_cases h : mn = ""
  · exact ⟨0, contDiffOn_const, fun u hu => ⟨le_rfl, by unfold n2Term; rw [hsel]; exact if_pos h⟩⟩
  · have hm' := (List.mem_cons.1 hm).resolve_left h
    obtain ⟨l, x, n, d, hc, hl, -, hn, hd, -⟩ := n2Coeff_pos (m := mn) hm' f
    refine ⟨_, n2_smoothOn (m := mn) (f := f) (c := (l, x, n, d)) hT hT0 hp, fun u hu => ⟨?_, ?_⟩⟩
    · simp only
      have hd0 : 0 < d := by linarith
      have := hp0 u hu
      have := hT0 u hu
      refine mul_nonneg hn.le ?_
      split_ifs
      · rcases (hp0 u hu).eq_or_lt with h | h
        · unfold n2Mwl24; simp [← h]
        · have := n2Mwl24_pos (hT0 u hu) h.ne' hf.ne'
          positivity
      · positivity
    · unfold n2Term
      rw [hsel]
      simp only
      rw [if_neg h]
      show finite (n2Absorption mn (T u) (p u) f) = _
      unfold n2Absorption
      rw [hc]
      simp only [Except.map, if_pos (hT0 u hu), finite]

end

/-- Pressures of dry air and of vapour, in kPa. -/
noncomputable def Column.kpa (C : Column) (u : ℝ) : ℝ × ℝ :=
  (C.p u / 10.0 - C.rh u * eswat (C.tk u) / 10.0, C.rh u * eswat (C.tk u) / 10.0)

/-- **C124.** Absorption by the shipped models is twice continuously differentiable in height where no line is exactly at its
cut-off (`c` are the columns of the line list of water vapour) and the oxygen model gives a positive value. -/
theorem C124_shipped {g g1 : Globals} {C : Column} {mw mo mn : String} {frq m : ℝ} {U : Set ℝ} (hw : g.sel.h2o = some mw)
    (ho : g.sel.o2 = some mo) (hn : g.sel.n2 = some mn) (hmw : mw ∈ ["R98", "R03", "R16", "R17", "R18", "R19", "R20"])
    (hmo : mo ∈ ["R03", "R16", "R17", "R18", "R19", "R19SD", "R20", "R20SD", "R22"]) (hmn : mn ∈ n2Runs)
    (hl : initLineList shipped g = .ok g1) (hf : 0 < frq) (hC : C.TwiceSmooth U) (hm : 0 < m)
    (hmT : ∀ u ∈ Icc 0 C.top, m ≤ C.tk u) (htop : 0 ≤ C.top) {W : LineList} (hW : waterFile mw = some W)
    {c : String → ℕ → ℝ} {n : ℕ} (hc : ∀ a v, W a = some v → c a = v) (hlen : W "len(fl)" = some fun _ => (n : ℝ))
    (hcut : ∀ u ∈ U, OffCutoff mw c n (C.tk u) (dryPressure mw (C.tk u) (C.kpa u).1 (C.kpa u).2)
      (vapourPressure mw (C.tk u) (C.kpa u).2) frq)
    (hpos : ∀ u ∈ U, ∀ a b, o2Absorption mo g1.o2ll (C.kpa u).1 (300.0 / C.tk u) (C.kpa u).2 frq = .ok (some (a, b)) → 0 < a) :
    ∃ w d, Continuous' C shipped g1 frq m w d ∧ SmoothAir C w d U := by
  have hT0 := hC.tk0
  have he : ContDiffOn ℝ 2 (fun u => C.rh u * eswat (C.tk u) / 10.0) U :=
    (hC.rh.mul (eswat_smoothOn hC.tk hT0)).div_const _
  have hp : ContDiffOn ℝ 2 (fun u => C.p u / 10.0 - C.rh u * eswat (C.tk u) / 10.0) U :=
    (hC.p.div_const _).sub he
  have he1 : ∀ u ∈ U, 0 < C.rh u * eswat (C.tk u) / 10.0 := fun u hu => by
    have := hC.rh0 u hu; have := eswat_pos (C.tk u); positivity
  have he0 : ∀ u ∈ U, 0 ≤ C.rh u * eswat (C.tk u) / 10.0 := fun u hu => (he1 u hu).le
  have hp0 : ∀ u ∈ U, 0 ≤ C.p u / 10.0 - C.rh u * eswat (C.tk u) / 10.0 := fun u hu => by
    rw [← sub_div]; exact div_nonneg (sub_nonneg.2 (hC.vapour u hu)) (by norm_num)
  have hpe : ∀ u ∈ U,
      0 < C.p u / 10.0 - C.rh u * eswat (C.tk u) / 10.0 + C.rh u * eswat (C.tk u) / 10.0 := fun u hu =>
    add_pos_of_nonneg_of_pos (hp0 u hu) (he1 u hu)
  obtain ⟨O, hO⟩ : ∃ O, oxygenFile mo = some O := Option.isSome_iff_exists.1 ((C37_names mo).2 (by
    simp only [List.mem_cons, List.not_mem_nil, or_false] at hmo ⊢; tauto))
  have hg : g1.sel = g.sel ∧ g1.h2oll = reloadLL W g.h2oll ∧ g1.o2ll = reloadLL O g.o2ll := by
    unfold initLineList at hl
    simp only [hw, ho, shipped, Option.bind_some, hW, hO] at hl
    cases hl
    exact ⟨rfl, rfl, rfl⟩
  rw [hg.2.2] at hpos
  obtain ⟨w, w1, w2⟩ := water_smooth hmw hW g.h2oll hf hC.tk hT0 hp he hp0 he1 hc hlen hcut
  obtain ⟨o, o1, o2⟩ := oxygen_smooth hmo hO g.o2ll hf hC.tk hT0 hp he hp0 he0 hpe hpos
  obtain ⟨q, q1, q2⟩ := nitrogen_smooth (K := U) hn hmn hf hC.tk hT0 (hp.mul contDiffOn_const)
    fun u hu => mul_nonneg (hp0 u hu) (by norm_num : (0 : ℝ) ≤ 10)
  have hd : ∀ u ∈ U, 0 < o u + q u + 0 := fun u hu => by have := (o2 u hu).1; have := (q2 u hu).1; positivity
  have d1 := (o1.add q1).add (contDiffOn_const (c := (0 : ℝ)))
  refine ⟨w, fun u => o u + q u + 0, ⟨htop, fun u hu' => ?_, w1.continuousOn.mono hC.heights, d1.continuousOn.mono hC.heights,
    fun u hu => (w2 u (hC.heights hu)).1.le, fun u hu => (hd u (hC.heights hu)).le, hC.tk.continuousOn.mono hC.heights, hm, hmT⟩,
    hC.isOpen, hC.heights, w1, d1, hC.tk, fun u hu => (w2 u (hC.heights hu)).1, fun u hu => hd u (hC.heights hu)⟩
  have hu := hC.heights hu'
  obtain ⟨-, a, b, h1, h2⟩ := w2 u hu
  obtain ⟨-, a', b', h3, h4⟩ := o2 u hu
  have h5 : n2Term shipped g.sel (C.tk u) ((C.p u / 10.0 - C.rh u * eswat (C.tk u) / 10.0) * 10) frq = .ok (q u) :=
    (q2 u hu).2
  have h1' : shipped.h2o mw (reloadLL W g.h2oll) (C.p u / 10.0 - C.rh u * eswat (C.tk u) / 10.0) (300.0 / C.tk u)
      (C.rh u * eswat (C.tk u) / 10.0) frq = .ok (a, b) := finite_some h1
  have h3' : shipped.o2 mo (reloadLL O g.o2ll) (C.p u / 10.0 - C.rh u * eswat (C.tk u) / 10.0) (300.0 / C.tk u)
      (C.rh u * eswat (C.tk u) / 10.0) frq = .ok (a', b') := finite_some h3
  unfold Column.air clearLevel
  have o3 : o3Term shipped g1 none (C.tk u) (C.p u) frq 0 = .ok 0 := by
    unfold o3Term ozoneActive; simp
  simp only [hg.1, hg.2.1, hg.2.2, hw, ho, bind, Except.bind, o3, h5, h1', h3', pure, Except.pure, h2, h4]

/-! ## A case -/

/-- Ten kilometres of moist air. -/
noncomputable def mildColumn : Column where
  top := 10
  p u := 1000 - 75 * u
  tk u := 280 - 5 * u
  rh _ := 0.5

theorem mildColumn_vapour {u : ℝ} (h1 : -1 < u) (h2 : u < 11) :
    0 < 0.5 * eswat (280 - 5 * u) ∧ 0.5 * eswat (280 - 5 * u) < 1000 - 75 * u := by
  have h3 := eswat_le (t := 280 - 5 * u) (by linarith) (by linarith)
  have h4 := eswat_pos (280 - 5 * u)
  exact ⟨by positivity, by linarith⟩

theorem mildColumn_smooth : mildColumn.TwiceSmooth (Ioo (-1) 11) where
  isOpen := isOpen_Ioo
  heights u hu := ⟨lt_of_lt_of_le (by norm_num) hu.1, lt_of_le_of_lt hu.2 (by norm_num [mildColumn])⟩
  p := by unfold mildColumn; fun_prop
  tk := by unfold mildColumn; fun_prop
  rh := by unfold mildColumn; fun_prop
  tk0 u hu := by
    have : u < 11 := hu.2
    show 0 < 280 - 5 * u
    linarith
  rh0 u hu := by norm_num [mildColumn]
  vapour u hu := (mildColumn_vapour hu.1 hu.2).2.le

/-- No line of the model R98 is 750 GHz away from 1 GHz. -/
theorem cutoff_one {W : LineList} (hW : waterFile "R98" = some W) {c : String → ℕ → ℝ} {n : ℕ}
    (hc : ∀ a v, W a = some v → c a = v) (hlen : W "len(fl)" = some fun _ => (n : ℝ)) (T pd pv : ℝ) :
    OffCutoff "R98" c n T pd pv 1 := by
  have hW' : W = fun a => (lastAssign (waterAssign "R98") a).bind (Src.val waterR98) := by
    unfold waterFile at hW
    have hl : waterGroups.lookup "R98" = some waterR98 := rfl
    rw [hl, Option.map_some, Option.some_inj] at hW
    exact hW.symm
  have hn : n = 15 := by
    have h1 : W "len(fl)" = some fun _ => ((15 : ℕ) : ℝ) := by rw [hW']; rfl
    rw [h1, Option.some_inj] at hlen
    have := congrFun hlen 0
    exact_mod_cast this.symm
  have hfl : c "fl" = Col.val ⟨[222351, 1833101, 3212256, 3251529, 3801974, 4391508, 4430183, 4480011, 4708890, 4746891,
      4884911, 5569360, 6207008, 7520332, 9161712], 4⟩ := hc "fl" _ (by rw [hW']; rfl)
  have table : ∀ i < 15, ∀ d : ℤ, d = ([222351, 1833101, 3212256, 3251529, 3801974, 4391508, 4430183, 4480011, 4708890, 4746891,
      4884911, 5569360, 6207008, 7520332, 9161712] : List ℤ).getD i 0 → |10000 - d| ≠ 7500000 ∧ |10000 + d| ≠ 7500000 := by
    rintro i hi d rfl
    revert i
    decide
  intro i hi
  rw [hn] at hi
  have e0 : lineShift "R98" c (c "reftline" 0 / T) pd pv i = 0 := if_pos rfl
  rw [e0, add_zero, hfl]
  unfold Col.val
  obtain ⟨h1, h2⟩ := table i hi _ rfl
  generalize ([222351, 1833101, 3212256, 3251529, 3801974, 4391508, 4430183, 4480011, 4708890, 4746891,
      4884911, 5569360, 6207008, 7520332, 9161712] : List ℤ).getD i 0 = d at *
  have h10 : (0 : ℝ) < 10 ^ 4 := by norm_num
  constructor
  · intro h
    apply h1
    have e : (1 : ℝ) - d / 10 ^ 4 = ((10000 - d : ℤ) : ℝ) / 10 ^ 4 := by push_cast; norm_num; ring
    rw [e, abs_div, abs_of_pos h10, div_eq_iff h10.ne'] at h
    have h' : |((10000 - d : ℤ) : ℝ)| = ((7500000 : ℤ) : ℝ) := by rw [h]; norm_num
    exact_mod_cast h'
  · intro h
    apply h2
    have e : (1 : ℝ) + d / 10 ^ 4 = ((10000 + d : ℤ) : ℝ) / 10 ^ 4 := by push_cast; norm_num; ring
    rw [e, abs_div, abs_of_pos h10, div_eq_iff h10.ne'] at h
    have h' : |((10000 + d : ℤ) : ℝ)| = ((7500000 : ℤ) : ℝ) := by rw [h]; norm_num
    exact_mod_cast h'

/-- At 1 GHz, with R98 for water vapour, R19 for oxygen and R03 for nitrogen. -/
example {g g1 : Globals} (hg : g.sel.h2o = some "R98" ∧ g.sel.o2 = some "R19" ∧ g.sel.n2 = some "R03")
    (hl : initLineList shipped g = .ok g1) :
    ∃ w d, Continuous' mildColumn shipped g1 1 2.728 w d ∧ SmoothAir mildColumn w d (Ioo (-1) 11) := by
  obtain ⟨W, hW⟩ : ∃ W, waterFile "R98" = some W := Option.isSome_iff_exists.1 ((C35_names _).2 (by decide))
  obtain ⟨O, hO⟩ : ∃ O, oxygenFile "R19" = some O := Option.isSome_iff_exists.1 ((C37_names _).2 (by decide))
  obtain ⟨n, hn⟩ := file_len hW
  obtain ⟨c, hc⟩ : ∃ c : String → ℕ → ℝ, ∀ a v, W a = some v → c a = v := ⟨fun a => (W a).getD 0, fun a v h => by simp [h]⟩
  have ho : g1.o2ll = reloadLL O g.o2ll := by
    unfold initLineList at hl
    simp only [hg.1, hg.2.1, shipped, Option.bind_some, hW, hO] at hl
    cases hl
    rfl
  refine C124_shipped hg.1 hg.2.1 hg.2.2 (by decide) (by decide) (by decide) hl one_pos mildColumn_smooth (by norm_num)
    (fun u hu => ?_) (by norm_num [mildColumn]) hW hc hn (fun u _ => cutoff_one hW hc hn _ _ _) fun u hu a b h => ?_
  · have : u ≤ 10 := hu.2
    show 2.728 ≤ 280 - 5 * u
    norm_num
    linarith
  · rw [ho] at h
    have h1 : -1 < u := hu.1
    have h2 : u < 11 := hu.2
    obtain ⟨v1, v2⟩ := mildColumn_vapour h1 h2
    refine oxygen_low hO g.o2ll ?_ ?_ ?_ ⟨?_, ?_⟩ h
    · show 0 < (1000 - 75 * u) / 10.0 - 0.5 * eswat (280 - 5 * u) / 10.0
      rw [← sub_div]
      exact div_pos (sub_pos.2 v2) (by norm_num)
    · show 0 ≤ 0.5 * eswat (280 - 5 * u) / 10.0
      positivity
    · show (1000 - 75 * u) / 10.0 - 0.5 * eswat (280 - 5 * u) / 10.0 + 0.5 * eswat (280 - 5 * u) / 10.0 ≤ 110
      rw [sub_add_cancel, div_le_iff₀ (by norm_num)]
      norm_num
      linarith
    · show 225 ≤ 280 - 5 * u
      linarith
    · show 280 - 5 * u ≤ 300
      linarith

end Verif.Props
