import Verif.Props.ClearSky
import Verif.Props.ShippedRun
import Mathlib.Tactic.IntervalCases

/-!
# C97: a clear-sky simulation in closed form

The whole data frame as a formula of the profile, the line lists, the frequencies and the angles.
-/

namespace Verif.Props

open Verif.Model Verif.Py Verif.Spec Verif.Lemmas Real

variable {g : Globals} {W O : LineList}

theorem saturation_eq {T : ℝ} : eswat T = saturation T := by
  unfold eswat saturation
  simp only
  rw [show (10.0 : ℝ) = 10 by norm_num, rpow_add (by norm_num), rpow_logb (by norm_num) (by norm_num) (by norm_num),
    mul_comm]
  congr 1
  norm_num

theorem quantum_eq (ν : ℝ) : hvkOf ν = quantum ν := rfl

theorem blackBody_eq (ν T : ℝ) : tk2b (hvkOf ν) T = blackBody ν T := by
  unfold tk2b blackBody
  rw [quantum_eq]
  norm_num

theorem bright_temperature {ν b : ℝ} (hb : 0 ≤ b) : bright (hvkOf ν) b = some (temperature ν b) := by
  unfold temperature
  rcases hb.eq_or_lt with h | h
  · rw [← h, bright_zero, if_pos rfl]
  · rw [bright_of_pos h, if_neg h.ne', quantum_eq]

theorem layerValue_mean {a b : ℝ} (ha : 0 ≤ a) (hb : 0 ≤ b) : layerValue true a b = some (layerMean a b) := by
  have h0 : (0.0 : ℝ) = 0 := by norm_num
  have h1 : (b + a) * 0.5 = (a + b) / 2 := by norm_num; ring
  unfold layerValue layerMean
  rw [h0, h1, if_neg (by push Not; exact ⟨ha, hb⟩)]
  simp only [Bool.not_true, Bool.false_eq_true, if_false]
  split_ifs <;> rfl

/-- The levels given to the simulator. -/
def sceneOf (S : Settings) : Scene := ⟨S.nl - 1, S.z, S.p, S.tk, S.rh⟩

/-- The row for angle `k` and frequency `j`, with the emissivity `ε j` of the surface. -/
noncomputable def closedRow (S : Settings) (ε : ℕ → ℝ) (G : Gases) (k j : ℕ) : Row :=
  let s := sceneOf S
  let ν := S.frq j
  let θ := S.angles k
  let τ := opacityBelow (s.opacity G ν θ) s.top
  let air := if S.satellite then s.airUp G ν θ else s.airDown G ν θ
  { tbtotal := some (temperature ν
      (behind (if S.satellite then ε j * blackBody ν (s.T 0) else blackBody ν 2.728) τ + air))
    tbatm := some (temperature ν (if S.satellite then 0 else air))
    tmr := meanTemperature ν air τ
    tmrcld := some 0
    tauwet := some (∑ i ∈ Finset.Icc 1 s.top, s.slab θ (s.wet G ν) i)
    taudry := some (∑ i ∈ Finset.Icc 1 s.top, s.slab θ (s.dry G ν) i)
    tauliq := some 0
    tauice := some 0
    angle := θ }

/-- Sensible settings without clouds, refraction, ozone and perturbed spectroscopy; emissivities `ε`. -/
structure ClearInput (S : Settings) (ε : ℕ → ℝ) : Prop where
  good : GoodInput S
  rays : S.rayTracing = false
  cloudy : S.cloudy = false
  ozone : S.o3n = none
  angles : ∀ k < S.nang, 0 < S.angles k ∧ S.angles k < 180
  order : ∀ i, i + 1 < S.nl → S.z i ≤ S.z (i + 1)
  es : ∀ j < S.nf, S.es[j]? = some (ε j) ∧ 0 ≤ ε j

/-- The absorption coefficients at the levels are not negative. -/
def Absorbing (S : Settings) (G : Gases) : Prop :=
  ∀ j < S.nf, ∀ i < S.nl, 0 ≤ (sceneOf S).wet G (S.frq j) i ∧ 0 ≤ (sceneOf S).dry G (S.frq j) i

theorem layerMean_nonneg {a b : ℝ} (ha : 0 ≤ a) (hb : 0 ≤ b) : 0 ≤ layerMean a b := by
  unfold layerMean
  split_ifs with h1 h2
  · exact hb
  · positivity
  · push Not at h2
    have ha' : 0 < a := lt_of_le_of_ne ha (Ne.symm h2.1)
    have hb' : 0 < b := lt_of_le_of_ne hb (Ne.symm h2.2)
    rcases le_total a b with h | h
    · exact div_nonneg (by linarith) (log_nonneg ((one_le_div ha').2 h))
    · exact div_nonneg_of_nonpos (by linarith) (log_nonpos (by positivity) ((div_le_one ha').2 h))

/-- The models of `G` are selected, their line lists are those of the distribution, and this file has formulas for them. -/
structure Covered (g : Globals) (G : Gases) (W O : LineList) : Prop where
  h2o : g.sel.h2o = some G.water
  o2 : g.sel.o2 = some G.oxygen
  n2 : g.sel.n2 = some G.nitrogen
  plainWater : G.water ∉ ["R23SD", "R24", "MWL24"]
  plainOxygen : G.oxygen ≠ "R23" ∧ G.oxygen ≠ "R24"
  nitrogen : G.nitrogen ∈ n2Runs
  water : waterFile G.water = some W
  oxygen : oxygenFile G.oxygen = some O
  waterCols : WaterColumns W G.waterList G.waterLines
  oxygenCols : OxygenColumns O G.oxygenList G.oxygenLines

/-- Integration of a coefficient over the layers. -/
theorem integ_slab {S : Settings} {θ : ℝ} {a b : ℕ → ℝ} {d : ℕ → ℝ} {o : Option ℝ} {y : Option Val} (hn : 1 ≤ S.nl)
    (hab : ∀ i < S.nl, a i = b i) (hb : ∀ i < S.nl, 0 ≤ b i)
    (hd : ∀ i, 1 ≤ i → d i = (S.z i - S.z (i - 1)) / sin (θ * π / 180))
    (h : integ true S.nl a (.ok d) 1 1 = .ok (o, y)) :
    o = some (∑ i ∈ Finset.Icc 1 (sceneOf S).top, (sceneOf S).slab θ b i) ∧
      ∃ v, y = some v ∧ ∀ i, 1 ≤ i → i ≤ (sceneOf S).top → v i = (sceneOf S).slab θ b i := by
  have hv : ∀ i, 1 ≤ i → i < S.nl → layerValue true (prevEntry a S.nl i) (a i) = some (layerMean (b (i - 1)) (b i)) :=
    fun i h1 h2 => by
      unfold prevEntry
      rw [if_neg (by omega), hab i h2, hab (i - 1) (by omega)]
      exact layerValue_mean (hb _ (by omega)) (hb i h2)
  simp only [integ] at h
  rw [expInt_ok hn hv] at h
  have h := Prod.mk.inj (Except.ok.inj h)
  have hs : ∀ i, 1 ≤ i → layerMean (b (i - 1)) (b i) * d i = (sceneOf S).slab θ b i := fun i h1 => by
    rw [hd i h1]; rfl
  refine ⟨?_, _, h.2.symm, fun i h1 h2 => ?_⟩
  · rw [← h.1, mul_one]
    congr 1
    have hI : Finset.Ico 1 S.nl = Finset.Icc 1 (sceneOf S).top := by
      ext i; simp only [Finset.mem_Ico, Finset.mem_Icc, sceneOf]; omega
    rw [hI]
    exact Finset.sum_congr rfl fun i hi => hs i (Finset.mem_Icc.1 hi).1
  · have : i < S.nl := by simp only [sceneOf] at h2; omega
    simp only [if_pos (show 1 ≤ i ∧ i < S.nl from ⟨h1, this⟩)]
    exact hs i h1

/-- **C97.** A simulation with a clear sky is a formula: the data frame holds, for each angle and each frequency, the
temperatures and opacities of the closed expression, and nothing else (no earlier run, no order of evaluation) enters. -/
theorem C97_table {I : Inst} {ε : ℕ → ℝ} {G : Gases} (hS : ClearInput I.set ε) (hno : NoClouds I.out)
    (hg : Covered g G W O) (hpos : Absorbing I.set G) :
    (execute shipped g I).1 = .ok ((List.range I.set.nang).flatMap fun k =>
      (List.range I.set.nf).map fun j => closedRow I.set ε G k j) := by
  have hmw' : G.water ∈ ["R98", "R03", "R16", "R17", "R18", "R19", "R19SD", "R20", "R20SD", "R21SD", "R22SD", "R23SD",
      "R24", "MWL24"] := (C35_names _).1 (by rw [hg.water]; rfl)
  have hmo' : G.oxygen ∈ ["R98", "R03", "R16", "R17", "R18", "R19", "R19SD", "R20", "R20SD", "R22", "R23", "R24"] :=
    (C37_names _).1 (by rw [hg.oxygen]; rfl)
  have hmw := hg.plainWater
  obtain ⟨rows, hrun⟩ := C32_completes (I := I) hS.good hg.h2o hg.o2 hg.n2 hmw' hmo' hg.nitrogen
    (fun ha => by rw [hS.ozone] at ha; unfold ozoneActive at ha; simp at ha)
    (fun h => by simp only [List.mem_cons, List.not_mem_nil, or_false] at h hmw; tauto)
    (fun hc => by rw [hS.cloudy] at hc; cases hc) fun hc => by rw [hS.cloudy] at hc; cases hc
  obtain ⟨g1, e, rho, hl, hv, hrow, hc⟩ := (execute_ok hrun).ex
  rw [shipped_load hg.h2o hg.o2 hg.water hg.oxygen] at hl
  obtain ⟨e', rho', hv', he⟩ := vapor_eq (S := I.set) hS.good.ice
  rw [hv'] at hv
  simp only [Except.ok.injEq, Prod.mk.injEq] at hv
  obtain ⟨rfl, rfl⟩ := hv
  have hn := hS.good.levels
  rw [hrun, hrow]
  unfold table
  congr 1
  refine List.flatMap_congr fun k hk => List.map_congr_left fun j hj => ?_
  rw [List.mem_range] at hk hj
  obtain ⟨es, hes, hstep⟩ := (hc k hk).2 j hj
  rw [(hS.es j hj).1] at hes
  cases hes
  have hε := (hS.es j hj).2
  have hs := sin_pos_of_angle (hS.angles k hk).1 (hS.angles k hk).2
  rw [pathOf_plane hS.rays hs.ne', cellGlobals_amu hS.good.amu] at hstep
  have hok := cellStep_ok hstep
  generalize hC : (execute shipped g I).2.out.cell j k = c at hok ⊢
  obtain ⟨a, ha, -, -, hw, hd⟩ := hok.clear
  have hf := hS.good.frq j hj
  have hload : Loaded (g := { g1 with fromSat := I.set.satellite, emissivity := ε j }) G.water G.oxygen G.nitrogen W O := by
    cases hl
    exact ⟨hg.h2o, hg.o2, hg.n2, hg.water, hg.oxygen, ⟨_, rfl⟩, ⟨_, rfl⟩⟩
  obtain ⟨a', ha', hval⟩ := C96_profile (S := I.set) (ev := e') hg.plainWater hg.plainOxygen hg.nitrogen hload hg.waterCols
    hg.oxygenCols hS.ozone hS.good.tk hS.good.p (fun i hi => ⟨by
      rw [he]; exact mul_nonneg (hS.good.rh i hi) (eswat_pos _).le, by rw [he]; exact hS.good.vapour i hi⟩) hf
  rw [ha'] at ha
  have haa := Except.ok.inj ha
  subst haa
  have hev : ∀ i, e' i = (sceneOf I.set).vapour i := fun i => by rw [he, saturation_eq]; rfl
  have hwet : ∀ i < I.set.nl, (a' i).1 = (sceneOf I.set).wet G (I.set.frq j) i := fun i hi => by
    rw [hval i hi, hev]; rfl
  have hdry : ∀ i < I.set.nl, (a' i).2 = (sceneOf I.set).dry G (I.set.frq j) i := fun i hi => by
    rw [hval i hi, hev]; rfl
  have hds : ∀ i, 1 ≤ i → (if i = 0 then (0 : ℝ) else
      (I.set.z i - I.set.z (i - 1)) * (1 / sin (I.set.angles k * π / 180))) =
      (I.set.z i - I.set.z (i - 1)) / sin (I.set.angles k * π / 180) := fun i h1 => by
    rw [if_neg (by omega)]; ring
  obtain ⟨sw, xw, pw, vw⟩ := integ_slab hn hwet (fun i hi => (hpos j hj i hi).1) hds hw
  obtain ⟨sd, xd, pd, vd⟩ := integ_slab hn hdry (fun i hi => (hpos j hj i hi).2) hds hd
  have hst := hok.stale hS.cloudy
  have hz := hno j k
  have ht : c.taulay = some fun i => xw i + xd i + 0 + 0 := by
    simp only [Cell.taulay, pw, pd, ← hst.ptauliq, ← hst.ptauice, hz.ptauliq, hz.ptauice, Cell.zero]
  obtain ⟨out, hout, b1, b2, b3, -⟩ := hok.rad _ ht
  simp only at hout
  have hτ : ∀ i, 1 ≤ i → i ≤ (sceneOf I.set).top →
      xw i + xd i + 0 + 0 = (sceneOf I.set).opacity G (I.set.frq j) (I.set.angles k) i := fun i h1 h2 => by
    rw [vw i h1 h2, vd i h1 h2, add_zero, add_zero]; rfl
  have hslab {b : ℕ → ℝ} (hb : ∀ i < I.set.nl, 0 ≤ b i) (i : ℕ) (h1 : 1 ≤ i) (h2 : i ≤ (sceneOf I.set).top) :
      0 ≤ (sceneOf I.set).slab (I.set.angles k) b i := by
    have h2' : i < I.set.nl := by simp only [sceneOf] at h2; omega
    refine mul_nonneg (layerMean_nonneg (hb _ (by omega)) (hb i h2')) (div_nonneg (sub_nonneg.2 ?_) hs.le)
    have := hS.order (i - 1) (by omega)
    rwa [Nat.sub_add_cancel h1] at this
  have hτ0 : ∀ i, 1 ≤ i → i ≤ (sceneOf I.set).top →
      0 ≤ (sceneOf I.set).opacity G (I.set.frq j) (I.set.angles k) i := fun i h1 h2 =>
    add_nonneg (hslab (fun i hi => (hpos j hj i hi).1) i h1 h2) (hslab (fun i hi => (hpos j hj i hi).2) i h1 h2)
  have hB : ∀ i ≤ (sceneOf I.set).top, 0 ≤ blackBody (I.set.frq j) ((sceneOf I.set).T i) := fun i hi => by
    rw [← blackBody_eq]
    exact (tk2b_pos (hvkOf_pos hf) (hS.good.tk i (by simp only [sceneOf] at hi; omega))).le
  have hop := opacityBelow_congr (n := (sceneOf I.set).top) hτ le_rfl
  have hop0 : 0 ≤ opacityBelow ((sceneOf I.set).opacity G (I.set.frq j) (I.set.angles k)) (sceneOf I.set).top :=
    Finset.sum_nonneg fun i hi => hτ0 i (Finset.mem_Icc.1 hi).1 (Finset.mem_Icc.1 hi).2
  have hback {b : ℝ} (hb : 0 ≤ b) (τ : ℝ) : 0 ≤ behind b τ := by
    unfold behind; split_ifs
    · positivity
    · exact le_rfl
  have hmean {b : ℝ} (hb : 0 ≤ b) {τ : ℝ} (hτ : 0 ≤ τ) {y : Option ℝ} (h1 : τ < 125 → y = npDiv b (1 - exp (-τ)))
      (h2 : 125 ≤ τ → y = some b) : y.bind (bright (hvkOf (I.set.frq j))) = meanTemperature (I.set.frq j) b τ := by
    unfold meanTemperature
    rcases hτ.eq_or_lt with rfl | hlt
    · rw [h1 (by norm_num)]; simp [npDiv]
    · rw [if_neg hlt.ne']
      have hexp : 0 < 1 - exp (-τ) := by
        have : exp (-τ) < 1 := by rw [← exp_zero]; exact exp_lt_exp.2 (neg_lt_zero.2 hlt)
        linarith
      rcases lt_or_ge τ 125 with h | h
      · rw [h1 h, if_pos h, npDiv, if_neg hexp.ne', Option.bind_some]
        exact bright_temperature (by positivity)
      · rw [h2 h, if_neg (not_lt.2 h), Option.bind_some]
        exact bright_temperature hb
  unfold Cell.row closedRow
  simp only
  rw [b1, b2, b3, sw, sd, ← hst.tmrcld, ← hst.sptauliq, ← hst.sptauice, hz.tmrcld, hz.sptauliq, hz.sptauice]
  have hT0 := hB 0 (Nat.zero_le _)
  have h1 {τ : ℕ → ℝ} (hτ : ∀ i, 1 ≤ i → i ≤ (sceneOf I.set).top → 0 ≤ τ i) :
      (0 : ℝ) ≤ skyRadiance (fun i => blackBody (I.set.frq j) ((sceneOf I.set).T i)) τ (sceneOf I.set).top ∧
      (0 : ℝ) ≤ upRadiance (fun i => blackBody (I.set.frq j) ((sceneOf I.set).T i)) τ (sceneOf I.set).top 0 := by
    have a1 := skyRadiance_mono (B := fun _ => 0) hτ hB
    have a2 := upRadiance_mono (B := fun _ => 0) (m := 0) (fun i h1 h2 => hτ i h1 h2) hB
    rw [skyRadiance_const, zero_mul] at a1
    rw [upRadiance_const _ (Nat.zero_le _), zero_mul] at a2
    exact ⟨a1, a2⟩
  have h0 := h1 hτ0
  cases hsat : I.set.satellite with
  | false =>
    rw [hsat] at hout
    obtain ⟨-, q1, -, -, q4, q5, q6, q7⟩ := planck_ground hout
    have hsky := sky_congr (n := (sceneOf I.set).top) (B := fun i => tk2b (hvkOf (I.set.frq j)) (I.set.tk i))
      (B' := fun i => blackBody (I.set.frq j) ((sceneOf I.set).T i)) (fun i _ => blackBody_eq _ _) hτ
    have hq4 := q4 (I.set.nl - 1) (by omega)
    change _ = skyRadiance _ _ (sceneOf I.set).top at hq4
    change opacityBelow _ (sceneOf I.set).top < 125 → _ = _ * exp (-opacityBelow _ (sceneOf I.set).top) ∧
      _ = npDiv (skyRadiance _ _ (sceneOf I.set).top) (1 - exp (-opacityBelow _ (sceneOf I.set).top)) at q5
    change 125 ≤ opacityBelow _ (sceneOf I.set).top → _ ∧ _ = some (skyRadiance _ _ (sceneOf I.set).top) at q6
    change _ = _ + skyRadiance _ _ (sceneOf I.set).top at q7
    rw [hop, hsky] at q5 q6
    rw [hsky] at hq4 q7
    have hcos : tk2b (hvkOf (I.set.frq j)) cTcosmicbkg = blackBody (I.set.frq j) 2.728 := by
      rw [blackBody_eq]; norm_num [cTcosmicbkg]
    have hbg : out.bakgrnd = behind (blackBody (I.set.frq j) 2.728)
        (opacityBelow ((sceneOf I.set).opacity G (I.set.frq j) (I.set.angles k)) (sceneOf I.set).top) := by
      unfold behind
      split_ifs with h
      · rw [(q5 h).1, hcos]
      · exact (q6 (not_lt.1 h)).1
    have hc0 : 0 ≤ blackBody (I.set.frq j) 2.728 := by
      rw [← blackBody_eq]; exact (tk2b_pos (hvkOf_pos hf) (by norm_num)).le
    simp only [Bool.false_eq_true, if_false]
    rw [q1, q7, hbg, hq4, bright_temperature (add_nonneg (hback hc0 _) h0.1), bright_temperature h0.1,
      hmean h0.1 hop0 (fun h => (q5 h).2) fun h => (q6 h).2]
    rfl
  | true =>
    rw [hsat] at hout
    obtain ⟨-, q1, -, -, q4, q5, q6, q7⟩ := planck_sat hout
    have hsky := up_congr (n := (sceneOf I.set).top) (B := fun i => tk2b (hvkOf (I.set.frq j)) (I.set.tk i))
      (B' := fun i => blackBody (I.set.frq j) ((sceneOf I.set).T i)) (fun i _ => blackBody_eq _ _) hτ
    have hq4 := q4 (I.set.nl - 1) (by omega)
    rw [upRadiance_self] at hq4
    change opacityBelow _ (sceneOf I.set).top < 125 → _ = _ * exp (-opacityBelow _ (sceneOf I.set).top) ∧
      _ = npDiv (upRadiance _ _ (sceneOf I.set).top 0) (1 - exp (-opacityBelow _ (sceneOf I.set).top)) at q5
    change 125 ≤ opacityBelow _ (sceneOf I.set).top → _ ∧ _ = some (upRadiance _ _ (sceneOf I.set).top 0) at q6
    change _ = _ + upRadiance _ _ (sceneOf I.set).top 0 at q7
    rw [hop, hsky] at q5 q6
    rw [hsky] at q7
    have hbg : out.bakgrnd = behind (ε j * blackBody (I.set.frq j) ((sceneOf I.set).T 0))
        (opacityBelow ((sceneOf I.set).opacity G (I.set.frq j) (I.set.angles k)) (sceneOf I.set).top) := by
      unfold behind
      split_ifs with h
      · rw [(q5 h).1, blackBody_eq]; rfl
      · exact (q6 (not_lt.1 h)).1
    simp only [if_true]
    rw [q1, q7, hbg, hq4, bright_temperature (add_nonneg (hback (mul_nonneg hε hT0) _) h0.2),
      bright_temperature le_rfl, hmean h0.2 hop0 (fun h => (q5 h).2) fun h => (q6 h).2]
    rfl

/-- C97: for the models without speed dependence (and oxygen other than R98) no condition on the absorption is left. -/
theorem C97_plain {I : Inst} {ε : ℕ → ℝ} {G : Gases} (hS : ClearInput I.set ε) (hno : NoClouds I.out)
    (hg : Covered g G W O) (hw : G.water ∈ ["R98", "R03", "R16", "R17", "R18", "R19", "R20"])
    (ho : G.oxygen ∈ ["R03", "R16", "R17", "R18", "R19", "R19SD", "R20", "R20SD", "R22"]) :
    (execute shipped g I).1 = .ok ((List.range I.set.nang).flatMap fun k =>
      (List.range I.set.nf).map fun j => closedRow I.set ε G k j) :=
  C97_table hS hno hg fun j hj i hi => by
    have h := C96_nonneg (e := (sceneOf I.set).vapour i) hw ho hg.nitrogen hg.water hg.oxygen hg.waterCols hg.oxygenCols
      (hS.good.tk i hi) (hS.good.p i hi)
      (mul_nonneg (hS.good.rh i hi) (by rw [← saturation_eq]; exact (eswat_pos _).le))
      (by unfold Scene.vapour; rw [← saturation_eq]; exact hS.good.vapour i hi) (hS.good.frq j hj)
    exact ⟨h.1, add_nonneg h.2.1 h.2.2⟩

/-- Any selection of names has its formulas. -/
theorem covered_exists {mw mo mn : String} (h1 : g.sel.h2o = some mw) (h2 : g.sel.o2 = some mo) (h3 : g.sel.n2 = some mn)
    (hw : mw ∈ ["R98", "R03", "R16", "R17", "R18", "R19", "R19SD", "R20", "R20SD", "R21SD", "R22SD"])
    (ho : mo ∈ ["R98", "R03", "R16", "R17", "R18", "R19", "R19SD", "R20", "R20SD", "R22"]) (hn : mn ∈ n2Runs) :
    ∃ G W O, G.water = mw ∧ G.oxygen = mo ∧ G.nitrogen = mn ∧ Covered g G W O := by
  obtain ⟨W, hW⟩ : ∃ W, waterFile mw = some W := Option.isSome_iff_exists.1 ((C35_names mw).2 (by
    simp only [List.mem_cons, List.not_mem_nil, or_false] at hw ⊢; tauto))
  obtain ⟨O, hO⟩ : ∃ O, oxygenFile mo = some O := Option.isSome_iff_exists.1 ((C37_names mo).2 (by
    simp only [List.mem_cons, List.not_mem_nil, or_false] at ho ⊢; tauto))
  obtain ⟨cw, nw, hcw⟩ := waterColumns_exist hW
  obtain ⟨co, no, hco⟩ := oxygenColumns_exist hO
  refine ⟨⟨mw, cw, nw, mo, co, no, mn⟩, W, O, rfl, rfl, rfl, h1, h2, h3, ?_, ?_, hn, hW, hO, hcw, hco⟩
  · simp only [List.mem_cons, List.not_mem_nil, or_false] at hw
    rcases hw with rfl | rfl | rfl | rfl | rfl | rfl | rfl | rfl | rfl | rfl | rfl <;>
      simp
  · simp only [List.mem_cons, List.not_mem_nil, or_false] at ho
    rcases ho with rfl | rfl | rfl | rfl | rfl | rfl | rfl | rfl | rfl | rfl <;> simp

/-- The ten kilometres of `tenSettings`, with any number of levels. -/
theorem tenSettings_clear {n : ℕ} (hn : 0 < n) : ClearInput (tenSettings n) fun _ => 1 := by
  have hR := tenSettings_readOff hn
  have hO := tenSettings_observing n
  have hC := tenColumn_smooth
  have at' {i : ℕ} (hi : i < (tenSettings n).nl) : i ≤ n ∧ (10 * i / n : ℝ) ∈ Set.Icc (0 : ℝ) 10 := by
    rw [hR.nl] at hi
    exact ⟨by omega, hR.levels.mem (by omega)⟩
  have hord : ∀ i, i + 1 < (tenSettings n).nl → (tenSettings n).z i ≤ (tenSettings n).z (i + 1) := fun i hi =>
    hR.levels.order i (by rw [hR.nl] at hi; omega)
  exact ⟨⟨by rw [hR.nl]; omega, hO.emissivity, hO.frq, fun i hi => hC.low.trans_le (hC.tk0 _ (at' hi).2),
    fun i hi => hC.p0 _ (at' hi).2, fun i hi => hC.rh0 _ (at' hi).2, fun i hi => hC.vapour _ (at' hi).2, rfl, rfl,
    fun k hk => goodPath_plane rfl (hO.angles k hk).1 (hO.angles k hk).2 hord⟩, rfl, rfl, rfl, hO.angles, hord,
    fun j hj => by
      have : j < 2 := hj
      interval_cases j <;> simp [tenSettings, demoS]⟩

/-- The row for 22 GHz at 30 degrees, whatever the number of levels. -/
example {g : Globals} (hg : g.sel.h2o = some "R17" ∧ g.sel.o2 = some "R17" ∧ g.sel.n2 = some "R03") {n : ℕ} (hn : 0 < n) :
    ∃ rows r G, (execute shipped g ⟨tenSettings n, Store.zero⟩).1 = .ok rows ∧ rows[2]? = some r ∧
      r = closedRow (tenSettings n) (fun _ => 1) G 1 0 ∧ G.water = "R17" := by
  obtain ⟨G, W, O, g1, g2, g3, hG⟩ := covered_exists hg.1 hg.2.1 hg.2.2 (by decide) (by decide) (by decide)
  refine ⟨_, _, G, C97_plain (tenSettings_clear hn) (fun j k => ⟨rfl, rfl, rfl, rfl, rfl⟩) hG (by rw [g1]; decide)
    (by rw [g2]; decide), grid_get (closedRow (tenSettings n) (fun _ => 1) G) 2 2 1 0 (by norm_num) (by norm_num), rfl, g1⟩

end Verif.Props
