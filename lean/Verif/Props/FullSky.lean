import Verif.Props.AllGases
import Verif.Props.SkyForm

/-!
# C98: any simulation in closed form

All models, ozone, clouds and bent rays included.
-/

namespace Verif.Props

open Verif.Model Verif.Py Verif.Spec Verif.Lemmas Real

variable {g : Globals} {W O : LineList}

/-- The levels given to the simulator, with ozone and cloud densities. -/
noncomputable def fullScene (S : Settings) : FullScene where
  toScene := sceneOf S
  ozone := S.o3n
  liquid := match S.cloudy, S.dens with
    | true, some (dl, _) => dl
    | _, _ => fun _ => 0
  ice := match S.cloudy, S.dens with
    | true, some (_, di) => di
    | _, _ => fun _ => 0

/-- Sensible settings without perturbed spectroscopy; emissivities `ε`, layers of lengths `len k` along the path for angle
`k`. -/
structure FullInput (S : Settings) (ε : ℕ → ℝ) (len : ℕ → ℕ → ℝ) : Prop where
  good : GoodInput S
  path : ∀ k < S.nang, ∀ e rho, vapor S.tk S.rh S.ice = .ok (e, rho) →
    ∃ d, pathOf S (fun i => (refractivity1 (S.p i) (S.tk i) (e i)).2.2) k = .ok d ∧ ∀ i < S.nl, len k i = d i ∧ 0 ≤ d i
  cloud : S.cloudy = true → ∃ dl di b t cs, S.dens = some (dl, di) ∧ S.clouds = some ((b, t) :: cs) ∧ b ≤ t ∧ t < S.nl
  es : ∀ j < S.nf, S.es[j]? = some (ε j) ∧ 0 ≤ ε j

/-- The liquid water model of `G` is selected and gives a number wherever there is liquid. -/
structure UsesLiquid (g : Globals) (S : Settings) (G : Composition) : Prop where
  liq : S.cloudy = true → g.sel.liq = some G.liquid
  runs : ∀ i < S.nl, 0 < (fullScene S).liquid i → LiquidRuns (some G.liquid) (S.tk i)

/-- The absorption coefficients of the gases at the levels are not negative. -/
def GasesAbsorb (S : Settings) (G : Composition) : Prop :=
  ∀ j < S.nf, ∀ i < S.nl, 0 ≤ ((fullScene S).sky G 0 (S.frq j)).wet i ∧ 0 ≤ ((fullScene S).sky G 0 (S.frq j)).dry i

theorem liquid_nonneg {m : String} {T d f : ℝ} (hT : 0 < T) (hf : 0 < f) (h : 0 < d → LiquidRuns (some m) T) :
    0 ≤ if 0 < d then liquidAbsorption m T d f else 0 := by
  by_cases hd : 0 < d
  swap
  · rw [if_neg hd]
  have key := liquid_level (d := d) hT hf h
  unfold liqTerm at key
  rw [if_pos hd] at key
  obtain ⟨a, ha, hpos⟩ : ∃ a, liquidAbs m d f T = .ok (some a) ∧ 0 < a := by
    obtain ⟨m', e, ⟨hm, h1⟩ | ⟨hm, h1⟩⟩ := h hd <;> cases e
    · exact C33_positive_debye m (by simpa using hm) d f T hd hf hT h1
    · exact C33_positive_dilec m hm d f T hd hf h1
  have : shipped.liq m d f T = .ok a := finite_some ha
  simp only [this] at key
  rw [← Except.ok.inj key]
  exact hpos.le

theorem ice_nonneg {d f : ℝ} (hf : 0 < f) : 0 ≤ if 0 < d then iceAbsorption d f else 0 := by
  have : 0 < log 10 := log_pos (by norm_num)
  split_ifs with h
  · unfold iceAbsorption; positivity
  · exact le_rfl

/-- What a run has computed for each angle and each frequency. -/
theorem full_cells {I : Inst} {ε : ℕ → ℝ} {len : ℕ → ℕ → ℝ} {G : Composition} (hS : FullInput I.set ε len)
    (hno : I.set.cloudy = true ∨ NoClouds I.out) (hg : Uses g G W O) (hq : UsesLiquid g I.set G)
    (hfm : G.water ∈ ["R23SD", "R24"] → ∀ j < I.set.nf, I.set.frq j < 4 * ckdStep) (hpos : GasesAbsorb I.set G) :
    (execute shipped g I).1 = .ok (table I.set (execute shipped g I).2.out) ∧
    ∀ k < I.set.nang, ∀ j < I.set.nf, ∃ e d g1, CellOk shipped I.set e (.ok d) j g1 (I.out.cell j k)
        ((execute shipped g I).2.out.cell j k) ∧ g1.fromSat = I.set.satellite ∧ g1.emissivity = ε j ∧
      Sky.Sound ((fullScene I.set).sky G (len k) (I.set.frq j)) ∧
      Computes shipped I.set e d j g1 ((fullScene I.set).sky G (len k) (I.set.frq j)) := by
  have hmw' : G.water ∈ ["R98", "R03", "R16", "R17", "R18", "R19", "R19SD", "R20", "R20SD", "R21SD", "R22SD", "R23SD",
      "R24", "MWL24"] := (C35_names _).1 (by rw [hg.water]; rfl)
  have hmo' : G.oxygen ∈ ["R98", "R03", "R16", "R17", "R18", "R19", "R19SD", "R20", "R20SD", "R22", "R23", "R24"] :=
    (C37_names _).1 (by rw [hg.oxygen]; rfl)
  have hdens {dl di : Val} (hc : I.set.cloudy = true) (hd : I.set.dens = some (dl, di)) :
      (fullScene I.set).liquid = dl ∧ (fullScene I.set).ice = di := by
    simp [fullScene, hc, hd]
  obtain ⟨rows, hrun⟩ := C32_completes (I := I) hS.good hg.h2o hg.o2 hg.n2 hmw' hmo' hg.nitrogen
    (fun ⟨_, m, h1, h2⟩ => by
      have hz := hg.ozone
      unfold OzoneLoaded at hz
      split at hz
      · exact absurd h2 (hz m h1)
      · obtain ⟨-, -, m', Z, old, hZ, hll, -⟩ := hz
        exact ⟨m', Z, old, hZ, hll⟩) hfm
    (fun hc => by
      obtain ⟨dl, di, b, t, cs, h1, h2, -⟩ := hS.cloud hc
      exact ⟨dl, di, _, cs, h1, h2⟩)
    fun hc dl di hd i hi h0 => by
      rw [hq.liq hc]
      exact hq.runs i hi (by rw [(hdens hc hd).1]; exact h0)
  obtain ⟨g1, e, rho, hl, hv, hrow, hc⟩ := (execute_ok hrun).ex
  rw [shipped_load hg.h2o hg.o2 hg.water hg.oxygen] at hl
  have hv0 := hv
  obtain ⟨e', rho', hv', he⟩ := vapor_eq (S := I.set) hS.good.ice
  rw [hv'] at hv
  simp only [Except.ok.injEq, Prod.mk.injEq] at hv
  obtain ⟨rfl, rfl⟩ := hv
  have hn := hS.good.levels
  refine ⟨by rw [hrun, hrow], fun k hk j hj => ?_⟩
  obtain ⟨es, hes, hstep⟩ := (hc k hk).2 j hj
  rw [(hS.es j hj).1] at hes
  cases hes
  have hε := (hS.es j hj).2
  obtain ⟨d, hd, hlen⟩ := hS.path k hk _ _ hv0
  rw [hd, cellGlobals_amu hS.good.amu] at hstep
  have hok := cellStep_ok hstep
  have hf := hS.good.frq j hj
  have hev : ∀ i, e' i = (sceneOf I.set).vapour i := fun i => by rw [he, saturation_eq]; rfl
  have lt_of {i : ℕ} (h : i ≤ ((fullScene I.set).sky G (len k) (I.set.frq j)).top) : i < I.set.nl := by
    change i ≤ I.set.nl - 1 at h; omega
  have hX : Sky.Sound ((fullScene I.set).sky G (len k) (I.set.frq j)) :=
    ⟨fun i hi => hS.good.tk i (lt_of hi), fun i hi => (hpos j hj i (lt_of hi)).1, fun i hi => (hpos j hj i (lt_of hi)).2,
      fun i hi => liquid_nonneg (hS.good.tk i (lt_of hi)) hf (hq.runs i (lt_of hi)), fun i _ => ice_nonneg hf,
      fun i hi => by
        have := hlen i (lt_of hi)
        change 0 ≤ len k i
        rw [this.1]
        exact this.2⟩
  have hl := (Except.ok.inj hl).symm
  refine ⟨_, d, _, hok, rfl, rfl, hX, ⟨rfl, fun i _ => rfl, fun i hi => (hlen i hi).1, ?_, ?_, ?_⟩⟩
  · intro a ha i hi
    have hlev := (tabulateE_ok ha).1 i hi
    have hu : Uses { g1 with fromSat := I.set.satellite, emissivity := ε j } G W O := by
      subst hl
      exact ⟨hg.h2o, hg.o2, hg.n2, hg.nitrogen, hg.water, hg.oxygen, hg.waterCols, hg.oxygenCols, hg.ozone⟩
    rw [C98_level hu (by subst hl; exact ⟨_, rfl⟩) (by subst hl; exact ⟨_, rfl⟩) (hS.good.tk i hi) (hS.good.p i hi)
      (by rw [he]; exact mul_nonneg (hS.good.rh i hi) (eswat_pos _).le) (by rw [he]; exact hS.good.vapour i hi) hf
      (fun h => hfm h j hj)] at hlev
    rw [← Except.ok.inj hlev, hev]
    rfl
  · intro hcl dl di b hdn hb i hi
    have hlev := (tabulateE_ok hb).1 i hi
    have hliq : g1.sel.liq = some G.liquid := by subst hl; exact hq.liq hcl
    obtain ⟨q1, q2⟩ := hdens hcl hdn
    have hr := hq.runs i hi
    rw [q1] at hr
    simp only [hliq] at hlev
    rw [C98_cloud (hS.good.tk i hi) hf hr] at hlev
    rw [← Except.ok.inj hlev]
    simp only [FullScene.sky, q1, q2]
    rfl
  · intro hcl i _
    have h1 : (fullScene I.set).liquid = fun _ => 0 := by simp [fullScene, hcl]
    have h2 : (fullScene I.set).ice = fun _ => 0 := by simp [fullScene, hcl]
    simp [FullScene.sky, h1, h2]

/-- **C98.** Any simulation is a formula: with every selection of models, ozone, clouds and any path, the data frame holds for
each angle and each frequency the temperatures and opacities of the closed expression. -/
theorem C98_table {I : Inst} {ε : ℕ → ℝ} {len : ℕ → ℕ → ℝ} {G : Composition} (hS : FullInput I.set ε len)
    (hno : I.set.cloudy = true ∨ NoClouds I.out) (hg : Uses g G W O) (hq : UsesLiquid g I.set G)
    (hfm : G.water ∈ ["R23SD", "R24"] → ∀ j < I.set.nf, I.set.frq j < 4 * ckdStep) (hpos : GasesAbsorb I.set G) :
    (execute shipped g I).1 = .ok ((List.range I.set.nang).flatMap fun k => (List.range I.set.nf).map fun j =>
      skyRow ((fullScene I.set).sky G (len k) (I.set.frq j)) I.set.satellite (ε j) (I.set.frq j) (I.set.angles k)
        (cloudOf I.set)) := by
  obtain ⟨hrun, hcells⟩ := full_cells hS hno hg hq hfm hpos
  rw [hrun]
  unfold table
  congr 1
  refine List.flatMap_congr fun k hk => List.map_congr_left fun j hj => ?_
  rw [List.mem_range] at hk hj
  obtain ⟨e, d, g1, hok, hsat, hem, hX, hC⟩ := hcells k hk j hj
  rw [← hsat, ← hem]
  refine cell_closed hok hS.good.levels hX hC (hS.good.frq j hj) (by rw [hem]; exact (hS.es j hj).2) ?_ ?_ _
  · intro hcl
    rcases hno with h | h
    · rw [hcl] at h; cases h
    · have z := h j k
      exact ⟨z.ptauliq.symm, z.ptauice.symm, z.sptauliq.symm, z.sptauice.symm, z.tmrcld.symm⟩
  · intro b t hco
    by_cases hcl : I.set.cloudy = true
    · obtain ⟨dl, di, b', t', cs, h1, h2, h3⟩ := hS.cloud hcl
      have : cloudOf I.set = some (b', t') := by simp [cloudOf, hcl, h2]
      rw [this] at hco
      cases hco
      exact h3
    · simp [cloudOf, hcl] at hco

/-- C98: the lengths for straight rays through plane layers. -/
theorem C98_plane {S : Settings} (hr : S.rayTracing = false) (ha : ∀ k < S.nang, 0 < S.angles k ∧ S.angles k < 180)
    (hz : ∀ i, i + 1 < S.nl → S.z i ≤ S.z (i + 1)) : ∀ k < S.nang, ∀ e rho, vapor S.tk S.rh S.ice = .ok (e, rho) →
    ∃ d, pathOf S (fun i => (refractivity1 (S.p i) (S.tk i) (e i)).2.2) k = .ok d ∧
      ∀ i < S.nl, (S.z i - S.z (i - 1)) / sin (S.angles k * π / 180) = d i ∧ 0 ≤ d i := by
  intro k hk e rho hv
  have hs := sin_pos_of_angle (ha k hk).1 (ha k hk).2
  obtain ⟨d, hd, h0⟩ := goodPath_plane hr (ha k hk).1 (ha k hk).2 hz e rho hv
  refine ⟨d, hd, fun i hi => ⟨?_, h0 i hi⟩⟩
  rw [pathOf_plane hr hs.ne'] at hd
  rw [← Path.ok.inj hd]
  simp only
  by_cases h : i = 0
  · subst h; simp
  · rw [if_neg h]; ring

/-- C98: the lengths for rays traced within one degree of the zenith. -/
theorem C98_zenith {S : Settings} (hr : S.rayTracing = true) (ha : ∀ k < S.nang, 89 ≤ S.angles k ∧ S.angles k ≤ 91)
    (hn : 1 ≤ S.nl) (hz : ∀ i, i + 1 < S.nl → S.z i ≤ S.z (i + 1))
    (hi : ∀ e rho, vapor S.tk S.rh S.ice = .ok (e, rho) → ∀ i < S.nl, 1 ≤ (refractivity1 (S.p i) (S.tk i) (e i)).2.2) :
    ∀ k < S.nang, ∀ e rho, vapor S.tk S.rh S.ice = .ok (e, rho) →
    ∃ d, pathOf S (fun i => (refractivity1 (S.p i) (S.tk i) (e i)).2.2) k = .ok d ∧
      ∀ i < S.nl, S.z i - S.z (i - 1) = d i ∧ 0 ≤ d i := by
  intro k hk e rho hv
  obtain ⟨d, h1, h2, h3, -⟩ := C21_zenith
    (I := ⟨S.nl, S.z, fun i => (refractivity1 (S.p i) (S.tk i) (e i)).2.2, S.angles k, S.z0⟩) hn (hi e rho hv)
    (Or.inl (ha k hk))
  obtain ⟨d', hd', h0⟩ := goodPath_zenith hr (ha k hk).1 (ha k hk).2 hn hz hi e rho hv
  have hdd : d' = d := by
    unfold pathOf at hd'
    rw [if_pos hr, h1] at hd'
    simpa using hd'.symm
  subst hdd
  refine ⟨d', hd', fun i hi => ⟨?_, h0 i hi⟩⟩
  rcases Nat.eq_zero_or_pos i with rfl | h
  · rw [h2]; simp
  · exact (h3 i h hi).symm

/-- C98: for the water vapour models without speed dependence, oxygen other than R98, and ozone that is not negative (with
the Voigt profile: from 0.0001 hPa and up to 400 K), no condition on the absorption is left. -/
theorem C98_absorb {S : Settings} {G : Composition} (hI : GoodInput S) (hg : Uses g G W O)
    (hw : G.water ∈ ["R98", "R03", "R16", "R17", "R18", "R19", "R20"]) (ho : G.oxygen ≠ "R98")
    (hz : ∀ d, S.o3n = some d → ∀ i < S.nl, 0 ≤ d i)
    (hv : G.ozone = some "R22" ∨ G.ozone = some "R22SD" → ∀ i < S.nl, S.tk i ≤ 400 ∧ 0.0001 ≤ S.p i) : GasesAbsorb S G := by
  intro j hj i hi
  have hT := hI.tk i hi
  have hp := hI.p i hi
  have hf := hI.frq j hj
  have he : 0 ≤ (sceneOf S).vapour i := mul_nonneg (hI.rh i hi) (by rw [← saturation_eq]; exact (eswat_pos _).le)
  have hep : (sceneOf S).vapour i ≤ S.p i := by
    unfold Scene.vapour; rw [← saturation_eq]; exact hI.vapour i hi
  obtain ⟨O', hO'⟩ : ∃ F, oxygenFile "R20" = some F := Option.isSome_iff_exists.1 ((C37_names _).2 (by decide))
  obtain ⟨co, no, hco⟩ := oxygenColumns_exist hO'
  obtain ⟨n1, -, n3⟩ := C96_nonneg hw (by decide) hg.nitrogen hg.water hO' hg.waterCols hco hT hp he hep hf
  refine ⟨?_, add_nonneg (add_nonneg ?_ n3) ?_⟩
  · change 0 ≤ vapourAbsorption _ _ _ _ _ _ _
    unfold vapourAbsorption
    have h1 : ¬ (G.water = "R23SD" ∨ G.water = "R24") := by
      simp only [List.mem_cons, List.not_mem_nil, or_false] at hw
      rcases hw with h | h | h | h | h | h | h <;> rw [h] <;> decide
    have h2 : G.water ≠ "MWL24" := by
      simp only [List.mem_cons, List.not_mem_nil, or_false] at hw
      rcases hw with h | h | h | h | h | h | h <;> rw [h] <;> decide
    simp only [if_neg h1, if_neg h2]
    exact n1
  · change 0 ≤ oxyAbsorption _ _ _ _ _ _ _
    unfold oxyAbsorption
    simp only
    split_ifs with h1 h2
    · exact le_max_left _ _
    · exact le_max_left _ _
    · refine (C96_nonneg hw ?_ hg.nitrogen hg.water hg.oxygen hg.waterCols hg.oxygenCols hT hp he hep hf).2.1
      have := (C37_names G.oxygen).1 (by rw [hg.oxygen]; rfl)
      simp only [List.mem_cons, List.not_mem_nil, or_false] at this ⊢
      tauto
  · have hzl := hg.ozone
    change 0 ≤ G.ozoneAt S.o3n (S.tk i) (S.p i) (S.frq j) i
    unfold OzoneLoaded at hzl
    unfold Composition.ozoneAt
    cases hz0 : G.ozone with
    | none => exact le_rfl
    | some m =>
      cases hd : S.o3n with
      | none => exact le_rfl
      | some d =>
        rw [hz0] at hzl
        obtain ⟨-, -, m', Z, old, hZ, -, hc⟩ := hzl
        obtain ⟨G3⟩ := goodO3_of_file hZ old
        have key := C98_ozone m hZ hc old hT hp.le (S.frq j) (d i)
        have hti : 0 < 296 / S.tk i := by positivity
        have hline : ∀ k < G3.n, ∃ c, (if m ∈ ["R22", "R22SD"] then o3Voigt (G3.fl k) (G3.s1 k) (G3.b k) (G3.w k) (G3.x k)
            (S.tk i) (S.p i) (296 / S.tk i) (S.frq j) else o3Lorentz (G3.fl k) (G3.s1 k) (G3.b k) (G3.w k) (G3.x k) (S.tk i)
            (S.p i) (296 / S.tk i) (S.frq j)) = some c ∧ 0 < c := by
          intro k hk
          obtain ⟨p1, p2, p3, p4, p5, p6⟩ := G3.pos k hk
          have hfl : 0 < G3.fl k := by linarith
          have hw : 0 < G3.w k := by norm_num at p2 ⊢; linarith
          by_cases hm : m ∈ ["R22", "R22SD"]
          · have hm' : m = "R22" ∨ m = "R22SD" := by simpa using hm
            obtain ⟨ht', hp'⟩ := hv (by rcases hm' with rfl | rfl <;> simp [hz0]) i hi
            obtain ⟨er, -, he, h⟩ := o3Voigt_some (s1 := G3.s1 k) (b := G3.b k) (S.frq j) hfl hT hti
              (o3_width hfl p6 p2 p3 p4 hT ht' hp')
            rw [if_pos hm, h]
            have hs : 0 < √(S.tk i) := Real.sqrt_pos.2 hT
            exact ⟨_, rfl, by positivity⟩
          · rw [if_neg hm]
            obtain ⟨h, hW⟩ := o3Lorentz_some (s1 := G3.s1 k) (b := G3.b k) (x := G3.x k) (S.frq j) hfl hw hT hp.le hti
            rw [h]
            exact ⟨_, rfl, by positivity⟩
        choose! q hq hq0 using hline
        rw [o3_eval G3 hT fun k hk _ => hq k hk] at key
        have hval := Option.some_inj.1 (Except.ok.inj key)
        simp only
        rw [← hval]
        have hq1 : 0 ≤ 1 - Real.exp (-1008 / S.tk i) := by
          have : Real.exp (-1008 / S.tk i) < 1 := Real.exp_lt_one_iff.2 (div_neg_of_neg_of_pos (by norm_num) hT)
          linarith
        have hC : (0 : ℝ) ≤ (if m ∈ ["R22", "R22SD"] then 0.56419e-10 else 3.183e-11) := by split_ifs <;> norm_num
        refine mul_nonneg (mul_nonneg (mul_nonneg (mul_nonneg hC (hz d hd i hi)) hq1) (rpow_nonneg hti.le _))
          (Finset.sum_nonneg fun k hk => ?_)
        split_ifs
        · exact (hq0 k (Finset.mem_range.1 hk)).le
        · exact le_rfl

/-- Three levels with a liquid cloud and ozone. -/
noncomputable def hazyS : Settings := { realS true with o3n := some fun _ => 1e18 }

/-- The row for 23 GHz at 90 degrees through cloud and ozone: oxygen of R24, ozone of R18, liquid of R20. -/
example {g : Globals} (hg : g.sel.h2o = some "R19" ∧ g.sel.o2 = some "R24" ∧ g.sel.n2 = some "R03" ∧ g.sel.o3 = some "R18" ∧
    g.sel.liq = some "R20") (hz : ∃ Z old, ozoneFile "R18" = some Z ∧ g.o3ll = reloadLL Z old) :
    ∃ rows r, ∃ G : Composition, (execute shipped g ⟨hazyS, Store.zero⟩).1 = .ok rows ∧ rows[1]? = some r ∧
      r = skyRow ((fullScene hazyS).sky G (fun i => (hazyS.z i - hazyS.z (i - 1)) / sin (90 * π / 180)) 23) true 1 23 90
        (some (0, 2)) ∧
      G.water = "R19" ∧ G.oxygen = "R24" ∧ G.ozone = some "R18" ∧ G.liquid = "R20" := by
  obtain ⟨W, hW⟩ : ∃ W, waterFile "R19" = some W := Option.isSome_iff_exists.1 ((C35_names _).2 (by decide))
  obtain ⟨O, hO⟩ : ∃ O, oxygenFile "R24" = some O := Option.isSome_iff_exists.1 ((C37_names _).2 (by decide))
  obtain ⟨Z, old, hZ, hl⟩ := hz
  obtain ⟨cw, nw, hw⟩ := waterColumns_exist hW
  obtain ⟨co, no, ho⟩ := oxygenColumns_exist hO
  obtain ⟨cz, nz, hz⟩ := ozoneColumns_exist hZ
  have h := realS_good true
  have hgood : GoodInput hazyS :=
    ⟨h.levels, h.emissivity, h.frq, h.tk, h.p, h.rh, h.vapour, h.ice, h.amu, h.path⟩
  let G : Composition := ⟨⟨"R19", cw, nw, "R24", co, no, "R03"⟩, some "R18", cz, nz, "R20"⟩
  have hu : Uses g G W O := ⟨hg.1, hg.2.1, hg.2.2.1, by simp [G, n2Runs], hW, hO, hw, ho, hg.2.2.2.1, by decide, "R18", Z, old,
    hZ, hl, hz⟩
  have hin : FullInput hazyS (fun _ => 1) fun k i => (hazyS.z i - hazyS.z (i - 1)) / sin (hazyS.angles k * π / 180) :=
    ⟨hgood, C98_plane rfl demo_angles fun i _ => by simp [hazyS, realS, demoS],
      fun _ => ⟨_, _, _, _, _, rfl, rfl, by norm_num, by simp [hazyS, realS, demoS]⟩, fun j hj => by
        have : j < 2 := hj
        interval_cases j <;> simp [hazyS, realS, demoS]⟩
  have hq : UsesLiquid g hazyS G := ⟨fun _ => hg.2.2.2.2, fun i hi _ => ⟨_, rfl, Or.inr ⟨by simp [G], by
    have : (i : ℝ) < 3 := by exact_mod_cast hi
    change 210 ≤ (288 - 6 * i : ℝ)
    linarith⟩⟩⟩
  have hab : GasesAbsorb hazyS G := C98_absorb hgood hu (by simp [G]) (by simp [G])
    (fun d hd i _ => by
      simp only [hazyS, Option.some.injEq] at hd
      rw [← hd]; norm_num) (by simp [G])
  have main := C98_table (I := ⟨hazyS, Store.zero⟩) hin (Or.inl rfl) hu hq (by simp [G]) hab
  refine ⟨_, _, G, main, grid_get (fun k j => skyRow ((fullScene hazyS).sky G
    (fun i => (hazyS.z i - hazyS.z (i - 1)) / sin (hazyS.angles k * π / 180)) (hazyS.frq j)) hazyS.satellite 1 (hazyS.frq j)
      (hazyS.angles k) (cloudOf hazyS)) 2 2 0 1 (by norm_num) (by norm_num), ?_, rfl, rfl, rfl, rfl⟩
  have h1 : hazyS.frq 1 = 23 := by norm_num [hazyS, realS, demoS]
  have h2 : hazyS.angles 0 = 90 := by norm_num [hazyS, realS, demoS]
  have h3 : cloudOf hazyS = some (0, 2) := rfl
  rw [h1, h2, h3]
  rfl

/-- Traced rays: the same levels, looking straight up and half a degree beside. -/
example : ∃ S : Settings, S.rayTracing = true ∧ S.nang = 2 ∧ S.angles 1 = 89.5 ∧
    (∀ k < S.nang, 89 ≤ S.angles k ∧ S.angles k ≤ 91) ∧ 1 ≤ S.nl ∧ ∀ i, i + 1 < S.nl → S.z i ≤ S.z (i + 1) := by
  refine ⟨{ realS false with rayTracing := true, angles := fun k => 90 - k / 2 }, rfl, rfl, by norm_num, fun k hk => ?_,
    by simp [realS, demoS], fun i _ => by simp [realS, demoS]⟩
  have : (k : ℝ) < 2 := by exact_mod_cast hk
  have h0 : (0 : ℝ) ≤ k := Nat.cast_nonneg k
  constructor <;> simp only <;> linarith

end Verif.Props
