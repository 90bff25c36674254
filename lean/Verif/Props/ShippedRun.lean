import Verif.Props.Opaque
import Verif.Props.ShippedLimit
import Verif.Props.Extrapolation

/-!
# C95: complete statement for the models of the distribution

No hypothesis about absorption, opacity or success of the run is left: every atmosphere with continuous pressure,
temperature and humidity can be simulated at any levels, and the results converge.
-/

namespace Verif.Props

open Verif.Model Verif.Py Verif.Spec Verif.Lemmas Real Set

variable {A : AbsRoutines} {g g1 : Globals} {C : Column} {frq m θ es : ℝ} {w d : ℝ → ℝ} {mw mo mn : String}

/-- Emissivity does not matter looking up. -/
theorem planck_ground_es {es es' : ℝ} {nl : ℕ} {t τ : ℕ → ℝ} {out out' : PlanckOut}
    (hp : planck false es frq nl t τ = some out) (hp' : planck false es' frq nl t τ = some out') :
    out.hvk = out'.hvk ∧ out.boftotl = out'.boftotl := by
  obtain ⟨-, e1h, -, -, -, e15, e16, e17⟩ := planck_ground hp
  obtain ⟨-, e2h, -, -, -, e25, e26, e27⟩ := planck_ground hp'
  rw [e1h, e2h, e17, e27]
  refine ⟨rfl, ?_⟩
  congr 1
  rcases lt_or_ge (opacityBelow τ (nl - 1)) 125 with hlt | hge
  · rw [(e15 hlt).1, (e25 hlt).1]
  · rw [(e16 hge).1, (e26 hge).1]

/-- C95: looking up, whatever the opacity. -/
theorem C95_ground_any (hf : 0 < frq) (hθ : 0 < θ ∧ θ < 180) (hl : initLineList A g = .ok g1)
    (hC : Continuous' C A g1 frq 2.728 w d) :
    ∃ Tb, bright (hvkOf frq) (trueDown frq (total (slantAir θ w d)) (slant θ C.tk) (C.top / sin (θ * π / 180))) = some Tb ∧
      2.728 ≤ Tb ∧ ∀ ε > 0, ∃ δ > 0, ∀ n h I rows j k, ReadOff C n h I.set → FinerThan n h δ →
        I.set.satellite = false → NoClouds I.out → j < I.set.nf → I.set.frq j = frq → k < I.set.nang →
        I.set.angles k = θ → (execute A g I).1 = .ok rows →
        ∃ r Tb', rows[k * I.set.nf + j]? = some r ∧ r.tbtotal = some Tb' ∧ |Tb' - Tb| ≤ ε + exp (-125) * Tb := by
  have hs := sin_pos_of_angle hθ.1 hθ.2
  have hnn : 0 ≤ C.top / sin (θ * π / 180) := div_nonneg hC.top hs.le
  obtain ⟨Tb, h1, h2, H⟩ := C94_ground_brightness_any (es := 0) hf hnn (slant_absorbers hs hC)
    (slant_continuousOn hs hC.tk) fun u hu => hC.tk0 _ (slant_mem hs hu)
  refine ⟨Tb, h1, h2, fun ε hε => ?_⟩
  obtain ⟨δ, hδ, H⟩ := H ε hε
  refine ⟨δ * sin (θ * π / 180), by positivity, fun n h I rows j k hR hfine hsat ho hj hfrq hk hang hrun => ?_⟩
  obtain ⟨_, _, _, -, -, -, hc⟩ := (execute_ok hrun).ex
  obtain ⟨es, hes, -⟩ := (hc k hk).2 j hj
  obtain ⟨ds, x, out, r, hS, hp, hr, hb⟩ := run_sampled hl hC hR hs ho hj hk hfrq hang hes hrun
  rw [hsat] at hp
  obtain ⟨out', hp'⟩ := planck_exists (s := false) (es := 0) (frq := frq) (nl := n + 1)
    (t := fun i => slant θ C.tk (h i / sin (θ * π / 180))) (τ := fun i => ∑ c, x c i) (by omega)
  obtain ⟨Tb', b1, b2⟩ := H n _ ds x out' hS (fun i h1 h2 => by
    have := hfine i h1 h2
    rw [← sub_div, div_le_iff₀ hs]
    exact this) hp'
  obtain ⟨q1, q2⟩ := planck_ground_es hp hp'
  exact ⟨r, Tb', hr, by rw [hb, ← b1, q1, q2], b2⟩

/-- C95: looking down, whatever the opacity. -/
theorem C95_satellite_any (hf : 0 < frq) (hes : 0 < es ∧ es ≤ 1) (hθ : 0 < θ ∧ θ < 180) (hl : initLineList A g = .ok g1)
    (hC : Continuous' C A g1 frq m w d) :
    ∃ Tb, bright (hvkOf frq) (trueUp es frq (total (slantAir θ w d)) (slant θ C.tk) (C.top / sin (θ * π / 180))) = some Tb ∧
      0 < Tb ∧ ∀ ε > 0, ∃ δ > 0, ∀ n h I rows j k, ReadOff C n h I.set → FinerThan n h δ →
        I.set.satellite = true → I.set.es[j]? = some es → NoClouds I.out → j < I.set.nf → I.set.frq j = frq →
        k < I.set.nang → I.set.angles k = θ → (execute A g I).1 = .ok rows →
        ∃ r Tb', rows[k * I.set.nf + j]? = some r ∧ r.tbtotal = some Tb' ∧
          |Tb' - Tb| ≤ ε + tk2b (hvkOf frq) (C.tk 0) / tk2b (hvkOf frq) m * exp (-125) * Tb := by
  have hs := sin_pos_of_angle hθ.1 hθ.2
  have hnn : 0 ≤ C.top / sin (θ * π / 180) := div_nonneg hC.top hs.le
  obtain ⟨Tb, h1, h2, H⟩ := C94_satellite_brightness_any hf hes hnn (slant_absorbers hs hC)
    (slant_continuousOn hs hC.tk) hC.low fun u hu => hC.tk0 _ (slant_mem hs hu)
  rw [show slant θ C.tk 0 = C.tk 0 by unfold slant; rw [zero_mul]] at H
  refine ⟨Tb, h1, h2, fun ε hε => ?_⟩
  obtain ⟨δ, hδ, H⟩ := H ε hε
  refine ⟨δ * sin (θ * π / 180), by positivity, fun n h I rows j k hR hfine hsat hE ho hj hfrq hk hang hrun => ?_⟩
  obtain ⟨ds, x, out, r, hS, hp, hr, hb⟩ := run_sampled hl hC hR hs ho hj hk hfrq hang hE hrun
  rw [hsat] at hp
  obtain ⟨Tb', b1, b2⟩ := H n _ ds x out hS (fun i h1 h2 => by
    have := hfine i h1 h2
    rw [← sub_div, div_le_iff₀ hs]
    exact this) hp
  exact ⟨r, Tb', hr, by rw [hb, b1], b2⟩

/-- What a run needs besides the levels: an emissivity for every frequency, positive frequencies, and elevation angles
strictly between the horizons. -/
structure Observing (S : Settings) : Prop where
  emissivity : S.nf ≤ S.es.length
  frq : ∀ j < S.nf, 0 < S.frq j
  angles : ∀ k < S.nang, 0 < S.angles k ∧ S.angles k < 180

/-- C95: an atmosphere read off at any levels can be simulated. -/
theorem C95_runs {n : ℕ} {h : ℕ → ℝ} {I : Inst} (hw : g.sel.h2o = some mw) (ho : g.sel.o2 = some mo)
    (hn : g.sel.n2 = some mn) (hmw : mw ∈ ["R98", "R03", "R16", "R17", "R18", "R19", "R20"])
    (hmo : mo ∈ ["R03", "R16", "R17", "R18", "R19", "R19SD", "R20", "R20SD", "R22"]) (hmn : mn ∈ n2Runs)
    (hC : C.Smooth m) (hR : ReadOff C n h I.set) (hO : Observing I.set) :
    ∃ rows, (execute shipped g I).1 = .ok rows := by
  have at' {i : ℕ} (hi : i < I.set.nl) : i ≤ n ∧ h i ∈ Icc 0 C.top := by
    rw [hR.nl] at hi
    exact ⟨by omega, hR.levels.mem (by omega)⟩
  refine C32_completes ⟨by rw [hR.nl]; omega, hO.emissivity, hO.frq, fun i hi => ?_, fun i hi => ?_, fun i hi => ?_,
    fun i hi => ?_, hR.ice, hR.amu, fun k hk => goodPath_plane hR.rays (hO.angles k hk).1 (hO.angles k hk).2
      fun i hi => ?_⟩ hw ho hn ?_ ?_ hmn (fun ha => ?_) (fun hm => ?_) (fun hc => ?_) fun hc => ?_
  · rw [hR.tk i (at' hi).1]
    exact hC.low.trans_le (hC.tk0 _ (at' hi).2)
  · rw [hR.p i (at' hi).1]
    exact hC.p0 _ (at' hi).2
  · rw [hR.rh i (at' hi).1]
    exact hC.rh0 _ (at' hi).2
  · rw [hR.rh i (at' hi).1, hR.tk i (at' hi).1, hR.p i (at' hi).1]
    exact hC.vapour _ (at' hi).2
  · have h1 := (at' hi).1
    rw [hR.z i (by omega), hR.z (i + 1) h1]
    exact hR.levels.order i (by omega)
  · simp only [List.mem_cons, List.not_mem_nil, or_false] at hmw ⊢; tauto
  · simp only [List.mem_cons, List.not_mem_nil, or_false] at hmo ⊢; tauto
  · rw [hR.ozone] at ha; unfold ozoneActive at ha; simp at ha
  · simp only [List.mem_cons, List.not_mem_nil, or_false] at hmw hm
    rcases hm with rfl | rfl <;> simp at hmw
  · rw [hR.cloudy] at hc; cases hc
  · rw [hR.cloudy] at hc; cases hc

/-- **C95.** Complete statement looking up: with the models of the distribution that have no speed-dependent line
profile, every continuous atmosphere (no colder than the cosmic background) has a brightness temperature, that of the
radiative transfer equation with the absorption of the selected models, to which all sufficiently fine simulations are
close: they complete, and their result is off by at most `ε` and a share of less than `10⁻⁵⁴`. -/
theorem C95_ground_shipped (hw : g.sel.h2o = some mw) (ho : g.sel.o2 = some mo) (hn : g.sel.n2 = some mn)
    (hmw : mw ∈ ["R98", "R03", "R16", "R17", "R18", "R19", "R20"])
    (hmo : mo ∈ ["R03", "R16", "R17", "R18", "R19", "R19SD", "R20", "R20SD", "R22"]) (hmn : mn ∈ n2Runs)
    (hf : 0 < frq) (hθ : 0 < θ ∧ θ < 180) (hC : C.Smooth 2.728) :
    ∃ g1 w d Tb, initLineList shipped g = .ok g1 ∧ (∀ u ∈ Icc 0 C.top, C.air shipped g1 frq u = .ok (w u, d u)) ∧
      bright (hvkOf frq) (trueDown frq (total (slantAir θ w d)) (slant θ C.tk) (C.top / sin (θ * π / 180))) = some Tb ∧
      2.728 ≤ Tb ∧ ∀ ε > 0, ∃ δ > 0, ∀ n h I j k, ReadOff C n h I.set → FinerThan n h δ → Observing I.set →
        I.set.satellite = false → NoClouds I.out → j < I.set.nf → I.set.frq j = frq → k < I.set.nang →
        I.set.angles k = θ → ∃ rows r Tb', (execute shipped g I).1 = .ok rows ∧
          rows[k * I.set.nf + j]? = some r ∧ r.tbtotal = some Tb' ∧ |Tb' - Tb| ≤ ε + exp (-125) * Tb := by
  obtain ⟨W, hW⟩ : ∃ W, waterFile mw = some W := Option.isSome_iff_exists.1 ((C35_names mw).2 (by
    simp only [List.mem_cons, List.not_mem_nil, or_false] at hmw ⊢; tauto))
  obtain ⟨O, hO⟩ : ∃ O, oxygenFile mo = some O := Option.isSome_iff_exists.1 ((C37_names mo).2 (by
    simp only [List.mem_cons, List.not_mem_nil, or_false] at hmo ⊢; tauto))
  have hl := shipped_load hw ho hW hO
  obtain ⟨w, d, hc⟩ := C95_shipped hw ho hn hmw hmo hmn hl hf hC
  obtain ⟨Tb, h1, h2, H⟩ := C95_ground_any hf hθ hl hc
  refine ⟨_, w, d, Tb, hl, hc.air, h1, h2, fun ε hε => ?_⟩
  obtain ⟨δ, hδ, H⟩ := H ε hε
  refine ⟨δ, hδ, fun n h I j k hR hfine hob hsat hnc hj hfrq hk hang => ?_⟩
  obtain ⟨rows, hrun⟩ := C95_runs hw ho hn hmw hmo hmn hC hR hob
  obtain ⟨r, Tb', q1, q2, q3⟩ := H n h I rows j k hR hfine hsat hnc hj hfrq hk hang hrun
  exact ⟨rows, r, Tb', hrun, q1, q2, q3⟩

/-- C95: complete statement looking down. -/
theorem C95_satellite_shipped (hw : g.sel.h2o = some mw) (ho : g.sel.o2 = some mo) (hn : g.sel.n2 = some mn)
    (hmw : mw ∈ ["R98", "R03", "R16", "R17", "R18", "R19", "R20"])
    (hmo : mo ∈ ["R03", "R16", "R17", "R18", "R19", "R19SD", "R20", "R20SD", "R22"]) (hmn : mn ∈ n2Runs)
    (hf : 0 < frq) (hes : 0 < es ∧ es ≤ 1) (hθ : 0 < θ ∧ θ < 180) (hC : C.Smooth m) :
    ∃ g1 w d Tb, initLineList shipped g = .ok g1 ∧ (∀ u ∈ Icc 0 C.top, C.air shipped g1 frq u = .ok (w u, d u)) ∧
      bright (hvkOf frq) (trueUp es frq (total (slantAir θ w d)) (slant θ C.tk) (C.top / sin (θ * π / 180))) = some Tb ∧
      0 < Tb ∧ ∀ ε > 0, ∃ δ > 0, ∀ n h I j k, ReadOff C n h I.set → FinerThan n h δ → Observing I.set →
        I.set.satellite = true → I.set.es[j]? = some es → NoClouds I.out → j < I.set.nf → I.set.frq j = frq →
        k < I.set.nang → I.set.angles k = θ → ∃ rows r Tb', (execute shipped g I).1 = .ok rows ∧
          rows[k * I.set.nf + j]? = some r ∧ r.tbtotal = some Tb' ∧
          |Tb' - Tb| ≤ ε + tk2b (hvkOf frq) (C.tk 0) / tk2b (hvkOf frq) m * exp (-125) * Tb := by
  obtain ⟨W, hW⟩ : ∃ W, waterFile mw = some W := Option.isSome_iff_exists.1 ((C35_names mw).2 (by
    simp only [List.mem_cons, List.not_mem_nil, or_false] at hmw ⊢; tauto))
  obtain ⟨O, hO⟩ : ∃ O, oxygenFile mo = some O := Option.isSome_iff_exists.1 ((C37_names mo).2 (by
    simp only [List.mem_cons, List.not_mem_nil, or_false] at hmo ⊢; tauto))
  have hl := shipped_load hw ho hW hO
  obtain ⟨w, d, hc⟩ := C95_shipped hw ho hn hmw hmo hmn hl hf hC
  obtain ⟨Tb, h1, h2, H⟩ := C95_satellite_any hf hes hθ hl hc
  refine ⟨_, w, d, Tb, hl, hc.air, h1, h2, fun ε hε => ?_⟩
  obtain ⟨δ, hδ, H⟩ := H ε hε
  refine ⟨δ, hδ, fun n h I j k hR hfine hob hsat hE hnc hj hfrq hk hang => ?_⟩
  obtain ⟨rows, hrun⟩ := C95_runs hw ho hn hmw hmo hmn hC hR hob
  obtain ⟨r, Tb', q1, q2, q3⟩ := H n h I rows j k hR hfine hsat hE hnc hj hfrq hk hang hrun
  exact ⟨rows, r, Tb', hrun, q1, q2, q3⟩

/-! ## A case -/

/-- Ten kilometres of half saturated air, 290 K and 1000 hPa at the ground. -/
noncomputable def tenColumn : Column where
  top := 10
  p u := 1000 - 75 * u
  tk u := 290 - 6 * u
  rh _ := 0.5

theorem tenColumn_smooth : tenColumn.Smooth 230 where
  top := by norm_num [tenColumn]
  p := by unfold tenColumn; fun_prop
  tk := by unfold tenColumn; fun_prop
  rh := by unfold tenColumn; fun_prop
  low := by norm_num
  tk0 u hu := by
    have h2 : u ≤ 10 := hu.2
    show (230 : ℝ) ≤ 290 - 6 * u
    linarith
  p0 u hu := by
    have h2 : u ≤ 10 := hu.2
    show (0 : ℝ) < 1000 - 75 * u
    linarith
  rh0 u _ := by norm_num [tenColumn]
  vapour u hu := by
    have h1 : 0 ≤ u := hu.1
    have h2 : u ≤ 10 := hu.2
    show 0.5 * eswat (290 - 6 * u) ≤ 1000 - 75 * u
    have := eswat_le (t := 290 - 6 * u) (by linarith) (by linarith)
    linarith

/-- The column read off at `n + 1` equidistant levels, seen from below at two frequencies and two elevations. -/
noncomputable def tenSettings (n : ℕ) : Settings :=
  { demoS with
    nl := n + 1
    z := fun i => 10 * i / n
    p := fun i => 1000 - 75 * (10 * i / n)
    tk := fun i => 290 - 6 * (10 * i / n)
    rh := fun _ => 0.5
    satellite := false
    cloudy := false }

theorem tenSettings_readOff {n : ℕ} (hn : 0 < n) : ReadOff tenColumn n (fun i => 10 * i / n) (tenSettings n) where
  levels := ⟨by simp, by have : (n : ℝ) ≠ 0 := by positivity
                         simp only [tenColumn]; field_simp, fun i _ => by
    push_cast
    exact div_le_div_of_nonneg_right (by linarith) (Nat.cast_nonneg n)⟩
  nl := rfl
  z _ _ := rfl
  p _ _ := rfl
  tk _ _ := rfl
  rh _ _ := rfl
  ozone := rfl
  amu := rfl
  rays := rfl
  ice := rfl
  cloudy := rfl

theorem tenSettings_observing (n : ℕ) : Observing (tenSettings n) :=
  ⟨le_rfl, fun j _ => by simp only [tenSettings, demoS]; positivity, demo_angles⟩

/-- With more and more equidistant levels the simulation at 22 GHz and 30 degrees elevation converges, up to
`exp(-125)` of its value. -/
example {g : Globals} (hg : g.sel.h2o = some "R17" ∧ g.sel.o2 = some "R17" ∧ g.sel.n2 = some "R03") :
    ∃ Tb, ∀ ε > 0, ∃ N : ℕ, ∀ n ≥ N, ∃ rows r Tb', (execute shipped g ⟨tenSettings n, Store.zero⟩).1 = .ok rows ∧
      rows[2]? = some r ∧ r.tbtotal = some Tb' ∧ |Tb' - Tb| ≤ ε + exp (-125) * Tb := by
  have hC : tenColumn.Smooth 2.728 := { tenColumn_smooth with
    low := by norm_num
    tk0 := fun u hu => le_trans (by norm_num) (tenColumn_smooth.tk0 u hu) }
  obtain ⟨g1, w, d, Tb, -, -, -, -, H⟩ := C95_ground_shipped (frq := 22) (θ := 30) hg.1 hg.2.1 hg.2.2 (by decide)
    (by decide) (by decide) (by norm_num) (by norm_num) hC
  refine ⟨Tb, fun ε hε => ?_⟩
  obtain ⟨δ, hδ, H⟩ := H ε hε
  obtain ⟨N, hN⟩ := exists_nat_gt (10 / δ)
  refine ⟨N, fun n hn => ?_⟩
  have hn' : 10 / δ < n := hN.trans_le (Nat.cast_le.2 hn)
  have hn0 : (0 : ℝ) < n := lt_trans (by positivity) hn'
  exact H n _ ⟨tenSettings n, Store.zero⟩ 0 1 (tenSettings_readOff (Nat.cast_pos.1 hn0)) (fun i h1 _ => by
      rw [← sub_div, Nat.cast_sub h1, div_le_iff₀ hn0]
      rw [div_lt_iff₀ hδ] at hn'
      push_cast
      nlinarith) (tenSettings_observing n) rfl (fun j k => ⟨rfl, rfl, rfl, rfl, rfl⟩) (by simp [tenSettings, demoS])
    (by simp [tenSettings, demoS]) (by simp [tenSettings, demoS]) (by simp [tenSettings, demoS]; norm_num)

end Verif.Props
