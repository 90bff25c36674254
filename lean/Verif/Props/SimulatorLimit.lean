import Verif.Props.Discretisation
import Verif.Props.Cloud
import Verif.Props.EndToEnd

/-!
# C95: the simulator with more and more levels

An atmosphere given by pressure, temperature and relative humidity as functions of height, read off at levels and handed
to the simulator.  When levels are added the simulated brightness temperature converges to that of the radiative
transfer equation for the given functions.
-/

namespace Verif.Props

open Verif.Model Verif.Py Verif.Spec Verif.Lemmas Real Set

/-- An atmosphere over the heights from 0 to `top` (km). -/
structure Column where
  top : ℝ
  p : ℝ → ℝ
  tk : ℝ → ℝ
  rh : ℝ → ℝ

/-- Absorption coefficients of water vapour and of dry air at height `u`, in Np/km, according to the selected models. -/
noncomputable def Column.air (C : Column) (A : AbsRoutines) (g : Globals) (frq u : ℝ) : Except PyErr (ℝ × ℝ) :=
  clearLevel A g none (C.p u) (C.tk u) (C.rh u * eswat (C.tk u)) frq 0

/-- Settings read off from an atmosphere at the levels `h 0 … h n`: clear sky, no refraction, no ozone, no ice, no
perturbed spectroscopy. -/
structure ReadOff (C : Column) (n : ℕ) (h : ℕ → ℝ) (S : Settings) : Prop where
  levels : Levels n C.top h
  nl : S.nl = n + 1
  z : ∀ i ≤ n, S.z i = h i
  p : ∀ i ≤ n, S.p i = C.p (h i)
  tk : ∀ i ≤ n, S.tk i = C.tk (h i)
  rh : ∀ i ≤ n, S.rh i = C.rh (h i)
  ozone : S.o3n = none
  amu : S.amu = none
  rays : S.rayTracing = false
  ice : S.ice = false
  cloudy : S.cloudy = false

/-- The selected models give absorption coefficients `w` (water vapour) and `d` (dry air), continuous and not negative
over the heights of the atmosphere; the temperature is continuous and nowhere below `m`. -/
structure Continuous' (C : Column) (A : AbsRoutines) (g : Globals) (frq m : ℝ) (w d : ℝ → ℝ) : Prop where
  top : 0 ≤ C.top
  air : ∀ u ∈ Icc 0 C.top, C.air A g frq u = .ok (w u, d u)
  wet : ContinuousOn w (Icc 0 C.top)
  dry : ContinuousOn d (Icc 0 C.top)
  wet0 : ∀ u ∈ Icc 0 C.top, 0 ≤ w u
  dry0 : ∀ u ∈ Icc 0 C.top, 0 ≤ d u
  tk : ContinuousOn C.tk (Icc 0 C.top)
  low : 0 < m
  tk0 : ∀ u ∈ Icc 0 C.top, m ≤ C.tk u

variable {A : AbsRoutines} {g g1 : Globals} {I : Inst} {rows : List Row} {C : Column} {n j k : ℕ} {h : ℕ → ℝ}
  {frq m θ ε es : ℝ} {w d : ℝ → ℝ}

/-- Along the slant path at elevation `θ` degrees: a function of height as a function of distance. -/
noncomputable def slant (θ : ℝ) (f : ℝ → ℝ) (s : ℝ) : ℝ := f (s * sin (θ * π / 180))

/-- The two absorbers along the slant path. -/
noncomputable def slantAir (θ : ℝ) (w d : ℝ → ℝ) : Fin 2 → ℝ → ℝ := ![slant θ w, slant θ d]

theorem slant_continuousOn {f : ℝ → ℝ} {H : ℝ} (hs : 0 < sin (θ * π / 180)) (hf : ContinuousOn f (Icc 0 H)) :
    ContinuousOn (slant θ f) (Icc 0 (H / sin (θ * π / 180))) := by
  refine hf.comp (by fun_prop) fun u hu => ⟨mul_nonneg hu.1 hs.le, ?_⟩
  have := mul_le_mul_of_nonneg_right hu.2 hs.le
  rwa [div_mul_cancel₀ _ hs.ne'] at this

theorem slant_mem {H u : ℝ} (hs : 0 < sin (θ * π / 180)) (hu : u ∈ Icc 0 (H / sin (θ * π / 180))) :
    u * sin (θ * π / 180) ∈ Icc 0 H := by
  refine ⟨mul_nonneg hu.1 hs.le, ?_⟩
  have := mul_le_mul_of_nonneg_right hu.2 hs.le
  rwa [div_mul_cancel₀ _ hs.ne'] at this

theorem slant_absorbers (hs : 0 < sin (θ * π / 180)) (hC : Continuous' C A g frq m w d) :
    Absorbers (C.top / sin (θ * π / 180)) (slantAir θ w d) where
  continuous c := by
    fin_cases c
    · exact slant_continuousOn hs hC.wet
    · exact slant_continuousOn hs hC.dry
  nonneg c u hu := by
    fin_cases c
    · exact hC.wet0 _ (slant_mem hs hu)
    · exact hC.dry0 _ (slant_mem hs hu)

/-- Only temperatures and opacities of the levels count. -/
theorem planck_total_congr {s : Bool} {nl : ℕ} {t t' τ τ' : ℕ → ℝ} {out out' : PlanckOut}
    (ht : ∀ i < nl, t i = t' i) (hτ : ∀ i, 1 ≤ i → i < nl → τ i = τ' i) (h : planck s es frq nl t τ = some out)
    (h' : planck s es frq nl t' τ' = some out') : out.boftotl = out'.boftotl ∧ out.hvk = out'.hvk := by
  cases s
  · obtain ⟨hn, e1, -, -, -, e5, e6, e7⟩ := planck_ground h
    obtain ⟨-, f1, -, -, -, f5, f6, f7⟩ := planck_ground h'
    have ho : opacityBelow τ (nl - 1) = opacityBelow τ' (nl - 1) :=
      opacityBelow_congr (n := nl - 1) (fun i h1 h2 => hτ i h1 (by omega)) le_rfl
    have hr : skyRadiance (fun i => tk2b (hvkOf frq) (t i)) τ (nl - 1) =
        skyRadiance (fun i => tk2b (hvkOf frq) (t' i)) τ' (nl - 1) :=
      sky_congr (fun i hi => by rw [ht i (by omega)]) fun i h1 h2 => hτ i h1 (by omega)
    refine ⟨?_, by rw [e1, f1]⟩
    rw [e7, f7, hr]
    congr 1
    rcases lt_or_ge (opacityBelow τ (nl - 1)) 125 with hlt | hge
    · rw [(e5 hlt).1, (f5 (ho ▸ hlt)).1, ho]
    · rw [(e6 hge).1, (f6 (ho ▸ hge)).1]
  · obtain ⟨hn, e1, -, -, -, e5, e6, e7⟩ := planck_sat h
    obtain ⟨-, f1, -, -, -, f5, f6, f7⟩ := planck_sat h'
    have ho : opacityBelow τ (nl - 1) = opacityBelow τ' (nl - 1) :=
      opacityBelow_congr (n := nl - 1) (fun i h1 h2 => hτ i h1 (by omega)) le_rfl
    have hr : upRadiance (fun i => tk2b (hvkOf frq) (t i)) τ (nl - 1) 0 =
        upRadiance (fun i => tk2b (hvkOf frq) (t' i)) τ' (nl - 1) 0 :=
      up_congr (fun i hi => by rw [ht i (by omega)]) fun i h1 h2 => hτ i h1 (by omega)
    refine ⟨?_, by rw [e1, f1]⟩
    rw [e7, f7, hr]
    congr 1
    rcases lt_or_ge (opacityBelow τ (nl - 1)) 125 with hlt | hge
    · rw [(e5 hlt).1, (f5 (ho ▸ hlt)).1, ho, ht 0 hn]
    · rw [(e6 hge).1, (f6 (ho ▸ hge)).1]

/-- Line lists and selections during a run without perturbed spectroscopy are those after loading. -/
theorem clearLevel_cell {S : Settings} (hS : S.amu = none) (b : Bool) (es' p t e f : ℝ) (i : ℕ) :
    clearLevel A (cellGlobals S { g1 with fromSat := b } es') none p t e f i = clearLevel A g1 none p t e f 0 := by
  have h1 : (cellGlobals S { g1 with fromSat := b } es').sel = g1.sel ∧
      (cellGlobals S { g1 with fromSat := b } es').h2oll = g1.h2oll ∧
      (cellGlobals S { g1 with fromSat := b } es').o2ll = g1.o2ll := by
    unfold cellGlobals amuApply
    rw [hS]
    split_ifs <;> exact ⟨rfl, rfl, rfl⟩
  have ho (g : Globals) (i : ℕ) : o3Term A g none t p f i = .ok 0 := by
    unfold o3Term ozoneActive; simp
  unfold clearLevel
  simp only [h1.1, h1.2.1, h1.2.2, ho]

/-- `exponential_integration` looks at the values of the levels only. -/
theorem expInt_congr {z : Bool} {nl : ℕ} {x x' ds ds' : ℕ → ℝ} {factor : ℝ} (hx : ∀ i < nl, x i = x' i)
    (hx0 : ∀ i < nl, 0 ≤ x i) (hd : ∀ i, 1 ≤ i → i < nl → ds i = ds' i) (hn : 1 ≤ nl) :
    expInt z nl x ds 1 nl factor = expInt z nl x' ds' 1 nl factor := by
  have hv : ∀ i, 1 ≤ i → i < nl → layerValue z (prevEntry x nl i) (x i) = some (layerVal z x nl i) := fun i h1 h2 =>
    layerVal_spec (by unfold prevEntry; rw [if_neg (by omega)]; exact hx0 _ (by omega)) (hx0 i h2)
  have hp : ∀ i, 1 ≤ i → i < nl → prevEntry x nl i = prevEntry x' nl i := fun i h1 h2 => by
    unfold prevEntry; rw [if_neg (by omega), if_neg (by omega), hx _ (by omega)]
  have hv' : ∀ i, 1 ≤ i → i < nl → layerValue z (prevEntry x' nl i) (x' i) = some (layerVal z x nl i) :=
    fun i h1 h2 => by rw [← hp i h1 h2, ← hx i h2]; exact hv i h1 h2
  rw [expInt_ok hn hv, expInt_ok hn hv']
  congr 2
  · congr 1
    exact Finset.sum_congr rfl fun i hi => by rw [Finset.mem_Ico] at hi; rw [hd i hi.1 hi.2]
  · funext i
    split_ifs with hi
    · rw [hd i hi.1 hi.2]
    · rfl

/-- One cell of a run: the layers are samples of the atmosphere along the slant path. -/
theorem run_sampled (hl : initLineList A g = .ok g1) (hC : Continuous' C A g1 frq m w d)
    (hR : ReadOff C n h I.set) (hs : 0 < sin (θ * π / 180)) (ho : NoClouds I.out) (hj : j < I.set.nf)
    (hk : k < I.set.nang) (hfrq : I.set.frq j = frq) (hang : I.set.angles k = θ) (hes : I.set.es[j]? = some es)
    (hrun : (execute A g I).1 = .ok rows) :
    ∃ ds x out r, Sampled n (C.top / sin (θ * π / 180)) (fun i => h i / sin (θ * π / 180)) ds (slantAir θ w d) x ∧
      planck I.set.satellite es frq (n + 1) (fun i => slant θ C.tk (h i / sin (θ * π / 180))) (fun i => ∑ c, x c i) =
        some out ∧ rows[k * I.set.nf + j]? = some r ∧ r.tbtotal = bright out.hvk out.boftotl := by
  obtain ⟨g1', e, rho, hl', hv, hrow, hc⟩ := (execute_ok hrun).ex
  rw [hl] at hl'
  cases hl'
  obtain ⟨es', hes', hstep⟩ := (hc k hk).2 j hj
  rw [hes] at hes'
  cases hes'
  have hs' : sin (I.set.angles k * π / 180) ≠ 0 := by rw [hang]; exact hs.ne'
  rw [pathOf_plane hR.rays hs'] at hstep
  have hok := cellStep_ok hstep
  obtain ⟨a, ha, -, -, hw, hd⟩ := hok.clear
  have he : ∀ i ≤ n, e i = C.rh (h i) * eswat (C.tk (h i)) := fun i hi => by
    unfold vapor at hv
    rw [hR.ice] at hv
    simp only [Bool.false_eq_true, if_false, Except.ok.injEq, Prod.mk.injEq] at hv
    rw [← hv.1]
    simp only
    rw [hR.rh i hi, hR.tk i hi, vaporExponent_eswat]
  have hav : ∀ i ≤ n, a i = (w (h i), d (h i)) := fun i hi => by
    unfold clearsky at ha
    have := (tabulateE_ok ha).1 i (by rw [hR.nl]; omega)
    rw [hR.ozone, clearLevel_cell hR.amu, hR.p i hi, hR.tk i hi, he i hi, hfrq] at this
    have hair := hC.air (h i) (hR.levels.mem hi)
    unfold Column.air at hair
    rw [hair] at this
    exact (Except.ok.inj this).symm
  have hsl (f : ℝ → ℝ) (i : ℕ) : slant θ f (h i / sin (θ * π / 180)) = f (h i) := by
    unfold slant; rw [div_mul_cancel₀ _ hs.ne']
  have hlev : Levels n (C.top / sin (θ * π / 180)) fun i => h i / sin (θ * π / 180) :=
    ⟨by simp [hR.levels.bottom], by simp only [hR.levels.top], fun i hi =>
      div_le_div_of_nonneg_right (hR.levels.order i hi) hs.le⟩
  generalize hds : (fun i => if i = 0 then (0:ℝ) else
    (I.set.z i - I.set.z (i - 1)) * (1 / sin (I.set.angles k * π / 180))) = ds at *
  have hlen : Lengths n (fun i => h i / sin (θ * π / 180)) ds := fun i h1 h2 => by
    rw [← hds]
    simp only
    rw [if_neg (by omega), hang, hR.z i h2, hR.z (i - 1) (by omega)]
    ring
  have split {f : ℕ → ℝ} {o : Option ℝ} {y : Option Val} (hi : integ true I.set.nl f (.ok ds) 1 1 = .ok (o, y)) :
      ∃ tot xs, expInt true (n + 1) f ds 1 (n + 1) 1 = .ok (tot, xs) ∧ y = some xs := by
    simp only [integ, hR.nl] at hi
    cases hx : expInt true (n + 1) f ds 1 (n + 1) 1 with
    | error e => rw [hx] at hi; cases hi
    | ok r => rw [hx] at hi; cases hi; exact ⟨r.1, r.2, rfl, rfl⟩
  obtain ⟨totw, xw, ew, pw⟩ := split hw
  obtain ⟨totd, xd, ed, pd⟩ := split hd
  have read {f : ℝ → ℝ} {y : ℕ → ℝ} (hy : ∀ i ≤ n, y i = f (h i)) (hf : ∀ u ∈ Icc 0 C.top, 0 ≤ f u) :
      expInt true (n + 1) (fun i => slant θ f (h i / sin (θ * π / 180))) ds 1 (n + 1) 1 =
        expInt true (n + 1) y ds 1 (n + 1) 1 :=
    expInt_congr (fun i hi => by rw [hsl, hy i (by omega)]) (fun i hi => by
      rw [hsl]; exact hf _ (hR.levels.mem (by omega))) (fun _ _ _ => rfl) (by omega)
  have hst := hok.stale hR.cloudy
  have hz := ho j k
  have ht : ((execute A g I).2.out.cell j k).taulay = some fun i => xw i + xd i + 0 + 0 := by
    simp only [Cell.taulay, pw, pd, ← hst.ptauliq, ← hst.ptauice, hz.ptauliq, hz.ptauice, Cell.zero]
  obtain ⟨out, hout, hb, -⟩ := hok.rad _ ht
  rw [cellGlobals_emissivity, cellGlobals_fromSat, hfrq, hR.nl] at hout
  obtain ⟨out', hout'⟩ := planck_exists (s := I.set.satellite) (es := es) (frq := frq) (nl := n + 1)
    (t := fun i => slant θ C.tk (h i / sin (θ * π / 180))) (τ := fun i => ∑ c, (![xw, xd] : Fin 2 → ℕ → ℝ) c i)
    (by omega)
  obtain ⟨c1, c2⟩ := planck_total_congr (fun i hi => by rw [hsl, hR.tk i (by omega)])
    (fun i h1 h2 => by rw [Fin.sum_univ_two]; simp) hout hout'
  refine ⟨ds, ![xw, xd], out', ((execute A g I).2.out.cell j k).row (I.set.angles k), ⟨hlev, hlen, fun c => ?_⟩, hout',
    ?_, by rw [← c1, ← c2]; exact hb⟩
  · fin_cases c
    · exact ⟨true, totw, (read (fun i hi => by rw [hav i hi]) hC.wet0).trans ew⟩
    · exact ⟨true, totd, (read (fun i hi => by rw [hav i hi]) hC.dry0).trans ed⟩
  · rw [hrow]
    exact grid_get (fun k j => ((execute A g I).2.out.cell j k).row (I.set.angles k)) _ _ k j hk hj

/-- Opacity of the atmosphere along the slant path. -/
noncomputable def slantOpacity (C : Column) (θ : ℝ) (w d : ℝ → ℝ) : ℝ :=
  pathOpacity (total (slantAir θ w d)) 0 (C.top / sin (θ * π / 180))

/-- **C95.** Looking up: there is one temperature, that of the radiative transfer equation, to which the simulated
brightness temperatures converge when the levels get denser, whatever the levels. -/
theorem C95_ground (hf : 0 < frq) (hθ : 0 < θ ∧ θ < 180) (hl : initLineList A g = .ok g1)
    (hC : Continuous' C A g1 frq 2.728 w d) (hop : slantOpacity C θ w d < 125) :
    ∃ Tb, bright (hvkOf frq) (trueDown frq (total (slantAir θ w d)) (slant θ C.tk) (C.top / sin (θ * π / 180))) = some Tb ∧
      2.728 ≤ Tb ∧ ∀ ε > 0, ∃ δ > 0, ∀ n h I rows j k, ReadOff C n h I.set → FinerThan n h δ →
        I.set.satellite = false → NoClouds I.out → j < I.set.nf → I.set.frq j = frq → k < I.set.nang →
        I.set.angles k = θ → (execute A g I).1 = .ok rows →
        ∃ r Tb', rows[k * I.set.nf + j]? = some r ∧ r.tbtotal = some Tb' ∧ |Tb' - Tb| ≤ ε := by
  have hs := sin_pos_of_angle hθ.1 hθ.2
  have hnn : 0 ≤ C.top / sin (θ * π / 180) := div_nonneg hC.top hs.le
  obtain ⟨Tb, h1, h2, H⟩ := C94_ground_brightness (es := 0) hf hnn (slant_absorbers hs hC)
    (slant_continuousOn hs hC.tk) (fun u hu => hC.tk0 _ (slant_mem hs hu)) hop
  refine ⟨Tb, h1, h2, fun ε hε => ?_⟩
  obtain ⟨δ, hδ, H⟩ := H ε hε
  refine ⟨δ * sin (θ * π / 180), by positivity, fun n h I rows j k hR hfine hsat ho hj hfrq hk hang hrun => ?_⟩
  obtain ⟨_, _, _, -, -, -, hc⟩ := (execute_ok hrun).ex
  obtain ⟨es, hes, -⟩ := (hc k hk).2 j hj
  obtain ⟨ds, x, out, r, hS, hp, hr, hb⟩ := run_sampled hl hC hR hs ho hj hk hfrq hang hes hrun
  rw [hsat] at hp
  obtain ⟨out', hp'⟩ := planck_exists (s := false) (es := 0) (frq := frq) (nl := n + 1)
    (t := fun i => slant θ C.tk (h i / sin (θ * π / 180))) (τ := fun i => ∑ c, x c i) (by omega)
  obtain ⟨Tb', b1, b2⟩ := H n _ ds x out' hS (fun i h1 h2 => by
    have := hfine i h1 h2
    rw [← sub_div, div_le_iff₀ hs]
    exact this) hp'
  refine ⟨r, Tb', hr, ?_, b2⟩
  rw [hb, ← b1]
  have e1 := planck_ground hp
  have e2 := planck_ground hp'
  obtain ⟨-, e1h, -, -, -, e15, e16, e17⟩ := e1
  obtain ⟨-, e2h, -, -, -, e25, e26, e27⟩ := e2
  rw [e1h, e2h, e17, e27]
  congr 2
  rcases lt_or_ge (opacityBelow (fun i => ∑ c, x c i) (n + 1 - 1)) 125 with hlt | hge
  · rw [(e15 hlt).1, (e25 hlt).1]
  · rw [(e16 hge).1, (e26 hge).1]

/-- C95: looking down on a surface of emissivity `es`. -/
theorem C95_satellite (hf : 0 < frq) (hes : 0 < es ∧ es ≤ 1) (hθ : 0 < θ ∧ θ < 180) (hl : initLineList A g = .ok g1)
    (hC : Continuous' C A g1 frq m w d) (hop : slantOpacity C θ w d < 125) :
    ∃ Tb, bright (hvkOf frq) (trueUp es frq (total (slantAir θ w d)) (slant θ C.tk) (C.top / sin (θ * π / 180))) = some Tb ∧
      0 < Tb ∧ ∀ ε > 0, ∃ δ > 0, ∀ n h I rows j k, ReadOff C n h I.set → FinerThan n h δ →
        I.set.satellite = true → I.set.es[j]? = some es → NoClouds I.out → j < I.set.nf → I.set.frq j = frq →
        k < I.set.nang → I.set.angles k = θ → (execute A g I).1 = .ok rows →
        ∃ r Tb', rows[k * I.set.nf + j]? = some r ∧ r.tbtotal = some Tb' ∧ |Tb' - Tb| ≤ ε := by
  have hs := sin_pos_of_angle hθ.1 hθ.2
  have hnn : 0 ≤ C.top / sin (θ * π / 180) := div_nonneg hC.top hs.le
  obtain ⟨Tb, h1, h2, H⟩ := C94_satellite_brightness hf hes hnn (slant_absorbers hs hC)
    (slant_continuousOn hs hC.tk) hC.low (fun u hu => hC.tk0 _ (slant_mem hs hu)) hop
  refine ⟨Tb, h1, h2, fun ε hε => ?_⟩
  obtain ⟨δ, hδ, H⟩ := H ε hε
  refine ⟨δ * sin (θ * π / 180), by positivity, fun n h I rows j k hR hfine hsat hE ho hj hfrq hk hang hrun => ?_⟩
  obtain ⟨ds, x, out, r, hS, hp, hr, hb⟩ := run_sampled hl hC hR hs ho hj hk hfrq hang hE hrun
  rw [hsat] at hp
  obtain ⟨Tb', b1, b2⟩ := H n _ ds x out hS (fun i h1 h2 => by
    have := hfine i h1 h2
    rw [← sub_div, div_le_iff₀ hs]
    exact this) hp
  exact ⟨r, Tb', hr, by rw [hb, b1], b2⟩

end Verif.Props
