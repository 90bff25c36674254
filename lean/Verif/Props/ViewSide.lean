import Verif.Lemmas.MeanTemperature
import Verif.Props.TipCurve
import Verif.Props.Locality

/-!
# C128: what the side of the observer and the surface change

The same simulator looked at from the ground and from a satellite, or over another surface.
-/

namespace Verif.Props

open Verif.Py Verif.Spec Verif.Model Verif.Lemmas Real

/-- The same simulator with other settings of `satellite` and `emissivity`. -/
def viewedFrom (I : Inst) (s : Bool) (es : List ℝ) : Inst :=
  ⟨{ I.set with satellite := s, es := es }, I.out⟩

section sides
variable {A : AbsRoutines} {g : Globals} {I : Inst} {s : Bool} {l : List ℝ} {rows rows' : List Row} {r r' : Row}

theorem cellGlobals_same {S S' : Settings} {g g' : Globals} {es es' : ℝ} (hn : S.nl = S'.nl)
    (ha : S.amu = S'.amu) (ho : S.o3n.isSome = S'.o3n.isSome) (hg : g.sel = g'.sel) (hw : g.h2oll = g'.h2oll)
    (h2 : g.o2ll = g'.o2ll) (h3 : g.o3ll = g'.o3ll) :
    (cellGlobals S g es).sel = (cellGlobals S' g' es').sel ∧
    (cellGlobals S g es).h2oll = (cellGlobals S' g' es').h2oll ∧
    (cellGlobals S g es).o2ll = (cellGlobals S' g' es').o2ll ∧
    (cellGlobals S g es).o3ll = (cellGlobals S' g' es').o3ll := by
  by_cases h0 : S.nl = 0
  · unfold cellGlobals
    rw [if_pos h0, if_pos (hn ▸ h0)]
    exact ⟨hg, hw, h2, h3⟩
  · exact cellGlobals_lists h0 (hn ▸ h0) ha ho hg hw h2 h3

/-- Absorption and opacities of two cells. -/
structure SameAir (c c' : Cell) : Prop where
  awet : c'.awet = c.awet
  adry : c'.adry = c.adry
  ptauwet : c'.ptauwet = c.ptauwet
  ptaudry : c'.ptaudry = c.ptaudry
  ptauliq : c'.ptauliq = c.ptauliq
  ptauice : c'.ptauice = c.ptauice
  sptauwet : c'.sptauwet = c.sptauwet
  sptaudry : c'.sptaudry = c.sptaudry
  sptauliq : c'.sptauliq = c.sptauliq
  sptauice : c'.sptauice = c.sptauice

theorem SameAir.taulay {c c' : Cell} (h : SameAir c c') : c'.taulay = c.taulay := by
  unfold Cell.taulay
  rw [h.ptauwet, h.ptaudry, h.ptauliq, h.ptauice]

theorem clearsky_same {g g' : Globals} {e : Val} {j : ℕ} (hs : g.sel = g'.sel) (hw : g.h2oll = g'.h2oll)
    (ho : g.o2ll = g'.o2ll) (h3 : g.o3ll = g'.o3ll) :
    clearsky A g I.set e (I.set.frq j) = clearsky A g' (viewedFrom I s l).set e ((viewedFrom I s l).set.frq j) := by
  unfold clearsky
  congr 1
  funext i
  exact clearLevel_same hs hw ho h3 rfl

theorem same_air (h : (execute A g I).1 = .ok rows) (h' : (execute A g (viewedFrom I s l)).1 = .ok rows') {j k : ℕ}
    (hj : j < I.set.nf) (hk : k < I.set.nang) :
    SameAir ((execute A g I).2.out.cell j k) ((execute A g (viewedFrom I s l)).2.out.cell j k) := by
  obtain ⟨g1, e, rho, l1, v1, -, hc⟩ := (execute_ok h).ex
  obtain ⟨g1', e', rho', l1', v1', -, hc'⟩ := (execute_ok h').ex
  rw [l1] at l1'
  cases l1'
  have v2 : vapor I.set.tk I.set.rh I.set.ice = .ok (e', rho') := v1'
  rw [v1] at v2
  cases v2
  obtain ⟨es, -, q2⟩ := (hc k hk).2 j hj
  obtain ⟨es', -, q2'⟩ := (hc' k hk).2 j hj
  have c := cellStep_ok q2
  have c' := cellStep_ok q2'
  obtain ⟨s1, s2, s3, s4⟩ := cellGlobals_same (S := I.set) (S' := (viewedFrom I s l).set)
    (g := { g1 with fromSat := I.set.satellite }) (g' := { g1 with fromSat := (viewedFrom I s l).set.satellite }) (es := es)
    (es' := es') rfl rfl rfl rfl rfl rfl rfl
  obtain ⟨a, a1, a2, a3, a4, a5⟩ := c.clear
  obtain ⟨a', a1', a2', a3', a4', a5'⟩ := c'.clear
  have ea := clearsky_same (A := A) (I := I) (s := s) (l := l) (e := e) (j := j) s1 s2 s3 s4
  rw [a1, a1'] at ea
  cases ea
  have e1 := Except.ok.inj (a4.symm.trans a4')
  have e2 := Except.ok.inj (a5.symm.trans a5')
  rw [Prod.mk.injEq] at e1 e2
  have key : ((execute A g (viewedFrom I s l)).2.out.cell j k).ptauliq = ((execute A g I).2.out.cell j k).ptauliq ∧
      ((execute A g (viewedFrom I s l)).2.out.cell j k).ptauice = ((execute A g I).2.out.cell j k).ptauice ∧
      ((execute A g (viewedFrom I s l)).2.out.cell j k).sptauliq = ((execute A g I).2.out.cell j k).sptauliq ∧
      ((execute A g (viewedFrom I s l)).2.out.cell j k).sptauice = ((execute A g I).2.out.cell j k).sptauice := by
    cases hcl : I.set.cloudy
    · have t := c.stale hcl
      have t' := c'.stale hcl
      exact ⟨t'.ptauliq.symm.trans t.ptauliq, t'.ptauice.symm.trans t.ptauice, t'.sptauliq.symm.trans t.sptauliq,
        t'.sptauice.symm.trans t.sptauice⟩
    · obtain ⟨dl, di, b, b1, b2, b3, b4⟩ := c.cloud hcl
      obtain ⟨dl', di', b', b1', b2', b3', b4'⟩ := c'.cloud hcl
      have b1s : I.set.dens = some (dl', di') := b1'
      rw [b1] at b1s
      cases b1s
      rw [← s1] at b2'
      have := Except.ok.inj (b2.symm.trans b2')
      subst this
      have f1 := Except.ok.inj (b3.symm.trans b3')
      have f2 := Except.ok.inj (b4.symm.trans b4')
      rw [Prod.mk.injEq] at f1 f2
      exact ⟨f1.2.symm, f2.2.symm, f1.1.symm, f2.1.symm⟩
  exact ⟨a2'.trans a2.symm, a3'.trans a3.symm, e1.2.symm, e2.2.symm, key.1, key.2.1, e1.1.symm, e2.1.symm, key.2.2.1,
    key.2.2.2⟩

/-- **C128.** Stored absorption and opacity columns depend neither on the side of the observer nor on the emissivity; any geometry, clear or
cloudy, whatever the object has been used for. -/
theorem C128_opacity (h : (execute A g I).1 = .ok rows) (h' : (execute A g (viewedFrom I s l)).1 = .ok rows') {j k : ℕ}
    (hj : j < I.set.nf) (hk : k < I.set.nang) (hr : rows[k * I.set.nf + j]? = some r)
    (hr' : rows'[k * I.set.nf + j]? = some r') :
    r'.tauwet = r.tauwet ∧ r'.taudry = r.taudry ∧ r'.tauliq = r.tauliq ∧ r'.tauice = r.tauice ∧
      ((execute A g (viewedFrom I s l)).2.out.cell j k).awet = ((execute A g I).2.out.cell j k).awet ∧
      ((execute A g (viewedFrom I s l)).2.out.cell j k).adry = ((execute A g I).2.out.cell j k).adry := by
  obtain rfl := row_of h hj hk hr
  obtain rfl := row_of (I := viewedFrom I s l) h' hj hk hr'
  have c := same_air h h' hj hk
  exact ⟨c.sptauwet, c.sptaudry, c.sptauliq, c.sptauice, c.awet, c.adry⟩

/-- **C128.** From the ground the emissivity changes nothing: the whole table is the same. -/
theorem C128_ground (hg : I.set.satellite = false) (h : (execute A g I).1 = .ok rows)
    (h' : (execute A g (viewedFrom I false l)).1 = .ok rows') : rows' = rows := by
  obtain ⟨g1, e, rho, l1, v1, hrow, hc⟩ := (execute_ok h).ex
  obtain ⟨g1', e', rho', l1', v1', hrow', hc'⟩ := (execute_ok h').ex
  rw [l1] at l1'
  cases l1'
  have v2 : vapor I.set.tk I.set.rh I.set.ice = .ok (e', rho') := v1'
  rw [v1] at v2
  cases v2
  rw [hrow, hrow']
  unfold table
  refine List.flatMap_congr fun k hk => List.map_congr_left fun j hj => ?_
  have hk : k < I.set.nang := List.mem_range.1 hk
  have hj : j < I.set.nf := List.mem_range.1 hj
  obtain ⟨es, -, q2⟩ := (hc k hk).2 j hj
  obtain ⟨es', -, q2'⟩ := (hc' k hk).2 j hj
  obtain ⟨s1, s2, s3, s4⟩ := cellGlobals_same (S := I.set) (S' := (viewedFrom I false l).set)
    (g := { g1 with fromSat := I.set.satellite }) (g' := { g1 with fromSat := (viewedFrom I false l).set.satellite })
    (es := es) (es' := es') rfl rfl rfl rfl rfl rfl rfl
  have key : cellStep A I.set e (pathOf I.set (fun i => (refractivity1 (I.set.p i) (I.set.tk i) (e i)).2.2) k) j
      (cellGlobals I.set { g1 with fromSat := I.set.satellite } es) (I.out.cell j k) =
    cellStep A (viewedFrom I false l).set e
      (pathOf I.set (fun i => (refractivity1 (I.set.p i) (I.set.tk i) (e i)).2.2) k) j
      (cellGlobals (viewedFrom I false l).set { g1 with fromSat := (viewedFrom I false l).set.satellite } es')
      (I.out.cell j k) := by
    unfold cellStep
    rw [clearsky_same (I := I) (s := false) (l := l) s1 s2 s3 s4, s1]
    have hrad : ∀ c, cellRadiance (cellGlobals I.set { g1 with fromSat := I.set.satellite } es) I.set (I.set.frq j) c =
        cellRadiance (cellGlobals (viewedFrom I false l).set
          { g1 with fromSat := (viewedFrom I false l).set.satellite } es') (viewedFrom I false l).set
          ((viewedFrom I false l).set.frq j) c := fun c => by
      unfold cellRadiance
      rw [cellGlobals_fromSat, cellGlobals_fromSat]
      simp only [hg, viewedFrom]
      rfl
    simp only [hrad]
    rfl
  rw [← Except.ok.inj (q2.symm.trans (key.trans q2'))]
  rfl

/-- **C128.** From a satellite, opacity between 0 and 125 Np: another emissivity leaves the mean radiating temperature
alone and changes the radiance by the difference of the emissivities times the radiance of the lowest level, attenuated. -/
theorem C128_emissivity (hsat : I.set.satellite = true) (h : (execute A g I).1 = .ok rows)
    (h' : (execute A g (viewedFrom I true l)).1 = .ok rows') {j k : ℕ} (hj : j < I.set.nf) (hk : k < I.set.nang)
    (hp : GoodPath I.set k) (hst : I.set.cloudy = true ∨ NoClouds I.out) (hr : rows[k * I.set.nf + j]? = some r)
    (hr' : rows'[k * I.set.nf + j]? = some r') (hf : 0 < I.set.frq j) (hT : ∀ i < I.set.nl, 0 < I.set.tk i)
    {τ es es' : ℝ} (hes : I.set.es[j]? = some es) (he0 : 0 ≤ es) (hes' : l[j]? = some es') (he0' : 0 ≤ es')
    (hτ : Row.Opacity r τ) (h0 : 0 < τ) (h1 : τ < 125) :
    ∃ Tb Tb', r.tbtotal = some Tb ∧ r'.tbtotal = some Tb' ∧ r'.tmr = r.tmr ∧
      planckLaw (hvkOf (I.set.frq j)) Tb' - planckLaw (hvkOf (I.set.frq j)) Tb =
        (es' - es) * planckLaw (hvkOf (I.set.frq j)) (I.set.tk 0) * exp (-τ) := by
  obtain ⟨o1, o2, o3, o4, -⟩ := C128_opacity h h' hj hk hr hr'
  have hτ' : Row.Opacity r' τ := by
    obtain ⟨a, b, c, d, q1, q2, q3, q4, q5⟩ := hτ
    exact ⟨a, b, c, d, o1.trans q1, o2.trans q2, o3.trans q3, o4.trans q4, q5⟩
  have hn : 0 < I.set.nl := by
    obtain ⟨t, tw, td, tl, ti, es, out, -, -, -, -, -, -, -, -, c8, -⟩ := row_columns h hj hk hp hst hr
    by_contra hn
    rw [planck_eq_none_iff.2 (by omega)] at c8; cases c8
  obtain ⟨Tb, Tm, a1, a2, -, -, a3⟩ := C125_emissivity h hj hk hp hst hr hsat hf hT hes he0 hτ h0 h1
  obtain ⟨Tb', Tm', b1, b2, -, -, b3⟩ := C125_emissivity (I := viewedFrom I true l) h' hj hk hp hst hr' rfl hf hT hes' he0' hτ'
    h0 h1
  have htm : r'.tmr = r.tmr := by
    obtain rfl := row_of h hj hk hr
    obtain rfl := row_of (I := viewedFrom I true l) h' hj hk hr'
    have sa := same_air h h' hj hk
    obtain ⟨t, tw, td, tl, ti, es1, out, -, -, -, -, -, -, c7, -, c8, -, c10⟩ := row_columns h hj hk hp hst hr
    obtain ⟨t', tw', td', tl', ti', es1', out', -, -, -, -, -, -, c7', -, c8', -, c10'⟩ :=
      row_columns (I := viewedFrom I true l) h' hj hk hp hst hr'
    have := sa.taulay
    rw [c7, c7'] at this
    cases this
    rw [c10, c10']
    rw [hsat] at c8
    obtain ⟨-, e1, -, -, -, e5, e6, -⟩ := planck_sat c8
    obtain ⟨-, f1, -, -, -, f5, f6, -⟩ := planck_sat c8'
    rw [e1, f1]
    rcases lt_or_ge (opacityBelow t (I.set.nl - 1)) 125 with hop | hop
    · rw [(e5 hop).2, (f5 hop).2]; rfl
    · rw [(e6 hop).2, (f6 hop).2]; rfl
  refine ⟨Tb, Tb', a1, b1, htm, ?_⟩
  rw [a2, b2] at htm
  cases htm
  have hS0 := tk2b_pos (hvkOf_pos hf) (hT 0 hn)
  rw [tk2b_planckLaw] at hS0
  have hq := exp_pos (-τ)
  have hne : planckLaw (hvkOf (I.set.frq j)) (I.set.tk 0) * exp (-τ) ≠ 0 := by positivity
  rw [eq_div_iff hne] at a3
  have b4 : es' = (planckLaw (hvkOf (I.set.frq j)) Tb' - planckLaw (hvkOf (I.set.frq j)) Tm * (1 - exp (-τ))) /
      (planckLaw (hvkOf (I.set.frq j)) (I.set.tk 0) * exp (-τ)) := b3
  rw [eq_div_iff hne] at b4
  linarith

/-- **C128.** Temperature not rising with height, opacity between 0 and 125 Np: the mean radiating temperature of the same
air seen from the satellite is not higher than seen from the ground. -/
theorem C128_sides (hg : I.set.satellite = false) (h : (execute A g I).1 = .ok rows)
    (h' : (execute A g (viewedFrom I true l)).1 = .ok rows') {j k : ℕ} (hj : j < I.set.nf) (hk : k < I.set.nang)
    (hp : GoodPath I.set k) (hst : I.set.cloudy = true ∨ NoClouds I.out) (hr : rows[k * I.set.nf + j]? = some r)
    (hr' : rows'[k * I.set.nf + j]? = some r') (hf : 0 < I.set.frq j) (hT : Cooling I.set.nl I.set.tk) {τ : ℝ}
    (hτ : Row.Opacity r τ) (h0 : 0 < τ) (h1 : τ < 125) :
    ∃ T T', r.tmr = some T ∧ r'.tmr = some T' ∧ T' ≤ T := by
  obtain ⟨t, tw, td, tl, ti, es, out, c1, c2, c3, c4, c5, c6, c7, -, c8, -, c10⟩ := row_columns h hj hk hp hst hr
  obtain ⟨t', tw', td', tl', ti', es', out', -, -, -, -, -, -, c7', -, c8', -, c10'⟩ :=
    row_columns (I := viewedFrom I true l) h' hj hk hp hst hr'
  have := (same_air h h' hj hk).taulay
  rw [c7, c7'] at this
  cases this
  obtain ⟨_, _, _, _, d1, d2, d3, d4, rfl⟩ := hτ
  rw [c1] at d1; rw [c2] at d2; rw [c3] at d3; rw [c4] at d4
  cases d1; cases d2; cases d3; cases d4
  rw [← c5] at h0 h1
  have hn : 0 < I.set.nl := by
    by_contra hn
    rw [planck_eq_none_iff.2 (by omega)] at c8; cases c8
  have c9' : planck true es' (I.set.frq j) I.set.nl I.set.tk t = some out' := c8'
  rw [hg] at c8
  obtain ⟨m, hm, hTm, -⟩ := coldest hn hT.1
  have hx := hvkOf_pos hf
  obtain ⟨-, e1, T, e2, e3, -⟩ := mean_radiance hf hm hTm c6 h0 h1 c8
  obtain ⟨-, f1, T', f2, f3, -⟩ := mean_radiance hf hm hTm c6 h0 h1 c9'
  refine ⟨T, T', ?_, ?_, ?_⟩
  · rw [c10, e3, e1, ← tk2b_planckLaw]
    exact bright_tk2b hx (hm.trans_le e2)
  · rw [c10', f3, f1, ← tk2b_planckLaw]
    exact bright_tk2b hx (hm.trans_le f2)
  have hB : ∀ i, i + 1 ≤ I.set.nl - 1 → tk2b (hvkOf (I.set.frq j)) (I.set.tk (i + 1)) ≤ tk2b (hvkOf (I.set.frq j)) (I.set.tk i) :=
    fun i hi => cooling_radiance hf hT i (by omega)
  have pT : 0 < 1 - transDown t (I.set.nl - 1) := by
    have : transDown t (I.set.nl - 1) < 1 := by unfold transDown; rw [exp_lt_one_iff]; linarith
    linarith
  obtain ⟨-, -, -, -, -, g5, -⟩ := planck_ground c8
  obtain ⟨-, -, -, -, -, g5', -⟩ := planck_sat c9'
  have q : out.boftmr = some (skyRadiance (fun i => tk2b (hvkOf (I.set.frq j)) (I.set.tk i)) t (I.set.nl - 1) /
      (1 - transDown t (I.set.nl - 1))) := by
    rw [(g5 h1).2]; exact npDiv_of_ne pT.ne'
  have q' : out'.boftmr = some (upRadiance (fun i => tk2b (hvkOf (I.set.frq j)) (I.set.tk i)) t (I.set.nl - 1) 0 /
      (1 - transDown t (I.set.nl - 1))) := by
    rw [(g5' h1).2]; exact npDiv_of_ne pT.ne'
  rw [e3, Option.some.injEq] at q
  rw [f3, Option.some.injEq] at q'
  have key := up_le_sky (B := fun i => tk2b (hvkOf (I.set.frq j)) (I.set.tk i)) (n := I.set.nl - 1) (fun i _ _ => c6 i) hB
  rw [← div_le_div_iff_of_pos_right pT, ← q, ← q', ← tk2b_planckLaw, ← tk2b_planckLaw] at key
  by_contra hlt
  push Not at hlt
  linarith [tk2b_strictMono hx (hm.trans_le e2) hlt]

/-- The clear scene seen from either side, with any two emissivities. -/
theorem tip_viewed (sat s : Bool) (a b : ℝ) :
    ∃ rows, (execute demoA demoG (viewedFrom ⟨tipS sat, Store.zero⟩ s [a, b])).1 = .ok rows :=
  demo_runs { tipS sat with satellite := s, es := [a, b] } Store.zero rfl (show 1 ≤ 3 by decide) (by simp [tipS, demoS])
    (by simp [CloudInput, tipS]) rfl demo_angles

example (a b : ℝ) : ∃ rows, (execute demoA demoG ⟨tipS false, Store.zero⟩).1 = .ok rows ∧
    (execute demoA demoG (viewedFrom ⟨tipS false, Store.zero⟩ false [a, b])).1 = .ok rows := by
  obtain ⟨rows, h⟩ := tip_runs false
  obtain ⟨rows', h'⟩ := tip_viewed false false a b
  obtain rfl := C128_ground rfl h h'
  exact ⟨_, h, h'⟩

/-- Emissivities 1 and 1/2 of the scene seen from above at 30 degrees. -/
example : ∃ rows rows' r r' τ Tb Tb', (execute demoA demoG ⟨tipS true, Store.zero⟩).1 = .ok rows ∧
    (execute demoA demoG (viewedFrom ⟨tipS true, Store.zero⟩ true [0.5, 0.5])).1 = .ok rows' ∧ rows[2]? = some r ∧
    rows'[2]? = some r' ∧ Row.Opacity r τ ∧ Row.Opacity r' τ ∧ r.tbtotal = some Tb ∧ r'.tbtotal = some Tb' ∧
    planckLaw (hvkOf 22) Tb - planckLaw (hvkOf 22) Tb' = 0.5 * planckLaw (hvkOf 22) 300 * exp (-τ) := by
  obtain ⟨rows, h⟩ := tip_runs true
  obtain ⟨rows', h'⟩ := tip_viewed true true 0.5 0.5
  obtain ⟨r, τ, h1, h2, h3, h4⟩ := tip_rows true (k := 1) (by decide) h
  obtain ⟨r', -, h1', -⟩ := (C29_rows h').2 1 (show 1 < 2 by decide) 0 (show 0 < 2 by decide)
  have ha := demo_angles 1 (by decide)
  obtain ⟨o1, o2, o3, o4, -⟩ := C128_opacity (j := 0) (k := 1) h h' (show 0 < 2 by decide) (show 1 < 2 by decide) h1 h1'
  obtain ⟨Tb, Tb', a1, a2, -, a3⟩ := C128_emissivity (j := 0) (k := 1) (es := 1) (es' := 0.5) rfl h h' (show 0 < 2 by decide)
    (show 1 < 2 by decide) (goodPath_plane rfl ha.1 ha.2 fun i _ => by simp [tipS, demoS])
    (Or.inr fun _ _ => ⟨rfl, rfl, rfl, rfl, rfl⟩) h1 h1' (by norm_num [tipS, demoS])
    (fun i hi => (tip_cooling true).1 i hi) (by simp [tipS, demoS]) zero_le_one rfl (by norm_num) h2 h3 h4
  refine ⟨rows, rows', r, r', τ, Tb, Tb', h, h', h1, h1', h2, ?_, a1, a2, ?_⟩
  · obtain ⟨a, b, c, d, q1, q2, q3, q4, q5⟩ := h2
    exact ⟨a, b, c, d, o1.trans q1, o2.trans q2, o3.trans q3, o4.trans q4, q5⟩
  · simp only [tipS, demoS] at a3
    norm_num at a3 ⊢
    linarith

/-- The scene at 30 degrees from both sides. -/
example : ∃ rows rows' r r' T T', (execute demoA demoG ⟨tipS false, Store.zero⟩).1 = .ok rows ∧
    (execute demoA demoG (viewedFrom ⟨tipS false, Store.zero⟩ true [1, 1])).1 = .ok rows' ∧ rows[2]? = some r ∧
    rows'[2]? = some r' ∧ r.tmr = some T ∧ r'.tmr = some T' ∧ T' ≤ T := by
  obtain ⟨rows, h⟩ := tip_runs false
  obtain ⟨rows', h'⟩ := tip_viewed false true 1 1
  obtain ⟨r, τ, h1, h2, h3, h4⟩ := tip_rows false (k := 1) (by decide) h
  obtain ⟨r', -, h1', -⟩ := (C29_rows h').2 1 (show 1 < 2 by decide) 0 (show 0 < 2 by decide)
  have ha := demo_angles 1 (by decide)
  obtain ⟨T, T', a1, a2, a3⟩ := C128_sides (j := 0) (k := 1) rfl h h' (show 0 < 2 by decide) (show 1 < 2 by decide)
    (goodPath_plane rfl ha.1 ha.2 fun i _ => by simp [tipS, demoS]) (Or.inr fun _ _ => ⟨rfl, rfl, rfl, rfl, rfl⟩) h1 h1'
    (by norm_num [tipS, demoS]) (tip_cooling false) h2 h3 h4
  exact ⟨rows, rows', r, r', T, T', h, h', h1, h1', a1, a2, a3⟩

end sides

end Verif.Props
