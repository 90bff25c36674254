import Verif.Props.RoundedRun
import Verif.Props.Hidden

/-!
# C121: what a view depends on

Two runs that share some levels: the opacity of a layer is a function of the two levels that bound it, and air behind an
opaque stretch changes a brightness temperature by no more than the transmittance of that stretch allows.
-/

namespace Verif.Props

open Verif.Model Verif.Py Verif.Spec Verif.Lemmas Real

variable {A : AbsRoutines} {g : Globals} {I I' : Inst} {rows rows' : List Row}

/-- Level `i` of one simulator is level `i'` of the other: same pressure, temperature, humidity and ozone. -/
structure SameLevel (S S' : Settings) (i i' : ℕ) : Prop where
  p : S.p i = S'.p i'
  tk : S.tk i = S'.tk i'
  rh : S.rh i = S'.rh i'
  o3 : S.o3n.map (· i) = S'.o3n.map (· i')

theorem clearLevel_same {g g' : Globals} {n n' : Option Val} {p t e f : ℝ} {i i' : ℕ} (hs : g.sel = g'.sel)
    (hw : g.h2oll = g'.h2oll) (ho : g.o2ll = g'.o2ll) (h3 : g.o3ll = g'.o3ll) (hn : n.map (· i) = n'.map (· i')) :
    clearLevel A g n p t e f i = clearLevel A g' n' p t e f i' := by
  have o3 : o3Term A g n t p f i = o3Term A g' n' t p f i' := by
    unfold o3Term
    rw [hs, h3]
    cases n with
    | none =>
      cases n' with
      | none => rw [if_neg (fun q => by simpa using q.1), if_neg (fun q => by simpa using q.1)]
      | some y => simp at hn
    | some x =>
      cases n' with
      | none => simp at hn
      | some y =>
        simp only [Option.map_some, Option.some.injEq] at hn
        by_cases c : ∃ m, g'.sel.o3 = some m ∧ m ∈ ozoneModels
        · rw [if_pos (show ozoneActive _ _ from ⟨rfl, c⟩), if_pos (show ozoneActive _ _ from ⟨rfl, c⟩)]
          obtain ⟨m, hm, -⟩ := c
          rw [hm]
          simp only [hn]
        · rw [if_neg (fun q => c q.2), if_neg (fun q => c q.2)]
  unfold clearLevel
  simp only [hs, hw, ho, o3]

theorem cellGlobals_lists {S S' : Settings} {g g' : Globals} {es es' : ℝ} (hn : S.nl ≠ 0) (hn' : S'.nl ≠ 0)
    (ha : S.amu = S'.amu) (ho : S.o3n.isSome = S'.o3n.isSome) (hg : g.sel = g'.sel) (hw : g.h2oll = g'.h2oll)
    (h2 : g.o2ll = g'.o2ll) (h3 : g.o3ll = g'.o3ll) :
    (cellGlobals S g es).sel = (cellGlobals S' g' es').sel ∧
    (cellGlobals S g es).h2oll = (cellGlobals S' g' es').h2oll ∧
    (cellGlobals S g es).o2ll = (cellGlobals S' g' es').o2ll ∧
    (cellGlobals S g es).o3ll = (cellGlobals S' g' es').o3ll := by
  unfold cellGlobals
  rw [if_neg hn, if_neg hn', ← ha]
  cases S.amu with
  | none => exact ⟨hg, hw, h2, h3⟩
  | some u =>
    have oz : ozoneActive g.sel S.o3n ↔ ozoneActive g'.sel S'.o3n := by unfold ozoneActive; rw [ho, hg]
    refine ⟨hg, ?_, ?_, ?_⟩
    · show (match g.sel.h2o with | none => _ | some m => _) = (match g'.sel.h2o with | none => _ | some m => _)
      rw [hg, hw]
    · show (match g.sel.o2 with | none => _ | some m => _) = (match g'.sel.o2 with | none => _ | some m => _)
      rw [hg, h2]
    · show (if ozoneActive g.sel S.o3n then _ else _) = (if ozoneActive g'.sel S'.o3n then _ else _)
      rw [h3]
      by_cases c : ozoneActive g.sel S.o3n
      · rw [if_pos c, if_pos (oz.1 c)]
      · rw [if_neg c, if_neg (fun q => c (oz.2 q))]

/-- Two runs look at some air from the same process state, with the same frequency and angle, without clouds or ray tracing. -/
structure SameView (I I' : Inst) (j k j' k' : ℕ) : Prop where
  frq : I.set.frq j = I'.set.frq j'
  angle : I.set.angles k = I'.set.angles k'
  amu : I.set.amu = I'.set.amu
  ozone : I.set.o3n.isSome = I'.set.o3n.isSome
  plane : I.set.rayTracing = false
  plane' : I'.set.rayTracing = false
  clear : I.set.cloudy = false
  clear' : I'.set.cloudy = false
  fresh : NoClouds I.out
  fresh' : NoClouds I'.out
  freq : j < I.set.nf
  ang : k < I.set.nang
  freq' : j' < I'.set.nf
  ang' : k' < I'.set.nang
  up : 0 < I.set.angles k
  down : I.set.angles k < 180

/-- **C121.** The absorption stored for a level depends on that level alone. -/
theorem C121_level (h : (execute A g I).1 = .ok rows) (h' : (execute A g I').1 = .ok rows') {j k j' k' : ℕ}
    (v : SameView I I' j k j' k') {i i' : ℕ} (hi : i < I.set.nl) (hi' : i' < I'.set.nl)
    (hl : SameLevel I.set I'.set i i') :
    ((execute A g I).2.out.cell j k).awet i = ((execute A g I').2.out.cell j' k').awet i' ∧
    ((execute A g I).2.out.cell j k).adry i = ((execute A g I').2.out.cell j' k').adry i' := by
  obtain ⟨g1, e, rho, l1, v1, -, hc⟩ := (execute_ok h).ex
  obtain ⟨g1', e', rho', l1', v1', -, hc'⟩ := (execute_ok h').ex
  rw [l1] at l1'
  cases l1'
  obtain ⟨es, -, q2⟩ := (hc k v.ang).2 j v.freq
  obtain ⟨es', -, q2'⟩ := (hc' k' v.ang').2 j' v.freq'
  obtain ⟨a, a1, a2, a3, -, -⟩ := (cellStep_ok q2).clear
  obtain ⟨a', a1', a2', a3', -, -⟩ := (cellStep_ok q2').clear
  have t := (tabulateE_ok a1).1 i hi
  have t' := (tabulateE_ok a1').1 i' hi'
  obtain ⟨s1, s2, s3, s4⟩ := cellGlobals_lists (S := I.set) (S' := I'.set)
    (g := { g1 with fromSat := I.set.satellite }) (g' := { g1 with fromSat := I'.set.satellite }) (es := es)
    (es' := es') (by omega) (by omega) v.amu v.ozone rfl rfl rfl rfl
  have ee : e i = e' i' := by
    unfold vapor at v1 v1'
    split_ifs at v1 v1'
    cases v1
    cases v1'
    simp only [hl.tk, hl.rh]
  rw [hl.p, hl.tk, ee, v.frq, clearLevel_same s1 s2 s3 s4 hl.o3, t'] at t
  have q := Except.ok.inj t
  rw [a2, a3, a2', a3']
  simp only [q, and_self]

theorem integ_layer {z : Bool} {nl : ℕ} {x d : Val} {s : Option ℝ} {f : Val} (hn : 0 < nl)
    (hx : ∀ i < nl, 0 ≤ x i) (h : integ z nl x (.ok d) 1 1 = .ok (s, some f)) {i : ℕ} (h1 : 1 ≤ i) (h2 : i < nl) :
    ∃ v, layerValue z (x (i - 1)) (x i) = some v ∧ f i = v * d i := by
  have ex : ∀ i, ∃ v, 1 ≤ i → i < nl → layerValue z (prevEntry x nl i) (x i) = some v := by
    intro i
    by_cases hi : 1 ≤ i ∧ i < nl
    · have pe : prevEntry x nl i = x (i - 1) := by unfold prevEntry; rw [if_neg (by omega)]
      obtain ⟨v, hv⟩ := layerValue_some_of_nonneg z (hx (i - 1) (by omega)) (hx i hi.2)
      exact ⟨v, fun _ _ => by rw [pe]; exact hv⟩
    · exact ⟨0, fun h1 h2 => absurd ⟨h1, h2⟩ hi⟩
  choose v hv using ex
  have pe : prevEntry x nl i = x (i - 1) := by unfold prevEntry; rw [if_neg (by omega)]
  simp only [integ] at h
  rw [expInt_ok (v := v) hn hv] at h
  cases h
  refine ⟨v i, by rw [← pe]; exact hv i h1 h2, ?_⟩
  simp only [if_pos (And.intro h1 h2)]

/-- The layer opacities of a clear plane-parallel run in terms of the stored absorption. -/
theorem stored_layers (h : (execute A g I).1 = .ok rows) (hr : I.set.rayTracing = false) {j k : ℕ}
    (hj : j < I.set.nf) (hk : k < I.set.nang) (hn : 0 < I.set.nl) (hs : sin (I.set.angles k * π / 180) ≠ 0)
    (hcl : I.set.cloudy = false) (hst : NoClouds I.out)
    (hw : ∀ i < I.set.nl, 0 ≤ ((execute A g I).2.out.cell j k).awet i ∧ 0 ≤ ((execute A g I).2.out.cell j k).adry i) :
    ∃ τ es out, ((execute A g I).2.out.cell j k).taulay = some τ ∧ I.set.es[j]? = some es ∧
      planck I.set.satellite es (I.set.frq j) I.set.nl I.set.tk τ = some out ∧
      ((execute A g I).2.out.cell j k).tbtotal = bright out.hvk out.boftotl ∧
      ∀ i, 1 ≤ i → i < I.set.nl → ∃ v y,
        layerValue true (((execute A g I).2.out.cell j k).awet (i - 1)) (((execute A g I).2.out.cell j k).awet i)
          = some v ∧
        layerValue true (((execute A g I).2.out.cell j k).adry (i - 1)) (((execute A g I).2.out.cell j k).adry i)
          = some y ∧
        τ i = (v + y) * ((I.set.z i - I.set.z (i - 1)) * (1 / sin (I.set.angles k * π / 180))) := by
  obtain ⟨g1, e, rho, -, -, -, hc⟩ := (execute_ok h).ex
  obtain ⟨es, q1, q2⟩ := (hc k hk).2 j hj
  rw [pathOf_plane hr hs] at q2
  have c1 := cellStep_ok q2
  obtain ⟨u, -, a2, a3, a4, a5⟩ := c1.clear
  obtain ⟨w, hw1⟩ := integ_some a4
  obtain ⟨d, hd1⟩ := integ_some a5
  rw [hw1] at a4
  rw [hd1] at a5
  have t1 := c1.stale hcl
  have l0 := t1.ptauliq.symm.trans (hst j k).1
  have i0 := t1.ptauice.symm.trans (hst j k).2
  have tl : ((execute A g I).2.out.cell j k).taulay = some fun n => w n + d n + 0 + 0 := by
    simp only [Cell.taulay, hw1, hd1, l0, i0, Cell.zero]
  obtain ⟨out, o1, o2, -⟩ := c1.rad _ tl
  rw [cellGlobals_emissivity, cellGlobals_fromSat] at o1
  refine ⟨_, es, out, tl, q1, o1, o2, fun i h1 h2 => ?_⟩
  rw [a2, a3] at hw
  obtain ⟨v, v1, v2⟩ := integ_layer hn (fun i hi => (hw i hi).1) a4 h1 h2
  obtain ⟨y, y1, y2⟩ := integ_layer hn (fun i hi => (hw i hi).2) a5 h1 h2
  refine ⟨v, y, by rw [a2]; exact v1, by rw [a3]; exact y1, ?_⟩
  rw [if_neg (by omega)] at v2 y2
  rw [v2, y2]
  ring

/-- The absorption a run stores is nowhere negative. -/
def StoresAbsorption (A : AbsRoutines) (g : Globals) (I : Inst) (j k : ℕ) : Prop :=
  ∀ i < I.set.nl, 0 ≤ ((execute A g I).2.out.cell j k).awet i ∧ 0 ≤ ((execute A g I).2.out.cell j k).adry i

/-- **C121.** The opacity of a layer depends on its two levels and its thickness alone. -/
theorem C121_layer (h : (execute A g I).1 = .ok rows) (h' : (execute A g I').1 = .ok rows') {j k j' k' : ℕ}
    (v : SameView I I' j k j' k') (ha : StoresAbsorption A g I j k) (ha' : StoresAbsorption A g I' j' k') {i i' : ℕ}
    (h1 : 1 ≤ i) (hi : i < I.set.nl) (h1' : 1 ≤ i') (hi' : i' < I'.set.nl)
    (hl : SameLevel I.set I'.set i i') (hl1 : SameLevel I.set I'.set (i - 1) (i' - 1))
    (hz : I.set.z i - I.set.z (i - 1) = I'.set.z i' - I'.set.z (i' - 1)) {τ τ' : Val}
    (ht : ((execute A g I).2.out.cell j k).taulay = some τ)
    (ht' : ((execute A g I').2.out.cell j' k').taulay = some τ') : τ i = τ' i' := by
  have hs := sin_pos_of_angle v.up v.down
  obtain ⟨σ, -, -, s1, -, -, -, s2⟩ := stored_layers h v.plane v.freq v.ang (by omega) hs.ne' v.clear v.fresh ha
  obtain ⟨σ', -, -, s1', -, -, -, s2'⟩ := stored_layers h' v.plane' v.freq' v.ang' (by omega)
    (by rw [← v.angle]; exact hs.ne') v.clear' v.fresh' ha'
  rw [ht] at s1; cases s1
  rw [ht'] at s1'; cases s1'
  obtain ⟨x, y, e1, e2, e3⟩ := s2 i h1 hi
  obtain ⟨x', y', e1', e2', e3'⟩ := s2' i' h1' hi'
  obtain ⟨f1, f2⟩ := C121_level h h' v hi hi' hl
  obtain ⟨f3, f4⟩ := C121_level h h' v (by omega : i - 1 < I.set.nl) (by omega : i' - 1 < I'.set.nl) hl1
  rw [f1, f3, e1'] at e1
  rw [f2, f4, e2'] at e2
  cases e1
  cases e2
  rw [e3, e3', hz, v.angle]

/-- From a difference of radiances to a difference of brightness temperatures. -/
theorem tb_from_radiance {H M E T b b' : ℝ} (hh : 0 < H) (hM : 0 < M) (hE : 0 ≤ E) (hb0 : 0 ≤ b)
    (hb : bright H b = some T) (rad : |b' - b| ≤ tk2b H M * E) (hlow : H + M / 0.9 * E ≤ T) :
    ∃ T', bright H b' = some T' ∧ |T' - T| ≤ M / 0.9 * E := by
  have rad' : |b' - b| ≤ M / H * E := rad.trans (mul_le_mul_of_nonneg_right (tk2b_le_linear hh hM) hE)
  have ME : 0 ≤ M / 0.9 * E := mul_nonneg (div_nonneg hM.le (by norm_num)) hE
  have T0 : H ≤ T := by linarith
  have w : 0.9 ≤ planckW (H / H) := planckW_one_bound (by positivity) (by rw [div_self hh.ne'])
  have b1 : 0 < b := by
    rcases hb0.eq_or_lt with g0 | g0
    · rw [← g0] at hb
      unfold bright at hb
      rw [if_neg (by norm_num)] at hb
      have := Option.some.inj hb
      linarith
    · exact g0
  have eB : b = tk2b H T := by
    obtain ⟨T1, hT1, e⟩ := exists_tk2b hh b1
    rw [← e, bright_tk2b hh hT1] at hb
    cases hb
    exact e.symm
  have slope := (tk2b_slope hh hh T0 hh le_rfl).1
  have gap : M / H * E ≤ tk2b H T - tk2b H H := by
    refine le_trans ?_ slope
    have k1 : M * E ≤ 0.9 * (T - H) := by
      have : M / 0.9 * E ≤ T - H := by linarith
      have e : M / 0.9 * E = M * E / 0.9 := by ring
      rw [e, div_le_iff₀ (by norm_num)] at this
      linarith
    have k2 : 0.9 * (T - H) ≤ planckW (H / H) * (T - H) := mul_le_mul_of_nonneg_right w (by linarith)
    rw [div_mul_eq_mul_div, div_mul_eq_mul_div]
    exact div_le_div_of_nonneg_right (k1.trans k2) hh.le
  have low : tk2b H H ≤ b := by
    rw [eB]
    have : 0 ≤ M / H * E := mul_nonneg (div_nonneg hM.le hh.le) hE
    linarith
  have low' : tk2b H H ≤ b' := by
    have := (abs_le.1 rad').1
    rw [eB] at this
    linarith
  obtain ⟨Tb, Tb', r1, r2, r3⟩ := radiance_error hh hh low low' rad'
  rw [hb] at r1
  cases r1
  refine ⟨Tb', r2, r3.trans ?_⟩
  have e : H * (M / H * E) = M * E := by field_simp
  rw [e, show M / 0.9 * E = M * E / 0.9 by ring]
  exact div_le_div_of_nonneg_left (mul_nonneg hM.le hE) (by norm_num) w

/-- A column of air: positive temperatures up to `M`, heights that do not decrease. -/
structure AirColumn (S : Settings) (M : ℝ) : Prop where
  temp : ∀ i < S.nl, 0 < S.tk i ∧ S.tk i ≤ M
  rise : ∀ i, i + 1 < S.nl → S.z i ≤ S.z (i + 1)

theorem clear_layers_nonneg {S : Settings} {M : ℝ} (hc : AirColumn S M) {x y τ : Val} {s : ℝ} (hs : 0 < s)
    (h : ∀ i, 1 ≤ i → i < S.nl → ∃ v u, layerValue true (x (i - 1)) (x i) = some v ∧
      layerValue true (y (i - 1)) (y i) = some u ∧ τ i = (v + u) * ((S.z i - S.z (i - 1)) * (1 / s))) :
    ∀ i, 1 ≤ i → i < S.nl → 0 ≤ τ i := by
  intro i h1 h2
  obtain ⟨v, u, hv, hu, e⟩ := h i h1 h2
  have := hc.rise (i - 1) (by omega)
  rw [show i - 1 + 1 = i by omega] at this
  rw [e]
  exact mul_nonneg (add_nonneg (layerValue_nonneg hv) (layerValue_nonneg hu))
    (mul_nonneg (by linarith) (by positivity))

/-- **C121.** From the ground: two runs whose profiles agree up to level `c`, whatever either has above, differ in
brightness temperature by no more than the transmittance of the shared air times the highest temperature (over 0.9). -/
theorem C121_ground (h : (execute A g I).1 = .ok rows) (h' : (execute A g I').1 = .ok rows') {j k j' k' : ℕ}
    (v : SameView I I' j k j' k') (ha : StoresAbsorption A g I j k) (ha' : StoresAbsorption A g I' j' k')
    (hg : I.set.satellite = false) (hg' : I'.set.satellite = false) {M : ℝ} (hM : 2.728 ≤ M)
    (hc : AirColumn I.set M) (hc' : AirColumn I'.set M) (hf : 0 < I.set.frq j)
    {c : ℕ} (c1 : c < I.set.nl) (c2 : c < I'.set.nl) (hl : ∀ i ≤ c, SameLevel I.set I'.set i i)
    (hz : ∀ i < c, I.set.z (i + 1) - I.set.z i = I'.set.z (i + 1) - I'.set.z i) {τ : Val} {T : ℝ}
    (ht : ((execute A g I).2.out.cell j k).taulay = some τ)
    (hT : ((execute A g I).2.out.cell j k).tbtotal = some T)
    (hlow : hvkOf (I.set.frq j) + M / 0.9 * exp (-opacityBelow τ c) ≤ T) :
    ∃ T', ((execute A g I').2.out.cell j' k').tbtotal = some T' ∧ |T' - T| ≤ M / 0.9 * exp (-opacityBelow τ c) := by
  have hs := sin_pos_of_angle v.up v.down
  have hs' : 0 < sin (I'.set.angles k' * π / 180) := by rw [← v.angle]; exact hs
  obtain ⟨σ, es, out, s1, -, s3, s4, s2⟩ := stored_layers h v.plane v.freq v.ang (by omega) hs.ne' v.clear v.fresh ha
  obtain ⟨σ', es', out', s1', -, s3', s4', s2'⟩ := stored_layers h' v.plane' v.freq' v.ang' (by omega) hs'.ne'
    v.clear' v.fresh' ha'
  rw [ht] at s1; cases s1
  rw [hg] at s3
  rw [hg', ← v.frq] at s3'
  have n1 := clear_layers_nonneg hc hs s2
  have n2 := clear_layers_nonneg hc' hs' s2'
  have eτ : ∀ i, 1 ≤ i → i ≤ c → τ i = σ' i := fun i h1 h2 => by
    have := hz (i - 1) (by omega)
    rw [show i - 1 + 1 = i by omega] at this
    exact C121_layer h h' v ha ha' h1 (by omega) h1 (by omega) (hl i h2) (hl (i - 1) (by omega)) this ht s1'
  have rad := C104_hidden_ground hf hM n1 n2 hc.temp hc'.temp c1 c2 (fun i hi => (hl i hi).tk) eτ s3 s3'
  have hh := hvkOf_pos hf
  rw [s4'] 
  rw [s4] at hT
  rw [planck_hvk s3'] 
  rw [planck_hvk s3] at hT rad
  obtain ⟨bg, g1, -, g3⟩ := ground_form hf hM s3
  have B (i : ℕ) (hi : i ≤ I.set.nl - 1) : 0 ≤ tk2b (hvkOf (I.set.frq j)) (I.set.tk i) ∧
      tk2b (hvkOf (I.set.frq j)) (I.set.tk i) ≤ tk2b (hvkOf (I.set.frq j)) M :=
    have := hc.temp i (by omega)
    ⟨(tk2b_pos hh this.1).le, tk2b_mono hh this.1 this.2⟩
  have b0 : 0 ≤ out.boftotl := by
    have := (skyRadiance_bounds (B := fun i => tk2b (hvkOf (I.set.frq j)) (I.set.tk i)) (τ := τ)
      (n := I.set.nl - 1) (fun i h1 h2 => n1 i h1 (by omega)) B).1
    rw [g3]; linarith
  refine tb_from_radiance hh (by linarith) (exp_pos _).le b0 hT ?_ hlow
  rw [abs_sub_comm, mul_comm]
  exact rad

/-- **C121.** From a satellite: the same for two runs whose `c + 1` highest levels agree, with the surface and the
emissivity of either at will. -/
theorem C121_satellite (h : (execute A g I).1 = .ok rows) (h' : (execute A g I').1 = .ok rows') {j k j' k' : ℕ}
    (v : SameView I I' j k j' k') (ha : StoresAbsorption A g I j k) (ha' : StoresAbsorption A g I' j' k')
    (hg : I.set.satellite = true) (hg' : I'.set.satellite = true) {M : ℝ}
    (hes : ∀ e, I.set.es[j]? = some e → 0 ≤ e ∧ e ≤ 1) (hes' : ∀ e, I'.set.es[j']? = some e → 0 ≤ e ∧ e ≤ 1)
    (hc : AirColumn I.set M) (hc' : AirColumn I'.set M) (hf : 0 < I.set.frq j)
    {c : ℕ} (c1 : c < I.set.nl) (c2 : c < I'.set.nl)
    (hl : ∀ i ≤ c, SameLevel I.set I'.set (I.set.nl - 1 - i) (I'.set.nl - 1 - i))
    (hz : ∀ i < c, I.set.z (I.set.nl - 1 - i) - I.set.z (I.set.nl - 1 - (i + 1)) =
      I'.set.z (I'.set.nl - 1 - i) - I'.set.z (I'.set.nl - 1 - (i + 1))) {τ : Val} {T : ℝ}
    (ht : ((execute A g I).2.out.cell j k).taulay = some τ)
    (hT : ((execute A g I).2.out.cell j k).tbtotal = some T)
    (hlow : hvkOf (I.set.frq j) + M / 0.9 * exp (-∑ i ∈ Finset.range c, τ (I.set.nl - 1 - i)) ≤ T) :
    ∃ T', ((execute A g I').2.out.cell j' k').tbtotal = some T' ∧
      |T' - T| ≤ M / 0.9 * exp (-∑ i ∈ Finset.range c, τ (I.set.nl - 1 - i)) := by
  have hs := sin_pos_of_angle v.up v.down
  have hs' : 0 < sin (I'.set.angles k' * π / 180) := by rw [← v.angle]; exact hs
  obtain ⟨σ, es, out, s1, e1, s3, s4, s2⟩ := stored_layers h v.plane v.freq v.ang (by omega) hs.ne' v.clear v.fresh ha
  obtain ⟨σ', es', out', s1', e1', s3', s4', s2'⟩ := stored_layers h' v.plane' v.freq' v.ang' (by omega) hs'.ne'
    v.clear' v.fresh' ha'
  rw [ht] at s1; cases s1
  rw [hg] at s3
  rw [hg', ← v.frq] at s3'
  have n1 := clear_layers_nonneg hc hs s2
  have n2 := clear_layers_nonneg hc' hs' s2'
  have eτ : ∀ i < c, τ (I.set.nl - 1 - i) = σ' (I'.set.nl - 1 - i) := fun i h2 => by
    refine C121_layer h h' v ha ha' (by omega) (by omega) (by omega) (by omega) (hl i h2.le) ?_ ?_ ht s1'
    · have := hl (i + 1) (by omega)
      rwa [show I.set.nl - 1 - (i + 1) = I.set.nl - 1 - i - 1 by omega,
        show I'.set.nl - 1 - (i + 1) = I'.set.nl - 1 - i - 1 by omega] at this
    · have := hz i h2
      rwa [show I.set.nl - 1 - (i + 1) = I.set.nl - 1 - i - 1 by omega,
        show I'.set.nl - 1 - (i + 1) = I'.set.nl - 1 - i - 1 by omega] at this
  have rad := C104_hidden_satellite hf (hes _ e1) (hes' _ e1') n1 n2 hc.temp hc'.temp c1 c2
    (fun i hi => (hl i hi).tk) eτ s3 s3'
  have hh := hvkOf_pos hf
  rw [s4']
  rw [s4] at hT
  rw [planck_hvk s3']
  rw [planck_hvk s3] at hT rad
  obtain ⟨bg, g1, -, g3⟩ := satellite_form hf (hes _ e1) hc.temp s3
  have B (i : ℕ) (hi : i ≤ I.set.nl - 1) : 0 ≤ tk2b (hvkOf (I.set.frq j)) (I.set.tk (I.set.nl - 1 - i)) ∧
      tk2b (hvkOf (I.set.frq j)) (I.set.tk (I.set.nl - 1 - i)) ≤ tk2b (hvkOf (I.set.frq j)) M :=
    have := hc.temp (I.set.nl - 1 - i) (by omega)
    ⟨(tk2b_pos hh this.1).le, tk2b_mono hh this.1 this.2⟩
  have b0 : 0 ≤ out.boftotl := by
    have := (skyRadiance_bounds (B := fun i => tk2b (hvkOf (I.set.frq j)) (I.set.tk (I.set.nl - 1 - i)))
      (τ := fun i => τ (I.set.nl - i))
      (n := I.set.nl - 1) (fun i h1 h2 => n1 (I.set.nl - i) (by omega) (by omega)) B).1
    rw [g3]; linarith
  have M0 : 0 < M := (hc.temp 0 (by omega)).1.trans_le (hc.temp 0 (by omega)).2
  refine tb_from_radiance hh M0 (exp_pos _).le b0 hT ?_ hlow
  rw [abs_sub_comm, mul_comm]
  exact rad

/-- The scene of C83 with a level more, `d` levels lower down: `d = 1` puts the level below the others, `d = 0` above. -/
noncomputable def tallS (sat : Bool) (d : ℝ) : Settings :=
  { tipS sat with nl := 4, z := fun i => i - d, tk := fun i => 300 + d - i }

theorem demo_stored {S : Settings} {o : Store} {rows : List Row} (h : (execute demoA demoG ⟨S, o⟩).1 = .ok rows)
    (ho : S.o3n = none) {j k : ℕ} (hj : j < S.nf) (hk : k < S.nang) {i : ℕ} (hi : i < S.nl) :
    ((execute demoA demoG ⟨S, o⟩).2.out.cell j k).awet i = 0.182 * S.frq j * db2np ∧
    ((execute demoA demoG ⟨S, o⟩).2.out.cell j k).adry i = 0.182 * S.frq j * 2 * db2np := by
  obtain ⟨g1, e, rho, hl, -, -, hc⟩ := (execute_ok h).ex
  obtain ⟨es, q1, q2⟩ := (hc k hk).2 j hj
  obtain ⟨u, u1, u2, u3, -, -⟩ := (cellStep_ok q2).clear
  have w := (tabulateE_ok u1).1 i hi
  rw [show (⟨S, o⟩ : Inst).set = S from rfl, ho] at w
  have hu := demo_level w
  rw [u2, u3]
  simp only [hu, and_self]

theorem db2np_ge : 0.2 ≤ db2np := by
  unfold db2np
  have : 2 ≤ log (10.0:ℝ) := by
    rw [le_log_iff_exp_le (by norm_num)]
    have e2 := Real.exp_one_lt_d9
    have e0 := exp_pos (1:ℝ)
    rw [show (2:ℝ) = 1 + 1 by norm_num, exp_add]
    norm_num
    nlinarith
  norm_num at this ⊢
  linarith

theorem demo_absorbing {S : Settings} {o : Store} {rows : List Row} (h : (execute demoA demoG ⟨S, o⟩).1 = .ok rows)
    (ho : S.o3n = none) {j k : ℕ} (hj : j < S.nf) (hk : k < S.nang) (hf : 0 ≤ S.frq j) :
    StoresAbsorption demoA demoG ⟨S, o⟩ j k := by
  intro i hi
  obtain ⟨e1, e2⟩ := demo_stored h ho hj hk hi
  have := db2np_ge
  rw [e1, e2]
  constructor <;> positivity

theorem tall_runs (sat : Bool) (d : ℝ) : ∃ rows, (execute demoA demoG ⟨tallS sat d, Store.zero⟩).1 = .ok rows :=
  demo_runs (tallS sat d) Store.zero rfl (show 1 ≤ 4 by decide) (by simp [tallS, tipS, demoS])
    (by simp [CloudInput, tallS, tipS]) rfl demo_angles

theorem tip_column (sat : Bool) : AirColumn (tipS sat) 301 := by
  refine ⟨fun i hi => ?_, fun i _ => by simp [tipS, demoS]⟩
  have : (i : ℝ) < 3 := by exact_mod_cast (show i < 3 from hi)
  have : (0:ℝ) ≤ i := Nat.cast_nonneg i
  constructor <;> simp only [tipS, demoS] <;> linarith

theorem tall_column (sat : Bool) {d : ℝ} (h0 : 0 ≤ d) (h1 : d ≤ 1) : AirColumn (tallS sat d) 301 := by
  refine ⟨fun i hi => ?_, fun i _ => by simp [tallS]⟩
  have : (i : ℝ) < 4 := by exact_mod_cast (show i < 4 from hi)
  have : (0:ℝ) ≤ i := Nat.cast_nonneg i
  constructor <;> simp only [tallS] <;> linarith

theorem tip_view (sat : Bool) (d : ℝ) :
    SameView ⟨tipS sat, Store.zero⟩ ⟨tallS sat d, Store.zero⟩ 0 0 0 0 where
  frq := rfl
  angle := rfl
  amu := rfl
  ozone := rfl
  plane := rfl
  plane' := rfl
  clear := rfl
  clear' := rfl
  fresh := fun _ _ => ⟨rfl, rfl, rfl, rfl, rfl⟩
  fresh' := fun _ _ => ⟨rfl, rfl, rfl, rfl, rfl⟩
  freq := show 0 < 2 by decide
  ang := show 0 < 2 by decide
  freq' := show 0 < 2 by decide
  ang' := show 0 < 2 by decide
  up := (demo_angles 0 (show 0 < 2 by decide)).1
  down := (demo_angles 0 (show 0 < 2 by decide)).2

/-- The two layers of the scene. -/
theorem tip_layers (sat : Bool) {rows : List Row}
    (h : (execute demoA demoG ⟨tipS sat, Store.zero⟩).1 = .ok rows) :
    ∃ τ out, ((execute demoA demoG ⟨tipS sat, Store.zero⟩).2.out.cell 0 0).taulay = some τ ∧ 2 ≤ τ 1 ∧ 2 ≤ τ 2 ∧
      planck sat 1 22 3 (tipS sat).tk τ = some out ∧
      ((execute demoA demoG ⟨tipS sat, Store.zero⟩).2.out.cell 0 0).tbtotal = bright (hvkOf 22) out.boftotl := by
  have v := tip_view sat 0
  have fr : (tipS sat).frq 0 = 22 := by simp [tipS, demoS]
  have ha : StoresAbsorption demoA demoG ⟨tipS sat, Store.zero⟩ 0 0 :=
    demo_absorbing h rfl (show 0 < 2 by decide) (show 0 < 2 by decide) (by rw [fr]; norm_num)
  obtain ⟨τ, es, out, s1, s2, s3, s4, s5⟩ := stored_layers h v.plane v.freq v.ang (show 0 < 3 by decide)
    (sin_pos_of_angle v.up v.down).ne' v.clear v.fresh ha
  have e1 : es = 1 := by simpa [tipS, demoS] using s2.symm
  have dense (i : ℕ) (hi : i < 3) := demo_stored h rfl (j := 0) (k := 0) (show 0 < 2 by decide) (show 0 < 2 by decide) hi
  have lay (i : ℕ) (h1 : 1 ≤ i) (h2 : i < 3) : 2 ≤ τ i := by
    obtain ⟨x, y, a1, a2, a3⟩ := s5 i h1 h2
    have b1 := (layerValue_bounds a1).1
    have b2 := (layerValue_bounds a2).1
    rw [(dense i h2).1, (dense (i - 1) (by omega)).1, min_self, fr] at b1
    rw [(dense i h2).2, (dense (i - 1) (by omega)).2, min_self, fr] at b2
    have g : ((tipS sat).z i - (tipS sat).z (i - 1)) * (1 / sin ((tipS sat).angles 0 * π / 180)) = 1 := by
      simp only [tipS, demoS]
      rw [Nat.cast_sub h1]
      norm_num
      rw [show 90 * π / 180 = π / 2 by ring, sin_pi_div_two]
    have db := db2np_ge
    rw [a3, g]
    norm_num at b1 b2 db ⊢
    linarith
  refine ⟨τ, out, s1, lay 1 (by norm_num) (by norm_num), lay 2 (by norm_num) (by norm_num), ?_, ?_⟩
  · rw [← fr, ← e1]; exact s3
  · rw [s4, planck_hvk s3, fr]

theorem exp_neg_four : exp (-4 : ℝ) ≤ 0.02 := by
  rw [exp_neg, inv_le_comm₀ (exp_pos _) (by norm_num)]
  have e := Real.exp_one_gt_d9
  have : exp (4:ℝ) = exp 1 ^ 4 := by rw [← exp_nat_mul]; norm_num
  rw [this]
  refine le_trans ?_ (pow_le_pow_left₀ (by norm_num) e.le 4)
  norm_num

/-- A fourth level under the three of the scene: the surface behind the layers moves, the view from above stays within 7 K. -/
example : ∃ T T', ((execute demoA demoG ⟨tipS true, Store.zero⟩).2.out.cell 0 0).tbtotal = some T ∧
    ((execute demoA demoG ⟨tallS true 1, Store.zero⟩).2.out.cell 0 0).tbtotal = some T' ∧ |T' - T| ≤ 7 := by
  obtain ⟨rows, h⟩ := tip_runs true
  obtain ⟨rows', h'⟩ := tall_runs true 1
  obtain ⟨τ, out, t1, t2, t3, t4, t5⟩ := tip_layers true h
  have fr : (tipS true).frq 0 = 22 := by simp [tipS, demoS]
  have fr' : (tallS true 1).frq 0 = 22 := by simp [tallS, tipS, demoS]
  have hk : hvkOf 22 ≤ 2.4 := by norm_num [hvkOf, cPlanck, cBoltzmann]
  obtain ⟨T, r1, r2, -⟩ := C26_satellite h (j := 0) (k := 0) (show 0 < 2 by decide) (show 0 < 2 by decide)
    (goodPath_plane rfl (tip_view true 0).up (tip_view true 0).down (tip_column true).rise)
    (Or.inr fun _ _ => ⟨_, _, rfl, rfl, fun _ => le_rfl, fun _ => le_rfl⟩) rfl
    (by simp [tipS, demoS]) (by rw [fr]; norm_num) (m := 298) (M := 300) (by norm_num)
    (fun i hi => by
      have : (i : ℝ) ≤ 2 := by exact_mod_cast (show i ≤ 2 from Nat.le_of_lt_succ hi)
      have : (0:ℝ) ≤ i := Nat.cast_nonneg i
      constructor <;> simp only [tipS, demoS] <;> linarith)
    (fun w y l i e1 e2 e3 e4 => by
      refine lt_of_le_of_lt (tip_opacity_le (sat := true) (k := 0) (by decide) h ?_) (by norm_num)
      simp only [Cell.taulay, e1, e2, e3, e4])
  have op : exp (-∑ i ∈ Finset.range 2, τ ((tipS true).nl - 1 - i)) ≤ 0.02 := by
    refine le_trans (exp_le_exp.2 ?_) exp_neg_four
    rw [Finset.sum_range_succ, Finset.sum_range_one]
    simp only [tipS, demoS]
    norm_num
    linarith
  obtain ⟨T', g1, g2⟩ := C121_satellite h h' (tip_view true 1)
    (demo_absorbing h rfl (show 0 < 2 by decide) (show 0 < 2 by decide) (by rw [fr]; norm_num))
    (demo_absorbing h' rfl (show 0 < 2 by decide) (show 0 < 2 by decide) (by rw [fr']; norm_num)) rfl rfl
    (fun e he => by simp [tipS, demoS] at he; subst he; norm_num)
    (fun e he => by simp [tallS, tipS, demoS] at he; subst he; norm_num)
    (tip_column true) (tall_column true zero_le_one le_rfl) (by rw [fr]; norm_num) (c := 2) (show 2 < 3 by decide)
    (show 2 < 4 by decide)
    (fun i hi => ⟨rfl, by
      simp only [tipS, demoS, tallS]
      rw [show 4 - 1 - i = 3 - 1 - i + 1 by omega]; push_cast; ring, rfl, rfl⟩)
    (fun i hi => by
      simp only [tipS, demoS, tallS]
      rw [show 4 - 1 - i = 3 - 1 - i + 1 by omega, show 4 - 1 - (i + 1) = 3 - 1 - (i + 1) + 1 by omega]
      push_cast; ring) t1 r1
    (by
      show hvkOf ((tipS true).frq 0) + 301 / 0.9 * exp (-∑ i ∈ Finset.range 2, τ ((tipS true).nl - 1 - i)) ≤ T
      rw [fr]
      norm_num at hk op r2 ⊢
      linarith)
  refine ⟨T, T', r1, g1, g2.trans ?_⟩
  show 301 / 0.9 * exp (-∑ i ∈ Finset.range 2, τ ((tipS true).nl - 1 - i)) ≤ 7
  norm_num at op ⊢
  linarith

/-- A fourth level on top: the sky seen from the ground changes by no more than 7 K. -/
example : ∃ T T', ((execute demoA demoG ⟨tipS false, Store.zero⟩).2.out.cell 0 0).tbtotal = some T ∧
    ((execute demoA demoG ⟨tallS false 0, Store.zero⟩).2.out.cell 0 0).tbtotal = some T' ∧ |T' - T| ≤ 7 := by
  obtain ⟨rows, h⟩ := tip_runs false
  obtain ⟨rows', h'⟩ := tall_runs false 0
  obtain ⟨τ, out, t1, t2, t3, t4, t5⟩ := tip_layers false h
  have fr : (tipS false).frq 0 = 22 := by simp [tipS, demoS]
  have fr' : (tallS false 0).frq 0 = 22 := by simp [tallS, tipS, demoS]
  have hk : hvkOf 22 ≤ 2.4 := by norm_num [hvkOf, cPlanck, cBoltzmann]
  have hh : 0 < hvkOf 22 := hvkOf_pos (by norm_num)
  have near := C104_near_ground (frq := 22) (M := 301) (nl := 3) (by norm_num) (by norm_num)
    (fun i h1 h2 => by
      have : i = 1 ∨ i = 2 := by omega
      rcases this with rfl | rfl <;> linarith) (tip_column false).temp (by norm_num) t4
  rw [planck_hvk t4, show (tipS false).tk 0 = 300 by simp [tipS, demoS]] at near
  have e2 : exp (-τ 1) ≤ 0.2 := by
    refine le_trans (exp_le_exp.2 (show -τ 1 ≤ -2 by linarith)) ?_
    rw [exp_neg, inv_le_comm₀ (exp_pos _) (by norm_num)]
    have e := Real.exp_one_gt_d9
    rw [show (2:ℝ) = 1 + 1 by norm_num, exp_add]
    norm_num
    nlinarith
  obtain ⟨T, r1, r2⟩ := tb_from_radiance (M := 301) (E := 2 * exp (-τ 1)) (T := 300) hh (by norm_num)
    (by positivity) (tk2b_pos hh (by norm_num : (0:ℝ) < 300)).le (bright_tk2b hh (by norm_num))
    (by rw [mul_comm]; exact near) (by norm_num at hk e2 ⊢; linarith)
  rw [← t5] at r1
  have Tlow : 150 ≤ T := by
    have := (abs_le.1 r2).1
    norm_num at e2 this ⊢
    linarith
  have op : exp (-opacityBelow τ 2) ≤ 0.02 := by
    refine le_trans (exp_le_exp.2 ?_) exp_neg_four
    rw [below_range, Finset.sum_range_succ, Finset.sum_range_one]
    norm_num
    linarith
  obtain ⟨T', g1, g2⟩ := C121_ground h h' (tip_view false 0)
    (demo_absorbing h rfl (show 0 < 2 by decide) (show 0 < 2 by decide) (by rw [fr]; norm_num))
    (demo_absorbing h' rfl (show 0 < 2 by decide) (show 0 < 2 by decide) (by rw [fr']; norm_num)) rfl rfl
    (by norm_num) (tip_column false) (tall_column false le_rfl zero_le_one) (by rw [fr]; norm_num) (c := 2)
    (show 2 < 3 by decide) (show 2 < 4 by decide)
    (fun i hi => ⟨rfl, by simp [tipS, demoS, tallS], rfl, rfl⟩)
    (fun i hi => by simp [tipS, demoS, tallS]) t1 r1
    (by
      show hvkOf ((tipS false).frq 0) + 301 / 0.9 * exp (-opacityBelow τ 2) ≤ T
      rw [fr]
      norm_num at hk op ⊢
      linarith)
  refine ⟨T, T', r1, g1, g2.trans ?_⟩
  norm_num at op ⊢
  linarith

end Verif.Props
