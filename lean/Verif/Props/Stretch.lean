import Verif.Props.StrictOpacity

/-!
# C123: heights enter as layer thicknesses
-/

namespace Verif.Props

open Verif.Py Verif.Spec Verif.Model Real

variable {A : AbsRoutines} {g : Globals} {I I' : Inst} {rows rows' : List Row}

/-- The same plane-parallel run with other heights: moved by `h` and stretched by the factor `c`; any station height `y`
(tb_spectrum.py:101-102 subtracts it from the heights). -/
def Stretches (c h : ℝ) (I I' : Inst) : Prop :=
  I.set.rayTracing = false ∧ (I.set.cloudy = true ∨ I.set.cloudy = false ∧ NoClouds I.out ∧ NoClouds I'.out) ∧
    ∃ y, I'.set = { I.set with z := fun i => c * I.set.z i + h, z0 := y }

/-- **C123.** Stretching the height scale by a factor and moving its origin leaves every absorption coefficient as it is
and multiplies every opacity, of each layer and in total, by the factor. -/
theorem C123_opacity {c hh : ℝ} (h : (execute A g I).1 = .ok rows) (h' : (execute A g I').1 = .ok rows')
    (hs : Stretches c hh I I') {j k : ℕ} (hj : j < I.set.nf) (hk : k < I.set.nang)
    (ha : sin (I.set.angles k * π / 180) ≠ 0) :
    let u := (execute A g I).2.out.cell j k
    let u' := (execute A g I').2.out.cell j k
    u'.awet = u.awet ∧ u'.adry = u.adry ∧
      u'.sptauwet = u.sptauwet.map (c * ·) ∧ u'.sptaudry = u.sptaudry.map (c * ·) ∧
      u'.sptauliq = u.sptauliq.map (c * ·) ∧ u'.sptauice = u.sptauice.map (c * ·) ∧
      u'.ptauwet = u.ptauwet.map (fun f i => c * f i) ∧ u'.ptaudry = u.ptaudry.map (fun f i => c * f i) ∧
      u'.ptauliq = u.ptauliq.map (fun f i => c * f i) ∧ u'.ptauice = u.ptauice.map (fun f i => c * f i) ∧
      u'.taulay = u.taulay.map (fun f i => c * f i) := by
  intro u u'
  obtain ⟨hr, hst, y, hu⟩ := hs
  obtain ⟨g1, e, rho, hl, hv, -, hc⟩ := (execute_ok h).ex
  obtain ⟨g1', e', rho', hl', hv', -, hc'⟩ := (execute_ok h').ex
  rw [hl] at hl'; cases hl'
  have ev : vapor I.set.tk I.set.rh I.set.ice = .ok (e', rho') := by rw [hu] at hv'; exact hv'
  rw [hv] at ev; cases ev
  obtain ⟨es, q1, q2⟩ := (hc k hk).2 j hj
  obtain ⟨es', r1, r2⟩ := (hc' k (by rw [hu]; exact hk)).2 j (by rw [hu]; exact hj)
  have ee : I.set.es[j]? = some es' := by rw [hu] at r1; exact r1
  rw [q1] at ee; cases ee
  have ok := cellStep_ok q2
  have ok' := cellStep_ok r2
  have hg : cellGlobals I'.set { g1 with fromSat := I'.set.satellite } es =
      cellGlobals I.set { g1 with fromSat := I.set.satellite } es := by rw [hu]; rfl
  have hp' : pathOf I'.set (fun i => (refractivity1 (I'.set.p i) (I'.set.tk i) (e i)).2.2) k =
      .ok fun i => c * (if i = 0 then 0 else
        (I.set.z i - I.set.z (i - 1)) * (1 / sin (I.set.angles k * π / 180))) := by
    rw [pathOf_plane (by rw [hu]; exact hr) (by rw [hu]; exact ha), hu]
    congr 1
    funext i
    by_cases h0 : i = 0
    · simp [h0]
    · simp only [h0, if_false]; ring
  rw [pathOf_plane hr ha] at ok
  rw [hp', hg] at ok'
  obtain ⟨a, a1, a2, a3, a4, a5⟩ := ok.clear
  obtain ⟨b, b1, b2, b3, b4, b5⟩ := ok'.clear
  have eb : clearsky A (cellGlobals I.set { g1 with fromSat := I.set.satellite } es) I.set e (I.set.frq j) = .ok b := by
    rw [hu] at b1; exact b1
  rw [a1] at eb; cases eb
  have hnl : I'.set.nl = I.set.nl := by rw [hu]
  rw [hnl] at b4 b5
  obtain ⟨w1, w2⟩ := integ_scale c a4 b4
  obtain ⟨d1, d2⟩ := integ_scale c a5 b5
  have cld : u'.sptauliq = u.sptauliq.map (c * ·) ∧ u'.sptauice = u.sptauice.map (c * ·) ∧
      u'.ptauliq = u.ptauliq.map (fun f i => c * f i) ∧ u'.ptauice = u.ptauice.map (fun f i => c * f i) := by
    rcases hst with hcl | ⟨hcl, n1, n2⟩
    · obtain ⟨dl, di, x, x1, x2, x3, x4⟩ := ok.cloud hcl
      obtain ⟨dl', di', y, y1, y2, y3, y4⟩ := ok'.cloud (by rw [hu]; exact hcl)
      have : I.set.dens = some (dl', di') := by rw [hu] at y1; exact y1
      rw [x1] at this; cases this
      have : cloudyAbs A (cellGlobals I.set { g1 with fromSat := I.set.satellite } es).sel.liq I.set.nl I.set.tk dl di
          (I.set.frq j) = .ok y := by rw [hu] at y2; exact y2
      rw [x2] at this; cases this
      rw [hnl] at y3 y4
      obtain ⟨l1, l2⟩ := integ_scale c x3 y3
      obtain ⟨i1, i2⟩ := integ_scale c x4 y4
      exact ⟨l1, i1, l2, i2⟩
    · have s := ok.stale hcl
      have s' := ok'.stale (by rw [hu]; exact hcl)
      have z := n1 j k
      have z' := n2 j k
      refine ⟨?_, ?_, ?_, ?_⟩
      · rw [← s'.sptauliq, ← s.sptauliq, z'.sptauliq, z.sptauliq]; simp [Cell.zero]
      · rw [← s'.sptauice, ← s.sptauice, z'.sptauice, z.sptauice]; simp [Cell.zero]
      · rw [← s'.ptauliq, ← s.ptauliq, z'.ptauliq, z.ptauliq]; simp [Cell.zero]
      · rw [← s'.ptauice, ← s.ptauice, z'.ptauice, z.ptauice]; simp [Cell.zero]
  obtain ⟨c1, c2, c3, c4⟩ := cld
  refine ⟨b2.trans a2.symm, b3.trans a3.symm, w1, d1, c1, c2, w2, d2, c3, c4, ?_⟩
  change u'.taulay = u.taulay.map _
  unfold Cell.taulay
  rw [w2, d2, c3, c4]
  cases u.ptauwet <;> cases u.ptaudry <;> cases u.ptauice <;> cases u.ptauliq <;>
    simp only [Option.map_some, Option.map_none, Option.some.injEq]
  funext i
  ring

/-- A successful run with finite paths: its opacities, none of them negative, and the radiance computed from them. -/
theorem run_view (h : (execute A g I).1 = .ok rows) (hcl : I.set.cloudy = true ∨ I.set.cloudy = false ∧ NoClouds I.out)
    {j k : ℕ} (hj : j < I.set.nf) (hk : k < I.set.nang) (hp : GoodPath I.set k) :
    let u := (execute A g I).2.out.cell j k
    ∃ τ es out, u.taulay = some τ ∧ (∀ i, 0 ≤ τ i) ∧ I.set.es[j]? = some es ∧
      planck I.set.satellite es (I.set.frq j) I.set.nl I.set.tk τ = some out ∧
      u.tbtotal = bright out.hvk out.boftotl ∧ u.tbatm = bright out.hvk (out.boftatm (I.set.nl - 1)) ∧
      u.tmr = out.boftmr.bind (bright out.hvk) := by
  intro u
  obtain ⟨g1, e, rho, -, hv, -, hc⟩ := (execute_ok h).ex
  obtain ⟨es, q1, q2⟩ := (hc k hk).2 j hj
  obtain ⟨d, hd1, hd2⟩ := hp e rho hv
  rw [hd1] at q2
  have ok := cellStep_ok q2
  obtain ⟨w, y, l, i, n1, n2, n3, n4, nn⟩ := cell_nonneg hd2 ok
    (hcl.imp id fun ⟨_, z⟩ => ⟨_, _, (z j k).ptauliq, (z j k).ptauice, fun _ => le_rfl, fun _ => le_rfl⟩)
  have tl : u.taulay = some fun n => w n + y n + i n + l n := by
    simp only [u, Cell.taulay, n1, n2, n3, n4]
  obtain ⟨out, o1, o2, o3, o4, -⟩ := ok.rad _ tl
  rw [cellGlobals_emissivity, cellGlobals_fromSat] at o1
  exact ⟨_, es, out, tl, fun n => by have := nn n; linarith [this.1, this.2.1, this.2.2.1, this.2.2.2], q1, o1, o2, o3, o4⟩

theorem stretch_view {c hh : ℝ} (h : (execute A g I).1 = .ok rows) (h' : (execute A g I').1 = .ok rows')
    (hs : Stretches c hh I I') (hc : 0 ≤ c) {j k : ℕ} (hj : j < I.set.nf) (hk : k < I.set.nang)
    (ha0 : 0 < I.set.angles k) (ha1 : I.set.angles k < 180) (hz : ∀ i, i + 1 < I.set.nl → I.set.z i ≤ I.set.z (i + 1)) :
    let u := (execute A g I).2.out.cell j k
    let u' := (execute A g I').2.out.cell j k
    ∃ τ es out out', u.taulay = some τ ∧ u'.taulay = some (fun i => c * τ i) ∧ (∀ i, 0 ≤ τ i) ∧ I.set.es[j]? = some es ∧
      planck I.set.satellite es (I.set.frq j) I.set.nl I.set.tk τ = some out ∧
      planck I.set.satellite es (I.set.frq j) I.set.nl I.set.tk (fun i => c * τ i) = some out' ∧
      (u.tbtotal = bright out.hvk out.boftotl ∧ u.tbatm = bright out.hvk (out.boftatm (I.set.nl - 1)) ∧
        u.tmr = out.boftmr.bind (bright out.hvk)) ∧
      (u'.tbtotal = bright out'.hvk out'.boftotl ∧ u'.tbatm = bright out'.hvk (out'.boftatm (I.set.nl - 1)) ∧
        u'.tmr = out'.boftmr.bind (bright out'.hvk)) := by
  intro u u'
  have key := (C123_opacity h h' hs hj hk (sin_pos_of_angle ha0 ha1).ne').2.2.2.2.2.2.2.2.2.2
  obtain ⟨hr, hst, y, hu⟩ := hs
  obtain ⟨τ, es, out, t1, t2, e1, p1, r1⟩ := run_view h (hst.imp id fun q => ⟨q.1, q.2.1⟩) hj hk (goodPath_plane hr ha0 ha1 hz)
  obtain ⟨τ', es', out', t1', -, e1', p1', r1'⟩ := run_view (j := j) (k := k) h'
    (hst.imp (fun q => by rw [hu]; exact q) fun q => ⟨by rw [hu]; exact q.1, q.2.2⟩) (by rw [hu]; exact hj) (by rw [hu]; exact hk)
    (goodPath_plane (by rw [hu]; exact hr) (by rw [hu]; exact ha0) (by rw [hu]; exact ha1) fun i hi => by
      rw [hu] at hi ⊢
      have := mul_le_mul_of_nonneg_left (hz i hi) hc
      simp only
      linarith)
  rw [t1, t1'] at key
  simp only [Option.map_some, Option.some.injEq] at key
  rw [hu] at e1' p1' r1'
  simp only at e1' p1' r1'
  rw [e1] at e1'; cases e1'
  rw [key] at p1' t1'
  exact ⟨τ, es, out, out', t1, t1', t2, e1, p1, p1', r1, r1'⟩

/-- **C123.** Moving the origin of the heights changes nothing. -/
theorem C123_origin {hh : ℝ} (h : (execute A g I).1 = .ok rows) (h' : (execute A g I').1 = .ok rows')
    (hs : Stretches 1 hh I I') {j k : ℕ} (hj : j < I.set.nf) (hk : k < I.set.nang)
    (ha0 : 0 < I.set.angles k) (ha1 : I.set.angles k < 180) (hz : ∀ i, i + 1 < I.set.nl → I.set.z i ≤ I.set.z (i + 1)) :
    let u := (execute A g I).2.out.cell j k
    let u' := (execute A g I').2.out.cell j k
    u'.taulay = u.taulay ∧ u'.tbtotal = u.tbtotal ∧ u'.tbatm = u.tbatm ∧ u'.tmr = u.tmr := by
  intro u u'
  obtain ⟨τ, es, out, out', t1, t2, -, -, p1, p2, ⟨a1, a2, a3⟩, b1, b2, b3⟩ :=
    stretch_view h h' hs zero_le_one hj hk ha0 ha1 hz
  simp only [one_mul] at t2 p2
  rw [p1] at p2; cases p2
  exact ⟨t2.trans t1.symm, b1.trans a1.symm, b2.trans a2.symm, b3.trans a3.symm⟩

/-- **C123.** From the ground, through air that does not get warmer with height: stretching raises the brightness
temperature if and only if there is any opacity; otherwise nothing changes. -/
theorem C123_ground {c hh : ℝ} (h : (execute A g I).1 = .ok rows) (h' : (execute A g I').1 = .ok rows')
    (hs : Stretches c hh I I') (hc : 1 < c) {j k : ℕ} (hj : j < I.set.nf) (hk : k < I.set.nang)
    (ha0 : 0 < I.set.angles k) (ha1 : I.set.angles k < 180) (hz : ∀ i, i + 1 < I.set.nl → I.set.z i ≤ I.set.z (i + 1))
    (hsat : I.set.satellite = false) (hf : 0 < I.set.frq j) (hcool : Cooling I.set.nl I.set.tk)
    (htop : 2.728 < I.set.tk (I.set.nl - 1))
    (hop : ∀ τ, ((execute A g I).2.out.cell j k).taulay = some τ → c * opacityBelow τ (I.set.nl - 1) < 125) :
    ∃ τ Tb Tb', ((execute A g I).2.out.cell j k).taulay = some τ ∧
      ((execute A g I).2.out.cell j k).tbtotal = some Tb ∧ ((execute A g I').2.out.cell j k).tbtotal = some Tb' ∧
      (Tb < Tb' ↔ ∃ i, 1 ≤ i ∧ i < I.set.nl ∧ 0 < τ i) ∧ (Tb = Tb' ↔ ∀ i, 1 ≤ i → i < I.set.nl → τ i = 0) := by
  obtain ⟨τ, es, out, out', t1, t2, t3, -, p1, p2, ⟨a1, -⟩, b1, -⟩ :=
    stretch_view h h' hs (by linarith) hj hk ha0 ha1 hz
  rw [hsat] at p1 p2
  have thick : Thicker I.set.nl τ fun i => c * τ i := fun i _ _ =>
    ⟨t3 i, le_mul_of_one_le_left (t3 i) hc.le⟩
  obtain ⟨a, b, e1, e2, e3, e4⟩ := C122_ground hf hcool htop thick
    (by have := hop τ t1; unfold opacityBelow at this ⊢; rwa [← Finset.mul_sum]) p1 p2
  refine ⟨τ, a, b, t1, a1.trans e1, b1.trans e2, e3.trans ?_, e4.trans ?_⟩
  · refine exists_congr fun i => and_congr_right fun _ => and_congr_right fun _ => ⟨fun q => ?_, fun q => ?_⟩
    · exact (t3 i).lt_of_ne fun z => by rw [← z] at q; simp at q
    · nlinarith
  · refine forall_congr' fun i => imp_congr_right fun _ => imp_congr_right fun _ => ⟨fun q => ?_, fun q => ?_⟩
    · have : (c - 1) * τ i = 0 := by linarith
      exact (mul_eq_zero.1 this).resolve_left (by linarith)
    · simp [q]

/-- **C123.** From a satellite over a black surface: stretching lowers the brightness temperature if and only if some layer
with opacity has an upper level colder than the surface; otherwise nothing changes. -/
theorem C123_satellite {c hh : ℝ} (h : (execute A g I).1 = .ok rows) (h' : (execute A g I').1 = .ok rows')
    (hs : Stretches c hh I I') (hc : 1 < c) {j k : ℕ} (hj : j < I.set.nf) (hk : k < I.set.nang)
    (ha0 : 0 < I.set.angles k) (ha1 : I.set.angles k < 180) (hz : ∀ i, i + 1 < I.set.nl → I.set.z i ≤ I.set.z (i + 1))
    (hsat : I.set.satellite = true) (hf : 0 < I.set.frq j) (hcool : Cooling I.set.nl I.set.tk)
    (hes : I.set.es[j]? = some 1)
    (hop : ∀ τ, ((execute A g I).2.out.cell j k).taulay = some τ → c * opacityBelow τ (I.set.nl - 1) < 125) :
    ∃ τ Tb Tb', ((execute A g I).2.out.cell j k).taulay = some τ ∧
      ((execute A g I).2.out.cell j k).tbtotal = some Tb ∧ ((execute A g I').2.out.cell j k).tbtotal = some Tb' ∧
      (Tb' < Tb ↔ ∃ i, 1 ≤ i ∧ i < I.set.nl ∧ 0 < τ i ∧ I.set.tk i < I.set.tk 0) ∧
      (Tb' = Tb ↔ ∀ i, 1 ≤ i → i < I.set.nl → τ i = 0 ∨ I.set.tk i = I.set.tk 0) := by
  obtain ⟨τ, es, out, out', t1, t2, t3, he, p1, p2, ⟨a1, -⟩, b1, -⟩ :=
    stretch_view h h' hs (by linarith) hj hk ha0 ha1 hz
  rw [hes] at he; cases he
  rw [hsat] at p1 p2
  have thick : Thicker I.set.nl τ fun i => c * τ i := fun i _ _ =>
    ⟨t3 i, le_mul_of_one_le_left (t3 i) hc.le⟩
  obtain ⟨a, b, e1, e2, e3, e4⟩ := C122_satellite hf hcool thick
    (by have := hop τ t1; unfold opacityBelow at this ⊢; rwa [← Finset.mul_sum]) p1 p2
  refine ⟨τ, a, b, t1, a1.trans e1, b1.trans e2, e3.trans ?_, e4.trans ?_⟩
  · refine exists_congr fun i => and_congr_right fun _ => and_congr_right fun _ => and_congr_left fun _ =>
      ⟨fun q => ?_, fun q => ?_⟩
    · exact (t3 i).lt_of_ne fun z => by rw [← z] at q; simp at q
    · nlinarith
  · refine forall_congr' fun i => imp_congr_right fun _ => imp_congr_right fun _ => or_congr_left ⟨fun q => ?_, fun q => ?_⟩
    · have : (c - 1) * τ i = 0 := by linarith
      exact (mul_eq_zero.1 this).resolve_left (by linarith)
    · simp [q]

/-! ## Concrete runs -/

/-- Three levels of a real profile, `c` kilometres apart. -/
noncomputable def hazeS (sat cloudy : Bool) (c : ℝ) : Settings :=
  { realS cloudy with satellite := sat, z := fun i => c * i + 0 }

theorem haze_heights (sat cloudy : Bool) {c : ℝ} (hc : 0 ≤ c) (i : ℕ) :
    (hazeS sat cloudy c).z i ≤ (hazeS sat cloudy c).z (i + 1) := by
  simp only [hazeS]
  push_cast
  linarith

theorem haze_good (sat cloudy : Bool) {c : ℝ} (hc : 0 ≤ c) : GoodInput (hazeS sat cloudy c) where
  levels := (realS_good cloudy).levels
  emissivity := (realS_good cloudy).emissivity
  frq := (realS_good cloudy).frq
  tk := (realS_good cloudy).tk
  p := (realS_good cloudy).p
  rh := (realS_good cloudy).rh
  vapour := (realS_good cloudy).vapour
  ice := rfl
  amu := rfl
  path k hk := goodPath_plane rfl (demo_angles k hk).1 (demo_angles k hk).2 fun i _ => haze_heights sat cloudy hc i

theorem haze_warm (sat cloudy : Bool) (c : ℝ) : ∀ i < 3, (0 : ℝ) < 1 →
    (210 : ℝ) ≤ (hazeS sat cloudy c).tk i ∧ (hazeS sat cloudy c).tk i ≤ 396 := fun i hi _ => by
  have h3 : (i : ℝ) < 3 := by exact_mod_cast hi
  have h0 : (0 : ℝ) ≤ i := Nat.cast_nonneg i
  simp only [hazeS, realS]
  constructor <;> linarith

theorem haze_cooling (sat cloudy : Bool) (c : ℝ) : Cooling 3 (hazeS sat cloudy c).tk := by
  refine ⟨fun i hi => ?_, fun i hi => ?_⟩
  · have := haze_warm sat cloudy c i hi one_pos
    linarith [this.1]
  · simp only [hazeS, realS]
    push_cast
    linarith

theorem haze_runs (sat cloudy : Bool) {c : ℝ} (hc : 0 ≤ c) :
    ∃ rows, (execute shipped (selected Globals.init "R24") ⟨hazeS sat cloudy c, Store.zero⟩).1 = .ok rows := by
  cases cloudy
  · exact (C32_init_absmdl "R24" Globals.init (I := ⟨hazeS sat false c, Store.zero⟩) (haze_good sat false hc) rfl
      (fun h => by simp [ozoneActive, Globals.init] at h) (realS_frq false)).1 (by decide)
  · exact (C32_init_absmdl_cloudy "R24" Globals.init (I := ⟨hazeS sat true c, Store.zero⟩) (haze_good sat true hc)
      (fun _ => ⟨_, _, _, _, rfl, rfl⟩) rfl (show 0 < 2 by decide) (show 0 < 2 by decide) (dl := fun _ => 1)
      (di := fun _ => 0) rfl ⟨0, show 0 < 3 by decide, one_pos⟩ (haze_warm sat true c) (fun h => by simp [ozoneActive, Globals.init] at h) (realS_frq true)).1
      (by decide)

theorem haze_stretches (sat cloudy : Bool) (c : ℝ) :
    Stretches c 0 ⟨hazeS sat cloudy 1, Store.zero⟩ ⟨hazeS sat cloudy c, Store.zero⟩ := by
  refine ⟨rfl, ?_, ?_⟩
  · cases cloudy
    · exact Or.inr ⟨rfl, fun _ _ => ⟨rfl, rfl, rfl, rfl, rfl⟩, fun _ _ => ⟨rfl, rfl, rfl, rfl, rfl⟩⟩
    · exact Or.inl rfl
  · exact ⟨0, by simp [hazeS, realS, demoS]⟩

/-- Close enough together, the levels are nowhere near opaque. -/
theorem haze_thin (sat : Bool) : ∃ c : ℝ, 0 < c ∧ ∀ τ,
    ((execute shipped (selected Globals.init "R24") ⟨hazeS sat true c, Store.zero⟩).2.out.cell 0 1).taulay = some τ →
      opacityBelow τ 2 < 60 := by
  obtain ⟨rows, h⟩ := haze_runs sat true zero_le_one
  have sn := (sin_pos_of_angle (demo_angles 1 (by decide)).1 (demo_angles 1 (by decide)).2).ne'
  obtain ⟨τ, -, -, t1, t2, -⟩ := run_view h (Or.inl rfl) (show 0 < 2 by decide) (show 1 < 2 by decide)
    ((haze_good sat true zero_le_one).path 1 (show 1 < 2 by decide))
  have nn : 0 ≤ opacityBelow τ 2 := Finset.sum_nonneg fun i _ => t2 i
  refine ⟨1 / (opacityBelow τ 2 + 1), by positivity, fun τ' ht => ?_⟩
  obtain ⟨rows', h'⟩ := haze_runs sat true (c := 1 / (opacityBelow τ 2 + 1)) (by positivity)
  have key := (C123_opacity h h' (haze_stretches sat true _) (show 0 < 2 by decide) (show 1 < 2 by decide) sn).2.2.2.2.2.2.2.2.2.2
  rw [ht, t1] at key
  simp only [Option.map_some, Option.some.injEq] at key
  rw [key]
  have : opacityBelow (fun i => 1 / (opacityBelow τ 2 + 1) * τ i) 2 = 1 / (opacityBelow τ 2 + 1) * opacityBelow τ 2 := by
    conv_lhs => unfold opacityBelow
    rw [← Finset.mul_sum]
    rfl
  rw [this, one_div, inv_mul_lt_iff₀ (by positivity)]
  linarith

/-- R24: the cloud is seen from the ground (C122). -/
example : ∃ c Tb Tb' : ℝ,
    ((execute shipped (selected Globals.init "R24") ⟨hazeS false false c, Store.zero⟩).2.out.cell 0 1).tbtotal = some Tb ∧
    ((execute shipped (selected Globals.init "R24") ⟨hazeS false true c, Store.zero⟩).2.out.cell 0 1).tbtotal = some Tb' ∧
    Tb < Tb' := by
  obtain ⟨c, hc, thin⟩ := haze_thin false
  obtain ⟨rows, h⟩ := haze_runs false false hc.le
  obtain ⟨rows', h'⟩ := haze_runs false true hc.le
  exact ⟨c, C122_shipped_ground h h' ⟨rfl, fun _ _ => ⟨rfl, rfl, rfl, rfl, rfl⟩, _, _, rfl⟩ rfl (by simp)
    (show 0 < 2 by decide) (show 1 < 2 by decide) rfl (demo_angles 1 (by decide)).1 (demo_angles 1 (by decide)).2
    (fun i _ => haze_heights false false hc.le i) ((realS_good false).frq 0 (by decide)) (dl := fun _ => 1) (di := fun _ => 0)
    rfl (haze_warm false false c) le_rfl (show 1 < 3 by decide) (by simp [hazeS, hc]) one_pos one_pos rfl
    (haze_cooling false false c) (by norm_num [hazeS, realS, demoS]) fun τ ht => (thin τ ht).trans (by norm_num)⟩

/-- R24: and from space (C122). -/
example : ∃ c Tb Tb' : ℝ,
    ((execute shipped (selected Globals.init "R24") ⟨hazeS true false c, Store.zero⟩).2.out.cell 0 1).tbtotal = some Tb ∧
    ((execute shipped (selected Globals.init "R24") ⟨hazeS true true c, Store.zero⟩).2.out.cell 0 1).tbtotal = some Tb' ∧
    Tb' < Tb := by
  obtain ⟨c, hc, thin⟩ := haze_thin true
  obtain ⟨rows, h⟩ := haze_runs true false hc.le
  obtain ⟨rows', h'⟩ := haze_runs true true hc.le
  exact ⟨c, C122_shipped_satellite h h' ⟨rfl, fun _ _ => ⟨rfl, rfl, rfl, rfl, rfl⟩, _, _, rfl⟩ rfl (by simp)
    (show 0 < 2 by decide) (show 1 < 2 by decide) rfl (demo_angles 1 (by decide)).1 (demo_angles 1 (by decide)).2
    (fun i _ => haze_heights true false hc.le i) ((realS_good false).frq 0 (by decide)) (dl := fun _ => 1) (di := fun _ => 0)
    rfl (haze_warm true false c) le_rfl (show 1 < 3 by decide) (by simp [hazeS, hc]) one_pos one_pos rfl
    (haze_cooling true false c) (by simp [hazeS, realS, demoS]) (by norm_num [hazeS, realS])
    fun τ ht => (thin τ ht).trans (by norm_num)⟩

/-- The liquid water between the two lowest levels is part of the opacity. -/
theorem haze_seen (sat : Bool) {c : ℝ} (hc : 0 < c) {τ : Val}
    (ht : ((execute shipped (selected Globals.init "R24") ⟨hazeS sat true c, Store.zero⟩).2.out.cell 0 1).taulay = some τ) :
    0 < τ 1 := by
  obtain ⟨rows, h⟩ := haze_runs sat false hc.le
  obtain ⟨rows', h'⟩ := haze_runs sat true hc.le
  obtain ⟨σ, σ', lq, s1, s2, -, -, s5⟩ := C116_shipped h h' ⟨rfl, fun _ _ => ⟨rfl, rfl, rfl, rfl, rfl⟩, _, _, rfl⟩ rfl
    (by simp) (show 0 < 2 by decide) (show 1 < 2 by decide) rfl (demo_angles 1 (by decide)).1 (demo_angles 1 (by decide)).2
    (fun i _ => haze_heights sat false hc.le i) ((realS_good false).frq 0 (by decide)) (dl := fun _ => 1) (di := fun _ => 0)
    rfl (haze_warm sat false c) le_rfl (show 1 < 3 by decide) (by simp [hazeS, hc]) one_pos one_pos
  rw [ht] at s2; cases s2
  obtain ⟨τ0, -, -, t1, t2, -⟩ := run_view h (Or.inr ⟨rfl, fun _ _ => ⟨rfl, rfl, rfl, rfl, rfl⟩⟩) (show 0 < 2 by decide)
    (show 1 < 2 by decide) ((haze_good sat false hc.le).path 1 (show 1 < 2 by decide))
  rw [s1] at t1; cases t1
  exact (t2 1).trans_lt s5

theorem haze_twice (sat : Bool) (c : ℝ) :
    Stretches 2 0 ⟨hazeS sat true c, Store.zero⟩ ⟨hazeS sat true (2 * c), Store.zero⟩ :=
  ⟨rfl, Or.inl rfl, 0, by simp [hazeS, realS, demoS, mul_assoc]⟩

/-- Layers twice as thick: warmer from the ground. -/
example : ∃ c Tb Tb' : ℝ,
    ((execute shipped (selected Globals.init "R24") ⟨hazeS false true c, Store.zero⟩).2.out.cell 0 1).tbtotal = some Tb ∧
    ((execute shipped (selected Globals.init "R24") ⟨hazeS false true (2 * c), Store.zero⟩).2.out.cell 0 1).tbtotal = some Tb' ∧
    Tb < Tb' := by
  obtain ⟨c, hc, thin⟩ := haze_thin false
  obtain ⟨rows, h⟩ := haze_runs false true hc.le
  obtain ⟨rows', h'⟩ := haze_runs false true (c := 2 * c) (by linarith)
  obtain ⟨τ, Tb, Tb', t1, e1, e2, e3, -⟩ := C123_ground h h' (haze_twice false c) one_lt_two (show 0 < 2 by decide)
    (show 1 < 2 by decide) (demo_angles 1 (by decide)).1 (demo_angles 1 (by decide)).2
    (fun i _ => haze_heights false true hc.le i) rfl ((realS_good false).frq 0 (by decide)) (haze_cooling false true c)
    (by norm_num [hazeS, realS, demoS]) fun τ ht => by
      have : opacityBelow τ 2 < 60 := thin τ ht
      change 2 * opacityBelow τ 2 < 125
      linarith
  exact ⟨c, Tb, Tb', e1, e2, e3.2 ⟨1, le_rfl, show 1 < 3 by decide, haze_seen false hc t1⟩⟩

/-- And colder from space. -/
example : ∃ c Tb Tb' : ℝ,
    ((execute shipped (selected Globals.init "R24") ⟨hazeS true true c, Store.zero⟩).2.out.cell 0 1).tbtotal = some Tb ∧
    ((execute shipped (selected Globals.init "R24") ⟨hazeS true true (2 * c), Store.zero⟩).2.out.cell 0 1).tbtotal = some Tb' ∧
    Tb' < Tb := by
  obtain ⟨c, hc, thin⟩ := haze_thin true
  obtain ⟨rows, h⟩ := haze_runs true true hc.le
  obtain ⟨rows', h'⟩ := haze_runs true true (c := 2 * c) (by linarith)
  obtain ⟨τ, Tb, Tb', t1, e1, e2, e3, -⟩ := C123_satellite h h' (haze_twice true c) one_lt_two (show 0 < 2 by decide)
    (show 1 < 2 by decide) (demo_angles 1 (by decide)).1 (demo_angles 1 (by decide)).2
    (fun i _ => haze_heights true true hc.le i) rfl ((realS_good false).frq 0 (by decide)) (haze_cooling true true c)
    (by simp [hazeS, realS, demoS]) fun τ ht => by
      have : opacityBelow τ 2 < 60 := thin τ ht
      change 2 * opacityBelow τ 2 < 125
      linarith
  exact ⟨c, Tb, Tb', e1, e2, e3.2 ⟨1, le_rfl, show 1 < 3 by decide, haze_seen true hc t1, by norm_num [hazeS, realS]⟩⟩

/-- A station 5 km higher, everything else moved with it. -/
example : ((execute shipped (selected Globals.init "R24")
      ⟨{ hazeS true true 1 with z := fun i => 1 * (hazeS true true 1).z i + 5, z0 := 5 }, Store.zero⟩).2.out.cell 0 1).tbtotal =
    ((execute shipped (selected Globals.init "R24") ⟨hazeS true true 1, Store.zero⟩).2.out.cell 0 1).tbtotal := by
  obtain ⟨rows, h⟩ := haze_runs true true zero_le_one
  have good : GoodInput { hazeS true true 1 with z := fun i => 1 * (hazeS true true 1).z i + 5, z0 := 5 } :=
    { haze_good true true zero_le_one with
      path := fun k hk => goodPath_plane rfl (demo_angles k hk).1 (demo_angles k hk).2 fun i _ => by
        have := haze_heights true true zero_le_one i
        simp only
        linarith }
  obtain ⟨rows', h'⟩ := (C32_init_absmdl_cloudy "R24" Globals.init
    (I := ⟨{ hazeS true true 1 with z := fun i => 1 * (hazeS true true 1).z i + 5, z0 := 5 }, Store.zero⟩) good
    (fun _ => ⟨_, _, _, _, rfl, rfl⟩) rfl (show 0 < 2 by decide) (show 0 < 2 by decide) (dl := fun _ => 1)
    (di := fun _ => 0) rfl ⟨0, show 0 < 3 by decide, one_pos⟩ (haze_warm true true 1)
    (fun h => by simp [ozoneActive, Globals.init] at h) (realS_frq true)).1 (by decide)
  exact (C123_origin (hh := 5) h h' ⟨rfl, Or.inl rfl, 5, rfl⟩ (show 0 < 2 by decide) (show 1 < 2 by decide)
    (demo_angles 1 (by decide)).1 (demo_angles 1 (by decide)).2 fun i _ => haze_heights true true zero_le_one i).2.1

end Verif.Props
