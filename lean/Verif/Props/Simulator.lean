import Verif.Lemmas.SimulatorCell
import Verif.Props.RayTracing

/-!
# C23, C26, C28, C29: one simulator run

Statements are about `execute` (the outcome `.1` and what it leaves on the object, `.2.out`).
-/

namespace Verif.Props

open Verif.Py Verif.Spec Verif.Model Real

variable {A : AbsRoutines} {g : Globals} {I : Inst} {rows : List Row}

/-! ## A concrete simulator used in the examples -/

/-- Absorption routines with constant values. -/
def demoA : AbsRoutines where
  h2o _ _ _ _ _ _ := .ok (1, 0)
  o2 _ _ _ _ _ _ := .ok (2, 0)
  n2 _ _ _ _ := .ok 0
  o3 _ _ _ _ _ _ := .ok 0
  liq _ w _ _ := .ok w
  h2oFile _ := some fun _ => none
  o2File _ := some fun _ => none

theorem demoA_total : TotalRoutines demoA :=
  ⟨fun _ _ _ _ _ _ => ⟨_, rfl⟩, fun _ _ _ _ _ _ => ⟨_, rfl⟩, fun _ _ _ _ => ⟨_, rfl⟩,
    fun _ _ _ _ _ _ => ⟨_, rfl⟩, fun _ _ _ _ => ⟨_, rfl⟩⟩

/-- A process in which `init_absmdl('R98')` has been called. -/
noncomputable def demoG : Globals :=
  { Globals.init with sel := ⟨some "R98", some "R98", some "R98", some "R98", none⟩ }

theorem demoG_selected : Selected demoA demoG.sel :=
  ⟨⟨_, _, rfl, rfl⟩, ⟨_, _, rfl, rfl⟩, ⟨_, rfl⟩, ⟨_, rfl⟩⟩

/-- Three levels, two frequencies, two angles, a cloud between levels 0 and 2. -/
noncomputable def demoS : Settings where
  nl := 3
  z i := i
  z0 := 0
  p _ := 1000
  tk i := 300 - i
  rh _ := 0.5
  nf := 2
  frq j := 22 + j
  nang := 2
  angles k := 90 - 60 * k
  o3n := none
  amu := none
  rayTracing := false
  satellite := true
  cloudy := true
  ice := false
  es := [1, 1]
  clouds := some [(0, 2)]
  dens := some (fun _ => 1, fun _ => 0)

theorem demo_angles : ∀ k < demoS.nang, 0 < demoS.angles k ∧ demoS.angles k < 180 := by
  intro k hk
  have : k = 0 ∨ k = 1 := by simp only [demoS] at hk; omega
  rcases this with rfl | rfl <;> norm_num [demoS]

theorem sin_pos_of_angle {a : ℝ} (h0 : 0 < a) (h1 : a < 180) : 0 < sin (a * π / 180) := by
  apply sin_pos_of_pos_of_lt_pi
  · have := pi_pos; positivity
  · have := pi_pos
    rw [div_lt_iff₀ (by norm_num)]
    nlinarith

/-- Any variation of the concrete simulator that keeps its plane-parallel geometry runs. -/
theorem demo_runs (S : Settings) (o : Store) (hice : S.ice = false) (hn : 1 ≤ S.nl) (hes : S.nf ≤ S.es.length)
    (hc : CloudInput S) (hr : S.rayTracing = false)
    (ha : ∀ k < S.nang, 0 < S.angles k ∧ S.angles k < 180) :
    ∃ rows, (execute demoA demoG ⟨S, o⟩).1 = .ok rows :=
  execute_total demoA_total demoG_selected hice hn hes hc hr fun k hk =>
    (sin_pos_of_angle (ha k hk).1 (ha k hk).2).ne'

theorem demo_cloud : CloudInput demoS := fun _ => ⟨_, _, _, _, rfl, rfl⟩

/-! ## C23 -/

/-- The same simulator looking at the zenith for every angle index. -/
def atZenith (I : Inst) : Inst := ⟨{ I.set with angles := fun _ => 90 }, I.out⟩

theorem sin_ninety : sin (90 * π / 180) = 1 := by
  rw [show (90:ℝ) * π / 180 = π / 2 by ring]; exact sin_pi_div_two

theorem integ_scale {z : Bool} {nl : ℕ} {x d : Val} {ibeg : ℕ} {factor : ℝ} (c : ℝ) {s : Option ℝ}
    {xs : Option Val} {s' : Option ℝ} {xs' : Option Val}
    (h1 : integ z nl x (.ok d) ibeg factor = .ok (s, xs))
    (h2 : integ z nl x (.ok fun i => c * d i) ibeg factor = .ok (s', xs')) :
    s' = s.map (c * ·) ∧ xs' = xs.map fun f i => c * f i := by
  have key : ∃ t ts, expInt z nl x d ibeg nl factor = .ok (t, ts) ∧
      expInt z nl x (fun i => c * d i) ibeg nl factor = .ok (c * t, fun i => c * ts i) := by
    rcases le_total ibeg nl with h | h
    · exact C15_path_scaling c h
    · refine ⟨0, fun _ => 0, ?_, ?_⟩ <;> unfold expInt <;> rw [forRangeE_of_le h] <;> norm_num
  obtain ⟨t, ts, e1, e2⟩ := key
  simp only [integ, e1, Except.map] at h1
  simp only [integ, e2, Except.map] at h2
  cases h1; cases h2
  exact ⟨rfl, rfl⟩

theorem cloudDen_scale (den d : Val) (c : ℝ) (cl : List (ℕ × ℕ)) {s s' : Option ℝ}
    (h1 : cloudDen den (.ok d) cl = .ok s) (h2 : cloudDen den (.ok fun i => c * d i) cl = .ok s') :
    s' = s.map (c * ·) := by
  simp only [cloudDen] at h1 h2
  cases h1; cases h2
  simp only [Option.map_some, Option.some.injEq, C18_trapezoid]
  rw [← mul_assoc, mul_comm c, mul_assoc]
  congr 1
  rw [← List.sum_map_mul_left]
  refine congrArg _ (List.map_congr_left fun p _ => ?_)
  unfold trapezoid
  rw [Finset.mul_sum]
  exact Finset.sum_congr rfl fun j _ => by ring

theorem path_pair (I : Inst) (refi : Val) {k : ℕ} (hr : I.set.rayTracing = false)
    (hs : sin (I.set.angles k * π / 180) ≠ 0) :
    ∃ d : Val, pathOf (atZenith I).set refi k = .ok d ∧
      pathOf I.set refi k = .ok fun i => 1 / sin (I.set.angles k * π / 180) * d i := by
  refine ⟨fun i => if i = 0 then 0 else I.set.z i - I.set.z (i - 1), ?_, ?_⟩
  · have hr' : (atZenith I).set.rayTracing = false := hr
    have h90 : sin ((atZenith I).set.angles k * π / 180) = 1 := sin_ninety
    rw [pathOf_plane hr' (by rw [h90]; norm_num), h90]
    simp only [div_one, mul_one]
    rfl
  · rw [pathOf_plane hr hs]
    congr 1
    funext i
    by_cases hi : i = 0
    · simp [hi]
    · simp only [hi, if_false]; rw [mul_comm]

/-- Without ray tracing every quantity integrated along the path at elevation angle `a` is the zenith quantity
divided by `sin a`: vapour, wet and dry refractivity, cloud water and ice, and every opacity (total and per layer). -/
theorem C23_slant (h : (execute A g I).1 = .ok rows) {rows90 : List Row}
    (h90 : (execute A g (atZenith I)).1 = .ok rows90) (hr : I.set.rayTracing = false) {k : ℕ}
    (hk : k < I.set.nang) (ha0 : 0 < I.set.angles k) (ha1 : I.set.angles k < 180) :
    let c := 1 / sin (I.set.angles k * π / 180)
    let o := (execute A g I).2.out
    let o90 := (execute A g (atZenith I)).2.out
    (o.path k).srho = (o90.path k).srho.map (c * ·) ∧
    (o.path k).swet = (o90.path k).swet.map (c * ·) ∧
    (o.path k).sdry = (o90.path k).sdry.map (c * ·) ∧
    (I.set.cloudy = true → (o.path k).sliq = (o90.path k).sliq.map (c * ·) ∧
      (o.path k).sice = (o90.path k).sice.map (c * ·)) ∧
    ∀ j < I.set.nf,
      (o.cell j k).sptauwet = (o90.cell j k).sptauwet.map (c * ·) ∧
      (o.cell j k).sptaudry = (o90.cell j k).sptaudry.map (c * ·) ∧
      (o.cell j k).ptauwet = (o90.cell j k).ptauwet.map (fun f i => c * f i) ∧
      (o.cell j k).ptaudry = (o90.cell j k).ptaudry.map (fun f i => c * f i) ∧
      (o.cell j k).awet = (o90.cell j k).awet ∧ (o.cell j k).adry = (o90.cell j k).adry ∧
      (I.set.cloudy = true →
        (o.cell j k).sptauliq = (o90.cell j k).sptauliq.map (c * ·) ∧
        (o.cell j k).sptauice = (o90.cell j k).sptauice.map (c * ·) ∧
        (o.cell j k).ptauliq = (o90.cell j k).ptauliq.map (fun f i => c * f i) ∧
        (o.cell j k).ptauice = (o90.cell j k).ptauice.map (fun f i => c * f i)) := by
  intro c o o90
  obtain ⟨g1, e, rho, hl, hv, -, hc⟩ := (execute_ok h).ex
  obtain ⟨g1', e', rho', hl', hv', -, hc'⟩ := (execute_ok h90).ex
  rw [hl] at hl'; cases hl'
  have hv'' : vapor I.set.tk I.set.rh I.set.ice = .ok (e', rho') := hv'
  rw [hv] at hv''; cases hv''
  obtain ⟨d, p90, p⟩ := path_pair I (fun i => (refractivity1 (I.set.p i) (I.set.tk i) (e i)).2.2) hr
    (sin_pos_of_angle ha0 ha1).ne'
  obtain ⟨q, qc⟩ := hc k hk
  obtain ⟨q90, qc90⟩ := hc' k hk
  rw [p] at q
  have q90' := q90
  rw [show pathOf (atZenith I).set (fun i => (refractivity1 ((atZenith I).set.p i) ((atZenith I).set.tk i)
    (e i)).2.2) k = .ok d from p90] at q90'
  obtain ⟨⟨x1, i1⟩, ⟨x2, i2⟩, ⟨x3, i3⟩, i4, -⟩ := pathStep_ok q
  obtain ⟨⟨y1, j1⟩, ⟨y2, j2⟩, ⟨y3, j3⟩, j4, -⟩ := pathStep_ok q90'
  refine ⟨(integ_scale c j1 i1).1, (integ_scale c j2 i2).1,
    (integ_scale c j3 i3).1, fun hcl => ?_, fun j hj => ?_⟩
  · obtain ⟨dl, di, cl, a1, a2, a3, a4⟩ := i4 hcl
    obtain ⟨dl', di', cl', b1, b2, b3, b4⟩ := j4 hcl
    rw [show (atZenith I).set.dens = I.set.dens from rfl, a1] at b1; cases b1
    rw [show (atZenith I).set.clouds = I.set.clouds from rfl, a2] at b2; cases b2
    exact ⟨cloudDen_scale _ _ c _ b3 a3, cloudDen_scale _ _ c _ b4 a4⟩
  · obtain ⟨es, s1, s2⟩ := qc j hj
    obtain ⟨es', s1', s2'⟩ := qc90 j hj
    rw [show (atZenith I).set.es = I.set.es from rfl, s1] at s1'; cases s1'
    rw [p] at s2
    rw [show pathOf (atZenith I).set (fun i => (refractivity1 ((atZenith I).set.p i) ((atZenith I).set.tk i)
      (e i)).2.2) k = .ok d from p90] at s2'
    have c1 := cellStep_ok s2
    have c2 := cellStep_ok s2'
    obtain ⟨a, a1, a2, a3, a4, a5⟩ := c1.clear
    obtain ⟨b, b1, b2, b3, b4, b5⟩ := c2.clear
    rw [show clearsky A (cellGlobals (atZenith I).set { g1 with fromSat := (atZenith I).set.satellite } es)
      (atZenith I).set e ((atZenith I).set.frq j) =
      clearsky A (cellGlobals I.set { g1 with fromSat := I.set.satellite } es) I.set e (I.set.frq j) from rfl,
      a1] at b1
    cases b1
    refine ⟨(integ_scale c b4 a4).1, (integ_scale c b5 a5).1, (integ_scale c b4 a4).2,
      (integ_scale c b5 a5).2, a2.trans b2.symm, a3.trans b3.symm, fun hcl => ?_⟩
    obtain ⟨dl, di, u, u1, u2, u3, u4⟩ := c1.cloud hcl
    obtain ⟨dl', di', u', v1, v2, v3, v4⟩ := c2.cloud hcl
    rw [show (atZenith I).set.dens = I.set.dens from rfl, u1] at v1; cases v1
    rw [show cloudyAbs A (cellGlobals (atZenith I).set { g1 with fromSat := (atZenith I).set.satellite } es).sel.liq
      (atZenith I).set.nl (atZenith I).set.tk dl di ((atZenith I).set.frq j) =
      cloudyAbs A (cellGlobals I.set { g1 with fromSat := I.set.satellite } es).sel.liq I.set.nl I.set.tk dl di
        (I.set.frq j) from rfl, u2] at v2
    cases v2
    exact ⟨(integ_scale c v3 u3).1, (integ_scale c v4 u4).1, (integ_scale c v3 u3).2,
      (integ_scale c v4 u4).2⟩

/-- Elevation angles `a` and `180 - a` give identical results (only the angle column differs). -/
theorem C23_mirror (h : (execute A g I).1 = .ok rows) (hr : I.set.rayTracing = false) :
    (execute A g ⟨{ I.set with angles := fun k => 180 - I.set.angles k }, I.out⟩).1 =
      .ok (rows.map fun r => { r with angle := 180 - r.angle }) := by
  obtain ⟨g1, e, rho, hl, hv, hrow, hc⟩ := (execute_ok h).ex
  have hp : ∀ k refi, pathOf { I.set with angles := fun k => 180 - I.set.angles k } refi k = pathOf I.set refi k := by
    intro k refi
    have hs : sin ((180 - I.set.angles k) * π / 180) = sin (I.set.angles k * π / 180) := by
      rw [show (180 - I.set.angles k) * π / 180 = π - I.set.angles k * π / 180 by ring, sin_pi_sub]
    unfold pathOf
    simp only [hr, hs]
    rfl
  have := (execute_of_steps (A := A) (g := g)
    (I := ⟨{ I.set with angles := fun k => 180 - I.set.angles k }, I.out⟩)
    (P := (execute A g I).2.out.path) (C := (execute A g I).2.out.cell) hl hv (by
      intro k hk
      rw [hp]
      exact hc k hk)).1
  rw [this, hrow]
  simp only [table, List.map_flatMap, List.map_map]
  rfl

/-- Two angles, two frequencies, cloudy: the hypotheses of `C23_slant` hold for angle index 1 (30 degrees). -/
example : ∃ rows rows90, (execute demoA demoG ⟨demoS, Store.zero⟩).1 = .ok rows ∧
    (execute demoA demoG (atZenith ⟨demoS, Store.zero⟩)).1 = .ok rows90 ∧ demoS.rayTracing = false ∧
    0 < demoS.angles 1 ∧ demoS.angles 1 < 90 := by
  obtain ⟨r, hr⟩ := demo_runs demoS Store.zero rfl (by decide) (by decide) demo_cloud rfl demo_angles
  obtain ⟨r', hr'⟩ := demo_runs (atZenith ⟨demoS, Store.zero⟩).set Store.zero rfl (by decide) (by decide)
    (fun _ => ⟨_, _, _, _, rfl, rfl⟩) rfl (by
      intro k _; simp only [atZenith]; norm_num)
  exact ⟨r, r', hr, hr', rfl, by norm_num [demoS], by norm_num [demoS]⟩

/-! ## C26 -/

/-- Cloud opacities left on the object (irrelevant for cloudy runs, zero on a new object). -/
def CleanClouds (I : Inst) : Prop := ∀ j k, ∃ l i, (I.out.cell j k).ptauliq = some l ∧
  (I.out.cell j k).ptauice = some i ∧ (∀ n, 0 ≤ l n) ∧ ∀ n, 0 ≤ i n

theorem integ_nonneg {z : Bool} {nl : ℕ} {x d : Val} {ibeg : ℕ} {factor : ℝ} (hd : ∀ i < nl, 0 ≤ d i)
    {s : Option ℝ} {xs : Option Val} (h : integ z nl x (.ok d) ibeg factor = .ok (s, xs)) :
    ∃ f, xs = some f ∧ ∀ i, 0 ≤ f i := by
  simp only [integ] at h
  cases he : expInt z nl x d ibeg nl factor with
  | error x => rw [he] at h; cases h
  | ok r =>
    rw [he] at h
    cases h
    exact ⟨r.2, rfl, C15_nonneg hd he⟩

theorem cell_nonneg {S : Settings} {e d : Val} {j : ℕ} {c c' : Cell} (hd : ∀ i < S.nl, 0 ≤ d i)
    (h : CellOk A S e (.ok d) j g c c')
    (hst : S.cloudy = true ∨ ∃ l i, c.ptauliq = some l ∧ c.ptauice = some i ∧ (∀ n, 0 ≤ l n) ∧ ∀ n, 0 ≤ i n) :
    ∃ w y l i, c'.ptauwet = some w ∧ c'.ptaudry = some y ∧ c'.ptauliq = some l ∧ c'.ptauice = some i ∧
      ∀ n, 0 ≤ w n ∧ 0 ≤ y n ∧ 0 ≤ l n ∧ 0 ≤ i n := by
  obtain ⟨a, -, -, -, h1, h2⟩ := h.clear
  obtain ⟨w, e1, n1⟩ := integ_nonneg hd h1
  obtain ⟨y, e2, n2⟩ := integ_nonneg hd h2
  by_cases hcl : S.cloudy = true
  · obtain ⟨dl, di, b, -, -, h3, h4⟩ := h.cloud hcl
    obtain ⟨l, e3, n3⟩ := integ_nonneg hd h3
    obtain ⟨i, e4, n4⟩ := integ_nonneg hd h4
    exact ⟨w, y, l, i, e1, e2, e3, e4, fun n => ⟨n1 n, n2 n, n3 n, n4 n⟩⟩
  · obtain ⟨l, i, e3, e4, n3, n4⟩ := hst.resolve_left hcl
    have hs := h.stale (by simpa using hcl)
    exact ⟨w, y, l, i, e1, e2, hs.ptauliq ▸ e3, hs.ptauice ▸ e4, fun n => ⟨n1 n, n2 n, n3 n, n4 n⟩⟩

/-- The path of angle `k` is finite with non-negative increments. -/
def GoodPath (S : Settings) (k : ℕ) : Prop :=
  ∀ e rho, vapor S.tk S.rh S.ice = .ok (e, rho) →
    ∃ d, pathOf S (fun i => (refractivity1 (S.p i) (S.tk i) (e i)).2.2) k = .ok d ∧ ∀ i < S.nl, 0 ≤ d i

/-- Plane-parallel geometry with non-decreasing heights and an angle above the horizon. -/
theorem goodPath_plane {S : Settings} {k : ℕ} (hr : S.rayTracing = false) (ha0 : 0 < S.angles k)
    (ha1 : S.angles k < 180) (hz : ∀ i, i + 1 < S.nl → S.z i ≤ S.z (i + 1)) : GoodPath S k := by
  intro e rho _
  have hs := sin_pos_of_angle ha0 ha1
  refine ⟨_, pathOf_plane hr hs.ne', fun i hi => ?_⟩
  split_ifs with h0
  · exact le_rfl
  · have := hz (i - 1) (by omega)
    rw [show i - 1 + 1 = i by omega] at this
    exact mul_nonneg (by linarith) (by positivity)

/-- Ray tracing within one degree of the zenith, physical refractive index. -/
theorem goodPath_zenith {S : Settings} {k : ℕ} (hr : S.rayTracing = true) (ha0 : 89 ≤ S.angles k)
    (ha1 : S.angles k ≤ 91) (hn : 1 ≤ S.nl) (hz : ∀ i, i + 1 < S.nl → S.z i ≤ S.z (i + 1))
    (hi : ∀ e rho, vapor S.tk S.rh S.ice = .ok (e, rho) →
      ∀ i < S.nl, 1 ≤ (refractivity1 (S.p i) (S.tk i) (e i)).2.2) : GoodPath S k := by
  intro e rho hv
  obtain ⟨d, h1, h2, h3, -⟩ := C21_zenith
    (I := ⟨S.nl, S.z, fun i => (refractivity1 (S.p i) (S.tk i) (e i)).2.2, S.angles k, S.z0⟩) hn (hi e rho hv)
    (Or.inl ⟨ha0, ha1⟩)
  refine ⟨d, ?_, fun i hi => ?_⟩
  · unfold pathOf
    rw [if_pos hr, h1]
    simp
  · rcases Nat.eq_zero_or_pos i with rfl | h0
    · rw [h2]
    · rw [h3 i h0 hi]
      have := hz (i - 1) (by omega)
      rw [show i - 1 + 1 = i by omega] at this
      simp only at this ⊢
      linarith

/-- Whatever the absorption routines return, every reported layer opacity is non-negative and the emission
computed from their sum `τ` obeys the radiative transfer bounds. -/
theorem C26_cell (h : (execute A g I).1 = .ok rows) {j k : ℕ} (hj : j < I.set.nf) (hk : k < I.set.nang)
    (hp : GoodPath I.set k) (hst : I.set.cloudy = true ∨ CleanClouds I) :
    let c := (execute A g I).2.out.cell j k
    ∃ w y l i es, c.ptauwet = some w ∧ c.ptaudry = some y ∧ c.ptauliq = some l ∧ c.ptauice = some i ∧
      (∀ n, 0 ≤ w n ∧ 0 ≤ y n ∧ 0 ≤ l n ∧ 0 ≤ i n) ∧ I.set.es[j]? = some es ∧
      ∃ out, planck I.set.satellite es (I.set.frq j) I.set.nl I.set.tk (fun n => w n + y n + i n + l n) = some out ∧
        c.tbtotal = bright out.hvk out.boftotl := by
  intro c
  obtain ⟨g1, e, rho, -, hv, -, hc⟩ := (execute_ok h).ex
  obtain ⟨d, hd1, hd2⟩ := hp e rho hv
  obtain ⟨es, h1, h2⟩ := (hc k hk).2 j hj
  rw [hd1] at h2
  have hok := cellStep_ok h2
  obtain ⟨w, y, l, i, e1, e2, e3, e4, hn⟩ := cell_nonneg hd2 hok (hst.imp id fun h => h j k)
  refine ⟨w, y, l, i, es, e1, e2, e3, e4, hn, h1, ?_⟩
  have ht : c.taulay = some fun n => w n + y n + i n + l n := by
    simp only [Cell.taulay, c, e1, e2, e3, e4]
  obtain ⟨out, ho, hb, -⟩ := hok.rad _ ht
  rw [cellGlobals_emissivity, cellGlobals_fromSat] at ho
  exact ⟨out, ho, hb⟩

/-- Satellite view, emissivity 1, total opacity below 125 Np: the brightness temperature lies between the extreme
temperatures of the profile, for every absorption model. -/
theorem C26_satellite (h : (execute A g I).1 = .ok rows) {j k : ℕ} (hj : j < I.set.nf) (hk : k < I.set.nang)
    (hp : GoodPath I.set k) (hst : I.set.cloudy = true ∨ CleanClouds I) (hsat : I.set.satellite = true)
    (hes : I.set.es[j]? = some 1) (hf : 0 < I.set.frq j) {m M : ℝ} (hm : 0 < m)
    (hT : ∀ i < I.set.nl, m ≤ I.set.tk i ∧ I.set.tk i ≤ M)
    (hop : ∀ w y l i, ((execute A g I).2.out.cell j k).ptauwet = some w →
      ((execute A g I).2.out.cell j k).ptaudry = some y → ((execute A g I).2.out.cell j k).ptauliq = some l →
      ((execute A g I).2.out.cell j k).ptauice = some i →
      opacityBelow (fun n => w n + y n + i n + l n) (I.set.nl - 1) < 125) :
    ∃ Tb, ((execute A g I).2.out.cell j k).tbtotal = some Tb ∧ m ≤ Tb ∧ Tb ≤ M := by
  obtain ⟨w, y, l, i, es, e1, e2, e3, e4, hn, he, out, ho, hb⟩ := C26_cell h hj hk hp hst
  rw [hes] at he; cases he
  rw [hsat] at ho
  rw [hb]
  exact C03_upwelling_between hf hm hT (fun n _ _ => by
    obtain ⟨a, b, c, d⟩ := hn n; linarith) (hop w y l i e1 e2 e3 e4) ho

/-- Satellite view, any emissivity between 0 and 1 and any opacity: never warmer than the warmest level. -/
theorem C26_satellite_le (h : (execute A g I).1 = .ok rows) {j k : ℕ} (hj : j < I.set.nf) (hk : k < I.set.nang)
    (hp : GoodPath I.set k) (hst : I.set.cloudy = true ∨ CleanClouds I) (hsat : I.set.satellite = true)
    (hes : ∀ es ∈ I.set.es, 0 ≤ es ∧ es ≤ 1) (hf : 0 < I.set.frq j) {M : ℝ}
    (hT : ∀ i < I.set.nl, 0 < I.set.tk i ∧ I.set.tk i ≤ M) :
    ∃ Tb, ((execute A g I).2.out.cell j k).tbtotal = some Tb ∧ 0 ≤ Tb ∧ Tb ≤ M := by
  obtain ⟨w, y, l, i, es, e1, e2, e3, e4, hn, he, out, ho, hb⟩ := C26_cell h hj hk hp hst
  rw [hsat] at ho
  rw [hb]
  exact C03_upwelling_le hf (hes es (List.mem_of_getElem? he)) hT (fun n _ _ => by
    obtain ⟨a, b, c, d⟩ := hn n; linarith) ho

/-- Ground view, total opacity below 125 Np: between the extreme temperatures of profile and cosmic background,
whatever the emissivity. -/
theorem C26_ground (h : (execute A g I).1 = .ok rows) {j k : ℕ} (hj : j < I.set.nf) (hk : k < I.set.nang)
    (hp : GoodPath I.set k) (hst : I.set.cloudy = true ∨ CleanClouds I) (hsat : I.set.satellite = false)
    (hf : 0 < I.set.frq j) {m M : ℝ} (hm : 0 < m) (hmc : m ≤ 2.728) (hMc : 2.728 ≤ M)
    (hT : ∀ i < I.set.nl, m ≤ I.set.tk i ∧ I.set.tk i ≤ M)
    (hop : ∀ w y l i, ((execute A g I).2.out.cell j k).ptauwet = some w →
      ((execute A g I).2.out.cell j k).ptaudry = some y → ((execute A g I).2.out.cell j k).ptauliq = some l →
      ((execute A g I).2.out.cell j k).ptauice = some i →
      opacityBelow (fun n => w n + y n + i n + l n) (I.set.nl - 1) < 125) :
    ∃ Tb, ((execute A g I).2.out.cell j k).tbtotal = some Tb ∧ m ≤ Tb ∧ Tb ≤ M := by
  obtain ⟨w, y, l, i, es, e1, e2, e3, e4, hn, he, out, ho, hb⟩ := C26_cell h hj hk hp hst
  rw [hsat] at ho
  rw [hb]
  exact C04_downwelling_between hf hm hmc hMc hT (fun n _ _ => by
    obtain ⟨a, b, c, d⟩ := hn n; linarith) (hop w y l i e1 e2 e3 e4) ho

/-- Ground view, any opacity: never warmer than the warmest of profile and cosmic background. -/
theorem C26_ground_le (h : (execute A g I).1 = .ok rows) {j k : ℕ} (hj : j < I.set.nf) (hk : k < I.set.nang)
    (hp : GoodPath I.set k) (hst : I.set.cloudy = true ∨ CleanClouds I) (hsat : I.set.satellite = false)
    (hf : 0 < I.set.frq j) {M : ℝ} (hMc : 2.728 ≤ M) (hT : ∀ i < I.set.nl, 0 < I.set.tk i ∧ I.set.tk i ≤ M) :
    ∃ Tb, ((execute A g I).2.out.cell j k).tbtotal = some Tb ∧ 0 ≤ Tb ∧ Tb ≤ M := by
  obtain ⟨w, y, l, i, es, e1, e2, e3, e4, hn, he, out, ho, hb⟩ := C26_cell h hj hk hp hst
  rw [hsat] at ho
  rw [hb]
  exact C04_downwelling_le hf hMc hT (fun n _ _ => by
    obtain ⟨a, b, c, d⟩ := hn n; linarith) ho

theorem demo_goodPath (k : ℕ) (hk : k < demoS.nang) : GoodPath demoS k :=
  goodPath_plane rfl (demo_angles k hk).1 (demo_angles k hk).2 fun i _ => by simp [demoS]

/-- The hypotheses of `C26_satellite_le` hold for the concrete cloudy simulator. -/
example : ∃ Tb, ((execute demoA demoG ⟨demoS, Store.zero⟩).2.out.cell 1 1).tbtotal = some Tb ∧
    0 ≤ Tb ∧ Tb ≤ 300 := by
  obtain ⟨r, hr⟩ := demo_runs demoS Store.zero rfl (by decide) (by decide) demo_cloud rfl demo_angles
  refine C26_satellite_le hr (by decide) (by decide) (demo_goodPath 1 (by decide)) (Or.inl rfl) rfl ?_ ?_ ?_
  · intro es hes
    simp only [demoS, List.mem_cons, List.not_mem_nil, or_false, or_self] at hes
    subst hes
    norm_num
  · norm_num [demoS]
  · intro i hi
    have : (i : ℝ) < 3 := by exact_mod_cast (show i < 3 from hi)
    have h0 : (0:ℝ) ≤ i := Nat.cast_nonneg i
    simp only [demoS]
    constructor <;> linarith

/-! ## C29 -/

theorem grid_length {α : Type*} (f : ℕ → ℕ → α) (n m : ℕ) :
    ((List.range n).flatMap fun k => (List.range m).map (f k)).length = n * m := by
  induction n with
  | zero => simp
  | succ n ih => rw [List.range_succ, List.flatMap_append, List.length_append, ih]; simp; ring

theorem grid_get {α : Type*} (f : ℕ → ℕ → α) (n m k j : ℕ) (hk : k < n) (hj : j < m) :
    ((List.range n).flatMap fun k => (List.range m).map (f k))[k * m + j]? = some (f k j) := by
  induction n with
  | zero => omega
  | succ n ih =>
    rw [List.range_succ, List.flatMap_append]
    rcases Nat.lt_or_ge k n with h | h
    · rw [List.getElem?_append_left, ih h]
      rw [grid_length]
      calc k * m + j < k * m + m := by omega
        _ = (k + 1) * m := by ring
        _ ≤ n * m := Nat.mul_le_mul_right _ h
    · obtain rfl : k = n := by omega
      rw [List.getElem?_append_right (by rw [grid_length]; omega), grid_length]
      simp [hj]

/-- The simulator restricted to angle `k`, frequency `j` and emissivity `es` (same profile, clouds, options; the
outputs left on the object are those of that angle and frequency). -/
def single (I : Inst) (k j : ℕ) (es : ℝ) : Inst :=
  ⟨{ I.set with nang := 1, angles := fun _ => I.set.angles k, nf := 1, frq := fun _ => I.set.frq j, es := [es] },
    ⟨fun _ _ => I.out.cell j k, fun _ => I.out.path k⟩⟩

/-- The table has one row per angle and frequency, angle after angle, and each row is the whole result of the
simulation with only that angle, frequency and emissivity. -/
theorem C29_rows (h : (execute A g I).1 = .ok rows) :
    rows.length = I.set.nang * I.set.nf ∧
    ∀ k < I.set.nang, ∀ j < I.set.nf, ∃ r es, rows[k * I.set.nf + j]? = some r ∧ r.angle = I.set.angles k ∧
      I.set.es[j]? = some es ∧ (execute A g (single I k j es)).1 = .ok [r] := by
  obtain ⟨g1, e, rho, hl, hv, hrow, hc⟩ := (execute_ok h).ex
  subst hrow
  refine ⟨grid_length _ _ _, fun k hk j hj => ?_⟩
  obtain ⟨hq, hcell⟩ := hc k hk
  obtain ⟨es, h1, h2⟩ := hcell j hj
  refine ⟨_, es, grid_get _ _ _ k j hk hj, rfl, h1, ?_⟩
  have := (execute_of_steps (A := A) (g := g) (I := single I k j es)
    (P := fun _ => (execute A g I).2.out.path k) (C := fun _ _ => (execute A g I).2.out.cell j k) hl hv (by
      intro k' hk'
      obtain rfl : k' = 0 := by simp only [single] at hk'; omega
      refine ⟨hq, fun j' hj' => ⟨es, ?_, h2⟩⟩
      obtain rfl : j' = 0 := by simp only [single] at hj'; omega
      rfl)).1
  rw [this]
  rfl

/-- Conversely the whole simulation ends normally if each of these single simulations does. -/
theorem C29_success (hang : 0 < I.set.nang) (hnf : 0 < I.set.nf)
    (h : ∀ k < I.set.nang, ∀ j < I.set.nf, ∃ es r, I.set.es[j]? = some es ∧
      (execute A g (single I k j es)).1 = .ok r) : ∃ rows, (execute A g I).1 = .ok rows := by
  have hs : ∀ k < I.set.nang, ∀ j < I.set.nf, ∃ g1 e rho es q c, initLineList A g = .ok g1 ∧
      vapor I.set.tk I.set.rh I.set.ice = .ok (e, rho) ∧
      pathStep I.set rho (fun i => (refractivity1 (I.set.p i) (I.set.tk i) (e i)).2.1)
        (fun i => (refractivity1 (I.set.p i) (I.set.tk i) (e i)).1)
        (pathOf I.set (fun i => (refractivity1 (I.set.p i) (I.set.tk i) (e i)).2.2) k)
        (I.out.path k) = .ok q ∧ I.set.es[j]? = some es ∧
      cellStep A I.set e (pathOf I.set (fun i => (refractivity1 (I.set.p i) (I.set.tk i) (e i)).2.2) k) j
          (cellGlobals I.set { g1 with fromSat := I.set.satellite } es) (I.out.cell j k) = .ok c := by
    intro k hk j hj
    obtain ⟨es, r, h1, h2⟩ := h k hk j hj
    obtain ⟨g1, e, rho, hl, hv, -, hc⟩ := (execute_ok h2).ex
    obtain ⟨hq, hcell⟩ := hc 0 (by simp [single])
    obtain ⟨es', h3, h4⟩ := hcell 0 (by simp [single])
    have : es' = es := by
      have h3' : [es][0]? = some es' := h3
      simpa using h3'.symm
    subst this
    exact ⟨g1, e, rho, es', _, _, hl, hv, hq, h1, h4⟩
  obtain ⟨g1, e, rho, es, q, c, hl, hv, -⟩ := hs 0 hang 0 hnf
  have hp : ∀ k < I.set.nang, ∃ q, pathStep I.set rho (fun i => (refractivity1 (I.set.p i) (I.set.tk i) (e i)).2.1)
        (fun i => (refractivity1 (I.set.p i) (I.set.tk i) (e i)).1)
        (pathOf I.set (fun i => (refractivity1 (I.set.p i) (I.set.tk i) (e i)).2.2) k)
        (I.out.path k) = .ok q := by
    intro k hk
    obtain ⟨g1', e', rho', es', q', c', hl', hv', hq, -⟩ := hs k hk 0 hnf
    rw [hv] at hv'; cases hv'
    exact ⟨q', hq⟩
  have hc : ∀ k < I.set.nang, ∀ j < I.set.nf, ∃ es c, I.set.es[j]? = some es ∧
      cellStep A I.set e (pathOf I.set (fun i => (refractivity1 (I.set.p i) (I.set.tk i) (e i)).2.2) k) j
          (cellGlobals I.set { g1 with fromSat := I.set.satellite } es) (I.out.cell j k) = .ok c := by
    intro k hk j hj
    obtain ⟨g1', e', rho', es', q', c', hl', hv', -, h1, h2⟩ := hs k hk j hj
    rw [hv] at hv'; cases hv'
    rw [hl] at hl'; cases hl'
    exact ⟨es', c', h1, h2⟩
  have : Nonempty PathOut := ⟨PathOut.zero⟩
  have : Nonempty Cell := ⟨Cell.zero⟩
  choose! P hP using hp
  choose! E C hC using hc
  exact ⟨_, (execute_of_steps (P := P) (C := fun j k => C k j) hl hv fun k hk =>
    ⟨hP k hk, fun j hj => ⟨E k j, hC k hk j hj⟩⟩).1⟩

/-- Four rows, the last one that of the single simulation at 30 degrees and 23 GHz. -/
example : ∃ rows r, (execute demoA demoG ⟨demoS, Store.zero⟩).1 = .ok rows ∧ rows.length = 4 ∧
    rows[3]? = some r ∧ (execute demoA demoG (single ⟨demoS, Store.zero⟩ 1 1 1)).1 = .ok [r] := by
  obtain ⟨rows, hr⟩ := demo_runs demoS Store.zero rfl (by decide) (by decide) demo_cloud rfl demo_angles
  obtain ⟨h1, h2⟩ := C29_rows hr
  obtain ⟨r, es, h3, -, h4, h5⟩ := h2 1 (by decide) 1 (by decide)
  have : es = 1 := by simpa [demoS] using h4.symm
  subst this
  exact ⟨rows, r, hr, h1, h3, h5⟩

/-! ## C28 -/

/-- A new simulator with the same settings. -/
def fresh (I : Inst) : Inst := ⟨I.set, Store.zero⟩

/-- Re-running a simulator in cloudy mode gives the result of a new simulator, whatever ran on it before. -/
theorem C28_cloudy_rerun (hA : ReadsOwnList A) (hcl : I.set.cloudy = true) :
    (execute A g I).1 = (execute A g (fresh I)).1 :=
  execute_congr hA rfl rfl (fun _ => rfl) (Or.inl hcl)

/-- Nothing cloudy is left on the object. -/
def NoClouds (o : Store) : Prop := ∀ j k, StaleEq (o.cell j k) Cell.zero

/-- Re-running gives the result of a new simulator if no cloud output is left on the object. -/
theorem C28_clean_rerun (hA : ReadsOwnList A) (hs : NoClouds I.out) :
    (execute A g I).1 = (execute A g (fresh I)).1 :=
  execute_congr hA rfl rfl (fun _ => rfl) (Or.inr fun j _ k _ => hs j k)

theorem _root_.Verif.Model.StaleEq.refl (c : Cell) : StaleEq c c := ⟨rfl, rfl, rfl, rfl, rfl⟩

theorem _root_.Verif.Model.StaleEq.trans {a b c : Cell} (h : StaleEq a b) (h' : StaleEq b c) : StaleEq a c :=
  ⟨h.1.trans h'.1, h.2.trans h'.2, h.3.trans h'.3, h.4.trans h'.4, h.5.trans h'.5⟩

/-- The cell left by a step, whether it ended normally or raised. -/
def leftCell : Except (PyErr × Cell) Cell → Cell
  | .ok c => c
  | .error x => x.2

theorem cellStep_stale {S : Settings} {e : Val} {ds : Path} {j : ℕ} {c : Cell} (hcl : S.cloudy = false) :
    StaleEq c (leftCell (cellStep A S e ds j g c)) := by
  cases h : cellStep A S e ds j g c with
  | ok c' => exact (cellStep_ok h).stale hcl
  | error x =>
    obtain ⟨x, c'⟩ := x
    show StaleEq c c'
    unfold cellStep at h
    split at h
    · cases h; exact StaleEq.refl _
    · rename_i a _
      unfold cellClear at h
      simp only at h
      split at h
      · cases h; exact ⟨rfl, rfl, rfl, rfl, rfl⟩
      · split at h
        · cases h; exact ⟨rfl, rfl, rfl, rfl, rfl⟩
        · simp only [Except.bind, cellCloud, hcl] at h
          simp only [Bool.false_eq_true, if_false] at h
          unfold cellRadiance at h
          simp only [hcl, Bool.false_eq_true, if_false] at h
          split at h
          · cases h
          · split at h
            · cases h; exact ⟨rfl, rfl, rfl, rfl, rfl⟩
            · cases h

/-- The state left by a loop, whether it ended normally or raised. -/
def leftRun : Except (PyErr × RunState) RunState → RunState
  | .ok s => s
  | .error x => x.2

theorem freqLoop_stale {S : Settings} {e : Val} {ds : Path} {k n : ℕ} {s : RunState} (hcl : S.cloudy = false) :
    ∀ j' k', StaleEq (s.out.cell j' k') ((leftRun (forRangeE 0 n (freqBody A S e ds k) s)).out.cell j' k') := by
  rcases forRangeE_inv (f := freqBody A S e ds k) (s := s) (lo := 0) (hi := n)
    (I := fun _ t => ∀ j' k', StaleEq (s.out.cell j' k') (t.out.cell j' k'))
    (E := fun x => ∀ j' k', StaleEq (s.out.cell j' k') (x.2.out.cell j' k'))
    (Nat.zero_le _) (fun _ _ => StaleEq.refl _) (by
      intro j u _ hj hu
      have hw : ∀ (c' : Cell), StaleEq (u.out.cell j k) c' → ∀ j' k',
          StaleEq (s.out.cell j' k') ((u.out.setCell j k c').cell j' k') := by
        intro c' hc' j' k'
        simp only [Store.setCell]
        split_ifs with hjk
        · rw [hjk.1, hjk.2]; exact (hu j k).trans hc'
        · exact hu j' k'
      unfold freqBody
      split
      · exact Or.inr ⟨_, rfl, hu⟩
      · rename_i es _
        simp only
        have hst := cellStep_stale (A := A) (e := e) (ds := ds) (j := j) (c := u.out.cell j k)
          (g := if S.nl = 0 then { u.g with emissivity := es }
            else amuApply S.amu S.o3n { u.g with emissivity := es }) hcl
        split
        · rename_i x c h
          rw [h] at hst
          exact Or.inr ⟨_, rfl, hw _ hst⟩
        · rename_i c h
          rw [h] at hst
          exact Or.inl ⟨_, rfl, hw _ hst⟩) with ⟨t, h, ht⟩ | ⟨x, h, hx⟩
  · rw [h]; exact ht
  · rw [h]; exact hx

/-- A clear-sky run, whether it ends normally or raises, does not touch the cloud outputs. -/
theorem execute_stale (hcl : I.set.cloudy = false) (j k : ℕ) :
    StaleEq (I.out.cell j k) ((execute A g I).2.out.cell j k) := by
  unfold execute
  simp only
  split
  · exact StaleEq.refl _
  · rename_i g1 _
    split
    · exact StaleEq.refl _
    · rename_i e rho _
      rcases forRangeE_inv (f := angleBody A I.set e rho
          (fun i => (refractivity1 (I.set.p i) (I.set.tk i) (e i)).2.1)
          (fun i => (refractivity1 (I.set.p i) (I.set.tk i) (e i)).1)
          (fun i => (refractivity1 (I.set.p i) (I.set.tk i) (e i)).2.2))
        (s := ⟨{ g1 with fromSat := I.set.satellite }, I.out⟩) (lo := 0) (hi := I.set.nang)
        (I := fun _ t => ∀ j' k', StaleEq (I.out.cell j' k') (t.out.cell j' k'))
        (E := fun x => ∀ j' k', StaleEq (I.out.cell j' k') (x.2.out.cell j' k'))
        (Nat.zero_le _) (fun _ _ => StaleEq.refl _) (by
          intro k u _ hk hu
          unfold angleBody
          simp only
          split
          · exact Or.inr ⟨_, rfl, hu⟩
          · rename_i q _
            have := freqLoop_stale (A := A) (S := I.set) (e := e) (k := k) (n := I.set.nf)
              (ds := pathOf I.set (fun i => (refractivity1 (I.set.p i) (I.set.tk i) (e i)).2.2) k)
              (s := ⟨u.g, u.out.setPath k q⟩) hcl
            generalize forRangeE 0 I.set.nf _ _ = r at this ⊢
            cases r with
            | ok t => exact Or.inl ⟨t, rfl, fun j' k' => (hu j' k').trans (this j' k')⟩
            | error x => exact Or.inr ⟨x, rfl, fun j' k' => (hu j' k').trans (this j' k')⟩) with
        ⟨t, h, ht⟩ | ⟨x, h, hx⟩
      · rw [h]; exact ht j k
      · rw [h]; exact hx j k

/-- What a sequence of runs with the given process states and settings leaves on one object. -/
noncomputable def afterRuns (A : AbsRoutines) (o : Store) (hist : List (Globals × Settings)) : Store :=
  hist.foldl (fun o x => (execute A x.1 ⟨x.2, o⟩).2.out) o

theorem afterRuns_noClouds (hist : List (Globals × Settings)) (h : ∀ x ∈ hist, x.2.cloudy = false) (o : Store)
    (ho : NoClouds o) : NoClouds (afterRuns A o hist) := by
  induction hist generalizing o with
  | nil => exact ho
  | cons x xs ih =>
    refine ih (fun y hy => h y (List.mem_cons_of_mem _ hy)) _ fun j k => ?_
    have h1 := execute_stale (A := A) (g := x.1) (I := ⟨x.2, o⟩) (h x List.mem_cons_self) j k
    have h2 := ho j k
    exact ⟨h1.1.symm.trans h2.1, h1.2.symm.trans h2.2, h1.3.symm.trans h2.3, h1.4.symm.trans h2.4,
      h1.5.symm.trans h2.5⟩

/-- A simulator that never ran cloudy before behaves like a new one, after any sequence of earlier runs (with any
settings and process states, including runs that raised). -/
theorem C28_never_cloudy (hA : ReadsOwnList A) (hist : List (Globals × Settings))
    (h : ∀ x ∈ hist, x.2.cloudy = false) (g : Globals) (S : Settings) :
    (execute A g ⟨S, afterRuns A Store.zero hist⟩).1 = (execute A g ⟨S, Store.zero⟩).1 :=
  C28_clean_rerun hA (afterRuns_noClouds hist h _ fun _ _ => StaleEq.refl _)

/-- After a cloudy run, switching clouds off (other settings free to change as well) reports the cloud opacities of
the cloudy run again, and the radiances are computed from opacities that include them. -/
theorem C28_stale_clouds {g' : Globals} {S' : Settings} {rows' : List Row} (hcl : S'.cloudy = false)
    (h' : (execute A g' ⟨S', (execute A g I).2.out⟩).1 = .ok rows') {j k : ℕ} (hj : j < S'.nf)
    (hk : k < S'.nang) :
    let c := (execute A g I).2.out.cell j k
    let c' := (execute A g' ⟨S', (execute A g I).2.out⟩).2.out.cell j k
    c'.sptauliq = c.sptauliq ∧ c'.sptauice = c.sptauice ∧ c'.tmrcld = c.tmrcld ∧
    ∀ w y l i, c'.ptauwet = some w → c'.ptaudry = some y → c.ptauliq = some l → c.ptauice = some i →
      ∃ es out, S'.es[j]? = some es ∧
        planck S'.satellite es (S'.frq j) S'.nl S'.tk (fun n => w n + y n + i n + l n) = some out ∧
        c'.tbtotal = bright out.hvk out.boftotl := by
  intro c c'
  have hs := execute_stale (A := A) (g := g') (I := ⟨S', (execute A g I).2.out⟩) hcl j k
  refine ⟨hs.3.symm, hs.4.symm, hs.5.symm, fun w y l i h1 h2 h3 h4 => ?_⟩
  obtain ⟨g1, e, rho, -, hv, -, hc⟩ := (execute_ok h').ex
  obtain ⟨es, h5, h6⟩ := (hc k hk).2 j hj
  have hok := cellStep_ok h6
  have ht : c'.taulay = some fun n => w n + y n + i n + l n := by
    have e1 : c'.ptauliq = some l := hs.1 ▸ h3
    have e2 : c'.ptauice = some i := hs.2 ▸ h4
    simp only [Cell.taulay, h1, h2, e1, e2]
  obtain ⟨out, ho, hb, -⟩ := hok.rad _ ht
  rw [cellGlobals_emissivity, cellGlobals_fromSat] at ho
  exact ⟨es, out, h5, ho, hb⟩

/-- The concrete simulator with clouds switched off. -/
noncomputable def demoClear : Settings := { demoS with cloudy := false }

theorem demo_clear_runs (o : Store) : ∃ rows, (execute demoA demoG ⟨demoClear, o⟩).1 = .ok rows :=
  demo_runs demoClear o rfl (by decide) (by decide) (fun h => by cases h) rfl demo_angles

/-- Cloudy opacity of the concrete simulator at zenith is 2 Np (1 Np/km over 2 km). -/
theorem demo_tauliq : ((execute demoA demoG ⟨demoS, Store.zero⟩).2.out.cell 0 0).sptauliq = some 2 := by
  obtain ⟨rows, hr⟩ := demo_runs demoS Store.zero rfl (by decide) (by decide) demo_cloud rfl demo_angles
  obtain ⟨g1, e, rho, hl, hv, -, hc⟩ := (execute_ok hr).ex
  obtain ⟨es, h1, h2⟩ := (hc 0 (by decide)).2 0 (by decide)
  have h90 : sin (demoS.angles 0 * π / 180) = 1 := by
    have : demoS.angles 0 = 90 := by norm_num [demoS]
    rw [this]; exact sin_ninety
  rw [pathOf_plane rfl (by rw [h90]; norm_num), h90] at h2
  obtain ⟨dl, di, b, e1, e2, e3, -⟩ := (cellStep_ok h2).cloud rfl
  have hd : dl = fun _ => 1 := by
    have : (some ((fun _ => 1, fun _ => 0) : Val × Val)) = some (dl, di) := e1
    cases this; rfl
  subst hd
  have hb : ∀ i < 3, (b i).1 = 1 := by
    intro i hi
    have := (tabulateE_ok e2).1 i hi
    unfold cloudyLevel liqTerm at this
    have hliq : (cellGlobals demoS { g1 with fromSat := demoS.satellite } es).sel.liq = some "R98" := by
      rw [cellGlobals_sel]
      obtain ⟨g1', hg, hsel⟩ := initLineList_total (A := demoA) demoG_selected
      have hl' : initLineList demoA demoG = .ok g1 := hl
      rw [hg] at hl'; cases hl'
      show g1.sel.liq = _
      rw [hsel]; rfl
    rw [hliq] at this
    simp only [zero_lt_one, if_true, demoA, Except.map] at this
    have h := Except.ok.inj this
    rw [← h]
  simp only [integ] at e3
  have hx : ∀ i, 1 ≤ i → i < 3 → layerValue false (prevEntry (fun i => (b i).1) 3 i) ((fun i => (b i).1) i) =
      some 1 := by
    intro i h1 h2
    unfold layerValue prevEntry
    rw [if_neg (by omega : ¬ i = 0)]
    beta_reduce
    rw [hb i h2, hb (i - 1) (by omega)]
    norm_num
  have e3' := expInt_ok (z := false) (nl := 3) (x := fun i => (b i).1)
    (ds := fun i => if i = 0 then 0 else (demoS.z i - demoS.z (i - 1)) * (1 / 1)) (ibeg := 1) (factor := 1)
    (v := fun _ => 1) (by decide) hx
  have e4 : expInt false demoS.nl (fun i => (b i).1)
      (fun i => if i = 0 then 0 else (demoS.z i - demoS.z (i - 1)) * (1 / 1)) 1 demoS.nl 1 = _ := e3'
  rw [e4] at e3
  simp only [Except.map] at e3
  have := (Prod.mk.inj (Except.ok.inj e3)).1
  rw [← this]
  norm_num [Finset.sum_Ico_succ_top, demoS]

/-- Re-running is not like a new simulator: clear sky after a cloudy run reports the old liquid opacity 2 Np where
a new simulator reports 0. -/
theorem C28_refuted : ∃ rows rows' r r',
    (execute demoA demoG ⟨demoClear, (execute demoA demoG ⟨demoS, Store.zero⟩).2.out⟩).1 = .ok rows ∧
    (execute demoA demoG ⟨demoClear, Store.zero⟩).1 = .ok rows' ∧ rows[0]? = some r ∧ rows'[0]? = some r' ∧
    r.tauliq = some 2 ∧ r'.tauliq = some 0 := by
  obtain ⟨rows, hr⟩ := demo_clear_runs (execute demoA demoG ⟨demoS, Store.zero⟩).2.out
  obtain ⟨rows', hr'⟩ := demo_clear_runs Store.zero
  obtain ⟨-, -, -, -, -, hrow, -⟩ := (execute_ok hr).ex
  obtain ⟨-, -, -, -, -, hrow', -⟩ := (execute_ok hr').ex
  have g1 := grid_get (fun k j => ((execute demoA demoG
    ⟨demoClear, (execute demoA demoG ⟨demoS, Store.zero⟩).2.out⟩).2.out.cell j k).row (demoClear.angles k))
    2 2 0 0 (by decide) (by decide)
  have g2 := grid_get (fun k j => ((execute demoA demoG ⟨demoClear, Store.zero⟩).2.out.cell j k).row
    (demoClear.angles k)) 2 2 0 0 (by decide) (by decide)
  refine ⟨rows, rows', _, _, hr, hr', by rw [hrow]; exact g1, by rw [hrow']; exact g2, ?_, ?_⟩
  · have := (C28_stale_clouds (I := ⟨demoS, Store.zero⟩) (A := demoA) (g := demoG) (S' := demoClear) rfl hr
      (j := 0) (k := 0) (by decide) (by decide)).1
    exact this.trans demo_tauliq
  · exact (execute_stale (A := demoA) (g := demoG) (I := ⟨demoClear, Store.zero⟩) rfl 0 0).3.symm

/-- The concrete routines read no line list at all, as `C28_cloudy_rerun` etc. require at least. -/
example : ReadsOwnList demoA := ⟨fun _ _ _ _ _ _ => rfl, fun _ _ _ _ _ _ => rfl⟩

/-! ### A transparent atmosphere meets the hypotheses of the C26 bounds -/

/-- Routines without any absorption. -/
def zeroA : AbsRoutines := { demoA with h2o := fun _ _ _ _ _ _ => .ok (0, 0), o2 := fun _ _ _ _ _ _ => .ok (0, 0) }

theorem zeroA_total : TotalRoutines zeroA :=
  ⟨fun _ _ _ _ _ _ => ⟨_, rfl⟩, fun _ _ _ _ _ _ => ⟨_, rfl⟩, fun _ _ _ _ => ⟨_, rfl⟩,
    fun _ _ _ _ _ _ => ⟨_, rfl⟩, fun _ _ _ _ => ⟨_, rfl⟩⟩

theorem zero_integ {nl : ℕ} {x d : Val} (hn : 1 ≤ nl) (hx : ∀ i < nl, x i = 0) {s : Option ℝ} {xs : Option Val}
    (h : integ true nl x (.ok d) 1 1 = .ok (s, xs)) : xs = some fun _ => 0 := by
  have e := expInt_ok (z := true) (nl := nl) (x := x) (ds := d) (ibeg := 1) (factor := 1) (v := fun _ => 0) hn (by
    intro i h1 h2
    unfold layerValue prevEntry
    rw [if_neg (by omega : ¬ i = 0), hx i h2, hx (i - 1) (by omega)]
    norm_num)
  simp only [integ, e, Except.map] at h
  cases h
  simp

theorem zero_opacity (sat : Bool) {rows : List Row}
    (h : (execute zeroA demoG ⟨{ demoClear with satellite := sat }, Store.zero⟩).1 = .ok rows) (w y l i : Val)
    (h1 : ((execute zeroA demoG ⟨{ demoClear with satellite := sat }, Store.zero⟩).2.out.cell 1 1).ptauwet = some w)
    (h2 : ((execute zeroA demoG ⟨{ demoClear with satellite := sat }, Store.zero⟩).2.out.cell 1 1).ptaudry = some y)
    (h3 : ((execute zeroA demoG ⟨{ demoClear with satellite := sat }, Store.zero⟩).2.out.cell 1 1).ptauliq = some l)
    (h4 : ((execute zeroA demoG ⟨{ demoClear with satellite := sat }, Store.zero⟩).2.out.cell 1 1).ptauice = some i) :
    opacityBelow (fun n => w n + y n + i n + l n) (demoClear.nl - 1) < 125 := by
  obtain ⟨g1, e, rho, hl, hv, -, hc⟩ := (execute_ok h).ex
  obtain ⟨es, c1, c2⟩ := (hc 1 (show 1 < 2 by decide)).2 1 (show 1 < 2 by decide)
  rw [pathOf_plane (S := { demoClear with satellite := sat }) rfl (sin_pos_of_angle (demo_angles 1 (by decide)).1 (demo_angles 1 (by decide)).2).ne'] at c2
  have hok := cellStep_ok c2
  obtain ⟨a, a1, -, -, a2, a3⟩ := hok.clear
  have ha : ∀ i < 3, a i = (0, 0) := by
    intro i hi
    have := (tabulateE_ok a1).1 i hi
    unfold clearLevel n2Term o3Term at this
    obtain ⟨g1', hg, hsel⟩ := initLineList_total (A := zeroA) (g := demoG)
      ⟨⟨_, _, rfl, rfl⟩, ⟨_, _, rfl, rfl⟩, ⟨_, rfl⟩, ⟨_, rfl⟩⟩
    have hl' : initLineList zeroA demoG = .ok g1 := hl
    rw [hg] at hl'; cases hl'
    have hs : (cellGlobals { demoClear with satellite := sat } { g1 with fromSat := sat } es).sel = demoG.sel := by
      rw [cellGlobals_sel]; exact hsel
    have hs' : (cellGlobals { demoClear with satellite := sat }
      { g1 with fromSat := ({ demoClear with satellite := sat } : Settings).satellite } es).sel = demoG.sel := hs
    have ho : ¬ ozoneActive demoG.sel ({ demoClear with satellite := sat } : Settings).o3n := by
      intro h; cases h.1
    simp only [hs', if_neg ho] at this
    have h := Except.ok.inj this
    rw [← h]
    simp
  have e1 := zero_integ (nl := 3) (by decide) (fun i hi => by rw [ha i hi]) a2
  have e2 := zero_integ (nl := 3) (by decide) (fun i hi => by rw [ha i hi]) a3
  rw [h1] at e1; rw [h2] at e2
  have hs := execute_stale (A := zeroA) (g := demoG) (I := ⟨{ demoClear with satellite := sat }, Store.zero⟩) rfl 1 1
  have e3 : some l = some fun _ => 0 := h3.symm.trans hs.1.symm
  have e4 : some i = some fun _ => 0 := h4.symm.trans hs.2.symm
  cases e1; cases e2; cases e3; cases e4
  simp [opacityBelow]

theorem zero_runs (sat : Bool) :
    ∃ rows, (execute zeroA demoG ⟨{ demoClear with satellite := sat }, Store.zero⟩).1 = .ok rows :=
  execute_total zeroA_total ⟨⟨_, _, rfl, rfl⟩, ⟨_, _, rfl, rfl⟩, ⟨_, rfl⟩, ⟨_, rfl⟩⟩ rfl
    (show 1 ≤ 3 by decide) (show 2 ≤ 2 by decide)
    (fun h => by cases h) rfl fun k hk => (sin_pos_of_angle (demo_angles k hk).1 (demo_angles k hk).2).ne'

theorem clean_zero (S : Settings) : CleanClouds ⟨S, Store.zero⟩ :=
  fun _ _ => ⟨_, _, rfl, rfl, fun _ => le_rfl, fun _ => le_rfl⟩

theorem demo_tk (i : ℕ) (hi : i < 3) : 298 ≤ demoS.tk i ∧ demoS.tk i ≤ 300 := by
  have : (i : ℝ) ≤ 2 := by exact_mod_cast (show i ≤ 2 by omega)
  have h0 : (0:ℝ) ≤ i := Nat.cast_nonneg i
  simp only [demoS]
  constructor <;> linarith

/-- `C26_satellite` at 30 degrees. -/
example : ∃ Tb, ((execute zeroA demoG ⟨{ demoClear with satellite := true }, Store.zero⟩).2.out.cell 1 1).tbtotal =
    some Tb ∧ 298 ≤ Tb ∧ Tb ≤ 300 := by
  obtain ⟨r, hr⟩ := zero_runs true
  exact C26_satellite hr (by decide) (by decide)
    (goodPath_plane rfl (demo_angles 1 (by decide)).1 (demo_angles 1 (by decide)).2 fun i _ => by
      simp [demoS, demoClear]) (Or.inr (clean_zero _)) rfl rfl (by norm_num [demoS, demoClear]) (by norm_num)
    demo_tk (zero_opacity true hr)

/-- `C26_ground` at 30 degrees. -/
example : ∃ Tb, ((execute zeroA demoG ⟨{ demoClear with satellite := false }, Store.zero⟩).2.out.cell 1 1).tbtotal =
    some Tb ∧ 2.5 ≤ Tb ∧ Tb ≤ 300 := by
  obtain ⟨r, hr⟩ := zero_runs false
  exact C26_ground hr (by decide) (by decide)
    (goodPath_plane rfl (demo_angles 1 (by decide)).1 (demo_angles 1 (by decide)).2 fun i _ => by
      simp [demoS, demoClear]) (Or.inr (clean_zero _)) rfl (by norm_num [demoS, demoClear]) (by norm_num)
    (by norm_num) (by norm_num) (fun i hi => ⟨le_trans (by norm_num) (demo_tk i hi).1, (demo_tk i hi).2⟩)
    (zero_opacity false hr)

end Verif.Props
