import Verif.Props.SlantRay
import Verif.Props.Opacity
import Verif.Props.SpeedSign
import Verif.Props.Refractivity

/-!
# C137: slant views through a refracting atmosphere against the zenith view
-/

namespace Verif.Props

open Verif.Py Verif.Spec Verif.Model Verif.Lemmas Real

variable {A : AbsRoutines} {g : Globals} {I : Inst} {rows : List Row}

/-- The layers of one profile integrated over two paths, one of them longer. -/
theorem integ_grow {z : Bool} {nl : ℕ} {x d d' : Val} {ibeg : ℕ} {factor : ℝ} {s s' : Option ℝ} {xs xs' : Option Val}
    (hd : ∀ i, 1 ≤ i → i < nl → d i ≤ d' i) (h : integ z nl x (.ok d) ibeg factor = .ok (s, xs))
    (h' : integ z nl x (.ok d') ibeg factor = .ok (s', xs')) :
    ∃ f f', xs = some f ∧ xs' = some f' ∧ ∀ i, 1 ≤ i → i < nl → f i ≤ f' i := by
  have key : ∃ v : Val, (∀ i, 0 ≤ v i) ∧ ∀ D : Val, ∃ r, expInt z nl x D ibeg nl factor = .ok (r, fun i => v i * D i) := by
    rcases le_total ibeg nl with hle | hle
    · rcases first_bad x nl ibeg nl with hb | ⟨i0, h1, h2, h3, h4⟩
      · have hv := fun i h1 h2 => layerVal_spec (z := z) (hb i h1 h2).1 (hb i h1 h2).2
        refine ⟨fun i => if ibeg ≤ i ∧ i < nl then layerVal z x nl i else 0, fun i => ?_,
          fun D => ⟨(∑ i ∈ Finset.Ico ibeg nl, layerVal z x nl i * D i) * factor, (expInt_ok hle hv).trans ?_⟩⟩
        · simp only
          split_ifs with hi
          · exact layerValue_nonneg (hv i hi.1 hi.2)
          · exact le_rfl
        · refine congrArg _ (Prod.ext rfl (funext fun i => ?_))
          simp only [ite_mul, zero_mul]
      · have hv := fun i h1 h2 => layerVal_spec (z := z) (h4 i h1 h2).1 (h4 i h1 h2).2
        refine ⟨fun i => if ibeg ≤ i ∧ i < i0 then layerVal z x nl i else 0, fun i => ?_,
          fun D => ⟨∑ i ∈ Finset.Ico ibeg i0, layerVal z x nl i * D i, (expInt_bad h1 h2 h2 hv h3).trans ?_⟩⟩
        · simp only
          split_ifs with hi
          · exact layerValue_nonneg (hv i hi.1 hi.2)
          · exact le_rfl
        · refine congrArg _ (Prod.ext rfl (funext fun i => ?_))
          simp only [ite_mul, zero_mul]
    · refine ⟨fun _ => 0, fun _ => le_rfl, fun D => ⟨0, ?_⟩⟩
      unfold expInt
      rw [forRangeE_of_le hle]
      norm_num
  obtain ⟨v, hv, hD⟩ := key
  obtain ⟨r, e1⟩ := hD d
  obtain ⟨r', e2⟩ := hD d'
  simp only [integ, e1, Except.map] at h
  simp only [integ, e2, Except.map] at h'
  cases h; cases h'
  exact ⟨_, _, rfl, rfl, fun i h1 h2 => mul_le_mul_of_nonneg_left (hd i h1 h2) (hv i)⟩

/-- Two views of one run along finite paths, one longer in every layer: its layers are not less opaque, and both brightness
temperatures come from the radiative transfer through these layers. -/
theorem longer_views (h : (execute A g I).1 = .ok rows) {j k k' : ℕ} (hj : j < I.set.nf) (hk : k < I.set.nang)
    (hk' : k' < I.set.nang)
    (hp : ∀ e rho, vapor I.set.tk I.set.rh I.set.ice = .ok (e, rho) → ∃ d d',
      pathOf I.set (fun i => (refractivity1 (I.set.p i) (I.set.tk i) (e i)).2.2) k = .ok d ∧
      pathOf I.set (fun i => (refractivity1 (I.set.p i) (I.set.tk i) (e i)).2.2) k' = .ok d' ∧
      (∀ i < I.set.nl, 0 ≤ d i ∧ 0 ≤ d' i) ∧ ∀ i, 1 ≤ i → i < I.set.nl → d' i ≤ d i)
    (hst : I.set.cloudy = true ∨ NoClouds I.out) :
    let o := (execute A g I).2.out
    ∃ τ τ' es out out', Thicker I.set.nl τ' τ ∧ (o.cell j k).taulay = some τ ∧ (o.cell j k').taulay = some τ' ∧
      I.set.es[j]? = some es ∧
      planck I.set.satellite es (I.set.frq j) I.set.nl I.set.tk τ = some out ∧
      (o.cell j k).tbtotal = bright out.hvk out.boftotl ∧
      planck I.set.satellite es (I.set.frq j) I.set.nl I.set.tk τ' = some out' ∧
      (o.cell j k').tbtotal = bright out'.hvk out'.boftotl := by
  intro o
  have hcl : I.set.cloudy = true ∨ CleanClouds I := hst.imp id fun hn j k =>
    ⟨_, _, (hn j k).1, (hn j k).2, fun _ => le_rfl, fun _ => le_rfl⟩
  obtain ⟨w, y, l, i, es, e1, e2, e3, e4, hp1, hes, out, ho, hb1⟩ := C26_cell h hj hk (fun e rho hv => by
    obtain ⟨d, d', p1, -, p3, -⟩ := hp e rho hv
    exact ⟨d, p1, fun i hi => (p3 i hi).1⟩) hcl
  obtain ⟨w', y', l', i', es', f1, f2, f3, f4, hp2, hes', out', ho', hb2⟩ := C26_cell h hj hk' (fun e rho hv => by
    obtain ⟨d, d', -, p2, p3, -⟩ := hp e rho hv
    exact ⟨d', p2, fun i hi => (p3 i hi).2⟩) hcl
  rw [hes] at hes'; cases hes'
  refine ⟨_, _, es, out, out', fun n n1 n2 => ?_, ?_, ?_, hes, ho, hb1, ho', hb2⟩
  · obtain ⟨g1, e, rho, -, hv, -, hc⟩ := (execute_ok h).ex
    obtain ⟨d, d', p1, p2, -, p4⟩ := hp e rho hv
    obtain ⟨es1, q1, q2⟩ := (hc k hk).2 j hj
    obtain ⟨es2, q1', q2'⟩ := (hc k' hk').2 j hj
    rw [q1] at q1'; cases q1'
    rw [p1] at q2
    rw [p2] at q2'
    have c1 := cellStep_ok q2
    have c2 := cellStep_ok q2'
    obtain ⟨a, a1, a2, a3, a4, a5⟩ := c1.clear
    obtain ⟨b, b1, b2, b3, b4, b5⟩ := c2.clear
    rw [a1] at b1
    cases b1
    obtain ⟨x1, x1', u1, u1', m1⟩ := integ_grow p4 b4 a4
    obtain ⟨x2, x2', u2, u2', m2⟩ := integ_grow p4 b5 a5
    have hw : w' n ≤ w n := by
      rw [f1] at u1; rw [e1] at u1'; cases u1; cases u1'
      exact m1 n n1 n2
    have hy : y' n ≤ y n := by
      rw [f2] at u2; rw [e2] at u2'; cases u2; cases u2'
      exact m2 n n1 n2
    have hli : l' n ≤ l n ∧ i' n ≤ i n := by
      by_cases hcl : I.set.cloudy = true
      · obtain ⟨dl, di, u, v1, v2, v3, v4⟩ := c1.cloud hcl
        obtain ⟨dl', di', u', s1, s2, s3, s4⟩ := c2.cloud hcl
        rw [v1] at s1; cases s1
        rw [v2] at s2; cases s2
        obtain ⟨x3, x3', r3, r3', m3⟩ := integ_grow p4 s3 v3
        obtain ⟨x4, x4', r4, r4', m4⟩ := integ_grow p4 s4 v4
        constructor
        · rw [f3] at r3; rw [e3] at r3'; cases r3; cases r3'
          exact m3 n n1 n2
        · rw [f4] at r4; rw [e4] at r4'; cases r4; cases r4'
          exact m4 n n1 n2
      · have hno := hst.resolve_left hcl
        have t1 := c1.stale (by simpa using hcl)
        have t2 := c2.stale (by simpa using hcl)
        have k1 := t1.ptauliq.symm.trans (hno j k).1
        have k2 := t2.ptauliq.symm.trans (hno j k').1
        have k3 := t1.ptauice.symm.trans (hno j k).2
        have k4 := t2.ptauice.symm.trans (hno j k').2
        rw [e3] at k1; rw [f3] at k2; rw [e4] at k3; rw [f4] at k4
        simp only [Cell.zero, Option.some.injEq] at k1 k2 k3 k4
        rw [k1, k2, k3, k4]
        exact ⟨le_rfl, le_rfl⟩
    obtain ⟨a1, a2, a3, a4⟩ := hp2 n
    exact ⟨by linarith, by linarith [hli.1, hli.2]⟩
  · simp only [Cell.taulay, o, e1, e2, e3, e4]
  · simp only [Cell.taulay, o, f1, f2, f3, f4]

/-- The paths of a slant view and of a zenith view with ray tracing. -/
theorem traced_paths {S : Settings} {k k' : ℕ} (hi : S.ice = false) (H : Refracts S (levelN S) k) (h1 : 89 ≤ S.angles k')
    (h2 : S.angles k' ≤ 91) (hz : ∀ i, i + 1 < S.nl → S.z i ≤ S.z (i + 1)) {e rho : Val}
    (hv : vapor S.tk S.rh S.ice = .ok (e, rho)) :
    ∃ d d', pathOf S (fun i => (refractivity1 (S.p i) (S.tk i) (e i)).2.2) k = .ok d ∧
      pathOf S (fun i => (refractivity1 (S.p i) (S.tk i) (e i)).2.2) k' = .ok d' ∧
      (∀ i < S.nl, 0 ≤ d i ∧ 0 ≤ d' i) ∧ ∀ i, 1 ≤ i → i < S.nl → d' i = S.z i - S.z (i - 1) ∧ d' i ≤ d i := by
  obtain ⟨e', rho', hv', he⟩ := vapor_eq hi
  rw [hv] at hv'
  cases hv'
  have hN : (fun i => (refractivity1 (S.p i) (S.tk i) (e i)).2.2) = fun i => 1 + levelN S i / 10 ^ 6 := by
    funext i
    rw [he i]
    simp only [levelN, refractivity1]
    norm_num
    ring
  obtain ⟨d, -, p1, p2, p3⟩ := C108_path H
  obtain ⟨d', q1, q2, q3, -⟩ := C21_zenith (I := ⟨S.nl, S.z, fun i => 1 + levelN S i / 10 ^ 6, S.angles k', S.z0⟩) H.nl
    (fun i hi => by have := (H.units i hi).1; simp only; linarith [div_nonneg this (by norm_num : (0 : ℝ) ≤ 10 ^ 6)])
    (Or.inl ⟨h1, h2⟩)
  have hd' : pathOf S (fun i => 1 + levelN S i / 10 ^ 6) k' = .ok d' := by
    unfold pathOf
    rw [if_pos H.tracing, q1]
    simp
  have hzi : ∀ i, 1 ≤ i → i < S.nl → 0 ≤ S.z i - S.z (i - 1) := fun i i1 i2 => by
    have := hz (i - 1) (by omega)
    rw [Nat.sub_add_cancel i1] at this
    linarith
  refine ⟨d, d', by rw [hN]; exact p1, by rw [hN]; exact hd', fun i hi => ?_, fun i i1 i2 => ?_⟩
  · rcases Nat.eq_zero_or_pos i with rfl | i1
    · exact ⟨p2.ge, q2.ge⟩
    · exact ⟨(abs_nonneg _).trans (p3 i i1 hi), by rw [q3 i i1 hi]; exact hzi i i1 hi⟩
  · exact ⟨q3 i i1 i2, by rw [q3 i i1 i2]; exact (le_abs_self _).trans (p3 i i1 i2)⟩

/-- **C137.** With ray tracing, no layer is less opaque in a slant view than in the zenith view of the same run. -/
theorem C137_layers (h : (execute A g I).1 = .ok rows) (hi : I.set.ice = false) {j k k' : ℕ} (hj : j < I.set.nf)
    (hk : k < I.set.nang) (hk' : k' < I.set.nang) (H : Refracts I.set (levelN I.set) k) (h1 : 89 ≤ I.set.angles k')
    (h2 : I.set.angles k' ≤ 91) (hz : ∀ i, i + 1 < I.set.nl → I.set.z i ≤ I.set.z (i + 1))
    (hst : I.set.cloudy = true ∨ NoClouds I.out) :
    ∃ τ τ', ((execute A g I).2.out.cell j k).taulay = some τ ∧ ((execute A g I).2.out.cell j k').taulay = some τ' ∧
      ∀ i, 1 ≤ i → i < I.set.nl → 0 ≤ τ' i ∧ τ' i ≤ τ i := by
  obtain ⟨τ, τ', es, out, out', ht, l1, l2, -⟩ := longer_views h hj hk hk' (fun e rho hv => by
    obtain ⟨d, d', a, b, c, m⟩ := traced_paths hi H h1 h2 hz hv
    exact ⟨d, d', a, b, c, fun i i1 i2 => (m i i1 i2).2⟩) hst
  exact ⟨τ, τ', l1, l2, ht⟩

/-- **C137.** From the ground, in an atmosphere that does not get warmer with height, the refracted slant view is not colder
than the zenith view. -/
theorem C137_ground (h : (execute A g I).1 = .ok rows) (hi : I.set.ice = false) (hsat : I.set.satellite = false) {j k k' : ℕ}
    (hj : j < I.set.nf) (hk : k < I.set.nang) (hk' : k' < I.set.nang) (H : Refracts I.set (levelN I.set) k)
    (h1 : 89 ≤ I.set.angles k') (h2 : I.set.angles k' ≤ 91) (hz : ∀ i, i + 1 < I.set.nl → I.set.z i ≤ I.set.z (i + 1))
    (hst : I.set.cloudy = true ∨ NoClouds I.out) (hf : 0 < I.set.frq j) (hc : Cooling I.set.nl I.set.tk)
    (htop : 2.728 ≤ I.set.tk (I.set.nl - 1))
    (hop : ∀ τ, ((execute A g I).2.out.cell j k).taulay = some τ → opacityBelow τ (I.set.nl - 1) < 125) :
    ∃ Tslant Tzenith, ((execute A g I).2.out.cell j k).tbtotal = some Tslant ∧
      ((execute A g I).2.out.cell j k').tbtotal = some Tzenith ∧ Tzenith ≤ Tslant := by
  obtain ⟨τ, τ', es, out, out', ht, l1, l2, -, p1, b1, p2, b2⟩ := longer_views h hj hk hk' (fun e rho hv => by
    obtain ⟨d, d', a, b, c, m⟩ := traced_paths hi H h1 h2 hz hv
    exact ⟨d, d', a, b, c, fun i i1 i2 => (m i i1 i2).2⟩) hst
  rw [hsat] at p1 p2
  obtain ⟨a, b, c, d, e⟩ := C82_ground hf hc htop ht (Or.inl (hop τ l1)) p2 p1
  exact ⟨b, a, b1.trans d, b2.trans c, e⟩

/-- **C137.** From a satellite over a black surface it is not warmer. -/
theorem C137_satellite (h : (execute A g I).1 = .ok rows) (hi : I.set.ice = false) (hsat : I.set.satellite = true) {j k k' : ℕ}
    (hj : j < I.set.nf) (hk : k < I.set.nang) (hk' : k' < I.set.nang) (H : Refracts I.set (levelN I.set) k)
    (h1 : 89 ≤ I.set.angles k') (h2 : I.set.angles k' ≤ 91) (hz : ∀ i, i + 1 < I.set.nl → I.set.z i ≤ I.set.z (i + 1))
    (hst : I.set.cloudy = true ∨ NoClouds I.out) (hf : 0 < I.set.frq j) (hc : Cooling I.set.nl I.set.tk)
    (hes : I.set.es[j]? = some 1)
    (hop : ∀ τ, ((execute A g I).2.out.cell j k').taulay = some τ → opacityBelow τ (I.set.nl - 1) < 125) :
    ∃ Tslant Tzenith, ((execute A g I).2.out.cell j k).tbtotal = some Tslant ∧
      ((execute A g I).2.out.cell j k').tbtotal = some Tzenith ∧ Tslant ≤ Tzenith := by
  obtain ⟨τ, τ', es, out, out', ht, l1, l2, he, p1, b1, p2, b2⟩ := longer_views h hj hk hk' (fun e rho hv => by
    obtain ⟨d, d', a, b, c, m⟩ := traced_paths hi H h1 h2 hz hv
    exact ⟨d, d', a, b, c, fun i i1 i2 => (m i i1 i2).2⟩) hst
  rw [hes] at he; cases he
  rw [hsat] at p1 p2
  obtain ⟨a, b, c, d, e⟩ := C82_satellite hf hc ht (hop τ' l2) p2 p1
  exact ⟨b, a, b1.trans d, b2.trans c, e⟩

/-- **C115.** With ray tracing as well, every level of moist air, every layer and the whole slant path absorb by water vapour, with
any model. -/
theorem C115_traced {m : String} {W : LineList} (hW : waterFile m = some W) {g : Globals} (hg : g.sel.h2o = some m) {I : Inst}
    {rows : List Row} (h : (execute shipped g I).1 = .ok rows) (hice : I.set.ice = false) (hamu : I.set.amu = none)
    (hn : 2 ≤ I.set.nl) (hz : ∀ i, i + 1 < I.set.nl → I.set.z i < I.set.z (i + 1))
    (hM : Warm I.set) {j k : ℕ} (hj : j < I.set.nf) (hk : k < I.set.nang) (hf : 0 < I.set.frq j)
    (hfm : m ∈ ["R23SD", "R24"] → I.set.frq j < 4 * ckdStep) (H : Refracts I.set (levelN I.set) k) :
    let c := (execute shipped g I).2.out.cell j k
    (∀ i < I.set.nl, 0 < c.awet i) ∧
    ∃ w f, c.sptauwet = some w ∧ c.ptauwet = some f ∧ 0 < w ∧ ∀ i, 1 ≤ i → i < I.set.nl → 0 < f i := by
  intro c
  obtain ⟨g1, e, rho, hl, hv, -, hc⟩ := (execute_ok h).ex
  obtain ⟨e0, rho0, q1, q2⟩ := vapor_eq (S := I.set) hice
  rw [hv] at q1; cases q1
  have hg1 : g1.sel.h2o = some m ∧ ∃ old, g1.h2oll = reloadLL W old := by
    unfold initLineList at hl
    simp only [shipped, hg, Option.bind_some, hW] at hl
    split at hl
    · cases hl
    · cases hl
      exact ⟨hg, _, rfl⟩
  obtain ⟨hg1, old, hll⟩ := hg1
  obtain ⟨es, -, hstep⟩ := (hc k hk).2 j hj
  obtain ⟨D, -, p1, p2, p3⟩ := C108_path H
  have hN : (fun i => (refractivity1 (I.set.p i) (I.set.tk i) (e i)).2.2) = fun i => 1 + levelN I.set i / 10 ^ 6 := by
    funext i
    rw [q2 i]
    simp only [levelN, refractivity1]
    norm_num
    ring
  rw [hN, p1, cellGlobals_amu hamu] at hstep
  have ok := cellStep_ok hstep
  obtain ⟨a, a1, a2, -, a4, -⟩ := ok.clear
  have key : ∀ i < I.set.nl, 0 < (a i).1 := fun i hi => by
    have l := (tabulateE_ok a1).1 i hi
    obtain ⟨t1, t2⟩ := hM.tk i hi
    obtain ⟨v1, v2⟩ := hM.vapour i hi
    have r0 := hM.rh i hi
    have es0 := eswat_pos (I.set.tk i)
    have ee : e i = I.set.rh i * eswat (I.set.tk i) := q2 i
    rw [← ee] at v1 v2
    exact C115_level hW (by exact hg1) (by exact hll) t1 t2 (hM.p i hi) (by rw [ee]; positivity) v1 v2 hf hfm l
  have hd : ∀ i, 1 ≤ i → i < I.set.nl → 0 < D i := fun i h1 hi => by
    have := hz (i - 1) (by omega)
    rw [show i - 1 + 1 = i by omega] at this
    exact lt_of_lt_of_le (abs_pos.2 (by linarith)) (p3 i h1 hi)
  simp only [integ] at a4
  have hx : ∀ i < I.set.nl, 0 ≤ (fun i => (a i).1) i := fun i hi => (key i hi).le
  obtain ⟨s, xds, h1, h2⟩ := C15_sum (z := true) (ds := D) (factor := 1) (show 1 ≤ I.set.nl by omega) hx
  rw [h1] at a4
  have pos : ∀ i, 1 ≤ i → i < I.set.nl → 0 < xds i := fun i i1 i2 => by
    have b := (C14_between (by omega) hx h1 i1 (by omega) i2 (hd i i1 i2).le).1
    exact lt_of_lt_of_le (mul_pos (lt_min (key (i - 1) (by omega)) (key i i2)) (hd i i1 i2)) b
  have nn : ∀ i, 0 ≤ xds i := C15_nonneg (fun i hi => by
    rcases Nat.eq_zero_or_pos i with rfl | h0
    · exact p2.ge
    · exact (hd i h0 hi).le) h1
  have hs0 : 0 < s := by
    rw [h2, one_mul]
    exact Finset.sum_pos' (fun i _ => nn i) ⟨1, Finset.mem_range.2 (by omega), pos 1 le_rfl (by omega)⟩
  have a5 := Prod.mk.inj (Except.ok.inj a4)
  refine ⟨fun i hi => ?_, s, xds, a5.1.symm, a5.2.symm, hs0, pos⟩
  simp only [c, a2]
  exact key i hi

/-! ## Concrete inputs -/

/-- Three levels of dry air of 288 K, 1 MHz, ray tracing at elevations of 30 and 90 degrees. -/
noncomputable def thinS (sat : Bool) : Settings :=
  { tipS sat with tk := fun _ => 288, rh := fun _ => 0, frq := fun _ => 0.001, rayTracing := true, angles := fun k => 30 + 60 * k }

theorem thinS_index (sat : Bool) (i : ℕ) : levelN (thinS sat) i = levelN (thinS sat) 0 := rfl

theorem thinS_refracts (sat : Bool) : Refracts (thinS sat) (levelN (thinS sat)) 0 := by
  have h0 : 269 ≤ levelN (thinS sat) 0 ∧ levelN (thinS sat) 0 ≤ 270 := by
    norm_num [levelN, refractivity1, thinS, tipS, demoS]
  refine ⟨rfl, by norm_num [thinS, tipS, demoS], by norm_num [thinS], by norm_num [thinS], by norm_num [thinS, tipS, demoS],
    by norm_num [thinS, tipS, demoS], fun i hi => ?_, fun i _ => ?_, fun i _ => ?_⟩
  · have : (i : ℝ) ≤ 2 := by exact_mod_cast Nat.lt_succ_iff.1 (show i < 3 from hi)
    simp only [thinS, tipS, demoS]
    exact ⟨Nat.cast_nonneg i, by linarith⟩
  · rw [thinS_index]
    constructor <;> linarith [h0.1, h0.2]
  · rw [thinS_index sat i, sub_self, zero_mul]
    have : (0 : ℝ) ≤ (thinS sat).z i := Nat.cast_nonneg i
    positivity

theorem thinS_zenith (sat : Bool) : (thinS sat).angles 1 = 90 := by
  simp only [thinS]
  norm_num

theorem thinS_heights (sat : Bool) (i : ℕ) : (thinS sat).z i ≤ (thinS sat).z (i + 1) := by
  simp only [thinS, tipS, demoS]
  push_cast
  linarith

theorem thinS_runs (sat : Bool) : ∃ rows, (execute demoA demoG ⟨thinS sat, Store.zero⟩).1 = .ok rows := by
  refine execute_total_path demoA_total demoG_selected (I := ⟨thinS sat, Store.zero⟩) rfl (show 1 ≤ 3 by decide)
    (by simp [thinS, tipS, demoS]) (by simp [CloudInput, thinS, tipS]) fun e rho hv k hk => ?_
  obtain ⟨d, d', h1, h2, -⟩ := traced_paths rfl (thinS_refracts sat) (k' := 1) (by rw [thinS_zenith]; norm_num)
    (by rw [thinS_zenith]; norm_num) (fun i _ => thinS_heights sat i) hv
  have hk' : k < 2 := hk
  interval_cases k
  · exact ⟨d, h1⟩
  · exact ⟨d', h2⟩

/-- No layer is longer than twice the way to the centre of the Earth. -/
theorem chord_le {r r' φ : ℝ} (h : 0 < r) (h' : 0 < r') : chord r r' φ ≤ r + r' := by
  unfold chord
  rw [Real.sqrt_le_left (by positivity)]
  have : sin (φ / 2) ^ 2 ≤ 1 := sin_sq_le_one _
  nlinarith [mul_pos h h']

theorem thinS_opacity {sat : Bool} {rows : List Row} {k : ℕ} (hk : k < 2)
    (h : (execute demoA demoG ⟨thinS sat, Store.zero⟩).1 = .ok rows) {τ : Val}
    (ht : ((execute demoA demoG ⟨thinS sat, Store.zero⟩).2.out.cell 0 k).taulay = some τ) : opacityBelow τ 2 < 125 := by
  -- the slant path
  have slant : ∃ d : Val, pathOf (thinS sat) (fun i => 1 + levelN (thinS sat) i / 10 ^ 6) 0 = .ok d ∧
      ∀ i, 1 ≤ i → i < 3 → 0 ≤ d i ∧ d i ≤ 13000 := by
    obtain ⟨d, θ, b, h1, h2, -, -, h3⟩ := C108_traced (thinS_refracts sat).ray
    refine ⟨d, ?_, fun i i1 i2 => ?_⟩
    · unfold pathOf
      rw [if_pos (thinS_refracts sat).tracing, h1]
      simp
    · obtain ⟨m1, m2, m3, -⟩ := h3 i i1 i2
      have hb : b i - b (i - 1) = 0 := by
        rw [m1]
        simp only [thinS_index sat i, thinS_index sat (i - 1)]
        simp
      refine ⟨(abs_nonneg _).trans m3, ?_⟩
      rw [m2, hb]
      simp only [arcOverChord, if_true, mul_one]
      have r1 : ((i : ℕ) : ℝ) ≤ 2 := by exact_mod_cast Nat.lt_succ_iff.1 i2
      have r2 : ((i - 1 : ℕ) : ℝ) ≤ 2 := by exact_mod_cast (by omega : i - 1 ≤ 2)
      have n1 : (0 : ℝ) ≤ i := Nat.cast_nonneg i
      have n2 : (0 : ℝ) ≤ ((i - 1 : ℕ) : ℝ) := Nat.cast_nonneg _
      refine (chord_le ?_ ?_).trans ?_ <;> simp only [radius, thinS, tipS, demoS] <;> linarith
  obtain ⟨g1, e, rho, -, hv, -, hc⟩ := (execute_ok h).ex
  obtain ⟨e', rho', hv', he⟩ := vapor_eq (S := thinS sat) rfl
  have hv2 := hv
  rw [hv'] at hv2
  cases hv2
  have hN : (fun i => (refractivity1 ((thinS sat).p i) ((thinS sat).tk i) (e i)).2.2) =
      fun i => 1 + levelN (thinS sat) i / 10 ^ 6 := by
    funext i
    rw [he i]
    simp only [levelN, refractivity1]
    norm_num
    ring
  obtain ⟨d, d', h1, h2, h3, h4⟩ := traced_paths rfl (thinS_refracts sat) (k' := 1) (by rw [thinS_zenith]; norm_num)
    (by rw [thinS_zenith]; norm_num) (fun i _ => thinS_heights sat i) hv
  have path : ∃ D : Val, pathOf (thinS sat) (fun i => (refractivity1 ((thinS sat).p i) ((thinS sat).tk i) (e i)).2.2) k = .ok D ∧
      ∀ i < 3, 0 ≤ D i ∧ (1 ≤ i → D i ≤ 13000) := by
    obtain ⟨q, q1, q2⟩ := slant
    rw [← hN, h1] at q1
    cases q1
    interval_cases k
    · exact ⟨d, h1, fun i hi => ⟨(h3 i hi).1, fun i1 => (q2 i i1 hi).2⟩⟩
    · exact ⟨d', h2, fun i hi => ⟨(h3 i hi).2, fun i1 => (h4 i i1 hi).2.trans (q2 i i1 hi).2⟩⟩
  obtain ⟨D, D1, D2⟩ := path
  obtain ⟨es, q1, q2⟩ := (hc k hk).2 0 (show 0 < 2 by decide)
  rw [D1] at q2
  have c1 := cellStep_ok q2
  obtain ⟨u, u1, u2, u3, u4, u5⟩ := c1.clear
  have hu : ∀ i < 3, u i = (0.182 * 0.001 * db2np, 0.182 * 0.001 * 2 * db2np) := fun i hi => by
    have := demo_level ((tabulateE_ok u1).1 i hi)
    simpa [thinS] using this
  have hd1 := db2np_le
  have hd0 := db2np_pos
  obtain ⟨f, f1, f2⟩ := integ_layer_le (a := 0.0002) (fun i hi => (D2 i hi).1) (fun i hi => by
    simp only [hu i hi]
    constructor <;> nlinarith) u4 (show 0 < 3 by decide)
  obtain ⟨f', f1', f2'⟩ := integ_layer_le (a := 0.0004) (fun i hi => (D2 i hi).1) (fun i hi => by
    simp only [hu i hi]
    constructor <;> nlinarith) u5 (show 0 < 3 by decide)
  have t1 := c1.stale rfl
  have hst : NoClouds Store.zero := fun _ _ => ⟨rfl, rfl, rfl, rfl, rfl⟩
  have l0 := t1.ptauliq.symm.trans (hst 0 k).1
  have i0 := t1.ptauice.symm.trans (hst 0 k).2
  simp only [Cell.taulay, f1, f1', l0, i0, Cell.zero, Option.some.injEq] at ht
  subst ht
  have b1 := f2 1 le_rfl (show 1 < 3 by decide)
  have b2 := f2 2 (by decide) (show 2 < 3 by decide)
  have b3 := f2' 1 le_rfl (show 1 < 3 by decide)
  have b4 := f2' 2 (by decide) (show 2 < 3 by decide)
  have d1 := (D2 1 (by decide)).2 le_rfl
  have d2 := (D2 2 (by decide)).2 (by decide)
  norm_num [opacityBelow, Finset.sum_Icc_succ_top]
  linarith

theorem thinS_cooling (sat : Bool) : Cooling (thinS sat).nl (thinS sat).tk :=
  ⟨fun _ _ => by norm_num [thinS], fun _ _ => le_rfl⟩

/-- The hypotheses of `C137_ground` hold for it. -/
example : ∃ Tslant Tzenith, ((execute demoA demoG ⟨thinS false, Store.zero⟩).2.out.cell 0 0).tbtotal = some Tslant ∧
    ((execute demoA demoG ⟨thinS false, Store.zero⟩).2.out.cell 0 1).tbtotal = some Tzenith ∧ Tzenith ≤ Tslant := by
  obtain ⟨rows, h⟩ := thinS_runs false
  exact C137_ground h rfl rfl (show 0 < 2 by decide) (show 0 < 2 by decide) (show 1 < 2 by decide) (thinS_refracts false)
    (by rw [thinS_zenith]; norm_num) (by rw [thinS_zenith]; norm_num) (fun i _ => thinS_heights false i)
    (Or.inr fun _ _ => ⟨rfl, rfl, rfl, rfl, rfl⟩) (by norm_num [thinS]) (thinS_cooling false) (by norm_num [thinS])
    fun τ ht => thinS_opacity (by decide) h ht

/-- So do those of `C137_satellite`. -/
example : ∃ Tslant Tzenith, ((execute demoA demoG ⟨thinS true, Store.zero⟩).2.out.cell 0 0).tbtotal = some Tslant ∧
    ((execute demoA demoG ⟨thinS true, Store.zero⟩).2.out.cell 0 1).tbtotal = some Tzenith ∧ Tslant ≤ Tzenith := by
  obtain ⟨rows, h⟩ := thinS_runs true
  exact C137_satellite h rfl rfl (show 0 < 2 by decide) (show 0 < 2 by decide) (show 1 < 2 by decide) (thinS_refracts true)
    (by rw [thinS_zenith]; norm_num) (by rw [thinS_zenith]; norm_num) (fun i _ => thinS_heights true i)
    (Or.inr fun _ _ => ⟨rfl, rfl, rfl, rfl, rfl⟩) (by norm_num [thinS]) (thinS_cooling true) (by simp [thinS, tipS, demoS])
    fun τ ht => thinS_opacity (by decide) h ht

/-- Three levels of air of 288 K at 50 per cent humidity, ray tracing at elevations of 30 and 31 degrees. -/
noncomputable def dampS : Settings := { slantS with tk := fun _ => 288, p := fun _ => 1000, rh := fun _ => 0.5 }

theorem dampS_vapour : 0 < 0.5 * eswat 288 ∧ 0.5 * eswat 288 ≤ 100 := by
  have h1 := eswat_pos 288
  have h2 := eswat_le (t := 288) (by norm_num) (by norm_num)
  constructor <;> linarith

theorem dampS_refracts {k : ℕ} (hk : k < 2) : Refracts dampS (levelN dampS) k := by
  have H := slantS_refracts hk
  have hv := dampS_vapour
  refine ⟨H.tracing, H.nl, H.low, H.high, H.z0, H.base, H.z, fun i _ => ?_, fun i hi => ?_⟩
  · rw [levelN_eq]
    exact C110_range hv.1.le (show 0.5 * eswat 288 ≤ (1000 : ℝ) by linarith) hv.2 (by norm_num [dampS]) (by norm_num [dampS])
      (by norm_num [dampS])
  · have : levelN dampS i = levelN dampS 0 := rfl
    rw [this, sub_self, zero_mul]
    exact mul_nonneg (by norm_num) (H.z i hi).1

theorem dampS_good : GoodInput dampS where
  levels := by decide
  emissivity := (realS_good false).emissivity
  frq := (realS_good false).frq
  tk i _ := by norm_num [dampS]
  p i _ := by norm_num [dampS]
  rh i _ := by norm_num [dampS]
  vapour i _ := by
    have := dampS_vapour.2
    show 0.5 * eswat 288 ≤ (1000 : ℝ)
    linarith
  ice := rfl
  amu := rfl
  path k hk := C108_goodPath rfl (dampS_refracts hk)

/-- The hypotheses of `C115_traced` hold for it, with each of the three speed-dependent models that `init_absmdl` accepts for all
gases. -/
example (m : String) (hm : m ∈ ["R19SD", "R20SD", "R24"]) (j k : ℕ) (hj : j < 2) (hk : k < 2) :
    ∃ w, ((execute shipped (selected Globals.init m) ⟨dampS, Store.zero⟩).2.out.cell j k).sptauwet = some w ∧ 0 < w := by
  obtain ⟨rows, h⟩ := (C32_init_absmdl m Globals.init (I := ⟨dampS, Store.zero⟩) dampS_good rfl
      (fun h => by simp [ozoneActive, Globals.init] at h) (realS_frq false)).1 (by
        simp only [List.mem_cons, List.not_mem_nil, or_false] at hm ⊢; tauto)
  obtain ⟨W, hW⟩ := Option.isSome_iff_exists.1 ((C35_names m).2 (by
    simp only [List.mem_cons, List.not_mem_nil, or_false] at hm ⊢; tauto))
  have hv := dampS_vapour
  have warm : Warm dampS := ⟨fun i _ => by norm_num [dampS], fun i _ => by norm_num [dampS], fun i _ => by norm_num [dampS],
    fun i _ => ⟨show 0.5 * eswat 288 ≤ (1000 : ℝ) by linarith, show 0.5 * eswat 288 ≤ (500 : ℝ) by linarith⟩⟩
  obtain ⟨-, w, -, h1, -, h2, -⟩ := C115_traced hW (g := selected Globals.init m) rfl (I := ⟨dampS, Store.zero⟩) h rfl rfl
    (show 2 ≤ 3 by decide) (fun i _ => by simp [dampS, slantS, realS, demoS]) warm hj hk (dampS_good.frq j hj)
    (fun _ => realS_frq false j hj) (dampS_refracts hk)
  exact ⟨w, h1, h2⟩

end Verif.Props
