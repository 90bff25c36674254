import Verif.Props.Absorbing
import Verif.Props.LiquidNitrogen
import Verif.Props.Dispatch

/-!
# C116: what a cloud changes in a run

Two runs with the same profile, models and options: one clear, one with `cloudy = True` and a cloud.  The statements
compare the columns of the two results.
-/

namespace Verif.Props

open Verif.Py Verif.Spec Verif.Model Real

variable {A : AbsRoutines} {g : Globals} {I I' : Inst} {rows rows' : List Row}

/-- The same run with a cloud: the profile of liquid and ice densities and the cloud levels are arbitrary. -/
def AddsCloud (I I' : Inst) : Prop :=
  I.set.cloudy = false ∧ NoClouds I.out ∧ ∃ cs d, I'.set = { I.set with cloudy := true, clouds := cs, dens := d }

/-- What the two runs have in common. -/
theorem cloud_views (h : (execute A g I).1 = .ok rows) (h' : (execute A g I').1 = .ok rows') (ha : AddsCloud I I')
    {j k : ℕ} (hj : j < I.set.nf) (hk : k < I.set.nang) :
    let c := (execute A g I).2.out.cell j k
    let c' := (execute A g I').2.out.cell j k
    (c'.awet = c.awet ∧ c'.adry = c.adry ∧ c'.ptauwet = c.ptauwet ∧ c'.ptaudry = c.ptaudry ∧
      c'.sptauwet = c.sptauwet ∧ c'.sptaudry = c.sptaudry) ∧
    (c.ptauliq = some (fun _ => 0) ∧ c.ptauice = some (fun _ => 0) ∧ c.sptauliq = some 0 ∧ c.sptauice = some 0) ∧
    ∃ es e rho dl di b ds, vapor I.set.tk I.set.rh I.set.ice = .ok (e, rho) ∧ I.set.es[j]? = some es ∧
      ds = pathOf I.set (fun i => (refractivity1 (I.set.p i) (I.set.tk i) (e i)).2.2) k ∧ I'.set.dens = some (dl, di) ∧
      cloudyAbs A g.sel.liq I.set.nl I.set.tk dl di (I.set.frq j) = .ok b ∧
      integ false I.set.nl (fun i => (b i).1) ds 1 1 = .ok (c'.sptauliq, c'.ptauliq) ∧
      integ false I.set.nl (fun i => (b i).2) ds 1 1 = .ok (c'.sptauice, c'.ptauice) ∧
      (∀ τ, c.taulay = some τ → ∃ out, planck I.set.satellite es (I.set.frq j) I.set.nl I.set.tk τ = some out ∧
        c.tbtotal = bright out.hvk out.boftotl ∧ c.tbatm = bright out.hvk (out.boftatm (I.set.nl - 1)) ∧
        c.tmr = out.boftmr.bind (bright out.hvk)) ∧
      (∀ τ, c'.taulay = some τ → ∃ out, planck I.set.satellite es (I.set.frq j) I.set.nl I.set.tk τ = some out ∧
        c'.tbtotal = bright out.hvk out.boftotl ∧ c'.tbatm = bright out.hvk (out.boftatm (I.set.nl - 1)) ∧
        c'.tmr = out.boftmr.bind (bright out.hvk)) := by
  obtain ⟨hc0, hst, cs, dn, hu⟩ := ha
  intro c c'
  obtain ⟨g1, e, rho, hl, hv, -, hc⟩ := (execute_ok h).ex
  obtain ⟨g1', e', rho', hl', hv', -, hc'⟩ := (execute_ok h').ex
  rw [hl] at hl'; cases hl'
  have ev : vapor I.set.tk I.set.rh I.set.ice = .ok (e', rho') := by rw [hu] at hv'; exact hv'
  rw [hv] at ev; cases ev
  obtain ⟨es, q1, q2⟩ := (hc k hk).2 j hj
  obtain ⟨es', r1, r2⟩ := (hc' k (by rw [hu]; exact hk)).2 j (by rw [hu]; exact hj)
  have ee : I.set.es[j]? = some es' := by rw [hu] at r1; exact r1
  rw [q1] at ee; cases ee
  have ok := cellStep_ok q2
  have ok' := cellStep_ok r2
  have hpp : pathOf I'.set (fun i => (refractivity1 (I'.set.p i) (I'.set.tk i) (e i)).2.2) k =
      pathOf I.set (fun i => (refractivity1 (I.set.p i) (I.set.tk i) (e i)).2.2) k := by rw [hu]; rfl
  have hg : cellGlobals I'.set { g1 with fromSat := I'.set.satellite } es =
      cellGlobals I.set { g1 with fromSat := I.set.satellite } es := by rw [hu]; rfl
  rw [hpp, hg] at ok'
  obtain ⟨a, a1, a2, a3, a4, a5⟩ := ok.clear
  obtain ⟨b, b1, b2, b3, b4, b5⟩ := ok'.clear
  have hb : clearsky A (cellGlobals I.set { g1 with fromSat := I.set.satellite } es) I.set e (I.set.frq j) = .ok b := by
    rw [hu] at b1; exact b1
  rw [a1] at hb; cases hb
  have sn : I'.set.nl = I.set.nl := by rw [hu]
  rw [sn, a4] at b4
  rw [sn, a5] at b5
  simp only [Except.ok.injEq, Prod.mk.injEq] at b4 b5
  have s := ok.stale hc0
  have z := hst j k
  obtain ⟨dl, di, p, m1, m2, m3, m4⟩ := ok'.cloud (by rw [hu])
  have hsel : (cellGlobals I.set { g1 with fromSat := I.set.satellite } es).sel = g.sel := by
    rw [cellGlobals_sel]; exact (initLineList_sel hl : g1.sel = g.sel)
  rw [hsel] at m2
  have f1 : I'.set.frq = I.set.frq := by rw [hu]
  have f2 : I'.set.tk = I.set.tk := by rw [hu]
  rw [sn, f1, f2] at m2
  rw [sn] at m3 m4
  refine ⟨⟨b2.trans a2.symm, b3.trans a3.symm, b4.2.symm, b5.2.symm, b4.1.symm, b5.1.symm⟩,
    ⟨s.ptauliq.symm.trans z.ptauliq, s.ptauice.symm.trans z.ptauice, s.sptauliq.symm.trans z.sptauliq,
      s.sptauice.symm.trans z.sptauice⟩, es, e, rho, dl, di, p, _, hv, q1, rfl, m1, m2, m3, m4, fun τ ht => ?_,
    fun τ ht => ?_⟩
  · obtain ⟨out, o1, o2, o3, o4, -⟩ := ok.rad τ ht
    rw [cellGlobals_emissivity, cellGlobals_fromSat] at o1
    exact ⟨out, o1, o2, o3, o4⟩
  · obtain ⟨out, o1, o2, o3, o4, -⟩ := ok'.rad τ ht
    rw [cellGlobals_emissivity, cellGlobals_fromSat, f1, f2, sn] at o1
    rw [sn] at o3
    exact ⟨out, o1, o2, o3, o4⟩

/-- A cloud leaves everything reported about the gases as it is. -/
theorem C116_gases (h : (execute A g I).1 = .ok rows) (h' : (execute A g I').1 = .ok rows') (ha : AddsCloud I I')
    {j k : ℕ} (hj : j < I.set.nf) (hk : k < I.set.nang) :
    let c := (execute A g I).2.out.cell j k
    let c' := (execute A g I').2.out.cell j k
    c'.awet = c.awet ∧ c'.adry = c.adry ∧ c'.ptauwet = c.ptauwet ∧ c'.ptaudry = c.ptaudry ∧
      c'.sptauwet = c.sptauwet ∧ c'.sptaudry = c.sptaudry :=
  (cloud_views h h' ha hj hk).1

/-- A cloud adds its own opacity, layer by layer, and takes none away. -/
theorem C116_opacity (h : (execute A g I).1 = .ok rows) (h' : (execute A g I').1 = .ok rows') (ha : AddsCloud I I')
    {j k : ℕ} (hj : j < I.set.nf) (hk : k < I.set.nang) (hp : GoodPath I.set k) :
    let c := (execute A g I).2.out.cell j k
    let c' := (execute A g I').2.out.cell j k
    ∃ τ τ' lq ic, c.taulay = some τ ∧ c'.taulay = some τ' ∧ c'.ptauliq = some lq ∧ c'.ptauice = some ic ∧
      (∀ i, τ' i = τ i + lq i + ic i) ∧ ∀ i, 0 ≤ τ i ∧ 0 ≤ lq i ∧ 0 ≤ ic i := by
  intro c c'
  obtain ⟨⟨-, -, e1, e2, -, -⟩, ⟨z1, z2, -, -⟩, es, e, rho, dl, di, b, ds, hv, -, hds, -, -, l1, l2, -, -⟩ :=
    cloud_views h h' ha hj hk
  obtain ⟨d, hd1, hd2⟩ := hp e rho hv
  rw [hd1] at hds
  rw [hds] at l1 l2
  obtain ⟨lq, v1, v2⟩ := integ_nonneg hd2 l1
  obtain ⟨ic, w1, w2⟩ := integ_nonneg hd2 l2
  obtain ⟨g1, e', rho', -, hv', -, hc⟩ := (execute_ok h).ex
  rw [hv] at hv'; cases hv'
  obtain ⟨es', -, q2⟩ := (hc k hk).2 j hj
  rw [hd1] at q2
  obtain ⟨w, y, l, i, n1, n2, n3, n4, nn⟩ := cell_nonneg hd2 (cellStep_ok q2)
    (Or.inr ⟨_, _, (ha.2.1 j k).ptauliq, (ha.2.1 j k).ptauice, fun _ => le_rfl, fun _ => le_rfl⟩)
  rw [z1] at n3; cases n3
  rw [z2] at n4; cases n4
  refine ⟨fun n => w n + y n, fun n => w n + y n + ic n + lq n, lq, ic, ?_, ?_, v1, w1, fun i => ?_, fun i => ?_⟩
  · simp only [Cell.taulay, c, n1, n2, z1, z2, add_zero]
  · simp only [Cell.taulay, c', e1, e2, n1, n2, v1, w1]
  · simp only; ring
  · exact ⟨add_nonneg (nn i).1 (nn i).2.1, v2 i, w2 i⟩

/-- Common part of the brightness temperature statements. -/
theorem cloud_thicker (h : (execute A g I).1 = .ok rows) (h' : (execute A g I').1 = .ok rows') (ha : AddsCloud I I')
    {j k : ℕ} (hj : j < I.set.nf) (hk : k < I.set.nang) (hp : GoodPath I.set k) :
    let c := (execute A g I).2.out.cell j k
    let c' := (execute A g I').2.out.cell j k
    ∃ τ τ' es out out', c.taulay = some τ ∧ c'.taulay = some τ' ∧ Thicker I.set.nl τ τ' ∧ I.set.es[j]? = some es ∧
      planck I.set.satellite es (I.set.frq j) I.set.nl I.set.tk τ = some out ∧
      c.tbtotal = bright out.hvk out.boftotl ∧
      planck I.set.satellite es (I.set.frq j) I.set.nl I.set.tk τ' = some out' ∧
      c'.tbtotal = bright out'.hvk out'.boftotl := by
  obtain ⟨τ, τ', lq, ic, t1, t2, -, -, t3, t4⟩ := C116_opacity h h' ha hj hk hp
  obtain ⟨-, -, es, e, rho, dl, di, b, ds, -, he, -, -, -, -, -, r1, r2⟩ := cloud_views h h' ha hj hk
  obtain ⟨out, p1, p2, -⟩ := r1 τ t1
  obtain ⟨out', p3, p4, -⟩ := r2 τ' t2
  refine ⟨τ, τ', es, out, out', t1, t2, fun i _ _ => ⟨(t4 i).1, ?_⟩, he, p1, p2, p3, p4⟩
  have := t4 i
  rw [t3 i]; linarith [this.2.1, this.2.2]

/-- From the ground, through air that does not get warmer with height: a cloud cannot lower the brightness temperature. -/
theorem C116_ground (h : (execute A g I).1 = .ok rows) (h' : (execute A g I').1 = .ok rows') (ha : AddsCloud I I')
    {j k : ℕ} (hj : j < I.set.nf) (hk : k < I.set.nang) (hp : GoodPath I.set k)
    (hsat : I.set.satellite = false) (hf : 0 < I.set.frq j) (hc : Cooling I.set.nl I.set.tk)
    (htop : 2.728 ≤ I.set.tk (I.set.nl - 1))
    (hop : ∀ τ, ((execute A g I').2.out.cell j k).taulay = some τ → opacityBelow τ (I.set.nl - 1) < 125) :
    ∃ Tb Tb', ((execute A g I).2.out.cell j k).tbtotal = some Tb ∧
      ((execute A g I').2.out.cell j k).tbtotal = some Tb' ∧ Tb ≤ Tb' := by
  obtain ⟨τ, τ', es, out, out', t1, t2, ht, -, p1, b1, p2, b2⟩ := cloud_thicker h h' ha hj hk hp
  rw [hsat] at p1 p2
  obtain ⟨a, b, c, d, e⟩ := C82_ground hf hc htop ht (Or.inl (hop τ' t2)) p1 p2
  exact ⟨a, b, b1.trans c, b2.trans d, e⟩

/-- From a satellite over a black surface, through air that does not get warmer with height: a cloud cannot raise the
brightness temperature.  The cloud may be opaque. -/
theorem C116_satellite (h : (execute A g I).1 = .ok rows) (h' : (execute A g I').1 = .ok rows') (ha : AddsCloud I I')
    {j k : ℕ} (hj : j < I.set.nf) (hk : k < I.set.nang) (hp : GoodPath I.set k)
    (hsat : I.set.satellite = true) (hf : 0 < I.set.frq j) (hc : Cooling I.set.nl I.set.tk) (hes : I.set.es[j]? = some 1)
    (hop : ∀ τ, ((execute A g I).2.out.cell j k).taulay = some τ → opacityBelow τ (I.set.nl - 1) < 125) :
    ∃ Tb Tb', ((execute A g I).2.out.cell j k).tbtotal = some Tb ∧
      ((execute A g I').2.out.cell j k).tbtotal = some Tb' ∧ Tb' ≤ Tb := by
  obtain ⟨τ, τ', es, out, out', t1, t2, ht, he, p1, b1, p2, b2⟩ := cloud_thicker h h' ha hj hk hp
  rw [hes] at he; cases he
  rw [hsat] at p1 p2
  obtain ⟨a, b, c, d, e⟩ := C82_satellite hf hc ht (hop τ t1) p1 p2
  exact ⟨a, b, b1.trans c, b2.trans d, e⟩

/-! ## Clouds on isolated levels -/

theorem integ_isolated {nl : ℕ} {x d : Val} {s : Option ℝ} {xs : Option Val}
    (hx : ∀ i < nl, x i = 0 ∨ 1e-9 ≤ x i) (hi : ∀ i, 1 ≤ i → i < nl → x (i - 1) = 0 ∨ x i = 0) (hn : 0 < nl)
    (h : integ false nl x (.ok d) 1 1 = .ok (s, xs)) : s = some 0 ∧ xs = some fun _ => 0 := by
  have h0 : ∀ i < nl, 0 ≤ x i := fun i hi => by
    rcases hx i hi with h | h
    · exact h.ge
    · exact le_trans (by norm_num) h
  simp only [integ] at h
  cases he : expInt false nl x d 1 nl 1 with
  | error x => rw [he] at h; cases h
  | ok r =>
    rw [he] at h
    cases h
    have hz : ∀ i, 1 ≤ i → i < nl → r.2 i = 0 := fun i h1 h2 => by
      obtain ⟨t1, t2⟩ := C14_degenerate hn h0 he h1 h1 h2
      by_cases hd : |x i - x (i - 1)| < 1e-9
      · rw [t1 hd]
        have : x i = 0 := by
          rcases hx i h2 with h | h
          · exact h
          · rcases hi i h1 h2 with h' | h'
            · rw [h', sub_zero, abs_of_nonneg (h0 i h2)] at hd; linarith
            · exact h'
        rw [this, zero_mul]
      · simpa using t2 (not_lt.1 hd) (hi i h1 h2)
    have hf : expInt false nl x d 1 nl 1 = .ok ((∑ i ∈ Finset.Ico 1 nl, layerVal false x nl i * d i) * 1,
        fun i => if 1 ≤ i ∧ i < nl then layerVal false x nl i * d i else 0) := by
      refine expInt_ok hn fun i _ h2 => layerVal_spec ?_ (h0 i h2)
      unfold prevEntry
      split
      · exact h0 _ (by omega)
      · exact h0 _ (by omega)
    rw [he] at hf
    have hr := Except.ok.inj hf
    have h2 : r.2 = fun _ => 0 := by
      funext i
      by_cases hi : 1 ≤ i ∧ i < nl
      · exact hz i hi.1 hi.2
      · rw [hr]; exact if_neg hi
    refine ⟨?_, congrArg some h2⟩
    have h1 : r.1 = ∑ i ∈ Finset.Ico 1 nl, r.2 i := by
      rw [hr]
      simp only [mul_one]
      refine Finset.sum_congr rfl fun i hi => ?_
      rw [if_pos (Finset.mem_Ico.1 hi)]
    rw [h1, h2]
    simp

theorem ice_threshold {f w : ℝ} (hf : 1 ≤ f) (hw : 1e-4 ≤ w) :
    1e-9 ≤ 8.18645 / (cLight * 100 / (f * 1e9)) * w * 0.000959553 * db2np := by
  have hd : (0.2 : ℝ) ≤ db2np := by
    rw [show db2np = log 10 / 10 by unfold db2np; norm_num; ring]
    have h1 : (2 : ℝ) ≤ log 10 := by
      rw [le_log_iff_exp_le (by norm_num), show (2 : ℝ) = 1 + 1 by norm_num, exp_add]
      have := exp_one_lt_d9
      have := exp_pos 1
      nlinarith
    norm_num
    linarith
  have h1 : (0.25 : ℝ) ≤ 8.18645 / (cLight * 100 / (f * 1e9)) := by
    have hc : 0 < cLight * 100 / (f * 1e9) := by unfold cLight; positivity
    rw [le_div_iff₀ hc, ← mul_div_assoc, div_le_iff₀ (by positivity)]
    unfold cLight
    norm_num
    linarith
  calc (1e-9 : ℝ) ≤ 0.25 * 1e-4 * 0.000959553 * 0.2 := by norm_num
    _ ≤ _ := by gcongr

/-- A cloud on isolated levels is not seen: if no two neighbouring levels both hold liquid, nor both hold ice, the
brightness temperatures are those of the clear run and the reported cloud opacities are zero.  Absorption below
1e-9 Np/km is excluded: there the code uses the value of the upper level for the whole layer. -/
theorem C116_isolated (h : (execute A g I).1 = .ok rows) (h' : (execute A g I').1 = .ok rows') (ha : AddsCloud I I')
    {j k : ℕ} (hj : j < I.set.nf) (hk : k < I.set.nang) (hp : GoodPath I.set k) (hn : 0 < I.set.nl)
    (hf : 1 ≤ I.set.frq j) {dl di : Val} (hd : I'.set.dens = some (dl, di))
    (hl : ∀ i, 1 ≤ i → i < I.set.nl → dl (i - 1) ≤ 0 ∨ dl i ≤ 0)
    (hi : ∀ i, 1 ≤ i → i < I.set.nl → di (i - 1) ≤ 0 ∨ di i ≤ 0)
    (hlv : ∀ i < I.set.nl, 0 < dl i → ∀ m v, g.sel.liq = some m → A.liq m (dl i) (I.set.frq j) (I.set.tk i) = .ok v →
      1e-9 ≤ v)
    (hiv : ∀ i < I.set.nl, 0 < di i → 1e-4 ≤ di i) :
    let c := (execute A g I).2.out.cell j k
    let c' := (execute A g I').2.out.cell j k
    c'.tbtotal = c.tbtotal ∧ c'.tbatm = c.tbatm ∧ c'.tmr = c.tmr ∧ c'.sptauliq = some 0 ∧ c'.sptauice = some 0 := by
  intro c c'
  obtain ⟨⟨-, -, e1, e2, -, -⟩, ⟨z1, z2, -, -⟩, es, e, rho, dl', di', b, ds, hv, -, hds, hd', hb, l1, l2, r1, r2⟩ :=
    cloud_views h h' ha hj hk
  rw [hd] at hd'; cases hd'
  obtain ⟨d, hd1, hd2⟩ := hp e rho hv
  rw [hd1] at hds
  rw [hds] at l1 l2
  have hlev : ∀ i < I.set.nl, (dl i ≤ 0 → (b i).1 = 0) ∧ (0 < dl i → 1e-9 ≤ (b i).1) ∧ (di i ≤ 0 → (b i).2 = 0) ∧
      (0 < di i → 1e-9 ≤ (b i).2) := fun i hi => by
    have hb := (tabulateE_ok hb).1 i hi
    unfold cloudyLevel at hb
    cases ht : liqTerm A g.sel.liq (I.set.tk i) (dl i) (I.set.frq j) with
    | error x => rw [ht] at hb; cases hb
    | ok v =>
      rw [ht] at hb
      have hb := Except.ok.inj hb
      rw [← hb]
      refine ⟨fun h0 => ?_, fun h0 => ?_, fun h0 => if_neg (not_lt.2 h0), fun h0 => ?_⟩
      · unfold liqTerm at ht
        rw [if_neg (not_lt.2 h0)] at ht
        exact (Except.ok.inj ht).symm
      · unfold liqTerm at ht
        rw [if_pos h0] at ht
        cases hm : g.sel.liq with
        | none => rw [hm] at ht; cases ht
        | some m =>
          rw [hm] at ht
          exact hlv i hi h0 m v hm ht
      · simp only [if_pos h0]
        exact ice_threshold hf (hiv i hi h0)
  obtain ⟨s1, s2⟩ := integ_isolated
    (fun i hi => (le_or_gt (dl i) 0).imp (hlev i hi).1 (hlev i hi).2.1)
    (fun i h1 h2 => (hl i h1 h2).imp (hlev (i - 1) (by omega)).1 (hlev i h2).1) hn l1
  obtain ⟨s3, s4⟩ := integ_isolated
    (fun i hi => (le_or_gt (di i) 0).imp (hlev i hi).2.2.1 (hlev i hi).2.2.2)
    (fun i h1 h2 => (hi i h1 h2).imp (hlev (i - 1) (by omega)).2.2.1 (hlev i h2).2.2.1) hn l2
  obtain ⟨τ, τ', lq, ic, t1, t2, t3, t4, t5, -⟩ := C116_opacity h h' ha hj hk hp
  · rw [s2] at t3; cases t3
    rw [s4] at t4; cases t4
    have : τ' = τ := funext fun i => by rw [t5 i]; ring
    rw [this] at t2
    obtain ⟨out, p1, p2, p3, p4⟩ := r1 τ t1
    obtain ⟨out', q1, q2, q3, q4⟩ := r2 τ t2
    rw [p1] at q1; cases q1
    exact ⟨q2.trans p2.symm, q3.trans p3.symm, q4.trans p4.symm, s1, s3⟩

/-! ## Clouds on neighbouring levels -/

/-- Liquid water on two neighbouring levels is seen in the layer between them (plane-parallel view). -/
theorem C116_seen (h : (execute A g I).1 = .ok rows) (h' : (execute A g I').1 = .ok rows') (ha : AddsCloud I I')
    {j k : ℕ} (hj : j < I.set.nf) (hk : k < I.set.nang) (hr : I.set.rayTracing = false)
    (ha0 : 0 < I.set.angles k) (ha1 : I.set.angles k < 180) (hz : ∀ i, i + 1 < I.set.nl → I.set.z i ≤ I.set.z (i + 1))
    {dl di : Val} (hd : I'.set.dens = some (dl, di))
    (hlv : ∀ i < I.set.nl, 0 < dl i → ∀ m v, g.sel.liq = some m → A.liq m (dl i) (I.set.frq j) (I.set.tk i) = .ok v →
      0 < v)
    {i : ℕ} (h1 : 1 ≤ i) (h2 : i < I.set.nl) (hzi : I.set.z (i - 1) < I.set.z i) (hi0 : 0 < dl (i - 1)) (hi1 : 0 < dl i) :
    ∃ τ τ' lq, ((execute A g I).2.out.cell j k).taulay = some τ ∧ ((execute A g I').2.out.cell j k).taulay = some τ' ∧
      ((execute A g I').2.out.cell j k).ptauliq = some lq ∧ 0 < lq i ∧ τ i < τ' i := by
  have hs := sin_pos_of_angle ha0 ha1
  have hp := goodPath_plane hr ha0 ha1 hz
  obtain ⟨τ, τ', lq, ic, t1, t2, t3, -, t5, t6⟩ := C116_opacity h h' ha hj hk hp
  obtain ⟨-, -, es, e, rho, dl', di', b, ds, hv, -, hds, hd', hb, l1, -, -, -⟩ := cloud_views h h' ha hj hk
  rw [hd] at hd'; cases hd'
  rw [pathOf_plane hr hs.ne'] at hds
  rw [hds, t3] at l1
  have hlev : ∀ i < I.set.nl, 0 ≤ (b i).1 ∧ (0 < dl i → 0 < (b i).1) := fun i hi => by
    have hb := (tabulateE_ok hb).1 i hi
    unfold cloudyLevel at hb
    cases ht : liqTerm A g.sel.liq (I.set.tk i) (dl i) (I.set.frq j) with
    | error x => rw [ht] at hb; cases hb
    | ok v =>
      rw [ht] at hb
      have hb := Except.ok.inj hb
      rw [← hb]
      unfold liqTerm at ht
      by_cases h0 : 0 < dl i
      · rw [if_pos h0] at ht
        cases hm : g.sel.liq with
        | none => rw [hm] at ht; cases ht
        | some m =>
          rw [hm] at ht
          have := hlv i hi h0 m v hm ht
          exact ⟨this.le, fun _ => this⟩
      · rw [if_neg h0] at ht
        cases ht
        exact ⟨le_rfl, fun h => absurd h h0⟩
  have hl : 0 < lq i := by
    simp only [integ] at l1
    cases he : expInt false I.set.nl (fun i => (b i).1) (fun i => if i = 0 then 0 else
      (I.set.z i - I.set.z (i - 1)) * (1 / sin (I.set.angles k * π / 180))) 1 I.set.nl 1 with
    | error x => rw [he] at l1; cases l1
    | ok r =>
      rw [he] at l1
      simp only [Except.map, Except.ok.injEq, Prod.mk.injEq, Option.some.injEq] at l1
      have hpos : 0 < (I.set.z i - I.set.z (i - 1)) * (1 / sin (I.set.angles k * π / 180)) :=
        mul_pos (by linarith) (by positivity)
      have hz0 : i ≠ 0 := by omega
      have := (C14_between (by omega) (fun i hi => (hlev i hi).1) he h1 h1 h2 (by simp only [if_neg hz0]; exact hpos.le)).1
      rw [l1.2] at this
      refine lt_of_lt_of_le ?_ this
      simp only [if_neg hz0]
      exact mul_pos (lt_min ((hlev (i - 1) (by omega)).2 hi0) ((hlev i h2).2 hi1)) hpos
  refine ⟨τ, τ', lq, t1, t2, t3, hl, ?_⟩
  rw [t5 i]
  linarith [(t6 i).2.2]

/-- With the liquid water models of the library, between 210 K and 396 K. -/
theorem C116_shipped (h : (execute shipped g I).1 = .ok rows) (h' : (execute shipped g I').1 = .ok rows')
    (ha : AddsCloud I I') {m : String} (hm : g.sel.liq = some m)
    (hmem : m ∈ ["R98", "R03", "R16", "R17", "R19", "R19SD", "R20", "R22SD", "R23", "R23SD", "R24"])
    {j k : ℕ} (hj : j < I.set.nf) (hk : k < I.set.nang) (hr : I.set.rayTracing = false)
    (ha0 : 0 < I.set.angles k) (ha1 : I.set.angles k < 180) (hz : ∀ i, i + 1 < I.set.nl → I.set.z i ≤ I.set.z (i + 1))
    (hf : 0 < I.set.frq j) {dl di : Val} (hd : I'.set.dens = some (dl, di))
    (hT : ∀ i < I.set.nl, 0 < dl i → 210 ≤ I.set.tk i ∧ I.set.tk i ≤ 396)
    {i : ℕ} (h1 : 1 ≤ i) (h2 : i < I.set.nl) (hzi : I.set.z (i - 1) < I.set.z i) (hi0 : 0 < dl (i - 1)) (hi1 : 0 < dl i) :
    ∃ τ τ' lq, ((execute shipped g I).2.out.cell j k).taulay = some τ ∧
      ((execute shipped g I').2.out.cell j k).taulay = some τ' ∧
      ((execute shipped g I').2.out.cell j k).ptauliq = some lq ∧ 0 < lq i ∧ τ i < τ' i := by
  refine C116_seen h h' ha hj hk hr ha0 ha1 hz hd (fun i hi h0 m' v hm' hv => ?_) h1 h2 hzi hi0 hi1
  rw [hm] at hm'; cases hm'
  obtain ⟨t1, t2⟩ := hT i hi h0
  have : ∃ a, liquidAbs m (dl i) (I.set.frq j) (I.set.tk i) = .ok (some a) ∧ 0 < a := by
    by_cases hd : m = "R98" ∨ m = "R03"
    · exact C33_positive_debye m hd _ _ _ h0 hf (by linarith) t2
    · refine C33_positive_dilec m ?_ _ _ _ h0 hf t1
      simp only [List.mem_cons, List.not_mem_nil, or_false] at hmem ⊢
      push Not at hd
      rcases hmem with rfl | rfl | h
      · exact absurd rfl hd.1
      · exact absurd rfl hd.2
      · exact h
  obtain ⟨a, e1, e2⟩ := this
  have : shipped.liq m (dl i) (I.set.frq j) (I.set.tk i) = .ok a := by simp only [shipped, e1, finite]
  rw [this] at hv; cases hv
  exact e2

/-! ## Concrete runs -/

/-- The scene of `tipS` with a cloud of liquid content 1 g/m3 at every level. -/
noncomputable def overcastS (sat : Bool) : Settings := { tipS sat with cloudy := true }

theorem overcast_runs (sat : Bool) : ∃ rows, (execute demoA demoG ⟨overcastS sat, Store.zero⟩).1 = .ok rows :=
  demo_runs (overcastS sat) Store.zero rfl (show 1 ≤ 3 by decide) (by simp [overcastS, tipS, demoS])
    (fun _ => ⟨_, _, _, _, rfl, rfl⟩) rfl demo_angles

theorem overcast_adds (sat : Bool) : AddsCloud ⟨tipS sat, Store.zero⟩ ⟨overcastS sat, Store.zero⟩ :=
  ⟨rfl, fun _ _ => ⟨rfl, rfl, rfl, rfl, rfl⟩, _, _, rfl⟩

theorem overcast_opacity_le {k : ℕ} (hk : k < 2) {sat : Bool} {τ' : Val}
    (ht : ((execute demoA demoG ⟨overcastS sat, Store.zero⟩).2.out.cell 0 k).taulay = some τ') :
    opacityBelow τ' 2 ≤ 53 := by
  obtain ⟨rows, h⟩ := tip_runs sat
  obtain ⟨rows', h'⟩ := overcast_runs sat
  have ha := demo_angles k hk
  have hp : GoodPath (tipS sat) k := (tip_scene sat).2.2 k hk
  obtain ⟨σ, σ', lq, ic, t1, t2, t3, t4, t5, -⟩ := C116_opacity h h' (overcast_adds sat) (show 0 < 2 by decide) hk hp
  rw [ht] at t2; cases t2
  have key := tip_opacity_le hk h t1
  obtain ⟨-, -, es, e, rho, dl, di, b, ds, -, -, hds, hd, hb, l1, l2, -, -⟩ :=
    cloud_views h h' (overcast_adds sat) (show 0 < 2 by decide) hk
  cases hd
  have hs : 1 / 2 ≤ sin ((tipS sat).angles k * π / 180) := by
    have : k = 0 ∨ k = 1 := by omega
    rcases this with rfl | rfl
    · simp only [tipS, demoS]
      norm_num
      rw [show 90 * π / 180 = π / 2 by ring, sin_pi_div_two]
      norm_num
    · simp only [tipS, demoS]
      norm_num
      rw [show 30 * π / 180 = π / 6 by ring, sin_pi_div_six]
  rw [pathOf_plane rfl (by positivity)] at hds
  rw [hds] at l1 l2
  have hb : ∀ i < 3, b i = (1, 0) := fun i hi => by
    have := (tabulateE_ok hb).1 i hi
    simp only [cloudyLevel, liqTerm, if_pos one_pos, demoG, demoA, Except.map, lt_irrefl, if_false] at this
    exact (Except.ok.inj this).symm
  have hd0 : ∀ i < 3, 0 ≤ (fun i => if i = 0 then 0 else
      ((tipS sat).z i - (tipS sat).z (i - 1)) * (1 / sin ((tipS sat).angles k * π / 180))) i ∧
      (fun i => if i = 0 then 0 else
      ((tipS sat).z i - (tipS sat).z (i - 1)) * (1 / sin ((tipS sat).angles k * π / 180))) i ≤ 2 := fun i hi => by
    simp only
    split_ifs with h0
    · norm_num
    · have e1 : (tipS sat).z i - (tipS sat).z (i - 1) = 1 := by
        simp only [tipS, demoS]
        rw [Nat.cast_sub (by omega)]
        norm_num
      rw [e1, one_mul]
      refine ⟨by positivity, ?_⟩
      rw [div_le_iff₀ (by linarith)]
      linarith
  obtain ⟨f1, v1, v2⟩ := integ_layer_le (a := 1) (fun i hi => (hd0 i hi).1) (fun i hi => by simp only [hb i hi]; norm_num) l1
    (show 0 < 3 by decide)
  obtain ⟨f2, w1, w2⟩ := integ_layer_le (a := 0) (fun i hi => (hd0 i hi).1) (fun i hi => by simp only [hb i hi]; norm_num) l2
    (show 0 < 3 by decide)
  rw [t3] at v1; cases v1
  rw [t4] at w1; cases w1
  have hb1 : ∀ i, 1 ≤ i → i < 3 → τ' i ≤ σ i + 2 := fun i h1 h2 => by
    have := v2 i h1 h2
    have := w2 i h1 h2
    have := (hd0 i h2).2
    rw [t5 i]
    linarith
  unfold opacityBelow at key ⊢
  rw [Finset.sum_Icc_succ_top (by omega), Finset.sum_Icc_succ_top (by omega)] at key ⊢
  have := hb1 1 (by decide) (by decide)
  have := hb1 2 (by decide) (by decide)
  simp at key ⊢
  linarith

theorem overcast_opacity {k : ℕ} (hk : k < 2) {sat : Bool} {τ' : Val}
    (ht : ((execute demoA demoG ⟨overcastS sat, Store.zero⟩).2.out.cell 0 k).taulay = some τ') :
    opacityBelow τ' 2 < 125 :=
  (overcast_opacity_le hk ht).trans_lt (by norm_num)

/-- From the ground the cloud does not lower the brightness temperature. -/
example : ∃ Tb Tb', ((execute demoA demoG ⟨tipS false, Store.zero⟩).2.out.cell 0 1).tbtotal = some Tb ∧
    ((execute demoA demoG ⟨overcastS false, Store.zero⟩).2.out.cell 0 1).tbtotal = some Tb' ∧ Tb ≤ Tb' := by
  obtain ⟨rows, h⟩ := tip_runs false
  obtain ⟨rows', h'⟩ := overcast_runs false
  exact C116_ground h h' (overcast_adds false) (show 0 < 2 by decide) (show 1 < 2 by decide)
    ((tip_scene false).2.2 1 (by decide)) rfl (by norm_num [tipS, demoS]) (tip_cooling false) (by norm_num [tipS, demoS])
    fun τ ht => overcast_opacity (by decide) ht

/-- From the satellite it does not raise it. -/
example : ∃ Tb Tb', ((execute demoA demoG ⟨tipS true, Store.zero⟩).2.out.cell 0 1).tbtotal = some Tb ∧
    ((execute demoA demoG ⟨overcastS true, Store.zero⟩).2.out.cell 0 1).tbtotal = some Tb' ∧ Tb' ≤ Tb := by
  obtain ⟨rows, h⟩ := tip_runs true
  obtain ⟨rows', h'⟩ := overcast_runs true
  exact C116_satellite h h' (overcast_adds true) (show 0 < 2 by decide) (show 1 < 2 by decide)
    ((tip_scene true).2.2 1 (by decide)) rfl (by norm_num [tipS, demoS]) (tip_cooling true) (by simp [tipS, demoS])
    fun τ ht => tip_opacity (by decide) h ht

/-- The same scene with liquid at the middle level only. -/
noncomputable def wispS (sat : Bool) : Settings :=
  { tipS sat with cloudy := true, dens := some (fun i => if i = 1 then 1 else 0, fun _ => 0) }

/-- One gram per cubic metre at the middle level of three: not seen. -/
example : ((execute demoA demoG ⟨wispS true, Store.zero⟩).2.out.cell 0 1).tbtotal =
    ((execute demoA demoG ⟨tipS true, Store.zero⟩).2.out.cell 0 1).tbtotal := by
  obtain ⟨rows, h⟩ := tip_runs true
  obtain ⟨rows', h'⟩ := demo_runs (wispS true) Store.zero rfl (show 1 ≤ 3 by decide) (by simp [wispS, tipS, demoS])
    (fun _ => ⟨_, _, _, _, rfl, rfl⟩) rfl demo_angles
  refine (C116_isolated h h' ⟨rfl, fun _ _ => ⟨rfl, rfl, rfl, rfl, rfl⟩, _, _, rfl⟩ (show 0 < 2 by decide)
    (show 1 < 2 by decide) ((tip_scene true).2.2 1 (by decide)) (show 0 < 3 by decide) (by norm_num [tipS, demoS]) rfl
    (fun i h1 h2 => ?_) (fun i _ _ => Or.inl le_rfl) (fun i _ h0 m v _ hv => ?_) fun i _ h0 => absurd h0 (lt_irrefl 0)).1
  · by_cases hi : i = 1
    · left; simp [hi]
    · right; simp [hi]
  · simp only [demoA] at hv
    cases hv
    by_cases hi : i = 1
    · simp only [hi, if_true]; norm_num
    · simp only [hi, if_false] at h0; exact absurd h0 (lt_irrefl 0)

/-- R24, a real profile: the cloud adds opacity between the two lowest levels. -/
example : ∃ τ τ' lq, ((execute shipped (selected Globals.init "R24") ⟨realS false, Store.zero⟩).2.out.cell 0 1).taulay = some τ ∧
    ((execute shipped (selected Globals.init "R24") ⟨realS true, Store.zero⟩).2.out.cell 0 1).taulay = some τ' ∧
    ((execute shipped (selected Globals.init "R24") ⟨realS true, Store.zero⟩).2.out.cell 0 1).ptauliq = some lq ∧
    0 < lq 1 ∧ τ 1 < τ' 1 := by
  have hT : ∀ i < 3, (0 : ℝ) < 1 → (210 : ℝ) ≤ (realS true).tk i ∧ (realS true).tk i ≤ 396 := fun i hi _ => by
    have h3 : (i : ℝ) < 3 := by exact_mod_cast hi
    have h0 : (0 : ℝ) ≤ i := Nat.cast_nonneg i
    simp only [realS]
    constructor <;> linarith
  obtain ⟨rows, h⟩ := (C32_init_absmdl "R24" Globals.init (I := ⟨realS false, Store.zero⟩) (realS_good false) rfl
    (fun h => by simp [ozoneActive, Globals.init] at h) (realS_frq false)).1 (by decide)
  obtain ⟨rows', h'⟩ := (C32_init_absmdl_cloudy "R24" Globals.init (I := ⟨realS true, Store.zero⟩) (realS_good true)
    (fun _ => ⟨_, _, _, _, rfl, rfl⟩) rfl (by decide) (by decide) (dl := fun _ => 1) (di := fun _ => 0) rfl
    ⟨0, by decide, one_pos⟩ hT (fun h => by simp [ozoneActive, Globals.init] at h) (realS_frq true)).1 (by decide)
  exact C116_shipped h h' ⟨rfl, fun _ _ => ⟨rfl, rfl, rfl, rfl, rfl⟩, _, _, rfl⟩ rfl (by simp) (show 0 < 2 by decide)
    (show 1 < 2 by decide) rfl (demo_angles 1 (by decide)).1 (demo_angles 1 (by decide)).2
    (fun i _ => by simp [realS, demoS]) ((realS_good false).frq 0 (by decide)) (dl := fun _ => 1) (di := fun _ => 0) rfl hT
    le_rfl (show 1 < 3 by decide) (by norm_num [realS, demoS]) one_pos one_pos

end Verif.Props
