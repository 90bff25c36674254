import Verif.Props.Opacity
import Mathlib.Analysis.Complex.ExponentialBounds

/-!
# C125: opacity and emissivity can be read back from a result table

The columns of one row of the table are tied together: for total opacity `τ` (the sum of the four opacity columns)
between 0 and 125 Np, `τ = log ((B(tmr) - B(2.728)) / (B(tmr) - B(tbtotal)))` for a ground-based view.  This is the
relation used to turn measured brightness temperatures into opacities, and in plane-parallel geometry the opacity found
in this way at any two elevations agrees after multiplication by the sine of the elevation (tipping curve).
-/

namespace Verif.Props

open Verif.Py Verif.Spec Verif.Model Real

section columns
variable {A : AbsRoutines} {g : Globals} {I : Inst} {rows : List Row} {r r' : Row}

/-- Planck's law in units of `2 h f³ / c²`: `1 / (exp(x / T) - 1)` with `x = h f / k`. -/
noncomputable def planckLaw (x T : ℝ) : ℝ := 1 / (exp (x / T) - 1)

theorem tk2b_planckLaw (x T : ℝ) : tk2b x T = planckLaw x T := by
  unfold tk2b planckLaw; norm_num

/-- The total returned by the layer integration is the sum of the layers it returns, also if it stops early. -/
theorem expInt_total {z : Bool} {nl : ℕ} {x d : Val} {s : ℝ} {xs : Val}
    (h : expInt z nl x d 1 nl 1 = .ok (s, xs)) : s = opacityBelow xs (nl - 1) := by
  rcases Nat.eq_zero_or_pos nl with rfl | hn
  · unfold expInt at h
    rw [forRangeE_of_le (by omega)] at h
    simp only [if_true, Except.ok.injEq, Prod.mk.injEq] at h
    rw [← h.1, ← h.2]; norm_num [opacityBelow]
  have e : Finset.Icc 1 (nl - 1) = Finset.Ico 1 nl := by ext i; simp; omega
  unfold opacityBelow
  rw [e]
  unfold expInt at h
  have hI := forRangeE_inv (lo := 1) (hi := nl) (f := expIntBody z nl x d) (s := (0.0, fun _ => 0))
    (I := fun k (s : ℝ × (ℕ → ℝ)) => s.1 = ∑ i ∈ Finset.Ico 1 nl, s.2 i ∧ ∀ i, k ≤ i → s.2 i = 0)
    (E := fun r => ∀ s, r = Except.ok s → s.1 = ∑ i ∈ Finset.Ico 1 nl, s.2 i) (by omega)
    ⟨by norm_num, fun _ _ => rfl⟩ (by
      intro k st h1 h2 hst
      unfold expIntBody
      rw [if_neg (by omega)]
      cases hv : layerValue z (prevEntry x nl k) (x k) with
      | none => right; exact ⟨_, rfl, fun s hs => by cases hs; exact hst.1⟩
      | some v =>
        left
        refine ⟨_, rfl, ?_, fun i hi => ?_⟩
        · have hk : k ∈ Finset.Ico 1 nl := Finset.mem_Ico.2 ⟨h1, h2⟩
          simp only
          rw [Finset.sum_update_of_mem hk, Function.update_self, hst.1, ← Finset.sum_sdiff (Finset.singleton_subset_iff.2 hk),
            Finset.sum_singleton, hst.2 k le_rfl]
          ring
        · simp only [Function.update_apply]
          rw [if_neg (by omega)]
          exact hst.2 i (by omega))
  rcases hI with ⟨t, ht, hIt⟩ | ⟨e, he, hE⟩
  · rw [ht] at h
    simp only [if_true, Except.ok.injEq, Prod.mk.injEq, mul_one] at h
    rw [← h.1, ← h.2]; exact hIt.1
  · rw [he] at h
    exact hE _ h

theorem integ_total {z : Bool} {nl : ℕ} {x : Val} {d : Path} {s : Option ℝ} {xs : Val}
    (h : integ z nl x d 1 1 = .ok (s, some xs)) : s = some (opacityBelow xs (nl - 1)) := by
  cases d with
  | missing =>
    simp only [integ] at h
    split_ifs at h
    simp only [Except.ok.injEq, Prod.mk.injEq, Option.some.injEq] at h
    rw [← h.1, ← h.2]; simp [opacityBelow]
  | nonfinite => simp [integ] at h
  | ok d =>
    simp only [integ] at h
    cases he : expInt z nl x d 1 nl 1 with
    | error x => rw [he] at h; cases h
    | ok q =>
      rw [he] at h
      cases h
      rw [← expInt_total he]

/-- The row of frequency `j` and angle `k`. -/
theorem row_of (h : (execute A g I).1 = .ok rows) {j k : ℕ} (hj : j < I.set.nf) (hk : k < I.set.nang)
    (hr : rows[k * I.set.nf + j]? = some r) :
    r = ((execute A g I).2.out.cell j k).row (I.set.angles k) := by
  obtain ⟨g1, e, rho, -, -, hrow, -⟩ := (execute_ok h).ex
  rw [hrow] at hr
  exact (Option.some.inj ((grid_get _ _ _ k j hk hj).symm.trans hr)).symm

/-- What one row contains: the four opacity columns add up to the opacity `τ` of the whole path, and the temperatures
are those of the radiative transfer through it. -/
theorem row_columns (h : (execute A g I).1 = .ok rows) {j k : ℕ} (hj : j < I.set.nf) (hk : k < I.set.nang)
    (hp : GoodPath I.set k) (hst : I.set.cloudy = true ∨ NoClouds I.out) (hr : rows[k * I.set.nf + j]? = some r) :
    ∃ (τ : Val) (tw td tl ti es : ℝ) (out : PlanckOut), r.tauwet = some tw ∧ r.taudry = some td ∧ r.tauliq = some tl ∧
      r.tauice = some ti ∧ opacityBelow τ (I.set.nl - 1) = tw + td + tl + ti ∧ (∀ n, 0 ≤ τ n) ∧
      ((execute A g I).2.out.cell j k).taulay = some τ ∧
      I.set.es[j]? = some es ∧ planck I.set.satellite es (I.set.frq j) I.set.nl I.set.tk τ = some out ∧
      r.tbtotal = bright out.hvk out.boftotl ∧ r.tmr = out.boftmr.bind (bright out.hvk) := by
  have hcl : I.set.cloudy = true ∨ CleanClouds I := hst.imp id fun hn j k =>
    ⟨_, _, (hn j k).1, (hn j k).2, fun _ => le_rfl, fun _ => le_rfl⟩
  obtain rfl := row_of h hj hk hr
  obtain ⟨g1, e, rho, -, hv, -, hc⟩ := (execute_ok h).ex
  obtain ⟨d, hd1, hd2⟩ := hp e rho hv
  obtain ⟨es, h1, h2⟩ := (hc k hk).2 j hj
  rw [hd1] at h2
  have hok := cellStep_ok h2
  obtain ⟨w, y, l, i, e1, e2, e3, e4, hn⟩ := cell_nonneg hd2 hok (hcl.imp id fun h => h j k)
  set c := (execute A g I).2.out.cell j k with hcd
  have ht : c.taulay = some fun n => w n + y n + i n + l n := by
    simp only [Cell.taulay, e1, e2, e3, e4]
  obtain ⟨out, ho, hb, -, htm, -⟩ := hok.rad _ ht
  rw [cellGlobals_emissivity, cellGlobals_fromSat] at ho
  obtain ⟨a, -, -, -, i1, i2⟩ := hok.clear
  rw [e1] at i1
  rw [e2] at i2
  have hci : c.sptauliq = some (opacityBelow l (I.set.nl - 1)) ∧ c.sptauice = some (opacityBelow i (I.set.nl - 1)) := by
    by_cases hcl : I.set.cloudy = true
    · obtain ⟨dl, di, b, -, -, h3, h4⟩ := hok.cloud hcl
      rw [e3] at h3
      rw [e4] at h4
      exact ⟨integ_total h3, integ_total h4⟩
    · have hs := hok.stale (by simpa using hcl)
      have hno := hst.resolve_left hcl j k
      rw [← hs.ptauliq, hno.ptauliq] at e3
      rw [← hs.ptauice, hno.ptauice] at e4
      rw [← hs.sptauliq, hno.sptauliq, ← hs.sptauice, hno.sptauice]
      simp only [Cell.zero, Option.some.injEq] at e3 e4 ⊢
      rw [← e3, ← e4]; simp [opacityBelow]
  refine ⟨_, _, _, _, _, es, out, integ_total i1, integ_total i2, hci.1, hci.2, ?_, fun n => ?_, ht, h1, ho, hb, htm⟩
  · simp only [opacityBelow, Finset.sum_add_distrib]; ring
  · obtain ⟨a, b, c, d⟩ := hn n
    positivity

/-- The opacity of the whole path as given by a row: the sum of its four opacity columns. -/
def Row.Opacity (r : Row) (τ : ℝ) : Prop := ∃ tw td tl ti : ℝ, r.tauwet = some tw ∧ r.taudry = some td ∧
  r.tauliq = some tl ∧ r.tauice = some ti ∧ τ = tw + td + tl + ti

/-- Opacity from the three temperatures `Tb` (measured), `Tm` (mean radiating) and `2.728` (cosmic background). -/
noncomputable def tipOpacity (x Tm Tb : ℝ) : ℝ :=
  log ((planckLaw x Tm - planckLaw x 2.728) / (planckLaw x Tm - planckLaw x Tb))

/-- The mean radiating temperature is the temperature whose radiance, times the opaque fraction `1 - exp(-τ)` of the
path, is the radiance of the atmosphere; both geometries. -/
theorem mean_radiance {s : Bool} {es frq m : ℝ} {nl : ℕ} {t τ : ℕ → ℝ} {out : PlanckOut} (hf : 0 < frq) (hm : 0 < m)
    (hT : ∀ i < nl, m ≤ t i) (hτ : ∀ i, 0 ≤ τ i) (hop0 : 0 < opacityBelow τ (nl - 1))
    (hop : opacityBelow τ (nl - 1) < 125) (h : planck s es frq nl t τ = some out) :
    0 < nl ∧ out.hvk = hvkOf frq ∧ ∃ Tm, m ≤ Tm ∧ out.boftmr = some (planckLaw (hvkOf frq) Tm) ∧
      out.boftotl = (if s then es * planckLaw (hvkOf frq) (t 0) else planckLaw (hvkOf frq) 2.728) *
        exp (-opacityBelow τ (nl - 1)) + planckLaw (hvkOf frq) Tm * (1 - exp (-opacityBelow τ (nl - 1))) := by
  have hx := hvkOf_pos hf
  have hpos : 0 < 1 - exp (-opacityBelow τ (nl - 1)) := by
    have : exp (-opacityBelow τ (nl - 1)) < 1 := by rw [exp_lt_one_iff]; linarith
    linarith
  have fin : ∀ R : ℝ, tk2b (hvkOf frq) m * (1 - exp (-opacityBelow τ (nl - 1))) ≤ R →
      ∃ Tm, m ≤ Tm ∧ tk2b (hvkOf frq) Tm = R / (1 - exp (-opacityBelow τ (nl - 1))) := fun R hR => by
    have h1 := (le_div_iff₀ hpos).2 hR
    obtain ⟨T, q1, q2⟩ := exists_tk2b hx ((tk2b_pos hx hm).trans_le h1)
    refine ⟨T, ?_, q2⟩
    by_contra hc
    push Not at hc
    linarith [tk2b_strictMono hx q1 hc]
  have hB : 0 < nl → ∃ M, ∀ i ≤ nl - 1, tk2b (hvkOf frq) m ≤ tk2b (hvkOf frq) (t i) ∧ tk2b (hvkOf frq) (t i) ≤ M :=
    fun hn => by
    obtain ⟨iM, -, hmax⟩ := Finset.exists_max_image (Finset.range nl) (fun i => tk2b (hvkOf frq) (t i))
      ⟨0, Finset.mem_range.2 hn⟩
    exact ⟨_, fun i hi => ⟨tk2b_mono hx hm (hT i (by omega)), hmax i (Finset.mem_range.2 (by omega))⟩⟩
  simp only [← tk2b_planckLaw]
  cases s
  · obtain ⟨hn, e1, -, -, -, e5, -, e7⟩ := planck_ground h
    obtain ⟨M, hM⟩ := hB hn
    obtain ⟨Tm, h1, h2⟩ := fin _ (skyRadiance_bounds (fun i _ _ => hτ i) hM).1
    refine ⟨hn, e1, Tm, h1, by rw [(e5 hop).2, npDiv_of_ne hpos.ne', h2], ?_⟩
    rw [e7, (e5 hop).1, h2, div_mul_cancel₀ _ hpos.ne']
    rfl
  · obtain ⟨hn, e1, -, -, -, e5, -, e7⟩ := planck_sat h
    obtain ⟨M, hM⟩ := hB hn
    obtain ⟨Tm, h1, h2⟩ := fin _ (upRadiance_bounds (fun i _ _ => hτ i) hM).1
    refine ⟨hn, e1, Tm, h1, by rw [(e5 hop).2, npDiv_of_ne hpos.ne', h2], ?_⟩
    rw [e7, (e5 hop).1, h2, div_mul_cancel₀ _ hpos.ne']
    rfl

theorem coldest {nl : ℕ} {t : ℕ → ℝ} {c : ℝ} (hn : 0 < nl) (h : ∀ i < nl, c < t i) :
    ∃ m, c < m ∧ (∀ i < nl, m ≤ t i) ∧ ∃ i < nl, t i = m := by
  obtain ⟨im, him, hmin⟩ := Finset.exists_min_image (Finset.range nl) t ⟨0, Finset.mem_range.2 hn⟩
  exact ⟨t im, h im (Finset.mem_range.1 him), fun i hi => hmin i (Finset.mem_range.2 hi), im, Finset.mem_range.1 him, rfl⟩

/-- Ground view, opacity between 0 and 125 Np, all levels warmer than the cosmic background: the opacity columns of a
row are recovered exactly from its brightness temperature and mean radiating temperature. -/
theorem C125_ground (h : (execute A g I).1 = .ok rows) {j k : ℕ} (hj : j < I.set.nf) (hk : k < I.set.nang)
    (hp : GoodPath I.set k) (hst : I.set.cloudy = true ∨ NoClouds I.out) (hr : rows[k * I.set.nf + j]? = some r)
    (hsat : I.set.satellite = false) (hf : 0 < I.set.frq j) (hT : ∀ i < I.set.nl, 2.728 < I.set.tk i) {τ : ℝ}
    (hτ : Row.Opacity r τ) (h0 : 0 < τ) (h1 : τ < 125) :
    ∃ Tb Tm, r.tbtotal = some Tb ∧ r.tmr = some Tm ∧ 2.728 < Tb ∧ Tb < Tm ∧
      tipOpacity (hvkOf (I.set.frq j)) Tm Tb = τ := by
  obtain ⟨t, tw, td, tl, ti, es, out, c1, c2, c3, c4, c5, c6, -, -, c8, c9, c10⟩ := row_columns h hj hk hp hst hr
  obtain ⟨tw', td', tl', ti', d1, d2, d3, d4, rfl⟩ := hτ
  rw [c1] at d1; rw [c2] at d2; rw [c3] at d3; rw [c4] at d4
  cases d1; cases d2; cases d3; cases d4
  rw [← c5] at h0 h1 ⊢
  have hn : 0 < I.set.nl := by
    by_contra hn
    rw [planck_eq_none_iff.2 (by omega)] at c8; cases c8
  obtain ⟨m, hm, hTm, -⟩ := coldest hn hT
  have hc0 : (0:ℝ) < 2.728 := by norm_num
  obtain ⟨-, e1, Tm, e2, e3, e4⟩ := mean_radiance hf (hc0.trans hm) hTm c6 h0 h1 c8
  rw [hsat] at e4
  simp only [Bool.false_eq_true, if_false] at e4
  have hx := hvkOf_pos hf
  rw [e1] at c9 c10
  have hTm0 : 2.728 < Tm := hm.trans_le e2
  have hq0 : 0 < exp (-opacityBelow t (I.set.nl - 1)) := exp_pos _
  have hq1 : exp (-opacityBelow t (I.set.nl - 1)) < 1 := by rw [exp_lt_one_iff]; linarith
  have hcm := tk2b_strictMono hx hc0 hTm0
  have hcB := tk2b_pos hx hc0
  rw [tk2b_planckLaw, tk2b_planckLaw] at hcm
  rw [tk2b_planckLaw] at hcB
  unfold tipOpacity
  set q := exp (-opacityBelow t (I.set.nl - 1)) with hq
  set B := planckLaw (hvkOf (I.set.frq j)) Tm with hB
  set C := planckLaw (hvkOf (I.set.frq j)) 2.728 with hC
  have hlow : C < out.boftotl := by rw [e4]; nlinarith
  have hhigh : out.boftotl < B := by rw [e4]; nlinarith
  obtain ⟨Tb, q1, q2⟩ := exists_tk2b hx (hcB.trans hlow)
  have hb : planckLaw (hvkOf (I.set.frq j)) Tb = C * q + B * (1 - q) := by rw [← tk2b_planckLaw, q2, e4]
  refine ⟨Tb, Tm, by rw [c9, ← q2, bright_tk2b hx q1], ?_, ?_, ?_, ?_⟩
  · rw [c10, e3]
    show bright _ B = _
    rw [hB, ← tk2b_planckLaw, bright_tk2b hx (hc0.trans hTm0)]
  · by_contra hc
    push Not at hc
    have := tk2b_mono hx q1 hc
    rw [q2, tk2b_planckLaw] at this
    linarith
  · by_contra hc
    push Not at hc
    have := tk2b_mono hx (hc0.trans hTm0) hc
    rw [q2, tk2b_planckLaw] at this
    linarith
  · rw [hb, show B - (C * q + B * (1 - q)) = (B - C) * q by ring, ← div_div, div_self (by linarith), one_div, log_inv, hq,
      log_exp, neg_neg]

/-- Layer opacities of two plane-parallel views of one run. -/
theorem taulay_ratio (h : (execute A g I).1 = .ok rows) (hpl : I.set.rayTracing = false) {j k k' : ℕ}
    (hj : j < I.set.nf) (hk : k < I.set.nang) (hk' : k' < I.set.nang)
    (ha : 0 < I.set.angles k ∧ I.set.angles k < 180) (hb : 0 < I.set.angles k' ∧ I.set.angles k' < 180)
    (hst : I.set.cloudy = true ∨ NoClouds I.out) {t t' : Val}
    (c6 : ((execute A g I).2.out.cell j k).taulay = some t) (c6' : ((execute A g I).2.out.cell j k').taulay = some t')
    (n : ℕ) : t n = sin (I.set.angles k' * π / 180) / sin (I.set.angles k * π / 180) * t' n := by
  obtain ⟨r1, r2, r3, r4⟩ := angle_ratio h hpl hj hk hk' ha hb hst
  unfold Cell.taulay at c6 c6'
  rw [r1, r2, r3, r4] at c6
  cases w1 : ((execute A g I).2.out.cell j k').ptauwet with
  | none => rw [w1] at c6'; cases c6'
  | some w =>
  cases w2 : ((execute A g I).2.out.cell j k').ptaudry with
  | none => rw [w1, w2] at c6'; cases c6'
  | some y =>
  cases w3 : ((execute A g I).2.out.cell j k').ptauice with
  | none => rw [w1, w2, w3] at c6'; simp at c6'
  | some i =>
  cases w4 : ((execute A g I).2.out.cell j k').ptauliq with
  | none => rw [w1, w2, w3, w4] at c6'; simp at c6'
  | some l =>
  rw [w1, w2, w3, w4] at c6 c6'
  simp only [Option.map_some, Option.some.injEq] at c6 c6'
  rw [← c6, ← c6']
  ring

/-- Tipping curve: ground view, plane-parallel geometry.  The opacities computed from the temperatures at any two
elevations agree exactly once multiplied by the sine of the elevation. -/
theorem C125_tip (h : (execute A g I).1 = .ok rows) (hpl : I.set.rayTracing = false) {j k k' : ℕ}
    (hj : j < I.set.nf) (hk : k < I.set.nang) (hk' : k' < I.set.nang)
    (ha : 0 < I.set.angles k ∧ I.set.angles k < 180) (hb : 0 < I.set.angles k' ∧ I.set.angles k' < 180)
    (hz : ∀ i, i + 1 < I.set.nl → I.set.z i ≤ I.set.z (i + 1)) (hst : I.set.cloudy = true ∨ NoClouds I.out)
    (hr : rows[k * I.set.nf + j]? = some r) (hr' : rows[k' * I.set.nf + j]? = some r')
    (hsat : I.set.satellite = false) (hf : 0 < I.set.frq j) (hT : ∀ i < I.set.nl, 2.728 < I.set.tk i) {τ τ' : ℝ}
    (hτ : Row.Opacity r τ) (hτ' : Row.Opacity r' τ') (h0 : 0 < τ) (h1 : τ < 125) (h1' : τ' < 125) :
    ∃ Tb Tm Tb' Tm', r.tbtotal = some Tb ∧ r.tmr = some Tm ∧ r'.tbtotal = some Tb' ∧ r'.tmr = some Tm' ∧
      tipOpacity (hvkOf (I.set.frq j)) Tm Tb * sin (I.set.angles k * π / 180) =
        tipOpacity (hvkOf (I.set.frq j)) Tm' Tb' * sin (I.set.angles k' * π / 180) := by
  have s1 := sin_pos_of_angle ha.1 ha.2
  have s2 := sin_pos_of_angle hb.1 hb.2
  have p1 := goodPath_plane hpl ha.1 ha.2 hz
  have p2 := goodPath_plane hpl hb.1 hb.2 hz
  have key : τ * sin (I.set.angles k * π / 180) = τ' * sin (I.set.angles k' * π / 180) := by
    obtain ⟨t, tw, td, tl, ti, -, -, c1, c2, c3, c4, c5, -, c6, -⟩ := row_columns h hj hk p1 hst hr
    obtain ⟨t', tw', td', tl', ti', -, -, c1', c2', c3', c4', c5', -, c6', -⟩ := row_columns h hj hk' p2 hst hr'
    obtain ⟨_, _, _, _, d1, d2, d3, d4, rfl⟩ := hτ
    obtain ⟨_, _, _, _, d1', d2', d3', d4', rfl⟩ := hτ'
    rw [c1] at d1; rw [c2] at d2; rw [c3] at d3; rw [c4] at d4
    rw [c1'] at d1'; rw [c2'] at d2'; rw [c3'] at d3'; rw [c4'] at d4'
    cases d1; cases d2; cases d3; cases d4
    cases d1'; cases d2'; cases d3'; cases d4'
    rw [← c5, ← c5']
    have ht := taulay_ratio h hpl hj hk hk' ha hb hst c6 c6'
    unfold opacityBelow
    rw [Finset.sum_congr rfl fun n _ => ht n, ← Finset.mul_sum, mul_right_comm, div_mul_cancel₀ _ s1.ne', mul_comm]
  have h0' : 0 < τ' := by
    by_contra hc
    push Not at hc
    nlinarith [mul_pos h0 s1, mul_nonneg (neg_nonneg.2 hc) s2.le]
  obtain ⟨Tb, Tm, a1, a2, -, -, a3⟩ := C125_ground h hj hk p1 hst hr hsat hf hT hτ h0 h1
  obtain ⟨Tb', Tm', b1, b2, -, -, b3⟩ := C125_ground h hj hk' p2 hst hr' hsat hf hT hτ' h0' h1'
  exact ⟨Tb, Tm, Tb', Tm', a1, a2, b1, b2, by rw [a3, b3, key]⟩

/-- Satellite view: the surface emissivity is recovered exactly from the brightness temperature, the mean radiating
temperature, the opacity columns and the temperature of the lowest level. -/
theorem C125_emissivity (h : (execute A g I).1 = .ok rows) {j k : ℕ} (hj : j < I.set.nf) (hk : k < I.set.nang)
    (hp : GoodPath I.set k) (hst : I.set.cloudy = true ∨ NoClouds I.out) (hr : rows[k * I.set.nf + j]? = some r)
    (hsat : I.set.satellite = true) (hf : 0 < I.set.frq j) (hT : ∀ i < I.set.nl, 0 < I.set.tk i) {τ es : ℝ}
    (hes : I.set.es[j]? = some es) (he0 : 0 ≤ es) (hτ : Row.Opacity r τ) (h0 : 0 < τ) (h1 : τ < 125) :
    ∃ Tb Tm, r.tbtotal = some Tb ∧ r.tmr = some Tm ∧ 0 < Tb ∧ (∃ i < I.set.nl, I.set.tk i ≤ Tm) ∧
      es = (planckLaw (hvkOf (I.set.frq j)) Tb - planckLaw (hvkOf (I.set.frq j)) Tm * (1 - exp (-τ))) /
        (planckLaw (hvkOf (I.set.frq j)) (I.set.tk 0) * exp (-τ)) := by
  obtain ⟨t, tw, td, tl, ti, es', out, c1, c2, c3, c4, c5, c6, -, c7, c8, c9, c10⟩ := row_columns h hj hk hp hst hr
  rw [hes] at c7; cases c7
  obtain ⟨tw', td', tl', ti', d1, d2, d3, d4, rfl⟩ := hτ
  rw [c1] at d1; rw [c2] at d2; rw [c3] at d3; rw [c4] at d4
  cases d1; cases d2; cases d3; cases d4
  rw [← c5] at h0 h1 ⊢
  have hn : 0 < I.set.nl := by
    by_contra hn
    rw [planck_eq_none_iff.2 (by omega)] at c8; cases c8
  obtain ⟨m, hm, hTm, i0, hi0, him⟩ := coldest hn hT
  obtain ⟨-, e1, Tm, e2, e3, e4⟩ := mean_radiance hf hm hTm c6 h0 h1 c8
  rw [hsat] at e4
  simp only [if_true] at e4
  have hx := hvkOf_pos hf
  rw [e1] at c9 c10
  have hTm0 : 0 < Tm := hm.trans_le e2
  have hq0 : 0 < exp (-opacityBelow t (I.set.nl - 1)) := exp_pos _
  have hq1 : exp (-opacityBelow t (I.set.nl - 1)) < 1 := by rw [exp_lt_one_iff]; linarith
  have hB0 := tk2b_pos hx hTm0
  have hS0 := tk2b_pos hx (hT 0 hn)
  rw [tk2b_planckLaw] at hB0 hS0
  obtain ⟨Tb, q1, q2⟩ := exists_tk2b hx (show 0 < out.boftotl by
    rw [e4]
    exact add_pos_of_nonneg_of_pos (by positivity) (mul_pos hB0 (by linarith)))
  refine ⟨Tb, Tm, by rw [c9, ← q2, bright_tk2b hx q1], ?_, q1, ⟨i0, hi0, him.trans_le e2⟩, ?_⟩
  · rw [c10, e3]
    show bright _ (planckLaw _ Tm) = _
    rw [← tk2b_planckLaw, bright_tk2b hx hTm0]
  · rw [← tk2b_planckLaw _ Tb, q2, e4]
    field_simp
    ring

/-- From 125 Np on nothing can be read back: brightness temperature and mean radiating temperature coincide. -/
theorem C125_opaque (h : (execute A g I).1 = .ok rows) {j k : ℕ} (hj : j < I.set.nf) (hk : k < I.set.nang)
    (hp : GoodPath I.set k) (hst : I.set.cloudy = true ∨ NoClouds I.out) (hr : rows[k * I.set.nf + j]? = some r)
    {τ : ℝ} (hτ : Row.Opacity r τ) (h1 : 125 ≤ τ) : r.tbtotal = r.tmr := by
  obtain ⟨t, tw, td, tl, ti, es, out, c1, c2, c3, c4, c5, c6, -, -, c8, c9, c10⟩ := row_columns h hj hk hp hst hr
  obtain ⟨tw', td', tl', ti', d1, d2, d3, d4, rfl⟩ := hτ
  rw [c1] at d1; rw [c2] at d2; rw [c3] at d3; rw [c4] at d4
  cases d1; cases d2; cases d3; cases d4
  rw [← c5] at h1
  rw [c9, c10]
  cases hs : I.set.satellite
  · rw [hs] at c8
    obtain ⟨-, -, -, -, -, -, e6, e7⟩ := planck_ground c8
    rw [(e6 h1).2, e7, (e6 h1).1, zero_add]; rfl
  · rw [hs] at c8
    obtain ⟨-, -, -, -, -, -, e6, e7⟩ := planck_sat c8
    rw [(e6 h1).2, e7, (e6 h1).1, zero_add]; rfl

/-- Plane-parallel view through at least one layer of positive thickness, water vapour absorbing at every level: the
opacity is positive. -/
theorem C125_positive (h : (execute A g I).1 = .ok rows) (hpl : I.set.rayTracing = false) {j k : ℕ}
    (hj : j < I.set.nf) (hk : k < I.set.nang) (ha : 0 < I.set.angles k ∧ I.set.angles k < 180) (hn : 1 < I.set.nl)
    (hz : ∀ i, i + 1 < I.set.nl → I.set.z i < I.set.z (i + 1)) (hst : I.set.cloudy = true ∨ NoClouds I.out)
    (hr : rows[k * I.set.nf + j]? = some r) (hw : ∀ i < I.set.nl, 0 < ((execute A g I).2.out.cell j k).awet i) :
    ∃ τ, Row.Opacity r τ ∧ 0 < τ := by
  have hs := sin_pos_of_angle ha.1 ha.2
  obtain ⟨t, tw, td, tl, ti, es, out, c1, c2, c3, c4, c5, c6, c7, -⟩ :=
    row_columns h hj hk (goodPath_plane hpl ha.1 ha.2 fun i hi => (hz i hi).le) hst hr
  refine ⟨_, ⟨tw, td, tl, ti, c1, c2, c3, c4, rfl⟩, ?_⟩
  rw [← c5]
  obtain ⟨g1, e, rho, -, -, -, hc⟩ := (execute_ok h).ex
  obtain ⟨es', q1, q2⟩ := (hc k hk).2 j hj
  rw [pathOf_plane hpl hs.ne'] at q2
  have hok := cellStep_ok q2
  have hds : ∀ i, 0 < i → i < I.set.nl → 0 < (I.set.z i - I.set.z (i - 1)) * (1 / sin (I.set.angles k * π / 180)) :=
    fun i h0 hi => by
      have := hz (i - 1) (by omega)
      rw [show i - 1 + 1 = i by omega] at this
      exact mul_pos (by linarith) (by positivity)
  obtain ⟨w, y, l, i, e1, e2, e3, e4, hnn⟩ := cell_nonneg (fun i hi => by
    split_ifs with h0
    · exact le_rfl
    · exact (hds i (by omega) hi).le) hok (hst.imp id fun hn => ⟨_, _, (hn j k).1, (hn j k).2, fun _ => le_rfl, fun _ => le_rfl⟩)
  obtain ⟨a, -, a2, -, a4, -⟩ := hok.clear
  rw [a2] at hw
  rw [e1] at a4
  simp only [integ] at a4
  have hw1 : 0 < w 1 := by
    cases he : expInt true I.set.nl (fun i => (a i).1)
        (fun i => if i = 0 then 0 else (I.set.z i - I.set.z (i - 1)) * (1 / sin (I.set.angles k * π / 180))) 1 I.set.nl 1 with
    | error x => rw [he] at a4; cases a4
    | ok q =>
      rw [he] at a4
      obtain ⟨-, a6⟩ := Prod.mk.inj (Except.ok.inj a4)
      cases a6
      have := (C14_between (by omega) (fun i hi => (hw i hi).le) he le_rfl Nat.one_pos hn (by
        rw [if_neg (by omega)]; exact (hds 1 Nat.one_pos hn).le)).1
      rw [if_neg (by omega)] at this
      exact lt_of_lt_of_le (mul_pos (lt_min (hw 0 (by omega)) (hw 1 hn)) (hds 1 Nat.one_pos hn)) this
  have ht : t = fun n => w n + y n + i n + l n := by
    simp only [Cell.taulay, e1, e2, e3, e4, Option.some.injEq] at c7
    exact c7.symm
  unfold opacityBelow
  refine Finset.sum_pos' (fun n _ => c6 n) ⟨1, Finset.mem_Icc.2 ⟨le_rfl, by omega⟩, ?_⟩
  rw [ht]
  obtain ⟨-, b, c, d⟩ := hnn 1
  show 0 < w 1 + y 1 + i 1 + l 1
  linarith

/-- Rows 0 and 2 of the clear-sky tipping scene (90 and 30 degrees at 22 GHz) meet all hypotheses. -/
theorem tip_rows (sat : Bool) {k : ℕ} (hk : k < 2) {rows : List Row}
    (h : (execute demoA demoG ⟨tipS sat, Store.zero⟩).1 = .ok rows) :
    ∃ r τ, rows[k * 2 + 0]? = some r ∧ Row.Opacity r τ ∧ 0 < τ ∧ τ < 125 := by
  obtain ⟨r, -, h1, -⟩ := (C29_rows h).2 k hk 0 (show 0 < 2 by decide)
  have ha : 0 < (tipS sat).angles k ∧ (tipS sat).angles k < 180 := demo_angles k hk
  have hz : ∀ i, i + 1 < (tipS sat).nl → (tipS sat).z i < (tipS sat).z (i + 1) := fun i _ => by simp [tipS, demoS]
  have hst : (tipS sat).cloudy = true ∨ NoClouds Store.zero := Or.inr fun _ _ => ⟨rfl, rfl, rfl, rfl, rfl⟩
  have hd : 0 < db2np := by
    unfold db2np
    have : 0 < log (10.0:ℝ) := log_pos (by norm_num)
    positivity
  obtain ⟨τ, h2, h3⟩ := C125_positive h rfl (show 0 < 2 by decide) hk ha (show 1 < 3 by decide) hz hst h1 (fun i hi => by
    obtain ⟨g1, e, rho, hl, -, -, hc⟩ := (execute_ok h).ex
    obtain ⟨es, q1, q2⟩ := (hc k hk).2 0 (show 0 < 2 by decide)
    obtain ⟨u, u1, u2, -, -, -⟩ := (cellStep_ok q2).clear
    have := demo_level ((tabulateE_ok u1).1 i hi)
    rw [u2]
    simp only
    rw [this]
    simp only [tipS, demoS]
    positivity)
  refine ⟨r, τ, h1, h2, h3, ?_⟩
  obtain ⟨t, tw, td, tl, ti, es, out, c1, c2, c3, c4, c5, -, c7, -⟩ :=
    row_columns h (show 0 < 2 by decide) hk (goodPath_plane rfl ha.1 ha.2 fun i hi => (hz i hi).le) hst h1
  obtain ⟨_, _, _, _, d1, d2, d3, d4, rfl⟩ := h2
  rw [c1] at d1; rw [c2] at d2; rw [c3] at d3; rw [c4] at d4
  cases d1; cases d2; cases d3; cases d4
  rw [← c5]
  exact tip_opacity hk h c7

/-- The tipping curve of the scene with 90 and 30 degrees elevation. -/
example : ∃ rows r r' Tb Tm Tb' Tm', (execute demoA demoG ⟨tipS false, Store.zero⟩).1 = .ok rows ∧ rows[0]? = some r ∧
    rows[2]? = some r' ∧ r.tbtotal = some Tb ∧ r.tmr = some Tm ∧ r'.tbtotal = some Tb' ∧ r'.tmr = some Tm' ∧
    tipOpacity (hvkOf 22) Tm' Tb' = 2 * tipOpacity (hvkOf 22) Tm Tb := by
  obtain ⟨rows, h⟩ := tip_runs false
  obtain ⟨r, τ, h1, h2, h3, h4⟩ := tip_rows false (k := 0) (by decide) h
  obtain ⟨r', τ', h1', h2', h3', h4'⟩ := tip_rows false (k := 1) (by decide) h
  obtain ⟨Tb, Tm, Tb', Tm', a1, a2, a3, a4, a5⟩ := C125_tip (j := 0) (k := 0) (k' := 1) h rfl (show 0 < 2 by decide)
    (show 0 < 2 by decide) (show 1 < 2 by decide) (demo_angles 0 (by decide)) (demo_angles 1 (by decide))
    (fun i _ => by simp [tipS, demoS]) (Or.inr fun _ _ => ⟨rfl, rfl, rfl, rfl, rfl⟩) h1 h1' rfl
    (by norm_num [tipS, demoS]) (fun i hi => by
      have : (i : ℝ) < 3 := by exact_mod_cast (show i < 3 from hi)
      simp only [tipS, demoS]
      norm_num; linarith) h2 h2' h3 h4 h4'
  refine ⟨rows, r, r', Tb, Tm, Tb', Tm', h, h1, h1', a1, a2, a3, a4, ?_⟩
  simp only [tipS, demoS] at a5
  norm_num at a5
  rw [show 90 * π / 180 = π / 2 by ring, sin_pi_div_two, show 30 * π / 180 = π / 6 by ring, sin_pi_div_six] at a5
  linarith

/-- The emissivity 1 of the same scene seen from above. -/
example : ∃ rows r Tb Tm τ, (execute demoA demoG ⟨tipS true, Store.zero⟩).1 = .ok rows ∧ rows[2]? = some r ∧
    Row.Opacity r τ ∧ r.tbtotal = some Tb ∧ r.tmr = some Tm ∧
    1 = (planckLaw (hvkOf 22) Tb - planckLaw (hvkOf 22) Tm * (1 - exp (-τ))) / (planckLaw (hvkOf 22) 300 * exp (-τ)) := by
  obtain ⟨rows, h⟩ := tip_runs true
  obtain ⟨r, τ, h1, h2, h3, h4⟩ := tip_rows true (k := 1) (by decide) h
  have ha := demo_angles 1 (by decide)
  obtain ⟨Tb, Tm, a1, a2, -, -, a3⟩ := C125_emissivity (j := 0) (k := 1) (es := 1) h (show 0 < 2 by decide) (show 1 < 2 by decide)
    (goodPath_plane rfl ha.1 ha.2 fun i _ => by simp [tipS, demoS]) (Or.inr fun _ _ => ⟨rfl, rfl, rfl, rfl, rfl⟩) h1 rfl
    (by norm_num [tipS, demoS]) (fun i hi => (tip_cooling true).1 i hi) (by simp [tipS, demoS]) zero_le_one h2 h3 h4
  refine ⟨rows, r, Tb, Tm, τ, h, h1, h2, a1, a2, ?_⟩
  simpa [tipS, demoS] using a3

theorem integ_layer_ge {z : Bool} {nl : ℕ} {x d : Val} {s : Option ℝ} {xs : Option Val} {a : ℝ} (ha : 0 ≤ a)
    (hd : ∀ i < nl, 0 ≤ d i) (hx : ∀ i < nl, a ≤ x i) (h : integ z nl x (.ok d) 1 1 = .ok (s, xs))
    (hn : 0 < nl) : ∃ f, xs = some f ∧ ∀ i, 1 ≤ i → i < nl → a * d i ≤ f i := by
  simp only [integ] at h
  cases he : expInt z nl x d 1 nl 1 with
  | error x => rw [he] at h; cases h
  | ok r =>
    rw [he] at h
    cases h
    refine ⟨r.2, rfl, fun i h1 h2 => ?_⟩
    refine le_trans ?_ (C14_between hn (fun i hi => ha.trans (hx i hi)) he h1 h1 h2 (hd i h2)).1
    exact mul_le_mul_of_nonneg_right (le_min (hx _ (by omega)) (hx i h2)) (hd i h2)

/-- Total opacity of a plane-parallel clear view: at least the smallest absorption times the path length. -/
theorem clear_opacity_ge (h : (execute A g I).1 = .ok rows) (hr : I.set.rayTracing = false) {j k : ℕ}
    (hj : j < I.set.nf) (hk : k < I.set.nang) (hn : 0 < I.set.nl)
    (ha : 0 < I.set.angles k) (hb : I.set.angles k < 180)
    (hz : ∀ i, i + 1 < I.set.nl → I.set.z i ≤ I.set.z (i + 1)) (hcl : I.set.cloudy = false) (hst : NoClouds I.out)
    {a b : ℝ} (ha0 : 0 ≤ a) (hb0 : 0 ≤ b) (hw : ∀ i < I.set.nl, a ≤ ((execute A g I).2.out.cell j k).awet i)
    (hy : ∀ i < I.set.nl, b ≤ ((execute A g I).2.out.cell j k).adry i) {τ : Val}
    (ht : ((execute A g I).2.out.cell j k).taulay = some τ) :
    (a + b) / sin (I.set.angles k * π / 180) * (I.set.z (I.set.nl - 1) - I.set.z 0) ≤
      opacityBelow τ (I.set.nl - 1) := by
  obtain ⟨g1, e, rho, -, -, -, hc⟩ := (execute_ok h).ex
  have hs := sin_pos_of_angle ha hb
  obtain ⟨es, q1, q2⟩ := (hc k hk).2 j hj
  rw [pathOf_plane hr hs.ne'] at q2
  have c1 := cellStep_ok q2
  obtain ⟨u, -, a2, a3, a4, a5⟩ := c1.clear
  have hd : ∀ i < I.set.nl, 0 ≤ (fun i => if i = 0 then 0 else
      (I.set.z i - I.set.z (i - 1)) * (1 / sin (I.set.angles k * π / 180))) i := fun i hi => by
    simp only
    split_ifs with h0
    · exact le_rfl
    · have := hz (i - 1) (by omega)
      rw [show i - 1 + 1 = i by omega] at this
      exact mul_nonneg (by linarith) (by positivity)
  rw [a2] at hw
  rw [a3] at hy
  obtain ⟨f, f1, f2⟩ := integ_layer_ge ha0 hd hw a4 hn
  obtain ⟨f', f1', f2'⟩ := integ_layer_ge hb0 hd hy a5 hn
  have t1 := c1.stale hcl
  have l0 := t1.ptauliq.symm.trans (hst j k).1
  have i0 := t1.ptauice.symm.trans (hst j k).2
  simp only [Cell.taulay, f1, f1', l0, i0, Cell.zero, Option.some.injEq] at ht
  subst ht
  rw [← telescope I.set.z]
  refine Finset.sum_le_sum fun i hi => ?_
  simp only [Finset.mem_Icc] at hi
  have g1 := f2 i hi.1 (by omega)
  have g2 := f2' i hi.1 (by omega)
  rw [if_neg (by omega)] at g1 g2
  have : (a + b) / sin (I.set.angles k * π / 180) * (I.set.z i - I.set.z (i - 1)) =
    a * ((I.set.z i - I.set.z (i - 1)) * (1 / sin (I.set.angles k * π / 180))) +
    b * ((I.set.z i - I.set.z (i - 1)) * (1 / sin (I.set.angles k * π / 180))) := by ring
  rw [this]
  linarith

/-- The same scene one degree above the horizon. -/
noncomputable def grazingS : Settings := { tipS false with angles := fun _ => 1 }

/-- Its opacity exceeds 125 Np: the mean radiating temperature equals the brightness temperature. -/
example : ∃ rows r τ, (execute demoA demoG ⟨grazingS, Store.zero⟩).1 = .ok rows ∧ rows[0]? = some r ∧ Row.Opacity r τ ∧
    125 ≤ τ ∧ r.tbtotal = r.tmr := by
  obtain ⟨rows, h⟩ := demo_runs grazingS Store.zero rfl (show 1 ≤ 3 by decide) (by simp [grazingS, tipS, demoS])
    (by simp [CloudInput, grazingS, tipS]) rfl (fun _ _ => by simp only [grazingS]; norm_num)
  have hst : grazingS.cloudy = true ∨ NoClouds Store.zero := Or.inr fun _ _ => ⟨rfl, rfl, rfl, rfl, rfl⟩
  have ha : 0 < grazingS.angles 0 ∧ grazingS.angles 0 < 180 := by simp only [grazingS]; norm_num
  have hz : ∀ i, i + 1 < grazingS.nl → grazingS.z i ≤ grazingS.z (i + 1) := fun i _ => by simp [grazingS, tipS, demoS]
  have hp : GoodPath grazingS 0 := goodPath_plane rfl ha.1 ha.2 hz
  obtain ⟨r, -, h1, -⟩ := (C29_rows h).2 0 (show 0 < 2 by decide) 0 (show 0 < 2 by decide)
  obtain ⟨t, tw, td, tl, ti, es, out, c1, c2, c3, c4, c5, -, c7, -⟩ :=
    row_columns h (show 0 < 2 by decide) (show 0 < 2 by decide) hp hst h1
  have hτ : Row.Opacity r (tw + td + tl + ti) := ⟨tw, td, tl, ti, c1, c2, c3, c4, rfl⟩
  have hd : 0.2 ≤ db2np := by
    unfold db2np
    have h2 : (2:ℝ) ≤ log 10.0 := by
      rw [le_log_iff_exp_le (by norm_num), show (2:ℝ) = 1 + 1 by norm_num, exp_add]
      have := exp_one_lt_d9
      have := exp_pos 1
      norm_num at *
      nlinarith
    norm_num at h2 ⊢
    linarith
  have hv : ∀ i < 3, ((execute demoA demoG ⟨grazingS, Store.zero⟩).2.out.cell 0 0).awet i = 0.182 * 22 * db2np ∧
      ((execute demoA demoG ⟨grazingS, Store.zero⟩).2.out.cell 0 0).adry i = 0.182 * 22 * 2 * db2np := fun i hi => by
    obtain ⟨g1, e, rho, hl, -, -, hc⟩ := (execute_ok h).ex
    obtain ⟨es, q1, q2⟩ := (hc 0 (show 0 < 2 by decide)).2 0 (show 0 < 2 by decide)
    obtain ⟨u, u1, u2, u3, -, -⟩ := (cellStep_ok q2).clear
    have := demo_level ((tabulateE_ok u1).1 i hi)
    rw [u2, u3]
    simp only
    rw [this]
    simp [grazingS, tipS, demoS]
  have key := clear_opacity_ge (j := 0) (k := 0) (a := 0.8) (b := 1.6) h rfl (show 0 < 2 by decide) (show 0 < 2 by decide)
    (show 0 < 3 by decide) ha.1 ha.2 hz rfl (fun _ _ => ⟨rfl, rfl, rfl, rfl, rfl⟩) (by norm_num) (by norm_num)
    (fun i hi => by rw [(hv i hi).1]; norm_num at hd ⊢; linarith)
    (fun i hi => by rw [(hv i hi).2]; norm_num at hd ⊢; linarith) c7
  have hop : 125 ≤ tw + td + tl + ti := by
    rw [← c5]
    refine le_trans ?_ key
    have hs0 := sin_pos_of_angle ha.1 ha.2
    have hs1 : sin (grazingS.angles 0 * π / 180) ≤ 1 * π / 180 := by
      simp only [grazingS]
      exact sin_le (by positivity)
    have := pi_lt_four
    rw [div_mul_eq_mul_div, le_div_iff₀ hs0]
    simp only [grazingS, tipS, demoS] at hs1 hs0 ⊢
    norm_num at hs1 hs0 ⊢
    linarith
  exact ⟨rows, r, _, h, h1, hτ, hop, C125_opaque (j := 0) (k := 0) h (show 0 < 2 by decide) (show 0 < 2 by decide) hp hst h1 hτ hop⟩

end columns

end Verif.Props
