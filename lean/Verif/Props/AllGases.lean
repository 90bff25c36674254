import Verif.Spec.AllGases
import Verif.Props.ClearSky
import Verif.Props.OzoneVoigt

/-!
# C98: absorption in closed form for every model, with ozone and cloud particles
-/

namespace Verif.Props

open Verif.Model Verif.Py Verif.Spec Verif.Lemmas Real

variable {mw mo mn : String} {W O : LineList} {cw co : String → ℕ → ℝ} {nw no : ℕ} {g : Globals} {T p e f : ℝ}

/-! ## Water vapour -/

theorem spline_eq (a b c d q : ℝ) : cubic a b c d q = spline a b c d q := by
  unfold cubic spline
  norm_num
  ring

theorem selfNode_eq (hT : 0 < T) (k : ℤ) : ckdNode (300.0 / T) k = selfNode T k := by
  have h : (296 : ℝ) / (300 / (300.0 / T)) = 296 / T := by field_simp; norm_num
  unfold ckdNode selfNode
  simp only [h]
  generalize k.natAbs = n
  match n with
  | 0 | 1 | 2 | 3 | 4 | 5 => norm_num
  | _ + 6 => simp

theorem selfContinuum_eq (hT : 0 < T) (f : ℝ) :
    cubic (ckdNode (300.0 / T) (⌊f / ckdStep⌋ - 1)) (ckdNode (300.0 / T) ⌊f / ckdStep⌋)
      (ckdNode (300.0 / T) (⌊f / ckdStep⌋ + 1)) (ckdNode (300.0 / T) (⌊f / ckdStep⌋ + 2)) (f / ckdStep - ⌊f / ckdStep⌋) =
      selfContinuum T f := by
  rw [spline_eq]
  simp only [selfNode_eq hT]
  rfl

theorem dimers_eq (hT : 0 < T) (f : ℝ) : h2oContinuumMwl24 f (300.0 / T) = dimerContinuum T f := by
  have ht : (300.0 : ℝ) / (300.0 / T) = T := by field_simp
  have hv : virial T = secondVirial T := by
    unfold virial secondVirial
    generalize -((100 / T) ^ 6) = q
    ring
  have hb : boundDimers T ≠ 0 := by unfold boundDimers; positivity
  have hp : ((268 : ℝ) / T) ^ (10 : ℝ) = (268 / T) ^ 10 := by exact_mod_cast rpow_natCast (268 / T) 10
  have hs : (5.55e-8 / (434.8 * 434.8 + (f - 219.5) * (f - 219.5)) + (4.93e-10 / (21.06 * 21.06 + f * f) + 1.34e-14)) *
      (268 / T) ^ 10 = dimerSpectrum T f := by
    unfold dimerSpectrum
    simp only [pow_two]
    ring
  have hm : ((secondVirial T - 30.5) / (82.05746 * T) - 4.7856e-4 * exp (1669.8 / T - 5.10485e-3 * T)) / 1013.25 =
      metastableDimers T := by
    unfold metastableDimers boundDimers
    ring
  unfold h2oContinuumMwl24
  simp only [ht, hv, hp, hs, hm]
  change ((dimerSpectrum T f + (_ + 0.7 * dimerSpectrum T f / boundDimers T) * metastableDimers T) * f ^ 2 + _) * _ = _
  unfold dimerContinuum
  generalize dimerSpectrum T f = D
  generalize metastableDimers T = M
  generalize boundDimers T = B at hb ⊢
  generalize (266 / T) ^ (2.9 : ℝ) = q
  norm_num
  ring

/-- C98: the continuum of MWL24. -/
theorem C98_dimers (hF : waterFile "MWL24" = some W) (old : LineList) (hc : WaterColumns W cw nw)
    {q v : ℝ} (hq : 0 ≤ q) (hT : 0 < T) (hv : 0 < v) (hf : 0 < f) {npp ncpp : ℝ}
    (h : h2oAbsorption "MWL24" (reloadLL W old) q (300.0 / T) v f = .ok (some (npp, ncpp))) :
    ncpp * (0.182 * f) * (log 10 / 10) = (dimerContinuum T f * vapourPressure "MWL24" T v +
      7.1e-10 * (300 / T) ^ (4.4 : ℝ) * f ^ (1.96 : ℝ) * dryPressure "MWL24" T q v) * vapourPressure "MWL24" T v := by
  have hvx : 0 < 300.0 / T := div_pos (by norm_num) hT
  obtain ⟨ht, hr, hpv, hpd, hden⟩ := waterAir_props "MWL24" hq hvx hv
  obtain ⟨e1, e2, e3, e4⟩ := waterAir_formula hF q v hvx
  have C := columns_of_file hF old hc.col hc.len
  have hs := waterSum_formula hF C f ht hpv hpd
  have hdb0 := db2np_pos
  have hfac : 0.182 * f ≠ 0 := by positivity
  obtain ⟨-, con, k, h1, h2, h3⟩ := h2o_parts hvx hr.ne' hfac hs h
  rw [if_neg (by decide)] at h2
  simp only [Except.ok.injEq] at h2
  have hk : k / db2np / (0.182 * f) * (0.182 * f) * db2np = k := by field_simp
  rw [← db2np_eq, h3, hk]
  unfold waterCon at h1
  simp only [C.common (a := "reftcon") (by decide), bind, Except.bind, pure, Except.pure, e1, e3, e4,
    inverse_temperature hT, dimers_eq hT, List.mem_cons, List.not_mem_nil, String.reduceEq, or_self, if_true, if_false,
    Except.ok.injEq] at h1
  rw [h2, Option.some_inj] at h1
  rw [← h1]
  ring

theorem vapour_level (hW : waterFile mw = some W) (hc : WaterColumns W cw nw) (old : LineList) (hT : 0 < T) (he : 0 ≤ e)
    (hep : e ≤ p) (hf : 0 < f) (hfm : mw ∈ ["R23SD", "R24"] → f < 4 * ckdStep) :
    ∃ a b, h2oAbsorption mw (reloadLL W old) (p / 10.0 - e / 10.0) (300.0 / T) (e / 10.0) f = .ok (some (a, b)) ∧
      0.182 * f * (a + b) * db2np = vapourAbsorption mw cw nw T p e f := by
  by_cases hm : mw ∈ ["R23SD", "R24", "MWL24"]
  swap
  · obtain ⟨a, b, h1, h2⟩ := water_level hm hW hc old hT he hep hf
    refine ⟨a, b, h1, h2.trans ?_⟩
    simp only [List.mem_cons, List.not_mem_nil, or_false, not_or] at hm
    unfold vapourAbsorption
    simp only [hm, or_self, if_false]
  have hvx : 0 < 300.0 / T := div_pos (by norm_num) hT
  have hp : 0 ≤ p / 10.0 - e / 10.0 := by rw [← sub_div]; exact div_nonneg (by linarith) (by norm_num)
  have h10 : e / 10.0 = e / 10 := by norm_num
  have hpd : dryPressure mw T (p / 10.0 - e / 10.0) (e / 10.0) = p - vapourPressure mw T (e / 10) := by
    unfold dryPressure; rw [dry_kpa, h10]
  rcases he.eq_or_lt with rfl | h
  · refine ⟨0, 0, by rw [zero_div]; exact C35_dry _ _ _ _ hvx, ?_⟩
    obtain ⟨k, -, -, hk⟩ := vapourPressure_eq mw
    have e1 : vapourDensity T 0 = 0 := by unfold vapourDensity; simp
    have e2 : vapourPressure mw T 0 = 0 := by rw [hk hT]; simp
    have e3 (S : ℝ) : lineAbsorption mw 0 S = 0 := by unfold lineAbsorption; split_ifs <;> simp
    have e4 (a b c d θ q : ℝ) : continuum a b c d θ q 0 f = 0 := by unfold continuum; simp
    unfold vapourAbsorption waterAbsorption
    simp only [zero_div, e1, e2, e3, e4, ite_self, mul_zero, add_zero, zero_mul]
  · have h' : 0 < e / 10.0 := by positivity
    obtain ⟨⟨a, b⟩, hab⟩ := C32_water hW old hp hvx h'.le hf hfm
    have f1 := C68_water_lines hW old hc.col hc.len hp hvx h' hf hab
    rw [inverse_temperature hT, hpd, h10] at f1
    refine ⟨a, b, hab, ?_⟩
    have split : 0.182 * f * (a + b) * db2np = a * (0.182 * f) * (log 10 / 10) + b * (0.182 * f) * (log 10 / 10) := by
      rw [db2np_eq]; ring
    rw [split, f1]
    by_cases hn : mw ∈ ["R23SD", "R24"]
    · have hs : (0 : ℝ) < ckdStep := by unfold ckdStep; norm_num
      have hlt := hfm hn
      have k0 : 0 ≤ ⌊f / ckdStep⌋ := Int.floor_nonneg.2 (by positivity)
      have k3 : ⌊f / ckdStep⌋ ≤ 3 := by
        have : ⌊f / ckdStep⌋ < 4 := Int.floor_lt.2 (by rw [div_lt_iff₀ hs]; exact_mod_cast hlt)
        omega
      have f2 := C68_water_continuum_table hn hW old hc.col hp hvx h' hf hab ⟨k0, k3⟩
        ((le_div_iff₀ hs).1 (Int.floor_le _)) ((div_lt_iff₀ hs).1 (Int.lt_floor_add_one _))
      have hθ : cw "reftline" 0 * (300.0 / T) / 300 = cw "reftline" 0 / T := by
        field_simp; norm_num
      rw [inverse_temperature hT, hpd, h10, hθ, selfContinuum_eq hT] at f2
      rw [f2]
      have hn' : mw = "R23SD" ∨ mw = "R24" := by simpa using hn
      unfold vapourAbsorption
      simp only [if_pos hn']
    · have hmw : mw = "MWL24" := by
        simp only [List.mem_cons, List.not_mem_nil, or_false] at hm hn; tauto
      subst hmw
      rw [C98_dimers hW old hc hp hT h' hf hab, hpd, h10]
      simp [vapourAbsorption]

/-! ## Oxygen -/

theorem weight_pos {m : String} (C : OxyColumns m W cw nw) (θ : ℝ) {k : ℕ} (hk : k ≤ 37) : 0 < ruleWeight cw θ k := by
  obtain ⟨h1, h2, -⟩ := C.pos k (by have := C.lines; omega)
  unfold ruleWeight oxyStrength
  positivity

theorem Icc_range (F : ℕ → ℝ) : ∑ k ∈ Finset.range 38, (if 1 ≤ k ∧ k ≤ 37 then F k else 0) = ∑ k ∈ Finset.Icc 1 37, F k := by
  rw [← Finset.sum_filter]
  refine Finset.sum_congr ?_ fun _ _ => rfl
  ext k
  simp only [Finset.mem_filter, Finset.mem_range, Finset.mem_Icc]
  omega

theorem oxy_level (hO : oxygenFile mo = some O) (hc : OxygenColumns O co no) (old : LineList) (hT : 0 < T) (hp : 0 < p)
    (he : 0 ≤ e) (hep : e ≤ p) (hf : 0 < f) :
    ∃ a b, o2Absorption mo (reloadLL O old) (p / 10.0 - e / 10.0) (300.0 / T) (e / 10.0) f = .ok (some (a, b)) ∧
      0.182 * f * (a + b) * db2np = oxyAbsorption mo co no T p e f := by
  have hvx : 0 < 300.0 / T := div_pos (by norm_num) hT
  have hp0 : 0 ≤ p / 10.0 - e / 10.0 := by rw [← sub_div]; exact div_nonneg (by linarith) (by norm_num)
  have hpe : 0 < p / 10.0 - e / 10.0 + e / 10.0 := by rw [sub_add_cancel]; positivity
  have he0 : 0 ≤ e / 10.0 := by positivity
  have h10 : e / 10.0 = e / 10 := by norm_num
  have h300 : (300.0 : ℝ) / T = 300 / T := by norm_num
  have units (a : ℝ) : 0.182 * f * (a + 0) * db2np = a * (0.182 * f) * (log 10 / 10) := by rw [db2np_eq]; ring
  have C := oxyColumns_of_file hO old hc.col hc.len
  have hsum : 0 < ∑ k ∈ Finset.Icc 1 37, ruleWeight co (300 / T) k :=
    Finset.sum_pos (fun k hk => weight_pos C _ (Finset.mem_Icc.1 hk).2) ⟨1, by simp⟩
  by_cases h23 : mo = "R23"
  · subst h23
    obtain ⟨off, ho, a, ha, hv⟩ := C69_oxygen_R23 hO old hc.col hc.len hp0 hvx he0 hpe hf rfl rfl rfl
    rw [inverse_temperature hT, dry_kpa, h10, h300] at hv
    rw [h300] at ho
    refine ⟨a, 0, ha, ?_⟩
    rw [units, hv]
    have hoff : off = meanMixing co (300 / T) := by
      unfold meanMixing
      rw [eq_div_iff hsum.ne', mul_comm, Finset.sum_mul, ← sub_eq_zero, ← Finset.sum_sub_distrib, ← neg_eq_zero,
        ← Finset.sum_neg_distrib, ← ho]
      refine Finset.sum_congr rfl fun k _ => ?_
      unfold ruleWeight listed2
      ring
    subst hoff
    unfold oxyAbsorption
    simp only [if_true]
    rw [Finset.sum_congr (s₁ := Finset.range 38) (g := line23 co (300 / T) _ f) rfl fun k hk => ?_,
      Finset.sum_congr (s₁ := Finset.Ico 38 no) (g := line23 co (300 / T) _ f) rfl fun k hk => ?_]
    · have hk := Finset.mem_Ico.1 hk
      unfold line23 listed1 Spec.shifted
      rw [if_neg (by omega)]
    · have hk := Finset.mem_range.1 hk
      unfold line23 listed1 listed2 Spec.shifted
      by_cases h1 : 1 ≤ k
      · rw [if_pos h1, if_pos ⟨h1, by omega⟩]
      · rw [if_neg h1, if_neg (by omega)]
  by_cases h24 : mo = "R24"
  · subst h24
    obtain ⟨y, q, ⟨r, hy⟩, ⟨s, hq⟩, s1, s2, a, ha, hv⟩ :=
      C69_oxygen_R24 hO old hc.col hc.len hp0 hvx he0 hpe hf rfl rfl rfl
    rw [inverse_temperature hT, dry_kpa, h10, h300] at hv
    rw [h300] at hy hq s1 s2
    refine ⟨a, 0, ha, ?_⟩
    rw [units, hv]
    have hsum2 : 0 < ∑ k ∈ Finset.Icc 1 37, ruleWeight co (300 / T) k ^ 2 :=
      Finset.sum_pos (fun k hk => pow_pos (weight_pos C _ (Finset.mem_Icc.1 hk).2) 2) ⟨1, by simp⟩
    have hq' : ∀ k, q k = ruled2 co (300 / T) k := by
      have hs : s = (∑ i ∈ Finset.Icc 1 37, ruleWeight co (300 / T) i * listed2 co (300 / T) i) /
          ∑ i ∈ Finset.Icc 1 37, ruleWeight co (300 / T) i ^ 2 := by
        rw [eq_div_iff hsum2.ne', mul_comm, Finset.sum_mul, ← sub_eq_zero, ← Finset.sum_sub_distrib, ← neg_eq_zero,
          ← Finset.sum_neg_distrib, ← s2]
        refine Finset.sum_congr rfl fun k hk => ?_
        rw [hq k, if_pos (Finset.mem_Icc.1 hk)]
        unfold ruleWeight listed2
        ring
      intro k
      rw [hq k, hs]
      rfl
    have hy' : ∀ k, y k = ruled1 co (300 / T) k := by
      have hr : r = (1.584e-17 / (300 / T) * co "wb300" 0 + 2 * ∑ i ∈ Finset.range 38, ruleWeight co (300 / T) i *
          (co "w300" i + 0.99 * listed1 co (300 / T) i * co "f" i)) / (2 * ∑ i ∈ Finset.Icc 1 37, ruleWeight co (300 / T) i) := by
        rw [eq_div_iff (by positivity), eq_comm, ← sub_eq_zero, ← s1, add_sub_assoc]
        congr 1
        rw [mul_left_comm, ← mul_sub, Finset.mul_sum, ← Icc_range, ← Finset.sum_sub_distrib]
        congr 1
        refine Finset.sum_congr rfl fun k hk => ?_
        have hk := Finset.mem_range.1 hk
        have hfk := (C.pos k (by have := C.lines; omega)).1.ne'
        rw [hy k]
        change ruleWeight co (300 / T) k * (co "w300" k + 0.99 * listed1 co (300 / T) k * co "f" k) - _ =
          ruleWeight co (300 / T) k * (co "w300" k + (0.99 * listed1 co (300 / T) k - _) * co "f" k)
        generalize listed1 co (300 / T) k = L
        by_cases h1 : 1 ≤ k ∧ k ≤ 37
        · rw [if_pos h1, if_pos h1]
          field_simp
          ring
        · rw [if_neg h1, if_neg h1]; ring
      intro k
      rw [hy k, hr]
      rfl
    unfold oxyAbsorption
    simp only [String.reduceEq, if_false, if_true]
    congr 3
    refine Finset.sum_congr rfl fun k _ => ?_
    rw [hq' k, hy' k]
    rfl
  · obtain ⟨a, b, h1, h2⟩ := oxygen_level ⟨h23, h24⟩ hO hc old hT hp he hep hf
    refine ⟨a, b, h1, h2.trans ?_⟩
    unfold oxyAbsorption
    simp only [h23, h24, if_false]

/-! ## Ozone -/

/-- `c` are the columns of the line list `F` of ozone, `n` the number of lines. -/
structure OzoneColumns (F : LineList) (c : String → ℕ → ℝ) (n : ℕ) : Prop where
  col : ∀ a v, F a = some v → c a = v
  len : F "len(fl)" = some fun _ => (n : ℝ)

theorem ozoneColumns_exist {m : String} {F : LineList} (hF : ozoneFile m = some F) : ∃ c n, OzoneColumns F c n := by
  obtain ⟨G⟩ := goodO3_of_file hF fun _ => none
  obtain ⟨u, h1, h2⟩ := ozoneFile_reads hF (fun _ => none) "len(fl)" (by decide)
  have h3 := G.hn
  rw [h2, ← h1] at h3
  exact ⟨fun a => (F a).getD 0, G.n, fun a v h => by simp [h], h3⟩

/-- C98: ozone for any of the names, from any of the tables. -/
theorem C98_ozone (m : String) {m' : String} {Z : LineList} {cz : String → ℕ → ℝ} {nz : ℕ} (hZ : ozoneFile m' = some Z)
    (hc : OzoneColumns Z cz nz) (old : LineList) (hT : 0 < T) (hp : 0 ≤ p) (f d : ℝ) :
    o3Absorption m (reloadLL Z old) T p f d = .ok (some (ozoneAbsorption m cz nz T p f d)) := by
  obtain ⟨G⟩ := goodO3_of_file hZ old
  have hF' (a : String) (ha : a ∈ ozoneReads) {v : Val} (h : reloadLL Z old a = some v) : cz a = v := by
    obtain ⟨u, h1, h2⟩ := ozoneFile_reads hZ old a ha
    rw [h2, Option.some_inj] at h
    rw [hc.col a u h1, h]
  have hn : G.n = nz := by
    obtain ⟨u, h1, h2⟩ := ozoneFile_reads hZ old "len(fl)" (by decide)
    have h3 := G.hn
    rw [h2, ← h1, hc.len, Option.some_inj] at h3
    exact_mod_cast (congrFun h3 0).symm
  have hti : 0 < 296 / T := by positivity
  rw [o3_eval G hT (g := fun k => if m = "R22" ∨ m = "R22SD" then ozoneVoigt cz T p f k else ozoneLorentz cz T p f k)
    fun k hk _ => ?_]
  · unfold ozoneAbsorption
    simp only [List.mem_cons, List.not_mem_nil, or_false, hn, hF' "fl" (by decide) G.hfl]
  · obtain ⟨_, h2, _, _, h5, _⟩ := G.pos k hk
    have hfl : 0 < G.fl k := by linarith
    have hw : 0 < G.w k := by norm_num at h2 ⊢; linarith
    simp only [List.mem_cons, List.not_mem_nil, or_false]
    by_cases hm : m = "R22" ∨ m = "R22SD"
    · rw [if_pos hm, if_pos hm]
      have hs : 0 < √T := Real.sqrt_pos.2 hT
      have hb : 0 < 0.62065e-7 * G.fl k * √T := by positivity
      have hx : 0 < (296 / T) ^ G.x k := Real.rpow_pos_of_pos hti _
      unfold o3Voigt ozoneVoigt ozoneStrength ozoneWidth
      simp only [hF' "fl" (by decide) G.hfl, hF' "s1" (by decide) G.hs1, hF' "b" (by decide) G.hb,
        hF' "w" (by decide) G.hw, hF' "x" (by decide) G.hx]
      simp only [fpow_of_pos hti, npSqrt, if_pos hT.le, npDiv_of_ne hb.ne', Option.bind_eq_bind, Option.bind_some]
      rw [dcerror_upper _ (by positivity)]
      simp only [Option.bind_some, Option.some_inj]
      rw [show ∀ β : ℝ, -((G.fl k - f) / β) = (f - G.fl k) / β from fun β => by rw [← neg_div, neg_sub]]
      norm_num
    · rw [if_neg hm, if_neg hm, (o3Lorentz_some f hfl hw hT hp hti).1]
      unfold ozoneLorentz ozoneStrength ozoneWidth
      simp only [hF' "fl" (by decide) G.hfl, hF' "s1" (by decide) G.hs1, hF' "b" (by decide) G.hb,
        hF' "w" (by decide) G.hw, hF' "x" (by decide) G.hx, Option.some_inj, pow_two]
      rw [mul_div_assoc, mul_assoc 0.2166]

/-! ## Cloud particles -/

theorem liquid_level {m : String} {d : ℝ} (hT : 0 < T) (hf : 0 < f) (h : 0 < d → LiquidRuns (some m) T) :
    liqTerm shipped (some m) T d f = .ok (if 0 < d then liquidAbsorption m T d f else 0) := by
  unfold liqTerm
  by_cases hd : 0 < d
  swap
  · rw [if_neg hd, if_neg hd]
  rw [if_pos hd, if_pos hd]
  obtain ⟨m', e, ⟨hm, h1⟩ | ⟨hm, h1⟩⟩ := h hd
  · cases e
    obtain ⟨a, ha⟩ := (C32_liquid m hd).1 hm hf hT h1
    have hm' : m = "R98" ∨ m = "R03" := by simpa using hm
    have := C81_debye hm' hd ha
    simp only at this
    change finite (liquidAbs m d f T) = _
    rw [finite_some ha, this]
    unfold liquidAbsorption
    simp only [if_pos hm']
  · cases e
    obtain ⟨a, ha⟩ := (C32_liquid m hd).2.1 hm hf h1
    have := C81_dilec hm hd ha
    simp only at this
    have hm' : ¬ (m = "R98" ∨ m = "R03") := by
      rintro (rfl | rfl) <;> exact absurd hm (by decide)
    change finite (liquidAbs m d f T) = _
    rw [finite_some ha, this]
    unfold liquidAbsorption
    simp only [if_neg hm']

theorem ice_level (w : ℝ) (hf : 0 < f) :
    8.18645 / (cLight * 100 / (f * 1e9)) * w * 0.000959553 * db2np = iceAbsorption w f := by
  unfold iceAbsorption cLight
  rw [db2np_eq]
  generalize log 10 = L
  field_simp
  norm_num
  ring

/-- C98: one level of a cloud. -/
theorem C98_cloud {m : String} {dl di : ℝ} (hT : 0 < T) (hf : 0 < f) (h : 0 < dl → LiquidRuns (some m) T) :
    cloudyLevel shipped (some m) T dl di f =
      .ok (if 0 < dl then liquidAbsorption m T dl f else 0, if 0 < di then iceAbsorption di f else 0) := by
  unfold cloudyLevel
  simp only [liquid_level hT hf h, ice_level di hf]
  rfl

/-! ## A level of clear air -/

/-- The selected ozone model counts only if its name is one of these. -/
def ozoneUsed : List String := ["R18", "R21", "R21SD", "R22", "R22SD", "R23", "R23SD", "R24"]

/-- The ozone of `G` is what is selected and loaded. -/
def OzoneLoaded (g : Globals) (G : Composition) : Prop :=
  match G.ozone with
  | none => ∀ m, g.sel.o3 = some m → m ∉ ozoneUsed
  | some m => g.sel.o3 = some m ∧ m ∈ ozoneUsed ∧ ∃ m' Z old, ozoneFile m' = some Z ∧ g.o3ll = reloadLL Z old ∧
    OzoneColumns Z G.ozoneList G.ozoneLines

theorem ozone_level {G : Composition} (hG : OzoneLoaded g G) (d : Option Val) (hT : 0 < T) (hp : 0 ≤ p) (f : ℝ) (i : ℕ) :
    o3Term shipped g d T p f i = .ok (G.ozoneAt d T p f i) := by
  unfold OzoneLoaded at hG
  unfold o3Term Composition.ozoneAt
  cases hz : G.ozone with
  | none =>
    rw [hz] at hG
    have hn : ¬ ozoneActive g.sel d := by
      rintro ⟨-, m, h1, h2⟩
      exact hG m h1 h2
    rw [if_neg hn]
  | some m =>
    rw [hz] at hG
    obtain ⟨h1, h2, m', Z, old, hZ, hll, hc⟩ := hG
    cases d with
    | none =>
      have hn : ¬ ozoneActive g.sel (none : Option Val) := by rintro ⟨h, -⟩; simp at h
      rw [if_neg hn]
    | some d =>
      have ha : ozoneActive g.sel (some d) := ⟨rfl, m, h1, h2⟩
      rw [if_pos ha, h1, hll]
      exact finite_some (C98_ozone m hZ hc old hT hp f (d i))

/-- The absorption coefficients of `G` are the ones the process would use. -/
structure Uses (g : Globals) (G : Composition) (W O : LineList) : Prop where
  h2o : g.sel.h2o = some G.water
  o2 : g.sel.o2 = some G.oxygen
  n2 : g.sel.n2 = some G.nitrogen
  nitrogen : G.nitrogen ∈ n2Runs
  water : waterFile G.water = some W
  oxygen : oxygenFile G.oxygen = some O
  waterCols : WaterColumns W G.waterList G.waterLines
  oxygenCols : OxygenColumns O G.oxygenList G.oxygenLines
  ozone : OzoneLoaded g G

/-- **C98.** One level of air for any selection of models, with or without ozone. -/
theorem C98_level {G : Composition} (hg : Uses g G W O) (hw : ∃ old, g.h2oll = reloadLL W old)
    (ho : ∃ old, g.o2ll = reloadLL O old) (hT : 0 < T) (hp : 0 < p) (he : 0 ≤ e) (hep : e ≤ p) (hf : 0 < f)
    (hfm : G.water ∈ ["R23SD", "R24"] → f < 4 * ckdStep) (d : Option Val) (i : ℕ) :
    clearLevel shipped g d p T e f i = .ok (vapourAbsorption G.water G.waterList G.waterLines T p e f,
      oxyAbsorption G.oxygen G.oxygenList G.oxygenLines T p e f + nitrogenAbsorption G.nitrogen T (p - e) f +
        G.ozoneAt d T p f i) := by
  obtain ⟨lw, hlw⟩ := hw
  obtain ⟨lo, hlo⟩ := ho
  obtain ⟨a, b, h1, h2⟩ := vapour_level hg.water hg.waterCols lw hT he hep hf hfm
  obtain ⟨a', b', h3, h4⟩ := oxy_level hg.oxygen hg.oxygenCols lo hT hp he hep hf
  have h5 := nitrogen_level hg.n2 hg.nitrogen hT ((p / 10.0 - e / 10.0) * 10) f
  have h6 : (p / 10.0 - e / 10.0) * 10 = p - e := by norm_num; ring
  rw [h6] at h5
  have h1' : shipped.h2o G.water (reloadLL W lw) (p / 10.0 - e / 10.0) (300.0 / T) (e / 10.0) f = .ok (a, b) :=
    finite_some h1
  have h3' : shipped.o2 G.oxygen (reloadLL O lo) (p / 10.0 - e / 10.0) (300.0 / T) (e / 10.0) f = .ok (a', b') :=
    finite_some h3
  unfold clearLevel
  simp only [hg.h2o, hg.o2, hlw, hlo, bind, Except.bind, ozone_level hg.ozone d hT hp.le f i, h6, h5, h1', h3', pure,
    Except.pure, h2, h4]

/-- Water vapour of MWL24, oxygen of R24 and ozone of R22 at 110.8 GHz in the stratosphere. -/
example {g : Globals} (hg : g.sel.h2o = some "MWL24" ∧ g.sel.o2 = some "R24" ∧ g.sel.n2 = some "MWL24" ∧
    g.sel.o3 = some "R22") (hz : ∃ Z old, ozoneFile "R22" = some Z ∧ g.o3ll = reloadLL Z old) :
    ∃ g1, ∃ G : Composition, initLineList shipped g = .ok g1 ∧ G.water = "MWL24" ∧ G.oxygen = "R24" ∧ G.ozone = some "R22" ∧
      clearLevel shipped g1 (some fun _ => 3e18) 30 220 0.0001 110.8 0 =
        .ok (vapourAbsorption "MWL24" G.waterList G.waterLines 220 30 0.0001 110.8,
          oxyAbsorption "R24" G.oxygenList G.oxygenLines 220 30 0.0001 110.8 + nitrogenAbsorption "MWL24" 220 (30 - 0.0001) 110.8 +
          ozoneAbsorption "R22" G.ozoneList G.ozoneLines 220 30 110.8 3e18) := by
  obtain ⟨W, hW⟩ : ∃ W, waterFile "MWL24" = some W := Option.isSome_iff_exists.1 ((C35_names _).2 (by decide))
  obtain ⟨O, hO⟩ : ∃ O, oxygenFile "R24" = some O := Option.isSome_iff_exists.1 ((C37_names _).2 (by decide))
  obtain ⟨Z, old, hZ, hl⟩ := hz
  obtain ⟨cw, nw, hw⟩ := waterColumns_exist hW
  obtain ⟨co, no, ho⟩ := oxygenColumns_exist hO
  obtain ⟨cz, nz, hz⟩ := ozoneColumns_exist hZ
  refine ⟨_, ⟨⟨"MWL24", cw, nw, "R24", co, no, "MWL24"⟩, some "R22", cz, nz, "R24"⟩,
    shipped_load hg.1 hg.2.1 hW hO, rfl, rfl, rfl, ?_⟩
  exact C98_level (g := { g with h2oll := reloadLL W g.h2oll, o2ll := reloadLL O g.o2ll })
    (G := ⟨⟨"MWL24", cw, nw, "R24", co, no, "MWL24"⟩, some "R22", cz, nz, "R24"⟩)
    ⟨hg.1, hg.2.1, hg.2.2.1, by simp [n2Runs], hW, hO, hw, ho, hg.2.2.2, by decide, "R22", Z, old, hZ, hl, hz⟩ ⟨_, rfl⟩ ⟨_, rfl⟩ (by norm_num) (by norm_num) (by norm_num) (by norm_num) (by norm_num)
    (by simp) _ _

end Verif.Props
