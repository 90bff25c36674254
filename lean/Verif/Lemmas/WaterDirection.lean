import Verif.Lemmas.WaterFormula
import Verif.Lemmas.WaterParams
import Verif.Spec.WaterParameters

/-! # The closed formula of a run with a dictionary of water vapour parameters -/

namespace Verif.Lemmas

open Verif.Model Verif.Py Verif.Spec Verif.Props Real

theorem amuWater_columns {m : String} {P : Params} {q : String → ℕ → ℝ} (hP : ∀ k ∈ waterKeys m, P k = some (q k))
    (ll : LineList) : ∃ L, amuWater m P ll = .ok L ∧
      ∀ (c : String → ℕ → ℝ) (a : String), ll a = some (c a) → L a = some (withParams (decide ("R17" < m)) q c a) := by
  obtain ⟨K, hl, he⟩ := waterKeys_some (m := m) (P := P) fun k hk => by rw [hP k hk]; rfl
  have g {k : String} {v : Val} (hk : k ∈ waterKeys m) (h : P k = some v) : v = q k :=
    (Option.some_inj.1 ((hP k hk).symm.trans h)).symm
  have k1 := g (by simp [waterKeys]) K.h1
  have k2 := g (by simp [waterKeys]) K.h2
  have k3 := g (by simp [waterKeys]) K.h3
  have k4 := g (by simp [waterKeys]) K.h4
  have k5 := g (by simp [waterKeys]) K.h5
  have k6 := g (by simp [waterKeys]) K.h6
  have k7 := g (by simp [waterKeys]) K.h7
  have k8 := g (by simp [waterKeys]) K.h8
  have k9 := g (by simp [waterKeys]) K.h9
  have k10 := g (by simp [waterKeys]) K.h10
  have k11 := g (by simp [waterKeys]) K.h11
  have e3 : (1000.0 : ℝ) = 1000 := by norm_num
  by_cases hm : "R17" < m
  · obtain ⟨da, dw, nda, ndw, p1, p2, p3, p4⟩ := hl hm
    have d1 := g (by simp [waterKeys, hm]) p1
    have d2 := g (by simp [waterKeys, hm]) p2
    have d3 := g (by simp [waterKeys, hm]) p3
    have d4 := g (by simp [waterKeys, hm]) p4
    refine ⟨_, amuWater_late hm K p1 p2 p3 p4 ll, fun c a ha => ?_⟩
    unfold setCommon LineList.set withParams
    rw [k1, k2, k3, k4, k5, k6, k7, k8, k9, k10, k11, d1, d2, d3, d4]
    simp only [hm, decide_true, Bool.not_true, and_true, Bool.false_eq_true, and_false, if_true, if_false, mul_one, e3]
    by_cases h0 : a = "s1"
    · subst h0; simp
    by_cases h1 : a = "b2"
    · subst h1; simp
    by_cases h2 : a = "fl"
    · subst h2; simp
    by_cases h3 : a = "w0"
    · subst h3; simp
    by_cases h4 : a = "w0s"
    · subst h4; simp
    by_cases h5 : a = "x"
    · subst h5; simp
    by_cases h6 : a = "xs"
    · subst h6; simp
    by_cases h7 : a = "xcf"
    · subst h7; simp
    by_cases h8 : a = "xcs"
    · subst h8; simp
    by_cases h9 : a = "cf"
    · subst h9; simp
    by_cases h10 : a = "cs"
    · subst h10; simp
    by_cases h11 : a = "sh"
    · subst h11; simp
    by_cases h12 : a = "shs"
    · subst h12; simp
    by_cases h13 : a = "xh"
    · subst h13; simp
    by_cases h14 : a = "xhs"
    · subst h14; simp
    simp [h0, h1, h2, h3, h4, h5, h6, h7, h8, h9, h10, h11, h12, h13, h14, ha]
  · obtain ⟨cff, csf, sr, p1, p2, p3⟩ := he hm
    have d1 := g (by simp [waterKeys, hm]) p1
    have d2 := g (by simp [waterKeys, hm]) p2
    have d3 := g (by simp [waterKeys, hm]) p3
    refine ⟨_, amuWater_early hm K p1 p2 p3 ll, fun c a ha => ?_⟩
    unfold setCommon LineList.set withParams
    rw [k1, k2, k3, k4, k5, k6, k7, k8, k9, k10, k11, d1, d2, d3]
    simp only [hm, decide_false, Bool.not_false, and_true, Bool.false_eq_true, and_false, if_false, e3]
    by_cases h0 : a = "s1"
    · subst h0; simp
    by_cases h1 : a = "b2"
    · subst h1; simp
    by_cases h2 : a = "fl"
    · subst h2; simp
    by_cases h3 : a = "w0"
    · subst h3; simp
    by_cases h4 : a = "w0s"
    · subst h4; simp
    by_cases h5 : a = "x"
    · subst h5; simp
    by_cases h6 : a = "xs"
    · subst h6; simp
    by_cases h7 : a = "xcf"
    · subst h7; simp
    by_cases h8 : a = "xcs"
    · subst h8; simp
    by_cases h9 : a = "cf"
    · subst h9; simp
    by_cases h10 : a = "cs"
    · subst h10; simp
    by_cases h11 : a = "sr"
    · subst h11; simp
    simp [h0, h1, h2, h3, h4, h5, h6, h7, h8, h9, h10, h11, ha]

theorem columns_with {m : String} {F : LineList} (hF : waterFile m = some F) (old : LineList) {c : String → ℕ → ℝ}
    (hc : ∀ a v, F a = some v → c a = v) {n : ℕ} (hn : F "len(fl)" = some fun _ => (n : ℝ)) {P : Params}
    {q : String → ℕ → ℝ} (hP : ∀ k ∈ waterKeys m, P k = some (q k))
    (hq : ∀ i < n, 0 < q "FL" i ∧ 0 < q "gamma_a" i ∧ 0 < q "gamma_w" i) :
    ∃ L, amuWater m P (reloadLL F old) = .ok L ∧ Columns m L (withParams (decide ("R17" < m)) q c) n := by
  have C := columns_of_file hF old hc hn
  obtain ⟨L, h1, h2⟩ := amuWater_columns hP (reloadLL F old)
  refine ⟨L, h1, fun a ha => h2 c a (C.read a ha), ?_, fun i hi => ?_, ?_⟩
  · simp [withParams, C.len]
  · obtain ⟨q1, q2, q3⟩ := hq i hi
    refine ⟨by simpa [withParams] using q1, ?_, ?_⟩
    · simpa [withParams] using q2
    · simpa [withParams] using q3
  · simpa [withParams] using C.reft

theorem db2np_eq : db2np = log 10 / 10 := by
  unfold db2np
  norm_num
  ring

theorem units_formula {m : String} {F : LineList} (hF : waterFile m = some F) (p e S : ℝ) {vx f : ℝ} (hv : 0 < vx)
    (hf : 0 < f) : waterUnits m (waterAir m p vx e) S (0.182 * f) =
      some (lineAbsorption m (vapourDensity (300 / vx) e) S / (0.182 * f * (log 10 / 10))) := by
  obtain ⟨-, e2, -, -⟩ := waterAir_formula hF p e hv
  have hden' : (waterAir m p vx e).den =
      (if m ∈ ["R03", "R16", "R98"] then 3.335e+16 else 3.344e+16) * vapourDensity (300 / vx) e := by
    rw [← e2]
    unfold waterAir
    simp only
    split_ifs <;> rfl
  have hdb0 := db2np_pos
  have hfac : 0.182 * f ≠ 0 := by positivity
  rw [← db2np_eq]
  unfold waterUnits
  simp only [npDiv_of_ne hfac, hden', e2]
  unfold lineAbsorption h2oMass
  have hm := water_names hF
  simp only [List.mem_cons, List.not_mem_nil, or_false] at hm
  rcases hm with rfl | rfl | rfl | rfl | rfl | rfl | rfl | rfl | rfl | rfl | rfl | rfl | rfl | rfl <;>
    simp <;> field_simp

/-- The whole result from the columns, for the models whose continuum is the formula with two terms. -/
theorem h2o_columns {m : String} {F : LineList} (hF : waterFile m = some F) (hm : m ∉ ["R23SD", "R24", "MWL24"])
    {L : LineList} {c : String → ℕ → ℝ} {n : ℕ} (C : Columns m L c n) {p vx e f : ℝ} (hp : 0 ≤ p) (hv : 0 < vx)
    (he : 0 < e) (hf : 0 < f) :
    h2oAbsorption m L p vx e f = .ok (some
      (lineAbsorption m (vapourDensity (300 / vx) e)
          (Spec.lineSum m c n (300 / vx) (dryPressure m (300 / vx) p e) (vapourPressure m (300 / vx) e) f) /
            (0.182 * f * (log 10 / 10)),
        (if m = "R98" ∨ m = "R03" then
          continuum 5.43e-10 3 1.8e-8 7.5 (c "reftcon" 0 * vx / 300) (dryPressure m (300 / vx) p e)
            (vapourPressure m (300 / vx) e) f
        else continuum (c "cf" 0) (c "xcf" 0) (c "cs" 0) (c "xcs" 0) (c "reftcon" 0 * vx / 300)
          (dryPressure m (300 / vx) p e) (vapourPressure m (300 / vx) e) f) / (0.182 * f * (log 10 / 10)))) := by
  obtain ⟨ht, hr, hpv, hpd, hden⟩ := waterAir_props m hp hv he
  obtain ⟨e1, e2, e3, e4⟩ := waterAir_formula hF p e hv
  have hs := waterSum_formula hF C f ht hpv hpd
  rw [e1, e3, e4] at hs
  have hdb0 := db2np_pos
  have hfac : 0.182 * f ≠ 0 := by positivity
  simp only [List.mem_cons, List.not_mem_nil, or_false, not_or] at hm
  have hti : c "reftcon" 0 * vx / 300 = c "reftcon" 0 / (300 / vx) := by rw [div_div_eq_mul_div]
  have hti0 : 0 < c "reftcon" 0 / (300 / vx) := div_pos C.reft.2 (by positivity)
  have hcon : waterCon m L (waterAir m p vx e) vx f = .ok (some (if m = "R98" ∨ m = "R03" then
          continuum 5.43e-10 3 1.8e-8 7.5 (c "reftcon" 0 * vx / 300) (dryPressure m (300 / vx) p e)
            (vapourPressure m (300 / vx) e) f
        else continuum (c "cf" 0) (c "xcf" 0) (c "cs" 0) (c "xcs" 0) (c "reftcon" 0 * vx / 300)
          (dryPressure m (300 / vx) p e) (vapourPressure m (300 / vx) e) f)) := by
    rw [hti]
    unfold waterCon
    simp only [C.common (a := "reftcon") (by decide), C.common (a := "cf") (by decide), C.common (a := "xcf") (by decide),
      C.common (a := "cs") (by decide), C.common (a := "xcs") (by decide), bind, Except.bind, pure, Except.pure, e1, e3, e4,
      fpow_of_pos hti0, if_neg hm.2.2, Option.bind_some, Option.map_some, List.mem_cons, List.not_mem_nil, or_false]
    generalize c "reftcon" 0 / (300 / vx) = θ at hti0 ⊢
    by_cases hR : m = "R98" ∨ m = "R03"
    · rw [if_pos hR, if_pos hR.symm]
      unfold continuum
      rw [show (θ ^ (3 : ℝ)) = θ ^ 3 by exact_mod_cast Real.rpow_natCast θ 3]
      congr 2
      ring
    · rw [if_neg hR, if_neg fun h => hR h.symm]
      unfold continuum
      congr 2
      ring
  have hN : m ∉ ["R23SD", "R24"] := by simp [hm]
  unfold h2oAbsorption
  simp only [if_pos hv, if_neg hr.ne', hcon, if_neg hN, hs, bind, Except.bind, pure, Except.pure, Option.bind_some,
    units_formula hF p e _ hv hf, npDiv_of_ne hfac]
  congr 3
  rw [← db2np_eq]
  field_simp

/-- The same for R23SD and R24: a positive coefficient of the self continuum replaces the table. -/
theorem h2o_columns_table {m : String} {F : LineList} (hF : waterFile m = some F) (hm : m ∈ ["R23SD", "R24"])
    {L : LineList} {c : String → ℕ → ℝ} {n : ℕ} (C : Columns m L c n) {p vx e f : ℝ} (hp : 0 ≤ p) (hv : 0 < vx)
    (he : 0 < e) (hf : 0 < f) {s : ℝ} (hs : 0 < c "cs" 0 ∧ s = c "cs" 0 * (c "reftline" 0 * vx / 300) * c "xcs" 0 ∨
      c "cs" 0 ≤ 0 ∧ h2oContinuum f vx = .ok s) :
    h2oAbsorption m L p vx e f = .ok (some
      (lineAbsorption m (vapourDensity (300 / vx) e)
          (Spec.lineSum m c n (300 / vx) (dryPressure m (300 / vx) p e) (vapourPressure m (300 / vx) e) f) /
            (0.182 * f * (log 10 / 10)),
        continuum (c "cf" 0) (c "xcf" 0) s 0 (c "reftline" 0 * vx / 300)
          (dryPressure m (300 / vx) p e) (vapourPressure m (300 / vx) e) f / (0.182 * f * (log 10 / 10)))) := by
  obtain ⟨ht, hr, hpv, hpd, hden⟩ := waterAir_props m hp hv he
  obtain ⟨e1, e2, e3, e4⟩ := waterAir_formula hF p e hv
  have hsum := waterSum_formula hF C f ht hpv hpd
  rw [e1, e3, e4] at hsum
  have hdb0 := db2np_pos
  have hfac : 0.182 * f ≠ 0 := by positivity
  have hM : m ≠ "MWL24" ∧ m ∉ ["R03", "R98"] := by
    simp only [List.mem_cons, List.not_mem_nil, or_false] at hm
    rcases hm with rfl | rfl <;> decide
  have hti : c "reftline" 0 * vx / 300 = c "reftline" 0 / (300 / vx) := by rw [div_div_eq_mul_div]
  have hti0 : 0 < c "reftline" 0 / (300 / vx) := div_pos C.reft.1 (by positivity)
  have htc0 : 0 < c "reftcon" 0 / (300 / vx) := div_pos C.reft.2 (by positivity)
  obtain ⟨con, hcon⟩ : ∃ con, waterCon m L (waterAir m p vx e) vx f = .ok con := by
    unfold waterCon
    simp only [C.common (a := "reftcon") (by decide), C.common (a := "cf") (by decide), C.common (a := "xcf") (by decide),
      C.common (a := "cs") (by decide), C.common (a := "xcs") (by decide), bind, Except.bind, pure, Except.pure, e1, e3, e4,
      fpow_of_pos htc0, if_neg hM.1, if_neg hM.2]
    exact ⟨_, rfl⟩
  have hnew : waterConNew L (waterAir m p vx e) vx f = .ok (some (continuum (c "cf" 0) (c "xcf" 0) s 0
      (c "reftline" 0 * vx / 300) (dryPressure m (300 / vx) p e) (vapourPressure m (300 / vx) e) f)) := by
    have hself : (if 0 < c "cs" 0 then .ok (c "cs" 0 * (c "reftline" 0 / (300 / vx)) * c "xcs" 0)
        else h2oContinuum f vx : Except PyErr ℝ) = .ok s := by
      rcases hs with ⟨h1, h2⟩ | ⟨h1, h2⟩
      · rw [if_pos h1, h2, hti]
      · rw [if_neg (not_lt.2 h1), h2]
    rw [hti]
    unfold waterConNew
    simp only [C.common (a := "reftline") (by decide), C.common (a := "cf") (by decide), C.common (a := "xcf") (by decide),
      C.common (a := "cs") (by decide), C.common (a := "xcs") (by decide), bind, Except.bind, pure, Except.pure, e1, e3, e4,
      fpow_of_pos hti0, hself, Option.map_some]
    unfold continuum
    congr 2
    rw [rpow_zero]
    ring
  unfold h2oAbsorption
  simp only [if_pos hv, if_neg hr.ne', hcon, if_pos hm, hnew, hsum, bind, Except.bind, pure, Except.pure, Option.bind_some,
    units_formula hF p e _ hv hf, npDiv_of_ne hfac]
  congr 3
  rw [← db2np_eq]
  field_simp

end Verif.Lemmas
