import Verif.Lemmas.OxygenFormula
import Verif.Props.Oxygen

/-!
# The oxygen routine computes a closed formula (C69)
-/

namespace Verif.Props

open Verif.Model Verif.Py Verif.Lemmas Verif.Spec Real

theorem o2_parts {m : String} {F : LineList} (hF : oxygenFile m = some F) {old : LineList} {c : String → ℕ → ℝ} {n : ℕ}
    (C : OxyColumns m (reloadLL F old) c n) {p vx e f S : ℝ} (hp : 0 ≤ p) (hv : 0 < vx) (he : 0 ≤ e) (hpe : 0 < p + e)
    (hf : 0 < f) (hs : oxySum m (reloadLL F old) (oxyAir m (c "x" 0) (c "wb300" 0) p vx e) (c "wb300" 0) f = .ok (some S)) :
    ∃ npp ncpp, o2Absorption m (reloadLL F old) p vx e f = .ok (some (npp, ncpp)) ∧
      npp * (0.182 * f) * (log 10 / 10) = oxyAbs m (oxyAir m (c "x" 0) (c "wb300" 0) p vx e) f S ∧
      ncpp * (0.182 * f) * (log 10 / 10) = open Classical in if separateBand m then
        oxyUnits m * (10 * p + 10 * e - oxyVapour m (300 / vx) e) * vx ^ 3 *
          debye (if m = "R98" ∨ m = "R03" then 1.6e-17 else 1.584e-17) vx
            (c "wb300" 0 * broadening m (c "x" 0) vx (10 * p + 10 * e - oxyVapour m (300 / vx) e) (oxyVapour m (300 / vx) e))
            f
        else 0 := by
  obtain ⟨ht, hpd, hd, hp1, hdf⟩ := oxyAir_props m (c "x" 0) (c "wb300" 0) hp hv he hpe C.wb
  obtain ⟨e1, e2, e3, e4, e5, e6, e7, -⟩ := oxyAir_formula hF (c "x" 0) (c "wb300" 0) p e hv
  have hdb : db2np = log 10 / 10 := by
    unfold db2np
    norm_num
    ring
  have hdb0 := db2np_pos
  have hq : 0.182 * f ≠ 0 := by positivity
  unfold o2Absorption
  simp only [C.common (a := "x") (by decide), C.common (a := "wb300") (by decide), bind, Except.bind, hs, pure,
    Except.pure, if_pos hv, npDiv_of_ne hq, Option.bind_some]
  rw [← hdb]
  have hm := oxy_names hF
  by_cases hw : separateBand m
  · have hw' : m ∉ oxyWhole := by
      unfold separateBand at hw
      rcases hw with rfl | rfl | rfl | rfl | rfl <;> decide
    have hcon : oxyCon m (oxyAir m (c "x" 0) (c "wb300" 0) p vx e) f =
        some (oxyUnits m * (10 * p + 10 * e - oxyVapour m (300 / vx) e) * vx ^ 3 *
          debye (if m = "R98" ∨ m = "R03" then 1.6e-17 else 1.584e-17) vx
            (c "wb300" 0 * broadening m (c "x" 0) vx (10 * p + 10 * e - oxyVapour m (300 / vx) e) (oxyVapour m (300 / vx) e))
            f) := by
      unfold oxyCon
      simp only [oxyNonres_some _ hf ht, Option.map_some, e1, e5, e7]
      unfold oxyUnits debye
      by_cases h : m ∈ ["R03", "R98"]
      · have h' : m = "R98" ∨ m = "R03" := by
          simp only [List.mem_cons, List.not_mem_nil, or_false] at h
          tauto
        rw [if_pos h, if_pos h', if_pos h']
        congr 1
        ring
      · have h' : ¬(m = "R98" ∨ m = "R03") := by
          simp only [List.mem_cons, List.not_mem_nil, or_false] at h
          tauto
        rw [if_neg h, if_neg h', if_neg h']
        congr 1
        ring
    rw [hcon]
    simp only [if_neg hw', if_pos hw, Option.bind_some]
    refine ⟨_, _, rfl, ?_, ?_⟩
    · field_simp
    · field_simp
  · have hw' : m ∈ oxyWhole := by
      unfold separateBand at hw
      unfold oxyWhole
      simp only [List.mem_cons, List.not_mem_nil, or_false] at hm ⊢
      tauto
    simp only [if_pos hw', if_neg hw, Option.bind_some]
    refine ⟨_, _, rfl, ?_, ?_⟩
    · field_simp
    · simp

/-- C69: the oxygen absorption of every model but the two newest is the closed formula: sum over all lines of the
model's list, each once, with both resonances and line mixing; plus the zero-frequency band, which the five oldest
models report separately and the others include; cut off below zero except in R98.  `c` are the columns of the model's own
list, `n` its number of lines. -/
theorem C69_oxygen {m : String} (hm : m ≠ "R23" ∧ m ≠ "R24") {F : LineList} (hF : oxygenFile m = some F)
    (old : LineList) {c : String → ℕ → ℝ} (hc : ∀ a v, F a = some v → c a = v) {n : ℕ}
    (hn : F "len(f)" = some fun _ => (n : ℝ)) {p vx e f pv pd d : ℝ} (hp : 0 ≤ p) (hv : 0 < vx) (he : 0 ≤ e)
    (hpe : 0 < p + e) (hf : 0 < f) (hpv : pv = oxyVapour m (300 / vx) e) (hpd : pd = 10 * p + 10 * e - pv)
    (hd : d = broadening m (c "x" 0) vx pd pv) :
    ∃ npp ncpp, o2Absorption m (reloadLL F old) p vx e f = .ok (some (npp, ncpp)) ∧
      npp * (0.182 * f) * (log 10 / 10) = oxyFinish m (oxyUnits m * pd * vx ^ 3 *
        (oxyLines m c n vx (10 * p + 10 * e) d f +
          open Classical in if separateBand m then 0 else debye 1.584e-17 vx (c "wb300" 0 * d) f)) ∧
      ncpp * (0.182 * f) * (log 10 / 10) = open Classical in if separateBand m then
        oxyUnits m * pd * vx ^ 3 *
          debye (if m = "R98" ∨ m = "R03" then 1.6e-17 else 1.584e-17) vx (c "wb300" 0 * d) f
        else 0 := by
  have C := oxyColumns_of_file hF old hc hn
  obtain ⟨ht, hpd0, hd0, hp1, hdf⟩ := oxyAir_props m (c "x" 0) (c "wb300" 0) hp hv he hpe C.wb
  obtain ⟨e1, e2, e3, e4, e5, e6, e7, e8, e9⟩ := oxyAir_formula hF (c "x" 0) (c "wb300" 0) p e hv
  have hm' := oxy_names hF
  have hm'' : m ∈ ["R98", "R03", "R16", "R17", "R18", "R19", "R19SD", "R20", "R20SD", "R22"] := by
    simp only [List.mem_cons, List.not_mem_nil, or_false] at hm' ⊢
    tauto
  rw [← hpv, ← hpd] at e5
  rw [← hpv, ← hpd, ← hd] at e6 e7
  rw [if_neg hm.1, one_mul, e6] at e8
  rw [e8] at e9
  have hs := oxySum_formula (wb := c "wb300" 0) hm'' C hf hv (e6 ▸ hd0) e1 e2 e3 e4 e6 e7 e9
  obtain ⟨npp, ncpp, h1, h2, h3⟩ := o2_parts hF C hp hv he hpe hf hs
  rw [← hpv, ← hpd, ← hd] at h3
  refine ⟨npp, ncpp, h1, ?_, h3⟩
  rw [h2]
  generalize (oxyLines m c n vx (10 * p + 10 * e) d f +
          open Classical in if separateBand m then 0 else debye 1.584e-17 vx (c "wb300" 0 * d) f) = S
  unfold oxyAbs oxyFinish oxyUnits
  rw [e1, e5]
  simp only [List.mem_cons, List.not_mem_nil, or_false] at hm''
  rcases hm'' with rfl | rfl | rfl | rfl | rfl | rfl | rfl | rfl | rfl | rfl <;>
    simp only [List.mem_cons, List.not_mem_nil, or_false, String.reduceEq, or_self, or_true, if_true, if_false,
      ne_eq, not_true, not_false_eq_true, max_comm _ (0 : ℝ)]
  · ring
  · congr 1; ring
  all_goals first | (congr 1; ring1) | (rw [max_eq_right (le_max_left 0 _)]; congr 2; ring1)

theorem oxy_len : ∀ m ∈ ["R20", "R23", "R24"], ∃ F, ∃ n : ℕ, oxygenFile m = some F ∧ F "len(f)" = some fun _ => (n : ℝ) := by
  intro m hm
  simp only [List.mem_cons, List.not_mem_nil, or_false] at hm
  rcases hm with rfl | rfl | rfl <;> exact ⟨_, _, rfl, rfl⟩

/-- Case: R20 and its shipped list, 850 hPa dry air and 10 hPa of vapour at 285 K, 60 GHz. -/
example : ∃ F c, ∃ n : ℕ, oxygenFile "R20" = some F ∧ (∀ a v, F a = some v → (c : String → Val) a = v) ∧
    (F "len(f)" = some fun _ => (n : ℝ)) ∧ (0 : ℝ) ≤ 85 ∧ (0 : ℝ) < 300 / 285 ∧ (0 : ℝ) < 60 := by
  obtain ⟨F, n, hF, hn⟩ := oxy_len "R20" (by decide)
  exact ⟨F, fun a => (F a).getD 0, n, hF, fun a v h => by simp [h], hn, by norm_num, by norm_num, by norm_num⟩

/-- C69, R23: as above with the 118.75 GHz line speed-dependent; the second-order coefficients of lines 1 to 37 lie a
common offset below the listed ones, so that their weighted sum vanishes; only the band and the first 38 lines together
are cut off below zero before the rest is added. -/
theorem C69_oxygen_R23 {F : LineList} (hF : oxygenFile "R23" = some F)
    (old : LineList) {c : String → ℕ → ℝ} (hc : ∀ a v, F a = some v → c a = v) {n : ℕ}
    (hn : F "len(f)" = some fun _ => (n : ℝ)) {p vx e f pv pd d : ℝ} (hp : 0 ≤ p) (hv : 0 < vx) (he : 0 ≤ e)
    (hpe : 0 < p + e) (hf : 0 < f) (hpv : pv = oxyVapour "R23" (300 / vx) e) (hpd : pd = 10 * p + 10 * e - pv)
    (hd : d = broadening "R23" (c "x" 0) vx pd pv) :
    ∃ off, ∑ k ∈ Finset.Icc 1 37, oxyStrength c vx k / c "f" k ^ 2 * (c "g0" k + c "g1" k * (vx - 1) - off) = 0 ∧
    ∃ npp, o2Absorption "R23" (reloadLL F old) p vx e f = .ok (some (npp, 0)) ∧
      npp * (0.182 * f) * (log 10 / 10) = max 0 (1.6097e11 * pd * vx ^ 3 * (
        max 0 (debye 1.584e-17 vx (c "wb300" 0 * d) f
          + ∑ k ∈ Finset.range 38, oxyStrength c vx k * (f / c "f" k) ^ 2 * newLine k (c "w300" k * d)
            (if 1 ≤ k then 1 + (0.99 * d) ^ 2 * (c "g0" k + c "g1" k * (vx - 1) - off) else 1)
            (0.99 * d * (c "y300" k + c "y1" k * (vx - 1)))
            (c "f" k + (0.99 * d) ^ 2 * (c "dnu0" k + c "dnu1" k * (vx - 1))) f)
        + ∑ k ∈ Finset.Ico 38 n, oxyStrength c vx k * (f / c "f" k) ^ 2 * newLine k (c "w300" k * d) 1
            (0.99 * d * (c "y300" k + c "y1" k * (vx - 1)))
            (c "f" k + (0.99 * d) ^ 2 * (c "dnu0" k + c "dnu1" k * (vx - 1))) f)) := by
  have C := oxyColumns_of_file hF old hc hn
  obtain ⟨ht, hpd0, hd0, hp1, hdf⟩ := oxyAir_props "R23" (c "x" 0) (c "wb300" 0) hp hv he hpe C.wb
  obtain ⟨e1, e2, e3, e4, e5, e6, e7, e8, e9⟩ := oxyAir_formula hF (c "x" 0) (c "wb300" 0) p e hv
  rw [← hpv, ← hpd] at e5
  rw [← hpv, ← hpd, ← hd] at e6 e7
  rw [if_pos rfl, e6] at e8
  rw [e8] at e9
  obtain ⟨off, ho, S, hs, hS⟩ := oxySum23_formula C hf hv (e6 ▸ hd0) e1 e2 e6 e7 e8 e9
  refine ⟨off, ho, ?_⟩
  rw [← hS]
  have hs' : oxySum "R23" (reloadLL F old) (oxyAir "R23" (c "x" 0) (c "wb300" 0) p vx e) (c "wb300" 0) f = .ok (some S) := by
    unfold oxySum
    simp [hs]
  obtain ⟨npp, ncpp, h1, h2, h3⟩ := o2_parts hF C hp hv he hpe hf hs'
  have hlog : (0 : ℝ) < log 10 := log_pos (by norm_num)
  have h0 : ncpp = 0 := by
    rw [if_neg (by simp [separateBand])] at h3
    have : 0.182 * f ≠ 0 := by positivity
    simpa [this, hlog.ne', -mul_eq_zero, mul_eq_zero_iff_right] using h3
  refine ⟨npp, h0 ▸ h1, ?_⟩
  rw [h2]
  unfold oxyAbs
  rw [e1, e5]
  simp only [List.mem_cons, List.not_mem_nil, String.reduceEq, or_self, if_true, if_false,
      ne_eq, not_false_eq_true, max_comm _ (0 : ℝ)]
  congr 1
  ring

/-- C69, R24: as R23, with mixing coefficients corrected to obey both sum rules: first order together with the
zero-frequency band (so that the far wings vanish as they must), second order among lines 1 to 37; the corrections are
proportional to `1/f_k` and to the weights. -/
theorem C69_oxygen_R24 {F : LineList} (hF : oxygenFile "R24" = some F)
    (old : LineList) {c : String → ℕ → ℝ} (hc : ∀ a v, F a = some v → c a = v) {n : ℕ}
    (hn : F "len(f)" = some fun _ => (n : ℝ)) {p vx e f pv pd d : ℝ} (hp : 0 ≤ p) (hv : 0 < vx) (he : 0 ≤ e)
    (hpe : 0 < p + e) (hf : 0 < f) (hpv : pv = oxyVapour "R24" (300 / vx) e) (hpd : pd = 10 * p + 10 * e - pv)
    (hd : d = broadening "R24" (c "x" 0) vx pd pv) :
    ∃ y g : ℕ → ℝ,
    (∃ r, ∀ k, y k = 0.99 * (c "y300" k + c "y1" k * (vx - 1)) - if 1 ≤ k ∧ k ≤ 37 then r / c "f" k else 0) ∧
    (∃ r, ∀ k, g k = if 1 ≤ k ∧ k ≤ 37 then c "g0" k + c "g1" k * (vx - 1) - r * (oxyStrength c vx k / c "f" k ^ 2)
      else 0) ∧
    1.584e-17 / vx * c "wb300" 0 + 2 * ∑ k ∈ Finset.range 38, oxyStrength c vx k / c "f" k ^ 2 *
      (c "w300" k + y k * c "f" k) = 0 ∧
    ∑ k ∈ Finset.Icc 1 37, oxyStrength c vx k / c "f" k ^ 2 * g k = 0 ∧
    ∃ npp, o2Absorption "R24" (reloadLL F old) p vx e f = .ok (some (npp, 0)) ∧
      npp * (0.182 * f) * (log 10 / 10) = max 0 (1.6097e11 * pd * vx ^ 3 * (
        debye 1.584e-17 vx (c "wb300" 0 * d) f
        + ∑ k ∈ Finset.range n, oxyStrength c vx k * (f / c "f" k) ^ 2 * newLine k (c "w300" k * d) (1 + d ^ 2 * g k)
          (d * y k) (c "f" k + d ^ 2 * (c "dnu0" k + c "dnu1" k * (vx - 1))) f)) := by
  have C := oxyColumns_of_file hF old hc hn
  obtain ⟨ht, hpd0, hd0, hp1, hdf⟩ := oxyAir_props "R24" (c "x" 0) (c "wb300" 0) hp hv he hpe C.wb
  obtain ⟨e1, e2, e3, e4, e5, e6, e7, e8, e9⟩ := oxyAir_formula hF (c "x" 0) (c "wb300" 0) p e hv
  rw [← hpv, ← hpd] at e5
  rw [← hpv, ← hpd, ← hd] at e6 e7
  rw [if_neg (by decide), one_mul, e6] at e8
  rw [e8] at e9
  obtain ⟨y, g, hy, hg, s1, s2, S, hs, hS⟩ := oxySum24_formula C hf hv (e6 ▸ hd0) e1 e2 e8 e9
  refine ⟨y, g, hy, hg, s1, s2, ?_⟩
  have hs' : oxySum "R24" (reloadLL F old) (oxyAir "R24" (c "x" 0) (c "wb300" 0) p vx e) (c "wb300" 0) f = .ok (some S) := by
    unfold oxySum
    simp [hs]
  obtain ⟨npp, ncpp, h1, h2, h3⟩ := o2_parts hF C hp hv he hpe hf hs'
  have hlog : (0 : ℝ) < log 10 := log_pos (by norm_num)
  have h0 : ncpp = 0 := by
    rw [if_neg (by simp [separateBand])] at h3
    have : 0.182 * f ≠ 0 := by positivity
    simpa [this, hlog.ne', -mul_eq_zero, mul_eq_zero_iff_right] using h3
  refine ⟨npp, h0 ▸ h1, ?_⟩
  rw [h2]
  generalize (debye 1.584e-17 vx (c "wb300" 0 * d) f
        + ∑ k ∈ Finset.range n, oxyStrength c vx k * (f / c "f" k) ^ 2 * newLine k (c "w300" k * d) (1 + d ^ 2 * g k)
          (d * y k) (c "f" k + d ^ 2 * (c "dnu0" k + c "dnu1" k * (vx - 1))) f) = X at hS
  unfold oxyAbs
  rw [e1, e5]
  simp only [List.mem_cons, List.not_mem_nil, String.reduceEq, or_self, if_true, if_false,
      ne_eq, not_false_eq_true, max_comm _ (0 : ℝ)]
  congr 1
  rw [show (1.6097e11 : ℝ) * S * pd * (f * vx) ^ 2 = 1.6097e11 * pd * vx ^ 2 * (S * f ^ 2) by ring, hS]
  ring

/-- Case: R23, R24 and their shipped lists. -/
example : ∀ m ∈ ["R23", "R24"], ∃ F c, ∃ n : ℕ, oxygenFile m = some F ∧
    (∀ a v, F a = some v → (c : String → Val) a = v) ∧ F "len(f)" = some fun _ => (n : ℝ) := by
  intro m hm
  obtain ⟨F, n, hF, hn⟩ := oxy_len m (List.mem_cons_of_mem _ hm)
  exact ⟨F, fun a => (F a).getD 0, n, hF, fun a v h => by simp [h], hn⟩

end Verif.Props
