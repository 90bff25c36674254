import Verif.Lemmas.WaterFormula
import Verif.Props.Continuum
import Verif.Props.Water
import Verif.Props.Dispatch

/-!
# The absorption routines compute closed formulas (C68)
-/

namespace Verif.Props

open Verif.Model Verif.Py Verif.Lemmas Verif.Spec Real

/-- C68: the line term of every water vapour model, converted to Np/km, is the closed sum over all lines of its
list: strength, both resonances (with the speed-dependent profile close to the lines that have one), width and shift
of each, summed over each line once.  `c` are the columns of the model's own list, `n` its number of lines.  (That
there is a result is C32 and C35.) -/
theorem C68_water_lines {m : String} {F : LineList} (hF : waterFile m = some F) (old : LineList) {c : String → ℕ → ℝ}
    (hc : ∀ a v, F a = some v → c a = v) {n : ℕ} (hn : F "len(fl)" = some fun _ => (n : ℝ))
    {p vx e f : ℝ} (hp : 0 ≤ p) (hv : 0 < vx) (he : 0 < e) (hf : 0 < f) {npp ncpp : ℝ}
    (h : h2oAbsorption m (reloadLL F old) p vx e f = .ok (some (npp, ncpp))) :
    npp * (0.182 * f) * (log 10 / 10) = lineAbsorption m (vapourDensity (300 / vx) e)
      (Spec.lineSum m c n (300 / vx) (dryPressure m (300 / vx) p e) (vapourPressure m (300 / vx) e) f) := by
  obtain ⟨ht, hr, hpv, hpd, hden⟩ := waterAir_props m hp hv he
  obtain ⟨e1, e2, e3, e4⟩ := waterAir_formula hF p e hv
  have hs := waterSum_formula hF (columns_of_file hF old hc hn) f ht hpv hpd
  rw [e1, e3, e4] at hs
  generalize Spec.lineSum m c n (300 / vx) (dryPressure m (300 / vx) p e) (vapourPressure m (300 / vx) e) f = S at hs ⊢
  have hden' : (waterAir m p vx e).den =
      (if m ∈ ["R03", "R16", "R98"] then 3.335e+16 else 3.344e+16) * vapourDensity (300 / vx) e := by
    rw [← e2]
    unfold waterAir
    simp only
    split_ifs <;> rfl
  have hdb : db2np = log 10 / 10 := by
    unfold db2np
    norm_num
    ring
  have hdb0 := db2np_pos
  have hfac : 0.182 * f ≠ 0 := by positivity
  obtain ⟨hu, -⟩ := h2o_parts hv hr.ne' hfac hs h
  rw [← hdb]
  unfold waterUnits at hu
  simp only [npDiv_of_ne hfac, hden', e2] at hu
  unfold lineAbsorption h2oMass at *
  have hm := water_names hF
  simp only [List.mem_cons, List.not_mem_nil, or_false] at hm
  rcases hm with rfl | rfl | rfl | rfl | rfl | rfl | rfl | rfl | rfl | rfl | rfl | rfl | rfl | rfl <;>
    simp at hu ⊢ <;> rw [← hu] <;> field_simp

example : ∃ F c n npp ncpp, waterFile "R98" = some F ∧ (∀ a v, F a = some v → c a = v) ∧ n = 15 ∧
    h2oAbsorption "R98" (reloadLL F fun _ => none) 100 1 1 22.235 = .ok (some (npp, ncpp)) ∧
    npp * (0.182 * 22.235) * (log 10 / 10) = lineAbsorption "R98" (vapourDensity (300 / 1) 1)
      (Spec.lineSum "R98" c n (300 / 1) (dryPressure "R98" (300 / 1) 100 1) (vapourPressure "R98" (300 / 1) 1) 22.235) := by
  obtain ⟨F, hF⟩ : ∃ F, waterFile "R98" = some F := ⟨_, rfl⟩
  obtain ⟨npp, ncpp, h, -⟩ := C35_nonneg (m := "R98") (p := 100) (vx := 1) (e := 1) (f := 22.235) (by decide) hF
    (fun _ => none) (by norm_num) (by norm_num) (by norm_num) (by norm_num)
  have hc : ∀ a v, F a = some v → (fun a => (F a).getD 0) a = v := fun a v h => by simp [h]
  have hn : F "len(fl)" = some fun _ => ((15 : ℕ) : ℝ) := by
    have : F = fun a => (lastAssign (waterAssign "R98") a).bind (Src.val waterR98) := (Option.some_inj.1 hF).symm
    rw [this]
    simp only [waterGroups_len, Option.bind_some, Src.val, waterR98]
  exact ⟨F, _, 15, npp, ncpp, hF, hc, rfl, h,
    C68_water_lines hF _ hc hn (by norm_num) (by norm_num) (by norm_num) (by norm_num) h⟩

/-- C68: the continuum of the models R98 and R03 is the closed formula with its fixed coefficients; of the others up to
R22SD the one with the coefficients of the model's own list. -/
theorem C68_water_continuum {m : String} (hm : m ∉ ["R23SD", "R24", "MWL24"]) {F : LineList} (hF : waterFile m = some F)
    (old : LineList) {c : String → ℕ → ℝ} (hc : ∀ a v, F a = some v → c a = v)
    {p vx e f : ℝ} (hp : 0 ≤ p) (hv : 0 < vx) (he : 0 < e) (hf : 0 < f) {npp ncpp : ℝ}
    (h : h2oAbsorption m (reloadLL F old) p vx e f = .ok (some (npp, ncpp))) :
    ncpp * (0.182 * f) * (log 10 / 10) =
      if m = "R98" ∨ m = "R03" then
        continuum 5.43e-10 3 1.8e-8 7.5 (c "reftcon" 0 * vx / 300) (dryPressure m (300 / vx) p e)
          (vapourPressure m (300 / vx) e) f
      else continuum (c "cf" 0) (c "xcf" 0) (c "cs" 0) (c "xcs" 0) (c "reftcon" 0 * vx / 300)
        (dryPressure m (300 / vx) p e) (vapourPressure m (300 / vx) e) f := by
  obtain ⟨ht, hr, hpv, hpd, hden⟩ := waterAir_props m hp hv he
  obtain ⟨e1, e2, e3, e4⟩ := waterAir_formula hF p e hv
  obtain ⟨T, hT⟩ : ∃ n : ℕ, F "len(fl)" = some fun _ => (n : ℝ) := file_len hF
  have C := columns_of_file hF old hc hT
  have hs := waterSum_formula hF C f ht hpv hpd
  have hdb : db2np = log 10 / 10 := by
    unfold db2np
    norm_num
    ring
  have hdb0 := db2np_pos
  have hfac : 0.182 * f ≠ 0 := by positivity
  simp only [List.mem_cons, List.not_mem_nil, or_false, not_or] at hm
  obtain ⟨-, con, k, h1, h2, h3⟩ := h2o_parts hv hr.ne' hfac hs h
  rw [if_neg (by simp [hm])] at h2
  simp only [Except.ok.injEq] at h2
  rw [← hdb, h3]
  have hk : k / db2np / (0.182 * f) * (0.182 * f) * db2np = k := by field_simp
  rw [hk]
  have hti : c "reftcon" 0 * vx / 300 = c "reftcon" 0 / (300 / vx) := by rw [div_div_eq_mul_div]
  have hti0 : 0 < c "reftcon" 0 / (300 / vx) := div_pos C.reft.2 (by positivity)
  rw [hti]
  unfold waterCon at h1
  simp only [C.common (a := "reftcon") (by decide), C.common (a := "cf") (by decide), C.common (a := "xcf") (by decide),
    C.common (a := "cs") (by decide), C.common (a := "xcs") (by decide), bind, Except.bind, pure, Except.pure, e1, e3, e4,
    fpow_of_pos hti0, if_neg hm.2.2, Option.bind_some, Option.map_some, List.mem_cons, List.not_mem_nil, or_false] at h1
  generalize c "reftcon" 0 / (300 / vx) = θ at hti0 h1 ⊢
  have hk' : ∀ {x : ℝ}, (some x : Option ℝ) = con → k = x := fun h => by rw [h2] at h; exact (Option.some_inj.1 h).symm
  by_cases hR : m = "R98" ∨ m = "R03"
  · rw [if_pos hR]
    rw [if_pos hR.symm, Except.ok.injEq] at h1
    rw [hk' h1]
    unfold continuum
    rw [show (θ ^ (3 : ℝ)) = θ ^ 3 by exact_mod_cast Real.rpow_natCast θ 3]
    ring
  · rw [if_neg hR]
    rw [if_neg (fun h => hR h.symm), Except.ok.injEq] at h1
    rw [hk' h1]
    unfold continuum
    ring

/-- Case: R17, 1000 hPa of dry air, 10 hPa of vapour, 300 K, 22.235 GHz. -/
example : ∃ F c npp ncpp, waterFile "R17" = some F ∧ (∀ a v, F a = some v → (c : String → Val) a = v) ∧
    h2oAbsorption "R17" (reloadLL F fun _ => none) 100 1 1 22.235 = .ok (some (npp, ncpp)) := by
  obtain ⟨F, hF⟩ : ∃ F, waterFile "R17" = some F := ⟨_, rfl⟩
  obtain ⟨⟨npp, ncpp⟩, h⟩ := C32_water (p := 100) (vx := 1) (e := 1) (f := 22.235) hF
    (fun _ => none) (by norm_num) (by norm_num) (by norm_num) (by norm_num) (fun _ => by norm_num [ckdStep])
  exact ⟨F, fun a => (F a).getD 0, npp, ncpp, hF, fun a v h => by simp [h], h⟩

/-- C68: the continuum of R23SD and R24: foreign term with the list's coefficients, taken at the reference temperature
of the lines, and the self term from the tabulated nodes (`s`, see C36). -/
theorem C68_water_continuum_table {m : String} (hm : m ∈ ["R23SD", "R24"]) {F : LineList} (hF : waterFile m = some F)
    (old : LineList) {c : String → ℕ → ℝ} (hc : ∀ a v, F a = some v → c a = v)
    {p vx e f : ℝ} (hp : 0 ≤ p) (hv : 0 < vx) (he : 0 < e) (hf : 0 < f) {npp ncpp : ℝ}
    (h : h2oAbsorption m (reloadLL F old) p vx e f = .ok (some (npp, ncpp))) {k : ℤ} (hk : 0 ≤ k ∧ k ≤ 3)
    (h1 : k * ckdStep ≤ f) (h2 : f < (k + 1) * ckdStep) :
    ncpp * (0.182 * f) * (log 10 / 10) =
      continuum (c "cf" 0) (c "xcf" 0)
        (cubic (ckdNode vx (k - 1)) (ckdNode vx k) (ckdNode vx (k + 1)) (ckdNode vx (k + 2)) (f / ckdStep - k)) 0
        (c "reftline" 0 * vx / 300) (dryPressure m (300 / vx) p e) (vapourPressure m (300 / vx) e) f := by
  obtain ⟨ht, hr, hpv, hpd, hden⟩ := waterAir_props m hp hv he
  obtain ⟨e1, e2, e3, e4⟩ := waterAir_formula hF p e hv
  obtain ⟨T, hT⟩ : ∃ n : ℕ, F "len(fl)" = some fun _ => (n : ℝ) := file_len hF
  have C := columns_of_file hF old hc hT
  have hs := waterSum_formula hF C f ht hpv hpd
  have hdb : db2np = log 10 / 10 := by
    unfold db2np
    norm_num
    ring
  have hdb0 := db2np_pos
  have hfac : 0.182 * f ≠ 0 := by positivity
  obtain ⟨-, con, q, -, h3, h4⟩ := h2o_parts hv hr.ne' hfac hs h
  rw [if_pos hm] at h3
  rw [← hdb, h4]
  have hq : q / db2np / (0.182 * f) * (0.182 * f) * db2np = q := by field_simp
  rw [hq]
  have hti : c "reftline" 0 * vx / 300 = c "reftline" 0 / (300 / vx) := by rw [div_div_eq_mul_div]
  have hti0 : 0 < c "reftline" 0 / (300 / vx) := div_pos C.reft.1 (by positivity)
  rw [hti]
  obtain ⟨G⟩ := goodLines_of_file hF old
  obtain ⟨-, hcs⟩ := newCon hm hF old G
  have hcs' : G.cs = c "cs" := by
    have := C.read "cs" (by simp [waterReads, waterCommon])
    rw [G.hcs, Option.some_inj] at this
    exact this
  rw [hcs'] at hcs
  unfold waterConNew at h3
  simp only [C.common (a := "reftline") (by decide), C.common (a := "cf") (by decide), C.common (a := "xcf") (by decide),
    C.common (a := "cs") (by decide), C.common (a := "xcs") (by decide), bind, Except.bind, pure, Except.pure, e1, e3, e4,
    fpow_of_pos hti0, if_neg hcs, h2oContinuum_eq vx hk h1 h2, Option.map_some, Except.ok.injEq, Option.some_inj] at h3
  rw [← h3]
  unfold continuum
  rw [Real.rpow_zero]
  ring

/-- Case: R24 (interval 0 of the table), 1000 hPa of dry air, 10 hPa of vapour, 300 K, 22.235 GHz. -/
example : ∃ F c npp ncpp, waterFile "R24" = some F ∧ (∀ a v, F a = some v → (c : String → Val) a = v) ∧
    ((0 : ℤ) : ℝ) * ckdStep ≤ 22.235 ∧ (22.235 : ℝ) < ((0 : ℤ) + 1) * ckdStep ∧
    h2oAbsorption "R24" (reloadLL F fun _ => none) 100 1 1 22.235 = .ok (some (npp, ncpp)) := by
  obtain ⟨F, hF⟩ : ∃ F, waterFile "R24" = some F := ⟨_, rfl⟩
  obtain ⟨⟨npp, ncpp⟩, h⟩ := C32_water (p := 100) (vx := 1) (e := 1) (f := 22.235) hF
    (fun _ => none) (by norm_num) (by norm_num) (by norm_num) (by norm_num) (fun _ => by norm_num [ckdStep])
  exact ⟨F, fun a => (F a).getD 0, npp, ncpp, hF, fun a v h => by simp [h], by norm_num, by norm_num [ckdStep], h⟩

end Verif.Props
