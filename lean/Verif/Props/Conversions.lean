import Verif.Props.Utils
import Mathlib.Analysis.Complex.ExponentialBounds

/-!
# C84: the table of constants, air density and number density
-/

namespace Verif.Props

open Verif.Py Verif.Model Real

/-! ## The lookup -/

/-- The names of the documentation table of `constants` (utils.py:59-80), with the unit printed there. -/
def documentedConstants : List (String × String) :=
  [("avogadro", "[mol-1]"), ("boltzmann", "[J K-1]"), ("EarthRadius", "[km]"), ("light", "[m s-1]"),
   ("Np2dB", "[dB/Np]"), ("planck", "[J Hz-1]"), ("Rdry", "[J kg-1 K-1]"), ("Rwatvap", "[J kg-1 K-1]"),
   ("R", "[J mol-1 K-1]"), ("Tcosmicbkg", "[K]")]

/-- The list of names given without an argument is exactly the set of names that can be asked for: every other
non-empty name raises `ValueError`. -/
theorem C84_lookup :
    ∃ l, constants none = .ok (.names l) ∧ constants (some "") = .ok (.names l) ∧ l.Nodup ∧
      ∀ s : String, s ≠ "" →
        (s ∈ l → ∃ v u, constants (some s) = .ok (.entry v u) ∧ 0 < v) ∧
        (s ∉ l → constants (some s) = .error .valueError) := by
  refine ⟨_, rfl, rfl, ?_, ?_⟩
  · simp only [constantsDict, List.map_cons, List.map_nil]; decide
  · intro s hs
    constructor
    · intro h
      simp only [constantsDict, List.map_cons, List.map_nil, List.mem_cons, List.not_mem_nil, or_false] at h
      rcases h with h | h | h | h | h | h | h | h | h | h | h <;> subst h <;>
        refine ⟨_, _, rfl, ?_⟩ <;>
        norm_num [cAvogadro, cBoltzmann, cEarthRadius, cGravity, cLight, cNp2dB, cPlanck, cRdry, cRwatvap,
          cTcosmicbkg, cR]
    · intro h
      have hl : constantsDict.lookup s = none := by
        rw [List.lookup_eq_none_iff]
        intro e he
        simp only [ne_eq, bne_iff_ne]
        intro hse
        exact h (hse ▸ List.mem_map_of_mem he)
      simp only [constants, hs, if_false, hl, entryOf]

/-- Every documented name is answered, with the documented unit. -/
theorem C84_documented : ∀ e ∈ documentedConstants, ∃ v, constants (some e.1) = .ok (.entry v e.2) := by
  intro e he
  simp only [documentedConstants, List.mem_cons, List.not_mem_nil, or_false] at he
  rcases he with h | h | h | h | h | h | h | h | h | h <;> subst h <;> exact ⟨_, rfl⟩

/-- There is one more entry than documented: the acceleration of gravity. -/
theorem C84_undocumented (s : String) (l : List String) (h : constants none = .ok (.names l)) (hs : s ∈ l)
    (hd : ∀ e ∈ documentedConstants, e.1 ≠ s) : s = "gravity" := by
  have hl : l = constantsDict.map Prod.fst := by
    simp only [constants, Except.ok.injEq, ConstResult.names.injEq] at h
    exact h.symm
  subst hl
  simp only [constantsDict, List.map_cons, List.map_nil, List.mem_cons, List.not_mem_nil, or_false] at hs
  have hd' : ∀ x ∈ documentedConstants.map Prod.fst, x ≠ s := by
    intro x hx
    obtain ⟨e, he, rfl⟩ := List.mem_map.1 hx
    exact hd e he
  rcases hs with h | h | h | h | h | h | h | h | h | h | h <;> subst h <;>
    first | rfl | exact absurd rfl (hd' _ (by decide))

/-- That entry is in SI units. -/
theorem C84_gravity_unit : ∃ v, constants (some "gravity") = .ok (.entry v "[m s-2]") := ⟨_, rfl⟩

/-- The names are case sensitive. -/
example : constants (some "Light") = .error .valueError := by
  obtain ⟨l, h1, -, -, h2⟩ := C84_lookup
  refine (h2 "Light" (by decide)).2 ?_
  simp only [constants, Except.ok.injEq, ConstResult.names.injEq] at h1
  subst h1
  simp only [constantsDict, List.map_cons, List.map_nil]
  decide

/-- The tabulated decibel per neper (of power) is `10 / ln 10`, to eight digits. -/
theorem C84_neper : ∃ v, constants (some "Np2dB") = .ok (.entry v "[dB/Np]") ∧ |v * log 10 - 10| < 1e-8 := by
  refine ⟨_, rfl, ?_⟩
  have h : log 10 = log 2 + log 5 := by
    rw [← log_mul (by norm_num) (by norm_num)]; norm_num
  have h2 := abs_le.1 log_two_near_10
  have h5 := abs_le.1 log_five_near_10
  unfold cNp2dB
  rw [h, abs_lt]
  constructor
  · norm_num at h2 h5 ⊢; linarith [h2.1, h2.2, h5.1, h5.2]
  · norm_num at h2 h5 ⊢; linarith [h2.1, h2.2, h5.1, h5.2]

/-- The tabulated gas constant is the product of the tabulated Avogadro and Boltzmann constants, to one part in a
hundred thousand: the three entries come from different sources. -/
theorem C84_gas_constant :
    ∃ a k r, constants (some "avogadro") = .ok (.entry a "[mol-1]") ∧
      constants (some "boltzmann") = .ok (.entry k "[J K-1]") ∧
      constants (some "R") = .ok (.entry r "[J mol-1 K-1]") ∧ a * k ≠ r ∧ |a * k / r - 1| < 1e-5 := by
  refine ⟨_, _, _, rfl, rfl, rfl, ?_⟩
  unfold cAvogadro cBoltzmann cR
  constructor
  · norm_num
  · norm_num [abs_lt]

/-- Published values, written down here independently of /repo: SI defining constants (Avogadro, Boltzmann, light, Planck and
their product, the gas constant), standard gravity, mean Earth radius (IUGG), background temperature (Fixsen 2009), gas constants
of dry air and vapour from the molar masses 28.9644 and 18.01528 g/mol. Last: the relative deviation allowed. -/
noncomputable def publishedConstants : List (String × ℝ × ℝ) :=
  [("avogadro", 6.02214076e23, 1e-7), ("boltzmann", 1.380649e-23, 1e-5), ("EarthRadius", 6371.0088, 1e-5),
   ("gravity", 9.80665, 1e-15), ("light", 299792458, 1e-15), ("planck", 6.62607015e-34, 1e-6),
   ("Rdry", 8.31446261815324 / 28.9644e-3, 1e-4), ("Rwatvap", 8.31446261815324 / 18.01528e-3, 1e-4),
   ("R", 8.31446261815324, 1e-15), ("Tcosmicbkg", 2.72548, 1e-3)]

/-- Every value agrees with the published one of its name. -/
theorem C84_published : ∀ e ∈ publishedConstants,
    ∃ v u, constants (some e.1) = .ok (.entry v u) ∧ |v / e.2.1 - 1| < e.2.2 := by
  intro e he
  simp only [publishedConstants, List.mem_cons, List.not_mem_nil, or_false] at he
  rcases he with h | h | h | h | h | h | h | h | h | h <;> subst h <;> refine ⟨_, _, rfl, ?_⟩ <;>
    norm_num [cAvogadro, cBoltzmann, cEarthRadius, cGravity, cLight, cPlanck, cRdry, cRwatvap, cTcosmicbkg, cR, abs_lt]

/-- The ratio of the two tabulated gas constants is the 0.622 of the humidity conversions. -/
example : ∃ v u w u', constants (some "Rdry") = .ok (.entry v u) ∧ constants (some "Rwatvap") = .ok (.entry w u') ∧
    |v / w - 0.622| < 1e-4 := by
  refine ⟨_, _, _, _, rfl, rfl, ?_⟩
  norm_num [cRdry, cRwatvap, abs_lt]

/-! ## Density of moist air -/

theorem kgkg_value {q p t : ℝ} (hq : 0 ≤ q) (ht : t ≠ 0) :
    kgkgToKgm3 q p t = some (1e2 * p / (cRdry * (1 + (1 - epsRatio) / epsRatio * q) * t)) := by
  unfold kgkgToKgm3
  refine npDiv_of_ne (mul_ne_zero (ne_of_gt ?_) ht)
  have : 0 ≤ (1 - epsRatio) / epsRatio * q := mul_nonneg (by unfold epsRatio; norm_num) hq
  unfold cRdry
  positivity

/-- **C84.** The function gives the density of the moist air, not of the vapour: for dry air it is not zero but
the density of the dry air. -/
theorem C84_dry_air {p t : ℝ} (ht : t ≠ 0) : ∃ d, kgkgToKgm3 0 p t = some d ∧ 100 * p = d * 287.04 * t := by
  refine ⟨_, kgkg_value le_rfl ht, ?_⟩
  unfold cRdry
  rw [mul_zero, add_zero, mul_one]
  have h2 : (287.04 : ℝ) ≠ 0 := by norm_num
  have h1 : (1e2 : ℝ) = 100 := by norm_num
  rw [h1]
  generalize (287.04 : ℝ) = r at *
  field_simp

/-- It multiplies a mass fraction: applied to the specific humidity itself it gives the density of water vapour that
`mr2rho` gives (in g) for the same air, up to the factor 461.52 · 0.621970585 / 287.04 which differs from one by
less than 5e-5. -/
theorem C84_vapour_density {q p t : ℝ} (hq : 0 ≤ q) (hq1 : q < 1) (ht : t ≠ 0) :
    ∃ d rho, kgkgToKgm3 q p t = some d ∧ mr2rho (1000 * (q / (1 - q))) t p = some rho ∧
      1000 * (q * d) = (461.52 * 0.621970585 / 287.04) * rho := by
  have h1q : (1 - q) ≠ 0 := by linarith
  have hk : kmr + 1000 * (q / (1 - q)) ≠ 0 := by
    have : 0 ≤ q / (1 - q) := div_nonneg hq (by linarith)
    have := kmr_pos
    positivity
  refine ⟨_, 1000 * (q / (1 - q)) * p / ((kmr + 1000 * (q / (1 - q))) * rv) / t, kgkg_value hq ht, ?_, ?_⟩
  · rw [mr2rho_def, npDiv_of_ne (mul_ne_zero hk rv_pos.ne'), Option.bind_some, npDiv_of_ne ht]
  · have he : (0 : ℝ) < epsRatio := eps_pos
    have he1 : 0 < epsRatio + (1 - epsRatio) * q := by
      have : (0 : ℝ) ≤ 1 - epsRatio := by unfold epsRatio; norm_num
      positivity
    have e1 : kmr + 1000 * (q / (1 - q)) = 1000 * ((epsRatio + (1 - epsRatio) * q) / (1 - q)) := by
      have : kmr = 1000 * epsRatio := by unfold kmr epsRatio; rfl
      rw [this]; field_simp; ring
    have e2 : 1 + (1 - epsRatio) / epsRatio * q = (epsRatio + (1 - epsRatio) * q) / epsRatio := by
      field_simp
    have e3 : rv = 461.52 / 100000 := by unfold rv; norm_num
    have e4 : (1e2 : ℝ) = 100 := by norm_num
    have e5 : (0.621970585 : ℝ) = epsRatio := rfl
    have e6 : cRdry = 287.04 := rfl
    rw [e1, e2, e3, e4, e5, e6]
    generalize epsRatio + (1 - epsRatio) * q = a at *
    generalize epsRatio = e at *
    have f1 : (461.52 : ℝ) ≠ 0 := by norm_num
    have f2 : (287.04 : ℝ) ≠ 0 := by norm_num
    generalize (461.52 : ℝ) = r1 at *
    generalize (287.04 : ℝ) = r2 at *
    field_simp
    ring

/-- The factor of the last theorem. -/
theorem vapour_factor : (1 : ℝ) < 461.52 * 0.621970585 / 287.04 ∧ (461.52 * 0.621970585 / 287.04 : ℝ) < 1 + 5e-5 := by
  norm_num

/-- The gas law for the virtual temperature that `virtual_temperature` gives: the density is at least
`100 p / (Rdry Tv)` and exceeds it by less than 7e-5 of the specific humidity. -/
theorem C84_virtual {q p t : ℝ} (hq : 0 ≤ q) (hq1 : q < 1) (hp : 0 < p) (ht : 0 < t) :
    ∃ d tv, kgkgToKgm3 q p t = some d ∧ virtualTemperature t (q / (1 - q)) = some tv ∧ 0 < tv ∧
      100 * p ≤ d * 287.04 * tv ∧ d * 287.04 * tv ≤ (1 + 7e-5 * q) * (100 * p) := by
  have h1q : 0 < 1 - q := by linarith
  have hr : (0 : ℝ) < cRdry / cRwatvap := by unfold cRdry cRwatvap; norm_num
  have hw : 0 ≤ q / (1 - q) := div_nonneg hq h1q.le
  have hd : cRdry / cRwatvap * (1 + q / (1 - q)) ≠ 0 := by positivity
  have htv : virtualTemperature t (q / (1 - q)) = some (t * (1 + (cRwatvap / cRdry - 1) * q)) := by
    unfold virtualTemperature
    simp only
    rw [npDiv_of_ne hd, Option.map_some]
    congr 2
    have a1 : cRdry ≠ 0 := by unfold cRdry; norm_num
    have a2 : cRwatvap ≠ 0 := by unfold cRwatvap; norm_num
    generalize cRdry = a at *
    generalize cRwatvap = b at *
    field_simp
    ring
  have hk : (0 : ℝ) ≤ cRwatvap / cRdry - 1 := by unfold cRdry cRwatvap; norm_num
  have hs : (0 : ℝ) ≤ (1 - epsRatio) / epsRatio := by unfold epsRatio; norm_num
  refine ⟨_, _, kgkg_value hq ht.ne', htv, by positivity, ?_⟩
  have e6 : cRdry = 287.04 := rfl
  have hb : 0 < 1 + (1 - epsRatio) / epsRatio * q := by positivity
  have hval : 1e2 * p / (cRdry * (1 + (1 - epsRatio) / epsRatio * q) * t) * 287.04 *
      (t * (1 + (cRwatvap / cRdry - 1) * q)) =
      100 * p * ((1 + (cRwatvap / cRdry - 1) * q) / (1 + (1 - epsRatio) / epsRatio * q)) := by
    generalize cRwatvap / cRdry - 1 = w
    generalize 1 + (1 - epsRatio) / epsRatio * q = b at *
    rw [e6]
    have f2 : (287.04 : ℝ) ≠ 0 := by norm_num
    have e4 : (1e2 : ℝ) = 100 := by norm_num
    rw [e4]
    generalize (287.04 : ℝ) = r at *
    field_simp
  have hlo : (1 - epsRatio) / epsRatio ≤ cRwatvap / cRdry - 1 := by
    unfold epsRatio cRwatvap cRdry; norm_num
  have hhi : cRwatvap / cRdry - 1 ≤ (1 - epsRatio) / epsRatio + 7e-5 := by
    unfold epsRatio cRwatvap cRdry; norm_num
  have r1 : 1 ≤ (1 + (cRwatvap / cRdry - 1) * q) / (1 + (1 - epsRatio) / epsRatio * q) := by
    rw [le_div_iff₀ hb]; nlinarith
  have r2 : (1 + (cRwatvap / cRdry - 1) * q) / (1 + (1 - epsRatio) / epsRatio * q) ≤ 1 + 7e-5 * q := by
    rw [div_le_iff₀ hb]
    have : 0 ≤ (7e-5 * q) * ((1 - epsRatio) / epsRatio * q) := by positivity
    nlinarith
  rw [hval]
  constructor <;> nlinarith

/-- Specific humidity 10 g/kg at 1000 hPa and 290 K. -/
example : ∃ d tv, kgkgToKgm3 0.01 1000 290 = some d ∧ virtualTemperature 290 (0.01 / (1 - 0.01)) = some tv ∧ 0 < tv ∧
      100 * 1000 ≤ d * 287.04 * tv ∧ d * 287.04 * tv ≤ (1 + 7e-5 * 0.01) * (100 * 1000) :=
  C84_virtual (by norm_num) (by norm_num) (by norm_num) (by norm_num)

/-- At zero temperature the density is not finite. -/
theorem C84_zero_temperature (q p mr : ℝ) : kgkgToKgm3 q p 0 = none ∧ ppmvToMoleculesm3 mr p 0 = none := by
  simp [kgkgToKgm3, ppmvToMoleculesm3, npDiv]

/-! ## Number density -/

/-- The mixing ratio is a fraction of the molecules of the air, in parts per million; the pressure is in Pa (unlike
the other conversions, which take hPa). -/
theorem C84_number_density {mr p t : ℝ} (ht : t ≠ 0) :
    ∃ n a, ppmvToMoleculesm3 mr p t = some n ∧ ppmvToMoleculesm3 1000000 p t = some a ∧
      a * 8.31446261815324 * t = 6.022140857e+23 * p ∧ n = a * (mr / 1000000) := by
  have hR : cR * t ≠ 0 := mul_ne_zero (by unfold cR; norm_num) ht
  refine ⟨_, _, by unfold ppmvToMoleculesm3; rw [npDiv_of_ne hR, Option.map_some],
    by unfold ppmvToMoleculesm3; rw [npDiv_of_ne hR, Option.map_some], ?_, ?_⟩
  · have e : (1000000 : ℝ) * 1e-6 = 1 := by norm_num
    rw [mul_assoc (cAvogadro * p / (cR * t)), e, mul_one]
    have hR' : (8.31446261815324 : ℝ) ≠ 0 := by norm_num
    unfold cAvogadro cR
    generalize (8.31446261815324 : ℝ) = r at *
    generalize (6.022140857e+23 : ℝ) = av
    field_simp
  · have e : (1e-6 : ℝ) = 1 / 1000000 := by norm_num
    rw [e]; field_simp

/-- Gases at the same pressure and temperature add up. -/
theorem C84_additive {m1 m2 p t n1 n2 : ℝ} (h1 : ppmvToMoleculesm3 m1 p t = some n1)
    (h2 : ppmvToMoleculesm3 m2 p t = some n2) : ppmvToMoleculesm3 (m1 + m2) p t = some (n1 + n2) := by
  unfold ppmvToMoleculesm3 at *
  cases h : npDiv (cAvogadro * p) (cR * t) with
  | none => rw [h] at h1; cases h1
  | some a =>
    rw [h] at h1 h2
    simp only [Option.map_some, Option.some.injEq] at *
    rw [← h1, ← h2]; ring

/-- 400 ppmv at 101325 Pa and 273.15 K: about 1.07e22 molecules per cubic metre. -/
example : ∃ n, ppmvToMoleculesm3 400 101325 273.15 = some n ∧ 1.07e22 < n ∧ n < 1.08e22 := by
  obtain ⟨n, a, h1, -, h3, h4⟩ := C84_number_density (mr := 400) (p := 101325) (t := 273.15) (by norm_num)
  refine ⟨n, h1, ?_, ?_⟩ <;> norm_num at * <;> linarith

end Verif.Props
