import Verif.Model.Utils
import Verif.Props.Cloud
import Mathlib.Tactic.FieldSimp
import Mathlib.Tactic.LinearCombination

/-!
# C41-C47: conversions
-/

namespace Verif.Props

open Verif.Py Verif.Model Real

/-- Gas constant of water vapour in hPa m³ g⁻¹ K⁻¹. -/
noncomputable def rv : ℝ := 461.52 * 1e-5

theorem rv_pos : 0 < rv := by unfold rv; norm_num
theorem eps_pos : 0 < epsRatio := by unfold epsRatio; norm_num

/-! ## C41 -/

/-- `1000 · eps` -/
noncomputable def kmr : ℝ := 1000 * 0.621970585

theorem kmr_pos : 0 < kmr := by unfold kmr; norm_num

theorem mr2e_def (p mr : ℝ) : mr2e p mr = npDiv (p * mr) (kmr + mr) := by
  unfold mr2e kmr epsRatio; norm_num
theorem e2mr_def (p e : ℝ) : e2mr p e = npDiv (kmr * e) (p - e) := by
  unfold e2mr kmr epsRatio; norm_num
theorem mr2rho_def (mr t p : ℝ) : mr2rho mr t p = (npDiv (mr * p) ((kmr + mr) * rv)).bind fun x => npDiv x t := by
  unfold mr2rho kmr epsRatio rv cRwatvap; norm_num
theorem rho2mr_def (rho t p : ℝ) :
    rho2mr rho t p = (npDiv p t).bind fun x => npDiv (rho * (kmr * rv)) (x - rv * rho) := by
  unfold rho2mr kmr epsRatio rv cRwatvap; norm_num

/-- From vapour pressure to mixing ratio and back. -/
theorem C41_e_mr_e {p e : ℝ} (hp : p ≠ 0) (he : e ≠ p) : (e2mr p e).bind (mr2e p) = some e := by
  have h1 : p - e ≠ 0 := sub_ne_zero.mpr (Ne.symm he)
  have hk := kmr_pos.ne'
  have h3 : kmr + kmr * e / (p - e) = kmr * p / (p - e) := by field_simp; ring
  have h2 : kmr + kmr * e / (p - e) ≠ 0 := by
    rw [h3]; exact div_ne_zero (mul_ne_zero hk hp) h1
  rw [e2mr_def, npDiv_of_ne h1]
  simp only [Option.bind_some, mr2e_def]
  rw [npDiv_of_ne h2, Option.some.injEq, h3]
  field_simp

/-- From mixing ratio to vapour pressure and back. -/
theorem C41_mr_e_mr {p mr : ℝ} (hp : p ≠ 0) (hm : 1000 * 0.621970585 + mr ≠ 0) :
    (mr2e p mr).bind (e2mr p) = some mr := by
  have h0 : kmr + mr ≠ 0 := hm
  have hk := kmr_pos.ne'
  have h3 : p - p * mr / (kmr + mr) = p * kmr / (kmr + mr) := by field_simp; ring
  have h2 : p - p * mr / (kmr + mr) ≠ 0 := by
    rw [h3]; exact div_ne_zero (mul_ne_zero hp hk) h0
  rw [mr2e_def, npDiv_of_ne h0]
  simp only [Option.bind_some, e2mr_def]
  rw [npDiv_of_ne h2, Option.some.injEq, h3]
  field_simp

/-- The density of a mixing ratio is the density of the corresponding vapour pressure by the gas law. -/
theorem C41_density_gas_law {mr t p : ℝ} (ht : t ≠ 0) (hm : 1000 * 0.621970585 + mr ≠ 0) :
    ∃ e rho, mr2e p mr = some e ∧ mr2rho mr t p = some rho ∧ e = rv * rho * t := by
  have h0 : kmr + mr ≠ 0 := hm
  have hrv := rv_pos.ne'
  refine ⟨p * mr / (kmr + mr), mr * p / ((kmr + mr) * rv) / t, ?_, ?_, ?_⟩
  · rw [mr2e_def, npDiv_of_ne h0]
  · rw [mr2rho_def, npDiv_of_ne (mul_ne_zero h0 hrv)]
    simp only [Option.bind_some]
    rw [npDiv_of_ne ht]
  · field_simp

/-- The mixing ratio of a density is the mixing ratio of the vapour pressure given by the gas law. -/
theorem C41_mixing_gas_law {rho t p : ℝ} (ht : t ≠ 0) (hne : p ≠ rv * rho * t) :
    rho2mr rho t p = e2mr p (rv * rho * t) := by
  have h1 : p - rv * rho * t ≠ 0 := sub_ne_zero.mpr hne
  have h3 : p / t - rv * rho = (p - rv * rho * t) / t := by field_simp
  have h2 : p / t - rv * rho ≠ 0 := by rw [h3]; exact div_ne_zero h1 ht
  rw [rho2mr_def, e2mr_def, npDiv_of_ne ht]
  simp only [Option.bind_some]
  rw [npDiv_of_ne h2, npDiv_of_ne h1, Option.some.injEq, h3]
  field_simp

/-- From mixing ratio to density and back. -/
theorem C41_mr_rho_mr {mr t p : ℝ} (ht : t ≠ 0) (hp : p ≠ 0) (hm : 1000 * 0.621970585 + mr ≠ 0) :
    (mr2rho mr t p).bind (fun rho => rho2mr rho t p) = some mr := by
  obtain ⟨e, rho, h1, h2, h3⟩ := C41_density_gas_law (p := p) ht hm
  have h4 := C41_mr_e_mr hp hm
  rw [h1] at h4
  simp only [Option.bind_some] at h4
  rw [h2]
  simp only [Option.bind_some]
  rw [C41_mixing_gas_law ht, ← h3, h4]
  intro he
  rw [h3, ← he, e2mr_def, sub_self, npDiv_zero] at h4
  cases h4

/-- From density to mixing ratio and back. -/
theorem C41_rho_mr_rho {rho t p : ℝ} (ht : t ≠ 0) (hp : p ≠ 0) (hne : p ≠ rv * rho * t) :
    (rho2mr rho t p).bind (fun mr => mr2rho mr t p) = some rho := by
  rw [C41_mixing_gas_law ht hne]
  have h := C41_e_mr_e hp (Ne.symm hne)
  cases hm : e2mr p (rv * rho * t) with
  | none => rw [hm] at h; cases h
  | some mr =>
    rw [hm] at h
    simp only [Option.bind_some] at h ⊢
    have hd : 1000 * 0.621970585 + mr ≠ 0 := by
      intro h0
      have : kmr + mr = 0 := h0
      rw [mr2e_def, this, npDiv_zero] at h
      cases h
    obtain ⟨e, rho', h1, h2, h3⟩ := C41_density_gas_law (p := p) ht hd
    rw [h] at h1
    obtain rfl : rv * rho * t = e := by simpa using h1
    rw [h2, Option.some.injEq]
    have hrv := rv_pos.ne'
    have : rv * t * (rho - rho') = 0 := by linear_combination h3
    rcases mul_eq_zero.mp this with h | h
    · exact absurd h (mul_ne_zero hrv ht)
    · linarith

/-- Where vapour makes up the whole pressure the mixing ratio does not exist. -/
theorem C41_no_dry_air (p : ℝ) : e2mr p p = none := by simp [e2mr, npDiv]

example : (e2mr 1000 12).bind (mr2e 1000) = some 12 := C41_e_mr_e (by norm_num) (by norm_num)
example : (mr2rho 8 288 1000).bind (fun rho => rho2mr rho 288 1000) = some 8 :=
  C41_mr_rho_mr (by norm_num) (by norm_num) (by norm_num)

/-! ## C43 -/

theorem eswat_pos (t : ℝ) : 0 < eswat t := by
  unfold eswat; exact rpow_pos_of_pos (by norm_num) _
theorem esice_pos (t : ℝ) : 0 < esice t := by
  unfold esice; exact rpow_pos_of_pos (by norm_num) _

/-- Without a conversion temperature (or with 0, which Python takes for "not given") every element uses the water
formula; with one, exactly the elements at or below it use the ice formula. -/
theorem C43_choice (t : ℕ → ℝ) (i : ℕ) :
    satvap t none i = eswat (t i) ∧ satvap t (some 0) i = eswat (t i) ∧
    ∀ c ≠ 0, (t i ≤ c → satvap t (some c) i = esice (t i)) ∧ (c < t i → satvap t (some c) i = eswat (t i)) := by
  refine ⟨rfl, by simp [satvap], fun c hc => ⟨fun h => by simp [satvap, hc, h], fun h => ?_⟩⟩
  simp [satvap, hc, not_le.mpr h]

/-- Both formulas are positive, so saturation pressure always is. -/
theorem C43_positive (t : ℕ → ℝ) (c : Option ℝ) (i : ℕ) : 0 < satvap t c i := by
  unfold satvap
  cases c with
  | none => exact eswat_pos _
  | some c =>
    by_cases hc : c ≠ 0
    · simp only [hc, ne_eq, not_false_eq_true, if_true]
      split_ifs
      · exact esice_pos _
      · exact eswat_pos _
    · simp only [hc, if_false]; exact eswat_pos _

/-- One element never influences another. -/
theorem C43_elementwise {t t' : ℕ → ℝ} {i j : ℕ} (h : t i = t' j) (c : Option ℝ) : satvap t c i = satvap t' c j := by
  cases c with
  | none => simp [satvap, h]
  | some c => by_cases hc : c = 0 <;> simp [satvap, hc, h]

/-- At the reference temperatures the formulas give their reference pressures: one atmosphere at the steam point
over water, 6.1071 hPa at 273.15 K over ice. -/
theorem C43_reference : eswat 373.16 = 1013.246 ∧ esice 273.15 = 6.1071 := by
  constructor
  · unfold eswat
    norm_num
  · unfold esice
    norm_num

/-! ## C42 -/

variable {p t w : ℕ → ℝ} {c : Option ℝ} {i : ℕ}

theorem mr2rh_values (hw : 0 ≤ w i) (hp : satvap t c i < p i) :
    ∃ ws : ℝ, satmix p t c i = some ws ∧ 0 < ws ∧
      mr2rh p t w c i = (some (100 * (p i * w i / (kmr + w i)) / satvap t c i), some (100 * w i / ws)) ∧
      ws = kmr * satvap t c i / (p i - satvap t c i) := by
  have he := C43_positive t c i
  have h1 : p i - satvap t c i ≠ 0 := (sub_pos.mpr hp).ne'
  have hk := kmr_pos
  have h0 : kmr + w i ≠ 0 := by positivity
  have hws : 0 < kmr * satvap t c i / (p i - satvap t c i) := by
    have := sub_pos.mpr hp; positivity
  refine ⟨_, ?_, hws, ?_, rfl⟩
  · unfold satmix
    rw [e2mr_def, npDiv_of_ne h1]
  · unfold mr2rh satmix
    rw [mr2e_def, e2mr_def, npDiv_of_ne h0, npDiv_of_ne h1]
    simp only [Option.bind_some]
    rw [npDiv_of_ne he.ne', npDiv_of_ne hws.ne']
    norm_num

/-- Where the air can be saturated at all (saturation pressure below the air pressure) both relative humidities
compare with 100 in the same way as the mixing ratio compares with the saturation mixing ratio. -/
theorem C42_saturation (hw : 0 ≤ w i) (hp : satvap t c i < p i) :
    ∃ ws r1 r2, satmix p t c i = some ws ∧ mr2rh p t w c i = (some r1, some r2) ∧
      (r1 = 100 ↔ w i = ws) ∧ (r2 = 100 ↔ w i = ws) ∧ (r1 < 100 ↔ w i < ws) ∧ (r2 < 100 ↔ w i < ws) := by
  obtain ⟨ws, h1, hpos, h2, h3⟩ := mr2rh_values (c := c) hw hp
  have he := C43_positive t c i
  have hep := kmr_pos
  have hd : 0 < p i - satvap t c i := sub_pos.mpr hp
  have hden : 0 < kmr + w i := by positivity
  have key : 100 * (p i * w i / (kmr + w i)) / satvap t c i - 100
      = 100 * (p i - satvap t c i) / ((kmr + w i) * satvap t c i) * (w i - ws) := by
    rw [h3]; field_simp; ring
  have hk : 0 < 100 * (p i - satvap t c i) / ((kmr + w i) * satvap t c i) := by positivity
  refine ⟨ws, _, _, h1, h2, ?_, ?_, ?_, ?_⟩
  · rw [← sub_eq_zero, key, mul_eq_zero, sub_eq_zero]
    exact or_iff_right hk.ne'
  · rw [div_eq_iff hpos.ne']; constructor <;> intro h <;> linarith
  · rw [← sub_neg, key, mul_neg_iff]
    constructor
    · rintro (⟨_, h⟩ | ⟨h, _⟩)
      · linarith
      · linarith
    · intro h; exact Or.inl ⟨hk, by linarith⟩
  · rw [div_lt_iff₀ hpos]; constructor <;> intro h <;> linarith

/-- The two definitions differ by the factor (dry air at saturation)/(dry air): below saturation the mixing-ratio
definition is the smaller one. -/
theorem C42_definitions (hw : 0 ≤ w i) (hp : satvap t c i < p i) :
    ∃ ws e r1 r2, satmix p t c i = some ws ∧ mr2e (p i) (w i) = some e ∧ mr2rh p t w c i = (some r1, some r2) ∧
      r2 * (p i - e) = r1 * (p i - satvap t c i) ∧ (w i ≤ ws → r2 ≤ r1) := by
  obtain ⟨ws, h1, hpos, h2, h3⟩ := mr2rh_values (c := c) hw hp
  have he := C43_positive t c i
  have hep := kmr_pos
  have hpp : 0 < p i := he.trans hp
  have hd : 0 < p i - satvap t c i := sub_pos.mpr hp
  have hden : 0 < kmr + w i := by positivity
  have hm : mr2e (p i) (w i) = some (p i * w i / (kmr + w i)) := by
    rw [mr2e_def, npDiv_of_ne hden.ne']
  have hid : 100 * w i / ws * (p i - p i * w i / (kmr + w i))
      = 100 * (p i * w i / (kmr + w i)) / satvap t c i * (p i - satvap t c i) := by
    rw [h3]; field_simp; ring
  refine ⟨ws, _, _, _, h1, hm, h2, hid, fun hle => ?_⟩
  rw [div_le_div_iff₀ hpos he]
  rw [h3, le_div_iff₀ hd] at hle
  rw [h3]
  have : p i * w i / (kmr + w i) * (kmr * satvap t c i / (p i - satvap t c i))
      - w i * satvap t c i
      = w i * satvap t c i / ((kmr + w i) * (p i - satvap t c i)) *
        (kmr * satvap t c i - w i * (p i - satvap t c i)) := by
    field_simp; ring
  have h5 : 0 ≤ w i * satvap t c i / ((kmr + w i) * (p i - satvap t c i)) *
      (kmr * satvap t c i - w i * (p i - satvap t c i)) :=
    mul_nonneg (by positivity) (by linarith)
  nlinarith

/-- Where the saturation pressure exceeds the air pressure (warm air at high altitude) the mixing-ratio definition
is negative for every positive mixing ratio. -/
theorem C42_thin_air (hw : 0 < w i) (hp : p i < satvap t c i) :
    ∃ r2, (mr2rh p t w c i).2 = some r2 ∧ r2 < 0 := by
  have he := C43_positive t c i
  have hep := kmr_pos
  have h1 : p i - satvap t c i < 0 := sub_neg.mpr hp
  have hws : kmr * satvap t c i / (p i - satvap t c i) < 0 :=
    div_neg_of_pos_of_neg (by positivity) h1
  refine ⟨_, ?_, div_neg_of_pos_of_neg (show 0 < 100 * w i by positivity) hws⟩
  unfold mr2rh satmix
  simp only
  rw [e2mr_def, npDiv_of_ne h1.ne]
  simp only [Option.bind_some]
  rw [npDiv_of_ne hws.ne]

/-- Humidity to density with the simulator's routine and back with the utility multiplies the pressure-ratio
humidity by `1 / (216.7 · Rv)`, about 0.99989, and never reproduces it (unless it is 0). -/
theorem C42_round_trip {rh e rho : ℕ → ℝ} (h : vapor t rh false = .ok (e, rho)) (ht : 0 < t i)
    (hne : p i ≠ rho i * t i / 216.7) (hp : p i ≠ 0) :
    ∃ r1, (rho2rh rho t p i).1 = some r1 ∧ r1 = 100 * rh i * (1 / (216.7 * rv)) ∧
      (rh i ≠ 0 → r1 ≠ 100 * rh i) := by
  have hve := (C20_vapor_pressure h i)
  have hgas := C20_gas_law h i ht
  have hs := eswat_pos (t i)
  have hrv := rv_pos
  set e' := rho i * t i / 216.7 with he'
  have hrt := C41_e_mr_e hp (Ne.symm hne)
  have he : e' = rh i * eswat (t i) * (1 / (216.7 * rv)) := by
    have : rho i * t i = rh i * eswat (t i) / rv := by
      rw [eq_div_iff hrv.ne', ← hve, hgas]; unfold rv; ring
    rw [he', this]; field_simp
  refine ⟨100 * e' / eswat (t i), ?_, ?_, ?_⟩
  · cases hm : e2mr (p i) e' with
    | none => rw [hm] at hrt; cases hrt
    | some mr =>
      rw [hm] at hrt
      simp only [Option.bind_some] at hrt
      simp only [rho2rh, ← he', hm, mr2rh, hrt, Option.bind_some, satvap]
      rw [npDiv_of_ne hs.ne']
      norm_num
  · rw [he]; field_simp
  · intro hr0 h1
    rw [he] at h1
    have h2 : 100 * (rh i * eswat (t i) * (1 / (216.7 * rv))) / eswat (t i) = 100 * rh i * (1 / (216.7 * rv)) := by
      field_simp
    rw [h2] at h1
    have h3 : 100 * rh i ≠ 0 := mul_ne_zero (by norm_num) hr0
    have h4 : 1 / (216.7 * rv) = 1 := mul_left_cancel₀ h3 (by rw [h1, mul_one])
    unfold rv at h4
    norm_num at h4

example : ∃ r1, (rho2rh (fun _ => 5) (fun _ => 280) (fun _ => 1000) 0).1 = some r1 ∧ r1 ≠ 0 := by
  have hs := eswat_pos 280
  obtain ⟨r1, h1, h2, -⟩ := C42_round_trip (t := fun _ => 280) (i := 0) (p := fun _ => 1000)
    (rh := fun _ => 5 * (461.52 * 1e-5) * 280 / (10:ℝ) ^ vaporExponent 280) (rho := fun _ => 5)
    (e := fun _ => 5 * (461.52 * 1e-5) * 280) (by
      have : (10:ℝ) ^ vaporExponent 280 ≠ 0 := (rpow_pos_of_pos (by norm_num) _).ne'
      have h10 : (10.0:ℝ) = 10 := by norm_num
      simp only [vapor, Bool.false_eq_true, if_false, h10]
      congr 2 <;> funext _ <;> field_simp
      unfold cRwatvap; norm_num) (by norm_num) (by norm_num) (by norm_num)
  refine ⟨r1, h1, ?_⟩
  have := rv_pos
  have h10 : (0:ℝ) < (10:ℝ) ^ vaporExponent 280 := rpow_pos_of_pos (by norm_num) _
  rw [h2]
  positivity

example : satvap (fun _ => 290) none 0 = eswat 290 ∧ satvap (fun _ => 250) (some 273.16) 0 = esice 250 :=
  ⟨(C43_choice _ 0).1, ((C43_choice (fun _ => 250) 0).2.2 273.16 (by norm_num)).1 (by norm_num)⟩

/-! ## C44 -/

theorem rdHobbs_pos : 0 < rdHobbs := by unfold rdHobbs; norm_num

/-- `height_to_pressure` undoes `pressure_to_height` for every positive pressure. -/
theorem C44_left_inverse {p : ℝ} (hp : 0 < p) :
    ∃ h, pressureToHeight p = some h ∧ heightToPressure h = some p := by
  refine ⟨_, by unfold pressureToHeight; rw [if_pos hp], ?_⟩
  have hq : 0 < p / 1013.25 := by positivity
  have hr := rdHobbs_pos
  have hx : 0 < (p / 1013.25) ^ (rdHobbs * (-0.0065) / 9.80665) := rpow_pos_of_pos hq _
  have e1 : 1 - 288.0 / (-0.0065) * (1 - (p / 1013.25) ^ (rdHobbs * (-0.0065) / 9.80665)) * (-0.0065) / 288.0
      = (p / 1013.25) ^ (rdHobbs * (-0.0065) / 9.80665) := by
    field_simp; ring
  unfold heightToPressure
  simp only
  rw [e1, npLog_of_pos hx, Option.map_some, log_rpow hq]
  have e2 : 9.80665 / (rdHobbs * (-0.0065)) * (rdHobbs * (-0.0065) / 9.80665 * log (p / 1013.25))
      = log (p / 1013.25) := by
    field_simp
  rw [e2, exp_log hq]
  congr 1
  field_simp

/-- The pole of the height formula. -/
noncomputable def hPole : ℝ := -(288 / 0.0065)

/-- `pressure_to_height` undoes `height_to_pressure` for every height above the pole (-44.3 km); below it there is
no pressure. -/
theorem C44_right_inverse (h : ℝ) :
    (hPole < h → ∃ p, heightToPressure h = some p ∧ 0 < p ∧ pressureToHeight p = some h) ∧
    (h ≤ hPole → heightToPressure h = none) := by
  have hr := rdHobbs_pos
  have hiff : 0 < 1 - h * (-0.0065) / 288.0 ↔ hPole < h := by
    unfold hPole
    constructor <;> intro hh
    · norm_num at hh ⊢; linarith
    · norm_num at hh ⊢; linarith
  constructor
  · intro hh
    have hx := hiff.mpr hh
    refine ⟨_, by unfold heightToPressure; simp only; rw [npLog_of_pos hx, Option.map_some], by positivity, ?_⟩
    unfold pressureToHeight
    simp only
    rw [if_pos (by positivity)]
    have e1 : 1013.25 * exp (9.80665 / (rdHobbs * (-0.0065)) * log (1 - h * (-0.0065) / 288.0)) / 1013.25
        = exp (9.80665 / (rdHobbs * (-0.0065)) * log (1 - h * (-0.0065) / 288.0)) := by field_simp
    rw [e1, ← exp_mul]
    have e2 : 9.80665 / (rdHobbs * (-0.0065)) * log (1 - h * (-0.0065) / 288.0) * (rdHobbs * (-0.0065) / 9.80665)
        = log (1 - h * (-0.0065) / 288.0) := by field_simp
    rw [e2, exp_log hx, Option.some.injEq]
    norm_num
    ring
  · intro hh
    have : ¬ 0 < 1 - h * (-0.0065) / 288.0 := fun hx => absurd (hiff.mp hx) (not_lt.mpr hh)
    simp only [heightToPressure, npLog, this, if_false, Option.map_none]

/-- Height decreases strictly with pressure. -/
theorem C44_height_decreasing {p q : ℝ} (hp : 0 < p) (hpq : p < q) :
    ∃ a b, pressureToHeight p = some a ∧ pressureToHeight q = some b ∧ b < a := by
  have hq := hp.trans hpq
  refine ⟨_, _, by unfold pressureToHeight; rw [if_pos hp], by unfold pressureToHeight; rw [if_pos hq], ?_⟩
  have hr := rdHobbs_pos
  have := rpow_lt_rpow_of_neg (x := p / 1013.25) (y := q / 1013.25) (z := rdHobbs * (-0.0065) / 9.80665)
    (by positivity) (by gcongr) (by rw [mul_neg, neg_div]; exact neg_neg_of_pos (by positivity))
  rw [show (288.0:ℝ) / (-0.0065) = -(288.0 / 0.0065) by norm_num]
  have h0 : (0:ℝ) < 288.0 / 0.0065 := by norm_num
  nlinarith

/-- Pressure decreases strictly with height. -/
theorem C44_pressure_decreasing {a b : ℝ} (ha : hPole < a) (hab : a < b) :
    ∃ p q, heightToPressure a = some p ∧ heightToPressure b = some q ∧ q < p := by
  obtain ⟨p, hp, hp0, hpa⟩ := (C44_right_inverse a).1 ha
  obtain ⟨q, hq, hq0, hqb⟩ := (C44_right_inverse b).1 (ha.trans hab)
  refine ⟨p, q, hp, hq, ?_⟩
  by_contra hle
  rcases eq_or_lt_of_le (not_lt.mp hle) with h | h
  · subst h; rw [hpa] at hqb; cases hqb; exact lt_irrefl _ hab
  · obtain ⟨x, y, h1, h2, h3⟩ := C44_height_decreasing hp0 h
    rw [hpa] at h1; rw [hqb] at h2
    cases h1; cases h2; linarith

/-- Sea level: 1013.25 hPa is height 0. -/
example : pressureToHeight 1013.25 = some 0 := by
  unfold pressureToHeight; norm_num

/-! ## C45 -/

/-- The conversions are inverse to each other. -/
theorem C45_inverse (t : ℝ) : toCelsius (toKelvin t) = t ∧ toKelvin (toCelsius t) = t := by
  constructor <;> unfold toCelsius toKelvin <;> ring

/-- But the offset is 273.25: every result is off by exactly 0.1 K from the definition of the Celsius scale
(0 °C = 273.15 K). -/
theorem C45_offset_refuted (t : ℝ) :
    toKelvin t = t + 273.15 + 0.1 ∧ toKelvin t ≠ t + 273.15 ∧ toCelsius t ≠ t - 273.15 := by
  unfold toCelsius toKelvin
  refine ⟨by norm_num; ring, fun h => ?_, fun h => ?_⟩ <;> linarith

/-! ## C46 -/

/-- Virtual temperature for a non-negative mixing ratio: at least the temperature, equal exactly for dry air. -/
theorem C46_virtual {t mr : ℝ} (ht : 0 < t) (hm : 0 ≤ mr) :
    ∃ v, virtualTemperature t mr = some v ∧ t ≤ v ∧ (v = t ↔ mr = 0) := by
  have hr : cRdry / cRwatvap < 1 := by unfold cRdry cRwatvap; norm_num
  have hr0 : 0 < cRdry / cRwatvap := by unfold cRdry cRwatvap; norm_num
  have hd : 0 < cRdry / cRwatvap * (1 + mr) := by positivity
  have e : t * ((mr + cRdry / cRwatvap) / (cRdry / cRwatvap * (1 + mr))) - t =
      t * (1 - cRdry / cRwatvap) / (cRdry / cRwatvap * (1 + mr)) * mr := by
    generalize cRdry / cRwatvap = r at *
    field_simp; ring
  have hk : 0 < t * (1 - cRdry / cRwatvap) / (cRdry / cRwatvap * (1 + mr)) :=
    div_pos (mul_pos ht (by linarith)) hd
  refine ⟨_, by unfold virtualTemperature; simp only; rw [npDiv_of_ne hd.ne', Option.map_some], ?_, ?_⟩
  · have := mul_nonneg hk.le hm
    linarith
  · rw [← sub_eq_zero, e, mul_eq_zero]
    exact or_iff_right hk.ne'

theorem trapz_succ (y x : ℕ → ℝ) (n : ℕ) :
    trapz y x (n + 2) = trapz y x (n + 1) + (x (n + 1) - x n) * (y (n + 1) + y n) / 2 := by
  unfold trapz
  rw [show n + 2 - 1 = n + 1 by omega, show n + 1 - 1 = n by omega, forRange_succ (Nat.zero_le n)]
  norm_num

/-- The temperature of the layers: the given one, or the virtual temperature. -/
theorem layerTemperature_some {t : ℕ → ℝ} {mr : Option (ℕ → ℝ)} {n : ℕ} (ht : ∀ k < n, 0 < t k)
    (hm : ∀ m, mr = some m → ∀ k < n, 0 ≤ m k) :
    ∃ tv, layerTemperature t mr n = some tv ∧ (∀ k < n, t k ≤ tv k) ∧ (mr = none → tv = t) ∧
      ∀ m, mr = some m → ∀ k < n, virtualTemperature (t k) (m k) = some (tv k) := by
  cases mr with
  | none => exact ⟨t, rfl, fun _ _ => le_rfl, fun _ => rfl, fun m hm' => by cases hm'⟩
  | some m =>
    have hv : ∀ k < n, ∃ v, virtualTemperature (t k) (m k) = some v ∧ t k ≤ v := fun k hk => by
      obtain ⟨v, h1, h2, _⟩ := C46_virtual (ht k hk) (hm m rfl k hk)
      exact ⟨v, h1, h2⟩
    have hall : ∀ i < n, (virtualTemperature (t i) (m i)).isSome := fun i hi => by
      obtain ⟨v, h, _⟩ := hv i hi; rw [h]; rfl
    refine ⟨_, by simp only [layerTemperature]; rw [if_pos hall], fun k hk => ?_, (fun h => by cases h), ?_⟩
    · obtain ⟨v, h, h'⟩ := hv k hk
      simpa [h] using h'
    · intro m' hm' k hk
      cases hm'
      obtain ⟨v, h, _⟩ := hv k hk
      simp [h]

variable {pr tm : ℕ → ℝ} {mr : Option (ℕ → ℝ)} {n : ℕ}

/-- The thickness profile exists at every level, starts at 0, and grows from one level to the next by
`Rd/g · mean layer temperature · ln(p_i / p_{i+1})` (in km), whatever the levels further down: it is additive. -/
theorem C46_thickness (hp : ∀ k < n, 0 < pr k) (ht : ∀ k < n, 0 < tm k)
    (hm : ∀ m, mr = some m → ∀ k < n, 0 ≤ m k) :
    ∃ (h tv : ℕ → ℝ), (∀ i < n, atmosphericThickness pr tm mr i = some (h i)) ∧ h 0 = 0 ∧
      (∀ k < n, tm k ≤ tv k) ∧ (mr = none → tv = tm) ∧
      (∀ m, mr = some m → ∀ k < n, virtualTemperature (tm k) (m k) = some (tv k)) ∧
      ∀ i, i + 1 < n → h (i + 1) - h i
        = 8.314462618 / 28.96546e-3 / 9.80665 / 1000 * ((tv i + tv (i + 1)) / 2) * log (pr i / pr (i + 1)) := by
  obtain ⟨tv, htv, h1, h2, h3⟩ := layerTemperature_some (mr := mr) ht hm
  have hcut : ∀ i < n, ∃ tv', layerTemperature tm mr (i + 1) = some tv' ∧ ∀ k < i + 1, tv' k = tv k := by
    intro i hi
    obtain ⟨tv', g0, _, g2, g3⟩ := layerTemperature_some (mr := mr) (n := i + 1) (fun k hk => ht k (by omega))
      fun m e k hk => hm m e k (by omega)
    refine ⟨tv', g0, fun k hk => ?_⟩
    cases hmr : mr with
    | none => rw [g2 hmr, h2 hmr]
    | some m =>
      have a := g3 m hmr k hk
      rw [h3 m hmr k (by omega)] at a
      exact (Option.some.inj a).symm
  have htz : ∀ j, ∀ tv', (∀ k < j + 1, tv' k = tv k) →
      trapz tv' (fun i => log (pr i)) (j + 1) = trapz tv (fun i => log (pr i)) (j + 1) := by
    intro j
    induction j with
    | zero => intro tv' _; simp [trapz]
    | succ j ih =>
      intro tv' hk
      rw [trapz_succ, trapz_succ, ih tv' fun k hk' => hk k (by omega), hk j (by omega), hk (j + 1) (by omega)]
  refine ⟨fun i => thicknessHydrostatic pr tv (i + 1) / 1e3, tv, ?_, ?_, h1, h2, h3, ?_⟩
  · intro i hi
    unfold atmosphericThickness
    by_cases h0 : i = 0
    · subst h0; simp [thicknessHydrostatic, trapz]
    · rw [if_neg h0, if_pos fun k hk => hp k (by omega)]
      obtain ⟨tv', g0, g1⟩ := hcut i hi
      rw [g0, Option.map_some]
      simp only [thicknessHydrostatic, htz i tv' g1]
  · simp [thicknessHydrostatic, trapz]
  · intro i hi
    simp only [thicknessHydrostatic]
    rw [trapz_succ, log_div (hp i (by omega)).ne' (hp (i + 1) hi).ne']
    have e3 : (1e3:ℝ) = 1000 := by norm_num
    rw [e3, show rdHobbs = 8.314462618 / 28.96546e-3 from rfl]
    generalize (8.314462618:ℝ) / 28.96546e-3 = R
    generalize (9.80665:ℝ) = G
    ring

/-- So it is strictly increasing when pressure strictly decreases. -/
theorem C46_increasing (hp : ∀ k < n, 0 < pr k) (ht : ∀ k < n, 0 < tm k)
    (hm : ∀ m, mr = some m → ∀ k < n, 0 ≤ m k) (hd : ∀ k, k + 1 < n → pr (k + 1) < pr k) {i j : ℕ} (hij : i < j)
    (hj : j < n) :
    ∃ a b, atmosphericThickness pr tm mr i = some a ∧ atmosphericThickness pr tm mr j = some b ∧ a < b := by
  obtain ⟨h, tv, h1, _, h3, _, _, h6⟩ := C46_thickness hp ht hm
  refine ⟨h i, h j, h1 i (by omega), h1 j hj, ?_⟩
  have step : ∀ k, k + 1 < n → h k < h (k + 1) := by
    intro k hk
    have := h6 k hk
    have a : 0 < log (pr k / pr (k + 1)) := log_pos ((one_lt_div (hp _ hk)).mpr (hd k hk))
    have b : 0 < (tv k + tv (k + 1)) / 2 := by
      have := h3 k (by omega); have := h3 (k + 1) hk; have := ht k (by omega); have := ht (k + 1) hk
      linarith
    have e : (0:ℝ) < 8.314462618 / 28.96546e-3 / 9.80665 / 1000 := by norm_num
    have : 0 < h (k + 1) - h k := by rw [this]; positivity
    linarith
  induction j, hij using Nat.le_induction with
  | base => exact step i hj
  | succ k hk ih => exact (ih (by omega)).trans (step k hj)

/-- For a dry isothermal profile it is the hypsometric formula. -/
theorem C46_isothermal (hp : ∀ k < n, 0 < pr k) {T : ℝ} (hT : 0 < T) (ht : ∀ k < n, tm k = T) {i : ℕ} (hi : i < n) :
    atmosphericThickness pr tm none i
      = some (8.314462618 / 28.96546e-3 * T / 9.80665 * log (pr 0 / pr i) / 1000) := by
  obtain ⟨h, tv, h1, h2, _, h4, _, h6⟩ := C46_thickness (mr := none) (tm := tm) hp (fun k hk => by rw [ht k hk]; exact hT)
    (fun m hm => by cases hm)
  have h4 := h4 rfl
  subst h4
  rw [h1 i hi, Option.some.injEq]
  induction i with
  | zero => simp [h2, div_self (hp 0 hi).ne']
  | succ i ih =>
    have := h6 i hi
    rw [ih (by omega), ht i (by omega), ht (i + 1) hi, log_div (hp 0 (by omega)).ne' (hp i (by omega)).ne',
      log_div (hp i (by omega)).ne' (hp (i + 1) hi).ne'] at this
    rw [log_div (hp 0 (by omega)).ne' (hp (i + 1) hi).ne']
    generalize (8.314462618:ℝ) / 28.96546e-3 = R at *
    generalize (9.80665:ℝ) = G at *
    linear_combination this

/-- Two moist levels. -/
example : ∃ a b, atmosphericThickness (fun k => 1000 - 500 * k) (fun _ => 280) (some fun _ => 0.01) 0 = some a ∧
    atmosphericThickness (fun k => 1000 - 500 * k) (fun _ => 280) (some fun _ => 0.01) 1 = some b ∧ a < b := by
  refine C46_increasing (n := 2) (fun k hk => ?_) (fun _ _ => by norm_num) (fun m hm k _ => ?_) (fun k hk => ?_)
    Nat.zero_lt_one (by norm_num)
  · have : k = 0 ∨ k = 1 := by omega
    rcases this with rfl | rfl <;> norm_num
  · cases hm; norm_num
  · push_cast; linarith

/-! ## C47 -/

theorem magnus_pos (ice : Bool) (method : String) : 0 < (magnus ice method).1 ∧ 0 < (magnus ice method).2 := by
  unfold magnus; split_ifs <;> norm_num

theorem magnus_mono {a b x y : ℝ} (ha : 0 < a) (hb : 0 < b) (hx : 0 < b + x) (hxy : x < y) :
    a * x / (b + x) < a * y / (b + y) := by
  rw [div_lt_div_iff₀ hx (by linarith)]
  nlinarith [mul_pos ha hb]

/-- Above the pole of the formula relative humidity is positive and compares with 1 as the dew point compares with
the temperature; it is strictly increasing in the dew point.  For every method and ice option. -/
theorem C47_rh {td t : ℝ} {ice : Bool} {method : String} (htd : 0 < (magnus ice method).2 + td)
    (ht : 0 < (magnus ice method).2 + t) :
    ∃ r, dewpoint2rh td t ice method = some r ∧ 0 < r ∧ (td = t → r = 1) ∧ (td < t → r < 1) ∧ (t < td → 1 < r) ∧
      ∀ td', td < td' → ∃ r', dewpoint2rh td' t ice method = some r' ∧ r < r' := by
  obtain ⟨ha, hb⟩ := magnus_pos ice method
  have key : ∃ f : ℝ → ℝ, StrictMono f ∧ (∀ u, 0 < f u) ∧ ∀ x, 0 < (magnus ice method).2 + x →
      dewpoint2rh x t ice method
        = some (f ((magnus ice method).1 * x / ((magnus ice method).2 + x)) /
            f ((magnus ice method).1 * t / ((magnus ice method).2 + t))) := by
    by_cases hm : method = "arm"
    · refine ⟨exp, exp_strictMono, exp_pos, fun x hx => ?_⟩
      unfold dewpoint2rh
      simp only
      rw [npDiv_of_ne hx.ne', npDiv_of_ne ht.ne']
      simp only [Option.bind_some]
      rw [if_pos hm, npDiv_of_ne (exp_pos _).ne']
    · refine ⟨fun u => 6.1078 * (10:ℝ) ^ u, ?_, fun u => by positivity, fun x hx => ?_⟩
      · intro u v huv
        exact mul_lt_mul_of_pos_left (rpow_lt_rpow_of_exponent_lt (by norm_num) huv) (by norm_num)
      unfold dewpoint2rh
      simp only
      rw [npDiv_of_ne hx.ne', npDiv_of_ne ht.ne']
      simp only [Option.bind_some]
      rw [if_neg hm, npDiv_of_ne (by positivity)]
  obtain ⟨f, hf, hpos, hval⟩ := key
  refine ⟨_, hval td htd, div_pos (hpos _) (hpos _), ?_, ?_, ?_, ?_⟩
  · rintro rfl; exact div_self (hpos _).ne'
  · intro h; rw [div_lt_one (hpos _)]; exact hf (magnus_mono ha hb htd h)
  · intro h; rw [one_lt_div (hpos _)]; exact hf (magnus_mono ha hb ht h)
  · intro td' h
    refine ⟨_, hval td' (by linarith), ?_⟩
    exact div_lt_div_of_pos_right (hf (magnus_mono ha hb htd h)) (hpos _)

/-- The three coefficient sets; any method other than `'arm'` uses the second or third. -/
theorem C47_coefficients (method : String) (ice : Bool) :
    magnus ice "arm" = (17.625, 243.04) ∧ (method ≠ "arm" →
      magnus false method = (7.5, 237.3) ∧ magnus true method = (9.5, 265.5)) := by
  refine ⟨by simp [magnus], fun h => by simp [magnus, h]⟩

/-- At the pole there is no value. -/
theorem C47_pole (t : ℝ) (ice : Bool) (method : String) :
    dewpoint2rh (-(magnus ice method).2) t ice method = none := by
  simp [dewpoint2rh, npDiv]

example : ∃ r, dewpoint2rh 10 20 false "arm" = some r ∧ 0 < r ∧ r < 1 := by
  obtain ⟨r, h, h0, _, h1, _⟩ := C47_rh (td := 10) (t := 20) (ice := false) (method := "arm")
    (by unfold magnus; norm_num) (by unfold magnus; norm_num)
  exact ⟨r, h, h0, h1 (by norm_num)⟩

end Verif.Props
